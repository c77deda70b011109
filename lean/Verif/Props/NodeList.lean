import Verif.Lemmas.NodeList

/-
C51: the list of nodes.
-/

set_option linter.unusedSimpArgs false

namespace Verif.Props

open Verif.Go Verif.Model Verif.Spec Verif.Lemmas.NList

/-- A heap for the examples: nodes 0, 1 and 2 have the ids 5, 7 and 5; node 3 has a nil endpoint. -/
def listHeap : Nat → LNode
  | 0 => { id := 5, endpoints := [some none] }
  | 1 => { id := 7, endpoints := [] }
  | 2 => { id := 5, endpoints := [] }
  | _ => { id := 9, endpoints := [some none, none] }

theorem listAddable : ∀ p ∈ [0, 1, 2], Addable (listHeap p) := by
  intro p hp
  simp at hp
  rcases hp with rfl | rfl | rfl <;> exact ⟨by simp [listHeap], rfl⟩

/-- C51: After any sequence of `Add` on a list that is empty (made by `NewList`, or the zero value, whose map
is nil), `Get(id)` returns the node with that id that was added last, or nil if there is none. -/
theorem C51_get_last_added (m : Option (GoMap Int Nat)) (hm : m.getD [] = []) (heap : Nat → LNode) (ps : List Nat)
    (hp : ∀ p ∈ ps, Addable (heap p)) :
    ∃ s, NList.adds { list := { nodes := m }, heap := heap } (ps.map some) = .ret () s ∧
      ∀ id, NList.get s id = .ret (lastWith (fun p => (heap p).id) id ps) s := by
  by_cases he : ps = []
  · subst he
    refine ⟨_, rfl, ?_⟩
    intro id
    simp [NList.get, hm, GoMap.get, lastWith]
  · refine ⟨_, adds_ok ps _ rfl hp he, ?_⟩
    intro id
    unfold NList.get
    have hg := get_adds (fun p => (heap p).id) id ps []
    have hl : (after { list := { nodes := m }, heap := heap } ps).list.locked = false := rfl
    have hn : (after { list := { nodes := m }, heap := heap } ps).list.nodes =
        some (ps.foldl (fun (m : GoMap Int Nat) p => m.set (heap p).id p) []) := by
      simp [after, hm]
    rw [hl, hn]
    simp only [Option.getD_some, Bool.false_eq_true, if_false]
    rw [hg]
    have hnil : GoMap.get ([] : GoMap Int Nat) id = none := rfl
    rw [hnil, Option.or_none]
    cases hw : lastWith (fun p => (heap p).id) id ps with
    | none => rfl
    | some q =>
      have hq : q ∈ ps := by
        unfold lastWith at hw
        simpa using List.mem_of_find?_eq_some hw
      have hlock : ((after { list := { nodes := m }, heap := heap } ps).heap q).locked = false := by
        unfold after
        simp only [hq, if_true]
        exact (hp q hq).2
      simp [hlock]

/-- C51: `All` has exactly the same contents, each node under its own id. -/
theorem C51_all (m : Option (GoMap Int Nat)) (hm : m.getD [] = []) (heap : Nat → LNode) (ps : List Nat)
    (hp : ∀ p ∈ ps, Addable (heap p)) (s : LSt)
    (h : NList.adds { list := { nodes := m }, heap := heap } (ps.map some) = .ret () s) :
    ∃ all, NList.all s = .ret all s ∧
      (∀ id, (all.getD []).get id = lastWith (fun p => (heap p).id) id ps) ∧
      ((all.getD []).map Prod.fst).Nodup ∧
      ∀ e ∈ all.getD [], e.2 ∈ ps ∧ (heap e.2).id = e.1 ∧ (s.heap e.2).id = e.1 := by
  have key : ∀ (ps' : List Nat) (mm : GoMap Int Nat), (∀ p ∈ ps', p ∈ ps) → (mm.map Prod.fst).Nodup →
      (∀ e ∈ mm, e.2 ∈ ps ∧ (heap e.2).id = e.1) →
      ((ps'.foldl (fun m p => m.set (heap p).id p) mm).map Prod.fst).Nodup ∧
      ∀ e ∈ ps'.foldl (fun m p => m.set (heap p).id p) mm, e.2 ∈ ps ∧ (heap e.2).id = e.1 := by
    intro ps'
    induction ps' with
    | nil => intro mm _ h1 h2; exact ⟨h1, h2⟩
    | cons p ps' ih =>
      intro mm hs h1 h2
      rw [List.foldl_cons]
      refine ih _ (fun q hq => hs q (by simp [hq])) ?_ ?_
      · exact nodup_set' h1 _ _
      · intro e he
        rcases mem_set' he with rfl | he
        · exact ⟨hs p (by simp), rfl⟩
        · exact h2 e he
  by_cases he : ps = []
  · subst he
    injection h with _ h
    subst h
    refine ⟨m, ?_, ?_, ?_, ?_⟩
    · simp [NList.all, hm]
    · intro id; rw [hm]; rfl
    · rw [hm]; simp
    · rw [hm]; simp
  · rw [adds_ok ps _ rfl hp he] at h
    injection h with _ h
    subst h
    have hn : (after { list := { nodes := m }, heap := heap } ps).list.nodes =
        some (ps.foldl (fun (m : GoMap Int Nat) p => m.set (heap p).id p) []) := by
      simp [after, hm]
    have hh : ∀ q, ((after { list := { nodes := m }, heap := heap } ps).heap q).id = (heap q).id := by
      intro q; unfold after; dsimp only; split <;> rfl
    obtain ⟨k1, k2⟩ := key ps [] (fun _ h => h) (by simp) (by simp)
    refine ⟨some (ps.foldl (fun (m : GoMap Int Nat) p => m.set (heap p).id p) []), ?_, ?_, ?_, ?_⟩
    · unfold NList.all
      have hl : (after { list := { nodes := m }, heap := heap } ps).list.locked = false := rfl
      rw [hl, hn, if_neg (by simp), if_neg]
      simp only [Option.getD_some, List.any_eq_true, not_exists, not_and, Bool.not_eq_true]
      intro e hm'
      unfold after
      simp only [(k2 e hm').1, if_true]
      exact (hp _ (k2 e hm').1).2
    · intro id
      rw [Option.getD_some, get_adds (fun p => (heap p).id) id ps []]
      have hnil : GoMap.get ([] : GoMap Int Nat) id = none := rfl
      rw [hnil, Option.or_none]
    · exact k1
    · intro e hm'
      exact ⟨(k2 e hm').1, (k2 e hm').2, (hh _).trans (k2 e hm').2⟩

/-- C51: Every endpoint of an added node refers back to the node; nothing else about it changes. -/
theorem C51_endpoints_linked (s s' : LSt) (p : Nat) (h : NList.add s (some p) = .ret () s') :
    (∀ e ∈ (s'.heap p).endpoints, e = some (some p)) ∧
    (s'.heap p).endpoints.length = (s.heap p).endpoints.length ∧ (s'.heap p).id = (s.heap p).id ∧
    ∀ q, q ≠ p → s'.heap q = s.heap q := by
  have hlink : ∀ es, (linkAll p es).2 = true → (∀ e ∈ (linkAll p es).1, e = some (some p)) ∧
      (linkAll p es).1.length = es.length := by
    intro es
    induction es with
    | nil => intro _; simp [linkAll]
    | cons e es ih =>
      cases e with
      | none => intro h; cases h
      | some e =>
        intro h
        rw [linkAll] at h ⊢
        obtain ⟨a, b⟩ := ih h
        exact ⟨by intro x hx; rcases List.mem_cons.1 hx with rfl | hx; rfl; exact a x hx, by simp [b]⟩
  unfold NList.add at h
  split at h
  · cases h
  · dsimp only at h
    split at h
    · cases h
    · split at h
      · rename_i hok
        injection h with _ h
        subst h
        obtain ⟨a, b⟩ := hlink _ hok
        refine ⟨?_, ?_, ?_, ?_⟩
        · intro e he; simp only [setHeap, if_true] at he; exact a e he
        · simpa [setHeap] using b
        · simp [setHeap]
        · intro q hq; simp [setHeap, hq]
      · cases h

/-- C51: Exactly when `Add` panics: a nil node, or a nil endpoint. -/
theorem C51_add_panics_exactly (s : LSt) (p : Option Nat) (hl : s.list.locked = false)
    (hn : ∀ q, p = some q → (s.heap q).locked = false) :
    (∃ s', NList.add s p = .panic s') ↔ p = none ∨ ∃ q, p = some q ∧ none ∈ (s.heap q).endpoints := by
  unfold NList.add
  rw [hl]
  cases p with
  | none => simp
  | some q =>
    simp only [hn q rfl, Bool.false_eq_true, if_false]
    by_cases h : none ∈ (s.heap q).endpoints
    · rw [linkAll_false h]
      simp [h]
    · rw [linkAll_ok (fun e he hx => h (hx ▸ he))]
      simp [h]

/-- C51: After such a panic (if the caller recovers from it) the list is locked for ever: no call returns any
more. -/
theorem C51_violated_locked_after_panic (s s' : LSt) (p : Option Nat) (h : NList.add s p = .panic s') :
    (∀ q, NList.add s' q = .blocked) ∧ (∀ id, NList.get s' id = .blocked) ∧ NList.all s' = .blocked := by
  have hl : s'.list.locked = true := by
    unfold NList.add at h
    split at h
    · cases h
    · dsimp only at h
      split at h
      · injection h with h; subst h; rfl
      · split at h
        · cases h
        · split at h
          · cases h
          · injection h with h; subst h; rfl
  exact ⟨fun q => by simp [NList.add, hl], fun id => by simp [NList.get, hl], by simp [NList.all, hl]⟩

/-- Ids 5, 7, 5 are added: 5 gives the last one. -/
example : lastWith (fun p => (listHeap p).id) 5 [0, 1, 2] = some 2 := by decide
example : ∃ s', NList.add { list := newList, heap := listHeap } (some 3) = .panic s' := ⟨_, rfl⟩
example : ∃ s', NList.add { list := newList, heap := listHeap } none = .panic s' := ⟨_, rfl⟩
example : ∃ s', NList.add { list := newList, heap := listHeap } (some 0) = .ret () s' := ⟨_, rfl⟩

end Verif.Props
