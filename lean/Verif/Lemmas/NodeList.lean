import Verif.Spec.NodeList

set_option linter.unusedSimpArgs false

namespace Verif.Lemmas.NList

open Verif.Go Verif.Model Verif.Spec

theorem linkAll_ok {p : Nat} {es : List (Option (Option Nat))} (h : ∀ e ∈ es, e ≠ none) :
    linkAll p es = (es.map fun _ => some (some p), true) := by
  induction es with
  | nil => rfl
  | cons e es ih =>
    cases e with
    | none => exact absurd rfl (h none (by simp))
    | some e =>
      rw [linkAll, ih fun x hx => h x (by simp [hx])]
      rfl

theorem linkAll_false {p : Nat} {es : List (Option (Option Nat))} (h : none ∈ es) : (linkAll p es).2 = false := by
  induction es with
  | nil => cases h
  | cons e es ih =>
    cases e with
    | none => rfl
    | some e =>
      rw [linkAll]
      exact ih (by simpa using h)

/-- The list and heap after all the adds. -/
def after (s : LSt) (ps : List Nat) : LSt :=
  { list := { nodes := some (ps.foldl (fun m p => m.set (s.heap p).id p) (s.list.nodes.getD [])) }
    heap := fun q => if q ∈ ps then { s.heap q with endpoints := (s.heap q).endpoints.map fun _ => some (some q) } else s.heap q }

theorem add_ok {s : LSt} {p : Nat} (hl : s.list.locked = false) (h : Addable (s.heap p)) :
    NList.add s (some p) = .ret () { list := { nodes := some ((s.list.nodes.getD []).set (s.heap p).id p) }
                                     heap := setHeap s.heap p { s.heap p with endpoints := (s.heap p).endpoints.map fun _ => some (some p) } } := by
  unfold NList.add
  simp [hl, h.2, linkAll_ok h.1]

theorem adds_ok : ∀ (ps : List Nat) (s : LSt), s.list.locked = false → (∀ p ∈ ps, Addable (s.heap p)) → ps ≠ [] →
    NList.adds s (ps.map some) = .ret () (after s ps) := by
  intro ps
  induction ps with
  | nil => intro s _ _ h; exact absurd rfl h
  | cons p ps ih =>
    intro s hl ha _
    rw [List.map_cons, NList.adds, add_ok hl (ha p (by simp))]
    dsimp only
    generalize hs1 : LSt.mk _ _ = s1
    have h1 : s1.list = { nodes := some ((s.list.nodes.getD []).set (s.heap p).id p) } := by rw [← hs1]
    have h2 : s1.heap = setHeap s.heap p { s.heap p with endpoints := (s.heap p).endpoints.map fun _ => some (some p) } := by rw [← hs1]
    have hid : ∀ q, (s1.heap q).id = (s.heap q).id := by
      intro q; rw [h2]; unfold setHeap; split
      · rename_i e; subst e; rfl
      · rfl
    have hlk : ∀ q, Addable (s.heap q) → Addable (s1.heap q) := by
      intro q hq; rw [h2]; unfold setHeap; split
      · rename_i e; subst e
        refine ⟨?_, hq.2⟩
        intro x hx
        obtain ⟨y, _, rfl⟩ := List.mem_map.1 hx
        simp
      · exact hq
    have hh : ∀ q, (after s1 ps).heap q = (after s (p :: ps)).heap q := by
      intro q
      unfold after
      dsimp only
      rw [h2]
      unfold setHeap
      by_cases e1 : q = p
      · subst e1
        by_cases e2 : q ∈ ps <;> simp [e2, Function.comp_def]
      · by_cases e2 : q ∈ ps <;> simp [e1, e2]
    have hf : (after s1 ps).list = (after s (p :: ps)).list := by
      unfold after
      dsimp only
      rw [h1]
      simp only [hid, List.foldl_cons, Option.getD_some]
    by_cases hps : ps = []
    · subst hps
      show LRes.ret () s1 = _
      congr 1
      have e1 : s1.list = (after s [p]).list := by rw [← hf]; rw [h1]; simp [after, h1]
      have e2 : s1.heap = (after s [p]).heap := by
        funext q; rw [← hh q]; simp [after]
      cases s1; cases hq : after s [p]; rw [hq] at e1 e2; simp_all
    · rw [ih s1 (by rw [h1]) (fun q hq => hlk q (ha q (by simp [hq]))) hps]
      congr 1
      have e2 : (after s1 ps).heap = (after s (p :: ps)).heap := funext hh
      cases hq : after s1 ps; cases hr : after s (p :: ps)
      rw [hq, hr] at e2 hf
      simp_all

theorem get_set' {κ ν : Type} [DecidableEq κ] (m : GoMap κ ν) (k : κ) (v : ν) (k' : κ) :
    (m.set k v).get k' = if k' = k then some v else m.get k' := by
  induction m with
  | nil => simp only [GoMap.set, GoMap.get, eq_comm]
  | cons e m ih =>
    obtain ⟨a, b⟩ := e
    rw [GoMap.set]
    split
    · rename_i h; subst h
      rw [GoMap.get, GoMap.get]
      by_cases h : a = k'
      · rw [if_pos h, if_pos h.symm]
      · rw [if_neg h, if_neg (Ne.symm h), if_neg h]
    · rename_i h
      rw [GoMap.get, GoMap.get, ih]
      by_cases h1 : a = k'
      · rw [if_pos h1, if_pos h1, if_neg (by intro e; exact h (h1.trans e))]
      · rw [if_neg h1, if_neg h1]

theorem get_adds (ids : Nat → Int) (id : Int) : ∀ (ps : List Nat) (m : GoMap Int Nat),
    (ps.foldl (fun m p => m.set (ids p) p) m).get id = (lastWith ids id ps).or (m.get id) := by
  intro ps
  induction ps with
  | nil => intro m; rfl
  | cons p ps ih =>
    intro m
    rw [List.foldl_cons, ih, get_set']
    unfold lastWith
    rw [List.reverse_cons, List.find?_append]
    cases ps.reverse.find? fun p => ids p = id with
    | some q => rfl
    | none =>
      by_cases h : ids p = id
      · simp [h]
      · simp [h, Ne.symm h]

theorem mem_set' {κ ν : Type} [DecidableEq κ] {m : GoMap κ ν} {k : κ} {v : ν} {e : κ × ν} (h : e ∈ m.set k v) :
    e = (k, v) ∨ e ∈ m := by
  induction m with
  | nil => left; simpa [GoMap.set] using h
  | cons x m ih =>
    obtain ⟨k', v'⟩ := x
    rw [GoMap.set] at h
    split at h
    · rcases List.mem_cons.1 h with h | h
      · exact .inl h
      · exact .inr (by simp [h])
    · rcases List.mem_cons.1 h with h | h
      · exact .inr (by simp [h])
      · rcases ih h with h | h
        · exact .inl h
        · exact .inr (by simp [h])

theorem nodup_set' {κ ν : Type} [DecidableEq κ] {m : GoMap κ ν} (h : (m.map Prod.fst).Nodup) (k : κ) (v : ν) :
    ((m.set k v).map Prod.fst).Nodup := by
  induction m with
  | nil => simp [GoMap.set]
  | cons e m ih =>
    obtain ⟨k', v'⟩ := e
    simp only [List.map_cons, List.nodup_cons] at h
    rw [GoMap.set]
    split
    · rename_i e; subst e; simpa using h
    · rename_i hne
      simp only [List.map_cons, List.nodup_cons]
      refine ⟨?_, ih h.2⟩
      intro hm
      obtain ⟨e, he, rfl⟩ := List.mem_map.1 hm
      rcases mem_set' he with rfl | he
      · exact hne rfl
      · exact h.1 (List.mem_map_of_mem he)

end Verif.Lemmas.NList
