import Verif.Model.Tools
import Verif.Spec.Tools

set_option linter.unusedSimpArgs false

namespace Verif.Lemmas

open Verif.Go Verif.Model Verif.Spec

/-! ### Escaping -/

theorem readLit_plain (c : Char) (rest : List Char) (h1 : c ≠ '"') (h2 : c ≠ '\\') :
    readLit (c :: rest) = if c = '\n' ∨ c.toNat = 0 ∨ c.toNat = 0xFEFF then none
      else (readLit rest).map fun r => (c :: r.1, r.2) := by
  rw [readLit.eq_def]
  split
  · simp_all
  · simp_all
  · simp_all
  · rename_i c' rest' _ _ heq
    obtain ⟨rfl, rfl⟩ := List.cons.inj heq
    simp [h2]

theorem readLit_quote (rest : List Char) : readLit ('"' :: rest) = some ([], rest) := by
  rw [readLit]

theorem readLit_escape (s rest : List Char) :
    readLit (escape s ++ '"' :: rest) =
      if s.all (fun c => c.toNat ≠ 0 ∧ c.toNat ≠ 0xFEFF) then some (s, rest) else none := by
  induction s with
  | nil => simp [escape, readLit_quote]
  | cons c cs ih =>
    rw [escape]
    by_cases h1 : c = '\\'
    · subst h1
      simp [readLit, ih]
    by_cases h2 : c = '"'
    · subst h2
      simp [readLit, ih]
    by_cases h3 : c = '\r'
    · subst h3
      simp [readLit, ih]
    by_cases h4 : c = '\n'
    · subst h4
      simp [readLit, ih]
    simp only [h1, h2, h3, h4, if_false, List.singleton_append, List.cons_append,
      readLit_plain c _ h2 h1, false_or, ih, List.all_cons, Bool.and_eq_true, decide_eq_true_eq]
    by_cases h5 : c.toNat = 0
    · simp [h5]
    by_cases h6 : c.toNat = 0xFEFF
    · simp [h6]
    simp only [h5, h6, or_self, if_false, ne_eq, not_false_eq_true, and_self, true_and, List.nil_append, ih]
    split <;> simp_all

theorem escape_no_newline (s : List Char) : '\n' ∉ escape s := by
  induction s with
  | nil => simp [escape]
  | cons c cs ih =>
    rw [escape, List.mem_append, not_or]
    refine ⟨?_, ih⟩
    repeat' split
    all_goals simp_all [eq_comm]

/-! ### Duplicate references -/

theorem keepRefs_spec (xs : List Ids) : ∀ seen : List (List Char),
    ((keepRefs seen xs).map iden).Nodup ∧ (∀ x ∈ keepRefs seen xs, iden x ∉ seen ∧ x ∈ xs) ∧
    ∀ x ∈ xs, iden x ∈ seen ∨ iden x ∈ (keepRefs seen xs).map iden := by
  induction xs with
  | nil => intro seen; simp [keepRefs]
  | cons x xs ih =>
    intro seen
    rw [keepRefs]
    split
    · rename_i h
      obtain ⟨i1, i2, i3⟩ := ih seen
      refine ⟨i1, fun y hy => ⟨(i2 y hy).1, .tail _ (i2 y hy).2⟩, ?_⟩
      intro y hy
      rcases List.mem_cons.1 hy with rfl | hy
      · exact .inl h
      · exact i3 y hy
    · rename_i h
      obtain ⟨i1, i2, i3⟩ := ih (iden x :: seen)
      refine ⟨?_, ?_, ?_⟩
      · rw [List.map_cons, List.nodup_cons]
        refine ⟨?_, i1⟩
        rintro hm
        obtain ⟨y, hy, he⟩ := List.mem_map.1 hm
        exact (i2 y hy).1 (he ▸ .head _)
      · intro y hy
        rcases List.mem_cons.1 hy with rfl | hy
        · exact ⟨h, .head _⟩
        · exact ⟨fun hc => (i2 y hy).1 (.tail _ hc), .tail _ (i2 y hy).2⟩
      · intro y hy
        rcases List.mem_cons.1 hy with rfl | hy
        · exact .inr (.head _)
        · rcases i3 y hy with h3 | h3
          · rcases List.mem_cons.1 h3 with h3 | h3
            · exact .inr (by rw [h3]; exact List.mem_cons_self)
            · exact .inl h3
          · exact .inr (.tail _ h3)

/-! ### Recordings -/

/-- Successive rows less than a millisecond apart. -/
abbrev Near (a b : RecRow) : Prop := b.time - a.time < 1000000

/-- The row the tool makes of a group. -/
def merge (g : List RecRow) : RecRow :=
  ⟨(g.getLast?.map RecRow.time).getD 0, (g.getLast?.map RecRow.write).getD false, g.flatMap RecRow.data⟩

/-- One combiner over the rows of one direction. -/
def combineDir (l : Combiner) : List RecRow → List RecRow
  | [] => []
  | r :: rs =>
    match combine l r with
    | (l', some c) => c :: combineDir l' rs
    | (l', none) => combineDir l' rs

/-- A group in front of further groups. -/
def joinRun (G : List RecRow) (p : RecRow) : List (List RecRow) → List (List RecRow)
  | [] => [G]
  | g :: gs => if Near p (g.headD default) then (G ++ g) :: gs else G :: g :: gs

theorem runs_cons (a : RecRow) (l : List RecRow) : runs Near (a :: l) = joinRun [a] a (runs Near l) := by
  cases l with
  | nil => rfl
  | cons b rest =>
    have hd : ∃ g gs, runs Near (b :: rest) = (b :: g) :: gs := by
      cases rest with
      | nil => exact ⟨[], [], rfl⟩
      | cons c r =>
        rw [runs]
        split
        · exact ⟨[], [], rfl⟩
        · split
          · exact ⟨_, _, rfl⟩
          · exact ⟨_, _, rfl⟩
    obtain ⟨g, gs, h⟩ := hd
    rw [runs, h]
    simp [joinRun]

theorem joinRun_join (G : List RecRow) (p r : RecRow) (t : List (List RecRow)) :
    joinRun G p (joinRun [r] r t) =
      if Near p r then joinRun (G ++ [r]) r t else G :: joinRun [r] r t := by
  cases t with
  | nil => simp [joinRun]
  | cons g gs =>
    rw [show joinRun [r] r (g :: gs) = if Near r (g.headD default) then ([r] ++ g) :: gs else [r] :: g :: gs from rfl,
      show joinRun (G ++ [r]) r (g :: gs) = if Near r (g.headD default) then (G ++ [r] ++ g) :: gs
        else (G ++ [r]) :: g :: gs from rfl]
    by_cases h1 : Near r (g.headD default)
    · rw [if_pos h1, if_pos h1, joinRun]
      simp
    · rw [if_neg h1, if_neg h1, joinRun]
      simp

theorem joinRun_ne (G : List RecRow) (p : RecRow) (t : List (List RecRow)) : joinRun G p t ≠ [] := by
  cases t with
  | nil => simp [joinRun]
  | cons g gs => rw [joinRun]; split <;> simp

/-- Invariant of one combiner: the pending bytes are those of the group under construction. -/
theorem combineDir_join (rs : List RecRow) : ∀ (l : Combiner) (G : List RecRow), l.prev.time ≠ 0 →
    G.getLast? = some l.prev → l.buf = G.flatMap RecRow.data → (∀ r ∈ rs, r.time ≠ 0) →
    combineDir l rs = (joinRun G l.prev (runs Near rs)).dropLast.map merge := by
  induction rs with
  | nil => intro l G _ _ _ _; simp [combineDir, runs, joinRun]
  | cons r rs ih =>
    intro l G h1 h2 h3 h4
    have hr : r.time ≠ 0 := h4 r (.head _)
    have hrs : ∀ x ∈ rs, x.time ≠ 0 := fun x hx => h4 x (.tail _ hx)
    rw [combineDir, combine, if_neg h1, runs_cons, joinRun_join]
    by_cases hn : Near l.prev r
    · have hn' : r.time - l.prev.time < 1000000 := hn
      simp only [hn', if_true]
      exact ih ⟨r, l.buf ++ r.data⟩ (G ++ [r]) hr (by simp) (by simp [h3]) hrs
    · have hn' : ¬ r.time - l.prev.time < 1000000 := hn
      simp only [hn', if_false]
      rw [List.dropLast_cons_of_ne_nil (joinRun_ne _ _ _), List.map_cons]
      congr 1
      · simp [merge, h2, h3]
      · exact ih ⟨r, r.data⟩ [r] hr rfl (by simp) hrs

theorem combineDir_runs (rs : List RecRow) (h : ∀ r ∈ rs, r.time ≠ 0) :
    combineDir .zero rs = (runs Near rs).dropLast.map merge := by
  cases rs with
  | nil => rfl
  | cons r rs =>
    rw [combineDir, combine, runs_cons]
    simp only [Combiner.zero, if_true, Int.sub_self, show ((0 : Int) < 1000000) = True by simp, List.nil_append]
    exact combineDir_join rs ⟨r, r.data⟩ [r] (h r (.head _)) rfl (by simp) (fun x hx => h x (.tail _ hx))

/-- The combined rows of a direction are those of the combiner of that direction. -/
theorem combineAll_filter (rs : List RecRow) : ∀ rd wr : Combiner,
    (rd.prev.time ≠ 0 → rd.prev.write = false) → (wr.prev.time ≠ 0 → wr.prev.write = true) →
    (combineAll rd wr rs).filter (fun r => r.write = false) = combineDir rd (rs.filter fun r => r.write = false) ∧
    (combineAll rd wr rs).filter (fun r => r.write = true) = combineDir wr (rs.filter fun r => r.write = true) := by
  induction rs with
  | nil => intro rd wr _ _; simp [combineAll, combineDir]
  | cons r rs ih =>
    intro rd wr h1 h2
    cases hw : r.write with
    | false =>
      rw [combineAll]
      simp only [hw, if_true]
      have e1 : (r :: rs).filter (fun x => decide (x.write = false)) = r :: rs.filter (fun x => decide (x.write = false)) := by
        simp [hw]
      have e2 : (r :: rs).filter (fun x => decide (x.write = true)) = rs.filter (fun x => decide (x.write = true)) := by
        simp [hw]
      rw [e1, e2, combineDir]
      unfold combine
      by_cases h0 : rd.prev.time = 0
      · have hz : r.time - r.time < 1000000 := by omega
        simp only [h0, if_true, hz]
        exact ih ⟨r, _⟩ wr (fun _ => hw) h2
      · simp only [h0, if_false]
        by_cases hd : r.time - rd.prev.time < 1000000
        · simp only [hd, if_true]
          exact ih ⟨r, _⟩ wr (fun _ => hw) h2
        · simp only [hd, if_false]
          obtain ⟨i1, i2⟩ := ih ⟨r, r.data⟩ wr (fun _ => hw) h2
          constructor
          · rw [List.filter_cons_of_pos (by simp [h1 h0]), i1]
          · rw [List.filter_cons_of_neg (by simp [h1 h0]), i2]
    | true =>
      rw [combineAll]
      simp only [hw, if_false, Bool.true_eq_false]
      have e1 : (r :: rs).filter (fun x => decide (x.write = false)) = rs.filter (fun x => decide (x.write = false)) := by
        simp [hw]
      have e2 : (r :: rs).filter (fun x => decide (x.write = true)) = r :: rs.filter (fun x => decide (x.write = true)) := by
        simp [hw]
      rw [e1, e2, combineDir]
      unfold combine
      by_cases h0 : wr.prev.time = 0
      · have hz : r.time - r.time < 1000000 := by omega
        simp only [h0, if_true, hz]
        exact ih rd ⟨r, _⟩ h1 (fun _ => hw)
      · simp only [h0, if_false]
        by_cases hd : r.time - wr.prev.time < 1000000
        · simp only [hd, if_true]
          exact ih rd ⟨r, _⟩ h1 (fun _ => hw)
        · simp only [hd, if_false]
          obtain ⟨i1, i2⟩ := ih rd ⟨r, r.data⟩ h1 (fun _ => hw)
          constructor
          · rw [List.filter_cons_of_neg (by simp [h2 h0]), i1]
          · rw [List.filter_cons_of_pos (by simp [h2 h0]), i2]

theorem combineAll_groups (rs : List RecRow) (h : ∀ r ∈ rs, r.time ≠ 0) (w : Bool) :
    (combineAll .zero .zero rs).filter (fun r => r.write = w) =
      (runs Near (rs.filter fun r => r.write = w)).dropLast.map merge := by
  have hf := combineAll_filter rs .zero .zero (fun h => absurd rfl h) (fun h => absurd rfl h)
  cases w with
  | false => rw [hf.1]; exact combineDir_runs _ (fun r hr => h r ((List.mem_filter.1 hr).1))
  | true => rw [hf.2]; exact combineDir_runs _ (fun r hr => h r ((List.mem_filter.1 hr).1))

/-- Properties of runs: they concatenate to the list and none is empty. -/
theorem runs_flatten (l : List RecRow) : (runs Near l).flatten = l ∧ ∀ g ∈ runs Near l, g ≠ [] := by
  induction l with
  | nil => simp [runs]
  | cons a l ih =>
    rw [runs_cons]
    obtain ⟨i1, i2⟩ := ih
    cases h : runs Near l with
    | nil => rw [h] at i1; simp at i1; subst i1; simp [joinRun]
    | cons g gs =>
      rw [h] at i1 i2
      rw [joinRun]
      split
      · refine ⟨by simpa using i1, ?_⟩
        intro x hx
        rcases List.mem_cons.1 hx with rfl | hx
        · simp
        · exact i2 x (.tail _ hx)
      · refine ⟨by simpa using i1, ?_⟩
        intro x hx
        rcases List.mem_cons.1 hx with rfl | hx
        · simp
        · exact i2 x hx

/-- With nondecreasing times the rows of one direction have strictly increasing times. -/
theorem runs_times (l : List RecRow) (h : l.Pairwise fun a b => a.time ≤ b.time) :
    ((runs Near l).map merge).Pairwise (fun a b => a.time < b.time) ∧
    ∀ r ∈ l, ∀ g ∈ runs Near l, (∀ x ∈ l, r.time ≤ x.time) → r.time ≤ (merge g).time := by
  have hfl := runs_flatten l
  have mem : ∀ g ∈ runs Near l, ∃ x ∈ l, x ∈ g ∧ (merge g).time = x.time := by
    intro g hg
    have hne := hfl.2 g hg
    refine ⟨g.getLast hne, ?_, List.getLast_mem hne, ?_⟩
    · rw [← hfl.1]; exact List.mem_flatten.2 ⟨g, hg, List.getLast_mem hne⟩
    · simp [merge, List.getLast?_eq_some_getLast hne]
  refine ⟨?_, ?_⟩
  · clear mem hfl
    induction l with
    | nil => simp [runs]
    | cons a l ih =>
      obtain ⟨h1, h2⟩ := List.pairwise_cons.1 h
      have i := ih h2
      have hfl := runs_flatten l
      rw [runs_cons]
      cases hr : runs Near l with
      | nil => simp [joinRun]
      | cons g gs =>
        rw [hr] at i hfl
        have hg : g ≠ [] := hfl.2 g (.head _)
        obtain ⟨b, g', rfl⟩ : ∃ b g', g = b :: g' := by cases g with
          | nil => exact absurd rfl hg
          | cons b g' => exact ⟨b, g', rfl⟩
        have hl : l = b :: (g' ++ gs.flatten) := by simpa using hfl.1.symm
        have hm : merge (a :: b :: g') = { merge (b :: g') with data := a.data ++ (merge (b :: g')).data } := by
          simp [merge, List.getLast?_cons]
        rw [joinRun]
        split
        · rename_i hn
          rw [List.map_cons] at i ⊢
          have e : [a] ++ b :: g' = a :: b :: g' := rfl
          rw [e, hm]
          exact List.pairwise_cons.2 ⟨(List.pairwise_cons.1 i).1, (List.pairwise_cons.1 i).2⟩
        · rename_i hn
          simp only [List.headD_cons, Near, Int.not_lt] at hn
          rw [List.map_cons, List.pairwise_cons]
          refine ⟨?_, i⟩
          intro x hx
          obtain ⟨k, hk, rfl⟩ := List.mem_map.1 hx
          have hkne := hfl.2 k hk
          have hkm : k.getLast hkne ∈ l := by
            rw [← hfl.1]; exact List.mem_flatten.2 ⟨k, hk, List.getLast_mem hkne⟩
          have hbk : b.time ≤ (k.getLast hkne).time := by
            rw [hl] at hkm h2
            rcases List.mem_cons.1 hkm with he | hm'
            · rw [he]; exact Int.le_refl _
            · exact (List.pairwise_cons.1 h2).1 _ hm'
          simp only [merge, List.getLast?_singleton, Option.map_some, Option.getD_some,
            List.getLast?_eq_some_getLast hkne]
          omega
  · intro r _ g hg hle
    obtain ⟨x, hx, _, he⟩ := mem g hg
    rw [he]; exact hle x hx

/-- A sorted permutation of a strictly sorted list is that list. -/
theorem perm_sorted_eq (a : List RecRow) : ∀ b : List RecRow, b.Perm a →
    a.Pairwise (fun x y => x.time < y.time) → b.Pairwise (fun x y => x.time ≤ y.time) → b = a := by
  induction a with
  | nil => intro b h _ _; exact h.eq_nil
  | cons x xs ih =>
    intro b h ha hb
    cases b with
    | nil => exact absurd h.symm.eq_nil (by simp)
    | cons y ys =>
      obtain ⟨a1, a2⟩ := List.pairwise_cons.1 ha
      obtain ⟨b1, b2⟩ := List.pairwise_cons.1 hb
      have hxy : y = x := by
        have hx : x ∈ y :: ys := h.mem_iff.2 (.head _)
        have hy : y ∈ x :: xs := h.mem_iff.1 (.head _)
        rcases List.mem_cons.1 hx with he | hx
        · exact he.symm
        rcases List.mem_cons.1 hy with he | hy
        · exact he
        have l1 := b1 x hx
        have l2 := a1 y hy
        omega
      subst hxy
      rw [ih ys ((List.perm_cons _).1 h) a2 b2]

end Verif.Lemmas
