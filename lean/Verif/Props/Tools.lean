import Verif.Lemmas.Tools

/-
C62, C63, C78: generated string literals, merged recordings, duplicate devices.
-/

namespace Verif.Props

open Verif.Go Verif.Model Verif.Spec Verif.Lemmas

/-! ## C62 -/

/-- C62. A text without NUL and byte order mark, escaped and put between quotes, is a string literal
that denotes the text, whatever follows. -/
theorem C62_reads_back_partial (s rest : List Char) (h : ∀ c ∈ s, c.toNat ≠ 0 ∧ c.toNat ≠ 0xFEFF) :
    readLit (escape s ++ '"' :: rest) = some (s, rest) := by
  rw [readLit_escape, if_pos]
  exact List.all_eq_true.2 fun c hc => decide_eq_true (h c hc)

example : ∀ c ∈ "a \"b\\\r\n".toList, c.toNat ≠ 0 ∧ c.toNat ≠ 0xFEFF := by decide
example : escape "a \"b\\\r\n".toList = "a \\\"b\\\\\\r\\n".toList := by decide

/-- C62, the escaped text never breaks the line. -/
theorem C62_no_newline (s : List Char) : '\n' ∉ escape s := escape_no_newline s

/-- C62 is false for texts with NUL or a byte order mark: they are copied into the literal, which the
compiler then rejects. -/
theorem C62_violated_nul (s rest : List Char) (h : ∃ c ∈ s, c.toNat = 0 ∨ c.toNat = 0xFEFF) :
    readLit (escape s ++ '"' :: rest) = none := by
  rw [readLit_escape, if_neg]
  intro ha
  obtain ⟨c, hc, hz⟩ := h
  have := List.all_eq_true.1 ha c hc
  simp only [decide_eq_true_eq] at this
  omega

example : ∃ c ∈ "a\x00".toList, c.toNat = 0 ∨ c.toNat = 0xFEFF := by decide

/-! ## C63 -/

/-- The bytes of a list of rows. -/
def bytesOf (l : List RecRow) : List UInt8 := l.flatMap RecRow.data

/-- C63: what is printed for one direction, when the clock does not go back: one row for every group of
rows less than a millisecond apart, in order, with all the bytes of the group and the time of its last
row, except for the last group. `sorted` is any ordering of the combined rows by time. Missing: the
last group. -/
theorem C63_groups_partial (rows sorted : List RecRow) (rd wr w : Bool)
    (ht : ∀ r ∈ rows, r.time ≠ 0)
    (hm : (rows.filter fun r => r.write = w).Pairwise fun a b => a.time ≤ b.time)
    (hp : sorted.Perm (combineAll .zero .zero rows))
    (hs : sorted.Pairwise fun a b => a.time ≤ b.time)
    (hf : (if w then wr else rd) = true) :
    (printed rd wr sorted).filter (fun r => r.write = w) =
      ((runs (fun a b : RecRow => b.time - a.time < 1000000) (rows.filter fun r => r.write = w)).dropLast.map
        fun g => ⟨(g.getLast?.map RecRow.time).getD 0, (g.getLast?.map RecRow.write).getD false, bytesOf g⟩) := by
  have h1 : (printed rd wr sorted).filter (fun r => r.write = w) = sorted.filter (fun r => r.write = w) := by
    unfold printed
    rw [List.filter_filter]
    refine List.filter_congr ?_
    intro x _
    cases w <;> cases hx : x.write <;> simp_all
  rw [h1]
  have h2 := combineAll_groups rows ht w
  refine perm_sorted_eq _ _ ?_ ?_ (hs.sublist List.filter_sublist)
  · refine (hp.filter _).trans (List.Perm.of_eq h2)
  · have h3 := (runs_times _ hm).1
    exact h3.sublist ((List.dropLast_sublist _).map merge)

example : let rows : List RecRow := [⟨1000000, false, [1]⟩, ⟨1500000, true, [9]⟩, ⟨1600000, false, [2]⟩,
    ⟨5000000, false, [3]⟩]
    (∀ r ∈ rows, r.time ≠ 0) ∧ (rows.filter fun r => r.write = false).Pairwise (fun a b => a.time ≤ b.time) ∧
    combineAll .zero .zero rows = [⟨1600000, false, [1, 2]⟩] := by decide

theorem bytesOf_merge (l : List (List RecRow)) : bytesOf (l.map merge) = bytesOf l.flatten := by
  induction l with
  | nil => rfl
  | cons g gs ih =>
    simp only [bytesOf, List.map_cons, List.flatMap_cons, List.flatten_cons, List.flatMap_append] at ih ⊢
    rw [ih]; rfl

theorem runs_last (l : List RecRow) :
    bytesOf ((runs Near l).dropLast.map merge) ++ bytesOf ((runs Near l).getLast?.getD []) = bytesOf l := by
  rw [bytesOf_merge]
  have h := (runs_flatten l).1
  rcases hr : runs Near l with _ | ⟨g, gs⟩
  · rw [hr] at h; simp at h; subst h; rfl
  · rw [hr] at h
    have hne : g :: gs ≠ [] := by simp
    rw [List.getLast?_eq_some_getLast hne, Option.getD_some]
    have e := List.dropLast_concat_getLast hne
    conv at h => lhs; rw [← e]
    conv => rhs; rw [← h]
    simp [bytesOf]

/-- C63: no byte of a direction is lost or reordered, except those of the last group. -/
theorem C63_bytes_partial (rows sorted : List RecRow) (rd wr w : Bool)
    (ht : ∀ r ∈ rows, r.time ≠ 0)
    (hm : (rows.filter fun r => r.write = w).Pairwise fun a b => a.time ≤ b.time)
    (hp : sorted.Perm (combineAll .zero .zero rows))
    (hs : sorted.Pairwise fun a b => a.time ≤ b.time)
    (hf : (if w then wr else rd) = true) :
    bytesOf ((printed rd wr sorted).filter fun r => r.write = w) ++
        bytesOf ((runs (fun a b : RecRow => b.time - a.time < 1000000)
          (rows.filter fun r => r.write = w)).getLast?.getD []) =
      bytesOf (rows.filter fun r => r.write = w) := by
  rw [C63_groups_partial rows sorted rd wr w ht hm hp hs hf]
  exact runs_last _

theorem sublist_bytes {a b : List RecRow} (h : a.Sublist b) : (bytesOf a).length ≤ (bytesOf b).length := by
  induction h with
  | slnil => simp
  | cons a _ ih => simp [bytesOf] at ih ⊢; omega
  | cons_cons a _ ih => simp [bytesOf] at ih ⊢; omega

/-- C63 is false of every recording: the last row of a direction is never printed. -/
theorem C63_violated_last_row (rows sorted : List RecRow) (rd wr w : Bool) (r : RecRow)
    (hl : (rows.filter fun r => r.write = w).getLast? = some r) (hd : r.data ≠ [])
    (ht : ∀ r ∈ rows, r.time ≠ 0)
    (hp : sorted.Perm (combineAll .zero .zero rows)) :
    (bytesOf ((printed rd wr sorted).filter fun r => r.write = w)).length <
      (bytesOf (rows.filter fun r => r.write = w)).length := by
  have h2 := combineAll_groups rows ht w
  have h3 := congrArg List.length (runs_last (rows.filter fun r => r.write = w))
  rw [← h2] at h3
  have h4 : (bytesOf ((printed rd wr sorted).filter fun r => r.write = w)).length ≤
      (bytesOf ((combineAll .zero .zero rows).filter fun r => r.write = w)).length := by
    have hp' : (bytesOf (sorted.filter fun r => r.write = w)).Perm
        (bytesOf ((combineAll .zero .zero rows).filter fun r => r.write = w)) :=
      (hp.filter _).flatMap_right _
    rw [← hp'.length_eq]
    exact sublist_bytes ((List.filter_sublist (l := sorted)).filter _)
  have h5 : r.data.length ≤ (bytesOf ((runs Near (rows.filter fun r => r.write = w)).getLast?.getD [])).length := by
    have hfl := runs_flatten (rows.filter fun r => r.write = w)
    rcases hr : runs Near (rows.filter fun r => r.write = w) with _ | ⟨g, gs⟩
    · rw [hr] at hfl; rw [← hfl.1] at hl; simp at hl
    · have hne : g :: gs ≠ [] := by simp
      rw [hr] at hfl
      rw [List.getLast?_eq_some_getLast hne, Option.getD_some]
      have e := List.dropLast_concat_getLast hne
      have hg := hfl.2 _ (List.getLast_mem hne)
      rw [← hfl.1, ← e, List.flatten_append, List.flatten_singleton, List.getLast?_append,
        List.getLast?_eq_some_getLast hg, Option.some_or] at hl
      have hr' : r ∈ (g :: gs).getLast hne := by
        rw [← Option.some.inj hl]; exact List.getLast_mem hg
      obtain ⟨a, b, hab⟩ := List.append_of_mem hr'
      rw [hab]
      simp [bytesOf]
      omega
  have h6 : 0 < r.data.length := List.length_pos_iff.2 hd
  simp only [List.length_append] at h3
  omega

example : let rows : List RecRow := [⟨1000000, false, [1]⟩, ⟨5000000, false, [3]⟩]
    (rows.filter fun r => r.write = false).getLast? = some ⟨5000000, false, [3]⟩ ∧ (∀ r ∈ rows, r.time ≠ 0) ∧
    combineAll .zero .zero rows = [⟨1000000, false, [1]⟩] := by decide

/-- C63 also fails when the clock steps back between groups: their order changes. -/
theorem C63_violated_clock : ∃ rows sorted : List RecRow,
    sorted.Perm (combineAll .zero .zero rows) ∧ sorted.Pairwise (fun a b => a.time ≤ b.time) ∧
    bytesOf (printed true true sorted) = [3, 4, 1, 2] ∧ bytesOf rows = [1, 2, 3, 4, 5] := by
  refine ⟨[⟨10000000, false, [1]⟩, ⟨5000000, false, [2]⟩, ⟨6500000, false, [3]⟩, ⟨4000000, false, [4]⟩,
    ⟨5500000, false, [5]⟩], [⟨4000000, false, [3, 4]⟩, ⟨5000000, false, [1, 2]⟩], ?_⟩
  decide

/-! ## C78 -/

/-- C78: the generator keeps every device reference exactly once, as far as spelling goes. -/
theorem C78_each_spelling_once (xs : List Ids) :
    ((keepRefs [] xs).map iden).Nodup ∧ (∀ x ∈ keepRefs [] xs, x ∈ xs) ∧
      ∀ x ∈ xs, iden x ∈ (keepRefs [] xs).map iden := by
  obtain ⟨h1, h2, h3⟩ := keepRefs_spec xs []
  refine ⟨h1, fun x hx => (h2 x hx).2, fun x hx => ?_⟩
  rcases h3 x hx with h | h
  · simp at h
  · exact h

/-- C78 is false in general: two references that differ only in letter case are both kept, and the
switch gets two equal cases, which does not compile. -/
theorem C78_violated_letter_case : ∃ xs : List Ids, ¬ ((keepRefs [] xs).map caseLabel).Nodup :=
  ⟨[("0081".toList, "00A0".toList, "0001".toList), ("0081".toList, "00a0".toList, "0001".toList)], by decide⟩

/-- C78, when equal labels come from equal spellings: no case label appears twice. -/
theorem C78_distinct_labels_partial (xs : List Ids)
    (h : ∀ x ∈ xs, ∀ y ∈ xs, caseLabel x = caseLabel y → iden x = iden y) :
    ((keepRefs [] xs).map caseLabel).Nodup := by
  obtain ⟨h1, h2, h3⟩ := C78_each_spelling_once xs
  generalize keepRefs [] xs = ks at h1 h2
  clear h3
  induction ks with
  | nil => simp
  | cons k ks ih =>
    rw [List.map_cons, List.nodup_cons] at h1 ⊢
    refine ⟨?_, ih h1.2 (fun x hx => h2 x (.tail _ hx))⟩
    intro hm
    obtain ⟨y, hy, he⟩ := List.mem_map.1 hm
    exact h1.1 (List.mem_map.2 ⟨y, hy, h y (h2 y (.tail _ hy)) k (h2 k (.head _)) he⟩)

example : let xs : List Ids := [("0081".toList, "00A0".toList, "0001".toList),
    ("0081".toList, "00A0".toList, "0001".toList), ("0082".toList, "00A0".toList, "0001".toList)]
    (∀ x ∈ xs, ∀ y ∈ xs, caseLabel x = caseLabel y → iden x = iden y) ∧ (keepRefs [] xs).length = 2 := by decide

end Verif.Props
