import Verif.Lemmas.DevGen
import Verif.Props.Tables

/-
C107, C108: from the device files to the lookup.
-/

set_option linter.unusedSimpArgs false

namespace Verif.Props

open Verif.Go Verif.Model Verif.Model.Tables Verif.Spec Verif.Lemmas

/-! ## C107 -/

/-- C107: the committed table is what the generator makes of the committed device files. -/
theorem C107_committed_table : genDevices [] devFiles = devRows := by
  rw [← gen_table, ← genDevicesN_eq]
  rfl

/-- C107: no label appears twice in the switch made of the committed files, so it compiles. -/
theorem C107_labels_distinct : ((genDevices [] devFiles).map DevRow.key).Nodup := by
  rw [C107_committed_table]
  have hn := (distinct_sound 25393 _ 0 keys_distinct).1
  have : devRows.map (fun r => keyNat r.key) = (devRows.map DevRow.key).map keyNat := by rw [List.map_map]; rfl
  rw [this] at hn
  rw [List.nodup_iff_pairwise_ne, List.pairwise_map] at hn
  rw [List.nodup_iff_pairwise_ne]
  exact hn.imp fun h e => h (congrArg keyNat e)

/-! ## C108 -/

/-- The text of a reference: type and id of the product with one colon between. -/
def RefText (s t p : List Char) : Prop := s = t ++ ':' :: p ∧ ':' ∉ t ∧ ':' ∉ p

/-- The device carries the data of the file: names and the classes of the first endpoint. -/
def Describes (f : DevFile) (d : Device) : Prop :=
  d.brand = f.name.toList ∧ d.product = f.label.toList ∧ d.description = f.description.toList ∧
    d.classes = (match f.endpoints with | [] => [] | e :: _ => e.map devClass)

/-- What is asked for: three ids joined. -/
def joined (m t p : List Char) : List Char := m ++ '_' :: (t ++ '_' :: p)

/-- The file lists a product that is asked for with these ids. -/
def Lists (f : DevFile) (m t p : List Char) : Prop :=
  ∃ s ∈ f.refs, ∃ t' p', RefText s t' p' ∧
    joined (f.manufacturerID.map Char.toLower) (t'.map Char.toLower) (p'.map Char.toLower) = joined m t p

/-- Every reference of the file has one colon. -/
def WellFormed (f : DevFile) : Prop := ∀ s ∈ f.refs, ∃ t p, RefText s t p

theorem splitOn_none {c : Char} {s : List Char} (h : c ∉ s) : splitOn c s = [s] := by
  induction s with
  | nil => rfl
  | cons x xs ih =>
    simp only [List.mem_cons, not_or] at h
    rw [splitOn, if_neg (Ne.symm h.1), ih h.2]

theorem splitOn_one {c : Char} {t : List Char} (p : List Char) (h : c ∉ t) : splitOn c (t ++ c :: p) = t :: splitOn c p := by
  induction t with
  | nil => simp [splitOn]
  | cons x xs ih =>
    simp only [List.mem_cons, not_or] at h
    rw [List.cons_append, splitOn, if_neg (Ne.symm h.1), ih h.2]

/-- C108: a reference with one colon is read as its two parts. -/
theorem C108_reference_read (s t p : List Char) (h : RefText s t p) : parseRef s = (t, p) := by
  obtain ⟨rfl, h1, h2⟩ := h
  unfold parseRef
  rw [splitOn_one p h1, splitOn_none h2]

/-- With two colons nothing is left of the reference. -/
theorem C108_violated_two_colons (a b c : List Char) (ha : ':' ∉ a) (hb : ':' ∉ b) (hc : ':' ∉ c) :
    parseRef (a ++ ':' :: (b ++ ':' :: c)) = ([], []) := by
  unfold parseRef
  rw [splitOn_one _ ha, splitOn_one _ hb, splitOn_none hc]

theorem genRow_describes (f : DevFile) (s : List Char) : Describes f (genRow f s).toDevice := by
  refine ⟨rfl, rfl, rfl, ?_⟩
  cases h : f.endpoints with
  | nil => simp [DevRow.toDevice, genRow, h]
  | cons e es => simp [DevRow.toDevice, genRow, h]

theorem genRow_key {f : DevFile} {s t p : List Char} (h : RefText s t p) : (genRow f s).key =
    joined (f.manufacturerID.map Char.toLower) (t.map Char.toLower) (p.map Char.toLower) := by
  have := C108_reference_read s t p h
  simp only [genRow, caseLabel, refIds, this, iden, joined]

theorem lists_iff {f : DevFile} (hw : WellFormed f) (m t p : List Char) :
    Lists f m t p ↔ ∃ s ∈ f.refs, (genRow f s).key = joined m t p := by
  constructor
  · rintro ⟨s, h1, t', p', h2, h3⟩
    exact ⟨s, h1, by rw [genRow_key h2, h3]⟩
  · rintro ⟨s, h1, h2⟩
    obtain ⟨t', p', h3⟩ := hw s h1
    exact ⟨s, h1, t', p', h3, by rw [← genRow_key h3, h2]⟩

theorem lookup_eq (fs : List DevFile) (m t p : List Char) :
    newDevice (genDevices [] fs) m t p =
      ((fs.flatMap fun f => f.refs.map (genRow f)).find? fun r => r.key == joined m t p).map Tables.DevRow.toDevice := by
  unfold newDevice
  rw [← genDevices_find _ fs [] (by simp)]
  rfl

/-- C108: the generated lookup finds a device exactly for the ids some file lists. -/
theorem C108_found_iff_listed (fs : List DevFile) (hw : ∀ f ∈ fs, WellFormed f) (m t p : List Char) :
    (newDevice (genDevices [] fs) m t p).isSome = true ↔ ∃ f ∈ fs, Lists f m t p := by
  rw [lookup_eq, Option.isSome_map, List.find?_isSome]
  constructor
  · rintro ⟨r, h1, h2⟩
    obtain ⟨f, hf, h1⟩ := List.mem_flatMap.1 h1
    obtain ⟨s, hs, rfl⟩ := List.mem_map.1 h1
    exact ⟨f, hf, (lists_iff (hw f hf) m t p).2 ⟨s, hs, by simpa using h2⟩⟩
  · rintro ⟨f, hf, hl⟩
    obtain ⟨s, hs, hk⟩ := (lists_iff (hw f hf) m t p).1 hl
    exact ⟨genRow f s, List.mem_flatMap.2 ⟨f, hf, List.mem_map.2 ⟨s, hs, rfl⟩⟩, by simpa using hk⟩

/-- C108: the device found is that of the first file that lists the ids. -/
theorem C108_first_file (pre post : List DevFile) (f : DevFile) (hw : ∀ g ∈ pre ++ f :: post, WellFormed g)
    (m t p : List Char) (hl : Lists f m t p) (hpre : ∀ g ∈ pre, ¬ Lists g m t p) :
    ∃ d, newDevice (genDevices [] (pre ++ f :: post)) m t p = some d ∧ Describes f d := by
  rw [lookup_eq, List.flatMap_append, List.flatMap_cons, List.find?_append, List.find?_append]
  have h1 : ((pre.flatMap fun f => f.refs.map (genRow f)).find? fun r => r.key == joined m t p) = none := by
    rw [List.find?_eq_none]
    intro r hr he
    obtain ⟨g, hg, h1⟩ := List.mem_flatMap.1 hr
    obtain ⟨s, hs, rfl⟩ := List.mem_map.1 h1
    exact hpre g hg ((lists_iff (hw g (by simp [hg])) m t p).2 ⟨s, hs, by simpa using he⟩)
  obtain ⟨s, hs, hk⟩ := (lists_iff (hw f (by simp)) m t p).1 hl
  rw [h1]
  cases hf : (f.refs.map (genRow f)).find? fun r => r.key == joined m t p with
  | none => exact absurd (by simpa using hk) (List.find?_eq_none.1 hf (genRow f s) (List.mem_map.2 ⟨s, hs, rfl⟩))
  | some r =>
    obtain ⟨s', _, rfl⟩ := List.mem_map.1 (List.mem_of_find?_eq_some hf)
    exact ⟨_, rfl, genRow_describes f s'⟩

/-- The committed files are well formed. -/
theorem files_wellFormed : ∀ f ∈ devFiles, WellFormed f := by
  have h : devFiles.all (fun f => f.refs.all fun s => (splitOn ':' s).length == 2) = true := by decide +kernel
  intro f hf s hs
  have := List.all_eq_true.1 (List.all_eq_true.1 h f hf) s hs
  rw [beq_iff_eq] at this
  have key : ∀ s : List Char, (splitOn ':' s).length = 1 → ':' ∉ s := by
    intro s
    induction s with
    | nil => intro _ h; cases h
    | cons x xs ih =>
      rw [splitOn]
      have hn : splitOn ':' xs ≠ [] := by
        cases xs with
        | nil => simp [splitOn]
        | cons y ys => rw [splitOn]; (repeat' split) <;> simp
      split
      · intro h
        simp only [List.length_cons, Nat.add_eq_right, List.length_eq_zero_iff] at h
        exact absurd h hn
      · intro h hm
        rename_i hx
        cases hq : splitOn ':' xs with
        | nil => exact hn hq
        | cons y ys =>
          rw [hq] at h ih
          rcases List.mem_cons.1 hm with rfl | hm
          · exact hx rfl
          · exact ih h hm
  have key2 : ∀ s : List Char, (splitOn ':' s).length = 2 → ∃ t p, RefText s t p := by
    intro s
    induction s with
    | nil => intro h; cases h
    | cons x xs ih =>
      rw [splitOn]
      split
      · rename_i hx
        intro h
        exact ⟨[], xs, by rw [hx]; rfl, by simp, key xs (by simpa using h)⟩
      · rename_i hx
        intro h
        have h' : (splitOn ':' xs).length = 2 := by
          cases hq : splitOn ':' xs with
          | nil => rw [hq] at h; cases h
          | cons y ys => rw [hq] at h; exact h
        obtain ⟨t, p, rfl, h2, h3⟩ := ih h'
        exact ⟨x :: t, p, rfl, by simp [h2, Ne.symm hx], h3⟩
  exact key2 s this

/-- C108 for the committed files: every product of every file is found from the manufacturer report of some
node. -/
theorem C108_every_product_reported (f : DevFile) (hf : f ∈ devFiles) (s t p : List Char) (hs : s ∈ f.refs)
    (hr : RefText s t p) : ∃ (report : List UInt8) (x : ManufacturerSpecific) (d : Device),
      newManufacturerSpecific report = .ok x ∧
      joined x.manufacturer x.type x.id =
        joined (f.manufacturerID.map Char.toLower) (t.map Char.toLower) (p.map Char.toLower) ∧
      newDevice devRows x.manufacturer x.type x.id = some d := by
  have h := (C108_found_iff_listed devFiles files_wellFormed (f.manufacturerID.map Char.toLower) (t.map Char.toLower)
    (p.map Char.toLower)).2 ⟨f, hf, s, hs, t, p, hr, rfl⟩
  rw [C107_committed_table] at h
  obtain ⟨d, hd⟩ := Option.isSome_iff_exists.1 h
  obtain ⟨r, hr1, rfl, e1, e2, e3⟩ := (C60_found_iff _ _ _ _).1 hd
  obtain ⟨report, x, hx, hn⟩ := C60_every_device_reported r hr1
  obtain ⟨k1, k2, k3⟩ := C60_ids_match _ _ _ _ hn
  refine ⟨report, x, r.toDevice, hx, ?_, hn⟩
  rw [← k1, ← k2, ← k3, ← e1, ← e2, ← e3]
  rfl

/-- C108 is false for the data of a file: fibaro_fgwpe_0_0.json lists a product that is found, but as another
product, and no lookup ever returns the data of this file (another file with the same ids comes first). -/
theorem C108_violated_file_lost : ∃ f ∈ devFiles, f.refs ≠ [] ∧ (∀ s ∈ f.refs, ∃ t p, RefText s t p ∧
      (newDevice devRows (f.manufacturerID.map Char.toLower) (t.map Char.toLower) (p.map Char.toLower)).isSome = true) ∧
    ∀ m t p d, newDevice devRows m t p = some d → ¬ Describes f d := by
  have h : (devFiles.drop 204).head?.map (fun f => decide (f.label = "FGWPE") && !f.refs.isEmpty) = some true := by
    decide +kernel
  rw [Option.map_eq_some_iff] at h
  obtain ⟨f, h1, h2⟩ := h
  rw [Bool.and_eq_true, decide_eq_true_eq] at h2
  have hf : f ∈ devFiles := List.mem_of_mem_drop (List.mem_of_mem_head? h1)
  refine ⟨f, hf, (fun e => by rw [e] at h2; cases h2.2), fun s hs => ?_, fun m t p d hd hD => ?_⟩
  · obtain ⟨t, p, hr⟩ := files_wellFormed f hf s hs
    refine ⟨t, p, hr, ?_⟩
    rw [← C107_committed_table]
    exact (C108_found_iff_listed devFiles files_wellFormed _ _ _).2 ⟨f, hf, s, hs, t, p, hr, rfl⟩
  · obtain ⟨r, hr, rfl, -⟩ := (C60_found_iff m t p d).1 hd
    have h3 : devRows.all (fun r => decide (r.product ≠ "FGWPE")) = true := by decide +kernel
    have := of_decide_eq_true (List.all_eq_true.1 h3 r hr)
    have e : r.product.toList = f.label.toList := hD.2.1
    rw [h2.1] at e
    exact this (String.toList_inj.1 e)

/-- Two files of which the second lists one product of the first in other letters and one more: all hypotheses of
the theorems above are met. -/
def twoFiles : List DevFile :=
  [⟨cs! "010F", [cs! "0600:1000"], "Fibargroup", "FGWP101", "Plug", [[0x2425], [0x2420]]⟩,
   ⟨cs! "010F", [cs! "0600:1000", cs! "0602:100A"], "Fibaro System", "FGWPE", "", []⟩]

example : (genDevices [] twoFiles).map DevRow.key = [cs! "010f_0600_1000", cs! "010f_0602_100a"] := by decide +kernel

example : (∀ f ∈ twoFiles, WellFormed f) ∧ (∀ f ∈ twoFiles, Lists f (cs! "010f") (cs! "0600") (cs! "1000")) ∧
    (newDevice (genDevices [] twoFiles) (cs! "010f") (cs! "0602") (cs! "100a")).isSome = true ∧
    ¬ (newDevice (genDevices [] twoFiles) (cs! "010f") (cs! "0602") (cs! "100A")).isSome = true := by
  refine ⟨?_, ?_, by decide +kernel, by decide +kernel⟩
  · intro f hf s hs
    simp only [twoFiles, List.mem_cons, List.not_mem_nil, or_false] at hf
    rcases hf with rfl | rfl <;> simp only [List.mem_cons, List.not_mem_nil, or_false] at hs
    · subst hs
      exact ⟨cs! "0600", cs! "1000", rfl, by decide, by decide⟩
    · rcases hs with rfl | rfl
      · exact ⟨cs! "0600", cs! "1000", rfl, by decide, by decide⟩
      · exact ⟨cs! "0602", cs! "100A", rfl, by decide, by decide⟩
  · intro f hf
    simp only [twoFiles, List.mem_cons, List.not_mem_nil, or_false] at hf
    rcases hf with rfl | rfl
    · exact ⟨cs! "0600:1000", by simp, cs! "0600", cs! "1000", ⟨rfl, by decide, by decide⟩, by decide⟩
    · exact ⟨cs! "0600:1000", by simp, cs! "0600", cs! "1000", ⟨rfl, by decide, by decide⟩, by decide⟩

end Verif.Props
