import Verif.Lemmas.Tables

/-
C60, C61, C64, C76, C77: device table, mandatory classes, names, generator of the mandatory classes.
-/

set_option linter.unusedSimpArgs false

namespace Verif.Props

open Verif.Go Verif.Model Verif.Model.Tables Verif.Spec Verif.Lemmas

/-! ## C60 -/

theorem rowOk_iff {r : DevRow} (h : r ∈ devRows) :
    r.key = r.manufacturerID.map Char.toLower ++ '_' :: (r.productType.map Char.toLower ++
      '_' :: r.productID.map Char.toLower) ∧
    '_' ∉ r.manufacturerID.map Char.toLower ∧ '_' ∉ r.productType.map Char.toLower ∧
    '_' ∉ r.productID.map Char.toLower ∧ r.classes.length ≤ 21 ∧
    ∀ s ∈ [r.manufacturerID, r.productType, r.productID], ∃ n, hexNat (s.map Char.toLower) = some n ∧
      n < 65536 ∧ s.map Char.toLower = hex4 (UInt8.ofNat (n / 256)) (UInt8.ofNat (n % 256)) := by
  have := List.all_eq_true.1 rows_ok r h
  unfold rowOk at this
  simp only [Bool.and_eq_true, beq_iff_eq, Bool.not_eq_true', decide_eq_true_eq, List.all_cons,
    List.all_nil, Bool.and_true, List.contains_eq_mem, decide_eq_false_iff_not] at this
  obtain ⟨⟨⟨⟨⟨h1, h2⟩, h3⟩, h4⟩, h5⟩, h6, h7, h8⟩ := this
  have aux : ∀ s : List Char, (match hexNat (s.map Char.toLower) with
      | some n => n < 65536 && s.map Char.toLower == hex4 (UInt8.ofNat (n / 256)) (UInt8.ofNat (n % 256))
      | none => false) = true → ∃ n, hexNat (s.map Char.toLower) = some n ∧
      n < 65536 ∧ s.map Char.toLower = hex4 (UInt8.ofNat (n / 256)) (UInt8.ofNat (n % 256)) := by
    intro s hs
    cases hx : hexNat (s.map Char.toLower) with
    | none => rw [hx] at hs; simp at hs
    | some n => rw [hx] at hs; simp only [Bool.and_eq_true, decide_eq_true_eq, beq_iff_eq] at hs; exact ⟨n, rfl, hs⟩
  refine ⟨h1, h2, h3, h4, h5, ?_⟩
  intro s hs
  simp only [List.mem_cons, List.not_mem_nil, or_false] at hs
  rcases hs with rfl | rfl | rfl
  · exact aux _ h6
  · exact aux _ h7
  · exact aux _ h8

/-- Two rows with the same key are the same row. -/
theorem row_unique {r r' : DevRow} (h : r ∈ devRows) (h' : r' ∈ devRows) (hk : r.key = r'.key) : r = r' := by
  have hn := (distinct_sound 25393 _ 0 keys_distinct).1
  have aux : ∀ l : List DevRow, (l.map fun r => keyNat r.key).Nodup → r ∈ l → r' ∈ l → r = r' := by
    intro l
    induction l with
    | nil => intro _ h; cases h
    | cons a l ih =>
      intro hn h h'
      rw [List.map_cons, List.nodup_cons] at hn
      rcases List.mem_cons.1 h with rfl | h1 <;> rcases List.mem_cons.1 h' with rfl | h2
      · rfl
      · exact absurd (List.mem_map.2 ⟨r', h2, congrArg keyNat hk.symm⟩) hn.1
      · exact absurd (List.mem_map.2 ⟨r, h1, congrArg keyNat hk⟩) hn.1
      · exact ih hn.2 h1 h2
  exact aux _ hn h h'

/-- C60: `New` returns a device iff the table has it under these ids, in lower case; the device is the
one of the table. For all strings, also ones with underscores inside. -/
theorem C60_found_iff (m t p : List Char) (d : Device) :
    newDevice devRows m t p = some d ↔
      ∃ r ∈ devRows, r.toDevice = d ∧ r.manufacturerID.map Char.toLower = m ∧
        r.productType.map Char.toLower = t ∧ r.productID.map Char.toLower = p := by
  unfold newDevice
  constructor
  · intro h
    obtain ⟨r, hr, hd⟩ := Option.map_eq_some_iff.1 h
    have hm := List.mem_of_find?_eq_some hr
    have hk := List.find?_some hr
    rw [beq_iff_eq] at hk
    obtain ⟨k1, k2, k3, k4, _⟩ := rowOk_iff hm
    rw [k1] at hk
    obtain ⟨e1, e2, e3⟩ := join_inj k2 k3 k4 hk
    exact ⟨r, hm, hd, e1.symm, e2.symm, e3.symm⟩
  · rintro ⟨r, hm, rfl, rfl, rfl, rfl⟩
    have k1 := (rowOk_iff hm).1
    cases hf : devRows.find? (fun r' => r'.key == r.manufacturerID.map Char.toLower ++ '_' ::
        (r.productType.map Char.toLower ++ '_' :: r.productID.map Char.toLower)) with
    | none => exact absurd (by rw [k1]; simp) (List.find?_eq_none.1 hf r hm)
    | some r' =>
      have hk := List.find?_some hf
      rw [beq_iff_eq, ← k1] at hk
      rw [row_unique (List.mem_of_find?_eq_some hf) hm hk]
      rfl

/-- C60: the ids of the returned device are the requested ones up to letter case. -/
theorem C60_ids_match (m t p : List Char) (d : Device) (h : newDevice devRows m t p = some d) :
    d.manufacturerID.map Char.toLower = m ∧ d.productType.map Char.toLower = t ∧
      d.productID.map Char.toLower = p := by
  obtain ⟨r, _, rfl, h1, h2, h3⟩ := (C60_found_iff m t p d).1 h
  exact ⟨h1, h2, h3⟩

example : newDevice devRows (cs! "0081") (cs! "00a0") (cs! "0001") ≠ none := by decide +kernel
example : newDevice devRows (cs! "0081") (cs! "00A0") (cs! "0001") = none := by decide +kernel

/-- C60: every device of the table is found from the manufacturer report of some node. -/
theorem C60_every_device_reported (r : DevRow) (h : r ∈ devRows) :
    ∃ (report : List UInt8) (m : ManufacturerSpecific), newManufacturerSpecific report = .ok m ∧
      newDevice devRows m.manufacturer m.type m.id = some r.toDevice := by
  obtain ⟨_, _, _, _, _, hx⟩ := rowOk_iff h
  obtain ⟨a, _, _, ea⟩ := hx r.manufacturerID (by simp)
  obtain ⟨b, _, _, eb⟩ := hx r.productType (by simp)
  obtain ⟨c, _, _, ec⟩ := hx r.productID (by simp)
  refine ⟨[UInt8.ofNat (a / 256), UInt8.ofNat (a % 256), UInt8.ofNat (b / 256), UInt8.ofNat (b % 256),
    UInt8.ofNat (c / 256), UInt8.ofNat (c % 256)], _, rfl, ?_⟩
  rw [C60_found_iff]
  exact ⟨r, h, rfl, ea, eb, ec⟩

/-! ## C61 -/

theorem defs_nodup : ((mkDefinitions definitionRows).map (·.1)).Nodup := by decide +kernel

theorem defs_eq : mkDefinitions definitionRows =
    definitionRows.map (fun r => (((typeConst r.1.1).getD 0, (typeConst r.1.2).getD 0), r.2)) := by decide +kernel

theorem getMandatory_mem (order : List ((UInt8 × UInt8) × List UInt8)) (hn : (order.map (·.1)).Nodup)
    (g s : UInt8) (cs : List CommandClass) :
    getMandatory order g s = some cs ↔
      ∃ ids, ((g, s), ids) ∈ order ∧ cs = ids.map fun i => ⟨i, false, false, false, []⟩ := by
  induction order with
  | nil => simp [getMandatory]
  | cons e rest ih =>
    obtain ⟨k, v⟩ := e
    rw [List.map_cons, List.nodup_cons] at hn
    rw [getMandatory]
    split
    · rename_i hk
      have hk' : k = (g, s) := by rw [← hk.1, ← hk.2]
      subst hk'
      constructor
      · intro h; exact ⟨v, .head _, (Option.some.inj h).symm⟩
      · rintro ⟨ids, hm, rfl⟩
        rcases List.mem_cons.1 hm with he | hm
        · rw [(Prod.mk.inj he).2]
        · exact absurd (List.mem_map.2 ⟨_, hm, rfl⟩) hn.1
    · rename_i hk
      rw [ih hn.2]
      constructor
      · rintro ⟨ids, hm, h⟩; exact ⟨ids, .tail _ hm, h⟩
      · rintro ⟨ids, hm, h⟩
        rcases List.mem_cons.1 hm with he | hm
        · exact absurd ⟨by rw [← (Prod.mk.inj he).1], by rw [← (Prod.mk.inj he).1]⟩ hk
        · exact ⟨ids, hm, h⟩

/-- C61: in whatever order the map is visited, the lookup returns the classes of the only entry whose
constants have the given values. -/
theorem C61_lookup_iff (order : List ((UInt8 × UInt8) × List UInt8))
    (hp : order.Perm (mkDefinitions definitionRows)) (g s : UInt8) (cs : List CommandClass) :
    getMandatory order g s = some cs ↔
      ∃ r ∈ definitionRows, typeConst r.1.1 = some g ∧ typeConst r.1.2 = some s ∧
        cs = r.2.map fun i => ⟨i, false, false, false, []⟩ := by
  rw [getMandatory_mem order ((hp.map _).nodup_iff.2 defs_nodup)]
  have hk : ∀ r ∈ definitionRows, (typeConst r.1.1).isSome ∧ (typeConst r.1.2).isSome := by
    have : definitionRows.all (fun r => (typeConst r.1.1).isSome && (typeConst r.1.2).isSome) = true := by
      decide +kernel
    intro r hr
    have := List.all_eq_true.1 this r hr
    simpa using this
  constructor
  · rintro ⟨ids, hm, rfl⟩
    have hm' := hp.mem_iff.1 hm
    rw [defs_eq] at hm'
    obtain ⟨r, hr, he⟩ := List.mem_map.1 hm'
    obtain ⟨h1, h2⟩ := hk r hr
    simp only [Prod.mk.injEq] at he
    refine ⟨r, hr, ?_, ?_, by rw [he.2]⟩
    · rw [← he.1.1]; cases hc : typeConst r.1.1 with
      | none => rw [hc] at h1; cases h1
      | some x => rfl
    · rw [← he.1.2]; cases hc : typeConst r.1.2 with
      | none => rw [hc] at h2; cases h2
      | some x => rfl
  · rintro ⟨r, hr, h1, h2, rfl⟩
    refine ⟨r.2, hp.mem_iff.2 ?_, rfl⟩
    rw [defs_eq]
    exact List.mem_map.2 ⟨r, hr, by rw [h1, h2]; rfl⟩

/-- C61: the result does not depend on the iteration order. -/
theorem C61_order_irrelevant (o1 o2 : List ((UInt8 × UInt8) × List UInt8))
    (h1 : o1.Perm (mkDefinitions definitionRows)) (h2 : o2.Perm (mkDefinitions definitionRows)) (g s : UInt8) :
    getMandatory o1 g s = getMandatory o2 g s := by
  refine Option.ext fun cs => ?_
  rw [C61_lookup_iff o1 h1, C61_lookup_iff o2 h2]

example : (mkDefinitions definitionRows).reverse.Perm (mkDefinitions definitionRows) := List.reverse_perm _
example : (getMandatory (mkDefinitions definitionRows) 0x10 0x01).isSome ∧
    getMandatory (mkDefinitions definitionRows) 0x10 0xff = none := by decide +kernel

/-! ## C64 -/

/-- C64: every named serial function prints as its name. -/
theorem C64_function_names (name : List Char) (v : UInt8) (h : (name, v) ∈ functionConsts) : functionName v = name := by
  have : functionConsts.all (fun c => functionName c.2 == c.1) = true := by decide +kernel
  simpa using List.all_eq_true.1 this _ h

/-- C64: two functions that print alike, not as the empty string, are the same. -/
theorem C64_function_names_distinct (a b : UInt8) (h : functionName a = functionName b) (hne : functionName a ≠ []) : a = b := by
  have key : ∀ x : UInt8, functionName x ≠ [] → functionConsts.find? (fun c => c.1 == functionName x) = some (functionName x, x) := by
    have hk : ((List.range 256).all fun n => functionName (UInt8.ofNat n) == [] ||
        functionConsts.find? (fun c => c.1 == functionName (UInt8.ofNat n)) == some (functionName (UInt8.ofNat n), UInt8.ofNat n)) = true := by
      decide +kernel
    refine fun x => u8_forall (P := fun x => functionName x ≠ [] → functionConsts.find? (fun c => c.1 == functionName x) = some (functionName x, x)) ?_ x
    intro i hi
    have := List.all_eq_true.1 hk i.val (List.mem_range.2 i.isLt)
    simp only [Bool.or_eq_true, beq_iff_eq] at this
    exact this.resolve_left hi
  have ha := key a hne
  have hb := key b (h ▸ hne)
  rw [← h, ha] at hb
  exact (Prod.mk.inj (Option.some.inj hb)).2

/-- The constants of commands/constants.go whose name `String` does not know. -/
def unnamed : List (List Char) := [cs! "CRC16Encap", cs! "AssociationGRPInfo", cs! "DeviceResetLocally",
  cs! "CentralScenev2", cs! "ZwavePlusInfov2", cs! "FirmwareUpdateMDv3", cs! "Security", cs! "Mark"]

/-- C64: every command class constant outside `unnamed` prints as its name. -/
theorem C64_command_names_partial (name : List Char) (v : UInt8) (h : (name, v) ∈ commandConsts)
    (hn : name ∉ unnamed) : commandName v = name := by
  have : commandConsts.all (fun c => unnamed.contains c.1 || commandName c.2 == c.1) = true := by decide +kernel
  have := List.all_eq_true.1 this _ h
  simp only [Bool.or_eq_true, List.contains_eq_mem, decide_eq_true_eq, beq_iff_eq] at this
  exact this.resolve_left hn

example : ((cs! "Alarm", 0x71) : List Char × UInt8) ∈ commandConsts ∧ cs! "Alarm" ∉ unnamed := by decide +kernel

/-- C64 is false for the constants in `unnamed`: each of them is declared and prints as nothing. -/
theorem C64_violated_unnamed (name : List Char) (h : name ∈ unnamed) :
    ∃ v, (name, v) ∈ commandConsts ∧ commandName v = [] := by
  have : unnamed.all (fun n => commandConsts.any fun c => c.1 == n && commandName c.2 == []) = true := by decide +kernel
  have := List.all_eq_true.1 this _ h
  rw [List.any_eq_true] at this
  obtain ⟨c, hc, he⟩ := this
  simp only [Bool.and_eq_true, beq_iff_eq] at he
  exact ⟨c.2, by rw [← he.1]; exact hc, he.2⟩

/-- C64 is false for `Mark`: the value that prints as "Mark" is not the constant. -/
theorem C64_violated_mark : commandName 0xEF = cs! "Mark" ∧ ((cs! "Mark", 0x0E) : List Char × UInt8) ∈ commandConsts := by
  decide +kernel

/-- C64: two command classes that print alike, not as the empty string, are the same. -/
theorem C64_command_names_distinct (a b : UInt8) (h : commandName a = commandName b) (hne : commandName a ≠ []) : a = b := by
  have key : ∀ x : UInt8, commandName x ≠ [] → commandCases.find? (fun c => c.2 == commandName x) = some (x, commandName x) := by
    have hk : ((List.range 256).all fun n => commandName (UInt8.ofNat n) == [] ||
        commandCases.find? (fun c => c.2 == commandName (UInt8.ofNat n)) == some (UInt8.ofNat n, commandName (UInt8.ofNat n))) = true := by
      decide +kernel
    refine fun x => u8_forall (P := fun x => commandName x ≠ [] → commandCases.find? (fun c => c.2 == commandName x) = some (x, commandName x)) ?_ x
    intro i hi
    have := List.all_eq_true.1 hk i.val (List.mem_range.2 i.isLt)
    simp only [Bool.or_eq_true, beq_iff_eq] at this
    exact this.resolve_left hi
  have ha := key a hne
  have hb := key b (h ▸ hne)
  rw [← h, ha] at hb
  exact (Prod.mk.inj (Option.some.inj hb)).1

/-! ## C76 -/

/-- What the comments in `StringToByte` announce: the text of a line and the constant it stands for,
generators/commandclasses/commandclasses.go 128-222. -/
def announced : List (List Char × List Char) := [
  (cs! "Application Status", cs! "ApplicationStatus"),
  (cs! "Association Group Information", cs! "AssociationGRPInfo"),
  (cs! "Association (version 2 or newer)", cs! "Association"),
  (cs! "Basic", cs! "Basic"),
  (cs! "Binary Switch", cs! "SwitchBinary"),
  (cs! "Central Scene", cs! "CentralScenev2"),
  (cs! "CRC16", cs! "CRC16Encap"),
  (cs! "Device Reset Locally (*)", cs! "DeviceResetLocally"),
  (cs! "Device Reset Locally (if the device can be reset, refer to [1])", cs! "DeviceResetLocally"),
  (cs! "Manufacturer Specific", cs! "ManufacturerSpecific"),
  (cs! "Meter (version 2 or newer)", cs! "Meter"),
  (cs! "Multichannel Association (version 3 or newer)", cs! "MultiInstanceAssociation"),
  (cs! "Multi Channel (version 4 or newer)", cs! "MultiInstance"),
  (cs! "Multilevel Sensor", cs! "SensorMultiLevel"),
  (cs! "Multilevel Switch", cs! "SwitchMultilevel"),
  (cs! "Multilevel Switch (v3 or newer)", cs! "SwitchMultilevel"),
  (cs! "Notification", cs! "Alarm"),
  (cs! "Power Level", cs! "PowerLevel"),
  (cs! "Security", cs! "Security"),
  (cs! "Security - if CSC", cs! "Security"),
  (cs! "Version (v2 or newer)", cs! "Version"),
  (cs! "Z-Wave Plus Info", cs! "ZwavePlusInfov2")]

/-- C76, for every announced line but one. -/
theorem C76_lines_read_partial (line name : List Char) (h : (line, name) ∈ announced)
    (hn : name ≠ cs! "MultiInstanceAssociation") : (name, stringToByte line) ∈ commandConsts := by
  have : announced.all (fun e => e.2 == cs! "MultiInstanceAssociation" ||
      commandConsts.contains (e.2, stringToByte e.1)) = true := by decide +kernel
  have := List.all_eq_true.1 this _ h
  simp only [Bool.or_eq_true, List.contains_eq_mem, decide_eq_true_eq, beq_iff_eq] at this
  exact this.resolve_left hn

theorem contains_iff (p s : List Char) : contains p s = true ↔ ∃ a b, s = a ++ p ++ b := by
  induction s with
  | nil =>
    simp only [contains, List.isEmpty_iff]
    constructor
    · rintro rfl; exact ⟨[], [], rfl⟩
    · rintro ⟨a, b, h⟩
      have := congrArg List.length h
      simp at this
      exact List.length_eq_zero_iff.1 (by omega)
  | cons c cs ih =>
    rw [contains, Bool.or_eq_true, ih, List.isPrefixOf_iff_prefix]
    constructor
    · rintro (⟨b, hb⟩ | ⟨a, b, rfl⟩)
      · exact ⟨[], b, by simpa using hb.symm⟩
      · exact ⟨c :: a, b, by simp⟩
    · rintro ⟨a, b, h⟩
      cases a with
      | nil => exact .inl ⟨b, by simpa using h.symm⟩
      | cons x a =>
        simp only [List.cons_append, List.cons.injEq] at h
        exact .inr ⟨a, b, h.2⟩

theorem ite_ne {c : Prop} [Decidable c] {a b x : UInt8} (h1 : a ≠ x) (h2 : b ≠ x) : (if c then a else b) ≠ x := by
  split <;> assumption

/-- C76 is false: no line at all is read as MultiInstanceAssociation (0x8e), because the test for
"Association" comes first. -/
theorem C76_violated_multichannel (s : List Char) : stringToByte s ≠ 0x8e := by
  by_cases h : contains (cs! "Multichannel Association") s = true
  · have h' : contains (cs! "Association") s = true := by
      obtain ⟨a, b, rfl⟩ := (contains_iff _ _).1 h
      exact (contains_iff _ _).2 ⟨a ++ cs! "Multichannel ", b, by simp⟩
    unfold stringToByte
    rw [if_pos h']
    repeat refine ite_ne (by decide) ?_
    decide
  · unfold stringToByte
    rw [if_neg h]
    repeat refine ite_ne (by decide) ?_
    decide

/-- C76: the consequence in the committed table: the power strip gets Association twice and
MultiInstanceAssociation never. -/
theorem C76_violated_in_table : ∃ r ∈ definitionRows, r.1.2 = cs! "SPECIFIC_TYPE_POWER_STRIP" ∧
    r.2.count 0x85 = 2 ∧ (0x8e : UInt8) ∉ r.2 := by decide +kernel

/-! ## C77 -/

/-- C77: the committed table is what the generator makes of the committed text. -/
theorem C77_table_is_generated : ∃ m, genMandatory mandatoryTxt = .ok m ∧ m.Perm definitionRows := by
  have h : (genMandatory mandatoryTxt).toOption.map (fun m => decide (m.Perm definitionRows)) = some true := by
    decide +kernel
  cases hg : genMandatory mandatoryTxt with
  | error e => rw [hg] at h; simp [Except.toOption] at h
  | ok m => rw [hg] at h; exact ⟨m, rfl, by simpa [Except.toOption] using h⟩

end Verif.Props
