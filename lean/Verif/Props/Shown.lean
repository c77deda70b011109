import Verif.Model.DeviceClass
import Verif.Spec.Shown
import Verif.Lemmas.Shown
import Verif.Props.Process
import Verif.Props.Save
import Verif.Props.Reports
import Verif.Props.DevGen

/-
C110: what is shown of a node is what it said.
-/

set_option linter.unusedSimpArgs false
set_option linter.unusedVariables false

namespace Verif.Props

open Verif.Go Verif.Model Verif.Model.Conn Verif.Model.Tables Verif.Spec Verif.Lemmas Verif.Lemmas.Conn Verif.Lemmas.Ctl
  Verif.Lemmas.NodeM Verif.Lemmas.EndToEnd Verif.Lemmas.System Verif.Lemmas.Process

variable {lv : LoopVars} {db : DB} {f : Bool} {ns : List Node} {ls : List WLabel} {w : Whole} {xs : List Session}

theorem report_product {fr : List UInt8} {b : UInt8} {m : ManufacturerSpecific} (h : IsReport fr b (.manufacturerSpecific m)) :
    SaysProduct fr b m.manufacturer m.type m.id := by
  obtain ⟨cls, cmd, p, h1, h2⟩ := h
  have key : cls = 0x72 ∧ cmd = 0x05 ∧ newManufacturerSpecific p = .ok m := by
    unfold newReport at h2
    repeat' split at h2
    all_goals first
      | cases h2; done
      | (simp only [newAlarm, newMultiChannelEndpoints, newSensorMultiLevel, newSwitchBinaryV1, newSwitchBinaryV2,
          newSwitchMultilevelV1, newSwitchMultilevelV4] at h2
         repeat' split at h2
         all_goals first | (cases h2; done) | (simp [Except.map] at h2; done))
      | skip
    cases hn : newManufacturerSpecific p with
    | error e => rw [hn] at h2; cases h2
    | ok m' =>
      rw [hn] at h2
      simp only [Except.map, Except.ok.injEq, Report.manufacturerSpecific.injEq] at h2
      subst h2
      exact ⟨by assumption, by assumption, rfl⟩
  obtain ⟨rfl, rfl, hn⟩ := key
  have h6 : p.length = 6 := Classical.byContradiction fun h6 => by
    rw [(C16_manufacturer p).1 h6] at hn; cases hn
  obtain ⟨m', e1, e2, e3, e4, e5⟩ := (C16_manufacturer p).2 h6
  rw [hn] at e1
  cases e1
  obtain ⟨d0, d1, d2, d3, d4, d5, rfl⟩ := length_six h6
  exact ⟨d0, d1, d2, d3, d4, d5, h1, e2, e3, e4, e5⟩

theorem report_endpoints {fr : List UInt8} {b : UInt8} {m : MultiChannelEndpoints} (h : IsReport fr b (.multiChannelEndpoints m)) :
    SaysEndpoints fr b m.endpoints := by
  obtain ⟨cls, cmd, p, h1, h2⟩ := h
  have key : cls = 0x60 ∧ cmd = 0x08 ∧ newMultiChannelEndpoints p = .ok m := by
    unfold newReport at h2
    repeat' split at h2
    all_goals first
      | cases h2; done
      | (simp only [newAlarm, newManufacturerSpecific, newSensorMultiLevel, newSwitchBinaryV1, newSwitchBinaryV2,
          newSwitchMultilevelV1, newSwitchMultilevelV4] at h2
         repeat' split at h2
         all_goals first | (cases h2; done) | (simp [Except.map] at h2; done))
      | skip
    cases hn : newMultiChannelEndpoints p with
    | error e => rw [hn] at h2; cases h2
    | ok m' =>
      rw [hn] at h2
      simp only [Except.map, Except.ok.injEq, Report.multiChannelEndpoints.injEq] at h2
      subst h2
      exact ⟨by assumption, by assumption, rfl⟩
  obtain ⟨rfl, rfl, hn⟩ := key
  match p, hn with
  | [], hn => cases hn
  | [_], hn => cases hn
  | x :: y :: rest, hn =>
    obtain ⟨m', e1, -, -, e2⟩ := (C21_endpoints (x :: y :: rest)).2 (by simp)
    rw [hn] at e1
    cases e1
    exact ⟨x, y, rest, h1, e2⟩

/-- A report that answered a question to node `id` was sent by that node. -/
theorem told_report (h : runSteps (wStep lv db) (wStart f ns) ls = some w) (hx : Arrived ls xs)
    (hc : w.sys.conn.crashed = none) {id : Int} (hid : id % 256 ≠ 0) {q : List UInt8} {k : Conn.Kind} {er : UInt8} {x : ACH}
    (ht : Told w.sys.conn ⟨rawEncode id q, k, er⟩ (.ach x)) :
    ∃ fr ∈ onWire xs, ∃ b : UInt8, (b.toNat : Int) = id % 256 ∧ IsReport fr b x.report := by
  obtain ⟨fr, g1, g2, msg, g3, g4, g5⟩ := told_wire h hx hc ht
  have hrep := ach_frame g2 g3 g4
  have hn := report_node hrep
  have hlen : 5 < fr.length := by
    have := (List.getElem?_eq_some_iff.1 hn).1
    simpa [zeroed] using this
  have := g5 (show (0x13 : UInt8) ≠ 0x41 by decide) hlen
  have hf : reqNode (rawEncode id q) = intToByte id := rfl
  rw [hf, hn] at this
  have hb : (((intToByte id).toNat : Nat) : Int) = id % 256 := by
    unfold intToByte
    simp
    omega
  rcases this with h0 | h0
  · rw [h0] at hb
    exact absurd hb.symm hid
  · simp only [Option.some.injEq] at h0
    rw [h0] at hrep
    exact ⟨fr, g1, _, hb, hrep⟩

/-- C110: the endpoints of a node are those of the file, or none, or it was said on the wire by that node how many there
are, and they are numbered from 1 to one less than the number said (the last one is missing: C59). -/
theorem C110_endpoints (hg : GoodFile ns) (h : runSteps (wStep lv db) (wStart f ns) ls = some w) (hx : Arrived ls xs)
    (hc : w.sys.conn.crashed = none) {id : Int} {ref : Nat} (hl : w.sys.ctl.list.get id = some ref) (hid : id % 256 ≠ 0)
    {es : List Endpoint} (he : (w.sys.ctl.heap ref).node.endpoints = some es) :
    (∃ n ∈ ns, n.id = id ∧ ∃ es', n.endpoints = some es' ∧ es'.map Endpoint.id = es.map Endpoint.id) ∨ es = [] ∨
      ∃ fr ∈ onWire xs, ∃ (b : UInt8) (k : Nat), (b.toNat : Int) = id % 256 ∧ SaysEndpoints fr b k ∧ es.length = k - 1 ∧
        ∀ j : Nat, j < es.length → (es.map Endpoint.id)[j]? = some ((j + 1 : Nat) : Int) := by
  obtain ⟨-, hr⟩ := Verif.Lemmas.Process.run_parts h
  obtain ⟨h1, h2⟩ := (cinv hg hr).list id ref hl
  rcases epInv h ref h1 es he with ⟨n, e1, e2, e3⟩ | e | ⟨a, x, m, e1, e2, e3, e4⟩
  · rw [Option.map_eq_some_iff] at e3
    obtain ⟨es', e3, e4⟩ := e3
    exact .inl ⟨n, e1, e2.trans h2, es', e3, e4⟩
  · exact .inr (.inl e)
  · rw [h2] at e1
    simp only [askAt, Option.some.injEq] at e1
    subst e1
    obtain ⟨fr, g1, b, g2, g3⟩ := told_report h hx hc hid e2
    rw [e3] at g3
    have hlen : es.length = m.endpoints - 1 := by
      have := congrArg List.length e4
      simpa [epNums] using this
    refine .inr (.inr ⟨fr, g1, b, m.endpoints, g2, report_endpoints g3, hlen, fun j hj => ?_⟩)
    have e4 : es.map Endpoint.id = _ := e4
    rw [e4]
    simp [List.getElem?_range (by omega : j < m.endpoints - 1)]

/-- A node whose manufacturer was in the file is shown as in the file. -/
theorem file_product (hg : GoodFile ns) {s : CSt} (hr : CReach db f ns s) {n : Node} (hn : n ∈ ns) (hm : n.manufacturer ≠ none)
    {ref : Nat} (hl : s.list.get n.id = some ref) :
    (s.heap ref).node.brand = n.brand ∧ (s.heap ref).node.product = n.product ∧ (s.heap ref).node.description = n.description := by
  obtain ⟨k, hk⟩ := List.getElem?_of_mem hn
  obtain ⟨a1, a2⟩ := start_nodes (f := f) k n hk
  have hs : (start f ns).list.get n.id = some k := by
    rcases (cinv_start (f := f) hg).known k a1 with e | e
    · rw [(begun_start f ns).disc] at e; cases e
    · rw [a2] at e; exact e
  have := list_run hg hr hs
  rw [hl] at this
  cases this
  obtain ⟨ls, hls⟩ := hr
  have hb := (C105_known_stays db f ns hg _ s ⟨[], rfl⟩ ls hls ref a1).manu
  rw [a2] at hb
  exact (hb hm).2

/-- C110: what is shown as brand, product and description of a node is what the file said, or what the device database
says for the product that node reported on the wire. -/
theorem C110_product (hg : GoodFile ns) (h : runSteps (wStep lv db) (wStart f ns) ls = some w) (hx : Arrived ls xs)
    (hc : w.sys.conn.crashed = none) {id : Int} {ref : Nat} (hl : w.sys.ctl.list.get id = some ref) (hid : id % 256 ≠ 0) :
    let n := (w.sys.ctl.heap ref).node
    (∃ b ∈ ns, b.id = id ∧ n.brand = b.brand ∧ n.product = b.product ∧ n.description = b.description) ∨
    (n.brand = [] ∧ n.product = [] ∧ n.description = []) ∨
    ∃ fr ∈ onWire xs, ∃ (b : UInt8) (m t p : List Char) (d : Device), (b.toNat : Int) = id % 256 ∧ SaysProduct fr b m t p ∧
      db.device m t p = some d ∧ n.brand = d.brand ∧ n.product = d.product ∧ n.description = d.description := by
  intro n
  obtain ⟨-, hr⟩ := Verif.Lemmas.Process.run_parts h
  obtain ⟨h1, h2⟩ := (cinv hg hr).list id ref hl
  obtain ⟨b, hb, h3⟩ := prodInv hg hr h1
  have base : n.brand = b.brand ∧ n.product = b.product ∧ n.description = b.description →
      (∃ b ∈ ns, b.id = id ∧ n.brand = b.brand ∧ n.product = b.product ∧ n.description = b.description) ∨
      (n.brand = [] ∧ n.product = [] ∧ n.description = []) := by
    intro e
    rcases hb with ⟨b1, b2⟩ | rfl
    · exact .inl ⟨b, b1, b2.trans h2, e⟩
    · exact .inr e
  rcases h3 with ⟨-, h4⟩ | ⟨m, h0, h4, h5⟩
  · exact (base h4).imp (fun x => x) (Or.inl)
  · cases hd : db.device m.manufacturer m.type m.id with
    | none =>
      rw [hd] at h5
      exact (base h5).imp (fun x => x) (Or.inl)
    | some d =>
      rw [hd] at h5
      rcases (winv h).manu ref h1 m h4 with ⟨n', e1, e2, e3⟩ | ⟨a, x, e1, e2, e3⟩
      · exact .inl ⟨n', e1, e2.trans h2, file_product hg hr e1 (by rw [e3]; simp) (by rw [e2.trans h2]; exact hl)⟩
      · rw [h2] at e1
        simp only [askAt, Option.some.injEq] at e1
        subst e1
        obtain ⟨fr, g1, b, g2, g3⟩ := told_report h hx hc hid e2
        rw [e3] at g3
        exact .inr (.inr ⟨fr, g1, b, _, _, _, d, g2, report_product g3, hd, h5⟩)

theorem first_of {P : DevFile → Prop} : ∀ (fs : List DevFile), (∃ x ∈ fs, P x) →
    ∃ pre x post, fs = pre ++ x :: post ∧ P x ∧ ∀ g ∈ pre, ¬ P g
  | [], h => by obtain ⟨x, hx, -⟩ := h; cases hx
  | y :: fs, h => by
    by_cases hy : P y
    · exact ⟨[], y, fs, rfl, hy, (fun g hg => by cases hg)⟩
    · obtain ⟨x, hx, hp⟩ := h
      rcases List.mem_cons.1 hx with rfl | hx
      · exact absurd hp hy
      · obtain ⟨pre, z, post, e, h1, h2⟩ := first_of fs ⟨x, hx, hp⟩
        refine ⟨y :: pre, z, post, by rw [e]; rfl, h1, fun g hg => ?_⟩
        rcases List.mem_cons.1 hg with rfl | hg
        · exact hy
        · exact h2 g hg

/-- C110 with the committed device database: for a node that is not in the file nothing is shown as brand, product and
description, or it is what the first of the committed device files that lists the product says, and that node
reported this product on the wire. -/
theorem C110_product_committed (order : List ((UInt8 × UInt8) × List UInt8)) (hg : GoodFile ns)
    (h : runSteps (wStep lv (realDB order)) (wStart f ns) ls = some w) (hx : Arrived ls xs)
    (hc : w.sys.conn.crashed = none) {id : Int} {ref : Nat} (hl : w.sys.ctl.list.get id = some ref) (hid : id % 256 ≠ 0)
    (hn : ∀ n ∈ ns, n.id ≠ id) :
    let n := (w.sys.ctl.heap ref).node
    (n.brand = [] ∧ n.product = [] ∧ n.description = []) ∨
    ∃ fr ∈ onWire xs, ∃ (b : UInt8) (m t p : List Char), (b.toNat : Int) = id % 256 ∧ SaysProduct fr b m t p ∧
      ∃ pre fl post, devFiles = pre ++ fl :: post ∧ Lists fl m t p ∧ (∀ g ∈ pre, ¬ Lists g m t p) ∧
        n.brand = fl.name.toList ∧ n.product = fl.label.toList ∧ n.description = fl.description.toList := by
  intro n
  rcases C110_product hg h hx hc hl hid with ⟨b, h1, h2, -⟩ | h1 | ⟨fr, h1, b, m, t, p, d, h2, h3, h4, h5, h6, h7⟩
  · exact absurd h2 (hn b h1)
  · exact .inl h1
  · have h4 : newDevice devRows m t p = some d := h4
    have hex : ∃ fl ∈ devFiles, Lists fl m t p := by
      refine (C108_found_iff_listed devFiles files_wellFormed m t p).1 ?_
      rw [C107_committed_table, h4]
      rfl
    obtain ⟨pre, fl, post, e, k1, k2⟩ := first_of devFiles hex
    obtain ⟨d', k3, k4⟩ := C108_first_file pre post fl (by rw [← e]; exact files_wellFormed) m t p k1 k2
    rw [← e, C107_committed_table, h4] at k3
    cases k3
    exact .inr ⟨fr, h1, b, m, t, p, h2, h3, pre, fl, post, e, k1, k2, h5.trans k4.1, h6.trans k4.2.1, h7.trans k4.2.2.1⟩

/-! ### The device class -/

theorem crun_heap {s t : CSt} {l : List CLabel} {ref : Nat} (h : cRun db s l = some t) (hlt : ref < s.nHeap) : ref < t.nHeap :=
  crun_induct (P := fun x => ref < x.nHeap) (fun a l b p hb => Nat.lt_of_lt_of_le p (nHeap_step hb)) l _ _ hlt h


/-- C110: `IsDeviceClass` does not panic, whatever the node does between its reads; what it says is right when it returns,
and if anything was known when it was called, also if it says no. -/
theorem C110_device_class (hg : GoodFile ns) {s1 s2 s3 : CSt} (hr : CReach db f ns s1) {l2 l3 : List CLabel}
    (h2 : cRun db s1 l2 = some s2) (h3 : cRun db s2 l3 = some s3) {ref : Nat} (hlt : ref < s1.nHeap) (g sp : UInt8) :
    ∃ a, isDeviceClass (s1.heap ref).node.protocolInfo (s2.heap ref).node.protocolInfo (s3.heap ref).node.protocolInfo g sp =
        .ok a ∧
      (a = true → ∃ p, (s3.heap ref).node.protocolInfo = some p ∧ p.generic = g ∧ p.specific = sp) ∧
      ((s1.heap ref).node.protocolInfo ≠ none →
        (∃ p, (s3.heap ref).node.protocolInfo = some p ∧ p.generic = g ∧ p.specific = sp) → a = true) := by
  have hr2 := creach_run hr h2
  have hlt2 : ref < s2.nHeap := crun_heap h2 hlt
  have k2 := (C105_known_stays db f ns hg s1 s2 hr l2 h2 ref hlt).info
  have k3 := (C105_known_stays db f ns hg s2 s3 hr2 l3 h3 ref hlt2).info
  unfold isDeviceClass
  cases e1 : (s1.heap ref).node.protocolInfo with
  | none => exact ⟨false, rfl, (fun h => by cases h), fun h => absurd rfl h⟩
  | some p =>
    have e2 : (s2.heap ref).node.protocolInfo = some p := ((k2 (by rw [e1]; simp)).1).trans e1
    have e3 : (s3.heap ref).node.protocolInfo = some p := ((k3 (by rw [e2]; simp)).1).trans e2
    rw [e2, e3]
    simp only
    split
    · next hg =>
      refine ⟨_, rfl, fun h => ⟨p, rfl, hg, by simpa using h⟩, fun _ ⟨q, hq, _, h2⟩ => ?_⟩
      cases hq
      simpa using h2
    · next hg =>
      refine ⟨false, rfl, (fun h => by cases h), fun _ ⟨q, hq, h1, _⟩ => ?_⟩
      cases hq
      exact absurd h1 hg

/-- C110: a node has one device class, and it keeps it. -/
theorem C110_one_class (hg : GoodFile ns) {s t : CSt} (hr : CReach db f ns s) {l : List CLabel}
    (h : cRun db s l = some t) {ref : Nat} (hlt : ref < s.nHeap) {g sp g' sp' : UInt8}
    (h1 : isDeviceClass (s.heap ref).node.protocolInfo (s.heap ref).node.protocolInfo (s.heap ref).node.protocolInfo g sp = .ok true) :
    isDeviceClass (t.heap ref).node.protocolInfo (t.heap ref).node.protocolInfo (t.heap ref).node.protocolInfo g' sp' =
      .ok (decide (g' = g ∧ sp' = sp)) := by
  have k := (C105_known_stays db f ns hg s t hr l h ref hlt).info
  unfold isDeviceClass at h1
  cases e1 : (s.heap ref).node.protocolInfo with
  | none => rw [e1] at h1; cases h1
  | some p =>
    rw [e1] at h1
    simp only at h1
    split at h1
    · next hq =>
      have e2 : (t.heap ref).node.protocolInfo = some p := ((k (by rw [e1]; simp)).1).trans e1
      simp only [Except.ok.injEq, beq_iff_eq] at h1
      rw [e2, ← hq, ← h1]
      unfold isDeviceClass
      simp only
      by_cases a : p.generic = g' <;> by_cases b : p.specific = sp' <;> grind
    · cases h1

/-- C110: a device class that is shown was said on the wire. -/
theorem C110_class_said (hg : GoodFile ns) (h : runSteps (wStep lv db) (wStart f ns) ls = some w) (hx : Arrived ls xs)
    (hc : w.sys.conn.crashed = none) {id : Int} {ref : Nat} (hl : w.sys.ctl.list.get id = some ref) {g sp : UInt8}
    (h1 : isDeviceClass (w.sys.ctl.heap ref).node.protocolInfo (w.sys.ctl.heap ref).node.protocolInfo
      (w.sys.ctl.heap ref).node.protocolInfo g sp = .ok true) :
    ∃ fr ∈ onWire xs, ∃ p, SaysInfo fr p ∧ p.generic = g ∧ p.specific = sp := by
  unfold isDeviceClass at h1
  cases e : (w.sys.ctl.heap ref).node.protocolInfo with
  | none => rw [e] at h1; cases h1
  | some p =>
    rw [e] at h1
    simp only at h1
    split at h1
    · next hq =>
      obtain ⟨fr, k1, k2⟩ := C102_protocol_info hg h hx hc hl e
      exact ⟨fr, k1, p, k2, hq, by simpa using h1⟩
    · cases h1

/-! ### A run: the one of C102, in which node 2 in the end says that it has two endpoints -/

def jEps : List UInt8 := [1, 10, 0, 4, 0, 2, 4, 96, 8, 0, 2, 157]

def jls4 : List WLabel :=
  jNext 0 3 ++ [.ask (.ident 0 0)] ++ jSend 4 ++ jRead jEps [4] 4 ++ jc [.client 4 .handle] ++
    jt [.node 0 (.ident 0 (.report (.multiChannelEndpoints ⟨false, false, 2⟩)))]

def jwE : Whole := (runSteps (wStep .perIteration demoDB) (wStart false []) (jls ++ jls4)).getD (wStart false [])

theorem jwE_run : runSteps (wStep .perIteration demoDB) (wStart false []) (jls ++ jls4) = some jwE := by
  have : (runSteps (wStep .perIteration demoDB) (wStart false []) (jls ++ jls4)).isSome := by decide +kernel
  rw [Option.isSome_iff_exists] at this
  obtain ⟨w, hw⟩ := this
  rw [hw, jwE, hw]
  rfl

def jSessionE : Session := [jDisc, jInfo, jManu, jEps].map fun fr => (⟨[.frame fr], none⟩, ⟨fr, true, 0⟩, [])

theorem jArrivedE : Arrived (jls ++ jls4) [jSessionE, []] := by
  refine ⟨by decide +kernel, fun x hx => ?_⟩
  simp at hx
  rcases hx with rfl | rfl
  case inr => intro b hb; cases hb
  intro b hb
  have hb : b ∈ jSession ∨ b = (⟨[.frame jEps], none⟩, ⟨jEps, true, 0⟩, []) := by
    simp [jSessionE, jSession] at hb ⊢
    rcases hb with hb | hb | hb | hb <;> simp [hb]
  rcases hb with hb | rfl
  · exact jArrived.2 jSession (by simp) b hb
  · refine ⟨⟨?_, by simp⟩, by simp, by decide⟩
    intro t ht; simp at ht; subst ht
    exact ⟨[0, 4, 0, 2, 4, 96, 8, 0, 2], ⟨10, 157, rfl, rfl, by decide⟩,
      .inl ⟨0, 0, 2, 4, [96, 8, 0, 2], rfl, by decide, by decide, by decide⟩⟩

theorem jwE_facts : jwE.sys.conn.crashed = none ∧ jwE.sys.ctl.list.get 2 = some 0 ∧
    (jwE.sys.ctl.heap 0).node.brand = "Aeon".toList ∧
    (jwE.sys.ctl.heap 0).node.endpoints.map (fun es => es.map Endpoint.id) = some [1] ∧
    isDeviceClass (jwE.sys.ctl.heap 0).node.protocolInfo (jwE.sys.ctl.heap 0).node.protocolInfo
      (jwE.sys.ctl.heap 0).node.protocolInfo 0x10 1 = .ok true := by decide +kernel

/-- The theorems above apply to it: what is shown was said. -/
example : ∃ fr ∈ onWire [jSessionE, []], ∃ (b : UInt8) (k : Nat), (b.toNat : Int) = 2 % 256 ∧ SaysEndpoints fr b k ∧ 1 = k - 1 := by
  have h := jwE_facts.2.2.2.1
  rw [Option.map_eq_some_iff] at h
  obtain ⟨es, h1, h2⟩ := h
  have hlen : es.length = 1 := by have := congrArg List.length h2; simpa using this
  rcases C110_endpoints noFileGood jwE_run jArrivedE jwE_facts.1 jwE_facts.2.1 (by decide) h1 with
    ⟨n, hn, -⟩ | rfl | ⟨fr, a, b, k, c, d, e, -⟩
  · cases hn
  · cases hlen
  · exact ⟨fr, a, b, k, c, d, by omega⟩

example : ∃ fr ∈ onWire [jSessionE, []], ∃ (b : UInt8) (m t p : List Char) (d : Device), (b.toNat : Int) = 2 % 256 ∧
    SaysProduct fr b m t p ∧ demoDB.device m t p = some d ∧ d.brand = "Aeon".toList := by
  rcases C110_product noFileGood jwE_run jArrivedE jwE_facts.1 jwE_facts.2.1 (by decide) with
    ⟨n, hn, -⟩ | ⟨h1, -⟩ | ⟨fr, a, b, m, t, p, d, c, e, g, k, -⟩
  · cases hn
  · rw [jwE_facts.2.2.1] at h1; simp at h1
  · exact ⟨fr, a, b, m, t, p, d, c, e, g, by rw [← k]; exact jwE_facts.2.2.1⟩

example : ∃ fr ∈ onWire [jSessionE, []], ∃ p, SaysInfo fr p ∧ p.generic = 0x10 ∧ p.specific = 1 :=
  C110_class_said noFileGood jwE_run jArrivedE jwE_facts.1 jwE_facts.2.1 jwE_facts.2.2.2.2

/-- The run of C102 with the committed device table (and no mandatory classes): node 2 is shown as the DSC06 of AEON Labs. -/
def jwR : Whole := (runSteps (wStep .perIteration (realDB [])) (wStart false []) jls).getD (wStart false [])

theorem jwR_run : runSteps (wStep .perIteration (realDB [])) (wStart false []) jls = some jwR := by
  have : (runSteps (wStep .perIteration (realDB [])) (wStart false []) jls).isSome := by decide +kernel
  rw [Option.isSome_iff_exists] at this
  obtain ⟨w, hw⟩ := this
  rw [hw, jwR, hw]
  rfl

example : ∃ fl ∈ devFiles, fl.name.toList = "AEON Labs".toList ∧ fl.label.toList = "DSC06".toList := by
  have hf : jwR.sys.conn.crashed = none ∧ jwR.sys.ctl.list.get 2 = some 0 ∧
      (jwR.sys.ctl.heap 0).node.brand = "AEON Labs".toList ∧ (jwR.sys.ctl.heap 0).node.product = "DSC06".toList := by
    decide +kernel
  obtain ⟨h1, h2, h3, h4⟩ := hf
  rcases C110_product_committed [] noFileGood jwR_run jArrived h1 h2 (by decide) (fun n hn => by cases hn) with
    ⟨k1, -⟩ | ⟨fr, -, b, m, t, p, -, -, pre, fl, post, e, -, -, k1, k2, -⟩
  · rw [h3] at k1; simp at k1
  · exact ⟨fl, by rw [e]; simp, k1.symm.trans h3, k2.symm.trans h4⟩

/-- Not every frame says it. -/
example : ¬ ∃ b k, SaysEndpoints jManu b k := by
  rintro ⟨b, k, x, y, rest, ⟨ty, rx, n, rest', ⟨len, ck, h, -⟩, -⟩, -⟩
  simp [jManu] at h

/-- Before the protocol information is known `IsDeviceClass` says no; torn reads could panic if what is known were lost. -/
example : isDeviceClass none (some jp) (some jp) 0x10 1 = .ok false ∧ isDeviceClass (some jp) none none 0x10 1 = .error .nilDeref ∧
    isDeviceClass (some jp) (some jp) (some jp) 0x10 2 = .ok false := by decide

end Verif.Props
