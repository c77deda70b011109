import Verif.Spec.Recorder
import Verif.Lemmas.Recorder

/-
C92, C93: recordings of the traffic.
-/

set_option linter.unusedSimpArgs false
set_option linter.unusedVariables false

namespace Verif.Props

open Verif.Model Verif.Model.Rec Verif.Spec Verif.Lemmas.Rec

/-! ## C92 -/

theorem calls_are_traffic {s s' : St} {ls : List Label} (h : Rec.run s ls = some s') :
    (List.range s'.nCall).map (fun i => ((s'.call i).write, (s'.call i).data)) =
      (List.range s.nCall).map (fun i => ((s.call i).write, (s.call i).data)) ++ traffic s.mem ls := by
  have key : ∀ (s : St) (c : Call), (List.range (s.nCall + 1)).map
      (fun i => ((upd s.call s.nCall c i).write, (upd s.call s.nCall c i).data)) =
      (List.range s.nCall).map (fun i => ((s.call i).write, (s.call i).data)) ++ [(c.write, c.data)] := by
    intro s c
    rw [List.range_succ, List.map_append]
    congr 1
    · apply List.map_congr_left
      intro i hi
      have := List.mem_range.1 hi
      simp only [upd_apply]
      rw [if_neg (by omega)]
    · simp [upd_apply]
  induction ls generalizing s with
  | nil => cases h; simp [traffic]
  | cons l ls ih =>
    simp only [Rec.run, Option.bind_eq_some_iff] at h
    obtain ⟨a, h1, h2⟩ := h
    rw [ih h2]
    cases l with
    | «open» => cases h1; rfl
    | set b bytes => cases h1; rfl
    | read b bytes => rec_step h1; rw [key]; simp only [List.append_assoc]; rfl
    | write b n => rec_step h1; rw [key]; simp only [List.append_assoc]; rfl
    | stamp i t => rec_step h1; rfl
    | send i => rec_step h1; rfl
    | take e => rec_step h1; rfl
    | encode e => rec_step h1 <;> rfl

theorem traffic_get {s : St} {ls : List Label} (h : Rec.run Rec.init ls = some s) :
    (traffic (fun _ => []) ls).length = s.nCall ∧
    ∀ i < s.nCall, (traffic (fun _ => []) ls)[i]? = some ((s.call i).write, (s.call i).data) := by
  have e := calls_are_traffic h
  have e' : traffic (fun _ => []) ls = (List.range s.nCall).map (fun i => ((s.call i).write, (s.call i).data)) := by
    rw [e]; simp [Rec.init]
  rw [e']
  exact ⟨by simp, fun i hi => by simp [hi]⟩

theorem log_lt {s : St} (h : Inv s) {i : Nat} (hm : i ∈ s.log) : i < s.nCall := by
  have a := (h.log i).1 hm
  exact Classical.byContradiction fun hn => by rw [h.fresh i (by omega)] at a; cases a

theorem rows_of_log {s : St} {ls : List Label} (h : KeepRun Rec.init ls s) :
    RowsOf (traffic (fun _ => []) ls) (rows s.out) s.log := by
  have hi := inv ⟨ls, h.run⟩
  have hd := dataInv h
  obtain ⟨t1, t2⟩ := traffic_get h.run
  refine ⟨hi.logNd, fun i hm => by rw [t1]; exact log_lt hi hm, ?_⟩
  rw [hd.out, List.map_map]
  apply List.map_congr_left
  intro i hm
  rw [t2 i (log_lt hi hm)]
  rfl

theorem decoded_rows {s : St} (h : Reachable s) {rs : List RecRow} (hd : decodeAll s.out = some rs) :
    rs = rows s.out := by
  by_cases h1 : nDefined s ≤ 1
  · by_cases h2 : s.out = [.defs]
    · rw [decode_none h (.inr h2)] at hd; cases hd
    · rw [decode_some h h1 h2] at hd; cases hd; rfl
  · rw [decode_none h (.inl (by omega))] at hd; cases hd

/-- C92, if no caller changes a buffer after passing it on (gozwave's own code does not): whatever is decoded from
a recording are rows of calls with the right direction and exactly the bytes that passed the port; no call is recorded
twice. (Missing: buffers that are used again, see `C92_violated_reused_buffer`; order, see below.) -/
theorem C92_only_traffic_partial {s : St} {ls : List Label} (h : KeepRun Rec.init ls s) {rs : List RecRow}
    (hd : decodeAll s.out = some rs) : ∃ l, RowsOf (traffic (fun _ => []) ls) rs l := by
  rw [decoded_rows ⟨ls, h.run⟩ hd]
  exact ⟨_, rows_of_log h⟩

theorem defined_row {s : St} (h : Reachable s) : ∀ e, (s.enc e).defined = true → (s.enc e).row ≠ none ∨ s.log ≠ [] := by
  obtain ⟨ls, h⟩ := h
  refine run_induct (P := fun s => ∀ e, (s.enc e).defined = true → (s.enc e).row ≠ none ∨ s.log ≠ []) h
    (by simp [Rec.init]) ?_
  intro a l b ha hs
  cases l <;> rec_step hs <;> first | grind | simp

/-- C92, with one `Open`: nothing is lost. At every moment the recorder can, by itself, bring the recording to a state
where it decodes and every call so far is in it exactly once. -/
theorem C92_nothing_lost_partial {s : St} {ls : List Label} (h : KeepRun Rec.init ls s) (h1 : s.nEnc = 1) :
    ∃ ls' s' rs l, (∀ x ∈ ls', own x = true) ∧ Rec.run s ls' = some s' ∧ decodeAll s'.out = some rs ∧
      RowsOf (traffic (fun _ => []) ls) rs l ∧ ∀ i < (traffic (fun _ => []) ls).length, i ∈ l := by
  have hr : Reachable s := ⟨ls, h.run⟩
  obtain ⟨ls', s', a1, a2, a3, a4, a5, a6⟩ := drains (inv hr) (by omega)
  have hr' := reach_run hr a2
  have hk : KeepRun Rec.init (ls ++ ls') s' := h.append (own_keeps a2 a1)
  have ht : traffic (fun _ => []) (ls ++ ls') = traffic (fun _ => []) ls := by
    apply List.ext_getElem?
    intro i
    obtain ⟨t1, t2⟩ := traffic_get h.run
    obtain ⟨t3, t4⟩ := traffic_get hk.run
    by_cases hi : i < s.nCall
    · rw [t2 i hi, t4 i (by omega), a4]
    · rw [List.getElem?_eq_none (by omega), List.getElem?_eq_none (by omega)]
  have hrows := rows_of_log hk
  rw [ht] at hrows
  have hn : nDefined s' ≤ 1 := by
    unfold nDefined
    rw [a5, h1]
    exact Nat.le_trans List.countP_le_length (by simp)
  have ho : s'.out ≠ [.defs] := by
    intro ho
    have hc := (defInv hr').count
    rw [ho] at hc
    have : 0 < nDefined s' := by rw [← hc]; decide
    unfold nDefined at this
    rw [List.countP_pos_iff] at this
    obtain ⟨e, -, he⟩ := this
    have hl : s'.log = [] := by
      have := (dataInv hk).out
      rw [ho] at this
      exact (List.map_eq_nil_iff.1 this.symm)
    rcases defined_row hr' e he with hx | hx
    · cases hrow : (s'.enc e).row with
      | none => exact hx hrow
      | some i =>
        have hp := ((inv hr').enc e i).1 hrow
        have : i < s.nCall := by
          rw [← a3]
          exact Classical.byContradiction fun hn => by rw [(inv hr').fresh i (by omega)] at hp; cases hp
        rw [a6 i this] at hp
        cases hp
    · exact hx hl
  refine ⟨ls', s', _, _, a1, a2, decode_some hr' hn ho, hrows, fun i hi => ?_⟩
  rw [(traffic_get h.run).1] at hi
  exact ((inv hr').log i).2 (a6 i hi)

/-- C92, order, with one `Open`: the row of a call that was made after the row of an earlier call had entered the
channel follows it in the recording. -/
theorem C92_order_partial {s1 s2 : St} {ls : List Label} (h1 : Reachable s1) {i j : Nat} (hi : i < s1.nCall)
    (hp : s1.place i ≠ .started) (hp' : s1.place i ≠ .stamped) (hj : s1.nCall ≤ j) (h2 : Rec.run s1 ls = some s2)
    (hn : s2.nEnc ≤ 1) {a b : List Nat} (hl : s2.log = a ++ j :: b) : i ∈ a := by
  have hin : i ∈ seq s1 := by
    have hI := inv h1
    have hm := nEnc_mono h2
    simp only [seq, List.mem_append, Option.mem_toList]
    cases hpl : s1.place i with
    | started => exact absurd hpl hp
    | stamped => exact absurd hpl hp'
    | queued => exact .inr (.inr ((hI.queue i).2 hpl))
    | encoding e =>
      have hr := (hI.enc e i).2 hpl
      have : e = 0 := by
        by_cases he : s1.nEnc ≤ e
        · rw [hI.encFresh e he] at hr; cases hr
        · omega
      subst this
      exact .inr (.inl hr)
    | logged => exact .inl ((hI.log i).2 hpl)
  have hnot : j ∉ seq s1 := by
    have hI := inv h1
    have hf := hI.fresh j hj
    simp only [seq, List.mem_append, Option.mem_toList]
    rintro (h | h | h)
    · have := (hI.log j).1 h; rw [hf] at this; cases this
    · have := (hI.enc 0 j).1 h; rw [hf] at this; cases this
    · have := (hI.queue j).1 h; rw [hf] at this; cases this
  obtain ⟨t, ht⟩ := seq_run h2 hn
  have e : a ++ (j :: (b ++ ((s2.enc 0).row.toList ++ s2.queue))) = seq s1 ++ t := by
    rw [← ht, seq, hl]; simp
  rcases List.append_eq_append_iff.1 e with ⟨c, hc1, hc2⟩ | ⟨c, hc1, hc2⟩
  · cases c with
    | nil => simp at hc1; rw [← hc1]; exact hin
    | cons x c =>
      simp at hc2
      exact absurd (by rw [hc1, hc2.1]; simp) hnot
  · rw [hc1]; exact List.mem_append_left _ hin

/-- A recording of two reads and a write. -/
def exRecord : List Label :=
  [.open, .set 0 [0, 0], .read 0 [1], .set 1 [0, 0], .read 1 [2, 3], .set 2 [6], .write 2 1,
    .stamp 0 10, .stamp 1 20, .stamp 2 30, .send 0, .send 2, .take 0, .encode 0, .encode 0, .send 1, .take 0, .encode 0]

example : (Rec.run Rec.init exRecord).map (fun s => (decodeAll s.out, s.nEnc, s.place 1)) =
    some (some [⟨10, false, [1]⟩, ⟨30, true, [6]⟩], 1, .queued) := by decide +kernel

example : traffic (fun _ => []) exRecord = [(false, [1]), (false, [2, 3]), (true, [6])] := by decide +kernel

/-- Whether no buffer is changed. -/
def keepsB : St → List Label → Bool
  | _, [] => true
  | s, l :: ls =>
    (match l with
      | .set b _ => (List.range s.nCall).all fun i => (s.call i).buf != b
      | .read b _ => (List.range s.nCall).all fun i => (s.call i).buf != b
      | _ => true) &&
    match step s l with
    | some s' => keepsB s' ls
    | none => false

theorem keepRun_of {s : St} {ls : List Label} (h : keepsB s ls = true) : ∃ s', KeepRun s ls s' := by
  induction ls generalizing s with
  | nil => exact ⟨s, .nil s⟩
  | cons l ls ih =>
    simp only [keepsB, Bool.and_eq_true] at h
    obtain ⟨h1, h2⟩ := h
    split at h2
    · rename_i a ha
      obtain ⟨s', hs'⟩ := ih h2
      refine ⟨s', .cons ?_ ha hs'⟩
      cases l with
      | set b _ => simpa [Keeps] using h1
      | read b _ => simpa [Keeps] using h1
      | _ => trivial
    · cases h2

example : ∃ s, KeepRun Rec.init exRecord s := keepRun_of (by decide +kernel)

/-- C92 is false for callers that use a buffer again: the second read replaces the data of the first row. -/
theorem C92_violated_reused_buffer : ∃ ls s, Rec.run Rec.init ls = some s ∧ s.nEnc = 1 ∧
    traffic (fun _ => []) ls = [(false, [1]), (false, [2])] ∧
    decodeAll s.out = some [⟨10, false, [2]⟩, ⟨20, false, [2]⟩] := by
  have h : (Rec.run Rec.init [.open, .set 0 [0], .read 0 [1], .read 0 [2], .stamp 0 10, .stamp 1 20, .send 0, .send 1,
      .take 0, .encode 0, .encode 0, .take 0, .encode 0]).map (fun s => (s.nEnc, decodeAll s.out)) =
      some (1, some [⟨10, false, [2]⟩, ⟨20, false, [2]⟩]) := by decide +kernel
  obtain ⟨s, h1, h2⟩ := Option.map_eq_some_iff.1 h
  simp only [Prod.mk.injEq] at h2
  exact ⟨_, s, h1, h2.1, by decide +kernel, h2.2⟩

/-- C92, order, is false in general: the goroutines of two reads run in the other order. The time stamps are taken in
the goroutines, so sorting by time does not help. -/
theorem C92_violated_order : ∃ ls s, KeepRun Rec.init ls s ∧ s.nEnc = 1 ∧
    traffic (fun _ => []) ls = [(false, [1]), (false, [2])] ∧
    decodeAll s.out = some [⟨10, false, [2]⟩, ⟨20, false, [1]⟩] := by
  let ls : List Label := [.open, .set 0 [0], .read 0 [1], .set 1 [0], .read 1 [2], .stamp 1 10, .stamp 0 20, .send 1,
      .send 0, .take 0, .encode 0, .encode 0, .take 0, .encode 0]
  have h : (Rec.run Rec.init ls).map (fun s => (s.nEnc, decodeAll s.out)) =
      some (1, some [⟨10, false, [2]⟩, ⟨20, false, [1]⟩]) := by decide +kernel
  obtain ⟨s', hk⟩ := keepRun_of (s := Rec.init) (ls := ls) (by decide +kernel)
  obtain ⟨s, h1, h2⟩ := Option.map_eq_some_iff.1 h
  simp only [Prod.mk.injEq] at h2
  have : s' = s := by have := hk.run; rw [h1] at this; cases this; rfl
  subst this
  exact ⟨_, s', hk, h2.1, by decide +kernel, h2.2⟩

/-! ## C93 -/

/-- C93, exactly: a recording can be decoded if and only if at most one of the log writers, one per `Open`, has written
to it (and it does not end right after the first definitions). -/
theorem C93_decodable_iff {s : St} (h : Reachable s) :
    (∃ rs, decodeAll s.out = some rs) ↔
      (List.range s.nEnc).countP (fun e => (s.enc e).defined) ≤ 1 ∧ s.out ≠ [.defs] := by
  constructor
  · rintro ⟨rs, hd⟩
    refine ⟨?_, ?_⟩
    · exact Classical.byContradiction fun hn => by
        rw [decode_none h (.inl (by unfold nDefined; omega))] at hd; cases hd
    · intro ho; rw [decode_none h (.inr ho)] at hd; cases hd
  · rintro ⟨h1, h2⟩
    exact ⟨_, decode_some h h1 h2⟩

theorem defined_mono {s s' : St} {l : Label} (hs : step s l = some s') :
    s.nEnc ≤ s'.nEnc ∧ ∀ e, (s.enc e).defined = true → (s'.enc e).defined = true := by
  cases l <;> rec_step hs <;> grind

/-- C93: a recording that two log writers have written to stays unreadable, whatever happens later. -/
theorem C93_never_again {s s' : St} {ls : List Label} (h : Reachable s)
    (h2 : 2 ≤ (List.range s.nEnc).countP fun e => (s.enc e).defined) (hr : Rec.run s ls = some s') :
    decodeAll s'.out = none := by
  refine decode_none (reach_run h hr) (.inl ?_)
  refine run_induct (P := fun a => 2 ≤ nDefined a) hr h2 ?_
  intro a l b ha hs
  obtain ⟨m1, m2⟩ := defined_mono hs
  refine Nat.le_trans ha ?_
  unfold nDefined
  refine Nat.le_trans (List.countP_mono_left fun e _ => m2 e) ?_
  exact List.Sublist.countP_le (List.range_sublist.2 m1)

/-- C93 is false: after a reconnect (a second `Open`) rows of both log writers make the whole recording unreadable,
including what was recorded before. -/
theorem C93_violated_reconnect : ∃ ls s, KeepRun Rec.init ls s ∧
    traffic (fun _ => []) ls = [(false, [1]), (false, [2])] ∧
    s.out = [.defs, .row ⟨10, false, [1]⟩, .defs, .row ⟨20, false, [2]⟩] ∧ decodeAll s.out = none := by
  let ls : List Label := [.open, .set 0 [0], .read 0 [1], .stamp 0 10, .send 0, .take 0, .encode 0, .encode 0, .open,
    .set 1 [0], .read 1 [2], .stamp 1 20, .send 1, .take 1, .encode 1, .encode 1]
  have h : (Rec.run Rec.init ls).map (fun s => s.out) =
      some [.defs, .row ⟨10, false, [1]⟩, .defs, .row ⟨20, false, [2]⟩] := by decide +kernel
  obtain ⟨s', hk⟩ := keepRun_of (s := Rec.init) (ls := ls) (by decide +kernel)
  obtain ⟨s, h1, h2⟩ := Option.map_eq_some_iff.1 h
  have : s' = s := by have := hk.run; rw [h1] at this; cases this; rfl
  subst this
  exact ⟨_, s', hk, by decide +kernel, h2, by rw [h2]; decide⟩

/-- A reachable state for `C93_never_again`. -/
example : ∃ s, Reachable s ∧ 2 ≤ (List.range s.nEnc).countP fun e => (s.enc e).defined := by
  have h : (Rec.run Rec.init [.open, .open, .set 0 [0], .read 0 [1], .read 0 [2], .stamp 0 10, .send 0, .stamp 1 11,
      .send 1, .take 0, .take 1, .encode 0, .encode 1]).map
      (fun s => (List.range s.nEnc).countP fun e => (s.enc e).defined) = some 2 := by decide +kernel
  obtain ⟨s, h1, h2⟩ := Option.map_eq_some_iff.1 h
  exact ⟨s, ⟨_, h1⟩, by rw [h2]; omega⟩

end Verif.Props
