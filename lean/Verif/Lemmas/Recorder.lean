import Verif.Model.Recorder

/-
Invariants of the recorder machine.
-/

set_option linter.unusedSimpArgs false
set_option linter.unusedVariables false

namespace Verif.Lemmas.Rec

open Verif.Model Verif.Model.Rec

theorem run_append (s : St) (a b : List Label) : run s (a ++ b) = (run s a).bind fun s' => run s' b := by
  induction a generalizing s with
  | nil => rfl
  | cons l ls ih =>
    simp only [List.cons_append, run]
    cases step s l with
    | none => rfl
    | some s' => simp [ih]

theorem run_induct {P : St → Prop} {s s' : St} {ls : List Label} (h : run s ls = some s') (h0 : P s)
    (hs : ∀ a l b, P a → step a l = some b → P b) : P s' := by
  induction ls generalizing s with
  | nil => cases h; exact h0
  | cons l ls ih =>
    simp only [run, Option.bind_eq_some_iff] at h
    obtain ⟨a, h1, h2⟩ := h
    exact ih h2 (hs _ _ _ h0 h1)

theorem reach_run {s s' : St} {ls : List Label} (h : Reachable s) (hr : run s ls = some s') : Reachable s' := by
  obtain ⟨l0, h0⟩ := h
  exact ⟨l0 ++ ls, by rw [run_append, h0]; exact hr⟩

@[grind =] theorem upd_apply {α : Type} (m : Nat → α) (i : Nat) (a : α) (j : Nat) :
    upd m i a j = if j = i then a else m j := rfl

/-- Where the rows are. -/
structure Inv (s : St) : Prop where
  fresh : ∀ i, s.nCall ≤ i → s.place i = .started
  queueNd : s.queue.Nodup
  queue : ∀ i, i ∈ s.queue ↔ s.place i = .queued
  encFresh : ∀ e, s.nEnc ≤ e → s.enc e = ⟨false, none⟩
  enc : ∀ e i, (s.enc e).row = some i ↔ s.place i = .encoding e
  logNd : s.log.Nodup
  log : ∀ i, i ∈ s.log ↔ s.place i = .logged

theorem inv_init : Inv init := by
  constructor <;> simp [init]

theorem inv_step {s s' : St} {l : Label} (h : Inv s) (hs : step s l = some s') : Inv s' := by
  obtain ⟨h1, h2, h3, h4, h5, h6, h7⟩ := h
  cases l with
  | «open» => cases hs; constructor <;> grind
  | set b bytes => cases hs; constructor <;> grind
  | read b bytes => simp only [step] at hs; split at hs <;> cases hs; constructor <;> grind
  | write b n => simp only [step] at hs; split at hs <;> cases hs; constructor <;> grind
  | stamp i t => simp only [step] at hs; split at hs <;> cases hs; constructor <;> grind
  | send i => simp only [step] at hs; split at hs <;> cases hs; constructor <;> grind
  | take e =>
    simp only [step] at hs
    split at hs
    · split at hs <;> cases hs
      constructor <;> grind
    · cases hs
  | encode e =>
    simp only [step] at hs
    split at hs
    · split at hs
      · split at hs <;> cases hs <;> constructor <;> grind
      · cases hs
    · cases hs

theorem inv {s : St} (h : Reachable s) : Inv s := by
  obtain ⟨ls, h⟩ := h
  exact run_induct h inv_init fun _ _ _ => inv_step

/-- A case analysis of one step. -/
macro "rec_step" h:ident : tactic => `(tactic| (
  simp only [step] at $h:ident
  repeat' split at $h:ident
  all_goals first | (exfalso; exact Option.noConfusion $h) | cases $h:ident))

/-! ### definitions -/

/-- Number of log writers that have written definitions. -/
def nDefined (s : St) : Nat := (List.range s.nEnc).countP fun e => (s.enc e).defined

theorem countP_upd (f : Nat → Bool) (k n : Nat) (hk : k < n) (hf : f k = false) :
    (List.range n).countP (fun j => if j = k then true else f j) = (List.range n).countP f + 1 := by
  induction n with
  | zero => omega
  | succ n ih =>
    rw [List.range_succ, List.countP_append, List.countP_append]
    by_cases e : k = n
    · subst e
      have : (List.range k).countP (fun j => if j = k then true else f j) = (List.range k).countP f := by
        apply List.countP_congr
        intro x hx
        have := List.mem_range.1 hx
        rw [if_neg (by omega)]
      rw [this]
      simp [hf]
    · rw [ih (by omega)]
      have : ¬ n = k := fun h => e h.symm
      simp [this]
      omega

def isDefs : Item → Bool
  | .defs => true
  | .row _ => false

def rows : List Item → List RecRow
  | [] => []
  | .defs :: is => rows is
  | .row r :: is => r :: rows is

theorem rows_append (a b : List Item) : rows (a ++ b) = rows a ++ rows b := by
  induction a with
  | nil => rfl
  | cons x a ih => cases x <;> simp [rows, ih]

structure DefInv (s : St) : Prop where
  count : s.out.countP isDefs = nDefined s
  head : s.out = [] ∨ s.out.head? = some .defs
  defined : ∀ e, (s.enc e).defined = true → s.out ≠ []

theorem def_step {s s' : St} {l : Label} (hi : Inv s) (h : DefInv s) (hs : step s l = some s') : DefInv s' := by
  obtain ⟨h1, h2, h3⟩ := h
  cases l with
  | «open» =>
    cases hs
    refine ⟨?_, h2, h3⟩
    rw [h1]
    simp [nDefined, List.range_succ, hi.encFresh s.nEnc (Nat.le_refl _)]
  | set b bytes => cases hs; exact ⟨h1, h2, h3⟩
  | read b bytes => rec_step hs; exact ⟨h1, h2, h3⟩
  | write b n => rec_step hs; exact ⟨h1, h2, h3⟩
  | stamp i t => rec_step hs; exact ⟨h1, h2, h3⟩
  | send i => rec_step hs; exact ⟨h1, h2, h3⟩
  | take e =>
    rec_step hs
    refine ⟨?_, h2, ?_⟩
    · rw [h1]; unfold nDefined
      apply List.countP_congr
      intro x _
      grind
    · grind
  | encode e =>
    rec_step hs
    · refine ⟨?_, ?_, ?_⟩
      · simp only [List.countP_append, h1, List.countP_singleton, isDefs]
        simp only [nDefined]
        apply List.countP_congr
        intro x _
        grind
      · right
        rcases h2 with h2 | h2
        · exact absurd h2 (h3 e ‹_›)
        · rw [List.head?_append, h2]; rfl
      · simp
    · refine ⟨?_, ?_, ?_⟩
      · simp only [List.countP_append, h1, List.countP_singleton, isDefs]
        simp only [nDefined, if_true]
        have := countP_upd (fun e => (s.enc e).defined) e s.nEnc ‹_› (by grind)
        rw [← this]
        apply List.countP_congr
        intro x _
        grind
      · right
        rcases h2 with h2 | h2
        · rw [h2]; rfl
        · rw [List.head?_append, h2]; rfl
      · simp

theorem defInv {s : St} (h : Reachable s) : DefInv s := by
  obtain ⟨ls, h⟩ := h
  refine (run_induct (P := fun s => Inv s ∧ DefInv s) h ⟨inv_init, ?_⟩ fun _ _ _ hp hs =>
    ⟨inv_step hp.1 hs, def_step hp.1 hp.2 hs⟩).2
  refine ⟨rfl, .inl rfl, by simp [init]⟩

/-! ### decoding -/

theorem decode_rows {is : List Item} (h : is.countP isDefs = 0) : decodeFrom true is = some (rows is) := by
  induction is with
  | nil => rfl
  | cons x is ih =>
    cases x with
    | defs => simp [isDefs] at h
    | row r =>
      rw [List.countP_cons_of_neg (by simp [isDefs])] at h
      have := ih h
      simp [decodeFrom, this, rows]

theorem decode_defs {is : List Item} (h : is.countP isDefs ≠ 0) : decodeFrom true is = none := by
  induction is with
  | nil => simp at h
  | cons x is ih =>
    cases x with
    | defs => cases is <;> simp [decodeFrom]
    | row r =>
      rw [List.countP_cons_of_neg (by simp [isDefs])] at h
      simp [decodeFrom, ih h]

theorem decode_some {s : St} (h : Reachable s) (h1 : nDefined s ≤ 1) (h2 : s.out ≠ [.defs]) :
    decodeAll s.out = some (rows s.out) := by
  obtain ⟨a, b, -⟩ := defInv h
  rw [← a] at h1
  generalize s.out = o at *
  cases o with
  | nil => rfl
  | cons x o =>
    rcases b with b | b
    · cases b
    simp at b
    subst b
    rw [List.countP_cons_of_pos (by rfl)] at h1
    cases o with
    | nil => simp at h2
    | cons y o =>
      have := decode_rows (is := y :: o) (by omega)
      simp only [decodeAll, decodeFrom, this, rows]
      rfl

theorem decode_none {s : St} (h : Reachable s) (h1 : 2 ≤ nDefined s ∨ s.out = [.defs]) : decodeAll s.out = none := by
  obtain ⟨a, b, -⟩ := defInv h
  rw [← a] at h1
  rcases h1 with h1 | h1
  · generalize s.out = o at *
    cases o with
    | nil => simp at h1
    | cons x o =>
      rcases b with b | b
      · cases b
      simp at b
      subst b
      rw [List.countP_cons_of_pos (by rfl)] at h1
      cases o with
      | nil => rfl
      | cons y o =>
        have := decode_defs (is := y :: o) (by omega)
        simp only [decodeAll, decodeFrom, this]
        rfl
  · rw [h1]; rfl

/-! ### contents -/

/-- A step that does not change a buffer which was passed to an earlier call. -/
def Keeps (s : St) : Label → Prop
  | .set b _ => ∀ i < s.nCall, (s.call i).buf ≠ b
  | .read b _ => ∀ i < s.nCall, (s.call i).buf ≠ b
  | _ => True

/-- An execution in which no caller changes a buffer after having passed it to `Read` or `Write`. -/
inductive KeepRun : St → List Label → St → Prop where
  | nil (s : St) : KeepRun s [] s
  | cons {s a s' : St} {l : Label} {ls : List Label} (hk : Keeps s l) (hs : step s l = some a) (hr : KeepRun a ls s') :
      KeepRun s (l :: ls) s'

theorem KeepRun.run {s s' : St} {ls : List Label} (h : KeepRun s ls s') : run s ls = some s' := by
  induction h with
  | nil => rfl
  | cons hk hs hr ih => simp [Rec.run, hs, ih]

structure DataInv (s : St) : Prop where
  mem : ∀ i < s.nCall, (s.mem (s.call i).buf).take (s.call i).n = (s.call i).data
  len : ∀ i < s.nCall, (s.call i).data.length = (s.call i).n
  out : rows s.out = s.log.map fun i => ⟨s.ts i, (s.call i).write, (s.call i).data⟩

theorem data_step {s s' : St} {l : Label} (hi : Inv s) (h : DataInv s) (hk : Keeps s l) (hs : step s l = some s') :
    DataInv s' := by
  obtain ⟨h1, h2, h3⟩ := h
  have hlog : ∀ i ∈ s.log, i < s.nCall := by
    intro i hm
    have a := (hi.log i).1 hm
    have b := hi.fresh i
    exact Classical.byContradiction fun h => by rw [b (by omega)] at a; cases a
  cases l with
  | «open» => cases hs; exact ⟨h1, h2, h3⟩
  | set b bytes =>
    cases hs
    refine ⟨fun i hi => ?_, h2, h3⟩
    simp only [upd_apply, if_neg (hk i hi)]
    exact h1 i hi
  | read b bytes =>
    rec_step hs
    refine ⟨fun i hi => ?_, fun i hi => ?_, ?_⟩
    · simp only [upd_apply]
      by_cases e : i = s.nCall
      · simp [e]
      · have : i < s.nCall := by simp at hi; omega
        rw [if_neg e, if_neg (hk i this)]
        exact h1 i this
    · simp only [upd_apply]
      by_cases e : i = s.nCall
      · simp [e]
      · have : i < s.nCall := by simp at hi; omega
        rw [if_neg e]; exact h2 i this
    · rw [h3]
      apply List.map_congr_left
      intro i hm
      have := hlog i hm
      simp only [upd_apply]
      rw [if_neg (by omega)]
  | write b n =>
    rec_step hs
    refine ⟨fun i hi => ?_, fun i hi => ?_, ?_⟩
    · simp only [upd_apply]
      by_cases e : i = s.nCall
      · simp [e]
      · have : i < s.nCall := by simp at hi; omega
        rw [if_neg e]
        exact h1 i this
    · simp only [upd_apply]
      by_cases e : i = s.nCall
      · simp [e]; omega
      · have : i < s.nCall := by simp at hi; omega
        rw [if_neg e]; exact h2 i this
    · rw [h3]
      apply List.map_congr_left
      intro i hm
      have := hlog i hm
      simp only [upd_apply]
      rw [if_neg (by omega)]
  | stamp i t =>
    rec_step hs
    refine ⟨h1, h2, ?_⟩
    rw [h3]
    apply List.map_congr_left
    intro j hm
    have : j ≠ i := by rintro rfl; have := (hi.log j).1 hm; grind
    simp only [upd_apply, if_neg this]
  | send i => rec_step hs; exact ⟨h1, h2, h3⟩
  | take e => rec_step hs; exact ⟨h1, h2, h3⟩
  | encode e =>
    rec_step hs
    · refine ⟨h1, h2, ?_⟩
      rename_i i hr _
      have hp := (hi.enc e i).1 hr
      have : i < s.nCall := by
        have b := hi.fresh i
        exact Classical.byContradiction fun h => by rw [b (by omega)] at hp; cases hp
      simp [rows_append, h3, rows, St.rowOf, h1 i this]
    · refine ⟨h1, h2, ?_⟩
      simp [rows_append, h3, rows]

theorem dataInv {s : St} {ls : List Label} (h : KeepRun init ls s) : DataInv s := by
  suffices H : ∀ a, KeepRun a ls s → Inv a → DataInv a → DataInv s from
    H _ h inv_init ⟨by simp [init], by simp [init], by simp [init, rows]⟩
  intro a hr
  clear h
  induction hr with
  | nil => exact fun _ h => h
  | cons hk hs hr ih => exact fun h1 h2 => ih (inv_step h1 hs) (data_step h1 h2 hk hs)

/-! ### order -/

/-- The rows sent so far, with one log writer. -/
def seq (s : St) : List Nat := s.log ++ ((s.enc 0).row.toList ++ s.queue)

theorem seq_step {s s' : St} {l : Label} (hs : step s l = some s') (h1 : s'.nEnc ≤ 1) :
    seq s' = seq s ∨ ∃ i, s.place i = .stamped ∧ seq s' = seq s ++ [i] := by
  cases l with
  | «open» | set b bytes => cases hs; exact .inl rfl
  | read b bytes | write b n | stamp i t => rec_step hs; exact .inl rfl
  | send i => rec_step hs; exact .inr ⟨i, by grind, by simp [seq]⟩
  | take e =>
    rec_step hs
    left
    have : e = 0 := by simp at h1; omega
    subst this
    rename_i hq hc
    simp [seq, upd_apply, hc.2, hq]
  | encode e =>
    rec_step hs
    · left
      have : e = 0 := by simp at h1; omega
      subst this
      rename_i hr _
      simp [seq, upd_apply, hr]
    · left
      have : e = 0 := by simp at h1; omega
      subst this
      simp [seq, upd_apply]

theorem nEnc_mono {s s' : St} {ls : List Label} (h : run s ls = some s') : s.nEnc ≤ s'.nEnc := by
  refine run_induct (P := fun a => s.nEnc ≤ a.nEnc) h (Nat.le_refl _) ?_
  intro a l b ha hs
  refine Nat.le_trans ha ?_
  cases l <;> rec_step hs <;> simp

theorem seq_run {s s' : St} {ls : List Label} (h : run s ls = some s') (h1 : s'.nEnc ≤ 1) :
    ∃ t, seq s' = seq s ++ t := by
  induction ls generalizing s with
  | nil => cases h; exact ⟨[], by simp⟩
  | cons l ls ih =>
    simp only [run, Option.bind_eq_some_iff] at h
    obtain ⟨a, h2, h3⟩ := h
    obtain ⟨t, ht⟩ := ih h3
    have := nEnc_mono h3
    rcases seq_step h2 (by omega) with e | ⟨i, -, e⟩
    · exact ⟨t, by rw [ht, e]⟩
    · exact ⟨i :: t, by rw [ht, e]; simp⟩

/-! ### everything is written in the end -/

/-- Steps of the recorder itself. -/
def own : Label → Bool
  | .stamp .. => true
  | .send _ => true
  | .take _ => true
  | .encode _ => true
  | _ => false

def weight (s : St) (i : Nat) : Nat :=
  match s.place i with
  | .started => 8
  | .stamped => 6
  | .queued => 4
  | .encoding e => if (s.enc e).defined then 2 else 3
  | .logged => 0

def total (f : Nat → Nat) : Nat → Nat
  | 0 => 0
  | n + 1 => total f n + f n

theorem total_le {f g : Nat → Nat} (h : ∀ j, g j ≤ f j) (n : Nat) : total g n ≤ total f n := by
  induction n with
  | zero => exact Nat.le_refl _
  | succ n ih => have := h n; simp only [total]; omega

theorem total_lt {f g : Nat → Nat} (h : ∀ j, g j ≤ f j) {i n : Nat} (hi : i < n) (hlt : g i < f i) :
    total g n < total f n := by
  induction n with
  | zero => omega
  | succ n ih =>
    simp only [total]
    by_cases e : i = n
    · subst e; have := total_le h i; omega
    · have := ih (by omega); have := h n; omega

theorem progress {s : St} (h : Inv s) (he : 0 < s.nEnc) {i : Nat} (hi : i < s.nCall) (hp : s.place i ≠ .logged) :
    ∃ l s', own l = true ∧ step s l = some s' ∧ s'.nCall = s.nCall ∧ s'.call = s.call ∧ s'.nEnc = s.nEnc ∧
      s'.mem = s.mem ∧ total (weight s') s.nCall < total (weight s) s.nCall := by
  obtain ⟨h1, h2, h3, h4, h5, h6, h7⟩ := h
  have hlt : ∀ j, s.place j ≠ .started → j < s.nCall := fun j hj =>
    Classical.byContradiction fun hn => hj (h1 j (by omega))
  have enc : ∀ e j, s.place j = .encoding e → ∃ l s', own l = true ∧ step s l = some s' ∧ s'.nCall = s.nCall ∧
      s'.call = s.call ∧ s'.nEnc = s.nEnc ∧ s'.mem = s.mem ∧
      total (weight s') s.nCall < total (weight s) s.nCall := by
    intro e j hj
    have hr := (h5 e j).2 hj
    have hee : e < s.nEnc := Classical.byContradiction fun hn => by
      rw [h4 e (by omega)] at hr; cases hr
    cases hd : (s.enc e).defined with
    | true =>
      refine ⟨.encode e, ?_, rfl, ?_, ?_⟩
      rotate_left
      · simp [step, hee, hr, hd]; rfl
      refine ⟨rfl, rfl, rfl, rfl, ?_⟩
      refine total_lt (i := j) ?_ (hlt j (by simp [hj])) ?_
      · intro k
        simp only [weight, upd_apply]
        by_cases e1 : k = j
        · simp [e1]
        · simp only [if_neg e1]
          cases hk : s.place k <;> simp
          rename_i e2
          by_cases e3 : e2 = e
          · have := (h5 e2 k).2 hk; grind
          · simp [e3]
      · simp [weight, upd_apply, hj, hd]
    | false =>
      refine ⟨.encode e, ?_, rfl, ?_, ?_⟩
      rotate_left
      · simp [step, hee, hr, hd]; rfl
      refine ⟨rfl, rfl, rfl, rfl, ?_⟩
      refine total_lt (i := j) ?_ (hlt j (by simp [hj])) ?_
      · intro k
        simp only [weight, upd_apply]
        cases hk : s.place k <;> simp
        rename_i e2
        by_cases e3 : e2 = e
        · simp [e3, hd]
        · simp [e3]
      · simp [weight, upd_apply, hj, hd]
  cases hq : s.queue with
  | cons j q =>
    have hj : s.place j = .queued := (h3 j).1 (by simp [hq])
    cases hr : (s.enc 0).row with
    | some k => exact enc 0 k ((h5 0 k).1 hr)
    | none =>
      refine ⟨.take 0, ?_, rfl, ?_, ?_⟩
      rotate_left
      · simp [step, hq, he, hr]; rfl
      refine ⟨rfl, rfl, rfl, rfl, ?_⟩
      refine total_lt (i := j) ?_ (hlt j (by simp [hj])) ?_
      · intro k
        simp only [weight, upd_apply]
        by_cases e1 : k = j
        · subst e1; simp [hj]; split <;> omega
        · simp only [if_neg e1]
          cases hk : s.place k <;> simp
          rename_i e2
          by_cases e3 : e2 = 0
          · simp [e3]
          · simp [e3]
      · simp only [weight, upd_apply, hj, if_true]; split <;> omega
  | nil =>
    cases hpi : s.place i with
    | started =>
      refine ⟨.stamp i 0, ?_, rfl, ?_, ?_⟩
      rotate_left
      · simp [step, hi, hpi]; rfl
      refine ⟨rfl, rfl, rfl, rfl, ?_⟩
      refine total_lt (i := i) ?_ hi ?_
      · intro k
        simp only [weight, upd_apply]
        by_cases e1 : k = i
        · subst e1; simp [hpi]
        · simp only [if_neg e1]; exact Nat.le_refl _
      · simp [weight, upd_apply, hpi]
    | stamped =>
      refine ⟨.send i, ?_, rfl, ?_, ?_⟩
      rotate_left
      · simp [step, hi, hpi, hq]; rfl
      refine ⟨rfl, rfl, rfl, rfl, ?_⟩
      refine total_lt (i := i) ?_ hi ?_
      · intro k
        simp only [weight, upd_apply]
        by_cases e1 : k = i
        · subst e1; simp [hpi]
        · simp only [if_neg e1]; exact Nat.le_refl _
      · simp [weight, upd_apply, hpi]
    | queued => have := (h3 i).2 hpi; rw [hq] at this; cases this
    | encoding e => exact enc e i hpi
    | logged => exact absurd hpi hp

theorem drains {s : St} (h : Inv s) (he : 0 < s.nEnc) :
    ∃ ls s', (∀ l ∈ ls, own l = true) ∧ run s ls = some s' ∧ s'.nCall = s.nCall ∧ s'.call = s.call ∧
      s'.nEnc = s.nEnc ∧ ∀ i < s.nCall, s'.place i = .logged := by
  generalize hm : total (weight s) s.nCall = m
  induction m using Nat.strongRecOn generalizing s with
  | ind m ih =>
    by_cases hd : ∃ i, i < s.nCall ∧ s.place i ≠ .logged
    · obtain ⟨i, hi, hp⟩ := hd
      obtain ⟨l, a, k1, k2, k3, k4, k5, k6, k7⟩ := progress h he hi hp
      obtain ⟨ls, s', j1, j2, j3, j4, j5, j6⟩ := ih _ (by rw [← hm, k3]; exact k7) (inv_step h k2) (by omega) rfl
      refine ⟨l :: ls, s', ?_, by simp [run, k2, j2], by omega, by rw [j4, k4], by omega, fun i hi => j6 i (by omega)⟩
      intro x hx
      rcases List.mem_cons.1 hx with rfl | hx
      · exact k1
      · exact j1 x hx
    · refine ⟨[], s, by simp, rfl, rfl, rfl, rfl, fun i hi => ?_⟩
      exact Classical.byContradiction fun hn => hd ⟨i, hi, hn⟩

theorem own_keeps {s s' : St} {ls : List Label} (h : run s ls = some s') (ho : ∀ l ∈ ls, own l = true) :
    KeepRun s ls s' := by
  induction ls generalizing s with
  | nil => cases h; exact .nil _
  | cons l ls ih =>
    simp only [run, Option.bind_eq_some_iff] at h
    obtain ⟨a, h1, h2⟩ := h
    refine .cons ?_ h1 (ih h2 fun x hx => ho x (List.mem_cons_of_mem _ hx))
    have := ho l List.mem_cons_self
    cases l <;> simp [own] at this <;> trivial

theorem KeepRun.append {s a s' : St} {l1 l2 : List Label} (h1 : KeepRun s l1 a) (h2 : KeepRun a l2 s') :
    KeepRun s (l1 ++ l2) s' := by
  induction h1 with
  | nil => exact h2
  | cons hk hs _ ih => exact .cons hk hs (ih h2)

end Verif.Lemmas.Rec
