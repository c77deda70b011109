import Verif.Lemmas.ConnTable

/-
Invariants of the connection machine about what is handed to the port: conservation of
transmissions, contents of transmissions, the order of transmissions and their results.
-/

set_option linter.unusedSimpArgs false
set_option maxHeartbeats 4000000

namespace Verif.Lemmas.Conn

open Verif.Go Verif.Model Verif.Model.Conn Verif.Spec

/-! ### Counting -/

/-- 1 or 0. -/
def b2n (b : Bool) : Nat := if b then 1 else 0

@[simp] theorem b2n_true : b2n true = 1 := rfl
@[simp] theorem b2n_false : b2n false = 0 := rfl

/-- How many of `0..n-1` satisfy `p`. -/
def cnt (p : Nat → Bool) : Nat → Nat
  | 0 => 0
  | n + 1 => cnt p n + b2n (p n)

theorem cnt_congr {p q : Nat → Bool} {n : Nat} (h : ∀ i, i < n → p i = q i) : cnt p n = cnt q n := by
  induction n with
  | zero => rfl
  | succ n ih =>
    simp only [cnt]
    rw [ih (fun i hi => h i (by omega)), h n (by omega)]

theorem cnt_upd {α : Type} (q : α → Bool) (f : Nat → α) (a : Nat) (v : α) (n : Nat) (h : a < n) :
    cnt (fun i => q (upd f a v i)) n + b2n (q (f a)) = cnt (fun i => q (f i)) n + b2n (q v) := by
  induction n with
  | zero => omega
  | succ n ih =>
    simp only [cnt]
    by_cases ha : a = n
    · subst ha
      have : cnt (fun i => q (upd f a v i)) a = cnt (fun i => q (f i)) a :=
        cnt_congr (fun i hi => by simp [upd, Nat.ne_of_lt hi])
      rw [this]
      simp [upd]
      omega
    · have h1 := ih (by omega)
      have h2 : upd f a v n = f n := by simp [upd, Ne.symm ha]
      rw [h2]
      omega

/-- Request of a writer that has taken a package and not yet called `Write`. -/
def wPend : WriterAt → Option Nat
  | .lock u | .clear u | .insert u | .inserting u | .setLast u | .timer u | .spawn u | .write u => some u
  | _ => none

/-- Number of writers that hold request `u` and have not yet called `Write`. -/
def wHold (u : Nat) (f : Nat → WriterAt) (n : Nat) : Nat := cnt (fun i => wPend (f i) == some u) n

/-- Request of a resend goroutine that offers it. -/
def sPend : ResendAt → Option Nat
  | .sending u => some u
  | _ => none

/-- Number of resend goroutines that offer request `u`. -/
def sHold (u : Nat) (f : Nat → ResendAt) (n : Nat) : Nat := cnt (fun i => sPend (f i) == some u) n

/-- Resend goroutines that pause and hold request `u` by value. -/
def dPend : ResendAt → Option Nat
  | .sleep (.direct u) => some u
  | _ => none

def dHold (u : Nat) (f : Nat → ResendAt) (n : Nat) : Nat := cnt (fun i => dPend (f i) == some u) n

/-- Resend goroutines that pause. -/
def isSleep : ResendAt → Bool
  | .sleep _ => true
  | _ => false

def zHold (f : Nat → ResendAt) (n : Nat) : Nat := cnt (fun i => isSleep (f i)) n

theorem wHold_upd (u : Nat) (f : Nat → WriterAt) (a : Nat) (v : WriterAt) (n : Nat) (h : a < n) :
    wHold u (upd f a v) n + b2n (wPend (f a) == some u) = wHold u f n + b2n (wPend v == some u) :=
  cnt_upd (fun x => wPend x == some u) f a v n h

theorem sHold_upd (u : Nat) (f : Nat → ResendAt) (a : Nat) (v : ResendAt) (n : Nat) (h : a < n) :
    sHold u (upd f a v) n + b2n (sPend (f a) == some u) = sHold u f n + b2n (sPend v == some u) :=
  cnt_upd (fun x => sPend x == some u) f a v n h

theorem dHold_upd (u : Nat) (f : Nat → ResendAt) (a : Nat) (v : ResendAt) (n : Nat) (h : a < n) :
    dHold u (upd f a v) n + b2n (dPend (f a) == some u) = dHold u f n + b2n (dPend v == some u) :=
  cnt_upd (fun x => dPend x == some u) f a v n h

theorem zHold_upd (f : Nat → ResendAt) (a : Nat) (v : ResendAt) (n : Nat) (h : a < n) :
    zHold (upd f a v) n + b2n (isSleep (f a)) = zHold f n + b2n (isSleep v) :=
  cnt_upd isSleep f a v n h

theorem wHold_succ (u : Nat) (f : Nat → WriterAt) (n : Nat) :
    wHold u f (n + 1) = wHold u f n + b2n (wPend (f n) == some u) := rfl

theorem sHold_succ (u : Nat) (f : Nat → ResendAt) (n : Nat) :
    sHold u f (n + 1) = sHold u f n + b2n (sPend (f n) == some u) := rfl

theorem dHold_succ (u : Nat) (f : Nat → ResendAt) (n : Nat) :
    dHold u f (n + 1) = dHold u f n + b2n (dPend (f n) == some u) := rfl

theorem zHold_succ (f : Nat → ResendAt) (n : Nat) :
    zHold f (n + 1) = zHold f n + b2n (isSleep (f n)) := rfl

theorem wHold_new (u : Nat) (f : Nat → WriterAt) (v : WriterAt) (n : Nat) :
    wHold u (upd f n v) (n + 1) = wHold u f n + b2n (wPend v == some u) := by
  have := wHold_upd u f n v (n + 1) (by omega)
  rw [wHold_succ u f n] at this
  omega

theorem sHold_new (u : Nat) (f : Nat → ResendAt) (v : ResendAt) (n : Nat) :
    sHold u (upd f n v) (n + 1) = sHold u f n + b2n (sPend v == some u) := by
  have := sHold_upd u f n v (n + 1) (by omega)
  rw [sHold_succ u f n] at this
  omega

theorem dHold_new (u : Nat) (f : Nat → ResendAt) (v : ResendAt) (n : Nat) :
    dHold u (upd f n v) (n + 1) = dHold u f n + b2n (dPend v == some u) := by
  have := dHold_upd u f n v (n + 1) (by omega)
  rw [dHold_succ u f n] at this
  omega

theorem zHold_new (f : Nat → ResendAt) (v : ResendAt) (n : Nat) :
    zHold (upd f n v) (n + 1) = zHold f n + b2n (isSleep v) := by
  have := zHold_upd f n v (n + 1) (by omega)
  rw [zHold_succ f n] at this
  omega

grind_pattern wHold_upd => wHold u (upd f a v) n
grind_pattern sHold_upd => sHold u (upd f a v) n
grind_pattern dHold_upd => dHold u (upd f a v) n
grind_pattern zHold_upd => zHold (upd f a v) n
grind_pattern wHold_new => wHold u (upd f n v) (n + 1)
grind_pattern sHold_new => sHold u (upd f n v) (n + 1)
grind_pattern dHold_new => dHold u (upd f n v) (n + 1)
grind_pattern zHold_new => zHold (upd f n v) (n + 1)

/-! ### Counting events -/

/-- `Write` was called for request `u`. -/
def isSent (u : Nat) : Ev → Bool
  | .cmd _ v _ => v == u
  | .lost _ v => v == u
  | _ => false

def isSubmit (u : Nat) : Ev → Bool
  | .submit v _ _ _ _ => v == u
  | _ => false

def isResend (u : Nat) : Ev → Bool
  | .resend v => v == u
  | _ => false

def isSpawn (u : Nat) : Ev → Bool
  | .spawnResend _ v => v == u
  | _ => false

def anyResend : Ev → Bool
  | .resend _ => true
  | _ => false

def anySpawn : Ev → Bool
  | .spawnResend _ _ => true
  | _ => false

def nEv (p : Ev → Bool) (h : List Ev) : Nat := h.countP p

theorem nEv_cons (p : Ev → Bool) (e : Ev) (h : List Ev) : nEv p (e :: h) = nEv p h + b2n (p e) := by
  simp [nEv, List.countP_cons, b2n]

/-- Every call of `Write` for `u` comes from a submission or a resend of `u`. -/
structure Wire (u : Nat) (s : St) : Prop where
  sent : nEv (isSent u) s.hist + wHold u s.writer s.nWriter + sHold u s.resend s.nResend +
      (if s.client u = .sending then 1 else 0) =
    nEv (isSubmit u) s.hist + nEv (isResend u) s.hist
  submits : nEv (isSubmit u) s.hist = if u < s.nReq then 1 else 0

theorem wire_init (u : Nat) : Wire u init := by
  constructor <;> simp [init, nEv, wHold, sHold, cnt]

theorem wire_step {lv : LoopVars} {s s' : St} {l : Label} {u : Nat} (hf : Fresh s)
    (hi : Wire u s) (h : step lv s l = some s') : Wire u s' := by
  have f1 := hf.writer
  have f3 := hf.resend
  have f5 := hf.client
  clear hf
  obtain ⟨k1, k2⟩ := hi
  conn_step h
  all_goals constructor
  all_goals first
    | assumption
    | grind [upd, nEv_cons, wPend, sPend, isSent, isSubmit, isResend, b2n]

theorem wire {lv : LoopVars} {s : St} {u : Nat} (h : Reachable lv s) : Wire u s :=
  reach_induct (P := Wire u) (wire_init u) (fun _ _ _ hr hp hs => wire_step (fresh hr) hp hs) s h

/-- Every resend comes from a spawned resend goroutine. -/
structure Spawn (s : St) : Prop where
  total : nEv anyResend s.hist + zHold s.resend s.nResend = nEv anySpawn s.hist

theorem spawn_step {lv : LoopVars} {s s' : St} {l : Label} (hf : Fresh s)
    (hi : Spawn s) (h : step lv s l = some s') : Spawn s' := by
  have f3 := hf.resend
  clear hf
  obtain ⟨k1⟩ := hi
  conn_step h
  all_goals constructor
  all_goals first
    | assumption
    | grind [upd, nEv_cons, isSleep, anyResend, anySpawn, b2n]

theorem spawn {lv : LoopVars} {s : St} (h : Reachable lv s) : Spawn s :=
  reach_induct (P := Spawn) ⟨by simp [init, nEv, zHold, cnt]⟩
    (fun _ _ _ hr hp hs => spawn_step (fresh hr) hp hs) s h

/-- With per-iteration loop variables every resend of `u` comes from a resend goroutine spawned
for `u`. -/
structure SpawnOf (u : Nat) (s : St) : Prop where
  direct : ∀ i l, s.resend i ≠ .sleep (.loopVar l)
  count : nEv (isResend u) s.hist + dHold u s.resend s.nResend = nEv (isSpawn u) s.hist

theorem spawnOf_step {s s' : St} {l : Label} {u : Nat} (hf : Fresh s)
    (hi : SpawnOf u s) (h : step .perIteration s l = some s') : SpawnOf u s' := by
  have f3 := hf.resend
  clear hf
  obtain ⟨k1, k2⟩ := hi
  conn_step h
  all_goals constructor
  all_goals first
    | assumption
    | grind [upd, nEv_cons, dPend, isResend, isSpawn, b2n]

theorem spawnOf {s : St} {u : Nat} (h : Reachable .perIteration s) : SpawnOf u s :=
  reach_induct (P := SpawnOf u) ⟨by simp [init], by simp [init, nEv, dHold, cnt]⟩
    (fun _ _ _ hr hp hs => spawnOf_step (fresh hr) hp hs) s h

/-! ### Contents of transmissions -/

/-- Request `u` was submitted by a caller. -/
def Submitted (u : Nat) (h : List Ev) : Prop :=
  ∃ data kind to er, Ev.submit u data kind to er ∈ h

theorem submitted_cons (u : Nat) (e : Ev) (h : List Ev) :
    Submitted u (e :: h) ↔ isSubmit u e = true ∨ Submitted u h := by
  cases e <;> simp only [Submitted, isSubmit, List.mem_cons, reduceCtorEq, false_or,
    Bool.false_eq_true, beq_iff_eq]
  constructor
  · rintro ⟨d, k, to, er, h | h⟩
    · injection h with h
      exact .inl h.symm
    · exact .inr ⟨d, k, to, er, h⟩
  · rintro (rfl | ⟨d, k, to, er, h⟩)
    · exact ⟨_, _, _, _, .inl rfl⟩
    · exact ⟨d, k, to, er, .inr h⟩

/-- A transmission carries the compiled message of its request, and the request is the one its
caller submitted. -/
structure Contents (s : St) : Prop where
  cmd : ∀ w u m, Ev.cmd w u m ∈ s.hist → m = (s.req u).pkg.message ∧ u < s.nReq ∧ w < s.nWriter
  lost : ∀ w u, Ev.lost w u ∈ s.hist → u < s.nReq ∧ w < s.nWriter
  submit : ∀ u data kind to er, Ev.submit u data kind to er ∈ s.hist → u < s.nReq ∧
    newSendPackage data (if kind = .waitReport then er else 0) = .ok (s.req u).pkg ∧
    (s.req u).kind = kind ∧ (s.req u).timeout = (to && kind != .write)
  all : ∀ u, u < s.nReq → Submitted u s.hist

theorem contents_step {lv : LoopVars} {s s' : St} {l : Label} (hf : Fresh s) (hr : RangeInv s)
    (hi : Contents s) (h : step lv s l = some s') : Contents s' := by
  have f1 := hf.writer
  have r2 := hr.writer
  clear hf hr
  obtain ⟨k1, k2, k3, k4⟩ := hi
  conn_step h
  all_goals constructor
  all_goals first
    | assumption
    | grind [upd, wReq, submitted_cons, isSubmit]

theorem contents {lv : LoopVars} {s : St} (h : Reachable lv s) : Contents s :=
  reach_induct (P := Contents) (by constructor <;> simp [init])
    (fun _ _ _ hr hp hs => contents_step (fresh hr) (range hr) hp hs) s h

/-! ### Order of transmissions and results -/

/-- A link event of one writer. -/
inductive Tr where
  | start (u : Nat)
  | answer (u : Nat)
  | timeout (u : Nat)
deriving DecidableEq, Repr

def trOf (w : Nat) : Ev → Option Tr
  | .cmd w' u _ => if w' = w then some (.start u) else none
  | .lost w' u => if w' = w then some (.start u) else none
  | .result w' u _ => if w' = w then some (.answer u) else none
  | .sendTimeout w' u => if w' = w then some (.timeout u) else none
  | _ => none

/-- The link events of writer `w`, newest first. -/
def trace (w : Nat) (h : List Ev) : List Tr := h.filterMap (trOf w)

theorem trace_cons (w : Nat) (e : Ev) (h : List Ev) :
    trace w (e :: h) = (match trOf w e with
      | some t => t :: trace w h
      | none => trace w h) := by
  simp only [trace, List.filterMap_cons]
  cases trOf w e <;> rfl

/-- Transmissions and their results alternate (newest first); the wait for a result may end before
the transmission. -/
inductive Paired : List Tr → Prop where
  | nil : Paired []
  | answered {u : Nat} {r : List Tr} : Paired r → Paired (.answer u :: .start u :: r)
  | gaveUp {u : Nat} {r : List Tr} : Paired r → Paired (.timeout u :: .start u :: r)
  | early {u : Nat} {r : List Tr} : Paired r → Paired (.start u :: .timeout u :: r)

/-- The newest event is an unanswered transmission of `u`. -/
def PairedStart (u : Nat) (t : List Tr) : Prop := ∃ p, t = .start u :: p ∧ Paired p

/-- The newest event is the end of the wait for the result of `u`, which is not transmitted yet. -/
def PairedTimeout (u : Nat) (t : List Tr) : Prop := ∃ p, t = .timeout u :: p ∧ Paired p

theorem paired_1 {u : Nat} {t : List Tr} (h : Paired t) : PairedStart u (.start u :: t) := ⟨t, rfl, h⟩
theorem paired_2 {u : Nat} {t : List Tr} (h : Paired t) : PairedTimeout u (.timeout u :: t) :=
  ⟨t, rfl, h⟩
theorem paired_3 {u : Nat} {t : List Tr} (h : PairedStart u t) : Paired (.answer u :: t) := by
  obtain ⟨p, rfl, hp⟩ := h
  exact .answered hp
theorem paired_4 {u : Nat} {t : List Tr} (h : PairedStart u t) : Paired (.timeout u :: t) := by
  obtain ⟨p, rfl, hp⟩ := h
  exact .gaveUp hp
theorem paired_5 {u : Nat} {t : List Tr} (h : PairedTimeout u t) : Paired (.start u :: t) := by
  obtain ⟨p, rfl, hp⟩ := h
  exact .early hp

/-- Request of a writer about to call `Write`. -/
def wAtWrite : WriterAt → Option Nat
  | .write u => some u
  | _ => none

/-- Request of a writer after `Write` that waits for the result. -/
def wAfter : WriterAt → Option Nat
  | .unlock u => some u
  | .await u => some u
  | _ => none

/-- The link events of writer `w` fit its position. -/
structure TrOk (w : Nat) (s : St) : Prop where
  early : wAtWrite (s.writer w) = none → wAfter (s.writer w) = none →
    s.result w = .absent ∧ Paired (trace w s.hist)
  write : ∀ u, wAtWrite (s.writer w) = some u →
    (s.result w = .waiting u ∧ Paired (trace w s.hist)) ∨
    (s.result w = .finished ∧ PairedTimeout u (trace w s.hist))
  after : ∀ u, wAfter (s.writer w) = some u →
    (s.result w = .waiting u ∧ PairedStart u (trace w s.hist)) ∨
    (s.result w = .finished ∧ Paired (trace w s.hist))

theorem wAtWrite_crit {x : WriterAt} {u : Nat} (h : wAtWrite x = some u) :
    wCrit x = true ∧ wAfter x = none := by
  cases x <;> simp_all [wAtWrite, wCrit, wAfter]

theorem trOk_step {lv : LoopVars} {s s' : St} {l : Label} {w : Nat} (hf : Fresh s) (hl : LockInv s)
    (hi : TrOk w s) (h : step lv s l = some s') : TrOk w s' := by
  have f1 := hf.writer w
  have f2 := hf.result w
  have h1 := hl.w w
  have h3 := hl.rs
  clear hf hl
  obtain ⟨k1, k2, k3⟩ := hi
  have kw : wCrit (s.writer w) = false → wAtWrite (s.writer w) = none := by
    intro h
    cases hx : wAtWrite (s.writer w) with
    | none => rfl
    | some u => rw [(wAtWrite_crit hx).1] at h; exact absurd h (by decide)
  have kn : wAtWrite (s.writer w) = none ∨ wAfter (s.writer w) = none := by
    cases s.writer w <;> simp [wAtWrite, wAfter]
  conn_step h
  all_goals try have qsc := congrArg sCrit (by assumption : s.reader = _)
  all_goals try conv at qsc => rhs; whnf
  all_goals constructor
  all_goals first
    | assumption
    | grind [upd, trace_cons, trOf, wAtWrite, wAfter, paired_1, paired_2, paired_3, paired_4, paired_5]

theorem trOk {lv : LoopVars} {s : St} {w : Nat} (h : Reachable lv s) : TrOk w s :=
  reach_induct (P := TrOk w) (by constructor <;> simp [init, wAtWrite, wAfter, trace, Paired.nil])
    (fun _ _ _ hr hp hs => trOk_step (fresh hr) (lockInv hr) hp hs) s h

end Verif.Lemmas.Conn
