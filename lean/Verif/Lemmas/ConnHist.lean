import Verif.Lemmas.ConnChan

/-
Invariants of the connection machine: channel events in the history, delivered messages.
-/

set_option linter.unusedSimpArgs false
set_option maxHeartbeats 4000000

namespace Verif.Lemmas.Conn

open Verif.Go Verif.Model Verif.Model.Conn Verif.Spec

/-- The channel events of request `u`, newest first. -/
def chanEvs (u : Nat) : List Ev → List Ev
  | [] => []
  | .closed v :: r => if v = u then .closed v :: chanEvs u r else chanEvs u r
  | .deliver v :: r => if v = u then .deliver v :: chanEvs u r else chanEvs u r
  | _ :: r => chanEvs u r

/-- The channel events of a request are its deliveries followed by its closing. -/
def ChanHist (s : St) : Prop :=
  ∀ u, chanEvs u s.hist = (if s.closed u = true then [Ev.closed u] else []) ++
    (s.got u).map fun _ => Ev.deliver u

theorem chanHist_step {lv : LoopVars} {s s' : St} {l : Label} (hc : ChanInv s)
    (hi : ChanHist s) (h : step lv s l = some s') : ChanHist s' := by
  have k2 := hc.sending
  have k7 := hc.got
  clear hc
  unfold ChanHist at *
  conn_step h
  all_goals conn_facts s
  all_goals first
    | assumption
    | grind [upd, chanEvs, rSending, rFrameClosing]

theorem chanHist {lv : LoopVars} {s : St} (h : Reachable lv s) : ChanHist s :=
  reach_induct (P := ChanHist) (by intro u; rfl)
    (fun _ _ _ hr hp hs => chanHist_step (chan hr) hp hs) s h

/-- A received frame as the matcher sees it: the buffer starts with a complete frame (its checksum
byte zeroed), and the message is what parsing that buffer gives. -/
def Decoded (buf : Slice) (msg : Option Message) : Prop :=
  ∃ body f tail r, IsFrame body f ∧ buf.vis = zeroed f ++ tail ∧
    newMessage buf = .ok r ∧ msg = r.toOption

/-- A control byte as the scan sees it. -/
def CtrlOk (b : UInt8) (msg : Option Message) : Prop :=
  (b = 0x06 ∨ b = 0x15 ∨ b = 0x18) ∧ ∀ m, msg = some m → m.startByte = b

/-- Pending actions come from real bytes. -/
def ActOk : Act → Prop
  | .frame seen _ msg => Decoded seen msg
  | .ctrl b msg => CtrlOk b msg
  | _ => True

theorem newMessage_start {b : UInt8} {r sp : List UInt8} {m : Message}
    (h : newMessage ⟨b :: r, sp⟩ = .ok (.ok m)) : m.startByte = b := by
  unfold newMessage at h
  obtain ⟨x, hx, h⟩ := bind_eq_ok.1 h
  have : x = b := by simp [Slice.get] at hx; exact hx.symm
  subst this
  split at h
  · cases h; rfl
  obtain ⟨_, -, h⟩ := bind_eq_ok.1 h
  obtain ⟨_, -, h⟩ := bind_eq_ok.1 h
  obtain ⟨_, -, h⟩ := bind_eq_ok.1 h
  split at h
  · obtain ⟨_, -, h⟩ := bind_eq_ok.1 h
    obtain ⟨_, -, h⟩ := bind_eq_ok.1 h
    obtain ⟨_, -, h⟩ := bind_eq_ok.1 h
    obtain ⟨_, -, h⟩ := bind_eq_ok.1 h
    split at h <;> cases h
    rfl
  split at h
  · obtain ⟨_, -, h⟩ := bind_eq_ok.1 h
    obtain ⟨_, -, h⟩ := bind_eq_ok.1 h
    obtain ⟨_, -, h⟩ := bind_eq_ok.1 h
    split at h <;> cases h
    rfl
  split at h
  · obtain ⟨_, -, h⟩ := bind_eq_ok.1 h
    split at h <;> cases h
    rfl
  · obtain ⟨_, -, h⟩ := bind_eq_ok.1 h
    cases h

theorem callbackOf_ok (m : Option Message) : ∀ a ∈ callbackOf m, ActOk a := by
  intro a ha
  unfold callbackOf at ha
  repeat' split at ha
  all_goals simp at ha
  subst ha; trivial

theorem iter_actOk {buf rest : Slice} {as : List Act} (h : iter buf = .ok (.done as rest))
    (hb : ¬ buf.len = 0) : ∀ a ∈ as, ActOk a := by
  obtain ⟨v, sp⟩ := buf
  have hs := iter_spec v sp (len_ne_zero hb)
  rw [h] at hs
  intro a ha
  cases hs with
  | ctrl b rest m h1 h2 h3 =>
    rcases List.mem_append.1 ha with ha | ha
    · simp at ha; subst ha
      refine ⟨h2, ?_⟩
      rintro x rfl
      obtain ⟨r, hr, hm⟩ := h3
      cases r with
      | error e => cases hm
      | ok y => cases hm; subst h1; exact newMessage_start hr
    · exact callbackOf_ok _ _ ha
  | frame L ck body tail m h1 h2 h3 h4 =>
    rcases List.mem_append.1 ha with ha | ha
    · rcases List.mem_append.1 ha with ha | ha
      · simp at ha; subst ha
        obtain ⟨r, hr, hm⟩ := h4
        refine ⟨body, 0x01 :: L :: (body ++ [ck]), tail, r, ⟨L, ck, rfl, h2, h3⟩, ?_, hr, hm⟩
        simp [zeroed, List.set_append]
      · exact callbackOf_ok _ _ ha
    · simp at ha; subst ha; trivial

/-- The frame and request the reader has found to match. -/
def rMatched : ReaderAt → Option (Scope × Nat)
  | .frameOpen c u | .frameSend c u => some (c, u)
  | _ => none

@[simp] theorem rMatched_forget (r : ReaderAt) (u : Nat) : rMatched (r.forget u) = rMatched r := by
  cases r <;> rfl

theorem rMatched_req {r : ReaderAt} {c : Scope} {u : Nat} (h : rMatched r = some (c, u)) :
    rReq r = some u ∧ rScope r = some c := by
  cases r <;> simp_all [rMatched, rReq, rScope]

/-- Data the reader is working on, and delivered messages, come from real bytes; what was delivered
matches the request it was delivered to. -/
structure DataInv (s : St) : Prop where
  acts : ∀ a ∈ s.acts, ActOk a
  lock : ∀ b m, s.reader = .frameLock b m → Decoded b m
  scope : ∀ c, rScope s.reader = some c → Decoded c.buf c.msg
  scan : ∀ c, rScan s.reader = some c → CtrlOk c.byte c.msg
  matched : ∀ c u, rMatched s.reader = some (c, u) →
    (s.req u).pkg.match_ c.buf.vis = .ok true
  got : ∀ u, ∀ x ∈ s.got u, Decoded x.1 x.2 ∧ (s.req u).pkg.match_ x.1.vis = .ok true

theorem forget_frameLock {r : ReaderAt} {u : Nat} {b : Slice} {m : Option Message}
    (h : r.forget u = .frameLock b m) : r = .frameLock b m := by
  cases r <;> simp_all [ReaderAt.forget]
theorem actOk_head {l as : List Act} {a : Act} (h : ∀ x ∈ l, ActOk x) (e : l = a :: as) : ActOk a :=
  h a (by rw [e]; exact List.mem_cons_self)

theorem data_init : DataInv init := by
  constructor <;> simp [init, rScope, rScan, rMatched]

theorem ctrlOk_of {c c' : Scan} (h1 : c'.byte = c.byte) (h2 : c'.msg = c.msg)
    (h : CtrlOk c'.byte c'.msg) : CtrlOk c.byte c.msg := by rw [← h1, ← h2]; exact h

theorem data_step {lv : LoopVars} {s s' : St} {l : Label} (hr : RangeInv s) (hc : ChanInv s)
    (hi : DataInv s) (h : step lv s l = some s') : DataInv s' := by
  have r2 := hr.reader
  have c9 := hc.fresh
  clear hr hc
  obtain ⟨k1, k2, k3, k4, k5, k6⟩ := hi
  conn_step h
  all_goals conn_facts s
  all_goals try have qm := congrArg rMatched (by assumption : s.reader = _)
  all_goals try conv at qm => rhs; whnf
  all_goals try have qa := actOk_head k1 (by assumption : s.acts = _ :: _)
  all_goals try simp only [ActOk] at qa
  all_goals constructor
  all_goals first
    | assumption
    | grind [upd, rScope, rScan, rScope_forget, → rScan_forget, → iter_actOk, ActOk, rMatched, rMatched_forget, → rMatched_req, → forget_frameLock]

theorem dataInv {lv : LoopVars} {s : St} (h : Reachable lv s) : DataInv s :=
  reach_induct (P := DataInv) data_init
    (fun _ _ _ hr hp hs => data_step (range hr) (chan hr) hp hs) s h

end Verif.Lemmas.Conn
