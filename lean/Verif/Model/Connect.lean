import Verif.Go.Basic

/-
gozwave.go 17-54 (`ConnectWithCustomPortOpener` after the configuration is loaded), and connection.go 116-144
(`Connect`): the call, the goroutine that opens the port again and again, and the goroutines that announce a
successful `Open`. What `Reader` and `Writer` do meanwhile is in Verif.Model.Conn; here `Reader` only returns at
some time.

* Time is explicit, in milliseconds; a timer may fire at any time from its deadline on.
* `Open` may take any time. An error is represented by the number of the attempt that failed.
* A send with `default` on the unbuffered channel succeeds if the call is waiting, and only then.
* `conn.Connected` is written without a lock; accesses are taken to be atomic.
-/

namespace Verif.Model.Connect

/-- The call, gozwave.go 45-53 -/
inductive MainAt where
  /-- the goroutine is started, line 45 is not reached -/
  | call
  /-- line 45: `<-connected` -/
  | waiting
  /-- it returned: `none` is success, `some k` the error of attempt `k` -/
  | returned (err : Option Nat)
deriving DecidableEq, Repr, Inhabited

/-- The loop, gozwave.go 37-43, in attempt number `cur` -/
inductive LoopAt where
  /-- connection.go 122: in `Open` -/
  | opening
  /-- 125-128: about to offer the error -/
  | offer
  /-- 143: in `Reader` -/
  | reading
  /-- 117-120: about to run the deferred function -/
  | ending
  /-- gozwave.go 41: sleeps until then -/
  | sleep (deadline : Nat)
deriving DecidableEq, Repr, Inhabited

/-- The goroutine of connection.go 132-140 -/
inductive AnnAt where
  | absent
  /-- 133 -/
  | sleep
  /-- 135-138: about to send nil -/
  | send
  /-- 139 -/
  | set
  | done
deriving DecidableEq, Repr, Inhabited

structure St where
  now : Nat
  main : MainAt
  loop : LoopAt
  cur : Nat
  ann : Nat → AnnAt
  /-- `conn.Connected` -/
  connected : Bool
  /-- ghost: how `Open` ended in each attempt, and when -/
  outcome : Nat → Option Bool
  openTime : Nat → Nat
  /-- ghost: the call was waiting when `Open` returned -/
  heard : Nat → Bool
  /-- ghost: when `Reader` returned -/
  lostTime : Nat → Option Nat
  /-- ghost: when the announcing goroutine set `Connected` -/
  setTime : Nat → Option Nat

/-- gozwave.go 43, after the `go` statement -/
def init : St where
  now := 0
  main := .call
  loop := .opening
  cur := 0
  ann := fun _ => .absent
  connected := false
  outcome := fun _ => none
  openTime := fun _ => 0
  heard := fun _ => false
  lostTime := fun _ => none
  setTime := fun _ => none

/-- Function update. -/
def upd {α : Type} (f : Nat → α) (i : Nat) (v : α) : Nat → α := fun j => if j = i then v else f j

inductive Label where
  /-- a millisecond passes -/
  | tick
  /-- the call reaches line 45 -/
  | wait
  /-- `Open` returns -/
  | opened (ok : Bool)
  /-- connection.go 125-128 -/
  | offer
  /-- `Reader` returns -/
  | lost
  /-- connection.go 117-120 and gozwave.go 40 -/
  | deferred
  /-- gozwave.go 41 ends -/
  | wake
  /-- the goroutine of attempt `k` -/
  | ann (k : Nat)
deriving DecidableEq, Repr

/-- A send with `default` of `err` (connection.go 125-128, 135-138) -/
def trySend (s : St) (err : Option Nat) : St := if s.main = .waiting then { s with main := .returned err } else s

/-- One step; `none`: the step is not possible. -/
def step (s : St) : Label → Option St
  | .tick => some { s with now := s.now + 1 }
  | .wait => if s.main = .call then some { s with main := .waiting } else none
  | .opened ok =>
    if s.loop = .opening then
      some { s with
        loop := if ok then .reading else .offer
        ann := if ok then upd s.ann s.cur .sleep else s.ann
        outcome := upd s.outcome s.cur (some ok)
        openTime := upd s.openTime s.cur s.now
        heard := upd s.heard s.cur (s.main = .waiting) }
    else none
  | .offer => if s.loop = .offer then some { trySend s (some s.cur) with loop := .ending } else none
  | .lost => if s.loop = .reading then some { s with loop := .ending, lostTime := upd s.lostTime s.cur (some s.now) } else none
  | .deferred => if s.loop = .ending then some { s with connected := false, loop := .sleep (s.now + 1000) } else none
  | .wake =>
    match s.loop with
    | .sleep d => if d ≤ s.now then some { s with loop := .opening, cur := s.cur + 1 } else none
    | _ => none
  | .ann k =>
    match s.ann k with
    | .sleep => if s.openTime k + 200 ≤ s.now then some { s with ann := upd s.ann k .send } else none
    | .send => some { trySend s none with ann := upd s.ann k .set }
    | .set => some { s with connected := true, ann := upd s.ann k .done, setTime := upd s.setTime k (some s.now) }
    | _ => none

/-- Executions, all interleavings -/
inductive Steps : St → St → Prop where
  | refl (s : St) : Steps s s
  | tail {s t u : St} (l : Label) : Steps s t → step t l = some u → Steps s u

/-- A list of steps, for examples -/
def exec (s : St) : List Label → Option St
  | [] => some s
  | l :: ls => (step s l).bind fun s => exec s ls

end Verif.Model.Connect
