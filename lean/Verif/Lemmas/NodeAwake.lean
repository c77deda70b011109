import Verif.Lemmas.NodeRace
import Verif.Lemmas.CtlRun

/-
A node that is awake: its identification never looks for the channel.
-/

set_option linter.unusedSimpArgs false
set_option linter.unusedVariables false
set_option maxHeartbeats 4000000

namespace Verif.Lemmas.NodeRace

open Verif.Go Verif.Model Verif.Spec Verif.Lemmas Verif.Lemmas.NodeM Verif.Lemmas.Ctl

/-- Between `n.IsAwake` (node.go 70) and `return n.awake` (80). -/
def looks : IdentAt → Bool
  | .awNil _ | .awMake _ | .awRet _ => true
  | _ => false

/-- With one identification, a node that is awake is not looked at. -/
def AwInv (s : NSt) : Prop := s.nIdent ≤ 1 → s.node.isAwake = true → ∀ i, looks (s.ident i) = false

theorem aw_step {db : DB} {s s' : NSt} {l : NLabel} (hw : WakeInv s) (hi : AwInv s)
    (h : nodeStep db s l = some s') : AwInv s' := by
  have f := hw.fresh
  have k0 : looks .absent = false := rfl
  have k1 : looks .top = false := rfl
  have k2 : looks .info = false := rfl
  have k3 : looks .sleep = false := rfl
  have k4 : looks .classes = false := rfl
  have k5 : looks .manufacturer = false := rfl
  have k6 : ∀ p, looks (.awTest p) = false := fun _ => rfl
  have k7 : ∀ p c, looks (.awWait p c) = false := fun _ _ => rfl
  have k8 : ∀ p, looks (.send p) = false := fun _ => rfl
  have k9 : ∀ p, looks (.reply p) = false := fun _ => rfl
  have k10 : looks .endpoints = false := rfl
  have k11 : looks .endpointsEvent = false := rfl
  have k12 : looks .states = false := rfl
  have k13 : ∀ p, looks (.query p) = false := fun _ => rfl
  have k14 : ∀ p, looks (.sensor p) = false := fun _ => rfl
  have k15 : looks .finish = false := rfl
  have k16 : looks .mark = false := rfl
  have k17 : looks .done = false := rfl
  have k18 : ∀ p, looks (.awNil p) = true := fun _ => rfl
  have k19 : ∀ p, looks (.awMake p) = true := fun _ => rfl
  have k20 : ∀ p, looks (.awRet p) = true := fun _ => rfl
  have hm := fun n m => (setManufacturer_rest db n m).1
  unfold AwInv at hi ⊢
  node_step h
  all_goals first
    | exact hi
    | (rename_i e; obtain ⟨mb, mf, e⟩ := alarmOn_states e; subst e; exact hi)
    | (rename_i e; obtain ⟨mb, mf, e⟩ := alarmOff_states e; subst e; exact hi)
    | (rename_i e; obtain ⟨⟨mb, mf, e⟩, -⟩ := applyState_states e; subst e; exact hi)
    | (simp only [NSt.goto, NSt.push, NSt.await, updN] at hi ⊢; grind)

/-- In every state of a controller. -/
theorem wakeInv_all {db : DB} {f : Bool} {ns : List Node} {s : CSt} (hg : GoodFile ns) (h : CReach db f ns s) {ref : Nat}
    (hl : ref < s.nHeap) : WakeInv (s.heap ref) ∧ AwInv (s.heap ref) := by
  obtain ⟨n, -, ls, hr, -⟩ := (Verif.Lemmas.Ctl.bornInv hg h).born ref hl
  have hw0 : WakeInv (NSt.start n) := wakeInv_start n
  exact run_induct (db := db) (P := fun s => WakeInv s ∧ AwInv s)
    (fun s l s' hp hs => ⟨wake_step hp.1 hs, aw_step hp.1 hp.2 hs⟩) ls _ _ ⟨hw0, fun _ _ i => rfl⟩ hr

end Verif.Lemmas.NodeRace
