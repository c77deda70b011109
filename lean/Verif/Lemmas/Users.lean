import Verif.Spec.Users
import Verif.Props.Known
import Verif.Props.CtlEvents
import Verif.Props.CtlFair
import Verif.Lemmas.NodeList
import Verif.Lemmas.PersistLoad

/-
The program of the example is its controller and those who use it.
-/

set_option linter.unusedSimpArgs false
set_option linter.unusedVariables false

namespace Verif.Lemmas.Users

open Verif.Go Verif.Model Verif.Spec Verif.Lemmas Verif.Lemmas.NodeM Verif.Lemmas.Ctl Verif.Props

variable {db : DB} {f : Bool} {ns : List Node}

/-! ### Events name nodes of the list -/

/-- Every event that waits names a node of the list. -/
def EvInv (s : CSt) : Prop := ∀ e, e ∈ s.queue → s.list.get e.addr ≠ none

theorem put_queue {s : CSt} {ref : Nat} {n : NSt} {e : Event} (h : e ∈ (s.put ref n).queue) : e ∈ s.queue ∨
    e = .updated n.node.id ∧ n.node.hasConn = true ∧ calls (s.heap ref) < calls n := by
  unfold CSt.put at h
  simp only at h
  split at h
  · rename_i hc
    simp only [CSt.push] at h
    split at h
    · rw [List.mem_append] at h
      rcases h with h | h
      · exact .inl h
      · exact .inr ⟨by simpa using h, hc.2, hc.1⟩
    · exact .inl h
  · exact .inl h

theorem push_queue {s : CSt} {x e : Event} (h : e ∈ (s.push x).queue) : e ∈ s.queue ∨ e = x := by
  unfold CSt.push at h
  simp only at h
  split at h
  · rw [List.mem_append] at h
    exact h.imp (fun x => x) (by simp)
  · exact .inl h

theorem ev_step {s s' : CSt} {l : CLabel} (hc : CInv s) (ha : AddInv s) (hi : EvInv s) (h : cStep db s l = some s') :
    EvInv s' := by
  have keep : ∀ i, s.list.get i ≠ none → s'.list.get i ≠ none := by
    intro i hi
    cases hx : s.list.get i with
    | none => exact absurd hx hi
    | some r => rw [list_same hc h hx]; simp
  have old : s'.queue = s.queue → EvInv s' := fun hq e he => keep _ (hi e (hq ▸ he))
  have node : ∀ (ref : Nat) (x : NSt) (m : NLabel), ref < s.nHeap → nodeStep db (s.heap ref) m = some x → m ≠ .setup →
      (∀ e, e ∈ s'.queue → e ∈ s.queue ∨ e = .updated x.node.id ∧ x.node.hasConn = true ∧ calls (s.heap ref) < calls x) →
      EvInv s' := by
    intro ref x m hlt hx hms hq e he
    rcases hq e he with h1 | ⟨rfl, h2, -⟩
    · exact keep _ (hi e h1)
    · have fr := frame_step hx
      have hcn : (s.heap ref).node.hasConn = true := by
        have := fr.hasConn
        rw [h2] at this
        simpa [hms] using this.symm
      refine keep _ ?_
      show s.list.get x.node.id ≠ none
      rw [fr.id, (hc.known ref hlt).resolve_left (fun hadd => by have := ha ref hadd; rw [hcn] at this; cases this)]
      simp
  have c6 := hc.ref
  have c7 := hc.dref
  have c4 := hc.known
  ctl_step h
  all_goals first
    | exact old rfl
    | exact node _ _ _ (by assumption) (by assumption) (by simp) (fun e he => put_queue he)
    | (have hs := setup_calls (by assumption)
       intro e he
       rcases put_queue he with h1 | ⟨-, -, h1⟩
       · exact keep _ (hi e h1)
       · omega)
    | exact node _ _ _ (c6 _ (by simp only [*]; rfl)) (by assumption) (by simp) (fun e he => put_queue he)
    | skip
  · next ref todo hd =>
    intro e he
    rcases push_queue he with h1 | rfl
    · exact keep _ (hi e h1)
    · refine keep _ ?_
      show s.list.get (s.heap ref).node.id ≠ none
      have := (c4 ref (c6 ref (by rw [hd]; rfl))).resolve_left (by rw [hd]; simp [DiscAt.adding])
      rw [this]; simp
  · rename_i k _ ref r heq n hn
    exact node ref n _ (c7 k ref (by rw [heq]; rfl)) hn (by simp)
      (fun e he => put_queue (s := { s with hist := .applied k ref r :: s.hist }) he)
  · next e q hq =>
    intro x hx
    exact keep _ (hi x (by rw [hq]; exact List.mem_cons_of_mem _ hx))

theorem ev_start : EvInv (start f ns) := by
  unfold start CSt.loadNodes
  have : ∀ (ns : List Node) (s : CSt), EvInv s → EvInv (ns.foldl CSt.loadNode s) := by
    intro ns
    induction ns with
    | nil => intro s h; exact h
    | cons n ns ih =>
      intro s h
      refine ih _ ?_
      intro e he
      unfold CSt.loadNode at he ⊢
      simp only [push_list, get_put]
      rcases push_queue he with h1 | rfl
      · split
        · simp
        · exact h e h1
      · simp [Event.addr]
  exact this ns _ (fun e he => by simp [newController] at he)

theorem evInv {s : CSt} (hg : GoodFile ns) (hr : CReach db f ns s) : EvInv s := by
  obtain ⟨ls, h⟩ := hr
  exact (crun_induct (db := db) (P := fun s => CInv s ∧ AddInv s ∧ EvInv s)
    (fun s l s' ⟨h1, h2, h3⟩ hs => ⟨cinv_step h1 hs, add_step h2 hs, ev_step h1 h2 h3 hs⟩) ls _ _
    ⟨cinv_start hg, addInv (db := db) ⟨[], rfl⟩, ev_start⟩ h).2.2

/-! ### The list has every node once -/

theorem keys_step {s s' : CSt} {l : CLabel} (hi : (s.list.map Prod.fst).Nodup) (h : cStep db s l = some s') :
    (s'.list.map Prod.fst).Nodup := by
  ctl_step h
  all_goals try simp only [put_list, push_list]
  all_goals first
    | exact hi
    | exact Verif.Lemmas.NList.nodup_set' hi _ _

theorem keys_start : ((start f ns).list.map Prod.fst).Nodup := by
  unfold start CSt.loadNodes
  have : ∀ (ns : List Node) (s : CSt), (s.list.map Prod.fst).Nodup → ((ns.foldl CSt.loadNode s).list.map Prod.fst).Nodup := by
    intro ns
    induction ns with
    | nil => intro s h; exact h
    | cons n ns ih => intro s h; exact ih _ (Verif.Lemmas.NList.nodup_set' h _ _)
  exact this ns _ (by simp [newController])

theorem keysInv {s : CSt} (hr : CReach db f ns s) : (s.list.map Prod.fst).Nodup := by
  obtain ⟨ls, h⟩ := hr
  exact crun_induct (db := db) (P := fun s => (s.list.map Prod.fst).Nodup) (fun _ _ _ => keys_step) ls _ _ keys_start h

/-! ### What the controller does in the program -/

/-- The step of the controller in a step of the program. -/
def uCtlLab (s : USt) : Option ULabel → Option CLabel
  | some (.ctl l) => some l
  | some .loop => if s.loop = .wait then some .take else none
  | _ => none

theorem uctl_part {s s' : USt} {l : ULabel} (h : uStep db s l = some s') :
    match uCtlLab s (some l) with
    | some l => cStep db s.ctl l = some s'.ctl
    | none => s'.ctl = s.ctl := by
  unfold uStep at h
  split at h
  · cases h
  cases l with
  | ctl l =>
    simp only [uCtlLab] at h ⊢
    split at h
    · cases h
    · rw [Option.map_eq_some_iff] at h
      obtain ⟨c, hc, rfl⟩ := h
      exact hc
  | loop =>
    simp only [uCtlLab, loopStep] at h ⊢
    cases hl : s.loop <;> rw [hl] at h <;> simp only [if_true] at h ⊢
    · split at h
      · cases h
      · rw [Option.map_eq_some_iff] at h
        obtain ⟨c, hc, rfl⟩ := h
        exact hc
    all_goals simp
    · cases h; rfl
    · split at h
      · cases h; rfl
      · split at h <;> (cases h; rfl)
    · split at h
      · cases h; rfl
      · cases h
    · cases h
  | «open» a => simp only [uCtlLab]; cases h; rfl
  | req k =>
    simp only [uCtlLab, reqStep] at h ⊢
    repeat' split at h
    all_goals first
      | (cases h; rfl)
      | cases h
  | raceDeliver k d =>
    simp only [uCtlLab] at h ⊢
    repeat' split at h
    all_goals first
      | (cases h; rfl)
      | cases h
  | racePulse k r j =>
    simp only [uCtlLab] at h ⊢
    repeat' split at h
    all_goals first
      | (cases h; rfl)
      | cases h

theorem ureach_ctl {c : CSt} {s : USt} (hc : CReach db f ns c) (h : UReach db c s) : CReach db f ns s.ctl := by
  induction h with
  | init => exact hc
  | step l _ hs ih =>
    have := uctl_part hs
    split at this
    · exact creach_step ih this
    · rw [this]; exact ih

theorem uthen_ctl {s t : USt} (hc : CReach db f ns s.ctl) (h : UThen db s t) : CReach db f ns t.ctl := by
  induction h with
  | now => exact hc
  | step l _ hs ih =>
    have := uctl_part hs
    split at this
    · exact creach_step ih this
    · rw [this]; exact ih

/-- What the controller does in an execution of the program. -/
def uCtl (e : Exec (uStep db)) : Exec (cStep db) where
  st n := (e.st n).ctl
  lab n := uCtlLab (e.st n) (e.lab n)
  next n := by
    have := e.next n
    cases hl : e.lab n with
    | none => rw [hl] at this; simp only [uCtlLab]; rw [this]
    | some l => rw [hl] at this; have h := uctl_part this; cases hx : uCtlLab (e.st n) (some l) <;> rw [hx] at h <;> exact h

variable {e : Exec (uStep db)}

theorem alive {s : USt} (h : ¬ UDead s) : s.crashed = none ∧ s.ctl.crashed = none := by
  simp only [UDead, not_or, ne_eq, Classical.not_not] at h
  exact h

theorem uctl_fairly {A : CLabel → Prop} (ha : ∀ n, ¬ UDead (e.st n)) (hA : ¬ A .take) (hf : Fairly e (ofCtl A)) :
    Fairly (uCtl e) A := by
  intro h n
  obtain ⟨m, l, hm, h1, h2⟩ := hf (fun n => by
    obtain ⟨m, hm, l, t, hl, hs⟩ := h n
    obtain ⟨a1, a2⟩ := alive (ha m)
    have hne : l ≠ .take := fun h => hA (h ▸ hl)
    exact ⟨m, hm, .ctl l, { (e.st m) with ctl := t }, hl, by
      have hs' : cStep db (e.st m).ctl l = some t := hs
      simp [uStep, a1, a2, hne, hs']⟩) n
  cases l with
  | ctl l => exact ⟨m, l, hm, by simp [uCtl, h1, uCtlLab], h2⟩
  | _ => exact absurd h2 (fun x => x)

theorem uctl_fair (ha : ∀ n, ¬ UDead (e.st n)) (hf : FairUsers e) : FairCtl (uCtl e) := by
  refine ⟨uctl_fairly ha ?_ hf.disc, fun k => uctl_fairly ha ?_ (hf.deliver k), fun r j => uctl_fairly ha ?_ (hf.proc r j),
    uctl_fairly ha ?_ hf.saver, fun t n => ?_⟩
  · rintro ⟨a, h⟩; cases h
  · intro h; cases h
  · intro h; cases h
  · rintro ⟨a, h⟩; cases h
  · obtain ⟨m, hm, h⟩ := hf.time t n
    exact ⟨m, hm, .inl (h.resolve_right (ha m))⟩

theorem udead_stays {n m : Nat} (h : n ≤ m) (hd : UDead (e.st n)) : UDead (e.st m) := by
  refine exec_keep e (Q := UDead) (fun s l s' hd hs => ?_) hd m h
  unfold uStep at hs
  rw [if_pos] at hs
  · cases hs
  · rcases hd with h | h <;> simp [Option.isSome_iff_ne_none, h]

theorem uor_dead {P : Nat → Prop} (n : Nat) (h : (∀ m, ¬ UDead (e.st m)) → ∃ m, n ≤ m ∧ P m) :
    ∃ m, n ≤ m ∧ (UDead (e.st m) ∨ P m) := by
  apply Classical.byContradiction
  intro hno
  obtain ⟨m, hm, hP⟩ := h (fun m hd => hno ⟨n + m, by omega, .inl (udead_stays (by omega) hd)⟩)
  exact hno ⟨m, hm, .inr hP⟩

/-! ### The main goroutine -/

/-- What the steps of others leave alone. -/
theorem loop_other {s s' : USt} {l : ULabel} (hl : l ≠ .loop) (h : uStep db s l = some s') :
    s'.loop = s.loop ∧ s'.handled = s.handled := by
  unfold uStep at h
  split at h
  · cases h
  cases l with
  | loop => exact absurd rfl hl
  | ctl l =>
    simp only at h
    split at h
    · cases h
    · rw [Option.map_eq_some_iff] at h
      obtain ⟨c, hc, rfl⟩ := h
      exact ⟨rfl, rfl⟩
  | «open» a => cases h; exact ⟨rfl, rfl⟩
  | req k =>
    simp only [reqStep] at h
    repeat' split at h
    all_goals first
      | (cases h; exact ⟨rfl, rfl⟩)
      | cases h
  | raceDeliver k d =>
    simp only at h
    repeat' split at h
    all_goals first
      | (cases h; exact ⟨rfl, rfl⟩)
      | cases h
  | racePulse k r j =>
    simp only at h
    repeat' split at h
    all_goals first
      | (cases h; exact ⟨rfl, rfl⟩)
      | cases h

theorem loop_own {s s' : USt} (h : uStep db s .loop = some s') : loopStep db s = some s' := by
  unfold uStep at h
  split at h
  · cases h
  · exact h

theorem loop_can {s s' : USt} (ha : ¬ UDead s) (h : loopStep db s = some s') : Enabled (uStep db) (· = .loop) s := by
  obtain ⟨a1, a2⟩ := alive ha
  exact ⟨.loop, s', rfl, by simpa [uStep, a1, a2] using h⟩

end Verif.Lemmas.Users
