import Verif.Lemmas.ProcessRuns
import Verif.Props.Process
import Verif.Props.System

/-
C103: the requests of the library come to an end, and with them the discovery.
-/

set_option linter.unusedSimpArgs false
set_option linter.unusedVariables false
set_option maxHeartbeats 1000000

namespace Verif.Props

open Verif.Go Verif.Model Verif.Model.Conn Verif.Spec Verif.Lemmas Verif.Lemmas.Conn Verif.Lemmas.Ctl Verif.Lemmas.NodeM
  Verif.Lemmas.EndToEnd Verif.Lemmas.System Verif.Lemmas.Process

variable {lv : LoopVars} {db : DB} {f : Bool} {ns : List Node} {e : Exec (wStep lv db)}

theorem disc_can {w : Whole} {u : Nat} (hd : ¬ Sys.dead w.sys) (hw : w.sys.ctl.disc = .wait) (h1 : w.want .disc = none)
    (h2 : w.req .disc = some u) (h3 : w.sys.conn.client u = .done) :
    Enabled (wStep lv db) (onSys (onCtl fun l => ∃ a, l = .disc a)) w := by
  simp only [Sys.dead, not_or, ne_eq, Classical.not_not] at hd
  obtain ⟨m, hm⟩ := heard_done h3
  have hmay : w.may (.ctl (.disc (discAnswer m))) = true := by
    simp [Whole.may, Whole.mayDisc, hw, Whole.busy, h1, h2, h3, hm]
  obtain ⟨t, ht⟩ : ∃ t, cStep db w.sys.ctl (.disc (discAnswer m)) = some t := by
    simp only [cStep, hd.2, Option.isSome_none, Bool.false_eq_true, if_false, discStep, hw]
    split <;> exact ⟨_, rfl⟩
  refine ⟨.sys (.ctl (.disc (discAnswer m))), w.after (.ctl (.disc (discAnswer m))) { w.sys with ctl := t }, ⟨_, rfl⟩, ?_⟩
  simp [wStep, hmay, sysStep, hd.1, hd.2, ownStep, ht]

theorem alive_of_enabled {B : SLabel → Prop} (h : ∀ n, ∃ m, n ≤ m ∧ Enabled (sysStep lv db) B ((sysExec e).st m)) :
    ∀ n, ¬ Sys.dead (e.st n).sys := by
  intro n hd
  obtain ⟨m, hm, l, s, -, hs⟩ := h n
  have := dead_stays (e := sysExec e) hm hd
  unfold sysStep at hs
  rw [if_pos] at hs
  · cases hs
  · rcases this with h | h <;> simp [Option.isSome_iff_ne_none, h]

/-- C103: what was assumed for C100, that the goroutine of the discovery is not passed over for ever, holds if nobody is
passed over for ever: the discovery is always answered, by the stick or by its timeout. (Missing: the goroutine that holds
a nil channel, see `C103_violated_late`.) -/
theorem C103_parts_fair_partial (hf : FairWhole e) (h0 : e.st 0 = wStart f ns) (hl : ∀ n, ¬ Late (e.st n) .disc) :
    FairSys (sysExec e) := by
  have mc : ∀ {A : CLabel → Prop}, (∀ l, A l → (∀ a, l ≠ .disc a) ∧ ∀ r i a, l ≠ .node r (.ident i a)) →
      ∀ (w : Whole) (l : SLabel), onCtl A l → w.may l = true := by
    intro A hA w l h
    cases l with
    | conn l => exact absurd h id
    | ctl l =>
      obtain ⟨h1, h2⟩ := hA l h
      unfold Whole.may
      split
      · next a he => cases he; exact absurd rfl (h1 _)
      · next r i a he => cases he; exact absurd rfl (h2 _ _ _)
      · rfl
    | connected b => exact absurd h id
  refine ⟨fun w => w_fairly may_conn (hf.writer w), fun w => w_fairly may_conn (hf.timer w), w_fairly may_conn hf.reader,
    fun w => w_fairly may_conn (hf.result w), fun w => w_fairly may_conn (hf.take w), fun w => w_fairly may_conn (hf.client w),
    ?_, fun k => w_fairly (mc ?_) (hf.deliver k), fun r j => w_fairly (mc ?_) (hf.proc r j), w_fairly (mc ?_) hf.saver,
    hf.time⟩
  · intro hen
    have ha := alive_of_enabled hen
    have hen' : ∀ n, ∃ m, n ≤ m ∧ Enabled (wStep lv db) (onSys (onCtl fun l => ∃ a, l = .disc a)) (e.st m) ∨
        ∃ m l, n ≤ m ∧ e.lab m = some l ∧ onSys (onCtl fun l => ∃ a, l = .disc a) l := by
      intro n
      apply Classical.byContradiction
      intro hno
      simp only [not_exists, not_or, not_and] at hno
      obtain ⟨m, hm, hE⟩ := hen n
      by_cases hw : (e.st m).sys.ctl.disc = .wait
      · -- it stays waiting
        have hnm : ∀ k l, m ≤ k → e.lab k = some l → ¬ onSys (onCtl fun l => ∃ a, l = .disc a) l :=
          fun k l hk hl => (hno k).2 k l (by omega) hl
        have hwait : ∀ k, m ≤ k → (e.st k).sys.ctl.disc = .wait := by
          intro k hk
          induction hk with
          | refl => exact hw
          | step hk ih =>
            next k =>
            have := e.next k
            split at this
            · next l hl' =>
              rcases ctl_of this with ⟨cl, g1, g2⟩ | ⟨g1, -⟩
              · rcases wait_moves ih g1 with g | ⟨g, -⟩
                · exfalso
                  have hcl : ∃ a, cl = .disc a := by
                    apply Classical.byContradiction
                    intro hnc
                    rcases wait_moves ih g1 with g' | g'
                    · clear g2
                      generalize (e.st (k + 1)).sys.ctl = t at *
                      generalize (e.st k).sys.ctl = t0 at *
                      ctl_step g1
                      all_goals simp_all [DiscAt.before]
                    · rw [g'.1] at g; cases g
                  obtain ⟨a, rfl⟩ := hcl
                  have := ctl_lab g2 (by simp)
                  subst this
                  exact hnm k _ hk hl' ⟨a, rfl⟩
                · exact g
              · rw [g1]; exact ih
            · rw [this]; exact ih
        have hmv : ∀ k l, m ≤ k → e.lab k = some l → ¬ moves .disc l := by
          rintro k l hk hl' (⟨-, rfl⟩ | ⟨r, i, x, h1, -⟩)
          · have := e.next k
            rw [hl'] at this
            have hc := ctl_part (sys_part this)
            simp only [sysLab, ctlLab] at hc
            unfold cStep at hc
            simp [hwait k hk] at hc
          · cases h1
        obtain ⟨k, u, hk, hr, hs, h3⟩ := gets_answered hf ha h0 (who := .disc) (a := discAsk) (by decide)
          ((up_inv h0 m).res ((up_inv h0 m).disc (by rw [hw]; simp))) ((winv_exec h0 m).disc hw) hmv
        rcases h3 with h3 | h3
        · exact hl k ⟨u, hr, h3⟩
        · obtain ⟨q1, q2, q3⟩ := h3 k (Nat.le_refl _)
          exact (hno k).1 (by omega) (disc_can (ha k) (hwait k hk) q1 q2 q3)
      · refine (hno m).1 hm ?_
        refine w_enabled ?_ hE
        intro l hB
        cases l with
        | conn l => exact absurd hB id
        | ctl l =>
          obtain ⟨a, rfl⟩ := hB
          simp [Whole.may, Whole.mayDisc, hw]
        | connected b => exact absurd hB id
    intro n
    apply Classical.byContradiction
    intro hno
    have hno' : ∀ m l, n ≤ m → e.lab m = some l → ¬ onSys (onCtl fun l => ∃ a, l = .disc a) l := by
      intro m l hm hl' hB
      exact hno ⟨m, sysLab (e.st m) l, hm, by simp [sysExec, hl'], onSys_lab _ hB⟩
    obtain ⟨m, l, hm, h1, h2⟩ := hf.disc (fun k => by
      obtain ⟨m, h | ⟨m', l, h1, h2, h3⟩⟩ := hen' (max n k)
      · exact ⟨m, by omega, h.2⟩
      · exact absurd h3 (hno' m' l (by omega) h2)) n
    exact hno' m l hm h1 h2
  · rintro l rfl; simp
  · rintro l rfl; simp
  · rintro l ⟨op, rfl⟩; simp

/-! ### The discovery -/

theorem wor_dead {P : Whole → Prop} (n : Nat) (h : (∀ m, ¬ Sys.dead (e.st m).sys) → ∃ m, n ≤ m ∧ P (e.st m)) :
    ∃ m, n ≤ m ∧ (Sys.dead (e.st m).sys ∨ P (e.st m)) := by
  by_cases hd : ∃ m, Sys.dead (e.st m).sys
  · obtain ⟨m, hm⟩ := hd
    exact ⟨max n m, by omega, .inl (dead_stays (e := sysExec e) (by omega) hm)⟩
  · obtain ⟨m, h1, h2⟩ := h fun m hm => hd ⟨m, hm⟩
    exact ⟨m, h1, .inr h2⟩

/-- C103: a discovery that was begun ends, whether the stick answers or not. (Missing: the goroutine that holds a nil
channel, see `C103_violated_late`.) -/
theorem C103_discovery_ends_partial (hf : FairWhole e) (hg : GoodFile ns) (h0 : e.st 0 = wStart f ns)
    (hl : ∀ n, ¬ Late (e.st n) .disc) (n : Nat) (hd : (e.st n).sys.ctl.disc ≠ .absent) :
    ∃ m, n ≤ m ∧ (Sys.dead (e.st m).sys ∨ (e.st m).sys.ctl.disc = .done) := by
  refine wor_dead (P := fun w => w.sys.ctl.disc = .done) n fun ha => ?_
  obtain ⟨m, h1, h2⟩ := C97_discovery_ends (ctl_fair ha (C103_parts_fair_partial hf h0 hl)) hg
    (by show CReach db f ns (e.st 0).sys.ctl; exact (w_reach h0 0).2) n hd
  refine ⟨m, h1, h2.resolve_left fun h => ha m (.inr h)⟩

/-! ### The identifications -/

theorem node_fair {ref n0 : Nat} (hf : FairWhole e) (ha : ∀ n, ¬ Sys.dead (e.st n).sys) (h0 : e.st 0 = wStart f ns)
    (hg : GoodFile ns) (hlt : ref < (e.st n0).sys.ctl.nHeap) (hl : ∀ m, ¬ Late (e.st m) (.ident ref 0)) :
    FairNode (nodeExec e ref n0 hlt) :=
  ⟨ident_fair hf ha h0 hg hlt fun m _ => hl m, proc_fair hf ha hlt⟩

theorem nodeLab_goes {ref n0 m : Nat} {a : Answer} (hlt : ref < (e.st n0).sys.ctl.nHeap) :
    (nodeExec e ref n0 hlt).lab m = some (.ident 0 a) ↔ IdentGoes e ref (n0 + m) a := by
  simp only [nodeExec, IdentGoes]
  cases hl : e.lab (n0 + m) with
  | none => simp
  | some l =>
    simp only [Option.bind_some, Option.some.injEq]
    constructor
    · intro h
      unfold wNodeLab at h
      rw [Option.bind_eq_some_iff] at h
      obtain ⟨cl, h1, h2⟩ := h
      have : cl = .node ref (.ident 0 a) := by
        cases cl <;> simp only [nodeLab] at h2 <;> (repeat' split at h2) <;> simp_all
      subst this
      exact ctl_lab h1 (by simp)
    · rintro rfl
      simp [wNodeLab, sysLab, ctlLab, nodeLab]

theorem ident_over {M D : Nat} (hb : DBBound db M D) (hf : FairWhole e) (hg : GoodFile ns) (h0 : e.st 0 = wStart f ns)
    (ha : ∀ n, ¬ Sys.dead (e.st n).sys) {ref n : Nat} (hs : Identifies e ref n) (hl : ∀ m, ¬ Late (e.st m) (.ident ref 0))
    (hn : FairAnswers e ref) (hw : FairWakes e ref ∨ ∀ m a, IdentGoes e ref m a → ∀ p, a = .info p → p.listening = true) :
    ∃ m, n < m ∧ (((e.st m).sys.ctl.heap ref).ident 0 = .done ∨
      ((¬ ∀ m a, IdentGoes e ref m a → ∀ p, a = .info p → p.listening = true) ∧
        ∃ p, ((e.st m).sys.ctl.heap ref).ident 0 = .awWait p none)) := by
  obtain ⟨hlt, h1, h2, h3⟩ := identifies h0 hg hs
  have hci := fun m => cinv hg (w_reach h0 m).2
  have hmono : ∀ m, n + 1 ≤ m → ((e.st m).sys.ctl.heap ref).nIdent = 1 := by
    intro m hm
    have hle := (hci m).one ref (nHeap_keeps e hlt m hm)
    have hge : 0 < ((e.st m).sys.ctl.heap ref).nIdent := by
      have := exec_keep (nodeExec e ref (n + 1) hlt) (Q := fun s => 0 < s.nIdent) (fun s l s' hq hs => by
        by_cases hx : l = .identify
        · subst hx; rw [identify_one hs]; omega
        · rw [step_one hx hs]; exact hq) (n := 0) (by show 0 < ((e.st (n + 1)).sys.ctl.heap ref).nIdent; omega) (m - (n + 1)) (by omega)
      have e1 : n + 1 + (m - (n + 1)) = m := by omega
      simpa [nodeExec, e1] using this
    omega
  have hone : ∀ m, ((nodeExec e ref (n + 1) hlt).st m).nIdent = 1 := fun m => hmono _ (by omega)
  have hinv : ∀ m, NodeInv M D ((nodeExec e ref (n + 1) hlt).st m) := fun m =>
    reach_nodeInv hb hg (w_reach h0 _).2 (nHeap_keeps e hlt _ (by omega)) (by rw [hmono _ (by omega)]; decide)
  have hni : ∀ m, (nodeExec e ref (n + 1) hlt).lab m ≠ some .identify := by
    intro m hm
    have hx := (nodeExec e ref (n + 1) hlt).next m
    rw [hm] at hx
    have := identify_one hx
    rw [hone, hone] at this
    omega
  have hloss : FairLoss (nodeExec e ref (n + 1) hlt) := by
    intro k hk
    obtain ⟨m, a, g1, g2, g3, g4⟩ := hn k (fun j => by
      obtain ⟨m, a, g1, g2, g3⟩ := hk j
      exact ⟨n + 1 + m, a, by omega, (nodeLab_goes hlt).1 g2, g3⟩) (n + 1)
    have e1 : n + 1 + (m - (n + 1)) = m := by omega
    refine ⟨m - (n + 1), a, (nodeLab_goes hlt).2 (by rw [e1]; exact g2), ?_, g4⟩
    simpa [nodeExec, e1] using g3
  by_cases hw' : ∀ m a, IdentGoes e ref m a → ∀ p, a = .info p → p.listening = true
  rotate_left
  · replace hw := hw.resolve_right hw'
    have hwk : WakesUp (nodeExec e ref (n + 1) hlt) := by
      intro j
      obtain ⟨m, k, g1, g2, g3⟩ := hw (n + 1 + j)
      have e1 : n + 1 + (m - (n + 1)) = m := by omega
      refine ⟨m - (n + 1), by omega, ?_⟩
      simp [nodeExec, e1, g2, wNodeLab, sysLab, ctlLab, nodeLab, g3]
    obtain ⟨m, g1, g2⟩ := ident_ends_core (k := 0) hinv (fun m _ => hone m) (fun m _ => hni m) (node_fair hf ha h0 hg hlt hl) hloss
      (.inl hwk)
    exact ⟨n + 1 + m, by omega, g2.imp_right fun g2 => ⟨hw', g2⟩⟩
  · have key : ∀ m, (((nodeExec e ref (n + 1) hlt).st m).node.protocolInfo.isSome = true →
        ((nodeExec e ref (n + 1) hlt).st m).node.isAwake = true) ∧
        ∀ i, beyondTest (((nodeExec e ref (n + 1) hlt).st m).ident i) = false := by
      intro m
      induction m with
      | zero =>
        refine ⟨fun h => ?_, fun i => ?_⟩
        · have : ((e.st (n + 1)).sys.ctl.heap ref).node.protocolInfo.isSome = true := h
          rw [h3] at this; cases this
        · show beyondTest (((e.st (n + 1)).sys.ctl.heap ref).ident i) = false
          cases i with
          | zero => rw [h2]; rfl
          | succ i =>
            have := (hinv 0).wake.fresh (i + 1) (by rw [hone]; omega)
            simp only [nodeExec, Nat.add_zero] at this
            rw [this]
            rfl
      | succ m ih =>
        have hx := (nodeExec e ref (n + 1) hlt).next m
        split at hx
        · next l hlab =>
          refine listen_step (hinv m).idi ih (fun i p h => ?_) hx
          subst h
          by_cases hi : i = 0
          · subst hi
            exact hw' _ _ ((nodeLab_goes hlt).1 hlab) p rfl
          · exfalso
            have := (hinv m).wake.fresh i (by rw [hone]; omega)
            simp [nodeStep, identStep, this] at hx
        · rw [hx]; exact ih
    have hne : ∀ m p c, ((nodeExec e ref (n + 1) hlt).st m).ident 0 ≠ .awWait p c := by
      intro m p c h
      have := (key m).2 0
      rw [h] at this
      cases this
    obtain ⟨m, g1, g2 | ⟨p, g2⟩⟩ := ident_ends_core (k := 0) hinv (fun m _ => hone m) (fun m _ => hni m)
      (node_fair hf ha h0 hg hlt hl) hloss (.inr hne)
    · exact ⟨n + 1 + m, by omega, .inl g2⟩
    · exact absurd g2 (hne m p none)

/-- An identification that is over stays over, and the node is identified. -/
theorem over_stays {M D : Nat} (hb : DBBound db M D) (hg : GoodFile ns) (h0 : e.st 0 = wStart f ns) {ref n m : Nat}
    (hs : Identifies e ref n) (hnm : n < m) (h : ((e.st m).sys.ctl.heap ref).ident 0 = .done) :
    ∀ m', m ≤ m' → ((e.st m').sys.ctl.heap ref).node.identified = true := by
  obtain ⟨hlt, h1, h2, h3⟩ := identifies h0 hg hs
  have hltm := nHeap_keeps e hlt m hnm
  have hpos : ∀ k, n + 1 ≤ k → 0 < ((e.st k).sys.ctl.heap ref).nIdent := by
    intro k hk
    have := exec_keep (nodeExec e ref (n + 1) hlt) (Q := fun s => 0 < s.nIdent) (fun s l s' hq hs => by
      by_cases hx : l = .identify
      · subst hx; rw [identify_one hs]; omega
      · rw [step_one hx hs]; exact hq) (n := 0) (by show 0 < ((e.st (n + 1)).sys.ctl.heap ref).nIdent; omega)
      (k - (n + 1)) (by omega)
    have e1 : n + 1 + (k - (n + 1)) = k := by omega
    simpa [nodeExec, e1] using this
  intro m' hm'
  have key := exec_keep (nodeExec e ref m hltm) (Q := fun s => s.ident 0 = .done ∧ 1 ≤ s.nIdent) (fun s l s' h1 h2 => by
      obtain ⟨p1, p2⟩ := h1
      node_step h2
      all_goals first
        | exact ⟨p1, p2⟩
        | grind [updN]) (n := 0) ⟨h, hpos m hnm⟩ (m' - m) (by omega)
  have e1 : m + (m' - m) = m' := by omega
  simp only [nodeExec, e1] at key
  exact (reach_nodeInv hb hg (w_reach h0 m').2 (nHeap_keeps e hlt m' (by omega)) (by
    have := (cinv hg (w_reach h0 m').2).one ref (nHeap_keeps e hlt m' (by omega))
    omega)).idi.done 0 key.1

/-- C103: a node whose identification was started and which is always awake is in the end identified: its requests go
out through the connection, the answers come back through it or the waiting ends by a timeout and it is asked again.
(Missing: the goroutine that holds a nil channel.) -/
theorem C103_identified_listening_partial {M D : Nat} (hb : DBBound db M D) (hf : FairWhole e) (hg : GoodFile ns)
    (h0 : e.st 0 = wStart f ns) {ref n : Nat} (hs : Identifies e ref n) (hl : ∀ m, ¬ Late (e.st m) (.ident ref 0))
    (hn : FairAnswers e ref) (hw : ∀ m a, IdentGoes e ref m a → ∀ p, a = .info p → p.listening = true) :
    ∃ m, ∀ m', m ≤ m' → Sys.dead (e.st m').sys ∨ ((e.st m').sys.ctl.heap ref).node.identified = true := by
  by_cases hd : ∃ m, Sys.dead (e.st m).sys
  · obtain ⟨m, hm⟩ := hd
    exact ⟨m, fun m' hm' => .inl (dead_stays (e := sysExec e) hm' hm)⟩
  · obtain ⟨m, h1, h2 | ⟨h2, -⟩⟩ := ident_over hb hf hg h0 (fun n hn => hd ⟨n, hn⟩) hs hl hn (.inr hw)
    · exact ⟨m, fun m' hm' => .inr (over_stays hb hg h0 hs h1 h2 m' hm')⟩
    · exact absurd hw h2

/-- C103: a node whose identification was started and whose wake-ups keep coming is in the end identified, or it waits on
a nil channel for a wake-up that came too early (as C98). -/
theorem C103_identified_sleeping_partial {M D : Nat} (hb : DBBound db M D) (hf : FairWhole e) (hg : GoodFile ns)
    (h0 : e.st 0 = wStart f ns) {ref n : Nat} (hs : Identifies e ref n) (hl : ∀ m, ¬ Late (e.st m) (.ident ref 0))
    (hn : FairAnswers e ref) (hw : FairWakes e ref) :
    ∃ m, (∀ m', m ≤ m' → Sys.dead (e.st m').sys ∨ ((e.st m').sys.ctl.heap ref).node.identified = true) ∨
      ∃ p, ((e.st m).sys.ctl.heap ref).ident 0 = .awWait p none := by
  by_cases hd : ∃ m, Sys.dead (e.st m).sys
  · obtain ⟨m, hm⟩ := hd
    exact ⟨m, .inl fun m' hm' => .inl (dead_stays (e := sysExec e) hm' hm)⟩
  · obtain ⟨m, h1, h2 | ⟨-, h2⟩⟩ := ident_over hb hf hg h0 (fun n hn => hd ⟨n, hn⟩) hs hl hn (.inl hw)
    · exact ⟨m, .inl fun m' hm' => .inr (over_stays hb hg h0 hs h1 h2 m' hm')⟩
    · exact ⟨m, .inr h2⟩

/-! ### The nodes the stick names -/

/-- Only the goroutine of the discovery starts identifications. -/
theorem ident_begins {s s' : CSt} {l : CLabel} {ref : Nat} (h : cStep db s l = some s') (h1 : ref < s.nHeap)
    (h2 : (s.heap ref).nIdent ≠ (s'.heap ref).nIdent) : (∃ todo, s.disc = .start ref todo) ∧ ∃ a, l = .disc a := by
  by_cases hs : l = .startDisc
  · subst hs
    exfalso
    unfold cStep at h
    split at h
    · cases h
    simp only at h
    split at h
    · injection h with h; subst h; exact h2 rfl
    · cases h
  by_cases hd : ∀ a, l ≠ .disc a
  · exact absurd (other_ident h hd hs ref).symm h2
  · simp only [ne_eq, Classical.not_forall, Classical.not_not] at hd
    obtain ⟨a, rfl⟩ := hd
    refine ⟨?_, a, rfl⟩
    ctl_step h
    all_goals try (exact absurd rfl h2)
    all_goals try have f := (frame_step (by assumption)).nIdent
    all_goals try simp only [put_heap, push_heap, updN] at h2
    all_goals (repeat' split at h2)
    all_goals first
      | (exact absurd rfl h2)
      | (exfalso; grind)
      | grind

theorem begins_new {s s' : CSt} {l : CLabel} {ref : Nat} (h : cStep db s l = some s') (h1 : ¬ ref < s.nHeap)
    (h2 : ref < s'.nHeap) : (s'.heap ref).nIdent = 0 := by
  ctl_step h
  all_goals first
    | exact absurd h2 h1
    | exact absurd (by simpa only [put_nHeap] using h2) h1
    | (simp only [push_heap, push_nHeap, updN] at *; grind [start_new])

theorem disc_done_keeps {s s' : CSt} {l : CLabel} (h : cStep db s l = some s') (hd : s.disc = .done) : s'.disc = .done := by
  ctl_step h
  all_goals first
    | exact hd
    | (simp_all; done)
    | (simp only [CSt.put, CSt.push]; split <;> exact hd)

/-- C103: every node that an accepted discovery reply names is in the list in the end, and its identification was started.
-/
theorem C103_named_nodes_started_partial (hf : FairWhole e) (hg : GoodFile ns) (h0 : e.st 0 = wStart f ns)
    (hl : ∀ n, ¬ Late (e.st n) .disc) {k : Nat} {bm : List Bool} (hk : e.lab k = some (.sys (.ctl (.disc (.nodes bm)))))
    (hw : (e.st k).sys.ctl.disc = .wait) {id : Int} (hi : Active bm id) :
    ∃ m, Sys.dead (e.st m).sys ∨ ∃ ref n, (∀ m', m ≤ m' → (e.st m').sys.ctl.list.get id = some ref) ∧ Identifies e ref n := by
  by_cases hd : ∃ m, Sys.dead (e.st m).sys
  · obtain ⟨m, hm⟩ := hd
    exact ⟨m, .inl hm⟩
  have ha : ∀ n, ¬ Sys.dead (e.st n).sys := fun n hn => hd ⟨n, hn⟩
  have hx := e.next k
  rw [hk] at hx
  have hc := ctl_part (sys_part hx)
  simp only [sysLab, ctlLab] at hc
  have hrk := (w_reach h0 k).2
  have c1 := cinv hg hrk
  obtain ⟨d1, d2⟩ := dinv_reply hw hc
  have i1 := ident_reply c1 hw hc
  have hall : ∀ m, k + 1 ≤ m → DInv (e.st k).sys.ctl.list (e.st k).sys.ctl.nHeap (activeIds bm)
      (announced (e.st k).sys.ctl.hist) (e.st m).sys.ctl ∧ IdentInv (activeIds bm) (e.st m).sys.ctl := by
    intro m hm
    induction hm with
    | refl => exact ⟨d1, i1⟩
    | step hm ih =>
      next m =>
      have := e.next m
      split at this
      · rcases ctl_of this with ⟨cl, g1, -⟩ | ⟨g1, -⟩
        · have hr1 : cRun db (e.st m).sys.ctl [cl] = some (e.st (m + 1)).sys.ctl := by simp [cRun, g1]
          exact ⟨dinv_run hg _ _ _ (w_reach h0 m).2 ih.1 hr1, ident_step (cinv hg (w_reach h0 m).2) ih.2 g1⟩
        · rw [g1]; exact ih
      · rw [this]; exact ih
  obtain ⟨m, hm, h | hdone⟩ := C103_discovery_ends_partial hf hg h0 hl (k + 1) (by rw [d2]; simp)
  · exact absurd h (ha m)
  obtain ⟨dm, im⟩ := hall m hm
  have hmem : id ∈ activeIds bm := (active_mem bm id).2 hi
  have hun : unadded (e.st m).sys.ctl = [] := by unfold unadded; rw [hdone]; rfl
  have hus : unstarted (e.st m).sys.ctl = [] := by unfold unstarted; rw [hdone]; rfl
  obtain ⟨ref, href⟩ : ∃ ref, (e.st m).sys.ctl.list.get id = some ref := by
    cases hb : (e.st k).sys.ctl.list.get id with
    | some r => exact ⟨r, dm.keep id r hb⟩
    | none => exact Option.isSome_iff_exists.1 ((dm.new id hb).2 ⟨hmem, by rw [hun]; simp⟩)
  have cm := cinv hg (w_reach h0 m).2
  obtain ⟨hlt, hid⟩ := cm.list id ref href
  have hone : ((e.st m).sys.ctl.heap ref).nIdent = 1 := by
    rw [im.count ref hlt, if_pos ⟨by rw [hid]; exact hmem, by rw [hus]; simp⟩]
  have hkeep : ∀ m', m ≤ m' → (e.st m').sys.ctl.list.get id = some ref ∧ (e.st m').sys.ctl.disc = .done := by
    intro m' hm'
    induction hm' with
    | refl => exact ⟨href, hdone⟩
    | step hm' ih =>
      next m' =>
      have := e.next m'
      split at this
      · rcases ctl_of this with ⟨cl, g1, -⟩ | ⟨g1, -⟩
        · exact ⟨by rw [Verif.Lemmas.System.list_keeps g1 ih.2]; exact ih.1, disc_done_keeps g1 ih.2⟩
        · rw [g1]; exact ih
      · rw [this]; exact ih
  have hzero : ¬ (ref < (e.st (k + 1)).sys.ctl.nHeap ∧ ((e.st (k + 1)).sys.ctl.heap ref).nIdent = 1) := by
    rintro ⟨g1, g2⟩
    rw [d2] at g1 g2
    have := c1.zero ref g1 (.inl (by rw [hw]; rfl))
    rw [this] at g2
    cases g2
  have hstep : ∀ j, k + 1 ≤ j → (ref < (e.st j).sys.ctl.nHeap ∧ ((e.st j).sys.ctl.heap ref).nIdent = 1) →
      ∃ n, Identifies e ref n := by
    intro j hj
    induction hj with
    | refl => exact fun h => absurd h hzero
    | step hj ih =>
      next j =>
      intro ⟨g1, g2⟩
      by_cases hp : ref < (e.st j).sys.ctl.nHeap ∧ ((e.st j).sys.ctl.heap ref).nIdent = 1
      · exact ih hp
      · have hx := e.next j
        split at hx
        · next l hlab =>
          rcases ctl_of hx with ⟨cl, q1, q2⟩ | ⟨q1, -⟩
          · by_cases hlt' : ref < (e.st j).sys.ctl.nHeap
            · obtain ⟨b1, a, b2⟩ := ident_begins q1 hlt' (by intro he; rw [he] at hp; exact hp ⟨hlt', g2⟩)
              subst b2
              refine ⟨j, b1, a, ?_⟩
              rw [hlab, ctl_lab q2 (by simp)]
            · have := begins_new q1 hlt' g1
              rw [this] at g2; cases g2
          · rw [q1] at g1 g2; exact absurd ⟨g1, g2⟩ hp
        · rw [hx] at g1 g2; exact absurd ⟨g1, g2⟩ hp
  obtain ⟨n, hn⟩ := hstep m hm ⟨hlt, hone⟩
  exact ⟨m, .inr ⟨ref, n, fun m' hm' => (hkeep m' hm').1, hn⟩⟩

/-- C103, the whole way: a node named in the discovery reply the stick sent, always awake and answering what it is asked
again and again, is in the end in the list and identified. -/
theorem C103_named_nodes_identified_partial {M D : Nat} (hb : DBBound db M D) (hf : FairWhole e) (hg : GoodFile ns)
    (h0 : e.st 0 = wStart f ns) (hl : ∀ n who, ¬ Late (e.st n) who) {k : Nat} {bm : List Bool}
    (hk : e.lab k = some (.sys (.ctl (.disc (.nodes bm))))) (hw : (e.st k).sys.ctl.disc = .wait) {id : Int}
    (hi : Active bm id) (hn : ∀ ref, FairAnswers e ref)
    (hp : ∀ ref m a, IdentGoes e ref m a → ∀ p, a = .info p → p.listening = true) :
    ∃ m, ∀ m', m ≤ m' → Sys.dead (e.st m').sys ∨
      ∃ ref, (e.st m').sys.ctl.list.get id = some ref ∧ ((e.st m').sys.ctl.heap ref).node.identified = true := by
  obtain ⟨m, h | ⟨ref, n, h1, h2⟩⟩ := C103_named_nodes_started_partial hf hg h0 (fun n => hl n .disc) hk hw hi
  · exact ⟨m, fun m' hm' => .inl (dead_stays (e := sysExec e) hm' h)⟩
  · obtain ⟨m2, h3⟩ := C103_identified_listening_partial hb hf hg h0 h2 (fun m => hl m _) (hn ref) (hp ref)
    exact ⟨max m m2, fun m' hm' => (h3 m' (by omega)).imp_right fun h => ⟨ref, h1 m' (by omega), h⟩⟩

/-- C103: what C100 says of the states shown holds for the process with the requests joined. (Missing: the goroutine that
holds a nil channel.) -/
theorem C103_on_shown_partial (hf : FairWhole e) (hg : GoodFile ns) (h0 : e.st 0 = wStart f ns)
    (hlate : ∀ n, ¬ Late (e.st n) .disc) {n0 n : Nat} (hd : (e.st n0).sys.ctl.disc = .done) {b : UInt8} {ref : Nat}
    (hl : (e.st n0).sys.ctl.list.get b.toNat = some ref) (hb : AllApplied b (e.st n0).sys.ctl)
    (hq : NoMoreRequests (sysExec e) n) (hr : NoMoreReads (sysExec e) n) {xs : List Session}
    (hx : sessions (connSteps (sysExec e) n) = xs.map Session.reads) (ho : ∀ x ∈ xs, x.Ok) {x : Bool}
    (hsome : ∃ fr ∈ onWire xs, WireOn fr b x) (hagree : ∀ fr ∈ onWire xs, ∀ y, WireOn fr b y → y = x) :
    ∃ m, ∀ m', m ≤ m' → Sys.dead (e.st m').sys ∨
      boolState ((e.st m').sys.ctl.heap ref).node "on".toList = some x :=
  C100_on_shown (C103_parts_fair_partial hf h0 hlate) hg (by show (e.st 0).sys = _; rw [h0]; rfl) hd hl hb hq hr hx ho hsome hagree

/-! ### A whole session, and the gap -/

/-- Nodes 1 and 2. -/
def fDisc : List UInt8 := [1, 37, 1, 2, 5, 0, 29, 3] ++ List.replicate 28 0 ++ [5, 0, 199]
/-- Node 2 has one end point. -/
def fEnds : List UInt8 := [1, 10, 0, 4, 0, 2, 4, 96, 8, 0, 1, 158]
def fBits : List Bool := [true, true] ++ List.replicate 230 false

/-- The caller of request `u` sees the end of its channel, the timer runs out. -/
def fHear (u : Nat) : List WLabel := jc [.client u .again, .client u .seeClosed, .timer u, .timer u, .timer u]
def fHandle (u : Nat) : List WLabel := jc [.client u .handle, .timer u, .timer u, .timer u]

def fLs1 : List WLabel :=
  jc [.connect true] ++ [.sys (.connected true)] ++ jt [.startDisc] ++ [.ask .disc] ++ jSend 0 ++ jRead fDisc [0] 3 ++ fHear 0

/-- Discovery, identification of node 2 and the processing of its reports. -/
def fLs : List WLabel :=
  fLs1 ++ jt (.disc (.nodes fBits) :: List.replicate 9 (.disc .nothing)) ++
  jNext 0 1 ++ [.ask (.ident 0 0)] ++ jSend 1 ++ jRead jInfo [1] 3 ++ fHear 1 ++ jt [.node 0 (.ident 0 (.info jp))] ++
  jNext 0 4 ++ [.ask (.ident 0 0)] ++ jSend 2 ++ jRead jManu [2] 4 ++ fHandle 2 ++
    jt [.node 0 (.ident 0 (.report (.manufacturerSpecific jm)))] ++
  jNext 0 3 ++ [.ask (.ident 0 0)] ++ jSend 3 ++ jRead fEnds [3] 4 ++ fHandle 3 ++
    jt [.node 0 (.ident 0 (.report (.multiChannelEndpoints ⟨false, false, 1⟩)))] ++
  jNext 0 9 ++ [.ask (.ident 0 0)] ++ jc (xSend 0 4 ++ xGiveUp 0) ++ jNext 0 8 ++
  jt [.deliver 0, .deliver 0, .deliver 0, .deliver 1, .deliver 1, .deliver 1]

theorem fLs_rest : (runSteps (wStep .perIteration demoDB) (wStart false []) fLs).map (fun w =>
    wRestB fLs w && w.sys.conn.crashed.isNone && w.sys.ctl.crashed.isNone) = some true := by decide +kernel

/-- The answer to the discovery comes before the goroutine has read the channel from the package. -/
def lLs : List WLabel :=
  jc [.connect true] ++ [.sys (.connected true)] ++ jt [.startDisc] ++ [.ask .disc] ++
    jc (xSend 0 0 ++ xGiveUp 0 ++ [.reader (.read ⟨fDisc, true, 0⟩), .reader .go, .reader .go, .reader .go, .reader (.pick 0),
      .reader .go, .reader .go, .reader .skip, .reader .go, .reader .go, .reader .go, .reader .go, .reader .go, .reader .stop,
      .reader .go, .reader .go, .reader .go, .reader .go, .client 0 .readField, .timer 0, .timer 0, .timer 0])

theorem lLs_rest : (runSteps (wStep .perIteration demoDB) (wStart false []) lLs).map (fun w =>
    wRestB lLs w && w.sys.conn.crashed.isNone && w.sys.ctl.crashed.isNone) = some true := by decide +kernel

theorem fDisc_names : NamesNode fDisc 2 :=
  ⟨1, 5, 0, 29, [3] ++ List.replicate 28 0, [5, 0], 3, ⟨37, 199, by decide, by decide, by decide⟩, by decide, by decide, by decide⟩

theorem fDisc_good : GoodFrame fDisc :=
  ⟨[1, 2, 5, 0, 29, 3] ++ List.replicate 28 0 ++ [5, 0], ⟨37, 199, rfl, rfl, by decide⟩,
    .inr (.inl ⟨1, 5, 0, 29, [3] ++ List.replicate 28 0 ++ [5, 0], rfl, by decide⟩)⟩

/-- C103, violated: the stick is asked for its nodes and names node 2 in a proper reply, nobody is passed over for ever and
the process does not die, and yet node 2 is never known: the discovery waits for ever. -/
theorem C103_violated_late :
    ¬ ∀ (e : Exec (wStep .perIteration demoDB)), FairWhole e → e.st 0 = wStart false [] →
      ∀ (j k : Nat) (fr : List UInt8), j < k → e.lab j = some (.ask .disc) →
        e.lab k = some (.sys (.conn (.reader (.read ⟨fr, true, 0⟩)))) → GoodFrame fr → NamesNode fr 2 →
        ∃ m, ∀ m', m ≤ m' → Sys.dead (e.st m').sys ∨ (e.st m').sys.ctl.disc = .done ∨ (e.st m').sys.ctl.list.get 2 ≠ none := by
  intro h
  obtain ⟨e, w, hf, h0, hd, -, hlab, -, hr, hend⟩ := rest_exec (lv := .perIteration) (db := demoDB) (f := false) noFileGood lLs_rest
  obtain ⟨m, g⟩ := h e hf h0 3 17 fDisc (by decide) (by rw [hlab 3 (by decide)]; rfl) (by rw [hlab _ (by decide)]; rfl)
    fDisc_good fDisc_names
  have hv : (runSteps (wStep .perIteration demoDB) (wStart false []) lLs).map (fun w =>
    decide (w.sys.ctl.disc = .wait) && decide (w.sys.ctl.list.get 2 = none)) = some true := by decide +kernel
  rw [hr] at hv
  simp only [Option.map_some, Option.some.injEq, Bool.and_eq_true, decide_eq_true_eq] at hv
  have hx := g (m + lLs.length) (by omega)
  rcases hx with hx | hx | hx
  · exact hd _ hx
  · rw [hend _ (by omega)] at hx
    have : w.sys.ctl.disc = .done := hx
    rw [hv.1] at this; cases this
  · rw [hend _ (by omega)] at hx
    exact hx hv.2

theorem nil_stays {s s' : St} {l : Label} {u : Nat} (hn : s.client u = .nilChan ∧ u < s.nReq) (h : step lv s l = some s') :
    s'.client u = .nilChan ∧ u < s'.nReq := by
  conn_step h
  all_goals first
    | exact hn
    | grind [upd]

/-- A fair execution that meets the hypotheses of the theorems above, and what follows for it. -/
example : ∃ e : Exec (wStep .perIteration demoDB), FairWhole e ∧ e.st 0 = wStart false [] ∧ (∀ n, ¬ Sys.dead (e.st n).sys) ∧
    (∀ n who, ¬ Late (e.st n) who) ∧ (∃ k, e.lab k = some (.sys (.ctl (.disc (.nodes fBits)))) ∧ (e.st k).sys.ctl.disc = .wait) ∧
    Active fBits 2 ∧ (∀ ref, FairAnswers e ref) ∧
    (∀ ref m a, IdentGoes e ref m a → ∀ p, a = .info p → p.listening = true) ∧
    ∃ m, ∀ m', m ≤ m' → ∃ ref, (e.st m').sys.ctl.list.get 2 = some ref ∧
      ((e.st m').sys.ctl.heap ref).node.identified = true := by
  obtain ⟨e, w, hf, h0, hd, hst, hlab, htick, hr, hend⟩ :=
    rest_exec (lv := .perIteration) (db := demoDB) (f := false) noFileGood fLs_rest
  have hlate : ∀ n who, ¬ Late (e.st n) who := by
    rintro n who ⟨u, h1, h2⟩
    have h3 := exec_keep (connExec (sysExec e)) (Q := fun s => s.client u = .nilChan ∧ u < s.nReq)
      (fun s l s' h1 h2 => nil_stays h1 h2) ⟨h2, Classical.byContradiction fun hu => by
        have hh : (e.st n).sys.conn.client u = .done := (fresh (w_reach h0 n).1).client u (Nat.not_lt.1 hu)
        rw [hh] at h2; cases h2⟩ (n + fLs.length) (by omega)
    have h4 : (e.st (n + fLs.length)).sys.conn.client u = .nilChan := h3.1
    rw [hend _ (by omega)] at h4
    have h5 : w.sys.conn.client u = .nilChan := h4
    have hb : (runSteps (wStep .perIteration demoDB) (wStart false []) fLs).map (fun w =>
      (List.range w.sys.conn.nReq).all fun u => decide (w.sys.conn.client u = .done)) = some true := by decide +kernel
    rw [hr] at hb
    simp only [Option.map_some, Option.some.injEq, List.all_eq_true, List.mem_range, decide_eq_true_eq] at hb
    obtain ⟨⟨cls, hcr, -⟩, -⟩ := run_parts hr
    by_cases hu : u < w.sys.conn.nReq
    · rw [hb u hu] at h5; cases h5
    · rw [(fresh ⟨cls, hcr⟩).client u (by omega)] at h5; cases h5
  have hgo : ∀ ref m a, IdentGoes e ref m a → m < fLs.length ∧ .sys (.ctl (.node ref (.ident 0 a))) ∈ fLs := by
    intro ref m a hm
    unfold IdentGoes at hm
    by_cases hlt : m < fLs.length
    · rw [hlab m hlt] at hm
      exact ⟨hlt, List.mem_of_getElem? hm⟩
    · rw [htick m (by omega)] at hm; cases hm
  have hans : ∀ ref, FairAnswers e ref := by
    intro ref k hk
    obtain ⟨m, a, h1, h2, -⟩ := hk fLs.length
    have := (hgo ref m a h2).1
    omega
  have hlis : ∀ ref m a, IdentGoes e ref m a → ∀ p, a = .info p → p.listening = true := by
    rintro ref m a hm p rfl
    have hall : ∀ l ∈ fLs, (match l with
      | .sys (.ctl (.node _ (.ident _ (.info p)))) => p.listening
      | _ => true) = true := by decide +kernel
    exact hall _ (hgo ref m _ hm).2
  have hk : e.lab fLs1.length = some (.sys (.ctl (.disc (.nodes fBits)))) := by
    rw [hlab _ (by decide +kernel)]; decide +kernel
  have hw : (e.st fLs1.length).sys.ctl.disc = .wait := by
    have h1 := hst fLs1.length (by decide +kernel)
    have h2 : (runSteps (wStep .perIteration demoDB) (wStart false []) (fLs.take fLs1.length)).map (fun w =>
      decide (w.sys.ctl.disc = .wait)) = some true := by decide +kernel
    rw [h1] at h2
    simpa using h2
  have hact : Active fBits 2 := ⟨1, by decide, by decide, by decide⟩
  refine ⟨e, hf, h0, hd, hlate, ⟨_, hk, hw⟩, hact, hans, hlis, ?_⟩
  obtain ⟨m, h⟩ := C103_named_nodes_identified_partial demo_bound hf noFileGood h0 hlate hk hw hact hans hlis
  exact ⟨m, fun m' hm' => (h m' hm').resolve_left (hd m')⟩

end Verif.Props
