import Verif.Spec.Sleep
import Verif.Props.Process
import Verif.Props.Shown

/-
C115: sleeping nodes are left alone, from the wire to the wire.
-/

set_option linter.unusedSimpArgs false
set_option linter.unusedVariables false
set_option maxHeartbeats 4000000

namespace Verif.Props

open Verif.Go Verif.Model Verif.Model.Conn Verif.Spec Verif.Lemmas Verif.Lemmas.Conn Verif.Lemmas.Ctl Verif.Lemmas.NodeM
  Verif.Lemmas.EndToEnd Verif.Lemmas.System Verif.Lemmas.Process

variable {lv : LoopVars} {db : DB} {f : Bool} {ns : List Node} {ls : List WLabel} {w : Whole} {xs : List Session}

/-! ### One node -/

/-- Everything that lets an identification send is excused by `A`. -/
structure AwInv (A : Prop) (s : NSt) : Prop where
  now : s.node.isAwake = true → A
  pass : ∀ i, awakeAt (s.ident i) = true → A
  clo : ∀ c, s.closed c = true → A
  proc : ∀ j, s.proc j = .wakeClose → A

theorem aw_step {A : Prop} {s s' : NSt} {l : NLabel} (hi : AwInv A s) (h : nodeStep db s l = some s')
    (h1 : ∀ i p, l = .ident i (.info p) → s.ident i = .info → p.listening = true → A) (h2 : l = .report .wakeUp → A) : AwInv A s' := by
  obtain ⟨k1, k2, k3, k4⟩ := hi
  node_step h
  all_goals try have q3 := congrArg awakeAt (by assumption : NSt.ident s _ = _)
  all_goals try conv at q3 => rhs; whnf
  all_goals constructor
  all_goals first
    | assumption
    | grind [updN, awakeAt, SameCore, → alarmOn_ok, → alarmOff_ok, → applyState_core, setManufacturer_fields]

theorem aw_weaken {A B : Prop} (hab : A → B) {s : NSt} (h : AwInv A s) : AwInv B s :=
  ⟨fun k => hab (h.now k), fun i k => hab (h.pass i k), fun c k => hab (h.clo c k), fun j k => hab (h.proc j k)⟩

theorem handsOver_awake {n n' : NSt} {i : Nat} {a : Answer} {k : Ask} {b : UInt8} (h : nodeStep db n (.ident i a) = some n')
    (hk : handsOver n n' i = some k) (hc : Contacts k.data b) : awakeAt (n.ident i) = true ∧ intToByte n.node.id = b := by
  obtain ⟨rest, hc⟩ := hc
  node_step h
  all_goals try (simp [handsOver] at hk; done)
  all_goals
    simp [handsOver] at hk
    subst hk
    simp [serialRawEncode, rawEncode, toByte] at hc
    try (simp_all [awakeAt]; done)

/-! ### The process -/

/-- Why node `ref` may be contacted. -/
def Excused (ns : List Node) (w : Whole) (ref : Nat) : Prop :=
  (∃ n ∈ ns, n.id = (w.sys.ctl.heap ref).node.id ∧ n.isAwake = true) ∨
    (∃ a p, Told w.sys.conn a (.info p) ∧ p.listening = true) ∨ ∃ k, CEv.applied k ref .wakeUp ∈ w.sys.ctl.hist

theorem whole_id {w w' : Whole} {l : WLabel} (h : wStep lv db w l = some w') {ref : Nat} (hr : ref < w.sys.ctl.nHeap) :
    ref < w'.sys.ctl.nHeap ∧ (w'.sys.ctl.heap ref).node.id = (w.sys.ctl.heap ref).node.id := by
  rcases ctl_of h with ⟨cl, g, -⟩ | ⟨g, -⟩
  · exact heap_id hr g
  · rw [g]; exact ⟨hr, rfl⟩

theorem excused_mono {w w' : Whole} {l : WLabel} (h : wStep lv db w l = some w') {ref : Nat} (hr : ref < w.sys.ctl.nHeap)
    (he : Excused ns w ref) : Excused ns w' ref := by
  rcases he with ⟨n, h1, h2, h3⟩ | ⟨a, p, h1, h2⟩ | ⟨k, h1⟩
  · exact .inl ⟨n, h1, h2.trans (whole_id h hr).2.symm, h3⟩
  · exact .inr (.inl ⟨a, p, told_mono h h1, h2⟩)
  · refine .inr (.inr ⟨k, ?_⟩)
    rcases ctl_of h with ⟨cl, g, -⟩ | ⟨g, -⟩
    · exact System.hist_mono g h1
    · rw [g]; exact h1

/-- A wake-up report reaches a node only when it is applied. -/
theorem heap_wake {s s' : CSt} {l : CLabel} {ref : Nat} (hlt : ref < s.nHeap) (h : cStep db s l = some s') :
    s'.heap ref = s.heap ref ∨ ∃ l', nodeStep db (s.heap ref) l' = some (s'.heap ref) ∧
      (∀ i a, l' = .ident i a → l = .node ref (.ident i a)) ∧ (l' = .report .wakeUp → ∃ k, CEv.applied k ref .wakeUp ∈ s'.hist) := by
  ctl_step h
  all_goals first
    | exact .inl rfl
    | (refine .inl ?_
       simp only [CSt.push, updN]
       rw [if_neg (by omega)]
       done)
    | (simp only [put_heap, updN]
       split
       · next he =>
         subst he
         refine .inr ⟨_, by assumption, by simp, ?_⟩
         simp
         try (intro e; subst e; exact ⟨_, (applied_put_mem ..).2 List.mem_cons_self⟩)
       · next he => exact .inl rfl)

structure SleepW (ns : List Node) (w : Whole) : Prop where
  node : ∀ ref, ref < w.sys.ctl.nHeap → AwInv (Excused ns w ref) (w.sys.ctl.heap ref)
  want : ∀ ref i a b, w.want (.ident ref i) = some a → Contacts a.data b →
    ref < w.sys.ctl.nHeap ∧ Excused ns w ref ∧ intToByte (w.sys.ctl.heap ref).node.id = b

/-- The answer of the stick that an identification goes on with was told. -/
theorem info_told {w w' : Whole} {ref i : Nat} {p : ProtocolInfo} (hi : WInv ns w)
    (h : wStep lv db w (.sys (.ctl (.node ref (.ident i (.info p))))) = some w') (hr : ref < w.sys.ctl.nHeap)
    (hw : (w.sys.ctl.heap ref).ident i = .info) : ∃ a, Told w.sys.conn a (.info p) := by
  obtain ⟨a, u, e1, e2, e3⟩ := ident_told hi h hr (by rw [hw]; rfl)
  rw [hw] at e3
  simp only [identAnswer, Option.map_eq_some_iff] at e3
  obtain ⟨x, h1, h2⟩ := e3
  cases x with
  | none => cases h2
  | some m =>
    obtain ⟨b, hb⟩ := heard_got h1
    refine ⟨a, u, b, m, e2, hb, ?_⟩
    unfold infoAnswer at h2
    simp only at h2
    split at h2
    · next e => cases h2; exact e
    · cases h2

theorem sleepW_node {w w' : Whole} {l : WLabel} (hw : WInv ns w) (hi : SleepW ns w) (h : wStep lv db w l = some w') {ref : Nat}
    (hr : ref < w'.sys.ctl.nHeap) : AwInv (Excused ns w' ref) (w'.sys.ctl.heap ref) := by
  rcases ctl_of h with ⟨cl, g1, g2⟩ | ⟨g1, g2⟩
  · rcases Nat.lt_or_ge ref w.sys.ctl.nHeap with hlt | hge
    · have old := aw_weaken (excused_mono h hlt) (hi.node ref hlt)
      rcases heap_wake hlt g1 with k | ⟨l', k1, k2, k3⟩
      · rw [k]; exact old
      · refine aw_step old k1 (fun i p e ei hp => ?_) (fun e => .inr (.inr (k3 e)))
        have hl := ctl_lab g2 (by rw [k2 i _ e]; simp)
        rw [k2 i _ e] at hl
        subst hl
        obtain ⟨a, ha⟩ := info_told hw h hlt ei
        exact .inr (.inl ⟨a, p, told_mono h ha, hp⟩)
    · obtain ⟨id, e⟩ := Verif.Lemmas.Process.heap_new hge hr g1
      rw [e]
      constructor <;> simp [NSt.start, newNode, awakeAt]
  · rw [g1] at hr ⊢
    exact aw_weaken (excused_mono h hr) (hi.node ref hr)

theorem sleepW_want {w w' : Whole} {l : WLabel} (hi : SleepW ns w) (h : wStep lv db w l = some w') {ref i : Nat} {a : Ask} {b : UInt8}
    (ha : w'.want (.ident ref i) = some a) (hc : Contacts a.data b) :
    ref < w'.sys.ctl.nHeap ∧ Excused ns w' ref ∧ intToByte (w'.sys.ctl.heap ref).node.id = b := by
  have old : w.want (.ident ref i) = some a →
      ref < w'.sys.ctl.nHeap ∧ Excused ns w' ref ∧ intToByte (w'.sys.ctl.heap ref).node.id = b := by
    intro ha
    obtain ⟨g1, g2, g3⟩ := hi.want ref i a b ha hc
    obtain ⟨k1, k2⟩ := whole_id h g1
    rw [k2]
    exact ⟨k1, excused_mono h g1 g2, g3⟩
  cases l with
  | sys l =>
    have hp := ctl_part (sys_part h)
    have hw := (may_of h).2
    unfold Whole.after at hw
    split at hw
    · rw [hw] at ha
      simp [updW] at ha
      exact old ha
    · next r j a' =>
      simp only [sysLab, ctlLab] at hp
      by_cases e : ref = r ∧ i = j
      · obtain ⟨rfl, rfl⟩ := e
        rw [hw] at ha
        simp [updW] at ha
        have hlt : ref < w.sys.ctl.nHeap := by
          unfold cStep at hp
          split at hp
          · cases hp
          · simp only at hp
            split at hp
            · assumption
            · cases hp
        rcases heap_ident hlt hp with ⟨-, k⟩ | ⟨l', k1, k2⟩
        · exact absurd rfl (k _ _)
        · have := (k2 i a').2 rfl
          subst this
          obtain ⟨m1, m2⟩ := handsOver_awake k1 ha hc
          obtain ⟨k3, k4⟩ := whole_id h hlt
          rw [k4]
          exact ⟨k3, excused_mono h hlt ((hi.node ref hlt).pass i m1), m2⟩
      · refine old ?_
        rw [hw] at ha
        simp only [updW] at ha
        rw [if_neg (by simpa using e)] at ha
        exact ha
    · exact old (by rw [hw] at ha; exact ha)
  | ask who =>
    refine old ?_
    simp only [wStep] at h
    split at h
    · cases h
    · rw [Option.map_eq_some_iff] at h
      obtain ⟨s, hs, rfl⟩ := h
      simp only [updW] at ha
      split at ha
      · cases ha
      · exact ha

theorem sleepW (h : runSteps (wStep lv db) (wStart f ns) ls = some w) : SleepW ns w := by
  refine (wrun_induct (P := fun w => WInv ns w ∧ SleepW ns w) (fun w l w' hi hs => ⟨winv_step hi.1 hs,
    fun _ hr => sleepW_node hi.1 hi.2 hs hr, fun _ _ _ _ ha hc => sleepW_want hi.2 hs ha hc⟩) ⟨winv_start f ns, ?_, ?_⟩ h).2
  · intro ref hr
    obtain ⟨n, hn, e⟩ := (begun_start f ns).1 ref hr
    have e' : (wStart f ns).sys.ctl.heap ref = _ := e
    constructor
    · intro k
      rw [e'] at k
      exact .inl ⟨n, hn, by rw [e']; rfl, k⟩
    all_goals rw [e']; simp [NSt.start, awakeAt]
  · intro ref i a b ha
    cases ha

/-- A request to a node is the user's, or the node may be contacted. -/
theorem contact_origin (h : runSteps (wStep lv db) (wStart f ns) ls = some w) {u : Nat} {data : List UInt8} {kind : Conn.Kind}
    {t : Bool} {er b : UInt8} (hs : Ev.submit u data kind t er ∈ w.sys.conn.hist) (hb : Contacts data b) :
    .sys (.conn (.submit data kind t er)) ∈ ls ∨
      ∃ ref < w.sys.ctl.nHeap, Excused ns w ref ∧ intToByte (w.sys.ctl.heap ref).node.id = b := by
  have gen : ∀ (ls pre : List WLabel) (w0 w : Whole), runSteps (wStep lv db) (wStart f ns) pre = some w0 →
      ((Ev.submit u data kind t er ∈ w0.sys.conn.hist) → .sys (.conn (.submit data kind t er)) ∈ pre ∨
          ∃ ref < w0.sys.ctl.nHeap, Excused ns w0 ref ∧ intToByte (w0.sys.ctl.heap ref).node.id = b) →
      runSteps (wStep lv db) w0 ls = some w →
        Ev.submit u data kind t er ∈ w.sys.conn.hist → .sys (.conn (.submit data kind t er)) ∈ pre ++ ls ∨
          ∃ ref < w.sys.ctl.nHeap, Excused ns w ref ∧ intToByte (w.sys.ctl.heap ref).node.id = b := by
    intro ls
    induction ls with
    | nil =>
      intro pre w0 w _ h0 h
      cases h
      rw [List.append_nil]
      exact h0
    | cons l ls ih =>
      intro pre w0 w hw h0 h
      simp only [runSteps] at h
      cases hl : wStep lv db w0 l with
      | none => rw [hl] at h; cases h
      | some w1 =>
        rw [hl] at h
        intro hs'
        have := ih (pre ++ [l]) w1 w (by rw [runSteps_append, hw]; simp [runSteps, hl]) (by
          intro hs
          have old : Ev.submit u data kind t er ∈ w0.sys.conn.hist →
              .sys (.conn (.submit data kind t er)) ∈ pre ++ [l] ∨
                ∃ ref < w1.sys.ctl.nHeap, Excused ns w1 ref ∧ intToByte (w1.sys.ctl.heap ref).node.id = b := by
            intro hs
            rcases h0 hs with g | ⟨ref, g1, g2, g3⟩
            · exact .inl (List.mem_append_left _ g)
            · obtain ⟨k1, k2⟩ := whole_id hl g1
              exact .inr ⟨ref, k1, excused_mono hl g1 g2, by rw [k2]; exact g3⟩
          have hp := conn_part (sys_part hl)
          cases l with
          | sys l =>
            cases l with
            | conn l =>
              rcases submit_step hp hs with g | rfl
              · exact old g
              · exact .inl (List.mem_append_right _ List.mem_cons_self)
            | ctl l => rw [show w1.sys.conn = w0.sys.conn from hp] at hs; exact old hs
            | connected b => rw [show w1.sys.conn = w0.sys.conn from hp] at hs; exact old hs
          | ask who =>
            cases hwa : w0.want who with
            | none => simp [wStep, hwa] at hl
            | some a =>
              simp only [sysLab, hwa] at hp
              rcases submit_step hp hs with g | g
              · exact old g
              · cases g
                cases who with
                | disc =>
                  have := (want_inv hw).1 a hwa
                  subst this
                  obtain ⟨rest, hb⟩ := hb
                  cases hb
                | ident ref i =>
                  obtain ⟨g1, g2, g3⟩ := (sleepW hw).want ref i a b hwa hb
                  obtain ⟨k1, k2⟩ := whole_id hl g1
                  exact .inr ⟨ref, k1, excused_mono hl g1 g2, by rw [k2]; exact g3⟩) h hs'
        simpa using this
  have := gen ls [] _ w rfl (fun hs => by cases hs) h hs
  simpa using this

/-! ### The wire -/

/-- What was handed to the callback was a report on the wire, also while the reader is at work. -/
theorem callback_wire {ls : List Label} {s : St} (h : run lv init ls = some s) (hc : s.crashed = none)
    (hx : sessions ls = xs.map Session.reads) (ho : ∀ x ∈ xs, x.Ok) {b : UInt8} {r : Report} (hm : (b, r) ∈ callbacks s) :
    ∃ fr ∈ onWire xs, IsReport fr b r := by
  obtain ⟨as, ha, hsaid⟩ := sessions_said ho
  rw [← hx] at ha
  obtain ⟨c, hb⟩ := abs_expected ha
  have hi := read_inv h hc
  have hm : Obs.report b r ∈ observed s := by
    unfold callbacks at hm
    obtain ⟨e, h1, h2⟩ := List.mem_filterMap.1 hm
    refine List.mem_filterMap.2 ⟨e, h1, ?_⟩
    cases e <;> simp at h2
    obtain ⟨rfl, rfl⟩ := h2
    rfl
  have hm' : Obs.report b r ∈ as.filterMap obsAct := by
    cases hr : rRest s.reader with
    | true =>
      obtain ⟨as', b', e1, e2, -⟩ := hi.rest hr
      rw [hb] at e1
      cases e1
      rw [e2]
      exact hm
    | false =>
      obtain ⟨as', e1, e2⟩ := hi.busy hr
      rw [hb] at e1
      cases hd : drain s.buf with
      | error p => rw [hd] at e1; cases e1
      | ok q =>
        rw [hd] at e1
        simp [Except.map] at e1
        rw [e1.1, List.filterMap_append, e2]
        simp only [List.mem_append]
        exact .inl (.inl hm)
  obtain ⟨a, h1, h2⟩ := List.mem_filterMap.1 hm'
  have h3 : (b, r) ∈ as.filterMap actCb := by
    refine List.mem_filterMap.2 ⟨a, h1, ?_⟩
    cases a <;> simp [obsAct] at h2
    obtain ⟨rfl, rfl⟩ := h2
    rfl
  rw [hsaid] at h3
  obtain ⟨p, hp, hb⟩ := List.mem_flatten.1 h3
  obtain ⟨fr, hf, rfl⟩ := List.mem_map.1 hp
  exact ⟨fr, hf, (mem_said (onWire_good ho hf) b r).1 hb⟩

theorem joined_run (h : runSteps (wStep lv db) (wStart f ns) ls = some w) : arrivals w.sys.ctl.hist = callbacks w.sys.conn := by
  refine wrun_induct (P := fun w => arrivals w.sys.ctl.hist = callbacks w.sys.conn) (fun w l w' hi hs => joined_step (sys_part hs) hi) ?_ h
  show arrivals ((newController f).loadNodes ns).hist = []
  have : ∀ (ms : List Node) (t : CSt), arrivals t.hist = [] → arrivals (t.loadNodes ms).hist = [] := by
    intro ms
    induction ms with
    | nil => intro t h; exact h
    | cons m ms ih =>
      intro t h
      refine ih _ ?_
      simp [CSt.loadNode, CSt.push, arrivals_cons, h]
  exact this ns _ rfl

/-- What was applied to a node was on the wire, from that node. -/
theorem applied_wire (hg : GoodFile ns) (h : runSteps (wStep lv db) (wStart f ns) ls = some w) (hx : Arrived ls xs)
    (hc : w.sys.conn.crashed = none) {k ref : Nat} {r : Report} (ha : CEv.applied k ref r ∈ w.sys.ctl.hist) :
    ∃ b : UInt8, (w.sys.ctl.heap ref).node.id = b.toNat ∧ ∃ fr ∈ onWire xs, IsReport fr b r := by
  obtain ⟨⟨cls, hr, hs⟩, hctl⟩ := Verif.Lemmas.Process.run_parts h
  obtain ⟨h1, b, h2, h3⟩ := (apInv hg hctl).ap k ref r ha
  refine ⟨b, h3, callback_wire hr hc (hs.trans hx.1) hx.2 ?_⟩
  rw [← joined_run h]
  exact mem_arrivals.2 ⟨k, arrivalOf_mem h2⟩

theorem wake_report {fr : List UInt8} {b : UInt8} : IsReport fr b .wakeUp ↔ OfWakeUpClass fr b := by
  constructor
  · rintro ⟨cls, cmd, p, h1, h2⟩
    have := (C15_dispatch cls cmd p .wakeUp).1 ⟨_, h2, rfl⟩
    have hc : cls = 0x84 := by
      obtain ⟨h3, -⟩ := this
      rcases h3 with h3 | h3 <;> simp [classTable] at h3 <;> exact h3
    subst hc
    exact ⟨cmd, p, h1⟩
  · rintro ⟨cmd, p, h⟩
    exact ⟨0x84, cmd, p, h, rfl⟩

/-- C115, as far as it holds: the library sends something to a node of its own accord only if the node was stored as one that
is awake, or a protocol info reply has said of a node that it is listening, or the node itself has sent a command of the
wake-up class. Missing, because it is false: that the command is the notification (`C115_violated_interval`), and that the
protocol info reply is about this node (`C102_violated_protocol_info`). -/
theorem C115_contacted_partial (hg : GoodFile ns) (h : runSteps (wStep lv db) (wStart f ns) ls = some w) (hx : Arrived ls xs)
    (hc : w.sys.conn.crashed = none) {u : Nat} {data : List UInt8} {kind : Conn.Kind} {t : Bool} {er b : UInt8}
    (hs : Ev.submit u data kind t er ∈ w.sys.conn.hist) (hb : Contacts data b)
    (hu : .sys (.conn (.submit data kind t er)) ∉ ls) :
    (∃ n ∈ ns, intToByte n.id = b ∧ n.isAwake = true) ∨ (∃ fr ∈ onWire xs, SaysListening fr) ∨
      ∃ fr ∈ onWire xs, OfWakeUpClass fr b := by
  rcases contact_origin h hs hb with g | ⟨ref, g1, g2, g3⟩
  · exact absurd g hu
  rcases g2 with ⟨n, e1, e2, e3⟩ | ⟨a, p, e1, e2⟩ | ⟨k, e1⟩
  · exact .inl ⟨n, e1, by rw [e2]; exact g3, e3⟩
  · obtain ⟨fr, k1, k2, m, k3, k4, -⟩ := told_wire h hx hc e1
    exact .inr (.inl ⟨fr, k1, p, info_frame k2 k3 k4, e2⟩)
  · obtain ⟨b', e2, fr, e3, e4⟩ := applied_wire hg h hx hc e1
    have : b' = b := by
      rw [e2] at g3
      rw [← g3]
      unfold intToByte
      rw [← UInt8.toNat_inj]
      have := b'.toNat_lt
      simp
      omega
    subst this
    exact .inr (.inr ⟨fr, e3, wake_report.1 e4⟩)

/-! ### A run -/

/-- A node that is not listening. -/
def sInfo : List UInt8 := [1, 9, 1, 65, 83, 156, 0, 4, 16, 1, 108]
/-- Node 2 reports its wake-up interval, one hour. -/
def sInterval : List UInt8 := [1, 12, 0, 4, 0, 2, 6, 132, 6, 0, 14, 16, 1, 110]
/-- Node 2 has woken up. -/
def sWake : List UInt8 := [1, 8, 0, 4, 0, 2, 2, 132, 7, 112]
def sp : ProtocolInfo := ⟨false, true, true, 4, false, false, 40000, 4, 16, 1⟩

/-- Node 2 is found, says that it is not listening, and is waited for; then frame `fr` comes. -/
def sls (fr : List UInt8) : List WLabel :=
  jls1 ++ jNext 0 1 ++ [.ask (.ident 0 0)] ++ jSend 1 ++ jRead sInfo [1] 3 ++ jt [.node 0 (.ident 0 (.info sp))] ++ jNext 0 6 ++
    jRead fr [] 4 ++ jt [.deliver 0, .deliver 0, .deliver 0, .node 0 (.proc 0), .node 0 (.proc 0)] ++ jNext 0 2 ++ [.ask (.ident 0 0)]

def swI : Whole := (runSteps (wStep .perIteration demoDB) (wStart false []) (sls sInterval)).getD (wStart false [])
def swW : Whole := (runSteps (wStep .perIteration demoDB) (wStart false []) (sls sWake)).getD (wStart false [])

theorem swI_run : runSteps (wStep .perIteration demoDB) (wStart false []) (sls sInterval) = some swI := by
  have : (runSteps (wStep .perIteration demoDB) (wStart false []) (sls sInterval)).isSome := by decide +kernel
  rw [Option.isSome_iff_exists] at this
  obtain ⟨w, hw⟩ := this
  rw [hw, swI, hw]
  rfl

theorem swW_run : runSteps (wStep .perIteration demoDB) (wStart false []) (sls sWake) = some swW := by
  have : (runSteps (wStep .perIteration demoDB) (wStart false []) (sls sWake)).isSome := by decide +kernel
  rw [Option.isSome_iff_exists] at this
  obtain ⟨w, hw⟩ := this
  rw [hw, swW, hw]
  rfl

def sSession (fr : List UInt8) : Session := [jDisc, sInfo, fr].map fun fr => (⟨[.frame fr], none⟩, ⟨fr, true, 0⟩, [])

theorem sOk {fr : List UInt8} (hf : GoodFrame fr) : ∀ x ∈ [sSession fr, []], x.Ok := by
  intro x hx
  simp at hx
  rcases hx with rfl | rfl
  case inr => intro b hb; cases hb
  intro b hb
  simp [sSession] at hb
  rcases hb with rfl | rfl | rfl
  · refine ⟨⟨?_, by simp⟩, by simp, by decide⟩
    intro t ht; simp at ht; subst ht
    exact ⟨[1, 2, 5, 0, 29, 7] ++ List.replicate 28 0 ++ [5, 0], ⟨37, 195, rfl, rfl, by decide⟩,
      .inr (.inl ⟨1, 5, 0, 29, [7] ++ List.replicate 28 0 ++ [5, 0], rfl, by decide⟩)⟩
  · refine ⟨⟨?_, by simp⟩, by simp, by decide⟩
    intro t ht; simp at ht; subst ht
    exact ⟨[1, 65, 83, 156, 0, 4, 16, 1], ⟨9, 108, rfl, rfl, by decide⟩, .inr (.inr (.inl ⟨1, [83, 156, 0, 4, 16, 1], rfl, by decide⟩))⟩
  · refine ⟨⟨?_, by simp⟩, by simp, by simp [Burst.bytes, bytesOf, Tok.bytes]⟩
    intro t ht; simp at ht; subst ht
    exact hf

theorem sArrivedI : Arrived (sls sInterval) [sSession sInterval, []] :=
  ⟨by decide +kernel, sOk ⟨[0, 4, 0, 2, 6, 132, 6, 0, 14, 16, 1], ⟨12, 110, rfl, rfl, by decide⟩,
    .inl ⟨0, 0, 2, 6, [132, 6, 0, 14, 16, 1], rfl, by decide, by decide, by decide⟩⟩⟩

theorem sArrivedW : Arrived (sls sWake) [sSession sWake, []] :=
  ⟨by decide +kernel, sOk ⟨[0, 4, 0, 2, 2, 132, 7], ⟨8, 112, rfl, rfl, by decide⟩,
    .inl ⟨0, 0, 2, 2, [132, 7], rfl, by decide, by decide, by decide⟩⟩⟩

theorem swI_facts : swI.sys.conn.crashed = none ∧
    Ev.submit 2 [0x13, 2, 4, 0x72, 0x04, 0] .waitReport true 0x05 ∈ swI.sys.conn.hist := by decide +kernel

theorem swW_facts : swW.sys.conn.crashed = none ∧
    Ev.submit 2 [0x13, 2, 4, 0x72, 0x04, 0] .waitReport true 0x05 ∈ swW.sys.conn.hist := by decide +kernel

theorem s_not_user (fr : List UInt8) (hfr : fr = sInterval ∨ fr = sWake) (data : List UInt8) (kind : Conn.Kind) (t : Bool) (er : UInt8) :
    .sys (.conn (.submit data kind t er)) ∉ sls fr := by
  intro h
  have : ∀ l ∈ sls fr, (match l with | .sys (.conn (.submit ..)) => false | _ => true) = true := by
    rcases hfr with rfl | rfl <;> decide +kernel
  exact absurd (this _ h) (by simp)

/-- No frame of these runs says that a node is listening. -/
theorem s_silent {fr g : List UInt8} (hfr : fr = sInterval ∨ fr = sWake) (hg : g ∈ onWire [sSession fr, []]) : ¬ SaysListening g := by
  rintro ⟨p, ⟨ty, d0, d1, d2, d3, d4, d5, rest, ⟨len, ck, h, -⟩, hp, -⟩, hl⟩
  have hw : onWire [sSession fr, []] = [jDisc, sInfo, fr] := by rcases hfr with rfl | rfl <;> decide
  rw [hw] at hg
  simp only [List.mem_cons, List.not_mem_nil, or_false] at hg
  rcases hg with rfl | rfl | rfl
  · simp [jDisc] at h
  · simp [sInfo] at h
    obtain ⟨-, -, rfl, -⟩ := h
    rw [hp] at hl
    revert hl
    decide
  · rcases hfr with rfl | rfl <;> simp [sInterval, sWake] at h

/-- The theorem applied to the second run: the node has said that it is awake. -/
example : ∃ fr ∈ onWire [sSession sWake, []], OfWakeUpClass fr 2 := by
  rcases C115_contacted_partial noFileGood swW_run sArrivedW swW_facts.1 swW_facts.2 ⟨_, rfl⟩ (s_not_user _ (.inr rfl) _ _ _ _) with
    ⟨_, h, -⟩ | ⟨fr, h1, h2⟩ | h
  · cases h
  · exact absurd h2 (s_silent (.inr rfl) h1)
  · exact h

example : SaysAwake sWake 2 ∧ sWake ∈ onWire [sSession sWake, []] :=
  ⟨⟨[], 0, 0, 2, [], ⟨8, 112, rfl, rfl, by decide⟩, by decide, by decide⟩, by decide⟩

/-- Other nodes are left alone: node 3 has not been contacted. -/
example : ∀ e ∈ swW.sys.conn.hist, (match e with | .submit _ (0x13 :: 3 :: _) _ _ _ => false | _ => true) = true := by decide +kernel

/-- C115, violated: a node that is not listening reports its wake-up interval, as it does when it is asked for it, and that is
taken as a wake-up: the library contacts it although it has not said that it is awake. -/
theorem C115_violated_interval :
    ¬ ∀ (ls : List WLabel) (w : Whole) (xs : List Session),
      runSteps (wStep .perIteration demoDB) (wStart false []) ls = some w → Arrived ls xs → w.sys.conn.crashed = none →
      ∀ (u : Nat) (data : List UInt8) (kind : Conn.Kind) (t : Bool) (er b : UInt8),
        Ev.submit u data kind t er ∈ w.sys.conn.hist → Contacts data b → .sys (.conn (.submit data kind t er)) ∉ ls →
        (∃ fr ∈ onWire xs, SaysListening fr) ∨ ∃ fr ∈ onWire xs, SaysAwake fr b := by
  intro h
  rcases h _ _ _ swI_run sArrivedI swI_facts.1 _ _ _ _ _ 2 swI_facts.2 ⟨_, rfl⟩ (s_not_user _ (.inl rfl) _ _ _ _) with
    ⟨fr, h1, h2⟩ | ⟨fr, h1, p, ty, rx, n, rest, ⟨len, ck, h2, -⟩, -⟩
  · exact s_silent (.inl rfl) h1 h2
  · have hw : onWire [sSession sInterval, []] = [jDisc, sInfo, sInterval] := by decide
    rw [hw] at h1
    simp only [List.mem_cons, List.not_mem_nil, or_false] at h1
    rcases h1 with rfl | rfl | rfl <;> simp [jDisc, sInfo, sInterval] at h2

end Verif.Props
