import Verif.Lemmas.Process

/-
The joined process: where what it shows comes from.
-/

set_option linter.unusedSimpArgs false
set_option linter.unusedVariables false
set_option maxHeartbeats 1000000

namespace Verif.Lemmas.Process

open Verif.Go Verif.Model Verif.Model.Conn Verif.Spec Verif.Lemmas Verif.Lemmas.Conn Verif.Lemmas.Ctl Verif.Lemmas.NodeM
  Verif.Lemmas.EndToEnd Verif.Lemmas.System Verif.Props

variable {lv : LoopVars} {db : DB} {f : Bool} {ns : List Node}

/-- The process before its first step. -/
def wStart (f : Bool) (ns : List Node) : Whole := ⟨sysStart f ns, fun _ => none, fun _ => none⟩

/-! ### The beginning -/

structure Begun (ns : List Node) (s : CSt) : Prop where
  heap : ∀ r, r < s.nHeap → ∃ n ∈ ns, s.heap r = NSt.start { n.link with hasConn := true }
  disc : s.disc = .absent
  hist : ∀ bm, CEv.reply bm ∉ s.hist

theorem begun_loads : ∀ (ms : List Node) {s : CSt}, (∀ n ∈ ms, n ∈ ns) → Begun ns s → Begun ns (s.loadNodes ms)
  | [], _, _, h => h
  | m :: ms, s, hm, h => by
    refine begun_loads ms (s := s.loadNode m) (fun n hn => hm n (List.mem_cons_of_mem _ hn)) ?_
    obtain ⟨h1, h2, h3⟩ := h
    refine ⟨fun r hr => ?_, h2, fun bm hb => ?_⟩
    · simp only [CSt.loadNode, push_nHeap, push_heap, updN] at hr ⊢
      split
      · exact ⟨m, hm m List.mem_cons_self, rfl⟩
      · exact h1 r (by omega)
    · simp only [CSt.loadNode, CSt.push, List.mem_cons] at hb
      rcases hb with hb | hb
      · cases hb
      · exact h3 bm hb

theorem begun_start (f : Bool) (ns : List Node) : Begun ns (start f ns) :=
  begun_loads ns (fun _ h => h) ⟨fun r hr => by simp [newController] at hr, rfl, fun bm hb => by simp [newController] at hb⟩

/-! ### Runs -/

theorem wrun_induct {P : Whole → Prop} (hstep : ∀ w l w', P w → wStep lv db w l = some w' → P w') :
    ∀ {ls : List WLabel} {w0 w : Whole}, P w0 → runSteps (wStep lv db) w0 ls = some w → P w
  | [], _, _, hp, h => by cases h; exact hp
  | l :: ls, w0, w, hp, h => by
    simp only [runSteps] at h
    cases hl : wStep lv db w0 l with
    | none => rw [hl] at h; cases h
    | some w1 => rw [hl] at h; exact wrun_induct hstep (hstep _ _ _ hp hl) h

/-- The step of the connection in a step of the process. -/
theorem conn_of {w w' : Whole} {l : WLabel} (h : wStep lv db w l = some w') :
    (∃ cl, step lv w.sys.conn cl = some w'.sys.conn ∧
      ∀ ss, sessionStep ss cl = (connLabels [l]).foldl sessionStep ss) ∨
      (w'.sys.conn = w.sys.conn ∧ connLabels [l] = []) := by
  have hp := conn_part (sys_part h)
  cases l with
  | sys l =>
    cases l with
    | conn l => exact .inl ⟨l, hp, fun ss => rfl⟩
    | ctl l => exact .inr ⟨hp, rfl⟩
    | connected b => exact .inr ⟨hp, rfl⟩
  | ask who =>
    cases hw : w.want who with
    | none => simp [wStep, hw] at h
    | some a =>
      simp only [sysLab, hw] at hp
      refine .inl ⟨_, hp, fun ss => ?_⟩
      show sessionStep ss _ = ss
      exact session_keeps (by simp) (by simp)

theorem ctl_of {w w' : Whole} {l : WLabel} (h : wStep lv db w l = some w') :
    (∃ cl, cStep db w.sys.ctl cl = some w'.sys.ctl ∧ ctlLab w.sys (some (sysLab w l)) = some cl) ∨
      (w'.sys.ctl = w.sys.ctl ∧ ctlLab w.sys (some (sysLab w l)) = none) := by
  have hp := ctl_part (sys_part h)
  cases hx : ctlLab w.sys (some (sysLab w l)) with
  | none => rw [hx] at hp; exact .inr ⟨hp, rfl⟩
  | some cl => rw [hx] at hp; exact .inl ⟨cl, hp, rfl⟩

theorem creach_of {w w' : Whole} {l : WLabel} (h : wStep lv db w l = some w') (hc : CReach db f ns w.sys.ctl) :
    CReach db f ns w'.sys.ctl := by
  rcases ctl_of h with ⟨cl, h1, -⟩ | ⟨h1, -⟩
  · exact creach_step hc h1
  · rw [h1]; exact hc

theorem run_parts {ls : List WLabel} : ∀ {w : Whole}, runSteps (wStep lv db) (wStart f ns) ls = some w →
    (∃ cls, run lv init cls = some w.sys.conn ∧ sessions cls = sessions (connLabels ls)) ∧ CReach db f ns w.sys.ctl := by
  have gen : ∀ (ls : List WLabel) (w0 w : Whole) (pre : List Label) (ss : List (List Read)),
      run lv init pre = some w0.sys.conn → sessions pre = ss → CReach db f ns w0.sys.ctl →
      runSteps (wStep lv db) w0 ls = some w →
      (∃ cls, run lv init cls = some w.sys.conn ∧ sessions cls = (connLabels ls).foldl sessionStep ss) ∧
        CReach db f ns w.sys.ctl := by
    intro ls
    induction ls with
    | nil => intro w0 w pre ss h1 h2 h3 h; cases h; exact ⟨⟨pre, h1, h2⟩, h3⟩
    | cons l ls ih =>
      intro w0 w pre ss h1 h2 h3 h
      simp only [runSteps] at h
      cases hl : wStep lv db w0 l with
      | none => rw [hl] at h; cases h
      | some w1 =>
        rw [hl] at h
        have e : ∀ ss, (connLabels (l :: ls)).foldl sessionStep ss =
            (connLabels ls).foldl sessionStep ((connLabels [l]).foldl sessionStep ss) := by
          intro ss
          rw [← List.foldl_append]
          congr 1
          unfold connLabels
          rw [← List.filterMap_append]
          rfl
        rw [e]
        rcases conn_of hl with ⟨cl, g1, g2⟩ | ⟨g1, g2⟩
        · refine ih w1 w (pre ++ [cl]) _ ?_ ?_ (creach_of hl h3) h
          · rw [run_append, h1]; simp [run, g1]
          · unfold sessions at h2 ⊢
            rw [List.foldl_append, h2]
            exact g2 ss
        · refine ih w1 w pre _ (by rw [g1]; exact h1) ?_ (creach_of hl h3) h
          rw [g2]
          exact h2
  intro w h
  exact gen ls _ w [] [[]] rfl rfl ⟨[], rfl⟩ h

/-! ### Named nodes -/

/-- A discovery reply named the node. -/
def Named (s : CSt) (id : Int) : Prop := ∃ bm, CEv.reply bm ∈ s.hist ∧ Active bm id

structure NamedInv (ns : List Node) (s : CSt) : Prop where
  ids : ∀ r, r < s.nHeap → (∃ n ∈ ns, n.id = (s.heap r).node.id) ∨ Named s (s.heap r).node.id
  todo : ∀ id ∈ DiscAt.todo s.disc, Named s id

theorem named_mono {s s' : CSt} {l : CLabel} (h : cStep db s l = some s') {id : Int} (hn : Named s id) : Named s' id := by
  obtain ⟨bm, h1, h2⟩ := hn
  exact ⟨bm, hist_mono h h1, h2⟩

theorem todo_step {s s' : CSt} {l : CLabel} (h : cStep db s l = some s') :
    (∀ id ∈ DiscAt.todo s'.disc, id ∈ DiscAt.todo s.disc ∨ Named s' id) ∧
    (∀ r, s.nHeap ≤ r → r < s'.nHeap → (s'.heap r).node.id ∈ DiscAt.todo s.disc) := by
  constructor
  · intro id hid
    ctl_step h
    all_goals try (exact .inl hid)
    all_goals try (simp [DiscAt.todo, CSt.push] at hid ⊢; first | exact .inl hid | (simp_all [DiscAt.todo]; done))
    all_goals try (simp_all [DiscAt.todo]; done)
    all_goals
      simp only [DiscAt.todo] at hid
      exact .inr ⟨_, List.mem_cons_self, (active_mem _ _).1 hid⟩
  · intro r h1 h2
    ctl_step h
    all_goals first
      | (exfalso; simp at h2; omega)
      | (exfalso; simp [CSt.push] at h2; omega)
      | skip
    all_goals
      simp at h2
      have : r = s.nHeap := by omega
      subst this
      simp [updN, NSt.start, newNode, DiscAt.todo, ‹s.disc = _›]

theorem named_step {s s' : CSt} {l : CLabel} (hi : NamedInv ns s) (h : cStep db s l = some s') : NamedInv ns s' := by
  obtain ⟨t1, t2⟩ := todo_step h
  refine ⟨fun r hr => ?_, fun id hid => ?_⟩
  · rcases Nat.lt_or_ge r s.nHeap with hlt | hge
    · have e : (s'.heap r).node.id = (s.heap r).node.id := by
        rcases heap_ident hlt h with ⟨g, -⟩ | ⟨l', g, -⟩
        · rw [g]
        · exact (frame_step g).id
      rw [e]
      rcases hi.ids r hlt with g | g
      · exact .inl g
      · exact .inr (named_mono h g)
    · exact .inr (named_mono h (hi.todo _ (t2 r hge hr)))
  · rcases t1 id hid with g | g
    · exact named_mono h (hi.todo id g)
    · exact g

theorem namedInv {s : CSt} (h : CReach db f ns s) : NamedInv ns s := by
  obtain ⟨ls, h⟩ := h
  obtain ⟨b1, b2, b3⟩ := begun_start f ns
  refine crun_induct (fun _ _ _ => named_step) ls _ _ ⟨fun r hr => ?_, fun id hid => ?_⟩ h
  · obtain ⟨n, hn, e⟩ := b1 r hr
    exact .inl ⟨n, hn, by rw [e]; rfl⟩
  · rw [b2] at hid; cases hid

/-! ### What the goroutines have asked and what they were told -/

/-- The request `a` was submitted as request `u`. -/
def Sub (s : St) (u : Nat) (a : Ask) : Prop := Ev.submit u a.data a.kind (a.kind != .write) a.er ∈ s.hist

/-- Goroutine `who` has request `a` under way. -/
def Under (w : Whole) (who : Who) (a : Ask) : Prop :=
  w.want who = some a ∨ w.want who = none ∧ ∃ u, w.req who = some u ∧ Sub w.sys.conn u a

/-- Request `a` was answered with `d`. -/
def Told (s : St) (a : Ask) (d : MsgData) : Prop :=
  ∃ u x m, Sub s u a ∧ (x, some m) ∈ s.got u ∧ m.data = d

structure WInv (ns : List Node) (w : Whole) : Prop where
  disc : w.sys.ctl.disc = .wait → Under w .disc discAsk
  ident : ∀ ref, ref < w.sys.ctl.nHeap → ∀ i, awaits ((w.sys.ctl.heap ref).ident i) = true →
    ∃ a, askAt (w.sys.ctl.heap ref).node.id ((w.sys.ctl.heap ref).ident i) = some a ∧ Under w (.ident ref i) a
  reply : ∀ bm, CEv.reply bm ∈ w.sys.ctl.hist → Told w.sys.conn discAsk (.nodes bm)
  info : ∀ ref, ref < w.sys.ctl.nHeap → ∀ p, (w.sys.ctl.heap ref).node.protocolInfo = some p →
    (∃ n ∈ ns, n.id = (w.sys.ctl.heap ref).node.id ∧ n.protocolInfo = some p) ∨
      ∃ a, askAt (w.sys.ctl.heap ref).node.id .info = some a ∧ Told w.sys.conn a (.info p)
  manu : ∀ ref, ref < w.sys.ctl.nHeap → ∀ m, (w.sys.ctl.heap ref).node.manufacturer = some m →
    (∃ n ∈ ns, n.id = (w.sys.ctl.heap ref).node.id ∧ n.manufacturer = some m) ∨
      ∃ a x, askAt (w.sys.ctl.heap ref).node.id (.reply .manufacturer) = some a ∧
        Told w.sys.conn a (.ach x) ∧ x.report = .manufacturerSpecific m

theorem conn_mono {w w' : Whole} {l : WLabel} (h : wStep lv db w l = some w') :
    (∀ x, x ∈ w.sys.conn.hist → x ∈ w'.sys.conn.hist) ∧ ∀ u x, x ∈ w.sys.conn.got u → x ∈ w'.sys.conn.got u := by
  rcases conn_of h with ⟨cl, g, -⟩ | ⟨g, -⟩
  · exact ⟨fun x hx => cev_mono g hx, fun u x hx => got_mono g u hx⟩
  · rw [g]; exact ⟨fun x hx => hx, fun u x hx => hx⟩

theorem sub_mono {w w' : Whole} {l : WLabel} (h : wStep lv db w l = some w') {u : Nat} {a : Ask}
    (hs : Sub w.sys.conn u a) : Sub w'.sys.conn u a := (conn_mono h).1 _ hs

theorem told_mono {w w' : Whole} {l : WLabel} (h : wStep lv db w l = some w') {a : Ask} {d : MsgData}
    (hs : Told w.sys.conn a d) : Told w'.sys.conn a d := by
  obtain ⟨u, x, m, h1, h2, h3⟩ := hs
  exact ⟨u, x, m, sub_mono h h1, (conn_mono h).2 _ _ h2, h3⟩

/-- What a step of the process does to the requests. -/
theorem under_keeps {w w' : Whole} {l : WLabel} (h : wStep lv db w l = some w') {who : Who} {a : Ask} (hu : Under w who a)
    (h1 : who = .disc → l ≠ .sys (.ctl .startDisc)) (h2 : ∀ ref i x, who = .ident ref i → l ≠ .sys (.ctl (.node ref (.ident i x)))) :
    Under w' who a := by
  have hm := @sub_mono lv db w w' l h
  cases l with
  | sys l =>
    have hk : w'.want who = w.want who ∧ w'.req who = w.req who := by
      simp only [wStep] at h
      split at h
      · rw [Option.map_eq_some_iff] at h
        obtain ⟨s, hs, rfl⟩ := h
        unfold Whole.after
        split
        · refine ⟨?_, rfl⟩
          simp only [updW]
          rw [if_neg]
          intro e
          exact h1 e rfl
        · simp only [updW]
          rw [if_neg, if_neg]
          · exact ⟨rfl, rfl⟩
          · intro e; exact h2 _ _ _ e rfl
          · intro e; exact h2 _ _ _ e rfl
        · exact ⟨rfl, rfl⟩
      · cases h
    unfold Under at hu ⊢
    rw [hk.1, hk.2]
    rcases hu with g | ⟨g, u, g1, g2⟩
    · exact .inl g
    · exact .inr ⟨g, u, g1, hm g2⟩
  | ask who' =>
    simp only [wStep] at h
    split at h
    · cases h
    · next b hb =>
      rw [Option.map_eq_some_iff] at h
      obtain ⟨s, hs, rfl⟩ := h
      by_cases e : who = who'
      · subst e
        rcases hu with g | ⟨g, -⟩
        · rw [hb] at g
          cases g
          refine .inr ⟨by simp [updW], w.sys.conn.nReq, by simp [updW], ?_⟩
          have hp := conn_part hs
          simp only [connLab] at hp
          unfold step at hp
          split at hp
          · cases hp
          · simp only [submit] at hp
            obtain ⟨pkg, hpk, -⟩ := newSendPackage_ok a.data (if a.kind = .waitReport then a.er else 0)
            rw [hpk] at hp
            simp only [Option.some.injEq] at hp
            show Sub s.conn _ a
            rw [← hp]
            exact List.mem_cons_self
        · rw [hb] at g; cases g
      · unfold Under at hu ⊢
        simp only [updW, if_neg e]
        rcases hu with g | ⟨g, u, g1, g2⟩
        · exact .inl g
        · exact .inr ⟨g, u, g1, hm g2⟩

/-- What a goroutine hears is part of what it got. -/
theorem heard_got {c : St} {u : Nat} {m : Message} (h : heard c u = some (some m)) : ∃ x, (x, some m) ∈ c.got u := by
  unfold heard at h
  split at h
  · next x m' t hg => cases h; exact ⟨x, by rw [hg]; exact List.mem_cons_self⟩
  · split at h <;> cases h

theorem heardReport_got {c : St} {u : Nat} {r : Report} (h : heardReport c u = some (some r)) :
    ∃ x m a, (x, some m) ∈ c.got u ∧ m.data = .ach a ∧ a.report = r := by
  unfold heardReport at h
  split at h
  · split at h
    · next x m t hg =>
      split at h
      · next a ha => cases h; exact ⟨x, m, a, by rw [hg]; exact List.mem_cons_self, ha, rfl⟩
      · cases h
    · cases h
  · cases h

theorem ctl_lab {w : Whole} {l : WLabel} {cl : CLabel} (h : ctlLab w.sys (some (sysLab w l)) = some cl)
    (hc : ∀ b r, cl ≠ .arrive b r) : l = .sys (.ctl cl) := by
  have key : sysLab w l = .ctl cl := by
    cases hx : sysLab w l with
    | conn cl' =>
      rw [hx] at h
      simp only [ctlLab, Option.map_eq_some_iff] at h
      obtain ⟨p, -, rfl⟩ := h
      exact absurd rfl (hc _ _)
    | ctl l' => rw [hx] at h; cases h; rfl
    | connected b => rw [hx] at h; cases h
  cases l with
  | sys l => exact congrArg _ key
  | ask who =>
    simp only [sysLab] at key
    split at key <;> cases key

theorem may_of {w w' : Whole} {l : SLabel} (h : wStep lv db w (.sys l) = some w') :
    w.may l = true ∧ w' = w.after l w'.sys := by
  simp only [wStep] at h
  split at h
  · next hm =>
    rw [Option.map_eq_some_iff] at h
    obtain ⟨s, hs, rfl⟩ := h
    refine ⟨hm, ?_⟩
    have : (w.after l s).sys = s := by unfold Whole.after; split <;> rfl
    rw [this]
  · cases h

theorem under_req {w : Whole} {who : Who} {a : Ask} {u : Nat} (h : Under w who a) (hb : w.busy who = false)
    (hr : w.req who = some u) : Sub w.sys.conn u a := by
  rcases h with h | ⟨-, v, h1, h2⟩
  · simp [Whole.busy, h] at hb
  · rw [hr] at h1; cases h1; exact h2

theorem winv_disc {w w' : Whole} {l : WLabel} (hi : WInv ns w) (h : wStep lv db w l = some w')
    (hw : w'.sys.ctl.disc = .wait) : Under w' .disc discAsk := by
  by_cases hl : l = .sys (.ctl .startDisc)
  · subst hl
    rw [(may_of h).2]
    exact .inl (by simp [Whole.after, updW])
  · refine under_keeps h (hi.disc ?_) (fun _ => hl) (fun _ _ _ e => by cases e)
    rcases ctl_of h with ⟨cl, g1, g2⟩ | ⟨g1, -⟩
    · rcases wait_from g1 hw with rfl | ⟨g, -⟩
      · exact absurd (ctl_lab g2 (by simp)) hl
      · exact g
    · rw [← g1]; exact hw

theorem winv_ident {w w' : Whole} {l : WLabel} (hi : WInv ns w) (h : wStep lv db w l = some w') {ref : Nat}
    (hr : ref < w'.sys.ctl.nHeap) {i : Nat} (hw : awaits ((w'.sys.ctl.heap ref).ident i) = true) :
    ∃ a, askAt (w'.sys.ctl.heap ref).node.id ((w'.sys.ctl.heap ref).ident i) = some a ∧ Under w' (.ident ref i) a := by
  rcases ctl_of h with ⟨cl, g1, g2⟩ | ⟨g1, g2⟩
  · rcases Nat.lt_or_ge ref w.sys.ctl.nHeap with hlt | hge
    · by_cases hl : ∃ x, l = .sys (.ctl (.node ref (.ident i x)))
      · obtain ⟨x, rfl⟩ := hl
        cases g2
        rcases heap_ident hlt g1 with ⟨-, k⟩ | ⟨l', k1, k2⟩
        · exact absurd rfl (k i x)
        · have := (k2 i x).2 rfl
          subst this
          obtain ⟨k, e1, e2⟩ := ident_asks k1 hw
          refine ⟨k, e2, .inl ?_⟩
          rw [(may_of h).2]
          simp only [Whole.after, updW, if_true]
          exact e1
      · have hl' : ∀ x, cl ≠ .node ref (.ident i x) := by
          rintro x rfl
          exact hl ⟨x, ctl_lab g2 (by simp)⟩
        have key : (w'.sys.ctl.heap ref).ident i = (w.sys.ctl.heap ref).ident i ∧
            (w'.sys.ctl.heap ref).node.id = (w.sys.ctl.heap ref).node.id := by
          rcases heap_ident hlt g1 with ⟨k, -⟩ | ⟨l', k1, k2⟩
          · rw [k]; exact ⟨rfl, rfl⟩
          · exact ⟨ident_rest i k1 (fun a ha => hl' a ((k2 i a).1 ha)) hw, (frame_step k1).id⟩
        rw [key.1] at hw
        obtain ⟨a, e1, e2⟩ := hi.ident ref hlt i hw
        rw [key.1, key.2]
        refine ⟨a, e1, under_keeps h e2 (fun e => by cases e) (fun r' i' x e => ?_)⟩
        cases e
        exact fun e => hl ⟨x, e⟩
    · obtain ⟨id, e⟩ := heap_new hge hr g1
      rw [e] at hw
      simp [NSt.start, awaits] at hw
  · rw [g1] at hr hw ⊢
    obtain ⟨a, e1, e2⟩ := hi.ident ref hr i hw
    refine ⟨a, e1, under_keeps h e2 (fun e => by cases e) (fun r' i' x e => ?_)⟩
    rintro rfl
    cases g2

theorem winv_reply {w w' : Whole} {l : WLabel} (hi : WInv ns w) (h : wStep lv db w l = some w') {bm : List Bool}
    (hb : CEv.reply bm ∈ w'.sys.ctl.hist) : Told w'.sys.conn discAsk (.nodes bm) := by
  rcases ctl_of h with ⟨cl, g1, g2⟩ | ⟨g1, g2⟩
  · rcases reply_from g1 hb with k | ⟨k, rfl⟩
    · exact told_mono h (hi.reply bm k)
    · have hl := ctl_lab g2 (by simp)
      subst hl
      have hm := (may_of h).1
      simp only [Whole.may, Whole.mayDisc, k, ne_eq, not_true, decide_false, Bool.false_or, Bool.and_eq_true, Bool.not_eq_true'] at hm
      obtain ⟨m1, m2⟩ := hm
      split at m2
      · next u hu =>
        have hs := under_req (hi.disc k) m1 hu
        simp only [decide_eq_true_eq, Option.map_eq_some_iff] at m2
        obtain ⟨x, h1, h2⟩ := m2
        cases x with
        | none => cases h2
        | some m =>
          obtain ⟨b, hb⟩ := heard_got h1
          refine told_mono h ⟨u, b, m, hs, hb, ?_⟩
          unfold discAnswer at h2
          simp only at h2
          split at h2
          · next bm' e => cases h2; exact e
          · cases h2
      · cases m2
  · rw [g1] at hb
    exact told_mono h (hi.reply bm hb)

/-- What an identification is answered was said to its request. -/
theorem ident_told {w w' : Whole} {ref i : Nat} {a : Answer} (hi : WInv ns w)
    (h : wStep lv db w (.sys (.ctl (.node ref (.ident i a)))) = some w') (hr : ref < w.sys.ctl.nHeap)
    (hw : awaits ((w.sys.ctl.heap ref).ident i) = true) :
    ∃ k u, askAt (w.sys.ctl.heap ref).node.id ((w.sys.ctl.heap ref).ident i) = some k ∧ Sub w.sys.conn u k ∧
      identAnswer w.sys.conn ((w.sys.ctl.heap ref).ident i) u = some a := by
  obtain ⟨k, e1, e2⟩ := hi.ident ref hr i hw
  have hm := (may_of h).1
  simp only [Whole.may, Whole.mayIdent, hw, Bool.not_true, Bool.false_or, Bool.and_eq_true, Bool.not_eq_true'] at hm
  obtain ⟨m1, m2⟩ := hm
  split at m2
  · next u hu => exact ⟨k, u, e1, under_req e2 m1 hu, by simpa using m2⟩
  · cases m2

theorem winv_info {w w' : Whole} {l : WLabel} (hi : WInv ns w) (h : wStep lv db w l = some w') {ref : Nat}
    (hr : ref < w'.sys.ctl.nHeap) {p : ProtocolInfo} (hp : (w'.sys.ctl.heap ref).node.protocolInfo = some p) :
    (∃ n ∈ ns, n.id = (w'.sys.ctl.heap ref).node.id ∧ n.protocolInfo = some p) ∨
      ∃ a, askAt (w'.sys.ctl.heap ref).node.id .info = some a ∧ Told w'.sys.conn a (.info p) := by
  have old : ref < w.sys.ctl.nHeap → (w'.sys.ctl.heap ref).node.id = (w.sys.ctl.heap ref).node.id →
      (w.sys.ctl.heap ref).node.protocolInfo = some p →
      (∃ n ∈ ns, n.id = (w'.sys.ctl.heap ref).node.id ∧ n.protocolInfo = some p) ∨
      ∃ a, askAt (w'.sys.ctl.heap ref).node.id .info = some a ∧ Told w'.sys.conn a (.info p) := by
    intro hlt e k
    rw [e]
    rcases hi.info ref hlt p k with g | ⟨a, g1, g2⟩
    · exact .inl g
    · exact .inr ⟨a, g1, told_mono h g2⟩
  rcases ctl_of h with ⟨cl, g1, g2⟩ | ⟨g1, g2⟩
  · rcases Nat.lt_or_ge ref w.sys.ctl.nHeap with hlt | hge
    · rcases heap_ident hlt g1 with ⟨k, -⟩ | ⟨l', k1, k2⟩
      · rw [k] at hp
        exact old hlt (by rw [k]) hp
      · have hid := (frame_step k1).id
        rcases info_from k1 hp with k | ⟨i, k, k3⟩
        · exact old hlt hid k
        · have hl := ctl_lab g2 (by rw [(k2 i _).1 k]; simp)
          rw [(k2 i _).1 k] at hl
          subst hl
          obtain ⟨a, u, e1, e2, e3⟩ := ident_told hi h hlt (by rw [k3]; rfl)
          rw [k3] at e1 e3
          rw [hid]
          refine .inr ⟨a, e1, told_mono h ?_⟩
          simp only [identAnswer, Option.map_eq_some_iff] at e3
          obtain ⟨x, h1, h2⟩ := e3
          cases x with
          | none => cases h2
          | some m =>
            obtain ⟨b, hb⟩ := heard_got h1
            refine ⟨u, b, m, e2, hb, ?_⟩
            unfold infoAnswer at h2
            simp only at h2
            split at h2
            · next e => cases h2; exact e
            · cases h2
    · obtain ⟨id, e⟩ := heap_new hge hr g1
      rw [e] at hp
      cases hp
  · rw [g1] at hr hp
    exact old hr (by rw [g1]) hp

theorem winv_manu {w w' : Whole} {l : WLabel} (hi : WInv ns w) (h : wStep lv db w l = some w') {ref : Nat}
    (hr : ref < w'.sys.ctl.nHeap) {p : ManufacturerSpecific} (hp : (w'.sys.ctl.heap ref).node.manufacturer = some p) :
    (∃ n ∈ ns, n.id = (w'.sys.ctl.heap ref).node.id ∧ n.manufacturer = some p) ∨
      ∃ a x, askAt (w'.sys.ctl.heap ref).node.id (.reply .manufacturer) = some a ∧
        Told w'.sys.conn a (.ach x) ∧ x.report = .manufacturerSpecific p := by
  have old : ref < w.sys.ctl.nHeap → (w'.sys.ctl.heap ref).node.id = (w.sys.ctl.heap ref).node.id →
      (w.sys.ctl.heap ref).node.manufacturer = some p →
      (∃ n ∈ ns, n.id = (w'.sys.ctl.heap ref).node.id ∧ n.manufacturer = some p) ∨
      ∃ a x, askAt (w'.sys.ctl.heap ref).node.id (.reply .manufacturer) = some a ∧
        Told w'.sys.conn a (.ach x) ∧ x.report = .manufacturerSpecific p := by
    intro hlt e k
    rw [e]
    rcases hi.manu ref hlt p k with g | ⟨a, x, g1, g2, g3⟩
    · exact .inl g
    · exact .inr ⟨a, x, g1, told_mono h g2, g3⟩
  rcases ctl_of h with ⟨cl, g1, g2⟩ | ⟨g1, g2⟩
  · rcases Nat.lt_or_ge ref w.sys.ctl.nHeap with hlt | hge
    · rcases heap_ident hlt g1 with ⟨k, -⟩ | ⟨l', k1, k2⟩
      · rw [k] at hp
        exact old hlt (by rw [k]) hp
      · have hid := (frame_step k1).id
        rcases manu_from k1 hp with k | ⟨i, k, k3⟩
        · exact old hlt hid k
        · have hl := ctl_lab g2 (by rw [(k2 i _).1 k]; simp)
          rw [(k2 i _).1 k] at hl
          subst hl
          obtain ⟨a, u, e1, e2, e3⟩ := ident_told hi h hlt (by rw [k3]; rfl)
          rw [k3] at e1 e3
          rw [hid]
          simp only [identAnswer, Option.map_eq_some_iff] at e3
          obtain ⟨x, h1, h2⟩ := e3
          cases x with
          | none => cases h2
          | some r =>
            obtain ⟨b, m, c, hb, hd, hc⟩ := heardReport_got h1
            simp only [reportAnswer, Answer.report.injEq] at h2
            exact .inr ⟨a, c, e1, told_mono h ⟨u, b, m, e2, hb, hd⟩, by rw [hc, h2]⟩
    · obtain ⟨id, e⟩ := heap_new hge hr g1
      rw [e] at hp
      cases hp
  · rw [g1] at hr hp
    exact old hr (by rw [g1]) hp

theorem winv_step {w w' : Whole} {l : WLabel} (hi : WInv ns w) (h : wStep lv db w l = some w') : WInv ns w' :=
  ⟨winv_disc hi h, fun _ hr _ => winv_ident hi h hr, fun _ => winv_reply hi h, fun _ hr _ => winv_info hi h hr,
    fun _ hr _ => winv_manu hi h hr⟩

theorem winv_start (f : Bool) (ns : List Node) : WInv ns (wStart f ns) := by
  obtain ⟨b1, b2, b3⟩ := begun_start f ns
  refine ⟨fun h => ?_, fun ref hr i ha => ?_, fun bm hb => absurd hb (b3 bm), fun ref hr p hp => ?_, fun ref hr p hp => ?_⟩
  · have h : (start f ns).disc = .wait := h
    rw [b2] at h; cases h
  all_goals
    obtain ⟨n, hn, e⟩ := b1 ref hr
    have e' : (wStart f ns).sys.ctl.heap ref = _ := e
  · rw [e'] at ha; simp [NSt.start, awaits] at ha
  · rw [e'] at hp ⊢; exact .inl ⟨n, hn, rfl, hp⟩
  · rw [e'] at hp ⊢; exact .inl ⟨n, hn, rfl, hp⟩

theorem winv {ls : List WLabel} {w : Whole} (h : runSteps (wStep lv db) (wStart f ns) ls = some w) : WInv ns w :=
  wrun_induct (fun _ _ _ => winv_step) (winv_start f ns) h

/-! ### What the library asks -/

theorem handsOver_asks {n n' : NSt} {i : Nat} {a : Answer} {k : Ask} (h : nodeStep db n (.ident i a) = some n')
    (hk : handsOver n n' i = some k) : IdentRequest n.node.id k.data := by
  node_step h
  all_goals try (simp [handsOver] at hk; done)
  all_goals
    simp [handsOver] at hk
    subst hk
    simp [IdentRequest, serialRawEncode, rawEncode, toByte]

/-- What a goroutine is about to submit. -/
def WantInv (w : Whole) : Prop :=
  (∀ a, w.want .disc = some a → a = discAsk) ∧
    ∀ ref i a, w.want (.ident ref i) = some a → ref < w.sys.ctl.nHeap ∧ IdentRequest (w.sys.ctl.heap ref).node.id a.data

theorem heap_id {s s' : CSt} {l : CLabel} {ref : Nat} (hlt : ref < s.nHeap) (h : cStep db s l = some s') :
    ref < s'.nHeap ∧ (s'.heap ref).node.id = (s.heap ref).node.id := by
  refine ⟨Nat.lt_of_lt_of_le hlt (nHeap_step h), ?_⟩
  rcases heap_ident hlt h with ⟨g, -⟩ | ⟨l', g, -⟩
  · rw [g]
  · exact (frame_step g).id

theorem want_step {w w' : Whole} {l : WLabel} (hi : WantInv w) (h : wStep lv db w l = some w') : WantInv w' := by
  have hid : ∀ ref, ref < w.sys.ctl.nHeap →
      ref < w'.sys.ctl.nHeap ∧ (w'.sys.ctl.heap ref).node.id = (w.sys.ctl.heap ref).node.id := by
    intro ref hr
    rcases ctl_of h with ⟨cl, g, -⟩ | ⟨g, -⟩
    · exact heap_id hr g
    · rw [g]; exact ⟨hr, rfl⟩
  have old : ∀ ref i a, w.want (.ident ref i) = some a →
      ref < w'.sys.ctl.nHeap ∧ IdentRequest (w'.sys.ctl.heap ref).node.id a.data := by
    intro ref i a ha
    obtain ⟨g1, g2⟩ := hi.2 ref i a ha
    rw [(hid ref g1).2]
    exact ⟨(hid ref g1).1, g2⟩
  cases l with
  | sys l =>
    have hp := ctl_part (sys_part h)
    have hw := (may_of h).2
    unfold Whole.after at hw
    split at hw
    · rw [hw]
      refine ⟨fun a ha => ?_, fun ref i a ha => ?_⟩
      · simp [updW] at ha; exact ha.symm
      · simp [updW] at ha
        exact old ref i a ha
    · next ref i a =>
      simp only [sysLab, ctlLab] at hp
      have hlt : ref < w.sys.ctl.nHeap ∧ ∃ n, nodeStep db (w.sys.ctl.heap ref) (.ident i a) = some n := by
        unfold cStep at hp
        split at hp
        · cases hp
        · simp only at hp
          split at hp
          · next hlt =>
            refine ⟨hlt, ?_⟩
            rw [Option.map_eq_some_iff] at hp
            obtain ⟨n, hn, -⟩ := hp
            exact ⟨n, hn⟩
          · cases hp
      refine ⟨fun b hb => ?_, fun ref' i' b hb => ?_⟩
      · rw [hw] at hb
        simp [updW] at hb
        exact hi.1 b hb
      · by_cases e : ref' = ref ∧ i' = i
        · obtain ⟨rfl, rfl⟩ := e
          rw [hw] at hb
          simp [updW] at hb
          rw [(hid ref' hlt.1).2]
          refine ⟨(hid ref' hlt.1).1, ?_⟩
          rcases heap_ident hlt.1 hp with ⟨-, k⟩ | ⟨l', k1, k2⟩
          · exact absurd rfl (k _ _)
          · have := (k2 i' a).2 rfl
            subst this
            exact handsOver_asks k1 hb
        · refine old ref' i' b ?_
          rw [hw] at hb
          simp only [updW] at hb
          rw [if_neg (by simpa using e)] at hb
          exact hb
    · have hw1 : w'.want = w.want := by rw [hw]
      refine ⟨fun a ha => hi.1 a (by rw [← hw1]; exact ha), fun ref i a ha => old ref i a (by rw [← hw1]; exact ha)⟩
  | ask who =>
    have key : ∀ who' a, w'.want who' = some a → w.want who' = some a := by
      intro who' a ha
      simp only [wStep] at h
      split at h
      · cases h
      · rw [Option.map_eq_some_iff] at h
        obtain ⟨s, hs, rfl⟩ := h
        simp only [updW] at ha
        split at ha
        · cases ha
        · exact ha
    exact ⟨fun a ha => hi.1 a (key _ _ ha), fun ref i a ha => old ref i a (key _ _ ha)⟩

theorem want_inv {ls : List WLabel} {w : Whole} (h : runSteps (wStep lv db) (wStart f ns) ls = some w) : WantInv w :=
  wrun_induct (fun _ _ _ => want_step) ⟨(fun a ha => by cases ha), (fun ref i a ha => by cases ha)⟩ h

end Verif.Lemmas.Process
