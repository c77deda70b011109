import Verif.Spec.Asked
import Verif.Props.ProcessFair
import Verif.Props.CommandFair

/-
What the identifications send is given to the connection.
-/

set_option linter.unusedSimpArgs false
set_option linter.unusedVariables false
set_option maxHeartbeats 1000000

namespace Verif.Lemmas.Asked

open Verif.Go Verif.Model Verif.Model.Conn Verif.Spec Verif.Lemmas Verif.Lemmas.Conn Verif.Lemmas.Ctl Verif.Lemmas.NodeM
  Verif.Lemmas.EndToEnd Verif.Lemmas.System Verif.Lemmas.Process Verif.Props

variable {lv : LoopVars} {db : DB} {f : Bool} {ns : List Node} {e : Exec (wStep lv db)}

/-! ### Nodes -/

/-- A request that a step adds to the history of a node is the one that is handed over. -/
theorem sent_new {n n' : NSt} {l : NLabel} {i : Nat} {p : Option Purpose} {d : List UInt8}
    (h : nodeStep db n l = some n') (hs : .sent i p d ∈ n'.hist) :
    .sent i p d ∈ n.hist ∨ (∃ a, l = .ident i a) ∧ ∃ k, handsOver n n' i = some k ∧ k.data = d := by
  node_step h
  all_goals first
    | exact .inl hs
    | (simp at hs; exact .inl hs; done)
    | (simp only [List.mem_cons, reduceCtorEq, false_or] at hs; exact .inl hs)
    | (simp only [List.mem_cons] at hs
       rcases hs with hs | hs
       · cases hs
         exact .inr ⟨⟨_, rfl⟩, by simp [handsOver]⟩
       · exact .inl hs)
    | skip

theorem ident_alive {n n' : NSt} {i : Nat} {a : Answer} (h : nodeStep db n (.ident i a) = some n') : n.ident i ≠ .absent := by
  intro hi
  simp [nodeStep, identStep, hi] at h

theorem absent_stays {n n' : NSt} {l : NLabel} (h : nodeStep db n l = some n') (ha : ∀ i, n.ident i = .absent)
    (hn : n'.nIdent = n.nIdent) (i : Nat) : n'.ident i = .absent := by
  node_step h
  all_goals first
    | exact ha i
    | (simp at hn; done)
    | (exfalso; simp_all; done)
    | skip

/-! ### The controller -/

theorem disc_begun {s s' : CSt} {l : CLabel} (h : cStep db s l = some s') (hd : s.disc ≠ .absent) : s'.disc ≠ .absent := by
  ctl_step h
  all_goals first
    | exact hd
    | (simp_all; done)
    | (simp only [CSt.put, CSt.push]; split <;> simp_all; done)
    | grind

theorem begins_by {s s' : CSt} {l : CLabel} (h : cStep db s l = some s') (hd : s.disc = .absent) (hd' : s'.disc ≠ .absent) :
    l = .startDisc := by
  ctl_step h
  all_goals first
    | rfl
    | exact absurd hd hd'
    | (simp at hd'; exact absurd hd hd')
    | (simp_all; done)

/-- Before the discovery begins no node is identified. -/
def Quiet (s : CSt) : Prop := s.disc = .absent → ∀ ref, ref < s.nHeap → ∀ i, (s.heap ref).ident i = .absent

theorem quiet_step {s s' : CSt} {l : CLabel} (hq : Quiet s) (h : cStep db s l = some s') : Quiet s' := by
  intro hd ref hr i
  have hd0 : s.disc = .absent := Classical.byContradiction fun hn => disc_begun h hn hd
  by_cases hlt : ref < s.nHeap
  · have hn : (s'.heap ref).nIdent = (s.heap ref).nIdent := by
      apply Classical.byContradiction
      intro hne
      obtain ⟨⟨todo, ht⟩, -⟩ := ident_begins h hlt (fun e => hne e.symm)
      rw [hd0] at ht; cases ht
    rcases heap_ident hlt h with ⟨g, -⟩ | ⟨l', g, -⟩
    · rw [g]; exact hq hd0 ref hlt i
    · exact absent_stays g (hq hd0 ref hlt) hn i
  · obtain ⟨id, g⟩ := Verif.Lemmas.Process.heap_new (Nat.not_lt.1 hlt) hr h
    rw [g]; rfl

/-! ### The process -/

structure SentInv (w : Whole) : Prop where
  disc : w.sys.ctl.disc ≠ .absent → w.want .disc = some discAsk ∨ ∃ u, Given w.sys.conn u discAsk.data
  quiet : Quiet w.sys.ctl
  sent : ∀ ref, ref < w.sys.ctl.nHeap → ∀ i p d, .sent i p d ∈ (w.sys.ctl.heap ref).hist →
    w.sys.ctl.disc ≠ .absent ∧ IdentRequest (w.sys.ctl.heap ref).node.id d ∧
      ((∃ a, w.want (.ident ref i) = some a ∧ a.data = d) ∨ ∃ u, Given w.sys.conn u d)

theorem start_once {w w' : Whole} (h : wStep lv db w (.sys (.ctl .startDisc)) = some w') : w.sys.ctl.disc = .absent := by
  have hc := ctl_part (sys_part h)
  simp only [sysLab, ctlLab] at hc
  generalize w'.sys.ctl = t at hc
  unfold cStep at hc
  split at hc
  · cases hc
  simp only at hc
  split at hc
  · simp_all
  · cases hc

/-- A step gives what a goroutine wants to the connection, or leaves it. -/
theorem want_keeps {w w' : Whole} {l : WLabel} (h : wStep lv db w l = some w') {who : Who} {a : Ask}
    (hd : who = .disc → w.sys.ctl.disc ≠ .absent) (hw : w.want who = some a) :
    w'.want who = some a ∨ Given w'.sys.conn w.sys.conn.nReq a.data ∧ l = .ask who := by
  by_cases hm : moves who l
  · exfalso
    rcases hm with ⟨rfl, rfl⟩ | ⟨r, j, x, rfl, rfl⟩
    · exact hd rfl (start_once h)
    · have := (may_of h).1
      simp [Whole.may, Whole.mayIdent, Whole.busy, hw] at this
  · by_cases hl : l = .ask who
    · subst hl
      refine .inr ⟨?_, rfl⟩
      have hc := conn_part (sys_part h)
      simp only [sysLab, hw, connLab] at hc
      obtain ⟨pkg, hp, -⟩ := newSendPackage_ok a.data (if a.kind = .waitReport then a.er else 0)
      refine ⟨a.kind, (a.kind != .write), a.er, ?_⟩
      unfold step at hc
      split at hc
      · cases hc
      · simp only [submit, hp, Option.some.injEq] at hc
        rw [← hc]; exact List.mem_cons_self
    · exact .inl (by rw [((req_keeps h hm).1 hl).1]; exact hw)

theorem given_mono {w w' : Whole} {l : WLabel} (h : wStep lv db w l = some w') {u : Nat} {d : List UInt8}
    (hg : Given w.sys.conn u d) : Given w'.sys.conn u d := by
  obtain ⟨k, t, r, hg⟩ := hg
  exact ⟨k, t, r, (conn_mono h).1 _ hg⟩

theorem sent_step {w w' : Whole} {l : WLabel} (hi : SentInv w) (h : wStep lv db w l = some w') : SentInv w' := by
  have hq : Quiet w'.sys.ctl := by
    rcases ctl_of h with ⟨cl, g, -⟩ | ⟨g, -⟩
    · exact quiet_step hi.quiet g
    · rw [g]; exact hi.quiet
  have hdisc : w'.sys.ctl.disc ≠ .absent → w'.want .disc = some discAsk ∨ ∃ u, Given w'.sys.conn u discAsk.data := by
    intro hd
    by_cases hl : l = .sys (.ctl .startDisc)
    · subst hl
      have hw := (may_of h).2
      exact .inl (by rw [hw]; simp [Whole.after, updW])
    have hd0 : w.sys.ctl.disc ≠ .absent := by
      intro h0
      rcases ctl_of h with ⟨cl, g, hcl⟩ | ⟨g, -⟩
      · have := begins_by g h0 hd
        subst this
        refine hl ?_
        cases l with
        | sys l =>
          cases l with
          | conn l => simp [sysLab, ctlLab] at hcl
          | ctl l => simp [sysLab, ctlLab] at hcl; rw [hcl]
          | connected b => simp [sysLab, ctlLab] at hcl
        | ask who =>
          exfalso
          cases hw : w.want who with
          | none => simp [wStep, hw] at h
          | some b => simp [sysLab, hw, ctlLab, handed] at hcl
      · rw [g] at hd; exact hd h0
    rcases hi.disc hd0 with g | ⟨u, g⟩
    · rcases want_keeps h (fun _ => hd0) g with g | ⟨g, -⟩
      · exact .inl g
      · exact .inr ⟨_, g⟩
    · exact .inr ⟨u, given_mono h g⟩
  refine ⟨hdisc, hq, fun ref hr i p d hs => ?_⟩
  have old : ref < w.sys.ctl.nHeap → .sent i p d ∈ (w.sys.ctl.heap ref).hist → w'.sys.ctl.disc ≠ .absent ∧
      IdentRequest (w'.sys.ctl.heap ref).node.id d ∧
      ((∃ a, w'.want (.ident ref i) = some a ∧ a.data = d) ∨ ∃ u, Given w'.sys.conn u d) := by
    intro hlt hs
    obtain ⟨h1, h2, h3⟩ := hi.sent ref hlt i p d hs
    refine ⟨?_, ?_, ?_⟩
    · rcases ctl_of h with ⟨cl, g, -⟩ | ⟨g, -⟩
      · exact disc_begun g h1
      · rw [g]; exact h1
    · rcases ctl_of h with ⟨cl, g, -⟩ | ⟨g, -⟩
      · rw [(heap_id hlt g).2]; exact h2
      · rw [g]; exact h2
    · rcases h3 with ⟨a, h3, h4⟩ | ⟨u, h3⟩
      · rcases want_keeps h (by simp) h3 with g | ⟨g, -⟩
        · exact .inl ⟨a, g, h4⟩
        · exact .inr ⟨_, h4 ▸ g⟩
      · exact .inr ⟨u, given_mono h h3⟩
  rcases ctl_of h with ⟨cl, g, hcl⟩ | ⟨g, -⟩
  · by_cases hlt : ref < w.sys.ctl.nHeap
    · rcases heap_ident hlt g with ⟨k, -⟩ | ⟨l', k1, k2⟩
      · rw [k] at hs; exact old hlt hs
      · rcases sent_new k1 hs with hs | ⟨⟨a, rfl⟩, k, h1, h2⟩
        · exact old hlt hs
        · have hc := (k2 i a).1 rfl
          subst hc
          have hl : l = .sys (.ctl (.node ref (.ident i a))) := by
            cases l with
            | sys l =>
              cases l with
              | conn l => simp [sysLab, ctlLab] at hcl
              | ctl l => simp [sysLab, ctlLab] at hcl; rw [hcl]
              | connected b => simp [sysLab, ctlLab] at hcl
            | ask who =>
              exfalso
              cases hw : w.want who with
              | none => simp [wStep, hw] at h
              | some b => simp [sysLab, hw, ctlLab, handed] at hcl
          subst hl
          have hw := (may_of h).2
          refine ⟨?_, ?_, .inl ⟨k, ?_, h2⟩⟩
          · refine disc_begun g fun hd => ident_alive k1 (hi.quiet hd ref hlt i)
          · rw [(heap_id hlt g).2, ← h2]; exact handsOver_asks k1 h1
          · rw [hw]; simp [Whole.after, updW, h1]
    · obtain ⟨id, k⟩ := Verif.Lemmas.Process.heap_new (Nat.not_lt.1 hlt) hr g
      rw [k] at hs; simp [NSt.start] at hs
  · rw [g] at hs hr
    exact old hr hs

theorem sent_start (f : Bool) (ns : List Node) : SentInv (wStart f ns) := by
  have hb := begun_start f ns
  refine ⟨fun h => absurd hb.disc h, fun _ ref hr i => ?_, fun ref hr i p d hs => ?_⟩
  · obtain ⟨n, -, g⟩ := hb.heap ref hr
    show ((start f ns).heap ref).ident i = _
    rw [g]; rfl
  · obtain ⟨n, -, g⟩ := hb.heap ref hr
    change _ ∈ ((start f ns).heap ref).hist at hs
    rw [g] at hs; simp [NSt.start] at hs

theorem sent_exec (h0 : e.st 0 = wStart f ns) (n : Nat) : SentInv (e.st n) := by
  refine exec_keep e (Q := SentInv) (fun _ _ _ => sent_step) (n := 0) ?_ n (Nat.zero_le _)
  rw [h0]
  exact sent_start f ns

theorem sent_run {ls : List WLabel} {w : Whole} (h : runSteps (wStep lv db) (wStart f ns) ls = some w) : SentInv w :=
  wrun_induct (fun _ _ _ => sent_step) (sent_start f ns) h

/-! ### The moment of giving -/

theorem submit_sending {s s' : St} {l : Label} {u : Nat} {d : List UInt8} {k : Conn.Kind} {t : Bool} {r : UInt8}
    (h : step lv s l = some s') (hs : Ev.submit u d k t r ∈ s'.hist) :
    Ev.submit u d k t r ∈ s.hist ∨ s'.client u = .sending ∨ s'.crashed ≠ none := by
  conn_step h
  all_goals first
    | exact .inl hs
    | (simp at hs; exact .inl hs; done)
    | (simp only [List.mem_cons, reduceCtorEq, false_or] at hs; exact .inl hs)
    | skip
  all_goals grind [upd]

/-- What was given was, at the moment it was given, waiting for a writer. -/
theorem given_at (h0 : e.st 0 = wStart f ns) (ha : ∀ n, ¬ Sys.dead (e.st n).sys) {u : Nat} {d : List UInt8} :
    ∀ n, Given (e.st n).sys.conn u d → ∃ k, k ≤ n ∧ Given (e.st k).sys.conn u d ∧ (e.st k).sys.conn.client u = .sending := by
  intro n
  induction n with
  | zero =>
    rintro ⟨k, t, r, h⟩
    rw [h0] at h
    simp [wStart, sysStart, init] at h
  | succ n ih =>
    rintro ⟨k, t, r, h⟩
    have key : Given (e.st n).sys.conn u d ∨ (e.st (n + 1)).sys.conn.client u = .sending := by
      have hx := e.next n
      split at hx
      · rcases conn_of hx with ⟨cl, g, -⟩ | ⟨g, -⟩
        · rcases submit_sending g h with g | g | g
          · exact .inl ⟨k, t, r, g⟩
          · exact .inr g
          · exact absurd (.inl g) (ha (n + 1))
        · rw [g] at h; exact .inl ⟨k, t, r, h⟩
      · rw [hx] at h; exact .inl ⟨k, t, r, h⟩
    rcases key with g | g
    · obtain ⟨j, h1, h2⟩ := ih g
      exact ⟨j, by omega, h2⟩
    · exact ⟨n + 1, Nat.le_refl _, ⟨k, t, r, h⟩, g⟩

theorem waits_for_writer {s s' : St} {l : Label} {u : Nat} (hr : Fresh s) (hw : s.nWriter = 0) (hu : u < s.nReq)
    (hc : s.client u = .sending) (h : step lv s l = some s') : s'.client u = .sending ∧ u < s'.nReq := by
  have h1 : ∀ w, s.writer w = .absent := fun w => hr.writer w (by omega)
  conn_step h
  all_goals first
    | exact ⟨hc, hu⟩
    | grind [upd]

/-- It was still waiting when there was a writer, if there is one now. -/
theorem given_ready (h0 : e.st 0 = wStart f ns) (ha : ∀ n, ¬ Sys.dead (e.st n).sys) {u n : Nat} {d : List UInt8}
    (hw : 0 < (e.st n).sys.conn.nWriter) (hg : Given (e.st n).sys.conn u d) :
    ∃ k, k ≤ n ∧ Given (e.st k).sys.conn u d ∧ (e.st k).sys.conn.client u = .sending ∧ 0 < (e.st k).sys.conn.nWriter := by
  obtain ⟨k, h1, h2, h3⟩ := given_at h0 ha n hg
  have key : ∀ m, k ≤ m → (∃ j, k ≤ j ∧ j ≤ m ∧ (e.st j).sys.conn.client u = .sending ∧ 0 < (e.st j).sys.conn.nWriter) ∨
      (e.st m).sys.conn.client u = .sending ∧ (e.st m).sys.conn.nWriter = 0 := by
    intro m hm
    induction hm with
    | refl =>
      rcases Nat.eq_zero_or_pos (e.st k).sys.conn.nWriter with h | h
      · exact .inr ⟨h3, h⟩
      · exact .inl ⟨k, Nat.le_refl _, Nat.le_refl _, h3, h⟩
    | step hm ih =>
      next m =>
      rcases ih with ⟨j, g1, g2, g3⟩ | ⟨g1, g2⟩
      · exact .inl ⟨j, g1, by omega, g3⟩
      · have hs : (e.st (m + 1)).sys.conn.client u = .sending := by
          have hx := e.next m
          split at hx
          · rcases conn_of hx with ⟨cl, g, -⟩ | ⟨g, -⟩
            · have hfr := fresh (w_reach h0 m).1
              refine (waits_for_writer hfr g2 (Nat.lt_of_not_le fun hle => ?_) g1 g).1
              rw [hfr.client u hle] at g1; cases g1
            · rw [g]; exact g1
          · rw [hx]; exact g1
        rcases Nat.eq_zero_or_pos (e.st (m + 1)).sys.conn.nWriter with h | h
        · exact .inr ⟨hs, h⟩
        · exact .inl ⟨m + 1, Nat.le_succ_of_le hm, Nat.le_refl _, hs, h⟩
  rcases key n h1 with ⟨j, g1, g2, g3, g4⟩ | ⟨-, g⟩
  · refine ⟨j, g2, ?_, g3, g4⟩
    exact exec_keep e (Q := fun w => Given w.sys.conn u d) (fun _ _ _ h1 h2 => given_mono h2 h1) h2 j g1
  · omega

/-- What a goroutine wants to send it gives. -/
theorem gets_given (hf : FairWhole e) (ha : ∀ n, ¬ Sys.dead (e.st n).sys) {n : Nat} {who : Who} {a : Ask}
    (hd : who = .disc → (e.st n).sys.ctl.disc ≠ .absent) (hw : (e.st n).want who = some a) : ∃ m u, n ≤ m ∧ Given (e.st m).sys.conn u a.data := by
  apply Classical.byContradiction
  intro hno
  have hdisc : ∀ m, n ≤ m → who = .disc → (e.st m).sys.ctl.disc ≠ .absent := by
    intro m hm hwho
    refine exec_keep e (Q := fun w => w.sys.ctl.disc ≠ .absent) (fun w l w' h1 h2 => ?_) (hd hwho) m hm
    rcases ctl_of h2 with ⟨cl, g, -⟩ | ⟨g, -⟩
    · exact disc_begun g h1
    · rw [g]; exact h1
  have hkeep : ∀ m, n ≤ m → (e.st m).want who = some a := by
    intro m hm
    induction hm with
    | refl => exact hw
    | step hm ih =>
      next m =>
      have hx := e.next m
      split at hx
      · rcases want_keeps hx (hdisc m hm) ih with g | ⟨g, -⟩
        · exact g
        · exact absurd ⟨m + 1, _, Nat.le_succ_of_le hm, g⟩ hno
      · rw [hx]; exact ih
  obtain ⟨m, l, h1, h2, rfl⟩ := hf.ask who (fun k => ⟨max n k, by omega, ask_enabled (ha _) (hkeep _ (by omega))⟩) n
  have hx := e.next m
  rw [h2] at hx
  rcases want_keeps hx (hdisc m h1) (hkeep m h1) with g | ⟨g, -⟩
  · have := ((req_keeps (who := who) hx (by rintro (⟨-, h⟩ | ⟨_, _, _, -, h⟩) <;> cases h)).2 rfl).1
    rw [g] at this; cases this
  · exact hno ⟨m + 1, _, Nat.le_succ_of_le h1, g⟩

/-! ### The port -/

theorem forget_down (r : ReaderAt) (u : Nat) : r.forget u = .down ↔ r = .down := by
  cases r <;> simp [ReaderAt.forget]

/-- While reading does not fail, an open port stays open. -/
theorem port_step {s s' : St} {l : Label} (h : step lv s l = some s') (hl : l ≠ .reader .fail)
    (hi : 0 < s.nWriter → s.port = .up ∧ s.reader ≠ .down) : 0 < s'.nWriter → s'.port = .up ∧ s'.reader ≠ .down := by
  conn_step h
  all_goals first
    | exact hi
    | grind [forget_down]

theorem port_up (h0 : e.st 0 = wStart f ns) (hp : PortHolds e) (n : Nat) :
    0 < (e.st n).sys.conn.nWriter → (e.st n).sys.conn.port = .up ∧ (e.st n).sys.conn.reader ≠ .down := by
  induction n with
  | zero => rw [h0]; intro h; simp [wStart, sysStart, init] at h
  | succ n ih =>
    have hx := e.next n
    split at hx
    · next l hl =>
      have hc := conn_part (sys_part hx)
      cases l with
      | sys l =>
        cases l with
        | conn l => exact port_step hc (fun he => hp n (by rw [hl, he])) ih
        | ctl l => simp only [sysLab] at hc; rw [hc]; exact ih
        | connected b => simp only [sysLab] at hc; rw [hc]; exact ih
      | ask who =>
        cases hw : (e.st n).want who with
        | none => simp [wStep, hw] at hx
        | some a =>
          simp only [sysLab, hw] at hc
          exact port_step hc (by simp) ih
    · rw [hx]; exact ih

theorem request_length {id : Int} {d : List UInt8} (h : IdentRequest id d) : d.length ≤ 253 := by
  rcases h with rfl | ⟨_, _, -, _, rfl⟩ <;> simp

end Verif.Lemmas.Asked
