import Verif.Lemmas.Asked

/-
C118: what the library asks is in the end on the wire.
-/

set_option linter.unusedSimpArgs false
set_option linter.unusedVariables false

namespace Verif.Props

open Verif.Go Verif.Model Verif.Model.Conn Verif.Spec Verif.Lemmas Verif.Lemmas.Conn Verif.Lemmas.Ctl Verif.Lemmas.NodeM
  Verif.Lemmas.EndToEnd Verif.Lemmas.System Verif.Lemmas.Process Verif.Lemmas.Asked

variable {lv : LoopVars} {db : DB} {f : Bool} {ns : List Node} {e : Exec (wStep lv db)}

/-- C118: a request that an identification has made was given to the connection, or its goroutine is about to give it. -/
theorem C118_given {ls : List WLabel} {w : Whole} (h : runSteps (wStep lv db) (wStart f ns) ls = some w) {ref : Nat}
    (hr : ref < w.sys.ctl.nHeap) {i : Nat} {p : Option Purpose} {d : List UInt8}
    (hs : .sent i p d ∈ (w.sys.ctl.heap ref).hist) :
    (∃ a, w.want (.ident ref i) = some a ∧ a.data = d) ∨ ∃ u, Given w.sys.conn u d :=
  ((sent_run h).sent ref hr i p d hs).2.2

/-- What was given is in the end handed to the port, open or closed. -/
theorem given_attempted (hf : FairWhole e) (h0 : e.st 0 = wStart f ns) (ha : ∀ n, ¬ Sys.dead (e.st n).sys) {n u : Nat}
    {d : List UInt8} (hw : 0 < (e.st n).sys.conn.nWriter) (hg : Given (e.st n).sys.conn u d) :
    ∃ m, n ≤ m ∧ Given (e.st m).sys.conn u d ∧
      ∃ w, (∃ x, Ev.cmd w u x ∈ (e.st m).sys.conn.hist) ∨ Ev.lost w u ∈ (e.st m).sys.conn.hist := by
  obtain ⟨k, h1, ⟨kd, to, er, h2⟩, h3, h4⟩ := given_ready h0 ha hw hg
  have hr : Reachable lv ((connExec (sysExec e)).st 0) := (w_reach h0 0).1
  obtain ⟨m, h5, h6⟩ := C114_attempted (e := connExec (sysExec e)) (w_conn_fair hf ha) hr u k h4
    ((contents (w_reach h0 k).1).submit _ _ _ _ _ h2).1 h3
  have h7 := h6.resolve_left fun h => ha m (.inl h)
  have keep : ∀ x, x ∈ (e.st m).sys.conn.hist → x ∈ (e.st (max n m)).sys.conn.hist := fun x hx =>
    exec_keep e (Q := fun w => x ∈ w.sys.conn.hist) (fun _ _ _ h1 h2 => (conn_mono h2).1 _ h1) hx _ (by omega)
  refine ⟨max n m, by omega, ?_, ?_⟩
  · exact exec_keep e (Q := fun w => Given w.sys.conn u d) (fun _ _ _ h1 h2 => given_mono h2 h1) hg _ (by omega)
  · obtain ⟨w, ⟨x, h8⟩ | h8⟩ := h7
    · exact ⟨w, .inl ⟨x, keep _ h8⟩⟩
    · exact ⟨w, .inr (keep _ h8)⟩

/-- What was given is in the end written, if the port holds. -/
theorem given_written (hf : FairWhole e) (h0 : e.st 0 = wStart f ns) (ha : ∀ n, ¬ Sys.dead (e.st n).sys) (hp : PortHolds e)
    {n u : Nat} {d : List UInt8} (hd : d.length ≤ 253) (hw : 0 < (e.st n).sys.conn.nWriter)
    (hg : Given (e.st n).sys.conn u d) : ∃ m, n ≤ m ∧ Written (e.st m).sys.conn d := by
  obtain ⟨k, h1, ⟨kd, to, er, h2⟩, h3, h4⟩ := given_ready h0 ha hw hg
  have hr : Reachable lv ((connExec (sysExec e)).st 0) := (w_reach h0 0).1
  have hup : ∀ m, k ≤ m → (e.st m).sys.conn.port = .up := fun m hm => by
    refine (port_up h0 hp m ?_).1
    refine exec_keep e (Q := fun w => 0 < w.sys.conn.nWriter) (fun w l w' h1 h2 => ?_) h4 m hm
    rcases conn_of h2 with ⟨cl, g, -⟩ | ⟨g, -⟩
    · exact Nat.lt_of_lt_of_le h1 (nWriter_step g)
    · rw [g]; exact h1
  obtain ⟨m, h5, h6⟩ := C114_frame_written_partial (e := connExec (sysExec e)) (w_conn_fair hf ha) hr k h2 hd h3 h4 hup
  obtain ⟨w, x, h7, h8⟩ := h6.resolve_left fun h => ha m (.inl h)
  exact ⟨max n m, by omega, w, u, x,
    exec_keep e (Q := fun w => _ ∈ w.sys.conn.hist) (fun _ _ _ h1 h2 => (conn_mono h2).1 _ h1) h7 _ (by omega), h8⟩

theorem writer_there (h0 : e.st 0 = wStart f ns) {n : Nat} (hd : (e.st n).sys.ctl.disc ≠ .absent) :
    0 < (e.st n).sys.conn.nWriter := (up_inv h0 n).res ((up_inv h0 n).disc hd)

theorem request_given (hf : FairWhole e) (h0 : e.st 0 = wStart f ns) (ha : ∀ n, ¬ Sys.dead (e.st n).sys) {n ref i : Nat}
    (hr : ref < (e.st n).sys.ctl.nHeap) {p : Option Purpose} {d : List UInt8}
    (hs : .sent i p d ∈ ((e.st n).sys.ctl.heap ref).hist) :
    ∃ m u, n ≤ m ∧ Given (e.st m).sys.conn u d ∧ 0 < (e.st m).sys.conn.nWriter ∧ d.length ≤ 253 := by
  obtain ⟨h1, h2, h3⟩ := (sent_exec h0 n).sent ref hr i p d hs
  have hw : ∀ m, n ≤ m → 0 < (e.st m).sys.conn.nWriter := fun m hm =>
    exec_keep e (Q := fun w => 0 < w.sys.conn.nWriter) (fun w l w' h1 h2 => by
      rcases conn_of h2 with ⟨cl, g, -⟩ | ⟨g, -⟩
      · exact Nat.lt_of_lt_of_le h1 (nWriter_step g)
      · rw [g]; exact h1) (writer_there h0 h1) m hm
  rcases h3 with ⟨a, h3, rfl⟩ | ⟨u, h3⟩
  · obtain ⟨m, u, h4, h5⟩ := gets_given hf ha (by simp) h3
    exact ⟨m, u, h4, h5, hw m h4, request_length h2⟩
  · exact ⟨n, u, Nat.le_refl _, h3, hw n (Nat.le_refl _), request_length h2⟩

/-- C118: every request of an identification is in the end given to the connection and handed to the port; what can happen
to it is that the port is closed then. -/
theorem C118_attempted (hf : FairWhole e) (h0 : e.st 0 = wStart f ns) {n ref i : Nat} (hr : ref < (e.st n).sys.ctl.nHeap)
    {p : Option Purpose} {d : List UInt8} (hs : .sent i p d ∈ ((e.st n).sys.ctl.heap ref).hist) :
    ∃ m, n ≤ m ∧ (Sys.dead (e.st m).sys ∨ ∃ u, Given (e.st m).sys.conn u d ∧
      ∃ w, (∃ x, Ev.cmd w u x ∈ (e.st m).sys.conn.hist) ∨ Ev.lost w u ∈ (e.st m).sys.conn.hist) := by
  refine wor_dead (P := fun s => ∃ u, Given s.sys.conn u d ∧
    ∃ w, (∃ x, Ev.cmd w u x ∈ s.sys.conn.hist) ∨ Ev.lost w u ∈ s.sys.conn.hist) n fun ha => ?_
  obtain ⟨m, u, h1, h2, h3, -⟩ := request_given hf h0 ha hr hs
  obtain ⟨k, h4, h5⟩ := given_attempted hf h0 ha h3 h2
  exact ⟨k, by omega, u, h5⟩

/-- C118: while reading from the port does not fail, every request of an identification is in the end on the wire, in a
proper frame. -/
theorem C118_written (hf : FairWhole e) (h0 : e.st 0 = wStart f ns) (hp : PortHolds e) {n ref i : Nat}
    (hr : ref < (e.st n).sys.ctl.nHeap) {p : Option Purpose} {d : List UInt8}
    (hs : .sent i p d ∈ ((e.st n).sys.ctl.heap ref).hist) :
    ∃ m, n ≤ m ∧ (Sys.dead (e.st m).sys ∨ Written (e.st m).sys.conn d) := by
  refine wor_dead (P := fun s => Written s.sys.conn d) n fun ha => ?_
  obtain ⟨m, u, h1, h2, h3, h4⟩ := request_given hf h0 ha hr hs
  obtain ⟨k, h5, h6⟩ := given_written hf h0 ha hp h4 h3 h2
  exact ⟨k, by omega, h6⟩

/-- C118: the stick is asked for its nodes. -/
theorem C118_discovery_written (hf : FairWhole e) (h0 : e.st 0 = wStart f ns) (hp : PortHolds e) {n : Nat}
    (hd : (e.st n).sys.ctl.disc ≠ .absent) : ∃ m, n ≤ m ∧ (Sys.dead (e.st m).sys ∨ Written (e.st m).sys.conn [0x02]) := by
  refine wor_dead (P := fun s => Written s.sys.conn [0x02]) n fun ha => ?_
  have hl : discAsk.data = [0x02] := by decide
  have hw := writer_there h0 hd
  rcases (sent_exec h0 n).disc hd with h1 | ⟨u, h1⟩
  · obtain ⟨m, u, h2, h3⟩ := gets_given hf ha (fun _ => hd) h1
    have hd' : (e.st m).sys.ctl.disc ≠ .absent :=
      exec_keep e (Q := fun w => w.sys.ctl.disc ≠ .absent) (fun w l w' h1 h2 => by
        rcases ctl_of h2 with ⟨cl, g, -⟩ | ⟨g, -⟩
        · exact disc_begun g h1
        · rw [g]; exact h1) hd m h2
    obtain ⟨k, h4, h5⟩ := given_written hf h0 ha hp (by rw [hl]; simp) (writer_there h0 hd') h3
    exact ⟨k, by omega, hl ▸ h5⟩
  · obtain ⟨k, h4, h5⟩ := given_written hf h0 ha hp (by rw [hl]; simp) hw h1
    exact ⟨k, h4, hl ▸ h5⟩

/-- C118: for each class with a state that an identified node has, the frame that asks this very node for this state is in
the end on the wire. -/
theorem C118_states_asked (hf : FairWhole e) (hg : GoodFile ns) (h0 : e.st 0 = wStart f ns) (hp : PortHolds e) {n : Nat}
    {b : UInt8} {ref : Nat} (hl : (e.st n).sys.ctl.list.get b.toNat = some ref)
    (hi : ((e.st n).sys.ctl.heap ref).node.identified = true) {c : UInt8}
    (hc : ((e.st n).sys.ctl.heap ref).node.hasCommand c = true) (hs : hasState c) :
    ∃ m, n ≤ m ∧ (Sys.dead (e.st m).sys ∨ Written (e.st m).sys.conn [0x13, b, 0x04, c, getOf c, 0x25]) := by
  have hr := (w_reach h0 n).2
  obtain ⟨i, d, h1, h2⟩ := C87_controller_asks_all_states db f ns hg _ hr _ ref hl hi c hc hs
  obtain ⟨h3, -⟩ := C87_controller_only_queries db f ns hg _ hr b ref hl i _ d h1
  have hd : d = [0x13, b, 0x04, c, getOf c, 0x25] := by
    obtain ⟨n', c', k, rfl, hk⟩ := h3
    have h4 := ((sent_exec h0 n).sent ref ((cinv hg hr).list _ ref hl).1 i _ _ h1).2.1
    simp only [asksFor, List.getElem?_cons_succ, List.getElem?_cons_zero, Option.some.injEq] at h2
    subst h2
    rcases h4 with h4 | ⟨_, _, -, _, h4⟩
    · simp at h4
    · simp only [List.cons.injEq] at h4
      rw [h4.2.2.1]
      rcases hk with ⟨rfl, rfl⟩ | ⟨rfl, rfl⟩ | ⟨rfl, rfl⟩ <;> rfl
  subst hd
  exact C118_written hf h0 hp ((cinv hg hr).list _ ref hl).1 h1

/-- C103: a node that the stick names, and that answers, is asked for the state of each class it has. (Missing, as for C103:
the goroutine that holds a nil channel.) -/
theorem C103_named_nodes_asked_partial {M D : Nat} (hb : DBBound db M D) (hf : FairWhole e) (hg : GoodFile ns)
    (h0 : e.st 0 = wStart f ns) (hp : PortHolds e) (hl : ∀ n who, ¬ Late (e.st n) who) {k : Nat} {bm : List Bool}
    (hk : e.lab k = some (.sys (.ctl (.disc (.nodes bm))))) (hw : (e.st k).sys.ctl.disc = .wait) {b : UInt8}
    (hi : Active bm b.toNat) (hn : ∀ ref, FairAnswers e ref)
    (hp' : ∀ ref m a, IdentGoes e ref m a → ∀ p, a = .info p → p.listening = true) :
    ∃ m, ∀ m', m ≤ m' → Sys.dead (e.st m').sys ∨ ∃ ref, (e.st m').sys.ctl.list.get b.toNat = some ref ∧
      ((e.st m').sys.ctl.heap ref).node.identified = true ∧
      ∀ c, ((e.st m').sys.ctl.heap ref).node.hasCommand c = true → hasState c →
        ∃ m2, m' ≤ m2 ∧ (Sys.dead (e.st m2).sys ∨ Written (e.st m2).sys.conn [0x13, b, 0x04, c, getOf c, 0x25]) := by
  obtain ⟨m, h⟩ := C103_named_nodes_identified_partial hb hf hg h0 hl hk hw hi hn hp'
  refine ⟨m, fun m' hm' => (h m' hm').imp_right ?_⟩
  rintro ⟨ref, h1, h2⟩
  exact ⟨ref, h1, h2, fun c h3 h4 => C118_states_asked hf hg h0 hp h1 h2 h3 h4⟩

/-! ### Instances -/

/-- A fair execution in which the port holds, and what follows for node 2, a binary switch. -/
example : ∃ e : Exec (wStep .perIteration demoDB), FairWhole e ∧ e.st 0 = wStart false [] ∧ PortHolds e ∧
    (∀ n, ¬ Sys.dead (e.st n).sys) ∧
    (∃ n ref, (e.st n).sys.ctl.list.get (2 : UInt8).toNat = some ref ∧ ((e.st n).sys.ctl.heap ref).node.identified = true ∧
      ((e.st n).sys.ctl.heap ref).node.hasCommand 0x25 = true) ∧
    ∃ m, Written (e.st m).sys.conn [0x13, 2, 0x04, 0x25, 0x02, 0x25] := by
  obtain ⟨e, w, hf, h0, hd, hst, hlab, htick, hr, hend⟩ :=
    rest_exec (lv := .perIteration) (db := demoDB) (f := false) noFileGood fLs_rest
  have hp : PortHolds e := by
    intro m hm
    by_cases hlt : m < fLs.length
    · rw [hlab m hlt] at hm
      have hall : ∀ l ∈ fLs, l ≠ .sys (.conn (.reader .fail)) := by decide +kernel
      exact hall _ (List.mem_of_getElem? hm) rfl
    · rw [htick m (by omega)] at hm; cases hm
  have hb : (runSteps (wStep .perIteration demoDB) (wStart false []) fLs).map (fun w =>
    decide (w.sys.ctl.list.get (2 : UInt8).toNat = some 0) && (w.sys.ctl.heap 0).node.identified &&
      (w.sys.ctl.heap 0).node.hasCommand 0x25) = some true := by decide +kernel
  have h1 := hst fLs.length (Nat.le_refl _)
  rw [List.take_length] at h1
  rw [h1] at hb
  simp only [Option.map_some, Option.some.injEq, Bool.and_eq_true, decide_eq_true_eq] at hb
  obtain ⟨⟨b1, b2⟩, b3⟩ := hb
  refine ⟨e, hf, h0, hp, hd, ⟨_, 0, b1, b2, b3⟩, ?_⟩
  obtain ⟨m, -, h2⟩ := C118_states_asked hf noFileGood h0 hp b1 b2 b3 (.inl rfl)
  exact ⟨m, h2.resolve_left (hd m)⟩

/-- The port fails while the writer holds the request for the nodes, and is opened again. -/
def vLs : List WLabel :=
  jc [.connect true] ++ [.sys (.connected true)] ++ jt [.startDisc] ++ [.ask .disc] ++
    jc ([.take 0 (.client 0), .reader .fail] ++ List.replicate 9 (.writer 0) ++ [.client 0 .readField] ++ xGiveUp 0 ++
      [.connect true, .timer 0, .timer 0, .timer 0, .timer 0, .timer 0, .timer 0, .timer 0, .client 0 .seeClosed]) ++
    jt [.disc .nothing]

theorem vLs_rest : (runSteps (wStep .perIteration demoDB) (wStart false []) vLs).map (fun w =>
    wRestB vLs w && w.sys.conn.crashed.isNone && w.sys.ctl.crashed.isNone) = some true := by decide +kernel

/-- C118: the assumption is needed. Reading fails once: the port is open again, the process lives, the discovery is over, and the stick
was never asked for its nodes. -/
theorem C118_port_needed : ∃ e : Exec (wStep .perIteration demoDB), FairWhole e ∧ e.st 0 = wStart false [] ∧
    (e.st 3).sys.ctl.disc ≠ .absent ∧ (e.st 3).sys.conn.port = .up ∧ ∃ n, ∀ m, n ≤ m → ¬ Sys.dead (e.st m).sys ∧
      (e.st m).sys.conn.port = .up ∧ (e.st m).sys.ctl.disc = .done ∧ ∀ w u x, Ev.cmd w u x ∉ (e.st m).sys.conn.hist := by
  obtain ⟨e, w, hf, h0, hd, hst, -, -, hr, hend⟩ :=
    rest_exec (lv := .perIteration) (db := demoDB) (f := false) noFileGood vLs_rest
  have h1 := hst 3 (by decide)
  have h2 : (runSteps (wStep .perIteration demoDB) (wStart false []) (vLs.take 3)).map (fun w =>
    decide (w.sys.ctl.disc ≠ .absent) && decide (w.sys.conn.port = .up)) = some true := by decide +kernel
  rw [h1] at h2
  simp only [Option.map_some, Option.some.injEq, Bool.and_eq_true, decide_eq_true_eq] at h2
  have h3 : (runSteps (wStep .perIteration demoDB) (wStart false []) vLs).map (fun w =>
    decide (w.sys.conn.port = .up) && decide (w.sys.ctl.disc = .done) &&
      !w.sys.conn.hist.any (fun x => match x with | .cmd .. => true | _ => false)) = some true := by decide +kernel
  rw [hr] at h3
  simp only [Option.map_some, Option.some.injEq, Bool.and_eq_true, decide_eq_true_eq, Bool.not_eq_true',
    List.any_eq_false] at h3
  refine ⟨e, hf, h0, h2.1, h2.2, vLs.length, fun m hm => ⟨hd m, ?_⟩⟩
  rw [hend m hm]
  exact ⟨h3.1.1, h3.1.2, fun w u x hx => h3.2 _ hx rfl⟩

end Verif.Props
