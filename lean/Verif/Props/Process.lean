import Verif.Lemmas.ProcessInv
import Verif.Props.Match

/-
C102: what is known of the network comes from the network or from the file, and what the library asks for on its own.
-/

set_option linter.unusedSimpArgs false
set_option linter.unusedVariables false

namespace Verif.Props

open Verif.Go Verif.Model Verif.Model.Conn Verif.Spec Verif.Lemmas Verif.Lemmas.Conn Verif.Lemmas.Ctl Verif.Lemmas.NodeM
  Verif.Lemmas.EndToEnd Verif.Lemmas.System Verif.Lemmas.Process

variable {lv : LoopVars} {db : DB} {f : Bool} {ns : List Node} {ls : List WLabel} {w : Whole} {xs : List Session}

/-- What was told was on the wire. -/
theorem told_wire (h : runSteps (wStep lv db) (wStart f ns) ls = some w) (hx : Arrived ls xs)
    (hc : w.sys.conn.crashed = none) {a : Ask} {d : MsgData} (ht : Told w.sys.conn a d) :
    ∃ fr ∈ onWire xs, GoodFrame fr ∧ ∃ m, loneMsg fr = some m ∧ m.data = d ∧
      (reqFunction a.data ≠ 0x41 → 5 < fr.length → Agrees (reqNode a.data) (zeroed fr)[5]?) := by
  obtain ⟨⟨cls, hr, hs⟩, -⟩ := run_parts h
  obtain ⟨u, x, m, h1, h2, h3⟩ := ht
  obtain ⟨fr, g1, g2, g3, g4⟩ := got_wire hr hc (hs.trans hx.1) hx.2 u _ h2
  refine ⟨fr, g1, g2, m, g3.symm, h3, fun hne h5 => ?_⟩
  have hrch : Reachable lv w.sys.conn := ⟨cls, hr⟩
  obtain ⟨-, hp, -, -⟩ := (contents hrch).submit u _ _ _ _ h1
  obtain ⟨-, hm⟩ := (dataInv hrch).got u _ h2
  have := ((C29_sound_buffer a.data _ _ _ hp hm).2 hne).1
  rcases this with e | e
  · exact .inl e
  · refine .inr ?_
    have e5 : (zeroed fr)[5]? = (x.vis.take fr.length)[5]? := by rw [g4]
    rw [e5, List.getElem?_take, if_pos h5]
    exact e

/-- C102: every node the controller knows is from the file, or it was named by a discovery reply of the stick. -/
theorem C102_known_nodes (hg : GoodFile ns) (h : runSteps (wStep lv db) (wStart f ns) ls = some w) (hx : Arrived ls xs)
    (hc : w.sys.conn.crashed = none) {id : Int} {ref : Nat} (hl : w.sys.ctl.list.get id = some ref) :
    (∃ n ∈ ns, n.id = id) ∨ ∃ k : Nat, id = k ∧ ∃ fr ∈ onWire xs, NamesNode fr k := by
  obtain ⟨-, hr⟩ := run_parts h
  obtain ⟨h1, h2⟩ := (cinv hg hr).list id ref hl
  rcases (namedInv hr).ids ref h1 with ⟨n, e1, e2⟩ | ⟨bm, e1, e2⟩
  · exact .inl ⟨n, e1, e2.trans h2⟩
  · rw [h2] at e2
    obtain ⟨fr, g1, g2, m, g3, g4, -⟩ := told_wire h hx hc ((winv h).reply bm e1)
    obtain ⟨k, k1, k2⟩ := nodes_frame g2 g3 g4 e2
    exact .inr ⟨k, k1, fr, g1, k2⟩

/-- C102: the protocol information shown for a node is from the file, or it is what a protocol info reply said. (Of
which node that reply was cannot be told from it, see `C102_violated_protocol_info`.) -/
theorem C102_protocol_info (hg : GoodFile ns) (h : runSteps (wStep lv db) (wStart f ns) ls = some w) (hx : Arrived ls xs)
    (hc : w.sys.conn.crashed = none) {id : Int} {ref : Nat} (hl : w.sys.ctl.list.get id = some ref) {p : ProtocolInfo}
    (hp : (w.sys.ctl.heap ref).node.protocolInfo = some p) : ∃ fr ∈ onWire xs, SaysInfo fr p := by
  obtain ⟨-, hr⟩ := run_parts h
  obtain ⟨h1, h2⟩ := (cinv hg hr).list id ref hl
  rcases (winv h).info ref h1 p hp with ⟨n, e1, e2, e3⟩ | ⟨a, e1, e2⟩
  · rw [(hg.sound n e1).fresh.1] at e3; cases e3
  · obtain ⟨fr, g1, g2, m, g3, g4, -⟩ := told_wire h hx hc e2
    exact ⟨fr, g1, info_frame g2 g3 g4⟩

/-- C102: the manufacturer shown for a node is from the file, or it is what that very node said. -/
theorem C102_manufacturer (hg : GoodFile ns) (h : runSteps (wStep lv db) (wStart f ns) ls = some w) (hx : Arrived ls xs)
    (hc : w.sys.conn.crashed = none) {id : Int} {ref : Nat} (hl : w.sys.ctl.list.get id = some ref)
    (hid : id % 256 ≠ 0) {m : ManufacturerSpecific} (hm : (w.sys.ctl.heap ref).node.manufacturer = some m) :
    (∃ n ∈ ns, n.id = id ∧ n.manufacturer = some m) ∨
      ∃ fr ∈ onWire xs, ∃ b : UInt8, (b.toNat : Int) = id % 256 ∧ IsReport fr b (.manufacturerSpecific m) := by
  obtain ⟨-, hr⟩ := run_parts h
  obtain ⟨h1, h2⟩ := (cinv hg hr).list id ref hl
  rcases (winv h).manu ref h1 m hm with ⟨n, e1, e2, e3⟩ | ⟨a, x, e1, e2, e3⟩
  · exact .inl ⟨n, e1, e2.trans h2, e3⟩
  · rw [h2] at e1
    simp only [askAt, Option.some.injEq] at e1
    obtain ⟨fr, g1, g2, msg, g3, g4, g5⟩ := told_wire h hx hc e2
    have hrep := ach_frame g2 g3 g4
    have hn := report_node hrep
    have hlen : 5 < fr.length := by
      have := (List.getElem?_eq_some_iff.1 hn).1
      simpa [zeroed] using this
    have hf : reqFunction a.data = 0x13 ∧ reqNode a.data = intToByte id := by rw [← e1]; exact ⟨rfl, rfl⟩
    have := g5 (by rw [hf.1]; decide) hlen
    rw [hf.2, hn] at this
    have hb : (((intToByte id).toNat : Nat) : Int) = id % 256 := by
      unfold intToByte
      simp
      omega
    rw [e3] at hrep
    rcases this with h0 | h0
    · rw [h0] at hb
      exact absurd hb.symm hid
    · simp only [Option.some.injEq] at h0
      rw [h0] at hrep
      exact .inr ⟨fr, g1, _, hb, hrep⟩

theorem submit_step {s s' : St} {l : Label} (h : step lv s l = some s') {u : Nat} {data : List UInt8} {kind : Conn.Kind}
    {t : Bool} {er : UInt8} (hs : Ev.submit u data kind t er ∈ s'.hist) :
    Ev.submit u data kind t er ∈ s.hist ∨ l = .submit data kind t er := by
  conn_step h
  all_goals simp_all
  all_goals grind

/-- A request is the user's, or the discovery, or a question of an identification. -/
theorem request_origin (h : runSteps (wStep lv db) (wStart f ns) ls = some w) {u : Nat} {data : List UInt8} {kind : Conn.Kind}
    {t : Bool} {er : UInt8} (hs : Ev.submit u data kind t er ∈ w.sys.conn.hist) :
    .sys (.conn (.submit data kind t er)) ∈ ls ∨ data = [0x02] ∨
      ∃ ref < w.sys.ctl.nHeap, IdentRequest (w.sys.ctl.heap ref).node.id data := by
  have gen : ∀ (ls pre : List WLabel) (w0 w : Whole), WantInv w0 →
      (∀ {u : Nat} {data : List UInt8} {kind : Conn.Kind} {t : Bool} {er : UInt8},
        Ev.submit u data kind t er ∈ w0.sys.conn.hist → .sys (.conn (.submit data kind t er)) ∈ pre ∨ data = [0x02] ∨
          ∃ ref < w0.sys.ctl.nHeap, IdentRequest (w0.sys.ctl.heap ref).node.id data) →
      runSteps (wStep lv db) w0 ls = some w → ∀ {u : Nat} {data : List UInt8} {kind : Conn.Kind} {t : Bool} {er : UInt8},
        Ev.submit u data kind t er ∈ w.sys.conn.hist → .sys (.conn (.submit data kind t er)) ∈ pre ++ ls ∨ data = [0x02] ∨
          ∃ ref < w.sys.ctl.nHeap, IdentRequest (w.sys.ctl.heap ref).node.id data := by
    intro ls
    induction ls with
    | nil =>
      intro pre w0 w _ h0 h
      cases h
      rw [List.append_nil]
      exact h0
    | cons l ls ih =>
      intro pre w0 w hw h0 h
      simp only [runSteps] at h
      cases hl : wStep lv db w0 l with
      | none => rw [hl] at h; cases h
      | some w1 =>
        rw [hl] at h
        intro u' data' kind' t' er' hs'
        have := ih (pre ++ [l]) w1 w (want_step hw hl) (by
          intro u data kind t er hs
          have hid : ∀ ref, ref < w0.sys.ctl.nHeap →
              ref < w1.sys.ctl.nHeap ∧ (w1.sys.ctl.heap ref).node.id = (w0.sys.ctl.heap ref).node.id := by
            intro ref hr
            rcases ctl_of hl with ⟨cl, g, -⟩ | ⟨g, -⟩
            · exact heap_id hr g
            · rw [g]; exact ⟨hr, rfl⟩
          have old : Ev.submit u data kind t er ∈ w0.sys.conn.hist →
              .sys (.conn (.submit data kind t er)) ∈ pre ++ [l] ∨ data = [0x02] ∨
                ∃ ref < w1.sys.ctl.nHeap, IdentRequest (w1.sys.ctl.heap ref).node.id data := by
            intro hs
            rcases h0 hs with g | g | ⟨ref, g1, g2⟩
            · exact .inl (List.mem_append_left _ g)
            · exact .inr (.inl g)
            · refine .inr (.inr ⟨ref, (hid ref g1).1, ?_⟩)
              rw [(hid ref g1).2]; exact g2
          have hp := conn_part (sys_part hl)
          cases l with
          | sys l =>
            cases l with
            | conn l =>
              rcases submit_step hp hs with g | rfl
              · exact old g
              · exact .inl (List.mem_append_right _ List.mem_cons_self)
            | ctl l => rw [show w1.sys.conn = w0.sys.conn from hp] at hs; exact old hs
            | connected b => rw [show w1.sys.conn = w0.sys.conn from hp] at hs; exact old hs
          | ask who =>
            cases hwa : w0.want who with
            | none => simp [wStep, hwa] at hl
            | some a =>
              simp only [sysLab, hwa] at hp
              rcases submit_step hp hs with g | g
              · exact old g
              · cases g
                cases who with
                | disc => rw [hw.1 a hwa]; exact .inr (.inl rfl)
                | ident ref i =>
                  obtain ⟨g1, g2⟩ := hw.2 ref i a hwa
                  refine .inr (.inr ⟨ref, (hid ref g1).1, ?_⟩)
                  rw [(hid ref g1).2]; exact g2) h hs'
        simpa using this
  exact gen ls [] _ w ⟨(fun a ha => by cases ha), (fun ref i a ha => by cases ha)⟩ (fun hs => by cases hs) h hs

/-- C102: of its own accord the library only asks. Every request the connection has got was made by the user, or it is the
discovery, or it is a question to a node from the file or one that the stick has named. -/
theorem C102_library_requests (h : runSteps (wStep lv db) (wStart f ns) ls = some w) (hx : Arrived ls xs)
    (hc : w.sys.conn.crashed = none) {u : Nat} {data : List UInt8} {kind : Conn.Kind} {t : Bool} {er : UInt8}
    (hs : Ev.submit u data kind t er ∈ w.sys.conn.hist) :
    .sys (.conn (.submit data kind t er)) ∈ ls ∨ data = [0x02] ∨
      ∃ id : Int, IdentRequest id data ∧
        ((∃ n ∈ ns, n.id = id) ∨ ∃ k : Nat, id = k ∧ ∃ fr ∈ onWire xs, NamesNode fr k) := by
  rcases request_origin h hs with h1 | h1 | ⟨ref, h1, h2⟩
  · exact .inl h1
  · exact .inr (.inl h1)
  · refine .inr (.inr ⟨_, h2, ?_⟩)
    obtain ⟨-, hr⟩ := run_parts h
    rcases (namedInv hr).ids ref h1 with ⟨n, e1, e2⟩ | ⟨bm, e1, e2⟩
    · exact .inl ⟨n, e1, e2⟩
    · obtain ⟨fr, g1, g2, m, g3, g4, -⟩ := told_wire h hx hc ((winv h).reply bm e1)
      obtain ⟨k, k1, k2⟩ := nodes_frame g2 g3 g4 e2
      exact .inr ⟨k, k1, fr, g1, k2⟩

/-! ### A run -/

/-- Node 1, 2 and 3. -/
def jDisc : List UInt8 := [1, 37, 1, 2, 5, 0, 29, 7] ++ List.replicate 28 0 ++ [5, 0, 195]
/-- A listening, routing node with generic type 0x10. -/
def jInfo : List UInt8 := [1, 9, 1, 65, 211, 156, 0, 4, 16, 1, 236]
/-- Node 2 has manufacturer 0086. -/
def jManu : List UInt8 := [1, 14, 0, 4, 0, 2, 8, 114, 5, 0, 134, 0, 3, 0, 6, 11]
def jp : ProtocolInfo := ⟨true, true, true, 4, false, false, 40000, 4, 16, 1⟩
def jm : ManufacturerSpecific := ⟨"0086".toList, "0003".toList, "0006".toList⟩

def jc (l : List Label) : List WLabel := l.map fun l => .sys (.conn l)
def jt (l : List CLabel) : List WLabel := l.map fun l => .sys (.ctl l)
/-- Writer 0 takes and sends request `u`, the caller reads the channel, the writer waits for the ack in vain. -/
def jSend (u : Nat) : List WLabel := jc (xSend 0 u ++ [.client u .readField] ++ xGiveUp 0)
/-- Frame `fr` arrives and is handed to the requests `us`. -/
def jRead (fr : List UInt8) (us : List Nat) (k : Nat) : List WLabel :=
  jc ([.reader (.read ⟨fr, true, 0⟩), .reader .go, .reader .go, .reader .go] ++ (us.map xDeliver).flatten ++
    [.reader .stop, .reader .go] ++ List.replicate k (.reader .go))
def jNext (r k : Nat) : List WLabel := jt (List.replicate k (.node r (.ident 0 .nothing)))

/-- The port is opened, the discovery asked for and answered. -/
def jls1 : List WLabel :=
  jc [.connect true] ++ [.sys (.connected true)] ++ jt [.startDisc] ++ [.ask .disc] ++ jSend 0 ++ jRead jDisc [0] 3 ++
    jt (.disc (.nodes ([true, true, true] ++ List.replicate 229 false)) :: List.replicate 17 (.disc .nothing))

/-- The nodes 2 and 3 are asked for their protocol information; one frame answers both requests. -/
def jls2 : List WLabel :=
  jNext 0 1 ++ jNext 1 1 ++ [.ask (.ident 0 0), .ask (.ident 1 0)] ++ jSend 1 ++ jSend 2 ++ jRead jInfo [1, 2] 3 ++
    jt [.node 0 (.ident 0 (.info jp)), .node 1 (.ident 0 (.info jp))]

/-- Node 2 is asked for its manufacturer and answers. -/
def jls3 : List WLabel :=
  jNext 0 4 ++ [.ask (.ident 0 0)] ++ jSend 3 ++ jRead jManu [3] 4 ++ jc [.client 3 .handle] ++
    jt [.node 0 (.ident 0 (.report (.manufacturerSpecific jm)))]

def jls : List WLabel := jls1 ++ jls2 ++ jls3

def jw : Whole := (runSteps (wStep .perIteration demoDB) (wStart false []) jls).getD (wStart false [])

theorem jw_run : runSteps (wStep .perIteration demoDB) (wStart false []) jls = some jw := by
  have : (runSteps (wStep .perIteration demoDB) (wStart false []) jls).isSome := by decide +kernel
  rw [Option.isSome_iff_exists] at this
  obtain ⟨w, hw⟩ := this
  rw [hw, jw, hw]
  rfl

def jSession : Session := [jDisc, jInfo, jManu].map fun fr => (⟨[.frame fr], none⟩, ⟨fr, true, 0⟩, [])

theorem jArrived : Arrived jls [jSession, []] := by
  refine ⟨by decide +kernel, fun x hx => ?_⟩
  simp at hx
  rcases hx with rfl | rfl
  case inr => intro b hb; cases hb
  intro b hb
  simp [jSession] at hb
  rcases hb with rfl | rfl | rfl
  · refine ⟨⟨?_, by simp⟩, by simp, by decide⟩
    intro t ht; simp at ht; subst ht
    exact ⟨[1, 2, 5, 0, 29, 7] ++ List.replicate 28 0 ++ [5, 0], ⟨37, 195, rfl, rfl, by decide⟩,
      .inr (.inl ⟨1, 5, 0, 29, [7] ++ List.replicate 28 0 ++ [5, 0], rfl, by decide⟩)⟩
  · refine ⟨⟨?_, by simp⟩, by simp, by decide⟩
    intro t ht; simp at ht; subst ht
    exact ⟨[1, 65, 211, 156, 0, 4, 16, 1], ⟨9, 236, rfl, rfl, by decide⟩, .inr (.inr (.inl ⟨1, [211, 156, 0, 4, 16, 1], rfl, by decide⟩))⟩
  · refine ⟨⟨?_, by simp⟩, by simp, by decide⟩
    intro t ht; simp at ht; subst ht
    exact ⟨[0, 4, 0, 2, 8, 114, 5, 0, 134, 0, 3, 0, 6], ⟨14, 11, rfl, rfl, by decide⟩,
      .inl ⟨0, 0, 2, 8, [114, 5, 0, 134, 0, 3, 0, 6], rfl, by decide, by decide, by decide⟩⟩

theorem jw_facts : jw.sys.conn.crashed = none ∧ jw.sys.ctl.list.get 2 = some 0 ∧ jw.sys.ctl.list.get 3 = some 1 ∧
    (jw.sys.ctl.heap 0).node.protocolInfo = some jp ∧ (jw.sys.ctl.heap 1).node.protocolInfo = some jp ∧
    (jw.sys.ctl.heap 0).node.manufacturer = some jm := by decide +kernel

/-- The hypotheses of the theorems above, met: the frames, and what they say. -/
example : ∃ fr ∈ onWire [jSession, []], NamesNode fr 3 :=
  (C102_known_nodes noFileGood jw_run jArrived jw_facts.1 (id := 3) jw_facts.2.2.1).elim
    (fun ⟨_, h, _⟩ => by cases h) fun ⟨k, hk, h⟩ => by
      have : k = 3 := by omega
      subst this; exact h

example : ∃ fr ∈ onWire [jSession, []], SaysInfo fr jp :=
  C102_protocol_info noFileGood jw_run jArrived jw_facts.1 jw_facts.2.1 jw_facts.2.2.2.1

example : ∃ fr ∈ onWire [jSession, []], ∃ b : UInt8, (b.toNat : Int) = 2 % 256 ∧ IsReport fr b (.manufacturerSpecific jm) :=
  (C102_manufacturer noFileGood jw_run jArrived jw_facts.1 (id := 2) jw_facts.2.1 (by decide) jw_facts.2.2.2.2.2).elim
    (fun ⟨_, h, _⟩ => by cases h) fun h => h

/-- Not every frame says it. -/
example : ¬ NamesNode jInfo 3 ∧ ¬ SaysInfo jManu jp := by
  refine ⟨?_, ?_⟩
  · rintro ⟨ty, v, c, n, bm, rest, b, ⟨len, ck, h, -⟩, -⟩
    simp [jInfo] at h
  · rintro ⟨ty, d0, d1, d2, d3, d4, d5, rest, ⟨len, ck, h, -⟩, -⟩
    simp [jManu] at h

/-- Four requests were made, none by the user. -/
example : Ev.submit 3 [0x13, 2, 4, 0x72, 0x04, 0] .waitReport true 0x05 ∈ jw.sys.conn.hist ∧
    Ev.submit 2 [0x41, 3] .withTimeout true 0 ∈ jw.sys.conn.hist := by decide +kernel

example : jw.sys.conn.nReq = 4 ∧ (∀ data kind t er, .sys (.conn (.submit data kind t er)) ∉ jls) := by
  refine ⟨by decide +kernel, ?_⟩
  intro data kind t er h
  have : ∀ l ∈ jls, (match l with | .sys (.conn (.submit ..)) => false | _ => true) = true := by decide +kernel
  exact absurd (this _ h) (by simp)

/-- C102, violated: the protocol information of a node need not be that node's. Nodes 2 and 3 are asked at the same time,
the one reply that comes is taken as the answer to both: there is nothing in it that says whose it is. -/
theorem C102_violated_protocol_info :
    ¬ ∀ (ls : List WLabel) (w : Whole) (xs : List Session),
      runSteps (wStep .perIteration demoDB) (wStart false []) ls = some w → Arrived ls xs → w.sys.conn.crashed = none →
      ∀ (id id' : Int) (ref ref' : Nat) (p p' : ProtocolInfo), id ≠ id' → w.sys.ctl.list.get id = some ref →
        w.sys.ctl.list.get id' = some ref' → (w.sys.ctl.heap ref).node.protocolInfo = some p →
        (w.sys.ctl.heap ref').node.protocolInfo = some p' →
        ∃ (i j : Nat) (fr fr' : List UInt8), i ≠ j ∧ (onWire xs)[i]? = some fr ∧ (onWire xs)[j]? = some fr' ∧
          SaysInfo fr p ∧ SaysInfo fr' p' := by
  intro h
  obtain ⟨a1, a2, a3, a4, a5, -⟩ := jw_facts
  obtain ⟨i, j, fr, fr', hij, h1, h2, h3, h4⟩ := h jls jw _ jw_run jArrived a1 2 3 0 1 jp jp (by decide) a2 a3 a4 a5
  have hw : onWire [jSession, []] = [jDisc, jInfo, jManu] := by decide
  have key : ∀ (k : Nat) (g : List UInt8) (p : ProtocolInfo), (onWire [jSession, []])[k]? = some g → SaysInfo g p → k = 1 := by
    intro k g p hk hg
    rw [hw] at hk
    obtain ⟨ty, d0, d1, d2, d3, d4, d5, rest, ⟨len, ck, hf, -⟩, -⟩ := hg
    match k, hk with
    | 0, hk => simp only [List.getElem?_cons_zero, Option.some.injEq] at hk; rw [← hk] at hf; simp [jDisc] at hf
    | 1, hk => rfl
    | 2, hk =>
      simp only [List.getElem?_cons_succ, List.getElem?_cons_zero, Option.some.injEq] at hk
      rw [← hk] at hf
      simp [jManu] at hf
    | k + 3, hk => simp at hk
  exact hij ((key i fr _ h1 h3).trans (key j fr' _ h2 h4).symm)

end Verif.Props
