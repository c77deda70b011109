import Verif.Spec.Process
import Verif.Props.System

/-
The joined process.
-/

set_option linter.unusedSimpArgs false
set_option linter.unusedVariables false
set_option maxHeartbeats 1000000

namespace Verif.Lemmas.Process

open Verif.Go Verif.Model Verif.Model.Conn Verif.Spec Verif.Lemmas Verif.Lemmas.Conn Verif.Lemmas.Ctl Verif.Lemmas.NodeM
  Verif.Lemmas.EndToEnd Verif.Lemmas.System Verif.Props

variable {lv : LoopVars} {db : DB}

/-! ### The parts -/

/-- The step the two parts make. -/
def sysLab (w : Whole) : WLabel → SLabel
  | .sys l => l
  | .ask who => match w.want who with
    | some a => .conn (.submit a.data a.kind (a.kind != .write) a.er)
    | none => .connected true

theorem sys_part {w w' : Whole} {l : WLabel} (h : wStep lv db w l = some w') :
    sysStep lv db w.sys (sysLab w l) = some w'.sys := by
  cases l with
  | sys l =>
    simp only [wStep] at h
    split at h
    · rw [Option.map_eq_some_iff] at h
      obtain ⟨s, hs, rfl⟩ := h
      simp only [sysLab, hs]
      unfold Whole.after
      split <;> rfl
    · cases h
  | ask who =>
    simp only [wStep] at h
    split at h
    · cases h
    · next a ha =>
      rw [Option.map_eq_some_iff] at h
      obtain ⟨s, hs, rfl⟩ := h
      simp only [sysLab, ha]
      exact hs

/-- What the two parts do in an execution of the process. -/
def sysExec (e : Exec (wStep lv db)) : Exec (sysStep lv db) where
  st n := (e.st n).sys
  lab n := (e.lab n).map (sysLab (e.st n))
  next n := by
    have := e.next n
    cases hl : e.lab n with
    | none => rw [hl] at this; simp only [Option.map_none]; rw [this]
    | some l => rw [hl] at this; exact sys_part this

/-! ### Nodes -/

theorem ident_rest {n n' : NSt} {l : NLabel} (i : Nat) (h : nodeStep db n l = some n') (hl : ∀ a, l ≠ .ident i a)
    (hw : awaits (n'.ident i) = true) : n'.ident i = n.ident i := by
  node_step h
  all_goals try rfl
  all_goals
    simp only [updN] at hw ⊢
    split
    · next he => subst he; first | (exact absurd rfl (hl _)) | (simp [awaits] at hw)
    · rfl

/-- What an identification at `p` is waiting for. -/
def askAt (id : Int) : IdentAt → Option Ask
  | .info => some ⟨serialRawEncode [0x41, intToByte id], .withTimeout, 0⟩
  | .reply .manufacturer => some ⟨rawEncode id [0x72, 0x04, 0x00], .waitReport, 0x05⟩
  | .reply .endpoints => some ⟨rawEncode id [0x60, 0x07, 0x25], .waitReport, 0x08⟩
  | .sensor _ => some ⟨rawEncode id [0x31, 0x01, 0x25], .waitReport, 0x02⟩
  | _ => none

theorem ident_asks {n n' : NSt} {i : Nat} {a : Answer} (h : nodeStep db n (.ident i a) = some n')
    (hw : awaits (n'.ident i) = true) : ∃ k, handsOver n n' i = some k ∧ askAt n'.node.id (n'.ident i) = some k := by
  node_step h
  all_goals try (simp [updN, awaits] at hw; done)
  all_goals try (simp_all [updN, awaits, handsOver, askAt, askKind]; done)

theorem info_from {n n' : NSt} {l : NLabel} (h : nodeStep db n l = some n') {p : ProtocolInfo}
    (hp : n'.node.protocolInfo = some p) :
    n.node.protocolInfo = some p ∨ ∃ i, l = .ident i (.info p) ∧ n.ident i = .info := by
  node_step h
  all_goals try (exact .inl hp)
  all_goals try (have c := (alarmOn_ok (by assumption)).1; exact .inl (by rw [← c.protocolInfo]; exact hp))
  all_goals try (have c := (alarmOff_ok (by assumption)).1; exact .inl (by rw [← c.protocolInfo]; exact hp))
  all_goals try (have c := applyState_core (by assumption); exact .inl (by rw [← c.protocolInfo]; exact hp))
  all_goals try (simp [setManufacturer_fields] at hp; exact .inl hp)
  all_goals
    simp at hp
    subst hp
    exact .inr ⟨_, rfl, by assumption⟩

theorem manu_from {n n' : NSt} {l : NLabel} (h : nodeStep db n l = some n') {m : ManufacturerSpecific}
    (hp : n'.node.manufacturer = some m) :
    n.node.manufacturer = some m ∨ ∃ i, l = .ident i (.report (.manufacturerSpecific m)) ∧ n.ident i = .reply .manufacturer := by
  node_step h
  all_goals try (exact .inl hp)
  all_goals try (have c := (alarmOn_ok (by assumption)).1; exact .inl (by rw [← c.manufacturer]; exact hp))
  all_goals try (have c := (alarmOff_ok (by assumption)).1; exact .inl (by rw [← c.manufacturer]; exact hp))
  all_goals try (have c := applyState_core (by assumption); exact .inl (by rw [← c.manufacturer]; exact hp))
  all_goals
    simp [setManufacturer_fields] at hp
    subst hp
    exact .inr ⟨_, rfl, by assumption⟩

/-! ### The controller -/

/-- What a step of the controller does to a node, and when it is a step of an identification. -/
theorem heap_ident {s s' : CSt} {l : CLabel} {ref : Nat} (hlt : ref < s.nHeap) (h : cStep db s l = some s') :
    (s'.heap ref = s.heap ref ∧ ∀ i a, l ≠ .node ref (.ident i a)) ∨
      ∃ l', nodeStep db (s.heap ref) l' = some (s'.heap ref) ∧ ∀ i a, l' = .ident i a ↔ l = .node ref (.ident i a) := by
  ctl_step h
  all_goals first
    | exact .inl ⟨rfl, by simp⟩
    | (refine .inl ⟨?_, by simp⟩
       simp only [CSt.push, updN]
       rw [if_neg (by omega)]
       done)
    | (simp only [put_heap, updN]
       split
       · next he =>
         subst he
         exact .inr ⟨_, by assumption, by simp⟩
       · next he => exact .inl ⟨rfl, by simp; try omega⟩)
    | skip

theorem heap_new {s s' : CSt} {l : CLabel} {ref : Nat} (h1 : s.nHeap ≤ ref) (h2 : ref < s'.nHeap) (h : cStep db s l = some s') :
    ∃ id, s'.heap ref = NSt.start (newNode id) := by
  ctl_step h
  all_goals first
    | (exfalso; simp at h2; omega)
    | (exfalso; simp [CSt.push] at h2; omega)
    | skip
  all_goals
    simp at h2
    have : ref = s.nHeap := by omega
    subst this
    exact ⟨_, by simp [updN]; rfl⟩

theorem reply_from {s s' : CSt} {l : CLabel} {bm : List Bool} (h : cStep db s l = some s') (hb : CEv.reply bm ∈ s'.hist) :
    CEv.reply bm ∈ s.hist ∨ s.disc = .wait ∧ l = .disc (.nodes bm) := by
  ctl_step h
  all_goals try (exact .inl hb)
  all_goals try (simp [CSt.push] at hb; exact .inl hb; done)
  all_goals try (simp at hb; exact .inl hb; done)
  all_goals try (simp only [put_hist] at hb; split at hb <;> simp at hb <;> exact .inl hb; done)
  all_goals
    simp at hb
    rcases hb with rfl | hb
    · exact .inr ⟨by assumption, rfl⟩
    · exact .inl hb

/-- The discovery enters its waiting place only at its start, and leaves it only with an answer. -/
theorem wait_from {s s' : CSt} {l : CLabel} (h : cStep db s l = some s') (hw : s'.disc = .wait) :
    l = .startDisc ∨ s.disc = .wait ∧ ∀ a, l ≠ .disc a := by
  ctl_step h
  all_goals try (exact .inl rfl)
  all_goals try (simp [CSt.push] at hw; exact .inr ⟨hw, by simp⟩; done)
  all_goals try (simp at hw; exact .inr ⟨hw, by simp⟩; done)
  all_goals try (simp_all; done)

/-! ### The connection -/

theorem cev_mono {s s' : St} {l : Label} (h : step lv s l = some s') {x : Ev} (hx : x ∈ s.hist) : x ∈ s'.hist := by
  conn_step h
  all_goals first
    | exact hx
    | exact List.mem_cons_of_mem _ hx
    | (simp; exact .inr hx)

theorem got_mono {s s' : St} {l : Label} (h : step lv s l = some s') (u : Nat) {x : Slice × Option Message} (hx : x ∈ s.got u) :
    x ∈ s'.got u := by
  conn_step h
  all_goals try exact hx
  all_goals grind [upd]

/-- What was handed over was part of a frame that was matched. -/
def GotObs (s : St) : Prop := ∀ u x, x ∈ s.got u → Obs.frame x.1 x.2 ∈ observed s ++ curObs s.reader

theorem gotObs_step {s s' : St} {l : Label} (hi : GotObs s) (h : step lv s l = some s') : GotObs s' := by
  intro u x hx
  have key : x ∈ s.got u ∨ ∃ c v, s.reader = .frameSend c v ∧ x = (c.buf, c.msg) ∧ curObs s'.reader = curObs s.reader := by
    conn_step h
    all_goals try (exact .inl hx)
    all_goals grind [upd, curObs]
  have hmem : Obs.frame x.1 x.2 ∈ observed s ++ curObs s.reader := by
    rcases key with k | ⟨c, v, k1, k2, -⟩
    · exact hi u x k
    · subst k2; simp [k1, curObs]
  have hobs : ∀ o, o ∈ observed s ++ curObs s.reader → o ∈ observed s' ++ curObs s'.reader := by
    intro o ho
    clear hmem key hx hi
    unfold observed at *
    simp only [List.mem_append, List.mem_filterMap, List.mem_reverse] at ho ⊢
    conn_step h
    all_goals try exact ho
    all_goals first
      | grind [obsEv, curObs, curObs_forget]
      | (rcases ho with ⟨a, h1, h2⟩ | ho
         · exact .inl ⟨a, List.mem_cons_of_mem _ h1, h2⟩
         · rw [‹s.reader = _›] at ho
           simp only [curObs, List.mem_singleton] at ho
           exact .inl ⟨_, List.mem_cons_self, by simp [obsEv, ho]⟩)
  exact hobs _ hmem

theorem gotObs {s : St} (h : Reachable lv s) : GotObs s :=
  reach_induct (P := GotObs) (fun u x hx => by cases hx) (fun _ _ _ _ hp hs => gotObs_step hp hs) s h

theorem frames_expected {ts : List Tok} {sl : Slice} {l : Nat} {msg : Option Message} (ht : ∀ t ∈ ts, t.Ok)
    (h : Act.frame sl l msg ∈ expectedAll ts) :
    ∃ f, f ∈ framesOf ts ∧ GoodFrame f ∧ msg = loneMsg f ∧ l = f.length ∧ sl = ⟨zeroed f, []⟩ := by
  unfold expectedAll at h
  simp only [List.mem_flatten, List.mem_map] at h
  obtain ⟨x, ⟨t, ht', rfl⟩, hm⟩ := h
  cases t with
  | noise b => simp [Tok.expected] at hm
  | frame f =>
    refine ⟨f, List.mem_filterMap.2 ⟨_, ht', rfl⟩, ht _ ht', ?_⟩
    simp only [Tok.expected, List.mem_append] at hm
    rcases hm with (hm | hm) | hm
    · simp only [List.mem_singleton, Act.frame.injEq] at hm
      exact ⟨hm.2.2, hm.2.1, hm.1⟩
    · split at hm
      · split at hm <;> simp at hm
      · simp at hm
    · simp at hm

theorem frames_session {x : Session} {as : List Act} {b : Slice} (h : x.Ok) (hf : feed ⟨[], []⟩ x.reads = .ok (as, b))
    {sl : Slice} {l : Nat} {msg : Option Message} (hm : Act.frame sl l msg ∈ as) :
    ∃ f, f ∈ x.frames ∧ GoodFrame f ∧ msg = loneMsg f ∧ l = f.length ∧ sl.vis.take l = zeroed f := by
  obtain ⟨as', sp, h1, h2⟩ := C07_session x ⟨[], []⟩ rfl h
  have h1 : feed ⟨[], []⟩ x.reads = .ok (as', ⟨[], sp⟩) := h1
  rw [hf] at h1
  cases h1
  have : core (.frame sl l msg) ∈ as.map core := List.mem_map_of_mem hm
  rw [h2] at this
  simp only [List.mem_flatten, List.mem_map] at this
  obtain ⟨y, ⟨z, hz, rfl⟩, hm⟩ := this
  obtain ⟨o1, -, -⟩ := h z hz
  simp only [Burst.expected, List.mem_append, core] at hm
  rcases hm with hm | hm
  · obtain ⟨f, g1, g2, g3, g4, g5⟩ := frames_expected o1.1 hm
    refine ⟨f, ?_, g2, g3, g4, by simpa using congrArg Slice.vis g5⟩
    unfold Session.frames
    simp only [List.mem_flatten, List.mem_map]
    exact ⟨_, ⟨z, hz, rfl⟩, g1⟩
  · split at hm <;> simp at hm

theorem frames_wire : ∀ {xs : List Session} {as : List Act}, (∀ x ∈ xs, x.Ok) → expected (xs.map Session.reads) = .ok as →
    ∀ {sl : Slice} {l : Nat} {msg : Option Message}, Act.frame sl l msg ∈ as →
    ∃ f, f ∈ onWire xs ∧ GoodFrame f ∧ msg = loneMsg f ∧ l = f.length ∧ sl.vis.take l = zeroed f
  | [], as, _, he, sl, l, msg, hm => by cases he; cases hm
  | x :: xs, as, ho, he, sl, l, msg, hm => by
    simp only [List.map_cons, expected] at he
    cases h1 : expected (xs.map Session.reads) with
    | error p => rw [h1] at he; cases he
    | ok bs =>
      rw [h1] at he
      cases h2 : feed ⟨[], []⟩ x.reads with
      | error p => rw [h2] at he; cases he
      | ok q =>
        rw [h2] at he
        simp only [Except.bind, Except.map, Except.ok.injEq] at he
        subst he
        rcases List.mem_append.1 hm with hm | hm
        · obtain ⟨f, g1, g2⟩ := frames_wire (fun y hy => ho y (List.mem_cons_of_mem _ hy)) h1 hm
          refine ⟨f, ?_, g2⟩
          unfold onWire at *
          simp only [List.reverse_cons, List.map_append, List.flatten_append, List.mem_append]
          exact .inl g1
        · obtain ⟨f, g1, g2⟩ := frames_session (ho x List.mem_cons_self) h2 hm
          refine ⟨f, ?_, g2⟩
          unfold onWire
          simp only [List.reverse_cons, List.map_append, List.flatten_append, List.mem_append]
          refine .inr ?_
          simpa using g1

/-- What was handed over, when the port delivers the bytes of sessions: the message of one of their frames. -/
theorem got_wire {ls : List Label} {s : St} {xs : List Session} (h : run lv init ls = some s) (hc : s.crashed = none)
    (hx : sessions ls = xs.map Session.reads) (ho : ∀ x ∈ xs, x.Ok) (u : Nat) (y : Slice × Option Message) (hy : y ∈ s.got u) :
    ∃ f, f ∈ onWire xs ∧ GoodFrame f ∧ y.2 = loneMsg f ∧ y.1.vis.take f.length = zeroed f := by
  have hm := gotObs ⟨ls, h⟩ u y hy
  obtain ⟨as, ha, -⟩ := sessions_said ho
  rw [← hx] at ha
  obtain ⟨b, hb⟩ := abs_expected ha
  have hi := read_inv h hc
  have hm' : Obs.frame y.1 y.2 ∈ as.filterMap obsAct := by
    cases hr : rRest s.reader with
    | true =>
      obtain ⟨as', b', e1, e2, -⟩ := hi.rest hr
      rw [hb] at e1
      cases e1
      rw [e2]
      have : curObs s.reader = [] := by cases hrd : s.reader <;> simp [rRest, hrd] at hr <;> rfl
      rw [this, List.append_nil] at hm
      exact hm
    | false =>
      obtain ⟨as', e1, e2⟩ := hi.busy hr
      rw [hb] at e1
      cases hd : drain s.buf with
      | error p => rw [hd] at e1; cases e1
      | ok q =>
        rw [hd] at e1
        simp [Except.map] at e1
        rw [e1.1, List.filterMap_append, e2]
        simp only [List.mem_append] at hm ⊢
        rcases hm with hm | hm
        · exact .inl (.inl hm)
        · exact .inl (.inr (.inl hm))
  obtain ⟨a, h1, h2⟩ := List.mem_filterMap.1 hm'
  cases a with
  | frame sl l msg =>
    simp only [obsAct, Option.some.injEq, Obs.frame.injEq] at h2
    obtain ⟨rfl, rfl⟩ := h2
    obtain ⟨f, g1, g2, g3, g4, g5⟩ := frames_wire ho (hx ▸ ha) h1
    exact ⟨f, g1, g2, g3, by rw [← g4]; exact g5⟩
  | callback n r => simp [obsAct] at h2
  | ack => simp [obsAct] at h2
  | ctrl b m => simp [obsAct] at h2

/-! ### Frames and what they say -/

theorem lone_new {body f : List UInt8} {m : Message} (hf : IsFrame body f) (hm : loneMsg f = some m) :
    newMessage ⟨zeroed f, []⟩ = .ok (.ok m) := by
  obtain ⟨L, ck, rfl, hl, hck⟩ := hf
  have hd := decode_complete L ck body [] [] hl
  rw [if_pos hck] at hd
  unfold loneMsg at hm
  rw [hd] at hm
  have hz : zeroed (0x01 :: L :: (body ++ [ck])) = 0x01 :: L :: (body ++ [0x00]) := by
    unfold zeroed
    simp [List.set_append]
  rw [hz]
  cases hx : newMessage ⟨0x01 :: L :: (body ++ [0x00]), []⟩ with
  | error p => rw [hx] at hm; simp [Except.map] at hm
  | ok g =>
    rw [hx] at hm
    cases g with
    | error e => simp [Except.map, frameOut] at hm
    | ok m' => simp [Except.map, frameOut] at hm; rw [hm]

theorem nodes_msg {d : Slice} {m : Message} {bm : List Bool} (h : newMessage d = .ok (.ok m)) (hd : m.data = .nodes bm) :
    d.vis[3]? = some 0x02 ∧ ∃ n part, d.vis[6]? = some n ∧ d.sub 7 (7 + n).toNat = .ok part ∧
      newDiscoverdNodes part.vis = .ok (.ok bm) := by
  unfold newMessage at h
  simp only [bind, Except.bind, pure, Except.pure] at h
  repeat' split at h
  all_goals first
    | (cases h; done)
    | (cases h; cases hd; done)
    | skip
  all_goals
    cases h
    cases hd
    simp_all [Slice.get, fnDiscoveryNodes]
  all_goals grind

theorem info_msg {d : Slice} {m : Message} {p : ProtocolInfo} (h : newMessage d = .ok (.ok m)) (hd : m.data = .info p) :
    d.vis[3]? = some 0x41 := by
  unfold newMessage at h
  simp only [bind, Except.bind, pure, Except.pure] at h
  repeat' split at h
  all_goals first
    | (cases h; done)
    | (cases h; cases hd; done)
    | skip
  all_goals
    cases h
    cases hd
    simp_all [Slice.get, fnGetNodeProtocolInfo]
  all_goals grind

theorem zeroed_fn {x y : UInt8} {body f : List UInt8} (hf : IsFrame (x :: y :: body) f) : (zeroed f)[3]? = some y := by
  obtain ⟨L, ck, rfl, -⟩ := hf
  unfold zeroed
  simp [List.set_append]

theorem nodes_frame {f : List UInt8} {m : Message} {bm : List Bool} (hg : GoodFrame f) (hm : loneMsg f = some m)
    (hd : m.data = .nodes bm) {id : Int} (hi : Active bm id) : ∃ k : Nat, id = k ∧ NamesNode f k := by
  obtain ⟨body, hf, hs⟩ := hg
  have hn := lone_new hf hm
  obtain ⟨e3, n, part, e6, es, ed⟩ := nodes_msg hn hd
  rcases hs with ⟨ty, rx, nd, n, rest, rfl, -⟩ | ⟨ty, a, b, n', rest, rfl, h1, h2⟩ | ⟨ty, rest, rfl, -⟩ | ⟨ty, fn, rest, rfl, -, h2, -⟩
  · rw [zeroed_fn hf] at e3; cases e3
  · have hz : (zeroed f)[6]? = some n' := by
      obtain ⟨L, ck, rfl, -⟩ := hf
      unfold zeroed
      simp [List.set_append]
    rw [hz] at e6
    cases e6
    have e : rest = rest.take n.toNat ++ rest.drop n.toNat := (List.take_append_drop ..).symm
    rw [e] at hf
    have hl : (rest.take n.toNat).length = n.toNat := by rw [List.length_take]; omega
    have h6 : 6 ≤ n.toNat := by
      have hp : 6 ≤ part.vis.length := by
        rcases Nat.lt_or_ge part.vis.length 6 with h | h
        · rw [(C14_discovery_bitmap part.vis).1 h] at ed; cases ed
        · exact h
      have : (7 + n).toNat = 7 + n.toNat := by rw [seven_add, if_pos (by omega)]
      unfold Slice.sub at es
      split at es
      · cases es
        simp [this] at hp
        omega
      · cases es
    obtain ⟨o, s, a', m', g1, g2, -, g3, g4⟩ := C14_through_decode ty a b n _ _ f [] [] hf hl.symm (by omega) (by omega)
    rw [List.append_nil] at g1
    unfold loneMsg at hm
    rw [g1] at hm
    simp only [g3, Option.some.injEq] at hm
    subst hm
    rw [g4] at hd
    cases hd
    obtain ⟨a'', k1, k2, k3⟩ := (C14_discovery_bitmap (rest.take n.toNat)).2.2 (by omega) (by omega)
    rw [k1] at g2
    cases g2
    obtain ⟨i, i1, i2, rfl⟩ := hi
    refine ⟨i + 1, by push_cast; rfl, ty, a, b, n, rest.take n.toNat, rest.drop n.toNat, ?_⟩
    obtain ⟨x, x1, x2⟩ := (k3 i).1 i2
    exact ⟨x, hf, hl.symm, by simpa using x1, by simpa using x2⟩
  · rw [zeroed_fn hf] at e3; cases e3
  · rw [zeroed_fn hf] at e3; cases e3; exact absurd rfl h2

theorem info_frame {f : List UInt8} {m : Message} {p : ProtocolInfo} (hg : GoodFrame f) (hm : loneMsg f = some m)
    (hd : m.data = .info p) : SaysInfo f p := by
  obtain ⟨body, hf, hs⟩ := hg
  have e3 := info_msg (lone_new hf hm) hd
  rcases hs with ⟨ty, rx, nd, n, rest, rfl, -⟩ | ⟨ty, a, b, n', rest, rfl, h1, h2⟩ | ⟨ty, rest, rfl, h6⟩ | ⟨ty, fn, rest, rfl, -, -, h2⟩
  · rw [zeroed_fn hf] at e3; cases e3
  · rw [zeroed_fn hf] at e3; cases e3
  · obtain ⟨o, s, p', g1, g2, -, -, g3⟩ := C13_through_decode ty rest f [] [] hf h6
    rw [List.append_nil] at g1
    unfold loneMsg at hm
    rw [g1] at hm
    simp only [g3, Option.some.injEq] at hm
    subst hm
    cases hd
    obtain ⟨p', k1, k2⟩ := (C13_protocol_info rest).2 h6
    rw [k1] at g2
    cases g2
    match rest, h6, hf, k2 with
    | d0 :: d1 :: d2 :: d3 :: d4 :: d5 :: rest, _, hf, k2 => exact ⟨ty, d0, d1, d2, d3, d4, d5, rest, hf, k2⟩
  · rw [zeroed_fn hf] at e3; cases e3; exact absurd rfl h2

theorem ach_frame {f : List UInt8} {m : Message} {a : ACH} (hg : GoodFrame f) (hm : loneMsg f = some m)
    (hd : m.data = .ach a) : IsReport f m.nodeID a.report :=
  of_said hg (by unfold said; rw [hm]; simp [hd])

/-- The sender of a report is byte 5 of its frame. -/
theorem report_node {f : List UInt8} {b : UInt8} {r : Report} (h : IsReport f b r) : (zeroed f)[5]? = some b := by
  obtain ⟨cls, cmd, p, ⟨ty, rx, n, rest, ⟨L, ck, rfl, -⟩, -⟩, -⟩ := h
  unfold zeroed
  simp [List.set_append]

end Verif.Lemmas.Process
