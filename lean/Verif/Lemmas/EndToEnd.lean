import Verif.Spec.EndToEnd
import Verif.Props.ConnReader
import Verif.Props.Reports
import Verif.Props.CtlEvents

/-
From the bytes of the port to the states of nodes.
-/

set_option linter.unusedSimpArgs false
set_option linter.unusedVariables false
set_option maxHeartbeats 4000000

namespace Verif.Lemmas.EndToEnd

open Verif.Go Verif.Model Verif.Model.Conn Verif.Spec Verif.Lemmas Verif.Lemmas.Ctl Verif.Lemmas.NodeM Verif.Props

/-! ### Frames and their reports -/

/-- The report a frame makes the reader hand on. -/
def said (f : List UInt8) : List (UInt8 × Report) :=
  match loneMsg f with
  | some m => (match m.data with
    | .ach a => [(m.nodeID, a.report)]
    | _ => [])
  | none => []

theorem said_of {f : List UInt8} {node cls cmd : UInt8} {p : List UInt8} {r : Report}
    (h : CarriesCmd f node cls cmd p) (hr : newReport cls cmd p = .ok r) : said f = [(node, r)] := by
  obtain ⟨ty, rx, n, rest, hf, hn, hb⟩ := h
  obtain ⟨o, s, h1, -, h2, -⟩ := C86_command_decoded ty rx node n cls cmd p rest f [] [] hf hn hb
  obtain ⟨-, m, a, e1, e2, e3, -, -, -, -, e4⟩ := h2 r hr
  rw [List.append_nil] at h1
  unfold said loneMsg
  rw [h1]
  simp only [e1, e2, e3, e4]

theorem of_said {f : List UInt8} (hf : GoodFrame f) {node : UInt8} {r : Report} (h : (node, r) ∈ said f) :
    ∃ cls cmd p, CarriesCmd f node cls cmd p ∧ newReport cls cmd p = .ok r := by
  obtain ⟨body, hf, hs⟩ := hf
  rcases hs with ⟨ty, rx, nd, n, rest, rfl, h2, h3, h4⟩ | hs
  · match rest, h4 with
    | [], h4 => simp at h4; omega
    | [a], h4 => simp at h4; omega
    | a :: b :: rest, h4 =>
      have e : rest = rest.take (n.toNat - 2) ++ rest.drop (n.toNat - 2) := (List.take_append_drop ..).symm
      have hl : n.toNat = (rest.take (n.toNat - 2)).length + 2 := by
        rw [List.length_take]; simp at h4; omega
      rw [e] at hf
      have hc : CarriesCmd f nd a b (rest.take (n.toNat - 2)) := ⟨ty, rx, n, _, hf, hl, h3⟩
      cases hr : newReport a b (rest.take (n.toNat - 2)) with
      | ok r' =>
        rw [said_of hc hr] at h
        simp at h
        obtain ⟨rfl, rfl⟩ := h
        exact ⟨a, b, _, hc, hr⟩
      | error e' =>
        obtain ⟨o, s, h1, -, -, h5⟩ := C86_command_decoded ty rx nd n a b _ _ f [] [] hf hl h3
        rw [List.append_nil] at h1
        unfold said loneMsg at h
        rw [h1] at h
        simp [(h5 e' hr).2] at h
  · exfalso
    obtain ⟨L, ck, rfl, hl, hck⟩ := hf
    have hfn : ∃ fn, body[1]? = some fn ∧ fn ≠ 0x04 := by
      rcases hs with ⟨ty, a, b, n, rest, rfl, -⟩ | ⟨ty, rest, rfl, -⟩ | ⟨ty, fn, rest, rfl, h, -⟩
      · exact ⟨_, rfl, by decide⟩
      · exact ⟨_, rfl, by decide⟩
      · exact ⟨_, rfl, h⟩
    obtain ⟨fn, e1, e2⟩ := hfn
    have key : ∀ (d : Slice) m, d.vis[3]? = some fn → newMessage d = .ok (.ok m) → ∀ a, m.data ≠ .ach a := by
      intro d m hd hm a ha
      unfold newMessage at hm
      simp only [bind, Except.bind, pure, Except.pure] at hm
      repeat' split at hm
      all_goals first
        | (cases hm; done)
        | (cases hm; cases ha; done)
        | (simp_all [Slice.get, fnApplicationCommandHandler]; done)
    match body, e1 with
    | x :: y :: body, e1 =>
      cases e1
      have hd := decode_complete L ck (x :: fn :: body) [] [] hl
      rw [if_pos hck] at hd
      unfold said loneMsg at h
      rw [hd] at h
      cases hm : newMessage ⟨0x01 :: L :: ((x :: fn :: body) ++ [0x00]), []⟩ with
      | error p => rw [hm] at h; simp [Except.map] at h
      | ok g =>
        rw [hm] at h
        cases g with
        | error e => simp [Except.map, frameOut] at h
        | ok m =>
          simp only [Except.map, frameOut] at h
          have := key _ m (by simp) hm
          split at h
          · exact this _ ‹_›
          · cases h

/-! ### Sessions and their reports -/

/-- The report an action hands to the callback. -/
def actCb : Act → Option (UInt8 × Report)
  | .callback n r => some (n, r)
  | _ => none

theorem actCb_core (as : List Act) : (as.map core).filterMap actCb = as.filterMap actCb := by
  induction as with
  | nil => rfl
  | cons a as ih => cases a <;> simp [core, actCb, List.filterMap_cons, ih]

theorem expected_frame (f : List UInt8) : (Tok.frame f).expected.filterMap actCb = said f := by
  unfold said
  simp only [Tok.expected]
  generalize loneMsg f = o
  cases o with
  | none => rfl
  | some m => cases hd : m.data <;> simp [hd, actCb, List.filterMap_cons]

theorem expectedAll_said (ts : List Tok) : (expectedAll ts).filterMap actCb = ((framesOf ts).map said).flatten := by
  induction ts with
  | nil => rfl
  | cons t ts ih =>
    unfold expectedAll at *
    cases t with
    | frame f => simp [framesOf, List.filterMap_cons, List.filterMap_append, expected_frame, ih]
    | noise b => simp [framesOf, Tok.expected, List.filterMap_cons, ih]

theorem burst_said (b : Burst) : b.expected.filterMap actCb = ((framesOf b.toks).map said).flatten := by
  unfold Burst.expected
  rw [List.filterMap_append, expectedAll_said]
  cases b.last <;> simp [actCb]

theorem session_said {x : Session} (h : x.Ok) : ∃ as b, feed ⟨[], []⟩ x.reads = .ok (as, b) ∧
    as.filterMap actCb = (x.frames.map said).flatten := by
  obtain ⟨as, sp, h1, h2⟩ := C07_session x ⟨[], []⟩ rfl h
  refine ⟨as, _, h1, ?_⟩
  rw [← actCb_core, h2]
  clear h h1 h2
  unfold Session.frames
  induction x with
  | nil => rfl
  | cons b x ih => simp [List.filterMap_append, burst_said, ih]

theorem sessions_said : ∀ {xs : List Session}, (∀ x ∈ xs, x.Ok) → ∃ as, expected (xs.map Session.reads) = .ok as ∧
    as.filterMap actCb = (((xs.reverse.map Session.frames).flatten).map said).flatten
  | [], _ => ⟨[], rfl, rfl⟩
  | x :: xs, h => by
    obtain ⟨as, h1, h2⟩ := sessions_said (xs := xs) (fun y hy => h y (List.mem_cons_of_mem _ hy))
    obtain ⟨bs, b, h3, h4⟩ := session_said (h x List.mem_cons_self)
    refine ⟨as ++ bs, ?_, ?_⟩
    · simp only [List.map_cons, expected, h1, h3]; rfl
    · rw [List.filterMap_append, h2, h4]
      simp

theorem callbacks_said {lv : LoopVars} {ls : List Label} {s : St} {xs : List Session} (h : run lv init ls = some s)
    (hc : s.crashed = none) (hr : s.reader = .read ∨ s.reader = .down) (hx : sessions ls = xs.map Session.reads)
    (ho : ∀ x ∈ xs, x.Ok) : callbacks s = (((xs.reverse.map Session.frames).flatten).map said).flatten := by
  obtain ⟨as, h1, h2⟩ := C85_reader_refines_bytes h hc hr
  obtain ⟨bs, h3, h4⟩ := sessions_said ho
  rw [hx, h3] at h1
  cases h1
  rw [← h4]
  have e1 : ∀ l : List Ev, (l.filterMap fun e => match e with | .callback n r => some (n, r) | _ => none) =
      (l.filterMap obsEv).filterMap fun o => match o with | .report n r => some (n, r) | _ => none := by
    intro l
    induction l with
    | nil => rfl
    | cons e l ih => cases e <;> simp [List.filterMap_cons, obsEv, ih]
  have e2 : ∀ l : List Act, l.filterMap actCb =
      (l.filterMap obsAct).filterMap fun o => match o with | .report n r => some (n, r) | _ => none := by
    intro l
    induction l with
    | nil => rfl
    | cons e l ih => cases e <;> simp [List.filterMap_cons, obsAct, actCb, ih]
  exact (e1 s.hist.reverse).trans ((congrArg _ h2).trans (e2 as).symm)

/-! ### Reports applied to nodes -/

/-- Every applied report arrived, from the id of the node it was applied to. -/
structure ApInv (s : CSt) : Prop where
  arr : ∀ k id r, .arrived k id r ∈ s.hist → k < s.nDeliv ∧ arrivalOf k s.hist = some (id, r)
  ap : ∀ k ref r, .applied k ref r ∈ s.hist → ref < s.nHeap ∧ ∃ id : UInt8, arrivalOf k s.hist = some (id, r) ∧
    (s.heap ref).node.id = id.toNat

theorem mem_push (s : CSt) (e : Event) (x : CEv) : x ∈ (s.push e).hist ↔ x = .pushed e (decide (s.queue.length < queCap)) ∨ x ∈ s.hist := by
  simp [CSt.push]

theorem arrived_put (s : CSt) (ref : Nat) (n : NSt) (k : Nat) (id : UInt8) (r : Report) :
    CEv.arrived k id r ∈ (s.put ref n).hist ↔ CEv.arrived k id r ∈ s.hist := by
  rw [put_hist]; split <;> simp

theorem applied_put_mem (s : CSt) (ref : Nat) (n : NSt) (k r' : Nat) (r : Report) :
    CEv.applied k r' r ∈ (s.put ref n).hist ↔ CEv.applied k r' r ∈ s.hist := by
  rw [put_hist]; split <;> simp

theorem arrival_applied (k k' ref : Nat) (r : Report) (h : List CEv) :
    arrivalOf k (.applied k' ref r :: h) = arrivalOf k h := rfl

theorem ap_step {db : DB} {s s' : CSt} {l : CLabel} (hc : CInv s) (ha : ArrInv s) (hi : ApInv s)
    (h : cStep db s l = some s') : ApInv s' := by
  obtain ⟨k1, k2⟩ := hi
  obtain ⟨a1, a2, a3⟩ := ha
  have c7 := hc.dref
  have c6 := hc.ref
  clear hc
  ctl_step h
  all_goals try have f := (frame_step (by assumption)).id
  all_goals try have jb := a3 _ _ _ (by rw [‹s.deliv _ = .process _ _›]; rfl)
  all_goals constructor
  all_goals try simp only [arrival_applied, put_heap, put_nHeap, put_list, put_disc, put_nDeliv, put_deliv, put_crashed, push_heap, push_nHeap, push_list, push_disc, push_nDeliv, push_deliv, push_crashed, arrival_put, arrival_push, mem_push, arrived_put, applied_put_mem, List.mem_cons]
  all_goals first
    | assumption
    | grind [updN, arrivalOf, DelivAt.carries, DelivAt.job, DelivAt.ref, start_new]

theorem apInv {db : DB} {f : Bool} {ns : List Node} {s : CSt} (hg : GoodFile ns) (hr : CReach db f ns s) : ApInv s := by
  obtain ⟨ls, h⟩ := hr
  have hi : ApInv (start f ns) := by
    have hh : ∀ (ms : List Node) (t : CSt), (∀ e ∈ t.hist, ∃ ev b, e = .pushed ev b) →
        ∀ e ∈ (t.loadNodes ms).hist, ∃ ev b, e = .pushed ev b := by
      intro ms
      induction ms with
      | nil => intro t ht; exact ht
      | cons m ms ih =>
        intro t ht
        refine ih _ ?_
        intro e he
        unfold CSt.loadNode at he
        rw [mem_push] at he
        rcases he with rfl | he
        · exact ⟨_, _, rfl⟩
        · exact ht e he
    have h0 := hh ns (newController f) (by intro e he; cases he)
    constructor <;> intro _ _ _ hm <;> obtain ⟨_, _, h⟩ := h0 _ hm <;> cases h
  have hall : ∀ (ls : List CLabel) (t : CSt), CReach db f ns t → ApInv t → ∀ s, cRun db t ls = some s → ApInv s := by
    intro ls
    induction ls with
    | nil => intro t _ hi s h; cases h; exact hi
    | cons l ls ih =>
      intro t ht hi s h
      simp only [cRun, Option.bind_eq_some_iff] at h
      obtain ⟨t1, h1, h2⟩ := h
      have ht1 : CReach db f ns t1 := by
        obtain ⟨ls0, h0⟩ := ht
        exact ⟨ls0 ++ [l], by rw [cRun_append, h0]; simp [cRun, h1]⟩
      exact ih t1 ht1 (ap_step (cinv hg ht) (arrInv hg ht) hi h1) s h2
  exact hall ls _ ⟨[], rfl⟩ hi s h

theorem appliedTo_mem {ref : Nat} {r : Report} : ∀ {h : List CEv}, r ∈ appliedTo ref h ↔ ∃ k, CEv.applied k ref r ∈ h
  | [] => by simp [appliedTo]
  | e :: h => by
    have ih := appliedTo_mem (ref := ref) (r := r) (h := h)
    cases e <;> simp only [appliedTo, List.mem_cons, reduceCtorEq, false_or, ih, CEv.applied.injEq]
    rename_i k' ref' r'
    split
    · rename_i he
      subst he
      rw [List.mem_append, ih, List.mem_singleton]
      constructor
      · rintro (⟨k, hk⟩ | rfl)
        · exact ⟨k, .inr hk⟩
        · exact ⟨k', .inl ⟨rfl, rfl, rfl⟩⟩
      · rintro ⟨k, ⟨-, -, rfl⟩ | hk⟩
        · exact .inr rfl
        · exact .inl ⟨k, hk⟩
    · rename_i he
      rw [ih]
      constructor
      · rintro ⟨k, hk⟩; exact ⟨k, .inr hk⟩
      · rintro ⟨k, ⟨-, e, -⟩ | hk⟩
        · exact absurd e.symm he
        · exact ⟨k, hk⟩

theorem arrivals_cons (e : CEv) (h : List CEv) : arrivals (e :: h) = arrivals h ++ (match e with
    | .arrived _ id r => [(id, r)]
    | _ => []) := by
  unfold arrivals
  rw [List.reverse_cons, List.filterMap_append]
  cases e <;> simp

theorem mem_arrivals {b : UInt8} {r : Report} : ∀ {h : List CEv}, (b, r) ∈ arrivals h ↔ ∃ k, CEv.arrived k b r ∈ h
  | [] => by simp [arrivals]
  | e :: h => by
    rw [arrivals_cons, List.mem_append, mem_arrivals (h := h)]
    cases e <;> simp
    rename_i k' b' r'
    constructor
    · rintro (⟨k, hk⟩ | ⟨rfl, rfl⟩)
      · exact ⟨k, .inr hk⟩
      · exact ⟨k', .inl ⟨rfl, rfl, rfl⟩⟩
    · rintro ⟨k, ⟨-, rfl, rfl⟩ | hk⟩
      · exact .inr ⟨rfl, rfl⟩
      · exact .inl ⟨k, hk⟩

theorem arrivedFrom_arrivals (b : UInt8) : ∀ (h : List CEv),
    arrivedFrom b h = (arrivals h).filterMap fun c => if c.1 = b then some c.2 else none
  | [] => rfl
  | e :: h => by
    rw [arrivals_cons, List.filterMap_append, ← arrivedFrom_arrivals b h]
    cases e <;> simp [arrivedFrom]
    split <;> simp_all [List.filterMap_cons]

theorem arrivalOf_mem {k : Nat} {c : UInt8 × Report} : ∀ {h : List CEv}, arrivalOf k h = some c → CEv.arrived k c.1 c.2 ∈ h
  | [], h => by cases h
  | e :: t, h => by
    cases e <;> simp only [arrivalOf] at h <;> first
      | exact List.mem_cons_of_mem _ (arrivalOf_mem h)
      | skip
    split at h
    · cases h; subst_vars; exact List.mem_cons_self
    · exact List.mem_cons_of_mem _ (arrivalOf_mem h)

theorem applied_of_times {k : Nat} : ∀ {h : List CEv}, timesApplied k h ≠ 0 → ∃ ref r, CEv.applied k ref r ∈ h
  | [], h => absurd rfl h
  | e :: t, h => by
    cases e <;> simp only [timesApplied] at h
    case applied k' ref r =>
      by_cases he : k' = k
      · subst he; exact ⟨ref, r, List.mem_cons_self⟩
      · rw [if_neg he] at h
        obtain ⟨a, b, hab⟩ := applied_of_times (h := t) h
        exact ⟨a, b, List.mem_cons_of_mem _ hab⟩
    all_goals
      obtain ⟨a, b, hab⟩ := applied_of_times (h := t) h
      exact ⟨a, b, List.mem_cons_of_mem _ hab⟩

/-- A known id belongs to one node object. -/
theorem ref_unique {s : CSt} (hc : CInv s) {id : Int} {ref ref' : Nat} (hl : s.list.get id = some ref)
    (h1 : ref' < s.nHeap) (h2 : (s.heap ref').node.id = id) : ref' = ref := by
  rcases hc.known ref' h1 with h | h
  · have := hc.adding ref' h
    rw [h2, hl] at this; cases this
  · rw [h2, hl] at h; cases h; rfl

theorem lastSaid_agree {α : Type} (says : Report → Option α) (b : Option α) {x : α} {rs : List Report} {r : Report}
    (h : r ∈ rs) (hr : says r = some x) (ha : ∀ r' ∈ rs, says r' = some x ∨ says r' = none) :
    lastSaid says b rs = some x := by
  unfold lastSaid
  cases hf : rs.reverse.findSome? says with
  | none =>
    rw [List.findSome?_eq_none_iff] at hf
    rw [hf r (by simpa using h)] at hr; cases hr
  | some y =>
    obtain ⟨r', h1, h2⟩ := List.exists_of_findSome?_eq_some hf
    rcases ha r' (by simpa using h1) with h3 | h3
    · rw [h2] at h3; exact h3
    · rw [h2] at h3; cases h3

theorem lastSaid_last {α : Type} (says : Report → Option α) (b : Option α) {x : α} {as bs : List Report} {r : Report}
    (hr : says r = some x) (ha : ∀ r' ∈ bs, says r' = none) : lastSaid says b (as ++ r :: bs) = some x := by
  unfold lastSaid
  have h1 : bs.reverse.findSome? says = none := by
    rw [List.findSome?_eq_none_iff]; intro y hy; exact ha y (by simpa using hy)
  simp [List.findSome?_append, h1, hr]

theorem session_good {x : Session} (h : x.Ok) {fr : List UInt8} (hf : fr ∈ x.frames) : GoodFrame fr := by
  unfold Session.frames at hf
  rw [List.mem_flatten] at hf
  obtain ⟨l, hl, hf⟩ := hf
  obtain ⟨b, hb, rfl⟩ := List.mem_map.1 hl
  unfold framesOf at hf
  obtain ⟨t, ht, he⟩ := List.mem_filterMap.1 hf
  have := (h b hb).1.1 t ht
  cases t with
  | frame g => cases he; exact this
  | noise c => cases he

theorem onWire_good {xs : List Session} (h : ∀ x ∈ xs, x.Ok) {fr : List UInt8} (hf : fr ∈ onWire xs) : GoodFrame fr := by
  unfold onWire at hf
  rw [List.mem_flatten] at hf
  obtain ⟨l, hl, hf⟩ := hf
  obtain ⟨x, hx, rfl⟩ := List.mem_map.1 hl
  exact session_good (h x (by simpa using hx)) hf

theorem mem_said {fr : List UInt8} (hf : GoodFrame fr) (b : UInt8) (r : Report) : (b, r) ∈ said fr ↔ IsReport fr b r := by
  constructor
  · exact of_said hf
  · rintro ⟨cls, cmd, p, h1, h2⟩
    rw [said_of h1 h2]; exact List.mem_singleton.2 rfl

theorem said_none {fr : List UInt8} (hf : GoodFrame fr) (h : ∀ b r, ¬ IsReport fr b r) : said fr = [] := by
  cases hs : said fr with
  | nil => rfl
  | cons c cs => exact absurd ((mem_said hf c.1 c.2).1 (by rw [hs]; exact List.mem_cons_self)) (h _ _)

theorem said_isReport {fr : List UInt8} {b : UInt8} {r : Report} (h : IsReport fr b r) : said fr = [(b, r)] := by
  obtain ⟨cls, cmd, p, h1, h2⟩ := h
  exact said_of h1 h2

end Verif.Lemmas.EndToEnd
