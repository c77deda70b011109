import Verif.Lemmas.Conn
import Verif.Lemmas.Reader
import Verif.Spec.ConnReader

/-
The reader of the connection machine refines the byte level reader.
-/

set_option linter.unusedSimpArgs false
set_option maxHeartbeats 4000000

namespace Verif.Lemmas.Conn

open Verif.Go Verif.Model Verif.Model.Conn Verif.Spec

/-- The byte level reader along an execution. -/
def absStep (x : Res (List Act × Slice)) : Label → Res (List Act × Slice)
  | .connect true => x.map fun p => (p.1, ⟨[], []⟩)
  | .reader (.read r) => x.bind fun p => (drain (appendRead p.2 r)).map fun q => (p.1 ++ q.1, q.2)
  | _ => x

def absRun (ls : List Label) : Res (List Act × Slice) := ls.foldl absStep (.ok ([], ⟨[], []⟩))

/-- The frame that is being matched. -/
def curObs : ReaderAt → List Obs
  | .frameLock b m => [.frame b m]
  | .frameNext c | .frameMatch c _ | .frameOpen c _ | .frameSend c _ | .frameClosing c _ _ | .frameDelete c _
  | .frameDeleting c _ | .frameUnlock c => [.frame c.buf c.msg]
  | _ => []

theorem curObs_forget (r : ReaderAt) (u : Nat) : curObs (r.forget u) = curObs r := by cases r <;> rfl

/-- The reader waits for bytes, or for the port. -/
def rRest : ReaderAt → Bool
  | .read | .down => true
  | _ => false

theorem rRest_forget (r : ReaderAt) (u : Nat) : rRest (r.forget u) = rRest r := by cases r <;> rfl

/-- Nothing is left to do of an iteration. -/
def rIdle : ReaderAt → Bool
  | .read | .down | .loop => true
  | _ => false

theorem rIdle_forget (r : ReaderAt) (u : Nat) : rIdle (r.forget u) = rIdle r := by cases r <;> rfl

theorem forget_read (r : ReaderAt) (u : Nat) : r.forget u = .read ↔ r = .read := by cases r <;> simp [ReaderAt.forget]

structure ReadInv (x : Res (List Act × Slice)) (s : St) : Prop where
  idle : rIdle s.reader = true → s.acts = []
  rest : rRest s.reader = true → ∃ as b, x = .ok (as, b) ∧ as.filterMap obsAct = observed s ∧
    (s.reader = .read → s.buf = b)
  busy : rRest s.reader = false → ∃ as, x = (drain s.buf).map (fun q => (as ++ q.1, q.2)) ∧
    as.filterMap obsAct = observed s ++ (curObs s.reader ++ s.acts.filterMap obsAct)

theorem observed_cons (s : St) (h : List Ev) (e : Ev) (hh : s.hist = e :: h) :
    observed s = h.reverse.filterMap obsEv ++ (obsEv e).toList := by
  unfold observed
  rw [hh, List.reverse_cons, List.filterMap_append]
  cases he : obsEv e <;> simp [he]

/-- The reader's side of the state is the same. -/
structure SameR (s s' : St) : Prop where
  idle : rIdle s'.reader = rIdle s.reader
  rest : rRest s'.reader = rRest s.reader
  cur : curObs s'.reader = curObs s.reader
  read : s'.reader = .read ↔ s.reader = .read
  acts : s'.acts = s.acts
  buf : s'.buf = s.buf
  obs : observed s' = observed s

theorem same_inv {x : Res (List Act × Slice)} {s s' : St} (h : SameR s s') (hi : ReadInv x s) : ReadInv x s' := by
  obtain ⟨h1, h2, h3, h4, h5, h6, h7⟩ := h
  obtain ⟨i1, i2, i3⟩ := hi
  refine ⟨fun h => by rw [h5]; exact i1 (by rw [← h1]; exact h), fun h => ?_, fun h => ?_⟩
  · obtain ⟨as, b, e1, e2, e3⟩ := i2 (by rw [← h2]; exact h)
    exact ⟨as, b, e1, by rw [h7]; exact e2, fun hr => by rw [h6]; exact e3 (h4.1 hr)⟩
  · obtain ⟨as, e1, e2⟩ := i3 (by rw [← h2]; exact h)
    exact ⟨as, by rw [h6]; exact e1, by rw [h7, h3, h5]; exact e2⟩

/-- Steps of the other goroutines do not touch the reader's side. -/
theorem other_same {lv : LoopVars} {s s' : St} {l : Label} (h : step lv s l = some s')
    (h1 : ∀ op, l ≠ .reader op) (h2 : ∀ ok, l ≠ .connect ok) (hc : s'.crashed = none) : SameR s s' := by
  conn_step h
  all_goals first
    | (exfalso; exact h1 _ rfl)
    | (exfalso; exact h2 _ rfl)
    | (exfalso; simp at hc; done)
    | (constructor <;> simp [observed, obsEv, rIdle_forget, rRest_forget, curObs_forget, forget_read])

/-- Within a scan or the matching of a frame the reader's side does not change. -/
theorem inner_same {lv : LoopVars} {s s' : St} {op : ReaderOp} (h : step lv s (.reader op) = some s')
    (h1 : s.reader ≠ .read) (h2 : s.reader ≠ .loop) (h3 : s.reader ≠ .exec) (h4 : ∀ c, s.reader ≠ .frameUnlock c)
    (hc : s'.crashed = none) : SameR s s' := by
  conn_step h
  all_goals first
    | (exfalso; simp at hc; done)
    | (exfalso; simp_all; done)
    | (constructor <;> simp_all [observed, obsEv, rIdle, rRest, curObs, ReaderAt.forget])

theorem read_step {lv : LoopVars} {x : Res (List Act × Slice)} {s s' : St} {l : Label}
    (hi : ReadInv x s) (h : step lv s l = some s') (hc : s'.crashed = none) : ReadInv (absStep x l) s' := by
  cases l with
  | reader op =>
    by_cases h1 : s.reader = .read
    · obtain ⟨as, b, rfl, e2, e3⟩ := hi.rest (by rw [h1]; rfl)
      have e3 := e3 h1
      have hcr : s.crashed.isSome = false := by
        unfold step at h; split at h
        · cases h
        · simp_all
      cases op <;> simp [step, hcr, readerStep, h1] at h
      case read r =>
        subst h
        refine ⟨fun _ => hi.idle (by rw [h1]; rfl), fun hr => by simp [rRest] at hr, fun _ => ⟨as, ?_, ?_⟩⟩
        · simp [absStep, e3, Except.bind]
        · have := hi.idle (by rw [h1]; rfl)
          simp [curObs, this]
          exact e2
      case fail =>
        subst h
        exact ⟨fun _ => hi.idle (by rw [h1]; rfl), fun _ => ⟨as, b, rfl, e2, fun hr => by simp at hr⟩,
          fun hr => by simp [rRest] at hr⟩
    · have hx : absStep x (.reader op) = x := by
        cases op <;> try rfl
        case read r =>
          exfalso
          conn_step h
          all_goals simp_all
      rw [hx]
      have hcr : s.crashed.isSome = false := by
        unfold step at h; split at h
        · cases h
        · simp_all
      by_cases h2 : s.reader = .loop
      · obtain ⟨as, e1, e2⟩ := hi.busy (by rw [h2]; rfl)
        have ha := hi.idle (by rw [h2]; rfl)
        rw [h2, ha] at e2
        simp [curObs] at e2
        cases op <;> simp [step, hcr, readerStep, h2] at h
        case go =>
        split at h
        · rename_i h0
          cases h
          have hb : s.buf = ⟨[], s.buf.spare⟩ := by
            cases hs : s.buf with
            | mk v sp => rw [hs] at h0; simp [Slice.len] at h0; simp [h0]
          rw [hb, drain_empty] at e1
          refine ⟨fun _ => ha, fun _ => ⟨as, s.buf, ?_, e2, fun _ => rfl⟩, fun hr => by simp [rRest] at hr⟩
          rw [e1, hb]; simp [Except.map]
        · rename_i h0
          rw [drain_eq _ (len_ne_zero h0)] at e1
          cases hit : iter s.buf with
          | error p => rw [hit] at h; simp [St.crash] at h; subst h; cases hc
          | ok i =>
            rw [hit] at e1 h
            cases i with
            | wait b =>
              simp at h; subst h
              refine ⟨fun _ => ha, fun _ => ⟨as, b, ?_, e2, fun _ => rfl⟩, fun hr => by simp [rRest] at hr⟩
              rw [e1]; simp [Except.map]
            | drop b =>
              simp at h; subst h
              refine ⟨fun _ => ha, fun hr => by simp [rRest, h2] at hr, fun _ => ⟨as, e1, ?_⟩⟩
              simp [h2, curObs, ha]; exact e2
            | done bs rest =>
              simp at h; subst h
              refine ⟨fun hr => by simp [rIdle] at hr, fun hr => by simp [rRest] at hr, fun _ => ⟨as ++ bs, ?_, ?_⟩⟩
              · rw [e1]
                show Except.map _ (Except.map _ (drain rest)) = Except.map _ (drain rest)
                generalize drain rest = d
                cases d <;> simp [Except.map]
              · simp [curObs, e2]; rfl
      by_cases h3 : s.reader = .exec
      · obtain ⟨as, e1, e2⟩ := hi.busy (by rw [h3]; rfl)
        rw [h3] at e2
        simp [curObs] at e2
        cases op <;> simp [step, hcr, readerStep, h3] at h
        case go =>
        split at h
        · rename_i ha
          cases h
          refine ⟨fun _ => ha, fun hr => by simp [rRest] at hr, fun _ => ⟨as, e1, ?_⟩⟩
          rw [e2]; simp [curObs]; rfl
        all_goals
          rename_i ha
          cases h
          rw [ha] at e2
          refine ⟨fun hr => by simp [rIdle, h3] at hr, fun hr => by simp [rRest, h3] at hr, fun _ => ⟨as, e1, ?_⟩⟩
          rw [e2]
          simp [h3, curObs, obsAct, observed, obsEv, List.filterMap_append, List.filterMap_cons]
      by_cases h4 : ∃ c, s.reader = .frameUnlock c
      · obtain ⟨c, h4⟩ := h4
        obtain ⟨as, e1, e2⟩ := hi.busy (by rw [h4]; rfl)
        cases op <;> simp [step, hcr, readerStep, h4] at h
        subst h
        refine ⟨fun hr => by simp [rIdle] at hr, fun hr => by simp [rRest] at hr, fun _ => ⟨as, e1, ?_⟩⟩
        rw [e2, h4]
        simp [curObs, observed, obsEv, List.filterMap_append]
      · exact same_inv (inner_same h h1 h2 h3 (fun c hc => h4 ⟨c, hc⟩) hc) hi
  | connect ok =>
    have hcr : s.crashed.isSome = false := by
      unfold step at h; split at h
      · cases h
      · simp_all
    simp [step, hcr, connectStep] at h
    obtain ⟨h1, h⟩ := h
    obtain ⟨as, b, rfl, e2, -⟩ := hi.rest (by rw [h1]; rfl)
    have ha := hi.idle (by rw [h1]; rfl)
    cases ok with
    | true =>
      simp at h; subst h
      exact ⟨fun _ => ha, fun _ => ⟨as, ⟨[], []⟩, rfl, e2, fun _ => rfl⟩, fun hr => by simp [rRest] at hr⟩
    | false =>
      simp at h; subst h
      exact ⟨fun _ => ha, fun _ => ⟨as, b, rfl, e2, fun hr => by rw [h1] at hr; cases hr⟩,
        fun hr => by simp [rRest, h1] at hr⟩
  | _ => exact same_inv (other_same h (by simp) (by simp) hc) hi

theorem snoc_induct {α : Type} {P : List α → Prop} (h0 : P []) (hs : ∀ l a, P l → P (l ++ [a])) (l : List α) : P l := by
  rw [← l.reverse_reverse]
  induction l.reverse with
  | nil => exact h0
  | cons a t ih => rw [List.reverse_cons]; exact hs _ _ ih

theorem absRun_snoc (ls : List Label) (l : Label) : absRun (ls ++ [l]) = absStep (absRun ls) l := by
  simp [absRun, List.foldl_append]

theorem read_inv {lv : LoopVars} {ls : List Label} {s : St} (h : run lv init ls = some s) (hc : s.crashed = none) :
    ReadInv (absRun ls) s := by
  revert s
  refine snoc_induct (P := fun ls => ∀ {s : St}, run lv init ls = some s → s.crashed = none → ReadInv (absRun ls) s)
    ?_ ?_ ls
  · intro s h hc
    simp [run] at h; subst h
    exact ⟨fun _ => rfl, fun _ => ⟨[], ⟨[], []⟩, rfl, rfl, fun h => by cases h⟩, fun h => by simp [init, rRest] at h⟩
  · intro ls l ih s h hc
    rw [run_append] at h
    cases h1 : run lv init ls with
    | none => rw [h1] at h; cases h
    | some s1 =>
      rw [h1] at h
      simp [run] at h
      have hc1 : s1.crashed = none := by
        unfold step at h
        split at h
        · cases h
        · simp_all
      rw [absRun_snoc]
      exact read_step (ih h1 hc1) h hc

theorem feed_snoc (b : Slice) (rs : List Read) (r : Read) :
    feed b (rs ++ [r]) = (feed b rs).bind fun p => (drain (appendRead p.2 r)).map fun q => (p.1 ++ q.1, q.2) := by
  induction rs generalizing b with
  | nil => simp [feed, Except.bind, bind]; cases drain (appendRead b r) <;> simp [Except.map, Except.bind, pure, Except.pure]
  | cons r' rs ih =>
    simp only [List.cons_append, feed, bind]
    cases drain (appendRead b r') with
    | error p => rfl
    | ok q =>
      simp only [Except.bind, ih]
      cases feed q.2 rs with
      | error p => rfl
      | ok z => 
        simp only [Except.bind, pure, Except.pure]
        cases drain (appendRead z.2 r) <;> simp [Except.map]

theorem sessions_abs (ls : List Label) : ∃ s ss, sessions ls = s :: ss ∧
    absRun ls = (expected ss).bind fun as => (feed ⟨[], []⟩ s).map fun x => (as ++ x.1, x.2) := by
  refine snoc_induct (P := fun ls => ∃ s ss, sessions ls = s :: ss ∧
    absRun ls = (expected ss).bind fun as => (feed ⟨[], []⟩ s).map fun x => (as ++ x.1, x.2)) ?_ ?_ ls
  · exact ⟨[], [], rfl, rfl⟩
  · intro ls l ih
    obtain ⟨s, ss, h1, h2⟩ := ih
    have h3 : sessions (ls ++ [l]) = sessionStep (sessions ls) l := by simp [sessions, List.foldl_append]
    rw [h3, absRun_snoc, h1, h2]
    have keep : absStep ((expected ss).bind fun as => (feed ⟨[], []⟩ s).map fun x => (as ++ x.1, x.2)) l =
          ((expected ss).bind fun as => (feed ⟨[], []⟩ s).map fun x => (as ++ x.1, x.2)) → sessionStep (s :: ss) l = s :: ss →
        ∃ s' ss', sessionStep (s :: ss) l = s' :: ss' ∧
          absStep ((expected ss).bind fun as => (feed ⟨[], []⟩ s).map fun x => (as ++ x.1, x.2)) l =
            (expected ss').bind fun as => (feed ⟨[], []⟩ s').map fun x => (as ++ x.1, x.2) :=
      fun a b => ⟨s, ss, b, a⟩
    cases l with
    | connect ok =>
      cases ok with
      | false => exact keep rfl rfl
      | true =>
        refine ⟨[], s :: ss, rfl, ?_⟩
        simp only [absStep, expected, feed]
        cases expected ss with
        | error p => rfl
        | ok as =>
          simp only [Except.bind]
          cases feed ⟨[], []⟩ s <;> simp [Except.map, Except.bind]
    | reader op =>
      cases op with
      | read r =>
        refine ⟨s ++ [r], ss, rfl, ?_⟩
        simp only [absStep, feed_snoc]
        cases expected ss with
        | error p => rfl
        | ok as =>
          simp only [Except.bind]
          cases feed ⟨[], []⟩ s with
          | error p => rfl
          | ok x =>
            simp only [Except.map, Except.bind]
            cases drain (appendRead x.2 r) <;> simp [Except.map]
      | _ => exact keep rfl rfl
    | _ => exact keep rfl rfl

end Verif.Lemmas.Conn
