import Verif.Lemmas.Users

/-
C111: the event loop of the example. C112: its reading requests.
-/

set_option linter.unusedSimpArgs false
set_option linter.unusedVariables false

namespace Verif.Props

open Verif.Go Verif.Model Verif.Spec Verif.Lemmas Verif.Lemmas.NodeM Verif.Lemmas.Ctl Verif.Lemmas.Users

variable {db : DB} {f : Bool} {ns : List Node}

/-- C111: an event that waits for the user names a node of the list. -/
theorem C111_event_names_node (db : DB) (f : Bool) (ns : List Node) (hg : GoodFile ns) (s : CSt) (hr : CReach db f ns s)
    (e : Event) (he : e ∈ s.queue) : ∃ ref, s.list.get e.addr = some ref ∧ (s.heap ref).node.id = e.addr := by
  cases hx : s.list.get e.addr with
  | none => exact absurd hx (evInv hg hr e he)
  | some ref => exact ⟨ref, rfl, ((cinv hg hr).list _ _ hx).2⟩

theorem taken_step {s s' : CSt} {l : CLabel} (h : cStep db s l = some s') (hl : l ≠ .take) : taken s'.hist = taken s.hist := by
  have key : ∀ es, s'.hist = es ++ s.hist → (∀ e, .taken e ∉ es) → taken s'.hist = taken s.hist := by
    intro es h1 h2
    rw [h1]
    clear h1
    induction es with
    | nil => rfl
    | cons x es ih =>
      cases x with
      | taken e => exact absurd List.mem_cons_self (h2 e)
      | _ => simpa only [List.cons_append, taken] using ih (fun e he => h2 e (List.mem_cons_of_mem _ he))
  ctl_step h
  all_goals first
    | rfl
    | exact absurd rfl hl
    | exact key [] rfl (by simp)
    | exact key [_] rfl (by simp)
    | (refine key _ (put_hist ..) (fun e he => ?_)
       split at he <;> simp at he)
    | skip
  · rename_i k _ ref r heq n hn
    refine key _ ((put_hist { s with hist := .applied k ref r :: s.hist } ref n).trans
      (List.append_cons _ _ _)) (fun e he => ?_)
    split at he <;> simp at he

/-- What holds of the main goroutine. -/
structure LoopInv (c : CSt) (s : USt) : Prop where
  taken : taken s.ctl.hist = taken c.hist ++ s.handled ++ inHand s
  known : ∀ e ∈ inHand s, s.ctl.list.get e.addr ≠ none
  print : ∀ e ref, s.loop = .print e ref → s.ctl.list.get e.addr = some ref
  crash : s.crashed = none ∨ s.crashed = some .mapRace

theorem loopInv (hg : GoodFile ns) {c : CSt} {s : USt} (hc : CReach db f ns c) (h : UReach db c s) : LoopInv c s := by
  induction h with
  | init => exact ⟨by simp [USt.init, inHand], by simp [USt.init, inHand], by simp [USt.init], .inl rfl⟩
  | @step s s' l hr hs ih =>
    have hcs := ureach_ctl hc hr
    have keep : ∀ {i r}, s.ctl.list.get i = some r → s'.ctl.list.get i = some r := by
      intro i r hi
      have := uctl_part hs
      split at this
      · exact list_same (cinv hg hcs) this hi
      · rw [this]; exact hi
    have keep' : ∀ {i}, s.ctl.list.get i ≠ none → s'.ctl.list.get i ≠ none := by
      intro i hi
      cases hx : s.ctl.list.get i with
      | none => exact absurd hx hi
      | some r => rw [keep hx]; simp
    by_cases hl : l = .loop
    · subst hl
      have hp := uctl_part hs
      have ho := loop_own hs
      unfold loopStep at ho
      obtain ⟨i1, i2, i3, i4⟩ := ih
      cases hlp : s.loop <;> rw [hlp] at ho <;> simp only at ho
      · split at ho
        · cases ho
        · next e q hq =>
          rw [Option.map_eq_some_iff] at ho
          obtain ⟨t, ht, rfl⟩ := ho
          simp only [inHand, hlp, List.append_nil] at i1
          refine ⟨?_, ?_, by simp, i4⟩
          · have : t.hist = .taken e :: s.ctl.hist := by
              unfold cStep at ht
              split at ht
              · cases ht
              · simp only [hq] at ht; cases ht; rfl
            simp [inHand, this, Verif.Spec.taken, i1]
          · simp only [inHand, List.mem_singleton, forall_eq]
            exact keep' (evInv hg hcs e (by rw [hq]; exact List.mem_cons_self))
      · cases ho
        simp only [inHand, hlp] at i1 i2
        split
        · exact ⟨by simpa [inHand] using i1, by simpa [inHand] using i2, by simp, i4⟩
        · exact ⟨by simpa [inHand] using i1, by simpa [inHand] using i2, by simp, i4⟩
      · simp only [inHand, hlp] at i1 i2
        split at ho
        · cases ho
          exact ⟨by simpa [inHand, hlp] using i1, by simpa [inHand, hlp] using i2, by simp [hlp], .inr rfl⟩
        · split at ho
          · next h0 => exact absurd h0 (i2 _ List.mem_cons_self)
          · next ref h0 =>
            cases ho
            exact ⟨by simpa [inHand] using i1, by simpa [inHand] using i2,
              fun e' r' hh => by injection hh with h1 h2; subst h1; subst h2; exact h0, i4⟩
      · simp only [inHand, hlp] at i1 i2
        split at ho
        · cases ho
          exact ⟨by simpa [inHand] using i1, by simp [inHand], by simp, i4⟩
        · cases ho
      · cases ho
    · obtain ⟨h1, h2⟩ := loop_other hl hs
      have hh : inHand s' = inHand s := by unfold inHand; rw [h1]
      refine ⟨?_, ?_, ?_, ?_⟩
      · rw [hh, h2, ← ih.taken]
        have := uctl_part hs
        cases hx : uCtlLab s (some l) with
        | none => rw [hx] at this; rw [this]
        | some l' =>
          rw [hx] at this
          refine taken_step this fun h' => ?_
          subst h'
          cases l with
          | ctl l =>
            simp only [uCtlLab, Option.some.injEq] at hx
            subst hx
            unfold uStep at hs
            split at hs
            · cases hs
            · simp at hs
          | loop => exact hl rfl
          | _ => cases hx
      · rw [hh]; exact fun e he => keep' (ih.known e he)
      · rw [h1]; exact fun e r he => keep (ih.print e r he)
      · unfold uStep at hs
        split at hs
        · cases hs
        cases l with
        | ctl l =>
          simp only at hs
          split at hs
          · cases hs
          · rw [Option.map_eq_some_iff] at hs
            obtain ⟨t, -, rfl⟩ := hs
            exact ih.crash
        | loop => exact absurd rfl hl
        | «open» a => cases hs; exact ih.crash
        | req k =>
          simp only [reqStep] at hs
          repeat' split at hs
          all_goals first
            | (cases hs; first | exact ih.crash | exact .inr rfl)
            | cases hs
        | raceDeliver k d =>
          simp only at hs
          repeat' split at hs
          all_goals first
            | (cases hs; exact .inr rfl)
            | cases hs
        | racePulse k r j =>
          simp only at hs
          repeat' split at hs
          all_goals first
            | (cases hs; exact .inr rfl)
            | cases hs

/-- C111: the example never uses a node that is not there: the only way in which it dies, if the controller does not,
is a map that is read while it is written. -/
theorem C111_never_nil (db : DB) (f : Bool) (ns : List Node) (hg : GoodFile ns) (c : CSt) (hc : CReach db f ns c) (s : USt)
    (h : UReach db c s) : s.crashed = none ∨ s.crashed = some .mapRace := (loopInv hg hc h).crash

/-- C111: the events are dealt with in the order in which they were accepted, none twice and none skipped: those dealt
with, the one in hand and those that wait are the accepted ones. -/
theorem C111_in_order (db : DB) (f : Bool) (ns : List Node) (hg : GoodFile ns) (c : CSt) (hc : CReach db f ns c)
    (hnew : taken c.hist = []) (s : USt) (h : UReach db c s) :
    accepted s.ctl.hist = s.handled ++ inHand s ++ s.ctl.queue := by
  rw [C43_order db f ns s.ctl (ureach_ctl hc h), (loopInv hg hc h).taken, hnew]
  simp

/-- C111: what is printed for an event is the node that the event names. -/
theorem C111_prints_the_node (db : DB) (f : Bool) (ns : List Node) (hg : GoodFile ns) (c : CSt) (hc : CReach db f ns c)
    (s : USt) (h : UReach db c s) (e : Event) (ref : Nat) (hp : s.loop = .print e ref) :
    s.ctl.list.get e.addr = some ref ∧ (s.ctl.heap ref).node.id = e.addr := by
  have := (loopInv hg hc h).print e ref hp
  exact ⟨this, ((cinv hg (ureach_ctl hc h)).list _ _ this).2⟩

/-! ### What is bound to happen -/

variable {e : Exec (uStep db)}

/-- Every moment of an execution is reached. -/
theorem uexec_reach {c : CSt} (hr : UReach db c (e.st 0)) (n : Nat) : UReach db c (e.st n) :=
  exec_keep e (Q := UReach db c) (fun _ l _ h hs => .step l h hs) hr n (Nat.zero_le _)

theorem got_ends (hf : FairUsers e) (ha : ∀ n, ¬ UDead (e.st n)) (n : Nat) (hd : (e.st n).ctl.disc = .done) (x : Event)
    (h : (e.st n).loop = .got x) : ∃ m, n ≤ m ∧ (e.st m).loop = .look x ∧ (e.st m).handled = (e.st n).handled := by
  have hds := done_stays (e := uCtl e) n hd
  refine leads e hf.loop (Q := fun s => s.loop = .got x ∧ s.handled = (e.st n).handled)
    (R := fun s => s.loop = .look x ∧ s.handled = (e.st n).handled) (n0 := n) ?_ ?_ (Nat.le_refl _) ⟨h, rfl⟩
  · intro m hm ⟨q1, q2⟩ l hs
    by_cases hl : l = .loop
    · subst hl
      have := loop_own hs
      have hd : (e.st m).ctl.disc = .done := hds m hm
      simp only [loopStep, q1, hd, DiscAt.locks] at this
      injection this with this
      rw [← this]
      exact .inl ⟨rfl, q2⟩
    · obtain ⟨h1, h2⟩ := loop_other hl hs
      exact .inr ⟨⟨h1.trans q1, h2.trans q2⟩, hl⟩
  · intro m hm hq
    exact ⟨m, Nat.le_refl _, loop_can (ha m) (by simp only [loopStep, (hq m (Nat.le_refl _)).1]; rfl)⟩

theorem looked_ends (hf : FairUsers e) (ha : ∀ n, ¬ UDead (e.st n)) (hg : GoodFile ns) {c : CSt} (hc : CReach db f ns c)
    (hr : UReach db c (e.st 0)) (n : Nat) (hd : (e.st n).ctl.disc = .done) (x : Event) (h : (e.st n).loop = .look x) :
    ∃ m, n ≤ m ∧ (∃ ref, (e.st m).loop = .print x ref) ∧ (e.st m).handled = (e.st n).handled := by
  have hds := done_stays (e := uCtl e) n hd
  have kn : ∀ m, (e.st m).loop = .look x → ∃ ref, (e.st m).ctl.list.get x.addr = some ref := by
    intro m hm
    have := (loopInv hg hc (uexec_reach hr m)).known x (by simp [inHand, hm])
    cases hx : (e.st m).ctl.list.get x.addr with
    | none => exact absurd hx this
    | some ref => exact ⟨ref, rfl⟩
  refine leads e hf.loop (Q := fun s => s.loop = .look x ∧ s.handled = (e.st n).handled)
    (R := fun s => (∃ ref, s.loop = .print x ref) ∧ s.handled = (e.st n).handled) (n0 := n) ?_ ?_ (Nat.le_refl _) ⟨h, rfl⟩
  · intro m hm ⟨q1, q2⟩ l hs
    by_cases hl : l = .loop
    · subst hl
      have := loop_own hs
      have hd : (e.st m).ctl.disc = .done := hds m hm
      obtain ⟨ref, hk⟩ := kn m q1
      simp only [loopStep, q1, hd, DiscAt.writes, hk] at this
      injection this with this
      rw [← this]
      exact .inl ⟨⟨ref, rfl⟩, q2⟩
    · obtain ⟨h1, h2⟩ := loop_other hl hs
      exact .inr ⟨⟨h1.trans q1, h2.trans q2⟩, hl⟩
  · intro m hm hq
    obtain ⟨ref, hk⟩ := kn m (hq m (Nat.le_refl _)).1
    have hd : (e.st m).ctl.disc = .done := hds m hm
    exact ⟨m, Nat.le_refl _, loop_can (ha m) (by simp only [loopStep, (hq m (Nat.le_refl _)).1, hd, DiscAt.writes, hk]; rfl)⟩

theorem print_ends (hf : FairUsers e) (ha : ∀ n, ¬ UDead (e.st n)) (hg : GoodFile ns) {c : CSt} (hc : CReach db f ns c)
    (hr : UReach db c (e.st 0)) (n : Nat) (x : Event) (ref : Nat) (h : (e.st n).loop = .print x ref) :
    ∃ m, n ≤ m ∧ (e.st m).loop = .wait ∧ (e.st m).handled = (e.st n).handled ++ [x] := by
  refine leads e hf.loop (Q := fun s => s.loop = .print x ref ∧ s.handled = (e.st n).handled)
    (R := fun s => s.loop = .wait ∧ s.handled = (e.st n).handled ++ [x]) (n0 := n) ?_ ?_ (Nat.le_refl _) ⟨h, rfl⟩
  · intro m hm ⟨q1, q2⟩ l hs
    by_cases hl : l = .loop
    · subst hl
      have := loop_own hs
      simp only [loopStep, q1] at this
      split at this
      · injection this with this
        rw [← this]
        exact .inl ⟨rfl, by simp [q2]⟩
      · cases this
    · obtain ⟨h1, h2⟩ := loop_other hl hs
      exact .inr ⟨⟨h1.trans q1, h2.trans q2⟩, hl⟩
  · intro m hm hq
    have hl := (loopInv hg hc (uexec_reach hr m)).print x ref (hq m (Nat.le_refl _)).1
    have hlt := ((cinv hg (ureach_ctl hc (uexec_reach hr m))).list _ _ hl).1
    obtain ⟨m', g1, g2⟩ := node_lock_free (e := uCtl e) ref ((uctl_fair ha hf).proc ref) hg (ureach_ctl hc hr)
      (fun k => (alive (ha k)).2) m hlt
    have g2' : ((e.st m').ctl.heap ref).lock = none := g2
    exact ⟨m', g1, loop_can (ha m') (by simp only [loopStep, (hq m' g1).1, g2']; rfl)⟩

/-- After the discovery the main goroutine, unless it is stuck by then, comes back to wait for the next event. -/
theorem hand_ends (hf : FairUsers e) (ha : ∀ n, ¬ UDead (e.st n)) (hg : GoodFile ns) {c : CSt} (hc : CReach db f ns c)
    (hr : UReach db c (e.st 0)) (n : Nat) (hd : (e.st n).ctl.disc = .done) (hs : ∀ x, (e.st n).loop ≠ .stuck x) :
    ∃ m, n ≤ m ∧ (e.st m).loop = .wait ∧ (e.st m).handled = (e.st n).handled ++ inHand (e.st n) := by
  have hds := done_stays (e := uCtl e) n hd
  have print : ∀ m x ref, (e.st m).loop = .print x ref →
      ∃ k, m ≤ k ∧ (e.st k).loop = .wait ∧ (e.st k).handled = (e.st m).handled ++ [x] :=
    fun m x ref h => print_ends hf ha hg hc hr m x ref h
  have look : ∀ m x, n ≤ m → (e.st m).loop = .look x →
      ∃ k, m ≤ k ∧ (e.st k).loop = .wait ∧ (e.st k).handled = (e.st m).handled ++ [x] := by
    intro m x hm h
    obtain ⟨k, h1, ⟨ref, h2⟩, h3⟩ := looked_ends hf ha hg hc hr m (hds m hm) x h
    obtain ⟨k', g1, g2, g3⟩ := print k x ref h2
    exact ⟨k', by omega, g2, by rw [g3, h3]⟩
  cases hl : (e.st n).loop with
  | wait => exact ⟨n, Nat.le_refl _, hl, by simp [inHand, hl]⟩
  | got x =>
    obtain ⟨m, h1, h2, h3⟩ := got_ends hf ha n hd x hl
    obtain ⟨k, g1, g2, g3⟩ := look m x h1 h2
    exact ⟨k, by omega, g2, by rw [g3, h3]; simp [inHand, hl]⟩
  | look x => simpa [inHand, hl] using look n x (Nat.le_refl _) hl
  | print x ref => simpa [inHand, hl] using print n x ref hl
  | stuck x => exact absurd hl (hs x)

/-- A main goroutine that waits takes the next event. -/
theorem wait_takes (hf : FairUsers e) (ha : ∀ n, ¬ UDead (e.st n)) (n : Nat) (hw : (e.st n).loop = .wait)
    (hq : (e.st n).ctl.queue ≠ []) :
    ∃ m, n ≤ m ∧ (∃ x, (e.st m).loop = .got x) ∧ (e.st m).handled = (e.st n).handled := by
  have grow : ∀ {s s' : CSt} {l : CLabel}, cStep db s l = some s' → l ≠ .take → s.queue ≠ [] → s'.queue ≠ [] := by
    intro s s' l h hl hq
    have put : ∀ (s : CSt) ref n, s.queue ≠ [] → (s.put ref n).queue ≠ [] := by
      intro s ref n hq
      unfold CSt.put CSt.push
      simp only
      repeat' split
      all_goals simp [hq]
    ctl_step h
    all_goals first
      | exact hq
      | exact absurd rfl hl
      | exact put _ _ _ hq
      | skip
    · simp only [CSt.push]
      split <;> simp [hq]
  refine leads e hf.loop (Q := fun s => (s.loop = .wait ∧ s.ctl.queue ≠ []) ∧ s.handled = (e.st n).handled)
    (R := fun s => (∃ x, s.loop = .got x) ∧ s.handled = (e.st n).handled) (n0 := n) ?_ ?_ (Nat.le_refl _) ⟨⟨hw, hq⟩, rfl⟩
  · intro m hm ⟨⟨q1, q2⟩, q3⟩ l hs
    by_cases hl : l = .loop
    · subst hl
      have := loop_own hs
      simp only [loopStep, q1] at this
      split at this
      · cases this
      · rw [Option.map_eq_some_iff] at this
        obtain ⟨t, -, this⟩ := this
        rw [← this]
        exact .inl ⟨⟨_, rfl⟩, q3⟩
    · obtain ⟨h1, h2⟩ := loop_other hl hs
      refine .inr ⟨⟨⟨h1.trans q1, ?_⟩, h2.trans q3⟩, hl⟩
      have hp := uctl_part hs
      cases l with
      | ctl l =>
        refine grow hp (fun h => ?_) q2
        subst h
        unfold uStep at hs
        split at hs
        · cases hs
        · simp at hs
      | loop => exact absurd rfl hl
      | _ => simp only [uCtlLab] at hp; rw [hp]; exact q2
  · intro m hm hq
    obtain ⟨⟨q1, q2⟩, -⟩ := hq m (Nat.le_refl _)
    refine ⟨m, Nat.le_refl _, ?_⟩
    cases hx : (e.st m).ctl.queue with
    | nil => exact absurd hx q2
    | cons x q =>
      exact loop_can (s' := { (e.st m) with ctl := { (e.st m).ctl with queue := q, hist := .taken x :: (e.st m).ctl.hist }, loop := .got x }) (ha m)
        (by simp [loopStep, q1, hx, cStep, (alive (ha m)).2])

theorem hist_grows {s s' : CSt} {l : CLabel} (h : cStep db s l = some s') : ∃ es, s'.hist = es ++ s.hist := by
  ctl_step h
  all_goals first
    | exact ⟨[], rfl⟩
    | exact ⟨[_], rfl⟩
    | exact ⟨_, put_hist ..⟩
    | skip
  · rename_i k _ ref r heq n hn
    exact ⟨_, (put_hist { s with hist := .applied k ref r :: s.hist } ref n).trans (List.append_cons _ _ _)⟩

theorem accepted_mono (n : Nat) : ∀ m, n ≤ m → accepted (e.st n).ctl.hist <+: accepted (e.st m).ctl.hist := by
  have key : ∀ (h0 : List CEv) es, accepted h0 <+: accepted (es ++ h0) := by
    intro h0 es
    induction es with
    | nil => exact List.prefix_refl _
    | cons x es ih =>
      rw [List.cons_append]
      cases x with
      | pushed x ok =>
        cases ok
        · exact ih
        · exact ih.trans (List.prefix_append _ _)
      | _ => exact ih
  refine exec_keep e (Q := fun s => accepted (e.st n).ctl.hist <+: accepted s.ctl.hist) (fun s l s' h hs => ?_)
    (List.prefix_refl _)
  have hp := uctl_part hs
  split at hp
  · obtain ⟨es, he⟩ := hist_grows hp
    rw [he]
    exact h.trans (key _ _)
  · rw [hp]; exact h

/-- C111: after the discovery every event that was accepted is dealt with, unless the process dies. (Missing: a main
goroutine that has got stuck during the discovery, see `C111_violated_hangs`.) -/
theorem C111_all_handled_partial (hf : FairUsers e) (hg : GoodFile ns) {c : CSt} (hc : CReach db f ns c)
    (hnew : taken c.hist = []) (hr : UReach db c (e.st 0)) (n : Nat) (hd : (e.st n).ctl.disc = .done)
    (hs : ∀ x, (e.st n).loop ≠ .stuck x) :
    ∃ m, n ≤ m ∧ (UDead (e.st m) ∨ accepted (e.st n).ctl.hist <+: (e.st m).handled) := by
  refine uor_dead (P := fun m => accepted (e.st n).ctl.hist <+: (e.st m).handled) n fun ha => ?_
  have hds := done_stays (e := uCtl e) n hd
  have claim : ∀ k, k ≤ (accepted (e.st n).ctl.hist).length →
      ∃ m, n ≤ m ∧ (e.st m).loop = .wait ∧ k ≤ (e.st m).handled.length := by
    intro k
    induction k with
    | zero =>
      intro _
      obtain ⟨m, h1, h2, h3⟩ := hand_ends hf ha hg hc hr n hd hs
      exact ⟨m, h1, h2, Nat.zero_le _⟩
    | succ k ih =>
      intro hk
      obtain ⟨m, h1, h2, h3⟩ := ih (by omega)
      by_cases hlt : k < (e.st m).handled.length
      · exact ⟨m, h1, h2, hlt⟩
      · have ho := C111_in_order db f ns hg c hc hnew _ (uexec_reach hr m)
        have hl := (accepted_mono (e := e) n m h1).length_le
        rw [ho] at hl
        have hq : (e.st m).ctl.queue ≠ [] := by
          intro h0
          simp [inHand, h2, h0] at hl
          omega
        obtain ⟨m', g1, ⟨x, g2⟩, g3⟩ := wait_takes hf ha m h2 hq
        obtain ⟨m2, k1, k2, k3⟩ := hand_ends hf ha hg hc hr m' (hds m' (by omega)) (by simp [g2])
        exact ⟨m2, by omega, k2, by rw [k3, g3]; simp [inHand, g2]; omega⟩
  obtain ⟨m, h1, h2, h3⟩ := claim _ (Nat.le_refl _)
  refine ⟨m, h1, ?_⟩
  have ho := C111_in_order db f ns hg c hc hnew _ (uexec_reach hr m)
  refine List.prefix_of_prefix_length_le (accepted_mono (e := e) n m h1) ?_ h3
  rw [ho, List.append_assoc]
  exact List.prefix_append _ _

/-! ### Runs that end at rest -/

theorem req_fresh {c : CSt} {s : USt} (h : UReach db c s) : ∀ k, s.nReq ≤ k → s.req k = .absent := by
  induction h with
  | init => intro k _; rfl
  | @step s s' l _ hs ih =>
    have upd : ∀ j (r : ReqAt), s.req j ≠ .absent → ∀ k, s.nReq ≤ k → updN s.req j r k = .absent := by
      intro j r hj k hk
      have : k ≠ j := fun h => hj (h ▸ ih k hk)
      simp [updN, this, ih k hk]
    unfold uStep at hs
    split at hs
    · cases hs
    cases l with
    | ctl l =>
      simp only at hs
      split at hs
      · cases hs
      · rw [Option.map_eq_some_iff] at hs
        obtain ⟨t, -, rfl⟩ := hs
        exact ih
    | loop =>
      simp only [loopStep, Option.map_eq_some_iff] at hs
      repeat' split at hs
      all_goals first
        | (cases hs; exact ih)
        | cases hs
        | (rw [Option.map_eq_some_iff] at hs; obtain ⟨t, -, rfl⟩ := hs; exact ih)
    | «open» a =>
      cases hs
      intro k hk
      have h1 : s.nReq + 1 ≤ k := hk
      have : k ≠ s.nReq := by omega
      simp [updN, this, ih k (by omega)]
    | req j =>
      simp only [reqStep] at hs
      repeat' split at hs
      all_goals first
        | (cases hs; exact upd j _ (by simp [*]))
        | (cases hs; exact ih)
        | cases hs
    | raceDeliver k d =>
      simp only at hs
      repeat' split at hs
      all_goals first
        | (cases hs; exact ih)
        | cases hs
    | racePulse k r j =>
      simp only at hs
      repeat' split at hs
      all_goals first
        | (cases hs; exact ih)
        | cases hs

/-- Nobody has anything to do, computed. -/
def uRestB (s : USt) : Bool :=
  cRestB s.ctl && s.crashed.isNone && s.ctl.crashed.isNone &&
  (match s.loop with
    | .wait => s.ctl.queue.isEmpty
    | .stuck _ => true
    | _ => false) &&
  (List.range s.nReq).all fun k => match s.req k with
    | .shown _ _ | .missing _ | .stuck _ => true
    | _ => false

theorem ureach_run {c : CSt} : ∀ {us : List ULabel} {s t : USt}, UReach db c s → runSteps (uStep db) s us = some t → UReach db c t
  | [], s, t, hr, h => by cases h; exact hr
  | l :: us, s, t, hr, h => by
    simp only [runSteps] at h
    cases hl : uStep db s l with
    | none => rw [hl] at h; cases h
    | some s' => rw [hl] at h; exact ureach_run (.step l hr hl) h

/-- A run that ends at rest, continued by the passing of time, is a fair execution. -/
theorem ufair_of_run {c : CSt} (hg : GoodFile ns) (hc : CReach db f ns c) {us : List ULabel} {p : USt → Bool}
    (hp : ∀ s t, p { s with ctl := { s.ctl with now := t } } = p s)
    (h : (runSteps (uStep db) (.init c) us).map (fun s => uRestB s && p s) = some true) :
    ∃ e : Exec (uStep db), FairUsers e ∧ e.st 0 = .init c ∧
      (∀ n t, n < us.length → runSteps (uStep db) (.init c) (us.take n) = some t → e.st n = t) ∧
      ∀ n, us.length ≤ n → ¬ UDead (e.st n) ∧ p (e.st n) = true := by
  cases hr : runSteps (uStep db) (.init c) us with
  | none => rw [hr] at h; cases h
  | some s =>
    rw [hr] at h
    simp only [Option.map_some, Option.some.injEq, Bool.and_eq_true, Option.isNone_iff_eq_none, uRestB] at h
    obtain ⟨⟨⟨⟨⟨h1, h2⟩, h3⟩, h4⟩, h5⟩, h6⟩ := h
    have hreach := ureach_run .init hr
    have hq := cquiet_of_rest (cinv hg (ureach_ctl hc hreach)) h1
    have hfc := cquiet_fair (db := db) (s0 := s.ctl) (ls := []) rfl h3 hq
    let tail : Nat → USt := fun n => { s with ctl := { s.ctl with now := s.ctl.now + n } }
    have htail : ∀ n, uStep db (tail n) (.ctl (.tick 1)) = some (tail (n + 1)) := by
      intro n
      simp [uStep, tail, h2, h3, cStep, Nat.add_assoc]
    have h0 : runSteps (uStep db) (.init c) us = some (tail 0) := hr
    let e := execTail (uStep db) (.init c) us tail (.ctl (.tick 1)) h0 htail
    have hend : ∀ n, us.length ≤ n → e.st n = tail (n - us.length) := by
      intro n hn
      show (if n < us.length then _ else _) = _
      rw [if_neg (by omega)]
    have hct : ∀ n, (tail n).ctl = (cexecOf db s.ctl [] s.ctl rfl h3).st n := by
      intro n
      rw [cexecOf_end rfl h3 n (by simp)]
      simp [tail]
    have never : ∀ A : ULabel → Prop, (∀ n l, A l → uStep db (tail n) l = none) → Fairly e A := by
      intro A hA hen
      obtain ⟨m, hm, l, s', g1, g2⟩ := hen us.length
      rw [hend m hm, hA _ l g1] at g2
      cases g2
    have viaCtl : ∀ A : CLabel → Prop, Fairly (cexecOf db s.ctl [] s.ctl rfl h3) A → ¬ A (.tick 1) → Fairly e (ofCtl A) := by
      intro A hA ht hen
      exfalso
      obtain ⟨m, l, -, g1, g2⟩ := hA (fun n => by
        obtain ⟨m, hm, l, s', g1, g2⟩ := hen (us.length + n)
        rw [hend m (by omega)] at g2
        refine ⟨m - us.length, by omega, ?_⟩
        rw [← hct]
        cases l with
        | ctl l =>
          have := uctl_part g2
          exact ⟨l, _, g1, this⟩
        | _ => exact absurd g1 (fun x => x)) 0
      simp only [cexecOf, List.getElem?_nil, Option.getD_none, Option.some.injEq] at g1
      exact ht (g1 ▸ g2)
    refine ⟨e, ⟨viaCtl _ hfc.disc (by rintro ⟨a, h⟩; cases h), fun k => viaCtl _ (hfc.deliver k) (by intro h; cases h),
      fun r j => viaCtl _ (hfc.proc r j) (by intro h; cases h), viaCtl _ hfc.saver (by rintro ⟨a, h⟩; cases h), ?_, ?_, ?_⟩, ?_, ?_, ?_⟩
    · intro t n
      refine ⟨us.length + (n + t), by omega, .inl ?_⟩
      rw [hend _ (by omega)]
      show t ≤ s.ctl.now + _
      omega
    · refine never _ fun n l hl => ?_
      subst hl
      cases hx : s.loop <;> rw [hx] at h4 <;> simp_all [uStep, tail, loopStep]
    · intro k
      refine never _ fun n l hl => ?_
      subst hl
      have : s.req k = .absent ∨ (∃ a r, s.req k = .shown a r) ∨ (∃ i, s.req k = .missing i) ∨ ∃ a, s.req k = .stuck a := by
        by_cases hk : k < s.nReq
        · have := List.all_eq_true.1 h5 k (List.mem_range.2 hk)
          cases hx : s.req k <;> rw [hx] at this <;> simp_all
        · exact .inl (req_fresh hreach k (by omega))
      rcases this with h | ⟨a, r, h⟩ | ⟨i, h⟩ | ⟨a, h⟩ <;> simp [uStep, reqStep, tail, h2, h3, h]
    · show (if 0 < us.length then _ else _) = _
      split
      · simp [runSteps]
      · have : us = [] := by cases us <;> simp_all
        subst this
        simp only [runSteps] at h0
        injection h0 with h0
        exact h0.symm
    · intro n t hn ht
      show (if n < us.length then _ else _) = _
      rw [if_pos hn, ht]
      rfl
    · intro n hn
      rw [hend n hn]
      refine ⟨?_, by show p { s with ctl := _ } = true; rw [hp]; exact h6⟩
      simp [UDead, tail, h2, h3]

/-- The start with an empty node list, without a file. -/
theorem fresh_start : CReach demoDB false [] (start false []) := ⟨[], rfl⟩

/-- Discovery steps of the program. -/
def ud : ULabel := .ctl (.disc .nothing)

/-- C111 is false during the discovery: in a fair execution in which nothing crashes, the main goroutine looks the
first node up while the second is being added, and hangs for ever. The event of the second node waits for ever. -/
theorem C111_violated_hangs : ∃ e : Exec (uStep demoDB), FairUsers e ∧ e.st 0 = .init (start false []) ∧
    ∃ n, ∀ m, n ≤ m → ¬ UDead (e.st m) ∧ (e.st m).ctl.disc = .done ∧ (e.st m).loop = .stuck (.discovered 2) ∧
      (e.st m).handled = [] ∧ (e.st m).ctl.queue = [.discovered 3] := by
  obtain ⟨e, h1, h2, -, h4⟩ := ufair_of_run (db := demoDB) (f := false) noFileGood fresh_start
    (us := [.ctl .startDisc, .ctl (.disc (.nodes [true, true, true])), ud, ud, ud, ud, ud, ud, ud, ud, ud, ud,
      .loop, .loop] ++ List.replicate 7 ud)
    (p := fun s => decide (s.ctl.disc = .done ∧ s.loop = .stuck (.discovered 2) ∧ s.handled = [] ∧
      s.ctl.queue = [.discovered 3])) (fun _ _ => rfl) (by decide +kernel)
  exact ⟨e, h1, h2, _, fun m hm => by simpa using h4 m hm⟩

/-- C111 is false during the discovery: the look-up of the first node reads the map while the second is being put into
it; Go ends the process. -/
theorem C111_violated_map_race : ∃ s s', UReach demoDB (start false []) s ∧ ¬ UDead s ∧
    s.loop = .look (.discovered 2) ∧ uStep demoDB s .loop = some s' ∧ s'.crashed = some .mapRace := by
  have h : ((runSteps (uStep demoDB) (.init (start false []))
      ([.ctl .startDisc, .ctl (.disc (.nodes [true, true, true]))] ++ List.replicate 8 ud ++ [.loop, .loop, ud, ud, ud])).map fun s =>
      decide (s.crashed = none ∧ s.ctl.crashed = none ∧ s.loop = .look (.discovered 2) ∧
        ((uStep demoDB s .loop).map fun s' => decide (s'.crashed = some .mapRace)) = some true)) = some true := by
    decide +kernel
  rw [Option.map_eq_some_iff] at h
  obtain ⟨s, h1, h2⟩ := h
  obtain ⟨g1, g2, g3, g4⟩ := of_decide_eq_true h2
  rw [Option.map_eq_some_iff] at g4
  obtain ⟨s', g4, g5⟩ := g4
  exact ⟨s, s', ureach_run .init h1, by simp [UDead, g1, g2], g3, g4, of_decide_eq_true g5⟩

/-- The hypotheses of the theorems about the event loop are met: a node is discovered, then a report arrives from it;
two events wait when the discovery is over, and the goroutine is printing the first when the second comes. -/
example : ∃ e : Exec (uStep demoDB), FairUsers e ∧ UReach demoDB (start false []) (e.st 0) ∧
    taken (start false []).hist = [] ∧ (e.st 18).ctl.disc = .done ∧ (e.st 18).loop = .print (.discovered 2) 0 ∧
    accepted (e.st 18).ctl.hist = [.discovered 2, .updated 2] ∧
    ∃ m, (e.st m).handled = [.discovered 2, .updated 2] := by
  let us : List ULabel := discOne.map .ctl ++ [.loop, .loop, .loop] ++ (deliverOne 0 repOn).map .ctl ++ List.replicate 5 .loop
  obtain ⟨e, h1, h2, h3, h4⟩ := ufair_of_run (db := demoDB) (f := false) noFileGood fresh_start (us := us)
    (p := fun s => decide (s.handled = [.discovered 2, .updated 2])) (fun _ _ => rfl) (by decide +kernel)
  have v : ∀ n (p : USt → Bool), n < us.length → (runSteps (uStep demoDB) (.init (start false [])) (us.take n)).map p = some true →
      p (e.st n) = true := by
    intro n p hn hp
    cases hr : runSteps (uStep demoDB) (.init (start false [])) (us.take n) with
    | none => rw [hr] at hp; cases hp
    | some t => rw [hr] at hp; rw [h3 n t hn hr]; simpa using hp
  have := v 18 (fun s => decide (s.ctl.disc = .done ∧ s.loop = .print (.discovered 2) 0 ∧
    accepted s.ctl.hist = [.discovered 2, .updated 2])) (by decide) (by decide +kernel)
  obtain ⟨g1, g2, g3⟩ := of_decide_eq_true this
  exact ⟨e, h1, h2 ▸ .init, rfl, g1, g2, g3, us.length, of_decide_eq_true (h4 _ (Nat.le_refl _)).2⟩

/-! ### Requests -/

/-- What the steps of others leave alone. -/
theorem req_other {s s' : USt} {l : ULabel} {k : Nat} (hk : s.req k ≠ .absent) (hfr : s.req s.nReq = .absent)
    (hl : l ≠ .req k) (h : uStep db s l = some s') : s'.req k = s.req k := by
  unfold uStep at h
  split at h
  · cases h
  cases l with
  | ctl l =>
    simp only at h
    split at h
    · cases h
    · rw [Option.map_eq_some_iff] at h
      obtain ⟨t, -, rfl⟩ := h
      rfl
  | loop =>
    simp only [loopStep] at h
    repeat' split at h
    all_goals first
      | (cases h; rfl)
      | cases h
      | (rw [Option.map_eq_some_iff] at h; obtain ⟨t, -, rfl⟩ := h; rfl)
  | «open» a =>
    cases h
    have : k ≠ s.nReq := fun h => hk (h ▸ hfr)
    simp [updN, this]
  | req j =>
    have hne : k ≠ j := fun h => hl (h ▸ rfl)
    simp only [reqStep] at h
    repeat' split at h
    all_goals first
      | (cases h; simp [updN, hne])
      | cases h
  | raceDeliver k d =>
    simp only at h
    repeat' split at h
    all_goals first
      | (cases h; rfl)
      | cases h
  | racePulse k r j =>
    simp only at h
    repeat' split at h
    all_goals first
      | (cases h; rfl)
      | cases h

theorem req_own {s s' : USt} {k : Nat} (h : uStep db s (.req k) = some s') : reqStep s k = some s' := by
  unfold uStep at h
  split at h
  · cases h
  · exact h

theorem req_can {s s' : USt} {k : Nat} (ha : ¬ UDead s) (h : reqStep s k = some s') : Enabled (uStep db) (· = .req k) s := by
  obtain ⟨a1, a2⟩ := alive ha
  exact ⟨.req k, s', rfl, by simpa [uStep, a1, a2] using h⟩

theorem get_in {m : GoMap Int Nat} {i : Int} {r : Nat} (h : m.get i = some r) : r ∈ m.map Prod.snd :=
  List.mem_map.2 ⟨_, Persist.get_mem h, rfl⟩

theorem in_get {m : GoMap Int Nat} (hn : (m.map Prod.fst).Nodup) {r : Nat} (h : r ∈ m.map Prod.snd) : ∃ i, m.get i = some r := by
  obtain ⟨x, hx, rfl⟩ := List.mem_map.1 h
  exact ⟨x.1, Persist.mem_get hn hx⟩

theorem refs_nodup {s : CSt} (hc : CInv s) (hn : (s.list.map Prod.fst).Nodup) : (s.list.map Prod.snd).Nodup := by
  refine Persist.nodup_map_on (List.Pairwise.imp (fun h heq => h (by rw [heq])) (List.pairwise_map.1 hn)) fun a ha b hb hab => ?_
  have h1 := (hc.list _ _ (Persist.mem_get hn ha)).2
  have h2 := (hc.list _ _ (Persist.mem_get hn hb)).2
  rw [hab, h2] at h1
  exact Prod.ext h1.symm hab

/-- What a request that was made in state `s` knows. -/
def ReqInv (s : USt) (a : WebAsk) (t : USt) : ReqAt → Prop
  | .absent => False
  | .call b | .look b | .stuck b => b = a
  | .enc b dn todo => b = a ∧ Listed s a t (dn ++ todo)
  | .shown b refs => b = a ∧ Listed s a t refs
  | .missing id => a = .one id ∧ s.ctl.list.get id = none
where
  /-- the nodes of the answer -/
  Listed (s : USt) (a : WebAsk) (t : USt) (refs : List Nat) : Prop :=
    match a with
    | .all => refs.Nodup ∧ (∀ id r, s.ctl.list.get id = some r → r ∈ refs) ∧ ∀ r ∈ refs, ∃ id, t.ctl.list.get id = some r
    | .one id => ∃ r, refs = [r] ∧ t.ctl.list.get id = some r

theorem reqInv (hg : GoodFile ns) {c : CSt} (hc : CReach db f ns c) {s t : USt} {k : Nat} {a : WebAsk} (hr : UReach db c s)
    (hk : s.req k = .call a) (h : UThen db s t) :
    UReach db c t ∧ (∀ i r, s.ctl.list.get i = some r → t.ctl.list.get i = some r) ∧ ReqInv s a t (t.req k) := by
  induction h with
  | now => exact ⟨hr, fun _ _ h => h, by rw [hk]; rfl⟩
  | @step t t' l _ hs ih =>
    obtain ⟨i1, i2, i3⟩ := ih
    have hct := ureach_ctl hc i1
    have keep : ∀ i r, t.ctl.list.get i = some r → t'.ctl.list.get i = some r := by
      intro i r hi
      have := uctl_part hs
      split at this
      · exact list_same (cinv hg hct) this hi
      · rw [this]; exact hi
    refine ⟨.step l i1 hs, fun i r h => keep i r (i2 i r h), ?_⟩
    have listed : ∀ refs, ReqInv.Listed s a t refs → ReqInv.Listed s a t' refs := by
      intro refs h
      cases a with
      | all => exact ⟨h.1, h.2.1, fun r hr => (h.2.2 r hr).imp fun i => keep i r⟩
      | one id => exact h.imp fun r h => ⟨h.1, keep id r h.2⟩
    by_cases hl : l = .req k
    · subst hl
      have ho := req_own hs
      unfold reqStep at ho
      cases hx : t.req k with
      | absent => rw [hx] at i3; exact i3.elim
      | call b =>
        rw [hx] at ho i3
        cases ho
        simp only [updN, if_true]
        split <;> exact i3
      | look b =>
        rw [hx] at ho i3
        simp only [ReqInv] at i3
        subst i3
        simp only at ho
        split at ho
        · cases ho; simp only [hx, ReqInv]
        · split at ho
          · cases ho
            simp only [updN, if_true, ReqInv, ReqInv.Listed, List.nil_append, true_and]
            exact ⟨refs_nodup (cinv hg hct) (keysInv hct), fun i r h => get_in (i2 i r h), fun r hr => in_get (keysInv hct) hr⟩
          · split at ho
            · rename_i id _ h0
              cases ho
              simp only [updN, if_true, ReqInv, true_and]
              cases hs0 : s.ctl.list.get id with
              | none => rfl
              | some r => rw [i2 id r hs0] at h0; cases h0
            · rename_i id _ ref h0
              cases ho
              simp only [updN, if_true, ReqInv, ReqInv.Listed, List.nil_append, true_and]
              exact ⟨ref, rfl, h0⟩
      | enc b dn todo =>
        rw [hx] at ho i3
        obtain ⟨rfl, i3⟩ := i3
        cases todo with
        | nil =>
          cases ho
          simp only [updN, if_true, ReqInv, true_and]
          rw [List.append_nil] at i3
          exact listed _ i3
        | cons ref todo =>
          cases ho
          simp only [updN, if_true, ReqInv, true_and]
          rw [List.append_assoc]
          exact listed _ i3
      | shown b refs => rw [hx] at ho; cases ho
      | missing id => rw [hx] at ho; cases ho
      | stuck b => rw [hx] at ho; cases ho
    · have hna : t.req k ≠ .absent := fun h => by rw [h] at i3; exact i3.elim
      rw [req_other hna (req_fresh i1 _ (Nat.le_refl _)) hl hs]
      cases hx : t.req k <;> rw [hx] at i3
      · exact i3
      · exact i3
      · exact i3
      · exact ⟨i3.1, listed _ i3.2⟩
      · exact ⟨i3.1, listed _ i3.2⟩
      · exact i3
      · exact i3

/-- C112: the answer to GET /nodes has every node that was in the list when the request was made, no node twice, and
only nodes of the list. -/
theorem C112_all_nodes (db : DB) (f : Bool) (ns : List Node) (hg : GoodFile ns) (c : CSt) (hc : CReach db f ns c)
    (s t : USt) (hr : UReach db c s) (k : Nat) (hk : s.req k = .call .all) (h : UThen db s t) (a : WebAsk) (refs : List Nat)
    (hs : t.req k = .shown a refs) : refs.Nodup ∧ (∀ id r, s.ctl.list.get id = some r → r ∈ refs) ∧
      ∀ r ∈ refs, ∃ id, t.ctl.list.get id = some r ∧ (t.ctl.heap r).node.id = id := by
  obtain ⟨h1, -, h2⟩ := reqInv hg hc hr hk h
  rw [hs] at h2
  obtain ⟨rfl, g1, g2, g3⟩ := h2
  exact ⟨g1, g2, fun r hr => (g3 r hr).imp fun id h => ⟨h, ((cinv hg (ureach_ctl hc h1)).list _ _ h).2⟩⟩

/-- C112: the answer 200 to GET /nodes/<id> has the node with that number and no other. -/
theorem C112_the_node (db : DB) (f : Bool) (ns : List Node) (hg : GoodFile ns) (c : CSt) (hc : CReach db f ns c)
    (s t : USt) (hr : UReach db c s) (k : Nat) (id : Int) (hk : s.req k = .call (.one id)) (h : UThen db s t) (a : WebAsk)
    (refs : List Nat) (hs : t.req k = .shown a refs) :
    ∃ r, refs = [r] ∧ t.ctl.list.get id = some r ∧ (t.ctl.heap r).node.id = id := by
  obtain ⟨h1, -, h2⟩ := reqInv hg hc hr hk h
  rw [hs] at h2
  obtain ⟨rfl, r, g1, g2⟩ := h2
  exact ⟨r, g1, g2, ((cinv hg (ureach_ctl hc h1)).list _ _ g2).2⟩

/-- C112: a node that was in the list when the request was made is never "not found". -/
theorem C112_found (db : DB) (f : Bool) (ns : List Node) (hg : GoodFile ns) (c : CSt) (hc : CReach db f ns c)
    (s t : USt) (hr : UReach db c s) (k : Nat) (id : Int) (ref : Nat) (hk : s.req k = .call (.one id))
    (hid : s.ctl.list.get id = some ref) (h : UThen db s t) (i : Int) : t.req k ≠ .missing i := by
  intro hm
  obtain ⟨-, -, h2⟩ := reqInv hg hc hr hk h
  rw [hm] at h2
  obtain ⟨h2, h3⟩ := h2
  cases h2
  rw [hid] at h3; cases h3

/-- The answers to a request. -/
def answered : ReqAt → Prop
  | .shown _ _ | .missing _ => True
  | _ => False

/-- The steps that a request has before it, after its list was copied. -/
def reqLeft : ReqAt → Nat
  | .enc _ _ todo => todo.length
  | _ => 0

/-- C112: after the discovery every request that was made is answered, unless the process dies. (Missing: a request
that has got stuck during the discovery, see `C112_violated_hangs`.) -/
theorem C112_answered_partial (hf : FairUsers e) (hg : GoodFile ns) {c : CSt} (hc : CReach db f ns c)
    (hr : UReach db c (e.st 0)) (n : Nat) (hd : (e.st n).ctl.disc = .done) (k : Nat) (hk : (e.st n).req k ≠ .absent)
    (hs : ∀ a, (e.st n).req k ≠ .stuck a) : ∃ m, n ≤ m ∧ (UDead (e.st m) ∨ answered ((e.st m).req k)) := by
  refine uor_dead (P := fun m => answered ((e.st m).req k)) n fun ha => ?_
  have hds := done_stays (e := uCtl e) n hd
  have hfr := fun m => req_fresh (uexec_reach hr m) (e.st m).nReq (Nat.le_refl _)
  have enc : ∀ m, n ≤ m → (∃ a dn todo, (e.st m).req k = .enc a dn todo) → ∃ j, m ≤ j ∧ answered ((e.st j).req k) := by
    intro m hm h
    refine leads_rank e (hf.req k) (Q := fun s => ∃ a dn todo, s.req k = .enc a dn todo)
      (R := fun s => answered (s.req k)) (fun s => reqLeft (s.req k)) (n0 := m) ?_ ?_ (Nat.le_refl _) h
    · intro j hj ⟨a, dn, todo, q⟩ l hs
      by_cases hl : l = .req k
      · subst hl
        have ho := req_own hs
        simp only [reqStep, q] at ho
        cases todo with
        | nil =>
          simp only at ho
          injection ho with ho
          rw [← ho]
          exact .inl (by simp [updN, answered])
        | cons ref todo =>
          simp only at ho
          injection ho with ho
          rw [← ho]
          exact .inr ⟨⟨a, dn ++ [ref], todo, by simp [updN]⟩, by simp [updN, reqLeft, q], fun _ => by simp [updN, reqLeft, q]⟩
      · have := req_other (by rw [q]; simp) (hfr j) hl hs
        exact .inr ⟨⟨a, dn, todo, this.trans q⟩, by rw [this]; exact Nat.le_refl _, fun h => absurd h hl⟩
    · intro j hj hq
      obtain ⟨a, dn, todo, q⟩ := hq j (Nat.le_refl _)
      refine ⟨j, Nat.le_refl _, ?_⟩
      cases todo <;> exact req_can (ha j) (by simp only [reqStep, q]; rfl)
  have look : ∀ m, n ≤ m → (∃ a, (e.st m).req k = .look a) → ∃ j, m ≤ j ∧ answered ((e.st j).req k) := by
    intro m hm h
    obtain ⟨j, h1, h2⟩ := leads e (hf.req k) (Q := fun s => ∃ a, s.req k = .look a)
      (R := fun s => answered (s.req k) ∨ ∃ a dn todo, s.req k = .enc a dn todo) (n0 := m) (by
        intro j hj ⟨a, q⟩ l hs
        by_cases hl : l = .req k
        · subst hl
          have ho := req_own hs
          have hd : (e.st j).ctl.disc = .done := hds j (by omega)
          simp only [reqStep, q, hd, DiscAt.writes, Bool.false_eq_true, false_and, if_false] at ho
          left
          cases a with
          | all =>
            simp only at ho
            injection ho with ho
            rw [← ho]
            exact .inr ⟨_, _, _, by simp [updN]; exact ⟨rfl, rfl, rfl⟩⟩
          | one id =>
            simp only at ho
            split at ho
            · injection ho with ho
              rw [← ho]
              exact .inl (by simp [updN, answered])
            · injection ho with ho
              rw [← ho]
              exact .inr ⟨_, _, _, by simp [updN]; exact ⟨rfl, rfl, rfl⟩⟩
        · exact .inr ⟨⟨a, (req_other (by rw [q]; simp) (hfr j) hl hs).trans q⟩, hl⟩) (by
        intro j hj hq
        obtain ⟨a, q⟩ := hq j (Nat.le_refl _)
        have hd : (e.st j).ctl.disc = .done := hds j (by omega)
        refine ⟨j, Nat.le_refl _, ?_⟩
        cases a with
        | all => exact req_can (ha j) (by simp only [reqStep, q, hd, DiscAt.writes]; rfl)
        | one id =>
          cases hx : (e.st j).ctl.list.get id with
          | none => exact req_can (ha j) (by simp only [reqStep, q, hd, DiscAt.writes, hx]; rfl)
          | some r => exact req_can (ha j) (by simp only [reqStep, q, hd, DiscAt.writes, hx]; rfl)) (Nat.le_refl _) h
    rcases h2 with h2 | h2
    · exact ⟨j, h1, h2⟩
    · obtain ⟨j', g1, g2⟩ := enc j (by omega) h2
      exact ⟨j', by omega, g2⟩
  cases hx : (e.st n).req k with
  | absent => exact absurd hx hk
  | call a =>
    obtain ⟨m, h1, h2⟩ := leads e (hf.req k) (Q := fun s => s.req k = .call a) (R := fun s => s.req k = .look a) (n0 := n) (by
      intro m hm q l hs
      by_cases hl : l = .req k
      · subst hl
        have ho := req_own hs
        have hd : (e.st m).ctl.disc = .done := hds m hm
        simp only [reqStep, q, hd, DiscAt.locks, Bool.false_eq_true, if_false] at ho
        injection ho with ho
        rw [← ho]
        exact .inl (by simp [updN])
      · exact .inr ⟨(req_other (by rw [q]; simp) (hfr m) hl hs).trans q, hl⟩) (by
      intro m hm hq
      exact ⟨m, Nat.le_refl _, req_can (ha m) (by simp only [reqStep, hq m (Nat.le_refl _)]; rfl)⟩) (Nat.le_refl _) hx
    obtain ⟨j, g1, g2⟩ := look m h1 ⟨a, h2⟩
    exact ⟨j, by omega, g2⟩
  | look a => exact look n (Nat.le_refl _) ⟨a, hx⟩
  | enc a dn todo => exact enc n (Nat.le_refl _) ⟨a, dn, todo, hx⟩
  | shown a refs => exact ⟨n, Nat.le_refl _, by rw [hx]; trivial⟩
  | missing id => exact ⟨n, Nat.le_refl _, by rw [hx]; trivial⟩
  | stuck a => exact absurd hx (hs a)

/-- C111 and C112: after the discovery the program is killed only by a request that encodes a node whose states change
at that moment. -/
theorem C112_only_state_races (db : DB) (f : Bool) (ns : List Node) (hg : GoodFile ns) (c : CSt) (hc : CReach db f ns c)
    (s s' : USt) (hr : UReach db c s) (hd : s.ctl.disc = .done) (l : ULabel) (h : uStep db s l = some s')
    (hx : s'.crashed ≠ none) : ∃ k ref, (s.req k).reads = some ref ∧ s'.crashed = some .mapRace ∧
      ((∃ d r, s.ctl.deliv d = .process ref r ∧ writesState (s.ctl.heap ref).node r = true) ∨ ∃ j, (s.ctl.heap ref).proc j = .pulse) := by
  have hal : s.crashed = none := by
    unfold uStep at h
    split at h
    · cases h
    · next hno => exact Option.not_isSome_iff_eq_none.1 fun hh => hno (.inl hh)
  have hli := (loopInv hg hc hr)
  unfold uStep at h
  split at h
  · cases h
  cases l with
  | ctl l =>
    simp only at h
    split at h
    · cases h
    · rw [Option.map_eq_some_iff] at h
      obtain ⟨t, -, rfl⟩ := h
      exact absurd hal hx
  | loop =>
    simp only [loopStep, hd, DiscAt.writes] at h
    cases hl : s.loop <;> rw [hl] at h
    · simp only at h
      split at h
      · cases h
      · rw [Option.map_eq_some_iff] at h
        obtain ⟨t, -, rfl⟩ := h
        exact absurd hal hx
    · cases h; exact absurd hal hx
    · rename_i x
      simp only [Bool.false_eq_true, false_and, if_false] at h
      cases hk : s.ctl.list.get x.addr with
      | none => exact absurd hk (hli.known x (by simp [inHand, hl]))
      | some ref => rw [hk] at h; cases h; exact absurd hal hx
    · simp only at h
      split at h
      · cases h; exact absurd hal hx
      · cases h
    · cases h
  | «open» a => cases h; exact absurd hal hx
  | req k =>
    simp only [reqStep, hd, DiscAt.writes, Bool.false_eq_true, false_and, if_false] at h
    repeat' split at h
    all_goals first
      | (cases h; exact absurd hal hx)
      | cases h
  | raceDeliver k d =>
    simp only at h
    split at h
    · next ref r hdl =>
      split at h
      · next hh => cases h; exact ⟨k, ref, hh.1, rfl, .inl ⟨d, r, hdl, hh.2.1⟩⟩
      · cases h
    · cases h
  | racePulse k r j =>
    simp only at h
    split at h
    · next hh => cases h; exact ⟨k, r, hh.1, rfl, .inr ⟨j, hh.2.1⟩⟩
    · cases h

/-- C112 is false during the discovery: a request that is made while a node is being added is never answered. -/
theorem C112_violated_hangs : ∃ e : Exec (uStep demoDB), FairUsers e ∧ e.st 0 = .init (start false []) ∧
    ∃ n, ∀ m, n ≤ m → ¬ UDead (e.st m) ∧ (e.st m).ctl.disc = .done ∧ (e.st m).req 0 = .stuck .all := by
  obtain ⟨e, h1, h2, -, h4⟩ := ufair_of_run (db := demoDB) (f := false) noFileGood fresh_start
    (us := [.ctl .startDisc, .ctl (.disc (.nodes [true, true])), .open .all, ud, ud, .req 0] ++ List.replicate 7 ud ++
      List.replicate 4 .loop)
    (p := fun s => decide (s.ctl.disc = .done ∧ s.req 0 = .stuck .all)) (fun _ _ => rfl) (by decide +kernel)
  exact ⟨e, h1, h2, _, fun m hm => by simpa using h4 m hm⟩

/-- C112 is false also after the discovery, and without a configuration file: a request that shows a node, one of whose
states is known, at the moment at which a report of the node is processed ends the process. -/
theorem C112_violated_state_race : ∃ s s', UReach demoDB (start false []) s ∧ ¬ UDead s ∧ s.ctl.disc = .done ∧
    s.req 0 = .enc (.one 2) [] [0] ∧ s.ctl.deliv 1 = .process 0 repOff ∧
    uStep demoDB s (.raceDeliver 0 1) = some s' ∧ s'.crashed = some .mapRace := by
  have h : ((runSteps (uStep demoDB) (.init (start false []))
      (discOne.map .ctl ++ (deliverOne 0 repOn).map .ctl ++
        [.ctl (.arrive 2 repOff), .open (.one 2), .ctl (.deliver 1), .ctl (.deliver 1), .req 0, .req 0])).map fun s =>
      decide (s.crashed = none ∧ s.ctl.crashed = none ∧ s.ctl.disc = .done ∧ s.req 0 = .enc (.one 2) [] [0] ∧
        s.ctl.deliv 1 = .process 0 repOff ∧
        ((uStep demoDB s (.raceDeliver 0 1)).map fun s' => decide (s'.crashed = some .mapRace)) = some true)) = some true := by
    decide +kernel
  rw [Option.map_eq_some_iff] at h
  obtain ⟨s, h1, h2⟩ := h
  obtain ⟨g1, g2, g3, g4, g5, g6⟩ := of_decide_eq_true h2
  rw [Option.map_eq_some_iff] at g6
  obtain ⟨s', g6, g7⟩ := g6
  exact ⟨s, s', ureach_run .init h1, by simp [UDead, g1, g2], g3, g4, g5, g6, of_decide_eq_true g7⟩

/-- C112 is false during the discovery: the list that a request ranges over is written. -/
theorem C112_violated_list_race : ∃ s s', UReach demoDB (start false []) s ∧ ¬ UDead s ∧ s.req 0 = .look .all ∧
    uStep demoDB s (.req 0) = some s' ∧ s'.crashed = some .mapRace := by
  have h : ((runSteps (uStep demoDB) (.init (start false []))
      ([.ctl .startDisc, .ctl (.disc (.nodes [true, true, true]))] ++ List.replicate 8 ud ++ [.open .all, .req 0, ud, ud, ud])).map fun s =>
      decide (s.crashed = none ∧ s.ctl.crashed = none ∧ s.req 0 = .look .all ∧
        ((uStep demoDB s (.req 0)).map fun s' => decide (s'.crashed = some .mapRace)) = some true)) = some true := by
    decide +kernel
  rw [Option.map_eq_some_iff] at h
  obtain ⟨s, h1, h2⟩ := h
  obtain ⟨g1, g2, g3, g4⟩ := of_decide_eq_true h2
  rw [Option.map_eq_some_iff] at g4
  obtain ⟨s', g4, g5⟩ := g4
  exact ⟨s, s', ureach_run .init h1, by simp [UDead, g1, g2], g3, g4, of_decide_eq_true g5⟩

/-- The hypotheses of the theorems about requests are met: after a discovery of two nodes, GET /nodes, GET /nodes/3 and
GET /nodes/9 are made and answered in a fair execution. -/
example : ∃ e : Exec (uStep demoDB), FairUsers e ∧ UReach demoDB (start false []) (e.st 0) ∧
    (e.st 22).ctl.disc = .done ∧ (e.st 22).req 0 = .call .all ∧ (e.st 22).req 1 = .call (.one 3) ∧
    (e.st 22).req 2 = .call (.one 9) ∧ (e.st 22).ctl.list.get 3 = some 1 ∧
    ∃ m, (e.st m).req 0 = .shown .all [0, 1] ∧ (e.st m).req 1 = .shown (.one 3) [1] ∧ (e.st m).req 2 = .missing 9 := by
  let us : List ULabel := [.ctl .startDisc, .ctl (.disc (.nodes [true, true, true]))] ++ List.replicate 17 ud ++
    [.open .all, .open (.one 3), .open (.one 9)] ++ [.req 0, .req 1, .req 2, .req 0, .req 1, .req 2, .req 0, .req 1, .req 0, .req 1, .req 0] ++
    List.replicate 8 .loop
  obtain ⟨e, h1, h2, h3, h4⟩ := ufair_of_run (db := demoDB) (f := false) noFileGood fresh_start (us := us)
    (p := fun s => decide (s.req 0 = .shown .all [0, 1] ∧ s.req 1 = .shown (.one 3) [1] ∧ s.req 2 = .missing 9)) (fun _ _ => rfl)
    (by decide +kernel)
  have v : ∀ n (p : USt → Bool), n < us.length → (runSteps (uStep demoDB) (.init (start false [])) (us.take n)).map p = some true →
      p (e.st n) = true := by
    intro n p hn hp
    cases hr : runSteps (uStep demoDB) (.init (start false [])) (us.take n) with
    | none => rw [hr] at hp; cases hp
    | some t => rw [hr] at hp; rw [h3 n t hn hr]; simpa using hp
  have := v 22 (fun s => decide (s.ctl.disc = .done ∧ s.req 0 = .call .all ∧ s.req 1 = .call (.one 3) ∧ s.req 2 = .call (.one 9) ∧
    s.ctl.list.get 3 = some 1)) (by decide) (by decide +kernel)
  obtain ⟨g1, g2, g3, g4, g5⟩ := of_decide_eq_true this
  exact ⟨e, h1, h2 ▸ .init, g1, g2, g3, g4, g5, us.length, of_decide_eq_true (h4 _ (Nat.le_refl _)).2⟩

end Verif.Props
