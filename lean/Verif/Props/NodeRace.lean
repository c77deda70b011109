import Verif.Lemmas.NodeRace
import Verif.Lemmas.NodeAwake

/-
Theorems about data races on nodes.
-/

set_option linter.unusedSimpArgs false
set_option linter.unusedVariables false
set_option maxHeartbeats 4000000

namespace Verif.Props

open Verif.Go Verif.Model Verif.Lemmas.NodeM Verif.Lemmas.Ctl Verif.Spec.NodeRace Verif.Lemmas.NodeRace

theorem same_self (x : NSt) (f : Field) : Same x x f := by cases f <;> rfl

/-- C120: a step changes only the fields that are listed as written by its goroutine. -/
theorem C120_writes_sound {db : DB} {s s' : CSt} {l : CLabel} {ref : Nat} {f : Field} (h : cStep db s l = some s')
    (hl : ref < s.nHeap) (hw : ∀ a, actorOf l = some a → writes s a ref f = false) :
    Same (s.heap ref) (s'.heap ref) f := by
  ctl_step h
  all_goals try simp only [put_heap, push_heap]
  all_goals simp only [actorOf, Option.some.injEq, forall_eq', reduceCtorEq, false_implies, implies_true, writes, task] at hw
  all_goals first
    | exact same_self _ _
    | skip
  all_goals try simp only [*] at hw
  all_goals unfold updN
  all_goals split
  all_goals try exact same_self _ _
  all_goals try subst ref
  all_goals try simp only [decide_true, Bool.true_and] at hw
  all_goals first
    | omega
    | exact (setField_identify (f := f) (NSt.start (newNode 0)) (by assumption)).2
    | exact nwrites_sound (t := .setup) (by assumption) rfl hw
    | exact nwrites_sound (t := .ident _) (by assumption) ⟨_, rfl⟩ hw
    | exact nwrites_sound (t := .proc _) (by assumption) rfl hw
    | exact nwrites_sound (t := .report _) (by assumption) rfl hw

/-- A node with another value in the field, if it is the node in question. -/
def offNode (ref : Nat) (f : Field) (y : NSt) (r : Nat) (x : NSt) : NSt :=
  if r = ref then Verif.Spec.NodeRace.setField f y x else x

theorem off_heap (s : CSt) (ref : Nat) (f : Field) (y : NSt) (r : Nat) :
    (CSt.setField s ref f y).heap r = offNode ref f y r (s.heap r) := by
  unfold CSt.setField offNode updN; grind

theorem off_rest (ref : Nat) (f : Field) (y : NSt) (r : Nat) (x : NSt) :
    (offNode ref f y r x).crashed = x.crashed ∧ (offNode ref f y r x).lock = x.lock ∧
    (offNode ref f y r x).proc = x.proc ∧ (offNode ref f y r x).node.id = x.node.id ∧
    nodePushes (offNode ref f y r x) = nodePushes x := by
  have h := setField_rest f y x
  have h2 := setField_push f y x
  unfold offNode; split <;> simp [*]

theorem put_off {s : CSt} {ref r : Nat} {f : Field} {y n : NSt}
    (hp : r = ref → nodePushes (s.heap r) < nodePushes n → f ≠ .conn) :
    (CSt.setField s ref f y).put r (offNode ref f y r n) = CSt.setField (s.put r n) ref f y := by
  obtain ⟨e1, -, -, e4, e5⟩ := off_rest ref f y r n
  have e6 := (off_rest ref f y r (s.heap r)).2.2.2.2
  have e7 : nodePushes (s.heap r) < nodePushes n → (offNode ref f y r n).node.hasConn = n.node.hasConn := by
    intro h
    unfold offNode
    split
    · exact setField_conn _ _ (hp (by assumption) h)
    · rfl
  have e8 : updN (CSt.setField s ref f y).heap r (offNode ref f y r n) =
      updN (updN s.heap r n) ref (Verif.Spec.NodeRace.setField f y (updN s.heap r n ref)) := by
    funext k
    simp only [updN, CSt.setField, offNode]
    grind
  unfold CSt.put
  simp only [off_heap, e6, e1, e5, e8, e4]
  by_cases hc : nodePushes (s.heap r) < nodePushes n
  · rw [e7 hc]
    split <;> rfl
  · rw [if_neg (by simp [hc]), if_neg (by simp [hc])]
    rfl

theorem node_off {db : DB} {s : CSt} {ref r : Nat} {f : Field} {y n : NSt} {l : NLabel} {t : Task}
    (h : nodeStep db (s.heap r) l = some n) (ht : Does t l)
    (hr : r = ref → nReads (s.heap ref) t f = false) (hw : r = ref → nWrites (s.heap ref) t f = false) :
    nodeStep db ((CSt.setField s ref f y).heap r) l = some (offNode ref f y r n) ∧
      (r = ref → nodePushes (s.heap r) < nodePushes n → f ≠ .conn) := by
  rw [off_heap]
  constructor
  · unfold offNode
    split
    · subst r; exact nreads_sound y h ht (hr rfl) (hw rfl)
    · exact h
  · rintro rfl hp rfl
    have := no_push h ht (hr rfl)
    omega

theorem identify_off {db : DB} {s : CSt} {ref r : Nat} {f : Field} {y n : NSt}
    (h : nodeStep db (s.heap r) .identify = some n) :
    nodeStep db ((CSt.setField s ref f y).heap r) .identify = some (offNode ref f y r n) ∧
      (r = ref → nodePushes (s.heap r) < nodePushes n → f ≠ .conn) := by
  rw [off_heap]
  constructor
  · unfold offNode
    split
    · exact (setField_identify y h).1
    · exact h
  · intro _ hp
    unfold nodeStep at h
    split at h
    · cases h
    injection h with h
    subst h
    simp [nodePushes] at hp

/-- C120: a field that is listed neither as read nor as written by a goroutine has no influence on its step: with another
value in it the same step is possible and does the same. -/
theorem C120_reads_sound {db : DB} {s s' : CSt} {l : CLabel} {ref : Nat} {f : Field} (y : NSt) (h : cStep db s l = some s')
    (hl : ref < s.nHeap) (hr : ∀ a, actorOf l = some a → reads s a ref f = false)
    (hw : ∀ a, actorOf l = some a → writes s a ref f = false) :
    cStep db (CSt.setField s ref f y) l = some (CSt.setField s' ref f y) := by
  have hh := off_heap s ref f y
  have hid : ∀ r, ((CSt.setField s ref f y).heap r).node.id = (s.heap r).node.id := fun r => by rw [hh]; exact (off_rest ..).2.2.2.1
  have hlk : ∀ r, ((CSt.setField s ref f y).heap r).lock = (s.heap r).lock := fun r => by rw [hh]; exact (off_rest ..).2.1
  have hpr : ∀ r, ((CSt.setField s ref f y).heap r).proc = (s.heap r).proc := fun r => by rw [hh]; exact (off_rest ..).2.2.1
  have hdisc : (CSt.setField s ref f y).disc = s.disc := rfl
  have hdel : (CSt.setField s ref f y).deliv = s.deliv := rfl
  have hsav : (CSt.setField s ref f y).saver = s.saver := rfl
  have hlist : (CSt.setField s ref f y).list = s.list := rfl
  have hnH : (CSt.setField s ref f y).nHeap = s.nHeap := rfl
  have hque : (CSt.setField s ref f y).queue = s.queue := rfl
  have htrig : (CSt.setField s ref f y).nTrig = s.nTrig := rfl
  have hnow : (CSt.setField s ref f y).now = s.now := rfl
  have hfile : (CSt.setField s ref f y).hasFile = s.hasFile := rfl
  unfold cStep at h ⊢
  split at h
  · cases h
  rw [if_neg (by assumption)]
  cases l with
  | startDisc =>
    simp only at h ⊢
    split at h
    · injection h with h; subst h; rw [if_pos (by assumption)]; rfl
    · cases h
  | disc a =>
    simp only [actorOf, Option.some.injEq, forall_eq', reads, writes, task] at hr hw
    simp only [discStep, hdisc] at h ⊢
    cases hq : s.disc with
    | absent => simp [hq] at h
    | done => simp [hq] at h
    | wait =>
      simp only [hq] at h ⊢
      split at h <;> (injection h with h; subst h; rfl)
    | loop todo =>
      simp only [hq, hlist] at h ⊢
      cases todo with
      | nil => simp only at h ⊢; injection h with h; subst h; rfl
      | cons id todo =>
        simp only at h ⊢
        cases hg : s.list.get id with
        | some r => simp only [hg] at h ⊢; injection h with h; subst h; rfl
        | none =>
          simp only [hg] at h ⊢
          injection h with h; subst h
          have e : updN (CSt.setField s ref f y).heap s.nHeap (NSt.start (newNode id)) =
              updN (updN s.heap s.nHeap (NSt.start (newNode id))) ref
                (Verif.Spec.NodeRace.setField f y (updN s.heap s.nHeap (NSt.start (newNode id)) ref)) := by
            funext k
            simp only [updN, CSt.setField]
            grind
          simp only [hnH, e]
          rfl
    | add r todo => simp only [hq] at h ⊢; injection h with h; subst h; rfl
    | locked r todo => simp only [hq] at h ⊢; injection h with h; subst h; rfl
    | writing r todo => simp only [hq, hid] at h ⊢; injection h with h; subst h; rfl
    | unlock r todo => simp only [hq] at h ⊢; injection h with h; subst h; rfl
    | announce r todo => simp only [hq, hid] at h ⊢; injection h with h; subst h; rfl
    | setup r todo =>
      simp only [hq, Option.map_eq_some_iff] at h hr hw ⊢
      obtain ⟨n, h1, h2⟩ := h
      obtain ⟨g1, g2⟩ := node_off (y := y) (ref := ref) (f := f) (t := .setup) h1 rfl (by intro e; subst e; simpa using hr)
        (by intro e; subst e; simpa using hw)
      refine ⟨_, g1, ?_⟩
      rw [put_off g2, ← h2]
      rfl
    | start r todo =>
      simp only [hq, Option.map_eq_some_iff] at h ⊢
      obtain ⟨n, h1, h2⟩ := h
      obtain ⟨g1, g2⟩ := identify_off (y := y) (ref := ref) (f := f) h1
      refine ⟨_, g1, ?_⟩
      rw [put_off g2, ← h2]
      rfl
  | arrive id r => injection h with h; subst h; rfl
  | deliver k =>
    simp only [actorOf, Option.some.injEq, forall_eq', reads, writes, task] at hr hw
    simp only [deliverStep, hdel, hdisc, hlist] at h ⊢
    cases hq : s.deliv k with
    | call id r => simp only [hq] at h ⊢; injection h with h; subst h; rfl
    | look id r =>
      simp only [hq] at h ⊢
      split at h
      · injection h with h; subst h; rw [if_pos (by assumption)]; rfl
      · rw [if_neg (by assumption)]
        split at h <;> (injection h with h; subst h; rfl)
    | process r rep =>
      simp only [hq, Option.map_eq_some_iff] at h hr hw ⊢
      obtain ⟨n, h1, h2⟩ := h
      obtain ⟨g1, g2⟩ := node_off (y := y) (ref := ref) (f := f) (t := .report rep) h1 rfl (by intro e; subst e; simpa using hr)
        (by intro e; subst e; simpa using hw)
      refine ⟨_, g1, ?_⟩
      have e := put_off (s := { s with hist := .applied k r rep :: s.hist }) (y := y) g2
      subst h2
      exact congrArg (fun z : CSt => { z with deliv := updN s.deliv k .done }) e
    | _ => simp [hq] at h
  | node r nl =>
    cases nl with
    | ident i a =>
      simp only [actorOf, Option.some.injEq, forall_eq', reads, writes, task] at hr hw
      simp only [hnH] at h ⊢
      split at h
      · rw [if_pos (by assumption)]
        simp only [Option.map_eq_some_iff] at h ⊢
        obtain ⟨n, h1, h2⟩ := h
        obtain ⟨g1, g2⟩ := node_off (y := y) (ref := ref) (f := f) (t := .ident i) h1 ⟨_, rfl⟩ (by intro e; subst e; simpa using hr)
          (by intro e; subst e; simpa using hw)
        refine ⟨_, g1, ?_⟩
        rw [put_off g2, ← h2]
      · cases h
    | proc j =>
      simp only [actorOf, Option.some.injEq, forall_eq', reads, writes, task] at hr hw
      simp only [hnH] at h ⊢
      split at h
      · rw [if_pos (by assumption)]
        simp only [Option.map_eq_some_iff] at h ⊢
        obtain ⟨n, h1, h2⟩ := h
        obtain ⟨g1, g2⟩ := node_off (y := y) (ref := ref) (f := f) (t := .proc j) h1 rfl (by intro e; subst e; simpa using hr)
          (by intro e; subst e; simpa using hw)
        refine ⟨_, g1, ?_⟩
        rw [put_off g2, ← h2]
      · cases h
    | _ => cases h
  | startSaver =>
    simp only at h ⊢
    split at h
    · injection h with h; subst h; rw [if_pos (by assumption)]; rfl
    · cases h
  | saver op =>
    simp only [saverStep, hsav, hdisc, hlist, htrig, hnow, hfile] at h ⊢
    repeat' split at h
    all_goals first
      | (cases h; done)
      | (injection h with h; subst h)
    all_goals first
      | rfl
      | (rw [if_pos (by assumption)]; rfl)
      | (rw [if_neg (by assumption)]; rfl)
      | (rw [if_pos (by assumption), if_pos (by assumption)]; rfl)
      | (rw [if_pos (by assumption), if_neg (by assumption)]; rfl)
  | raceDeliver k =>
    simp only [actorOf, Option.some.injEq, forall_eq', reads, writes, task] at hr hw
    simp only [hdel, hsav, hlk] at h ⊢
    cases hq : s.deliv k with
    | process r rep =>
      simp only [hq] at h hr hw ⊢
      split at h
      · rename_i hc
        injection h with h; subst h
        have e : writesState ((CSt.setField s ref f y).heap r).node rep = writesState (s.heap r).node rep := by
          rw [hh]
          unfold offNode
          split
          · have e : f ≠ .states := by
              intro e
              subst e
              subst r
              have hc := hc.2.1
              cases rep <;> simp_all [nWrites, changesState, writesState]
            cases f <;> first | rfl | simp at e
          · rfl
        rw [e, if_pos hc]
        rfl
      · cases h
    | _ => simp [hq] at h
  | racePulse r j =>
    simp only [hsav, hlk, hpr] at h ⊢
    split at h
    · injection h with h; subst h; rw [if_pos (by assumption)]; rfl
    · cases h
  | take =>
    simp only [hque] at h ⊢
    cases hq : s.queue with
    | nil => simp [hq] at h
    | cons e q => simp only [hq] at h ⊢; injection h with h; subst h; rfl
  | tick d => injection h with h; subst h; rfl

/-- C120: an access that is listed as made under the lock of the node is made when nobody else has the lock. (An answer
that is of no use is dropped without an access.) -/
theorem C120_guard_sound {db : DB} {file : Bool} {ns : List Node} (hg : GoodFile ns) {s s' : CSt} (hs : CReach db file ns s)
    {l : CLabel} {a : Actor} {ref : Nat} {t : Task} {f : Field} (h : cStep db s l = some s') (hl : ref < s.nHeap)
    (hA : actorOf l = some a) (ht : task s a = some (ref, t))
    (ha : reads s a ref f = true ∨ writes s a ref f = true) (hgd : guarded s a ref f = true) :
    (s.heap ref).lock = none ∨ (∃ j, t = .proc j ∧ (s.heap ref).lock = some j) ∨
      ∃ i, t = .ident i ∧ s'.heap ref = (s.heap ref).goto i .sleep := by
  have hw := ((cinv hg hs).safe ref hl).wake
  have ha : nReads (s.heap ref) t f = true ∨ nWrites (s.heap ref) t f = true := by
    cases a <;> simp_all [reads, writes, task]
  have hgd : nGuarded (s.heap ref) t f = true := by simpa [guarded, ht] using hgd
  have key : ∀ l x', Does t l → nodeStep db (s.heap ref) l = some x' →
      (s.heap ref).lock = none ∨ (∃ j, t = .proc j ∧ (s.heap ref).lock = some j) ∨
      ∃ i, t = .ident i ∧ x' = (s.heap ref).goto i .sleep :=
    fun l x' hd hn => nguard_sound hn hw hd ha hgd
  ctl_step h
  all_goals try simp only [put_heap, push_heap]
  all_goals (simp only [actorOf, Option.some.injEq, reduceCtorEq] at hA)
  all_goals try subst hA
  all_goals try simp only [task, *, Option.some.injEq, Prod.mk.injEq, reduceCtorEq] at ht
  all_goals try (obtain ⟨rfl, rfl⟩ := ht)
  all_goals try simp only [updN, if_true]
  all_goals first
    | exact key _ _ rfl (by assumption)
    | exact key _ _ ⟨_, rfl⟩ (by assumption)
    | (left; simp_all; done)

/-- C120, what holds: in a running controller every pair of accesses that race is in the list of `Unordered`. The full
statement, that there are none, is violated by each of them. -/
theorem C120_only_races_partial {db : DB} {file : Bool} {ns : List Node} (hg : GoodFile ns) {s : CSt} (hs : CReach db file ns s)
    {a b : Actor} {ref : Nat} {f : Field} (hl : ref < s.nHeap) (hr : Race s a b ref f) : Unordered s ref a b f := by
  have hi := cinv hg hs
  have h1 := hi.one ref hl
  have h0 := hi.zero ref hl
  have hw := (hi.safe ref hl).wake
  have hf := hw.fresh
  have hz : ∀ todo, s.disc = .setup ref todo → ∀ i, (s.heap ref).ident i = .absent := by
    intro todo hd i
    have : (s.heap ref).nIdent = 0 := h0 (.inr (.inr (by rw [hd]; rfl)))
    exact hf i (by omega)
  have ho : ∀ i j, i ≠ j → (s.heap ref).ident i = .absent ∨ (s.heap ref).ident j = .absent := by
    intro i j hij
    by_cases hi0 : i = 0
    · exact .inr (hf j (by omega))
    · exact .inl (hf i (by omega))
  obtain ⟨hne, hwr, hb, hgd⟩ := hr
  clear hi hw hf h0 h1 hg hs
  have hsv : reads s .saver ref f = true → s.saver.reads = some ref := by
    simp only [reads, saverReads, SaverAt.reads]
    split <;> simp_all
  cases b with
  | saver =>
    rcases hb with hb | hb
    · exact .saving (hsv hb)
    · simp [writes, task] at hb
  | user r =>
    have hb2 : r = ref ∧ (f = .classes ∨ f = .conn) := by simpa [reads, writes, task] using hb
    clear hb
    obtain ⟨rfl, hb⟩ := hb2
    cases a with
    | disc =>
      cases hd : s.disc <;> simp_all [writes, task, nWrites]
      exact .earlyUser hd
    | deliv k => cases hd : s.deliv k <;> simp_all [writes, task, nWrites]
    | proc q j =>
      simp only [writes, task] at hwr
      rcases hb with rfl | rfl <;> cases hp : (s.heap r).proc j <;> simp_all [nWrites]
    | ident q i =>
      have e : q = r := by simp [writes, task] at hwr; exact hwr.1
      subst e
      have hx : f = .classes ∧ ((s.heap q).ident i = .classes ∨ (s.heap q).ident i = .reply .manufacturer) := by
        rcases hb with rfl | rfl <;> cases hp : (s.heap q).ident i <;> simp_all [writes, task, nWrites]
        all_goals (rename_i p; cases p <;> simp_all)
      obtain ⟨rfl, hx⟩ := hx
      exact .asking hx
    | saver => simp [writes, task] at hwr
    | user _ => simp [writes, task] at hwr
  | disc =>
    have hf : f = .conn := by cases hd : s.disc <;> simp_all [reads, writes, task, nReads, nWrites]
    subst hf
    cases a with
    | disc => exact absurd rfl hne
    | deliv k => cases hd : s.deliv k <;> simp_all [writes, task, nWrites]
    | proc q j => cases hp : (s.heap ref).proc j <;> simp_all [writes, task, nWrites]
    | ident q i => cases hp : (s.heap ref).ident i <;> simp_all [writes, task, nWrites]
    | saver => simp [writes, task] at hwr
    | user _ => simp [writes, task] at hwr
  | deliv k =>
    obtain ⟨r, hd, hb2⟩ : ∃ r, s.deliv k = .process ref r ∧
        (f = .states ∧ changesState r = true ∨ f = .conn ∧ changesState r = true ∨ f = .awake ∧ r = .wakeUp) := by
      cases hd : s.deliv k <;> simp_all [reads, writes, task, nReads, nWrites]
      grind
    have hgk : guarded s (.deliv k) ref f = true := by simp [guarded, task, hd, nGuarded]
    cases a with
    | disc =>
      cases hq : s.disc <;> simp_all [writes, task, nWrites]
      exact .earlyReport hq hd hb2
    | deliv k2 => exact absurd ⟨by cases hq : s.deliv k2 <;> simp_all [guarded, writes, task, nGuarded], hgk⟩ hgd
    | proc q j => exact absurd ⟨by simp [guarded, task, nGuarded], hgk⟩ hgd
    | ident q i =>
      have e : q = ref := by simp [writes, task] at hwr; exact hwr.1
      subst e
      clear hb hgk
      rcases hb2 with ⟨rfl, hc⟩ | ⟨rfl, hc⟩ | ⟨rfl, rfl⟩ <;> cases hp : (s.heap q).ident i <;>
        simp_all [writes, task, nWrites]
      exact .sleepReport hp hd
    | saver => simp [writes, task] at hwr
    | user _ => simp [writes, task] at hwr
  | ident q i =>
    have e : q = ref := by simp [reads, writes, task] at hb; grind
    subst e
    have hp : (s.heap q).ident i ≠ .absent := by
      intro hp
      simp [reads, writes, task, nReads, nWrites, hp] at hb
    cases a with
    | disc =>
      cases hd : s.disc <;> simp_all [writes, task, nWrites]
    | deliv k =>
      cases hd : s.deliv k <;> simp_all [writes, task, nWrites]
      obtain ⟨⟨rfl, rfl⟩, hc⟩ := hwr
      cases hq : (s.heap q).ident i <;> simp_all [reads, writes, task, nReads, nWrites]
    | proc q2 j =>
      have e : q2 = q := by simp [writes, task] at hwr; exact hwr.1
      subst e
      cases hq : (s.heap q2).proc j <;> cases f <;> simp_all [writes, task, nWrites]
      · cases hx : (s.heap q2).ident i <;> simp_all [reads, writes, task, nReads, nWrites]
      · cases hx : (s.heap q2).ident i with
        | awNil p => exact .wakeSleep hq (.inl hx)
        | awMake p => exact .wakeSleep hq (.inr (.inl hx))
        | awRet p => exact .wakeSleep hq (.inr (.inr hx))
        | _ => simp_all [reads, writes, task, nReads, nWrites]
    | ident q2 i2 =>
      have e : q2 = q := by simp [writes, task] at hwr; exact hwr.1
      subst e
      have hx : i2 ≠ i := by rintro rfl; exact hne rfl
      have := (ho i2 i hx).resolve_right hp
      simp [writes, task, nWrites, this] at hwr
    | saver => simp [writes, task] at hwr
    | user _ => simp [writes, task] at hwr
  | proc q j =>
    have e : q = ref := by simp [reads, writes, task] at hb; grind
    subst e
    have hgk : guarded s (.proc q j) q f = true := by simp [guarded, task, nGuarded]
    cases a with
    | disc =>
      cases hq : s.disc <;> simp_all [writes, task, nWrites]
      cases hx : (s.heap q).proc j <;> simp_all [reads, nReads, task]
      exact .earlyPulse hq hx
    | deliv k2 => exact absurd ⟨by cases hq : s.deliv k2 <;> simp_all [guarded, writes, task, nGuarded], hgk⟩ hgd
    | proc q2 j2 => exact absurd ⟨by simp [guarded, task, nGuarded], hgk⟩ hgd
    | ident q2 i =>
      have e : q2 = q := by simp [writes, task] at hwr; exact hwr.1
      subst e
      cases hp : (s.heap q2).proc j <;> cases f <;> simp_all [reads, writes, task, nReads, nWrites]
      all_goals (cases hx : (s.heap q2).ident i <;> simp_all [nWrites])
      · exact .sleepWake hx (.inl hp)
      · exact .sleepWake hx (.inr hp)
    | saver => simp [writes, task] at hwr
    | user _ => simp [writes, task] at hwr

/-! ### The races -/

/-- The field holds something else (the fields that are raced on). -/
def nChanged (x x' : NSt) : Field → Bool
  | .conn => decide (x'.node.hasConn ≠ x.node.hasConn)
  | .classes => decide (x'.node.classes ≠ x.node.classes)
  | .awake => decide (x'.awake ≠ x.awake)
  | .states => decide (x'.node.stateBool ≠ x.node.stateBool)
  | _ => false

theorem not_nsame {x x' : NSt} {f : Field} (h : nChanged x x' f = true) : ¬ Same x x' f := by
  intro hs
  unfold Same at hs
  cases f <;> simp only [nChanged, setField, decide_eq_true_eq, Bool.false_eq_true] at h hs
  · exact h (congrArg (fun x => x.node.classes) hs).symm
  · exact h (congrArg (fun x => x.node.stateBool) hs).symm
  · exact h (congrArg (fun x => x.node.hasConn) hs).symm
  · exact h (congrArg (fun x => x.awake) hs).symm

/-- A race whose write is more than an entry in the table of accesses: the step of `a` changes the field. -/
def NRealRace (db : DB) (s : CSt) (a b : Actor) (ref : Nat) (f : Field) : Prop :=
  Race s a b ref f ∧ ∃ l s', actorOf l = some a ∧ cStep db s l = some s' ∧ ¬ Same (s.heap ref) (s'.heap ref) f

theorem nrace_of_run {db : DB} {file : Bool} {ns : List Node} (ls : List CLabel) (a b : Actor) (ref : Nat) (f : Field) (l : CLabel)
    (h : (cRun db (start file ns) ls).map (fun s => decide (a ≠ b) && writes s a ref f && (reads s b ref f || writes s b ref f) &&
      !(guarded s a ref f && guarded s b ref f) && decide (ref < s.nHeap) && decide (actorOf l = some a) &&
      ((cStep db s l).map (fun s' => nChanged (s.heap ref) (s'.heap ref) f)).getD false) = some true) :
    ∃ s, CReach db file ns s ∧ ref < s.nHeap ∧ NRealRace db s a b ref f := by
  cases hr : cRun db (start file ns) ls with
  | none => rw [hr] at h; cases h
  | some s =>
    rw [hr] at h
    simp only [Option.map_some, Option.some.injEq, Bool.and_eq_true, Bool.or_eq_true, decide_eq_true_eq, Bool.not_eq_true',
      Bool.and_eq_false_iff] at h
    obtain ⟨⟨h, hl⟩, hs⟩ := h
    refine ⟨s, ⟨ls, hr⟩, h.2, ⟨h.1.1.1.1, h.1.1.1.2, h.1.1.2, ?_⟩, l, ?_⟩
    · rintro ⟨h1, h2⟩
      rcases h.1.2 with h3 | h3
      · rw [h1] at h3; cases h3
      · rw [h2] at h3; cases h3
    · cases hc : cStep db s l with
      | none => rw [hc] at hs; exact absurd hs (by simp)
      | some s' => rw [hc] at hs; exact ⟨s', hl, rfl, not_nsame hs⟩

/-- A database without devices. -/
def rDB : DB := ⟨fun _ _ => some [], fun _ _ _ => none⟩

/-- The stick names node 2; it is announced and about to be set up. -/
def rFound : List CLabel := [.startDisc, .disc (.nodes [true, true]), .disc .nothing, .disc .nothing, .disc .nothing, .disc .nothing,
  .disc .nothing, .disc .nothing]

/-- A report of node 2 has found the node. -/
def rReport (r : Report) : List CLabel := [.arrive 2 r, .deliver 0, .deliver 0]

/-- C120, violated on `pushEventFunc`: a report arrives from a node that is in the list and not yet set up. -/
theorem C120_violated_setup (file : Bool) :
    ∃ s, CReach rDB file [] s ∧ 0 < s.nHeap ∧ NRealRace rDB s .disc (.deliv 0) 0 .conn :=
  nrace_of_run (rFound ++ rReport (.switchBinaryV1 true true)) _ _ _ _ (.disc .nothing) (by cases file <;> decide +kernel)

/-- C120, violated on `connection`: a user sends a command to a node that is in the list and not yet set up. -/
theorem C120_violated_early_command (file : Bool) :
    ∃ s, CReach rDB file [] s ∧ 0 < s.nHeap ∧ NRealRace rDB s .disc (.user 0) 0 .conn :=
  nrace_of_run rFound _ _ _ _ (.disc .nothing) (by cases file <;> decide +kernel)

/-- The node is set up, its identification is started and knows the protocol info. -/
def rInfo (p : ProtocolInfo) : List CLabel := rFound ++ [.disc .nothing, .disc .nothing, .node 0 (.ident 0 .nothing),
  .node 0 (.ident 0 (.info p))]

/-- A node that sleeps. -/
def rSleepy : ProtocolInfo := { (default : ProtocolInfo) with listening := false }

/-- C120, violated on `CommandClasses`: a user sends a command while the identification finds the classes out. -/
theorem C120_violated_classes (file : Bool) :
    ∃ s, CReach rDB file [] s ∧ 0 < s.nHeap ∧ NRealRace rDB s (.ident 0 0) (.user 0) 0 .classes :=
  nrace_of_run (rInfo rSleepy) _ _ _ _ (.node 0 (.ident 0 .nothing)) (by cases file <;> decide +kernel)

/-- C120, violated on `awake`: a wake-up report looks for the channel (110) while `isAwake` makes it (77). -/
theorem C120_violated_sleep (file : Bool) :
    ∃ s, CReach rDB file [] s ∧ 0 < s.nHeap ∧ NRealRace rDB s (.ident 0 0) (.deliv 0) 0 .awake :=
  nrace_of_run (rInfo rSleepy ++ List.replicate 4 (.node 0 (.ident 0 .nothing)) ++ rReport .wakeUp) _ _ _ _
    (.node 0 (.ident 0 .nothing)) (by cases file <;> decide +kernel)

/-- C120, violated on `awake`: a wake-up report forgets the channel (112) while `isAwake` fetches it (80). -/
theorem C120_violated_wake (file : Bool) :
    ∃ s, CReach rDB file [] s ∧ 0 < s.nHeap ∧ NRealRace rDB s (.proc 0 0) (.ident 0 0) 0 .awake :=
  nrace_of_run (rInfo rSleepy ++ List.replicate 5 (.node 0 (.ident 0 .nothing)) ++ rReport .wakeUp ++
    [.deliver 0, .node 0 (.proc 0)]) _ _ _ _ (.node 0 (.proc 0)) (by cases file <;> decide +kernel)

/-- C120, violated on the states: a report changes them while the file is written. -/
theorem C120_violated_saving :
    ∃ s, CReach rDB true [] s ∧ 0 < s.nHeap ∧ NRealRace rDB s (.deliv 0) .saver 0 .states :=
  nrace_of_run (rInfo rSleepy ++ rReport (.switchBinaryV1 true true) ++ [.startSaver, .saver .trigger, .tick 10000, .saver .timer,
    .saver .differ, .saver .go, .saver .go]) _ _ _ _ (.deliver 0) (by decide +kernel)

/-- A map of states with entries is written. -/
def putInto {α β : Type} (m m' : Option (List (α × β))) : Prop := m ≠ none ∧ m ≠ some [] ∧ m' ≠ m

theorem putInto_entries {α β : Type} {m m' : Option (List (α × β))} (h : putInto m m') : hasEntries m = true := by
  obtain ⟨h1, h2, -⟩ := h
  cases m with
  | none => exact absurd rfl h1
  | some l => cases l with
    | nil => exact absurd rfl h2
    | cons => rfl

theorem report_puts {x : NSt} {r : Report}
    (hp : putInto x.node.stateBool (reportStep x r).node.stateBool ∨ putInto x.node.stateFloat (reportStep x r).node.stateFloat) :
    writesState x.node r = true := by
  have hb : putInto x.node.stateBool (reportStep x r).node.stateBool → hasEntries x.node.stateBool = true := putInto_entries
  have hf : putInto x.node.stateFloat (reportStep x r).node.stateFloat → hasEntries x.node.stateFloat = true := putInto_entries
  have hne : putInto x.node.stateBool (reportStep x r).node.stateBool → (reportStep x r).node.stateBool ≠ x.node.stateBool :=
    fun h => h.2.2
  have hnf : putInto x.node.stateFloat (reportStep x r).node.stateFloat → (reportStep x r).node.stateFloat ≠ x.node.stateFloat :=
    fun h => h.2.2
  generalize putInto x.node.stateBool (reportStep x r).node.stateBool = P at *
  generalize putInto x.node.stateFloat (reportStep x r).node.stateFloat = Q at *
  cases r <;> simp only [writesState, reportStep, Node.applyState, Node.alarmOn, Node.setBool, Node.setFloat, mapPut, NSt.push] at * <;>
    cases h1 : x.node.stateBool <;> cases h2 : x.node.stateFloat <;> simp_all [Except.bind] <;> grind

/-- What the races on the states come to: whenever a report would put something into a map that has entries, while the
file is written from it, the runtime may find out and kill the process. -/
theorem C120_violated_kills {db : DB} {s s' : CSt} {k ref : Nat} {r : Report} (hd : s.deliv k = .process ref r)
    (hv : s.saver.reads = some ref) (h : cStep db s (.deliver k) = some s')
    (hp : putInto (s.heap ref).node.stateBool (s'.heap ref).node.stateBool ∨
      putInto (s.heap ref).node.stateFloat (s'.heap ref).node.stateFloat) :
    ∃ s'', cStep db s (.raceDeliver k) = some s'' ∧ s''.crashed = some .mapRace := by
  unfold cStep at h ⊢
  split at h
  · cases h
  next hc =>
  rw [if_neg hc]
  simp only [deliverStep, hd, Option.map_eq_some_iff] at h ⊢
  obtain ⟨n, h1, rfl⟩ := h
  unfold nodeStep at h1
  split at h1
  · cases h1
  simp only at h1
  split at h1
  · next hl =>
    injection h1 with h1
    subst h1
    have e : ({ ({ s with hist := .applied k ref r :: s.hist }.put ref (reportStep (s.heap ref) r)) with
        deliv := updN s.deliv k .done } : CSt).heap ref = reportStep (s.heap ref) r := by
      unfold CSt.put; dsimp only; split <;> simp [updN]
    rw [e] at hp
    rw [if_pos ⟨hv, report_puts hp, hl⟩]
    exact ⟨_, rfl, rfl⟩
  · cases h1

/-- A node that was on is reported to be off while the file is written. -/
example : ∃ s s', CReach rDB true [] s ∧ s.deliv 1 = .process 0 (.switchBinaryV1 false true) ∧ s.saver.reads = some 0 ∧
    cStep rDB s (.deliver 1) = some s' ∧ putInto (s.heap 0).node.stateBool (s'.heap 0).node.stateBool := by
  have h : ((cRun rDB (start true []) (rInfo rSleepy ++ rReport (.switchBinaryV1 true true) ++ [.deliver 0,
      .arrive 2 (.switchBinaryV1 false true), .deliver 1, .deliver 1, .startSaver, .saver .trigger, .tick 10000, .saver .timer,
      .saver .differ, .saver .go, .saver .go])).bind fun s => (cStep rDB s (.deliver 1)).map fun s' =>
      decide (s.deliv 1 = .process 0 (.switchBinaryV1 false true)) && decide (s.saver.reads = some 0) &&
      decide ((s.heap 0).node.stateBool ≠ none) && decide ((s.heap 0).node.stateBool ≠ some []) &&
      decide ((s'.heap 0).node.stateBool ≠ (s.heap 0).node.stateBool)) = some true := by decide +kernel
  rw [Option.bind_eq_some_iff] at h
  obtain ⟨s, h1, h2⟩ := h
  rw [Option.map_eq_some_iff] at h2
  obtain ⟨s', h2, h3⟩ := h2
  simp only [Bool.and_eq_true, decide_eq_true_eq] at h3
  exact ⟨s, s', ⟨_, h1⟩, h3.1.1.1.1, h3.1.1.1.2, h2, h3.1.1.2, h3.1.2, h3.2⟩

/-! ### What does not race -/

/-- Without a file nothing is compared and nothing is encoded. -/
theorem no_saving {db : DB} {ns : List Node} {s : CSt} (hs : CReach db false ns s) (ref : Nat) : s.saver.reads ≠ some ref := by
  obtain ⟨ls, hs⟩ := hs
  have h0 : ∀ (ns : List Node) (s : CSt), s.hasFile = false → s.saver = .absent →
      (s.loadNodes ns).hasFile = false ∧ (s.loadNodes ns).saver = .absent := by
    intro ns
    induction ns with
    | nil => intro s h1 h2; exact ⟨h1, h2⟩
    | cons n ns ih => intro s h1 h2; exact ih _ h1 h2
  have := crun_induct (db := db)
    (P := fun s => s.hasFile = false ∧ (s.saver = .absent ∨ s.saver = .idle ∨ ∃ t, s.saver = .window t)) (fun s l s' hp hs => by
      obtain ⟨p1, p2⟩ := hp
      ctl_step hs
      all_goals first
        | exact ⟨p1, p2⟩
        | (refine ⟨by simpa using p1, ?_⟩; simp_all; done)) ls _ _ ⟨(h0 ns _ rfl rfl).1, .inl (h0 ns _ rfl rfl).2⟩ hs
  rcases this.2 with h | h | ⟨t, h⟩ <;> simp [h, SaverAt.reads]

/-- While the file is not being written, no two goroutines race on the states of a node: reports are applied one after
the other, however many goroutines deliver them. The same holds for all that an identification finds out, but for the
command classes, which `On`, `Off` and `Level` read without the lock. -/
theorem C120_states_partial {db : DB} {file : Bool} {ns : List Node} (hg : GoodFile ns) {s : CSt} (hs : CReach db file ns s)
    {a b : Actor} {ref : Nat} {f : Field} (hl : ref < s.nHeap) (hv : s.saver.reads ≠ some ref)
    (hf : f ≠ .classes ∧ f ≠ .conn ∧ f ≠ .awake) : ¬ Race s a b ref f := by
  intro hr
  cases C120_only_races_partial hg hs hl hr <;> simp_all

/-- A controller without a file has only the races on `connection`, `awake` and, with users, `CommandClasses`. -/
theorem C120_no_file_partial {db : DB} {ns : List Node} (hg : GoodFile ns) {s : CSt} (hs : CReach db false ns s)
    {a b : Actor} {ref : Nat} {f : Field} (hl : ref < s.nHeap) (hf : f ≠ .classes ∧ f ≠ .conn ∧ f ≠ .awake) :
    ¬ Race s a b ref f := C120_states_partial hg hs hl (no_saving hs ref) hf

/-- Once a node is set up and its identification is over, only writing the file races with what changes the node. -/
theorem C120_identified_partial {db : DB} {file : Bool} {ns : List Node} (hg : GoodFile ns) {s : CSt} (hs : CReach db file ns s)
    {a b : Actor} {ref : Nat} {f : Field} (hl : ref < s.nHeap) (hd : ∀ todo, s.disc ≠ .setup ref todo)
    (hi : ∀ i, (s.heap ref).ident i = .absent ∨ (s.heap ref).ident i = .done) (hr : Race s a b ref f) :
    b = .saver ∧ s.saver.reads = some ref := by
  cases C120_only_races_partial hg hs hl hr <;> first
    | (constructor <;> simp_all; done)
    | (exfalso; grind)

/-- A node that is awake, such as one that listens all the time, has no race on the channel of its wake-ups. -/
theorem C120_awake_partial {db : DB} {file : Bool} {ns : List Node} (hg : GoodFile ns) {s : CSt} (hs : CReach db file ns s)
    {a b : Actor} {ref : Nat} (hl : ref < s.nHeap) (ha : (s.heap ref).node.isAwake = true)
    (hv : s.saver.reads ≠ some ref) : ¬ Race s a b ref .awake := by
  intro hr
  have hk := (wakeInv_all hg hs hl).2 ((cinv hg hs).one ref hl) ha
  generalize hf : Field.awake = f at hr
  cases C120_only_races_partial hg hs hl hr with
  | saving h => exact hv h
  | asking => cases hf
  | earlyUser => cases hf
  | earlyReport => cases hf
  | earlyPulse => cases hf
  | sleepReport h =>
    rename_i i k p _
    have := hk i; rw [h] at this; cases this
  | sleepWake h =>
    rename_i i j p _
    have := hk i; rw [h] at this; cases this
  | wakeSleep hj h =>
    rename_i i j p
    have := hk i
    rcases h with h | h | h <;> (rw [h] at this; cases this)

/-- Two reports are about to change the states of a node whose identification writes its protocol info; the saver is not
reading. -/
example : ∃ s, CReach rDB true [] s ∧ 0 < s.nHeap ∧ s.saver.reads ≠ some 0 ∧ writes s (.deliv 0) 0 .states = true ∧
    writes s (.deliv 1) 0 .states = true ∧ writes s (.ident 0 0) 0 .info = true := by
  have h : ((cRun rDB (start true []) (rFound ++ [.disc .nothing, .disc .nothing, .node 0 (.ident 0 .nothing)] ++
      rReport (.switchBinaryV1 true true) ++ [.arrive 2 (.switchBinaryV1 false true), .deliver 1, .deliver 1])).map fun s =>
      decide (0 < s.nHeap) && decide (s.saver.reads ≠ some 0) && writes s (.deliv 0) 0 .states &&
        writes s (.deliv 1) 0 .states && writes s (.ident 0 0) 0 .info) = some true := by decide +kernel
  cases hr : cRun rDB (start true []) (rFound ++ [.disc .nothing, .disc .nothing, .node 0 (.ident 0 .nothing)] ++
      rReport (.switchBinaryV1 true true) ++ [.arrive 2 (.switchBinaryV1 false true), .deliver 1, .deliver 1]) with
  | none => rw [hr] at h; cases h
  | some s =>
    rw [hr] at h
    simp only [Option.map_some, Option.some.injEq, Bool.and_eq_true, decide_eq_true_eq] at h
    exact ⟨s, ⟨_, hr⟩, h.1.1.1.1, h.1.1.1.2, h.1.1.2, h.1.2, h.2⟩

/-- A node that listens, set up and identified. -/
def rDone : List CLabel :=
  let n (a : Answer) : CLabel := .node 0 (.ident 0 a)
  let k (j : Nat) : List CLabel := List.replicate j (n .nothing)
  rInfo { (default : ProtocolInfo) with listening := true } ++ k 4 ++ [n (.report (.manufacturerSpecific default))] ++ k 3 ++
    [n (.report (.multiChannelEndpoints default))] ++ k 16

/-- A node that listens, is set up and identified, and a report for it while the file is written. -/
example : ∃ s, CReach rDB true [] s ∧ 0 < s.nHeap ∧ (∀ i, (s.heap 0).ident i = .absent ∨ (s.heap 0).ident i = .done) ∧
    (s.heap 0).node.isAwake = true ∧ (∀ todo, s.disc ≠ .setup 0 todo) ∧ Race s (.deliv 0) .saver 0 .states := by
  have h : (cRun rDB (start true []) (rDone ++ rReport (.switchBinaryV1 true true) ++ [.startSaver, .saver .trigger, .tick 10000,
      .saver .timer, .saver .differ, .saver .go, .saver .go])).map (fun s =>
      (decide (Actor.deliv 0 ≠ .saver) && writes s (.deliv 0) 0 .states && (reads s .saver 0 .states || writes s .saver 0 .states) &&
      !(guarded s (.deliv 0) 0 .states && guarded s .saver 0 .states) && decide (0 < s.nHeap)) &&
      decide ((s.heap 0).ident 0 = .done) && (s.heap 0).node.isAwake &&
      (match s.disc with | .setup _ _ => false | _ => true)) = some true := by decide +kernel
  cases hr : cRun rDB (start true []) (rDone ++ rReport (.switchBinaryV1 true true) ++ [.startSaver, .saver .trigger, .tick 10000,
      .saver .timer, .saver .differ, .saver .go, .saver .go]) with
  | none => rw [hr] at h; cases h
  | some s =>
    rw [hr] at h
    simp only [Option.map_some, Option.some.injEq, Bool.and_eq_true, Bool.or_eq_true, decide_eq_true_eq, Bool.not_eq_true',
      Bool.and_eq_false_iff] at h
    obtain ⟨⟨⟨⟨⟨⟨⟨h1, h2⟩, h3⟩, h4⟩, h5⟩, h6⟩, h7⟩, h8⟩ := h
    have hg : GoodFile [] := ⟨by simp, by simp⟩
    have hc : CReach rDB true [] s := ⟨_, hr⟩
    refine ⟨s, hc, h5, fun i => ?_, h7, ?_, h1, h2, h3, ?_⟩
    · by_cases hi : i = 0
      · subst hi; exact .inr h6
      · exact .inl ((wakeInv_all hg hc h5).1.fresh i (Nat.le_trans ((cinv hg hc).one 0 h5) (by omega)))
    · intro todo e; rw [e] at h8; cases h8
    · rintro ⟨q1, q2⟩
      rcases h4 with h3 | h3
      · rw [q1] at h3; cases h3
      · rw [q2] at h3; cases h3

end Verif.Props
