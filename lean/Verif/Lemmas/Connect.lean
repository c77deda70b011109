import Verif.Spec.Connect

set_option linter.unusedSimpArgs false

namespace Verif.Lemmas.Connect

open Verif.Model.Connect Verif.Spec

theorem exec_steps {s t : St} {ls : List Label} (h : exec s ls = some t) : Steps s t := by
  suffices ∀ (ls : List Label) (r s : St), Steps r s → exec s ls = some t → Steps r t from this ls s s (.refl s) h
  intro ls
  induction ls with
  | nil => intro r s hr h; injection h with h; subst h; exact hr
  | cons l ls ih =>
    intro r s hr h
    rw [exec] at h
    cases hs : step s l with
    | none => rw [hs] at h; cases h
    | some u => rw [hs] at h; exact ih r u (.tail l hr hs) h

theorem steps_trans {a b c : St} (h1 : Steps a b) (h2 : Steps b c) : Steps a c := by
  induction h2 with
  | refl => exact h1
  | tail l _ h ih => exact .tail l ih h

theorem prompt_steps {a b : St} (h : PromptSteps a b) : Steps a b := by
  induction h with
  | refl => exact .refl _
  | tail l _ h _ ih => exact .tail l ih h

/-- What holds in every reachable state -/
structure Inv (s : St) : Prop where
  future : ∀ k, s.cur < k → s.outcome k = none
  opening : s.loop = .opening → s.outcome s.cur = none
  offer : s.loop = .offer → s.outcome s.cur = some false
  reading : s.loop = .reading → s.outcome s.cur = some true
  past : ∀ k, k < s.cur → s.outcome k ≠ none
  present : s.loop ≠ .opening → s.outcome s.cur ≠ none
  ann : ∀ k, s.ann k ≠ .absent ↔ s.outcome k = some true
  fired : ∀ k, s.ann k = .send ∨ s.ann k = .set ∨ s.ann k = .done → s.openTime k + 200 ≤ s.now
  openTime : ∀ k, s.outcome k ≠ none → s.openTime k ≤ s.now
  lost : ∀ k, s.outcome k = some true → ¬ (k = s.cur ∧ s.loop = .reading) →
    ∃ l, s.lostTime k = some l ∧ s.openTime k ≤ l ∧ l ≤ s.now
  notLost : ∀ k, (s.outcome k ≠ some true ∨ (k = s.cur ∧ s.loop = .reading)) → s.lostTime k = none
  err : ∀ k, s.main = .returned (some k) → s.outcome k = some false
  ok : s.main = .returned none → ∃ k, s.outcome k = some true ∧ s.openTime k + 200 ≤ s.now
  settled : s.loop = .reading → s.ann s.cur = .done → s.connected = true
  up : s.connected = true → s.loop ≠ .reading → s.loop ≠ .ending →
    ∃ k t l, s.setTime k = some t ∧ s.lostTime k = some l ∧ l ≤ t ∧ t ≤ s.now
  setTime : ∀ k t, s.setTime k = some t → s.ann k = .done ∧ t ≤ s.now
  sleeping : ∀ d, s.loop = .sleep d → ∀ k l, s.lostTime k = some l → l + 1000 ≤ d

theorem inv_init : Inv init := by
  constructor <;> simp [init]

set_option maxHeartbeats 1000000 in
theorem inv_step {s t : St} {l : Label} (h : Inv s) (hs : step s l = some t) : Inv t := by
  obtain ⟨h1, h2, h3, h4, h5, h6, h7, h8, h9, h10, h11, h12, h13, h14, h15, h16, h17⟩ := h
  cases l with
  | tick =>
    injection hs with hs; subst hs
    constructor <;> dsimp only
    case lost => clear h15 h17 h16 h5 h6 h7 h8 h9; grind
    case ok => intro h; obtain ⟨k, a, b⟩ := h13 h; exact ⟨k, a, by omega⟩
    case up =>
      intro a b c
      obtain ⟨k, t, l, d, e, f, g⟩ := h15 a b c
      exact ⟨k, t, l, d, e, f, by omega⟩
    all_goals clear h10 h13 h15; grind
  | wait =>
    simp only [step] at hs
    split at hs
    · injection hs with hs; subst hs
      constructor <;> dsimp only
      case err => intro k h; cases h
      case ok => intro h; cases h
      all_goals assumption
    · cases hs
  | opened ok =>
    simp only [step] at hs
    split at hs
    · rename_i hl
      have hc := h2 hl
      injection hs with hs; subst hs
      have hcl : s.lostTime s.cur = none := h11 _ (.inl (by simp [hc]))
      have hlost : ∀ k, k ≠ s.cur → s.outcome k = some true → ∃ l, s.lostTime k = some l ∧ s.openTime k ≤ l ∧ l ≤ s.now :=
        fun k hk ho => h10 k ho fun h => hk h.1
      constructor <;> dsimp only
      case lost =>
        intro k ho hn
        by_cases hk : k = s.cur
        · subst hk; cases ok <;> simp [upd] at ho hn
        · simp only [upd, hk, if_false] at ho ⊢
          exact hlost k hk ho
      case ok =>
        intro h; obtain ⟨k, a, b⟩ := h13 h
        have hk : k ≠ s.cur := by intro e; subst e; rw [hc] at a; cases a
        exact ⟨k, by simpa [upd, hk] using a, by simpa [upd, hk] using b⟩
      case up =>
        intro a b c
        exact h15 a (by simp [hl]) (by simp [hl])
      case err =>
        intro k h
        have a := h12 k h
        have hk : k ≠ s.cur := by intro e; subst e; rw [hc] at a; cases a
        simpa [upd, hk] using a
      case ann => clear h10 h13 h15 h17 h16 hlost; intro k; cases ok <;> simp [upd] <;> grind
      case notLost => clear h10 h13 h15 h17 h16 hlost; intro k h; by_cases hk : k = s.cur
                      · subst hk; exact hcl
                      · exact h11 k (by simpa [upd, hk] using h)
      case sleeping => intro d h; cases ok <;> simp at h
      case setTime =>
        intro k t h
        have := h16 k t h
        have hk : k ≠ s.cur := by intro e; subst e; have := (h7 s.cur).1 (by simp [this]); rw [hc] at this; cases this
        cases ok <;> simpa [upd, hk] using this
      all_goals clear h10 h13 h15 h17 h16 hlost h12 h11; cases ok <;> simp [upd] <;> grind
    · cases hs
  | offer =>
    simp only [step] at hs
    split at hs
    · rename_i hl
      have hc := h3 hl
      injection hs with hs; subst hs
      have hm : (trySend s (some s.cur)).main = s.main ∨ (trySend s (some s.cur)).main = .returned (some s.cur) := by
        unfold trySend; split <;> simp
      have he : trySend s (some s.cur) = { s with main := (trySend s (some s.cur)).main } := by
        unfold trySend; split <;> rfl
      rw [he]
      generalize (trySend s (some s.cur)).main = m at hm
      constructor <;> dsimp only
      case lost => intro k ho _; exact h10 k ho (by simp [hl])
      case ok => intro h; rcases hm with hm | hm
                 · exact h13 (hm ▸ h)
                 · rw [h] at hm; cases hm
      case err => intro k h; rcases hm with hm | hm
                  · exact h12 k (hm ▸ h)
                  · rw [h] at hm; cases hm; exact hc
      case up => intro _ _ h; exact absurd rfl h
      all_goals clear h10 h13 h15; grind
    · cases hs
  | lost =>
    simp only [step] at hs
    split at hs
    · rename_i hl
      have hc := h4 hl
      injection hs with hs; subst hs
      constructor <;> dsimp only
      case lost =>
        intro k ho _
        by_cases hk : k = s.cur
        · subst hk; exact ⟨s.now, by simp [upd], h9 _ (by simp [hc]), Nat.le_refl _⟩
        · simp only [upd, hk, if_false]; exact h10 k ho fun h => hk h.1
      case up => intro _ _ h; exact absurd rfl h
      case ok => exact h13
      case sleeping => intro d h; cases h
      case notLost =>
        intro k h
        have hk : k ≠ s.cur := by intro e; subst e; simp [hc] at h
        simp only [upd, hk, if_false]
        exact h11 k (by simpa [hk] using h)
      all_goals clear h10 h13 h15; grind
    · cases hs
  | deferred =>
    simp only [step] at hs
    split at hs
    · rename_i hl
      injection hs with hs; subst hs
      constructor <;> dsimp only
      case lost => intro k ho _; exact h10 k ho (by simp [hl])
      case up => intro h; cases h
      case sleeping =>
        intro d h k l hk
        cases h
        have ho : s.outcome k = some true := by
          by_cases e : s.outcome k = some true
          · exact e
          · rw [h11 k (.inl e)] at hk; cases hk
        obtain ⟨l', a, _, b⟩ := h10 k ho (by simp [hl])
        rw [a] at hk; cases hk; omega
      all_goals clear h10 h15; grind
    · cases hs
  | wake =>
    simp only [step] at hs
    split at hs
    · rename_i d hl
      split at hs
      · injection hs with hs; subst hs
        have hn := h1 (s.cur + 1) (by omega)
        have hp := h6 (by simp [hl])
        constructor <;> dsimp only
        case lost => intro k ho _; exact h10 k ho (by simp [hl])
        case up => intro a _ _; exact h15 a (by simp [hl]) (by simp [hl])
        case future => intro k hk; exact h1 k (by omega)
        case past => intro k hk; by_cases e : k = s.cur
                     · subst e; exact hp
                     · exact h5 k (by omega)
        case notLost => intro k h; exact h11 k (by simpa [hl] using h)
        all_goals clear h10 h15 h17 h1 h5; grind
      · cases hs
    · cases hs
  | ann j =>
    simp only [step] at hs
    split at hs
    · rename_i ha
      split at hs
      · injection hs with hs; subst hs
        constructor <;> dsimp only
        case ann => intro k; rw [← h7 k]; by_cases e : k = j <;> simp [upd, e, ha]
        case fired => intro k h; by_cases e : k = j
                      · subst e; assumption
                      · exact h8 k (by simpa [upd, e] using h)
        case settled => intro a b; by_cases e : s.cur = j
                        · simp [upd, e] at b
                        · exact h14 a (by simpa [upd, e] using b)
        case setTime =>
          intro k t h
          have := h16 k t h
          have hk : k ≠ j := by intro e; subst e; rw [ha] at this; cases this.1
          simpa [upd, hk] using this
        all_goals assumption
      · cases hs
    · rename_i ha
      injection hs with hs; subst hs
      have hm : (trySend s none).main = s.main ∨ (trySend s none).main = .returned none := by
        unfold trySend; split <;> simp
      have he : trySend s none = { s with main := (trySend s none).main } := by
        unfold trySend; split <;> rfl
      rw [he]
      generalize (trySend s none).main = m at hm
      constructor <;> dsimp only
      case ann => intro k; rw [← h7 k]; by_cases e : k = j <;> simp [upd, e, ha]
      case fired => intro k h; by_cases e : k = j
                    · subst e; exact h8 k (.inl ha)
                    · exact h8 k (by simpa [upd, e] using h)
      case settled => intro a b; by_cases e : s.cur = j
                      · simp [upd, e] at b
                      · exact h14 a (by simpa [upd, e] using b)
      case setTime =>
        intro k t h
        have := h16 k t h
        have hk : k ≠ j := by intro e; subst e; rw [ha] at this; cases this.1
        simpa [upd, hk] using this
      case ok => intro h; rcases hm with hm | hm
                 · exact h13 (hm ▸ h)
                 · exact ⟨j, (h7 j).1 (by simp [ha]), h8 j (.inl ha)⟩
      case err => intro k h; rcases hm with hm | hm
                  · exact h12 k (hm ▸ h)
                  · rw [h] at hm; cases hm
      all_goals assumption
    · rename_i ha
      injection hs with hs; subst hs
      have ho := (h7 j).1 (by simp [ha])
      constructor <;> dsimp only
      case ann => intro k; rw [← h7 k]; by_cases e : k = j <;> simp [upd, e, ha]
      case fired => intro k h; by_cases e : k = j
                    · subst e; exact h8 k (.inr (.inl ha))
                    · exact h8 k (by simpa [upd, e] using h)
      case settled => intro _ _; rfl
      case up =>
        intro _ a b
        obtain ⟨l, p, _, q⟩ := h10 j ho (fun h => a h.2)
        exact ⟨j, s.now, l, by simp [upd], p, q, Nat.le_refl _⟩
      case setTime =>
        intro k t h
        by_cases hk : k = j
        · subst hk; simp [upd] at h ⊢; omega
        · have h' : s.setTime k = some t := by simpa [upd, hk] using h
          simpa [upd, hk] using h16 k t h'
      all_goals assumption
    · cases hs

theorem inv_steps {s : St} (h : Steps init s) : Inv s := by
  induction h with
  | refl => exact inv_init
  | tail l _ h ih => exact inv_step ih h

/-- What holds in addition if the announcing goroutines are not late. -/
structure PInv (s : St) : Prop where
  inv : Inv s
  prompt : Prompt s
  /-- the goroutines of earlier attempts have ended -/
  old : ∀ k, k < s.cur → s.ann k = .absent ∨ s.ann k = .done
  /-- the call was waiting when the first attempt ended: attempt 0 decides -/
  first : s.heard 0 = true →
    (s.main = .waiting ∧ s.cur = 0 ∧ ((s.loop = .offer ∧ s.outcome 0 = some false) ∨ s.ann 0 = .sleep ∨ s.ann 0 = .send)) ∨
    (s.main = .returned none ∧ s.outcome 0 = some true) ∨ (s.main = .returned (some 0) ∧ s.outcome 0 = some false)
  /-- whoever was heard was answered in time -/
  answered : ∀ k, s.heard k = true → s.outcome k = some true → (s.ann k = .set ∨ s.ann k = .done) → ∃ r, s.main = .returned r
  listening : ∀ k, s.heard k = true → s.main ≠ .call
  early : s.outcome 0 = none → s.heard 0 = false
  refused : ∀ k, s.heard k = true → s.outcome k = some false → ¬ (k = s.cur ∧ s.loop = .offer) → ∃ r, s.main = .returned r
  setEarly : ∀ k t, s.setTime k = some t → t < s.openTime k + 1000

theorem pinv_init : PInv init := by
  refine ⟨inv_init, ?_, ?_, ?_, ?_, ?_, ?_, ?_, ?_⟩ <;> simp [init, Prompt]

theorem pinv_step {s t : St} {l : Label} (h : PInv s) (hs : step s l = some t) (hp : Prompt t) : PInv t := by
  obtain ⟨hi, hpr, ho, hf, ha, hli, hea, hre, hse⟩ := h
  have hi' := inv_step hi hs
  cases l with
  | tick =>
    injection hs with hs; subst hs
    exact ⟨hi', hp, ho, hf, ha, hli, hea, hre, hse⟩
  | wait =>
    simp only [step] at hs
    split at hs
    · rename_i hm
      injection hs with hs; subst hs
      have hn : ∀ k, s.heard k = true → False := fun k hk => hli k hk hm
      exact ⟨hi', hp, ho, fun h => (hn 0 h).elim, fun k h => (hn k h).elim, fun k h => (hn k h).elim, hea, fun k h => (hn k h).elim, hse⟩
    · cases hs
  | opened ok =>
    simp only [step] at hs
    split at hs
    · rename_i hl
      have hc := hi.opening hl
      injection hs with hs; subst hs
      refine ⟨hi', hp, ?_, ?_, ?_, ?_, ?_, ?_, ?_⟩ <;> try dsimp only
      · intro k hk
        have e : k ≠ s.cur := by omega
        cases ok
        · exact ho k hk
        · simpa [upd, e] using ho k hk
      · intro h
        by_cases e : s.cur = 0
        · left
          have hm : s.main = .waiting := by simpa [upd, e] using h
          refine ⟨hm, e, ?_⟩
          cases ok <;> simp [upd, e]
        · have e' : (0 : Nat) ≠ s.cur := fun h => e h.symm
          have h0 : s.heard 0 = true := by simpa [upd, e'] using h
          have := hf h0
          rcases this with ⟨_, b, _⟩ | h | h
          · exact absurd b e
          · right; left; simpa [upd, e'] using h
          · right; right; simpa [upd, e'] using h
      · intro k h1 h2 h3
        by_cases e : k = s.cur
        · subst e
          cases ok
          · simp [upd] at h2
          · simp [upd] at h3
        · refine ha k (by simpa [upd, e] using h1) (by simpa [upd, e] using h2) ?_
          cases ok
          · exact h3
          · simpa [upd, e] using h3
      · intro k h1
        by_cases e : k = s.cur
        · have hm : s.main = .waiting := by simpa [upd, e] using h1
          simp [hm]
        · exact hli k (by simpa [upd, e] using h1)
      · intro h
        by_cases e : 0 = s.cur
        · rw [upd, if_pos e] at h; cases h
        · rw [upd, if_neg e] at h ⊢; exact hea h
      · intro k h1 h2 h3
        by_cases e : k = s.cur
        · subst e
          cases ok
          · simp at h3
          · simp [upd] at h2
        · exact hre k (by simpa [upd, e] using h1) (by simpa [upd, e] using h2) (fun h => e h.1)
      · intro k t h
        have hk : k ≠ s.cur := by
          intro e; subst e
          have := (hi.ann s.cur).1 (by simp [(hi.setTime _ _ h).1])
          rw [hc] at this; cases this
        simpa [upd, hk] using hse k t h
    · cases hs
  | offer =>
    simp only [step] at hs
    split at hs
    · rename_i hl
      have hc := hi.offer hl
      injection hs with hs; subst hs
      unfold trySend at hi' hp ⊢
      split
      · rename_i hm
        rw [if_pos hm] at hi' hp
        refine ⟨hi', hp, ho, ?_, ?_, ?_, hea, fun _ _ _ _ => ⟨_, rfl⟩, hse⟩ <;> dsimp only
        · intro h
          rcases hf h with ⟨_, b, _⟩ | ⟨h, _⟩ | ⟨h, _⟩
          · right; right; rw [b]; exact ⟨rfl, by rw [← b]; exact hc⟩
          · rw [h] at hm; cases hm
          · rw [h] at hm; cases hm
        · intro k _ _ _; exact ⟨_, rfl⟩
        · intro k _; simp
      · rename_i hm
        rw [if_neg hm] at hi' hp
        refine ⟨hi', hp, ho, ?_, ha, hli, hea, ?_, hse⟩
        case refine_2 =>
          intro k h1 _ _
          have hmc := hli k h1
          dsimp only
          cases hx : s.main with
          | call => exact absurd hx hmc
          | waiting => exact absurd hx hm
          | returned r => exact ⟨r, rfl⟩
        intro h
        rcases hf h with ⟨h, _⟩ | h | h
        · exact absurd h hm
        · exact .inr (.inl h)
        · exact .inr (.inr h)
    · cases hs
  | lost =>
    simp only [step] at hs
    split at hs
    · rename_i hl
      injection hs with hs; subst hs
      refine ⟨hi', hp, ho, ?_, ha, hli, hea, fun k a b _ => hre k a b (by simp [hl]), hse⟩
      intro h
      rcases hf h with ⟨a, b, c⟩ | h | h
      · refine .inl ⟨a, b, .inr ?_⟩
        rcases c with ⟨c, _⟩ | c
        · rw [hl] at c; cases c
        · exact c
      · exact .inr (.inl h)
      · exact .inr (.inr h)
    · cases hs
  | deferred =>
    simp only [step] at hs
    split at hs
    · rename_i hl
      injection hs with hs; subst hs
      refine ⟨hi', hp, ho, ?_, ha, hli, hea, fun k a b _ => hre k a b (by simp [hl]), hse⟩
      intro h
      rcases hf h with ⟨a, b, c⟩ | h | h
      · refine .inl ⟨a, b, .inr ?_⟩
        rcases c with ⟨c, _⟩ | c
        · rw [hl] at c; cases c
        · exact c
      · exact .inr (.inl h)
      · exact .inr (.inr h)
    · cases hs
  | wake =>
    simp only [step] at hs
    split at hs
    · rename_i d hl
      split at hs
      · rename_i hd
        injection hs with hs; subst hs
        have key : s.ann s.cur = .absent ∨ s.ann s.cur = .done := by
          by_cases h : s.ann s.cur = .absent
          · exact .inl h
          · have hoc := (hi.ann s.cur).1 h
            obtain ⟨l, p, q, _⟩ := hi.lost s.cur hoc (by simp [hl])
            have hsl := hi.sleeping d hl _ _ p
            cases hx : s.ann s.cur with
            | absent => exact absurd hx h
            | done => exact .inr rfl
            | sleep => have := hpr s.cur (.inl hx); omega
            | send => have := hpr s.cur (.inr (.inl hx)); omega
            | set => have := hpr s.cur (.inr (.inr hx)); omega
        refine ⟨hi', hp, ?_, ?_, ha, hli, hea, fun k a b _ => hre k a b (by simp [hl]), hse⟩ <;> dsimp only
        · intro k hk
          by_cases e : k = s.cur
          · subst e; exact key
          · exact ho k (by omega)
        · intro h
          rcases hf h with ⟨a, b, c⟩ | h | h
          · exfalso
            rw [b] at key
            rcases c with ⟨c, _⟩ | c | c
            · rw [hl] at c; cases c
            · rw [c] at key; simp at key
            · rw [c] at key; simp at key
          · exact .inr (.inl h)
          · exact .inr (.inr h)
      · cases hs
    · cases hs
  | ann j =>
    have hold : ∀ a, s.ann j ≠ .absent → s.ann j ≠ .done →
        ∀ k, k < s.cur → upd s.ann j a k = .absent ∨ upd s.ann j a k = .done := by
      intro a h1 h2 k hk
      by_cases e : k = j
      · subst e; rcases ho k hk with h | h
        · exact absurd h h1
        · exact absurd h h2
      · simpa [upd, e] using ho k hk
    simp only [step] at hs
    split at hs
    · rename_i hj
      split at hs
      · injection hs with hs; subst hs
        refine ⟨hi', hp, hold _ (by simp [hj]) (by simp [hj]), ?_, ?_, hli, hea, hre, hse⟩ <;> dsimp only
        · intro h
          rcases hf h with ⟨a, b, c⟩ | h | h
          · refine .inl ⟨a, b, ?_⟩
            rcases c with c | c | c
            · exact .inl c
            · right; by_cases e : 0 = j <;> simp [upd, e, c]
            · right; by_cases e : 0 = j
              · subst e; rw [hj] at c; cases c
              · simp [upd, e, c]
          · exact .inr (.inl h)
          · exact .inr (.inr h)
        · intro k h1 h2 h3
          by_cases e : k = j
          · subst e; simp [upd] at h3
          · exact ha k h1 h2 (by simpa [upd, e] using h3)
      · cases hs
    · rename_i hj
      have hoj := (hi.ann j).1 (by simp [hj])
      injection hs with hs; subst hs
      unfold trySend at hi' hp ⊢
      split
      · rename_i hm
        rw [if_pos hm] at hi' hp
        refine ⟨hi', hp, hold _ (by simp [hj]) (by simp [hj]), ?_, ?_, ?_, hea, fun _ _ _ _ => ⟨_, rfl⟩, hse⟩ <;> dsimp only
        · intro h
          rcases hf h with ⟨a, b, c⟩ | ⟨h, _⟩ | ⟨h, _⟩
          · refine .inr (.inl ⟨rfl, ?_⟩)
            have hj0 : j = 0 := by
              by_cases e : j = 0
              · exact e
              · have := hi.future j (by omega)
                rw [this] at hoj; cases hoj
            subst hj0; exact hoj
          · rw [h] at hm; cases hm
          · rw [h] at hm; cases hm
        · intro k _ _ _; exact ⟨_, rfl⟩
        · intro k _; simp
      · rename_i hm
        rw [if_neg hm] at hi' hp
        refine ⟨hi', hp, hold _ (by simp [hj]) (by simp [hj]), ?_, ?_, hli, hea, hre, hse⟩ <;> dsimp only
        · intro h
          rcases hf h with ⟨a, _⟩ | h | h
          · exact absurd a hm
          · exact .inr (.inl h)
          · exact .inr (.inr h)
        · intro k h1 h2 h3
          by_cases e : k = j
          · have hmc := hli k h1
            cases hx : s.main with
            | call => exact absurd hx hmc
            | waiting => exact absurd hx hm
            | returned r => exact ⟨r, rfl⟩
          · exact ha k h1 h2 (by simpa [upd, e] using h3)
    · rename_i hj
      injection hs with hs; subst hs
      refine ⟨hi', hp, hold _ (by simp [hj]) (by simp [hj]), ?_, ?_, hli, hea, hre, ?_⟩ <;> dsimp only
      · intro h
        rcases hf h with ⟨a, b, c⟩ | h | h
        · refine .inl ⟨a, b, ?_⟩
          rcases c with c | c | c
          · exact .inl c
          · right; by_cases e : 0 = j
            · subst e; rw [hj] at c; cases c
            · simp [upd, e, c]
          · right; by_cases e : 0 = j
            · subst e; rw [hj] at c; cases c
            · simp [upd, e, c]
        · exact .inr (.inl h)
        · exact .inr (.inr h)
      · intro k h1 h2 h3
        by_cases e : k = j
        · subst e; exact ha k h1 h2 (.inl hj)
        · exact ha k h1 h2 (by simpa [upd, e] using h3)
      · intro k t h
        by_cases e : k = j
        · subst e
          simp only [upd, if_true] at h
          cases h
          exact hpr k (.inr (.inr hj))
        · exact hse k t (by simpa [upd, e] using h)
    · cases hs

theorem pinv_steps {s : St} (h : PromptSteps init s) : PInv s := by
  induction h with
  | refl => exact pinv_init
  | tail l _ h hp ih => exact pinv_step ih h hp

/-! ## Examples of prompt executions -/

def promptB (s : St) : Bool :=
  (List.range (s.cur + 1)).all fun k =>
    (s.ann k != .sleep && s.ann k != .send && s.ann k != .set) || decide (s.now < s.openTime k + 1000)

theorem prompt_of {s : St} (h : Inv s) (hb : promptB s = true) : Prompt s := by
  intro k hk
  have hc : k ≤ s.cur := by
    by_cases e : s.cur < k
    · have h1 := h.future k e
      have h2 := (h.ann k).1 (by rcases hk with hk | hk | hk <;> simp [hk])
      rw [h1] at h2; cases h2
    · omega
  have := List.all_eq_true.1 hb k (List.mem_range.2 (by omega))
  rcases hk with hk | hk | hk <;> simpa [hk] using this

/-- `exec` that checks `Prompt` -/
def execP (s : St) : List Label → Option St
  | [] => some s
  | l :: ls => (step s l).bind fun s => if promptB s then execP s ls else none

theorem execP_steps {t : St} : ∀ (ls : List Label) (s : St), PromptSteps init s → execP s ls = some t → PromptSteps init t := by
  intro ls
  induction ls with
  | nil => intro s hs h; injection h with h; subst h; exact hs
  | cons l ls ih =>
    intro s hs h
    rw [execP] at h
    cases hu : step s l with
    | none => rw [hu] at h; cases h
    | some u =>
      rw [hu] at h
      dsimp only [Option.bind_some] at h
      split at h
      · rename_i hb
        exact ih u (.tail l hs hu (prompt_of (inv_step (inv_steps (prompt_steps hs)) hu) hb)) h
      · cases h

theorem execP_run {α : Type} {f : St → α} {v : α} {ls : List Label} (h : (execP init ls).map f = some v) :
    ∃ s, PromptSteps init s ∧ f s = v := by
  cases hs : execP init ls with
  | none => rw [hs] at h; cases h
  | some s => rw [hs] at h; injection h with h; exact ⟨s, execP_steps ls init (.refl _) hs, h⟩

theorem exec_run {α : Type} {f : St → α} {v : α} {ls : List Label} (h : (exec init ls).map f = some v) :
    ∃ s, Steps init s ∧ f s = v := by
  cases hs : exec init ls with
  | none => rw [hs] at h; cases h
  | some s => rw [hs] at h; injection h with h; exact ⟨s, exec_steps hs, h⟩

/-- Time passes. -/
theorem ticks (s : St) (n : Nat) : Steps s { s with now := s.now + n } := by
  induction n with
  | zero => exact .refl _
  | succ n ih => exact .tail .tick ih rfl

end Verif.Lemmas.Connect
