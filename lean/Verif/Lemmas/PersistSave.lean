import Verif.Lemmas.PersistSort

/-! Saving step by step; files that make loading panic. -/

set_option linter.unusedSimpArgs false

namespace Verif.Lemmas.Persist

open Verif.Go Verif.Model Verif.Spec Verif.Lemmas.JsonL

/-! ### saving -/

/-- What the file can hold at each point of a save. -/
def SaveInv (text : List Char) (old : Option (List Char)) (s : SaveSt) : Prop :=
  match s.at_ with
  | .compare | .create | .panicked => s.file = old
  | .write rest => ∃ p, s.file = some p ∧ p ++ rest = text
  | .done true => s.file = some text
  | .done false => s.file = old ∨ ∃ p, s.file = some p ∧ ∃ r, r ≠ [] ∧ p ++ r = text

theorem saveInv_step {o : Order} {text : List Char} {old : Option (List Char)} {s s' : SaveSt} {op : SaveOp}
    (hi : SaveInv text old s) (h : saveStep o text s op = some s') : SaveInv text old s' := by
  unfold saveStep at h
  split at h
  · rename_i ha
    simp only [SaveInv, ha] at hi
    split at h <;> (injection h with h; subst h; exact hi)
  · injection h with h; subst h; exact ⟨[], rfl, rfl⟩
  · rename_i ha
    simp only [SaveInv, ha] at hi
    injection h with h; subst h; exact .inl hi
  · rename_i rest n ha
    simp only [SaveInv, ha] at hi
    obtain ⟨p, h1, h2⟩ := hi
    injection h with h; subst h
    refine ⟨p ++ rest.take n, by simp [h1], ?_⟩
    rw [List.append_assoc, List.take_append_drop, h2]
  · rename_i ha
    simp only [SaveInv, ha] at hi
    obtain ⟨p, h1, h2⟩ := hi
    injection h with h; subst h
    rw [List.append_nil] at h2
    exact h2 ▸ h1
  · rename_i c rest ha
    simp only [SaveInv, ha] at hi
    obtain ⟨p, h1, h2⟩ := hi
    injection h with h; subst h
    exact .inr ⟨p, h1, _, by simp, h2⟩
  · cases h

theorem saveInv_run {o : Order} {text : List Char} {old : Option (List Char)} : ∀ (ops : List SaveOp) {s s' : SaveSt},
    SaveInv text old s → saveRun o text s ops = some s' → SaveInv text old s' := by
  intro ops
  induction ops with
  | nil => intro s s' hi h; cases h; exact hi
  | cons op ops ih =>
    intro s s' hi h
    rw [saveRun] at h
    cases hs : saveStep o text s op with
    | none => rw [hs] at h; cases h
    | some s1 => rw [hs] at h; exact ih (saveInv_step hi hs) h

theorem compare_go {o : Order} {text : List Char} {old : Option (List Char)} (h : readConfig o old ≠ .panic) :
    saveStep o text ⟨.compare, old⟩ .go = some ⟨.create, old⟩ := by
  unfold saveStep
  dsimp only
  split
  · exact absurd ‹_› h
  · rfl

/-! ### truncated files -/

theorem load_prefix (o o' : Order) (l : GoMap Int Node) {p q : List Char} (e : p ++ q = saveText l) (hq : q ≠ [])
    (c : CSt) : loadConfig o o' (some p) c = .ret true c := by
  unfold loadConfig readConfig
  dsimp only
  rw [parse_save_prefix l e hq]

/-! ### panics -/

/-- What `List.Add` cannot take. -/
def BadNode (n : Option JNode) : Prop := n = none ∨ ∃ m, n = some m ∧ none ∈ m.endpoints.getD []

theorem addRead_error {m : GoMap Int JNode} {n : Option JNode} : (∃ p, addRead m n = .error p) ↔ BadNode n := by
  unfold addRead BadNode
  cases n with
  | none => simp
  | some n =>
    dsimp only
    split
    · rename_i h
      constructor
      · rintro ⟨p, hp⟩; cases hp
      · rintro (h' | ⟨m', h1, h2⟩)
        · cases h'
        · cases h1
          have := List.all_eq_true.1 h _ h2
          cases this
    · rename_i h
      refine ⟨fun _ => .inr ⟨n, rfl, ?_⟩, fun _ => ⟨_, rfl⟩⟩
      simp only [List.all_eq_true, Classical.not_forall] at h
      obtain ⟨x, hx, hn⟩ := h
      cases x with
      | none => exact hx
      | some _ => exact absurd rfl hn

theorem addAll_error : ∀ {ns : List (Option JNode)} {m : GoMap Int JNode},
    (∃ p, addAll m ns = .error p) ↔ ∃ n ∈ ns, BadNode n := by
  intro ns
  induction ns with
  | nil => intro m; simp [addAll]
  | cons n ns ih =>
    intro m
    rw [addAll]
    have hr := addRead_error (m := m) (n := n)
    cases ha : addRead m n with
    | error p =>
      rw [ha] at hr
      have hb := hr.1 ⟨p, rfl⟩
      exact ⟨fun _ => ⟨n, by simp, hb⟩, fun _ => ⟨p, rfl⟩⟩
    | ok m' =>
      rw [ha] at hr
      have hb : ¬ BadNode n := fun h => by obtain ⟨p, hp⟩ := hr.2 h; cases hp
      show (∃ p, addAll m' ns = .error p) ↔ _
      rw [ih]
      constructor
      · rintro ⟨x, hx, h⟩; exact ⟨x, by simp [hx], h⟩
      · rintro ⟨x, hx, h⟩
        rcases List.mem_cons.1 hx with rfl | hx
        · exact absurd h hb
        · exact ⟨x, hx, h⟩

theorem listOf_panic {o : Order} {j : Json} : listOf o j = .panic ↔
    ∃ s, dMap (fun j => dPtr nodeOf (some j)) (some j) = .ok (some s) ∧ ∃ e ∈ s, BadNode e.2 := by
  unfold listOf
  cases dMap (fun j => dPtr nodeOf (some j)) (some j) with
  | err => simp
  | dup => simp
  | ok s =>
    dsimp only
    have ha := addAll_error (ns := o.run ((s.getD []).map Prod.snd)) (m := [])
    have hm : ∀ n, n ∈ o.run ((s.getD []).map Prod.snd) ↔ n ∈ (s.getD []).map Prod.snd := fun n => (o.perm _).mem_iff
    cases hs : addAll [] (o.run ((s.getD []).map Prod.snd)) with
    | error p =>
      rw [hs] at ha
      obtain ⟨n, hn, hb⟩ := ha.1 ⟨p, rfl⟩
      rw [hm] at hn
      refine ⟨fun _ => ?_, fun _ => rfl⟩
      cases s with
      | none => cases hn
      | some s =>
        obtain ⟨e, he, rfl⟩ := List.mem_map.1 hn
        exact ⟨s, rfl, e, he, hb⟩
    | ok m =>
      rw [hs] at ha
      refine ⟨fun h => (by cases h), ?_⟩
      rintro ⟨s', h1, e, he, hb⟩
      injection h1 with h1
      subst h1
      obtain ⟨p, hp⟩ := ha.2 ⟨e.2, (hm _).2 (List.mem_map_of_mem he), hb⟩
      cases hp

/-- A JSON value that makes the program panic. -/
def Poison (j : Json) : Prop :=
  j = .null ∨ ∃ ms, j = .obj ms ∧ (field ms.toList ['N', 'o', 'd', 'e', 's'] = .ok none ∨
    field ms.toList ['N', 'o', 'd', 'e', 's'] = .ok (some .null) ∨
    ∃ v s, field ms.toList ['N', 'o', 'd', 'e', 's'] = .ok (some v) ∧
      dMap (fun j => dPtr nodeOf (some j)) (some v) = .ok (some s) ∧ ∃ e ∈ s, BadNode e.2)

theorem load_panic {o o' : Order} {f : List Char} {c : CSt} :
    loadConfig o o' (some f) c = .panic ↔ ∃ j, parseJson f = some j ∧ Poison j := by
  have key : loadConfig o o' (some f) c = .panic ↔ readConfig o (some f) = .panic ∨
      readConfig o (some f) = .nilController ∨ readConfig o (some f) = .nilNodes := by
    unfold loadConfig
    cases readConfig o (some f) with
    | err => simp
    | panic => simp
    | nilController => simp
    | nilNodes => simp
    | dup => simp
    | nodes l =>
      dsimp only
      split <;> simp
  rw [key]
  unfold readConfig
  dsimp only
  cases hp : parseJson f with
  | none => simp
  | some j =>
    have hex : (∃ j', some j = some j' ∧ Poison j') ↔ Poison j :=
      ⟨fun ⟨j', h1, h2⟩ => by injection h1 with h1; subst h1; exact h2, fun h => ⟨j, rfl, h⟩⟩
    rw [hex]
    cases j with
    | null => simp [Poison]
    | obj ms =>
      dsimp only
      have hP : Poison (.obj ms) ↔ (field ms.toList ['N', 'o', 'd', 'e', 's'] = .ok none ∨
          field ms.toList ['N', 'o', 'd', 'e', 's'] = .ok (some .null) ∨
          ∃ v s, field ms.toList ['N', 'o', 'd', 'e', 's'] = .ok (some v) ∧
            dMap (fun j => dPtr nodeOf (some j)) (some v) = .ok (some s) ∧ ∃ e ∈ s, BadNode e.2) := by
        unfold Poison
        constructor
        · rintro (h | ⟨ms', h, h'⟩)
          · cases h
          · injection h with h; subst h; exact h'
        · intro h; exact .inr ⟨ms, rfl, h⟩
      rw [hP]
      cases hf : field ms.toList ['N', 'o', 'd', 'e', 's'] with
      | err => simp
      | dup => simp
      | ok v =>
        cases v with
        | none => simp
        | some v =>
          have hl := listOf_panic (o := o) (j := v)
          have h1 : listOf o v ≠ .nilController := by
            unfold listOf; split <;> try (intro h; cases h; done)
            split <;> (intro h; cases h)
          have h2 : listOf o v ≠ .nilNodes := by
            unfold listOf; split <;> try (intro h; cases h; done)
            split <;> (intro h; cases h)
          by_cases hn : v = .null
          · subst hn; simp
          · have goal : (listOf o v = .panic ∨ listOf o v = .nilController ∨ listOf o v = .nilNodes) ↔
                ((Dec.ok (some v) : Dec (Option Json)) = .ok none ∨ (Dec.ok (some v) : Dec (Option Json)) = .ok (some .null) ∨
                  ∃ v' s, (Dec.ok (some v) : Dec (Option Json)) = .ok (some v') ∧
                    dMap (fun j => dPtr nodeOf (some j)) (some v') = .ok (some s) ∧ ∃ e ∈ s, BadNode e.2) := by
              rw [hl]
              constructor
              · rintro (⟨s, h, h'⟩ | h | h)
                · exact .inr (.inr ⟨v, s, rfl, h, h'⟩)
                · exact absurd h h1
                · exact absurd h h2
              · rintro (h | h | ⟨v', s, h, h', h''⟩)
                · cases h
                · injection h with h; injection h with h; exact absurd h hn
                · injection h with h; injection h with h; subst h
                  exact .inl ⟨s, h', h''⟩
            cases v with
            | null => exact absurd rfl hn
            | bool _ => exact goal
            | num _ => exact goal
            | str _ => exact goal
            | arr _ => exact goal
            | obj _ => exact goal
    | bool b => simp [Poison]
    | num b => simp [Poison]
    | str b => simp [Poison]
    | arr b => simp [Poison]

/-! ### texts that are not objects -/

theorem skipWs_all {ws : List Char} (h : ws.all isWs = true) (s : List Char) : skipWs (ws ++ s) = skipWs s := by
  induction ws with
  | nil => rfl
  | cons c ws ih =>
    simp only [List.all_cons, Bool.and_eq_true] at h
    rw [List.cons_append, skipWs, if_pos h.1]
    exact ih h.2

theorem parse_blank {ws : List Char} (h : ws.all isWs = true) : parseJson ws = none := by
  unfold parseJson
  rw [pValue]
  have := skipWs_all h []
  rw [List.append_nil] at this
  rw [this]
  rfl

theorem map_fst {α β : Type} {x : Option α} {f : α → Json × β} {j : Json}
    (h : Option.map Prod.fst (x.map f) = some j) : ∃ a, x = some a ∧ (f a).1 = j := by
  rw [Option.map_map] at h
  obtain ⟨a, h1, h2⟩ := Option.map_eq_some_iff.1 h
  exact ⟨a, h1, h2⟩

theorem parse_kind {ws : List Char} {c : Char} {r : List Char} (h : ws.all isWs = true) (hc : isWs c = false) {j : Json}
    (hp : parseJson (ws ++ c :: r) = some j) :
    ((∃ ms, j = .obj ms) → c = '{') ∧ (j = .null → c = 'n' ∧ ['u', 'l', 'l'].isPrefixOf r = true) := by
  unfold parseJson at hp
  rw [pValue_cons (c := c) (t := r) (by rw [skipWs_all h, skipWs_cons hc])] at hp
  by_cases c1 : c = '{'
  · refine ⟨fun _ => c1, ?_⟩
    rintro rfl
    rw [if_pos c1] at hp
    split at hp
    · cases hp
    · obtain ⟨x, _, e⟩ := map_fst hp
      cases e
  rw [if_neg c1] at hp
  have fin : ((∃ ms, j = .obj ms) → False) → (j = .null → c = 'n' ∧ ['u', 'l', 'l'].isPrefixOf r = true) →
      ((∃ ms, j = .obj ms) → c = '{') ∧ (j = .null → c = 'n' ∧ ['u', 'l', 'l'].isPrefixOf r = true) :=
    fun a b => ⟨fun h => (a h).elim, b⟩
  apply fin
  · rintro ⟨ms, rfl⟩
    split at hp
    · split at hp
      · cases hp
      · obtain ⟨x, _, e⟩ := map_fst hp
        cases e
    all_goals (repeat' split at hp)
    all_goals (obtain ⟨x, _, e⟩ := map_fst hp; cases e)
  · rintro rfl
    split at hp
    · split at hp
      · cases hp
      · obtain ⟨x, _, e⟩ := map_fst hp
        cases e
    split at hp
    · obtain ⟨x, _, e⟩ := map_fst hp
      cases e
    split at hp
    · rename_i c4
      obtain ⟨x, hw, e⟩ := map_fst hp
      refine ⟨c4, ?_⟩
      unfold pWord at hw
      split at hw
      · assumption
      · cases hw
    all_goals (repeat' split at hp)
    all_goals (obtain ⟨x, _, e⟩ := map_fst hp; cases e)

theorem load_not_object (o o' : Order) {ws : List Char} {c : Char} {r : List Char} (h : ws.all isWs = true)
    (hc : isWs c = false) (h1 : c ≠ '{') (h2 : ¬ (c = 'n' ∧ ['u', 'l', 'l'].isPrefixOf r = true)) (s : CSt) :
    loadConfig o o' (some (ws ++ c :: r)) s = .ret true s := by
  have : readConfig o (some (ws ++ c :: r)) = .err := by
    unfold readConfig
    dsimp only
    cases hp : parseJson (ws ++ c :: r) with
    | none => rfl
    | some j =>
      obtain ⟨k1, k2⟩ := parse_kind h hc hp
      cases j with
      | null => exact absurd (k2 rfl) h2
      | obj ms => exact absurd (k1 ⟨ms, rfl⟩) h1
      | bool b => rfl
      | num b => rfl
      | str b => rfl
      | arr b => rfl
  unfold loadConfig
  rw [this]

/-! ### events -/

theorem loads_queue : ∀ (ns : List Node) (s : CSt), s.queue.length ≤ queCap →
    (s.loadNodes ns).queue = s.queue ++ (ns.take (queCap - s.queue.length)).map fun n => Event.discovered n.id := by
  intro ns
  induction ns with
  | nil => intro s _; simp [CSt.loadNodes]
  | cons n ns ih =>
    intro s hs
    show ((s.loadNode n).loadNodes ns).queue = _
    have hq : (s.loadNode n).queue = if s.queue.length < queCap then s.queue ++ [.discovered n.id] else s.queue := by
      unfold CSt.loadNode CSt.push
      simp [Node.link]
    by_cases hlt : s.queue.length < queCap
    · rw [if_pos hlt] at hq
      rw [ih _ (by rw [hq]; simp; omega), hq]
      have : queCap - s.queue.length = (queCap - (s.queue.length + 1)) + 1 := by omega
      rw [this]
      simp
    · rw [if_neg hlt] at hq
      rw [ih _ (by rw [hq]; exact hs), hq]
      have : queCap - s.queue.length = 0 := by omega
      rw [this]
      simp

end Verif.Lemmas.Persist
