import Verif.Lemmas.PersistReach

/-! The text that is saved does not depend on the order of Go maps. -/

set_option linter.unusedSimpArgs false

namespace Verif.Lemmas.Persist

open Verif.Go Verif.Model Verif.Spec Verif.Lemmas.Ctl

theorem charsLe_total : ∀ (a b : List Char), charsLe a b = true ∨ charsLe b a = true
  | [], _ => .inl rfl
  | _ :: _, [] => .inr rfl
  | a :: s, b :: t => by
    have := charsLe_total s t
    simp only [charsLe]
    by_cases h1 : a.toNat < b.toNat
    · simp [h1]
    · by_cases h2 : b.toNat < a.toNat
      · simp [h1, h2]
      · simpa [h1, h2] using this

theorem charsLe_trans : ∀ (a b c : List Char), charsLe a b = true → charsLe b c = true → charsLe a c = true
  | [], _, _ => fun _ _ => rfl
  | _ :: _, [], _ => fun h _ => by cases h
  | _ :: _, _ :: _, [] => fun _ h => by cases h
  | a :: s, b :: t, c :: u => by
    have := charsLe_trans s t u
    simp only [charsLe]
    intro h1 h2
    split at h1
    · split at h2
      · rw [if_pos (by omega)]
      · split at h2
        · cases h2
        · rw [if_pos (by omega)]
    · split at h1
      · cases h1
      · split at h2
        · rw [if_pos (by omega)]
        · split at h2
          · cases h2
          · rw [if_neg (by omega), if_neg (by omega)]
            exact this h1 h2

theorem charsLe_antisymm : ∀ (a b : List Char), charsLe a b = true → charsLe b a = true → a = b
  | [], [] => fun _ _ => rfl
  | [], _ :: _ => fun _ h => by cases h
  | _ :: _, [] => fun h _ => by cases h
  | a :: s, b :: t => by
    have := charsLe_antisymm s t
    simp only [charsLe]
    intro h1 h2
    split at h1
    · rw [if_neg (by omega), if_pos (by omega)] at h2
      cases h2
    · split at h1
      · cases h1
      · rw [if_neg (by omega), if_neg (by omega)] at h2
        have e : a = b := Char.toNat_inj.1 (by omega)
        rw [e, this h1 h2]

/-- Sorted by key. -/
def Sorted {α : Type} (l : List (List Char × α)) : Prop := l.Pairwise fun a b => charsLe a.1 b.1 = true

theorem sorted_insert {α : Type} {l : List (List Char × α)} (h : Sorted l) (e : List Char × α) : Sorted (insertKey e l) := by
  induction l with
  | nil => exact List.pairwise_singleton _ _
  | cons x l ih =>
    obtain ⟨h1, h2⟩ := List.pairwise_cons.1 h
    rw [insertKey]
    split
    · rename_i hl
      refine List.pairwise_cons.2 ⟨?_, h⟩
      intro y hy
      rcases List.mem_cons.1 hy with rfl | hy
      · exact hl
      · exact charsLe_trans _ _ _ hl (h1 y hy)
    · rename_i hl
      refine List.pairwise_cons.2 ⟨?_, ih h2⟩
      intro y hy
      rcases List.mem_cons.1 ((insertKey_perm e l).mem_iff.1 hy) with rfl | hy
      · exact (charsLe_total _ _).resolve_left (by simpa using hl)
      · exact h1 y hy

theorem sorted_sort {α : Type} (l : List (List Char × α)) : Sorted (sortKeys l) := by
  induction l with
  | nil => exact List.Pairwise.nil
  | cons x l ih => exact sorted_insert ih x

theorem sorted_unique {α : Type} : ∀ {a b : List (List Char × α)}, Sorted a → Sorted b → a.Perm b →
    (a.map Prod.fst).Nodup → a = b := by
  intro a
  induction a with
  | nil => intro b _ _ hp _; exact (List.nil_perm.1 hp).symm
  | cons x a ih =>
    intro b ha hb hp hn
    cases b with
    | nil => exact absurd hp (by simp)
    | cons y b =>
      have hxy : x = y := by
        have hy : y ∈ x :: a := hp.mem_iff.2 (by simp)
        have hx : x ∈ y :: b := hp.mem_iff.1 (by simp)
        rcases List.mem_cons.1 hx with h | hx
        · exact h
        rcases List.mem_cons.1 hy with h | hy
        · exact h.symm
        exfalso
        have h1 := (List.pairwise_cons.1 ha).1 y hy
        have h2 := (List.pairwise_cons.1 hb).1 x hx
        have he := charsLe_antisymm _ _ h1 h2
        simp only [List.map_cons, List.nodup_cons] at hn
        exact hn.1 (he ▸ List.mem_map_of_mem hy)
      subst hxy
      rw [ih (List.pairwise_cons.1 ha).2 (List.pairwise_cons.1 hb).2 (List.Perm.cons_inv hp)
        (by simp only [List.map_cons, List.nodup_cons] at hn; exact hn.2)]

theorem sort_perm {α : Type} {a b : List (List Char × α)} (hp : a.Perm b) (hn : (a.map Prod.fst).Nodup) :
    sortKeys a = sortKeys b :=
  sorted_unique (sorted_sort a) (sorted_sort b) ((sortKeys_perm a).trans (hp.trans (sortKeys_perm b).symm))
    (nodup_sort hn)

theorem sort_sort {α : Type} {a : List (List Char × α)} (hn : (a.map Prod.fst).Nodup) :
    sortKeys (sortKeys a) = sortKeys a := sort_perm (sortKeys_perm a) (nodup_sort hn)

theorem mapJson_sort {ν : Type} (f : ν → Json) {m : Option (GoMap (List Char) ν)} (h : IsMap m) :
    mapJson f (m.map sortKeys) = mapJson f m := by
  cases m with
  | none => rfl
  | some m =>
    show jObj _ = jObj _
    rw [sort_sort (h m rfl)]

theorem endpointJson_reread {e : Endpoint} (h : SavableEndpoint e) : endpointJson
    { e with stateBool := e.stateBool.map sortKeys, stateFloat := e.stateFloat.map sortKeys, linked := true }
    = endpointJson e := by
  unfold endpointJson
  dsimp only
  rw [mapJson_sort _ h.mapB, mapJson_sort _ h.mapF]

theorem nodeJson_reread {n : Node} (h : Savable n) : nodeJson (loaded (reread n)) = nodeJson n := by
  have he : sliceJson endpointJson (loaded (reread n)).endpoints = sliceJson endpointJson n.endpoints := by
    unfold loaded Node.link reread
    cases hn : n.endpoints with
    | none => rfl
    | some es =>
      dsimp only [Option.map_some, sliceJson]
      rw [List.map_map, List.map_map]
      congr 2
      refine List.map_congr_left ?_
      intro e hm
      exact endpointJson_reread (h.eps es hn e hm)
  unfold nodeJson
  rw [he]
  show jObj [_, _, _, _, _, _, _, _, (_, mapJson _ (n.stateBool.map sortKeys)), (_, mapJson _ (n.stateFloat.map sortKeys))] = _
  rw [mapJson_sort _ h.mapB, mapJson_sort _ h.mapF]
  rfl

theorem listJson_eq (l : GoMap Int Node) : listJson l =
    jObj ((sortKeys (l.map fun e => (intLit e.1, e.2))).map fun e => (e.1, nodeJson e.2)) := rfl

theorem saveText_perm {a b : GoMap Int Node} (hp : a.Perm b) (ha : ListOk a) : saveText a = saveText b := by
  unfold saveText controllerJson
  rw [listJson_eq, listJson_eq]
  have hk := keys_map ha _ rfl
  rw [sort_perm (hp.map fun e => (intLit e.1, e.2)) hk]

theorem savable_reread {n : Node} (h : Savable n) : Savable (reread n) := by
  have key : ∀ {ν : Type} {m : Option (GoMap (List Char) ν)}, IsMap m → IsMap (m.map sortKeys) := by
    intro ν m hm m' he
    cases m with
    | none => cases he
    | some x => injection he with he; subst he; exact nodup_sort (hm x rfl)
  have kd : ∀ {m : Option (GoMap (List Char) Rat)}, Decimals m → Decimals (m.map sortKeys) := by
    intro m hm m' he e hmem
    cases m with
    | none => cases he
    | some x => injection he with he; subst he; exact hm x rfl e (mem_sort.1 hmem)
  refine ⟨h.id, key h.mapB, key h.mapF, kd h.dec, ?_⟩
  intro es he e hm
  unfold reread at he
  dsimp only at he
  cases hn : n.endpoints with
  | none => rw [hn] at he; cases he
  | some xs =>
    rw [hn] at he
    injection he with he
    subst he
    obtain ⟨x, hx, rfl⟩ := List.mem_map.1 hm
    have := h.eps xs hn x hx
    exact ⟨this.id, key this.mapB, key this.mapF, kd this.dec⟩

theorem nodes_start {f : Bool} {ns : List Node} (hn : (ns.map Node.id).Nodup) :
    (start f (ns.map reread)).nodes = ns.map fun n => (n.id, loaded (reread n)) := by
  unfold start
  rw [loadNodes_nodes]
  · show [] ++ _ = _
    rw [List.nil_append, List.map_map]
    rfl
  · intro e he; cases he
  · show ([] ++ _ : List Int).Nodup
    rw [List.nil_append, List.map_map]
    exact hn

theorem stable (o o' : Order) {l : GoMap Int Node} (h : ListOk l) (f : Bool) {c : CSt}
    (hc : loadConfig o o' (some (saveText l)) (newController f) = .ret false c) : saveText c.nodes = saveText l := by
  obtain ⟨ns, hp, hl⟩ := load_saved o o' h (newController f)
  rw [hl] at hc
  injection hc with _ hc
  subst hc
  have hn := ids_nodup h hp
  have hs : ((newController f).loadNodes (ns.map reread)).nodes = _ := nodes_start (f := f) hn
  rw [hs]
  have hsav : ∀ n ∈ ns, Savable n := by
    intro n hm
    obtain ⟨e, he, rfl⟩ := List.mem_map.1 (hp.mem_iff.1 hm)
    exact h.savable e he
  have h1 : ListOk (ns.map fun n => (n.id, n)) := by
    refine ⟨by simpa [Function.comp_def] using hn, ?_, ?_⟩
    · intro e he
      obtain ⟨n, _, rfl⟩ := List.mem_map.1 he
      rfl
    · intro e he
      obtain ⟨n, hm, rfl⟩ := List.mem_map.1 he
      exact hsav n hm
  have h2 : (ns.map fun n => (n.id, n)).Perm l := by
    have := hp.map fun n => (n.id, n)
    rw [List.map_map] at this
    refine this.trans (List.Perm.of_eq ?_)
    have : ∀ e ∈ l, ((fun n => (n.id, n)) ∘ Prod.snd) e = id e := by
      intro e he
      show (e.2.id, e.2) = e
      rw [h.own e he]
    rw [List.map_congr_left this, List.map_id]
  rw [← saveText_perm h2 h1]
  unfold saveText controllerJson
  rw [listJson_eq, listJson_eq, List.map_map, List.map_map]
  have h3 := sortKeys_map (fun n => loaded (reread n)) (ns.map fun n => (intLit n.id, n))
  have h4 : (ns.map ((fun e => (intLit e.1, e.2)) ∘ fun n => (n.id, loaded (reread n))))
      = (ns.map fun n => (intLit n.id, n)).map fun e => (e.1, loaded (reread e.2)) := by
    simp [Function.comp_def]
  have h5 : (ns.map ((fun e => (intLit e.1, e.2)) ∘ fun n => (n.id, n))) = ns.map fun n => (intLit n.id, n) := rfl
  rw [h4, h5, h3, List.map_map]
  congr 5
  refine List.map_congr_left ?_
  intro e he
  have hm := mem_sort.1 he
  obtain ⟨n, hn', rfl⟩ := List.mem_map.1 hm
  show (_, nodeJson _) = _
  rw [nodeJson_reread (hsav n hn')]

/-! ### several lifetimes -/

theorem life_inv {db : DB} {s : CSt} (h : Life db s) : CInv s ∧ SavInv s := by
  induction h with
  | first f => exact ⟨cinv_start (f := f) (ns := []) ⟨by simp, by simp⟩, savInv_start (ns := []) (by simp)⟩
  | step _ hl hs ih => exact ⟨cinv_step ih.1 hs, savInv_step ih.1 ih.2 hl hs⟩
  | @restart s c o o' f _ hc ih =>
    have hok := listOk_nodes ih.1 ih.2
    obtain ⟨ns, hp, hl⟩ := load_saved o o' hok (newController f)
    rw [hl] at hc
    injection hc with _ hc
    subst hc
    have hmem : ∀ n ∈ ns, ∃ r, r < s.nHeap ∧ n = (s.heap r).node := by
      intro n hm
      obtain ⟨e, he, rfl⟩ := List.mem_map.1 (hp.mem_iff.1 hm)
      obtain ⟨x, hx, rfl⟩ := List.mem_map.1 he
      exact ⟨x.2, (ih.1.list x.1 x.2 (mem_get ih.2.nodup hx)).1, rfl⟩
    refine ⟨cinv_start (f := f) ⟨?_, ?_⟩, savInv_start ?_⟩
    · intro n hm
      obtain ⟨m, hm', rfl⟩ := List.mem_map.1 hm
      obtain ⟨r, hr, rfl⟩ := hmem m hm'
      have := ih.1.safe r hr
      exact ⟨by simpa [reread] using this.mapB, by simpa [reread] using this.mapF, rfl, rfl, rfl⟩
    · rw [List.map_map]
      exact ids_nodup hok hp
    · intro n hm
      obtain ⟨m, hm', rfl⟩ := List.mem_map.1 hm
      obtain ⟨r, hr, rfl⟩ := hmem m hm'
      exact savable_reread (ih.2.heap r hr)

theorem life_ok {db : DB} {s : CSt} (h : Life db s) : ListOk s.nodes := listOk_nodes (life_inv h).1 (life_inv h).2

end Verif.Lemmas.Persist
