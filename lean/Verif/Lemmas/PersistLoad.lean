import Verif.Lemmas.Persist

/-! Loading a configuration into a controller. -/

set_option linter.unusedSimpArgs false

namespace Verif.Lemmas.Persist

open Verif.Go Verif.Model Verif.Spec Verif.Lemmas.JsonL

theorem intLit_inj {a b : Int} (ha : -(2 ^ 63) ≤ a ∧ a < 2 ^ 63) (hb : -(2 ^ 63) ≤ b ∧ b < 2 ^ 63)
    (h : intLit a = intLit b) : a = b := by
  have := intOf_intLit a ha
  rw [h, intOf_intLit b hb] at this
  injection this with this
  exact this.symm

theorem nodup_map_on {α β : Type} {f : α → β} {l : List α} (h : l.Nodup)
    (hf : ∀ a ∈ l, ∀ b ∈ l, f a = f b → a = b) : (l.map f).Nodup := by
  induction l with
  | nil => simp
  | cons x l ih =>
    simp only [List.nodup_cons, List.map_cons, List.mem_map, not_exists, not_and] at h ⊢
    refine ⟨?_, ih h.2 fun a ha b hb => hf a (by simp [ha]) b (by simp [hb])⟩
    intro y hy he
    have := hf y (by simp [hy]) x (by simp) he
    subst this
    exact h.1 hy

theorem keys_map {l : GoMap Int Node} (h : ListOk l) : IsMap (some (l.map fun e => (intLit e.1, e.2))) := by
  intro m hm
  injection hm with hm
  subst hm
  have : ((l.map Prod.fst).map intLit).Nodup := by
    refine nodup_map_on h.nodup ?_
    intro a ha b hb he
    obtain ⟨x, hx, rfl⟩ := List.mem_map.1 ha
    obtain ⟨y, hy, rfl⟩ := List.mem_map.1 hb
    have h1 := (h.savable x hx).id
    have h2 := (h.savable y hy).id
    rw [h.own x hx] at h1
    rw [h.own y hy] at h2
    exact intLit_inj h1 h2 he
  simpa [Function.comp_def] using this

/-- The nodes in the order in which they are written. -/
def written (l : GoMap Int Node) : List Node := (sortKeys (l.map fun e => (intLit e.1, e.2))).map Prod.snd

theorem written_perm (l : GoMap Int Node) : (written l).Perm (l.map Prod.snd) := by
  have := (sortKeys_perm (l.map fun e => (intLit e.1, e.2))).map Prod.snd
  simpa [written, Function.comp_def] using this

theorem dMap_list {l : GoMap Int Node} (h : ListOk l) :
    ∃ s, dMap (fun j => dPtr nodeOf (some j)) (some (listJson l)) = .ok (some s) ∧
      s.map Prod.snd = (written l).map fun n => some (jNode n) := by
  refine ⟨_, dMap_json nodeJson _ (fun n => some (jNode n)) (keys_map h) ?_, ?_⟩
  · intro m hm e he
    injection hm with hm
    subst hm
    obtain ⟨x, hx, rfl⟩ := List.mem_map.1 he
    dsimp only
    rw [nodeJson_eq]
    unfold jObj dPtr
    dsimp only
    rw [toList_ofList, nodeOf_json (h.savable x hx)]
    rfl
  · simp [written, Function.comp_def]

theorem addRead_jNode (m : GoMap Int JNode) (n : Node) : addRead m (some (jNode n)) = .ok (m.set n.id (jNode n)) := by
  unfold addRead
  dsimp only
  rw [if_pos]
  · rfl
  · unfold jNode
    cases n.endpoints with
    | none => rfl
    | some es => simp

theorem addAll_jNodes : ∀ (ns : List Node) (m : GoMap Int JNode),
    addAll m (ns.map fun n => some (jNode n)) = .ok (ns.foldl (fun m n => m.set n.id (jNode n)) m) := by
  intro ns
  induction ns with
  | nil => intro m; rfl
  | cons n ns ih => intro m; rw [List.map_cons, addAll, addRead_jNode]; exact ih _

theorem perm_map_inv {α β : Type} {f : α → β} : ∀ {l : List α} {k : List β}, k.Perm (l.map f) →
    ∃ l' : List α, l'.Perm l ∧ k = l'.map f := by
  intro l k h
  generalize hm : l.map f = m at h
  induction h generalizing l with
  | nil => exact ⟨l, .refl _, hm.symm⟩
  | cons x _ ih =>
    rename_i l₁ l₂
    cases l with
    | nil => cases hm
    | cons a l =>
      simp only [List.map_cons, List.cons.injEq] at hm
      obtain ⟨l', h1, h2⟩ := ih hm.2
      exact ⟨a :: l', h1.cons a, by rw [List.map_cons, hm.1, h2]⟩
  | swap x y r =>
    match l, hm with
    | a :: b :: l, hm =>
      simp only [List.map_cons, List.cons.injEq] at hm
      exact ⟨b :: a :: l, .swap a b l, by simp [hm]⟩
  | trans _ _ ih1 ih2 =>
    obtain ⟨l', h1, h2⟩ := ih2 hm
    obtain ⟨l'', h3, h4⟩ := ih1 h2.symm
    exact ⟨l'', h3.trans h1, h4⟩

theorem ids_nodup {l : GoMap Int Node} (h : ListOk l) {ns : List Node} (hp : ns.Perm (l.map Prod.snd)) :
    (ns.map Node.id).Nodup := by
  refine (hp.map Node.id).nodup_iff.2 ?_
  have : l.map (fun e => e.2.id) = l.map Prod.fst := List.map_congr_left h.own
  rw [List.map_map]
  show (l.map fun e => e.2.id).Nodup
  rw [this]
  exact h.nodup

/-- What is read from a saved file: the nodes, in some order. -/
theorem read_saved (o : Order) {l : GoMap Int Node} (h : ListOk l) :
    ∃ ns : List Node, ns.Perm (l.map Prod.snd) ∧
      readConfig o (some (saveText l)) = .nodes (ns.map fun n => (n.id, jNode n)) := by
  obtain ⟨s, hs, hv⟩ := dMap_list h
  obtain ⟨ns, h1, h2⟩ := perm_map_inv (f := fun n => some (jNode n)) (l := written l)
    (k := o.run (s.map Prod.snd)) (by rw [hv]; exact o.perm _)
  have hp := h1.trans (written_perm l)
  refine ⟨ns, hp, ?_⟩
  unfold readConfig
  dsimp only
  rw [parse_save]
  unfold controllerJson jObj
  dsimp only
  rw [toList_ofList]
  have hf : field [(['N', 'o', 'd', 'e', 's'], listJson l)] ['N', 'o', 'd', 'e', 's'] = .ok (some (listJson l)) := rfl
  rw [hf]
  have hlj : ∃ ms, listJson l = .obj ms := ⟨_, rfl⟩
  obtain ⟨ms, hms⟩ := hlj
  rw [hms]
  dsimp only
  rw [← hms]
  unfold listOf
  rw [hs]
  dsimp only
  rw [Option.getD_some, h2, addAll_jNodes]
  dsimp only
  congr 1
  have : ns.foldl (fun m n => GoMap.set m n.id (jNode n)) []
      = (ns.map fun n => (n.id, jNode n)).foldl (fun m e => GoMap.set m e.1 e.2) [] := by rw [List.foldl_map]
  rw [this, foldl_set_nodup]
  · rfl
  · simpa [Function.comp_def] using ids_nodup h hp

/-! ### into the controller -/

/-- The node that is added for a node in the file. -/
def reread (n : Node) : Node :=
  { id := n.id, isAwake := n.isAwake, manufacturer := n.manufacturer, brand := n.brand
    product := n.product, description := n.description, classes := n.classes
    endpoints := n.endpoints.map fun es => es.map fun e =>
      { e with stateBool := e.stateBool.map sortKeys, stateFloat := e.stateFloat.map sortKeys, linked := false }
    stateBool := n.stateBool.map sortKeys, stateFloat := n.stateFloat.map sortKeys }

theorem allSome_map {α β : Type} {f : α → Option β} {g : α → β} {l : List α} (h : ∀ x ∈ l, f x = some (g x)) :
    allSome (l.map f) = some (l.map g) := by
  induction l with
  | nil => rfl
  | cons x l ih =>
    rw [List.map_cons, h x (by simp), allSome, ih fun y hy => h y (by simp [hy])]
    rfl

theorem noNil_some {α : Type} (m : Option (List α)) : noNil (m.map fun m => m.map some) = some m := by
  cases m with
  | none => rfl
  | some m =>
    show (allSome (m.map some)).map some = _
    rw [allSome_map (f := some) (g := fun x => x) (fun _ _ => rfl)]
    simp

theorem toEndpoint_jEndpoint (e : Endpoint) : (jEndpoint e).toEndpoint =
    some { e with stateBool := e.stateBool.map sortKeys, stateFloat := e.stateFloat.map sortKeys, linked := false } := by
  unfold JEndpoint.toEndpoint jEndpoint
  dsimp only
  rw [noNil_some]
  rfl

theorem toNode_jNode (n : Node) : (jNode n).toNode = some (reread n) := by
  unfold JNode.toNode jNode
  dsimp only
  rw [noNil_some, Option.bind_some]
  have h1 : noNil (n.endpoints.map fun es => es.map fun e => some (jEndpoint e))
      = some (n.endpoints.map fun es => es.map jEndpoint) := by
    cases n.endpoints with
    | none => rfl
    | some es =>
      show (allSome (es.map fun e => some (jEndpoint e))).map some = _
      rw [allSome_map (g := jEndpoint) (fun _ _ => rfl)]
      rfl
  rw [h1, Option.bind_some]
  have h2 : noNil ((n.endpoints.map fun es => es.map jEndpoint).map fun es => es.map JEndpoint.toEndpoint)
      = some (reread n).endpoints := by
    unfold reread
    cases n.endpoints with
    | none => rfl
    | some es =>
      show (allSome ((es.map jEndpoint).map JEndpoint.toEndpoint)).map some = _
      rw [List.map_map, allSome_map (f := JEndpoint.toEndpoint ∘ jEndpoint) fun e _ => toEndpoint_jEndpoint e]
      rfl
  rw [h2]
  rfl

theorem load_saved (o o' : Order) {l : GoMap Int Node} (h : ListOk l) (c : CSt) :
    ∃ ns : List Node, ns.Perm (l.map Prod.snd) ∧
      loadConfig o o' (some (saveText l)) c = .ret false (c.loadNodes (ns.map reread)) := by
  obtain ⟨ns, hp, hr⟩ := read_saved o h
  obtain ⟨ns', hp', hr'⟩ := perm_map_inv (f := jNode) (l := ns)
    (k := o'.run ((ns.map fun n => (n.id, jNode n)).map Prod.snd))
    (by simpa [Function.comp_def] using o'.perm (ns.map jNode))
  refine ⟨ns', hp'.trans hp, ?_⟩
  unfold loadConfig
  rw [hr]
  dsimp only
  rw [hr', List.map_map, allSome_map (f := JNode.toNode ∘ jNode) (g := reread) fun n _ => toNode_jNode n]

/-- The node of the controller for a node that was loaded. -/
def loaded (n : Node) : Node := { n.link with hasConn := true }

theorem loaded_id (n : Node) : (loaded n).id = n.id := rfl

theorem loadNode_nodes {s : CSt} {n : Node} (hr : ∀ e ∈ s.list, e.2 < s.nHeap) (hf : n.id ∉ s.list.map Prod.fst) :
    (s.loadNode n).nodes = s.nodes ++ [(n.id, loaded n)] ∧ (s.loadNode n).list = s.list ++ [(n.id, s.nHeap)] ∧
    (∀ e ∈ (s.loadNode n).list, e.2 < (s.loadNode n).nHeap) := by
  have hl : (s.loadNode n).list = s.list ++ [(n.id, s.nHeap)] := by
    show listPut s.list n.id s.nHeap = _
    exact set_new hf
  refine ⟨?_, hl, ?_⟩
  · unfold CSt.nodes
    rw [hl, List.map_append]
    congr 1
    · refine List.map_congr_left ?_
      intro e he
      have h1 : e.2 ≠ s.nHeap := Nat.ne_of_lt (hr e he)
      show (e.1, (updN s.heap s.nHeap _ e.2).node) = _
      unfold updN
      rw [if_neg h1]
    · show [(n.id, (updN s.heap s.nHeap (NSt.start (loaded n)) s.nHeap).node)] = _
      unfold updN
      rw [if_pos rfl]
      rfl
  · rw [hl]
    intro e he
    show e.2 < s.nHeap + 1
    rcases List.mem_append.1 he with he | he
    · exact Nat.lt_succ_of_lt (hr e he)
    · simp at he; subst he; exact Nat.lt_succ_self _

theorem loadNodes_nodes : ∀ (ns : List Node) {s : CSt}, (∀ e ∈ s.list, e.2 < s.nHeap) →
    (s.list.map Prod.fst ++ ns.map Node.id).Nodup →
    (s.loadNodes ns).nodes = s.nodes ++ ns.map fun n => (n.id, loaded n) := by
  intro ns
  induction ns with
  | nil => intro s _ _; simp [CSt.loadNodes]
  | cons n ns ih =>
    intro s hr hn
    have hf : n.id ∉ s.list.map Prod.fst := by
      intro hm
      rw [List.nodup_append] at hn
      exact hn.2.2 _ hm n.id (by simp) rfl
    obtain ⟨h1, h2, h3⟩ := loadNode_nodes hr hf
    have := ih h3 (by rw [h2]; simpa using hn)
    show ((s.loadNode n).loadNodes ns).nodes = _
    rw [this, h1]
    simp

theorem sameMap_sort {ν : Type} (m : Option (GoMap (List Char) ν)) : SameMap m (m.map sortKeys) := by
  cases m with
  | none => trivial
  | some m => intro k; exact (get_sortKeys m k).symm

theorem restored_loaded (n : Node) : Restored n (loaded (reread n)) where
  id := rfl
  isAwake := rfl
  manufacturer := rfl
  brand := rfl
  product := rfl
  description := rfl
  classes := rfl
  endpoints := by
    unfold loaded Node.link reread RestoredEndpoints
    cases n.endpoints with
    | none => trivial
    | some es =>
      dsimp only [Option.map_some]
      induction es with
      | nil => trivial
      | cons e es ih => exact ⟨⟨rfl, rfl, sameMap_sort _, sameMap_sort _, rfl⟩, ih⟩
  stateBool := sameMap_sort _
  stateFloat := sameMap_sort _
  protocolInfo := rfl
  statesOk := rfl
  identified := rfl
  hasConn := rfl

theorem round_trip (o o' : Order) {l : GoMap Int Node} (h : ListOk l) (f : Bool) :
    ∃ c, loadConfig o o' (some (saveText l)) (newController f) = .ret false c ∧
      (∀ id n, l.get id = some n → ∃ n', c.nodes.get id = some n' ∧ Restored n n') ∧
      ∀ id, l.get id = none → c.nodes.get id = none := by
  obtain ⟨ns, hp, hl⟩ := load_saved o o' h (newController f)
  refine ⟨_, hl, ?_⟩
  have hn := ids_nodup h hp
  have hns : ((newController f).loadNodes (ns.map reread)).nodes = ns.map fun n => (n.id, loaded (reread n)) := by
    rw [loadNodes_nodes]
    · show [] ++ _ = _
      rw [List.nil_append, List.map_map]
      rfl
    · intro e he; cases he
    · show ([] ++ _ : List Int).Nodup
      rw [List.nil_append, List.map_map]
      exact hn
  have hkeys : ((ns.map fun n => (n.id, loaded (reread n))).map Prod.fst).Nodup := by
    simpa [Function.comp_def] using hn
  rw [hns]
  constructor
  · intro id n hg
    have hm := get_mem hg
    have hid : n.id = id := h.own _ hm
    have hin : n ∈ ns := hp.mem_iff.2 (List.mem_map.2 ⟨_, hm, rfl⟩)
    refine ⟨loaded (reread n), ?_, restored_loaded n⟩
    have := mem_get hkeys (List.mem_map.2 ⟨n, hin, rfl⟩)
    rw [← hid]
    exact this
  · intro id hg
    rw [get_none] at hg ⊢
    intro hm
    apply hg
    simp only [List.map_map, List.mem_map, Function.comp_def] at hm
    obtain ⟨n, hn', rfl⟩ := hm
    obtain ⟨e, he, rfl⟩ := List.mem_map.1 (hp.mem_iff.1 hn')
    rw [h.own e he]
    exact List.mem_map_of_mem he

end Verif.Lemmas.Persist
