import Verif.Lemmas.PersistNum

/-! Reading back what was saved. -/

set_option linter.unusedSimpArgs false

namespace Verif.Lemmas.Persist

open Verif.Go Verif.Model Verif.Spec Verif.Lemmas.JsonL

/-! ### maps -/

theorem charsLe_refl (s : List Char) : charsLe s s = true := by
  induction s with
  | nil => rfl
  | cons c s ih => rw [charsLe]; simp [ih]

theorem get_insertKey {α : Type} (e : List Char × α) (l : List (List Char × α)) (k : List Char) :
    GoMap.get (insertKey e l) k = if e.1 = k then some e.2 else GoMap.get l k := by
  induction l with
  | nil => rw [insertKey, GoMap.get, GoMap.get, GoMap.get]
  | cons x r ih =>
    rw [insertKey]
    by_cases h : charsLe e.1 x.1 = true
    · rw [if_pos h, GoMap.get]
    · rw [if_neg h, GoMap.get, ih]
      by_cases hx : x.1 = k
      · rw [if_pos hx, GoMap.get, if_pos hx, if_neg]
        intro he
        rw [he, ← hx, charsLe_refl] at h
        exact h rfl
      · rw [if_neg hx, GoMap.get, if_neg hx]

theorem get_sortKeys {α : Type} (l : List (List Char × α)) (k : List Char) :
    GoMap.get (sortKeys l) k = GoMap.get l k := by
  induction l with
  | nil => rfl
  | cons e r ih => rw [sortKeys, get_insertKey, ih, GoMap.get]

theorem insertKey_perm {α : Type} (e : List Char × α) (l : List (List Char × α)) : (insertKey e l).Perm (e :: l) := by
  induction l with
  | nil => exact .refl _
  | cons x r ih =>
    rw [insertKey]
    split
    · exact .refl _
    · exact (ih.cons x).trans (.swap e x r)

theorem sortKeys_perm {α : Type} (l : List (List Char × α)) : (sortKeys l).Perm l := by
  induction l with
  | nil => exact .refl _
  | cons e r ih => exact (insertKey_perm e _).trans (ih.cons e)

theorem sortKeys_map {α β : Type} (f : α → β) (l : List (List Char × α)) :
    sortKeys (l.map fun e => (e.1, f e.2)) = (sortKeys l).map fun e => (e.1, f e.2) := by
  have aux : ∀ (e : List Char × α) (l : List (List Char × α)),
      insertKey (e.1, f e.2) (l.map fun e => (e.1, f e.2)) = (insertKey e l).map fun e => (e.1, f e.2) := by
    intro e l
    induction l with
    | nil => rfl
    | cons x r ih =>
      rw [List.map_cons, insertKey, insertKey]
      split
      · rfl
      · rw [List.map_cons, ih]
  induction l with
  | nil => rfl
  | cons e r ih => rw [List.map_cons, sortKeys, sortKeys, ih, aux]

section
variable {κ ν : Type} [DecidableEq κ]

theorem set_new {m : GoMap κ ν} {k : κ} {v : ν} (h : k ∉ m.map Prod.fst) : GoMap.set m k v = m ++ [(k, v)] := by
  induction m with
  | nil => rfl
  | cons e r ih =>
    simp only [List.map_cons, List.mem_cons, not_or] at h
    rw [GoMap.set, if_neg (fun he => h.1 he.symm), ih h.2]; rfl

theorem foldl_set_nodup : ∀ (l m : List (κ × ν)), (m.map Prod.fst ++ l.map Prod.fst).Nodup →
    l.foldl (fun m e => GoMap.set m e.1 e.2) m = m ++ l := by
  intro l
  induction l with
  | nil => intro m _; simp
  | cons e l ih =>
    intro m h
    rw [List.foldl_cons, set_new, ih]
    · simp
    · simpa using h
    · intro hm
      rw [List.nodup_append] at h
      exact h.2.2 _ hm e.1 (by simp) rfl

theorem get_none {m : GoMap κ ν} {k : κ} : GoMap.get m k = none ↔ k ∉ m.map Prod.fst := by
  induction m with
  | nil => simp [GoMap.get]
  | cons e r ih =>
    rw [GoMap.get]
    by_cases h : e.1 = k
    · simp [h]
    · rw [if_neg h, ih]; simp [show ¬ k = e.1 from fun he => h he.symm]

theorem get_mem {m : GoMap κ ν} {k : κ} {v : ν} (h : GoMap.get m k = some v) : (k, v) ∈ m := by
  induction m with
  | nil => simp [GoMap.get] at h
  | cons e r ih =>
    rw [GoMap.get] at h
    by_cases hk : e.1 = k
    · rw [if_pos hk] at h
      injection h with h
      subst hk; subst h
      exact List.mem_cons_self
    · rw [if_neg hk] at h
      exact List.mem_cons_of_mem _ (ih h)

theorem mem_get {m : GoMap κ ν} (hn : (m.map Prod.fst).Nodup) {e : κ × ν} (h : e ∈ m) : GoMap.get m e.1 = some e.2 := by
  induction m with
  | nil => cases h
  | cons x r ih =>
    simp only [List.map_cons, List.nodup_cons] at hn
    rw [GoMap.get]
    rcases List.mem_cons.1 h with rfl | h
    · rw [if_pos rfl]
    · rw [if_neg, ih hn.2 h]
      intro hx
      exact hn.1 (by rw [hx]; exact List.mem_map_of_mem h)

theorem get_map {ν' : Type} (f : ν → ν') (m : GoMap κ ν) (k : κ) :
    GoMap.get (m.map fun e => (e.1, f e.2)) k = (GoMap.get m k).map f := by
  induction m with
  | nil => rfl
  | cons e r ih =>
    rw [List.map_cons, GoMap.get, GoMap.get, ih]
    split <;> rfl

end

theorem nodup_sort {α : Type} {l : List (List Char × α)} (h : (l.map Prod.fst).Nodup) :
    ((sortKeys l).map Prod.fst).Nodup :=
  ((sortKeys_perm l).map Prod.fst).nodup_iff.2 h

theorem mem_sort {α : Type} {l : List (List Char × α)} {e : List Char × α} : e ∈ sortKeys l ↔ e ∈ l :=
  (sortKeys_perm l).mem_iff

/-! ### well formed -/

theorem toList_ofList (l : List (List Char × Json)) : (JMems.ofList l).toList = l := by
  induction l with
  | nil => rfl
  | cons e l ih => rw [JMems.ofList, JMems.toList, ih]

theorem toList_ofList' (l : List Json) : (JList.ofList l).toList = l := by
  induction l with
  | nil => rfl
  | cons e l ih => rw [JList.ofList, JList.toList, ih]

theorem ok_mems {l : List (List Char × Json)} (h : ∀ e ∈ l, Json.Ok e.2) : JMems.Ok (JMems.ofList l) := by
  induction l with
  | nil => trivial
  | cons e l ih =>
    rw [JMems.ofList]
    unfold JMems.Ok
    exact ⟨h e (by simp), ih fun x hx => h x (by simp [hx])⟩

theorem ok_list {l : List Json} (h : ∀ e ∈ l, Json.Ok e) : JList.Ok (JList.ofList l) := by
  induction l with
  | nil => trivial
  | cons e l ih =>
    rw [JList.ofList]
    unfold JList.Ok
    exact ⟨h e (by simp), ih fun x hx => h x (by simp [hx])⟩

theorem ok_obj {l : List (List Char × Json)} (h : ∀ e ∈ l, Json.Ok e.2) : Json.Ok (jObj l) := ok_mems h

theorem ok_null : Json.Ok .null := trivial
theorem ok_bool (b : Bool) : Json.Ok (.bool b) := trivial
theorem ok_str (s : List Char) : Json.Ok (.str s) := trivial
theorem ok_num {s : List Char} (h : NumOk s) : Json.Ok (.num s) := h

theorem ok_map {ν : Type} {f : ν → Json} (h : ∀ v, Json.Ok (f v)) (m : Option (GoMap (List Char) ν)) :
    Json.Ok (mapJson f m) := by
  cases m with
  | none => trivial
  | some m =>
    refine ok_obj ?_
    intro e he
    obtain ⟨x, _, rfl⟩ := List.mem_map.1 he
    exact h _

theorem ok_slice {α : Type} {f : α → Json} (h : ∀ v, Json.Ok (f v)) (m : Option (List α)) : Json.Ok (sliceJson f m) := by
  cases m with
  | none => trivial
  | some m =>
    refine ok_list ?_
    intro e he
    obtain ⟨x, _, rfl⟩ := List.mem_map.1 he
    exact h _

theorem ok_class (c : CommandClass) : Json.Ok (classJson c) := by
  refine ok_obj ?_
  simp only [List.mem_cons, List.not_mem_nil, or_false, forall_eq_or_imp, forall_eq]
  exact ⟨numOk_itoa _, trivial, trivial, trivial, trivial⟩

theorem ok_manufacturer (m : ManufacturerSpecific) : Json.Ok (manufacturerJson m) := by
  refine ok_obj ?_
  simp only [List.mem_cons, List.not_mem_nil, or_false, forall_eq_or_imp, forall_eq]
  exact ⟨trivial, trivial, trivial⟩

theorem ok_endpoint (e : Endpoint) : Json.Ok (endpointJson e) := by
  refine ok_obj ?_
  simp only [List.mem_cons, List.not_mem_nil, or_false, forall_eq_or_imp, forall_eq]
  exact ⟨numOk_intLit _, ok_slice ok_class _, ok_map ok_bool _, ok_map (fun q => ok_num (numOk_fmtFloat q)) _⟩

theorem ok_node (n : Node) : Json.Ok (nodeJson n) := by
  refine ok_obj ?_
  simp only [List.mem_cons, List.not_mem_nil, or_false, forall_eq_or_imp, forall_eq]
  refine ⟨numOk_intLit _, trivial, ?_, trivial, trivial, trivial, ok_slice ok_class _, ok_slice ok_endpoint _,
    ok_map ok_bool _, ok_map (fun q => ok_num (numOk_fmtFloat q)) _⟩
  cases n.manufacturer with
  | none => trivial
  | some m => exact ok_manufacturer m

theorem ok_controller (l : GoMap Int Node) : Json.Ok (controllerJson l) := by
  refine ok_obj ?_
  simp only [List.mem_cons, List.not_mem_nil, or_false, forall_eq]
  exact ok_map ok_node _

theorem parse_save (l : GoMap Int Node) : parseJson (saveText l) = some (controllerJson l) :=
  parse_print _ (ok_controller l)

theorem parse_save_prefix (l : GoMap Int Node) {p q : List Char} (e : p ++ q = saveText l) (hq : q ≠ []) :
    parseJson p = none :=
  parse_prefix (ok_controller l) ⟨'{', _, rfl, .inl rfl⟩ e hq

/-! ### decoding -/

theorem bind_step {α β : Type} {x : Dec α} {a : α} {f : α → Dec β} {y : Dec β} (h : x = .ok a) (h' : f a = y) :
    x.bind f = y := by rw [h]; exact h'

theorem Dec.bind_ok {α β : Type} (a : α) (f : α → Dec β) : (Dec.ok a).bind f = f a := rfl

theorem all_ok {α β γ : Type} (f : β → Dec γ) (g : α → β) (k : α → γ) {l : List α} (h : ∀ x ∈ l, f (g x) = .ok (k x)) :
    Dec.all f (l.map g) = .ok (l.map k) := by
  induction l with
  | nil => rfl
  | cons x l ih =>
    rw [List.map_cons, Dec.all, h x (by simp), Dec.bind_ok, ih fun y hy => h y (by simp [hy]), Dec.bind_ok,
      List.map_cons]

theorem dMap_json {ν ν' : Type} (f : ν → Json) (g : Json → Dec ν') (k : ν → ν') {m : Option (GoMap (List Char) ν)}
    (hm : IsMap m) (h : ∀ m', m = some m' → ∀ e ∈ m', g (f e.2) = .ok (k e.2)) :
    dMap g (some (mapJson f m)) = .ok (m.map fun m => (sortKeys m).map fun e => (e.1, k e.2)) := by
  cases m with
  | none => rfl
  | some m =>
    unfold mapJson jObj dMap
    dsimp only
    rw [toList_ofList, all_ok (k := fun e => (e.1, k e.2))]
    · rw [Dec.bind_ok, foldl_set_nodup]
      · rfl
      · simp only [List.map_nil, List.nil_append, List.map_map]
        have := nodup_sort (hm m rfl)
        simpa [Function.comp_def] using this
    · intro e he
      dsimp only
      rw [h m rfl e (mem_sort.1 he), Dec.bind_ok]

theorem dSlice_json {α β : Type} (f : α → List (List Char × Json)) (g : List (List Char × Json) → Dec β) (k : α → β)
    {m : Option (List α)} (h : ∀ m', m = some m' → ∀ e ∈ m', g (f e) = .ok (k e)) :
    dSlice g (some (sliceJson (fun x => jObj (f x)) m)) = .ok (m.map fun m => m.map fun e => some (k e)) := by
  cases m with
  | none => rfl
  | some m =>
    unfold sliceJson dSlice
    dsimp only
    rw [toList_ofList', all_ok (k := fun e => some (k e))]
    · rfl
    · intro e he
      unfold jObj dPtr
      dsimp only
      rw [toList_ofList, h m rfl e he, Dec.bind_ok]

/-- The members of the JSON object of a class. -/
def classMems (c : CommandClass) : List (List Char × Json) :=
  match classJson c with
  | .obj ms => ms.toList
  | _ => []

theorem classOf_json (c : CommandClass) : classOf (classMems c) = .ok c := by
  unfold classMems classJson jObj
  dsimp only
  rw [toList_ofList]
  unfold classOf
  have h1 : dByte (some (.num (itoa c.id.toNat))) = .ok c.id := by
    unfold dByte; dsimp only; rw [byteOf_itoa]; rfl
  exact bind_step h1 rfl

/-- The members of the JSON object of manufacturer data. -/
theorem manufacturerOf_json (m : ManufacturerSpecific) :
    dPtr manufacturerOf (some (manufacturerJson m)) = .ok (some m) := by
  unfold manufacturerJson jObj dPtr
  dsimp only
  rw [toList_ofList]
  rfl

theorem classJson_eq (c : CommandClass) : classJson c = jObj (classMems c) := by
  unfold classMems classJson jObj
  dsimp only
  rw [toList_ofList]

theorem dSlice_class (m : Option (List CommandClass)) :
    dSlice classOf (some (sliceJson classJson m)) = .ok (m.map fun m => m.map some) := by
  have e : classJson = fun x => jObj (classMems x) := funext classJson_eq
  rw [e]
  exact dSlice_json classMems classOf id fun _ _ e _ => classOf_json e

theorem dMap_bool {m : Option (GoMap (List Char) Bool)} (h : IsMap m) :
    dMap (fun j => dBool (some j)) (some (mapJson .bool m)) = .ok (m.map sortKeys) := by
  rw [dMap_json .bool _ id h (fun _ _ _ _ => rfl)]
  simp

theorem dMap_float {m : Option (GoMap (List Char) Rat)} (h : IsMap m) (hd : Decimals m) :
    dMap (fun j => dFloat (some j)) (some (mapJson (fun q => .num (fmtFloat q)) m)) = .ok (m.map sortKeys) := by
  rw [dMap_json (fun q => .num (fmtFloat q)) _ id h]
  · simp
  · intro m' hm e he
    show Dec.ofOption (floatOf (fmtFloat e.2)) = _
    rw [floatOf_fmtFloat (hd m' hm e he)]
    rfl

theorem dInt_json {i : Int} (h : -(2 ^ 63) ≤ i ∧ i < 2 ^ 63) : dInt (some (.num (intLit i))) = .ok i := by
  show Dec.ofOption (intOf (intLit i)) = _
  rw [intOf_intLit i h]
  rfl

/-- What is read for an endpoint. -/
def jEndpoint (e : Endpoint) : JEndpoint :=
  { id := e.id, classes := e.classes.map fun m => m.map some, stateBool := e.stateBool.map sortKeys
    stateFloat := e.stateFloat.map sortKeys }

/-- The members of the JSON object of an endpoint. -/
def endpointMems (e : Endpoint) : List (List Char × Json) :=
  match endpointJson e with
  | .obj ms => ms.toList
  | _ => []

theorem endpointJson_eq (c : Endpoint) : endpointJson c = jObj (endpointMems c) := by
  unfold endpointMems endpointJson jObj
  dsimp only
  rw [toList_ofList]

theorem endpointOf_json {e : Endpoint} (h : SavableEndpoint e) : endpointOf (endpointMems e) = .ok (jEndpoint e) := by
  unfold endpointMems endpointJson jObj
  dsimp only
  rw [toList_ofList]
  unfold endpointOf
  refine bind_step (dInt_json h.id) ?_
  refine bind_step (dSlice_class e.classes) ?_
  refine bind_step (dMap_bool h.mapB) ?_
  exact bind_step (dMap_float h.mapF h.dec) rfl

/-- What is read for a node. -/
def jNode (n : Node) : JNode :=
  { id := n.id, isAwake := n.isAwake, manufacturer := n.manufacturer, brand := n.brand, product := n.product
    description := n.description, classes := n.classes.map fun m => m.map some
    endpoints := n.endpoints.map fun es => es.map fun e => some (jEndpoint e)
    stateBool := n.stateBool.map sortKeys, stateFloat := n.stateFloat.map sortKeys }

/-- The members of the JSON object of a node. -/
def nodeMems (n : Node) : List (List Char × Json) :=
  match nodeJson n with
  | .obj ms => ms.toList
  | _ => []

theorem nodeJson_eq (c : Node) : nodeJson c = jObj (nodeMems c) := by
  unfold nodeMems nodeJson jObj
  dsimp only
  rw [toList_ofList]

theorem dSlice_endpoint {m : Option (List Endpoint)} (h : ∀ es, m = some es → ∀ e ∈ es, SavableEndpoint e) :
    dSlice endpointOf (some (sliceJson endpointJson m)) = .ok (m.map fun m => m.map fun e => some (jEndpoint e)) := by
  have e : endpointJson = fun x => jObj (endpointMems x) := funext endpointJson_eq
  rw [e]
  exact dSlice_json endpointMems endpointOf jEndpoint fun m' hm e he => endpointOf_json (h m' hm e he)

theorem nodeOf_json {n : Node} (h : Savable n) : nodeOf (nodeMems n) = .ok (jNode n) := by
  unfold nodeMems nodeJson jObj
  dsimp only
  rw [toList_ofList]
  have hman : dPtr manufacturerOf (some (ptrJson manufacturerJson n.manufacturer)) = .ok n.manufacturer := by
    cases n.manufacturer with
    | none => rfl
    | some m => exact manufacturerOf_json m
  unfold nodeOf
  refine bind_step (dInt_json h.id) ?_
  refine bind_step (show dBool (some (.bool n.isAwake)) = .ok n.isAwake from rfl) ?_
  refine bind_step hman ?_
  refine bind_step (show dStr (some (.str n.brand)) = .ok n.brand from rfl) ?_
  refine bind_step (show dStr (some (.str n.product)) = .ok n.product from rfl) ?_
  refine bind_step (show dStr (some (.str n.description)) = .ok n.description from rfl) ?_
  refine bind_step (dSlice_class n.classes) ?_
  refine bind_step (dSlice_endpoint h.eps) ?_
  refine bind_step (dMap_bool h.mapB) ?_
  exact bind_step (dMap_float h.mapF h.dec) rfl

end Verif.Lemmas.Persist
