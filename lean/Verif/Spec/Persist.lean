import Verif.Model.Node

/-
What it means that a configuration survives: the words of the properties, without reference to JSON.
-/

namespace Verif.Spec

open Verif.Model

/-- No key occurs twice: the association list is a Go map. -/
def IsMap {ν : Type} (m : Option (GoMap (List Char) ν)) : Prop := ∀ m', m = some m' → (m'.map Prod.fst).Nodup

/-- A whole number of ten-millionths, in the range of sensor readings and far beyond. -/
def Decimal7 (q : Rat) : Prop := ∃ m : Int, q = m / 10000000 ∧ m.natAbs < 2 ^ 64

/-- All values of a map of numbers are such decimals. -/
def Decimals (m : Option (GoMap (List Char) Rat)) : Prop := ∀ m', m = some m' → ∀ e ∈ m', Decimal7 e.2

/-- An endpoint as the library makes it. -/
structure SavableEndpoint (e : Endpoint) : Prop where
  id : -(2 ^ 63) ≤ e.id ∧ e.id < 2 ^ 63
  mapB : IsMap e.stateBool
  mapF : IsMap e.stateFloat
  dec : Decimals e.stateFloat

/-- A node as the library makes it: the id is an `int`, the maps are maps, the numbers are sensor readings,
levels or alarm types. -/
structure Savable (n : Node) : Prop where
  id : -(2 ^ 63) ≤ n.id ∧ n.id < 2 ^ 63
  mapB : IsMap n.stateBool
  mapF : IsMap n.stateFloat
  dec : Decimals n.stateFloat
  eps : ∀ es, n.endpoints = some es → ∀ e ∈ es, SavableEndpoint e

/-- A list of nodes as a controller has it: every node under its own id, no id twice. -/
structure ListOk (l : GoMap Int Node) : Prop where
  nodup : (l.map Prod.fst).Nodup
  own : ∀ e ∈ l, e.2.id = e.1
  savable : ∀ e ∈ l, Savable e.2

/-- The same Go map: both nil or the same value for every key. -/
def SameMap {ν : Type} (a b : Option (GoMap (List Char) ν)) : Prop :=
  match a, b with
  | none, none => True
  | some m, some m' => ∀ k, GoMap.get m k = GoMap.get m' k
  | _, _ => False

/-- The endpoint `e'` has what `e` had, and knows its node. -/
structure RestoredEndpoint (e e' : Endpoint) : Prop where
  id : e'.id = e.id
  classes : e'.classes = e.classes
  stateBool : SameMap e.stateBool e'.stateBool
  stateFloat : SameMap e.stateFloat e'.stateFloat
  linked : e'.linked = true

/-- Position by position. -/
def Pointwise {α β : Type} (R : α → β → Prop) : List α → List β → Prop
  | [], [] => True
  | a :: as, b :: bs => R a b ∧ Pointwise R as bs
  | _, _ => False

/-- The same for slices of endpoints; nil stays nil. -/
def RestoredEndpoints : Option (List Endpoint) → Option (List Endpoint) → Prop
  | none, none => True
  | some es, some es' => Pointwise RestoredEndpoint es es'
  | _, _ => False

/-- The node `n'` has the identification, classes, endpoints and states of `n`; what belongs to the running
program only is as in a node that was just set up. -/
structure Restored (n n' : Node) : Prop where
  id : n'.id = n.id
  isAwake : n'.isAwake = n.isAwake
  manufacturer : n'.manufacturer = n.manufacturer
  brand : n'.brand = n.brand
  product : n'.product = n.product
  description : n'.description = n.description
  classes : n'.classes = n.classes
  endpoints : RestoredEndpoints n.endpoints n'.endpoints
  stateBool : SameMap n.stateBool n'.stateBool
  stateFloat : SameMap n.stateFloat n'.stateFloat
  protocolInfo : n'.protocolInfo = none
  statesOk : n'.statesOk = false
  identified : n'.identified = false
  hasConn : n'.hasConn = true

end Verif.Spec
