/-!
Hash maps (`std::collections::HashMap`) as association lists. The iteration order of the Rust map is
arbitrary; in the model it is the order of the list, and histories may permute the list at
any time (`Verif/Model/Pica.lean`).
-/

namespace Pica

abbrev AMap (K V : Type) := List (K × V)

namespace AMap
variable {K V : Type} [DecidableEq K]

/-- `HashMap::get` -/
def get? (m : AMap K V) (k : K) : Option V :=
  match m with
  | [] => none
  | (k', v) :: r => if k' = k then some v else get? r k

/-- `HashMap::insert`: replaces the value of an existing key. -/
def insert (m : AMap K V) (k : K) (v : V) : AMap K V :=
  match m with
  | [] => [(k, v)]
  | (k', v') :: r => if k' = k then (k, v) :: r else (k', v') :: insert r k v

/-- `HashMap::remove` -/
def erase (m : AMap K V) (k : K) : AMap K V := m.filter (fun e => decide (e.1 ≠ k))

/-- The keys, in iteration order. -/
def keys (m : AMap K V) : List K := m.map Prod.fst

/-- `HashMap::values` -/
def values (m : AMap K V) : List V := m.map Prod.snd

end AMap
end Pica
