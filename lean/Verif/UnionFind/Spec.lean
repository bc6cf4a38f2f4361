import Verif.UnionFind.Model
import Mathlib.Logic.Relation

/-! # Vocabulary: items linked by unions -/
namespace Verif.UnionFind

/-- The pairs that were united. -/
def unions : List Op → List (Nat × Nat)
  | [] => []
  | .union a b :: l => (a, b) :: unions l
  | .find _ :: l => unions l

/-- `a` and `b` are linked by a chain of the given pairs (in either direction, possibly empty). -/
def Linked (pairs : List (Nat × Nat)) (a b : Nat) : Prop :=
  Relation.EqvGen (fun x y => (x, y) ∈ pairs) a b

end Verif.UnionFind
