import Verif.DenseMatrix.Model

/-! # Vocabulary for dense matrices -/
namespace Verif.DenseMatrix
variable {α : Type}

/-- `M` is an `n` by `m` matrix with a complete data vector. -/
def Mat.Is (M : Mat α) (n m : Nat) : Prop := M.rows = n ∧ M.cols = m ∧ M.data.length = n * m

instance (M : Mat α) (n m : Nat) : Decidable (M.Is n m) := by unfold Mat.Is; infer_instance

/-- `F` is a face matrix for `nL` left and `nR` right degrees of freedom. -/
def FaceMat.Is (F : FaceMat α) (nL nR : Nat) : Prop :=
  F.ll.Is nL nL ∧ F.lr.Is nL nR ∧ F.rl.Is nR nL ∧ F.rr.Is nR nR

instance (F : FaceMat α) (n m : Nat) : Decidable (F.Is n m) := by unfold FaceMat.Is; infer_instance

/-- The position in the entire matrix of degree of freedom `i` of one side. -/
def position (nL : Nat) : Side → Nat → Nat
  | .left, i => i
  | .right, i => nL + i

/-- The number of degrees of freedom of a side. -/
def count (nL nR : Nat) : Side → Nat
  | .left => nL
  | .right => nR

/-- Two matrices of the same size with the same entries. -/
def Mat.Entries [Zero α] (M : Mat α) (n m : Nat) (f : Nat → Nat → α) : Prop :=
  M.Is n m ∧ ∀ i < n, ∀ j < m, M.get i j = f i j

/-- A face matrix with given entries, seen as one square matrix. -/
def FaceMat.Entries [Zero α] (F : FaceMat α) (nL nR : Nat) (f : Nat → Nat → α) : Prop :=
  F.Is nL nR ∧ ∀ i < nL + nR, ∀ j < nL + nR, F.get i j = f i j

end Verif.DenseMatrix
