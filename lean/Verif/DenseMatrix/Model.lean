import Mathlib.Algebra.BigOperators.Group.List.Basic
import Mathlib.Algebra.Ring.Defs

/-!
# Model of the dense matrices

kernel/LinearAlgebra/MiddleSizeMatrix.{h,cpp} and kernel/Base/FaceMatrix.cpp. The entry type is an
arbitrary type with the operations used (`double` or `complex<double>` in the code). Sizes beyond
`INT_MAX` are rejected by debug assertions and not represented. The move operations leave their
source in an unspecified state and are modelled as copies.
-/
namespace Verif.DenseMatrix

variable {α : Type}

/-- MiddleSizeMatrix.h:299-307: the data is one flat vector. -/
structure Mat (α : Type) where
  rows : Nat
  cols : Nat
  data : List α

namespace Mat

/-- MiddleSizeMatrix.cpp:149-156 constructor with a constant. -/
def const (n m : Nat) (c : α) : Mat α := ⟨n, m, List.replicate (n * m) c⟩

/-- MiddleSizeMatrix.cpp:135-141: entries are value-initialised. -/
def zero [Zero α] (n m : Nat) : Mat α := const n m 0

/-- MiddleSizeMatrix.h:108-132 `operator()` as a read; in range is a debug assertion. -/
def get [Zero α] (M : Mat α) (n m : Nat) : α := M.data.getD (n + m * M.rows) 0

/-- MiddleSizeMatrix.h:108-132 `operator()` as the target of an assignment. -/
def set (M : Mat α) (n m : Nat) (v : α) : Mat α :=
  { M with data := M.data.set (n + m * M.rows) v }

/-- MiddleSizeMatrix.cpp:604-606 -/
def size (M : Mat α) : Nat := M.rows * M.cols

/-- MiddleSizeMatrix.cpp:218-230 `operator+=`. -/
def add [Add α] (M N : Mat α) : Mat α := { M with data := List.zipWith (· + ·) M.data N.data }

/-- MiddleSizeMatrix.cpp:232-243 `operator-=`. -/
def sub [Sub α] (M N : Mat α) : Mat α := { M with data := List.zipWith (· - ·) M.data N.data }

/-- MiddleSizeMatrix.cpp:252-255 `operator*=(scalar)`. -/
def scale [Mul α] (M : Mat α) (s : α) : Mat α := { M with data := M.data.map (· * s) }

/-- MiddleSizeMatrix.cpp:543-557 `axpy`: BLAS `y := a*x + y` on the flat vectors. -/
def axpy [Add α] [Mul α] (M : Mat α) (a : α) (X : Mat α) : Mat α :=
  { M with data := List.zipWith (fun x y => a * x + y) X.data M.data }

/-- `std::vector::resize`. -/
def vecResize [Zero α] (l : List α) (n : Nat) : List α :=
  l.take n ++ List.replicate (n - l.length) 0

/-- MiddleSizeMatrix.cpp:561-571 `resize`. -/
def resize [Zero α] (M : Mat α) (n m : Nat) : Mat α :=
  ⟨n, m, if n * m ≠ M.data.length then vecResize M.data (n * m) else M.data⟩

/-- MiddleSizeMatrix.cpp:452-460 `operator=(scalar)`. -/
def assignScalar [Zero α] (M : Mat α) (c : α) : Mat α :=
  let N := if M.size ≠ 1 then (⟨1, 1, vecResize M.data 1⟩ : Mat α) else M
  { N with data := N.data.set 0 c }

/-- A nested loop `for i < r, for j < c: M(a + i, b + j) = f i j`. -/
def fillBlock (M : Mat α) (a b r c : Nat) (f : Nat → Nat → α) : Mat α :=
  (List.range r).foldl (fun M i =>
    (List.range c).foldl (fun M j => M.set (a + i) (b + j) (f i j)) M) M

/-- MiddleSizeMatrix.cpp:690-698 `transpose`: the target of the assignment has the indices
swapped. -/
def transpose [Zero α] (M : Mat α) : Mat α :=
  (List.range M.rows).foldl (fun R i =>
    (List.range M.cols).foldl (fun R j => R.set j i (M.get i j)) R) (zero M.cols M.rows)

/-- MiddleSizeMatrix.cpp:575-601 `concatenate`. -/
def concatenate [Zero α] (M N : Mat α) : Mat α :=
  let t := M.rows + N.rows
  ⟨t, M.cols,
    (List.range M.cols).foldl (fun d col =>
      let d := (List.range M.rows).foldl (fun d row =>
        d.set (row + col * t) (M.data.getD (row + col * M.rows) 0)) d
      (List.range' M.rows N.rows).foldl (fun d row =>
        d.set (row + col * t) (N.data.getD ((row - M.rows) + col * N.rows) 0)) d)
      (List.replicate (M.cols * t) 0)⟩

/-- MiddleSizeMatrix.cpp:175-194 constructor from a list of matrices, glued column wise. An empty
list is undefined behaviour (`list.begin()` is dereferenced): `none`. -/
def glue : List (Mat α) → Option (Mat α)
  | [] => none
  | M :: l => some ⟨M.rows, ((M :: l).map Mat.cols).sum, ((M :: l).map Mat.data).flatten⟩

/-- MiddleSizeMatrix.cpp:617-627 `getColumn`. -/
def getColumn [Zero α] (M : Mat α) (j : Nat) : List α :=
  (List.range M.rows).map fun i => M.data.getD (j * M.rows + i) 0

/-- MiddleSizeMatrix.cpp:629-638 `getRow`. -/
def getRow [Zero α] (M : Mat α) (i : Nat) : List α :=
  (List.range M.cols).map fun j => M.data.getD (j * M.rows + i) 0

/-- BLAS `gemm("N", "N", m, n, k, 1, A, lda, B, ldb, 0, C, ldc)` by its documentation, writing the
`m` by `n` block of the column-major array `C` with leading dimension `ldc = m`. -/
def gemm [Semiring α] (m n k : Nat) (A : List α) (lda : Nat) (B : List α) (ldb : Nat) : List α :=
  (List.range (n * m)).map fun x =>
    ((List.range k).map fun l =>
      A.getD (x % m + l * lda) 0 * B.getD (l + (x / m) * ldb) 0).sum

/-- MiddleSizeMatrix.cpp:365-433 `operator*`. -/
def mul [Semiring α] (M N : Mat α) : Mat α :=
  if M.cols = 0 then zero M.rows N.cols
  else ⟨M.rows, N.cols, gemm M.rows N.cols M.cols M.data M.rows N.data M.cols⟩

end Mat

/-- kernel/Base/Side.h -/
inductive Side where
  | left
  | right
deriving DecidableEq

/-- FaceMatrix.h: four blocks. -/
structure FaceMat (α : Type) where
  ll : Mat α
  lr : Mat α
  rl : Mat α
  rr : Mat α

namespace FaceMat

/-- FaceMatrix.cpp:52-56 -/
def zero [Zero α] (nL nR : Nat) : FaceMat α :=
  ⟨.zero nL nL, .zero nL nR, .zero nR nL, .zero nR nR⟩

/-- FaceMatrix.h `getNumberOfDegreesOfFreedom`. -/
def dofs (F : FaceMat α) : Side → Nat
  | .left => F.ll.rows
  | .right => F.rr.rows

/-- FaceMatrix.cpp:169-199 `getElementMatrix`. -/
def block (F : FaceMat α) : Side → Side → Mat α
  | .left, .left => F.ll
  | .left, .right => F.lr
  | .right, .left => F.rl
  | .right, .right => F.rr

/-- FaceMatrix.cpp:205-232 `setElementMatrix`. -/
def setBlock (F : FaceMat α) (M : Mat α) : Side → Side → FaceMat α
  | .left, .left => { F with ll := M }
  | .left, .right => { F with lr := M }
  | .right, .left => { F with rl := M }
  | .right, .right => { F with rr := M }

/-- FaceMatrix.cpp:69-92 `operator()(iSide, jSide, i, j)` as a read. -/
def getSide [Zero α] (F : FaceMat α) (iS jS : Side) (i j : Nat) : α := (F.block iS jS).get i j

/-- FaceMatrix.cpp:69-92 as the target of an assignment. -/
def putSide (F : FaceMat α) (iS jS : Side) (i j : Nat) (v : α) : FaceMat α :=
  F.setBlock ((F.block iS jS).set i j v) iS jS

/-- FaceMatrix.cpp:102-131 `operator()(i, j)` as a read. -/
def get [Zero α] (F : FaceMat α) (i j : Nat) : α :=
  let nL := F.ll.rows
  if i < nL then
    if j < nL then F.ll.get i j else F.lr.get i (j - nL)
  else
    if j < nL then F.rl.get (i - nL) j else F.rr.get (i - nL) (j - nL)

/-- FaceMatrix.cpp:102-131 as the target of an assignment. -/
def put (F : FaceMat α) (i j : Nat) (v : α) : FaceMat α :=
  let nL := F.ll.rows
  if i < nL then
    if j < nL then { F with ll := F.ll.set i j v } else { F with lr := F.lr.set i (j - nL) v }
  else
    if j < nL then { F with rl := F.rl.set (i - nL) j v }
    else { F with rr := F.rr.set (i - nL) (j - nL) v }

/-- FaceMatrix.cpp:137-143 -/
def add [Add α] (F G : FaceMat α) : FaceMat α :=
  ⟨F.ll.add G.ll, F.lr.add G.lr, F.rl.add G.rl, F.rr.add G.rr⟩

/-- FaceMatrix.cpp:146-153 -/
def scale [Mul α] (F : FaceMat α) (s : α) : FaceMat α :=
  ⟨F.ll.scale s, F.lr.scale s, F.rl.scale s, F.rr.scale s⟩

/-- FaceMatrix.cpp:307-313 -/
def axpy [Add α] [Mul α] (F : FaceMat α) (a : α) (X : FaceMat α) : FaceMat α :=
  ⟨F.ll.axpy a X.ll, F.lr.axpy a X.lr, F.rl.axpy a X.rl, F.rr.axpy a X.rr⟩

/-- FaceMatrix.cpp:159-165 -/
def resize [Zero α] (F : FaceMat α) (nL nR : Nat) : FaceMat α :=
  ⟨F.ll.resize nL nL, F.lr.resize nL nR, F.rl.resize nR nL, F.rr.resize nR nR⟩

/-- FaceMatrix.cpp:236-265 -/
def getEntire [Zero α] (F : FaceMat α) : Mat α :=
  let nL := F.ll.rows
  let nR := F.rr.rows
  ((((Mat.zero (nL + nR) (nL + nR)).fillBlock 0 0 nL nL F.ll.get).fillBlock 0 nL nL nR
    F.lr.get).fillBlock nL 0 nR nL F.rl.get).fillBlock nL nL nR nR F.rr.get

/-- FaceMatrix.cpp:270-303 -/
def setEntire [Zero α] (F : FaceMat α) (M : Mat α) : FaceMat α :=
  let nL := F.ll.rows
  let nR := F.rr.rows
  ⟨F.ll.fillBlock 0 0 nL nL fun i j => M.get i j,
   F.lr.fillBlock 0 0 nL nR fun i j => M.get i (nL + j),
   F.rl.fillBlock 0 0 nR nL fun i j => M.get (nL + i) j,
   F.rr.fillBlock 0 0 nR nR fun i j => M.get (nL + i) (nL + j)⟩

end FaceMat
end Verif.DenseMatrix
