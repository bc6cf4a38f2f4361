import Verif.Bloch.Model

/-!
# The matrix of a quasi-periodic problem

A list of couplings of the degrees of freedom of one cell with those of the same
or another cell.
-/

namespace Verif.Bloch.Spec

variable {d : ℕ}

/-- The equation of degree of freedom `row` (in the cell at the origin) contains
degree of freedom `col` of the cell displaced by `shift`, with factor `value`. -/
@[ext] structure Coupling (d : ℕ) where
  row : ℕ
  col : ℕ
  shift : Vec d
  value : ℂ

/-- Whether a coupling is at the given position of the matrix. -/
def Coupling.at (x : Coupling d) (r c : ℕ) : Bool := x.row == r && x.col == c

/-- The matrix for fields that are multiplied by `exp(i k a)` from one cell to the
cell displaced by `a`: the sum of all couplings with their factors. -/
noncomputable def bloch (cs : List (Coupling d)) (k : Vec d) : PMat := fun r c =>
  ((cs.filter fun x => x.at r c).map fun x => x.value * Complex.exp (dot k x.shift * Complex.I)).sum

/-- The couplings across a face: the element on the right, displaced by the
difference of the positions, touches the element on the left, and the other way
round. -/
def across (idx : ℕ → List ℕ) (f : Face d) : List (Coupling d) :=
  ((List.range (idx f.left).length).flatMap fun i =>
    (List.range (idx f.right).length).map fun j =>
      ⟨(idx f.left).getD i 0, (idx f.right).getD j 0, f.shift, f.block1.get i j⟩) ++
  ((List.range (idx f.left).length).flatMap fun i =>
    (List.range (idx f.right).length).map fun j =>
      ⟨(idx f.right).getD j 0, (idx f.left).getD i 0, fun a => -f.shift a, f.block2.get j i⟩)

/-- The couplings across all periodic faces. -/
def periodicCouplings (idx : ℕ → List ℕ) (fs : List (Face d)) : List (Coupling d) :=
  (fs.filter fun f => f.internal && f.periodic).flatMap (across idx)

/-- No other coupling is at the position of a coupling of `p`. -/
def Alone (cs p : List (Coupling d)) : Prop :=
  ∀ x ∈ p, (cs.filter fun y => y.at x.row x.col) = [x]

/-- The coupling read in the other direction. -/
noncomputable def Coupling.adjoint (x : Coupling d) : Coupling d :=
  ⟨x.col, x.row, fun i => -x.shift i, (starRingEnd ℂ) x.value⟩

/-- The matrix for fields from which the factor `exp(i f k x)` at the centre `x` of
their element has been taken. -/
noncomputable def shifted (x : ℕ → Vec d) (f : ℝ) (cs : List (Coupling d)) (k : Vec d) : PMat :=
  fun r c => Complex.exp (f * dot k (x r) * Complex.I) * bloch cs k r c *
    Complex.exp (-(f * dot k (x c)) * Complex.I)

/-- The differences of successive wave vectors, starting from `k`. -/
def steps (k : Vec d) : List (Vec d) → List (Vec d)
  | [] => []
  | k' :: l => (fun i => k' i - k i) :: steps k' l

/-- The circumstances under which the matrix is updated: `fs` are all faces of the
mesh, `rest` the couplings that do not cross the boundary of the cell. -/
structure Setup {P : Type} (idx : ℕ → List ℕ) (owner : ℕ → P) (known : P → List (Face d))
    (procs : List P) (fs : List (Face d)) (rest : List (Coupling d)) : Prop where
  /-- The matrices of the faces fit the elements. -/
  size : ∀ f ∈ fs, f.internal = true → f.periodic = true →
    (f.block1.rows = (idx f.left).length ∧ f.block1.cols = (idx f.right).length) ∧
    (f.block2.rows = (idx f.right).length ∧ f.block2.cols = (idx f.left).length)
  /-- Faces that are not marked as periodic are at one place. -/
  marked : ∀ f ∈ fs, f.internal = true → f.periodic = false →
    Real.sqrt (dot f.shift f.shift) ≤ 1e-3
  /-- A process knows at least the faces of its elements. -/
  sound : ∀ p ∈ procs, ∀ f ∈ known p, f ∈ fs
  complete : ∀ p ∈ procs, ∀ f ∈ fs, owner f.left = p ∨ owner f.right = p → f ∈ known p
  /-- Each element has an owner. -/
  owners : ∀ f ∈ fs, owner f.left ∈ procs ∧ owner f.right ∈ procs
  inner : ∀ x ∈ rest, x.shift = fun _ => 0
  /-- Each entry of the matrix that a periodic face contributes to gets nothing
  else. -/
  alone : Alone (rest ++ periodicCouplings idx fs) (periodicCouplings idx fs)

end Verif.Bloch.Spec
