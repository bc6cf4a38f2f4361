import Verif.DivLocal.ModelBrezzi
import Verif.MaxLocal.Spec

/-!
# Specification of the mixed discretization

The forms of the method for a field and a potential that need not be discrete, in the notation of textbooks.
-/
namespace Verif.DivLocal

open scoped Matrix
open MaxLocal (Tensor cross dot BC Side Field bil)

variable {d n m nL nR mL mR : Nat}

/-- A field and a potential at a point. -/
@[ext] structure Mixed (d : Nat) where
  field : Field d
  p : ℂ
  grad : Fin d → ℂ

def Mixed.sub (a b : Mixed d) : Mixed d := ⟨a.field.sub b.field, a.p - b.p, a.grad - b.grad⟩

/-- The discrete functions with given coefficients at a point of an element. -/
def ElementPoint.mixed (q : ElementPoint d n m) (u : Fin n → ℂ) (p : Fin m → ℂ) : Mixed d :=
  ⟨q.toElementPoint.field u, ∑ j, p j * (q.pvalue j : ℂ), fun k => ∑ j, p j * (q.pgrad j k : ℂ)⟩

/-- The discrete functions on the left of a face. The gradient of the potential is not needed there. -/
def FacePoint.leftOf (q : FacePoint d nL nR mL mR) (u : Fin nL → ℂ) (p : Fin mL → ℂ) : Mixed d := ⟨q.left u, ∑ j, p j * (q.pvalue (.inl j) : ℂ), 0⟩

/-- The discrete functions on the right of a face. -/
def FacePoint.rightOf (q : FacePoint d nL nR mL mR) (u : Fin nR → ℂ) (p : Fin mR → ℂ) : Mixed d := ⟨q.right u, ∑ j, p j * (q.pvalue (.inr j) : ℂ), 0⟩

/-- The forms at a point of an element: those of Maxwell's equation, `-ε u · ∇q` and `-ε* v · ∇p`. -/
noncomputable def ElementPoint.mixedForm (q : ElementPoint d n m) (omega : ℝ) (u v : Mixed d) : ℂ :=
  q.toElementPoint.form omega u.field v.field - bil (q.div.applyDiv u.field.value) v.grad - bil (q.div.adjoint.applyDiv v.field.value) u.grad

/-- The average of the normal component of `ε u`. -/
noncomputable def FacePoint.normalAverage (q : FacePoint d nL nR mL mR) (uL uR : Field d) : ℂ :=
  (bil (q.divL.applyDiv uL.value) q.outward + bil (q.divR.applyDiv uR.value) q.outward) / 2

/-- The same with the adjoint tensors. -/
noncomputable def FacePoint.adjointAverage (q : FacePoint d nL nR mL mR) (uL uR : Field d) : ℂ :=
  (bil (q.divL.adjoint.applyDiv uL.value) q.outward + bil (q.divR.adjoint.applyDiv uR.value) q.outward) / 2

/-- The jump of the normal component of `ε u`. -/
noncomputable def FacePoint.normalJump (q : FacePoint d nL nR mL mR) (uL uR : Field d) : ℂ := bil (q.divL.applyDiv uL.value) q.outward - bil (q.divR.applyDiv uR.value) q.outward

/-- The forms at a point of an internal face, with the parameters of the penalties for the field and for the potential. -/
noncomputable def FacePoint.mixedInterior (q : FacePoint d nL nR mL mR) (s1 s3 : ℝ) (uL uR vL vR : Mixed d) : ℂ :=
  q.interior s1 uL.field uR.field vL.field vR.field + q.normalAverage uL.field uR.field * (vL.p - vR.p) + q.adjointAverage vL.field vR.field * (uL.p - uR.p) -
    s3 * ((uL.p - uR.p) * (vL.p - vR.p))

/-- The forms at a point of a boundary face: the potential is to be zero there, for every type of boundary condition. -/
noncomputable def FacePoint.mixedBoundary (q : FacePoint d nL nR mL mR) (bc : BC) (s1 s3 omega z : ℝ) (u v : Mixed d) : ℂ :=
  q.boundary bc s1 omega z u.field v.field + bil (q.divL.applyDiv u.field.value) q.outward * v.p + bil (q.divL.adjoint.applyDiv v.field.value) q.outward * u.p - s3 * (u.p * v.p)

/-! ## Lifts -/

/-- The parameters of the penalties of the interior penalty flux. -/
noncomputable def Stab.ip1 (s : Stab) (diameter : ℝ) : ℝ := if s.flux1 = .ip then s.stab1 / diameter else 0
noncomputable def Stab.ip3 (s : Stab) (diameter : ℝ) : ℝ := if s.flux3 = .ip then s.stab3 / diameter else 0

/-- The integral of the product of two discrete fields over both elements at a face. -/
noncomputable def fieldProduct (b : Neighbours d nL nR mL mR) (r w : Fin nL ⊕ Fin nR → ℂ) : ℂ :=
  (b.left.map fun q => (q.weight : ℂ) * bil (q.field fun i => r (.inl i)).value (q.field fun i => w (.inl i)).value).sum +
  (b.right.map fun q => (q.weight : ℂ) * bil (q.field fun i => r (.inr i)).value (q.field fun i => w (.inr i)).value).sum

/-- The average over the sides of a face of the discrete field `w`; on the boundary, its value. -/
noncomputable def FacePoint.meanValue (q : FacePoint d nL nR mL mR) (internal : Bool) (w : Fin nL ⊕ Fin nR → ℂ) : Fin d → ℂ :=
  (if internal then (1 / 2 : ℂ) else 1) • ((q.left fun i => w (.inl i)).value + (q.right fun i => w (.inr i)).value)

/-- The discrete field `r` is the lift of a vector function `g` on the face: its product with every discrete field `w` is the integral of `g · {w}` over the face. -/
def IsLift (internal : Bool) (b : Neighbours d nL nR mL mR) (points : List (FacePoint d nL nR mL mR × (Fin d → ℂ))) (r : Fin nL ⊕ Fin nR → ℂ) : Prop :=
  ∀ w, fieldProduct b r w = (points.map fun q => (q.1.weight : ℂ) * bil q.2 (q.1.meanValue internal w)).sum

/-- The integrals of `g · {φ}` over the face for the basis functions `φ`. -/
noncomputable def load (internal : Bool) (points : List (FacePoint d nL nR mL mR × (Fin d → ℂ))) : Fin nL ⊕ Fin nR → ℂ :=
  fun i => (points.map fun q => (q.1.weight : ℂ) * bil q.2 ((if internal then (1 / 2 : ℂ) else 1) • MaxLocal.cast (q.1.value i))).sum

/-- The form of lifts: the integral over both elements of the product of the lifts of `g` and `h` (`liftForm_eq`). -/
noncomputable def liftForm (internal : Bool) (b : Neighbours d nL nR mL mR) (g h : List (FacePoint d nL nR mL mR × (Fin d → ℂ))) : ℂ :=
  load internal h ⬝ᵥ (vectorMass b)⁻¹ *ᵥ load internal g

/-! ## A mesh with an exact solution -/

/-- What belongs to a point of an element: the exact field and potential, the values of `curl μ⁻¹ curl` of the field and of the divergence of `ε` times the field, and the source. -/
structure Exact (d : Nat) where
  mixed : Mixed d
  curlCurl : Fin d → ℂ
  divergence : ℂ
  source : Fin d → ℂ

/-- The equations: `curl μ⁻¹ curl E - ω² ε E - ε* ∇p = J` and `div ε E = 0`. -/
def Solves (omega : ℝ) (points : List (ElementPoint d n m × Exact d)) : Prop :=
  ∀ q ∈ points, q.2.curlCurl - ((omega : ℂ) ^ 2) • q.1.div.applyDiv q.2.mixed.field.value - q.1.div.adjoint.applyDiv q.2.mixed.grad = q.2.source ∧ q.2.divergence = 0

/-- A face with the exact field and potential at every point, on the left and on the right, the elements beside it and the factors of the mass matrices. Elements are numbers;
element `e` has `dofs e` functions for the field and `pots e` for the potential. -/
inductive ExactFace (d : Nat) (dofs pots : Nat → Nat)
  | boundary (l : Nat) (bc : BC) (diameter z : ℝ) (b : Neighbours d (dofs l) 0 (pots l) 0) (L : Matrix (Fin (dofs l) ⊕ Fin 0) (Fin (dofs l) ⊕ Fin 0) ℂ)
      (P : Matrix (Fin (pots l) ⊕ Fin 0) (Fin (pots l) ⊕ Fin 0) ℂ) (points : List (FacePoint d (dofs l) 0 (pots l) 0 × Mixed d))
  | internal (l r : Nat) (diameter : ℝ) (b : Neighbours d (dofs l) (dofs r) (pots l) (pots r)) (L : Matrix (Fin (dofs l) ⊕ Fin (dofs r)) (Fin (dofs l) ⊕ Fin (dofs r)) ℂ)
      (P : Matrix (Fin (pots l) ⊕ Fin (pots r)) (Fin (pots l) ⊕ Fin (pots r)) ℂ)
      (points : List (FacePoint d (dofs l) (dofs r) (pots l) (pots r) × Mixed d × Mixed d))

/-- The terms that the face adds to `wᵀ (A x - b)` for the system of the code, with the boundary values of the exact solution. `none`: the code stops. -/
noncomputable def ExactFace.residual {dofs pots : Nat → Nat} (s : Stab) (omega : ℝ) (u v : (e : Nat) → Fin (dofs e) → ℂ) (p r : (e : Nat) → Fin (pots e) → ℂ) :
    ExactFace d dofs pots → Option ℂ
  | .boundary l bc diameter z b L P points => do
      let values ← points.mapM fun q => (MaxLocal.exactBoundary bc omega z q.1.toFacePoint q.2.field.value q.2.field.curl).map fun g => (q.1, g)
      let vec ← fullFaceVector false bc s diameter b values
      let A ← fullFaceMatrix false bc s diameter b L P (points.map Prod.fst)
      let x := Sum.elim (Sum.elim (u l) Fin.elim0) (Sum.elim (p l) Fin.elim0)
      let w := Sum.elim (Sum.elim (v l) Fin.elim0) (Sum.elim (r l) Fin.elim0)
      return w ⬝ᵥ (A + (omega : ℂ) • impedanceMatrix false bc z (points.map Prod.fst)) *ᵥ x - w ⬝ᵥ vec
  | .internal l k diameter b L P points => do
      let vec ← fullFaceVector true .internal s diameter b (points.map fun q => (q.1, 0))
      let A ← fullFaceMatrix true .internal s diameter b L P (points.map Prod.fst)
      let x := Sum.elim (Sum.elim (u l) (u k)) (Sum.elim (p l) (p k))
      let w := Sum.elim (Sum.elim (v l) (v k)) (Sum.elim (r l) (r k))
      return w ⬝ᵥ (A + (omega : ℂ) • impedanceMatrix true .internal 0 (points.map Prod.fst)) *ᵥ x - w ⬝ᵥ vec

/-- The terms that an element adds to `wᵀ (A x - b)`. -/
noncomputable def elementResidual (omega : ℝ) (u v : Fin n → ℂ) (p r : Fin m → ℂ) (points : List (ElementPoint d n m × Exact d)) : ℂ :=
  Sum.elim v r ⬝ᵥ (stiffnessMatrix (points.map Prod.fst) - ((omega : ℂ) ^ 2) • massMatrix (points.map Prod.fst)) *ᵥ Sum.elim u p -
    Sum.elim v r ⬝ᵥ elementVector (points.map fun q => (q.1, q.2.source))

/-- The integrals of `μ⁻¹ curl E · (n × v)` over a face, for both of its sides and the normals out of them. -/
noncomputable def ExactFace.curlFlux {dofs pots : Nat → Nat} (v : (e : Nat) → Fin (dofs e) → ℂ) : ExactFace d dofs pots → ℂ
  | .boundary l _ _ _ _ _ _ points => (points.map fun q => (q.1.weight : ℂ) * bil (q.1.muL.applyCurl q.2.field.curl) (cross q.1.outward (q.1.left (v l)).value)).sum
  | .internal l k _ _ _ _ points => (points.map fun q => (q.1.weight : ℂ) * (bil (q.1.muL.applyCurl q.2.1.field.curl) (cross q.1.outward (q.1.left (v l)).value) -
      bil (q.1.muR.applyCurl q.2.2.field.curl) (cross q.1.outward (q.1.right (v k)).value))).sum

/-- The integrals of `r (ε E · n)` over a face, for both of its sides and the normals out of them. -/
noncomputable def ExactFace.divFlux {dofs pots : Nat → Nat} (r : (e : Nat) → Fin (pots e) → ℂ) : ExactFace d dofs pots → ℂ
  | .boundary l _ _ _ _ _ _ points => (points.map fun q => (q.1.weight : ℂ) * (bil (q.1.divL.applyDiv q.2.field.value) q.1.outward * (q.1.leftOf 0 (r l)).p)).sum
  | .internal l k _ _ _ _ points => (points.map fun q => (q.1.weight : ℂ) * (bil (q.1.divL.applyDiv q.2.1.field.value) q.1.outward * (q.1.leftOf 0 (r l)).p -
      bil (q.1.divR.applyDiv q.2.2.field.value) q.1.outward * (q.1.rightOf 0 (r k)).p)).sum

/-- The conditions at a face. Between elements the tangential parts of the field and of `μ⁻¹ curl` of the field, the normal part of `ε` times the field, and the potential are
continuous. On the boundary the potential is zero and the type is one that a boundary can have. -/
def ExactFace.Continuous {dofs pots : Nat → Nat} : ExactFace d dofs pots → Prop
  | .boundary _ bc _ _ _ _ _ points => bc ≠ .internal ∧ ∀ q ∈ points, q.2.p = 0
  | .internal _ _ _ _ _ _ points => ∀ q ∈ points, cross q.1.outward q.2.1.field.value = cross q.1.outward q.2.2.field.value ∧
      (∀ w : Fin d → ℂ, bil (q.1.muL.applyCurl q.2.1.field.curl) (cross q.1.outward w) = bil (q.1.muR.applyCurl q.2.2.field.curl) (cross q.1.outward w)) ∧
      bil (q.1.divL.applyDiv q.2.1.field.value) q.1.outward = bil (q.1.divR.applyDiv q.2.2.field.value) q.1.outward ∧ q.2.1.p = q.2.2.p

/-- The diameter is positive and, for lifts, the mass matrix of the field has an inverse and `L` is a factor of it, as `cholesky` finds. -/
def ExactFace.Regular {dofs pots : Nat → Nat} : ExactFace d dofs pots → Prop
  | .boundary _ _ diameter _ b L _ _ => 0 < diameter ∧ L * Lᵀ = vectorMass b ∧ IsUnit L.det
  | .internal _ _ diameter b L _ _ => 0 < diameter ∧ L * Lᵀ = vectorMass b ∧ IsUnit L.det

/-- The forms of the face for the difference between the discrete functions with the coefficients `u`, `p` and the exact ones. -/
noncomputable def ExactFace.error {dofs pots : Nat → Nat} (s : Stab) (omega : ℝ) (u v : (e : Nat) → Fin (dofs e) → ℂ) (p r : (e : Nat) → Fin (pots e) → ℂ) :
    ExactFace d dofs pots → ℂ
  | .boundary l bc diameter z b _ _ points =>
      (points.map fun q => (q.1.weight : ℂ) * q.1.mixedBoundary bc (s.ip1 diameter) (s.ip3 diameter) omega z ((q.1.leftOf (u l) (p l)).sub q.2) (q.1.leftOf (v l) (r l))).sum +
      (if s.flux1 = .brezzi ∧ bc = .dirichlet then (s.stab1 + b.facesL) * liftForm false b
        (points.map fun q => (q.1, cross q.1.outward (((q.1.leftOf (u l) (p l)).sub q.2).field.value))) (points.map fun q => (q.1, cross q.1.outward (q.1.left (v l)).value)) else 0) -
      (if s.flux3 = .brezzi then s.stab3 * liftForm false b
        (points.map fun q => (q.1, ((q.1.leftOf (u l) (p l)).sub q.2).p • q.1.outward)) (points.map fun q => (q.1, (q.1.leftOf (v l) (r l)).p • q.1.outward)) else 0)
  | .internal l k diameter b _ _ points =>
      (points.map fun q => (q.1.weight : ℂ) * q.1.mixedInterior (s.ip1 diameter) (s.ip3 diameter) ((q.1.leftOf (u l) (p l)).sub q.2.1) ((q.1.rightOf (u k) (p k)).sub q.2.2)
        (q.1.leftOf (v l) (r l)) (q.1.rightOf (v k) (r k))).sum +
      (if s.flux1 = .brezzi then (s.stab1 + b.facesL) * liftForm true b
        (points.map fun q => (q.1, q.1.jump ((q.1.leftOf (u l) (p l)).sub q.2.1).field ((q.1.rightOf (u k) (p k)).sub q.2.2).field))
        (points.map fun q => (q.1, q.1.jump (q.1.left (v l)) (q.1.right (v k)))) else 0) -
      (if s.flux3 = .brezzi then s.stab3 * liftForm true b
        (points.map fun q => (q.1, (((q.1.leftOf (u l) (p l)).sub q.2.1).p - ((q.1.rightOf (u k) (p k)).sub q.2.2).p) • q.1.outward))
        (points.map fun q => (q.1, ((q.1.leftOf (v l) (r l)).p - (q.1.rightOf (v k) (r k)).p) • q.1.outward)) else 0)

/-- The discrete functions with the coefficients `u`, `p` are the exact ones at the points of a face. -/
def ExactFace.Matches {dofs pots : Nat → Nat} (u : (e : Nat) → Fin (dofs e) → ℂ) (p : (e : Nat) → Fin (pots e) → ℂ) : ExactFace d dofs pots → Prop
  | .boundary l _ _ _ _ _ _ points => ∀ q ∈ points, (q.1.leftOf (u l) (p l)).field = q.2.field ∧ (q.1.leftOf (u l) (p l)).p = q.2.p
  | .internal l k _ _ _ _ points => ∀ q ∈ points, (q.1.leftOf (u l) (p l)).field = q.2.1.field ∧ (q.1.leftOf (u l) (p l)).p = q.2.1.p ∧
      (q.1.rightOf (u k) (p k)).field = q.2.2.field ∧ (q.1.rightOf (u k) (p k)).p = q.2.2.p

/-- Integration by parts, for the rules of quadrature and all discrete functions: `∫ μ⁻¹ curl E · curl v = ∫ curl μ⁻¹ curl E · v + ∮ μ⁻¹ curl E · (n × v)` and
`∫ ε E · ∇r = -∫ r div ε E + ∮ r ε E · n`. -/
def Green {dofs pots : Nat → Nat} (count : Nat) (elements : (e : Nat) → List (ElementPoint d (dofs e) (pots e) × Exact d)) (faces : List (ExactFace d dofs pots)) : Prop :=
  (∀ v : (e : Nat) → Fin (dofs e) → ℂ,
    ∑ e : Fin count, ((elements e).map fun q => (q.1.weight : ℂ) * bil (q.1.mu.applyCurl q.2.mixed.field.curl) (q.1.field (v e)).curl).sum =
    ∑ e : Fin count, ((elements e).map fun q => (q.1.weight : ℂ) * bil q.2.curlCurl (q.1.field (v e)).value).sum + (faces.map (ExactFace.curlFlux v)).sum) ∧
  ∀ r : (e : Nat) → Fin (pots e) → ℂ,
    ∑ e : Fin count, ((elements e).map fun q => (q.1.weight : ℂ) * bil (q.1.div.applyDiv q.2.mixed.field.value) (q.1.mixed 0 (r e)).grad).sum =
    -∑ e : Fin count, ((elements e).map fun q => (q.1.weight : ℂ) * (q.2.divergence * (q.1.mixed 0 (r e)).p)).sum + (faces.map (ExactFace.divFlux r)).sum

end Verif.DivLocal
