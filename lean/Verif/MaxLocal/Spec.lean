import Verif.MaxLocal.Model

/-!
# Specification of the local integrals

The forms of the discontinuous Galerkin method for fields that need not be discrete, in the notation of textbooks: jumps of tangential parts and averages over the sides of a
face. A field is given by its value and its curl.
-/
namespace Verif.MaxLocal

variable {d nL nR n : Nat}

/-- A field at a point: its value and its curl. -/
@[ext] structure Field (d : Nat) where
  value : Fin d → ℂ
  curl : Fin d → ℂ

/-- The difference of two fields. -/
def Field.sub (a b : Field d) : Field d := ⟨a.value - b.value, a.curl - b.curl⟩

/-- The bilinear product of two vectors. -/
def bil (a b : Fin d → ℂ) : ℂ := ∑ i, a i * b i

/-- The discrete field with given coefficients at a point of an element. -/
def ElementPoint.field (q : ElementPoint d n) (u : Fin n → ℂ) : Field d :=
  ⟨fun k => ∑ i, u i * (q.value i k : ℂ), fun k => ∑ i, u i * (q.curl i k : ℂ)⟩

/-- The discrete field on the left of a face. -/
def FacePoint.left (q : FacePoint d nL nR) (u : Fin nL → ℂ) : Field d :=
  ⟨fun k => ∑ i, u i * (q.value (.inl i) k : ℂ), fun k => ∑ i, u i * (q.curl (.inl i) k : ℂ)⟩

/-- The discrete field on the right of a face. -/
def FacePoint.right (q : FacePoint d nL nR) (u : Fin nR → ℂ) : Field d :=
  ⟨fun k => ∑ i, u i * (q.value (.inr i) k : ℂ), fun k => ∑ i, u i * (q.curl (.inr i) k : ℂ)⟩

/-- The unit normal out of the left element. -/
def FacePoint.outward (q : FacePoint d nL nR) : Fin d → ℂ := fun k => (q.normal k : ℂ)

/-- The tangential jump: `n × u` from the left, plus `-n × u` from the right. -/
def FacePoint.jump (q : FacePoint d nL nR) (uL uR : Field d) : Fin d → ℂ := cross q.outward uL.value - cross q.outward uR.value

/-- The average of `μ⁻¹ curl u`. -/
noncomputable def FacePoint.average (q : FacePoint d nL nR) (uL uR : Field d) : Fin d → ℂ :=
  (1 / 2 : ℂ) • (q.muL.applyCurl uL.curl + q.muR.applyCurl uR.curl)

/-- The symmetric interior penalty form at a point of an internal face. -/
noncomputable def FacePoint.interior (q : FacePoint d nL nR) (s : ℝ) (uL uR vL vR : Field d) : ℂ :=
  -bil (q.average uL uR) (q.jump vL vR) - bil (q.jump uL uR) (q.average vL vR) + s * bil (q.jump uL uR) (q.jump vL vR)

/-- The forms at a point of a boundary face. -/
noncomputable def FacePoint.boundary (q : FacePoint d nL nR) (bc : BC) (s omega z : ℝ) (u v : Field d) : ℂ :=
  match bc with
  | .dirichlet => -bil (q.muL.applyCurl u.curl) (cross q.outward v.value) - bil (cross q.outward u.value) (q.muL.applyCurl v.curl) +
      s * bil (cross q.outward u.value) (cross q.outward v.value)
  | .silverMuller => -(Complex.I * omega * z) * bil (cross q.outward u.value) (cross q.outward v.value)
  | _ => 0

/-- The forms at a point of an element: `μ⁻¹ curl u · curl v - ω² ε u · v`. -/
noncomputable def ElementPoint.form (q : ElementPoint d n) (omega : ℝ) (u v : Field d) : ℂ :=
  bil (q.mu.applyCurl u.curl) v.curl - (omega : ℂ) ^ 2 * bil (q.div.applyDiv u.value) v.value

/-! ## A mesh with an exact solution -/

/-- An element with an exact field, the value of `curl μ⁻¹ curl` of the field, and the source, at every point. -/
structure ExactElement (d n : Nat) where
  points : List (ElementPoint d n × Field d × (Fin d → ℂ) × (Fin d → ℂ))

/-- A face with an exact field at every point, on the left and on the right. Elements are numbers; element `e` has `dofs e` basis functions. -/
inductive ExactFace (d : Nat) (dofs : Nat → Nat)
  | boundary (l : Nat) (bc : BC) (diameter z : ℝ) (points : List (FacePoint d (dofs l) 0 × Field d))
  | internal (l r : Nat) (diameter : ℝ) (points : List (FacePoint d (dofs l) (dofs r) × Field d × Field d))

/-- The terms that the face adds to `vᵀ (A u - b)` for the system of the code, with the boundary values of the exact solution. `none`: the code stops. -/
noncomputable def ExactFace.residual {dofs : Nat → Nat} (stab omega : ℝ) (u v : (e : Nat) → Fin (dofs e) → ℂ) : ExactFace d dofs → Option ℂ
  | .boundary l bc diameter z points => do
      let values ← points.mapM fun q => (exactBoundary bc omega z q.1 q.2.value q.2.curl).map fun g => (q.1, g)
      let b ← faceVector false bc stab diameter values
      let uu : Fin (dofs l) ⊕ Fin 0 → ℂ := Sum.elim (u l) Fin.elim0
      let vv : Fin (dofs l) ⊕ Fin 0 → ℂ := Sum.elim (v l) Fin.elim0
      return vv ⬝ᵥ ((faceMatrix false bc stab diameter (points.map Prod.fst) + (omega : ℂ) • impedanceMatrix false bc z (points.map Prod.fst)).mulVec uu) - vv ⬝ᵥ b
  | .internal l r diameter points => do
      let b ← faceVector true .internal stab diameter (points.map fun q => (q.1, 0))
      return Sum.elim (v l) (v r) ⬝ᵥ ((faceMatrix true .internal stab diameter (points.map Prod.fst) +
        (omega : ℂ) • impedanceMatrix true .internal 0 (points.map Prod.fst)).mulVec (Sum.elim (u l) (u r))) - Sum.elim (v l) (v r) ⬝ᵥ b

/-- The terms that the element adds to `vᵀ (A u - b)`. -/
noncomputable def ExactElement.residual (omega : ℝ) (u v : Fin n → ℂ) (K : ExactElement d n) : ℂ :=
  v ⬝ᵥ ((stiffnessMatrix (K.points.map Prod.fst) - ((omega : ℂ) ^ 2) • massMatrix (K.points.map Prod.fst)).mulVec u) -
    v ⬝ᵥ elementVector (K.points.map fun q => (q.1, q.2.2.2))

/-- The integral of `μ⁻¹ curl E · (n × v)` over a face, for both of its sides and the normals out of them. -/
noncomputable def ExactFace.flux {dofs : Nat → Nat} (v : (e : Nat) → Fin (dofs e) → ℂ) : ExactFace d dofs → ℂ
  | .boundary l _ _ _ points => (points.map fun q => (q.1.weight : ℂ) * bil (q.1.muL.applyCurl q.2.curl) (cross q.1.outward (q.1.left (v l)).value)).sum
  | .internal l r _ points => (points.map fun q => (q.1.weight : ℂ) * (bil (q.1.muL.applyCurl q.2.1.curl) (cross q.1.outward (q.1.left (v l)).value) -
      bil (q.1.muR.applyCurl q.2.2.curl) (cross q.1.outward (q.1.right (v r)).value))).sum

/-- The forms of the face for the difference between the discrete field with the coefficients `u` and the exact field. -/
noncomputable def ExactFace.error {dofs : Nat → Nat} (stab omega : ℝ) (u v : (e : Nat) → Fin (dofs e) → ℂ) : ExactFace d dofs → ℂ
  | .boundary l bc diameter z points =>
      (points.map fun q => (q.1.weight : ℂ) * q.1.boundary bc (stab / diameter) omega z ((q.1.left (u l)).sub q.2) (q.1.left (v l))).sum
  | .internal l r diameter points =>
      (points.map fun q => (q.1.weight : ℂ) * q.1.interior (stab / diameter) ((q.1.left (u l)).sub q.2.1) ((q.1.right (u r)).sub q.2.2) (q.1.left (v l)) (q.1.right (v r))).sum

/-- The conditions of a material interface: the tangential parts of the field and of `μ⁻¹ curl` of the field are continuous. On the boundary the type is one that a boundary
can have. -/
def ExactFace.Continuous {dofs : Nat → Nat} : ExactFace d dofs → Prop
  | .boundary _ bc _ _ _ => bc ≠ .internal
  | .internal _ _ _ points => ∀ q ∈ points, cross q.1.outward q.2.1.value = cross q.1.outward q.2.2.value ∧
      ∀ w : Fin d → ℂ, bil (q.1.muL.applyCurl q.2.1.curl) (cross q.1.outward w) = bil (q.1.muR.applyCurl q.2.2.curl) (cross q.1.outward w)

/-- The discrete field with the coefficients `u` is the exact field at the points of a face. -/
def ExactFace.Matches {dofs : Nat → Nat} (u : (e : Nat) → Fin (dofs e) → ℂ) : ExactFace d dofs → Prop
  | .boundary l _ _ _ points => ∀ q ∈ points, q.1.left (u l) = q.2
  | .internal l r _ points => ∀ q ∈ points, q.1.left (u l) = q.2.1 ∧ q.1.right (u r) = q.2.2

/-- As above, for the points of an element. -/
def ExactElement.Matches (u : Fin n → ℂ) (K : ExactElement d n) : Prop := ∀ q ∈ K.points, q.1.field u = q.2.1

/-- Maxwell's equation at the points of an element: `curl μ⁻¹ curl E - ω² ε E = J`. -/
def ExactElement.Solves (omega : ℝ) (K : ExactElement d n) : Prop :=
  ∀ q ∈ K.points, q.2.2.1 - ((omega : ℂ) ^ 2) • q.1.div.applyDiv q.2.1.value = q.2.2.2

/-- Integration by parts, `∫ μ⁻¹ curl E · curl v = ∫ curl μ⁻¹ curl E · v + ∮ μ⁻¹ curl E · (n × v)`, holds for the rules of quadrature and all discrete `v`. -/
def Green {dofs : Nat → Nat} (count : Nat) (elements : (e : Nat) → ExactElement d (dofs e)) (faces : List (ExactFace d dofs)) : Prop :=
  ∀ v : (e : Nat) → Fin (dofs e) → ℂ,
    ∑ e : Fin count, ((elements e).points.map fun q => (q.1.weight : ℂ) * bil (q.1.mu.applyCurl q.2.1.curl) (q.1.field (v e)).curl).sum =
    ∑ e : Fin count, ((elements e).points.map fun q => (q.1.weight : ℂ) * bil q.2.2.1 (q.1.field (v e)).value).sum + (faces.map (ExactFace.flux v)).sum

end Verif.MaxLocal
