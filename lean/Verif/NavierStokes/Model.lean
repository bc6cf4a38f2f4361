import Verif.Euler.Model
import Mathlib.LinearAlgebra.Matrix.NonsingularInverse
import Mathlib.Data.Fintype.Order

/-!
# The compressible Navier-Stokes application

Models `applications/NavierStokes`: the gas law and the viscous tensor of
`Air/StateCoefficientsStructAir.cpp`, the contraction of
`StateCoefficientsFunctions.h`, the local Lax-Friedrichs and HLLC fluxes and the
face terms of `InviscidTerms_Impl.h` and `ViscousTerms_Impl.h`.  `double` is `ℝ`.
The number of directions `DIM` is any `d`; the code fixes it to two
(`Air/AirParameters.h` 43).

Not modelled: the derivatives of the right hand side (`integrandJacobian…`), which
nothing instantiates, and the first `computeLLFFluxFunction`
(`InviscidTerms_Impl.h` 100-151), which only those call.
-/

namespace Verif.NavierStokes

open Verif.Euler (State)

variable {d : ℕ}

/-- The index of an unknown: `0` is the density, `iD + 1` the momentum in direction
`iD`, `DIM + 1` the energy. -/
inductive Var (d : ℕ) where
  | rho
  | mom (i : Fin d)
  | en
  deriving DecidableEq

/-- `state(iV)`. -/
def get (q : State d) : Var d → ℝ
  | .rho => q.rho
  | .mom i => q.mom i
  | .en => q.en

/-- A vector of length `NUMBER_OF_VARIABLES`, entry by entry. -/
def ofVars (f : Var d → ℝ) : State d := ⟨f .rho, fun i => f (.mom i), f .en⟩

/-- A loop over all `NUMBER_OF_VARIABLES` unknowns that adds up. -/
def sumVars (f : Var d → ℝ) : ℝ := f .rho + ∑ i, f (.mom i) + f .en

/-- A matrix with `NUMBER_OF_VARIABLES` rows and `DIM` columns. -/
abbrev Mat (d : ℕ) := Var d → Fin d → ℝ

/-- `StateCoefficientsStructAir::computePressure`, lines 94-116; `none`: division by
zero, or the program ends because the pressure is not positive. -/
noncomputable def computePressure (g : ℝ) (q : State d) : Option ℝ :=
  let p := (g - 1) * (q.en - (∑ i, q.mom i * q.mom i) / (2 * q.rho))
  if q.rho = 0 ∨ p ≤ 0 then none else some p

/-- `computeSpeedOfSound`, lines 118-121; `none`: the root of a negative number. -/
noncomputable def computeSpeedOfSound (g : ℝ) (q : State d) (p : ℝ) : Option ℝ :=
  if g * p / q.rho < 0 then none else some (Real.sqrt (g * p / q.rho))

/-- `computeHyperbolicMatrix`, lines 123-149. -/
noncomputable def computeHyperbolicMatrix (q : State d) (p : ℝ) : Mat d
  | .rho, k => q.mom k
  | .mom j, k => q.mom j * q.mom k * (1 / q.rho) + (if j = k then p else 0)
  | .en, k => (q.en + p) * q.mom k * (1 / q.rho)

/-- `computePartialState`, `StateCoefficientsFunctions.h` 154-168. -/
noncomputable def computePartialState (q : State d) : State d :=
  ⟨q.rho, fun i => q.mom i * (1 / q.rho), q.en * (1 / q.rho)⟩

/-- The matrices `A11`, `A22`, `A33` before the division by the density,
`computeEllipticTensor` 205-244.  `v` is the partial state. -/
noncomputable def diagonal (mu ka : ℝ) (v : State d) (iD : Fin d) : Var d → Var d → ℝ
  | .mom j, .rho => -mu * v.mom j * (if j = iD then 4 / 3 else 1)
  | .mom j, .mom l => if j = l then mu * (if j = iD then 4 / 3 else 1) else 0
  | .en, .rho => -(1 / 3) * mu * v.mom iD * v.mom iD - mu * (∑ i, v.mom i * v.mom i) -
      ka * (v.en - ∑ i, v.mom i * v.mom i)
  | .en, .mom l => (mu * (if l = iD then 4 / 3 else 1) + -ka) * v.mom l
  | .en, .en => ka
  | _, _ => 0

/-- `APartial1` of lines 247-272: the matrix of row `iD1` and column `iD2 > iD1`. -/
noncomputable def upper (mu : ℝ) (v : State d) (iD1 iD2 : Fin d) : Var d → Var d → ℝ
  | .mom j, .rho =>
    if j = iD1 then 2 / 3 * mu * v.mom iD2 else if j = iD2 then -mu * v.mom iD1 else 0
  | .mom j, .mom l =>
    if j = iD1 ∧ l = iD2 then -(2 / 3 * mu) else if j = iD2 ∧ l = iD1 then mu else 0
  | .en, .rho => -1 / 3 * mu * v.mom iD1 * v.mom iD2
  | .en, .mom l =>
    if l = iD2 then -(2 / 3 * mu) * v.mom iD1 else if l = iD1 then mu * v.mom iD2 else 0
  | _, _ => 0

/-- `APartial2` of lines 274-285: the matrix of row `iD2` and column `iD1 < iD2`. -/
noncomputable def lower (mu : ℝ) (v : State d) (iD1 iD2 : Fin d) : Var d → Var d → ℝ
  | .mom j, .rho =>
    if j = iD1 then -mu * v.mom iD2 else if j = iD2 then 2 / 3 * mu * v.mom iD1 else 0
  | .mom j, .mom l =>
    if j = iD1 ∧ l = iD2 then mu else if j = iD2 ∧ l = iD1 then -(2 / 3 * mu) else 0
  | .en, .rho => -1 / 3 * mu * v.mom iD1 * v.mom iD2
  | .en, .mom l =>
    if l = iD2 then mu * v.mom iD1 else if l = iD1 then -(2 / 3 * mu) * v.mom iD2 else 0
  | _, _ => 0

/-- A tensor: entry `DIM * iD + iDm` of the vector of matrices, by row and column. -/
abbrev Tensor (d : ℕ) := Fin d → Fin d → Var d → Var d → ℝ

/-- `StateCoefficientsStructAir::computeEllipticTensor`, lines 178-294, with `mu` the
viscosity and `ka` the `thermalFactor`. -/
noncomputable def computeEllipticTensor (mu ka : ℝ) (v : State d) : Tensor d := fun i m r c =>
  (if i = m then diagonal mu ka v i r c
    else if i < m then upper mu v i m r c else lower mu v m i r c) * (1 / v.rho)

/-- `computeEllipticTensorMatrixContraction`, `StateCoefficientsFunctions.h` 228-251. -/
def contraction (a : Tensor d) (x : Mat d) : Mat d := fun v k =>
  ∑ m, sumVars fun w => a k m v w * x w m

/-- A matrix that is zero but for one entry: `result(v, k) += x`. -/
def single (v : Var d) (k : Fin d) (x : ℝ) : Mat d := fun v' k' =>
  if v' = v ∧ k' = k then x else 0

/-- The terms of the matrices on the diagonal,
`computeEllipticTensorMatrixContractionFast` 306-322. -/
def fastDiagonal (a : Tensor d) (x : Mat d) (k : Fin d) : Mat d :=
  (∑ j, (single (.mom j) k (a k k (.mom j) .rho * x .rho k) +
    single (.mom j) k (a k k (.mom j) (.mom j) * x (.mom j) k))) +
  single .en k (sumVars fun w => a k k .en w * x w k)

/-- The terms of one matrix beside the diagonal, lines 328-343 with `(k, m)` for
`(iD, iDm)`, and lines 345-361 with `(k, m)` for `(iDm, iD)`. -/
def fastOff (a : Tensor d) (x : Mat d) (k m : Fin d) : Mat d :=
  single (.mom k) k (a k m (.mom k) .rho * x .rho m) +
  single (.mom k) k (a k m (.mom k) (.mom m) * x (.mom m) m) +
  single (.mom m) k (a k m (.mom m) .rho * x .rho m) +
  single (.mom m) k (a k m (.mom m) (.mom k) * x (.mom k) m) +
  single .en k (sumVars fun w => a k m .en w * x w m)

/-- `StateCoefficientsStructAir::computeEllipticTensorMatrixContractionFast`, lines
300-366. -/
def contractionFast (a : Tensor d) (x : Mat d) : Mat d :=
  (∑ k, fastDiagonal a x k) +
  ∑ k, ∑ m ∈ Finset.univ.filter (fun m => k < m), (fastOff a x k m + fastOff a x m k)

/-- `StateCoefficientsStruct`: what is known of the solution at a point
(`StateCoefficientsStruct.h` 55-232). -/
structure Coefs (d : ℕ) where
  state : State d
  jac : Mat d
  pressure : ℝ
  sound : ℝ
  hyp : Mat d
  tensor : Tensor d

/-- The constructors of `StateCoefficientsStructAir`, lines 46-86, with the state and
its derivatives given.  The viscosity is a constant (151-176). -/
noncomputable def air (g mu ka : ℝ) (q : State d) (jac : Mat d) : Option (Coefs d) := do
  let p ← computePressure g q
  let a ← computeSpeedOfSound g q p
  some ⟨q, jac, p, a, computeHyperbolicMatrix q p,
    computeEllipticTensor mu ka (computePartialState q)⟩

/-- `normalSpeedLeft`, `InviscidTerms_Impl.h` 173-180 and 377-384. -/
noncomputable def normalSpeed (q : State d) (n : Fin d → ℝ) : ℝ :=
  ∑ i, q.mom i * (1 / q.rho) * n i

/-- `waveSpeedLeft`, lines 187-188 and 391-392. -/
noncomputable def waveLeft (l r : Coefs d) (n : Fin d → ℝ) : ℝ :=
  min (normalSpeed l.state n - l.sound) (normalSpeed r.state n - r.sound)

/-- `waveSpeedRight`, lines 189-190 and 393-394. -/
noncomputable def waveRight (l r : Coefs d) (n : Fin d → ℝ) : ℝ :=
  max (normalSpeed l.state n + l.sound) (normalSpeed r.state n + r.sound)

/-- The second `computeLLFFluxFunction`, lines 153-215. -/
noncomputable def llf (l r : Coefs d) (n : Fin d → ℝ) : State d :=
  let lMax := max |waveLeft l r n| |waveRight l r n|
  ofVars fun v => 1 / 2 * (∑ i, (l.hyp v i + r.hyp v i) * n i) -
    1 / 2 * lMax * (get r.state v - get l.state v)

/-- `tempBottom`, lines 404-405. -/
noncomputable def hllcBottom (l r : Coefs d) (n : Fin d → ℝ) : ℝ :=
  r.state.rho * (waveRight l r n - normalSpeed r.state n) -
    l.state.rho * (waveLeft l r n - normalSpeed l.state n)

/-- `waveSpeedMiddle`, lines 397-406. -/
noncomputable def waveMiddle (l r : Coefs d) (n : Fin d → ℝ) : ℝ :=
  let tempLeft := l.state.rho * normalSpeed l.state n *
    (waveLeft l r n - normalSpeed l.state n) - l.pressure
  let tempRight := r.state.rho * normalSpeed r.state n *
    (waveRight l r n - normalSpeed r.state n) - r.pressure
  (tempRight - tempLeft) / hllcBottom l r n

/-- `pIntermediate`, lines 421-423. -/
noncomputable def hllcPressure (l r : Coefs d) (n : Fin d → ℝ) : ℝ :=
  l.state.rho * (waveLeft l r n - normalSpeed l.state n) *
    (waveMiddle l r n - normalSpeed l.state n) + l.pressure

/-- `stateIntermediateLeft` and `stateIntermediateRight`, lines 426-453, with the
wave speed `s` of the side of `c`. -/
noncomputable def hllcState (c : Coefs d) (s sm p : ℝ) (n : Fin d → ℝ) : State d :=
  let factor := 1 / (s - sm)
  let vn := normalSpeed c.state n
  ⟨factor * (s - vn) * c.state.rho,
    fun i => factor * (s - vn) * c.state.mom i + factor * (p - c.pressure) * n i,
    factor * (s - vn) * c.state.en + factor * (p * sm - c.pressure * vn)⟩

open Classical in
/-- `InviscidTerms::computeHLLCFluxFunction`, lines 355-478; `none`: division by
zero. -/
noncomputable def hllc (l r : Coefs d) (n : Fin d → ℝ) : Option (State d) :=
  let sl := waveLeft l r n
  let sr := waveRight l r n
  let sm := waveMiddle l r n
  let p := hllcPressure l r n
  if l.state.rho = 0 ∨ r.state.rho = 0 ∨ hllcBottom l r n = 0 ∨ sl - sm = 0 ∨ sr - sm = 0
  then none
  else
    let wl := hllcState l sl sm p n
    let wr := hllcState r sr sm p n
    some (ofVars fun v => 1 / 2 * ((∑ i, l.hyp v i * n i) + (∑ i, r.hyp v i * n i) +
      (|sm| - |sl|) * get wl v + |sl| * get l.state v + (|sr| - |sm|) * get wr v -
      |sr| * get r.state v))

/-- The kinds of boundary, `NavierStokesConstants.h` 49. -/
inductive BoundaryType where
  | adiabaticWall | inflow | outflow | fullState
  deriving DecidableEq

/-- One side of a point on a face: the values and the gradients of the `nb` basis
functions. -/
structure Tests (d nb : ℕ) where
  phi : Fin nb → ℝ
  grad : Fin nb → Fin d → ℝ

variable {nb : ℕ}

/-- `InviscidTerms::integrandAtElement`, lines 47-96. -/
def inviscidElement (c : Coefs d) (t : Tests d nb) (v : Var d) (b : Fin nb) : ℝ :=
  ∑ k, c.hyp v k * t.grad b k

/-- `ViscousTerms::integrandAtElement`, `ViscousTerms_Impl.h` 47-91. -/
def viscousElement (c : Coefs d) (t : Tests d nb) (v : Var d) (b : Fin nb) : ℝ :=
  -∑ k, contractionFast c.tensor c.jac v k * t.grad b k

/-- The flux of `InviscidTerms::integrandAtBoundaryFace`, lines 485-537.  `b` is the
state at the boundary, `l` the one inside. -/
noncomputable def boundaryFlux (g : ℝ) (type : BoundaryType) (b l : Coefs d)
    (n : Fin d → ℝ) : Option (State d) :=
  if type = .fullState then Euler.roeUnit g l.state b.state n
  else some (ofVars fun v => ∑ k, b.hyp v k * n k)

/-- `InviscidTerms::integrandsAtFace`, lines 544-597: the terms of the left and of
the right element. -/
noncomputable def inviscidFace (g : ℝ) (l r : Coefs d) (n : Fin d → ℝ) (tl tr : Tests d nb) :
    Option ((Var d → Fin nb → ℝ) × (Var d → Fin nb → ℝ)) :=
  (Euler.roeUnit g l.state r.state n).map fun f =>
    (fun v b => -get f v * tl.phi b, fun v b => get f v * tr.phi b)

/-- `stateNormal` for a difference of states. -/
def timesNormal (q : State d) (n : Fin d → ℝ) : Mat d := fun v k => get q v * n k

/-- `ViscousTerms::integrandsViscousAtFace`, lines 474-563.  The tensor of the left
side is used for both (512-520). -/
noncomputable def viscousFace (l r : Coefs d) (n : Fin d → ℝ) (tl tr : Tests d nb) :
    (Var d → Fin nb → ℝ) × (Var d → Fin nb → ℝ) :=
  let stateNormal : Mat d := fun v k => 1 / 2 * (get l.state v - get r.state v) * n k
  let fluxLeft := contractionFast l.tensor stateNormal
  let fluxRight := contractionFast l.tensor stateNormal
  (fun v b => ∑ k, fluxLeft v k * tl.grad b k, fun v b => ∑ k, fluxRight v k * tr.grad b k)

/-- A point of the quadrature rule of a face. -/
structure FacePoint (d nb : ℕ) where
  weight : ℝ
  left : Coefs d
  right : Coefs d
  normal : Fin d → ℝ
  testsLeft : Tests d nb
  testsRight : Tests d nb

/-- `integrandStabilityRightHandSideOnFace` integrated over the face, lines 608-685
with the flux of 570-606: `c` and `t` select the side. -/
noncomputable def stabilityRhs (pts : List (FacePoint d nb)) (c : FacePoint d nb → Coefs d)
    (t : FacePoint d nb → Tests d nb) (v : Var d) (k : Fin d) : Fin nb → ℝ := fun b =>
  (pts.map fun p => p.weight * (1 / 2 * contractionFast (c p).tensor
    (timesNormal (p.left.state.sub p.right.state) p.normal) v k * (t p).phi b)).sum

/-- `stabilityMassMatrix_.solve(rhs)`, lines 714 and 735: the mass matrix is that of
the first element of the mesh (`UnsteadyNavierStokesAPI_Impl.h` 439-441).  It has
the same block for every unknown; `none`: the matrix is singular. -/
noncomputable def solveMass (mass : Matrix (Fin nb) (Fin nb) ℝ) (rhs : Fin nb → ℝ) :
    Option (Fin nb → ℝ) :=
  open Classical in if mass.det = 0 then none else some (mass⁻¹.mulVec rhs)

/-- `computeStabilityParameters`, lines 688-746, at a point with test functions `tl`
and `tr`. -/
noncomputable def stabilityParameters (mass : Matrix (Fin nb) (Fin nb) ℝ)
    (pts : List (FacePoint d nb)) (tl tr : Tests d nb) (v : Var d) (k : Fin d) : Option ℝ := do
  let cl ← solveMass mass (stabilityRhs pts (·.left) (·.testsLeft) v k)
  let cr ← solveMass mass (stabilityRhs pts (·.right) (·.testsRight) v k)
  some (1 / 2 * ((∑ b, cl b * tl.phi b) + ∑ b, cr b * tr.phi b))

/-- `ETA`, `NavierStokesConstants.h` 43. -/
noncomputable def eta : ℝ := 3

/-- `ViscousTerms::fluxAuxilliary`, lines 379-411, with the stability parameters
given. -/
noncomputable def fluxAuxilliary (l r : Coefs d) (stab : Mat d) : Mat d := fun v k =>
  1 / 2 * (contractionFast l.tensor l.jac v k + contractionFast r.tensor r.jac v k) -
    eta * stab v k

/-- `ViscousTerms::integrandsAuxilliaryAtFace`, lines 413-471. -/
noncomputable def auxilliaryFace (l r : Coefs d) (n : Fin d → ℝ) (stab : Mat d)
    (tl tr : Tests d nb) : (Var d → Fin nb → ℝ) × (Var d → Fin nb → ℝ) :=
  let part := fun v => ∑ k, fluxAuxilliary l r stab v k * n k
  (fun v b => tl.phi b * part v, fun v b => -tr.phi b * part v)

/-- `integrandsRightHandSideOnFace`, `UnsteadyNavierStokesAPI_Impl.h` 205-278: the
terms of both elements at a point of an inner face. -/
noncomputable def faceTerms (g : ℝ) (l r : Coefs d) (n : Fin d → ℝ) (stab : Mat d)
    (tl tr : Tests d nb) : Option ((Var d → Fin nb → ℝ) × (Var d → Fin nb → ℝ)) :=
  (inviscidFace g l r n tl tr).map fun i =>
    let v := viscousFace l r n tl tr
    let a := auxilliaryFace l r n stab tl tr
    (fun x b => i.1 x b + v.1 x b + a.1 x b, fun x b => i.2 x b + v.2 x b + a.2 x b)

/-- `integrandAuxilliaryAtBoundaryFace` with `fluxAuxilliaryBoundary`, lines 98-172,
for given stability parameters; `ETA_BOUNDARY` is half of `ETA`. -/
noncomputable def auxilliaryBoundary (type : BoundaryType) (b l : Coefs d) (n : Fin d → ℝ)
    (stab : Mat d) (tl : Tests d nb) (v : Var d) (i : Fin nb) : ℝ :=
  let part := if type = .adiabaticWall ∧ v = .en then 0
    else ∑ k, (contractionFast b.tensor l.jac v k - eta / 2 * stab v k) * n k
  tl.phi i * part

/-- `integrandViscousAtBoundaryFace`, lines 174-253. -/
noncomputable def viscousBoundary (b l : Coefs d) (n : Fin d → ℝ) (tl : Tests d nb)
    (v : Var d) (i : Fin nb) : ℝ :=
  ∑ k, (contractionFast l.tensor (timesNormal l.state n) v k -
    contractionFast b.tensor (timesNormal b.state n) v k) * tl.grad i k

end Verif.NavierStokes
