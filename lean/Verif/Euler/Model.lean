import Mathlib.Analysis.Real.Sqrt
import Mathlib.Algebra.BigOperators.Group.Finset.Basic
import Mathlib.Data.Fintype.BigOperators

/-!
# Fluxes of the compressible flow applications

Models `applications/Euler/Euler_Impl.h` (Roe flux, wall, element integrand) and
`applications/NavierStokes/InviscidTerms_Impl.h` (`computeRoeFluxFunction`,
`computeLLFFluxFunction`, `computeHLLCFluxFunction`) with the gas law of
`NavierStokes/Air/StateCoefficientsStructAir.cpp`.  `double` is `ℝ`.  Division
by zero and square roots of negative numbers give NaN or infinity in the code;
the functions below answer `none` there.
-/

namespace Verif.Euler

/-- The vector of unknowns: entry `0` is the density, the entries `iD + 1` are
the momentum, entry `DIM + 1` is the energy. -/
@[ext] structure State (d : ℕ) where
  rho : ℝ
  mom : Fin d → ℝ
  en : ℝ

variable {d : ℕ}

/-- Difference of two vectors of unknowns. -/
def State.sub (a b : State d) : State d :=
  ⟨a.rho - b.rho, fun i => a.mom i - b.mom i, a.en - b.en⟩

/-- `Euler_Impl.h` 389-406 (and `InviscidTerms_Impl.h` 240-260): the pressure. -/
noncomputable def pressure (g : ℝ) (q : State d) : ℝ :=
  (g - 1) * (q.en - 0.5 * (∑ i, q.mom i * q.mom i) * (1.0 / q.rho))

/-- The averaged velocity and enthalpy, `qAverage`. -/
structure Avg (d : ℕ) where
  vel : Fin d → ℝ
  ent : ℝ

/-- `Euler_Impl.h` 379-410: the averaged state. -/
noncomputable def average (g : ℝ) (ql qr : State d) : Avg d :=
  let zl := Real.sqrt ql.rho
  let zr := Real.sqrt qr.rho
  let tmp1 := 1.0 / (ql.rho + zl * zr)
  let tmp2 := 1.0 / (qr.rho + zl * zr)
  ⟨fun i => ql.mom i * tmp1 + qr.mom i * tmp2,
    (ql.en + pressure g ql) * tmp1 + (qr.en + pressure g qr) * tmp2⟩

/-- `alphaAvg`, lines 413-419. -/
noncomputable def Avg.alpha (a : Avg d) : ℝ := (∑ i, a.vel i * a.vel i) * 0.5

/-- `unAvg`, lines 414-418. -/
noncomputable def Avg.un (a : Avg d) (n : Fin d → ℝ) : ℝ := ∑ i, a.vel i * n i

/-- `a2Avg`, line 421. -/
noncomputable def Avg.a2 (g : ℝ) (a : Avg d) : ℝ := |(g - 1) * (a.ent - a.alpha)|

/-- The entropy correction, lines 431-443, with `epsilon = 0.01`. -/
noncomputable def correct (lam : ℝ) : ℝ :=
  if lam < 0.01 then (lam * lam + 0.01 * 0.01) / (2.0 * 0.01) else lam

/-- `Euler_Impl.h` 376-377 and 412-494 (`InviscidTerms_Impl.h` 230, 266-348 is the
same text): twice the flux for a normal of length one. -/
noncomputable def twiceRoe (g : ℝ) (ql qr : State d) (n : Fin d → ℝ) : State d :=
  let dq := qr.sub ql
  let av := average g ql qr
  let un := av.un n
  let a2 := av.a2 g
  let a := Real.sqrt a2
  let ova := 1.0 / a
  let ova2 := 1.0 / a2
  let lam1 := correct |un + a|
  let lam2 := correct |un - a|
  let lam3 := correct |un|
  let abv1 := 0.5 * (lam1 + lam2)
  let abv2 := 0.5 * (lam1 - lam2)
  let abv3 := abv1 - lam3
  let abv4 := (av.alpha * dq.rho + ∑ i, -av.vel i * dq.mom i + dq.en) * (g - 1)
  let abv5 := -un * dq.rho + ∑ i, n i * dq.mom i
  let abv6 := abv3 * abv4 * ova2 + abv2 * abv5 * ova
  let abv7 := abv2 * abv4 * ova + abv3 * abv5
  let pl := pressure g ql
  let pr := pressure g qr
  let runL := ∑ i, ql.mom i * n i
  let runR := ∑ i, qr.mom i * n i
  let ril := 1.0 / ql.rho
  let rir := 1.0 / qr.rho
  ⟨runL + runR - (lam3 * dq.rho + abv6),
    fun i => runL * ql.mom i * ril + runR * qr.mom i * rir + (pl + pr) * n i -
      (lam3 * dq.mom i + av.vel i * abv6 + n i * abv7),
    runL * ril * (ql.en + pl) + runR * rir * (qr.en + pr) -
      (lam3 * dq.en + av.ent * abv6 + un * abv7)⟩

/-- The flux divides by the densities and by `a2Avg` and takes the square roots of
the densities; where that fails (NaN) the answer is `none`. -/
def Defined (g : ℝ) (ql qr : State d) : Prop :=
  0 < ql.rho ∧ 0 < qr.rho ∧ (average g ql qr).a2 g ≠ 0

open Classical in
/-- `InviscidTerms::computeRoeFluxFunction`, `InviscidTerms_Impl.h` 217-353, for a
unit normal. -/
noncomputable def roeUnit (g : ℝ) (ql qr : State d) (n : Fin d → ℝ) : Option (State d) :=
  if Defined g ql qr then
    let f := twiceRoe g ql qr n
    some ⟨0.5 * f.rho, fun i => 0.5 * f.mom i, 0.5 * f.en⟩
  else none

open Classical in
/-- `Euler::RoeRiemannFluxFunction`, `Euler_Impl.h` 365-501: the normal has the
size of the face, it is divided by its length first and the result is multiplied
by the length. -/
noncomputable def roe (g : ℝ) (ql qr : State d) (normal : Fin d → ℝ) : Option (State d) :=
  let area := Real.sqrt (∑ i, normal i * normal i)
  if area ≠ 0 ∧ Defined g ql qr then
    let f := twiceRoe g ql qr (fun i => normal i / area)
    some ⟨0.5 * f.rho * area, fun i => 0.5 * f.mom i * area, 0.5 * f.en * area⟩
  else none

/-- `Euler_Impl.h` 533-548: the flux at a boundary, which is taken to be a solid
wall.  The state behind the wall is passed as the left state. -/
noncomputable def wall (g : ℝ) (q : State d) (normal : Fin d → ℝ) : Option (State d) :=
  roe g ⟨q.rho, fun i => -q.mom i, q.en⟩ q normal

/-- `Euler::integrandRightHandSideOnRefFace` (internal faces), `Euler_Impl.h`
569-651, for one test function with value `phi` on the given side. -/
noncomputable def faceIntegrand (g : ℝ) (right : Bool) (ql qr : State d) (normal : Fin d → ℝ)
    (phi : ℝ) : Option (State d) :=
  (roe g ql qr normal).map fun f =>
    let s : ℝ := if right then -1 else 1
    ⟨-(s * f.rho) * phi, fun i => -(s * f.mom i) * phi, -(s * f.en) * phi⟩

/-- `Euler::integrandRightHandSideOnRefElement`, `Euler_Impl.h` 257-334, for one
test function with gradient `grad`: the loops over the directions add to a vector
that is zero at first.  The source term (336-340) is not part of this
definition.  `none`: division by a density of zero, or the `assert_debug` of line
293 on the pressure fails. -/
noncomputable def elementIntegrand (g : ℝ) (q : State d) (grad : Fin d → ℝ) :
    Option (State d) :=
  let inv := 1.0 / q.rho
  let p := (g - 1) * (q.en - 0.5 * inv * ∑ i, q.mom i * q.mom i)
  if q.rho = 0 ∨ ¬ p > 0 then none
  else some ⟨∑ i, q.mom i * grad i,
    fun j => (∑ i, q.mom j * (q.mom i * grad i * inv)) + p * grad j,
    ∑ i, (q.en + p) * (q.mom i * grad i * inv)⟩

end Verif.Euler
