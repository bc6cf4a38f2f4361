import Verif.NavierStokes.Model
import Mathlib.Analysis.SpecialFunctions.Trigonometric.Basic

/-!
# The manufactured solution of the Navier-Stokes application

`applications/NavierStokes/Air/Air.cpp`: the exact solution (489-519), which also
gives the initial state and the boundary state, and the source that is to make it a
solution (`integrandSourceAtElement`, 92-452).  The application has two directions.
The viscous terms computed in 373-407 are left out of the source (426-431), so they
are not modelled.
-/

namespace Verif.NavierStokes

open Verif.Euler (State)

/-- `zVal(0)`, line 121. -/
noncomputable def zCos (x y : ℝ) : ℝ := Real.cos (2 * Real.pi * x) * Real.cos (2 * Real.pi * y)

/-- `getExactSolution`, `Air.cpp` 489-519, with `A = 1`, `B = 10`, `C = 0.1`,
`D = 0.5`. -/
noncomputable def exactSolution (x y t : ℝ) : State 2 :=
  ⟨1 * (1 + t * (1 / 10) * zCos x y),
    ![1 / 2 * (1 + t * (1 / 10) * zCos x y), 1 / 2 * (1 + t * (1 / 10) * zCos x y)],
    10 * (1 + t * (1 / 10) * zCos x y)⟩

/-- `state_t`, lines 188-191. -/
noncomputable def stateT (x y : ℝ) : State 2 :=
  ⟨1 * 1 * (1 / 10) * zCos x y,
    ![1 * (1 / 2) * (1 / 10) * zCos x y, 1 * (1 / 2) * (1 / 10) * zCos x y],
    1 * 10 * (1 / 10) * zCos x y⟩

/-- `state_x`, lines 194-197. -/
noncomputable def stateX (x y t : ℝ) : State 2 :=
  let k1 := 2 * Real.pi
  let z1 := Real.sin (k1 * x) * Real.cos (2 * Real.pi * y)
  ⟨-k1 * t * (1 / 10) * 1 * z1, ![-k1 * t * (1 / 10) * (1 / 2) * z1,
    -k1 * t * (1 / 10) * (1 / 2) * z1], -k1 * t * (1 / 10) * 10 * z1⟩

/-- `state_y`, lines 200-203. -/
noncomputable def stateY (x y t : ℝ) : State 2 :=
  let k2 := 2 * Real.pi
  let z2 := Real.cos (2 * Real.pi * x) * Real.sin (k2 * y)
  ⟨-k2 * t * (1 / 10) * 1 * z2, ![-k2 * t * (1 / 10) * (1 / 2) * z2,
    -k2 * t * (1 / 10) * (1 / 2) * z2], -k2 * t * (1 / 10) * 10 * z2⟩

/-- `partialState_x` and `partialState_y`, lines 230-245. -/
noncomputable def partialDeriv (q qx : State 2) : State 2 :=
  let p := computePartialState q
  let inverseDensity := 1 / q.rho
  ⟨qx.rho, fun i => inverseDensity * (qx.mom i - p.mom i * qx.rho),
    inverseDensity * (qx.en - p.en * qx.rho)⟩

/-- The source, lines 273-277, 353-371, 389-396 and 425-431, from the state and its
derivatives; `none`: division by zero. -/
noncomputable def sourceTerm (g : ℝ) (q qt qx qy : State 2) : Option (State 2) :=
  open Classical in if q.rho = 0 then none else
  let p := computePartialState q
  let px := partialDeriv q qx
  let py := partialDeriv q qy
  let pressure := (g - 1) * (q.en - 1 / 2 * (p.mom 0 * p.mom 0 + p.mom 1 * p.mom 1) * q.rho)
  let conv_uu_x := q.mom 0 * px.mom 0 + p.mom 0 * qx.mom 0
  let conv_uu_y := q.mom 0 * py.mom 0 + p.mom 0 * qy.mom 0
  let conv_vu_y := q.mom 0 * py.mom 1 + p.mom 1 * qy.mom 0
  let conv_uv_x := q.mom 0 * px.mom 1 + p.mom 1 * qx.mom 0
  let conv_vv_x := q.mom 1 * px.mom 1 + p.mom 1 * qx.mom 1
  let conv_vv_y := q.mom 1 * py.mom 1 + p.mom 1 * qy.mom 1
  let p_x := (g - 1) * (qx.en - 1 / 2 * conv_uu_x - 1 / 2 * conv_vv_x)
  let p_y := (g - 1) * (qy.en - 1 / 2 * conv_uu_y - 1 / 2 * conv_vv_y)
  let H := p.en + pressure / q.rho
  let H_x := px.en + p_x / q.rho - pressure / (q.rho * q.rho) * qx.rho
  let H_y := py.en + p_y / q.rho - pressure / (q.rho * q.rho) * qy.rho
  let conv_Hu_x := q.mom 0 * H_x + H * qx.mom 0
  let conv_Hv_y := q.mom 1 * H_y + H * qy.mom 1
  some ⟨qt.rho + qx.mom 0 + qy.mom 1,
    ![qt.mom 0 + conv_uu_x + conv_vu_y + p_x, qt.mom 1 + conv_uv_x + conv_vv_y + p_y],
    qt.en + conv_Hu_x + conv_Hv_y⟩

/-- `integrandSourceAtElement` divided by the value of the basis function, lines
92-452. -/
noncomputable def source (g x y t : ℝ) : Option (State 2) :=
  sourceTerm g (exactSolution x y t) (stateT x y) (stateX x y t) (stateY x y t)

end Verif.NavierStokes
