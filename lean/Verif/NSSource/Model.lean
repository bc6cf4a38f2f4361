import Mathlib.Analysis.SpecialFunctions.Trigonometric.Deriv
import Mathlib.Analysis.SpecialFunctions.Trigonometric.Basic
import Mathlib.Data.Fin.VecNotation

/-!
# The manufactured solution of the older compressible Navier-Stokes application

Models the first part of `integrandSourceAtElement`,
`/repo/applications/NavierStokes/CompressibleNavierStokes/CompressibleNavierStokes.cpp:166-348`: the exact state and
its tables of derivatives. `double` is `ℝ`. The closure variables and the source built from them (349 on) are not
modelled.
-/

namespace Verif.NSSource

open Real

/-- `A`, `B`, `C` and `D`, CompressibleNavierStokes.cpp:181-186. Any numbers. -/
structure Amp where
  A : ℝ
  B : ℝ
  C : ℝ
  D : ℝ

/-- `zVal`, CompressibleNavierStokes.cpp:206-209. -/
noncomputable def zVal (x y : ℝ) : Fin 4 → ℝ :=
  ![cos (2 * π * x) * cos (2 * π * y), sin (2 * π * x) * sin (2 * π * y), cos (2 * π * x) * sin (2 * π * y),
    sin (2 * π * x) * cos (2 * π * y)]

/-- `exactState`, 212-215. -/
noncomputable def state (c : Amp) (x y : ℝ) : Fin 4 → ℝ :=
  ![c.A + c.C * zVal x y 0, c.D + c.C * zVal x y 3, c.D + c.C * zVal x y 2, c.B + c.C * zVal x y 0]

/-- `state_x`, 225-228. -/
noncomputable def stateX (c : Amp) (x y : ℝ) : Fin 4 → ℝ :=
  ![-2 * π * c.C * zVal x y 3, 2 * π * c.C * zVal x y 0, -2 * π * c.C * zVal x y 1, -2 * π * c.C * zVal x y 3]

/-- `state_y`, 231-234. -/
noncomputable def stateY (c : Amp) (x y : ℝ) : Fin 4 → ℝ :=
  ![-2 * π * c.C * zVal x y 2, -2 * π * c.C * zVal x y 1, 2 * π * c.C * zVal x y 0, -2 * π * c.C * zVal x y 2]

/-- `state_xx`, 237-240. -/
noncomputable def stateXX (c : Amp) (x y : ℝ) : Fin 4 → ℝ :=
  ![-4 * π * π * c.C * zVal x y 0, -4 * π * π * c.C * zVal x y 3, -4 * π * π * c.C * zVal x y 2,
    -4 * π * π * c.C * zVal x y 0]

/-- `state_yy`, 243-246. -/
noncomputable def stateYY (c : Amp) (x y : ℝ) : Fin 4 → ℝ :=
  ![-4 * π * π * c.C * zVal x y 0, -4 * π * π * c.C * zVal x y 3, -4 * π * π * c.C * zVal x y 2,
    -4 * π * π * c.C * zVal x y 0]

/-- `state_xy`, 249-252. -/
noncomputable def stateXY (c : Amp) (x y : ℝ) : Fin 4 → ℝ :=
  ![-4 * π * π * c.C * zVal x y 1, -4 * π * π * c.C * zVal x y 2, -4 * π * π * c.C * zVal x y 3,
    -4 * π * π * c.C * zVal x y 1]

/-- `inverseDensity`, 216. The density is not zero. -/
noncomputable def inv (c : Amp) (x y : ℝ) : ℝ := 1.0 / state c x y 0

/-- `partialState`, 255-258. -/
noncomputable def part (c : Amp) (x y : ℝ) (v : Fin 4) : ℝ :=
  if v = 0 then state c x y 0 else state c x y v * inv c x y

/-- `partialState_x`, 261-267. -/
noncomputable def partX (c : Amp) (x y : ℝ) (v : Fin 4) : ℝ :=
  if v = 0 then stateX c x y 0 else inv c x y * (stateX c x y v - part c x y v * stateX c x y 0)

/-- `partialState_y`, 270-276. -/
noncomputable def partY (c : Amp) (x y : ℝ) (v : Fin 4) : ℝ :=
  if v = 0 then stateY c x y 0 else inv c x y * (stateY c x y v - part c x y v * stateY c x y 0)

/-- The right sides of 280-300, for variable `v`. -/
noncomputable def formXX (c : Amp) (x y : ℝ) (v : Fin 4) : ℝ :=
  let i := inv c x y;
  (-i * partX c x y v + i * i * part c x y v * stateX c x y 0 - i * i * stateX c x y v) * stateX c x y 0
    + i * stateXX c x y v - i * part c x y v * stateXX c x y 0

/-- The right sides of 304-324, for variable `v`. -/
noncomputable def formYY (c : Amp) (x y : ℝ) (v : Fin 4) : ℝ :=
  let i := inv c x y;
  (-i * partY c x y v + i * i * part c x y v * stateY c x y 0 - i * i * stateY c x y v) * stateY c x y 0
    + i * stateYY c x y v - i * part c x y v * stateYY c x y 0

/-- The right sides of 328-348, for variable `v`. -/
noncomputable def formXY (c : Amp) (x y : ℝ) (v : Fin 4) : ℝ :=
  let i := inv c x y;
  -i * i * stateX c x y 0 * stateY c x y v + i * stateXY c x y v - i * partX c x y v * stateY c x y 0
    + i * i * part c x y v * stateX c x y 0 * stateY c x y 0 - i * part c x y v * stateXY c x y 0

/-- An assignment to an entry of a vector. -/
def set (w : Fin 4 → ℝ) (v : Fin 4) (a : ℝ) : Fin 4 → ℝ := fun i => if i = v then a else w i

/-- `partialState_xx`, `partialState_yy` and `partialState_xy` after the assignments 279-348, in order, starting from
vectors of zeros. -/
noncomputable def tables (c : Amp) (x y : ℝ) : (Fin 4 → ℝ) × (Fin 4 → ℝ) × (Fin 4 → ℝ) :=
  let xx := set (set (set (set 0 0 (stateXX c x y 0)) 1 (formXX c x y 1)) 2 (formXX c x y 2)) 3 (formXX c x y 3)
  let yy := set 0 0 (stateYY c x y 0)
  let xx := set (set (set xx 1 (formYY c x y 1)) 2 (formYY c x y 2)) 3 (formYY c x y 3)
  let xy := set (set (set (set 0 0 (stateXY c x y 0)) 1 (formXY c x y 1)) 2 (formXY c x y 2)) 1 (formXY c x y 3)
  (xx, yy, xy)

end Verif.NSSource
