import Mathlib.Data.Real.Basic
import Mathlib.Data.Fintype.BigOperators
import Mathlib.Algebra.BigOperators.Group.Finset.Basic
import Mathlib.Data.Fin.Basic

/-!
# The viscous tensor of the older compressible Navier-Stokes application

Models `/repo/applications/NavierStokes/CompressibleNavierStokes/Viscous.cpp:73-290`: the tensor that multiplies
the gradient of the conserved variables and its two contractions. `double` is `ℝ`. The number of directions is any
`d`. Row and column `0` of a matrix are `rho`, `i + 1` is `mom i` and `DIM_ + 1` is `en`.
-/

namespace Verif.OldViscous

open scoped BigOperators

variable {d : ℕ}

/-- The conserved variables, in the order of the rows. -/
inductive Var (d : ℕ) where
  | rho
  | mom (i : Fin d)
  | en
  deriving DecidableEq

/-- A `numOfVariables_` by `numOfVariables_` matrix. -/
abbrev Mat (d : ℕ) := Var d → Var d → ℝ

/-- `partialState` (CompressibleNavierStokes.cpp:149-160): density, velocity and energy per mass. -/
structure Prim (d : ℕ) where
  rho : ℝ
  u : Fin d → ℝ
  en : ℝ

/-- `gamma_`, `prandtlNumber_` and `reynoldsScaling_`, CompressibleNavierStokes.h:243-260. -/
structure Gas where
  gamma : ℝ
  prandtl : ℝ
  reynolds : ℝ

/-- The loop over all the variables. -/
def sumVar (f : Var d → ℝ) : ℝ := f .rho + ∑ i, f (.mom i) + f .en

/-- `factor43` for the dominant component, Viscous.cpp:92, 127-130. -/
noncomputable def dominant (i k : Fin d) : ℝ := if k = i then 4.0 / 3.0 else 1

/-- `velocityNormSquared`, Viscous.cpp:96-98. -/
def speed2 (p : Prim d) : ℝ := ∑ i, p.u i * p.u i

/-- `A11`, `A22` and `A33` before the division by the density, Viscous.cpp:107-150. The first term of the energy
row has no factor `viscosity`. -/
noncomputable def diagonal (theta : ℝ) (p : Prim d) (mu : ℝ) (i : Fin d) : Mat d
  | .mom k, .rho => -mu * p.u k * dominant i k
  | .mom k, .mom l => if k = l then mu * dominant i k else 0
  | .en, .mom k => (mu * dominant i k + -theta) * p.u k
  | .en, .en => theta
  | .en, .rho => -(1.0 / 3.0) * p.u i * p.u i - mu * speed2 p - theta * (p.en - speed2 p)
  | _, _ => 0

/-- `A(iD1)(iD2)` for `iD1 < iD2` before the division by the density, Viscous.cpp:164-177. -/
noncomputable def upper (p : Prim d) (mu : ℝ) (i j : Fin d) : Mat d
  | .mom k, .rho => if k = i then 2.0 / 3.0 * mu * p.u j else if k = j then -mu * p.u i else 0
  | .mom k, .mom l => if k = i ∧ l = j then -(2.0 / 3.0 * mu) else if k = j ∧ l = i then mu else 0
  | .en, .rho => -1.0 / 3.0 * mu * p.u i * p.u j
  | .en, .mom k => if k = j then -(2.0 / 3.0 * mu) * p.u i else if k = i then mu * p.u j else 0
  | _, _ => 0

/-- `A(iD2)(iD1)` for `iD1 < iD2` before the division by the density, Viscous.cpp:179-187. -/
noncomputable def lower (p : Prim d) (mu : ℝ) (i j : Fin d) : Mat d
  | .mom k, .rho => if k = i then -mu * p.u j else if k = j then 2.0 / 3.0 * mu * p.u i else 0
  | .mom k, .mom l => if k = i ∧ l = j then mu else if k = j ∧ l = i then -(2.0 / 3.0 * mu) else 0
  | .en, .rho => -1.0 / 3.0 * mu * p.u i * p.u j
  | .en, .mom k => if k = j then mu * p.u i else if k = i then -(2.0 / 3.0 * mu) * p.u j else 0
  | _, _ => 0

/-- The matrix at tensor index `DIM_ * a + b` before the division by the density. -/
noncomputable def block (theta : ℝ) (p : Prim d) (mu : ℝ) (a b : Fin d) : Mat d :=
  if a = b then diagonal theta p mu a else if a < b then upper p mu a b else lower p mu b a

/-- `Viscous::computeATensor`, Viscous.cpp:73-199. `none`: division by zero. -/
noncomputable def tensor (g : Gas) (p : Prim d) (mu : ℝ) : Option (Fin d → Fin d → Mat d) :=
  if p.rho = 0 ∨ g.prandtl = 0 then none
  else some fun a b v w => g.reynolds * (block (g.gamma / g.prandtl) p mu a b v w * (1.0 / p.rho))

/-- `computeATensorMatrixContraction`, Viscous.cpp:204-224. `m w b` is `matrix(iVm, iDm)`. -/
def naive (t : Fin d → Fin d → Mat d) (m : Var d → Fin d → ℝ) (v : Var d) (a : Fin d) : ℝ :=
  ∑ b, sumVar fun w => t a b v w * m w b

/-- `computeATensorMatrixContractionFast`, Viscous.cpp:228-290. The updates `+=` of one entry are collected: the
part with `pos = DIM_ * iD + iDm` is `a = iD`, `b = iDm`, and the one with `pos = DIM_ * iDm + iD` is `a = iDm`,
`b = iD`. -/
def fast (t : Fin d → Fin d → Mat d) (m : Var d → Fin d → ℝ) : Var d → Fin d → ℝ
  | .rho, _ => 0
  | .mom k, a => t a a (.mom k) .rho * m .rho a + t a a (.mom k) (.mom k) * m (.mom k) a
      + ∑ b ∈ Finset.univ.erase a,
        ((if k = a then t a b (.mom a) .rho * m .rho b + t a b (.mom a) (.mom b) * m (.mom b) b else 0)
          + (if k = b then t a b (.mom b) .rho * m .rho b + t a b (.mom b) (.mom a) * m (.mom a) b else 0))
  | .en, a => sumVar (fun w => t a a .en w * m w a)
      + ∑ b ∈ Finset.univ.erase a, sumVar fun w => t a b .en w * m w b

end Verif.OldViscous
