import Verif.Euler.Model

/-!
# The equations of gas dynamics

Independent of the fluxes of the code: a state is read as density, momentum and
energy only.
-/

namespace Verif.Euler.Spec

variable {d : ℕ}

/-- Product of two vectors. -/
def dot (a b : Fin d → ℝ) : ℝ := ∑ i, a i * b i

/-- The velocity. -/
noncomputable def vel (q : State d) : Fin d → ℝ := fun i => q.mom i / q.rho

/-- The pressure of an ideal gas: `g - 1` times the internal energy. -/
noncomputable def press (g : ℝ) (q : State d) : ℝ :=
  (g - 1) * (q.en - dot q.mom q.mom / (2 * q.rho))

/-- The total enthalpy. -/
noncomputable def enthalpy (g : ℝ) (q : State d) : ℝ := (q.en + press g q) / q.rho

/-- The flux of mass, momentum and energy in the direction `n`. -/
noncomputable def flux (g : ℝ) (q : State d) (n : Fin d → ℝ) : State d :=
  ⟨dot q.mom n,
    fun i => q.mom i * dot (vel q) n + press g q * n i,
    (q.en + press g q) * dot (vel q) n⟩

/-- A physical state. -/
def Physical (g : ℝ) (q : State d) : Prop := 0 < q.rho ∧ 0 < press g q

/-- The derivative of the flux in the direction `n` at a state with velocity `u`
and total enthalpy `h`, applied to a change `w` of the state
(see `jacobian_is_derivative`). -/
noncomputable def jacobian (g : ℝ) (u : Fin d → ℝ) (h : ℝ) (n : Fin d → ℝ) (w : State d) :
    State d :=
  let dp := (g - 1) * (dot u u / 2 * w.rho - dot u w.mom + w.en)
  let dm := dot n w.mom - dot u n * w.rho
  ⟨dot n w.mom,
    fun i => dot u n * w.mom i + u i * dm + n i * dp,
    dot u n * (w.en + dp) + h * dm⟩

/-- Multiplying a state. -/
def scale (c : ℝ) (q : State d) : State d := ⟨c * q.rho, fun i => c * q.mom i, c * q.en⟩

/-- Adding states. -/
def plus (a b : State d) : State d :=
  ⟨a.rho + b.rho, fun i => a.mom i + b.mom i, a.en + b.en⟩

/-- The mean of two numbers weighted with the square roots of the densities. -/
noncomputable def mean (ql qr : State d) (x y : ℝ) : ℝ :=
  (Real.sqrt ql.rho * x + Real.sqrt qr.rho * y) / (Real.sqrt ql.rho + Real.sqrt qr.rho)

/-- The mean velocity of two states. -/
noncomputable def meanVel (ql qr : State d) : Fin d → ℝ :=
  fun i => mean ql qr (vel ql i) (vel qr i)

/-- The mean enthalpy of two states. -/
noncomputable def meanEnt (g : ℝ) (ql qr : State d) : ℝ :=
  mean ql qr (enthalpy g ql) (enthalpy g qr)

/-- The speed of sound of a state with velocity `u` and enthalpy `h`. -/
noncomputable def sound (g : ℝ) (u : Fin d → ℝ) (h : ℝ) : ℝ :=
  Real.sqrt ((g - 1) * (h - dot u u / 2))

/-- The size of a wave speed, kept away from zero: below `0.01` it is replaced by
a parabola that touches it there. -/
noncomputable def size (x : ℝ) : ℝ :=
  if |x| < 1 / 100 then (x ^ 2 + (1 / 100) ^ 2) / (2 * (1 / 100)) else |x|

end Verif.Euler.Spec
