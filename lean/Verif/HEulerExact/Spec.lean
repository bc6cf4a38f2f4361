import Verif.HEulerExact.Model

/-!
# The linear Euler equations
-/

namespace Verif.HEulerExact

/-- A field of position and time. -/
abbrev Field := ℝ → ℝ → ℝ → ℝ → ℝ

/-- The momentum equations with rotation `f` about the `z`-axis: `u_t = f v - p_x`, `v_t = -f u - p_y`,
`w_t = -p_z`. -/
def Momentum (f : ℝ) (u v w p : Field) : Prop :=
  ∀ x y z t, ∃ px py pz : ℝ,
    HasDerivAt (fun a => p a y z t) px x ∧ HasDerivAt (fun a => p x a z t) py y ∧
    HasDerivAt (fun a => p x y a t) pz z ∧
    HasDerivAt (fun a => u x y z a) (f * v x y z t - px) t ∧
    HasDerivAt (fun a => v x y z a) (-f * u x y z t - py) t ∧
    HasDerivAt (fun a => w x y z a) (-pz) t

/-- The divergence of the velocity is `d`. -/
def Divergence (u v w d : Field) : Prop :=
  ∀ x y z t, ∃ ux vy wz : ℝ,
    HasDerivAt (fun a => u a y z t) ux x ∧ HasDerivAt (fun a => v x a z t) vy y ∧
    HasDerivAt (fun a => w x y a t) wz z ∧ d x y z t = ux + vy + wz

/-- Conservation of mass: `ρ_t = -div`. -/
def Continuity (ρ u v w : Field) : Prop :=
  ∃ d : Field, Divergence u v w d ∧ ∀ x y z t, HasDerivAt (fun a => ρ x y z a) (-d x y z t) t

end Verif.HEulerExact
