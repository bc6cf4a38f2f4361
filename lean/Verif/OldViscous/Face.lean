import Verif.OldViscous.Model

/-!
# The viscous face terms of the older compressible Navier-Stokes application

Models the fluxes of `integrandViscousAtFace` and `integrandsViscousAtFace` in
`/repo/applications/NavierStokes/CompressibleNavierStokes/Viscous.cpp:425-485, 692-761`: the matrices that are
multiplied by the gradients of the test functions. The multiplication itself is not modelled.
-/

namespace Verif.OldViscous

variable {d : ℕ}

/-- `computePartialState`, CompressibleNavierStokes.cpp:149-160. The density is not zero. -/
noncomputable def partialState (q : Var d → ℝ) : Prim d :=
  ⟨q .rho, fun k => q (.mom k) * (1.0 / q .rho), q .en * (1.0 / q .rho)⟩

/-- The fluxes at an internal face, Viscous.cpp:715-734, with the tensors of CompressibleNavierStokes.cpp:754-759;
`muL` and `muR` are the viscosities. -/
noncomputable def innerFluxes (g : Gas) (muL muR : ℝ) (ql qr : Var d → ℝ) (normal : Fin d → ℝ) :
    Option ((Var d → Fin d → ℝ) × (Var d → Fin d → ℝ)) := do
  let tl ← tensor g (partialState ql) muL
  let tr ← tensor g (partialState qr) muR
  let m := fun v b => 0.5 * (ql v - qr v) * normal b
  some (fast tl m, fast tr m)

/-- The flux at a boundary face, Viscous.cpp:443-463, with the tensors of CompressibleNavierStokes.cpp:673-679. -/
noncomputable def boundaryFlux (g : Gas) (muL muB : ℝ) (ql qb : Var d → ℝ) (normal : Fin d → ℝ) :
    Option (Var d → Fin d → ℝ) := do
  let tl ← tensor g (partialState ql) muL
  let tb ← tensor g (partialState qb) muB
  some fun v a => fast tl (fun v b => ql v * normal b) v a + fast tb (fun v b => -qb v * normal b) v a

end Verif.OldViscous
