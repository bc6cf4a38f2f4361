import Verif.Euler.Model
import Mathlib.Logic.Function.Basic

/-!
# The inviscid terms of the older compressible Navier-Stokes application

Models `/repo/applications/NavierStokes/CompressibleNavierStokes/Inviscid.cpp`. The Roe flux
(`RoeRiemannFluxFunction`, Inviscid.cpp:117-252) is the same text as that of
`InviscidTerms_Impl.h`, so `Euler.roeUnit` is used for it. `double` is `ℝ`. A vector of coefficients is a
function of the index; an index or a basis function out of range is `none`. The number of directions is any `d`,
and the number of variables `numOfVariables_` is `d + 2`.
-/

namespace Verif.OldNavierStokes

open Verif.Euler (State)

variable {d : ℕ}

/-- `state(iV)`: the entries of a vector of unknowns. -/
def entry (q : State d) (v : ℕ) : ℝ :=
  if v = 0 then q.rho else if h : v - 1 < d then q.mom ⟨v - 1, h⟩ else q.en

/-- `Inviscid::FluxFunction`, Inviscid.cpp:254-288. `none`: division by zero. -/
noncomputable def fluxFunction (q : State d) (pressure : ℝ) (n : Fin d → ℝ) : Option (State d) :=
  let inv := 1.0 / q.rho
  if q.rho = 0 then none
  else some ⟨∑ i, q.mom i * n i,
    fun j => (∑ i, q.mom j * q.mom i * inv * n i) + pressure * n j,
    ∑ i, (q.en + pressure) * q.mom i * inv * n i⟩

/-- `Inviscid::integrandAtElement`, Inviscid.cpp:48-115, for one test function with gradient `grad`. -/
noncomputable def elementTerm (q : State d) (pressure : ℝ) (grad : Fin d → ℝ) : Option (State d) :=
  let inv := 1.0 / q.rho
  if q.rho = 0 then none
  else some ⟨∑ i, q.mom i * grad i,
    fun j => (∑ i, q.mom j * (q.mom i * grad i * inv)) + pressure * grad j,
    ∑ i, (q.en + pressure) * (q.mom i * grad i * inv)⟩

/-- `convertToSingleIndex(iB, iV)` of an element with `n` basis functions for every variable. -/
def single (n iB iV : ℕ) : ℕ := iV * n + iB

/-- The pairs of two nested loops, the basis function outside. -/
def loop (n nV : ℕ) : List (ℕ × ℕ) := (List.range n).flatMap fun iB => (List.range nV).map fun iV => (iB, iV)

/-- A list of assignments `v(k) = x`. -/
def assign (l : List (ℕ × ℝ)) (v : ℕ → ℝ) : ℕ → ℝ := l.foldl (fun v e => Function.update v e.1 e.2) v

/-- `integrandAtFace` (Inviscid.cpp:293-322) and `integrandAtBoundaryFace` (327-358) from the flux on: `n` basis
functions with values `phi`. -/
noncomputable def faceTerm (n : ℕ) (phi : ℕ → ℝ) (flux : State d) : ℕ → ℝ :=
  fun k => -assign ((loop n (d + 2)).map fun e => (single n e.1 e.2, entry flux e.2 * phi e.1)) 0 k

/-- `integrandAtBoundaryFace`, Inviscid.cpp:327-358. -/
noncomputable def boundaryTerm (n : ℕ) (phi : ℕ → ℝ) (q : State d) (pressure : ℝ) (normal : Fin d → ℝ) :
    Option (ℕ → ℝ) := (fluxFunction q pressure normal).map (faceTerm n phi)

/-- `integrandsAtFace`, Inviscid.cpp:360-401: `nL` and `nR` basis functions on the two sides. The loop runs over
those of the left element for both sides, and the index is that of the left element. -/
noncomputable def faceTerms (nL nR : ℕ) (phiL phiR : ℕ → ℝ) (g : ℝ) (ql qr : State d) (normal : Fin d → ℝ) :
    Option ((ℕ → ℝ) × (ℕ → ℝ)) := do
  let flux ← Verif.Euler.roeUnit g ql qr normal
  if nR < nL then none
  else some (assign ((loop nL (d + 2)).map fun e => (single nL e.1 e.2, -entry flux e.2 * phiL e.1)) 0,
    assign ((loop nL (d + 2)).map fun e => (single nL e.1 e.2, entry flux e.2 * phiR e.1)) 0)

end Verif.OldNavierStokes
