import Verif.RefGeometry.Model
import Mathlib.Data.Fin.VecNotation
import Mathlib.Analysis.Calculus.Deriv.Basic
import Mathlib.Algebra.MvPolynomial.Degrees
import Mathlib.Algebra.BigOperators.Fin

/-!
# Specification: curls, bases of spaces of vector fields
-/
namespace Verif.CurlBasis
open Verif.RefGeometry (Pt)

/-- `g` holds the partial derivatives of `f` in `p`. -/
def HasPartials {d : Nat} (f : Pt d → ℝ) (g : Pt d) (p : Pt d) : Prop :=
  ∀ k, HasDerivAt (fun t => f (Function.update p k t)) (g k) (p k)

/-- The components of `u` have partial derivatives in `p`, and `c` is
`(∂u₂/∂x₁ - ∂u₁/∂x₂, ∂u₀/∂x₂ - ∂u₂/∂x₀, ∂u₁/∂x₀ - ∂u₀/∂x₁)`. -/
def IsCurl (u : Pt 3 → Pt 3) (c : Pt 3) (p : Pt 3) : Prop :=
  ∃ J : Fin 3 → Pt 3, (∀ i, HasPartials (fun q => u q i) (J i) p) ∧
    c 0 = J 2 1 - J 1 2 ∧ c 1 = J 0 2 - J 2 0 ∧ c 2 = J 1 0 - J 0 1

/-- The components of `u` have partial derivatives in `p`, and `c` is `∂u₁/∂x₀ - ∂u₀/∂x₁`. -/
def IsCurl2 (u : Pt 2 → Pt 2) (c : ℝ) (p : Pt 2) : Prop :=
  ∃ J : Fin 2 → Pt 2, (∀ i, HasPartials (fun q => u q i) (J i) p) ∧ c = J 1 0 - J 0 1

/-- The functions of a set are different and linearly independent on a reference shape. -/
def VecIndependent {d : Nat} {F : Type} (shape : Pt d → Prop) (eval : F → Pt d → Pt d) (S : List F) :
    Prop :=
  S.Nodup ∧ ∀ c : F → ℝ, (∀ p, shape p → (S.map fun f => c f • eval f p).sum = 0) → ∀ f ∈ S, c f = 0

/-- `u` is a linear combination of the functions of a set. -/
def InSpan {d : Nat} {F : Type} (eval : F → Pt d → Pt d) (S : List F) (u : Pt d → Pt d) : Prop :=
  ∃ c : F → ℝ, ∀ p, u p = (S.map fun f => c f • eval f p).sum

/-- The components of `u` are polynomials of degree at most `k`. -/
def PolySpace (d k : Nat) (u : Pt d → Pt d) : Prop :=
  ∃ q : Fin d → MvPolynomial (Fin d) ℝ,
    (∀ p i, u p i = MvPolynomial.eval p (q i)) ∧ ∀ i, (q i).totalDegree ≤ k

/-- Nédélec's space of the first kind: the components of `u` are polynomials of degree at most `k`,
and so is `x · u(x)`; that is, the part of degree `k` is orthogonal to `x`. -/
def NedelecSpace (d k : Nat) (u : Pt d → Pt d) : Prop :=
  ∃ q : Fin d → MvPolynomial (Fin d) ℝ,
    (∀ p i, u p i = MvPolynomial.eval p (q i)) ∧ (∀ i, (q i).totalDegree ≤ k) ∧
      (∑ i, MvPolynomial.X i * q i).totalDegree ≤ k

/-- The corners of the reference tetrahedron. -/
def corner : Fin 4 → Pt 3
  | 0 => ![0, 0, 0]
  | 1 => ![1, 0, 0]
  | 2 => ![0, 1, 0]
  | 3 => ![0, 0, 1]

/-- `p` lies in the plane of the face of the tetrahedron opposite of a corner. -/
def OnFace : Fin 4 → Pt 3 → Prop
  | 0, p => p 0 + p 1 + p 2 = 1
  | 1, p => p 0 = 0
  | 2, p => p 1 = 0
  | 3, p => p 2 = 0

/-- `t` is parallel to the face of the tetrahedron opposite of a corner. -/
def Parallel : Fin 4 → Pt 3 → Prop
  | 0, t => t 0 + t 1 + t 2 = 0
  | 1, t => t 0 = 0
  | 2, t => t 1 = 0
  | 3, t => t 2 = 0

/-- The tangential part of `u` vanishes on the face opposite of a corner. -/
def NoTrace (u : Pt 3 → Pt 3) (d : Fin 4) : Prop :=
  ∀ p, OnFace d p → ∀ t, Parallel d t → ∑ i, u p i * t i = 0

/-- `p` lies on the line through two corners of the triangle, the one opposite of the first
(`(0,0)`), second (`(1,0)`) or third (`(0,1)`) corner. -/
def OnSide : Fin 3 → Pt 2 → Prop
  | 0, p => p 0 + p 1 = 1
  | 1, p => p 0 = 0
  | 2, p => p 1 = 0

/-- `t` is parallel to that line. -/
def ParallelSide : Fin 3 → Pt 2 → Prop
  | 0, t => t 0 + t 1 = 0
  | 1, t => t 0 = 0
  | 2, t => t 1 = 0

/-- The tangential part of `u` vanishes on a side of the triangle. -/
def NoTrace2 (u : Pt 2 → Pt 2) (d : Fin 3) : Prop :=
  ∀ p, OnSide d p → ∀ t, ParallelSide d t → ∑ i, u p i * t i = 0

end Verif.CurlBasis
