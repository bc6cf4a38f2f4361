import Verif.Pml.Spec
import Mathlib.MeasureTheory.Integral.IntervalIntegral.Basic

/-! # Fields in closed form: specification

Maxwell's equations for a time harmonic field, in two and three dimensions. In two dimensions a curl has one component; it is stored as the first of two. -/
namespace Verif.Fields

open Pml (partialDeriv)
open MaxLocal (Tensor)
open scoped Real

/-- The curl of an electric field. -/
noncomputable def curlE : {d : Nat} → ((Fin d → ℝ) → Fin d → ℂ) → (Fin d → ℝ) → Fin d → ℂ
  | 2, F, x => ![partialDeriv 0 (fun y => F y 1) x - partialDeriv 1 (fun y => F y 0) x, 0]
  | 3, F, x => ![partialDeriv 1 (fun y => F y 2) x - partialDeriv 2 (fun y => F y 1) x, partialDeriv 2 (fun y => F y 0) x - partialDeriv 0 (fun y => F y 2) x,
      partialDeriv 0 (fun y => F y 1) x - partialDeriv 1 (fun y => F y 0) x]
  | _, _, _ => fun _ => 0

/-- The curl of a magnetic field. -/
noncomputable def curlH : {d : Nat} → ((Fin d → ℝ) → Fin d → ℂ) → (Fin d → ℝ) → Fin d → ℂ
  | 2, F, x => ![partialDeriv 1 (fun y => F y 0) x, -partialDeriv 0 (fun y => F y 0) x]
  | _, F, x => curlE F x

/-- The derivatives in the coordinates exist. -/
def Partials {d : Nat} (F : (Fin d → ℝ) → Fin d → ℂ) (x : Fin d → ℝ) : Prop :=
  ∀ j i, DifferentiableAt ℝ (fun t : ℝ => F (Function.update x j t) i) (x j)

/-- What is left of the equation `curl (μ⁻¹ curl E) = ω² ε E`. -/
noncomputable def residual {d : Nat} (eps mu : (Fin d → ℝ) → Tensor) (omega : ℝ) (E : (Fin d → ℝ) → Fin d → ℂ) (x : Fin d → ℝ) : Fin d → ℂ :=
  fun i => curlH (fun y => (mu y).applyCurl (curlE E y)) x i - (omega : ℂ) ^ 2 * (eps x).applyDiv (E x) i

/-- The vector product of an electric and a magnetic field. -/
def poynting {R : Type} [CommRing R] : {d : Nat} → (Fin d → R) → (Fin d → R) → Fin d → R
  | 2, e, h => ![e 1 * h 0, -(e 0 * h 0)]
  | 3, e, h => ![e 1 * h 2 - e 2 * h 1, e 2 * h 0 - e 0 * h 2, e 0 * h 1 - e 1 * h 0]
  | _, _, _ => fun _ => 0

/-- The field at a time, `Re (E e^{∓iωt})`, for the angle `ωt`. -/
noncomputable def atTime {d : Nat} (sign : ℝ) (F : Fin d → ℂ) (angle : ℝ) : Fin d → ℝ :=
  fun i => (F i * Complex.exp (sign * angle * Complex.I)).re

/-- The mean of the flux of energy over a period. -/
noncomputable def meanFlux {d : Nat} (sign : ℝ) (E H : Fin d → ℂ) : Fin d → ℝ :=
  fun i => 1 / (2 * π) * ∫ angle in (0)..(2 * π), poynting (atTime sign E angle) (atTime sign H angle) i

open Classical in
/-- The stretching of a layer for `y > start` that grows with the square of the depth: `1 + i a (y - start)² / ω`. -/
noncomputable def stretchY (omega start a : ℝ) (p : Fin 2 → ℝ) : Fin 2 → ℂ :=
  ![1, if p 1 - start > 0 then 1 + Complex.I / omega * a * ((p 1 - start : ℝ) : ℂ) * ((p 1 - start : ℝ) : ℂ) else 1]

end Verif.Fields
