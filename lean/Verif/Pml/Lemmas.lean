import Verif.Pml.Spec
import Mathlib.Analysis.Calculus.Deriv.Mul
import Mathlib.Analysis.Calculus.Deriv.Add
import Mathlib.Analysis.Calculus.Deriv.Pow
import Mathlib.Analysis.SpecialFunctions.ExpDeriv
import Mathlib.Analysis.SpecialFunctions.Complex.Log
import Mathlib.Tactic.FinCases
import Mathlib.Tactic.FieldSimp
import Mathlib.Tactic.Ring
import Mathlib.Tactic.Linarith
import Mathlib.Tactic.NormNum

/-! # Absorbing layers: lemmas -/
namespace Verif.Pml

variable {n dim : Nat}

/-- The component `k` of a vector depends on the coordinate `k` only. -/
def Separate (d : (Fin n → ℝ) → Fin n → ℂ) : Prop := ∀ j k x t, j ≠ k → d (Function.update x j t) k = d x k

theorem stretching_separate (l : Layer dim) (omega : ℝ) (j : Fin dim) (k : Fin 3) (x : Fin dim → ℝ) (t : ℝ) (h : j.1 ≠ k.1) :
    l.stretching omega (Function.update x j t) k = l.stretching omega x k := by
  simp only [Layer.stretching]
  by_cases hk : k.1 < dim
  · rw [dif_pos hk, dif_pos hk, Function.update_of_ne (fun e => h (congrArg Fin.val e).symm)]
  · rw [dif_neg hk, dif_neg hk]

theorem stretching_re (l : Layer dim) (omega : ℝ) (x : Fin dim → ℝ) (k : Fin 3) : (l.stretching omega x k).re = 1 := by
  simp only [Layer.stretching]
  split
  · split
    · rw [show (Complex.I / omega * l.scaling _ * _ * _ : ℂ) = ((l.scaling ⟨k, by assumption⟩ * ((x ⟨k, by assumption⟩ - l.offset ⟨k, by assumption⟩) * l.directions ⟨k, by assumption⟩) *
        ((x ⟨k, by assumption⟩ - l.offset ⟨k, by assumption⟩) * l.directions ⟨k, by assumption⟩) / omega : ℝ) : ℂ) * Complex.I by push_cast; ring]
      simp
    · simp
  · simp

theorem stretching_ne (l : Layer dim) (omega : ℝ) (x : Fin dim → ℝ) (k : Fin 3) : l.stretching omega x k ≠ 0 := by
  intro h
  have := stretching_re l omega x k
  rw [h] at this
  simp at this

theorem partialDeriv_mul (j : Fin n) (c f : (Fin n → ℝ) → ℂ) (x : Fin n → ℝ) (h : ∀ t, c (Function.update x j t) = c x) :
    partialDeriv j (fun y => c y * f y) x = c x * partialDeriv j f x := by
  simp only [partialDeriv, h, deriv_const_mul_field]

theorem diagonalTensor_eq (l : Layer dim) (omega : ℝ) (x : Fin dim → ℝ) (i : Fin 3) :
    l.diagonalTensor omega x i = l.stretching omega x 0 * l.stretching omega x 1 * l.stretching omega x 2 / (l.stretching omega x i) ^ 2 := by
  have h0 := stretching_ne l omega x 0
  have h1 := stretching_ne l omega x 1
  have h2 := stretching_ne l omega x 2
  fin_cases i <;> simp [Layer.diagonalTensor, List.finRange_succ] <;> field_simp

theorem curl_scaled (d F : (Fin 3 → ℝ) → Fin 3 → ℂ) (hd : Separate d) (hn : ∀ x k, d x k ≠ 0) (x : Fin 3 → ℝ) (i : Fin 3) :
    curl (fun y k => d y k * F y k) x i = d x 0 * d x 1 * d x 2 / d x i * stretchedCurl d F x i := by
  have h : ∀ j k, j ≠ k → partialDeriv j (fun y => d y k * F y k) x = d x k * partialDeriv j (fun y => F y k) x := fun j k hjk =>
    partialDeriv_mul j (fun y => d y k) (fun y => F y k) x fun t => hd j k x t hjk
  have h0 := hn x 0
  have h1 := hn x 1
  have h2 := hn x 2
  fin_cases i <;> simp [curl, stretchedCurl, h] <;> field_simp

theorem curlPlane_scaled (d F : (Fin 2 → ℝ) → Fin 2 → ℂ) (hd : Separate d) (hn : ∀ x k, d x k ≠ 0) (x : Fin 2 → ℝ) :
    stretchedCurlPlane (fun _ _ => 1) (fun y k => d y k * F y k) x = d x 0 * d x 1 * stretchedCurlPlane d F x := by
  have h : ∀ j k, j ≠ k → partialDeriv j (fun y => d y k * F y k) x = d x k * partialDeriv j (fun y => F y k) x := fun j k hjk =>
    partialDeriv_mul j (fun y => d y k) (fun y => F y k) x fun t => hd j k x t hjk
  have h0 := hn x 0
  have h1 := hn x 1
  simp [stretchedCurlPlane, h]
  field_simp

end Verif.Pml
