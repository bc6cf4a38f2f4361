import Mathlib.Algebra.Polynomial.Derivative
import Mathlib.Data.Real.Basic
import Mathlib.Data.Nat.Factorial.Basic

/-! # The Legendre polynomials, by Rodrigues' formula -/
namespace Verif.Legendre
open Polynomial

/-- `1 / (2^n n!) * (d/dX)^n (X^2 - 1)^n` -/
noncomputable def rodrigues (n : Nat) : ℝ[X] :=
  C (1 / (2 ^ n * (n.factorial : ℝ))) * derivative^[n] ((X ^ 2 - 1) ^ n)

end Verif.Legendre
