import Mathlib.Analysis.Real.Sqrt

/-!
# Model of kernel/FE/helperFunctions.cpp

`double` is `ℝ`. The `switch` on the degree is a `match`; `logger(FATAL, …)` is `none`.
-/
namespace Verif.Legendre

/-- helperFunctions.cpp:110-122 `LegendrePolynomial` -/
noncomputable def legendre : Nat → ℝ → ℝ
  | 0, _ => 1
  | 1, x => x
  | n + 2, x =>
    let degree : ℝ := ((n + 2 : Nat) : ℝ)
    (2 * degree - 1) / degree * x * legendre (n + 1) x - (degree - 1) / degree * legendre n x

/-- helperFunctions.cpp:124-137 `LegendrePolynomialDerivative` -/
noncomputable def legendreDeriv : Nat → ℝ → ℝ
  | 0, _ => 0
  | 1, _ => 1
  | n + 2, x =>
    let degree : ℝ := ((n + 2 : Nat) : ℝ)
    (2 * degree - 1) / degree * (x * legendreDeriv (n + 1) x + legendre (n + 1) x) -
      (degree - 1) / degree * legendreDeriv n x

/-- helperFunctions.cpp:49-89 `LobattoPolynomial` -/
noncomputable def lobatto (degree : Nat) (x : ℝ) : ℝ :=
  match degree with
  | 0 => √(3 / 2) * -2
  | 1 => √(5 / 2) * x * -2
  | 2 => √(7 / 2) * (5 * x * x - 1) / -2
  | 3 => √(9 / 2) * (7 * x * x - 3) * x / -2
  | 4 => √(11 / 2) * ((21 * x * x - 14) * x * x + 1) / -4
  | 5 => √(13 / 2) * ((33 * x * x - 30 * x * x) + 5) * x / -4
  | 6 => √(15 / 2) * (((429 * x * x - 495) * x * x + 135) * x * x - 5) / -32
  | 7 => √(17 / 2) * (((715 * x * x - 1001) * x * x + 385) * x * x - 35) * x / -32
  | 8 => √(19 / 2) * ((((2431 * x * x - 4004) * x * x + 2002) * x * x - 308) * x * x + 7) / -64
  | 9 => √(21 / 2) * ((((4199 * x * x - 7956) * x * x + 4914) * x * x - 1092) * x * x + 63) * x / -64
  | n + 10 => legendreDeriv (n + 10 + 1) x

/-- helperFunctions.cpp:91-108 `LobattoPolynomialDerivative` -/
noncomputable def lobattoDeriv (degree : Nat) (x : ℝ) : Option ℝ :=
  match degree with
  | 0 => some 0
  | 1 => some (-2 * √(5 / 2))
  | 2 => some (-2 * √(7 / 2) * (2.5 * x))
  | 3 => some (-2 * √(9 / 2) * (5.25 * x * x - 0.75))
  | _ => none

end Verif.Legendre
