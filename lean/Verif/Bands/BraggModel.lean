import Mathlib.Analysis.SpecialFunctions.Trigonometric.Basic
import Mathlib.Analysis.Complex.Trigonometric
import Mathlib.Analysis.Real.Sqrt

/-! # Band structure of a Bragg stack

Models `applications/DG-Max/Utils/BraggStackBandstructure.cpp`. Doubles are real numbers and comparisons are exact.
`none` is NaN, an assertion or a loop that does not end. The loops over lattice points in `computeLinearSpectrum`
and `computeLines` are not modelled. -/
namespace Verif.Bands.Bragg

/-! ## Roots

The function is arbitrary, with numbers as values: NaN is not modelled here. -/

/-- The loop of `bisect` (BraggStackBandstructure.cpp:73-85). -/
noncomputable def bisectLoop (f : ℝ → ℝ) (tol left right fleft fright : ℝ) : Option ℝ :=
  if |right - left| > tol then
    if f ((left + right) / 2) * fleft < 0 then
      bisectLoop f tol left ((left + right) / 2) fleft (f ((left + right) / 2))
    else if f ((left + right) / 2) * fright < 0 then
      bisectLoop f tol ((left + right) / 2) right (f ((left + right) / 2)) fright
    else some ((left + right) / 2)
  else some ((left + right) / 2)
partial_fixpoint

/-- `bisect` (BraggStackBandstructure.cpp:69-87). -/
noncomputable def bisect (f : ℝ → ℝ) (left right : ℝ) (tol : ℝ := 1 / 10 ^ 8) : Option ℝ :=
  bisectLoop f tol left right (f left) (f right)

/-- BraggStackBandstructure.cpp:167. -/
noncomputable def phi : ℝ := (1 + √5) / 2

/-- The loop of the golden section search (BraggStackBandstructure.cpp:176-206) and what follows it (207-213): the
roots that are added. -/
noncomputable def goldenLoop (f : ℝ → ℝ) (a b c d fa fb fc fd : ℝ) : Option (List ℝ) :=
  if |c - d| > 1 / 10 ^ 8 then
    if fc < fd then
      if f (d - (d - a) / phi) < 0 then
        (bisect f a (d - (d - a) / phi)).bind fun r₁ =>
          (bisect f (d - (d - a) / phi) d).bind fun r₂ => some [r₁, r₂]
      else goldenLoop f a d (d - (d - a) / phi) c fa fd (f (d - (d - a) / phi)) fc
    else
      if f (c + (b - c) / phi) < 0 then
        (bisect f c (c + (b - c) / phi)).bind fun r₁ =>
          (bisect f (c + (b - c) / phi) b).bind fun r₂ => some [r₁, r₂]
      else goldenLoop f c b d (c + (b - c) / phi) fc fb fd (f (c + (b - c) / phi))
  else if |fa| < 1 / 10 ^ 8 then some [(a + b) / 2, (a + b) / 2]
  else some []
partial_fixpoint

/-- The golden section search (BraggStackBandstructure.cpp:142-213) for `func`, with the values at the ends. -/
noncomputable def golden (f : ℝ → ℝ) (omin omax fa fb : ℝ) : Option (List ℝ) :=
  if f (omin - 1 / 4 * (omax - omin)) < fa ∨ f (omax + 1 / 4 * (omax - omin)) < fb then some []
  else
    goldenLoop f omin omax (omax - (omax - omin) / phi) (omin + (omax - omin) / phi) fa fb
      (f (omax - (omax - omin) / phi)) (f (omin + (omax - omin) / phi))

/-- BraggStackBandstructure.cpp:142. -/
noncomputable def sign (x : ℝ) : ℝ := if x > 0 then 1 else -1

/-- `findRootsInterval` (BraggStackBandstructure.cpp:115-215): the roots that are added. -/
noncomputable def findRootsInterval (f : ℝ → ℝ) (omin omax : ℝ) : Option (List ℝ) :=
  if |f omin| < 1 / 10 ^ 8 then some [omin]
  else if |f omax| > 1 / 10 ^ 8 ∧ f omin * f omax < 0 then (bisect f omin omax).bind fun r => some [r]
  else if |f omax| < 1 / 2 ∧ |f omin| < 1 / 2 then
    golden (fun o => sign (f omin) * f o) omin omax (sign (f omin) * f omin) (sign (f omin) * f omax)
  else some []

/-- `findRoots` (BraggStackBandstructure.cpp:89-100), with 200 intervals. -/
noncomputable def findRoots (f : ℝ → ℝ) (omegamax : ℝ) : Option (List ℝ) :=
  ((List.range 200).mapM fun (i : Nat) =>
    findRootsInterval f (i * (omegamax / 200)) (i * (omegamax / 200) + omegamax / 200)).bind fun l => some l.flatten

/-! ## The functions -/

/-- `std::sqrt(std::complex<double>(r))` for a real number. -/
noncomputable def csqrt (r : ℝ) : ℂ := if 0 ≤ r then (√r : ℝ) else (√(-r) : ℝ) * Complex.I

/-- `k1z` and `k2z` (BraggStackBandstructure.cpp:362-365 and 389-392). -/
noncomputable def normal (eps omega : ℝ) (k : Fin 3 → ℝ) : ℂ :=
  csqrt (eps * omega * omega - k 1 * k 1 - k 2 * k 2)

/-- `ad2` (BraggStackBandstructure.cpp:373-378 and 400-405) and the value that is returned. -/
noncomputable def value (k : Fin 3 → ℝ) (fraction : ℝ) (k1z k2z kk : ℂ) : ℝ :=
  Real.cos (k 0) -
    (Complex.cos (k1z * fraction) * Complex.cos (k2z * (1 - fraction : ℝ)) -
      1 / 2 * kk * Complex.sin (k1z * fraction) * Complex.sin (k2z * (1 - fraction : ℝ))).re

/-- `valuete` (BraggStackBandstructure.cpp:355-379); NaN by a division by zero unless line 368 applies. -/
noncomputable def valueTE (eps1 eps2 fraction omega : ℝ) (k : Fin 3 → ℝ) : Option ℝ :=
  open Classical in
  let k1z := normal eps1 omega k
  let k2z := normal eps2 omega k
  if omega < 1 / 10 ^ 6 ∧ k 1 * k 1 + k 2 * k 2 < 1 / 10 ^ 6 then
    some (value k fraction k1z k2z ((√(eps1 / eps2) + √(eps2 / eps1) : ℝ) : ℂ))
  else if k1z = 0 ∨ k2z = 0 then none
  else some (value k fraction k1z k2z (k1z / k2z + k2z / k1z))

/-- `valuetm` (BraggStackBandstructure.cpp:381-406). -/
noncomputable def valueTM (eps1 eps2 fraction omega : ℝ) (k : Fin 3 → ℝ) : Option ℝ :=
  open Classical in
  let k1z := normal eps1 omega k
  let k2z := normal eps2 omega k
  if omega < 1 / 10 ^ 6 ∧ k 1 * k 1 + k 2 * k 2 < 1 / 10 ^ 6 then
    some (value k fraction k1z k2z ((√(eps1 / eps2) + √(eps2 / eps1) : ℝ) : ℂ))
  else if k1z = 0 ∨ k2z = 0 then none
  else some (value k fraction k1z k2z ((eps2 * k1z) / (eps1 * k2z) + (eps1 * k2z) / (eps2 * k1z)))

/-! ## Lines -/

/-- `MultiMode` (BraggStackBandstructure.h:147-161). -/
structure MultiMode where
  x : ℝ
  y : ℝ
  teModes : Nat
  tmModes : Nat
  multiplicity : Nat

/-- `LineSet` (BraggStackBandstructure.h:60-162) without the structure it belongs to. -/
structure LineSet where
  l : ℝ
  x1 : ℝ
  x2 : ℝ
  multiModes : List MultiMode
  totalNumberOfLines : Nat

/-- The constructor (BraggStackBandstructure.cpp:409-411). -/
def LineSet.empty (l x1 x2 : ℝ) : LineSet := { l, x1, x2, multiModes := [], totalNumberOfLines := 0 }

/-- `addLine` (BraggStackBandstructure.cpp:438-443). -/
def LineSet.addLine (s : LineSet) (m : MultiMode) : LineSet :=
  { s with
    multiModes := s.multiModes ++ [m]
    totalNumberOfLines := s.totalNumberOfLines + (m.teModes + m.tmModes) }

/-- The loop of `findMode` (BraggStackBandstructure.cpp:497-503). -/
def findModeLoop : List MultiMode → Nat → Option (MultiMode × Nat)
  | [], _ => none
  | m :: ms, line => if line < m.teModes + m.tmModes then some (m, line) else findModeLoop ms (line - (m.teModes + m.tmModes))

/-- `findMode` (BraggStackBandstructure.cpp:493-505). -/
def LineSet.findMode (s : LineSet) (line : Nat) : Option (MultiMode × Nat) :=
  if line ≤ s.totalNumberOfLines then findModeLoop s.multiModes line else none

/-- `frequency` up to the call of `findRoot` (BraggStackBandstructure.cpp:413-435): its arguments, the wave vector, the
number of the root and whether it is a TM mode. -/
def LineSet.rootArguments (s : LineSet) (line : Nat) (interpolation : ℝ) : Option ((Fin 3 → ℝ) × Nat × Bool) :=
  (s.findMode line).bind fun (m, index) =>
    some ((fun i => if i = 0 then s.x1 + interpolation * (s.x2 - s.x1) else if i = 1 then m.x + interpolation * s.l
        else m.y),
      if index ≥ m.teModes then index - m.teModes else index, decide (index ≥ m.teModes))

/-- `l2` and `kdir` (BraggStackBandstructure.cpp:233-245): length and direction of the change across the layers. -/
noncomputable def direction (point1 point2 : Fin 3 → ℝ) : ℝ × (Fin 2 → ℝ) :=
  let kdir : Fin 2 → ℝ := fun i => point2 i.succ - point1 i.succ
  let l2 := √(∑ i, kdir i * kdir i)
  (l2, if |l2| > 1 / 10 ^ 10 then fun i => kdir i / l2 else kdir)

/-- `x` and `y` of a reciprocal vector (BraggStackBandstructure.cpp:267-271). -/
noncomputable def coordinates (point1 : Fin 3 → ℝ) (kdir kp : Fin 2 → ℝ) : ℝ × ℝ :=
  let dk : Fin 2 → ℝ := fun i => point1 i.succ - kp i
  let x := ∑ i, dk i * kdir i
  (x, √(∑ i, (dk i - x * kdir i) * (dk i - x * kdir i)))

end Verif.Bands.Bragg
