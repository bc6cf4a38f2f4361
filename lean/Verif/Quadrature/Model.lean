import Verif.RefGeometry.Model
import Mathlib.Data.Rat.Defs
import Mathlib.Data.Rat.Cast.Defs
import Mathlib.Analysis.Real.Sqrt
import Mathlib.LinearAlgebra.Matrix.Determinant.Basic

/-!
# Model of the quadrature rules

kernel/Integration/QuadratureRules/GaussQuadratureRule.h, StandardQaussQuadratureRule.h,
AllGaussQuadratureRules.cpp and the sum of kernel/Integration/ElementIntegral_Impl.h. `double` is
`ℝ`. The tables themselves are in `Tables.lean`.
-/
namespace Verif.Quadrature
open RefGeometry

/-- GaussQuadratureRule.h, StandardQaussQuadratureRule.h:60-95: `order()`, `getNumberOfPoints()`
and the stored pairs `weight(i)`, `getPoint(i)`. Most rules write the number of points as a literal
of its own. The name is left out, and the reference geometry is given by the list a rule is in. -/
structure Rule (d : Nat) where
  order : Nat
  number : Nat
  points : List (ℝ × Pt d)

/-- A rule whose table only has rational entries. -/
noncomputable def ofTable {d : Nat} (order number : Nat) (t : List (ℚ × (Fin d → ℚ))) :
    Rule d where
  order := order
  number := number
  points := t.map fun p => ((p.1 : ℝ), fun i => (p.2 i : ℝ))

/-- GaussQuadratureRulesForSquare.cpp:308-320 (and 351-363): all products of two points of a rule
for the line, the second one running fastest. -/
def tensor2 (t : List (ℚ × (Fin 1 → ℚ))) : List (ℚ × (Fin 2 → ℚ)) :=
  t.flatMap fun p => t.map fun q => (p.1 * q.1, ![p.2 0, q.2 0])

/-- GaussQuadratureRulesForCube.cpp:287-303 (and 335-351, 383-399): all products of three points of
a rule for the line, the last one running fastest. -/
def tensor3 (t : List (ℚ × (Fin 1 → ℚ))) : List (ℚ × (Fin 3 → ℚ)) :=
  t.flatMap fun p => t.flatMap fun q => t.map fun r =>
    (p.1 * q.1 * r.1, ![p.2 0, q.2 0, r.2 0])

/-- ElementIntegral_Impl.h:178-200 `referenceElementIntegral`: start with the first point, then add
the points `1` to `getNumberOfPoints() - 1`. Point `0` is read in any case. Reading a point that is
not stored is an error: `none`. -/
def Rule.integrate {d : Nat} (r : Rule d) (f : Pt d → ℝ) : Option ℝ :=
  match r.points with
  | [] => none
  | p :: ps =>
    if r.points.length < r.number then none
    else some ((ps.take (r.number - 1)).foldl (fun s q => s + q.1 * f q.2) (p.1 * f p.2))

/-- ElementIntegral.h:121-127 `getScaleFactor` and ElementIntegral_Impl.h:92-157 `integrate`, with the
Jacobian matrix `J` of the map to the physical element at each point and the integrand as a function
of the point of the reference element. `scaling` is `jacobianScaling_`. -/
noncomputable def Rule.integrateElement {d : Nat} (r : Rule d) (scaling : Bool)
    (J : Pt d → Matrix (Fin d) (Fin d) ℝ) (f : Pt d → ℝ) : Option ℝ :=
  let factor := fun x => if scaling then |(J x).det| else 1
  match r.points with
  | [] => none
  | p :: ps =>
    if r.points.length < r.number then none
    else some ((ps.take (r.number - 1)).foldl (fun s q => s + q.1 * factor q.2 * f q.2)
      (f p.2 * (p.1 * factor p.2)))

/-- AllGaussQuadratureRules.cpp:125-137 `addRule` on the list of one geometry: insert before the
first rule whose order is not lower. -/
def addRule {d : Nat} : List (Rule d) → Rule d → List (Rule d)
  | [], r => [r]
  | x :: xs, r => if x.order < r.order then x :: addRule xs r else r :: x :: xs

/-- AllGaussQuadratureRules.cpp:139-161 `getRule` on the list of one geometry. `curve` is the order
of the geometry when it is curvilinear. Without an adequate rule the code stops: `none`. -/
def getRule {d : Nat} (l : List (Rule d)) (curve : Option Nat) (order : Nat) : Option (Rule d) :=
  let order := match curve with
    | some k => max order (k + 1)
    | none => order
  l.find? fun r => order ≤ r.order

end Verif.Quadrature
