import Verif.Quadrature.Model
set_option maxRecDepth 100000
set_option maxHeartbeats 2000000

/-!
# The tables of the quadrature rules

kernel/Integration/QuadratureRules/GaussQuadratureRulesFor*.cpp. Every weight and coordinate is
the expression of the code. Tables without square roots are kept over `ℚ` (the decimals of the
code, exactly); `ofTable` turns them into rules over `ℝ`. The rounding of the decimals to the
nearest `double` is not modelled.
-/
namespace Verif.Quadrature
open RefGeometry

/-- GaussQuadratureRulesForTetrahedron.cpp:57 -/
def tetVolume : ℚ := 1.6666666666666663e-01

/-- GaussQuadratureRulesForLine.cpp:78 -/
def Cn1_1_1T : List (ℚ × (Fin 1 → ℚ)) := [
  (2.0, ![0.0])]

/-- GaussQuadratureRulesForLine.cpp:78 -/
noncomputable def Cn1_1_1 : Rule 1 := ofTable 1 1 Cn1_1_1T

/-- GaussQuadratureRulesForLine.cpp:112 -/
noncomputable def Cn1_3_2 : Rule 1 where
  order := 3
  number := 2
  points := [
    (1.0, ![-Real.sqrt (3.0) / 3.0]),
    (1.0, ![Real.sqrt (3.0) / 3.0])]

/-- GaussQuadratureRulesForLine.cpp:149 -/
noncomputable def Cn1_5_3 : Rule 1 where
  order := 5
  number := 3
  points := [
    (5.0 / 9.0, ![-Real.sqrt (3.0 / 5.0)]),
    (8.0 / 9.0, ![0.0]),
    (5.0 / 9.0, ![Real.sqrt (3.0 / 5.0)])]

/-- GaussQuadratureRulesForLine.cpp:189 -/
def C1_7_4T : List (ℚ × (Fin 1 → ℚ)) := [
  ((0.347854845137453), ![-0.861136311594053]),
  ((0.652145154862546), ![-0.339981043584856]),
  ((0.652145154862546), ![0.339981043584856]),
  ((0.347854845137453), ![0.861136311594053])]

/-- GaussQuadratureRulesForLine.cpp:189 -/
noncomputable def C1_7_4 : Rule 1 := ofTable 7 4 C1_7_4T

/-- GaussQuadratureRulesForLine.cpp:232 -/
def C1_9_5T : List (ℚ × (Fin 1 → ℚ)) := [
  ((0.236926885056189), ![-0.906179845938663]),
  ((0.478628670499366), ![-0.538469310105683]),
  ((0.56888888888888888888888888), ![0.0]),
  ((0.478628670499366), ![0.538469310105683]),
  ((0.236926885056189), ![0.906179845938663])]

/-- GaussQuadratureRulesForLine.cpp:232 -/
noncomputable def C1_9_5 : Rule 1 := ofTable 9 5 C1_9_5T

/-- GaussQuadratureRulesForLine.cpp:278 -/
def C1_11_6T : List (ℚ × (Fin 1 → ℚ)) := [
  ((0.171324492379170), ![-0.932469514203152]),
  ((0.360761573048138), ![-0.661209386466264]),
  ((0.467913934572691), ![-0.238619186083196]),
  ((0.467913934572691), ![0.238619186083196]),
  ((0.360761573048138), ![0.661209386466264]),
  ((0.171324492379170), ![0.932469514203152])]

/-- GaussQuadratureRulesForLine.cpp:278 -/
noncomputable def C1_11_6 : Rule 1 := ofTable 11 6 C1_11_6T

/-- GaussQuadratureRulesForSquare.cpp:77 -/
def Cn2_1_1T : List (ℚ × (Fin 2 → ℚ)) := [
  ((2.0) * (2.0), ![0.0, 0.0])]

/-- GaussQuadratureRulesForSquare.cpp:77 -/
noncomputable def Cn2_1_1 : Rule 2 := ofTable 1 1 Cn2_1_1T

/-- GaussQuadratureRulesForSquare.cpp:110 -/
noncomputable def Cn2_3_4 : Rule 2 where
  order := 3
  number := 4
  points := [
    ((1.0) * (1.0), ![-Real.sqrt (3.0) / 3.0, -Real.sqrt (3.0) / 3.0]),
    ((1.0) * (1.0), ![Real.sqrt (3.0) / 3.0, -Real.sqrt (3.0) / 3.0]),
    ((1.0) * (1.0), ![-Real.sqrt (3.0) / 3.0, Real.sqrt (3.0) / 3.0]),
    ((1.0) * (1.0), ![Real.sqrt (3.0) / 3.0, Real.sqrt (3.0) / 3.0])]

/-- GaussQuadratureRulesForSquare.cpp:152 -/
noncomputable def Cn2_5_9 : Rule 2 where
  order := 5
  number := 9
  points := [
    ((5.0 / 9.0) * (5.0 / 9.0), ![-Real.sqrt (3.0 / 5.0), -Real.sqrt (3.0 / 5.0)]),
    ((8.0 / 9.0) * (5.0 / 9.0), ![0.0, -Real.sqrt (3.0 / 5.0)]),
    ((5.0 / 9.0) * (5.0 / 9.0), ![Real.sqrt (3.0 / 5.0), -Real.sqrt (3.0 / 5.0)]),
    ((5.0 / 9.0) * (8.0 / 9.0), ![-Real.sqrt (3.0 / 5.0), 0.0]),
    ((8.0 / 9.0) * (8.0 / 9.0), ![0.0, 0.0]),
    ((5.0 / 9.0) * (8.0 / 9.0), ![Real.sqrt (3.0 / 5.0), 0.0]),
    ((5.0 / 9.0) * (5.0 / 9.0), ![-Real.sqrt (3.0 / 5.0), Real.sqrt (3.0 / 5.0)]),
    ((8.0 / 9.0) * (5.0 / 9.0), ![0.0, Real.sqrt (3.0 / 5.0)]),
    ((5.0 / 9.0) * (5.0 / 9.0), ![Real.sqrt (3.0 / 5.0), Real.sqrt (3.0 / 5.0)])]

/-- GaussQuadratureRulesForSquare.cpp:209 -/
noncomputable def C2_7_4 : Rule 2 where
  order := 7
  number := 16
  points := [
    ((59.0 + 6.0 * Real.sqrt (30.0)) / 216.0, ![Real.sqrt ((15.0 - 2.0 * Real.sqrt (30.0)) / 35.0), Real.sqrt ((15.0 - 2.0 * Real.sqrt (30.0)) / 35.0)]),
    ((59.0 + 6.0 * Real.sqrt (30.0)) / 216.0, ![-Real.sqrt ((15.0 - 2.0 * Real.sqrt (30.0)) / 35.0), Real.sqrt ((15.0 - 2.0 * Real.sqrt (30.0)) / 35.0)]),
    ((59.0 + 6.0 * Real.sqrt (30.0)) / 216.0, ![Real.sqrt ((15.0 - 2.0 * Real.sqrt (30.0)) / 35.0), -Real.sqrt ((15.0 - 2.0 * Real.sqrt (30.0)) / 35.0)]),
    ((59.0 + 6.0 * Real.sqrt (30.0)) / 216.0, ![-Real.sqrt ((15.0 - 2.0 * Real.sqrt (30.0)) / 35.0), -Real.sqrt ((15.0 - 2.0 * Real.sqrt (30.0)) / 35.0)]),
    ((59.0 - 6.0 * Real.sqrt (30.0)) / 216.0, ![Real.sqrt ((15.0 + 2.0 * Real.sqrt (30.0)) / 35.0), Real.sqrt ((15.0 + 2.0 * Real.sqrt (30.0)) / 35.0)]),
    ((59.0 - 6.0 * Real.sqrt (30.0)) / 216.0, ![-Real.sqrt ((15.0 + 2.0 * Real.sqrt (30.0)) / 35.0), Real.sqrt ((15.0 + 2.0 * Real.sqrt (30.0)) / 35.0)]),
    ((59.0 - 6.0 * Real.sqrt (30.0)) / 216.0, ![Real.sqrt ((15.0 + 2.0 * Real.sqrt (30.0)) / 35.0), -Real.sqrt ((15.0 + 2.0 * Real.sqrt (30.0)) / 35.0)]),
    ((59.0 - 6.0 * Real.sqrt (30.0)) / 216.0, ![-Real.sqrt ((15.0 + 2.0 * Real.sqrt (30.0)) / 35.0), -Real.sqrt ((15.0 + 2.0 * Real.sqrt (30.0)) / 35.0)]),
    (49.0 / 216.0, ![Real.sqrt ((15.0 - 2.0 * Real.sqrt (30.0)) / 35.0), Real.sqrt ((15.0 + 2.0 * Real.sqrt (30.0)) / 35.0)]),
    (49.0 / 216.0, ![-Real.sqrt ((15.0 - 2.0 * Real.sqrt (30.0)) / 35.0), Real.sqrt ((15.0 + 2.0 * Real.sqrt (30.0)) / 35.0)]),
    (49.0 / 216.0, ![Real.sqrt ((15.0 - 2.0 * Real.sqrt (30.0)) / 35.0), -Real.sqrt ((15.0 + 2.0 * Real.sqrt (30.0)) / 35.0)]),
    (49.0 / 216.0, ![-Real.sqrt ((15.0 - 2.0 * Real.sqrt (30.0)) / 35.0), -Real.sqrt ((15.0 + 2.0 * Real.sqrt (30.0)) / 35.0)]),
    (49.0 / 216.0, ![Real.sqrt ((15.0 + 2.0 * Real.sqrt (30.0)) / 35.0), Real.sqrt ((15.0 - 2.0 * Real.sqrt (30.0)) / 35.0)]),
    (49.0 / 216.0, ![-Real.sqrt ((15.0 + 2.0 * Real.sqrt (30.0)) / 35.0), Real.sqrt ((15.0 - 2.0 * Real.sqrt (30.0)) / 35.0)]),
    (49.0 / 216.0, ![Real.sqrt ((15.0 + 2.0 * Real.sqrt (30.0)) / 35.0), -Real.sqrt ((15.0 - 2.0 * Real.sqrt (30.0)) / 35.0)]),
    (49.0 / 216.0, ![-Real.sqrt ((15.0 + 2.0 * Real.sqrt (30.0)) / 35.0), -Real.sqrt ((15.0 - 2.0 * Real.sqrt (30.0)) / 35.0)])]

/-- GaussQuadratureRulesForSquare.cpp:303: the products of the points of `C1_9_5`. -/
def C2_9_5T : List (ℚ × (Fin 2 → ℚ)) := tensor2 C1_9_5T

/-- GaussQuadratureRulesForSquare.cpp:303 -/
noncomputable def C2_9_5 : Rule 2 := ofTable 9 25 C2_9_5T

/-- GaussQuadratureRulesForSquare.cpp:346: the products of the points of `C1_11_6`. -/
def C2_11_6T : List (ℚ × (Fin 2 → ℚ)) := tensor2 C1_11_6T

/-- GaussQuadratureRulesForSquare.cpp:346 -/
noncomputable def C2_11_6 : Rule 2 := ofTable 11 36 C2_11_6T

/-- GaussQuadratureRulesForCube.cpp:71 -/
def Cn3_1_1T : List (ℚ × (Fin 3 → ℚ)) := [
  (((2.0) * (2.0)) * (2.0), ![0.0, 0.0, 0.0])]

/-- GaussQuadratureRulesForCube.cpp:71 -/
noncomputable def Cn3_1_1 : Rule 3 := ofTable 1 1 Cn3_1_1T

/-- GaussQuadratureRulesForCube.cpp:103 -/
noncomputable def Cn3_3_4 : Rule 3 where
  order := 3
  number := 8
  points := [
    (((1.0) * (1.0)) * (1.0), ![-Real.sqrt (3.0) / 3.0, -Real.sqrt (3.0) / 3.0, -Real.sqrt (3.0) / 3.0]),
    (((1.0) * (1.0)) * (1.0), ![Real.sqrt (3.0) / 3.0, -Real.sqrt (3.0) / 3.0, -Real.sqrt (3.0) / 3.0]),
    (((1.0) * (1.0)) * (1.0), ![-Real.sqrt (3.0) / 3.0, Real.sqrt (3.0) / 3.0, -Real.sqrt (3.0) / 3.0]),
    (((1.0) * (1.0)) * (1.0), ![Real.sqrt (3.0) / 3.0, Real.sqrt (3.0) / 3.0, -Real.sqrt (3.0) / 3.0]),
    (((1.0) * (1.0)) * (1.0), ![-Real.sqrt (3.0) / 3.0, -Real.sqrt (3.0) / 3.0, Real.sqrt (3.0) / 3.0]),
    (((1.0) * (1.0)) * (1.0), ![Real.sqrt (3.0) / 3.0, -Real.sqrt (3.0) / 3.0, Real.sqrt (3.0) / 3.0]),
    (((1.0) * (1.0)) * (1.0), ![-Real.sqrt (3.0) / 3.0, Real.sqrt (3.0) / 3.0, Real.sqrt (3.0) / 3.0]),
    (((1.0) * (1.0)) * (1.0), ![Real.sqrt (3.0) / 3.0, Real.sqrt (3.0) / 3.0, Real.sqrt (3.0) / 3.0])]

/-- GaussQuadratureRulesForCube.cpp:164 -/
noncomputable def Cn3_5_9 : Rule 3 where
  order := 5
  number := 27
  points := [
    (((5.0 / 9.0) * (5.0 / 9.0)) * (5.0 / 9.0), ![-Real.sqrt (3.0 / 5.0), -Real.sqrt (3.0 / 5.0), -Real.sqrt (3.0 / 5.0)]),
    (((8.0 / 9.0) * (5.0 / 9.0)) * (5.0 / 9.0), ![0.0, -Real.sqrt (3.0 / 5.0), -Real.sqrt (3.0 / 5.0)]),
    (((5.0 / 9.0) * (5.0 / 9.0)) * (5.0 / 9.0), ![Real.sqrt (3.0 / 5.0), -Real.sqrt (3.0 / 5.0), -Real.sqrt (3.0 / 5.0)]),
    (((5.0 / 9.0) * (8.0 / 9.0)) * (5.0 / 9.0), ![-Real.sqrt (3.0 / 5.0), 0.0, -Real.sqrt (3.0 / 5.0)]),
    (((8.0 / 9.0) * (8.0 / 9.0)) * (5.0 / 9.0), ![0.0, 0.0, -Real.sqrt (3.0 / 5.0)]),
    (((5.0 / 9.0) * (8.0 / 9.0)) * (5.0 / 9.0), ![Real.sqrt (3.0 / 5.0), 0.0, -Real.sqrt (3.0 / 5.0)]),
    (((5.0 / 9.0) * (5.0 / 9.0)) * (5.0 / 9.0), ![-Real.sqrt (3.0 / 5.0), Real.sqrt (3.0 / 5.0), -Real.sqrt (3.0 / 5.0)]),
    (((8.0 / 9.0) * (5.0 / 9.0)) * (5.0 / 9.0), ![0.0, Real.sqrt (3.0 / 5.0), -Real.sqrt (3.0 / 5.0)]),
    (((5.0 / 9.0) * (5.0 / 9.0)) * (5.0 / 9.0), ![Real.sqrt (3.0 / 5.0), Real.sqrt (3.0 / 5.0), -Real.sqrt (3.0 / 5.0)]),
    (((5.0 / 9.0) * (5.0 / 9.0)) * (8.0 / 9.0), ![-Real.sqrt (3.0 / 5.0), -Real.sqrt (3.0 / 5.0), 0.0]),
    (((8.0 / 9.0) * (5.0 / 9.0)) * (8.0 / 9.0), ![0.0, -Real.sqrt (3.0 / 5.0), 0.0]),
    (((5.0 / 9.0) * (5.0 / 9.0)) * (8.0 / 9.0), ![Real.sqrt (3.0 / 5.0), -Real.sqrt (3.0 / 5.0), 0.0]),
    (((5.0 / 9.0) * (8.0 / 9.0)) * (8.0 / 9.0), ![-Real.sqrt (3.0 / 5.0), 0.0, 0.0]),
    (((8.0 / 9.0) * (8.0 / 9.0)) * (8.0 / 9.0), ![0.0, 0.0, 0.0]),
    (((5.0 / 9.0) * (8.0 / 9.0)) * (8.0 / 9.0), ![Real.sqrt (3.0 / 5.0), 0.0, 0.0]),
    (((5.0 / 9.0) * (5.0 / 9.0)) * (8.0 / 9.0), ![-Real.sqrt (3.0 / 5.0), Real.sqrt (3.0 / 5.0), 0.0]),
    (((8.0 / 9.0) * (5.0 / 9.0)) * (8.0 / 9.0), ![0.0, Real.sqrt (3.0 / 5.0), 0.0]),
    (((5.0 / 9.0) * (5.0 / 9.0)) * (8.0 / 9.0), ![Real.sqrt (3.0 / 5.0), Real.sqrt (3.0 / 5.0), 0.0]),
    (((5.0 / 9.0) * (5.0 / 9.0)) * (5.0 / 9.0), ![-Real.sqrt (3.0 / 5.0), -Real.sqrt (3.0 / 5.0), Real.sqrt (3.0 / 5.0)]),
    (((8.0 / 9.0) * (5.0 / 9.0)) * (5.0 / 9.0), ![0.0, -Real.sqrt (3.0 / 5.0), Real.sqrt (3.0 / 5.0)]),
    (((5.0 / 9.0) * (5.0 / 9.0)) * (5.0 / 9.0), ![Real.sqrt (3.0 / 5.0), -Real.sqrt (3.0 / 5.0), Real.sqrt (3.0 / 5.0)]),
    (((5.0 / 9.0) * (8.0 / 9.0)) * (5.0 / 9.0), ![-Real.sqrt (3.0 / 5.0), 0.0, Real.sqrt (3.0 / 5.0)]),
    (((8.0 / 9.0) * (8.0 / 9.0)) * (5.0 / 9.0), ![0.0, 0.0, Real.sqrt (3.0 / 5.0)]),
    (((5.0 / 9.0) * (8.0 / 9.0)) * (5.0 / 9.0), ![Real.sqrt (3.0 / 5.0), 0.0, Real.sqrt (3.0 / 5.0)]),
    (((5.0 / 9.0) * (5.0 / 9.0)) * (5.0 / 9.0), ![-Real.sqrt (3.0 / 5.0), Real.sqrt (3.0 / 5.0), Real.sqrt (3.0 / 5.0)]),
    (((8.0 / 9.0) * (5.0 / 9.0)) * (5.0 / 9.0), ![0.0, Real.sqrt (3.0 / 5.0), Real.sqrt (3.0 / 5.0)]),
    (((5.0 / 9.0) * (5.0 / 9.0)) * (5.0 / 9.0), ![Real.sqrt (3.0 / 5.0), Real.sqrt (3.0 / 5.0), Real.sqrt (3.0 / 5.0)])]

/-- GaussQuadratureRulesForCube.cpp:282: the products of the points of `C1_7_4`. -/
def C3_7_2T : List (ℚ × (Fin 3 → ℚ)) := tensor3 C1_7_4T

/-- GaussQuadratureRulesForCube.cpp:282 -/
noncomputable def C3_7_2 : Rule 3 := ofTable 7 64 C3_7_2T

/-- GaussQuadratureRulesForCube.cpp:330: the products of the points of `C1_9_5`. -/
def C3_9_2T : List (ℚ × (Fin 3 → ℚ)) := tensor3 C1_9_5T

/-- GaussQuadratureRulesForCube.cpp:330 -/
noncomputable def C3_9_2 : Rule 3 := ofTable 9 125 C3_9_2T

/-- GaussQuadratureRulesForCube.cpp:378: the products of the points of `C1_11_6`. -/
def C3_11_2T : List (ℚ × (Fin 3 → ℚ)) := tensor3 C1_11_6T

/-- GaussQuadratureRulesForCube.cpp:378 -/
noncomputable def C3_11_2 : Rule 3 := ofTable 11 216 C3_11_2T

/-- GaussQuadratureRulesForHypercube.cpp:72 -/
def Cn4_1_1T : List (ℚ × (Fin 4 → ℚ)) := [
  (16.0, ![0.0, 0.0, 0.0, 0.0])]

/-- GaussQuadratureRulesForHypercube.cpp:72 -/
noncomputable def Cn4_1_1 : Rule 4 := ofTable 1 1 Cn4_1_1T

/-- GaussQuadratureRulesForHypercube.cpp:104 -/
noncomputable def Cn4_3_16 : Rule 4 where
  order := 3
  number := 16
  points := [
    (1.0, ![-Real.sqrt (3.0) / 3.0, -Real.sqrt (3.0) / 3.0, -Real.sqrt (3.0) / 3.0, -Real.sqrt (3.0) / 3.0]),
    (1.0, ![Real.sqrt (3.0) / 3.0, -Real.sqrt (3.0) / 3.0, -Real.sqrt (3.0) / 3.0, -Real.sqrt (3.0) / 3.0]),
    (1.0, ![-Real.sqrt (3.0) / 3.0, Real.sqrt (3.0) / 3.0, -Real.sqrt (3.0) / 3.0, -Real.sqrt (3.0) / 3.0]),
    (1.0, ![Real.sqrt (3.0) / 3.0, Real.sqrt (3.0) / 3.0, -Real.sqrt (3.0) / 3.0, -Real.sqrt (3.0) / 3.0]),
    (1.0, ![-Real.sqrt (3.0) / 3.0, -Real.sqrt (3.0) / 3.0, Real.sqrt (3.0) / 3.0, -Real.sqrt (3.0) / 3.0]),
    (1.0, ![Real.sqrt (3.0) / 3.0, -Real.sqrt (3.0) / 3.0, Real.sqrt (3.0) / 3.0, -Real.sqrt (3.0) / 3.0]),
    (1.0, ![-Real.sqrt (3.0) / 3.0, Real.sqrt (3.0) / 3.0, Real.sqrt (3.0) / 3.0, -Real.sqrt (3.0) / 3.0]),
    (1.0, ![Real.sqrt (3.0) / 3.0, Real.sqrt (3.0) / 3.0, Real.sqrt (3.0) / 3.0, -Real.sqrt (3.0) / 3.0]),
    (1.0, ![-Real.sqrt (3.0) / 3.0, -Real.sqrt (3.0) / 3.0, -Real.sqrt (3.0) / 3.0, Real.sqrt (3.0) / 3.0]),
    (1.0, ![Real.sqrt (3.0) / 3.0, -Real.sqrt (3.0) / 3.0, -Real.sqrt (3.0) / 3.0, Real.sqrt (3.0) / 3.0]),
    (1.0, ![-Real.sqrt (3.0) / 3.0, Real.sqrt (3.0) / 3.0, -Real.sqrt (3.0) / 3.0, Real.sqrt (3.0) / 3.0]),
    (1.0, ![Real.sqrt (3.0) / 3.0, Real.sqrt (3.0) / 3.0, -Real.sqrt (3.0) / 3.0, Real.sqrt (3.0) / 3.0]),
    (1.0, ![-Real.sqrt (3.0) / 3.0, -Real.sqrt (3.0) / 3.0, Real.sqrt (3.0) / 3.0, Real.sqrt (3.0) / 3.0]),
    (1.0, ![Real.sqrt (3.0) / 3.0, -Real.sqrt (3.0) / 3.0, Real.sqrt (3.0) / 3.0, Real.sqrt (3.0) / 3.0]),
    (1.0, ![-Real.sqrt (3.0) / 3.0, Real.sqrt (3.0) / 3.0, Real.sqrt (3.0) / 3.0, Real.sqrt (3.0) / 3.0]),
    (1.0, ![Real.sqrt (3.0) / 3.0, Real.sqrt (3.0) / 3.0, Real.sqrt (3.0) / 3.0, Real.sqrt (3.0) / 3.0])]

/-- GaussQuadratureRulesForTriangle.cpp:76 -/
def Tn2_1_1T : List (ℚ × (Fin 2 → ℚ)) := [
  (5.0000000000000000e-01, ![3.3333333333333348e-01, 3.3333333333333348e-01])]

/-- GaussQuadratureRulesForTriangle.cpp:76 -/
noncomputable def Tn2_1_1 : Rule 2 := ofTable 1 1 Tn2_1_1T

/-- GaussQuadratureRulesForTriangle.cpp:109 -/
def Tn2_2_3T : List (ℚ × (Fin 2 → ℚ)) := [
  (1.6666666666666674e-01, ![1.6666666666666652e-01, 1.6666666666666652e-01]),
  (1.6666666666666674e-01, ![1.6666666666666652e-01, 6.6666666666666652e-01]),
  (1.6666666666666674e-01, ![6.6666666666666652e-01, 1.6666666666666652e-01])]

/-- GaussQuadratureRulesForTriangle.cpp:109 -/
noncomputable def Tn2_2_3 : Rule 2 := ofTable 2 3 Tn2_2_3T

/-- GaussQuadratureRulesForTriangle.cpp:148 -/
def Tn2_4_6T : List (ℚ × (Fin 2 → ℚ)) := [
  (1.1169079483900550e-01, ![4.4594849091596500e-01, 4.4594849091596500e-01]),
  (1.1169079483900550e-01, ![4.4594849091596500e-01, 1.0810301816807000e-01]),
  (1.1169079483900550e-01, ![1.0810301816807000e-01, 4.4594849091596500e-01]),
  (5.4975871827660998e-02, ![9.1576213509771021e-02, 9.1576213509771021e-02]),
  (5.4975871827660998e-02, ![9.1576213509771021e-02, 8.1684757298045896e-01]),
  (5.4975871827660998e-02, ![8.1684757298045896e-01, 9.1576213509771021e-02])]

/-- GaussQuadratureRulesForTriangle.cpp:148 -/
noncomputable def Tn2_4_6 : Rule 2 := ofTable 4 6 Tn2_4_6T

/-- GaussQuadratureRulesForTriangle.cpp:196 -/
def T2_5_7T : List (ℚ × (Fin 2 → ℚ)) := [
  (1.1250000000000000e-01, ![3.3333333333333348e-01, 3.3333333333333348e-01]),
  (6.6197076394252999e-02, ![4.7014206410511500e-01, 4.7014206410511500e-01]),
  (6.6197076394252999e-02, ![4.7014206410511500e-01, 5.9715871789770003e-02]),
  (6.6197076394252999e-02, ![5.9715871789770003e-02, 4.7014206410511500e-01]),
  (6.2969590272413500e-02, ![1.0128650732345601e-01, 1.0128650732345601e-01]),
  (6.2969590272413500e-02, ![1.0128650732345601e-01, 7.9742698535308698e-01]),
  (6.2969590272413500e-02, ![7.9742698535308698e-01, 1.0128650732345601e-01])]

/-- GaussQuadratureRulesForTriangle.cpp:196 -/
noncomputable def T2_5_7 : Rule 2 := ofTable 5 7 T2_5_7T

/-- GaussQuadratureRulesForTriangle.cpp:247 -/
def T2_6_12T : List (ℚ × (Fin 2 → ℚ)) := [
  (5.8393137863189497e-02, ![2.4928674517090998e-01, 2.4928674517090998e-01]),
  (5.8393137863189497e-02, ![2.4928674517090998e-01, 5.0142650965817903e-01]),
  (5.8393137863189497e-02, ![5.0142650965817903e-01, 2.4928674517090998e-01]),
  (2.5422453185103500e-02, ![6.3089014491502005e-02, 6.3089014491502005e-02]),
  (2.5422453185103500e-02, ![6.3089014491502005e-02, 8.7382197101699599e-01]),
  (2.5422453185103500e-02, ![8.7382197101699599e-01, 6.3089014491502005e-02]),
  (4.1425537809187001e-02, ![3.1035245103378400e-01, 6.3650249912139900e-01]),
  (4.1425537809187001e-02, ![6.3650249912139900e-01, 5.3145049844816994e-02]),
  (4.1425537809187001e-02, ![5.3145049844816994e-02, 3.1035245103378400e-01]),
  (4.1425537809187001e-02, ![3.1035245103378400e-01, 5.3145049844816994e-02]),
  (4.1425537809187001e-02, ![6.3650249912139900e-01, 3.1035245103378400e-01]),
  (4.1425537809187001e-02, ![5.3145049844816994e-02, 6.3650249912139900e-01])]

/-- GaussQuadratureRulesForTriangle.cpp:247 -/
noncomputable def T2_6_12 : Rule 2 := ofTable 6 12 T2_6_12T

/-- GaussQuadratureRulesForTriangle.cpp:313 -/
def T2_8_16T : List (ℚ × (Fin 2 → ℚ)) := [
  (7.2157803838893503e-02, ![3.3333333333333348e-01, 3.3333333333333348e-01]),
  (4.7545817133642497e-02, ![4.5929258829272301e-01, 4.5929258829272301e-01]),
  (4.7545817133642497e-02, ![4.5929258829272301e-01, 8.1414823414554027e-02]),
  (4.7545817133642497e-02, ![8.1414823414554027e-02, 4.5929258829272301e-01]),
  (5.1608685267358997e-02, ![1.7056930775175999e-01, 1.7056930775175999e-01]),
  (5.1608685267358997e-02, ![1.7056930775175999e-01, 6.5886138449648002e-01]),
  (5.1608685267358997e-02, ![6.5886138449648002e-01, 1.7056930775175999e-01]),
  (1.6229248811599001e-02, ![5.0547228317031012e-02, 5.0547228317031012e-02]),
  (1.6229248811598752e-02, ![5.0547228317031012e-02, 8.9890554336593798e-01]),
  (1.6229248811599001e-02, ![8.9890554336593798e-01, 5.0547228317031012e-02]),
  (1.3615157087217500e-02, ![2.6311282963463800e-01, 7.2849239295540402e-01]),
  (1.3615157087217500e-02, ![7.2849239295540402e-01, 8.3947774099579764e-03]),
  (1.3615157087217500e-02, ![8.3947774099579764e-03, 2.6311282963463800e-01]),
  (1.3615157087217500e-02, ![2.6311282963463800e-01, 8.3947774099579764e-03]),
  (1.3615157087217500e-02, ![7.2849239295540402e-01, 2.6311282963463800e-01]),
  (1.3615157087217500e-02, ![8.3947774099579764e-03, 7.2849239295540402e-01])]

/-- GaussQuadratureRulesForTriangle.cpp:313 -/
noncomputable def T2_8_16 : Rule 2 := ofTable 8 16 T2_8_16T

/-- GaussQuadratureRulesForTriangle.cpp:391 -/
def T2_9_19T : List (ℚ × (Fin 2 → ℚ)) := [
  (4.8567898141399501e-02, ![3.3333333333333348e-01, 3.3333333333333348e-01]),
  (1.5667350113569501e-02, ![4.8968251919873801e-01, 4.8968251919873801e-01]),
  (1.5667350113569501e-02, ![4.8968251919873801e-01, 2.0634961602524982e-02]),
  (1.5667350113569501e-02, ![2.0634961602524982e-02, 4.8968251919873801e-01]),
  (3.8913770502387000e-02, ![4.3708959149293702e-01, 4.3708959149293702e-01]),
  (3.8913770502387000e-02, ![4.3708959149293702e-01, 1.2582081701412701e-01]),
  (3.8913770502387000e-02, ![1.2582081701412701e-01, 4.3708959149293702e-01]),
  (3.9823869463604999e-02, ![1.8820353561903302e-01, 1.8820353561903302e-01]),
  (3.9823869463604999e-02, ![1.8820353561903302e-01, 6.2359292876193506e-01]),
  (3.9823869463604999e-02, ![6.2359292876193506e-01, 1.8820353561903302e-01]),
  (1.2788837829349000e-02, ![4.4729513394453024e-02, 4.4729513394453024e-02]),
  (1.2788837829349000e-02, ![4.4729513394453024e-02, 9.1054097321109495e-01]),
  (1.2788837829349000e-02, ![9.1054097321109495e-01, 4.4729513394453024e-02]),
  (2.1641769688644501e-02, ![2.2196298916076601e-01, 7.4119859878449801e-01]),
  (2.1641769688644501e-02, ![7.4119859878449801e-01, 3.6838412054735981e-02]),
  (2.1641769688644501e-02, ![3.6838412054735981e-02, 2.2196298916076601e-01]),
  (2.1641769688644501e-02, ![2.2196298916076601e-01, 3.6838412054735981e-02]),
  (2.1641769688644501e-02, ![7.4119859878449801e-01, 2.2196298916076601e-01]),
  (2.1641769688644501e-02, ![3.6838412054735981e-02, 7.4119859878449801e-01])]

/-- GaussQuadratureRulesForTriangle.cpp:391 -/
noncomputable def T2_9_19 : Rule 2 := ofTable 9 19 T2_9_19T

/-- GaussQuadratureRulesForTriangle.cpp:478 -/
def T2_10_25T : List (ℚ × (Fin 2 → ℚ)) := [
  (4.5408995191376998e-02, ![3.3333333333333348e-01, 3.3333333333333348e-01]),
  (1.8362978878233498e-02, ![4.8557763338365700e-01, 4.8557763338365700e-01]),
  (1.8362978878233498e-02, ![4.8557763338365700e-01, 2.8844733232684994e-02]),
  (1.8362978878233498e-02, ![2.8844733232684994e-02, 4.8557763338365700e-01]),
  (2.2660529717764000e-02, ![1.0948157548503701e-01, 1.0948157548503701e-01]),
  (2.2660529717764000e-02, ![1.0948157548503701e-01, 7.8103684902992598e-01]),
  (2.2660529717764000e-02, ![7.8103684902992598e-01, 1.0948157548503701e-01]),
  (3.6378958422710002e-02, ![3.0793983876412101e-01, 5.5035294182099903e-01]),
  (3.6378958422710002e-02, ![5.5035294182099903e-01, 1.4170721941488001e-01]),
  (3.6378958422710002e-02, ![1.4170721941488001e-01, 3.0793983876412101e-01]),
  (3.6378958422710002e-02, ![3.0793983876412101e-01, 1.4170721941488001e-01]),
  (3.6378958422710002e-02, ![5.5035294182099903e-01, 3.0793983876412101e-01]),
  (3.6378958422710002e-02, ![1.4170721941488001e-01, 5.5035294182099903e-01]),
  (1.4163621265528500e-02, ![2.4667256063990300e-01, 7.2832390459741103e-01]),
  (1.4163621265528500e-02, ![7.2832390459741103e-01, 2.5003534762686019e-02]),
  (1.4163621265528500e-02, ![2.5003534762686019e-02, 2.4667256063990300e-01]),
  (1.4163621265528500e-02, ![2.4667256063990300e-01, 2.5003534762686019e-02]),
  (1.4163621265528500e-02, ![7.2832390459741103e-01, 2.4667256063990300e-01]),
  (1.4163621265528500e-02, ![2.5003534762686019e-02, 7.2832390459741103e-01]),
  (4.7108334818665000e-03, ![6.6803251012200027e-02, 9.2365593358749998e-01]),
  (4.7108334818665000e-03, ![9.2365593358749998e-01, 9.5408154002989964e-03]),
  (4.7108334818665000e-03, ![9.5408154002989964e-03, 6.6803251012200027e-02]),
  (4.7108334818665000e-03, ![6.6803251012200027e-02, 9.5408154002989964e-03]),
  (4.7108334818665000e-03, ![9.2365593358749998e-01, 6.6803251012200027e-02]),
  (4.7108334818665000e-03, ![9.5408154002989964e-03, 9.2365593358749998e-01])]

/-- GaussQuadratureRulesForTriangle.cpp:478 -/
noncomputable def T2_10_25 : Rule 2 := ofTable 10 25 T2_10_25T

/-- GaussQuadratureRulesForTriangle.cpp:583 -/
def T2_11_28T : List (ℚ × (Fin 2 → ℚ)) := [
  (8.005121009414541471823946e-02 / 2.0, ![3.3333333333333333e-01, 3.3333333333333333e-01]),
  (6.71206859217794936920366e-02 / 2.0, ![2.154717529698554e-01, 2.154717529698554e-01]),
  (6.71206859217794936920366e-02 / 2.0, ![2.154717529698554e-01, 1.0 - 2.0 * 2.154717529698554e-01]),
  (6.71206859217794936920366e-02 / 2.0, ![1.0 - 2.0 * 2.154717529698554e-01, 2.154717529698554e-01]),
  (1.260585310278218701321e-02 / 2.0, ![3.12795522110139299208957e-02, 3.12795522110139299208957e-02]),
  (1.260585310278218701321e-02 / 2.0, ![3.12795522110139299208957e-02, 1.0 - 2.0 * 3.12795522110139299208957e-02]),
  (1.260585310278218701321e-02 / 2.0, ![1.0 - 2.0 * 3.12795522110139299208957e-02, 3.12795522110139299208957e-02]),
  (4.05824609257477118939e-02 / 2.0, ![1.155035357737921489271e-01, 1.155035357737921489271e-01]),
  (4.05824609257477118939e-02 / 2.0, ![1.155035357737921489271e-01, 1.0 - 2.0 * 1.155035357737921489271e-01]),
  (4.05824609257477118939e-02 / 2.0, ![1.0 - 2.0 * 1.155035357737921489271e-01, 1.155035357737921489271e-01]),
  (6.17123685629664404606197e-02 / 2.0, ![4.357774152823301051418e-01, 4.357774152823301051418e-01]),
  (6.17123685629664404606197e-02 / 2.0, ![4.357774152823301051418e-01, 1.0 - 2.0 * 4.357774152823301051418e-01]),
  (6.17123685629664404606197e-02 / 2.0, ![1.0 - 2.0 * 4.357774152823301051418e-01, 4.357774152823301051418e-01]),
  (1.12084059305228051993e-02 / 2.0, ![4.9988403867731539816248e-01, 4.9988403867731539816248e-01]),
  (1.12084059305228051993e-02 / 2.0, ![4.9988403867731539816248e-01, 1.0 - 2.0 * 4.9988403867731539816248e-01]),
  (1.12084059305228051993e-02 / 2.0, ![1.0 - 2.0 * 4.9988403867731539816248e-01, 4.9988403867731539816248e-01]),
  (4.115295964681454289321412e-02 / 2.0, ![3.164262022308527e-01, 4.8055796920866524676254359e-02]),
  (4.115295964681454289321412e-02 / 2.0, ![4.8055796920866524676254359e-02, 3.164262022308527e-01]),
  (4.115295964681454289321412e-02 / 2.0, ![3.164262022308527e-01, 1.0 - 4.8055796920866524676254359e-02 - 3.164262022308527e-01]),
  (4.115295964681454289321412e-02 / 2.0, ![1.0 - 4.8055796920866524676254359e-02 - 3.164262022308527e-01, 3.164262022308527e-01]),
  (4.115295964681454289321412e-02 / 2.0, ![4.8055796920866524676254359e-02, 1.0 - 4.8055796920866524676254359e-02 - 3.164262022308527e-01]),
  (4.115295964681454289321412e-02 / 2.0, ![1.0 - 4.8055796920866524676254359e-02 - 3.164262022308527e-01, 4.8055796920866524676254359e-02]),
  (1.55569514489285688575e-02 / 2.0, ![1.614188489108937e-01, 1.56544537223683037837e-02]),
  (1.55569514489285688575e-02 / 2.0, ![1.56544537223683037837e-02, 1.614188489108937e-01]),
  (1.55569514489285688575e-02 / 2.0, ![1.614188489108937e-01, 1.0 - 1.614188489108937e-01 - 1.56544537223683037837e-02]),
  (1.55569514489285688575e-02 / 2.0, ![1.0 - 1.614188489108937e-01 - 1.56544537223683037837e-02, 1.614188489108937e-01]),
  (1.55569514489285688575e-02 / 2.0, ![1.56544537223683037837e-02, 1.0 - 1.614188489108937e-01 - 1.56544537223683037837e-02]),
  (1.55569514489285688575e-02 / 2.0, ![1.0 - 1.614188489108937e-01 - 1.56544537223683037837e-02, 1.56544537223683037837e-02])]

/-- GaussQuadratureRulesForTriangle.cpp:583 -/
noncomputable def T2_11_28 : Rule 2 := ofTable 11 28 T2_11_28T

/-- GaussQuadratureRulesForTetrahedron.cpp:87 -/
def Tn3_1_1T : List (ℚ × (Fin 3 → ℚ)) := [
  (1.6666666666666663e-01, ![2.5000000000000000e-01, 2.5000000000000000e-01, 2.5000000000000000e-01])]

/-- GaussQuadratureRulesForTetrahedron.cpp:87 -/
noncomputable def Tn3_1_1 : Rule 3 := ofTable 1 1 Tn3_1_1T

/-- GaussQuadratureRulesForTetrahedron.cpp:121 -/
def Tn3_2_4T : List (ℚ × (Fin 3 → ℚ)) := [
  (4.1666666666666623e-02, ![1.3819660112501048e-01, 1.3819660112501048e-01, 1.3819660112501048e-01]),
  (4.1666666666666623e-02, ![5.8541019662496852e-01, 1.3819660112501048e-01, 1.3819660112501048e-01]),
  (4.1666666666666623e-02, ![1.3819660112501048e-01, 5.8541019662496852e-01, 1.3819660112501048e-01]),
  (4.1666666666666623e-02, ![1.3819660112501048e-01, 1.3819660112501048e-01, 5.8541019662496852e-01])]

/-- GaussQuadratureRulesForTetrahedron.cpp:121 -/
noncomputable def Tn3_2_4 : Rule 3 := ofTable 2 4 Tn3_2_4T

/-- GaussQuadratureRulesForTetrahedron.cpp:146 -/
def Tn3_3_10T : List (ℚ × (Fin 3 → ℚ)) := [
  (0.2177650698804054 * tetVolume, ![0.5684305841968444, 0.1438564719343852, 0.1438564719343852]),
  (0.2177650698804054 * tetVolume, ![0.1438564719343852, 0.1438564719343852, 0.1438564719343852]),
  (0.2177650698804054 * tetVolume, ![0.1438564719343852, 0.1438564719343852, 0.5684305841968444]),
  (0.2177650698804054 * tetVolume, ![0.1438564719343852, 0.5684305841968444, 0.1438564719343852]),
  (0.0214899534130631 * tetVolume, ![0.0000000000000000, 0.5000000000000000, 0.5000000000000000]),
  (0.0214899534130631 * tetVolume, ![0.5000000000000000, 0.0000000000000000, 0.5000000000000000]),
  (0.0214899534130631 * tetVolume, ![0.5000000000000000, 0.5000000000000000, 0.0000000000000000]),
  (0.0214899534130631 * tetVolume, ![0.5000000000000000, 0.0000000000000000, 0.0000000000000000]),
  (0.0214899534130631 * tetVolume, ![0.0000000000000000, 0.5000000000000000, 0.0000000000000000]),
  (0.0214899534130631 * tetVolume, ![0.0000000000000000, 0.0000000000000000, 0.5000000000000000])]

/-- GaussQuadratureRulesForTetrahedron.cpp:146 -/
noncomputable def Tn3_3_10 : Rule 3 := ofTable 3 10 Tn3_3_10T

/-- GaussQuadratureRulesForTetrahedron.cpp:166 -/
def Tn3_4_14T : List (ℚ × (Fin 3 → ℚ)) := [
  (0.0190476190476190 * tetVolume, ![0.0000000000000000, 0.5000000000000000, 0.5000000000000000]),
  (0.0190476190476190 * tetVolume, ![0.5000000000000000, 0.0000000000000000, 0.5000000000000000]),
  (0.0190476190476190 * tetVolume, ![0.5000000000000000, 0.5000000000000000, 0.0000000000000000]),
  (0.0190476190476190 * tetVolume, ![0.5000000000000000, 0.0000000000000000, 0.0000000000000000]),
  (0.0190476190476190 * tetVolume, ![0.0000000000000000, 0.5000000000000000, 0.0000000000000000]),
  (0.0190476190476190 * tetVolume, ![0.0000000000000000, 0.0000000000000000, 0.5000000000000000]),
  (0.0885898247429807 * tetVolume, ![0.6984197043243866, 0.1005267652252045, 0.1005267652252045]),
  (0.0885898247429807 * tetVolume, ![0.1005267652252045, 0.1005267652252045, 0.1005267652252045]),
  (0.0885898247429807 * tetVolume, ![0.1005267652252045, 0.1005267652252045, 0.6984197043243866]),
  (0.0885898247429807 * tetVolume, ![0.1005267652252045, 0.6984197043243866, 0.1005267652252045]),
  (0.1328387466855907 * tetVolume, ![0.0568813795204234, 0.3143728734931922, 0.3143728734931922]),
  (0.1328387466855907 * tetVolume, ![0.3143728734931922, 0.3143728734931922, 0.3143728734931922]),
  (0.1328387466855907 * tetVolume, ![0.3143728734931922, 0.3143728734931922, 0.0568813795204234]),
  (0.1328387466855907 * tetVolume, ![0.3143728734931922, 0.0568813795204234, 0.3143728734931922])]

/-- GaussQuadratureRulesForTetrahedron.cpp:166 -/
noncomputable def Tn3_4_14 : Rule 3 := ofTable 4 14 Tn3_4_14T

/-- GaussQuadratureRulesForTetrahedron.cpp:212 -/
def T3_5_14T : List (ℚ × (Fin 3 → ℚ)) := [
  (1.2248840519393626e-02, ![9.2735250310891026e-02, 9.2735250310891026e-02, 9.2735250310891026e-02]),
  (1.2248840519393626e-02, ![7.2179424906732648e-01, 9.2735250310891026e-02, 9.2735250310891026e-02]),
  (1.2248840519393626e-02, ![9.2735250310891026e-02, 7.2179424906732648e-01, 9.2735250310891026e-02]),
  (1.2248840519393626e-02, ![9.2735250310891026e-02, 9.2735250310891026e-02, 7.2179424906732648e-01]),
  (1.8781320953002625e-02, ![3.1088591926330050e-01, 3.1088591926330050e-01, 3.1088591926330050e-01]),
  (1.8781320953002625e-02, ![6.7342242210097991e-02, 3.1088591926330050e-01, 3.1088591926330050e-01]),
  (1.8781320953002625e-02, ![3.1088591926330050e-01, 6.7342242210097991e-02, 3.1088591926330050e-01]),
  (1.8781320953002625e-02, ![3.1088591926330050e-01, 3.1088591926330050e-01, 6.7342242210097991e-02]),
  (7.0910034628468748e-03, ![4.5449629587435048e-01, 4.5449629587435048e-01, 4.5503704125649524e-02]),
  (7.0910034628468748e-03, ![4.5449629587435048e-01, 4.5503704125649524e-02, 4.5449629587435048e-01]),
  (7.0910034628468748e-03, ![4.5503704125649524e-02, 4.5449629587435048e-01, 4.5449629587435048e-01]),
  (7.0910034628468748e-03, ![4.5449629587435048e-01, 4.5503704125649524e-02, 4.5503704125649524e-02]),
  (7.0910034628468748e-03, ![4.5503704125649524e-02, 4.5449629587435048e-01, 4.5503704125649524e-02]),
  (7.0910034628468748e-03, ![4.5503704125649524e-02, 4.5503704125649524e-02, 4.5449629587435048e-01])]

/-- GaussQuadratureRulesForTetrahedron.cpp:212 -/
noncomputable def T3_5_14 : Rule 3 := ofTable 5 14 T3_5_14T

/-- GaussQuadratureRulesForTetrahedron.cpp:298 -/
def T3_6_24T : List (ℚ × (Fin 3 → ℚ)) := [
  (6.6537917096946252e-03, ![2.1460287125915201e-01, 2.1460287125915201e-01, 2.1460287125915201e-01]),
  (6.6537917096946252e-03, ![3.5619138622254398e-01, 2.1460287125915201e-01, 2.1460287125915201e-01]),
  (6.6537917096946252e-03, ![2.1460287125915201e-01, 3.5619138622254398e-01, 2.1460287125915201e-01]),
  (6.6537917096946252e-03, ![2.1460287125915201e-01, 2.1460287125915201e-01, 3.5619138622254398e-01]),
  (1.6795351758867501e-03, ![4.0673958534611476e-02, 4.0673958534611476e-02, 4.0673958534611476e-02]),
  (1.6795351758867501e-03, ![8.7797812439616596e-01, 4.0673958534611476e-02, 4.0673958534611476e-02]),
  (1.6795351758867501e-03, ![4.0673958534611476e-02, 8.7797812439616596e-01, 4.0673958534611476e-02]),
  (1.6795351758867501e-03, ![4.0673958534611476e-02, 4.0673958534611476e-02, 8.7797812439616596e-01]),
  (9.2261969239424996e-03, ![3.2233789014227554e-01, 3.2233789014227554e-01, 3.2233789014227554e-01]),
  (9.2261969239424996e-03, ![3.2986329573173490e-02, 3.2233789014227554e-01, 3.2233789014227554e-01]),
  (9.2261969239424996e-03, ![3.2233789014227554e-01, 3.2986329573173490e-02, 3.2233789014227554e-01]),
  (9.2261969239424996e-03, ![3.2233789014227554e-01, 3.2233789014227554e-01, 3.2986329573173490e-02]),
  (8.0357142857142502e-03, ![6.3661001875017498e-02, 6.3661001875017498e-02, 2.6967233145831604e-01]),
  (8.0357142857142502e-03, ![6.3661001875017498e-02, 2.6967233145831604e-01, 6.3661001875017498e-02]),
  (8.0357142857142502e-03, ![6.3661001875017498e-02, 6.3661001875017498e-02, 6.0300566479164897e-01]),
  (8.0357142857142502e-03, ![6.3661001875017498e-02, 6.0300566479164897e-01, 6.3661001875017498e-02]),
  (8.0357142857142502e-03, ![6.3661001875017498e-02, 2.6967233145831604e-01, 6.0300566479164897e-01]),
  (8.0357142857142502e-03, ![6.3661001875017498e-02, 6.0300566479164897e-01, 2.6967233145831604e-01]),
  (8.0357142857142502e-03, ![2.6967233145831604e-01, 6.3661001875017498e-02, 6.3661001875017498e-02]),
  (8.0357142857142502e-03, ![2.6967233145831604e-01, 6.3661001875017498e-02, 6.0300566479164897e-01]),
  (8.0357142857142502e-03, ![2.6967233145831604e-01, 6.0300566479164897e-01, 6.3661001875017498e-02]),
  (8.0357142857142502e-03, ![6.0300566479164897e-01, 6.3661001875017498e-02, 2.6967233145831604e-01]),
  (8.0357142857142502e-03, ![6.0300566479164897e-01, 6.3661001875017498e-02, 6.3661001875017498e-02]),
  (8.0357142857142502e-03, ![6.0300566479164897e-01, 2.6967233145831604e-01, 6.3661001875017498e-02])]

/-- GaussQuadratureRulesForTetrahedron.cpp:298 -/
noncomputable def T3_6_24 : Rule 3 := ofTable 6 24 T3_6_24T

/-- GaussQuadratureRulesForTetrahedron.cpp:400 -/
def T3_7_31T : List (ℚ × (Fin 3 → ℚ)) := [
  (0.0021900463965388 * tetVolume, ![0.0267367755543735, 0.0267367755543735, 0.0267367755543735]),
  (0.0021900463965388 * tetVolume, ![0.9197896733368800, 0.0267367755543735, 0.0267367755543735]),
  (0.0021900463965388 * tetVolume, ![0.0267367755543735, 0.9197896733368800, 0.0267367755543735]),
  (0.0021900463965388 * tetVolume, ![0.0267367755543735, 0.0267367755543735, 0.9197896733368800]),
  (0.0143395670177665 * tetVolume, ![0.7477598884818090, 0.0391022406356488, 0.0391022406356488]),
  (0.0143395670177665 * tetVolume, ![0.1740356302468940, 0.0391022406356488, 0.0391022406356488]),
  (0.0143395670177665 * tetVolume, ![0.0391022406356488, 0.7477598884818090, 0.0391022406356488]),
  (0.0143395670177665 * tetVolume, ![0.0391022406356488, 0.1740356302468940, 0.0391022406356488]),
  (0.0143395670177665 * tetVolume, ![0.0391022406356488, 0.0391022406356488, 0.7477598884818090]),
  (0.0143395670177665 * tetVolume, ![0.0391022406356488, 0.0391022406356488, 0.1740356302468940]),
  (0.0143395670177665 * tetVolume, ![0.1740356302468940, 0.7477598884818090, 0.0391022406356488]),
  (0.0143395670177665 * tetVolume, ![0.7477598884818090, 0.1740356302468940, 0.0391022406356488]),
  (0.0143395670177665 * tetVolume, ![0.1740356302468940, 0.0391022406356488, 0.7477598884818090]),
  (0.0143395670177665 * tetVolume, ![0.7477598884818090, 0.0391022406356488, 0.1740356302468940]),
  (0.0143395670177665 * tetVolume, ![0.0391022406356488, 0.1740356302468940, 0.7477598884818090]),
  (0.0143395670177665 * tetVolume, ![0.0391022406356488, 0.7477598884818090, 0.1740356302468940]),
  (0.0250305395686746 * tetVolume, ![0.4547545999844830, 0.0452454000155172, 0.0452454000155172]),
  (0.0250305395686746 * tetVolume, ![0.0452454000155172, 0.4547545999844830, 0.0452454000155172]),
  (0.0250305395686746 * tetVolume, ![0.0452454000155172, 0.0452454000155172, 0.4547545999844830]),
  (0.0250305395686746 * tetVolume, ![0.4547545999844830, 0.4547545999844830, 0.0452454000155172]),
  (0.0250305395686746 * tetVolume, ![0.4547545999844830, 0.0452454000155172, 0.4547545999844830]),
  (0.0250305395686746 * tetVolume, ![0.0452454000155172, 0.4547545999844830, 0.4547545999844830]),
  (0.0479839333057554 * tetVolume, ![0.2232010379623150, 0.2232010379623150, 0.0504792790607720]),
  (0.0479839333057554 * tetVolume, ![0.5031186450145980, 0.2232010379623150, 0.0504792790607720]),
  (0.0479839333057554 * tetVolume, ![0.2232010379623150, 0.5031186450145980, 0.0504792790607720]),
  (0.0479839333057554 * tetVolume, ![0.2232010379623150, 0.0504792790607720, 0.2232010379623150]),
  (0.0479839333057554 * tetVolume, ![0.5031186450145980, 0.0504792790607720, 0.2232010379623150]),
  (0.0479839333057554 * tetVolume, ![0.2232010379623150, 0.0504792790607720, 0.5031186450145980]),
  (0.0479839333057554 * tetVolume, ![0.0504792790607720, 0.2232010379623150, 0.2232010379623150]),
  (0.0479839333057554 * tetVolume, ![0.0504792790607720, 0.5031186450145980, 0.2232010379623150]),
  (0.0479839333057554 * tetVolume, ![0.0504792790607720, 0.2232010379623150, 0.5031186450145980]),
  (0.0479839333057554 * tetVolume, ![0.5031186450145980, 0.2232010379623150, 0.2232010379623150]),
  (0.0479839333057554 * tetVolume, ![0.2232010379623150, 0.5031186450145980, 0.2232010379623150]),
  (0.0479839333057554 * tetVolume, ![0.2232010379623150, 0.2232010379623150, 0.5031186450145980]),
  (0.0931745731195340 * tetVolume, ![0.2500000000000000, 0.2500000000000000, 0.2500000000000000])]

/-- GaussQuadratureRulesForTetrahedron.cpp:400 -/
noncomputable def T3_7_31 : Rule 3 := ofTable 7 35 T3_7_31T

/-- GaussQuadratureRulesForTetrahedron.cpp:466 -/
def T3_8_43T : List (ℚ × (Fin 3 → ℚ)) := [
  (-2.0500188658639874e-02, ![2.5000000000000000e-01, 2.5000000000000000e-01, 2.5000000000000000e-01]),
  (1.4250305822866875e-02, ![2.0682993161067298e-01, 2.0682993161067298e-01, 2.0682993161067298e-01]),
  (1.4250305822866875e-02, ![2.0682993161067298e-01, 2.0682993161067298e-01, 3.7951020516798051e-01]),
  (1.4250305822866875e-02, ![2.0682993161067298e-01, 3.7951020516798051e-01, 2.0682993161067298e-01]),
  (1.4250305822866875e-02, ![3.7951020516798051e-01, 2.0682993161067298e-01, 2.0682993161067298e-01]),
  (1.9670333131338751e-03, ![8.2103588310546483e-02, 8.2103588310546483e-02, 8.2103588310546483e-02]),
  (1.9670333131338751e-03, ![8.2103588310546483e-02, 8.2103588310546483e-02, 7.5368923506835994e-01]),
  (1.9670333131338751e-03, ![8.2103588310546483e-02, 7.5368923506835994e-01, 8.2103588310546483e-02]),
  (1.9670333131338751e-03, ![7.5368923506835994e-01, 8.2103588310546483e-02, 8.2103588310546483e-02]),
  (1.6983410909287501e-04, ![5.7819505051979747e-03, 5.7819505051979747e-03, 5.7819505051979747e-03]),
  (1.6983410909287501e-04, ![5.7819505051979747e-03, 5.7819505051979747e-03, 9.8265414848440602e-01]),
  (1.6983410909287501e-04, ![5.7819505051979747e-03, 9.8265414848440602e-01, 5.7819505051979747e-03]),
  (1.6983410909287501e-04, ![9.8265414848440602e-01, 5.7819505051979747e-03, 5.7819505051979747e-03]),
  (4.5796838244672499e-03, ![5.0532740018894018e-02, 5.0532740018894018e-02, 4.4946725998110598e-01]),
  (4.5796838244672499e-03, ![5.0532740018894018e-02, 4.4946725998110598e-01, 5.0532740018894018e-02]),
  (4.5796838244672499e-03, ![4.4946725998110598e-01, 5.0532740018894018e-02, 5.0532740018894018e-02]),
  (4.5796838244672499e-03, ![5.0532740018894018e-02, 4.4946725998110598e-01, 4.4946725998110598e-01]),
  (4.5796838244672499e-03, ![4.4946725998110598e-01, 5.0532740018894018e-02, 4.4946725998110598e-01]),
  (4.5796838244672499e-03, ![4.4946725998110598e-01, 4.4946725998110598e-01, 5.0532740018894018e-02]),
  (5.7044858086818754e-03, ![2.2906653611681099e-01, 2.2906653611681099e-01, 3.5639582788534019e-02]),
  (5.7044858086818754e-03, ![2.2906653611681099e-01, 3.5639582788534019e-02, 2.2906653611681099e-01]),
  (5.7044858086818754e-03, ![2.2906653611681099e-01, 2.2906653611681099e-01, 5.0622734497784350e-01]),
  (5.7044858086818754e-03, ![2.2906653611681099e-01, 5.0622734497784350e-01, 2.2906653611681099e-01]),
  (5.7044858086818754e-03, ![2.2906653611681099e-01, 3.5639582788534019e-02, 5.0622734497784350e-01]),
  (5.7044858086818754e-03, ![2.2906653611681099e-01, 5.0622734497784350e-01, 3.5639582788534019e-02]),
  (5.7044858086818754e-03, ![3.5639582788534019e-02, 2.2906653611681099e-01, 2.2906653611681099e-01]),
  (5.7044858086818754e-03, ![3.5639582788534019e-02, 2.2906653611681099e-01, 5.0622734497784350e-01]),
  (5.7044858086818754e-03, ![3.5639582788534019e-02, 5.0622734497784350e-01, 2.2906653611681099e-01]),
  (5.7044858086818754e-03, ![5.0622734497784350e-01, 2.2906653611681099e-01, 3.5639582788534019e-02]),
  (5.7044858086818754e-03, ![5.0622734497784350e-01, 2.2906653611681099e-01, 2.2906653611681099e-01]),
  (5.7044858086818754e-03, ![5.0622734497784350e-01, 3.5639582788534019e-02, 2.2906653611681099e-01]),
  (2.1405191411621250e-03, ![3.6607749553197511e-02, 3.6607749553197511e-02, 1.9048604193463348e-01]),
  (2.1405191411621250e-03, ![3.6607749553197511e-02, 1.9048604193463348e-01, 3.6607749553197511e-02]),
  (2.1405191411621250e-03, ![3.6607749553197511e-02, 3.6607749553197511e-02, 7.3629845895897150e-01]),
  (2.1405191411621250e-03, ![3.6607749553197511e-02, 7.3629845895897150e-01, 3.6607749553197511e-02]),
  (2.1405191411621250e-03, ![3.6607749553197511e-02, 1.9048604193463348e-01, 7.3629845895897150e-01]),
  (2.1405191411621250e-03, ![3.6607749553197511e-02, 7.3629845895897150e-01, 1.9048604193463348e-01]),
  (2.1405191411621250e-03, ![1.9048604193463348e-01, 3.6607749553197511e-02, 3.6607749553197511e-02]),
  (2.1405191411621250e-03, ![1.9048604193463348e-01, 3.6607749553197511e-02, 7.3629845895897150e-01]),
  (2.1405191411621250e-03, ![1.9048604193463348e-01, 7.3629845895897150e-01, 3.6607749553197511e-02]),
  (2.1405191411621250e-03, ![7.3629845895897150e-01, 3.6607749553197511e-02, 1.9048604193463348e-01]),
  (2.1405191411621250e-03, ![7.3629845895897150e-01, 3.6607749553197511e-02, 3.6607749553197511e-02]),
  (2.1405191411621250e-03, ![7.3629845895897150e-01, 1.9048604193463348e-01, 3.6607749553197511e-02])]

/-- GaussQuadratureRulesForTetrahedron.cpp:466 -/
noncomputable def T3_8_43 : Rule 3 := ofTable 8 43 T3_8_43T

/-- GaussQuadratureRulesForTetrahedron.cpp:645 -/
def T3_9_53T : List (ℚ × (Fin 3 → ℚ)) := [
  (0.0010373112336140 * tetVolume, ![0.0149520651530592, 0.0149520651530592, 0.0149520651530592]),
  (0.0010373112336140 * tetVolume, ![0.9551438045408220, 0.0149520651530592, 0.0149520651530592]),
  (0.0010373112336140 * tetVolume, ![0.0149520651530592, 0.9551438045408220, 0.0149520651530592]),
  (0.0010373112336140 * tetVolume, ![0.0149520651530592, 0.0149520651530592, 0.9551438045408220]),
  (0.0096016645399480 * tetVolume, ![0.1518319491659370, 0.0340960211962615, 0.0340960211962615]),
  (0.0096016645399480 * tetVolume, ![0.7799760084415400, 0.0340960211962615, 0.0340960211962615]),
  (0.0096016645399480 * tetVolume, ![0.0340960211962615, 0.1518319491659370, 0.0340960211962615]),
  (0.0096016645399480 * tetVolume, ![0.0340960211962615, 0.7799760084415400, 0.0340960211962615]),
  (0.0096016645399480 * tetVolume, ![0.0340960211962615, 0.0340960211962615, 0.1518319491659370]),
  (0.0096016645399480 * tetVolume, ![0.0340960211962615, 0.0340960211962615, 0.7799760084415400]),
  (0.0096016645399480 * tetVolume, ![0.7799760084415400, 0.1518319491659370, 0.0340960211962615]),
  (0.0096016645399480 * tetVolume, ![0.1518319491659370, 0.7799760084415400, 0.0340960211962615]),
  (0.0096016645399480 * tetVolume, ![0.7799760084415400, 0.0340960211962615, 0.1518319491659370]),
  (0.0096016645399480 * tetVolume, ![0.1518319491659370, 0.0340960211962615, 0.7799760084415400]),
  (0.0096016645399480 * tetVolume, ![0.0340960211962615, 0.7799760084415400, 0.1518319491659370]),
  (0.0096016645399480 * tetVolume, ![0.0340960211962615, 0.1518319491659370, 0.7799760084415400]),
  (0.0164493976798232 * tetVolume, ![0.5526556431060170, 0.0462051504150017, 0.0462051504150017]),
  (0.0164493976798232 * tetVolume, ![0.3549340560639790, 0.0462051504150017, 0.0462051504150017]),
  (0.0164493976798232 * tetVolume, ![0.0462051504150017, 0.5526556431060170, 0.0462051504150017]),
  (0.0164493976798232 * tetVolume, ![0.0462051504150017, 0.3549340560639790, 0.0462051504150017]),
  (0.0164493976798232 * tetVolume, ![0.0462051504150017, 0.0462051504150017, 0.5526556431060170]),
  (0.0164493976798232 * tetVolume, ![0.0462051504150017, 0.0462051504150017, 0.3549340560639790]),
  (0.0164493976798232 * tetVolume, ![0.3549340560639790, 0.5526556431060170, 0.0462051504150017]),
  (0.0164493976798232 * tetVolume, ![0.5526556431060170, 0.3549340560639790, 0.0462051504150017]),
  (0.0164493976798232 * tetVolume, ![0.3549340560639790, 0.0462051504150017, 0.5526556431060170]),
  (0.0164493976798232 * tetVolume, ![0.5526556431060170, 0.0462051504150017, 0.3549340560639790]),
  (0.0164493976798232 * tetVolume, ![0.0462051504150017, 0.3549340560639790, 0.5526556431060170]),
  (0.0164493976798232 * tetVolume, ![0.0462051504150017, 0.5526556431060170, 0.3549340560639790]),
  (0.0153747766513310 * tetVolume, ![0.2281904610687610, 0.2281904610687610, 0.0055147549744775]),
  (0.0153747766513310 * tetVolume, ![0.5381043228880020, 0.2281904610687610, 0.0055147549744775]),
  (0.0153747766513310 * tetVolume, ![0.2281904610687610, 0.5381043228880020, 0.0055147549744775]),
  (0.0153747766513310 * tetVolume, ![0.2281904610687610, 0.0055147549744775, 0.2281904610687610]),
  (0.0153747766513310 * tetVolume, ![0.5381043228880020, 0.0055147549744775, 0.2281904610687610]),
  (0.0153747766513310 * tetVolume, ![0.2281904610687610, 0.0055147549744775, 0.5381043228880020]),
  (0.0153747766513310 * tetVolume, ![0.0055147549744775, 0.2281904610687610, 0.2281904610687610]),
  (0.0153747766513310 * tetVolume, ![0.0055147549744775, 0.5381043228880020, 0.2281904610687610]),
  (0.0153747766513310 * tetVolume, ![0.0055147549744775, 0.2281904610687610, 0.5381043228880020]),
  (0.0153747766513310 * tetVolume, ![0.5381043228880020, 0.2281904610687610, 0.2281904610687610]),
  (0.0153747766513310 * tetVolume, ![0.2281904610687610, 0.5381043228880020, 0.2281904610687610]),
  (0.0153747766513310 * tetVolume, ![0.2281904610687610, 0.2281904610687610, 0.5381043228880020]),
  (0.0293520118375230 * tetVolume, ![0.3523052600879940, 0.3523052600879940, 0.0992057202494530]),
  (0.0293520118375230 * tetVolume, ![0.1961837595745600, 0.3523052600879940, 0.0992057202494530]),
  (0.0293520118375230 * tetVolume, ![0.3523052600879940, 0.1961837595745600, 0.0992057202494530]),
  (0.0293520118375230 * tetVolume, ![0.3523052600879940, 0.0992057202494530, 0.3523052600879940]),
  (0.0293520118375230 * tetVolume, ![0.1961837595745600, 0.0992057202494530, 0.3523052600879940]),
  (0.0293520118375230 * tetVolume, ![0.3523052600879940, 0.0992057202494530, 0.1961837595745600]),
  (0.0293520118375230 * tetVolume, ![0.0992057202494530, 0.3523052600879940, 0.3523052600879940]),
  (0.0293520118375230 * tetVolume, ![0.0992057202494530, 0.1961837595745600, 0.3523052600879940]),
  (0.0293520118375230 * tetVolume, ![0.0992057202494530, 0.3523052600879940, 0.1961837595745600]),
  (0.0293520118375230 * tetVolume, ![0.1961837595745600, 0.3523052600879940, 0.3523052600879940]),
  (0.0293520118375230 * tetVolume, ![0.3523052600879940, 0.1961837595745600, 0.3523052600879940]),
  (0.0293520118375230 * tetVolume, ![0.3523052600879940, 0.3523052600879940, 0.1961837595745600]),
  (0.0366291366405108 * tetVolume, ![0.1344783347929940, 0.1344783347929940, 0.1344783347929940]),
  (0.0366291366405108 * tetVolume, ![0.5965649956210170, 0.1344783347929940, 0.1344783347929940]),
  (0.0366291366405108 * tetVolume, ![0.1344783347929940, 0.5965649956210170, 0.1344783347929940]),
  (0.0366291366405108 * tetVolume, ![0.1344783347929940, 0.1344783347929940, 0.5965649956210170])]

/-- GaussQuadratureRulesForTetrahedron.cpp:645 -/
noncomputable def T3_9_53 : Rule 3 := ofTable 9 56 T3_9_53T

/-- GaussQuadratureRulesForTetrahedron.cpp:733 -/
def T3_10_126T : List (ℚ × (Fin 3 → ℚ)) := [
  (4.5362824065080999e-02, ![7.1428571428571508e-02, 7.1428571428571508e-02, 7.8571428571428548e-01]),
  (4.5362824065080999e-02, ![7.1428571428571508e-02, 2.1428571428571452e-01, 6.4285714285714302e-01]),
  (4.5362824065080999e-02, ![7.1428571428571508e-02, 3.5714285714285698e-01, 5.0000000000000000e-01]),
  (4.5362824065080999e-02, ![7.1428571428571508e-02, 5.0000000000000000e-01, 3.5714285714285698e-01]),
  (4.5362824065080999e-02, ![7.1428571428571508e-02, 6.4285714285714302e-01, 2.1428571428571452e-01]),
  (4.5362824065080999e-02, ![7.1428571428571508e-02, 7.8571428571428548e-01, 7.1428571428571508e-02]),
  (4.5362824065080999e-02, ![2.1428571428571452e-01, 7.1428571428571508e-02, 6.4285714285714302e-01]),
  (4.5362824065080999e-02, ![2.1428571428571452e-01, 2.1428571428571452e-01, 5.0000000000000000e-01]),
  (4.5362824065080999e-02, ![2.1428571428571452e-01, 3.5714285714285698e-01, 3.5714285714285698e-01]),
  (4.5362824065080999e-02, ![2.1428571428571452e-01, 5.0000000000000000e-01, 2.1428571428571452e-01]),
  (4.5362824065080999e-02, ![2.1428571428571452e-01, 6.4285714285714302e-01, 7.1428571428571508e-02]),
  (4.5362824065080999e-02, ![3.5714285714285698e-01, 7.1428571428571508e-02, 5.0000000000000000e-01]),
  (4.5362824065080999e-02, ![3.5714285714285698e-01, 2.1428571428571452e-01, 3.5714285714285698e-01]),
  (4.5362824065080999e-02, ![3.5714285714285698e-01, 3.5714285714285698e-01, 2.1428571428571452e-01]),
  (4.5362824065080999e-02, ![3.5714285714285698e-01, 5.0000000000000000e-01, 7.1428571428571508e-02]),
  (4.5362824065080999e-02, ![5.0000000000000000e-01, 7.1428571428571508e-02, 3.5714285714285698e-01]),
  (4.5362824065080999e-02, ![5.0000000000000000e-01, 2.1428571428571452e-01, 2.1428571428571452e-01]),
  (4.5362824065080999e-02, ![5.0000000000000000e-01, 3.5714285714285698e-01, 7.1428571428571508e-02]),
  (4.5362824065080999e-02, ![6.4285714285714302e-01, 7.1428571428571508e-02, 2.1428571428571452e-01]),
  (4.5362824065080999e-02, ![6.4285714285714302e-01, 2.1428571428571452e-01, 7.1428571428571508e-02]),
  (4.5362824065080999e-02, ![7.8571428571428548e-01, 7.1428571428571508e-02, 7.1428571428571508e-02]),
  (4.5362824065080999e-02, ![7.1428571428571508e-02, 7.1428571428571508e-02, 6.4285714285714302e-01]),
  (4.5362824065080999e-02, ![7.1428571428571508e-02, 2.1428571428571452e-01, 5.0000000000000000e-01]),
  (4.5362824065080999e-02, ![7.1428571428571508e-02, 3.5714285714285698e-01, 3.5714285714285698e-01]),
  (4.5362824065080999e-02, ![7.1428571428571508e-02, 5.0000000000000000e-01, 2.1428571428571452e-01]),
  (4.5362824065080999e-02, ![7.1428571428571508e-02, 6.4285714285714302e-01, 7.1428571428571508e-02]),
  (4.5362824065080999e-02, ![2.1428571428571452e-01, 7.1428571428571508e-02, 5.0000000000000000e-01]),
  (4.5362824065080999e-02, ![2.1428571428571452e-01, 2.1428571428571452e-01, 3.5714285714285698e-01]),
  (4.5362824065080999e-02, ![2.1428571428571452e-01, 3.5714285714285698e-01, 2.1428571428571452e-01]),
  (4.5362824065080999e-02, ![2.1428571428571452e-01, 5.0000000000000000e-01, 7.1428571428571508e-02]),
  (4.5362824065080999e-02, ![3.5714285714285698e-01, 7.1428571428571508e-02, 3.5714285714285698e-01]),
  (4.5362824065080999e-02, ![3.5714285714285698e-01, 2.1428571428571452e-01, 2.1428571428571452e-01]),
  (4.5362824065080999e-02, ![3.5714285714285698e-01, 3.5714285714285698e-01, 7.1428571428571508e-02]),
  (4.5362824065080999e-02, ![5.0000000000000000e-01, 7.1428571428571508e-02, 2.1428571428571452e-01]),
  (4.5362824065080999e-02, ![5.0000000000000000e-01, 2.1428571428571452e-01, 7.1428571428571508e-02]),
  (4.5362824065080999e-02, ![6.4285714285714302e-01, 7.1428571428571508e-02, 7.1428571428571508e-02]),
  (4.5362824065080999e-02, ![7.1428571428571508e-02, 7.1428571428571508e-02, 5.0000000000000000e-01]),
  (4.5362824065080999e-02, ![7.1428571428571508e-02, 2.1428571428571452e-01, 3.5714285714285698e-01]),
  (4.5362824065080999e-02, ![7.1428571428571508e-02, 3.5714285714285698e-01, 2.1428571428571452e-01]),
  (4.5362824065080999e-02, ![7.1428571428571508e-02, 5.0000000000000000e-01, 7.1428571428571508e-02]),
  (4.5362824065080999e-02, ![2.1428571428571452e-01, 7.1428571428571508e-02, 3.5714285714285698e-01]),
  (4.5362824065080999e-02, ![2.1428571428571452e-01, 2.1428571428571452e-01, 2.1428571428571452e-01]),
  (4.5362824065080999e-02, ![2.1428571428571452e-01, 3.5714285714285698e-01, 7.1428571428571508e-02]),
  (4.5362824065080999e-02, ![3.5714285714285698e-01, 7.1428571428571508e-02, 2.1428571428571452e-01]),
  (4.5362824065080999e-02, ![3.5714285714285698e-01, 2.1428571428571452e-01, 7.1428571428571508e-02]),
  (4.5362824065080999e-02, ![5.0000000000000000e-01, 7.1428571428571508e-02, 7.1428571428571508e-02]),
  (4.5362824065080999e-02, ![7.1428571428571508e-02, 7.1428571428571508e-02, 3.5714285714285698e-01]),
  (4.5362824065080999e-02, ![7.1428571428571508e-02, 2.1428571428571452e-01, 2.1428571428571452e-01]),
  (4.5362824065080999e-02, ![7.1428571428571508e-02, 3.5714285714285698e-01, 7.1428571428571508e-02]),
  (4.5362824065080999e-02, ![2.1428571428571452e-01, 7.1428571428571508e-02, 2.1428571428571452e-01]),
  (4.5362824065080999e-02, ![2.1428571428571452e-01, 2.1428571428571452e-01, 7.1428571428571508e-02]),
  (4.5362824065080999e-02, ![3.5714285714285698e-01, 7.1428571428571508e-02, 7.1428571428571508e-02]),
  (4.5362824065080999e-02, ![7.1428571428571508e-02, 7.1428571428571508e-02, 2.1428571428571452e-01]),
  (4.5362824065080999e-02, ![7.1428571428571508e-02, 2.1428571428571452e-01, 7.1428571428571508e-02]),
  (4.5362824065080999e-02, ![2.1428571428571452e-01, 7.1428571428571508e-02, 7.1428571428571508e-02]),
  (4.5362824065080999e-02, ![7.1428571428571508e-02, 7.1428571428571508e-02, 7.1428571428571508e-02]),
  (-1.1652347652347650e-01, ![8.3333333333333481e-02, 8.3333333333333481e-02, 7.5000000000000000e-01]),
  (-1.1652347652347650e-01, ![8.3333333333333481e-02, 2.5000000000000000e-01, 5.8333333333333348e-01]),
  (-1.1652347652347650e-01, ![8.3333333333333481e-02, 4.1666666666666652e-01, 4.1666666666666652e-01]),
  (-1.1652347652347650e-01, ![8.3333333333333481e-02, 5.8333333333333348e-01, 2.5000000000000000e-01]),
  (-1.1652347652347650e-01, ![8.3333333333333481e-02, 7.5000000000000000e-01, 8.3333333333333481e-02]),
  (-1.1652347652347650e-01, ![2.5000000000000000e-01, 8.3333333333333481e-02, 5.8333333333333348e-01]),
  (-1.1652347652347650e-01, ![2.5000000000000000e-01, 2.5000000000000000e-01, 4.1666666666666652e-01]),
  (-1.1652347652347650e-01, ![2.5000000000000000e-01, 4.1666666666666652e-01, 2.5000000000000000e-01]),
  (-1.1652347652347650e-01, ![2.5000000000000000e-01, 5.8333333333333348e-01, 8.3333333333333481e-02]),
  (-1.1652347652347650e-01, ![4.1666666666666652e-01, 8.3333333333333481e-02, 4.1666666666666652e-01]),
  (-1.1652347652347650e-01, ![4.1666666666666652e-01, 2.5000000000000000e-01, 2.5000000000000000e-01]),
  (-1.1652347652347650e-01, ![4.1666666666666652e-01, 4.1666666666666652e-01, 8.3333333333333481e-02]),
  (-1.1652347652347650e-01, ![5.8333333333333348e-01, 8.3333333333333481e-02, 2.5000000000000000e-01]),
  (-1.1652347652347650e-01, ![5.8333333333333348e-01, 2.5000000000000000e-01, 8.3333333333333481e-02]),
  (-1.1652347652347650e-01, ![7.5000000000000000e-01, 8.3333333333333481e-02, 8.3333333333333481e-02]),
  (-1.1652347652347650e-01, ![8.3333333333333481e-02, 8.3333333333333481e-02, 5.8333333333333348e-01]),
  (-1.1652347652347650e-01, ![8.3333333333333481e-02, 2.5000000000000000e-01, 4.1666666666666652e-01]),
  (-1.1652347652347650e-01, ![8.3333333333333481e-02, 4.1666666666666652e-01, 2.5000000000000000e-01]),
  (-1.1652347652347650e-01, ![8.3333333333333481e-02, 5.8333333333333348e-01, 8.3333333333333481e-02]),
  (-1.1652347652347650e-01, ![2.5000000000000000e-01, 8.3333333333333481e-02, 4.1666666666666652e-01]),
  (-1.1652347652347650e-01, ![2.5000000000000000e-01, 2.5000000000000000e-01, 2.5000000000000000e-01]),
  (-1.1652347652347650e-01, ![2.5000000000000000e-01, 4.1666666666666652e-01, 8.3333333333333481e-02]),
  (-1.1652347652347650e-01, ![4.1666666666666652e-01, 8.3333333333333481e-02, 2.5000000000000000e-01]),
  (-1.1652347652347650e-01, ![4.1666666666666652e-01, 2.5000000000000000e-01, 8.3333333333333481e-02]),
  (-1.1652347652347650e-01, ![5.8333333333333348e-01, 8.3333333333333481e-02, 8.3333333333333481e-02]),
  (-1.1652347652347650e-01, ![8.3333333333333481e-02, 8.3333333333333481e-02, 4.1666666666666652e-01]),
  (-1.1652347652347650e-01, ![8.3333333333333481e-02, 2.5000000000000000e-01, 2.5000000000000000e-01]),
  (-1.1652347652347650e-01, ![8.3333333333333481e-02, 4.1666666666666652e-01, 8.3333333333333481e-02]),
  (-1.1652347652347650e-01, ![2.5000000000000000e-01, 8.3333333333333481e-02, 2.5000000000000000e-01]),
  (-1.1652347652347650e-01, ![2.5000000000000000e-01, 2.5000000000000000e-01, 8.3333333333333481e-02]),
  (-1.1652347652347650e-01, ![4.1666666666666652e-01, 8.3333333333333481e-02, 8.3333333333333481e-02]),
  (-1.1652347652347650e-01, ![8.3333333333333481e-02, 8.3333333333333481e-02, 2.5000000000000000e-01]),
  (-1.1652347652347650e-01, ![8.3333333333333481e-02, 2.5000000000000000e-01, 8.3333333333333481e-02]),
  (-1.1652347652347650e-01, ![2.5000000000000000e-01, 8.3333333333333481e-02, 8.3333333333333481e-02]),
  (-1.1652347652347650e-01, ![8.3333333333333481e-02, 8.3333333333333481e-02, 8.3333333333333481e-02]),
  (1.0193728997982475e-01, ![9.9999999999999978e-02, 9.9999999999999978e-02, 6.9999999999999996e-01]),
  (1.0193728997982475e-01, ![9.9999999999999978e-02, 2.9999999999999999e-01, 5.0000000000000000e-01]),
  (1.0193728997982475e-01, ![9.9999999999999978e-02, 5.0000000000000000e-01, 2.9999999999999999e-01]),
  (1.0193728997982475e-01, ![9.9999999999999978e-02, 6.9999999999999996e-01, 9.9999999999999978e-02]),
  (1.0193728997982475e-01, ![2.9999999999999999e-01, 9.9999999999999978e-02, 5.0000000000000000e-01]),
  (1.0193728997982475e-01, ![2.9999999999999999e-01, 2.9999999999999999e-01, 2.9999999999999999e-01]),
  (1.0193728997982475e-01, ![2.9999999999999999e-01, 5.0000000000000000e-01, 9.9999999999999978e-02]),
  (1.0193728997982475e-01, ![5.0000000000000000e-01, 9.9999999999999978e-02, 2.9999999999999999e-01]),
  (1.0193728997982475e-01, ![5.0000000000000000e-01, 2.9999999999999999e-01, 9.9999999999999978e-02]),
  (1.0193728997982475e-01, ![6.9999999999999996e-01, 9.9999999999999978e-02, 9.9999999999999978e-02]),
  (1.0193728997982475e-01, ![9.9999999999999978e-02, 9.9999999999999978e-02, 5.0000000000000000e-01]),
  (1.0193728997982475e-01, ![9.9999999999999978e-02, 2.9999999999999999e-01, 2.9999999999999999e-01]),
  (1.0193728997982475e-01, ![9.9999999999999978e-02, 5.0000000000000000e-01, 9.9999999999999978e-02]),
  (1.0193728997982475e-01, ![2.9999999999999999e-01, 9.9999999999999978e-02, 2.9999999999999999e-01]),
  (1.0193728997982475e-01, ![2.9999999999999999e-01, 2.9999999999999999e-01, 9.9999999999999978e-02]),
  (1.0193728997982475e-01, ![5.0000000000000000e-01, 9.9999999999999978e-02, 9.9999999999999978e-02]),
  (1.0193728997982475e-01, ![9.9999999999999978e-02, 9.9999999999999978e-02, 2.9999999999999999e-01]),
  (1.0193728997982475e-01, ![9.9999999999999978e-02, 2.9999999999999999e-01, 9.9999999999999978e-02]),
  (1.0193728997982475e-01, ![2.9999999999999999e-01, 9.9999999999999978e-02, 9.9999999999999978e-02]),
  (1.0193728997982475e-01, ![9.9999999999999978e-02, 9.9999999999999978e-02, 9.9999999999999978e-02]),
  (-3.5025386136497250e-02, ![1.2500000000000000e-01, 1.2500000000000000e-01, 6.2500000000000000e-01]),
  (-3.5025386136497250e-02, ![1.2500000000000000e-01, 3.7500000000000000e-01, 3.7500000000000000e-01]),
  (-3.5025386136497250e-02, ![1.2500000000000000e-01, 6.2500000000000000e-01, 1.2500000000000000e-01]),
  (-3.5025386136497250e-02, ![3.7500000000000000e-01, 1.2500000000000000e-01, 3.7500000000000000e-01]),
  (-3.5025386136497250e-02, ![3.7500000000000000e-01, 3.7500000000000000e-01, 1.2500000000000000e-01]),
  (-3.5025386136497250e-02, ![6.2500000000000000e-01, 1.2500000000000000e-01, 1.2500000000000000e-01]),
  (-3.5025386136497250e-02, ![1.2500000000000000e-01, 1.2500000000000000e-01, 3.7500000000000000e-01]),
  (-3.5025386136497250e-02, ![1.2500000000000000e-01, 3.7500000000000000e-01, 1.2500000000000000e-01]),
  (-3.5025386136497250e-02, ![3.7500000000000000e-01, 1.2500000000000000e-01, 1.2500000000000000e-01]),
  (-3.5025386136497250e-02, ![1.2500000000000000e-01, 1.2500000000000000e-01, 1.2500000000000000e-01]),
  (4.0680803571428751e-03, ![1.6666666666666652e-01, 1.6666666666666652e-01, 5.0000000000000000e-01]),
  (4.0680803571428751e-03, ![1.6666666666666652e-01, 5.0000000000000000e-01, 1.6666666666666652e-01]),
  (4.0680803571428751e-03, ![5.0000000000000000e-01, 1.6666666666666652e-01, 1.6666666666666652e-01]),
  (4.0680803571428751e-03, ![1.6666666666666652e-01, 1.6666666666666652e-01, 1.6666666666666652e-01]),
  (-9.4062316284499996e-05, ![2.5000000000000000e-01, 2.5000000000000000e-01, 2.5000000000000000e-01])]

/-- GaussQuadratureRulesForTetrahedron.cpp:733 -/
noncomputable def T3_10_126 : Rule 3 := ofTable 11 126 T3_10_126T

/-- GaussQuadratureRulesForPyramid.cpp:76 -/
def Pyramid_1_4T : List (ℚ × (Fin 3 → ℚ)) := [
  (((2.0) * (2.0)) * (0.1108884156), ![(0.0) * (1.0 - (0.4850054945e-1)), (0.0) * (1.0 - (0.4850054945e-1)), 0.4850054945e-1]),
  (((2.0) * (2.0)) * (0.1434587898), ![(0.0) * (1.0 - (0.2386007376)), (0.0) * (1.0 - (0.2386007376)), 0.2386007376]),
  (((2.0) * (2.0)) * (0.6863388717e-1), ![(0.0) * (1.0 - (0.5170472951)), (0.0) * (1.0 - (0.5170472951)), 0.5170472951]),
  (((2.0) * (2.0)) * (0.1035224075e-1), ![(0.0) * (1.0 - (0.7958514179)), (0.0) * (1.0 - (0.7958514179)), 0.7958514179])]

/-- GaussQuadratureRulesForPyramid.cpp:76 -/
noncomputable def Pyramid_1_4 : Rule 3 := ofTable 1 4 Pyramid_1_4T

/-- GaussQuadratureRulesForPyramid.cpp:123 -/
noncomputable def Pyramid_3_16 : Rule 3 where
  order := 3
  number := 16
  points := [
    (((1.0) * (1.0)) * (0.1108884156), ![(-Real.sqrt (3.0) / 3.0) * (1.0 - (0.4850054945e-1)), (-Real.sqrt (3.0) / 3.0) * (1.0 - (0.4850054945e-1)), 0.4850054945e-1]),
    (((1.0) * (1.0)) * (0.1108884156), ![(Real.sqrt (3.0) / 3.0) * (1.0 - (0.4850054945e-1)), (-Real.sqrt (3.0) / 3.0) * (1.0 - (0.4850054945e-1)), 0.4850054945e-1]),
    (((1.0) * (1.0)) * (0.1108884156), ![(-Real.sqrt (3.0) / 3.0) * (1.0 - (0.4850054945e-1)), (Real.sqrt (3.0) / 3.0) * (1.0 - (0.4850054945e-1)), 0.4850054945e-1]),
    (((1.0) * (1.0)) * (0.1108884156), ![(Real.sqrt (3.0) / 3.0) * (1.0 - (0.4850054945e-1)), (Real.sqrt (3.0) / 3.0) * (1.0 - (0.4850054945e-1)), 0.4850054945e-1]),
    (((1.0) * (1.0)) * (0.1434587898), ![(-Real.sqrt (3.0) / 3.0) * (1.0 - (0.2386007376)), (-Real.sqrt (3.0) / 3.0) * (1.0 - (0.2386007376)), 0.2386007376]),
    (((1.0) * (1.0)) * (0.1434587898), ![(Real.sqrt (3.0) / 3.0) * (1.0 - (0.2386007376)), (-Real.sqrt (3.0) / 3.0) * (1.0 - (0.2386007376)), 0.2386007376]),
    (((1.0) * (1.0)) * (0.1434587898), ![(-Real.sqrt (3.0) / 3.0) * (1.0 - (0.2386007376)), (Real.sqrt (3.0) / 3.0) * (1.0 - (0.2386007376)), 0.2386007376]),
    (((1.0) * (1.0)) * (0.1434587898), ![(Real.sqrt (3.0) / 3.0) * (1.0 - (0.2386007376)), (Real.sqrt (3.0) / 3.0) * (1.0 - (0.2386007376)), 0.2386007376]),
    (((1.0) * (1.0)) * (0.6863388717e-1), ![(-Real.sqrt (3.0) / 3.0) * (1.0 - (0.5170472951)), (-Real.sqrt (3.0) / 3.0) * (1.0 - (0.5170472951)), 0.5170472951]),
    (((1.0) * (1.0)) * (0.6863388717e-1), ![(Real.sqrt (3.0) / 3.0) * (1.0 - (0.5170472951)), (-Real.sqrt (3.0) / 3.0) * (1.0 - (0.5170472951)), 0.5170472951]),
    (((1.0) * (1.0)) * (0.6863388717e-1), ![(-Real.sqrt (3.0) / 3.0) * (1.0 - (0.5170472951)), (Real.sqrt (3.0) / 3.0) * (1.0 - (0.5170472951)), 0.5170472951]),
    (((1.0) * (1.0)) * (0.6863388717e-1), ![(Real.sqrt (3.0) / 3.0) * (1.0 - (0.5170472951)), (Real.sqrt (3.0) / 3.0) * (1.0 - (0.5170472951)), 0.5170472951]),
    (((1.0) * (1.0)) * (0.1035224075e-1), ![(-Real.sqrt (3.0) / 3.0) * (1.0 - (0.7958514179)), (-Real.sqrt (3.0) / 3.0) * (1.0 - (0.7958514179)), 0.7958514179]),
    (((1.0) * (1.0)) * (0.1035224075e-1), ![(Real.sqrt (3.0) / 3.0) * (1.0 - (0.7958514179)), (-Real.sqrt (3.0) / 3.0) * (1.0 - (0.7958514179)), 0.7958514179]),
    (((1.0) * (1.0)) * (0.1035224075e-1), ![(-Real.sqrt (3.0) / 3.0) * (1.0 - (0.7958514179)), (Real.sqrt (3.0) / 3.0) * (1.0 - (0.7958514179)), 0.7958514179]),
    (((1.0) * (1.0)) * (0.1035224075e-1), ![(Real.sqrt (3.0) / 3.0) * (1.0 - (0.7958514179)), (Real.sqrt (3.0) / 3.0) * (1.0 - (0.7958514179)), 0.7958514179])]

/-- GaussQuadratureRulesForPyramid.cpp:234 -/
noncomputable def Pyramid_5_36 : Rule 3 where
  order := 5
  number := 36
  points := [
    (((5.0 / 9.0) * (5.0 / 9.0)) * (0.1108884156), ![(-Real.sqrt (3.0 / 5.0)) * (1.0 - (0.4850054945e-1)), (-Real.sqrt (3.0 / 5.0)) * (1.0 - (0.4850054945e-1)), 0.4850054945e-1]),
    (((8.0 / 9.0) * (5.0 / 9.0)) * (0.1108884156), ![(0.0) * (1.0 - (0.4850054945e-1)), (-Real.sqrt (3.0 / 5.0)) * (1.0 - (0.4850054945e-1)), 0.4850054945e-1]),
    (((5.0 / 9.0) * (5.0 / 9.0)) * (0.1108884156), ![(Real.sqrt (3.0 / 5.0)) * (1.0 - (0.4850054945e-1)), (-Real.sqrt (3.0 / 5.0)) * (1.0 - (0.4850054945e-1)), 0.4850054945e-1]),
    (((5.0 / 9.0) * (8.0 / 9.0)) * (0.1108884156), ![(-Real.sqrt (3.0 / 5.0)) * (1.0 - (0.4850054945e-1)), (0.0) * (1.0 - (0.4850054945e-1)), 0.4850054945e-1]),
    (((8.0 / 9.0) * (8.0 / 9.0)) * (0.1108884156), ![(0.0) * (1.0 - (0.4850054945e-1)), (0.0) * (1.0 - (0.4850054945e-1)), 0.4850054945e-1]),
    (((5.0 / 9.0) * (8.0 / 9.0)) * (0.1108884156), ![(Real.sqrt (3.0 / 5.0)) * (1.0 - (0.4850054945e-1)), (0.0) * (1.0 - (0.4850054945e-1)), 0.4850054945e-1]),
    (((5.0 / 9.0) * (5.0 / 9.0)) * (0.1108884156), ![(-Real.sqrt (3.0 / 5.0)) * (1.0 - (0.4850054945e-1)), (Real.sqrt (3.0 / 5.0)) * (1.0 - (0.4850054945e-1)), 0.4850054945e-1]),
    (((8.0 / 9.0) * (5.0 / 9.0)) * (0.1108884156), ![(0.0) * (1.0 - (0.4850054945e-1)), (Real.sqrt (3.0 / 5.0)) * (1.0 - (0.4850054945e-1)), 0.4850054945e-1]),
    (((5.0 / 9.0) * (5.0 / 9.0)) * (0.1108884156), ![(Real.sqrt (3.0 / 5.0)) * (1.0 - (0.4850054945e-1)), (Real.sqrt (3.0 / 5.0)) * (1.0 - (0.4850054945e-1)), 0.4850054945e-1]),
    (((5.0 / 9.0) * (5.0 / 9.0)) * (0.1434587898), ![(-Real.sqrt (3.0 / 5.0)) * (1.0 - (0.2386007376)), (-Real.sqrt (3.0 / 5.0)) * (1.0 - (0.2386007376)), 0.2386007376]),
    (((8.0 / 9.0) * (5.0 / 9.0)) * (0.1434587898), ![(0.0) * (1.0 - (0.2386007376)), (-Real.sqrt (3.0 / 5.0)) * (1.0 - (0.2386007376)), 0.2386007376]),
    (((5.0 / 9.0) * (5.0 / 9.0)) * (0.1434587898), ![(Real.sqrt (3.0 / 5.0)) * (1.0 - (0.2386007376)), (-Real.sqrt (3.0 / 5.0)) * (1.0 - (0.2386007376)), 0.2386007376]),
    (((5.0 / 9.0) * (8.0 / 9.0)) * (0.1434587898), ![(-Real.sqrt (3.0 / 5.0)) * (1.0 - (0.2386007376)), (0.0) * (1.0 - (0.2386007376)), 0.2386007376]),
    (((8.0 / 9.0) * (8.0 / 9.0)) * (0.1434587898), ![(0.0) * (1.0 - (0.2386007376)), (0.0) * (1.0 - (0.2386007376)), 0.2386007376]),
    (((5.0 / 9.0) * (8.0 / 9.0)) * (0.1434587898), ![(Real.sqrt (3.0 / 5.0)) * (1.0 - (0.2386007376)), (0.0) * (1.0 - (0.2386007376)), 0.2386007376]),
    (((5.0 / 9.0) * (5.0 / 9.0)) * (0.1434587898), ![(-Real.sqrt (3.0 / 5.0)) * (1.0 - (0.2386007376)), (Real.sqrt (3.0 / 5.0)) * (1.0 - (0.2386007376)), 0.2386007376]),
    (((8.0 / 9.0) * (5.0 / 9.0)) * (0.1434587898), ![(0.0) * (1.0 - (0.2386007376)), (Real.sqrt (3.0 / 5.0)) * (1.0 - (0.2386007376)), 0.2386007376]),
    (((5.0 / 9.0) * (5.0 / 9.0)) * (0.1434587898), ![(Real.sqrt (3.0 / 5.0)) * (1.0 - (0.2386007376)), (Real.sqrt (3.0 / 5.0)) * (1.0 - (0.2386007376)), 0.2386007376]),
    (((5.0 / 9.0) * (5.0 / 9.0)) * (0.6863388717e-1), ![(-Real.sqrt (3.0 / 5.0)) * (1.0 - (0.5170472951)), (-Real.sqrt (3.0 / 5.0)) * (1.0 - (0.5170472951)), 0.5170472951]),
    (((8.0 / 9.0) * (5.0 / 9.0)) * (0.6863388717e-1), ![(0.0) * (1.0 - (0.5170472951)), (-Real.sqrt (3.0 / 5.0)) * (1.0 - (0.5170472951)), 0.5170472951]),
    (((5.0 / 9.0) * (5.0 / 9.0)) * (0.6863388717e-1), ![(Real.sqrt (3.0 / 5.0)) * (1.0 - (0.5170472951)), (-Real.sqrt (3.0 / 5.0)) * (1.0 - (0.5170472951)), 0.5170472951]),
    (((5.0 / 9.0) * (8.0 / 9.0)) * (0.6863388717e-1), ![(-Real.sqrt (3.0 / 5.0)) * (1.0 - (0.5170472951)), (0.0) * (1.0 - (0.5170472951)), 0.5170472951]),
    (((8.0 / 9.0) * (8.0 / 9.0)) * (0.6863388717e-1), ![(0.0) * (1.0 - (0.5170472951)), (0.0) * (1.0 - (0.5170472951)), 0.5170472951]),
    (((5.0 / 9.0) * (8.0 / 9.0)) * (0.6863388717e-1), ![(Real.sqrt (3.0 / 5.0)) * (1.0 - (0.5170472951)), (0.0) * (1.0 - (0.5170472951)), 0.5170472951]),
    (((5.0 / 9.0) * (5.0 / 9.0)) * (0.6863388717e-1), ![(-Real.sqrt (3.0 / 5.0)) * (1.0 - (0.5170472951)), (Real.sqrt (3.0 / 5.0)) * (1.0 - (0.5170472951)), 0.5170472951]),
    (((8.0 / 9.0) * (5.0 / 9.0)) * (0.6863388717e-1), ![(0.0) * (1.0 - (0.5170472951)), (Real.sqrt (3.0 / 5.0)) * (1.0 - (0.5170472951)), 0.5170472951]),
    (((5.0 / 9.0) * (5.0 / 9.0)) * (0.6863388717e-1), ![(Real.sqrt (3.0 / 5.0)) * (1.0 - (0.5170472951)), (Real.sqrt (3.0 / 5.0)) * (1.0 - (0.5170472951)), 0.5170472951]),
    (((5.0 / 9.0) * (5.0 / 9.0)) * (0.1035224075e-1), ![(-Real.sqrt (3.0 / 5.0)) * (1.0 - (0.7958514179)), (-Real.sqrt (3.0 / 5.0)) * (1.0 - (0.7958514179)), 0.7958514179]),
    (((8.0 / 9.0) * (5.0 / 9.0)) * (0.1035224075e-1), ![(0.0) * (1.0 - (0.7958514179)), (-Real.sqrt (3.0 / 5.0)) * (1.0 - (0.7958514179)), 0.7958514179]),
    (((5.0 / 9.0) * (5.0 / 9.0)) * (0.1035224075e-1), ![(Real.sqrt (3.0 / 5.0)) * (1.0 - (0.7958514179)), (-Real.sqrt (3.0 / 5.0)) * (1.0 - (0.7958514179)), 0.7958514179]),
    (((5.0 / 9.0) * (8.0 / 9.0)) * (0.1035224075e-1), ![(-Real.sqrt (3.0 / 5.0)) * (1.0 - (0.7958514179)), (0.0) * (1.0 - (0.7958514179)), 0.7958514179]),
    (((8.0 / 9.0) * (8.0 / 9.0)) * (0.1035224075e-1), ![(0.0) * (1.0 - (0.7958514179)), (0.0) * (1.0 - (0.7958514179)), 0.7958514179]),
    (((5.0 / 9.0) * (8.0 / 9.0)) * (0.1035224075e-1), ![(Real.sqrt (3.0 / 5.0)) * (1.0 - (0.7958514179)), (0.0) * (1.0 - (0.7958514179)), 0.7958514179]),
    (((5.0 / 9.0) * (5.0 / 9.0)) * (0.1035224075e-1), ![(-Real.sqrt (3.0 / 5.0)) * (1.0 - (0.7958514179)), (Real.sqrt (3.0 / 5.0)) * (1.0 - (0.7958514179)), 0.7958514179]),
    (((8.0 / 9.0) * (5.0 / 9.0)) * (0.1035224075e-1), ![(0.0) * (1.0 - (0.7958514179)), (Real.sqrt (3.0 / 5.0)) * (1.0 - (0.7958514179)), 0.7958514179]),
    (((5.0 / 9.0) * (5.0 / 9.0)) * (0.1035224075e-1), ![(Real.sqrt (3.0 / 5.0)) * (1.0 - (0.7958514179)), (Real.sqrt (3.0 / 5.0)) * (1.0 - (0.7958514179)), 0.7958514179])]

/-- GaussQuadratureRulesForPyramid.cpp:433 -/
noncomputable def Pyramid_7_48 : Rule 3 where
  order := 7
  number := 48
  points := [
    ((98.0 / 405.0) * (0.1108884156), ![((Real.sqrt (6.0 / 7.0))) * (1.0 - (0.4850054945e-1)), (0.0) * (1.0 - (0.4850054945e-1)), 0.4850054945e-1]),
    ((98.0 / 405.0) * (0.1108884156), ![(-(Real.sqrt (6.0 / 7.0))) * (1.0 - (0.4850054945e-1)), (0.0) * (1.0 - (0.4850054945e-1)), 0.4850054945e-1]),
    ((98.0 / 405.0) * (0.1108884156), ![(0.0) * (1.0 - (0.4850054945e-1)), ((Real.sqrt (6.0 / 7.0))) * (1.0 - (0.4850054945e-1)), 0.4850054945e-1]),
    ((98.0 / 405.0) * (0.1108884156), ![(0.0) * (1.0 - (0.4850054945e-1)), (-(Real.sqrt (6.0 / 7.0))) * (1.0 - (0.4850054945e-1)), 0.4850054945e-1]),
    (((178981.0 + 2769.0 * Real.sqrt (583.0)) / 472230.0) * (0.1108884156), ![((Real.sqrt ((114.0 - 3.0 * Real.sqrt (583.0)) / 287.0))) * (1.0 - (0.4850054945e-1)), ((Real.sqrt ((114.0 - 3.0 * Real.sqrt (583.0)) / 287.0))) * (1.0 - (0.4850054945e-1)), 0.4850054945e-1]),
    (((178981.0 + 2769.0 * Real.sqrt (583.0)) / 472230.0) * (0.1108884156), ![((Real.sqrt ((114.0 - 3.0 * Real.sqrt (583.0)) / 287.0))) * (1.0 - (0.4850054945e-1)), (-(Real.sqrt ((114.0 - 3.0 * Real.sqrt (583.0)) / 287.0))) * (1.0 - (0.4850054945e-1)), 0.4850054945e-1]),
    (((178981.0 + 2769.0 * Real.sqrt (583.0)) / 472230.0) * (0.1108884156), ![(-(Real.sqrt ((114.0 - 3.0 * Real.sqrt (583.0)) / 287.0))) * (1.0 - (0.4850054945e-1)), ((Real.sqrt ((114.0 - 3.0 * Real.sqrt (583.0)) / 287.0))) * (1.0 - (0.4850054945e-1)), 0.4850054945e-1]),
    (((178981.0 + 2769.0 * Real.sqrt (583.0)) / 472230.0) * (0.1108884156), ![(-(Real.sqrt ((114.0 - 3.0 * Real.sqrt (583.0)) / 287.0))) * (1.0 - (0.4850054945e-1)), (-(Real.sqrt ((114.0 - 3.0 * Real.sqrt (583.0)) / 287.0))) * (1.0 - (0.4850054945e-1)), 0.4850054945e-1]),
    (((178981.0 - 2769.0 * Real.sqrt (583.0)) / 472230.0) * (0.1108884156), ![((Real.sqrt ((114.0 + 3.0 * Real.sqrt (583.0)) / 287.0))) * (1.0 - (0.4850054945e-1)), ((Real.sqrt ((114.0 + 3.0 * Real.sqrt (583.0)) / 287.0))) * (1.0 - (0.4850054945e-1)), 0.4850054945e-1]),
    (((178981.0 - 2769.0 * Real.sqrt (583.0)) / 472230.0) * (0.1108884156), ![((Real.sqrt ((114.0 + 3.0 * Real.sqrt (583.0)) / 287.0))) * (1.0 - (0.4850054945e-1)), (-(Real.sqrt ((114.0 + 3.0 * Real.sqrt (583.0)) / 287.0))) * (1.0 - (0.4850054945e-1)), 0.4850054945e-1]),
    (((178981.0 - 2769.0 * Real.sqrt (583.0)) / 472230.0) * (0.1108884156), ![(-(Real.sqrt ((114.0 + 3.0 * Real.sqrt (583.0)) / 287.0))) * (1.0 - (0.4850054945e-1)), ((Real.sqrt ((114.0 + 3.0 * Real.sqrt (583.0)) / 287.0))) * (1.0 - (0.4850054945e-1)), 0.4850054945e-1]),
    (((178981.0 - 2769.0 * Real.sqrt (583.0)) / 472230.0) * (0.1108884156), ![(-(Real.sqrt ((114.0 + 3.0 * Real.sqrt (583.0)) / 287.0))) * (1.0 - (0.4850054945e-1)), (-(Real.sqrt ((114.0 + 3.0 * Real.sqrt (583.0)) / 287.0))) * (1.0 - (0.4850054945e-1)), 0.4850054945e-1]),
    ((98.0 / 405.0) * (0.1434587898), ![((Real.sqrt (6.0 / 7.0))) * (1.0 - (0.2386007376)), (0.0) * (1.0 - (0.2386007376)), 0.2386007376]),
    ((98.0 / 405.0) * (0.1434587898), ![(-(Real.sqrt (6.0 / 7.0))) * (1.0 - (0.2386007376)), (0.0) * (1.0 - (0.2386007376)), 0.2386007376]),
    ((98.0 / 405.0) * (0.1434587898), ![(0.0) * (1.0 - (0.2386007376)), ((Real.sqrt (6.0 / 7.0))) * (1.0 - (0.2386007376)), 0.2386007376]),
    ((98.0 / 405.0) * (0.1434587898), ![(0.0) * (1.0 - (0.2386007376)), (-(Real.sqrt (6.0 / 7.0))) * (1.0 - (0.2386007376)), 0.2386007376]),
    (((178981.0 + 2769.0 * Real.sqrt (583.0)) / 472230.0) * (0.1434587898), ![((Real.sqrt ((114.0 - 3.0 * Real.sqrt (583.0)) / 287.0))) * (1.0 - (0.2386007376)), ((Real.sqrt ((114.0 - 3.0 * Real.sqrt (583.0)) / 287.0))) * (1.0 - (0.2386007376)), 0.2386007376]),
    (((178981.0 + 2769.0 * Real.sqrt (583.0)) / 472230.0) * (0.1434587898), ![((Real.sqrt ((114.0 - 3.0 * Real.sqrt (583.0)) / 287.0))) * (1.0 - (0.2386007376)), (-(Real.sqrt ((114.0 - 3.0 * Real.sqrt (583.0)) / 287.0))) * (1.0 - (0.2386007376)), 0.2386007376]),
    (((178981.0 + 2769.0 * Real.sqrt (583.0)) / 472230.0) * (0.1434587898), ![(-(Real.sqrt ((114.0 - 3.0 * Real.sqrt (583.0)) / 287.0))) * (1.0 - (0.2386007376)), ((Real.sqrt ((114.0 - 3.0 * Real.sqrt (583.0)) / 287.0))) * (1.0 - (0.2386007376)), 0.2386007376]),
    (((178981.0 + 2769.0 * Real.sqrt (583.0)) / 472230.0) * (0.1434587898), ![(-(Real.sqrt ((114.0 - 3.0 * Real.sqrt (583.0)) / 287.0))) * (1.0 - (0.2386007376)), (-(Real.sqrt ((114.0 - 3.0 * Real.sqrt (583.0)) / 287.0))) * (1.0 - (0.2386007376)), 0.2386007376]),
    (((178981.0 - 2769.0 * Real.sqrt (583.0)) / 472230.0) * (0.1434587898), ![((Real.sqrt ((114.0 + 3.0 * Real.sqrt (583.0)) / 287.0))) * (1.0 - (0.2386007376)), ((Real.sqrt ((114.0 + 3.0 * Real.sqrt (583.0)) / 287.0))) * (1.0 - (0.2386007376)), 0.2386007376]),
    (((178981.0 - 2769.0 * Real.sqrt (583.0)) / 472230.0) * (0.1434587898), ![((Real.sqrt ((114.0 + 3.0 * Real.sqrt (583.0)) / 287.0))) * (1.0 - (0.2386007376)), (-(Real.sqrt ((114.0 + 3.0 * Real.sqrt (583.0)) / 287.0))) * (1.0 - (0.2386007376)), 0.2386007376]),
    (((178981.0 - 2769.0 * Real.sqrt (583.0)) / 472230.0) * (0.1434587898), ![(-(Real.sqrt ((114.0 + 3.0 * Real.sqrt (583.0)) / 287.0))) * (1.0 - (0.2386007376)), ((Real.sqrt ((114.0 + 3.0 * Real.sqrt (583.0)) / 287.0))) * (1.0 - (0.2386007376)), 0.2386007376]),
    (((178981.0 - 2769.0 * Real.sqrt (583.0)) / 472230.0) * (0.1434587898), ![(-(Real.sqrt ((114.0 + 3.0 * Real.sqrt (583.0)) / 287.0))) * (1.0 - (0.2386007376)), (-(Real.sqrt ((114.0 + 3.0 * Real.sqrt (583.0)) / 287.0))) * (1.0 - (0.2386007376)), 0.2386007376]),
    ((98.0 / 405.0) * (0.6863388717e-1), ![((Real.sqrt (6.0 / 7.0))) * (1.0 - (0.5170472951)), (0.0) * (1.0 - (0.5170472951)), 0.5170472951]),
    ((98.0 / 405.0) * (0.6863388717e-1), ![(-(Real.sqrt (6.0 / 7.0))) * (1.0 - (0.5170472951)), (0.0) * (1.0 - (0.5170472951)), 0.5170472951]),
    ((98.0 / 405.0) * (0.6863388717e-1), ![(0.0) * (1.0 - (0.5170472951)), ((Real.sqrt (6.0 / 7.0))) * (1.0 - (0.5170472951)), 0.5170472951]),
    ((98.0 / 405.0) * (0.6863388717e-1), ![(0.0) * (1.0 - (0.5170472951)), (-(Real.sqrt (6.0 / 7.0))) * (1.0 - (0.5170472951)), 0.5170472951]),
    (((178981.0 + 2769.0 * Real.sqrt (583.0)) / 472230.0) * (0.6863388717e-1), ![((Real.sqrt ((114.0 - 3.0 * Real.sqrt (583.0)) / 287.0))) * (1.0 - (0.5170472951)), ((Real.sqrt ((114.0 - 3.0 * Real.sqrt (583.0)) / 287.0))) * (1.0 - (0.5170472951)), 0.5170472951]),
    (((178981.0 + 2769.0 * Real.sqrt (583.0)) / 472230.0) * (0.6863388717e-1), ![((Real.sqrt ((114.0 - 3.0 * Real.sqrt (583.0)) / 287.0))) * (1.0 - (0.5170472951)), (-(Real.sqrt ((114.0 - 3.0 * Real.sqrt (583.0)) / 287.0))) * (1.0 - (0.5170472951)), 0.5170472951]),
    (((178981.0 + 2769.0 * Real.sqrt (583.0)) / 472230.0) * (0.6863388717e-1), ![(-(Real.sqrt ((114.0 - 3.0 * Real.sqrt (583.0)) / 287.0))) * (1.0 - (0.5170472951)), ((Real.sqrt ((114.0 - 3.0 * Real.sqrt (583.0)) / 287.0))) * (1.0 - (0.5170472951)), 0.5170472951]),
    (((178981.0 + 2769.0 * Real.sqrt (583.0)) / 472230.0) * (0.6863388717e-1), ![(-(Real.sqrt ((114.0 - 3.0 * Real.sqrt (583.0)) / 287.0))) * (1.0 - (0.5170472951)), (-(Real.sqrt ((114.0 - 3.0 * Real.sqrt (583.0)) / 287.0))) * (1.0 - (0.5170472951)), 0.5170472951]),
    (((178981.0 - 2769.0 * Real.sqrt (583.0)) / 472230.0) * (0.6863388717e-1), ![((Real.sqrt ((114.0 + 3.0 * Real.sqrt (583.0)) / 287.0))) * (1.0 - (0.5170472951)), ((Real.sqrt ((114.0 + 3.0 * Real.sqrt (583.0)) / 287.0))) * (1.0 - (0.5170472951)), 0.5170472951]),
    (((178981.0 - 2769.0 * Real.sqrt (583.0)) / 472230.0) * (0.6863388717e-1), ![((Real.sqrt ((114.0 + 3.0 * Real.sqrt (583.0)) / 287.0))) * (1.0 - (0.5170472951)), (-(Real.sqrt ((114.0 + 3.0 * Real.sqrt (583.0)) / 287.0))) * (1.0 - (0.5170472951)), 0.5170472951]),
    (((178981.0 - 2769.0 * Real.sqrt (583.0)) / 472230.0) * (0.6863388717e-1), ![(-(Real.sqrt ((114.0 + 3.0 * Real.sqrt (583.0)) / 287.0))) * (1.0 - (0.5170472951)), ((Real.sqrt ((114.0 + 3.0 * Real.sqrt (583.0)) / 287.0))) * (1.0 - (0.5170472951)), 0.5170472951]),
    (((178981.0 - 2769.0 * Real.sqrt (583.0)) / 472230.0) * (0.6863388717e-1), ![(-(Real.sqrt ((114.0 + 3.0 * Real.sqrt (583.0)) / 287.0))) * (1.0 - (0.5170472951)), (-(Real.sqrt ((114.0 + 3.0 * Real.sqrt (583.0)) / 287.0))) * (1.0 - (0.5170472951)), 0.5170472951]),
    ((98.0 / 405.0) * (0.1035224075e-1), ![((Real.sqrt (6.0 / 7.0))) * (1.0 - (0.7958514179)), (0.0) * (1.0 - (0.7958514179)), 0.7958514179]),
    ((98.0 / 405.0) * (0.1035224075e-1), ![(-(Real.sqrt (6.0 / 7.0))) * (1.0 - (0.7958514179)), (0.0) * (1.0 - (0.7958514179)), 0.7958514179]),
    ((98.0 / 405.0) * (0.1035224075e-1), ![(0.0) * (1.0 - (0.7958514179)), ((Real.sqrt (6.0 / 7.0))) * (1.0 - (0.7958514179)), 0.7958514179]),
    ((98.0 / 405.0) * (0.1035224075e-1), ![(0.0) * (1.0 - (0.7958514179)), (-(Real.sqrt (6.0 / 7.0))) * (1.0 - (0.7958514179)), 0.7958514179]),
    (((178981.0 + 2769.0 * Real.sqrt (583.0)) / 472230.0) * (0.1035224075e-1), ![((Real.sqrt ((114.0 - 3.0 * Real.sqrt (583.0)) / 287.0))) * (1.0 - (0.7958514179)), ((Real.sqrt ((114.0 - 3.0 * Real.sqrt (583.0)) / 287.0))) * (1.0 - (0.7958514179)), 0.7958514179]),
    (((178981.0 + 2769.0 * Real.sqrt (583.0)) / 472230.0) * (0.1035224075e-1), ![((Real.sqrt ((114.0 - 3.0 * Real.sqrt (583.0)) / 287.0))) * (1.0 - (0.7958514179)), (-(Real.sqrt ((114.0 - 3.0 * Real.sqrt (583.0)) / 287.0))) * (1.0 - (0.7958514179)), 0.7958514179]),
    (((178981.0 + 2769.0 * Real.sqrt (583.0)) / 472230.0) * (0.1035224075e-1), ![(-(Real.sqrt ((114.0 - 3.0 * Real.sqrt (583.0)) / 287.0))) * (1.0 - (0.7958514179)), ((Real.sqrt ((114.0 - 3.0 * Real.sqrt (583.0)) / 287.0))) * (1.0 - (0.7958514179)), 0.7958514179]),
    (((178981.0 + 2769.0 * Real.sqrt (583.0)) / 472230.0) * (0.1035224075e-1), ![(-(Real.sqrt ((114.0 - 3.0 * Real.sqrt (583.0)) / 287.0))) * (1.0 - (0.7958514179)), (-(Real.sqrt ((114.0 - 3.0 * Real.sqrt (583.0)) / 287.0))) * (1.0 - (0.7958514179)), 0.7958514179]),
    (((178981.0 - 2769.0 * Real.sqrt (583.0)) / 472230.0) * (0.1035224075e-1), ![((Real.sqrt ((114.0 + 3.0 * Real.sqrt (583.0)) / 287.0))) * (1.0 - (0.7958514179)), ((Real.sqrt ((114.0 + 3.0 * Real.sqrt (583.0)) / 287.0))) * (1.0 - (0.7958514179)), 0.7958514179]),
    (((178981.0 - 2769.0 * Real.sqrt (583.0)) / 472230.0) * (0.1035224075e-1), ![((Real.sqrt ((114.0 + 3.0 * Real.sqrt (583.0)) / 287.0))) * (1.0 - (0.7958514179)), (-(Real.sqrt ((114.0 + 3.0 * Real.sqrt (583.0)) / 287.0))) * (1.0 - (0.7958514179)), 0.7958514179]),
    (((178981.0 - 2769.0 * Real.sqrt (583.0)) / 472230.0) * (0.1035224075e-1), ![(-(Real.sqrt ((114.0 + 3.0 * Real.sqrt (583.0)) / 287.0))) * (1.0 - (0.7958514179)), ((Real.sqrt ((114.0 + 3.0 * Real.sqrt (583.0)) / 287.0))) * (1.0 - (0.7958514179)), 0.7958514179]),
    (((178981.0 - 2769.0 * Real.sqrt (583.0)) / 472230.0) * (0.1035224075e-1), ![(-(Real.sqrt ((114.0 + 3.0 * Real.sqrt (583.0)) / 287.0))) * (1.0 - (0.7958514179)), (-(Real.sqrt ((114.0 + 3.0 * Real.sqrt (583.0)) / 287.0))) * (1.0 - (0.7958514179)), 0.7958514179])]

/-- GaussQuadratureRulesForTriangularPrism.cpp:77 -/
def TriPrism_1_1T : List (ℚ × (Fin 3 → ℚ)) := [
  ((0.5) * (2.0), ![1.0 / 3.0, 1.0 / 3.0, 0.0])]

/-- GaussQuadratureRulesForTriangularPrism.cpp:77 -/
noncomputable def TriPrism_1_1 : Rule 3 := ofTable 1 1 TriPrism_1_1T

/-- GaussQuadratureRulesForTriangularPrism.cpp:111 -/
noncomputable def TriPrism_5_21 : Rule 3 where
  order := 5
  number := 21
  points := [
    ((9.0 / 80.0) * (5.0 / 9.0), ![1.0 / 3.0, 1.0 / 3.0, -Real.sqrt (3.0 / 5.0)]),
    (((155.0 - Real.sqrt (15.0)) / 2400.0) * (5.0 / 9.0), ![(6.0 - Real.sqrt (15.0)) / 21.0, (6.0 - Real.sqrt (15.0)) / 21.0, -Real.sqrt (3.0 / 5.0)]),
    (((155.0 - Real.sqrt (15.0)) / 2400.0) * (5.0 / 9.0), ![(9.0 + 2.0 * Real.sqrt (15.0)) / 21.0, (6.0 - Real.sqrt (15.0)) / 21.0, -Real.sqrt (3.0 / 5.0)]),
    (((155.0 - Real.sqrt (15.0)) / 2400.0) * (5.0 / 9.0), ![(6.0 - Real.sqrt (15.0)) / 21.0, (9.0 + 2.0 * Real.sqrt (15.0)) / 21.0, -Real.sqrt (3.0 / 5.0)]),
    (((155.0 + Real.sqrt (15.0)) / 2400.0) * (5.0 / 9.0), ![(6.0 + Real.sqrt (15.0)) / 21.0, (6.0 + Real.sqrt (15.0)) / 21.0, -Real.sqrt (3.0 / 5.0)]),
    (((155.0 + Real.sqrt (15.0)) / 2400.0) * (5.0 / 9.0), ![(9.0 - 2.0 * Real.sqrt (15.0)) / 21.0, (6.0 + Real.sqrt (15.0)) / 21.0, -Real.sqrt (3.0 / 5.0)]),
    (((155.0 + Real.sqrt (15.0)) / 2400.0) * (5.0 / 9.0), ![(6.0 + Real.sqrt (15.0)) / 21.0, (9.0 - 2.0 * Real.sqrt (15.0)) / 21.0, -Real.sqrt (3.0 / 5.0)]),
    ((9.0 / 80.0) * (8.0 / 9.0), ![1.0 / 3.0, 1.0 / 3.0, 0.0]),
    (((155.0 - Real.sqrt (15.0)) / 2400.0) * (8.0 / 9.0), ![(6.0 - Real.sqrt (15.0)) / 21.0, (6.0 - Real.sqrt (15.0)) / 21.0, 0.0]),
    (((155.0 - Real.sqrt (15.0)) / 2400.0) * (8.0 / 9.0), ![(9.0 + 2.0 * Real.sqrt (15.0)) / 21.0, (6.0 - Real.sqrt (15.0)) / 21.0, 0.0]),
    (((155.0 - Real.sqrt (15.0)) / 2400.0) * (8.0 / 9.0), ![(6.0 - Real.sqrt (15.0)) / 21.0, (9.0 + 2.0 * Real.sqrt (15.0)) / 21.0, 0.0]),
    (((155.0 + Real.sqrt (15.0)) / 2400.0) * (8.0 / 9.0), ![(6.0 + Real.sqrt (15.0)) / 21.0, (6.0 + Real.sqrt (15.0)) / 21.0, 0.0]),
    (((155.0 + Real.sqrt (15.0)) / 2400.0) * (8.0 / 9.0), ![(9.0 - 2.0 * Real.sqrt (15.0)) / 21.0, (6.0 + Real.sqrt (15.0)) / 21.0, 0.0]),
    (((155.0 + Real.sqrt (15.0)) / 2400.0) * (8.0 / 9.0), ![(6.0 + Real.sqrt (15.0)) / 21.0, (9.0 - 2.0 * Real.sqrt (15.0)) / 21.0, 0.0]),
    ((9.0 / 80.0) * (5.0 / 9.0), ![1.0 / 3.0, 1.0 / 3.0, Real.sqrt (3.0 / 5.0)]),
    (((155.0 - Real.sqrt (15.0)) / 2400.0) * (5.0 / 9.0), ![(6.0 - Real.sqrt (15.0)) / 21.0, (6.0 - Real.sqrt (15.0)) / 21.0, Real.sqrt (3.0 / 5.0)]),
    (((155.0 - Real.sqrt (15.0)) / 2400.0) * (5.0 / 9.0), ![(9.0 + 2.0 * Real.sqrt (15.0)) / 21.0, (6.0 - Real.sqrt (15.0)) / 21.0, Real.sqrt (3.0 / 5.0)]),
    (((155.0 - Real.sqrt (15.0)) / 2400.0) * (5.0 / 9.0), ![(6.0 - Real.sqrt (15.0)) / 21.0, (9.0 + 2.0 * Real.sqrt (15.0)) / 21.0, Real.sqrt (3.0 / 5.0)]),
    (((155.0 + Real.sqrt (15.0)) / 2400.0) * (5.0 / 9.0), ![(6.0 + Real.sqrt (15.0)) / 21.0, (6.0 + Real.sqrt (15.0)) / 21.0, Real.sqrt (3.0 / 5.0)]),
    (((155.0 + Real.sqrt (15.0)) / 2400.0) * (5.0 / 9.0), ![(9.0 - 2.0 * Real.sqrt (15.0)) / 21.0, (6.0 + Real.sqrt (15.0)) / 21.0, Real.sqrt (3.0 / 5.0)]),
    (((155.0 + Real.sqrt (15.0)) / 2400.0) * (5.0 / 9.0), ![(6.0 + Real.sqrt (15.0)) / 21.0, (9.0 - 2.0 * Real.sqrt (15.0)) / 21.0, Real.sqrt (3.0 / 5.0)])]

/-- GaussQuadratureRulesForTriangularPrism.cpp:223 -/
def TriPrism_7_64T : List (ℚ × (Fin 3 → ℚ)) := [
  (((0.1739274226) * (0.1355069134)) * ((2.0 * 0.1739274226)), ![((-0.861136312 + 1.0) / 2.0) * (1.0 - (0.0571041961)), 0.0571041961, (-0.861136312)]),
  (((0.3260725774) * (0.1355069134)) * ((2.0 * 0.1739274226)), ![((-0.3399810436 + 1.0) / 2.0) * (1.0 - (0.0571041961)), 0.0571041961, (-0.861136312)]),
  (((0.3260725774) * (0.1355069134)) * ((2.0 * 0.1739274226)), ![((0.3399810436 + 1.0) / 2.0) * (1.0 - (0.0571041961)), 0.0571041961, (-0.861136312)]),
  (((0.1739274226) * (0.1355069134)) * ((2.0 * 0.1739274226)), ![((0.861136312 + 1.0) / 2.0) * (1.0 - (0.0571041961)), 0.0571041961, (-0.861136312)]),
  (((0.1739274226) * (0.2034645680)) * ((2.0 * 0.1739274226)), ![((-0.861136312 + 1.0) / 2.0) * (1.0 - (0.2768430136)), 0.2768430136, (-0.861136312)]),
  (((0.3260725774) * (0.2034645680)) * ((2.0 * 0.1739274226)), ![((-0.3399810436 + 1.0) / 2.0) * (1.0 - (0.2768430136)), 0.2768430136, (-0.861136312)]),
  (((0.3260725774) * (0.2034645680)) * ((2.0 * 0.1739274226)), ![((0.3399810436 + 1.0) / 2.0) * (1.0 - (0.2768430136)), 0.2768430136, (-0.861136312)]),
  (((0.1739274226) * (0.2034645680)) * ((2.0 * 0.1739274226)), ![((0.861136312 + 1.0) / 2.0) * (1.0 - (0.2768430136)), 0.2768430136, (-0.861136312)]),
  (((0.1739274226) * (0.1298475476)) * ((2.0 * 0.1739274226)), ![((-0.861136312 + 1.0) / 2.0) * (1.0 - (0.5835904324)), 0.5835904324, (-0.861136312)]),
  (((0.3260725774) * (0.1298475476)) * ((2.0 * 0.1739274226)), ![((-0.3399810436 + 1.0) / 2.0) * (1.0 - (0.5835904324)), 0.5835904324, (-0.861136312)]),
  (((0.3260725774) * (0.1298475476)) * ((2.0 * 0.1739274226)), ![((0.3399810436 + 1.0) / 2.0) * (1.0 - (0.5835904324)), 0.5835904324, (-0.861136312)]),
  (((0.1739274226) * (0.1298475476)) * ((2.0 * 0.1739274226)), ![((0.861136312 + 1.0) / 2.0) * (1.0 - (0.5835904324)), 0.5835904324, (-0.861136312)]),
  (((0.1739274226) * (0.0311809709)) * ((2.0 * 0.1739274226)), ![((-0.861136312 + 1.0) / 2.0) * (1.0 - (0.8602401357)), 0.8602401357, (-0.861136312)]),
  (((0.3260725774) * (0.0311809709)) * ((2.0 * 0.1739274226)), ![((-0.3399810436 + 1.0) / 2.0) * (1.0 - (0.8602401357)), 0.8602401357, (-0.861136312)]),
  (((0.3260725774) * (0.0311809709)) * ((2.0 * 0.1739274226)), ![((0.3399810436 + 1.0) / 2.0) * (1.0 - (0.8602401357)), 0.8602401357, (-0.861136312)]),
  (((0.1739274226) * (0.0311809709)) * ((2.0 * 0.1739274226)), ![((0.861136312 + 1.0) / 2.0) * (1.0 - (0.8602401357)), 0.8602401357, (-0.861136312)]),
  (((0.1739274226) * (0.1355069134)) * ((2.0 * 0.3260725774)), ![((-0.861136312 + 1.0) / 2.0) * (1.0 - (0.0571041961)), 0.0571041961, (-0.3399810436)]),
  (((0.3260725774) * (0.1355069134)) * ((2.0 * 0.3260725774)), ![((-0.3399810436 + 1.0) / 2.0) * (1.0 - (0.0571041961)), 0.0571041961, (-0.3399810436)]),
  (((0.3260725774) * (0.1355069134)) * ((2.0 * 0.3260725774)), ![((0.3399810436 + 1.0) / 2.0) * (1.0 - (0.0571041961)), 0.0571041961, (-0.3399810436)]),
  (((0.1739274226) * (0.1355069134)) * ((2.0 * 0.3260725774)), ![((0.861136312 + 1.0) / 2.0) * (1.0 - (0.0571041961)), 0.0571041961, (-0.3399810436)]),
  (((0.1739274226) * (0.2034645680)) * ((2.0 * 0.3260725774)), ![((-0.861136312 + 1.0) / 2.0) * (1.0 - (0.2768430136)), 0.2768430136, (-0.3399810436)]),
  (((0.3260725774) * (0.2034645680)) * ((2.0 * 0.3260725774)), ![((-0.3399810436 + 1.0) / 2.0) * (1.0 - (0.2768430136)), 0.2768430136, (-0.3399810436)]),
  (((0.3260725774) * (0.2034645680)) * ((2.0 * 0.3260725774)), ![((0.3399810436 + 1.0) / 2.0) * (1.0 - (0.2768430136)), 0.2768430136, (-0.3399810436)]),
  (((0.1739274226) * (0.2034645680)) * ((2.0 * 0.3260725774)), ![((0.861136312 + 1.0) / 2.0) * (1.0 - (0.2768430136)), 0.2768430136, (-0.3399810436)]),
  (((0.1739274226) * (0.1298475476)) * ((2.0 * 0.3260725774)), ![((-0.861136312 + 1.0) / 2.0) * (1.0 - (0.5835904324)), 0.5835904324, (-0.3399810436)]),
  (((0.3260725774) * (0.1298475476)) * ((2.0 * 0.3260725774)), ![((-0.3399810436 + 1.0) / 2.0) * (1.0 - (0.5835904324)), 0.5835904324, (-0.3399810436)]),
  (((0.3260725774) * (0.1298475476)) * ((2.0 * 0.3260725774)), ![((0.3399810436 + 1.0) / 2.0) * (1.0 - (0.5835904324)), 0.5835904324, (-0.3399810436)]),
  (((0.1739274226) * (0.1298475476)) * ((2.0 * 0.3260725774)), ![((0.861136312 + 1.0) / 2.0) * (1.0 - (0.5835904324)), 0.5835904324, (-0.3399810436)]),
  (((0.1739274226) * (0.0311809709)) * ((2.0 * 0.3260725774)), ![((-0.861136312 + 1.0) / 2.0) * (1.0 - (0.8602401357)), 0.8602401357, (-0.3399810436)]),
  (((0.3260725774) * (0.0311809709)) * ((2.0 * 0.3260725774)), ![((-0.3399810436 + 1.0) / 2.0) * (1.0 - (0.8602401357)), 0.8602401357, (-0.3399810436)]),
  (((0.3260725774) * (0.0311809709)) * ((2.0 * 0.3260725774)), ![((0.3399810436 + 1.0) / 2.0) * (1.0 - (0.8602401357)), 0.8602401357, (-0.3399810436)]),
  (((0.1739274226) * (0.0311809709)) * ((2.0 * 0.3260725774)), ![((0.861136312 + 1.0) / 2.0) * (1.0 - (0.8602401357)), 0.8602401357, (-0.3399810436)]),
  (((0.1739274226) * (0.1355069134)) * ((2.0 * 0.3260725774)), ![((-0.861136312 + 1.0) / 2.0) * (1.0 - (0.0571041961)), 0.0571041961, (0.3399810436)]),
  (((0.3260725774) * (0.1355069134)) * ((2.0 * 0.3260725774)), ![((-0.3399810436 + 1.0) / 2.0) * (1.0 - (0.0571041961)), 0.0571041961, (0.3399810436)]),
  (((0.3260725774) * (0.1355069134)) * ((2.0 * 0.3260725774)), ![((0.3399810436 + 1.0) / 2.0) * (1.0 - (0.0571041961)), 0.0571041961, (0.3399810436)]),
  (((0.1739274226) * (0.1355069134)) * ((2.0 * 0.3260725774)), ![((0.861136312 + 1.0) / 2.0) * (1.0 - (0.0571041961)), 0.0571041961, (0.3399810436)]),
  (((0.1739274226) * (0.2034645680)) * ((2.0 * 0.3260725774)), ![((-0.861136312 + 1.0) / 2.0) * (1.0 - (0.2768430136)), 0.2768430136, (0.3399810436)]),
  (((0.3260725774) * (0.2034645680)) * ((2.0 * 0.3260725774)), ![((-0.3399810436 + 1.0) / 2.0) * (1.0 - (0.2768430136)), 0.2768430136, (0.3399810436)]),
  (((0.3260725774) * (0.2034645680)) * ((2.0 * 0.3260725774)), ![((0.3399810436 + 1.0) / 2.0) * (1.0 - (0.2768430136)), 0.2768430136, (0.3399810436)]),
  (((0.1739274226) * (0.2034645680)) * ((2.0 * 0.3260725774)), ![((0.861136312 + 1.0) / 2.0) * (1.0 - (0.2768430136)), 0.2768430136, (0.3399810436)]),
  (((0.1739274226) * (0.1298475476)) * ((2.0 * 0.3260725774)), ![((-0.861136312 + 1.0) / 2.0) * (1.0 - (0.5835904324)), 0.5835904324, (0.3399810436)]),
  (((0.3260725774) * (0.1298475476)) * ((2.0 * 0.3260725774)), ![((-0.3399810436 + 1.0) / 2.0) * (1.0 - (0.5835904324)), 0.5835904324, (0.3399810436)]),
  (((0.3260725774) * (0.1298475476)) * ((2.0 * 0.3260725774)), ![((0.3399810436 + 1.0) / 2.0) * (1.0 - (0.5835904324)), 0.5835904324, (0.3399810436)]),
  (((0.1739274226) * (0.1298475476)) * ((2.0 * 0.3260725774)), ![((0.861136312 + 1.0) / 2.0) * (1.0 - (0.5835904324)), 0.5835904324, (0.3399810436)]),
  (((0.1739274226) * (0.0311809709)) * ((2.0 * 0.3260725774)), ![((-0.861136312 + 1.0) / 2.0) * (1.0 - (0.8602401357)), 0.8602401357, (0.3399810436)]),
  (((0.3260725774) * (0.0311809709)) * ((2.0 * 0.3260725774)), ![((-0.3399810436 + 1.0) / 2.0) * (1.0 - (0.8602401357)), 0.8602401357, (0.3399810436)]),
  (((0.3260725774) * (0.0311809709)) * ((2.0 * 0.3260725774)), ![((0.3399810436 + 1.0) / 2.0) * (1.0 - (0.8602401357)), 0.8602401357, (0.3399810436)]),
  (((0.1739274226) * (0.0311809709)) * ((2.0 * 0.3260725774)), ![((0.861136312 + 1.0) / 2.0) * (1.0 - (0.8602401357)), 0.8602401357, (0.3399810436)]),
  (((0.1739274226) * (0.1355069134)) * ((2.0 * 0.1739274226)), ![((-0.861136312 + 1.0) / 2.0) * (1.0 - (0.0571041961)), 0.0571041961, (0.861136312)]),
  (((0.3260725774) * (0.1355069134)) * ((2.0 * 0.1739274226)), ![((-0.3399810436 + 1.0) / 2.0) * (1.0 - (0.0571041961)), 0.0571041961, (0.861136312)]),
  (((0.3260725774) * (0.1355069134)) * ((2.0 * 0.1739274226)), ![((0.3399810436 + 1.0) / 2.0) * (1.0 - (0.0571041961)), 0.0571041961, (0.861136312)]),
  (((0.1739274226) * (0.1355069134)) * ((2.0 * 0.1739274226)), ![((0.861136312 + 1.0) / 2.0) * (1.0 - (0.0571041961)), 0.0571041961, (0.861136312)]),
  (((0.1739274226) * (0.2034645680)) * ((2.0 * 0.1739274226)), ![((-0.861136312 + 1.0) / 2.0) * (1.0 - (0.2768430136)), 0.2768430136, (0.861136312)]),
  (((0.3260725774) * (0.2034645680)) * ((2.0 * 0.1739274226)), ![((-0.3399810436 + 1.0) / 2.0) * (1.0 - (0.2768430136)), 0.2768430136, (0.861136312)]),
  (((0.3260725774) * (0.2034645680)) * ((2.0 * 0.1739274226)), ![((0.3399810436 + 1.0) / 2.0) * (1.0 - (0.2768430136)), 0.2768430136, (0.861136312)]),
  (((0.1739274226) * (0.2034645680)) * ((2.0 * 0.1739274226)), ![((0.861136312 + 1.0) / 2.0) * (1.0 - (0.2768430136)), 0.2768430136, (0.861136312)]),
  (((0.1739274226) * (0.1298475476)) * ((2.0 * 0.1739274226)), ![((-0.861136312 + 1.0) / 2.0) * (1.0 - (0.5835904324)), 0.5835904324, (0.861136312)]),
  (((0.3260725774) * (0.1298475476)) * ((2.0 * 0.1739274226)), ![((-0.3399810436 + 1.0) / 2.0) * (1.0 - (0.5835904324)), 0.5835904324, (0.861136312)]),
  (((0.3260725774) * (0.1298475476)) * ((2.0 * 0.1739274226)), ![((0.3399810436 + 1.0) / 2.0) * (1.0 - (0.5835904324)), 0.5835904324, (0.861136312)]),
  (((0.1739274226) * (0.1298475476)) * ((2.0 * 0.1739274226)), ![((0.861136312 + 1.0) / 2.0) * (1.0 - (0.5835904324)), 0.5835904324, (0.861136312)]),
  (((0.1739274226) * (0.0311809709)) * ((2.0 * 0.1739274226)), ![((-0.861136312 + 1.0) / 2.0) * (1.0 - (0.8602401357)), 0.8602401357, (0.861136312)]),
  (((0.3260725774) * (0.0311809709)) * ((2.0 * 0.1739274226)), ![((-0.3399810436 + 1.0) / 2.0) * (1.0 - (0.8602401357)), 0.8602401357, (0.861136312)]),
  (((0.3260725774) * (0.0311809709)) * ((2.0 * 0.1739274226)), ![((0.3399810436 + 1.0) / 2.0) * (1.0 - (0.8602401357)), 0.8602401357, (0.861136312)]),
  (((0.1739274226) * (0.0311809709)) * ((2.0 * 0.1739274226)), ![((0.861136312 + 1.0) / 2.0) * (1.0 - (0.8602401357)), 0.8602401357, (0.861136312)])]

/-- GaussQuadratureRulesForTriangularPrism.cpp:223 -/
noncomputable def TriPrism_7_64 : Rule 3 := ofTable 7 64 TriPrism_7_64T

end Verif.Quadrature
