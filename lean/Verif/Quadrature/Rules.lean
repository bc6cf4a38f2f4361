import Verif.Quadrature.Tables

/-!
# The registered rules

AllGaussQuadratureRules.cpp:57-115, the constructor: the rules of each geometry in the order in
which they are added.
-/
namespace Verif.Quadrature
open RefGeometry

/-- GaussQuadratureRulesForPoint.cpp:61-67; the order is the largest `size_t`
(GaussQuadratureRulesForPoint.h). -/
noncomputable def Cn0_inf_1 : Rule 0 where
  order := 2 ^ 64 - 1
  number := 1
  points := [(1, ![])]

/-- AllGaussQuadratureRules.cpp:60 -/
noncomputable def pointRules : List (Rule 0) := [Cn0_inf_1].foldl addRule []

/-- AllGaussQuadratureRules.cpp:62-67 -/
noncomputable def lineRules : List (Rule 1) :=
  [Cn1_1_1, Cn1_3_2, Cn1_5_3, C1_7_4, C1_9_5, C1_11_6].foldl addRule []

/-- AllGaussQuadratureRules.cpp:69-74 -/
noncomputable def squareRules : List (Rule 2) :=
  [Cn2_1_1, Cn2_3_4, Cn2_5_9, C2_7_4, C2_9_5, C2_11_6].foldl addRule []

/-- AllGaussQuadratureRules.cpp:76-84 -/
noncomputable def triangleRules : List (Rule 2) :=
  [Tn2_1_1, Tn2_2_3, Tn2_4_6, T2_5_7, T2_6_12, T2_8_16, T2_9_19, T2_10_25, T2_11_28].foldl
    addRule []

/-- AllGaussQuadratureRules.cpp:86-91 -/
noncomputable def cubeRules : List (Rule 3) :=
  [Cn3_1_1, Cn3_3_4, Cn3_5_9, C3_7_2, C3_9_2, C3_11_2].foldl addRule []

/-- AllGaussQuadratureRules.cpp:93-96 -/
noncomputable def pyramidRules : List (Rule 3) :=
  [Pyramid_1_4, Pyramid_3_16, Pyramid_5_36, Pyramid_7_48].foldl addRule []

/-- AllGaussQuadratureRules.cpp:99-108 -/
noncomputable def tetrahedronRules : List (Rule 3) :=
  [Tn3_1_1, Tn3_2_4, Tn3_3_10, Tn3_4_14, T3_5_14, T3_6_24, T3_7_31, T3_8_43, T3_9_53,
    T3_10_126].foldl addRule []

/-- AllGaussQuadratureRules.cpp:111-113 -/
noncomputable def prismRules : List (Rule 3) :=
  [TriPrism_1_1, TriPrism_5_21, TriPrism_7_64].foldl addRule []

/-- AllGaussQuadratureRules.cpp:116-117 -/
noncomputable def hypercubeRules : List (Rule 4) := [Cn4_1_1, Cn4_3_16].foldl addRule []

end Verif.Quadrature
