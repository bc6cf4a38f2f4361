import Verif.Basis.Model
import Verif.Basis.Sets
import Mathlib.Data.Fin.VecNotation
import Mathlib.Algebra.Group.Pi.Basic

/-!
# Model of the curl-conforming basis functions

kernel/FE/BasisFunctions3DNedelec.cpp, kernel/FE/BasisFunctions3DAinsworthCoyle.cpp and
kernel/FE/BasisFunctions2DNedelec.cpp. A class derived from `BaseBasisFunction` becomes a
constructor whose arguments are the arguments of the C++ constructor; `eval` and `evalCurl` are the
virtual functions with these names. `double` is `ℝ`, `std::pow` with an exponent of type
`std::size_t` is the power with a natural exponent. Node numbers are `Fin n`, as the constructors
assert in debug builds. The in-place updates of the local vectors `ret`, `dummy`, `dummy2`, … are
written as successive `let`s.
-/
namespace Verif.CurlBasis
open Verif.RefGeometry (Pt)
open Verif.Legendre (legendre legendreDeriv)
open Verif.Basis (bary3 LineFn TriangleFn lineDG triangleDG)

/-- BasisFunctions3DNedelec.cpp:49-57 and BasisFunctions3DAinsworthCoyle.cpp:49-57 `OuterProduct` -/
def outer (a b : Pt 3) : Pt 3 :=
  ![a 1 * b 2 - a 2 * b 1, a 2 * b 0 - a 0 * b 2, a 0 * b 1 - a 1 * b 0]

/-- BasisFunctions3DNedelec.cpp:59-74 and BasisFunctions3DAinsworthCoyle.cpp:59-74
`baricentricDeriv` -/
def baryGrad : Fin 4 → Pt 3
  | 0 => ![-1, -1, -1]
  | 1 => ![1, 0, 0]
  | 2 => ![0, 1, 0]
  | 3 => ![0, 0, 1]

/-- BasisFunctions3DNedelec.cpp:121-133 (repeated at 186-198, and in
BasisFunctions3DAinsworthCoyle.cpp:208-219, 281-292): the nodes of the face opposite of node `d`. -/
def faceNodes : Fin 4 → Fin 4 × Fin 4 × Fin 4
  | 0 => (1, 2, 3)
  | 1 => (0, 2, 3)
  | 2 => (0, 1, 3)
  | 3 => (0, 1, 2)

/-! ### Nedelec functions on the tetrahedron -/

/-- BasisFunctions3DNedelec.h; the six classes. -/
inductive NedelecFn
  | edge (deg1 deg2 : Nat) (i j : Fin 4)
  | face1 (deg1 deg2 deg3 : Nat) (d : Fin 4)
  | face2 (deg1 deg2 deg3 : Nat) (d : Fin 4)
  | interior1 (deg1 deg2 deg3 deg4 : Nat)
  | interior2 (deg1 deg2 deg3 deg4 : Nat)
  | interior3 (deg1 deg2 deg3 deg4 : Nat)
deriving DecidableEq

/-- BasisFunctions3DNedelec.cpp:85-99, 136-152, 200-216, 250-266, 307-323, 365-381 -/
def NedelecFn.eval : NedelecFn → Pt 3 → Pt 3
  | .edge deg1 deg2 i j, p =>
    let ret := baryGrad i
    let dummy := baryGrad j
    let valI := bary3 i p
    let valJ := bary3 j p
    let ret := valJ • ret
    let dummy := valI • dummy
    let ret := ret - dummy
    (valI ^ deg1 * valJ ^ deg2) • ret
  | .face1 deg1 deg2 deg3 d, p =>
    let (a, b, c) := faceNodes d
    let valI := bary3 a p
    let valJ := bary3 b p
    let valK := bary3 c p
    let ret := baryGrad a
    let dummy := baryGrad b
    let ret := valJ • ret
    let dummy := valI • dummy
    let ret := ret - dummy
    (valI ^ deg1 * valJ ^ deg2 * valK ^ (deg3 + 1)) • ret
  | .face2 deg1 deg2 deg3 d, p =>
    let (a, b, c) := faceNodes d
    let valI := bary3 a p
    let valJ := bary3 b p
    let valK := bary3 c p
    let ret := baryGrad b
    let dummy := baryGrad c
    let ret := valK • ret
    let dummy := valJ • dummy
    let ret := ret - dummy
    (valI ^ (deg1 + 1) * valJ ^ deg2 * valK ^ deg3) • ret
  | .interior1 deg1 deg2 deg3 deg4, p =>
    let val0 := bary3 0 p
    let val1 := bary3 1 p
    let val2 := bary3 2 p
    let val3 := bary3 3 p
    let ret := baryGrad 0
    let dummy := baryGrad 1
    let ret := val1 • ret
    let dummy := val0 • dummy
    let ret := ret - dummy
    (val0 ^ deg1 * val1 ^ deg2 * val2 ^ (deg3 + 1) * val3 ^ (deg4 + 1)) • ret
  | .interior2 deg1 deg2 deg3 deg4, p =>
    let val0 := bary3 0 p
    let val1 := bary3 1 p
    let val2 := bary3 2 p
    let val3 := bary3 3 p
    let ret := baryGrad 1
    let dummy := baryGrad 2
    let ret := val2 • ret
    let dummy := val1 • dummy
    let ret := ret - dummy
    (val0 ^ (deg1 + 1) * val1 ^ deg2 * val2 ^ deg3 * val3 ^ (deg4 + 1)) • ret
  | .interior3 deg1 deg2 deg3 deg4, p =>
    let val0 := bary3 0 p
    let val1 := bary3 1 p
    let val2 := bary3 2 p
    let val3 := bary3 3 p
    let ret := baryGrad 2
    let dummy := baryGrad 3
    let ret := val3 • ret
    let dummy := val2 • dummy
    let ret := ret - dummy
    (val0 ^ (deg1 + 1) * val1 ^ (deg2 + 1) * val2 ^ deg3 * val3 ^ deg4) • ret

/-- BasisFunctions3DNedelec.cpp:101-115, 154-180, 218-244, 268-301, 325-359, 383-416 -/
def NedelecFn.evalCurl : NedelecFn → Pt 3 → Pt 3
  | .edge deg1 deg2 i j, p =>
    let dummy := baryGrad i
    let dummy2 := baryGrad j
    let ret := outer dummy2 dummy
    let valI := bary3 i p
    let valJ := bary3 j p
    (((deg1 + deg2 + 2 : Nat) : ℝ) * valI ^ deg1 * valJ ^ deg2) • ret
  | .face1 deg1 deg2 deg3 d, p =>
    let (a, b, c) := faceNodes d
    let valI := bary3 a p
    let valJ := bary3 b p
    let valK := bary3 c p
    let dummy := baryGrad a
    let dummy2 := baryGrad b
    let dummy3 := baryGrad c
    let ret := outer dummy2 dummy
    let ret := (((deg1 + deg2 + 2 : Nat) : ℝ) * valI ^ deg1 * valJ ^ deg2 * valK ^ (deg3 + 1)) • ret
    let dummy := valJ • dummy
    let dummy2 := valI • dummy2
    let dummy := dummy - dummy2
    let dummy2 := outer dummy3 dummy
    let dummy2 := (((1 + deg3 : Nat) : ℝ) * valI ^ deg1 * valJ ^ deg2 * valK ^ deg3) • dummy2
    ret + dummy2
  | .face2 deg1 deg2 deg3 d, p =>
    let (a, b, c) := faceNodes d
    let valI := bary3 a p
    let valJ := bary3 b p
    let valK := bary3 c p
    let dummy3 := baryGrad a
    let dummy := baryGrad b
    let dummy2 := baryGrad c
    let ret := outer dummy2 dummy
    let ret := (((deg2 + deg3 + 2 : Nat) : ℝ) * valI ^ (deg1 + 1) * valJ ^ deg2 * valK ^ deg3) • ret
    let dummy := valK • dummy
    let dummy2 := valJ • dummy2
    let dummy := dummy - dummy2
    let dummy2 := outer dummy3 dummy
    let dummy2 := (((1 + deg1 : Nat) : ℝ) * valI ^ deg1 * valJ ^ deg2 * valK ^ deg3) • dummy2
    ret + dummy2
  | .interior1 deg1 deg2 deg3 deg4, p =>
    let val0 := bary3 0 p
    let val1 := bary3 1 p
    let val2 := bary3 2 p
    let val3 := bary3 3 p
    let dummy := baryGrad 0
    let dummy2 := baryGrad 1
    let dummy3 := baryGrad 2
    let dummy4 := baryGrad 3
    let ret := outer dummy2 dummy
    let dummy := val1 • dummy
    let dummy2 := val0 • dummy2
    let dummy := dummy - dummy2
    let dummy2 := outer dummy3 dummy
    let dummy3 := outer dummy4 dummy
    let dummy2 := (((1 + deg3 : Nat) : ℝ) * val0 ^ deg1 * val1 ^ deg2 * val2 ^ deg3 *
      val3 ^ (deg4 + 1)) • dummy2
    let dummy3 := (((1 + deg4 : Nat) : ℝ) * val0 ^ deg1 * val1 ^ deg2 * val2 ^ (deg3 + 1) *
      val3 ^ deg4) • dummy3
    let ret := (((deg1 + deg2 + 2 : Nat) : ℝ) * val0 ^ deg1 * val1 ^ deg2 * val2 ^ (deg3 + 1) *
      val3 ^ (deg4 + 1)) • ret
    ret + (dummy2 + dummy3)
  | .interior2 deg1 deg2 deg3 deg4, p =>
    let val0 := bary3 0 p
    let val1 := bary3 1 p
    let val2 := bary3 2 p
    let val3 := bary3 3 p
    let dummy := baryGrad 1
    let dummy2 := baryGrad 2
    let dummy3 := baryGrad 0
    let dummy4 := baryGrad 3
    let ret := outer dummy2 dummy
    let dummy := val2 • dummy
    let dummy2 := val1 • dummy2
    let dummy := dummy - dummy2
    let dummy2 := outer dummy3 dummy
    let dummy3 := outer dummy4 dummy
    let dummy2 := (((1 + deg1 : Nat) : ℝ) * val0 ^ deg1 * val1 ^ deg2 * val2 ^ deg3 *
      val3 ^ (deg4 + 1)) • dummy2
    let dummy3 := (((1 + deg4 : Nat) : ℝ) * val0 ^ (deg1 + 1) * val1 ^ deg2 * val2 ^ deg3 *
      val3 ^ deg4) • dummy3
    let ret := (((deg2 + deg3 + 2 : Nat) : ℝ) * val0 ^ (deg1 + 1) * val1 ^ deg2 * val2 ^ deg3 *
      val3 ^ (deg4 + 1)) • ret
    ret + (dummy2 + dummy3)
  | .interior3 deg1 deg2 deg3 deg4, p =>
    let val0 := bary3 0 p
    let val1 := bary3 1 p
    let val2 := bary3 2 p
    let val3 := bary3 3 p
    let dummy := baryGrad 2
    let dummy2 := baryGrad 3
    let dummy3 := baryGrad 0
    let dummy4 := baryGrad 1
    let ret := outer dummy2 dummy
    let dummy := val3 • dummy
    let dummy2 := val2 • dummy2
    let dummy := dummy - dummy2
    let dummy2 := outer dummy3 dummy
    let dummy3 := outer dummy4 dummy
    let dummy2 := (((1 + deg1 : Nat) : ℝ) * val0 ^ deg1 * val1 ^ (deg2 + 1) * val2 ^ deg3 *
      val3 ^ deg4) • dummy2
    let dummy3 := (((1 + deg2 : Nat) : ℝ) * val0 ^ (deg1 + 1) * val1 ^ deg2 * val2 ^ deg3 *
      val3 ^ deg4) • dummy3
    let ret := (((deg3 + deg4 + 2 : Nat) : ℝ) * val0 ^ (deg1 + 1) * val1 ^ (deg2 + 1) *
      val2 ^ deg3 * val3 ^ deg4) • ret
    ret + (dummy2 + dummy3)

/-- BasisFunctions3DNedelec.cpp:418-467 `createDGBasisFunctionSet3DNedelec`. The conditions
`order > 1` and `order > 2` are implied by the bounds of the loops. -/
def nedelec3 (order : Nat) : List NedelecFn :=
  ((List.range order).flatMap fun l =>
    let m := order - 1 - l
    [.edge l m 0 1, .edge l m 0 2, .edge l m 0 3, .edge l m 2 3, .edge l m 1 3, .edge l m 1 2]) ++
  ((List.range (order - 1)).flatMap fun l => (List.range (order - 1 - l)).flatMap fun m =>
    let n := order - 2 - (l + m)
    [.face1 l m n 0, .face1 l m n 1, .face1 l m n 2, .face1 l m n 3,
      .face2 l m n 0, .face2 l m n 1, .face2 l m n 2, .face2 l m n 3]) ++
  ((List.range (order - 2)).flatMap fun l => (List.range (order - 2 - l)).flatMap fun m =>
    (List.range (order - 2 - (m + l))).flatMap fun n =>
      let o := order - 3 - (l + m + n)
      [.interior1 l m n o, .interior2 l m n o, .interior3 l m n o])

/-! ### Ainsworth-Coyle functions on the tetrahedron -/

/-- BasisFunctions3DAinsworthCoyle.h; the five classes. `edgeFace` takes the degree, the node
opposite of the face and the node of the face that is not on the edge; `face` takes the degrees, the
opposite node and the direction (`false` for 1, `true` for 2); `interior` takes the degrees and the
direction minus one. -/
inductive AinsworthFn
  | edge (deg : Nat) (o i : Fin 4)
  | edgeFace (deg : Nat) (opposing special : Fin 4)
  | face (deg1 deg2 : Nat) (opposing : Fin 4) (second : Bool)
  | faceInterior (deg1 deg2 : Nat) (d : Fin 4)
  | interior (deg1 deg2 deg3 : Nat) (direction : Fin 3)
deriving DecidableEq

/-- BasisFunctions3DAinsworthCoyle.cpp:161-174: the loops of the constructor of the edge based face
functions: the two smallest nodes different from the opposing and the special node. -/
def edgeNodes (opposing special : Fin 4) : Fin 4 × Fin 4 :=
  match (List.finRange 4).filter fun n => n ≠ special ∧ n ≠ opposing with
  | a :: b :: _ => (a, b)
  | _ => (0, 0)

/-- BasisFunctions3DAinsworthCoyle.cpp:208-225: the nodes `a`, `b`, `c` of a face function. -/
def faceNodesDir (opposing : Fin 4) (second : Bool) : Fin 4 × Fin 4 × Fin 4 :=
  let (a, b, c) := faceNodes opposing
  if second then (a, c, b) else (a, b, c)

/-- BasisFunctions3DAinsworthCoyle.cpp:234-236, 247-249: the direction of a face function.
`b == 1 - a == 1` is `(b == (1 - a)) == 1`; `1 - a` is computed in `std::size_t`, so it is 1 for
`a = 0` and 0 for `a = 1`. -/
def faceDirection (a b : Fin 4) : Pt 3 :=
  ![if b.val = 1 - a.val then 1 else 0, if b = 2 then 1 else 0, if b = 3 then 1 else 0]

/-- BasisFunctions3DAinsworthCoyle.cpp:348-351: a unit vector. -/
def unitVector (direction : Fin 3) : Pt 3 := fun k => if k = direction then 1 else 0

/-- BasisFunctions3DAinsworthCoyle.cpp:84-116, 176-182, 228-239, 295-303, 344-357 -/
noncomputable def AinsworthFn.eval : AinsworthFn → Pt 3 → Pt 3
  | .edge deg o i, p =>
    let ret := baryGrad o
    let dummy := baryGrad i
    let valI := bary3 i p
    let valO := bary3 o p
    let ret := valI • ret
    let dummy := valO • dummy
    match deg with
    | 0 => ret - dummy
    | 1 => ret + dummy
    | n + 2 =>
      let degree : ℝ := ((n + 2 : Nat) : ℝ)
      let ret := ret - dummy
      let dummy := (2 : ℝ) • dummy
      let dummy := dummy + ret
      let ret := (-((n + 1 : Nat) : ℝ) / degree * legendre n (valI - valO)) • ret
      let dummy := (((2 * (n + 2) - 1 : Nat) : ℝ) / degree * legendre (n + 1) (valI - valO)) • dummy
      ret + dummy
  | .edgeFace deg opposing special, p =>
    let (a, b) := edgeNodes opposing special
    let valA := bary3 a p
    let valB := bary3 b p
    (valA * valB * legendre (deg - 2) (valB - valA)) • baryGrad special
  | .face deg1 deg2 opposing second, p =>
    let (a, b, c) := faceNodesDir opposing second
    let valA := bary3 a p
    let valB := bary3 b p
    let valC := bary3 c p
    (valA * valB * valC * legendre deg1 (valB - valA) * legendre deg2 (valC - valA)) •
      faceDirection a b
  | .faceInterior deg1 deg2 d, p =>
    let (a, b, c) := faceNodes d
    let valA := bary3 a p
    let valB := bary3 b p
    let valC := bary3 c p
    (valA * valB * valC * legendre deg1 (valB - valA) * legendre deg2 (valC - valA)) • baryGrad d
  | .interior deg1 deg2 deg3 direction, p =>
    let val0 := bary3 0 p
    let val1 := bary3 1 p
    let val2 := bary3 2 p
    let val3 := bary3 3 p
    (val0 * val1 * val2 * val3 * legendre deg1 (val1 - val0) * legendre deg2 (val2 - val0) *
      legendre deg3 (val3 - val0)) • unitVector direction

/-- BasisFunctions3DAinsworthCoyle.cpp:118-159, 184-200, 241-275, 305-337, 359-415 -/
noncomputable def AinsworthFn.evalCurl : AinsworthFn → Pt 3 → Pt 3
  | .edge deg o i, p =>
    match deg with
    | 0 =>
      let dummy := baryGrad o
      let dummy2 := baryGrad i
      (2 : ℝ) • outer dummy2 dummy
    | 1 => ![0, 0, 0]
    | n + 2 =>
      let degree : ℝ := ((n + 2 : Nat) : ℝ)
      let dummy := baryGrad o
      let dummy2 := baryGrad i
      let dummy4 := dummy2 - dummy
      let valI := bary3 i p
      let valO := bary3 o p
      let ret := outer dummy2 dummy
      let ret := (-((n + 1 : Nat) : ℝ) / degree * legendre n (valI - valO) * 2) • ret
      let dummy := valI • dummy
      let dummy2 := valO • dummy2
      let dummy := dummy + dummy2
      let dummy3 := outer dummy4 dummy
      let dummy3 :=
        (((2 * (n + 2) - 1 : Nat) : ℝ) / degree * legendreDeriv (n + 1) (valI - valO)) • dummy3
      let ret := ret + dummy3
      let dummy2 := (2 : ℝ) • dummy2
      let dummy := dummy - dummy2
      let dummy3 := outer dummy4 dummy
      let dummy3 := (((n + 1 : Nat) : ℝ) / degree * legendreDeriv n (valI - valO)) • dummy3
      ret - dummy3
  | .edgeFace deg opposing special, p =>
    let (a, b) := edgeNodes opposing special
    let valA := bary3 a p
    let valB := bary3 b p
    let dummy := baryGrad a
    let dummy2 := baryGrad b
    let dummy3 := baryGrad special
    let ret := outer dummy dummy3
    let dummy := outer dummy2 dummy3
    let ret := (valB * legendre (deg - 2) (valB - valA) -
      valA * valB * legendreDeriv (deg - 2) (valB - valA)) • ret
    let dummy := (valA * legendre (deg - 2) (valB - valA) +
      valA * valB * legendreDeriv (deg - 2) (valB - valA)) • dummy
    ret + dummy
  | .face deg1 deg2 opposing second, p =>
    let (a, b, c) := faceNodesDir opposing second
    let valA := bary3 a p
    let valB := bary3 b p
    let valC := bary3 c p
    let dummy := faceDirection a b
    let dummy2 := baryGrad a
    let ret := outer dummy2 dummy
    let ret := (valB * valC * legendre deg1 (valB - valA) * legendre deg2 (valC - valA) -
      valA * valB * valC * (legendreDeriv deg1 (valB - valA) * legendre deg2 (valC - valA) +
        legendre deg1 (valB - valA) * legendreDeriv deg2 (valC - valA))) • ret
    let dummy2 := baryGrad b
    let dummy3 := outer dummy2 dummy
    let dummy3 := (valA * valC * legendre deg1 (valB - valA) * legendre deg2 (valC - valA) +
      valA * valB * valC * legendreDeriv deg1 (valB - valA) * legendre deg2 (valC - valA)) • dummy3
    let ret := ret + dummy3
    let dummy2 := baryGrad c
    let dummy3 := outer dummy2 dummy
    let dummy3 := (valA * valB * legendre deg1 (valB - valA) * legendre deg2 (valC - valA) +
      valA * valB * valC * legendre deg1 (valB - valA) * legendreDeriv deg2 (valC - valA)) • dummy3
    ret + dummy3
  | .faceInterior deg1 deg2 d, p =>
    let (a, b, c) := faceNodes d
    let valA := bary3 a p
    let valB := bary3 b p
    let valC := bary3 c p
    let dummy := baryGrad d
    let dummy2 := baryGrad a
    let ret := outer dummy2 dummy
    let ret := (valB * valC * legendre deg1 (valB - valA) * legendre deg2 (valC - valA) -
      valA * valB * valC * (legendreDeriv deg1 (valB - valA) * legendre deg2 (valC - valA) +
        legendre deg1 (valB - valA) * legendreDeriv deg2 (valC - valA))) • ret
    let dummy2 := baryGrad b
    let dummy3 := outer dummy2 dummy
    let dummy3 := (valA * valC * legendre deg1 (valB - valA) * legendre deg2 (valC - valA) +
      valA * valB * valC * legendreDeriv deg1 (valB - valA) * legendre deg2 (valC - valA)) • dummy3
    let ret := ret + dummy3
    let dummy2 := baryGrad c
    let dummy3 := outer dummy2 dummy
    let dummy3 := (valA * valB * legendre deg1 (valB - valA) * legendre deg2 (valC - valA) +
      valA * valB * valC * legendre deg1 (valB - valA) * legendreDeriv deg2 (valC - valA)) • dummy3
    ret + dummy3
  | .interior deg1 deg2 deg3 direction, p =>
    let val0 := bary3 0 p
    let val1 := bary3 1 p
    let val2 := bary3 2 p
    let val3 := bary3 3 p
    let l1 := legendre deg1 (val1 - val0)
    let l2 := legendre deg2 (val2 - val0)
    let l3 := legendre deg3 (val3 - val0)
    let d1 := legendreDeriv deg1 (val1 - val0)
    let d2 := legendreDeriv deg2 (val2 - val0)
    let d3 := legendreDeriv deg3 (val3 - val0)
    let dummy := unitVector direction
    let dummy2 := baryGrad 0
    let ret := outer dummy2 dummy
    let ret := (val1 * val2 * val3 * l1 * l2 * l3 -
      val0 * val1 * val2 * val3 * (d1 * l2 * l3 + l1 * d2 * l3 + l1 * l2 * d3)) • ret
    let dummy2 := baryGrad 1
    let dummy3 := outer dummy2 dummy
    let dummy3 := (val0 * val2 * val3 * l1 * l2 * l3 +
      val0 * val1 * val2 * val3 * d1 * l2 * l3) • dummy3
    let ret := ret + dummy3
    let dummy2 := baryGrad 2
    let dummy3 := outer dummy2 dummy
    let dummy3 := (val0 * val1 * val3 * l1 * l2 * l3 +
      val0 * val1 * val2 * val3 * l1 * d2 * l3) • dummy3
    let ret := ret + dummy3
    let dummy2 := baryGrad 3
    let dummy3 := outer dummy2 dummy
    let dummy3 := (val0 * val1 * val2 * l1 * l2 * l3 +
      val0 * val1 * val2 * val3 * l1 * l2 * d3) • dummy3
    ret + dummy3

/-- BasisFunctions3DAinsworthCoyle.cpp:417-502 `createDGBasisFunctionSet3DAinsworthCoyle` -/
def ainsworth3 (order : Nat) : List AinsworthFn :=
  ((List.range (order + 1)).flatMap fun p =>
    [.edge p 0 1, .edge p 0 2, .edge p 0 3, .edge p 2 3, .edge p 1 3, .edge p 1 2]) ++
  (((List.range (order + 1)).filter (2 ≤ ·)).flatMap fun p =>
    [.edgeFace p 3 0, .edgeFace p 3 1, .edgeFace p 3 2,
      .edgeFace p 2 0, .edgeFace p 2 1, .edgeFace p 2 3,
      .edgeFace p 1 0, .edgeFace p 1 2, .edgeFace p 1 3,
      .edgeFace p 0 1, .edgeFace p 0 2, .edgeFace p 0 3]) ++
  ((List.range (order - 2)).flatMap fun l => (List.range (order - 2 - l)).flatMap fun m =>
    [.face l m 3 false, .face l m 3 true, .face l m 2 false, .face l m 2 true,
      .face l m 1 false, .face l m 1 true, .face l m 0 false, .face l m 0 true,
      .faceInterior l m 3, .faceInterior l m 2, .faceInterior l m 1, .faceInterior l m 0]) ++
  ((List.range (order - 3)).flatMap fun l => (List.range (order - 3 - l)).flatMap fun m =>
    (List.range (order - 3 - (m + l))).flatMap fun n =>
      [.interior l m n 0, .interior l m n 1, .interior l m n 2])

/-! ### Nedelec functions on the triangle -/

/-- BasisFunctions2DNedelec.cpp:65-118, 156-194; the two classes. The scalar functions they multiply
are those of Verif.Basis. -/
inductive Nedelec2Fn
  | edge (side : Fin 3) (modulator : LineFn)
  | interior (type : Fin 2) (modulator : TriangleFn)
deriving DecidableEq

/-- BasisFunctions2DNedelec.cpp:86-102 `evalSideFunction` -/
def sideFunction (side : Fin 3) (p : Pt 2) : Pt 2 :=
  match side with
  | 0 => ![p 1 - 1, -p 0]
  | 1 => ![p 1, -p 0]
  | 2 => ![p 1, 1 - p 0]

/-- BasisFunctions2DNedelec.cpp:104-112 `evalModulatorCoord` -/
def modulatorCoord (side : Fin 3) (p : Pt 2) : Pt 1 :=
  match side with
  | 0 => ![p 0]
  | 1 => ![p 1]
  | 2 => ![1 - p 1]

/-- BasisFunctions2DNedelec.cpp:176-189 `evalTypePart` -/
def typePart (type : Fin 2) (p : Pt 2) : Pt 2 :=
  match type with
  | 0 => p 0 • ![p 1, 1 - p 0]
  | 1 => p 1 • ![1 - p 1, p 0]

/-- BasisFunctions2DNedelec.cpp:74-80, 165-170 -/
noncomputable def Nedelec2Fn.eval : Nedelec2Fn → Pt 2 → Pt 2
  | .edge side modulator, p => modulator.eval (modulatorCoord side p) • sideFunction side p
  | .interior type modulator, p => modulator.eval p • typePart type p

/-- BasisFunctions2DNedelec.cpp:120-147, 196-224. `none` is the fatal error of the derivative of the
scalar function. -/
noncomputable def Nedelec2Fn.evalCurl : Nedelec2Fn → Pt 2 → Option (Pt 2)
  | .edge side modulator, p => do
    let coord := modulatorCoord side p
    let modulatorVal := modulator.eval coord
    let sideVal := sideFunction side p
    let result := -2 * modulatorVal
    let deriv ← modulator.evalDeriv 0 coord
    match side with
    | 0 => return ![result + deriv * sideVal 1, 0]
    | 1 => return ![result - deriv * sideVal 0, 0]
    | 2 => return ![result + deriv * sideVal 0, 0]
  | .interior type modulator, p => do
    let typeValue := typePart type p
    let typeFydx := match type with
      | 0 => 1 - 2 * p 0
      | 1 => p 1
    let typeFxdy := match type with
      | 0 => p 0
      | 1 => 1 - 2 * p 1
    let modulatorValue := modulator.eval p
    let grad0 ← modulator.evalDeriv 0 p
    let grad1 ← modulator.evalDeriv 1 p
    let result := typeFydx * modulatorValue + typeValue 1 * grad0
    let result := result - (typeFxdy * modulatorValue + typeValue 0 * grad1)
    return ![result, 0]

/-- BasisFunctions2DNedelec.cpp:226-252 `createDGBasisFunctions2DNedelec`, for `order > 0`: for order
zero `order - 1` wraps around, and the loop that makes the scalar functions does not end. -/
def nedelec2 (order : Nat) : List Nedelec2Fn :=
  ((lineDG (order - 1)).flatMap fun f => [.edge 0 f, .edge 1 f, .edge 2 f]) ++
  (if order > 1 then (triangleDG (order - 2)).flatMap fun f => [.interior 0 f, .interior 1 f]
   else [])

end Verif.CurlBasis
