import Mathlib.Analysis.Real.Sqrt
import Mathlib.Algebra.Order.Floor.Ring
import Mathlib.Data.Prod.Lex
import Mathlib.Order.PiLex
import Mathlib.Data.Finset.Max
import Mathlib.LinearAlgebra.Matrix.NonsingularInverse
import Mathlib.Data.Fin.Tuple.Basic

/-! # Band structures of a homogeneous medium

Models `applications/DG-Max/Utils/BandstructureUtils.{h,cpp}` and `HomogeneousBandStructure.{h,cpp}`. Doubles are
real numbers and `int` coordinates are integers; comparisons are exact. The number of dimensions is arbitrary (the
code has 2 and 3). `none` is a loop that does not end, or NaN. -/
namespace Verif.Bands

variable {d : Nat}

/-- `SmallVector<DIM>`. -/
abbrev Vec (d : Nat) := Fin d → ℝ

/-- The coordinates of a `LatticePoint<DIM>` (BandstructureUtils.h:41-81). -/
abbrev Point (d : Nat) := Fin d → Int

/-- `SmallVector::l2Norm`. -/
noncomputable def l2Norm (v : Vec d) : ℝ := √(∑ i, v i * v i)

/-- The product of two vectors. -/
def dot (v w : Vec d) : ℝ := ∑ i, v i * w i

/-! ## Utilities -/

/-- `next` (BandstructureUtils.cpp:8-18): the array and `true`, or `none` for `false`. -/
def next (lo hi : Int) : {d : Nat} → Point d → Option (Point d)
  | 0, _ => none
  | _ + 1, a =>
    if a 0 < hi then some (Fin.cons (a 0 + 1) (Fin.tail a))
    else (next lo hi (Fin.tail a)).map (Fin.cons lo)

/-- The loops `do { … } while (next(offset, -1, 1))` (BandstructureUtils.cpp:59-69 and 106-111): the arrays the body
sees, starting at `a`. -/
def arraysFrom (lo hi : Int) (a : Point d) : Option (List (Point d)) :=
  match next lo hi a with
  | none => some [a]
  | some b => do
    let rest ← arraysFrom lo hi b
    some (a :: rest)
partial_fixpoint

/-- `intervalDist` (BandstructureUtils.cpp:20-30); the assertion of line 21 gives `none`. -/
noncomputable def intervalDist (x xmin xmax : ℝ) : Option ℝ :=
  if ¬ xmin ≤ xmax then none
  else if x < xmin then some (xmin - x)
  else if x < xmax then some 0
  else some (x - xmax)

/-- `LatticePoint::getNeighbours` (BandstructureUtils.cpp:51-71). -/
def neighbours (p : Point d) : Option (List (Point d)) :=
  (arraysFrom (-1) 1 (fun _ => -1)).bind fun l =>
    some ((l.filter fun offset => decide (¬ ∀ i, offset i = 0)).map fun offset i => p i + offset i)

/-- `LatticePoint::k` (BandstructureUtils.cpp:73-82). -/
def position (b : Fin d → Vec d) (p : Point d) : Vec d := fun j => ∑ i, (p i : ℝ) * b i j

/-- `std::round`: to the nearest integer, halves away from zero. -/
noncomputable def round (x : ℝ) : Int := if 0 ≤ x then ⌊x + 1 / 2⌋ else ⌈x - 1 / 2⌉

/-- `basis.solve` (SmallMatrix.h:382-395, LAPACK's `dgesv`): the solution, or the right hand side unchanged for a
singular matrix, as `info` is not looked at. The basis vectors are the columns (BandstructureUtils.cpp:91-96). -/
noncomputable def solve (b : Fin d → Vec d) (k : Vec d) : Vec d :=
  let a : Matrix (Fin d) (Fin d) ℝ := Matrix.of fun coord vec => b vec coord
  open Classical in if a.det = 0 then k else a⁻¹.mulVec k

/-- `LatticePoint::getNearestNeighbours` (BandstructureUtils.cpp:84-113). -/
noncomputable def nearest (b : Fin d → Vec d) (k : Vec d) : Option (List (Point d)) :=
  let rounded : Point d := fun i => round (solve b k i)
  (arraysFrom (-1) 1 (fun _ => -1)).bind fun l => some (l.map fun offset i => rounded i + offset i)

/-- The inner loop of `group` (BandstructureUtils.cpp:41-44): how many of the next entries are close to `entry`. -/
noncomputable def groupCount (tolerance entry : ℝ) : List ℝ → Nat
  | [] => 0
  | x :: l => if |x - entry| < tolerance then groupCount tolerance entry l + 1 else 0

/-- `result[key] = count` for a `std::map`, with its entries in the order of the keys. -/
noncomputable def assign (key : ℝ) (count : Nat) : List (ℝ × Nat) → List (ℝ × Nat)
  | [] => [(key, count)]
  | (x, n) :: l =>
    if key < x then (key, count) :: (x, n) :: l
    else if x < key then (x, n) :: assign key count l
    else (x, count) :: l

/-- The outer loop of `group` (BandstructureUtils.cpp:36-46). -/
noncomputable def groupLoop (tolerance : ℝ) (result : List (ℝ × Nat)) : List ℝ → List (ℝ × Nat)
  | [] => result
  | entry :: l =>
    let count := groupCount tolerance entry l
    groupLoop tolerance (assign entry (1 + count) result) (l.drop count)
termination_by l => l.length
decreasing_by simp only [List.length_drop, List.length_cons]; omega

/-- `group` (BandstructureUtils.cpp:32-49). -/
noncomputable def group (l : List ℝ) (tolerance : ℝ) : List (ℝ × Nat) := groupLoop tolerance [] l

/-! ## The spectrum at a point -/

/-- The keys of the queue (HomogeneousBandStructure.cpp:19-24): ordered by the frequency, then by the point. -/
abbrev Key (d : Nat) := ℝ ×ₗ Lex (Point d)

/-- The frequency of a lattice point (HomogeneousBandStructure.cpp:29-31 and 62-64). -/
noncomputable def frequency (b : Fin d → Vec d) (permittivity : ℝ) (k : Vec d) (p : Point d) : ℝ :=
  l2Norm (fun j => position b p j - k j) / √permittivity

/-- HomogeneousBandStructure.cpp:28-35. -/
noncomputable def seeds (f : Point d → ℝ) (maxFrequency : ℝ) (points : List (Point d)) : Finset (Key d) :=
  points.foldl (fun q p => if f p > maxFrequency then q else insert (toLex (f p, toLex p)) q) ∅

/-- HomogeneousBandStructure.cpp:62-80, for one neighbour `n` of a point with frequency `current`. -/
noncomputable def enqueue (f : Point d → ℝ) (maxFrequency current : ℝ) (q : Finset (Key d)) (n : Point d) :
    Finset (Key d) :=
  open Classical in
  if f n > current ∧ f n < maxFrequency then
    if ∃ e ∈ q, (ofLex e).2 = toLex n then q else insert (toLex (f n, toLex n)) q
  else q

/-- HomogeneousBandStructure.cpp:50-59: how many modes a point gives. -/
noncomputable def modes (d : Nat) (frequency : ℝ) : Nat :=
  1 + (if d > 2 then 1 else 0) + (if |frequency| < 1 / 10 ^ 12 then 1 else 0)

/-- The loop over the queue (HomogeneousBandStructure.cpp:42-82). -/
noncomputable def spectrumLoop (f : Point d → ℝ) (maxFrequency : ℝ) (q : Finset (Key d)) (out : List ℝ) :
    Option (List ℝ) :=
  if h : q.Nonempty then
    match neighbours (ofLex (ofLex (q.min' h)).2) with
    | none => none
    | some ns =>
      spectrumLoop f maxFrequency
        (ns.foldl (enqueue f maxFrequency (ofLex (q.min' h)).1) (q.erase (q.min' h)))
        (out ++ List.replicate (modes d (ofLex (q.min' h)).1) (ofLex (q.min' h)).1)
  else some out
partial_fixpoint

/-- `HomogeneousBandStructure::computeLinearSpectrum` (HomogeneousBandStructure.cpp:16-84). -/
noncomputable def linearSpectrum (b : Fin d → Vec d) (permittivity : ℝ) (k : Vec d) (maxFrequency : ℝ) :
    Option (List ℝ) :=
  (nearest b k).bind fun points =>
    spectrumLoop (frequency b permittivity k) maxFrequency
      (seeds (frequency b permittivity k) maxFrequency points) []

/-- `HomogeneousBandStructure::computeSpectrum` (HomogeneousBandStructure.cpp:86-92). -/
noncomputable def spectrum (b : Fin d → Vec d) (permittivity : ℝ) (k : Vec d) (maxFrequency : ℝ) :
    Option (List (ℝ × Nat)) :=
  (linearSpectrum b permittivity k maxFrequency).map fun l => group l (1 / 10 ^ 5)

/-! ## Lines -/

/-- The entry of a line: `x`, `y` and the multiplicity (HomogeneousBandStructure.h:144-147). -/
structure Mode where
  x : ℝ
  y : ℝ
  multiplicity : Nat

/-- `HomogeneousBandStructure::LineSet` (HomogeneousBandStructure.h:49-148). -/
structure LineSet where
  l : ℝ
  permittivity : ℝ
  modes : List Mode

/-- `LineSet::frequency` (HomogeneousBandStructure.h:62-66). -/
noncomputable def LineSet.frequency (s : LineSet) (m : Mode) (interpolation : ℝ) : ℝ :=
  √(m.y * m.y + (s.l * interpolation + m.x) * (s.l * interpolation + m.x)) / √s.permittivity

/-- HomogeneousBandStructure.cpp:134-144: the modes close to `(x, y)` all get one more, and `(x, y)` is added if
there is none. The map is replaced by a list in the order of insertion. -/
noncomputable def addMode (ms : List Mode) (x y : ℝ) : List Mode :=
  open Classical in
  if ∃ m ∈ ms, (m.x - x) * (m.x - x) + (m.y - y) * (m.y - y) < 1 / 10 ^ 10 then
    ms.map fun m =>
      if (m.x - x) * (m.x - x) + (m.y - y) * (m.y - y) < 1 / 10 ^ 10 then { m with multiplicity := m.multiplicity + 1 }
      else m
  else ms ++ [{ x, y, multiplicity := 1 }]

/-- HomogeneousBandStructure.cpp:146-153. -/
def visit (ns : List (Point d)) (considered queue : List (Point d)) : List (Point d) × List (Point d) :=
  ns.foldl (fun (c, q) n => if n ∈ c then (c, q) else (n :: c, q ++ [n])) (considered, queue)

/-- The numbers `x` and `y` of a lattice point (HomogeneousBandStructure.cpp:121-124). -/
noncomputable def along (b : Fin d → Vec d) (point1 kdir : Vec d) (p : Point d) : ℝ :=
  dot (fun j => point1 j - position b p j) kdir

/-- HomogeneousBandStructure.cpp:124. -/
noncomputable def away (b : Fin d → Vec d) (point1 kdir : Vec d) (p : Point d) : ℝ :=
  l2Norm fun j => point1 j - position b p j - along b point1 kdir p * kdir j

/-- HomogeneousBandStructure.cpp:128-129: the lowest frequency on the line. -/
noncomputable def lowest (permittivity l x y : ℝ) : Option ℝ :=
  (intervalDist x (-l) 0).bind fun xmin => some (√(xmin * xmin + y * y) / √permittivity)

/-- The loop over the queue (HomogeneousBandStructure.cpp:117-154); `considered` is a list here. -/
noncomputable def linesLoop (xy : Point d → ℝ × ℝ) (permittivity l maxFrequency : ℝ)
    (considered queue : List (Point d)) (ms : List Mode) : Option (List Mode) :=
  match queue with
  | [] => some ms
  | p :: queue =>
    match lowest permittivity l (xy p).1 (xy p).2 with
    | none => none
    | some fmin =>
      if fmin > maxFrequency then linesLoop xy permittivity l maxFrequency considered queue ms
      else
        match neighbours p with
        | none => none
        | some ns =>
          linesLoop xy permittivity l maxFrequency (visit ns considered queue).1 (visit ns considered queue).2
            (addMode ms (xy p).1 (xy p).2)
partial_fixpoint

/-- `HomogeneousBandStructure::computeLines` (HomogeneousBandStructure.cpp:94-161). The direction is NaN if the points
are the same, which gives `none`. -/
noncomputable def lines (b : Fin d → Vec d) (permittivity : ℝ) (point1 point2 : Vec d) (maxFrequency : ℝ) :
    Option LineSet :=
  let l := l2Norm fun j => point1 j - point2 j
  let kdir : Vec d := fun j => (point2 j - point1 j) / l2Norm fun j => point2 j - point1 j
  open Classical in
  if l = 0 then none
  else
    (nearest b point1).bind fun points =>
      (linesLoop (fun p => (along b point1 kdir p, away b point1 kdir p)) permittivity l maxFrequency points points
        []).bind fun ms => some { l, permittivity, modes := ms }

end Verif.Bands
