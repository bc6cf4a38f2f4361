import Verif.Centaur.Model
import Verif.RefGeometry.Model
import Verif.Lattice.Model

/-!
# What a user expects of a Centaur mesh
-/

namespace Verif.Centaur

open Verif.RefGeometry

/-- The records of a group with `per` entries on every line and the rest on the last one. -/
inductive IsLines {T : Type} (per : Nat) : List (List T) → List (List T) → Prop
  | last (es : List (List T)) (h0 : es ≠ []) (h : es.length ≤ per) : IsLines per es [es.flatten]
  | cons (es rest : List (List T)) (lines : List (List T)) (h : es.length = per) (hr : rest ≠ [])
      (hl : IsLines per rest lines) : IsLines per (es ++ rest) (es.flatten :: lines)

/-- The corners of the shapes in the order of the CFD General Notation System, which Centaur uses: around
a face, the opposite face or the top last. The positions are those of hpGEM's reference shapes. -/
def cgnsQuadrilateral : List (Pt 2) := [![-1, -1], ![1, -1], ![1, 1], ![-1, 1]]
def cgnsHexahedron : List (Pt 3) :=
  [![-1, -1, -1], ![1, -1, -1], ![1, 1, -1], ![-1, 1, -1],
   ![-1, -1, 1], ![1, -1, 1], ![1, 1, 1], ![-1, 1, 1]]
def cgnsPrism : List (Pt 3) :=
  [![0, 0, -1], ![1, 0, -1], ![0, 1, -1], ![0, 0, 1], ![1, 0, 1], ![0, 1, 1]]
def cgnsPyramid : List (Pt 3) :=
  [![-1, -1, 0], ![1, -1, 0], ![1, 1, 0], ![-1, 1, 0], ![0, 0, 1]]
def cgnsTetrahedron : List (Pt 3) := [![0, 0, 0], ![1, 0, 0], ![0, 1, 0], ![0, 0, 1]]
def cgnsTriangle : List (Pt 2) := [![0, 0], ![1, 0], ![0, 1]]

/-- The middle of the edge between two corners. -/
noncomputable def mid (a b : Pt 3) : Pt 3 := fun i => (a i + b i) / 2

/-- The six extra nodes of `TETRA_10`: the edges 1-2, 2-3, 3-1, 1-4, 2-4, 3-4. -/
noncomputable def cgnsTetra10Extra : List (Pt 3) :=
  [mid ![0, 0, 0] ![1, 0, 0], mid ![1, 0, 0] ![0, 1, 0], mid ![0, 1, 0] ![0, 0, 0],
   mid ![0, 0, 0] ![0, 0, 1], mid ![1, 0, 0] ![0, 0, 1], mid ![0, 1, 0] ![0, 0, 1]]

/-- The starts of the zones are in order for type `t`, and within the elements of that type. -/
def Ordered (counts : Fin 4 → Nat) (starts : List (List Nat)) (t : Fin 4) : Prop :=
  (∀ s ∈ starts, 1 ≤ s.getD t 0 ∧ s.getD t 0 ≤ counts t + 1) ∧
    (starts.map fun s => s.getD t 0).Pairwise (· ≤ ·)

/-- Element number `j` (from 0) of type `t` lies in zone `i` according to the file: from the start of the
zone (counted from 1) to before the start of the next one. -/
def InZone (starts : List (List Nat)) (t : Fin 4) (i j : Nat) : Prop :=
  (∃ s, starts[i]? = some s ∧ s.getD t 0 ≤ j + 1) ∧
    (∀ s, starts[i + 1]? = some s → j + 1 < s.getD t 0)

/-- The element types that occur: two in two dimensions. -/
def Fits (is2D : Bool) (counts : Fin 4 → Nat) (starts : List (List Nat)) : Prop :=
  (∀ s ∈ starts, s.length = if is2D then 2 else 5) ∧
    (is2D = true → counts 2 = 0 ∧ counts 3 = 0) ∧ ∀ t, counts t < W

end Verif.Centaur
