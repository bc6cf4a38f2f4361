import Verif.Refine.Mesh

/-! # Vocabulary for statements about the refinement of an element of a mesh -/
namespace Verif.Refine

/-- Node `id` of the mesh is the `k`-th node of the `j`-th sub-face of the `i`-th face, and has node `pos` of the refined
element as its place by the tables of the refinement. Faces whose refinement has no new nodes do not count. -/
def Shared {d : Nat} (n : Name d) (faces : List (Option (List (List Nat)))) (pos id : Nat) : Prop :=
  ∃ (i j k : Nat) (subs : List (List Nat)) (sub : List Nat) (m : Name (d - 1)) (l lj : List Nat) (a : Nat),
    faces[i]? = some (some subs) ∧ subs[j]? = some sub ∧ sub[k]? = some id ∧
    n.table.faceMaps[i]? = some m ∧ m.table.numNew ≠ 0 ∧ n.table.faceNodes i = some l ∧ m.table.subNodes j = some lj ∧
    lj[k]? = some a ∧ l[a]? = some pos

/-- The sub-faces have no more parts and nodes than the refinement of the face. -/
def Fits {d : Nat} (n : Name d) (faces : List (Option (List (List Nat)))) : Prop :=
  ∀ (i : Nat) (subs : List (List Nat)), faces[i]? = some (some subs) → ∃ m, n.table.faceMaps[i]? = some m ∧
    (m.table.numNew ≠ 0 → ∃ l, n.table.faceNodes i = some l ∧
      ∀ (j : Nat) (sub : List Nat), subs[j]? = some sub → ∃ lj, m.table.subNodes j = some lj ∧
        ∀ k < sub.length, ∃ a pos, lj[k]? = some a ∧ l[a]? = some pos ∧ pos < n.table.shape.corners + n.table.numNew)

section
variable {V : Type*} [AddCommGroup V] [Module ℝ V]

/-- What the refinement of an element with the nodes `ids` gives: `kids` are the nodes of the sub-elements, `coords'` the
positions of the nodes afterwards, and `node pos` is the node of the mesh at node `pos` of the refined element. -/
structure Refined {d : Nat} (n : Name d) (ids : List Nat) (faces : List (Option (List (List Nat)))) (coords : List V)
    (kids : List (List Nat)) (coords' : List V) (node : Nat → Nat) : Prop where
  /-- The nodes of the element stay. -/
  old : ∀ i < n.table.shape.corners, ids[i]? = some (node i)
  /-- The nodes that a neighbour has made are used again. -/
  shared : ∀ pos id : Nat, Shared n faces pos id → node pos = id
  /-- The other nodes are new, and no two are the same. -/
  fresh : ∀ pos, n.table.shape.corners ≤ pos → pos < n.table.shape.corners + n.table.numNew →
    (∀ id, ¬Shared n faces pos id) → coords.length ≤ node pos
  apart : ∀ pos pos' : Nat, n.table.shape.corners ≤ pos → pos < pos' → pos' < n.table.shape.corners + n.table.numNew →
    (∀ id, ¬Shared n faces pos id) → (∀ id, ¬Shared n faces pos' id) → node pos ≠ node pos'
  /-- No node moves. -/
  stay : coords <+: coords'
  /-- Each node is at its place. -/
  position : ∀ pos < n.table.shape.corners + n.table.numNew,
    coords'[node pos]? = nodeAt n (fun i => coords.getD (ids.getD i 0) 0) pos
  /-- The sub-elements have the nodes of the table. -/
  count : kids.length = n.table.numSubs
  parts : ∀ s < n.table.numSubs, kids[s]? = (n.table.subNodes s).map (List.map node)

end

end Verif.Refine
