import Verif.MeshFile.Model
import Verif.PreMesh.Spec

/-! # What every process is to know after reading the mesh -/
namespace Verif.MeshFile
open Verif.PreMesh Verif.ElementShape

variable {R : Type} [LinearOrder R]

/-- Two elements that share a node. -/
def Touch (m : Mesh (List R)) (e e' : Nat) : Prop :=
  ∃ el el' n, m.elems[e]? = some el ∧ m.elems[e']? = some el' ∧ n ∈ el.inc 0 ∧ n ∈ el'.inc 0

/-- An element is known on partition `p` if it, or an element that shares a node with it, belongs to `p`. -/
def Present (m : Mesh (List R)) (parts : List Nat) (p e : Nat) : Prop := ∃ e', Touch m e e' ∧ parts[e']? = some p

/-- An entity is known on a partition if one of its elements is. -/
def EntityPresent (m : Mesh (List R)) (parts : List Nat) (p d k : Nat) : Prop :=
  ∃ ent q, (m.ents d)[k]? = some ent ∧ q ∈ ent.inc ∧ Present m parts p q.1

/-- The entries below `n` for which `P` holds, in increasing order. -/
noncomputable def below (n : Nat) (P : Nat → Prop) : List Nat := open Classical in (List.range n).filter fun k => decide (P k)

/-- The node ids of one-dimensional meshes start at 1. -/
def offset (dim : Nat) : Nat := if dim = 1 then 1 else 0

/-- The face of the solver for an entity with the given connections. -/
inductive IsFace (m : Mesh (List R)) (parts : List Nat) (rank : Nat) (id : Nat → Option Nat) (f : LFace) : List (Nat × Nat) → Prop
  /-- The boundary of the mesh. -/
  | wall (e i) : id f.left.1 = some e → f.left.2 = i → f.right = none → f.type = .wall → IsFace m parts rank id f [(e, i)]
  /-- Only the first element is known. -/
  | first (e i e' i') : id f.left.1 = some e → f.left.2 = i → f.right = none → f.type = .partialFace →
      ¬ Present m parts rank e' → IsFace m parts rank id f [(e, i), (e', i')]
  /-- Only the second element is known. -/
  | second (e i e' i') : id f.left.1 = some e' → f.left.2 = i' → f.right = none → f.type = .partialFace →
      ¬ Present m parts rank e → IsFace m parts rank id f [(e, i), (e', i')]
  /-- Both elements are known. -/
  | both (e i e' i' b) : id f.left.1 = some e → f.left.2 = i → f.right = some (b, i') → id b = some e' →
      IsFace m parts rank id f [(e, i), (e', i')]

/-- The face of a one-dimensional mesh for a node with the given connections. -/
structure IsPoint (m : Mesh (List R)) (parts : List Nat) (rank : Nat) (id : Nat → Option Nat) (f : LFace) (inc : List (Nat × Nat)) : Prop where
  left : ∃ e, id f.left.1 = some e ∧ (e, f.left.2) ∈ inc
  /-- There is no second element if only one is known. -/
  last : f.right = none → f.type = .wall ∧ ∀ q ∈ inc, Present m parts rank q.1 → id f.left.1 = some q.1 ∧ f.left.2 = q.2
  right : ∀ r, f.right = some r → r ≠ f.left ∧ ∃ e, id r.1 = some e ∧ (e, r.2) ∈ inc

/-- What process `rank` is to know of the mesh `m` with the given owners of the elements. -/
structure Describes (dim : Nat) (m : Mesh (List R)) (parts : List Nat) (rank : Nat)
    (periodic : List LElem → Nat × Nat → Nat × Nat → Bool) (L : Local R) : Prop where
  zones : L.zones = m.zones
  /-- The elements that are known, in the order of the mesh. -/
  elems : L.elems.map LElem.id = below m.elems.length (Present m parts rank)
  /-- Elements have their zone, owner, nodes and coordinates. -/
  elem : ∀ le ∈ L.elems, ∃ el, m.elems[le.id]? = some el ∧ le.zone = el.zone ∧ parts[le.id]? = some le.owner ∧
    le.nodes.map (fun n => L.nodes[n]?) = (el.inc 0).map (fun n => some (n + offset dim)) ∧
    le.coords.map (fun c => L.coords[c]?) = el.coords.map fun c => (m.coords[c]?).map Coord.pos
  /-- Elements share a coordinate exactly when they have the same node and the same position there. -/
  coord : ∀ le ∈ L.elems, ∀ le' ∈ L.elems, ∀ (j j' c c' n n' : Nat), le.coords[j]? = some c → le'.coords[j']? = some c' →
    le.nodes[j]? = some n → le'.nodes[j']? = some n' → (c = c' ↔ n = n' ∧ L.coords[c]? = L.coords[c']?)
  /-- The nodes of these elements. -/
  nodes : L.nodes = (below (m.ents 0).length (EntityPresent m parts rank 0)).map (· + offset dim)
  /-- The own elements that partition `q` knows are sent there. -/
  push : ∀ q, (L.push.filter fun x => x.1 = q).map (fun x => (L.elems[x.2]?).map LElem.id) =
    (below m.elems.length fun e => parts[e]? = some rank ∧ q ≠ rank ∧ Present m parts q e).map some
  /-- The known elements of partition `q` are received from there. -/
  pull : ∀ q, (L.pull.filter fun x => x.1 = q).map (fun x => (L.elems[x.2]?).map LElem.id) =
    (below m.elems.length fun e => parts[e]? = some q ∧ q ≠ rank ∧ Present m parts rank e).map some
  /-- The faces of these elements. -/
  faces : 1 < dim → L.faces.map LFace.id = below (m.ents (dim - 1)).length (EntityPresent m parts rank (dim - 1))
  face : 1 < dim → ∀ f ∈ L.faces, ∃ ent, (m.ents (dim - 1))[f.id]? = some ent ∧
    IsFace m parts rank (fun k => (L.elems[k]?).map LElem.id) f ent.inc
  /-- The kind of a face with two elements. -/
  kind : ∀ f ∈ L.faces, ∀ r, f.right = some r → ∀ el er, L.elems[f.left.1]? = some el → L.elems[r.1]? = some er →
    f.type = if el.owner = rank ∧ er.owner = rank then (if periodic L.elems f.left r then .periodic else .internal)
      else if el.owner = rank ∨ er.owner = rank then (if periodic L.elems f.left r then .periodicSubdomain else .subdomain)
      else .periodicSubdomain
  /-- The nodes are the faces in one dimension. -/
  points : dim = 1 → L.faces.map LFace.id = L.nodes
  point : dim = 1 → ∀ f ∈ L.faces, ∃ ent, (m.ents 0)[f.id - 1]? = some ent ∧
    IsPoint m parts rank (fun k => (L.elems[k]?).map LElem.id) f ent.inc
  /-- The edges of these elements. -/
  edges : dim = 3 → L.edges.map LEdge.id = below (m.ents 1).length (EntityPresent m parts rank 1)
  edge : dim = 3 → ∀ g ∈ L.edges, ∃ ent, (m.ents 1)[g.id]? = some ent ∧
    g.elems.map (fun x => ((L.elems[x.1]?).map LElem.id, x.2)) =
      open Classical in (ent.inc.filter fun q => decide (Present m parts rank q.1)).map fun q => (some q.1, q.2)

/-- The meshes and assignments of elements to partitions that are considered. -/
structure Writable (shapes : List Shape) (dim : Nat) (m : Mesh (List R)) (parts : List Nat) (count : Nat) : Prop where
  dimPos : 0 < dim
  cons : Consistent shapes dim m
  hasNodes : ∀ el ∈ m.elems, el.inc 0 ≠ []
  /-- No element meets itself in a node. -/
  distinct : ∀ el ∈ m.elems, (el.inc 0).Nodup
  /-- Every element belongs to a partition. -/
  partsLen : parts.length = m.elems.length
  bound : ∀ p ∈ parts, p < count
  pos : ∀ co ∈ m.coords, co.pos.length = dim

end Verif.MeshFile
