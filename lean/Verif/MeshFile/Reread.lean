import Verif.MeshFile.Props

/-! # Processing a mesh file again

`applications/Preprocessor/lib/hpgem.cpp`: the preprocessor also reads mesh files. -/
namespace Verif.MeshFile
open Verif.PreMesh Verif.ElementShape

variable {R : Type} [LinearOrder R]

/-- The constructors `HpgemReader` and `PreprocessorReader` (hpgem.cpp:402-420, 257-272) up to the check of the version:
the numbers of nodes and elements, the dimension and the number of partitions. The nodes and elements that follow are not
modelled. -/
def reread (t : List (Tok R)) : Option (Nat × Nat × Nat × Nat) :=
  match strip t with
  | .word "mesh" :: t => do
    let (version, t) ← readNat t
    if version ≠ 1 then none
    let (nodes, t) ← readNat t
    let (elems, t) ← readNat t
    let (dim, t) ← readNat t
    let (count, _) ← readNat (ignoreLine t)
    some (nodes, elems, dim, count)
  | _ => none

/-- The preprocessor stops on every file that it has written itself. -/
theorem reread_fails (dim : Nat) (m : Mesh (List R)) (parts : List Nat) (count : Nat) (file : List (Tok R))
    (h : write dim m parts count = some file) : reread file = none := by
  unfold write at h
  simp only [Option.bind_eq_bind, Option.bind_eq_some_iff, Option.some.injEq] at h
  obtain ⟨_, _, _, _, _, _, _, _, rfl⟩ := h
  simp [reread, strip, readNat]

/-- A file of the older version is accepted. -/
example : reread ([.word "mesh", .nat 1, .eol, .nat 4, .nat 2, .nat 2, .nat 5, .eol, .nat 3, .nat 4, .nat 2, .nat 2, .eol] :
    List (Tok Rat)) = some (4, 2, 2, 3) := by decide

end Verif.MeshFile
