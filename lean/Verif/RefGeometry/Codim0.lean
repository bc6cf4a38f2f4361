import Verif.RefGeometry.Lemmas
import Mathlib.Data.Fintype.Perm
import Mathlib.GroupTheory.Perm.Basic

/-! Helper lemmas for the codimension 0 maps. -/
set_option linter.all false
namespace Verif.RefGeometry
open Matrix

theorem vec3_two (a b c : ℝ) : (![a, b, c] : Pt 3) 2 = c := rfl

/-- Where map `k` sends node `i`. -/
def squareTbl : Fin 8 → Fin 4 → Fin 4 :=
  ![![0, 1, 2, 3], ![1, 3, 0, 2], ![3, 2, 1, 0], ![2, 0, 3, 1], ![2, 3, 0, 1], ![1, 0, 3, 2],
    ![3, 1, 2, 0], ![0, 2, 1, 3]]

theorem squareTbl_correct (k : Fin 8) (i : Fin 4) :
    ∃ m, squareToSquare[(k : Nat)]? = some m ∧
      (squareG.nodes[(i : Nat)]?).map m.transform = squareG.nodes[(squareTbl k i : Nat)]? := by
  fin_cases k <;> refine ⟨_, rfl, ?_⟩ <;> fin_cases i <;> norm_num [squareG, squareTbl]

def triangleTbl : Fin 6 → Fin 3 → Fin 3 :=
  ![![0, 1, 2], ![0, 2, 1], ![1, 2, 0], ![1, 0, 2], ![2, 1, 0], ![2, 0, 1]]

theorem triangleTbl_correct (k : Fin 6) (i : Fin 3) :
    ∃ m, triangleToTriangle[(k : Nat)]? = some m ∧
      (triangleG.nodes[(i : Nat)]?).map m.transform = triangleG.nodes[(triangleTbl k i : Nat)]? := by
  fin_cases k <;> refine ⟨_, rfl, ?_⟩ <;> fin_cases i <;> norm_num [triangleG, triangleTbl]

def lineTbl : Fin 2 → Fin 2 → Fin 2 := ![![0, 1], ![1, 0]]

theorem lineTbl_correct (k : Fin 2) (i : Fin 2) :
    ∃ m, lineToLine[(k : Nat)]? = some m ∧
      (lineG.nodes[(i : Nat)]?).map m.transform = lineG.nodes[(lineTbl k i : Nat)]? := by
  fin_cases k <;> refine ⟨_, rfl, ?_⟩ <;> fin_cases i <;> norm_num [lineG, lineTbl]

def cubeTbl : Fin 8 → Fin 8 → Fin 8 :=
  ![![0, 1, 2, 3, 4, 5, 6, 7], ![2, 3, 6, 7, 0, 1, 4, 5], ![6, 7, 4, 5, 2, 3, 0, 1],
    ![4, 5, 0, 1, 6, 7, 2, 3], ![4, 5, 6, 7, 0, 1, 2, 3], ![2, 3, 0, 1, 6, 7, 4, 5],
    ![6, 7, 2, 3, 4, 5, 0, 1], ![0, 1, 4, 5, 2, 3, 6, 7]]

theorem cubeTbl_correct (k : Fin 8) (i : Fin 8) :
    ∃ m, cubeToCube[(k : Nat)]? = some m ∧
      (cubeG.nodes[(i : Nat)]?).map m.transform = cubeG.nodes[(cubeTbl k i : Nat)]? := by
  fin_cases k <;> refine ⟨_, rfl, ?_⟩ <;> fin_cases i <;> norm_num [cubeG, cubeTbl, vec3_two]

theorem squareNodes_inj (i j : Fin 4) (h : squareG.nodes[(i : Nat)]? = squareG.nodes[(j : Nat)]?) : i = j := by
  revert h
  fin_cases i <;> fin_cases j <;> norm_num [squareG]

theorem cubeNodes_inj (i j : Fin 8) (h : cubeG.nodes[(i : Nat)]? = cubeG.nodes[(j : Nat)]?) : i = j := by
  revert h
  fin_cases i <;> fin_cases j <;> norm_num [cubeG, vec3_two]

end Verif.RefGeometry
