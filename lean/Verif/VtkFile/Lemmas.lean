import Verif.VtkFile.Spec
import Mathlib.Data.List.Flatten
import Mathlib.Data.List.GetD
import Mathlib.Tactic.Ring
import Mathlib.Tactic.Linarith

set_option linter.all false
/-! # Lemmas on the loops of the VTK writer -/
namespace Verif.VtkFile

variable {E P T : Type}

theorem set_app {α : Type} (pre post : List α) (x y : α) (k : Nat) (h : pre.length = k) :
    (pre ++ x :: post).set k y = pre ++ y :: post := by
  subst h
  rw [List.set_append_right _ _ (le_refl _)]
  simp

/-! ## The mesh -/

theorem copyCoordinate_eq (d : Nat) (c : Nat → ℝ) (k : Nat) (pre post : List ℝ) (h : pre.length = 3 * k) :
    copyCoordinate d c k (pre ++ 0 :: 0 :: 0 :: post) = pre ++ (padded d c ++ post) := by
  have s0 : ∀ x y z w : ℝ, (pre ++ x :: y :: z :: post).set (3 * k) w = pre ++ w :: y :: z :: post :=
    fun x y z w => set_app _ _ _ _ _ h
  have s1 : ∀ x y z w : ℝ, (pre ++ x :: y :: z :: post).set (3 * k + 1) w = pre ++ x :: w :: z :: post := by
    intro x y z w
    have := set_app (pre ++ [x]) (z :: post) y w (3 * k + 1) (by simp [h])
    simpa using this
  have s2 : ∀ x y z w : ℝ, (pre ++ x :: y :: z :: post).set (3 * k + 2) w = pre ++ x :: y :: w :: post := by
    intro x y z w
    have := set_app (pre ++ [x, y]) post z w (3 * k + 2) (by simp [h])
    simpa using this
  have r0 : List.range 0 = [] := rfl
  have r1 : List.range 1 = [0] := rfl
  have r2 : List.range 2 = [0, 1] := rfl
  have r3 : List.range 3 = [0, 1, 2] := rfl
  unfold copyCoordinate
  match d with
  | 0 => simp [padded, r0]
  | 1 => simp [padded, r1, s0]
  | 2 => simp [padded, r2, s0, s1]
  | d + 3 =>
    rw [min_eq_right (by omega), r3]
    simp [padded, s0, s1, s2]

theorem pointLoop_eq (d : Nat) (phys : P → Nat → ℝ) (pc : Nat) (ps : List P) :
    ∀ (l : Nat) (pre : List ℝ) (m : Nat), pre.length = 3 * (pc + l) → pc + l + ps.length ≤ 2 ^ 32 →
      pointLoop d phys pc ps l (List.range (pc + l) ++ List.replicate (ps.length + m) 0)
          (pre ++ List.replicate (3 * (ps.length + m)) 0) =
        (l + ps.length, List.range (pc + l + ps.length) ++ List.replicate m 0,
          (pre ++ ps.flatMap fun p => padded d (phys p)) ++ List.replicate (3 * m) 0) := by
  induction ps with
  | nil => intro l pre m _ _; simp [pointLoop]
  | cons p ps ih =>
    intro l pre m h hb
    have hb' : pc + l + (ps.length + 1) ≤ 2 ^ 32 := by simpa using hb
    unfold pointLoop
    have e1 : List.replicate ((p :: ps).length + m) (0 : Nat) = 0 :: List.replicate (ps.length + m) 0 := by
      rw [List.length_cons, show ps.length + 1 + m = ps.length + m + 1 by omega, List.replicate_succ]
    have e2 : List.replicate (3 * ((p :: ps).length + m)) (0 : ℝ) =
        0 :: 0 :: 0 :: List.replicate (3 * (ps.length + m)) 0 := by
      rw [List.length_cons, show 3 * (ps.length + 1 + m) = 3 * (ps.length + m) + 3 by omega]
      rfl
    rw [e1, e2, set_app _ _ _ _ _ (by simp), copyCoordinate_eq d _ _ _ _ h]
    have w : wrap32 (pc + l) = pc + l := Nat.mod_eq_of_lt (by omega)
    rw [w]
    have e3 : List.range (pc + l) ++ (pc + l) :: List.replicate (ps.length + m) 0 =
        List.range (pc + (l + 1)) ++ List.replicate (ps.length + m) 0 := by
      rw [show pc + (l + 1) = pc + l + 1 by omega, List.range_succ, List.append_assoc]; rfl
    rw [e3, ← List.append_assoc pre, ih (l + 1) (pre ++ padded d (phys p)) m (by simp [padded, h]; omega) (by omega)]
    simp only [List.length_cons, List.flatMap_cons, List.append_assoc]
    congr 1
    · omega
    · congr 2
      congr 1
      omega

/-- The number of points of the elements up to and including each. -/
def offsetsFrom (cell : E → VtkElement P) : Nat → List E → List Nat
  | _, [] => []
  | n, e :: es => (n + (cell e).points.length) :: offsetsFrom cell (n + (cell e).points.length) es

theorem totalPoints_cons (cell : E → VtkElement P) (e : E) (es : List E) :
    totalPoints cell (e :: es) = (cell e).points.length + totalPoints cell es := by
  simp [totalPoints]

theorem countPoints_eq (find : E → Option (VtkElement P)) (cell : E → VtkElement P) (mesh : List E) :
    (∀ e ∈ mesh, find e = some (cell e)) → ∀ a b,
      countPoints find mesh (a, b) = some (a + totalPoints cell mesh, b + mesh.length) := by
  induction mesh with
  | nil => intro _ a b; simp [countPoints, totalPoints]
  | cons e es ih =>
    intro h a b
    unfold countPoints
    rw [h e (List.mem_cons_self ..)]
    show countPoints find es _ = _
    rw [ih (fun x hx => h x (List.mem_cons_of_mem _ hx)), totalPoints_cons]
    simp only [List.length_cons, Option.some.injEq, Prod.mk.injEq]
    omega

theorem countPoints_none (find : E → Option (VtkElement P)) (mesh : List E) :
    ∀ n, countPoints find mesh n = none ↔ ∃ e ∈ mesh, find e = none := by
  induction mesh with
  | nil => intro n; simp [countPoints]
  | cons e es ih =>
    intro n
    obtain ⟨a, b⟩ := n
    unfold countPoints
    cases h : find e with
    | none => simp [h]
    | some v =>
      show countPoints find es _ = none ↔ _
      rw [ih]
      simp [h]

theorem elementLoop_eq (d : Nat) (find : E → Option (VtkElement P)) (cell : E → VtkElement P) (phys : E → P → Nat → ℝ) (mesh : List E) :
    (∀ e ∈ mesh, find e = some (cell e)) →
    ∀ (pc : Nat) (pre : List ℝ) (ts os : List Nat), pre.length = 3 * pc → os.length = ts.length →
      pc + totalPoints cell mesh < 2 ^ 32 →
      ∃ n k, elementLoop d find phys mesh
          ⟨pc, ts.length, pre ++ List.replicate (3 * totalPoints cell mesh) 0, ts ++ List.replicate mesh.length 0,
            List.range pc ++ List.replicate (totalPoints cell mesh) 0, os ++ List.replicate mesh.length 0⟩ =
        some ⟨n, k, pre ++ mesh.flatMap fun e => (cell e).points.flatMap fun p => padded d (phys e p),
          ts ++ mesh.map fun e => (cell e).id, List.range (pc + totalPoints cell mesh), os ++ offsetsFrom cell pc mesh⟩ := by
  induction mesh with
  | nil => intro _ pc pre ts os _ _ _; exact ⟨pc, ts.length, by simp [elementLoop, totalPoints, offsetsFrom]⟩
  | cons e es ih =>
    intro h pc pre ts os hp ho hb
    unfold elementLoop
    rw [h e (List.mem_cons_self ..)]
    rw [totalPoints_cons] at hb
    have key := pointLoop_eq d (phys e) pc (cell e).points 0 pre (totalPoints cell es) (by simpa using hp) (by omega)
    simp only [Nat.add_zero, Nat.zero_add] at key
    simp only [totalPoints_cons, Option.bind_eq_bind, Option.bind_some, key]
    have w : wrap32 (pc + (cell e).points.length) = pc + (cell e).points.length := Nat.mod_eq_of_lt (by omega)
    rw [w]
    have ih' := ih (fun x hx => h x (List.mem_cons_of_mem _ hx)) (pc + (cell e).points.length)
      (pre ++ (cell e).points.flatMap fun p => padded d (phys e p)) (ts ++ [(cell e).id]) (os ++ [pc + (cell e).points.length])
      (by
        have : ((cell e).points.flatMap fun p => padded d (phys e p)).length = 3 * (cell e).points.length := by
          rw [List.length_flatMap]
          simp [padded, mul_comm]
        rw [List.length_append, hp, this]; omega) (by simp [ho]) (by omega)
    obtain ⟨n, k, hk⟩ := ih'
    refine ⟨n, k, ?_⟩
    have t1 : (ts ++ List.replicate (e :: es).length 0).set ts.length (cell e).id = (ts ++ [(cell e).id]) ++ List.replicate es.length 0 := by
      rw [List.length_cons, List.replicate_succ, set_app _ _ _ _ _ rfl]; simp
    have t2 : (os ++ List.replicate (e :: es).length 0).set ts.length (pc + (cell e).points.length) =
        (os ++ [pc + (cell e).points.length]) ++ List.replicate es.length 0 := by
      rw [List.length_cons, List.replicate_succ, set_app _ _ _ _ _ ho]; simp
    rw [t1, t2]
    have t3 : ts.length + 1 = (ts ++ [(cell e).id]).length := by simp
    rw [t3, hk]
    simp [offsetsFrom, Nat.add_assoc]

theorem elementLoop_none (d : Nat) (find : E → Option (VtkElement P)) (phys : E → P → Nat → ℝ) (mesh : List E) :
    ∀ s, elementLoop d find phys mesh s = none ↔ ∃ e ∈ mesh, find e = none := by
  induction mesh with
  | nil => intro s; simp [elementLoop]
  | cons e es ih =>
    intro s
    unfold elementLoop
    cases h : find e with
    | none => simp [h]
    | some v => simp only [Option.bind_eq_bind, Option.bind_some, ih]; simp [h]

/-- The grid written for a mesh with cells for all elements. -/
theorem writeGrid_eq (d : Nat) (find : E → Option (VtkElement P)) (cell : E → VtkElement P) (phys : E → P → Nat → ℝ) (mesh : List E)
    (h : ∀ e ∈ mesh, find e = some (cell e)) (hb : totalPoints cell mesh < 2 ^ 32) :
    writeGrid d find phys mesh = some
      { numberOfPoints := totalPoints cell mesh, numberOfCells := mesh.length,
        coords := mesh.flatMap fun e => (cell e).points.flatMap fun p => padded d (phys e p),
        conn := List.range (totalPoints cell mesh), offsets := offsetsFrom cell 0 mesh,
        types := mesh.map fun e => (cell e).id } := by
  unfold writeGrid
  rw [countPoints_eq find cell mesh h]
  obtain ⟨n, k, hk⟩ := elementLoop_eq d find cell phys mesh h 0 [] [] [] rfl rfl (by omega)
  simp only [List.nil_append, List.length_nil, List.range_zero, Nat.zero_add] at hk
  simp only [Option.bind_eq_bind, Option.bind_some, Nat.zero_add, mul_comm (totalPoints cell mesh) 3, hk]

/-! ## Reading -/

theorem offsetsFrom_getD (cell : E → VtkElement P) (mesh : List E) : ∀ (n i : Nat), i < mesh.length →
    (offsetsFrom cell n mesh).getD i 0 = n + ((mesh.map fun e => (cell e).points.length).take (i + 1)).sum := by
  induction mesh with
  | nil => intro n i h; simp at h
  | cons e es ih =>
    intro n i h
    cases i with
    | zero => simp [offsetsFrom]
    | succ i =>
      have := ih (n + (cell e).points.length) i (by simpa using h)
      simp only [offsetsFrom, List.getD_cons_succ, this, List.map_cons, List.take_succ_cons, List.sum_cons]
      omega

theorem row_flatten (c : Nat) (rows : List (List ℝ)) (h : ∀ r ∈ rows, r.length = c) :
    (List.range rows.length).map (row c rows.flatten) = rows := by
  induction rows with
  | nil => rfl
  | cons r rows ih =>
    have hr : r.length = c := h r (List.mem_cons_self ..)
    rw [List.length_cons, List.range_succ_eq_map, List.map_cons, List.map_map]
    congr 1
    · apply List.ext_getElem
      · simp [row, hr]
      · intro i h1 h2
        simp only [row, List.getElem_map, List.getElem_range, Nat.mul_zero, Nat.zero_add, List.flatten_cons]
        rw [List.getD_append _ _ _ _ h2, List.getD_eq_getElem _ _ h2]
    · conv_rhs => rw [← ih fun x hx => h x (List.mem_cons_of_mem _ hx)]
      refine List.map_congr_left fun k _ => ?_
      simp only [Function.comp_apply, row, List.flatten_cons]
      refine List.map_congr_left fun j _ => ?_
      rw [List.getD_append_right _ _ _ _ (by rw [hr, Nat.succ_eq_add_one, Nat.mul_add]; omega), hr]
      congr 1
      rw [Nat.succ_eq_add_one, Nat.mul_add]; omega

/-- Reading an array of `c` values for each point, in the order of the cells. -/
theorem read_eq (g : Grid) (cell : E → VtkElement P) (mesh : List E) (hc : g.numberOfCells = mesh.length)
    (hconn : g.conn = List.range (totalPoints cell mesh)) (ho : g.offsets = offsetsFrom cell 0 mesh)
    (c : Nat) (f : E → P → List ℝ) (hf : ∀ e p, (f e p).length = c) :
    g.read c (mesh.flatMap fun e => (cell e).points.flatMap (f e)) = mesh.map fun e => (cell e).points.map (f e) := by
  have hflat : (mesh.flatMap fun e => (cell e).points.flatMap (f e)) =
      ((mesh.map fun e => (cell e).points.map (f e)).flatten).flatten := by
    simp [List.flatMap_def, List.flatten_flatten, List.map_map, Function.comp_def]
  have hlen : ((mesh.map fun e => (cell e).points.map (f e)).flatten).length = totalPoints cell mesh := by
    simp [totalPoints, List.length_flatten, List.map_map, Function.comp_def]
  have hrow := row_flatten c ((mesh.map fun e => (cell e).points.map (f e)).flatten) (by
    intro r hr
    simp only [List.mem_flatten, List.mem_map] at hr
    obtain ⟨l, ⟨e, _, rfl⟩, hr⟩ := hr
    simp only [List.mem_map] at hr
    obtain ⟨p, _, rfl⟩ := hr
    exact hf e p)
  rw [hlen] at hrow
  rw [hflat]
  apply List.ext_getElem
  · simp [Grid.read, hc]
  · intro i h1 h2
    have hi : i < mesh.length := by simpa using h2
    simp only [Grid.read, List.getElem_map, List.getElem_range, Grid.cellPoints, hconn, ho]
    rw [List.map_drop, List.map_take, hrow]
    have e1 := offsetsFrom_getD cell mesh 0 i hi
    have e2 : (if i = 0 then 0 else (offsetsFrom cell 0 mesh).getD (i - 1) 0) = ((mesh.map fun e => (cell e).points.length).take i).sum := by
      split
      · next h => subst h; simp
      · next h =>
        rw [offsetsFrom_getD cell mesh 0 (i - 1) (by omega), show i - 1 + 1 = i by omega, Nat.zero_add]
    rw [e1, e2, Nat.zero_add]
    have := List.drop_take_succ_flatten_eq_getElem (mesh.map fun e => (cell e).points.map (f e)) i (by simpa using hi)
    simp only [List.map_map, Function.comp_def, List.length_map] at this
    rw [this]
    simp

end Verif.VtkFile
