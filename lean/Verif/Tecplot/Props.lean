import Verif.Tecplot.Model
import Verif.ElementShape.Model
import Mathlib.Data.List.Flatten
import Mathlib.Algebra.BigOperators.Group.List.Basic
import Mathlib.Algebra.Order.Ring.Nat
import Mathlib.Data.Nat.Digits.Defs
import Mathlib.Tactic.NormNum
import Mathlib.Tactic.Ring

/-!
# Properties of the Tecplot files

C116 (the zone of a mesh), C117 (the corners of a shape), C118 (zones of the same geometry, the text of the header).
-/
namespace Verif.Tecplot
open VtkFile (Geometry)

variable {E P D : Type}

/-! ## C117: the corners of a shape in the order of a line, quadrilateral or brick -/

/-- Tecplot, data format guide: the edges of a line segment, a quadrilateral and a brick. -/
def cellEdges : Nat → List (Nat × Nat)
  | 1 => [(0, 1)]
  | 2 => [(0, 1), (1, 2), (2, 3), (3, 0)]
  | 3 => [(0, 1), (1, 2), (2, 3), (3, 0), (4, 5), (5, 6), (6, 7), (7, 4), (0, 4), (1, 5), (2, 6), (3, 7)]
  | _ => []

/-- The corners fill a line, quadrilateral or brick; each corner of the shape is among them; each edge of the cell is an edge of the shape or joins a corner to itself; each edge of the shape is an
edge of the cell. -/
def Fits (g : Geometry) (shape : ElementShape.Shape) : Prop :=
  ∃ c, corners g = some c ∧ c.length = 2 ^ shape.dim ∧ (∀ i, i ∈ c ↔ i < shape.count 0) ∧
    (∀ e ∈ cellEdges shape.dim, c.getD e.1 0 = c.getD e.2 0 ∨ [c.getD e.1 0, c.getD e.2 0] ∈ shape.parts 1 ∨ [c.getD e.2 0, c.getD e.1 0] ∈ shape.parts 1) ∧
    ∀ x ∈ shape.parts 1, ∃ e ∈ cellEdges shape.dim, x = [c.getD e.1 0, c.getD e.2 0] ∨ x = [c.getD e.2 0, c.getD e.1 0]

/-- **C117.** The corners of each reference shape of dimension one to three are written such that the line, quadrilateral or brick of the file is the shape, possibly with corners that coincide. -/
theorem corners_fit :
    Fits .line ElementShape.line ∧ Fits .triangle ElementShape.triangle ∧ Fits .square ElementShape.square ∧ Fits .tetrahedron ElementShape.tetrahedron ∧ Fits .cube ElementShape.cube ∧
      Fits .prism ElementShape.triangularPrism ∧ Fits .pyramid ElementShape.pyramid := by
  have lift : ∀ (c : List Nat) (n : Nat), (∀ i ∈ c, i < n) → (∀ i < n, i ∈ c) → ∀ i, i ∈ c ↔ i < n := fun c n h1 h2 i => ⟨h1 i, h2 i⟩
  refine ⟨⟨_, rfl, rfl, lift _ _ (by decide) (by decide), by decide, by decide⟩, ⟨_, rfl, rfl, lift _ _ (by decide) (by decide), by decide, by decide⟩,
    ⟨_, rfl, rfl, lift _ _ (by decide) (by decide), by decide, by decide⟩, ⟨_, rfl, rfl, lift _ _ (by decide) (by decide), by decide, by decide⟩,
    ⟨_, rfl, rfl, lift _ _ (by decide) (by decide), by decide, by decide⟩, ⟨_, rfl, rfl, lift _ _ (by decide) (by decide), by decide, by decide⟩,
    ⟨_, rfl, rfl, lift _ _ (by decide) (by decide), by decide, by decide⟩⟩

/-- The dimension of a shape. -/
def dimension : Geometry → Nat
  | .point => 0
  | .line => 1
  | .triangle | .square => 2
  | .hypercube => 4
  | _ => 3

theorem corners_length (g : Geometry) (c : List Nat) (h : corners g = some c) : c.length = 2 ^ dimension g := by
  cases g <;> simp only [corners, sequence, Option.map_some, Option.map_none, Option.some.injEq, reduceCtorEq] at h <;> subst h <;> rfl

theorem corners_some (g : Geometry) (h1 : 1 ≤ dimension g) (h3 : dimension g ≤ 3) : ∃ c, corners g = some c := by
  cases g <;> simp [dimension] at h1 h3 <;> exact ⟨_, rfl⟩

/-! ## C116: the zone of a mesh -/

theorem mapM_some_of {α β : Type} (f : α → Option β) (g : α → β) (l : List α) (h : ∀ a ∈ l, f a = some (g a)) : l.mapM f = some (l.map g) := by
  induction l with
  | nil => rfl
  | cons a l ih => rw [List.mapM_cons, h a (List.mem_cons_self ..), ih fun x hx => h x (List.mem_cons_of_mem _ hx)]; rfl

/-- The line of a corner. -/
def line (dimensions : List Nat) (same : Bool) (x : Nat → ℝ) (data : D) : List ℝ × D := (if same then [] else dimensions.map x, data)

/-- The corners of a shape that has some. -/
def cornersOf (g : Geometry) : List Nat := (corners g).getD []

theorem elementLines_eq (d : Nat) (dimensions : List Nat) (same : Bool) (g : Geometry) (node : Nat → P) (phys : P → Nat → ℝ) (data : P → D) (hd : ∀ i ∈ dimensions, i < d)
    (h1 : 1 ≤ dimension g) (h3 : dimension g ≤ 3) :
    elementLines d dimensions same g node phys data = some ((cornersOf g).map fun i => line dimensions same (phys (node i)) (data (node i))) := by
  obtain ⟨c, hc⟩ := corners_some g h1 h3
  unfold elementLines
  simp only [cornersOf, hc, Option.getD_some, Option.bind_eq_bind, Option.bind_some]
  refine mapM_some_of _ _ _ fun i _ => ?_
  have : coordinates d dimensions (phys (node i)) = some (dimensions.map (phys (node i))) := mapM_some_of _ _ _ fun j hj => if_pos (hd j hj)
  cases same <;> simp [line, this]

/-- The lines of a mesh, element by element. -/
def meshLines (dimensions : List Nat) (same : Bool) (geometry : E → Geometry) (node : E → Nat → P) (phys : E → P → Nat → ℝ) (mesh : List E) (data : E → P → D) : List (List (List ℝ × D)) :=
  mesh.map fun e => (cornersOf (geometry e)).map fun i => line dimensions same (phys e (node e i)) (data e (node e i))

theorem write_eq (d : Nat) (dimensions : List Nat) (geometry : E → Geometry) (node : E → Nat → P) (phys : E → P → Nat → ℝ) (mesh : List E) (same : Bool) (data : E → P → D) (s : State)
    (h1 : 1 ≤ d) (h3 : d ≤ 3) (hd : ∀ i ∈ dimensions, i < d) (hm : ∀ e ∈ mesh, dimension (geometry e) = d) :
    write d dimensions geometry node phys mesh same data s =
      some (if same then (⟨s.nodes, s.elements, true, (meshLines dimensions same geometry node phys mesh data).flatten, []⟩, s)
        else (⟨mesh.length * 2 ^ d, mesh.length, false, (meshLines dimensions same geometry node phys mesh data).flatten, connectivity dimensions.length mesh.length 1⟩,
          ⟨mesh.length * 2 ^ d, mesh.length⟩)) := by
  have hl : mesh.mapM (fun e => elementLines d dimensions same (geometry e) (node e) (phys e) (data e)) = some (meshLines dimensions same geometry node phys mesh data) :=
    mapM_some_of _ _ _ fun e he => elementLines_eq d dimensions same _ _ _ _ hd (by rw [hm e he]; exact h1) (by rw [hm e he]; exact h3)
  have hs : ((meshLines dimensions same geometry node phys mesh data).map List.length).sum = mesh.length * 2 ^ d := by
    unfold meshLines
    rw [List.map_map]
    rw [List.map_congr_left (g := fun _ => 2 ^ d) (fun e he => by
      obtain ⟨c, hc⟩ := corners_some (geometry e) (by rw [hm e he]; exact h1) (by rw [hm e he]; exact h3)
      simp only [Function.comp_apply, List.length_map, cornersOf, hc, Option.getD_some, corners_length _ c hc, hm e he])]
    simp
  unfold write
  simp only [hl, Option.bind_eq_bind, Option.bind_some, hs]
  cases same <;> simp

theorem connectivity_length (k : Nat) : ∀ (e c : Nat), (connectivity k e c).length = e := by
  intro e
  induction e with
  | zero => intro c; rfl
  | succ e ih => intro c; simp [connectivity, ih]

theorem connectivity_getElem (k : Nat) : ∀ (e c i : Nat) (h : i < (connectivity k e c).length), (connectivity k e c)[i] = List.range' (c + i * 2 ^ k) (2 ^ k) := by
  intro e
  induction e with
  | zero => intro c i h; simp [connectivity] at h
  | succ e ih =>
    intro c i h
    cases i with
    | zero => simp [connectivity]
    | succ i =>
      simp only [connectivity, List.getElem_cons_succ]
      rw [ih]
      congr 1
      ring

/-- **C116 (partial: all coordinates are written; see `slice_nodes`).** A zone of a mesh of dimension one to three, written with as many coordinates as the mesh has: the header gives the numbers of
lines and of elements, and the lines that the connectivity gives to an element hold the coordinates and the data of its corners. -/
theorem zone_faithful_partial (d : Nat) (dimensions : List Nat) (geometry : E → Geometry) (node : E → Nat → P) (phys : E → P → Nat → ℝ) (mesh : List E) (data : E → P → D) (s : State)
    (h1 : 1 ≤ d) (h3 : d ≤ 3) (hd : ∀ i ∈ dimensions, i < d) (hk : dimensions.length = d) (hm : ∀ e ∈ mesh, dimension (geometry e) = d) :
    ∃ z s', write d dimensions geometry node phys mesh false data s = some (z, s') ∧ z.nodes = z.lines.length ∧ z.elements = mesh.length ∧ z.conn.length = mesh.length ∧
      ∀ (i : Nat) (e : E), mesh[i]? = some e → ∃ c, corners (geometry e) = some c ∧ ∃ row, z.conn[i]? = some row ∧ row.length = 2 ^ d ∧
        row.map (fun n => z.lines[n - 1]?) = c.map fun j => some (dimensions.map (phys e (node e j)), data e (node e j)) := by
  refine ⟨_, _, write_eq d dimensions geometry node phys mesh false data s h1 h3 hd hm, ?_, rfl, ?_, ?_⟩
  · simp only [Bool.false_eq_true, if_false, List.length_flatten, meshLines, List.map_map]
    rw [List.map_congr_left (g := fun _ => 2 ^ d) (fun e he => by
      obtain ⟨c, hc⟩ := corners_some (geometry e) (by rw [hm e he]; exact h1) (by rw [hm e he]; exact h3)
      simp only [Function.comp_apply, List.length_map, cornersOf, hc, Option.getD_some, corners_length _ c hc, hm e he])]
    simp
  · simp [connectivity_length]
  · intro i e he
    obtain ⟨hi, he'⟩ := List.getElem?_eq_some_iff.1 he
    have hme := hm e (List.mem_of_getElem? he)
    obtain ⟨c, hc⟩ := corners_some (geometry e) (by rw [hme]; exact h1) (by rw [hme]; exact h3)
    refine ⟨c, hc, ?_⟩
    simp only [Bool.false_eq_true, if_false]
    refine ⟨_, List.getElem?_eq_getElem (by rw [connectivity_length]; exact hi), ?_, ?_⟩
    · rw [connectivity_getElem, List.length_range', hk]
    · rw [connectivity_getElem, hk]
      have hl := corners_length _ c hc
      rw [hme] at hl
      have hsum : ∀ m, m ≤ mesh.length → (((meshLines dimensions false geometry node phys mesh data).map List.length).take m).sum = m * 2 ^ d := by
        intro m hmm
        unfold meshLines
        rw [List.map_map, ← List.map_take]
        rw [List.map_congr_left (g := fun _ => 2 ^ d) (fun e he => by
          have he := List.mem_of_mem_take he
          obtain ⟨c, hc⟩ := corners_some (geometry e) (by rw [hm e he]; exact h1) (by rw [hm e he]; exact h3)
          simp only [Function.comp_apply, List.length_map, cornersOf, hc, Option.getD_some, corners_length _ c hc, hm e he])]
        simp [hmm]
      have key := List.drop_take_succ_flatten_eq_getElem (meshLines dimensions false geometry node phys mesh data) i (by simpa [meshLines] using hi)
      rw [hsum i hi.le, hsum (i + 1) hi] at key
      have hrow : (meshLines dimensions false geometry node phys mesh data)[i]'(by simpa [meshLines] using hi) =
          c.map fun j => (dimensions.map (phys e (node e j)), data e (node e j)) := by
        simp only [meshLines, List.getElem_map, he', cornersOf, hc, Option.getD_some, line, Bool.false_eq_true, if_false]
      rw [hrow] at key
      apply List.ext_getElem
      · simp [hl]
      · intro j hj1 hj2
        have hj : j < c.length := by simpa using hj2
        simp only [List.getElem_map, List.getElem_range']
        have := congrArg (fun l => l[j]?) key
        simp only [List.getElem?_drop, List.getElem?_map, List.getElem?_eq_getElem hj, Option.map_some] at this
        rw [List.getElem?_take_of_lt (by rw [hl] at hj; rw [Nat.add_mul]; omega)] at this
        rw [← this]
        congr 1
        omega

/-- Two lines `[0, 1]` and `[1, 3]` with the data `x`. -/
example : ∃ z s', write 1 [0] (fun _ : ℝ × ℝ => .line) (fun _ i => (if i = 0 then -1 else 1 : ℝ)) (fun e x _ => (e.1 + e.2) / 2 + x * (e.2 - e.1) / 2) [(0, 1), (1, 3)] false (fun _ x => x) ⟨0, 0⟩ =
    some (z, s') ∧ z.nodes = 4 ∧ z.elements = 2 ∧ z.conn = [[1, 2], [3, 4]] ∧ z.lines = [([0], -1), ([1], 1), ([1], -1), ([3], 1)] := by
  refine ⟨_, _, write_eq 1 [0] _ _ _ _ false _ _ (by omega) (by omega) (by decide) (fun _ _ => rfl), rfl, rfl, rfl, ?_⟩
  simp only [Bool.false_eq_true, if_false, meshLines, cornersOf, corners, sequence, visit, Option.map_some, Option.getD_some, List.length_cons, List.length_nil, List.map_cons, List.map_nil, line,
    List.flatten_cons, List.flatten_nil]
  norm_num

/-- **C116 (negation).** With fewer coordinates than the dimension of the mesh the zone still holds all corners of each element, but its connectivity takes only a part of them: it has fewer entries
than the header has nodes, and what it gives to the second element are lines of the first. -/
theorem slice_nodes (d : Nat) (dimensions : List Nat) (geometry : E → Geometry) (node : E → Nat → P) (phys : E → P → Nat → ℝ) (mesh : List E) (data : E → P → D) (s : State)
    (h1 : 1 ≤ d) (h3 : d ≤ 3) (hd : ∀ i ∈ dimensions, i < d) (hk : dimensions.length < d) (hm : ∀ e ∈ mesh, dimension (geometry e) = d) (h2 : 2 ≤ mesh.length) :
    ∃ z s', write d dimensions geometry node phys mesh false data s = some (z, s') ∧ z.nodes = mesh.length * 2 ^ d ∧ z.conn.flatten.length < z.nodes ∧
      ∃ row, z.conn[1]? = some row ∧ row ≠ [] ∧ ∀ n ∈ row, 1 ≤ n ∧ n ≤ 2 ^ d := by
  have hp : 2 ^ dimensions.length * 2 ≤ 2 ^ d := by rw [← pow_succ]; exact Nat.pow_le_pow_right (by omega) hk
  have hpos : 0 < 2 ^ dimensions.length := Nat.two_pow_pos _
  refine ⟨_, _, write_eq d dimensions geometry node phys mesh false data s h1 h3 hd hm, rfl, ?_, ?_⟩
  · simp only [Bool.false_eq_true, if_false, List.length_flatten]
    have : ∀ (e c : Nat), ((connectivity dimensions.length e c).map List.length).sum = e * 2 ^ dimensions.length := by
      intro e
      induction e with
      | zero => intro c; simp [connectivity]
      | succ e ih => intro c; simp only [connectivity, List.map_cons, List.sum_cons, ih, List.length_range']; ring
    rw [this]
    exact Nat.mul_lt_mul_of_pos_left (by omega) (by omega)
  · simp only [Bool.false_eq_true, if_false]
    refine ⟨_, List.getElem?_eq_getElem (by rw [connectivity_length]; omega), ?_, ?_⟩
    · rw [connectivity_getElem]
      intro h
      have := congrArg List.length h
      simp at this
    · intro n hn
      rw [connectivity_getElem, List.mem_range'_1] at hn
      omega

/-- **C116.** A mesh is refused if it has an element of which the shape is not supported (`FATAL`, `ERROR`). -/
theorem zone_refused (d : Nat) (dimensions : List Nat) (geometry : E → Geometry) (node : E → Nat → P) (phys : E → P → Nat → ℝ) (mesh : List E) (same : Bool) (data : E → P → D) (s : State)
    (h : ∃ e ∈ mesh, geometry e = .hypercube ∨ geometry e = .point) : write d dimensions geometry node phys mesh same data s = none := by
  have : mesh.mapM (fun e => elementLines d dimensions same (geometry e) (node e) (phys e) (data e)) = none := by
    obtain ⟨e, he, hg⟩ := h
    induction mesh with
    | nil => simp at he
    | cons a l ih =>
      rw [List.mapM_cons]
      rcases List.mem_cons.1 he with rfl | he
      · have : elementLines d dimensions same (geometry e) (node e) (phys e) (data e) = none := by rcases hg with hg | hg <;> rw [hg] <;> rfl
        rw [this]; rfl
      · rw [ih he]
        cases elementLines d dimensions same (geometry a) (node a) (phys a) (data a) <;> rfl
  unfold write
  rw [this]
  rfl

/-! ## C118: zones of the same geometry, and the text of the header -/

/-- **C118 (partial: after a zone with as many elements; see `same_first`).** After a zone with coordinates, a zone of the same geometry has a header with the numbers of its lines and elements if the
mesh has as many elements as that of the last zone with coordinates, whatever zones of the same geometry are between them. -/
theorem same_geometry_partial (d : Nat) (dimensions : List Nat) (geometry : E → Geometry) (node : E → Nat → P) (phys : E → P → Nat → ℝ) (mesh mesh' : List E) (data data' : E → P → D) (s : State)
    (h1 : 1 ≤ d) (h3 : d ≤ 3) (hd : ∀ i ∈ dimensions, i < d) (hm : ∀ e ∈ mesh, dimension (geometry e) = d) (hm' : ∀ e ∈ mesh', dimension (geometry e) = d) (hl : mesh.length = mesh'.length) :
    ∃ z s', write d dimensions geometry node phys mesh false data s = some (z, s') ∧ ∃ z', write d dimensions geometry node phys mesh' true data' s' = some (z', s') ∧
      z'.nodes = z'.lines.length ∧ z'.elements = mesh'.length ∧ z'.nodes = z.nodes ∧ z'.reused = true := by
  refine ⟨_, _, write_eq d dimensions geometry node phys mesh false data s h1 h3 hd hm, _, write_eq d dimensions geometry node phys mesh' true data' _ h1 h3 hd hm', ?_, ?_, rfl, rfl⟩
  · simp only [Bool.false_eq_true, if_false, if_true, List.length_flatten, meshLines, List.map_map]
    rw [List.map_congr_left (g := fun _ => 2 ^ d) (fun e he => by
      obtain ⟨c, hc⟩ := corners_some (geometry e) (by rw [hm' e he]; exact h1) (by rw [hm' e he]; exact h3)
      simp only [Function.comp_apply, List.length_map, cornersOf, hc, Option.getD_some, corners_length _ c hc, hm' e he])]
    simp [hl]
  · simp [hl]

/-- **C118 (negation).** The first zone of a file, written as one of the same geometry, has a header without nodes and elements, whatever its lines. -/
theorem same_first (d : Nat) (dimensions : List Nat) (geometry : E → Geometry) (node : E → Nat → P) (phys : E → P → Nat → ℝ) (mesh : List E) (data : E → P → D)
    (h1 : 1 ≤ d) (h3 : d ≤ 3) (hd : ∀ i ∈ dimensions, i < d) (hm : ∀ e ∈ mesh, dimension (geometry e) = d) (hne : mesh ≠ []) :
    ∃ z s', write d dimensions geometry node phys mesh true data ⟨0, 0⟩ = some (z, s') ∧ z.nodes = 0 ∧ z.elements = 0 ∧ z.lines ≠ [] := by
  refine ⟨_, _, write_eq d dimensions geometry node phys mesh true data _ h1 h3 hd hm, rfl, rfl, ?_⟩
  obtain ⟨e, es, rfl⟩ := List.exists_cons_of_ne_nil hne
  obtain ⟨c, hc⟩ := corners_some (geometry e) (by rw [hm e (List.mem_cons_self ..)]; exact h1) (by rw [hm e (List.mem_cons_self ..)]; exact h3)
  have hl := corners_length _ c hc
  simp only [if_true, meshLines, List.map_cons, List.flatten_cons, cornersOf, hc, Option.getD_some]
  intro h
  have := congrArg List.length h
  simp [hl] at this

/-- **C118.** The numbers of nodes and elements, if they have at most ten digits, end up in the header without changing the text between them. -/
theorem header_counts (nodes elements : Nat) (hn : nodes < 10 ^ 10) (he : elements < 10 ^ 10) :
    countsText nodes elements = Nat.toDigits 10 nodes ++ List.replicate (10 - (Nat.toDigits 10 nodes).length) ' ' ++ [',', ' ', 'E', ' ', '=', ' '] ++
      Nat.toDigits 10 elements ++ List.replicate (10 - (Nat.toDigits 10 elements).length) ' ' ++ ['\n'] := by
  have ln : (Nat.toDigits 10 nodes).length ≤ 10 := Nat.toDigits_length _ _ _ (by norm_num) hn
  have le : (Nat.toDigits 10 elements).length ≤ 10 := Nat.toDigits_length _ _ _ (by norm_num) he
  unfold countsText overwrite
  generalize Nat.toDigits 10 nodes = a at *
  generalize Nat.toDigits 10 elements = b at *
  simp only [List.take_zero, List.nil_append, Nat.zero_add]
  have e1 : (List.replicate 10 ' ' ++ [',', ' ', 'E', ' ', '=', ' '] ++ List.replicate 10 ' ' ++ ['\n']).drop a.length =
      List.replicate (10 - a.length) ' ' ++ ([',', ' ', 'E', ' ', '=', ' '] ++ List.replicate 10 ' ' ++ ['\n']) := by
    rw [List.append_assoc, List.append_assoc, List.drop_append_of_le_length (by simpa using ln), List.drop_replicate, List.append_assoc]
  rw [e1]
  have e2 : a ++ (List.replicate (10 - a.length) ' ' ++ ([',', ' ', 'E', ' ', '=', ' '] ++ List.replicate 10 ' ' ++ ['\n'])) =
      (a ++ List.replicate (10 - a.length) ' ' ++ [',', ' ', 'E', ' ', '=', ' ']) ++ (List.replicate 10 ' ' ++ ['\n']) := by simp
  rw [e2]
  have l16 : (a ++ List.replicate (10 - a.length) ' ' ++ [',', ' ', 'E', ' ', '=', ' ']).length = 16 := by simp; omega
  rw [List.take_append_of_le_length (by omega), List.take_of_length_le (by omega), ← l16, List.drop_append, List.drop_of_length_le (by omega), Nat.add_sub_cancel_left,
    List.drop_append_of_le_length (by simpa using le), List.drop_replicate]
  simp

/-- **C118.** The names of the variables, given with commas between them, are each put in quotes. -/
theorem variables_quoted (names : List (List Char)) (hne : names ≠ []) (h : ∀ n ∈ names, ',' ∉ n) :
    variableString ([','].intercalate names) = [',', ' '].intercalate (names.map fun n => '"' :: n ++ ['"']) := by
  have nocomma : ∀ n : List Char, ',' ∉ n → ∀ rest, replaceCommas (n ++ rest) = n ++ replaceCommas rest := by
    intro n
    induction n with
    | nil => intro _ rest; rfl
    | cons c cs ih =>
      intro hc rest
      simp only [List.mem_cons, not_or] at hc
      simp only [List.cons_append, replaceCommas]
      rw [if_neg (fun e => hc.1 e.symm), ih hc.2]
  obtain ⟨n, ns, rfl⟩ := List.exists_cons_of_ne_nil hne
  clear hne
  induction ns generalizing n with
  | nil =>
    have := nocomma n (h n (List.mem_cons_self ..)) []
    simp only [List.append_nil, replaceCommas] at this
    simp [variableString, List.intercalate, this]
  | cons m ms ih =>
    have hm := ih m (fun x hx => h x (List.mem_cons_of_mem _ hx))
    have e1 : [','].intercalate (n :: m :: ms) = n ++ ',' :: [','].intercalate (m :: ms) := by simp [List.intercalate]
    have e2 : [',', ' '].intercalate ((n :: m :: ms).map fun n => '"' :: n ++ ['"']) = ('"' :: n ++ ['"']) ++ ([',', ' '] ++ [',', ' '].intercalate ((m :: ms).map fun n => '"' :: n ++ ['"'])) := by
      simp [List.intercalate]
    rw [e1, e2, ← hm]
    unfold variableString
    rw [nocomma n (h n (List.mem_cons_self ..))]
    simp [replaceCommas]

example : variableString "rho,u,v".toList = "\"rho\", \"u\", \"v\"".toList := by decide

end Verif.Tecplot
