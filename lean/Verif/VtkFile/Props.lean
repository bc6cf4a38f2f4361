import Verif.VtkFile.LemmasData
import Verif.Base64.Props
import Mathlib.Data.Nat.Digits.Defs
import Mathlib.Tactic.NormNum

/-!
# Properties of the VTK files

C111 (the mesh), C112 (the data at the points), C113 (the encoding of an array).
-/
namespace Verif.VtkFile

variable {E P T : Type}

/-! ## C111: the mesh in the file is the mesh of the problem -/

/-- **C111.** A mesh of which all elements have a VTK cell, with less than `2 ^ 32` points on a process, is written such that a reader finds the cells of the elements in their order: cell `i`
has the type of element `i` and its points are the images of the points of the cell under the map of element `i`, with zeros for the missing coordinates. Each point belongs to one cell. -/
theorem grid_cells (d : Nat) (find : E → Option (VtkElement P)) (cell : E → VtkElement P) (phys : E → P → Nat → ℝ) (mesh : List E) (h : ∀ e ∈ mesh, find e = some (cell e))
    (hb : totalPoints cell mesh < 2 ^ 32) :
    ∃ g, writeGrid d find phys mesh = some g ∧ g.numberOfCells = mesh.length ∧ g.numberOfPoints = totalPoints cell mesh ∧
      g.types = mesh.map (fun e => (cell e).id) ∧ g.offsets.length = g.numberOfCells ∧ g.coords.length = 3 * g.numberOfPoints ∧
      g.read 3 g.coords = mesh.map (fun e => (cell e).points.map fun p => padded d (phys e p)) ∧
      (List.range g.numberOfCells).flatMap g.cellPoints = List.range g.numberOfPoints := by
  refine ⟨_, writeGrid_eq d find cell phys mesh h hb, rfl, rfl, rfl, ?_, ?_, ?_, ?_⟩
  · show (offsetsFrom cell 0 mesh).length = mesh.length
    generalize 0 = n
    induction mesh generalizing n with
    | nil => rfl
    | cons e es ih =>
      simp only [offsetsFrom, List.length_cons]
      rw [ih (fun x hx => h x (List.mem_cons_of_mem _ hx)) (by rw [totalPoints_cons] at hb; omega)]
  · simp only [List.length_flatMap, totalPoints]
    clear hb h
    induction mesh with
    | nil => rfl
    | cons e es ih =>
      simp only [List.map_cons, List.sum_cons, ih, Nat.mul_add]
      congr 1
      simp [padded, mul_comm]
  · exact read_eq _ cell mesh rfl rfl rfl 3 (fun e p => padded d (phys e p)) (fun _ _ => rfl)
  · have key := offsetsFrom_getD cell mesh 0
    show (List.range mesh.length).flatMap (fun i => ((List.range (totalPoints cell mesh)).take ((offsetsFrom cell 0 mesh).getD i 0)).drop
      (if i = 0 then 0 else (offsetsFrom cell 0 mesh).getD (i - 1) 0)) = List.range (totalPoints cell mesh)
    have step : ∀ m, m ≤ mesh.length → (List.range m).flatMap (fun i => ((List.range (totalPoints cell mesh)).take ((offsetsFrom cell 0 mesh).getD i 0)).drop
      (if i = 0 then 0 else (offsetsFrom cell 0 mesh).getD (i - 1) 0)) = (List.range (totalPoints cell mesh)).take ((mesh.map fun e => (cell e).points.length).take m).sum := by
      intro m
      induction m with
      | zero => intro _; simp
      | succ m ih =>
        intro hm
        rw [List.range_succ, List.flatMap_append, ih (by omega)]
        simp only [List.flatMap_cons, List.flatMap_nil, List.append_nil]
        have e1 := key m (by omega)
        have e2 : (if m = 0 then 0 else (offsetsFrom cell 0 mesh).getD (m - 1) 0) = ((mesh.map fun e => (cell e).points.length).take m).sum := by
          split
          · next h => subst h; simp
          · next h => rw [key (m - 1) (by omega), show m - 1 + 1 = m by omega, Nat.zero_add]
        rw [e1, e2, Nat.zero_add]
        have hle : ((mesh.map fun e => (cell e).points.length).take m).sum ≤ ((mesh.map fun e => (cell e).points.length).take (m + 1)).sum := by
          rw [List.take_add_one, List.sum_append]; omega
        generalize ((mesh.map fun e => (cell e).points.length).take m).sum = a at *
        generalize ((mesh.map fun e => (cell e).points.length).take (m + 1)).sum = b at *
        conv_rhs => rw [← List.take_append_drop a ((List.range (totalPoints cell mesh)).take b), List.take_take, min_eq_left hle]
    rw [step mesh.length (le_refl _)]
    refine List.take_of_length_le ?_
    rw [List.take_of_length_le (by simp), List.length_range]
    exact le_refl _

/-- **C111.** A mesh is refused exactly if some element has no VTK cell; then no file is completed. -/
theorem grid_refused (d : Nat) (find : E → Option (VtkElement P)) (phys : E → P → Nat → ℝ) (mesh : List E) :
    writeGrid d find phys mesh = none ↔ ∃ e ∈ mesh, find e = none := by
  unfold writeGrid
  cases h : countPoints find mesh (0, 0) with
  | none => simp only [Option.bind_eq_bind, Option.bind_none, true_iff]; exact (countPoints_none find mesh _).1 h
  | some n =>
    have hn : ¬ ∃ e ∈ mesh, find e = none := by rw [← countPoints_none find mesh (0, 0), h]; simp
    obtain ⟨a, b⟩ := n
    simp only [Option.bind_eq_bind, Option.bind_some]
    cases h2 : elementLoop d find phys mesh ⟨0, 0, List.replicate (a * 3) 0, List.replicate b 0, List.replicate a 0, List.replicate b 0⟩ with
    | none => simp only [Option.bind_none, true_iff]; exact (elementLoop_none d find phys mesh _).1 h2
    | some s => simp only [Option.bind_some, reduceCtorEq, false_iff]; exact hn

/-- A line and two of its cells: the cell `[a, b]` with the points `-1` and `1`. -/
example : ∃ g, writeGrid 1 (fun _ : ℝ × ℝ => some (⟨3, [-1, 1]⟩ : VtkElement ℝ)) (fun e x _ => (e.1 + e.2) / 2 + x * (e.2 - e.1) / 2) [(0, 1), (1, 3)] = some g ∧
    g.read 3 g.coords = [[[0, 0, 0], [1, 0, 0]], [[1, 0, 0], [3, 0, 0]]] := by
  obtain ⟨g, hg, _, _, _, _, _, hr, _⟩ := grid_cells 1 (fun _ : ℝ × ℝ => some (⟨3, [-1, 1]⟩ : VtkElement ℝ)) (fun _ => ⟨3, [-1, 1]⟩)
    (fun e x _ => (e.1 + e.2) / 2 + x * (e.2 - e.1) / 2) [(0, 1), (1, 3)] (fun _ _ => rfl) (by simp [totalPoints])
  refine ⟨g, hg, hr.trans ?_⟩
  simp only [List.map_cons, List.map_nil, padded]
  norm_num

/-! ## C112: the data of a point are the values at that point -/

theorem writeMultiple_eq (d : Nat) (find : E → Option (VtkElement P)) (cell : E → VtkElement P) (mesh : List E) (h : ∀ e ∈ mesh, find e = some (cell e)) (extract : E → P → T)
    (fields : Fields T) :
    ∃ data : Data, writeMultiple d find mesh (totalPoints cell mesh) extract fields =
        some (fields.scalars.map (fun e => ⟨e.1, 1, data e.1⟩) ++ fields.vectors.map (fun e => ⟨e.1, 3, data e.1⟩) ++ fields.tensors.map (fun e => ⟨e.1, 3, data e.1⟩)) ∧
      data = (dataPoints d fields id (mesh.flatMap fun e => (cell e).points.map (extract e)) (0, emptyData fields (totalPoints cell mesh))).2 := by
  refine ⟨_, ?_, rfl⟩
  unfold writeMultiple
  rw [dataLoop_eq d find cell fields extract mesh h]
  rfl

theorem length_values (cell : E → VtkElement P) (extract : E → P → T) (mesh : List E) : (mesh.flatMap fun e => (cell e).points.map (extract e)).length = totalPoints cell mesh := by
  simp [totalPoints, List.length_flatMap]

theorem values_flat (cell : E → VtkElement P) (extract : E → P → T) (mesh : List E) (rowOf : T → List ℝ) :
    (mesh.flatMap fun e => (cell e).points.map (extract e)).flatMap rowOf = mesh.flatMap fun e => (cell e).points.flatMap fun p => rowOf (extract e p) := by
  rw [List.flatMap_assoc]
  refine List.flatMap_congr fun e _ => ?_
  rw [List.flatMap_map]

/-- The file of a field: `b` is the array of a field, read in rows of `c` values. -/
def HasRows (g : Grid) (cell : E → VtkElement P) (mesh : List E) (b : Block) (c : Nat) (f : E → P → List ℝ) : Prop :=
  b.values.length = c * g.numberOfPoints ∧ g.read c b.values = mesh.map fun e => (cell e).points.map (f e)

theorem hasRows_of (d : Nat) (find : E → Option (VtkElement P)) (cell : E → VtkElement P) (phys : E → P → Nat → ℝ) (mesh : List E) (h : ∀ e ∈ mesh, find e = some (cell e))
    (hb : totalPoints cell mesh < 2 ^ 32) (g : Grid) (hg : writeGrid d find phys mesh = some g) (extract : E → P → T) (fields : Fields T) (n : String) (c : Nat) (rowOf : T → List ℝ)
    (W : T → Nat → List ℝ → List ℝ) (hc : ∀ t, (rowOf t).length = c) (h0 : ∀ N, emptyData fields N n = List.replicate (c * N) 0)
    (hW : ∀ t k data, writePoint d fields t k data n = W t k (data n))
    (hfill : ∀ (done : List T) t post, W t done.length (done.flatMap rowOf ++ (List.replicate c 0 ++ post)) = (done ++ [t]).flatMap rowOf ++ post) (name : String) (components : Nat) :
    HasRows g cell mesh ⟨name, components, (dataPoints d fields id (mesh.flatMap fun e => (cell e).points.map (extract e)) (0, emptyData fields (totalPoints cell mesh))).2 n⟩ c
      fun e p => rowOf (extract e p) := by
  have hg' := writeGrid_eq d find cell phys mesh h hb
  rw [hg] at hg'
  have hg' := Option.some.inj hg'
  have e : (dataPoints d fields id (mesh.flatMap fun e => (cell e).points.map (extract e)) (0, emptyData fields (totalPoints cell mesh))).2 n =
      (mesh.flatMap fun e => (cell e).points.map (extract e)).flatMap rowOf :=
    fill_rows d fields n c rowOf W hW hfill (mesh.flatMap fun e => (cell e).points.map (extract e)) [] (emptyData fields (totalPoints cell mesh)) (by rw [h0, length_values]; rfl)
  constructor
  · show List.length _ = _
    rw [e, length_rows c rowOf hc, length_values, hg']
  · show g.read c _ = _
    rw [e, values_flat, hg']
    exact read_eq _ cell mesh rfl rfl rfl c (fun e p => rowOf (extract e p)) fun _ _ => hc _

/-- **C112 (partial: scalars and vectors; see `tensor_components`).** With distinct names, each scalar and vector field gets one array, with its name and as many values as the number of
components it declares asks for, and a reader finds at each point of each cell the value of the field at that point of that element; vectors have zeros for the missing components. -/
theorem data_values_partial (d : Nat) (find : E → Option (VtkElement P)) (cell : E → VtkElement P) (phys : E → P → Nat → ℝ) (mesh : List E) (h : ∀ e ∈ mesh, find e = some (cell e))
    (hb : totalPoints cell mesh < 2 ^ 32) (g : Grid) (hg : writeGrid d find phys mesh = some g) (extract : E → P → T) (fields : Fields T)
    (hn : (fields.scalars.map Prod.fst ++ fields.vectors.map Prod.fst ++ fields.tensors.map Prod.fst).Nodup) :
    ∃ blocks, writeMultiple d find mesh g.numberOfPoints extract fields = some blocks ∧
      blocks.map (·.name) = fields.scalars.map Prod.fst ++ fields.vectors.map Prod.fst ++ fields.tensors.map Prod.fst ∧
      (∀ n f, (n, f) ∈ fields.scalars → ∃ b ∈ blocks, b.name = n ∧ b.components = 1 ∧ HasRows g cell mesh b b.components fun e p => [f (extract e p)]) ∧
      (∀ n f, (n, f) ∈ fields.vectors → ∃ b ∈ blocks, b.name = n ∧ b.components = 3 ∧ HasRows g cell mesh b b.components fun e p => padded d (f (extract e p))) := by
  have hN : g.numberOfPoints = totalPoints cell mesh := by
    have hg' := writeGrid_eq d find cell phys mesh h hb
    rw [hg] at hg'
    rw [Option.some.inj hg']
  obtain ⟨data, hw, hd⟩ := writeMultiple_eq d find cell mesh h extract fields
  rw [hN]
  refine ⟨_, hw, by simp [Function.comp_def], ?_, ?_⟩
  · intro n f hf
    refine ⟨⟨n, 1, data n⟩, ?_, rfl, rfl, ?_⟩
    · exact List.mem_append_left _ (List.mem_append_left _ (List.mem_map_of_mem (f := fun e => (⟨e.1, 1, data e.1⟩ : Block)) hf))
    · have hs := scalar_at (d := d) hn hf
      rw [hd]
      exact hasRows_of d find cell phys mesh h hb g hg extract fields n 1 (fun t => [f t]) (fun t k out => out.set k (f t)) (fun _ => rfl) hs.1 hs.2 (scalar_fill f) n 1
  · intro n f hf
    refine ⟨⟨n, 3, data n⟩, ?_, rfl, rfl, ?_⟩
    · exact List.mem_append_left _ (List.mem_append_right _ (List.mem_map_of_mem (f := fun e => (⟨e.1, 3, data e.1⟩ : Block)) hf))
    · have hs := vector_at (d := d) hn hf
      rw [hd]
      exact hasRows_of d find cell phys mesh h hb g hg extract fields n 3 (fun t => padded d (f t)) (fun t k out => writePaddedVector d (f t) k out) (fun _ => rfl) hs.1 hs.2 (vector_fill d f) n 3

/-- **C112 (negation for tensors).** The array of a tensor field holds nine values per point, of which rows of nine are the tensor of the point (with the identity beyond the dimension), but it
declares three components. On a mesh with a point it holds more values than the attributes of the file allow. -/
theorem tensor_components (d : Nat) (find : E → Option (VtkElement P)) (cell : E → VtkElement P) (phys : E → P → Nat → ℝ) (mesh : List E) (h : ∀ e ∈ mesh, find e = some (cell e))
    (hb : totalPoints cell mesh < 2 ^ 32) (g : Grid) (hg : writeGrid d find phys mesh = some g) (extract : E → P → T) (fields : Fields T)
    (hn : (fields.scalars.map Prod.fst ++ fields.vectors.map Prod.fst ++ fields.tensors.map Prod.fst).Nodup) (n : String) (f : T → Nat → Nat → ℝ) (hf : (n, f) ∈ fields.tensors) :
    ∃ blocks, writeMultiple d find mesh g.numberOfPoints extract fields = some blocks ∧
      ∃ b ∈ blocks, b.name = n ∧ HasRows g cell mesh b 9 (fun e p => paddedTensor d (f (extract e p))) ∧ b.components = 3 ∧
        (0 < g.numberOfPoints → b.values.length ≠ b.components * g.numberOfPoints) := by
  have hN : g.numberOfPoints = totalPoints cell mesh := by
    have hg' := writeGrid_eq d find cell phys mesh h hb
    rw [hg] at hg'
    rw [Option.some.inj hg']
  obtain ⟨data, hw, hd⟩ := writeMultiple_eq d find cell mesh h extract fields
  have hs := tensor_at (d := d) hn hf
  have hr := hasRows_of d find cell phys mesh h hb g hg extract fields n 9 (fun t => paddedTensor d (f t)) (fun t k out => writePaddedTensor d (f t) k out) (fun _ => rfl) hs.1 hs.2
    (tensor_fill d f) n 3
  rw [← hd] at hr
  rw [hN]
  refine ⟨_, hw, ⟨n, 3, data n⟩, ?_, rfl, hr, rfl, ?_⟩
  · exact List.mem_append_right _ (List.mem_map_of_mem (f := fun e => (⟨e.1, 3, data e.1⟩ : Block)) hf)
  · intro hp
    have := hr.1
    rw [hN] at this
    rw [this]
    show 9 * _ ≠ 3 * _
    omega

/-- The hypotheses are met by a mesh of two lines with a scalar and a vector. -/
example : ∃ g, writeGrid 1 (fun _ : ℝ × ℝ => some (⟨3, [-1, 1]⟩ : VtkElement ℝ)) (fun e x _ => (e.1 + e.2) / 2 + x * (e.2 - e.1) / 2) [(0, 1), (1, 3)] = some g ∧
    ∃ blocks, writeMultiple 1 (fun _ : ℝ × ℝ => some (⟨3, [-1, 1]⟩ : VtkElement ℝ)) [(0, 1), (1, 3)] g.numberOfPoints (fun e x => e.1 + x)
      ⟨[("u", id)], [("v", fun t _ => 2 * t)], []⟩ = some blocks ∧ ∃ b ∈ blocks, b.name = "v" ∧ g.read 3 b.values = [[[-2, 0, 0], [2, 0, 0]], [[0, 0, 0], [4, 0, 0]]] := by
  have h : ∀ e ∈ [((0 : ℝ), (1 : ℝ)), (1, 3)], (fun _ : ℝ × ℝ => some (⟨3, [-1, 1]⟩ : VtkElement ℝ)) e = some ((fun _ => ⟨3, [-1, 1]⟩) e) := fun _ _ => rfl
  have hb : totalPoints (fun _ : ℝ × ℝ => (⟨3, [-1, 1]⟩ : VtkElement ℝ)) [(0, 1), (1, 3)] < 2 ^ 32 := by simp [totalPoints]
  obtain ⟨g, hg, _⟩ := grid_cells 1 _ _ (fun e x _ => (e.1 + e.2) / 2 + x * (e.2 - e.1) / 2) _ h hb
  obtain ⟨blocks, hw, _, _, hv⟩ := data_values_partial 1 _ _ _ _ h hb g hg (fun e x => e.1 + x) ⟨[("u", id)], [("v", fun t _ => 2 * t)], []⟩ (by decide)
  obtain ⟨b, hb, h1, h2, h3, h4⟩ := hv "v" _ (List.mem_singleton.2 rfl)
  refine ⟨g, hg, blocks, hw, b, hb, h1, ?_⟩
  rw [h2] at h4
  rw [h4]
  simp only [List.map_cons, List.map_nil, padded]
  norm_num

/-! ## C113: the encoding of an array -/

theorem value32_bytes32 (n : Nat) (h : n < 2 ^ 32) : value32 (bytes32 n) = n := by
  simp only [value32, bytes32, UInt8.toNat_ofNat']
  omega

theorem writeBinary_read (bigEndian : Bool) (data : List (List UInt8)) : readBinary bigEndian (writeBinary bigEndian data) = some (data.flatten.take (data.flatten.length % 2 ^ 32)) := by
  have hw : wrap32 data.flatten.length < 2 ^ 32 := Nat.mod_lt _ (by norm_num)
  have hle : wrap32 data.flatten.length ≤ data.flatten.length := Nat.mod_le _ _
  have hl : ∀ x : List UInt8, x.length = 4 → (Base64.toBase64 x).length = 8 := by intro x hx; rw [Base64.toBase64_length, hx]
  have h8 : ∀ x y : List UInt8, x.length = 4 → (Base64.toBase64 x ++ Base64.toBase64 y).take 8 = Base64.toBase64 x ∧ (Base64.toBase64 x ++ Base64.toBase64 y).drop 8 = Base64.toBase64 y := by
    intro x y hx
    rw [List.take_append_of_le_length (by rw [hl x hx]), List.drop_append_of_le_length (by rw [hl x hx]), List.take_of_length_le (by rw [hl x hx]), List.drop_of_length_le (by rw [hl x hx])]
    simp
  unfold writeBinary readBinary
  simp only []
  cases bigEndian
  · obtain ⟨a, b⟩ := h8 (bytes32 (wrap32 data.flatten.length)) (data.flatten.take (wrap32 data.flatten.length)) rfl
    simp only [Bool.false_eq_true, if_false, a, b, Base64.decode_toBase64, Option.bind_eq_bind, Option.bind_some, value32_bytes32 _ hw, List.length_take, min_eq_left hle, if_true]
    rfl
  · obtain ⟨a, b⟩ := h8 (bytes32 (wrap32 data.flatten.length)).reverse (data.flatten.take (wrap32 data.flatten.length)) rfl
    simp only [if_true, a, b, Base64.decode_toBase64, Option.bind_eq_bind, Option.bind_some, List.reverse_reverse, value32_bytes32 _ hw, List.length_take, min_eq_left hle]
    rfl

/-- **C113 (partial: arrays of less than four gigabytes; see `array_truncated`).** Reading the characters written for an array gives its bytes, on machines of either byte order. -/
theorem array_roundtrip_partial (bigEndian : Bool) (data : List (List UInt8)) (h : data.flatten.length < 2 ^ 32) :
    readBinary bigEndian (writeBinary bigEndian data) = some data.flatten := by
  rw [writeBinary_read, Nat.mod_eq_of_lt h, List.take_length]

/-- **C113 (negation).** Of an array of `2 ^ 32` bytes or more only the first bytes are in the file, as many as the remainder of their number modulo `2 ^ 32`, and the file is read without an
error: the rest of the array is lost. -/
theorem array_truncated (bigEndian : Bool) (data : List (List UInt8)) (h : 2 ^ 32 ≤ data.flatten.length) :
    ∃ bytes, readBinary bigEndian (writeBinary bigEndian data) = some bytes ∧ bytes ≠ data.flatten ∧ bytes.length = data.flatten.length % 2 ^ 32 := by
  have hm : data.flatten.length % 2 ^ 32 < 2 ^ 32 := Nat.mod_lt _ (by norm_num)
  refine ⟨_, writeBinary_read bigEndian data, ?_, ?_⟩
  · intro he
    have := congrArg List.length he
    rw [List.length_take] at this
    omega
  · rw [List.length_take, min_eq_left (by omega)]

example : readBinary false (writeBinary false [[1, 2], [3, 255]]) = some [1, 2, 3, 255] := array_roundtrip_partial false _ (by norm_num)

end Verif.VtkFile
