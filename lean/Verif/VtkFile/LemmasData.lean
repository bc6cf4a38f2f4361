import Verif.VtkFile.Lemmas
import Mathlib.Data.List.Nodup

set_option linter.all false
/-! # Lemmas on the data arrays of the VTK writer -/
namespace Verif.VtkFile

variable {E P T F : Type}

theorem forNames_not_mem (entries : List (String × F)) (change : F → List ℝ → List ℝ) (n : String) :
    n ∉ entries.map Prod.fst → ∀ data, forNames entries change data n = data n := by
  induction entries with
  | nil => intro _ data; rfl
  | cons e es ih =>
    intro h data
    simp only [List.map_cons, List.mem_cons, not_or] at h
    have := ih h.2 (Function.update data e.1 (change e.2 (data e.1)))
    rw [Function.update_of_ne h.1] at this
    exact this

theorem forNames_mem (entries : List (String × F)) (change : F → List ℝ → List ℝ) (n : String) (f : F) :
    (entries.map Prod.fst).Nodup → (n, f) ∈ entries → ∀ data, forNames entries change data n = change f (data n) := by
  induction entries with
  | nil => intro _ h; simp at h
  | cons e es ih =>
    intro hn h data
    simp only [List.map_cons, List.nodup_cons] at hn
    rcases List.mem_cons.1 h with h | h
    · subst h
      have := forNames_not_mem es change n hn.1 (Function.update data n (change f (data n)))
      rw [Function.update_self] at this
      exact this
    · have hne : n ≠ e.1 := by
        intro he
        exact hn.1 (he ▸ List.mem_map_of_mem (f := Prod.fst) h)
      have := ih hn.2 h (Function.update data e.1 (change e.2 (data e.1)))
      rw [Function.update_of_ne hne] at this
      exact this

/-- All names of the fields. -/
def Fields.names (fields : Fields T) : List String :=
  fields.scalars.map Prod.fst ++ fields.vectors.map Prod.fst ++ fields.tensors.map Prod.fst

theorem resize_nil (n : Nat) : resize n [] = List.replicate n 0 := by simp [resize]

theorem names_split {fields : Fields T} (h : fields.names.Nodup) :
    (fields.scalars.map Prod.fst).Nodup ∧ (fields.vectors.map Prod.fst).Nodup ∧ (fields.tensors.map Prod.fst).Nodup ∧
    (∀ n ∈ fields.scalars.map Prod.fst, n ∉ fields.vectors.map Prod.fst ∧ n ∉ fields.tensors.map Prod.fst) ∧
    (∀ n ∈ fields.vectors.map Prod.fst, n ∉ fields.scalars.map Prod.fst ∧ n ∉ fields.tensors.map Prod.fst) ∧
    (∀ n ∈ fields.tensors.map Prod.fst, n ∉ fields.scalars.map Prod.fst ∧ n ∉ fields.vectors.map Prod.fst) := by
  unfold Fields.names at h
  rw [List.nodup_append', List.nodup_append'] at h
  obtain ⟨⟨h1, h2, h12⟩, h3, h3'⟩ := h
  refine ⟨h1, h2, h3, fun n hn => ⟨fun h => h12 hn h, fun h => h3' (List.mem_append_left _ hn) h⟩,
    fun n hn => ⟨fun h => h12 h hn, fun h => h3' (List.mem_append_right _ hn) h⟩,
    fun n hn => ⟨fun h => h3' (List.mem_append_left _ h) hn, fun h => h3' (List.mem_append_right _ h) hn⟩⟩

theorem scalar_at {d : Nat} {fields : Fields T} (h : fields.names.Nodup) {n : String} {f : T → ℝ} (hf : (n, f) ∈ fields.scalars) :
    (∀ N, emptyData fields N n = List.replicate (1 * N) 0) ∧
    ∀ t k data, writePoint d fields t k data n = (data n).set k (f t) := by
  obtain ⟨h1, h2, h3, ha, hb, hc⟩ := names_split h
  have hn := ha n (List.mem_map_of_mem (f := Prod.fst) hf)
  constructor
  · intro N
    unfold emptyData
    rw [forNames_not_mem _ _ _ hn.2, forNames_not_mem _ _ _ hn.1, forNames_mem _ _ n f h1 hf, resize_nil, one_mul]
  · intro t k data
    unfold writePoint
    rw [forNames_not_mem _ _ _ hn.2, forNames_not_mem _ _ _ hn.1, forNames_mem _ _ n f h1 hf]

theorem vector_at {d : Nat} {fields : Fields T} (h : fields.names.Nodup) {n : String} {f : T → Nat → ℝ} (hf : (n, f) ∈ fields.vectors) :
    (∀ N, emptyData fields N n = List.replicate (3 * N) 0) ∧
    ∀ t k data, writePoint d fields t k data n = writePaddedVector d (f t) k (data n) := by
  obtain ⟨h1, h2, h3, ha, hb, hc⟩ := names_split h
  have hn := hb n (List.mem_map_of_mem (f := Prod.fst) hf)
  constructor
  · intro N
    unfold emptyData
    rw [forNames_not_mem _ _ _ hn.2, forNames_mem _ _ n f h2 hf, forNames_not_mem _ _ _ hn.1, resize_nil]
  · intro t k data
    unfold writePoint
    rw [forNames_not_mem _ _ _ hn.2, forNames_mem _ _ n f h2 hf, forNames_not_mem _ _ _ hn.1]

theorem tensor_at {d : Nat} {fields : Fields T} (h : fields.names.Nodup) {n : String} {f : T → Nat → Nat → ℝ} (hf : (n, f) ∈ fields.tensors) :
    (∀ N, emptyData fields N n = List.replicate (9 * N) 0) ∧
    ∀ t k data, writePoint d fields t k data n = writePaddedTensor d (f t) k (data n) := by
  obtain ⟨h1, h2, h3, ha, hb, hc⟩ := names_split h
  have hn := hc n (List.mem_map_of_mem (f := Prod.fst) hf)
  constructor
  · intro N
    unfold emptyData
    rw [forNames_mem _ _ n f h3 hf, forNames_not_mem _ _ _ hn.2, forNames_not_mem _ _ _ hn.1, resize_nil]
  · intro t k data
    unfold writePoint
    rw [forNames_mem _ _ n f h3 hf, forNames_not_mem _ _ _ hn.2, forNames_not_mem _ _ _ hn.1]

/-! ## Filling the arrays -/

theorem dataPoints_append (d : Nat) (fields : Fields T) (extract : P → T) (ps qs : List P) :
    ∀ s, dataPoints d fields extract (ps ++ qs) s = dataPoints d fields extract qs (dataPoints d fields extract ps s) := by
  induction ps with
  | nil => intro s; rfl
  | cons p ps ih => intro s; exact ih _

theorem dataPoints_map (d : Nat) (fields : Fields T) (extract : P → T) (ps : List P) :
    ∀ s, dataPoints d fields extract ps s = dataPoints d fields id (ps.map extract) s := by
  induction ps with
  | nil => intro s; rfl
  | cons p ps ih => intro s; exact ih _

theorem dataLoop_eq (d : Nat) (find : E → Option (VtkElement P)) (cell : E → VtkElement P) (fields : Fields T) (extract : E → P → T) (mesh : List E) :
    (∀ e ∈ mesh, find e = some (cell e)) → ∀ s,
      dataLoop d find fields extract mesh s =
        some (dataPoints d fields id (mesh.flatMap fun e => (cell e).points.map (extract e)) s) := by
  induction mesh with
  | nil => intro _ s; rfl
  | cons e es ih =>
    intro h s
    unfold dataLoop
    rw [h e (List.mem_cons_self ..)]
    show dataLoop d find fields extract es _ = _
    rw [ih fun x hx => h x (List.mem_cons_of_mem _ hx), List.flatMap_cons, dataPoints_append, dataPoints_map d fields (extract e)]

theorem dataLoop_none (d : Nat) (find : E → Option (VtkElement P)) (fields : Fields T) (extract : E → P → T) (mesh : List E) :
    ∀ s, dataLoop d find fields extract mesh s = none ↔ ∃ e ∈ mesh, find e = none := by
  induction mesh with
  | nil => intro s; simp [dataLoop]
  | cons e es ih =>
    intro s
    unfold dataLoop
    cases h : find e with
    | none => simp [h]
    | some v =>
      show dataLoop d find fields extract es _ = none ↔ _
      rw [ih]; simp [h]

/-- An array filled row by row. -/
theorem fill_rows (d : Nat) (fields : Fields T) (n : String) (c : Nat) (rowOf : T → List ℝ) (W : T → Nat → List ℝ → List ℝ)
    (hW : ∀ t k data, writePoint d fields t k data n = W t k (data n))
    (hfill : ∀ (done : List T) t post, W t done.length (done.flatMap rowOf ++ (List.replicate c 0 ++ post)) = (done ++ [t]).flatMap rowOf ++ post)
    (vals : List T) : ∀ (done : List T) (data : Data),
      data n = done.flatMap rowOf ++ List.replicate (c * vals.length) 0 →
      (dataPoints d fields id vals (done.length, data)).2 n = (done ++ vals).flatMap rowOf := by
  induction vals with
  | nil => intro done data h; simpa [dataPoints] using h
  | cons t ts ih =>
    intro done data h
    unfold dataPoints
    have e : writePoint d fields (id t) done.length data n = (done ++ [t]).flatMap rowOf ++ List.replicate (c * ts.length) 0 := by
      rw [hW, h]
      have : List.replicate (c * (t :: ts).length) (0 : ℝ) = List.replicate c 0 ++ List.replicate (c * ts.length) 0 := by
        rw [List.replicate_append_replicate, List.length_cons]; congr 1; ring
      rw [this, id, hfill]
    have := ih (done ++ [t]) _ e
    rw [List.length_append] at this
    rw [List.append_assoc] at this
    exact this

theorem length_rows (c : Nat) (rowOf : T → List ℝ) (h : ∀ t, (rowOf t).length = c) (done : List T) : (done.flatMap rowOf).length = c * done.length := by
  rw [List.length_flatMap]
  simp [h, mul_comm]

theorem scalar_fill (f : T → ℝ) (done : List T) (t : T) (post : List ℝ) :
    (done.flatMap (fun t => [f t]) ++ (List.replicate 1 0 ++ post)).set done.length (f t) = (done ++ [t]).flatMap (fun t => [f t]) ++ post := by
  have := set_app (done.flatMap fun t => [f t]) post 0 (f t) done.length (by rw [length_rows 1 _ (fun _ => rfl)]; omega)
  simpa using this

theorem vector_fill (d : Nat) (f : T → Nat → ℝ) (done : List T) (t : T) (post : List ℝ) :
    writePaddedVector d (f t) done.length (done.flatMap (fun t => padded d (f t)) ++ (List.replicate 3 0 ++ post)) =
      (done ++ [t]).flatMap (fun t => padded d (f t)) ++ post := by
  have h := copyCoordinate_eq d (f t) done.length (done.flatMap fun t => padded d (f t)) post
    (by rw [length_rows 3 _ (fun _ => rfl)])
  have e : (List.replicate 3 (0 : ℝ) ++ post) = 0 :: 0 :: 0 :: post := rfl
  rw [e]
  unfold copyCoordinate at h
  unfold writePaddedVector
  simp only []
  rw [h]
  have e2 : (done.flatMap (fun t => padded d (f t)) ++ (padded d (f t) ++ post)) = (done ++ [t]).flatMap (fun t => padded d (f t)) ++ post := by simp
  rw [e2]
  -- the array starts with a padded vector
  obtain ⟨t0, rest, hr⟩ : ∃ t0 rest, (done ++ [t]).flatMap (fun t => padded d (f t)) ++ post = padded d (f t0) ++ rest := by
    cases done with
    | nil => exact ⟨t, post, by simp⟩
    | cons t0 ds => exact ⟨t0, (ds ++ [t]).flatMap (fun t => padded d (f t)) ++ post, by simp⟩
  rw [hr]
  match d with
  | 0 => simp [padded, List.range']
  | 1 => simp [padded, List.range']
  | 2 => simp [padded, List.range']
  | d + 3 =>
    rw [min_eq_right (by omega)]
    simp

theorem tensor_fill (d : Nat) (f : T → Nat → Nat → ℝ) (done : List T) (t : T) (post : List ℝ) :
    writePaddedTensor d (f t) done.length (done.flatMap (fun t => paddedTensor d (f t)) ++ (List.replicate 9 0 ++ post)) =
      (done ++ [t]).flatMap (fun t => paddedTensor d (f t)) ++ post := by
  have hl : (done.flatMap fun t => paddedTensor d (f t)).length = 9 * done.length := length_rows 9 _ (fun _ => rfl) done
  have e : (done ++ [t]).flatMap (fun t => paddedTensor d (f t)) ++ post = done.flatMap (fun t => paddedTensor d (f t)) ++ (paddedTensor d (f t) ++ post) := by simp
  rw [e]
  generalize (done.flatMap fun t => paddedTensor d (f t)) = pre at hl
  have r3 : List.range 3 = [0, 1, 2] := rfl
  have key : ∀ (i : Nat) (l : List ℝ) (x : ℝ), (pre ++ l).set (9 * done.length + i) x = pre ++ l.set i x := by
    intro i l x
    rw [List.set_append_right _ _ (by omega), hl]
    congr 2
    omega
  have ep : ∀ i j, paddedEntry d (f t) i j = if max i j < d then f t i j else if i = j then 1 else 0 := by
    intro i j
    simp only [paddedEntry, max_lt_iff]
  unfold writePaddedTensor
  rw [r3]
  simp only [List.foldl_cons, List.foldl_nil, ep, Nat.add_assoc, key, List.replicate_succ, List.replicate_zero, List.cons_append, List.nil_append]
  rfl

end Verif.VtkFile
