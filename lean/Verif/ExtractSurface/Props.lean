import Verif.ExtractSurface.Lemmas

/-!
# Properties of the tool that extracts a surface mesh
-/

namespace Verif.ExtractSurface

instance (k : Nat) (loc : ℚ) (x : Point) : Decidable (InPlane k loc x) := by unfold InPlane; infer_instance

theorem coordinateIndex_iff (s : String) (k : Nat) : coordinateIndex s.toList = some k ↔ NameOf s k := by
  have key : ∀ t : String, s.toList = t.toList ↔ s = t := fun t => String.toList_inj
  have hx := key "x"; have hx0 := key "x0"; have hy := key "y"; have hx1 := key "x1"
  have hz := key "z"; have hx2 := key "x2"
  simp only [show "x".toList = ['x'] from rfl, show "x0".toList = ['x', '0'] from rfl,
    show "y".toList = ['y'] from rfl, show "x1".toList = ['x', '1'] from rfl,
    show "z".toList = ['z'] from rfl, show "x2".toList = ['x', '2'] from rfl] at hx hx0 hy hx1 hz hx2
  unfold coordinateIndex NameOf
  simp only [hx, hx0, hy, hx1, hz, hx2, List.mem_cons, Prod.mk.injEq, List.not_mem_nil, or_false]
  constructor
  · intro h
    split at h
    · rename_i h'; cases h; rcases h' with h' | h' <;> simp [h']
    · split at h
      · rename_i h'; cases h; rcases h' with h' | h' <;> simp [h']
      · split at h
        · rename_i h'; cases h; rcases h' with h' | h' <;> simp [h']
        · cases h
  · rintro (⟨rfl, rfl⟩ | ⟨rfl, rfl⟩ | ⟨rfl, rfl⟩ | ⟨rfl, rfl⟩ | ⟨rfl, rfl⟩ | ⟨rfl, rfl⟩) <;> decide

/-- C184. A description is accepted exactly when, in lower case, it is one of the six names, an equals sign and a
text that is a number as a whole; the result is the plane described. -/
theorem parse_iff (stod : List Char → Option (ℚ × Nat)) (d : List Char) (b : Boundary) :
    parse stod d = some b ↔ ∃ (name : String) (value : List Char),
      d.map Char.toLower = name.toList ++ '=' :: value ∧ value ≠ [] ∧
      NameOf name b.index ∧ stod value = some (b.location, value.length) := by
  constructor
  · intro h
    unfold parse at h
    simp only at h
    have hsplit := List.takeWhile_append_dropWhile (p := fun x => decide (x ≠ '=')) (l := d.map Char.toLower)
    cases hd : (d.map Char.toLower).dropWhile (fun x => decide (x ≠ '=')) with
    | nil => rw [hd] at h; simp at h
    | cons e value =>
      rw [hd] at h hsplit
      have he : e = '=' := by
        have := List.head?_dropWhile_not (fun x => decide (x ≠ '=')) (d.map Char.toLower)
        rw [hd] at this
        simpa using this
      subst he
      simp only at h
      split at h
      · cases h
      · rename_i hv
        cases hs : stod value with
        | none => rw [hs] at h; cases h
        | some w =>
          obtain ⟨v, pr⟩ := w
          rw [hs] at h
          simp only at h
          split at h
          · rename_i hp
            cases hc : coordinateIndex ((d.map Char.toLower).takeWhile (fun x => decide (x ≠ '='))) with
            | none => rw [hc] at h; cases h
            | some k =>
              rw [hc] at h
              cases h
              refine ⟨String.ofList ((d.map Char.toLower).takeWhile (fun x => decide (x ≠ '='))), value, ?_, ?_, ?_, ?_⟩
              · rw [String.toList_ofList]; exact hsplit.symm
              · rintro rfl; exact hv rfl
              · rw [← coordinateIndex_iff, String.toList_ofList]; exact hc
              · rw [hs, hp]
          · cases h
  · rintro ⟨name, value, h1, h2, h3, h4⟩
    have hne : ∀ x ∈ name.toList, decide (x ≠ '=') = true := by
      simp only [NameOf, List.mem_cons, Prod.mk.injEq, List.not_mem_nil, or_false] at h3
      rcases h3 with ⟨rfl, _⟩ | ⟨rfl, _⟩ | ⟨rfl, _⟩ | ⟨rfl, _⟩ | ⟨rfl, _⟩ | ⟨rfl, _⟩ <;> decide
    have ht : (d.map Char.toLower).takeWhile (fun x => decide (x ≠ '=')) = name.toList := by
      rw [h1, List.takeWhile_append_of_pos hne]; simp
    have hdr : (d.map Char.toLower).dropWhile (fun x => decide (x ≠ '=')) = '=' :: value := by
      rw [h1, List.dropWhile_append_of_pos hne]; simp
    unfold parse
    simp only
    rw [hdr, ht]
    simp only
    rw [if_neg (by simpa using h2), h4]
    simp only [if_true]
    rw [(coordinateIndex_iff name b.index).mpr h3]

/-- A number of one digit is enough for the example. -/
def digit : List Char → Option (ℚ × Nat)
  | '1' :: _ => some (1, 1)
  | _ => none

/-- Non-vacuity: `Y=1` is the plane `y = 1`; `y=1m` is refused. -/
example : parse digit "Y=1".toList = some ⟨1, 1⟩ ∧ parse digit "y=1m".toList = none := by decide +kernel

/-- C184. The tool refuses a plane exactly when the mesh has no such coordinate. -/
theorem extract_isSome (b : Boundary) (m : Mesh) : (extract b m).isSome ↔ b.index < m.dim := by
  unfold extract; split
  · simp; omega
  · simp; omega

/-- C184. The nodes and coordinates of the surface: the nodes are those with a coordinate in the plane, each
once, and the coordinates in the plane correspond one to one to the coordinates of the surface, which are their
projections and belong to the same node. -/
theorem coordinates_exact (b : Boundary) (m : Mesh) (hm : Sound m) (r : Result) (hr : extract b m = some r) :
    ∃ (nodes : List Nat) (new : Nat → Nat),
      nodes.Nodup ∧ nodes.length = r.nodes ∧
      (∀ n, n ∈ nodes ↔ ∃ a, m.nodes[n]? = some a ∧ ∃ c ∈ a, InPlane b.index b.location (m.point c)) ∧
      (∀ (n : Nat) a, m.nodes[n]? = some a → ∀ c ∈ a, InPlane b.index b.location (m.point c) →
        ∃ j, r.coords[new c]? = some (j, (m.point c).eraseIdx b.index) ∧ nodes[j]? = some n) ∧
      (∀ i, i < r.coords.length → ∃! c, (∃ a ∈ m.nodes, c ∈ a) ∧
        InPlane b.index b.location (m.point c) ∧ new c = i) := by
  unfold extract at hr
  split at hr
  · cases hr
  cases hr
  have hi := scan_inv b m
  refine ⟨(scan b m).bnodes, (scan b m).lookup, ?_, rfl, scan_bnodes b m hm, ?_, ?_⟩
  · exact visitAll_nodup b m.point m.nodes 0 _ (by simp) (by simp)
  · intro n a ha c hc hp
    obtain ⟨i, hl⟩ := scan_lookup b m ha hc hp
    obtain ⟨_, j, n', h1, h2, a', h3, h4⟩ := hi.img c i hl
    refine ⟨j, ?_, ?_⟩
    · simp only [St.lookup, hl, Option.getD_some]; rw [h1, project_eq]
    · rw [h2]
      by_cases hne : n' = n
      · rw [hne]
      · exact absurd hc (hm.apart n' n a' a h3 ha hne c h4)
  · intro i hlt
    obtain ⟨c, hl⟩ := hi.onto i hlt
    obtain ⟨h0, j, n', h1, h2, a', h3, h4⟩ := hi.img c i hl
    refine ⟨c, ⟨⟨a', List.mem_of_getElem? h3, h4⟩, (on_iff b _).mp h0, by simp [St.lookup, hl]⟩, ?_⟩
    rintro c' ⟨⟨a, ha, hc'⟩, hp, hn⟩
    obtain ⟨k, hk⟩ := List.mem_iff_getElem?.mp ha
    obtain ⟨i', hl'⟩ := scan_lookup b m hk hc' hp
    rw [St.lookup, hl', Option.getD_some] at hn
    subst hn
    exact hi.inj c' c i' hl' hl

/-- The elements of the surface are the faces whose nodes all have a coordinate in the plane. -/
theorem elements_scan (b : Boundary) (m : Mesh) (hm : Sound m) (f : Face) :
    f.nodes.all (scan b m).bnodes.contains = true ↔
      ∀ n ∈ f.nodes, ∃ a, m.nodes[n]? = some a ∧ ∃ c ∈ a, InPlane b.index b.location (m.point c) := by
  simp only [List.all_eq_true, List.contains_eq_mem, decide_eq_true_eq, scan_bnodes b m hm]

/-- The coordinates of an element whose face lies in the plane. -/
theorem points_scan (b : Boundary) (m : Mesh) (f : Face) (els : List (List Nat × Nat)) (k : Nat)
    (ho : ∀ c ∈ f.coords, (∃ a ∈ m.nodes, c ∈ a) ∧ InPlane b.index b.location (m.point c)) :
    pointsOf ⟨k, (scan b m).coords, els⟩ (f.coords.map (scan b m).lookup) =
      f.coords.map fun c => some ((m.point c).eraseIdx b.index) := by
  simp only [pointsOf, List.map_map]
  apply List.map_congr_left
  intro c hc
  obtain ⟨⟨a, ha, hca⟩, hp⟩ := ho c hc
  obtain ⟨n, hn⟩ := List.mem_iff_getElem?.mp ha
  obtain ⟨i, hl⟩ := scan_lookup b m hn hca hp
  obtain ⟨_, j, n', h1, _⟩ := (scan_inv b m).img c i hl
  simp [St.lookup, hl, h1, project_eq]

theorem Sound.owner {m : Mesh} (hm : Sound m) {f : Face} (hf : f ∈ m.faces) :
    ∀ c ∈ f.coords, ∃ n ∈ f.nodes, ∃ a, m.nodes[n]? = some a ∧ c ∈ a := by
  have := hm.faces f hf
  intro c hc
  obtain ⟨i, hi, rfl⟩ := List.mem_iff_getElem.mp hc
  rw [List.forall₂_iff_get] at this
  exact ⟨_, List.get_mem _ ⟨i, by omega⟩, this.2 i (by omega) hi⟩

theorem Sound.coord {m : Mesh} (hm : Sound m) {f : Face} (hf : f ∈ m.faces) :
    ∀ n ∈ f.nodes, ∃ c ∈ f.coords, ∃ a, m.nodes[n]? = some a ∧ c ∈ a := by
  have := hm.faces f hf
  intro n hn
  obtain ⟨i, hi, rfl⟩ := List.mem_iff_getElem.mp hn
  rw [List.forall₂_iff_get] at this
  exact ⟨_, List.get_mem _ ⟨i, by omega⟩, this.2 i hi (by omega)⟩

/-- C185. Without periodic connections the elements of the surface are exactly the faces in the plane, in their
order, with the projections of their corners and the partition of their first element. Missing for the full
claim: periodic meshes, see `periodic_collapses`. -/
theorem elements_partial (b : Boundary) (m : Mesh) (hm : Sound m) (hp : NotPeriodic m) (r : Result)
    (hr : extract b m = some r) :
    r.elements.map (fun e => (pointsOf r e.1, e.2)) =
      (m.faces.filter fun f => decide (∀ c ∈ f.coords, InPlane b.index b.location (m.point c))).map fun f =>
        (f.coords.map fun c => some ((m.point c).eraseIdx b.index), f.part) := by
  unfold extract at hr
  split at hr
  · cases hr
  cases hr
  simp only
  generalize hk : (scan b m).bnodes.length = k
  generalize hE : elements (scan b m) m.faces = els
  have key : ∀ fs : List Face, (∀ f ∈ fs, f ∈ m.faces) →
      (elements (scan b m) fs).map (fun e => (pointsOf ⟨k, (scan b m).coords, els⟩ e.1, e.2)) =
      (fs.filter fun f => decide (∀ c ∈ f.coords, InPlane b.index b.location (m.point c))).map fun f =>
        (f.coords.map fun c => some ((m.point c).eraseIdx b.index), f.part) := by
    intro fs
    induction fs with
    | nil => intro _; rfl
    | cons f fs ih =>
      intro hfs
      have ih' := ih (fun g hg => hfs g (by simp [hg]))
      have hf := hfs f (by simp)
      have hiff : f.nodes.all (scan b m).bnodes.contains = true ↔
          ∀ c ∈ f.coords, InPlane b.index b.location (m.point c) := by
        rw [elements_scan b m hm f]
        constructor
        · intro h c hc
          obtain ⟨n, hn, a, ha, hca⟩ := hm.owner hf c hc
          obtain ⟨a', ha', c', hc', hin⟩ := h n hn
          rw [ha] at ha'
          cases ha'
          rw [hp a (List.mem_of_getElem? ha) c hca c' hc']; exact hin
        · intro h n hn
          obtain ⟨c, hc, a, ha, hca⟩ := hm.coord hf n hn
          exact ⟨a, ha, c, hca, h c hc⟩
      by_cases hc : ∀ c ∈ f.coords, InPlane b.index b.location (m.point c)
      · have h1 : elements (scan b m) (f :: fs) =
            (f.coords.map (scan b m).lookup, f.part) :: elements (scan b m) fs := by
          simp only [elements, List.filterMap_cons, hiff.mpr hc, if_true]
        rw [h1, List.filter_cons_of_pos (by simpa using hc), List.map_cons, List.map_cons, ih',
          points_scan b m f els k]
        intro c hcm
        obtain ⟨n, hn, a, ha, hca⟩ := hm.owner hf c hcm
        exact ⟨⟨a, List.mem_of_getElem? ha, hca⟩, hc c hcm⟩
      · have h1 : elements (scan b m) (f :: fs) = elements (scan b m) fs := by
          simp only [elements, List.filterMap_cons]
          rw [if_neg (fun h => hc (hiff.mp h))]
        rw [h1, List.filter_cons_of_neg (by simpa using hc), ih']
  rw [← hE] at key ⊢
  exact key m.faces (fun _ h => h)

/-- C185. On any mesh the faces that become elements are those whose nodes all touch the plane; an element has the
right corners as soon as its first element sees the face in the plane. -/
theorem elements_any (b : Boundary) (m : Mesh) (hm : Sound m) (r : Result) (hr : extract b m = some r) :
    ∀ f ∈ m.faces,
      (∀ n ∈ f.nodes, ∃ a, m.nodes[n]? = some a ∧ ∃ c ∈ a, InPlane b.index b.location (m.point c)) →
      ∃ e ∈ r.elements, e.2 = f.part ∧ e.1.length = f.coords.length ∧
        ((∀ c ∈ f.coords, InPlane b.index b.location (m.point c)) →
          pointsOf r e.1 = f.coords.map fun c => some ((m.point c).eraseIdx b.index)) := by
  unfold extract at hr
  split at hr
  · cases hr
  cases hr
  intro f hf h
  refine ⟨(f.coords.map (scan b m).lookup, f.part), ?_, rfl, by simp, ?_⟩
  · simp only [elements, List.mem_filterMap]
    exact ⟨f, hf, by rw [if_pos ((elements_scan b m hm f).mpr h)]⟩
  · intro hc
    apply points_scan
    intro c hcm
    obtain ⟨n, hn, a, ha, hca⟩ := hm.owner hf c hcm
    exact ⟨⟨a, List.mem_of_getElem? ha, hca⟩, hc c hcm⟩

/-- The coordinates of a strip of two unit squares of width one half. -/
def stripPoint (c : Nat) : Point := [[0, 0], [1/2, 0], [1, 0], [0, 1], [1/2, 1], [1, 1]].getD c []

/-- The strip without periodic connections. -/
def strip : Mesh where
  dim := 2
  point := stripPoint
  nodes := [[0], [1, 1], [2], [3], [4, 4], [5]]
  faces := [⟨[0, 3], [0, 3], 0⟩, ⟨[1, 4], [1, 4], 0⟩, ⟨[2, 5], [2, 5], 1⟩, ⟨[0, 1], [0, 1], 0⟩]

/-- The strip with the sides `x = 0` and `x = 1` connected. -/
def ring : Mesh where
  dim := 2
  point := stripPoint
  nodes := [[0, 2], [1, 1], [3, 5], [4, 4]]
  faces := [⟨[0, 2], [0, 3], 0⟩, ⟨[1, 3], [1, 4], 0⟩, ⟨[0, 1], [0, 1], 0⟩]

theorem sound_of_check (m : Mesh)
    (h1 : ∀ i ∈ List.range m.nodes.length, ∀ j ∈ List.range m.nodes.length,
      i = j ∨ ∀ c ∈ m.nodes.getD i [], c ∉ m.nodes.getD j [])
    (h2 : ∀ f ∈ m.faces, f.nodes.length = f.coords.length ∧ ∀ i < f.nodes.length,
      f.nodes.getD i 0 < m.nodes.length ∧ f.coords.getD i 0 ∈ m.nodes.getD (f.nodes.getD i 0) []) : Sound m := by
  constructor
  · intro i j a b ha hb hne c hc
    obtain ⟨hi, rfl⟩ := List.getElem?_eq_some_iff.mp ha
    obtain ⟨hj, rfl⟩ := List.getElem?_eq_some_iff.mp hb
    have := (h1 i (List.mem_range.mpr hi) j (List.mem_range.mpr hj)).resolve_left hne c
    simp only [List.getD_eq_getElem?_getD, ha, hb, Option.getD_some] at this
    exact this hc
  · intro f hf
    obtain ⟨hl, h⟩ := h2 f hf
    rw [List.forall₂_iff_get]
    refine ⟨hl, ?_⟩
    intro i hi hi'
    have := h i hi
    simp only [List.getD_eq_getElem?_getD, List.getElem?_eq_getElem hi, List.getElem?_eq_getElem hi',
      Option.getD_some] at this
    refine ⟨_, List.getElem?_eq_getElem this.1, ?_⟩
    have h' := this.2
    rw [List.getElem?_eq_getElem this.1] at h'
    exact h'

/-- Non-vacuity: the side `x = 1` of the strip is one element, from 0 to 1, in partition 1. -/
theorem strip_side : Sound strip ∧ NotPeriodic strip ∧
    extract ⟨0, 1⟩ strip = some ⟨2, [(0, [0]), (1, [1])], [([0, 1], 1)]⟩ := by
  refine ⟨sound_of_check _ (by decide) (by decide), by unfold NotPeriodic; decide, by decide +kernel⟩

/-- C185 (negation for periodic meshes). When the sides are connected, the side `x = 1` becomes an element with
the same coordinate twice: the first element sees the face at `x = 0`, whose coordinates are not in the table. -/
theorem periodic_collapses : Sound ring ∧
    extract ⟨0, 1⟩ ring = some ⟨2, [(0, [0]), (1, [1])], [([0, 0], 0)]⟩ ∧
    extract ⟨0, 0⟩ ring = some ⟨2, [(0, [0]), (1, [1])], [([0, 1], 0)]⟩ := by
  refine ⟨sound_of_check _ (by decide) (by decide), by decide +kernel, by decide +kernel⟩

end Verif.ExtractSurface
