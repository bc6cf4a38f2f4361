import Verif.VtkFile.Model
import Verif.Lattice.Props
import Verif.ElementShape.Model
import Mathlib.Data.List.Induction
import Mathlib.Data.List.Chain
import Mathlib.Data.List.Nodup

/-!
# Properties of the files of a time dependent problem and of the cells

C114 (the files of a time dependent problem), C115 (the cells of the reference shapes).
-/
namespace Verif.VtkFile

/-! ## C114: each call of `write` ends up in the file of its time -/

section Series
variable {τ D : Type} [DecidableEq τ]

/-- What has been written, file by file. -/
def written (files : List (TimeFile τ D)) : List (Write τ D) := files.flatMap fun f => f.contents.map fun x => ⟨x, f.time, f.level⟩

theorem toString_injective (i j : Nat) (h : toString i = toString j) : i = j := by
  have hi : (toString i).toList = (toString j).toList := by rw [h]
  simp only [Nat.toString_eq_repr, Nat.toList_repr] at hi
  have := congrArg (fun l => Nat.ofDigitChars 10 l 0) hi
  simpa [Nat.ofDigitChars_toDigits] using this

theorem timeWrites_concat (base : String) (ws : List (Write τ D)) (w : Write τ D) :
    timeWrites base (ws ++ [w]) = (timeWrites base ws).bind fun files => timeWrite base files w := by
  unfold timeWrites
  rw [List.foldlM_append]
  cases List.foldlM (timeWrite base) ([] : List (TimeFile τ D)) ws with
  | none => rfl
  | some files => simp [List.foldlM_cons]

/-- **C114.** After any history of calls, the files in the order in which they were opened hold the calls in their order: each call is in a file with its time and its time level, and none is
lost or doubled. No file is empty and two files after each other have different times, so that calls with the same time after each other share a file. The `i`-th file has the base name followed by
`i`, and these names differ. -/
theorem series_faithful (base : String) (ws : List (Write τ D)) (files : List (TimeFile τ D)) (h : timeWrites base ws = some files) :
    written files.reverse = ws ∧ (∀ f ∈ files, f.contents ≠ []) ∧ files.reverse.IsChain (fun f g => f.time ≠ g.time) ∧
      files.reverse.map (·.name) = (List.range files.length).map (fun i => base ++ toString i) ∧ (files.map (·.name)).Nodup := by
  have main : written files.reverse = ws ∧ (∀ f ∈ files, f.contents ≠ []) ∧ files.reverse.IsChain (fun f g => f.time ≠ g.time) ∧
      files.reverse.map (·.name) = (List.range files.length).map (fun i => base ++ toString i) := by
    induction ws using List.reverseRecOn generalizing files with
    | nil =>
      have : files = [] := by simpa [timeWrites, eq_comm] using h
      subst this
      exact ⟨rfl, by simp, by simp, rfl⟩
    | append_singleton ws w ih =>
      rw [timeWrites_concat] at h
      cases hp : timeWrites base ws with
      | none => rw [hp] at h; simp at h
      | some prev =>
        rw [hp] at h
        simp only [Option.bind_some] at h
        obtain ⟨h1, h2, h3, h4⟩ := ih prev hp
        match prev, h, h1, h2, h3, h4 with
        | [], h, h1, _, _, _ =>
          simp only [timeWrite, Option.some.injEq] at h
          subst h
          have : ws = [] := by rw [← h1]; rfl
          subst this
          refine ⟨rfl, by simp, by simp, by simp⟩
        | f :: fs, h, h1, h2, h3, h4 =>
          simp only [timeWrite] at h
          split at h
          · next hne =>
            simp only [Option.some.injEq] at h
            subst h
            refine ⟨?_, ?_, ?_, ?_⟩
            · rw [List.reverse_cons, written, List.flatMap_append]
              rw [show List.flatMap _ (f :: fs).reverse = ws from h1]
              simp
            · intro g hg
              rcases List.mem_cons.1 hg with rfl | hg
              · simp
              · exact h2 g hg
            · rw [List.reverse_cons, List.isChain_append]
              refine ⟨h3, by simp, ?_⟩
              intro x hx y hy
              simp only [List.reverse_cons, List.getLast?_append, List.getLast?_singleton, Option.some_or, Option.mem_def, Option.some.injEq] at hx
              simp only [List.head?_cons, Option.mem_def, Option.some.injEq] at hy
              subst hx hy
              exact fun e => hne e.symm
            · rw [List.reverse_cons, List.map_append, h4, List.length_cons (as := f :: fs), List.range_succ, List.map_append]
              rfl
          · next heq =>
            split at h
            · next hl =>
              simp only [Option.some.injEq] at h
              have heq : w.time = f.time := not_not.1 heq
              subst h
              refine ⟨?_, ?_, ?_, ?_⟩
              · rw [List.reverse_cons, written, List.flatMap_append] at h1 ⊢
                rw [← h1]
                simp [← heq, ← hl]
              · intro g hg
                rcases List.mem_cons.1 hg with rfl | hg
                · simp
                · exact h2 g (List.mem_cons_of_mem _ hg)
              · rw [List.reverse_cons, List.isChain_append] at h3 ⊢
                refine ⟨h3.1, by simp, ?_⟩
                intro x hx y hy
                simp only [List.head?_cons, Option.mem_def, Option.some.injEq] at hy
                subst hy
                exact h3.2.2 x hx f (by simp)
              · simpa using h4
            · simp at h
  obtain ⟨h1, h2, h3, h4⟩ := main
  refine ⟨h1, h2, h3, h4, ?_⟩
  rw [← List.nodup_reverse, ← List.map_reverse, h4]
  refine List.Nodup.map ?_ List.nodup_range
  intro i j hij
  exact toString_injective i j (String.append_right_inj base |>.1 hij)

/-- **C114.** Calls are refused (by an assertion) exactly if two calls after each other have the same time and different time levels. -/
theorem series_refused (base : String) (ws : List (Write τ D)) :
    timeWrites base ws ≠ none ↔ ws.IsChain fun v w => v.time = w.time → v.level = w.level := by
  induction ws using List.reverseRecOn with
  | nil => simp [timeWrites]
  | append_singleton ws w ih =>
    rw [timeWrites_concat, List.isChain_append]
    cases hp : timeWrites base ws with
    | none => rw [hp] at ih; simp only [Option.bind_none, ne_eq, not_true_eq_false, false_iff, not_and] at ih ⊢; exact fun h => absurd h ih
    | some files =>
      rw [hp] at ih
      have hc := ih.1 (by simp)
      obtain ⟨h1, h2, _, _, _⟩ := series_faithful base ws files hp
      simp only [Option.bind_some]
      have hlast : ∀ f fs, files = f :: fs → ∃ v, ws.getLast? = some v ∧ v.time = f.time ∧ v.level = f.level := by
        intro f fs e
        subst e
        rw [List.reverse_cons, written, List.flatMap_append] at h1
        have hne := h2 f (List.mem_cons_self ..)
        refine ⟨⟨f.contents.getLast hne, f.time, f.level⟩, ?_, rfl, rfl⟩
        rw [← h1]
        simp only [List.flatMap_cons, List.flatMap_nil, List.append_nil, List.getLast?_append, List.getLast?_map, List.getLast?_eq_getLast_of_ne_nil hne]
        rfl
      match files, h1, hlast with
      | [], h1, _ =>
        have : ws = [] := by rw [← h1]; rfl
        subst this
        simp [timeWrite]
      | f :: fs, h1, hlast =>
        obtain ⟨v, hv, ht, hl⟩ := hlast f fs rfl
        simp only [timeWrite, hv, Option.mem_def, Option.some.injEq, List.head?_cons]
        constructor
        · intro h
          refine ⟨hc, by simp, ?_⟩
          intro x hx y hy
          subst hx hy
          intro e
          rw [if_neg (not_not.2 (e.symm.trans ht))] at h
          by_contra hne
          rw [if_neg (fun e2 => hne (hl.trans e2.symm))] at h
          exact h rfl
        · rintro ⟨_, _, h⟩
          have h := h v rfl w rfl
          by_cases e : w.time = f.time
          · rw [if_neg (not_not.2 e), if_pos ((h (ht.trans e.symm)).symm.trans hl)]; simp
          · rw [if_pos e]; simp

/-- Three calls at two times. -/
example : ∃ files, timeWrites "wave" [(⟨'a', 0, 0⟩ : Write Nat Char), ⟨'b', 0, 0⟩, ⟨'c', 1, 2⟩] = some files ∧ files.map (·.contents) = [['c'], ['a', 'b']] := ⟨_, rfl, rfl⟩

/-- **C114.** The `.pvd` file refers to the files without their directory, in which it is itself. -/
theorem strip_directory (directory name : List Char) (h : '/' ∉ name) : stripDirectory (directory ++ '/' :: name) = name ∧ stripDirectory name = name := by
  constructor
  · unfold stripDirectory
    rw [if_pos (by simp), List.reverse_append, List.reverse_cons, List.append_assoc]
    have : (name.reverse ++ ([ '/' ] ++ directory.reverse)).takeWhile (· ≠ '/') = name.reverse := by
      rw [List.takeWhile_append_of_pos (by intro c hc; simp only [ne_eq, decide_not, Bool.not_eq_eq_eq_not, Bool.not_true, decide_eq_false_iff_not]; intro e; subst e; exact h (List.mem_reverse.1 hc))]
      simp
    rw [this, List.reverse_reverse]
  · exact if_neg h

/-- **C114 (negation for two writers).** Two writers with different base names can write the same files: file 11 of a writer is file 1 of the writer whose base name has a `1` more. -/
theorem series_clash (base : String) : base ≠ base ++ "1" ∧ base ++ toString 11 = (base ++ "1") ++ toString 1 := by
  constructor
  · intro h
    have := congrArg String.length h
    simp [String.length_append] at this
  · rw [String.append_assoc]; rfl

end Series

/-! ## C115: the cells of the reference shapes -/

/-- VTK file formats, figure 2: the edges of the linear cells, by the type of the cell. -/
def cellEdges : Nat → List (Nat × Nat)
  | 3 => [(0, 1)]
  | 5 => [(0, 1), (1, 2), (2, 0)]
  | 9 => [(0, 1), (1, 2), (2, 3), (3, 0)]
  | 10 => [(0, 1), (1, 2), (2, 0), (0, 3), (1, 3), (2, 3)]
  | 12 => [(0, 1), (1, 2), (2, 3), (3, 0), (4, 5), (5, 6), (6, 7), (7, 4), (0, 4), (1, 5), (2, 6), (3, 7)]
  | 13 => [(0, 1), (1, 2), (2, 0), (3, 4), (4, 5), (5, 3), (0, 3), (1, 4), (2, 5)]
  | 14 => [(0, 1), (1, 2), (2, 3), (3, 0), (0, 4), (1, 4), (2, 4), (3, 4)]
  | _ => []

/-- A cell has the corners of the shape, each once, and its edges are the edges of the shape: `corner i` is the corner of the shape at point `i` of the cell. -/
def Fits {d : Nat} (v : VtkElement (RefGeometry.Pt d)) (nodes : List (RefGeometry.Pt d)) (edges : List (List Nat)) : Prop :=
  ∃ corner : List Nat, corner.Perm (List.range nodes.length) ∧ v.points.map some = corner.map (fun i => nodes[i]?) ∧
    (∀ e ∈ cellEdges v.id, [corner.getD e.1 0, corner.getD e.2 0] ∈ edges ∨ [corner.getD e.2 0, corner.getD e.1 0] ∈ edges) ∧ (cellEdges v.id).length = edges.length

/-- **C115.** At order one each reference shape of dimension one to three has a cell, with its corners and edges. -/
theorem linear_cells :
    (∃ v, mapping1 1 .line = some v ∧ Fits v RefGeometry.lineG.nodes (ElementShape.line.parts 1)) ∧
    (∃ v, mapping2 1 .triangle = some v ∧ Fits v RefGeometry.triangleG.nodes (ElementShape.triangle.parts 1)) ∧
    (∃ v, mapping2 1 .square = some v ∧ Fits v RefGeometry.squareG.nodes (ElementShape.square.parts 1)) ∧
    (∃ v, mapping3 1 .tetrahedron = some v ∧ Fits v RefGeometry.tetrahedronG.nodes (ElementShape.tetrahedron.parts 1)) ∧
    (∃ v, mapping3 1 .cube = some v ∧ Fits v RefGeometry.cubeG.nodes (ElementShape.cube.parts 1)) ∧
    (∃ v, mapping3 1 .prism = some v ∧ Fits v RefGeometry.prismG.nodes (ElementShape.triangularPrism.parts 1)) ∧
    (∃ v, mapping3 1 .pyramid = some v ∧ Fits v RefGeometry.pyramidG.nodes (ElementShape.pyramid.parts 1)) := by
  refine ⟨⟨_, rfl, [0, 1], by decide, rfl, by decide, rfl⟩, ⟨_, rfl, [0, 1, 2], by decide, rfl, by decide, rfl⟩, ⟨_, rfl, [0, 1, 3, 2], by decide, rfl, by decide, rfl⟩,
    ⟨_, rfl, [0, 1, 2, 3], by decide, rfl, by decide, rfl⟩, ⟨_, rfl, [0, 1, 3, 2, 4, 5, 7, 6], by decide, rfl, by decide, rfl⟩, ⟨_, rfl, [0, 1, 2, 3, 4, 5], by decide, rfl, by decide, rfl⟩,
    ⟨_, rfl, [1, 2, 4, 3, 0], by decide, rfl, by decide, rfl⟩⟩

/-- **C115.** Which shapes have a cell, at any order from one: in dimensions one and two all, in dimension three the tetrahedron and the cube at any order, but prisms and pyramids only at order
one. A mesh with a prism or a pyramid is refused at order two and above. -/
theorem cells_at_order (order : Nat) (ho : 1 ≤ order) (g : Geometry) :
    ((mapping1 order g).isSome ↔ g = .line) ∧ ((mapping2 order g).isSome ↔ g = .triangle ∨ g = .square) ∧
      ((mapping3 order g).isSome ↔ g = .tetrahedron ∨ g = .cube ∨ (order = 1 ∧ (g = .prism ∨ g = .pyramid))) := by
  have s1 : ∀ {d : Nat} (l : List (RefGeometry.Pt d)) (o : Option (VtkElement (RefGeometry.Pt d))) (k : Nat) (x : Option (List (RefGeometry.Pt d))), x = some l →
      o.isSome → (if order = 1 then o else x.map (⟨k, ·⟩)).isSome := by
    intro d l o k x hx ho
    split
    · exact ho
    · rw [hx]; rfl
  refine ⟨?_, ?_, ?_⟩
  · cases g <;> simp only [mapping1, reduceCtorEq, Option.isSome_none, Bool.false_eq_true]
    simp only [iff_true]
    exact s1 _ _ _ _ (Lattice.vtkCurve_eq order ho) rfl
  · cases g <;> simp only [mapping2, reduceCtorEq, Option.isSome_none, Bool.false_eq_true, or_self, or_false, or_true, true_or, false_or, iff_true]
    · exact s1 _ _ _ _ (Lattice.vtkTriangle_eq order) rfl
    · exact s1 _ _ _ _ (Lattice.vtkQuadrilateral_eq order ho) rfl
  · cases g <;> simp only [mapping3, reduceCtorEq, Option.isSome_none, Bool.false_eq_true, or_self, or_false, or_true, true_or, false_or, and_false, and_true, iff_true]
    · exact s1 _ _ _ _ (Lattice.vtkTetrahedron_eq order) rfl
    · split <;> simp [*]
    · exact s1 _ _ _ _ (Lattice.vtkHexahedron_eq order ho) rfl
    · split <;> simp [*]

/-- Order two: the cube has a cell and the prism has none. -/
example : (mapping3 2 .cube).isSome ∧ ¬ (mapping3 2 .prism).isSome := by
  refine ⟨(cells_at_order 2 (by omega) .cube).2.2.2 (by simp), fun h => ?_⟩
  have := (cells_at_order 2 (by omega) .prism).2.2.1 h
  simp at this

end Verif.VtkFile
