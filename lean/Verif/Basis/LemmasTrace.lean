import Verif.Basis.Spec
import Verif.Legendre.Props
import Mathlib.Tactic.Ring
import Mathlib.Tactic.FieldSimp
import Mathlib.Tactic.NormNum
import Mathlib.Tactic.FinCases
import Mathlib.Tactic.IntervalCases

set_option linter.all false
namespace Verif.Basis
open Verif.RefGeometry
open Verif.Legendre (lobatto lobattoDeriv)

theorem forall2_of_map {α β γ : Type} {R : α → β → Prop} {l : List α} {r : List β} (f : α → γ)
    (g : β → γ) (h : l.map f = r.map g) (hR : ∀ a b, f a = g b → R a b) : List.Forall₂ R l r := by
  induction l generalizing r with
  | nil => cases r with
    | nil => exact .nil
    | cons => simp at h
  | cons a l ih =>
    cases r with
    | nil => simp at h
    | cons b r =>
      simp only [List.map_cons, List.cons.injEq] at h
      exact .cons (hR _ _ h.1) (ih h.2)

theorem match_of_canonical {d : Nat} {L R : Face d} {K : RefMap d d} {l r c : List _}
    (hl : l.map (fun f x => f (L.map.transform x)) = c)
    (hr : r.map (fun f x => f (R.map.transform (K.transform x))) = c) : TracesMatch L R K l r := by
  apply forall2_of_map (γ := Pt d → ℝ) (fun f x => f (L.map.transform x))
    (fun f x => f (R.map.transform (K.transform x))) (hl.trans hr.symm)
  intro a b h x
  exact congrFun h x

/-! ### 2D -/

noncomputable def canonLine (o : Nat) : List (Pt 1 → ℝ) :=
  (upTo 2 o).map fun j x => (1 - x 0) * (1 + x 0) / 4 * lobatto j (x 0)

theorem canon_line (o : Nat) (k : Nat) (hk : k < 2) (K : RefMap 1 1)
    (hK : lineToLine[k]? = some K) (F) (hF : F ∈ lineFacesOf) :
    (F.fns o k).map (fun f x => f (F.face.map.transform (K.transform x))) = canonLine o := by
  unfold lineToLine at hK
  simp only [lineFacesOf, triangleFaces, squareFaces, List.zipIdx_cons, List.zipIdx_nil,
    List.map_cons, List.map_nil, List.cons_append, List.nil_append, List.mem_cons,
    List.not_mem_nil, or_false] at hF
  rcases hF with rfl | rfl | rfl | rfl | rfl | rfl | rfl <;> interval_cases k <;>
    (simp at hK; subst hK
     simp [fnsOf, triangleFaceSets, triangleFaceNodes, squareFaceSets, squareFaceNodes,
      List.find?_cons, canonLine, squareFaceFn]
     intro j hj
     funext x
     simp [TriangleFn.eval, SquareFn.eval, bary2, squareEdgePosition, mirror']
     ring_nf)

theorem idLine (x : Pt 1) : ![x 0] = x := by ext i; fin_cases i; rfl

/-! ### Triangular faces -/

noncomputable def canonTri (o : Nat) : List (Pt 2 → ℝ) :=
  (upTo 3 o).flatMap fun j => (upTo (j + 3) o).map fun k x =>
    bary2 0 x * bary2 1 x * bary2 2 x * lobatto j (bary2 0 x - bary2 1 x) *
      lobatto k (bary2 1 x - bary2 2 x)

theorem tet_face_eval (a b c : Fin 4) (j k : Nat) (p : Pt 3) (x : Pt 2) (ha : bary3 a p = bary2 0 x)
    (hb : bary3 b p = bary2 1 x) (hc : bary3 c p = bary2 2 x) :
    (TetFn.face a b c j k).eval p = bary2 0 x * bary2 1 x * bary2 2 x *
      lobatto j (bary2 0 x - bary2 1 x) * lobatto k (bary2 1 x - bary2 2 x) := by
  simp only [TetFn.eval, ha, hb, hc]

theorem prism_face_eval (a b c : Fin 6) (j k : Nat) (p : Pt 3) (x : Pt 2)
    (ha : baryP (triNode a) p = bary2 0 x)
    (hb : baryP (triNode b) p = bary2 1 x) (hc : baryP (triNode c) p = bary2 2 x)
    (hp : posP a * p 2 = 1) :
    (PrismFn.face0 a b c j k).eval p = bary2 0 x * bary2 1 x * bary2 2 x *
      lobatto j (bary2 0 x - bary2 1 x) * lobatto k (bary2 1 x - bary2 2 x) := by
  simp only [PrismFn.eval, ha, hb, hc, hp]; ring

theorem canon_tri_tet (o k i : Nat) (hk : k < 6) (hi : i < 4) (K : RefMap 2 2)
    (hK : triangleToTriangle[k]? = some K) (F) (hF : tetrahedronFaces[i]? = some F) :
    (fnsOf TetFn.eval (tetFaceSets o) i k).map (fun f x => f (F.map.transform (K.transform x))) =
      canonTri o := by
  unfold triangleToTriangle at hK
  unfold tetrahedronFaces at hF
  interval_cases i <;> interval_cases k <;>
    (simp at hK hF; subst hK; subst hF
     simp [fnsOf, tetFaceSets, tetFaceNodes, List.find?_cons, canonTri, trianglePerms,
      List.map_flatMap, Function.comp_def]
     congr 1
     all_goals
      (funext j; congr 1; funext k x
       apply tet_face_eval <;> simp [bary3, bary2] <;> ring))

theorem canon_tri_prism (o k i : Nat) (hk : k < 6) (hi : i < 2) (K : RefMap 2 2)
    (hK : triangleToTriangle[k]? = some K) (F) (hF : prismFaces[i]? = some F) :
    (fnsOf PrismFn.eval (prismFaceSets o) i k).map (fun f x => f (F.map.transform (K.transform x))) =
      canonTri o := by
  unfold triangleToTriangle at hK
  unfold prismFaces at hF
  interval_cases i <;> interval_cases k <;>
    (simp at hK hF; subst hK; subst hF
     simp [fnsOf, prismFaceSets, prismTriFaceNodes, List.find?_cons, canonTri, trianglePerms,
      List.map_flatMap, Function.comp_def]
     congr 1; funext j; congr 1; funext k x
     apply prism_face_eval <;> simp [baryP, bary2, triNode, posP] <;> ring)

theorem canon_tri (o : Nat) (k : Nat) (hk : k < 6) (K : RefMap 2 2)
    (hK : triangleToTriangle[k]? = some K) (F) (hF : F ∈ triangularFacesOf) :
    (F.fns o k).map (fun f x => f (F.face.map.transform (K.transform x))) = canonTri o := by
  simp only [triangularFacesOf, List.mem_append, List.mem_map, Prod.exists] at hF
  rcases hF with ⟨G, i, h, rfl⟩ | ⟨G, i, h, rfl⟩
  · have h' := List.mem_zipIdx_iff_getElem?.1 h
    have hi : i < 4 := by
      have := (List.getElem?_eq_some_iff.1 h').1; simpa [tetrahedronFaces] using this
    exact canon_tri_tet o k i hk hi K hK G h'
  · have h' := List.mem_zipIdx_iff_getElem?.1 (List.mem_of_mem_take h)
    have hi : i < 2 := by
      simp [prismFaces] at h
      rcases h with ⟨_, rfl⟩ | ⟨_, rfl⟩ <;> omega
    exact canon_tri_prism o k i hk hi K hK G h'

/-! ### Cube -/

noncomputable def canonSq (o : Nat) (s : Bool) : List (Pt 2 → ℝ) :=
  (upTo 2 o).flatMap fun j => (upTo 2 o).map fun k x =>
    (1 - x 0) * (1 + x 0) * (1 - x 1) * (1 + x 1) / 16 *
      if s then lobatto j (x 0) * lobatto k (x 1) else lobatto j (x 1) * lobatto k (x 0)

theorem canon_cube (o k i : Nat) (hk : k = 0 ∨ k = 2 ∨ k = 4 ∨ k = 5) (hi : i < 6) (K : RefMap 2 2)
    (hK : squareToSquare[k]? = some K) (F) (hF : cubeFaces[i]? = some F) :
    (fnsOf CubeFn.eval (cubeFaceSets o) i k).map (fun f x => f (F.map.transform (K.transform x))) =
      canonSq o true := by
  unfold squareToSquare at hK
  unfold cubeFaces at hF
  interval_cases i <;> rcases hk with rfl | rfl | rfl | rfl <;>
    (simp at hK hF; subst hK; subst hF
     simp [fnsOf, cubeFaceSets, cubeFaceNodes, List.find?_cons, canonSq, cubeSquarePerms,
      List.map_flatMap, Function.comp_def, cubeFaceFn]
     congr 1; funext j; congr 1; funext k x
     simp [CubeFn.eval, mirror, pos0, pos1, pos2]; norm_num; ring)

theorem canon_cube' (o k i : Nat) (hk : k = 1 ∨ k = 3 ∨ k = 6 ∨ k = 7) (hi : i < 6) (K : RefMap 2 2)
    (hK : squareToSquare[k]? = some K) (F) (hF : cubeFaces[i]? = some F) :
    ∃ m : ℝ, m ^ 2 = 1 ∧
    (fnsOf CubeFn.eval (cubeFaceSets o) i k).map (fun f x => f (F.map.transform (K.transform x))) =
      (upTo 2 o).flatMap fun j => (upTo 2 o).map fun k x =>
        (1 - x 0) * (1 + x 0) * (1 - x 1) * (1 + x 1) / 16 *
          (lobatto j (m * x 1) * lobatto k (m * x 0)) := by
  unfold squareToSquare at hK
  unfold cubeFaces at hF
  rcases hk with rfl | rfl | rfl | rfl <;> simp at hK <;> subst hK
  · refine ⟨-1, by norm_num, ?_⟩
    interval_cases i <;>
    (simp at hF; subst hF
     simp [fnsOf, cubeFaceSets, cubeFaceNodes, List.find?_cons, cubeSquarePerms,
      List.map_flatMap, Function.comp_def, cubeFaceFn]
     congr 1; funext j; congr 1; funext k x
     simp [CubeFn.eval, mirror, pos0, pos1, pos2]; norm_num; ring)
  · refine ⟨-1, by norm_num, ?_⟩
    interval_cases i <;>
    (simp at hF; subst hF
     simp [fnsOf, cubeFaceSets, cubeFaceNodes, List.find?_cons, cubeSquarePerms,
      List.map_flatMap, Function.comp_def, cubeFaceFn]
     congr 1; funext j; congr 1; funext k x
     simp [CubeFn.eval, mirror, pos0, pos1, pos2]; norm_num; ring)
  · refine ⟨1, by norm_num, ?_⟩
    interval_cases i <;>
    (simp at hF; subst hF
     simp [fnsOf, cubeFaceSets, cubeFaceNodes, List.find?_cons, cubeSquarePerms,
      List.map_flatMap, Function.comp_def, cubeFaceFn]
     congr 1; funext j; congr 1; funext k x
     simp [CubeFn.eval, mirror, pos0, pos1, pos2]; norm_num; ring)
  · refine ⟨1, by norm_num, ?_⟩
    interval_cases i <;>
    (simp at hF; subst hF
     simp [fnsOf, cubeFaceSets, cubeFaceNodes, List.find?_cons, cubeSquarePerms,
      List.map_flatMap, Function.comp_def, cubeFaceFn]
     congr 1; funext j; congr 1; funext k x
     simp [CubeFn.eval, mirror, pos0, pos1, pos2]; norm_num; ring)

theorem mem_cubeFacesOf (F) (hF : F ∈ cubeFacesOf) : ∃ i < 6, cubeFaces[i]? = some F.face ∧
    F.fns = fun o k => fnsOf CubeFn.eval (cubeFaceSets o) i k := by
  simp only [cubeFacesOf, List.mem_map, Prod.exists] at hF
  obtain ⟨G, i, h, rfl⟩ := hF
  have h' := List.mem_zipIdx_iff_getElem?.1 h
  refine ⟨i, ?_, h', rfl⟩
  have := (List.getElem?_eq_some_iff.1 h').1; simpa [cubeFaces] using this

theorem lobatto0 : ∃ c : ℝ, c ≠ 0 ∧ ∀ x, lobatto 0 x = c :=
  ⟨√(3 / 2) * -2, by
    have : (0:ℝ) < √(3 / 2) := by positivity
    intro h; nlinarith, fun x => rfl⟩

theorem lobatto1 : ∃ c : ℝ, c ≠ 0 ∧ ∀ x, lobatto 1 x = c * x :=
  ⟨√(5 / 2) * -2, by
    have : (0:ℝ) < √(5 / 2) := by positivity
    intro h; nlinarith, fun x => by simp [lobatto]; ring⟩

theorem upTo2_cons (o : Nat) (ho : 3 ≤ o) : ∃ l, upTo 2 o = 0 :: 1 :: l := by
  obtain ⟨n, rfl⟩ := Nat.exists_eq_add_of_le' ho
  exact ⟨_, by rw [upTo, show n + 3 + 1 - 2 = n + 1 + 1 by omega, List.range_succ_eq_map,
    List.range_succ_eq_map, List.map_cons]⟩

theorem cube_mismatch (o k : Nat) (ho : 3 ≤ o) (hk : k = 1 ∨ k = 3 ∨ k = 6 ∨ k = 7)
    (K : RefMap 2 2) (hK : squareToSquare[k]? = some K) (L R) (hL : L ∈ cubeFacesOf)
    (hR : R ∈ cubeFacesOf) : ¬ TracesMatch L.face R.face K (L.fns o 0) (R.fns o k) := by
  obtain ⟨i, hi, hLi, hLf⟩ := mem_cubeFacesOf L hL
  obtain ⟨i', hi', hRi, hRf⟩ := mem_cubeFacesOf R hR
  have h0 := canon_cube o 0 i (by simp) hi ⟨fun p => ![p 0, p 1], fun _ => !![1, 0; 0, 1]⟩ rfl _ hLi
  obtain ⟨m, hm, h1⟩ := canon_cube' o k i' hk hi' K hK _ hRi
  intro h
  rw [hLf, hRf] at h
  obtain ⟨l, hl⟩ := upTo2_cons o ho
  unfold TracesMatch at h
  have h2 := (List.forall₂_map_left_iff (f := fun (f : Pt 3 → ℝ) x => f (L.face.map.transform x))
    (R := fun (a b : Pt 2 → ℝ) => ∀ x, a x = b x)).2 ((List.forall₂_map_right_iff
      (f := fun (f : Pt 3 → ℝ) x => f (R.face.map.transform (K.transform x)))).2 h)
  have e : ∀ x : Pt 2, ![x 0, x 1] = x := by intro x; ext i; fin_cases i <;> rfl
  simp only [e] at h0
  rw [h0, h1, canonSq, hl] at h2
  simp only [List.flatMap_cons, List.map_cons, List.cons_append, List.forall₂_cons] at h2
  obtain ⟨_, h3, _⟩ := h2
  have h4 := h3 ![1 / 2, 0]
  obtain ⟨c0, hc0, e0⟩ := lobatto0
  obtain ⟨c1, hc1, e1⟩ := lobatto1
  simp [e0, e1] at h4
  norm_num [hc0, hc1] at h4
  rw [h4] at hm; norm_num at hm

end Verif.Basis
