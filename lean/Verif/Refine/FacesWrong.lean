import Verif.Refine.FaceMaps

/-! # The faces of the sub-elements: what does not fit -/
set_option linter.all false
namespace Verif.Refine
open Verif.RefGeometry (Pt Geom Face)

theorem face_triangle5_1 : ¬ FaceFits .triangle5 1 := by
  rintro ⟨F, m, h1, h2, h3, h⟩
  obtain rfl := Option.some.inj h1
  obtain rfl := Option.some.inj h2
  obtain ⟨e, g, sub, G, part, c, cf, k1, k2, k3, k4, k5, k6, k7, k⟩ := h 0 (by show 0 < 2; norm_num)
  obtain ⟨rfl, rfl⟩ := Prod.mk.inj (Option.some.inj k1)
  obtain rfl := Option.some.inj k2
  obtain rfl := Option.some.inj k3
  obtain rfl := Option.some.inj k4
  obtain rfl := Option.some.inj (ref_triangle5_0.symm.trans k6)
  obtain rfl := Option.some.inj (ref_line1_0.symm.trans k7)
  have := congrFun (k ![-1] (by simp [Shape.body, Shape.geom, RefGeometry.lineG])) 1
  simp at this
  try norm_num at this

theorem nodes_triangle5_1 : ¬ FaceNodesFit .triangle5 1 := by
  rintro ⟨F, m, l, h1, h2, h3, h4, h5, h⟩
  obtain rfl := Option.some.inj h1
  obtain rfl := Option.some.inj h2
  obtain rfl := Option.some.inj h3
  obtain ⟨e, g, sub, G, le, lj, k1, k2, k3, k4, k5, k6, k7⟩ := h 0 (by show 0 < 2; norm_num)
  obtain ⟨rfl, rfl⟩ := Prod.mk.inj (Option.some.inj k1)
  obtain rfl := Option.some.inj k2
  obtain rfl := Option.some.inj k3
  obtain rfl := Option.some.inj k4
  obtain rfl := Option.some.inj k5
  exact absurd k6 (by decide)

theorem face_triangle6_2 : ¬ FaceFits .triangle6 2 := by
  rintro ⟨F, m, h1, h2, h3, h⟩
  obtain rfl := Option.some.inj h1
  obtain rfl := Option.some.inj h2
  obtain ⟨e, g, sub, G, part, c, cf, k1, k2, k3, k4, k5, k6, k7, k⟩ := h 0 (by show 0 < 2; norm_num)
  obtain ⟨rfl, rfl⟩ := Prod.mk.inj (Option.some.inj k1)
  obtain rfl := Option.some.inj k2
  obtain rfl := Option.some.inj k3
  obtain rfl := Option.some.inj k4
  obtain rfl := Option.some.inj (ref_triangle6_0.symm.trans k6)
  obtain rfl := Option.some.inj (ref_line1_0.symm.trans k7)
  have := congrFun (k ![-1] (by simp [Shape.body, Shape.geom, RefGeometry.lineG])) 0
  simp at this
  try norm_num at this

theorem nodes_triangle6_2 : ¬ FaceNodesFit .triangle6 2 := by
  rintro ⟨F, m, l, h1, h2, h3, h4, h5, h⟩
  obtain rfl := Option.some.inj h1
  obtain rfl := Option.some.inj h2
  obtain rfl := Option.some.inj h3
  obtain ⟨e, g, sub, G, le, lj, k1, k2, k3, k4, k5, k6, k7⟩ := h 0 (by show 0 < 2; norm_num)
  obtain ⟨rfl, rfl⟩ := Prod.mk.inj (Option.some.inj k1)
  obtain rfl := Option.some.inj k2
  obtain rfl := Option.some.inj k3
  obtain rfl := Option.some.inj k4
  obtain rfl := Option.some.inj k5
  exact absurd k6 (by decide)

theorem face_triangle8_0 : ¬ FaceFits .triangle8 0 := by
  rintro ⟨F, m, h1, h2, h3, h⟩
  obtain rfl := Option.some.inj h1
  obtain rfl := Option.some.inj h2
  obtain ⟨e, g, sub, G, part, c, cf, k1, k2, k3, k4, k5, k6, k7, k⟩ := h 0 (by show 0 < 1; norm_num)
  obtain ⟨rfl, rfl⟩ := Prod.mk.inj (Option.some.inj k1)
  obtain rfl := Option.some.inj k2
  obtain rfl := Option.some.inj k3
  obtain rfl := Option.some.inj k4
  obtain rfl := Option.some.inj (ref_triangle8_0.symm.trans k6)
  obtain rfl := Option.some.inj (ref_line0_0.symm.trans k7)
  have := congrFun (k ![1] (by simp [Shape.body, Shape.geom, RefGeometry.lineG])) 0
  simp at this
  try norm_num at this

theorem nodes_triangle8_0 : ¬ FaceNodesFit .triangle8 0 := by
  rintro ⟨F, m, l, h1, h2, h3, h4, h5, h⟩
  obtain rfl := Option.some.inj h1
  obtain rfl := Option.some.inj h2
  obtain rfl := Option.some.inj h3
  exact absurd h4 (by decide)

theorem face_triangle8_2 : ¬ FaceFits .triangle8 2 := by
  rintro ⟨F, m, h1, h2, h3, h⟩
  obtain rfl := Option.some.inj h1
  obtain rfl := Option.some.inj h2
  obtain ⟨e, g, sub, G, part, c, cf, k1, k2, k3, k4, k5, k6, k7, k⟩ := h 0 (by show 0 < 2; norm_num)
  obtain ⟨rfl, rfl⟩ := Prod.mk.inj (Option.some.inj k1)
  obtain rfl := Option.some.inj k2
  obtain rfl := Option.some.inj k3
  obtain rfl := Option.some.inj k4
  obtain rfl := Option.some.inj (ref_triangle8_1.symm.trans k6)
  obtain rfl := Option.some.inj (ref_line1_0.symm.trans k7)
  have := congrFun (k ![1] (by simp [Shape.body, Shape.geom, RefGeometry.lineG])) 0
  simp at this
  try norm_num at this

theorem nodes_triangle8_2 : ¬ FaceNodesFit .triangle8 2 := by
  rintro ⟨F, m, l, h1, h2, h3, h4, h5, h⟩
  obtain rfl := Option.some.inj h1
  obtain rfl := Option.some.inj h2
  obtain rfl := Option.some.inj h3
  exact absurd h4 (by decide)

theorem face_cube5_0 : ¬ FaceFits .cube5 0 := by
  rintro ⟨F, m, h1, h2, h3, h⟩
  obtain rfl := Option.some.inj h1
  obtain rfl := Option.some.inj h2
  obtain ⟨e, g, sub, G, part, c, cf, k1, k2, k3, k4, k5, k6, k7, k⟩ := h 0 (by show 0 < 2; norm_num)
  obtain ⟨rfl, rfl⟩ := Prod.mk.inj (Option.some.inj k1)
  obtain rfl := Option.some.inj k2
  obtain rfl := Option.some.inj k3
  obtain rfl := Option.some.inj k4
  obtain rfl := Option.some.inj (ref_cube5_0.symm.trans k6)
  obtain rfl := Option.some.inj (ref_square1_0.symm.trans k7)
  have := congrFun (k ![1, 1] (by simp [Shape.body, Shape.geom, RefGeometry.squareG])) 1
  simp only [place_cube, place_prism] at this
  simp at this
  try norm_num at this

theorem nodes_cube5_0 : ¬ FaceNodesFit .cube5 0 := by
  rintro ⟨F, m, l, h1, h2, h3, h4, h5, h⟩
  obtain rfl := Option.some.inj h1
  obtain rfl := Option.some.inj h2
  obtain rfl := Option.some.inj h3
  obtain ⟨e, g, sub, G, le, lj, k1, k2, k3, k4, k5, k6, k7⟩ := h 0 (by show 0 < 2; norm_num)
  obtain ⟨rfl, rfl⟩ := Prod.mk.inj (Option.some.inj k1)
  obtain rfl := Option.some.inj k2
  obtain rfl := Option.some.inj k3
  obtain rfl := Option.some.inj k4
  obtain rfl := Option.some.inj k5
  exact absurd k6 (by decide)

theorem face_cube5_1 : ¬ FaceFits .cube5 1 := by
  rintro ⟨F, m, h1, h2, h3, h⟩
  obtain rfl := Option.some.inj h1
  obtain rfl := Option.some.inj h2
  obtain ⟨e, g, sub, G, part, c, cf, k1, k2, k3, k4, k5, k6, k7, k⟩ := h 0 (by show 0 < 4; norm_num)
  obtain ⟨rfl, rfl⟩ := Prod.mk.inj (Option.some.inj k1)
  obtain rfl := Option.some.inj k2
  obtain rfl := Option.some.inj k3
  obtain rfl := Option.some.inj k4
  obtain rfl := Option.some.inj (ref_cube5_0.symm.trans k6)
  obtain rfl := Option.some.inj (ref_square3_0.symm.trans k7)
  have := congrFun (k ![-1, 1] (by simp [Shape.body, Shape.geom, RefGeometry.squareG])) 0
  simp only [place_cube, place_prism] at this
  simp at this
  try norm_num at this

theorem nodes_cube5_1 : ¬ FaceNodesFit .cube5 1 := by
  rintro ⟨F, m, l, h1, h2, h3, h4, h5, h⟩
  obtain rfl := Option.some.inj h1
  obtain rfl := Option.some.inj h2
  obtain rfl := Option.some.inj h3
  obtain ⟨e, g, sub, G, le, lj, k1, k2, k3, k4, k5, k6, k7⟩ := h 0 (by show 0 < 4; norm_num)
  obtain ⟨rfl, rfl⟩ := Prod.mk.inj (Option.some.inj k1)
  obtain rfl := Option.some.inj k2
  obtain rfl := Option.some.inj k3
  obtain rfl := Option.some.inj k4
  obtain rfl := Option.some.inj k5
  exact absurd k6 (by decide)

theorem face_cube5_2 : ¬ FaceFits .cube5 2 := by
  rintro ⟨F, m, h1, h2, h3, h⟩
  obtain rfl := Option.some.inj h1
  obtain rfl := Option.some.inj h2
  obtain ⟨e, g, sub, G, part, c, cf, k1, k2, k3, k4, k5, k6, k7, k⟩ := h 0 (by show 0 < 2; norm_num)
  obtain ⟨rfl, rfl⟩ := Prod.mk.inj (Option.some.inj k1)
  obtain rfl := Option.some.inj k2
  obtain rfl := Option.some.inj k3
  obtain rfl := Option.some.inj k4
  obtain rfl := Option.some.inj (ref_cube5_0.symm.trans k6)
  obtain rfl := Option.some.inj (ref_square2_0.symm.trans k7)
  have := congrFun (k ![-1, 1] (by simp [Shape.body, Shape.geom, RefGeometry.squareG])) 0
  simp only [place_cube, place_prism] at this
  simp at this
  try norm_num at this

theorem nodes_cube5_2 : ¬ FaceNodesFit .cube5 2 := by
  rintro ⟨F, m, l, h1, h2, h3, h4, h5, h⟩
  obtain rfl := Option.some.inj h1
  obtain rfl := Option.some.inj h2
  obtain rfl := Option.some.inj h3
  obtain ⟨e, g, sub, G, le, lj, k1, k2, k3, k4, k5, k6, k7⟩ := h 0 (by show 0 < 2; norm_num)
  obtain ⟨rfl, rfl⟩ := Prod.mk.inj (Option.some.inj k1)
  obtain rfl := Option.some.inj k2
  obtain rfl := Option.some.inj k3
  obtain rfl := Option.some.inj k4
  obtain rfl := Option.some.inj k5
  exact absurd k6 (by decide)

theorem face_cube5_3 : ¬ FaceFits .cube5 3 := by
  rintro ⟨F, m, h1, h2, h3, h⟩
  obtain rfl := Option.some.inj h1
  obtain rfl := Option.some.inj h2
  obtain ⟨e, g, sub, G, part, c, cf, k1, k2, k3, k4, k5, k6, k7, k⟩ := h 0 (by show 0 < 2; norm_num)
  obtain ⟨rfl, rfl⟩ := Prod.mk.inj (Option.some.inj k1)
  obtain rfl := Option.some.inj k2
  obtain rfl := Option.some.inj k3
  obtain rfl := Option.some.inj k4
  obtain rfl := Option.some.inj (ref_cube5_1.symm.trans k6)
  obtain rfl := Option.some.inj (ref_square2_0.symm.trans k7)
  have := congrFun (k ![-1, 1] (by simp [Shape.body, Shape.geom, RefGeometry.squareG])) 0
  simp only [place_cube, place_prism] at this
  simp at this
  try norm_num at this

theorem nodes_cube5_3 : ¬ FaceNodesFit .cube5 3 := by
  rintro ⟨F, m, l, h1, h2, h3, h4, h5, h⟩
  obtain rfl := Option.some.inj h1
  obtain rfl := Option.some.inj h2
  obtain rfl := Option.some.inj h3
  obtain ⟨e, g, sub, G, le, lj, k1, k2, k3, k4, k5, k6, k7⟩ := h 0 (by show 0 < 2; norm_num)
  obtain ⟨rfl, rfl⟩ := Prod.mk.inj (Option.some.inj k1)
  obtain rfl := Option.some.inj k2
  obtain rfl := Option.some.inj k3
  obtain rfl := Option.some.inj k4
  obtain rfl := Option.some.inj k5
  exact absurd k6 (by decide)

theorem face_cube5_4 : ¬ FaceFits .cube5 4 := by
  rintro ⟨F, m, h1, h2, h3, h⟩
  obtain rfl := Option.some.inj h1
  obtain rfl := Option.some.inj h2
  obtain ⟨e, g, sub, G, part, c, cf, k1, k2, k3, k4, k5, k6, k7, k⟩ := h 0 (by show 0 < 4; norm_num)
  obtain ⟨rfl, rfl⟩ := Prod.mk.inj (Option.some.inj k1)
  obtain rfl := Option.some.inj k2
  obtain rfl := Option.some.inj k3
  obtain rfl := Option.some.inj k4
  obtain rfl := Option.some.inj (ref_cube5_0.symm.trans k6)
  obtain rfl := Option.some.inj (ref_square3_0.symm.trans k7)
  have := congrFun (k ![1, -1] (by simp [Shape.body, Shape.geom, RefGeometry.squareG])) 1
  simp only [place_cube, place_prism] at this
  simp at this
  try norm_num at this

theorem nodes_cube5_4 : ¬ FaceNodesFit .cube5 4 := by
  rintro ⟨F, m, l, h1, h2, h3, h4, h5, h⟩
  obtain rfl := Option.some.inj h1
  obtain rfl := Option.some.inj h2
  obtain rfl := Option.some.inj h3
  exact absurd h4 (by decide)

theorem face_cube5_5 : ¬ FaceFits .cube5 5 := by
  rintro ⟨F, m, h1, h2, h3, h⟩
  obtain rfl := Option.some.inj h1
  obtain rfl := Option.some.inj h2
  obtain ⟨e, g, sub, G, part, c, cf, k1, k2, k3, k4, k5, k6, k7, k⟩ := h 0 (by show 0 < 2; norm_num)
  obtain ⟨rfl, rfl⟩ := Prod.mk.inj (Option.some.inj k1)
  obtain rfl := Option.some.inj k2
  obtain rfl := Option.some.inj k3
  obtain rfl := Option.some.inj k4
  obtain rfl := Option.some.inj (ref_cube5_2.symm.trans k6)
  obtain rfl := Option.some.inj (ref_square1_0.symm.trans k7)
  have := congrFun (k ![1, -1] (by simp [Shape.body, Shape.geom, RefGeometry.squareG])) 0
  simp only [place_cube, place_prism] at this
  simp at this
  try norm_num at this

theorem nodes_cube5_5 : ¬ FaceNodesFit .cube5 5 := by
  rintro ⟨F, m, l, h1, h2, h3, h4, h5, h⟩
  obtain rfl := Option.some.inj h1
  obtain rfl := Option.some.inj h2
  obtain rfl := Option.some.inj h3
  exact absurd h4 (by decide)

theorem face_cube6_0 : ¬ FaceFits .cube6 0 := by
  rintro ⟨F, m, h1, h2, h3, h⟩
  obtain rfl := Option.some.inj h1
  obtain rfl := Option.some.inj h2
  obtain ⟨e, g, sub, G, part, c, cf, k1, k2, k3, k4, k5, k6, k7, k⟩ := h 0 (by show 0 < 2; norm_num)
  obtain ⟨rfl, rfl⟩ := Prod.mk.inj (Option.some.inj k1)
  obtain rfl := Option.some.inj k2
  obtain rfl := Option.some.inj k3
  obtain rfl := Option.some.inj k4
  obtain rfl := Option.some.inj (ref_cube6_0.symm.trans k6)
  obtain rfl := Option.some.inj (ref_square2_0.symm.trans k7)
  have := congrFun (k ![1, 1] (by simp [Shape.body, Shape.geom, RefGeometry.squareG])) 0
  simp only [place_cube, place_prism] at this
  simp at this
  try norm_num at this

theorem nodes_cube6_0 : ¬ FaceNodesFit .cube6 0 := by
  rintro ⟨F, m, l, h1, h2, h3, h4, h5, h⟩
  obtain rfl := Option.some.inj h1
  obtain rfl := Option.some.inj h2
  obtain rfl := Option.some.inj h3
  obtain ⟨e, g, sub, G, le, lj, k1, k2, k3, k4, k5, k6, k7⟩ := h 0 (by show 0 < 2; norm_num)
  obtain ⟨rfl, rfl⟩ := Prod.mk.inj (Option.some.inj k1)
  obtain rfl := Option.some.inj k2
  obtain rfl := Option.some.inj k3
  obtain rfl := Option.some.inj k4
  obtain rfl := Option.some.inj k5
  exact absurd k6 (by decide)

theorem face_cube6_1 : ¬ FaceFits .cube6 1 := by
  rintro ⟨F, m, h1, h2, h3, h⟩
  obtain rfl := Option.some.inj h1
  obtain rfl := Option.some.inj h2
  obtain ⟨e, g, sub, G, part, c, cf, k1, k2, k3, k4, k5, k6, k7, k⟩ := h 0 (by show 0 < 2; norm_num)
  obtain ⟨rfl, rfl⟩ := Prod.mk.inj (Option.some.inj k1)
  obtain rfl := Option.some.inj k2
  obtain rfl := Option.some.inj k3
  obtain rfl := Option.some.inj k4
  obtain rfl := Option.some.inj (ref_cube6_0.symm.trans k6)
  obtain rfl := Option.some.inj (ref_square2_0.symm.trans k7)
  have := congrFun (k ![-1, 1] (by simp [Shape.body, Shape.geom, RefGeometry.squareG])) 1
  simp only [place_cube, place_prism] at this
  simp at this
  try norm_num at this

theorem nodes_cube6_1 : ¬ FaceNodesFit .cube6 1 := by
  rintro ⟨F, m, l, h1, h2, h3, h4, h5, h⟩
  obtain rfl := Option.some.inj h1
  obtain rfl := Option.some.inj h2
  obtain rfl := Option.some.inj h3
  obtain ⟨e, g, sub, G, le, lj, k1, k2, k3, k4, k5, k6, k7⟩ := h 0 (by show 0 < 2; norm_num)
  obtain ⟨rfl, rfl⟩ := Prod.mk.inj (Option.some.inj k1)
  obtain rfl := Option.some.inj k2
  obtain rfl := Option.some.inj k3
  obtain rfl := Option.some.inj k4
  obtain rfl := Option.some.inj k5
  exact absurd k6 (by decide)

theorem face_cube6_2 : ¬ FaceFits .cube6 2 := by
  rintro ⟨F, m, h1, h2, h3, h⟩
  obtain rfl := Option.some.inj h1
  obtain rfl := Option.some.inj h2
  obtain ⟨e, g, sub, G, part, c, cf, k1, k2, k3, k4, k5, k6, k7, k⟩ := h 0 (by show 0 < 4; norm_num)
  obtain ⟨rfl, rfl⟩ := Prod.mk.inj (Option.some.inj k1)
  obtain rfl := Option.some.inj k2
  obtain rfl := Option.some.inj k3
  obtain rfl := Option.some.inj k4
  obtain rfl := Option.some.inj (ref_cube6_0.symm.trans k6)
  obtain rfl := Option.some.inj (ref_square3_0.symm.trans k7)
  have := congrFun (k ![-1, 1] (by simp [Shape.body, Shape.geom, RefGeometry.squareG])) 1
  simp only [place_cube, place_prism] at this
  simp at this
  try norm_num at this

theorem nodes_cube6_2 : ¬ FaceNodesFit .cube6 2 := by
  rintro ⟨F, m, l, h1, h2, h3, h4, h5, h⟩
  obtain rfl := Option.some.inj h1
  obtain rfl := Option.some.inj h2
  obtain rfl := Option.some.inj h3
  obtain ⟨e, g, sub, G, le, lj, k1, k2, k3, k4, k5, k6, k7⟩ := h 0 (by show 0 < 4; norm_num)
  obtain ⟨rfl, rfl⟩ := Prod.mk.inj (Option.some.inj k1)
  obtain rfl := Option.some.inj k2
  obtain rfl := Option.some.inj k3
  obtain rfl := Option.some.inj k4
  obtain rfl := Option.some.inj k5
  exact absurd k6 (by decide)

theorem face_cube6_3 : ¬ FaceFits .cube6 3 := by
  rintro ⟨F, m, h1, h2, h3, h⟩
  obtain rfl := Option.some.inj h1
  obtain rfl := Option.some.inj h2
  obtain ⟨e, g, sub, G, part, c, cf, k1, k2, k3, k4, k5, k6, k7, k⟩ := h 0 (by show 0 < 4; norm_num)
  obtain ⟨rfl, rfl⟩ := Prod.mk.inj (Option.some.inj k1)
  obtain rfl := Option.some.inj k2
  obtain rfl := Option.some.inj k3
  obtain rfl := Option.some.inj k4
  obtain rfl := Option.some.inj (ref_cube6_0.symm.trans k6)
  obtain rfl := Option.some.inj (ref_square3_0.symm.trans k7)
  have := congrFun (k ![1, -1] (by simp [Shape.body, Shape.geom, RefGeometry.squareG])) 0
  simp only [place_cube, place_prism] at this
  simp at this
  try norm_num at this

theorem nodes_cube6_3 : ¬ FaceNodesFit .cube6 3 := by
  rintro ⟨F, m, l, h1, h2, h3, h4, h5, h⟩
  obtain rfl := Option.some.inj h1
  obtain rfl := Option.some.inj h2
  obtain rfl := Option.some.inj h3
  obtain ⟨e, g, sub, G, le, lj, k1, k2, k3, k4, k5, k6, k7⟩ := h 0 (by show 0 < 4; norm_num)
  obtain ⟨rfl, rfl⟩ := Prod.mk.inj (Option.some.inj k1)
  obtain rfl := Option.some.inj k2
  obtain rfl := Option.some.inj k3
  obtain rfl := Option.some.inj k4
  obtain rfl := Option.some.inj k5
  exact absurd k6 (by decide)

theorem face_cube6_4 : ¬ FaceFits .cube6 4 := by
  rintro ⟨F, m, h1, h2, h3, h⟩
  obtain rfl := Option.some.inj h1
  obtain rfl := Option.some.inj h2
  obtain ⟨e, g, sub, G, part, c, cf, k1, k2, k3, k4, k5, k6, k7, k⟩ := h 0 (by show 0 < 2; norm_num)
  obtain ⟨rfl, rfl⟩ := Prod.mk.inj (Option.some.inj k1)
  obtain rfl := Option.some.inj k2
  obtain rfl := Option.some.inj k3
  obtain rfl := Option.some.inj k4
  obtain rfl := Option.some.inj (ref_cube6_1.symm.trans k6)
  obtain rfl := Option.some.inj (ref_square2_0.symm.trans k7)
  have := congrFun (k ![-1, 1] (by simp [Shape.body, Shape.geom, RefGeometry.squareG])) 0
  simp only [place_cube, place_prism] at this
  simp at this
  try norm_num at this

theorem nodes_cube6_4 : ¬ FaceNodesFit .cube6 4 := by
  rintro ⟨F, m, l, h1, h2, h3, h4, h5, h⟩
  obtain rfl := Option.some.inj h1
  obtain rfl := Option.some.inj h2
  obtain rfl := Option.some.inj h3
  obtain ⟨e, g, sub, G, le, lj, k1, k2, k3, k4, k5, k6, k7⟩ := h 0 (by show 0 < 2; norm_num)
  obtain ⟨rfl, rfl⟩ := Prod.mk.inj (Option.some.inj k1)
  obtain rfl := Option.some.inj k2
  obtain rfl := Option.some.inj k3
  obtain rfl := Option.some.inj k4
  obtain rfl := Option.some.inj k5
  exact absurd k6 (by decide)

theorem face_cube6_5 : ¬ FaceFits .cube6 5 := by
  rintro ⟨F, m, h1, h2, h3, h⟩
  obtain rfl := Option.some.inj h1
  obtain rfl := Option.some.inj h2
  obtain ⟨e, g, sub, G, part, c, cf, k1, k2, k3, k4, k5, k6, k7, k⟩ := h 0 (by show 0 < 2; norm_num)
  obtain ⟨rfl, rfl⟩ := Prod.mk.inj (Option.some.inj k1)
  obtain rfl := Option.some.inj k2
  obtain rfl := Option.some.inj k3
  obtain rfl := Option.some.inj k4
  obtain rfl := Option.some.inj (ref_cube6_2.symm.trans k6)
  obtain rfl := Option.some.inj (ref_square2_0.symm.trans k7)
  have := congrFun (k ![-1, 1] (by simp [Shape.body, Shape.geom, RefGeometry.squareG])) 1
  simp only [place_cube, place_prism] at this
  simp at this
  try norm_num at this

theorem nodes_cube6_5 : ¬ FaceNodesFit .cube6 5 := by
  rintro ⟨F, m, l, h1, h2, h3, h4, h5, h⟩
  obtain rfl := Option.some.inj h1
  obtain rfl := Option.some.inj h2
  obtain rfl := Option.some.inj h3
  obtain ⟨e, g, sub, G, le, lj, k1, k2, k3, k4, k5, k6, k7⟩ := h 0 (by show 0 < 2; norm_num)
  obtain ⟨rfl, rfl⟩ := Prod.mk.inj (Option.some.inj k1)
  obtain rfl := Option.some.inj k2
  obtain rfl := Option.some.inj k3
  obtain rfl := Option.some.inj k4
  obtain rfl := Option.some.inj k5
  exact absurd k6 (by decide)

theorem face_cube7_0 : ¬ FaceFits .cube7 0 := by
  rintro ⟨F, m, h1, h2, h3, h⟩
  obtain rfl := Option.some.inj h1
  obtain rfl := Option.some.inj h2
  obtain ⟨e, g, sub, G, part, c, cf, k1, k2, k3, k4, k5, k6, k7, k⟩ := h 0 (by show 0 < 4; norm_num)
  obtain ⟨rfl, rfl⟩ := Prod.mk.inj (Option.some.inj k1)
  obtain rfl := Option.some.inj k2
  obtain rfl := Option.some.inj k3
  obtain rfl := Option.some.inj k4
  obtain rfl := Option.some.inj (ref_cube7_0.symm.trans k6)
  obtain rfl := Option.some.inj (ref_square3_0.symm.trans k7)
  have := congrFun (k ![1, 1] (by simp [Shape.body, Shape.geom, RefGeometry.squareG])) 0
  simp only [place_cube, place_prism] at this
  simp at this
  try norm_num at this

theorem nodes_cube7_0 : ¬ FaceNodesFit .cube7 0 := by
  rintro ⟨F, m, l, h1, h2, h3, h4, h5, h⟩
  obtain rfl := Option.some.inj h1
  obtain rfl := Option.some.inj h2
  obtain rfl := Option.some.inj h3
  obtain ⟨e, g, sub, G, le, lj, k1, k2, k3, k4, k5, k6, k7⟩ := h 0 (by show 0 < 4; norm_num)
  obtain ⟨rfl, rfl⟩ := Prod.mk.inj (Option.some.inj k1)
  obtain rfl := Option.some.inj k2
  obtain rfl := Option.some.inj k3
  obtain rfl := Option.some.inj k4
  obtain rfl := Option.some.inj k5
  exact absurd k6 (by decide)

theorem face_cube7_2 : ¬ FaceFits .cube7 2 := by
  rintro ⟨F, m, h1, h2, h3, h⟩
  obtain rfl := Option.some.inj h1
  obtain rfl := Option.some.inj h2
  obtain ⟨e, g, sub, G, part, c, cf, k1, k2, k3, k4, k5, k6, k7, k⟩ := h 0 (by show 0 < 4; norm_num)
  obtain ⟨rfl, rfl⟩ := Prod.mk.inj (Option.some.inj k1)
  obtain rfl := Option.some.inj k2
  obtain rfl := Option.some.inj k3
  obtain rfl := Option.some.inj k4
  obtain rfl := Option.some.inj (ref_cube7_0.symm.trans k6)
  obtain rfl := Option.some.inj (ref_square3_0.symm.trans k7)
  have := congrFun (k ![1, 1] (by simp [Shape.body, Shape.geom, RefGeometry.squareG])) 0
  simp only [place_cube, place_prism] at this
  simp at this
  try norm_num at this

theorem nodes_cube7_2 : ¬ FaceNodesFit .cube7 2 := by
  rintro ⟨F, m, l, h1, h2, h3, h4, h5, h⟩
  obtain rfl := Option.some.inj h1
  obtain rfl := Option.some.inj h2
  obtain rfl := Option.some.inj h3
  obtain ⟨e, g, sub, G, le, lj, k1, k2, k3, k4, k5, k6, k7⟩ := h 0 (by show 0 < 4; norm_num)
  obtain ⟨rfl, rfl⟩ := Prod.mk.inj (Option.some.inj k1)
  obtain rfl := Option.some.inj k2
  obtain rfl := Option.some.inj k3
  obtain rfl := Option.some.inj k4
  obtain rfl := Option.some.inj k5
  exact absurd k6 (by decide)

theorem face_cube7_3 : ¬ FaceFits .cube7 3 := by
  rintro ⟨F, m, h1, h2, h3, h⟩
  obtain rfl := Option.some.inj h1
  obtain rfl := Option.some.inj h2
  obtain ⟨e, g, sub, G, part, c, cf, k1, k2, k3, k4, k5, k6, k7, k⟩ := h 0 (by show 0 < 4; norm_num)
  obtain ⟨rfl, rfl⟩ := Prod.mk.inj (Option.some.inj k1)
  obtain rfl := Option.some.inj k2
  obtain rfl := Option.some.inj k3
  obtain rfl := Option.some.inj k4
  obtain rfl := Option.some.inj (ref_cube7_1.symm.trans k6)
  obtain rfl := Option.some.inj (ref_square3_0.symm.trans k7)
  have := congrFun (k ![1, 1] (by simp [Shape.body, Shape.geom, RefGeometry.squareG])) 0
  simp only [place_cube, place_prism] at this
  simp at this
  try norm_num at this

theorem nodes_cube7_3 : ¬ FaceNodesFit .cube7 3 := by
  rintro ⟨F, m, l, h1, h2, h3, h4, h5, h⟩
  obtain rfl := Option.some.inj h1
  obtain rfl := Option.some.inj h2
  obtain rfl := Option.some.inj h3
  obtain ⟨e, g, sub, G, le, lj, k1, k2, k3, k4, k5, k6, k7⟩ := h 0 (by show 0 < 4; norm_num)
  obtain ⟨rfl, rfl⟩ := Prod.mk.inj (Option.some.inj k1)
  obtain rfl := Option.some.inj k2
  obtain rfl := Option.some.inj k3
  obtain rfl := Option.some.inj k4
  obtain rfl := Option.some.inj k5
  exact absurd k6 (by decide)

theorem nodes_cube7_4 : ¬ FaceNodesFit .cube7 4 := by
  rintro ⟨F, m, l, h1, h2, h3, h4, h5, h⟩
  obtain rfl := Option.some.inj h1
  obtain rfl := Option.some.inj h2
  obtain rfl := Option.some.inj h3
  obtain ⟨e, g, sub, G, le, lj, k1, k2, k3, k4, k5, k6, k7⟩ := h 0 (by show 0 < 4; norm_num)
  obtain ⟨rfl, rfl⟩ := Prod.mk.inj (Option.some.inj k1)
  obtain rfl := Option.some.inj k2
  obtain rfl := Option.some.inj k3
  obtain rfl := Option.some.inj k4
  obtain rfl := Option.some.inj k5
  exact absurd k6 (by decide)

theorem face_cube7_5 : ¬ FaceFits .cube7 5 := by
  rintro ⟨F, m, h1, h2, h3, h⟩
  obtain rfl := Option.some.inj h1
  obtain rfl := Option.some.inj h2
  obtain ⟨e, g, sub, G, part, c, cf, k1, k2, k3, k4, k5, k6, k7, k⟩ := h 0 (by show 0 < 4; norm_num)
  obtain ⟨rfl, rfl⟩ := Prod.mk.inj (Option.some.inj k1)
  obtain rfl := Option.some.inj k2
  obtain rfl := Option.some.inj k3
  obtain rfl := Option.some.inj k4
  obtain rfl := Option.some.inj (ref_cube7_4.symm.trans k6)
  obtain rfl := Option.some.inj (ref_square3_0.symm.trans k7)
  have := congrFun (k ![1, 1] (by simp [Shape.body, Shape.geom, RefGeometry.squareG])) 0
  simp only [place_cube, place_prism] at this
  simp at this
  try norm_num at this

theorem nodes_cube7_5 : ¬ FaceNodesFit .cube7 5 := by
  rintro ⟨F, m, l, h1, h2, h3, h4, h5, h⟩
  obtain rfl := Option.some.inj h1
  obtain rfl := Option.some.inj h2
  obtain rfl := Option.some.inj h3
  obtain ⟨e, g, sub, G, le, lj, k1, k2, k3, k4, k5, k6, k7⟩ := h 0 (by show 0 < 4; norm_num)
  obtain ⟨rfl, rfl⟩ := Prod.mk.inj (Option.some.inj k1)
  obtain rfl := Option.some.inj k2
  obtain rfl := Option.some.inj k3
  obtain rfl := Option.some.inj k4
  obtain rfl := Option.some.inj k5
  exact absurd k6 (by decide)

theorem face_prism2_2 : ¬ FaceFits .prism2 2 := by
  rintro ⟨F, m, h1, h2, h3, h⟩
  obtain rfl := Option.some.inj h1
  obtain rfl := Option.some.inj h2
  obtain ⟨e, g, sub, G, part, c, cf, k1, k2, k3, k4, k5, k6, k7, k⟩ := h 0 (by show 0 < 2; norm_num)
  obtain ⟨rfl, rfl⟩ := Prod.mk.inj (Option.some.inj k1)
  obtain rfl := Option.some.inj k2
  obtain rfl := Option.some.inj k3
  obtain rfl := Option.some.inj k4
  obtain rfl := Option.some.inj (ref_prism2_0.symm.trans k6)
  obtain rfl := Option.some.inj (ref_square1_0.symm.trans k7)
  have := congrFun (k ![-1, -1] (by simp [Shape.body, Shape.geom, RefGeometry.squareG])) 1
  simp at this
  try norm_num at this

theorem nodes_prism2_2 : ¬ FaceNodesFit .prism2 2 := by
  rintro ⟨F, m, l, h1, h2, h3, h4, h5, h⟩
  obtain rfl := Option.some.inj h1
  obtain rfl := Option.some.inj h2
  obtain rfl := Option.some.inj h3
  obtain ⟨e, g, sub, G, le, lj, k1, k2, k3, k4, k5, k6, k7⟩ := h 0 (by show 0 < 2; norm_num)
  obtain ⟨rfl, rfl⟩ := Prod.mk.inj (Option.some.inj k1)
  obtain rfl := Option.some.inj k2
  obtain rfl := Option.some.inj k3
  obtain rfl := Option.some.inj k4
  obtain rfl := Option.some.inj k5
  exact absurd k6 (by decide)

theorem face_prism3_1 : ¬ FaceFits .prism3 1 := by
  rintro ⟨F, m, h1, h2, h3, h⟩
  obtain rfl := Option.some.inj h1
  obtain rfl := Option.some.inj h2
  obtain ⟨e, g, sub, G, part, c, cf, k1, k2, k3, k4, k5, k6, k7, k⟩ := h 0 (by show 0 < 2; norm_num)
  obtain ⟨rfl, rfl⟩ := Prod.mk.inj (Option.some.inj k1)
  obtain rfl := Option.some.inj k2
  obtain rfl := Option.some.inj k3
  obtain rfl := Option.some.inj k4
  obtain rfl := Option.some.inj (ref_prism3_0.symm.trans k6)
  obtain rfl := Option.some.inj (ref_triangle3_0.symm.trans k7)
  have := congrFun (k ![1, 0] (by simp [Shape.body, Shape.geom, RefGeometry.triangleG])) 0
  simp at this
  try norm_num at this

theorem nodes_prism3_1 : ¬ FaceNodesFit .prism3 1 := by
  rintro ⟨F, m, l, h1, h2, h3, h4, h5, h⟩
  obtain rfl := Option.some.inj h1
  obtain rfl := Option.some.inj h2
  obtain rfl := Option.some.inj h3
  obtain ⟨e, g, sub, G, le, lj, k1, k2, k3, k4, k5, k6, k7⟩ := h 0 (by show 0 < 2; norm_num)
  obtain ⟨rfl, rfl⟩ := Prod.mk.inj (Option.some.inj k1)
  obtain rfl := Option.some.inj k2
  obtain rfl := Option.some.inj k3
  obtain rfl := Option.some.inj k4
  obtain rfl := Option.some.inj k5
  exact absurd k6 (by decide)

theorem face_prism3_4 : ¬ FaceFits .prism3 4 := by
  rintro ⟨F, m, h1, h2, h3, h⟩
  obtain rfl := Option.some.inj h1
  obtain rfl := Option.some.inj h2
  obtain ⟨e, g, sub, G, part, c, cf, k1, k2, k3, k4, k5, k6, k7, k⟩ := h 0 (by show 0 < 2; norm_num)
  obtain ⟨rfl, rfl⟩ := Prod.mk.inj (Option.some.inj k1)
  obtain rfl := Option.some.inj k2
  obtain rfl := Option.some.inj k3
  obtain rfl := Option.some.inj k4
  obtain rfl := Option.some.inj (ref_prism3_0.symm.trans k6)
  obtain rfl := Option.some.inj (ref_square1_0.symm.trans k7)
  have := congrFun (k ![-1, -1] (by simp [Shape.body, Shape.geom, RefGeometry.squareG])) 0
  simp at this
  try norm_num at this

theorem nodes_prism3_4 : ¬ FaceNodesFit .prism3 4 := by
  rintro ⟨F, m, l, h1, h2, h3, h4, h5, h⟩
  obtain rfl := Option.some.inj h1
  obtain rfl := Option.some.inj h2
  obtain rfl := Option.some.inj h3
  obtain ⟨e, g, sub, G, le, lj, k1, k2, k3, k4, k5, k6, k7⟩ := h 0 (by show 0 < 2; norm_num)
  obtain ⟨rfl, rfl⟩ := Prod.mk.inj (Option.some.inj k1)
  obtain rfl := Option.some.inj k2
  obtain rfl := Option.some.inj k3
  obtain rfl := Option.some.inj k4
  obtain rfl := Option.some.inj k5
  exact absurd k6 (by decide)

theorem face_prism4_0 : ¬ FaceFits .prism4 0 := by
  rintro ⟨F, m, h1, h2, h3, h⟩
  obtain rfl := Option.some.inj h1
  obtain rfl := Option.some.inj h2
  obtain ⟨e, g, sub, G, part, c, cf, k1, k2, k3, k4, k5, k6, k7, k⟩ := h 1 (by show 1 < 4; norm_num)
  obtain ⟨rfl, rfl⟩ := Prod.mk.inj (Option.some.inj k1)
  obtain rfl := Option.some.inj k2
  obtain rfl := Option.some.inj k3
  obtain rfl := Option.some.inj k4
  obtain rfl := Option.some.inj (ref_prism4_1.symm.trans k6)
  obtain rfl := Option.some.inj (ref_triangle4_1.symm.trans k7)
  have := congrFun (k ![0, 0] (by simp [Shape.body, Shape.geom, RefGeometry.triangleG])) 0
  simp at this
  try norm_num at this

theorem nodes_prism4_0 : ¬ FaceNodesFit .prism4 0 := by
  rintro ⟨F, m, l, h1, h2, h3, h4, h5, h⟩
  obtain rfl := Option.some.inj h1
  obtain rfl := Option.some.inj h2
  obtain rfl := Option.some.inj h3
  obtain ⟨e, g, sub, G, le, lj, k1, k2, k3, k4, k5, k6, k7⟩ := h 1 (by show 1 < 4; norm_num)
  obtain ⟨rfl, rfl⟩ := Prod.mk.inj (Option.some.inj k1)
  obtain rfl := Option.some.inj k2
  obtain rfl := Option.some.inj k3
  obtain rfl := Option.some.inj k4
  obtain rfl := Option.some.inj k5
  exact absurd k6 (by decide)

theorem face_prism4_2 : ¬ FaceFits .prism4 2 := by
  rintro ⟨F, m, h1, h2, h3, h⟩
  obtain rfl := Option.some.inj h1
  obtain rfl := Option.some.inj h2
  obtain ⟨e, g, sub, G, part, c, cf, k1, k2, k3, k4, k5, k6, k7, k⟩ := h 0 (by show 0 < 2; norm_num)
  obtain ⟨rfl, rfl⟩ := Prod.mk.inj (Option.some.inj k1)
  obtain rfl := Option.some.inj k2
  obtain rfl := Option.some.inj k3
  obtain rfl := Option.some.inj k4
  obtain rfl := Option.some.inj (ref_prism4_0.symm.trans k6)
  obtain rfl := Option.some.inj (ref_square1_0.symm.trans k7)
  have := congrFun (k ![-1, -1] (by simp [Shape.body, Shape.geom, RefGeometry.squareG])) 1
  simp at this
  try norm_num at this

theorem nodes_prism4_2 : ¬ FaceNodesFit .prism4 2 := by
  rintro ⟨F, m, l, h1, h2, h3, h4, h5, h⟩
  obtain rfl := Option.some.inj h1
  obtain rfl := Option.some.inj h2
  obtain rfl := Option.some.inj h3
  obtain ⟨e, g, sub, G, le, lj, k1, k2, k3, k4, k5, k6, k7⟩ := h 0 (by show 0 < 2; norm_num)
  obtain ⟨rfl, rfl⟩ := Prod.mk.inj (Option.some.inj k1)
  obtain rfl := Option.some.inj k2
  obtain rfl := Option.some.inj k3
  obtain rfl := Option.some.inj k4
  obtain rfl := Option.some.inj k5
  exact absurd k6 (by decide)

theorem face_prism4_3 : ¬ FaceFits .prism4 3 := by
  rintro ⟨F, m, h1, h2, h3, h⟩
  obtain rfl := Option.some.inj h1
  obtain rfl := Option.some.inj h2
  obtain ⟨e, g, sub, G, part, c, cf, k1, k2, k3, k4, k5, k6, k7, k⟩ := h 0 (by show 0 < 2; norm_num)
  obtain ⟨rfl, rfl⟩ := Prod.mk.inj (Option.some.inj k1)
  obtain rfl := Option.some.inj k2
  obtain rfl := Option.some.inj k3
  obtain rfl := Option.some.inj k4
  obtain rfl := Option.some.inj (ref_prism4_0.symm.trans k6)
  obtain rfl := Option.some.inj (ref_square1_0.symm.trans k7)
  have := congrFun (k ![-1, -1] (by simp [Shape.body, Shape.geom, RefGeometry.squareG])) 1
  simp at this
  try norm_num at this

theorem nodes_prism4_3 : ¬ FaceNodesFit .prism4 3 := by
  rintro ⟨F, m, l, h1, h2, h3, h4, h5, h⟩
  obtain rfl := Option.some.inj h1
  obtain rfl := Option.some.inj h2
  obtain rfl := Option.some.inj h3
  obtain ⟨e, g, sub, G, le, lj, k1, k2, k3, k4, k5, k6, k7⟩ := h 0 (by show 0 < 2; norm_num)
  obtain ⟨rfl, rfl⟩ := Prod.mk.inj (Option.some.inj k1)
  obtain rfl := Option.some.inj k2
  obtain rfl := Option.some.inj k3
  obtain rfl := Option.some.inj k4
  obtain rfl := Option.some.inj k5
  exact absurd k6 (by decide)

theorem face_prism5_2 : ¬ FaceFits .prism5 2 := by
  rintro ⟨F, m, h1, h2, h3, h⟩
  obtain rfl := Option.some.inj h1
  obtain rfl := Option.some.inj h2
  obtain ⟨e, g, sub, G, part, c, cf, k1, k2, k3, k4, k5, k6, k7, k⟩ := h 0 (by show 0 < 2; norm_num)
  obtain ⟨rfl, rfl⟩ := Prod.mk.inj (Option.some.inj k1)
  obtain rfl := Option.some.inj k2
  obtain rfl := Option.some.inj k3
  obtain rfl := Option.some.inj k4
  obtain rfl := Option.some.inj (ref_prism5_0.symm.trans k6)
  obtain rfl := Option.some.inj (ref_square2_0.symm.trans k7)
  have := congrFun (k ![-1, 1] (by simp [Shape.body, Shape.geom, RefGeometry.squareG])) 0
  simp only [place_cube, place_prism] at this
  simp at this
  try norm_num at this

theorem face_prism5_3 : ¬ FaceFits .prism5 3 := by
  rintro ⟨F, m, h1, h2, h3, h⟩
  obtain rfl := Option.some.inj h1
  obtain rfl := Option.some.inj h2
  obtain ⟨e, g, sub, G, part, c, cf, k1, k2, k3, k4, k5, k6, k7, k⟩ := h 0 (by show 0 < 2; norm_num)
  obtain ⟨rfl, rfl⟩ := Prod.mk.inj (Option.some.inj k1)
  obtain rfl := Option.some.inj k2
  obtain rfl := Option.some.inj k3
  obtain rfl := Option.some.inj k4
  obtain rfl := Option.some.inj (ref_prism5_0.symm.trans k6)
  obtain rfl := Option.some.inj (ref_square2_0.symm.trans k7)
  have := congrFun (k ![1, 1] (by simp [Shape.body, Shape.geom, RefGeometry.squareG])) 0
  simp only [place_cube, place_prism] at this
  simp at this
  try norm_num at this

theorem face_prism5_4 : ¬ FaceFits .prism5 4 := by
  rintro ⟨F, m, h1, h2, h3, h⟩
  obtain rfl := Option.some.inj h1
  obtain rfl := Option.some.inj h2
  obtain ⟨e, g, sub, G, part, c, cf, k1, k2, k3, k4, k5, k6, k7, k⟩ := h 0 (by show 0 < 2; norm_num)
  obtain ⟨rfl, rfl⟩ := Prod.mk.inj (Option.some.inj k1)
  obtain rfl := Option.some.inj k2
  obtain rfl := Option.some.inj k3
  obtain rfl := Option.some.inj k4
  obtain rfl := Option.some.inj (ref_prism5_0.symm.trans k6)
  obtain rfl := Option.some.inj (ref_square2_0.symm.trans k7)
  have := congrFun (k ![-1, 1] (by simp [Shape.body, Shape.geom, RefGeometry.squareG])) 0
  simp only [place_cube, place_prism] at this
  simp at this
  try norm_num at this

theorem face_prism6_0 : ¬ FaceFits .prism6 0 := by
  rintro ⟨F, m, h1, h2, h3, h⟩
  obtain rfl := Option.some.inj h1
  obtain rfl := Option.some.inj h2
  obtain ⟨e, g, sub, G, part, c, cf, k1, k2, k3, k4, k5, k6, k7, k⟩ := h 0 (by show 0 < 3; norm_num)
  obtain ⟨rfl, rfl⟩ := Prod.mk.inj (Option.some.inj k1)
  obtain rfl := Option.some.inj k2
  obtain rfl := Option.some.inj k3
  obtain rfl := Option.some.inj k4
  obtain rfl := Option.some.inj (ref_prism6_0.symm.trans k6)
  obtain rfl := Option.some.inj (ref_triangle5_0.symm.trans k7)
  have := congrFun (k ![-1, -1] (by simp [Shape.body, Shape.geom, RefGeometry.squareG])) 0
  simp at this
  try norm_num at this

theorem nodes_prism6_0 : ¬ FaceNodesFit .prism6 0 := by
  rintro ⟨F, m, l, h1, h2, h3, h4, h5, h⟩
  obtain rfl := Option.some.inj h1
  obtain rfl := Option.some.inj h2
  obtain rfl := Option.some.inj h3
  obtain ⟨e, g, sub, G, le, lj, k1, k2, k3, k4, k5, k6, k7⟩ := h 0 (by show 0 < 3; norm_num)
  obtain ⟨rfl, rfl⟩ := Prod.mk.inj (Option.some.inj k1)
  obtain rfl := Option.some.inj k2
  obtain rfl := Option.some.inj k3
  obtain rfl := Option.some.inj k4
  obtain rfl := Option.some.inj k5
  exact absurd k6 (by decide)

theorem face_prism6_1 : ¬ FaceFits .prism6 1 := by
  rintro ⟨F, m, h1, h2, h3, h⟩
  obtain rfl := Option.some.inj h1
  obtain rfl := Option.some.inj h2
  obtain ⟨e, g, sub, G, part, c, cf, k1, k2, k3, k4, k5, k6, k7, k⟩ := h 0 (by show 0 < 3; norm_num)
  obtain ⟨rfl, rfl⟩ := Prod.mk.inj (Option.some.inj k1)
  obtain rfl := Option.some.inj k2
  obtain rfl := Option.some.inj k3
  obtain rfl := Option.some.inj k4
  obtain rfl := Option.some.inj (ref_prism6_0.symm.trans k6)
  obtain rfl := Option.some.inj (ref_triangle5_0.symm.trans k7)
  have := congrFun (k ![-1, -1] (by simp [Shape.body, Shape.geom, RefGeometry.squareG])) 2
  simp at this
  try norm_num at this

theorem nodes_prism6_1 : ¬ FaceNodesFit .prism6 1 := by
  rintro ⟨F, m, l, h1, h2, h3, h4, h5, h⟩
  obtain rfl := Option.some.inj h1
  obtain rfl := Option.some.inj h2
  obtain rfl := Option.some.inj h3
  obtain ⟨e, g, sub, G, le, lj, k1, k2, k3, k4, k5, k6, k7⟩ := h 0 (by show 0 < 3; norm_num)
  obtain ⟨rfl, rfl⟩ := Prod.mk.inj (Option.some.inj k1)
  obtain rfl := Option.some.inj k2
  obtain rfl := Option.some.inj k3
  obtain rfl := Option.some.inj k4
  obtain rfl := Option.some.inj k5
  exact absurd k6 (by decide)

theorem face_prism6_2 : ¬ FaceFits .prism6 2 := by
  rintro ⟨F, m, h1, h2, h3, h⟩
  obtain rfl := Option.some.inj h1
  obtain rfl := Option.some.inj h2
  obtain ⟨e, g, sub, G, part, c, cf, k1, k2, k3, k4, k5, k6, k7, k⟩ := h 0 (by show 0 < 2; norm_num)
  obtain ⟨rfl, rfl⟩ := Prod.mk.inj (Option.some.inj k1)
  obtain rfl := Option.some.inj k2
  obtain rfl := Option.some.inj k3
  obtain rfl := Option.some.inj k4
  obtain rfl := Option.some.inj (ref_prism6_0.symm.trans k6)
  obtain rfl := Option.some.inj (ref_square1_0.symm.trans k7)
  have := congrFun (k ![-1, -1] (by simp [Shape.body, Shape.geom, RefGeometry.squareG])) 1
  simp at this
  try norm_num at this

theorem nodes_prism6_2 : ¬ FaceNodesFit .prism6 2 := by
  rintro ⟨F, m, l, h1, h2, h3, h4, h5, h⟩
  obtain rfl := Option.some.inj h1
  obtain rfl := Option.some.inj h2
  obtain rfl := Option.some.inj h3
  obtain ⟨e, g, sub, G, le, lj, k1, k2, k3, k4, k5, k6, k7⟩ := h 0 (by show 0 < 2; norm_num)
  obtain ⟨rfl, rfl⟩ := Prod.mk.inj (Option.some.inj k1)
  obtain rfl := Option.some.inj k2
  obtain rfl := Option.some.inj k3
  obtain rfl := Option.some.inj k4
  obtain rfl := Option.some.inj k5
  exact absurd k6 (by decide)

theorem face_prism6_3 : ¬ FaceFits .prism6 3 := by
  rintro ⟨F, m, h1, h2, h3, h⟩
  obtain rfl := Option.some.inj h1
  obtain rfl := Option.some.inj h2
  obtain ⟨e, g, sub, G, part, c, cf, k1, k2, k3, k4, k5, k6, k7, k⟩ := h 0 (by show 0 < 2; norm_num)
  obtain ⟨rfl, rfl⟩ := Prod.mk.inj (Option.some.inj k1)
  obtain rfl := Option.some.inj k2
  obtain rfl := Option.some.inj k3
  obtain rfl := Option.some.inj k4
  obtain rfl := Option.some.inj (ref_prism6_0.symm.trans k6)
  obtain rfl := Option.some.inj (ref_square1_0.symm.trans k7)
  have := congrFun (k ![-1, -1] (by simp [Shape.body, Shape.geom, RefGeometry.squareG])) 0
  simp at this
  try norm_num at this

theorem nodes_prism6_3 : ¬ FaceNodesFit .prism6 3 := by
  rintro ⟨F, m, l, h1, h2, h3, h4, h5, h⟩
  obtain rfl := Option.some.inj h1
  obtain rfl := Option.some.inj h2
  obtain rfl := Option.some.inj h3
  obtain ⟨e, g, sub, G, le, lj, k1, k2, k3, k4, k5, k6, k7⟩ := h 0 (by show 0 < 2; norm_num)
  obtain ⟨rfl, rfl⟩ := Prod.mk.inj (Option.some.inj k1)
  obtain rfl := Option.some.inj k2
  obtain rfl := Option.some.inj k3
  obtain rfl := Option.some.inj k4
  obtain rfl := Option.some.inj k5
  exact absurd k6 (by decide)

theorem face_prism6_4 : ¬ FaceFits .prism6 4 := by
  rintro ⟨F, m, h1, h2, h3, h⟩
  obtain rfl := Option.some.inj h1
  obtain rfl := Option.some.inj h2
  obtain ⟨e, g, sub, G, part, c, cf, k1, k2, k3, k4, k5, k6, k7, k⟩ := h 0 (by show 0 < 2; norm_num)
  obtain ⟨rfl, rfl⟩ := Prod.mk.inj (Option.some.inj k1)
  obtain rfl := Option.some.inj k2
  obtain rfl := Option.some.inj k3
  obtain rfl := Option.some.inj k4
  obtain rfl := Option.some.inj (ref_prism6_1.symm.trans k6)
  obtain rfl := Option.some.inj (ref_square1_0.symm.trans k7)
  have := congrFun (k ![-1, -1] (by simp [Shape.body, Shape.geom, RefGeometry.squareG])) 0
  simp at this
  try norm_num at this

theorem nodes_prism6_4 : ¬ FaceNodesFit .prism6 4 := by
  rintro ⟨F, m, l, h1, h2, h3, h4, h5, h⟩
  obtain rfl := Option.some.inj h1
  obtain rfl := Option.some.inj h2
  obtain rfl := Option.some.inj h3
  obtain ⟨e, g, sub, G, le, lj, k1, k2, k3, k4, k5, k6, k7⟩ := h 0 (by show 0 < 2; norm_num)
  obtain ⟨rfl, rfl⟩ := Prod.mk.inj (Option.some.inj k1)
  obtain rfl := Option.some.inj k2
  obtain rfl := Option.some.inj k3
  obtain rfl := Option.some.inj k4
  obtain rfl := Option.some.inj k5
  exact absurd k6 (by decide)

theorem face_prism7_0 : ¬ FaceFits .prism7 0 := by
  rintro ⟨F, m, h1, h2, h3, h⟩
  obtain rfl := Option.some.inj h1
  obtain rfl := Option.some.inj h2
  obtain ⟨e, g, sub, G, part, c, cf, k1, k2, k3, k4, k5, k6, k7, k⟩ := h 0 (by show 0 < 2; norm_num)
  obtain ⟨rfl, rfl⟩ := Prod.mk.inj (Option.some.inj k1)
  obtain rfl := Option.some.inj k2
  obtain rfl := Option.some.inj k3
  obtain rfl := Option.some.inj k4
  obtain rfl := Option.some.inj (ref_prism7_0.symm.trans k6)
  obtain rfl := Option.some.inj (ref_triangle7_0.symm.trans k7)
  have := congrFun (k ![1, -1] (by simp [Shape.body, Shape.geom, RefGeometry.squareG])) 0
  simp at this
  try norm_num at this

theorem nodes_prism7_0 : ¬ FaceNodesFit .prism7 0 := by
  rintro ⟨F, m, l, h1, h2, h3, h4, h5, h⟩
  obtain rfl := Option.some.inj h1
  obtain rfl := Option.some.inj h2
  obtain rfl := Option.some.inj h3
  obtain ⟨e, g, sub, G, le, lj, k1, k2, k3, k4, k5, k6, k7⟩ := h 0 (by show 0 < 2; norm_num)
  obtain ⟨rfl, rfl⟩ := Prod.mk.inj (Option.some.inj k1)
  obtain rfl := Option.some.inj k2
  obtain rfl := Option.some.inj k3
  obtain rfl := Option.some.inj k4
  obtain rfl := Option.some.inj k5
  exact absurd k6 (by decide)

theorem face_prism7_1 : ¬ FaceFits .prism7 1 := by
  rintro ⟨F, m, h1, h2, h3, h⟩
  obtain rfl := Option.some.inj h1
  obtain rfl := Option.some.inj h2
  obtain ⟨e, g, sub, G, part, c, cf, k1, k2, k3, k4, k5, k6, k7, k⟩ := h 0 (by show 0 < 2; norm_num)
  obtain ⟨rfl, rfl⟩ := Prod.mk.inj (Option.some.inj k1)
  obtain rfl := Option.some.inj k2
  obtain rfl := Option.some.inj k3
  obtain rfl := Option.some.inj k4
  obtain rfl := Option.some.inj (ref_prism7_0.symm.trans k6)
  obtain rfl := Option.some.inj (ref_triangle6_0.symm.trans k7)
  have := congrFun (k ![-1, -1] (by simp [Shape.body, Shape.geom, RefGeometry.squareG])) 2
  simp at this
  try norm_num at this

theorem nodes_prism7_1 : ¬ FaceNodesFit .prism7 1 := by
  rintro ⟨F, m, l, h1, h2, h3, h4, h5, h⟩
  obtain rfl := Option.some.inj h1
  obtain rfl := Option.some.inj h2
  obtain rfl := Option.some.inj h3
  obtain ⟨e, g, sub, G, le, lj, k1, k2, k3, k4, k5, k6, k7⟩ := h 0 (by show 0 < 2; norm_num)
  obtain ⟨rfl, rfl⟩ := Prod.mk.inj (Option.some.inj k1)
  obtain rfl := Option.some.inj k2
  obtain rfl := Option.some.inj k3
  obtain rfl := Option.some.inj k4
  obtain rfl := Option.some.inj k5
  exact absurd k6 (by decide)

theorem face_prism7_2 : ¬ FaceFits .prism7 2 := by
  rintro ⟨F, m, h1, h2, h3, h⟩
  obtain rfl := Option.some.inj h1
  obtain rfl := Option.some.inj h2
  obtain ⟨e, g, sub, G, part, c, cf, k1, k2, k3, k4, k5, k6, k7, k⟩ := h 0 (by show 0 < 1; norm_num)
  obtain ⟨rfl, rfl⟩ := Prod.mk.inj (Option.some.inj k1)
  obtain rfl := Option.some.inj k2
  obtain rfl := Option.some.inj k3
  obtain rfl := Option.some.inj k4
  obtain rfl := Option.some.inj (ref_prism7_0.symm.trans k6)
  obtain rfl := Option.some.inj (ref_square0_0.symm.trans k7)
  have := congrFun (k ![-1, -1] (by simp [Shape.body, Shape.geom, RefGeometry.squareG])) 0
  simp at this
  try norm_num at this

theorem nodes_prism7_2 : ¬ FaceNodesFit .prism7 2 := by
  rintro ⟨F, m, l, h1, h2, h3, h4, h5, h⟩
  obtain rfl := Option.some.inj h1
  obtain rfl := Option.some.inj h2
  obtain rfl := Option.some.inj h3
  obtain ⟨e, g, sub, G, le, lj, k1, k2, k3, k4, k5, k6, k7⟩ := h 0 (by show 0 < 1; norm_num)
  obtain ⟨rfl, rfl⟩ := Prod.mk.inj (Option.some.inj k1)
  obtain rfl := Option.some.inj k2
  obtain rfl := Option.some.inj k3
  obtain rfl := Option.some.inj k4
  obtain rfl := Option.some.inj k5
  exact absurd k6 (by decide)

theorem face_prism7_3 : ¬ FaceFits .prism7 3 := by
  rintro ⟨F, m, h1, h2, h3, h⟩
  obtain rfl := Option.some.inj h1
  obtain rfl := Option.some.inj h2
  obtain ⟨e, g, sub, G, part, c, cf, k1, k2, k3, k4, k5, k6, k7, k⟩ := h 0 (by show 0 < 2; norm_num)
  obtain ⟨rfl, rfl⟩ := Prod.mk.inj (Option.some.inj k1)
  obtain rfl := Option.some.inj k2
  obtain rfl := Option.some.inj k3
  obtain rfl := Option.some.inj k4
  obtain rfl := Option.some.inj (ref_prism7_0.symm.trans k6)
  obtain rfl := Option.some.inj (ref_square1_0.symm.trans k7)
  have := congrFun (k ![1, -1] (by simp [Shape.body, Shape.geom, RefGeometry.squareG])) 0
  simp at this
  try norm_num at this

theorem nodes_prism7_3 : ¬ FaceNodesFit .prism7 3 := by
  rintro ⟨F, m, l, h1, h2, h3, h4, h5, h⟩
  obtain rfl := Option.some.inj h1
  obtain rfl := Option.some.inj h2
  obtain rfl := Option.some.inj h3
  obtain ⟨e, g, sub, G, le, lj, k1, k2, k3, k4, k5, k6, k7⟩ := h 0 (by show 0 < 2; norm_num)
  obtain ⟨rfl, rfl⟩ := Prod.mk.inj (Option.some.inj k1)
  obtain rfl := Option.some.inj k2
  obtain rfl := Option.some.inj k3
  obtain rfl := Option.some.inj k4
  obtain rfl := Option.some.inj k5
  exact absurd k6 (by decide)

theorem face_prism7_4 : ¬ FaceFits .prism7 4 := by
  rintro ⟨F, m, h1, h2, h3, h⟩
  obtain rfl := Option.some.inj h1
  obtain rfl := Option.some.inj h2
  obtain ⟨e, g, sub, G, part, c, cf, k1, k2, k3, k4, k5, k6, k7, k⟩ := h 0 (by show 0 < 2; norm_num)
  obtain ⟨rfl, rfl⟩ := Prod.mk.inj (Option.some.inj k1)
  obtain rfl := Option.some.inj k2
  obtain rfl := Option.some.inj k3
  obtain rfl := Option.some.inj k4
  obtain rfl := Option.some.inj (ref_prism7_0.symm.trans k6)
  obtain rfl := Option.some.inj (ref_square1_0.symm.trans k7)
  have := congrFun (k ![-1, -1] (by simp [Shape.body, Shape.geom, RefGeometry.squareG])) 0
  simp at this
  try norm_num at this

theorem nodes_prism7_4 : ¬ FaceNodesFit .prism7 4 := by
  rintro ⟨F, m, l, h1, h2, h3, h4, h5, h⟩
  obtain rfl := Option.some.inj h1
  obtain rfl := Option.some.inj h2
  obtain rfl := Option.some.inj h3
  obtain ⟨e, g, sub, G, le, lj, k1, k2, k3, k4, k5, k6, k7⟩ := h 0 (by show 0 < 2; norm_num)
  obtain ⟨rfl, rfl⟩ := Prod.mk.inj (Option.some.inj k1)
  obtain rfl := Option.some.inj k2
  obtain rfl := Option.some.inj k3
  obtain rfl := Option.some.inj k4
  obtain rfl := Option.some.inj k5
  exact absurd k6 (by decide)

theorem face_prism8_0 : ¬ FaceFits .prism8 0 := by
  rintro ⟨F, m, h1, h2, h3, h⟩
  obtain rfl := Option.some.inj h1
  obtain rfl := Option.some.inj h2
  obtain ⟨e, g, sub, G, part, c, cf, k1, k2, k3, k4, k5, k6, k7, k⟩ := h 0 (by show 0 < 2; norm_num)
  obtain ⟨rfl, rfl⟩ := Prod.mk.inj (Option.some.inj k1)
  obtain rfl := Option.some.inj k2
  obtain rfl := Option.some.inj k3
  obtain rfl := Option.some.inj k4
  obtain rfl := Option.some.inj (ref_prism8_0.symm.trans k6)
  obtain rfl := Option.some.inj (ref_triangle6_0.symm.trans k7)
  have := congrFun (k ![1, -1] (by simp [Shape.body, Shape.geom, RefGeometry.squareG])) 0
  simp at this
  try norm_num at this

theorem nodes_prism8_0 : ¬ FaceNodesFit .prism8 0 := by
  rintro ⟨F, m, l, h1, h2, h3, h4, h5, h⟩
  obtain rfl := Option.some.inj h1
  obtain rfl := Option.some.inj h2
  obtain rfl := Option.some.inj h3
  obtain ⟨e, g, sub, G, le, lj, k1, k2, k3, k4, k5, k6, k7⟩ := h 0 (by show 0 < 2; norm_num)
  obtain ⟨rfl, rfl⟩ := Prod.mk.inj (Option.some.inj k1)
  obtain rfl := Option.some.inj k2
  obtain rfl := Option.some.inj k3
  obtain rfl := Option.some.inj k4
  obtain rfl := Option.some.inj k5
  exact absurd k6 (by decide)

theorem face_prism8_1 : ¬ FaceFits .prism8 1 := by
  rintro ⟨F, m, h1, h2, h3, h⟩
  obtain rfl := Option.some.inj h1
  obtain rfl := Option.some.inj h2
  obtain ⟨e, g, sub, G, part, c, cf, k1, k2, k3, k4, k5, k6, k7, k⟩ := h 0 (by show 0 < 2; norm_num)
  obtain ⟨rfl, rfl⟩ := Prod.mk.inj (Option.some.inj k1)
  obtain rfl := Option.some.inj k2
  obtain rfl := Option.some.inj k3
  obtain rfl := Option.some.inj k4
  obtain rfl := Option.some.inj (ref_prism8_0.symm.trans k6)
  obtain rfl := Option.some.inj (ref_triangle7_0.symm.trans k7)
  have := congrFun (k ![-1, -1] (by simp [Shape.body, Shape.geom, RefGeometry.squareG])) 2
  simp at this
  try norm_num at this

theorem nodes_prism8_1 : ¬ FaceNodesFit .prism8 1 := by
  rintro ⟨F, m, l, h1, h2, h3, h4, h5, h⟩
  obtain rfl := Option.some.inj h1
  obtain rfl := Option.some.inj h2
  obtain rfl := Option.some.inj h3
  obtain ⟨e, g, sub, G, le, lj, k1, k2, k3, k4, k5, k6, k7⟩ := h 0 (by show 0 < 2; norm_num)
  obtain ⟨rfl, rfl⟩ := Prod.mk.inj (Option.some.inj k1)
  obtain rfl := Option.some.inj k2
  obtain rfl := Option.some.inj k3
  obtain rfl := Option.some.inj k4
  obtain rfl := Option.some.inj k5
  exact absurd k6 (by decide)

theorem face_prism8_2 : ¬ FaceFits .prism8 2 := by
  rintro ⟨F, m, h1, h2, h3, h⟩
  obtain rfl := Option.some.inj h1
  obtain rfl := Option.some.inj h2
  obtain ⟨e, g, sub, G, part, c, cf, k1, k2, k3, k4, k5, k6, k7, k⟩ := h 0 (by show 0 < 2; norm_num)
  obtain ⟨rfl, rfl⟩ := Prod.mk.inj (Option.some.inj k1)
  obtain rfl := Option.some.inj k2
  obtain rfl := Option.some.inj k3
  obtain rfl := Option.some.inj k4
  obtain rfl := Option.some.inj (ref_prism8_0.symm.trans k6)
  obtain rfl := Option.some.inj (ref_square1_0.symm.trans k7)
  have := congrFun (k ![-1, -1] (by simp [Shape.body, Shape.geom, RefGeometry.squareG])) 0
  simp at this
  try norm_num at this

theorem nodes_prism8_2 : ¬ FaceNodesFit .prism8 2 := by
  rintro ⟨F, m, l, h1, h2, h3, h4, h5, h⟩
  obtain rfl := Option.some.inj h1
  obtain rfl := Option.some.inj h2
  obtain rfl := Option.some.inj h3
  obtain ⟨e, g, sub, G, le, lj, k1, k2, k3, k4, k5, k6, k7⟩ := h 0 (by show 0 < 2; norm_num)
  obtain ⟨rfl, rfl⟩ := Prod.mk.inj (Option.some.inj k1)
  obtain rfl := Option.some.inj k2
  obtain rfl := Option.some.inj k3
  obtain rfl := Option.some.inj k4
  obtain rfl := Option.some.inj k5
  exact absurd k6 (by decide)

theorem face_prism8_3 : ¬ FaceFits .prism8 3 := by
  rintro ⟨F, m, h1, h2, h3, h⟩
  obtain rfl := Option.some.inj h1
  obtain rfl := Option.some.inj h2
  obtain ⟨e, g, sub, G, part, c, cf, k1, k2, k3, k4, k5, k6, k7, k⟩ := h 0 (by show 0 < 1; norm_num)
  obtain ⟨rfl, rfl⟩ := Prod.mk.inj (Option.some.inj k1)
  obtain rfl := Option.some.inj k2
  obtain rfl := Option.some.inj k3
  obtain rfl := Option.some.inj k4
  obtain rfl := Option.some.inj (ref_prism8_0.symm.trans k6)
  obtain rfl := Option.some.inj (ref_square0_0.symm.trans k7)
  have := congrFun (k ![1, -1] (by simp [Shape.body, Shape.geom, RefGeometry.squareG])) 0
  simp at this
  try norm_num at this

theorem nodes_prism8_3 : ¬ FaceNodesFit .prism8 3 := by
  rintro ⟨F, m, l, h1, h2, h3, h4, h5, h⟩
  obtain rfl := Option.some.inj h1
  obtain rfl := Option.some.inj h2
  obtain rfl := Option.some.inj h3
  obtain ⟨e, g, sub, G, le, lj, k1, k2, k3, k4, k5, k6, k7⟩ := h 0 (by show 0 < 1; norm_num)
  obtain ⟨rfl, rfl⟩ := Prod.mk.inj (Option.some.inj k1)
  obtain rfl := Option.some.inj k2
  obtain rfl := Option.some.inj k3
  obtain rfl := Option.some.inj k4
  obtain rfl := Option.some.inj k5
  exact absurd k6 (by decide)

theorem face_prism8_4 : ¬ FaceFits .prism8 4 := by
  rintro ⟨F, m, h1, h2, h3, h⟩
  obtain rfl := Option.some.inj h1
  obtain rfl := Option.some.inj h2
  obtain ⟨e, g, sub, G, part, c, cf, k1, k2, k3, k4, k5, k6, k7, k⟩ := h 0 (by show 0 < 2; norm_num)
  obtain ⟨rfl, rfl⟩ := Prod.mk.inj (Option.some.inj k1)
  obtain rfl := Option.some.inj k2
  obtain rfl := Option.some.inj k3
  obtain rfl := Option.some.inj k4
  obtain rfl := Option.some.inj (ref_prism8_0.symm.trans k6)
  obtain rfl := Option.some.inj (ref_square1_0.symm.trans k7)
  have := congrFun (k ![-1, -1] (by simp [Shape.body, Shape.geom, RefGeometry.squareG])) 0
  simp at this
  try norm_num at this

theorem nodes_prism8_4 : ¬ FaceNodesFit .prism8 4 := by
  rintro ⟨F, m, l, h1, h2, h3, h4, h5, h⟩
  obtain rfl := Option.some.inj h1
  obtain rfl := Option.some.inj h2
  obtain rfl := Option.some.inj h3
  obtain ⟨e, g, sub, G, le, lj, k1, k2, k3, k4, k5, k6, k7⟩ := h 0 (by show 0 < 2; norm_num)
  obtain ⟨rfl, rfl⟩ := Prod.mk.inj (Option.some.inj k1)
  obtain rfl := Option.some.inj k2
  obtain rfl := Option.some.inj k3
  obtain rfl := Option.some.inj k4
  obtain rfl := Option.some.inj k5
  exact absurd k6 (by decide)

theorem face_prism9_0 : ¬ FaceFits .prism9 0 := by
  rintro ⟨F, m, h1, h2, h3, h⟩
  obtain rfl := Option.some.inj h1
  obtain rfl := Option.some.inj h2
  obtain ⟨e, g, sub, G, part, c, cf, k1, k2, k3, k4, k5, k6, k7, k⟩ := h 1 (by show 1 < 2; norm_num)
  obtain ⟨rfl, rfl⟩ := Prod.mk.inj (Option.some.inj k1)
  obtain rfl := Option.some.inj k2
  obtain rfl := Option.some.inj k3
  obtain rfl := Option.some.inj k4
  obtain rfl := Option.some.inj (ref_prism9_1.symm.trans k6)
  obtain rfl := Option.some.inj (ref_triangle8_1.symm.trans k7)
  have := congrFun (k ![-1, -1] (by simp [Shape.body, Shape.geom, RefGeometry.squareG])) 0
  simp at this
  try norm_num at this

theorem nodes_prism9_0 : ¬ FaceNodesFit .prism9 0 := by
  rintro ⟨F, m, l, h1, h2, h3, h4, h5, h⟩
  obtain rfl := Option.some.inj h1
  obtain rfl := Option.some.inj h2
  obtain rfl := Option.some.inj h3
  obtain ⟨e, g, sub, G, le, lj, k1, k2, k3, k4, k5, k6, k7⟩ := h 1 (by show 1 < 2; norm_num)
  obtain ⟨rfl, rfl⟩ := Prod.mk.inj (Option.some.inj k1)
  obtain rfl := Option.some.inj k2
  obtain rfl := Option.some.inj k3
  obtain rfl := Option.some.inj k4
  obtain rfl := Option.some.inj k5
  exact absurd k6 (by decide)

theorem face_prism9_1 : ¬ FaceFits .prism9 1 := by
  rintro ⟨F, m, h1, h2, h3, h⟩
  obtain rfl := Option.some.inj h1
  obtain rfl := Option.some.inj h2
  obtain ⟨e, g, sub, G, part, c, cf, k1, k2, k3, k4, k5, k6, k7, k⟩ := h 1 (by show 1 < 2; norm_num)
  obtain ⟨rfl, rfl⟩ := Prod.mk.inj (Option.some.inj k1)
  obtain rfl := Option.some.inj k2
  obtain rfl := Option.some.inj k3
  obtain rfl := Option.some.inj k4
  obtain rfl := Option.some.inj (ref_prism9_1.symm.trans k6)
  obtain rfl := Option.some.inj (ref_triangle8_1.symm.trans k7)
  have := congrFun (k ![-1, -1] (by simp [Shape.body, Shape.geom, RefGeometry.squareG])) 2
  simp at this
  try norm_num at this

theorem nodes_prism9_1 : ¬ FaceNodesFit .prism9 1 := by
  rintro ⟨F, m, l, h1, h2, h3, h4, h5, h⟩
  obtain rfl := Option.some.inj h1
  obtain rfl := Option.some.inj h2
  obtain rfl := Option.some.inj h3
  obtain ⟨e, g, sub, G, le, lj, k1, k2, k3, k4, k5, k6, k7⟩ := h 1 (by show 1 < 2; norm_num)
  obtain ⟨rfl, rfl⟩ := Prod.mk.inj (Option.some.inj k1)
  obtain rfl := Option.some.inj k2
  obtain rfl := Option.some.inj k3
  obtain rfl := Option.some.inj k4
  obtain rfl := Option.some.inj k5
  exact absurd k6 (by decide)

theorem face_prism9_2 : ¬ FaceFits .prism9 2 := by
  rintro ⟨F, m, h1, h2, h3, h⟩
  obtain rfl := Option.some.inj h1
  obtain rfl := Option.some.inj h2
  obtain ⟨e, g, sub, G, part, c, cf, k1, k2, k3, k4, k5, k6, k7, k⟩ := h 0 (by show 0 < 2; norm_num)
  obtain ⟨rfl, rfl⟩ := Prod.mk.inj (Option.some.inj k1)
  obtain rfl := Option.some.inj k2
  obtain rfl := Option.some.inj k3
  obtain rfl := Option.some.inj k4
  obtain rfl := Option.some.inj (ref_prism9_0.symm.trans k6)
  obtain rfl := Option.some.inj (ref_square1_0.symm.trans k7)
  have := congrFun (k ![-1, -1] (by simp [Shape.body, Shape.geom, RefGeometry.squareG])) 1
  simp at this
  try norm_num at this

theorem nodes_prism9_2 : ¬ FaceNodesFit .prism9 2 := by
  rintro ⟨F, m, l, h1, h2, h3, h4, h5, h⟩
  obtain rfl := Option.some.inj h1
  obtain rfl := Option.some.inj h2
  obtain rfl := Option.some.inj h3
  obtain ⟨e, g, sub, G, le, lj, k1, k2, k3, k4, k5, k6, k7⟩ := h 0 (by show 0 < 2; norm_num)
  obtain ⟨rfl, rfl⟩ := Prod.mk.inj (Option.some.inj k1)
  obtain rfl := Option.some.inj k2
  obtain rfl := Option.some.inj k3
  obtain rfl := Option.some.inj k4
  obtain rfl := Option.some.inj k5
  exact absurd k6 (by decide)

theorem face_prism9_3 : ¬ FaceFits .prism9 3 := by
  rintro ⟨F, m, h1, h2, h3, h⟩
  obtain rfl := Option.some.inj h1
  obtain rfl := Option.some.inj h2
  obtain ⟨e, g, sub, G, part, c, cf, k1, k2, k3, k4, k5, k6, k7, k⟩ := h 0 (by show 0 < 2; norm_num)
  obtain ⟨rfl, rfl⟩ := Prod.mk.inj (Option.some.inj k1)
  obtain rfl := Option.some.inj k2
  obtain rfl := Option.some.inj k3
  obtain rfl := Option.some.inj k4
  obtain rfl := Option.some.inj (ref_prism9_0.symm.trans k6)
  obtain rfl := Option.some.inj (ref_square1_0.symm.trans k7)
  have := congrFun (k ![-1, -1] (by simp [Shape.body, Shape.geom, RefGeometry.squareG])) 1
  simp at this
  try norm_num at this

theorem nodes_prism9_3 : ¬ FaceNodesFit .prism9 3 := by
  rintro ⟨F, m, l, h1, h2, h3, h4, h5, h⟩
  obtain rfl := Option.some.inj h1
  obtain rfl := Option.some.inj h2
  obtain rfl := Option.some.inj h3
  obtain ⟨e, g, sub, G, le, lj, k1, k2, k3, k4, k5, k6, k7⟩ := h 0 (by show 0 < 2; norm_num)
  obtain ⟨rfl, rfl⟩ := Prod.mk.inj (Option.some.inj k1)
  obtain rfl := Option.some.inj k2
  obtain rfl := Option.some.inj k3
  obtain rfl := Option.some.inj k4
  obtain rfl := Option.some.inj k5
  exact absurd k6 (by decide)

theorem face_prism9_4 : ¬ FaceFits .prism9 4 := by
  rintro ⟨F, m, h1, h2, h3, h⟩
  obtain rfl := Option.some.inj h1
  obtain rfl := Option.some.inj h2
  obtain ⟨e, g, sub, G, part, c, cf, k1, k2, k3, k4, k5, k6, k7, k⟩ := h 0 (by show 0 < 1; norm_num)
  obtain ⟨rfl, rfl⟩ := Prod.mk.inj (Option.some.inj k1)
  obtain rfl := Option.some.inj k2
  obtain rfl := Option.some.inj k3
  obtain rfl := Option.some.inj k4
  obtain rfl := Option.some.inj (ref_prism9_1.symm.trans k6)
  obtain rfl := Option.some.inj (ref_square0_0.symm.trans k7)
  have := congrFun (k ![-1, -1] (by simp [Shape.body, Shape.geom, RefGeometry.squareG])) 0
  simp at this
  try norm_num at this

theorem nodes_prism9_4 : ¬ FaceNodesFit .prism9 4 := by
  rintro ⟨F, m, l, h1, h2, h3, h4, h5, h⟩
  obtain rfl := Option.some.inj h1
  obtain rfl := Option.some.inj h2
  obtain rfl := Option.some.inj h3
  obtain ⟨e, g, sub, G, le, lj, k1, k2, k3, k4, k5, k6, k7⟩ := h 0 (by show 0 < 1; norm_num)
  obtain ⟨rfl, rfl⟩ := Prod.mk.inj (Option.some.inj k1)
  obtain rfl := Option.some.inj k2
  obtain rfl := Option.some.inj k3
  obtain rfl := Option.some.inj k4
  obtain rfl := Option.some.inj k5
  exact absurd k6 (by decide)

end Verif.Refine
