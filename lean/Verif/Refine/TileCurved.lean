import Verif.Refine.TileAffine

/-! # The sub-elements tile the element: triangles with quadrilateral parts, and prisms -/
set_option linter.all false
namespace Verif.Refine
open Verif.RefGeometry (Pt Geom Face)

/-- The quadrilateral at a corner of the triangle covers the points that are nearest to it. -/
theorem kite_cover (x y : ℝ) (hx : 0 ≤ x) (hy : 0 ≤ y) (h1 : 2 * x + y ≤ 1) (h2 : x + 2 * y ≤ 1) :
    ∃ A B : ℝ, (0 ≤ A ∧ A ≤ 2) ∧ (0 ≤ B ∧ B ≤ 2) ∧ A * (6 - B) = 24 * x ∧ B * (6 - A) = 24 * y := by
  have key : ∀ lo hi : ℝ, lo ≤ hi → 0 ≤ lo → 0 ≤ lo + 4 * (x - y) → hi ≤ 2 → hi + 4 * (x - y) ≤ 2 →
      lo * (6 - 4 * (x - y) - lo) ≤ 24 * y → 24 * y ≤ hi * (6 - 4 * (x - y) - hi) →
      ∃ A B : ℝ, (0 ≤ A ∧ A ≤ 2) ∧ (0 ≤ B ∧ B ≤ 2) ∧ A * (6 - B) = 24 * x ∧ B * (6 - A) = 24 * y := by
    intro lo hi hle a b c e f g
    have hc : ContinuousOn (fun B : ℝ => B * (6 - 4 * (x - y) - B)) (Set.Icc lo hi) := by fun_prop
    obtain ⟨B, hB, hv⟩ := intermediate_value_Icc hle hc ⟨f, g⟩
    refine ⟨B + 4 * (x - y), B, ⟨by linarith [hB.1], by linarith [hB.2]⟩, ⟨by linarith [hB.1], by linarith [hB.2]⟩, ?_, ?_⟩
    · simp only at hv; nlinarith
    · simp only at hv; nlinarith
  rcases le_total x y with h | h
  · exact key (-(4 * (x - y))) 2 (by linarith) (by linarith) (by linarith) le_rfl (by linarith) (by nlinarith) (by nlinarith)
  · exact key 0 (2 - 4 * (x - y)) (by linarith) le_rfl (by linarith) (by linarith) (by linarith) (by nlinarith) (by nlinarith)

theorem kite_inj (A B A' B' : ℝ) (hA : 0 ≤ A ∧ A ≤ 2) (hB : 0 ≤ B ∧ B ≤ 2) (hA' : 0 ≤ A' ∧ A' ≤ 2) (hB' : 0 ≤ B' ∧ B' ≤ 2)
    (h1 : A * (6 - B) = A' * (6 - B')) (h2 : B * (6 - A) = B' * (6 - A')) : A = A' ∧ B = B' := by
  have e : A - A' = B - B' := by linarith
  have f : (B - B') * (6 - B' - A) = 0 := by
    have : A' = A - (B - B') := by linarith
    rw [this] at h2; linarith
  rcases mul_eq_zero.1 f with f | f
  · exact ⟨by linarith, by linarith⟩
  · exfalso; linarith [hA.2, hB'.2]

theorem tiling_triangle5 : Tiling .triangle 3 (fun _ => .square)
    (fun s p => match s with
      | 0 => ![(p 1 + 1) * (5 + p 0) / 24, (1 - p 0) * (5 - p 1) / 24]
      | 1 => ![((p 0 + 2) * (2 - p 1) + 3) / 12, (p 1 + 1) * (5 + p 0) / 24]
      | _ => ![(1 - p 0) * (5 - p 1) / 24, ((p 0 + 2) * (2 - p 1) + 3) / 12]) where
  inside := by
    intro s hs p hp
    rw [body_square] at hp
    rw [body_triangle]
    have h1 : 0 ≤ (p 1 + 1) * (5 + p 0) := mul_nonneg (by linarith) (by linarith)
    have h2 : 0 ≤ (1 - p 0) * (5 - p 1) := mul_nonneg (by linarith) (by linarith)
    have h3 : 0 ≤ (p 0 + 2) * (2 - p 1) := mul_nonneg (by linarith) (by linarith)
    have e : (p 1 + 1) * (5 + p 0) / 24 + (1 - p 0) * (5 - p 1) / 24 + ((p 0 + 2) * (2 - p 1) + 3) / 12 = 1 := by ring
    interval_cases s
    · exact ⟨by simp; positivity, by simp; positivity, by simp; linarith⟩
    · exact ⟨by simp; positivity, by simp; positivity, by simp; linarith⟩
    · exact ⟨by simp; positivity, by simp; positivity, by simp; linarith⟩
  cover := by
    intro x hx
    rw [body_triangle] at hx
    obtain ⟨h0, h1, h2⟩ := hx
    have pick : ∀ u v : ℝ, 0 ≤ u → 0 ≤ v → 2 * u + v ≤ 1 → u + 2 * v ≤ 1 → ∃ p ∈ Shape.square.body,
        (p 1 + 1) * (5 + p 0) / 24 = u ∧ (1 - p 0) * (5 - p 1) / 24 = v ∧ ((p 0 + 2) * (2 - p 1) + 3) / 12 = 1 - u - v := by
      intro u v a b c e
      obtain ⟨A, B, hA, hB, e1, e2⟩ := kite_cover u v a b c e
      refine ⟨![1 - B, A - 1], ?_, ?_, ?_, ?_⟩
      · rw [body_square]; simp
        exact ⟨by linarith, by linarith, by linarith, by linarith⟩
      · simp; linarith
      · simp; linarith
      · simp; linarith
    by_cases hz : x 0 ≤ 1 - x 0 - x 1 ∧ x 1 ≤ 1 - x 0 - x 1
    · obtain ⟨p, hp, a, b, c⟩ := pick (x 0) (x 1) h0 h1 (by linarith) (by linarith)
      exact ⟨0, by norm_num, p, hp, by ext i; fin_cases i <;> simp [a, b, c]⟩
    · rcases le_total (x 0) (x 1) with h | h
      · have hz' : 1 - x 0 - x 1 ≤ x 1 := by by_contra hh; exact hz ⟨by linarith, by linarith⟩
        obtain ⟨p, hp, a, b, c⟩ := pick (1 - x 0 - x 1) (x 0) (by linarith) h0 (by linarith) (by linarith)
        refine ⟨2, by norm_num, p, hp, ?_⟩
        ext i; fin_cases i
        · simp [b]
        · simp [c]; ring
      · have hz' : 1 - x 0 - x 1 ≤ x 0 := by by_contra hh; exact hz ⟨by linarith, by linarith⟩
        obtain ⟨p, hp, a, b, c⟩ := pick (x 1) (1 - x 0 - x 1) h1 (by linarith) (by linarith) (by linarith)
        refine ⟨1, by norm_num, p, hp, ?_⟩
        ext i; fin_cases i <;> simp [a, b, c]
  once := by
    intro s hs s' hs' p hp p' hp' he
    have hq := interior_square p hp
    rw [body_square] at hp'
    obtain ⟨⟨a0, a1⟩, a2, a3⟩ := hq
    obtain ⟨b0, b1, b2, b3⟩ := hp'
    have e0 := congrFun he 0
    have e1 := congrFun he 1
    have inj : (p 1 + 1) * (5 + p 0) = (p' 1 + 1) * (5 + p' 0) → (1 - p 0) * (5 - p 1) = (1 - p' 0) * (5 - p' 1) → p = p' := by
      intro e0 e1
      obtain ⟨u, v⟩ := kite_inj (p 1 + 1) (1 - p 0) (p' 1 + 1) (1 - p' 0) ⟨by linarith, by linarith⟩ ⟨by linarith, by linarith⟩
        ⟨by linarith, by linarith⟩ ⟨by linarith, by linarith⟩ (by linarith) (by linarith)
      ext i; fin_cases i
      · simp; linarith
      · simp; linarith
    -- the strict order of the barycentric coordinates in the first part and the weak one in the second
    have s1 : 0 < (1 - p 1) * (3 + p 0) := mul_pos (by linarith) (by linarith)
    have s2 : 0 < (1 + p 0) * (3 - p 1) := mul_pos (by linarith) (by linarith)
    have w1 : 0 ≤ (1 - p' 1) * (3 + p' 0) := mul_nonneg (by linarith) (by linarith)
    have w2 : 0 ≤ (1 + p' 0) * (3 - p' 1) := mul_nonneg (by linarith) (by linarith)
    interval_cases s <;> interval_cases s' <;> simp at e0 e1 <;>
      first
      | (exfalso; linarith)
      | (refine ⟨rfl, inj ?_ ?_⟩ <;> linarith)

theorem tiling_triangle6 : Tiling .triangle 2 (fun s => match s with | 0 => .square | _ => .triangle)
    (fun s p => match s with
      | 0 => ![(1 + p 0) / 4, (p 1 + 1) * (3 - p 0) / 8]
      | _ => ![(1 + p 0) / 2, p 1 / 2]) where
  inside := by
    intro s hs p hp
    interval_cases s
    · obtain ⟨a, b, c, e⟩ := (body_square p).1 hp
      rw [body_triangle]
      simp
      exact ⟨by linarith, div_nonneg (mul_nonneg (by linarith) (by linarith)) (by norm_num), by nlinarith⟩
    · obtain ⟨a, b, c⟩ := (body_triangle p).1 hp
      rw [body_triangle]
      simp
      exact ⟨by linarith, by linarith, by linarith⟩
  cover := by
    intro x hx
    rw [body_triangle] at hx
    obtain ⟨h0, h1, h2⟩ := hx
    rcases le_total (x 0) (1 / 2) with h | h
    · have hd : 0 < 1 - x 0 := by linarith
      refine ⟨0, by norm_num, ![4 * x 0 - 1, 2 * x 1 / (1 - x 0) - 1], ?_, ?_⟩
      · refine (body_square _).2 ?_
        have l1 : 0 ≤ 2 * x 1 / (1 - x 0) := div_nonneg (by linarith) hd.le
        have l2 : 2 * x 1 / (1 - x 0) ≤ 2 := by rw [div_le_iff₀ hd]; linarith
        simp
        exact ⟨by linarith, by linarith, by linarith, by linarith⟩
      · ext i; fin_cases i <;> simp
        field_simp
        ring
    · refine ⟨1, by norm_num, ![2 * x 0 - 1, 2 * x 1], ?_, ?_⟩
      · refine (body_triangle _).2 ?_
        simp
        exact ⟨by linarith, by linarith, by linarith⟩
      · ext i; fin_cases i <;> simp
  once := by
    intro s hs s' hs' p hp p' hp' he
    have e0 := congrFun he 0
    have e1 := congrFun he 1
    interval_cases s <;> interval_cases s' <;> simp at e0 e1
    · obtain ⟨⟨a0, a1⟩, a2, a3⟩ := interior_square p hp
      have hx : p 0 = p' 0 := by linarith
      rw [hx] at e1
      have hy : p 1 = p' 1 := by
        have : 0 < 3 - p' 0 := by linarith
        have := mul_right_cancel₀ this.ne' (show (p 1 + 1) * (3 - p' 0) = (p' 1 + 1) * (3 - p' 0) by linarith)
        linarith
      exact ⟨rfl, by ext i; fin_cases i <;> assumption⟩
    · obtain ⟨⟨a0, a1⟩, a2, a3⟩ := interior_square p hp
      obtain ⟨b0, b1, b2⟩ := (body_triangle p').1 hp'
      exfalso; linarith
    · obtain ⟨a0, a1, a2⟩ := interior_triangle p hp
      obtain ⟨b0, b1, b2, b3⟩ := (body_square p').1 hp'
      exfalso; linarith
    · exact ⟨rfl, by ext i; fin_cases i <;> simp <;> linarith⟩

theorem tiling_triangle7 : Tiling .triangle 2 (fun s => match s with | 0 => .square | _ => .triangle)
    (fun s p => match s with
      | 0 => ![(p 0 + 1) * (3 - p 1) / 8, (1 + p 1) / 4]
      | _ => ![p 0 / 2, (1 + p 1) / 2]) where
  inside := by
    intro s hs p hp
    interval_cases s
    · obtain ⟨a, b, c, e⟩ := (body_square p).1 hp
      rw [body_triangle]
      simp
      exact ⟨div_nonneg (mul_nonneg (by linarith) (by linarith)) (by norm_num), by linarith, by nlinarith⟩
    · obtain ⟨a, b, c⟩ := (body_triangle p).1 hp
      rw [body_triangle]
      simp
      exact ⟨by linarith, by linarith, by linarith⟩
  cover := by
    intro x hx
    rw [body_triangle] at hx
    obtain ⟨h0, h1, h2⟩ := hx
    rcases le_total (x 1) (1 / 2) with h | h
    · have hd : 0 < 1 - x 1 := by linarith
      refine ⟨0, by norm_num, ![2 * x 0 / (1 - x 1) - 1, 4 * x 1 - 1], ?_, ?_⟩
      · refine (body_square _).2 ?_
        have l1 : 0 ≤ 2 * x 0 / (1 - x 1) := div_nonneg (by linarith) hd.le
        have l2 : 2 * x 0 / (1 - x 1) ≤ 2 := by rw [div_le_iff₀ hd]; linarith
        simp
        exact ⟨by linarith, by linarith, by linarith, by linarith⟩
      · ext i; fin_cases i <;> simp
        field_simp
        ring
    · refine ⟨1, by norm_num, ![2 * x 0, 2 * x 1 - 1], ?_, ?_⟩
      · refine (body_triangle _).2 ?_
        simp
        exact ⟨by linarith, by linarith, by linarith⟩
      · ext i; fin_cases i <;> simp
  once := by
    intro s hs s' hs' p hp p' hp' he
    have e0 := congrFun he 0
    have e1 := congrFun he 1
    interval_cases s <;> interval_cases s' <;> simp at e0 e1
    · obtain ⟨⟨a0, a1⟩, a2, a3⟩ := interior_square p hp
      have hx : p 1 = p' 1 := by linarith
      rw [hx] at e0
      have hy : p 0 = p' 0 := by
        have : 0 < 3 - p' 1 := by linarith
        have := mul_right_cancel₀ this.ne' (show (p 0 + 1) * (3 - p' 1) = (p' 0 + 1) * (3 - p' 1) by linarith)
        linarith
      exact ⟨rfl, by ext i; fin_cases i <;> assumption⟩
    · obtain ⟨⟨a0, a1⟩, a2, a3⟩ := interior_square p hp
      obtain ⟨b0, b1, b2⟩ := (body_triangle p').1 hp'
      exfalso; linarith
    · obtain ⟨a0, a1, a2⟩ := interior_triangle p hp
      obtain ⟨b0, b1, b2, b3⟩ := (body_square p').1 hp'
      exfalso; linarith
    · exact ⟨rfl, by ext i; fin_cases i <;> simp <;> linarith⟩

theorem tiling_triangle8 : Tiling .triangle 2 (fun s => match s with | 0 => .triangle | _ => .square)
    (fun s p => match s with
      | 0 => ![p 0 / 2, p 1 / 2]
      | _ => ![(1 - p 1) * (3 + p 0) / 8, (1 + p 1) * (3 + p 0) / 8]) where
  inside := by
    intro s hs p hp
    interval_cases s
    · obtain ⟨a, b, c⟩ := (body_triangle p).1 hp
      rw [body_triangle]
      simp
      exact ⟨by linarith, by linarith, by linarith⟩
    · obtain ⟨a, b, c, e⟩ := (body_square p).1 hp
      rw [body_triangle]
      simp
      exact ⟨div_nonneg (mul_nonneg (by linarith) (by linarith)) (by norm_num),
        div_nonneg (mul_nonneg (by linarith) (by linarith)) (by norm_num), by nlinarith⟩
  cover := by
    intro x hx
    rw [body_triangle] at hx
    obtain ⟨h0, h1, h2⟩ := hx
    rcases le_total (x 0 + x 1) (1 / 2) with h | h
    · refine ⟨0, by norm_num, ![2 * x 0, 2 * x 1], ?_, ?_⟩
      · refine (body_triangle _).2 ?_
        simp
        exact ⟨by linarith, by linarith, by linarith⟩
      · ext i; fin_cases i <;> simp
    · have hd : 0 < x 0 + x 1 := by linarith
      refine ⟨1, by norm_num, ![4 * (x 0 + x 1) - 3, (x 1 - x 0) / (x 0 + x 1)], ?_, ?_⟩
      · refine (body_square _).2 ?_
        have l1 : -1 ≤ (x 1 - x 0) / (x 0 + x 1) := by rw [le_div_iff₀ hd]; linarith
        have l2 : (x 1 - x 0) / (x 0 + x 1) ≤ 1 := by rw [div_le_iff₀ hd]; linarith
        simp
        exact ⟨by linarith, by linarith, by linarith, by linarith⟩
      · ext i; fin_cases i <;> simp
        · field_simp; ring
        · field_simp; ring
  once := by
    intro s hs s' hs' p hp p' hp' he
    have e0 := congrFun he 0
    have e1 := congrFun he 1
    interval_cases s <;> interval_cases s' <;> simp at e0 e1
    · exact ⟨rfl, by ext i; fin_cases i <;> simp <;> linarith⟩
    · obtain ⟨a0, a1, a2⟩ := interior_triangle p hp
      obtain ⟨b0, b1, b2, b3⟩ := (body_square p').1 hp'
      exfalso; nlinarith
    · obtain ⟨⟨a0, a1⟩, a2, a3⟩ := interior_square p hp
      obtain ⟨b0, b1, b2⟩ := (body_triangle p').1 hp'
      exfalso; nlinarith
    · obtain ⟨⟨a0, a1⟩, a2, a3⟩ := interior_square p hp
      have hx : p 0 = p' 0 := by linarith
      rw [hx] at e0
      have hy : p 1 = p' 1 := by
        have : 0 < 3 + p' 0 := by linarith
        have := mul_right_cancel₀ this.ne' (show (1 - p 1) * (3 + p' 0) = (1 - p' 1) * (3 + p' 0) by linarith)
        linarith
      exact ⟨rfl, by ext i; fin_cases i <;> assumption⟩

/-! ## Prisms -/

/-- The shape over a plane shape. -/
def tower : Shape 2 → Shape 3
  | .triangle => .prism
  | .square => .cube

def flat (p : Pt 3) : Pt 2 := ![p 0, p 1]

theorem body_tower (sh : Shape 2) (p : Pt 3) : p ∈ (tower sh).body ↔ flat p ∈ sh.body ∧ -1 ≤ p 2 ∧ p 2 ≤ 1 := by
  cases sh
  · constructor
    · rintro ⟨a, b, c⟩; exact ⟨c, a, b⟩
    · rintro ⟨a, b, c⟩; exact ⟨b, c, a⟩
  · constructor
    · rintro ⟨a, b, c, e, f, g⟩; exact ⟨⟨a, b, c, e⟩, f, g⟩
    · rintro ⟨⟨a, b, c, e⟩, f, g⟩; exact ⟨a, b, c, e, f, g⟩

theorem interior_tower (sh : Shape 2) (p : Pt 3) (hp : p ∈ interior (tower sh).body) : flat p ∈ interior sh.body := by
  have hc : Continuous fun q : Pt 2 => (![q 0, q 1, p 2] : Pt 3) := by
    refine continuous_pi fun i => ?_
    fin_cases i
    · exact continuous_apply 0
    · exact continuous_apply 1
    · exact continuous_const
  have h1 := preimage_interior_subset_interior_preimage hc (t := (tower sh).body)
  have h2 : flat p ∈ interior ((fun q : Pt 2 => (![q 0, q 1, p 2] : Pt 3)) ⁻¹' (tower sh).body) := by
    refine h1 ?_
    show (![flat p 0, flat p 1, p 2] : Pt 3) ∈ interior (tower sh).body
    have : (![flat p 0, flat p 1, p 2] : Pt 3) = p := by ext i; fin_cases i <;> rfl
    rw [this]; exact hp
  refine interior_mono ?_ h2
  intro q hq
  have := ((body_tower sh _).1 hq).1
  have e : flat ![q 0, q 1, p 2] = q := by ext i; fin_cases i <;> rfl
  rwa [e] at this

theorem tiling_tower {sh : Shape 2} {N : Nat} {sub : Nat → Shape 2} {c : Nat → Pt 2 → Pt 2} (h : Tiling sh N sub c) :
    Tiling (tower sh) N (fun s => tower (sub s)) (fun s p => ![c s (flat p) 0, c s (flat p) 1, p 2]) where
  inside := by
    intro s hs p hp
    obtain ⟨a, b⟩ := (body_tower _ _).1 hp
    refine (body_tower _ _).2 ⟨?_, b⟩
    have := h.inside s hs _ a
    have e : flat ![c s (flat p) 0, c s (flat p) 1, p 2] = c s (flat p) := by ext i; fin_cases i <;> rfl
    rwa [e]
  cover := by
    intro x hx
    obtain ⟨a, b⟩ := (body_tower _ _).1 hx
    obtain ⟨s, hs, p, hp, e⟩ := h.cover _ a
    have ef : flat ![p 0, p 1, x 2] = p := by ext i; fin_cases i <;> rfl
    refine ⟨s, hs, ![p 0, p 1, x 2], (body_tower _ _).2 ⟨by rwa [ef], b⟩, ?_⟩
    simp only [ef, e]
    ext i; fin_cases i <;> rfl
  once := by
    intro s hs s' hs' p hp p' hp' he
    obtain ⟨a, b⟩ := (body_tower _ _).1 hp'
    have e0 := congrFun he 0
    have e1 := congrFun he 1
    have e2 := congrFun he 2
    have : c s (flat p) = c s' (flat p') := by
      ext i; fin_cases i
      · exact e0
      · exact e1
    obtain ⟨u, v⟩ := h.once s hs s' hs' _ (interior_tower _ _ hp) _ a this
    refine ⟨u, ?_⟩
    ext i; fin_cases i
    · exact congrFun v 0
    · exact congrFun v 1
    · exact e2

end Verif.Refine
