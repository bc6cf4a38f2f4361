import Verif.Structure.Model
import Verif.Structure.Spec
import Mathlib.Tactic.Linarith
import Mathlib.Tactic.LinearCombination
import Mathlib.Tactic.Ring
import Mathlib.Tactic.NormNum

set_option linter.all false

namespace Verif.Structure

open Spec

theorem near_corner {t c : ℝ} (hc : 0 < c) (h0 : 0 ≤ t) (h1 : t < c) (i : ℤ) :
    t * t ≤ (t - i * c) ^ 2 ∨ (c - t) * (c - t) ≤ (t - i * c) ^ 2 := by
  rcases le_or_gt i 0 with hi | hi
  · left
    have : (i : ℝ) ≤ 0 := by exact_mod_cast hi
    have : (i : ℝ) * c ≤ 0 := mul_nonpos_of_nonpos_of_nonneg this hc.le
    nlinarith
  · right
    have : (1 : ℝ) ≤ i := by exact_mod_cast hi
    have : c ≤ (i : ℝ) * c := by nlinarith
    nlinarith

theorem near_mid {t c : ℝ} (hc : 0 < c) (h0 : 0 ≤ t) (h1 : t < c) (i : ℤ) :
    (t - c / 2) * (t - c / 2) ≤ (t - (i + 1 / 2) * c) ^ 2 := by
  rcases lt_trichotomy i 0 with hi | hi | hi
  · have : (i : ℝ) ≤ -1 := by exact_mod_cast Int.le_sub_one_of_lt hi
    have : (i : ℝ) * c ≤ -c := by nlinarith
    nlinarith
  · subst hi; simp; nlinarith
  · have : (1 : ℝ) ≤ i := by exact_mod_cast hi
    have : c ≤ (i : ℝ) * c := by nlinarith
    nlinarith

theorem floor_cell {x c : ℝ} (hc : 0 < c) :
    0 ≤ x - (⌊x / c⌋ : ℝ) * c ∧ x - (⌊x / c⌋ : ℝ) * c < c := by
  have h1 := Int.floor_le (x / c)
  have h2 := Int.lt_floor_add_one (x / c)
  rw [le_div_iff₀ hc] at h1
  rw [div_lt_iff₀ hc] at h2
  constructor <;> nlinarith

theorem pore (xz y : ℝ) {a c : ℝ} (ha : 0 < a) (hc : 0 < c) (r : ℝ) :
    insideIWPore xz y a c r ↔ InPore a c r (xz, y) := by
  obtain ⟨hx0, hx1⟩ := floor_cell (x := xz) hc
  obtain ⟨hy0, hy1⟩ := floor_cell (x := y) ha
  unfold insideIWPore InPore Centre
  simp only
  constructor
  · rintro ((h | h | h | h) | h)
    · refine ⟨_, ⟨⌊xz / c⌋, ⌊y / a⌋, Or.inl rfl⟩, ?_⟩
      simp only; nlinarith
    · refine ⟨_, ⟨⌊xz / c⌋ + 1, ⌊y / a⌋, Or.inl rfl⟩, ?_⟩
      push_cast; nlinarith
    · refine ⟨_, ⟨⌊xz / c⌋, ⌊y / a⌋ + 1, Or.inl rfl⟩, ?_⟩
      push_cast; nlinarith
    · refine ⟨_, ⟨⌊xz / c⌋ + 1, ⌊y / a⌋ + 1, Or.inl rfl⟩, ?_⟩
      push_cast; nlinarith
    · refine ⟨_, ⟨⌊xz / c⌋, ⌊y / a⌋, Or.inr rfl⟩, ?_⟩
      simp only; nlinarith
  · rintro ⟨p, ⟨i, j, rfl | rfl⟩, h⟩
    · left
      simp only at h
      have ex : xz - i * c = (xz - (⌊xz / c⌋ : ℝ) * c) - ((i - ⌊xz / c⌋ : ℤ) : ℝ) * c := by
        push_cast; ring
      have ey : y - j * a = (y - (⌊y / a⌋ : ℝ) * a) - ((j - ⌊y / a⌋ : ℤ) : ℝ) * a := by
        push_cast; ring
      rw [ex, ey] at h
      rcases near_corner hc hx0 hx1 (i - ⌊xz / c⌋) with h1 | h1 <;>
        rcases near_corner ha hy0 hy1 (j - ⌊y / a⌋) with h2 | h2
      · left; linarith [sq r]
      · right; right; left; linarith [sq r]
      · right; left; linarith [sq r]
      · right; right; right; linarith [sq r]
    · right
      simp only at h
      have ex : xz - (i + 1 / 2) * c
          = (xz - (⌊xz / c⌋ : ℝ) * c) - (((i - ⌊xz / c⌋ : ℤ) : ℝ) + 1 / 2) * c := by
        push_cast; ring
      have ey : y - (j + 1 / 2) * a
          = (y - (⌊y / a⌋ : ℝ) * a) - (((j - ⌊y / a⌋ : ℤ) : ℝ) + 1 / 2) * a := by
        push_cast; ring
      rw [ex, ey] at h
      have h1 := near_mid hc hx0 hx1 (i - ⌊xz / c⌋)
      have h2 := near_mid ha hy0 hy1 (j - ⌊y / a⌋)
      linarith [sq r]

theorem inPore_shift (a c r u v : ℝ) (h : Centre a c (u, v)) (q : ℝ × ℝ) :
    InPore a c r (q.1 + u, q.2 + v) ↔ InPore a c r q := by
  have key : ∀ (s : ℝ) (hs : s = 1 ∨ s = -1) (q : ℝ × ℝ), InPore a c r q →
      InPore a c r (q.1 + s * u, q.2 + s * v) := by
    rintro s hs q ⟨p, hp, hd⟩
    refine ⟨(p.1 + s * u, p.2 + s * v), ?_, ?_⟩
    · obtain ⟨i, j, h⟩ := h
      obtain ⟨k, l, hp⟩ := hp
      rcases h with h | h <;> rcases hp with hp | hp <;>
        (rw [Prod.mk.injEq] at h; obtain ⟨rfl, rfl⟩ := h; subst hp) <;> rcases hs with rfl | rfl
      · exact ⟨k + i, l + j, Or.inl (by simp; constructor <;> ring)⟩
      · exact ⟨k - i, l - j, Or.inl (by simp; constructor <;> ring)⟩
      · exact ⟨k + i, l + j, Or.inr (by simp; constructor <;> ring)⟩
      · exact ⟨k - i, l - j, Or.inr (by simp; constructor <;> ring)⟩
      · exact ⟨k + i, l + j, Or.inr (by simp; constructor <;> ring)⟩
      · exact ⟨k - i - 1, l - j - 1, Or.inr (by simp; constructor <;> ring)⟩
      · exact ⟨k + i + 1, l + j + 1, Or.inl (by simp; constructor <;> ring)⟩
      · exact ⟨k - i, l - j, Or.inl (by simp; constructor <;> ring)⟩
    · simp only
      have e1 : q.1 + s * u - (p.1 + s * u) = q.1 - p.1 := by ring
      have e2 : q.2 + s * v - (p.2 + s * v) = q.2 - p.2 := by ring
      rw [e1, e2]; exact hd
  constructor
  · intro hq
    have := key (-1) (Or.inr rfl) _ hq
    simpa using this
  · intro hq
    have := key 1 (Or.inl rfl) _ hq
    simpa using this

theorem inPore_mirror (a c r : ℝ) (q : ℝ × ℝ) :
    InPore a c r (q.1, -q.2) ↔ InPore a c r q := by
  have key : ∀ q : ℝ × ℝ, InPore a c r q → InPore a c r (q.1, -q.2) := by
    rintro q ⟨p, ⟨i, j, rfl | rfl⟩, hd⟩
    · exact ⟨_, ⟨i, -j, Or.inl rfl⟩, by push_cast; simp only at hd ⊢; nlinarith⟩
    · exact ⟨_, ⟨i, -j - 1, Or.inr rfl⟩, by push_cast; simp only at hd ⊢; nlinarith⟩
  exact ⟨fun h => by simpa using key _ h, key q⟩

theorem filterLoop_eq (minimum : ℝ) (removeNaN : Bool) (l : List (Option ℝ)) (it : ℕ) :
    filterLoop minimum removeNaN l it
      = l.take it ++ (l.drop it).filter (fun v => !dropped minimum removeNaN v) := by
  fun_induction filterLoop minimum removeNaN l it with
  | case1 l it h hd ih =>
    rw [ih]
    have e1 : (l.eraseIdx it).take it = l.take it := by
      rw [List.eraseIdx_eq_take_drop_succ, List.take_append_of_le_length (by simp; omega),
        List.take_take, min_self]
    have e2 : (l.eraseIdx it).drop it = l.drop (it + 1) := by
      rw [List.eraseIdx_eq_take_drop_succ, List.drop_append_of_le_length (by simp; omega)]
      simp
    rw [e1, e2, List.drop_eq_getElem_cons h, List.filter_cons]
    simp [hd]
  | case2 l it h hd ih =>
    have e : l.take (it + 1) = l.take it ++ [l[it]] := (List.take_append_getElem h).symm
    rw [ih, List.drop_eq_getElem_cons h, List.filter_cons, if_pos (by simp [hd]), e,
      List.append_assoc, List.singleton_append]
  | case3 l it h =>
    simp [List.take_of_length_le (Nat.le_of_not_lt h), List.drop_of_length_le (Nat.le_of_not_lt h)]

end Verif.Structure
