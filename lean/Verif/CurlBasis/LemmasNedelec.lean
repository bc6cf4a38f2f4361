import Verif.CurlBasis.Model
import Mathlib.Algebra.MvPolynomial.Funext
import Mathlib.Algebra.BigOperators.Fin
import Mathlib.Algebra.Order.Star.Real
import Mathlib.Data.Real.Basic
import Mathlib.Tactic.FinCases
import Mathlib.Tactic.Ring
import Mathlib.Tactic.LinearCombination
import Mathlib.Tactic.Module

set_option linter.all false
namespace Verif.CurlBasis
open Verif.RefGeometry (Pt)
open Verif.Basis (bary3)

/-- Exponents of the barycentric coordinates, after adding one for both nodes of the direction. -/
def NedelecFn.beta : NedelecFn → Fin 4 → ℕ
  | .edge l m i j => fun n => if n = i then l + 1 else if n = j then m + 1 else 0
  | .face1 l m n d | .face2 l m n d =>
    match d with
    | 0 => ![0, l + 1, m + 1, n + 1]
    | 1 => ![l + 1, 0, m + 1, n + 1]
    | 2 => ![l + 1, m + 1, 0, n + 1]
    | 3 => ![l + 1, m + 1, n + 1, 0]
  | .interior1 l m n o | .interior2 l m n o | .interior3 l m n o => ![l + 1, m + 1, n + 1, o + 1]

def NedelecFn.src : NedelecFn → Fin 4
  | .edge _ _ i _ => i
  | .face1 _ _ _ d => (faceNodes d).1
  | .face2 _ _ _ d => (faceNodes d).2.1
  | .interior1 .. => 0
  | .interior2 .. => 1
  | .interior3 .. => 2

def NedelecFn.dst : NedelecFn → Fin 4
  | .edge _ _ _ j => j
  | .face1 _ _ _ d => (faceNodes d).2.1
  | .face2 _ _ _ d => (faceNodes d).2.2
  | .interior1 .. => 1
  | .interior2 .. => 2
  | .interior3 .. => 3

theorem mem_forms {k : Nat} {f : NedelecFn} (h : f ∈ nedelec3 k) :
    (∃ l m, l + m + 1 = k ∧ (f = .edge l m 0 1 ∨ f = .edge l m 0 2 ∨ f = .edge l m 0 3 ∨
      f = .edge l m 2 3 ∨ f = .edge l m 1 3 ∨ f = .edge l m 1 2)) ∨
    (∃ l m n, l + m + n + 2 = k ∧ (f = .face1 l m n 0 ∨ f = .face1 l m n 1 ∨ f = .face1 l m n 2 ∨
      f = .face1 l m n 3 ∨ f = .face2 l m n 0 ∨ f = .face2 l m n 1 ∨ f = .face2 l m n 2 ∨
      f = .face2 l m n 3)) ∨
    (∃ l m n o, l + m + n + o + 3 = k ∧ (f = .interior1 l m n o ∨ f = .interior2 l m n o ∨
      f = .interior3 l m n o)) := by
  simp only [nedelec3, List.mem_append, List.mem_flatMap, List.mem_range] at h
  rcases h with (⟨l, hl, h⟩ | ⟨l, hl, m, hm, h⟩) | ⟨l, hl, m, hm, n, hn, h⟩
  · exact Or.inl ⟨l, k - 1 - l, by omega, by simpa using h⟩
  · exact Or.inr (Or.inl ⟨l, m, k - 2 - (l + m), by omega, by simpa using h⟩)
  · exact Or.inr (Or.inr ⟨l, m, n, k - 3 - (l + m + n), by omega, by simpa using h⟩)

theorem mem_edge {k l m : Nat} (h : l + m + 1 = k) {f : NedelecFn}
    (hf : f = .edge l m 0 1 ∨ f = .edge l m 0 2 ∨ f = .edge l m 0 3 ∨
      f = .edge l m 2 3 ∨ f = .edge l m 1 3 ∨ f = .edge l m 1 2) : f ∈ nedelec3 k := by
  simp only [nedelec3, List.mem_append, List.mem_flatMap, List.mem_range]
  refine Or.inl (Or.inl ⟨l, by omega, ?_⟩)
  obtain rfl : k - 1 - l = m := by omega
  simpa using hf

theorem mem_face {k l m n : Nat} (h : l + m + n + 2 = k) {f : NedelecFn}
    (hf : f = .face1 l m n 0 ∨ f = .face1 l m n 1 ∨ f = .face1 l m n 2 ∨
      f = .face1 l m n 3 ∨ f = .face2 l m n 0 ∨ f = .face2 l m n 1 ∨ f = .face2 l m n 2 ∨
      f = .face2 l m n 3) : f ∈ nedelec3 k := by
  simp only [nedelec3, List.mem_append, List.mem_flatMap, List.mem_range]
  refine Or.inl (Or.inr ⟨l, by omega, m, by omega, ?_⟩)
  obtain rfl : k - 2 - (l + m) = n := by omega
  simpa using hf

theorem mem_interior {k l m n o : Nat} (h : l + m + n + o + 3 = k) {f : NedelecFn}
    (hf : f = .interior1 l m n o ∨ f = .interior2 l m n o ∨ f = .interior3 l m n o) :
    f ∈ nedelec3 k := by
  simp only [nedelec3, List.mem_append, List.mem_flatMap, List.mem_range]
  refine Or.inr ⟨l, by omega, m, by omega, n, by omega, ?_⟩
  obtain rfl : k - 3 - (l + m + n) = o := by omega
  simpa using hf

set_option hygiene false in
macro "forms" h:term : tactic => `(tactic| (
  rcases mem_forms $h with ⟨l, m, hk, rfl | rfl | rfl | rfl | rfl | rfl⟩ |
    ⟨l, m, n, hk, rfl | rfl | rfl | rfl | rfl | rfl | rfl | rfl⟩ |
    ⟨l, m, n, o, hk, rfl | rfl | rfl⟩))

/-- Product of powers of the barycentric coordinates. -/
noncomputable def mono (α : Fin 4 → ℕ) (p : Pt 3) : ℝ := ∏ n, bary3 n p ^ α n

noncomputable def dec (β : Fin 4 → ℕ) (i : Fin 4) : Fin 4 → ℕ := fun n => β n - if n = i then 1 else 0

noncomputable def VV (β : Fin 4 → ℕ) (i : Fin 4) (p : Pt 3) : Pt 3 := mono (dec β i) p • baryGrad i

theorem beta_pos {k : Nat} {f : NedelecFn} (h : f ∈ nedelec3 k) :
    0 < f.beta f.src ∧ 0 < f.beta f.dst ∧ f.src < f.dst ∧ ∑ n, f.beta n = k + 1 := by
  forms h <;> refine ⟨?_, ?_, ?_, ?_⟩ <;>
    simp [NedelecFn.beta, NedelecFn.src, NedelecFn.dst, faceNodes, Fin.sum_univ_four] <;> omega

theorem eval_VV {k : Nat} {f : NedelecFn} (h : f ∈ nedelec3 k) (p : Pt 3) :
    f.eval p = VV f.beta f.src p - VV f.beta f.dst p := by
  forms h <;>
    simp [NedelecFn.eval, NedelecFn.beta, NedelecFn.src, NedelecFn.dst, faceNodes, VV, mono, dec,
      Fin.prod_univ_four, smul_sub, smul_smul] <;>
    congr 2 <;> ring

/-- The function with given exponents and first node. -/
def decode (β : Fin 4 → ℕ) (i : Fin 4) : NedelecFn :=
  if β 0 = 0 then
    if β 1 = 0 then .edge (β 2 - 1) (β 3 - 1) 2 3
    else if β 2 = 0 then .edge (β 1 - 1) (β 3 - 1) 1 3
    else if β 3 = 0 then .edge (β 1 - 1) (β 2 - 1) 1 2
    else if i = 1 then .face1 (β 1 - 1) (β 2 - 1) (β 3 - 1) 0
    else .face2 (β 1 - 1) (β 2 - 1) (β 3 - 1) 0
  else if β 1 = 0 then
    if β 2 = 0 then .edge (β 0 - 1) (β 3 - 1) 0 3
    else if β 3 = 0 then .edge (β 0 - 1) (β 2 - 1) 0 2
    else if i = 0 then .face1 (β 0 - 1) (β 2 - 1) (β 3 - 1) 1
    else .face2 (β 0 - 1) (β 2 - 1) (β 3 - 1) 1
  else if β 2 = 0 then
    if β 3 = 0 then .edge (β 0 - 1) (β 1 - 1) 0 1
    else if i = 0 then .face1 (β 0 - 1) (β 1 - 1) (β 3 - 1) 2
    else .face2 (β 0 - 1) (β 1 - 1) (β 3 - 1) 2
  else if β 3 = 0 then
    if i = 0 then .face1 (β 0 - 1) (β 1 - 1) (β 2 - 1) 3
    else .face2 (β 0 - 1) (β 1 - 1) (β 2 - 1) 3
  else if i = 0 then .interior1 (β 0 - 1) (β 1 - 1) (β 2 - 1) (β 3 - 1)
  else if i = 1 then .interior2 (β 0 - 1) (β 1 - 1) (β 2 - 1) (β 3 - 1)
  else .interior3 (β 0 - 1) (β 1 - 1) (β 2 - 1) (β 3 - 1)

theorem decode_beta {k : Nat} {f : NedelecFn} (h : f ∈ nedelec3 k) : decode f.beta f.src = f := by
  forms h <;> simp [decode, NedelecFn.beta, NedelecFn.src, faceNodes]

/-- Neighbours in the support of an exponent are the ends of a function. -/
theorem exists_fn {k : Nat} (β : Fin 4 → ℕ) (hβ : ∑ n, β n = k + 1) (i j : Fin 4) (hij : i < j)
    (hi : 0 < β i) (hj : 0 < β j) (hb : ∀ n, i < n → n < j → β n = 0) :
    ∃ f ∈ nedelec3 k, f.beta = β ∧ f.src = i ∧ f.dst = j := by
  rw [Fin.sum_univ_four] at hβ
  obtain ⟨x, hx⟩ : ∃ x, x = β 0 := ⟨_, rfl⟩
  obtain ⟨y, hy⟩ : ∃ y, y = β 1 := ⟨_, rfl⟩
  obtain ⟨z, hz⟩ : ∃ z, z = β 2 := ⟨_, rfl⟩
  obtain ⟨w, hw⟩ : ∃ w, w = β 3 := ⟨_, rfl⟩
  have e : β = ![x, y, z, w] := by funext n; fin_cases n <;> simp [hx, hy, hz, hw]
  rw [← hx, ← hy, ← hz, ← hw] at hβ
  clear hx hy hz hw
  subst e
  have pair : ∀ n : ℕ, n = 0 ∨ ∃ m, n = m + 1 := fun n => by cases n <;> simp
  fin_cases i <;> fin_cases j <;> simp at hij hi hj
  · -- 0 1
    obtain ⟨x, rfl⟩ : ∃ m, x = m + 1 := ⟨x - 1, by omega⟩
    obtain ⟨y, rfl⟩ : ∃ m, y = m + 1 := ⟨y - 1, by omega⟩
    rcases pair z with rfl | ⟨z, rfl⟩ <;> rcases pair w with rfl | ⟨w, rfl⟩
    · exact ⟨.edge x y 0 1, mem_edge (l := x) (m := y) (by omega) (by simp), by
        funext n; fin_cases n <;> simp [NedelecFn.beta], rfl, rfl⟩
    · exact ⟨.face1 x y w 2, mem_face (l := x) (m := y) (n := w) (by omega) (by simp), rfl, rfl, rfl⟩
    · exact ⟨.face1 x y z 3, mem_face (l := x) (m := y) (n := z) (by omega) (by simp), rfl, rfl, rfl⟩
    · exact ⟨.interior1 x y z w, mem_interior (l := x) (m := y) (n := z) (o := w) (by omega) (by simp), rfl, rfl, rfl⟩
  · -- 0 2
    have h1 := hb 1 (by decide) (by decide)
    simp at h1; subst h1
    obtain ⟨x, rfl⟩ : ∃ m, x = m + 1 := ⟨x - 1, by omega⟩
    obtain ⟨z, rfl⟩ : ∃ m, z = m + 1 := ⟨z - 1, by omega⟩
    rcases pair w with rfl | ⟨w, rfl⟩
    · exact ⟨.edge x z 0 2, mem_edge (l := x) (m := z) (by omega) (by simp), by
        funext n; fin_cases n <;> simp [NedelecFn.beta], rfl, rfl⟩
    · exact ⟨.face1 x z w 1, mem_face (l := x) (m := z) (n := w) (by omega) (by simp), rfl, rfl, rfl⟩
  · -- 0 3
    have h1 := hb 1 (by decide) (by decide)
    have h2 := hb 2 (by decide) (by decide)
    simp at h1 h2; subst h1; subst h2
    obtain ⟨x, rfl⟩ : ∃ m, x = m + 1 := ⟨x - 1, by omega⟩
    obtain ⟨w, rfl⟩ : ∃ m, w = m + 1 := ⟨w - 1, by omega⟩
    exact ⟨.edge x w 0 3, mem_edge (l := x) (m := w) (by omega) (by simp), by
        funext n; fin_cases n <;> simp [NedelecFn.beta], rfl, rfl⟩
  · -- 1 2
    obtain ⟨y, rfl⟩ : ∃ m, y = m + 1 := ⟨y - 1, by omega⟩
    obtain ⟨z, rfl⟩ : ∃ m, z = m + 1 := ⟨z - 1, by omega⟩
    rcases pair x with rfl | ⟨x, rfl⟩ <;> rcases pair w with rfl | ⟨w, rfl⟩
    · exact ⟨.edge y z 1 2, mem_edge (l := y) (m := z) (by omega) (by simp), by
        funext n; fin_cases n <;> simp [NedelecFn.beta], rfl, rfl⟩
    · exact ⟨.face1 y z w 0, mem_face (l := y) (m := z) (n := w) (by omega) (by simp), rfl, rfl, rfl⟩
    · exact ⟨.face2 x y z 3, mem_face (l := x) (m := y) (n := z) (by omega) (by simp), rfl, rfl, rfl⟩
    · exact ⟨.interior2 x y z w, mem_interior (l := x) (m := y) (n := z) (o := w) (by omega) (by simp), rfl, rfl, rfl⟩
  · -- 1 3
    have h1 := hb 2 (by decide) (by decide)
    simp at h1; subst h1
    obtain ⟨y, rfl⟩ : ∃ m, y = m + 1 := ⟨y - 1, by omega⟩
    obtain ⟨w, rfl⟩ : ∃ m, w = m + 1 := ⟨w - 1, by omega⟩
    rcases pair x with rfl | ⟨x, rfl⟩
    · exact ⟨.edge y w 1 3, mem_edge (l := y) (m := w) (by omega) (by simp), by
        funext n; fin_cases n <;> simp [NedelecFn.beta], rfl, rfl⟩
    · exact ⟨.face2 x y w 2, mem_face (l := x) (m := y) (n := w) (by omega) (by simp), rfl, rfl, rfl⟩
  · -- 2 3
    obtain ⟨z, rfl⟩ : ∃ m, z = m + 1 := ⟨z - 1, by omega⟩
    obtain ⟨w, rfl⟩ : ∃ m, w = m + 1 := ⟨w - 1, by omega⟩
    rcases pair x with rfl | ⟨x, rfl⟩ <;> rcases pair y with rfl | ⟨y, rfl⟩
    · exact ⟨.edge z w 2 3, mem_edge (l := z) (m := w) (by omega) (by simp), by
        funext n; fin_cases n <;> simp [NedelecFn.beta], rfl, rfl⟩
    · exact ⟨.face2 y z w 0, mem_face (l := y) (m := z) (n := w) (by omega) (by simp), rfl, rfl, rfl⟩
    · exact ⟨.face2 x z w 1, mem_face (l := x) (m := z) (n := w) (by omega) (by simp), rfl, rfl, rfl⟩
    · exact ⟨.interior3 x y z w, mem_interior (l := x) (m := y) (n := z) (o := w) (by omega) (by simp), rfl, rfl, rfl⟩

end Verif.CurlBasis
