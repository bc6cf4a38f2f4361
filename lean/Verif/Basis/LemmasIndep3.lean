import Verif.Basis.LemmasIndep2
import Mathlib.Data.Finset.Sum
import Mathlib.Algebra.BigOperators.Group.Finset.Sigma

set_option linter.all false
namespace Verif.Basis
open Verif.RefGeometry
open Verif.Legendre (lobatto lobattoDeriv)
open Finset

theorem not_independent {d : Nat} {F : Type} [DecidableEq F] (G : Geom d) (eval : F → Pt d → ℝ) (S : List F) (hS : S.Nodup)
    (h : ∃ f ∈ S, ∃ g ∈ S, ∃ h ∈ S, f ≠ g ∧ f ≠ h ∧ ∃ a b : ℝ, ∀ p, eval f p = a * eval g p + b * eval h p) :
    ¬ Independent G eval S := by
  obtain ⟨f, hf, g, hg, k, hk, fg, fk, a, b, e⟩ := h
  intro H
  have := H (fun x => (if x = f then 1 else 0) - (if x = g then a else 0) - (if x = k then b else 0)) (by
    intro p _
    rw [← List.sum_toFinset _ hS]
    simp only [sub_mul, sum_sub_distrib, ite_mul, zero_mul, one_mul, sum_ite_eq', List.mem_toFinset, hf, hg, hk, if_true]
    rw [e p]; ring) f hf
  simp [fg, fk] at this

theorem line_independent (o : Nat) (ho : o ≤ 6) : Independent lineG LineFn.eval (lineDG o) := by
  intro c h
  rcases Nat.eq_zero_or_pos o with rfl | hpos
  · intro f hf
    have := h ![0] (by simp [lineG])
    simp [lineDG] at hf
    subst hf
    simpa [lineDG, LineFn.eval] using this
  let g : Nat → LineFn := fun k => match k with
    | 0 => .vertex 0
    | 1 => .vertex 1
    | i + 2 => .interior i
  have hmem : ∀ f ∈ lineDG o, ∃ i ∈ range 7, g i = f := by
    intro f hf
    unfold lineDG at hf
    rw [if_pos hpos] at hf
    simp only [List.mem_append, List.mem_cons, List.not_mem_nil, or_false, List.mem_map, mem_upTo] at hf
    rcases hf with (rfl | rfl) | ⟨i, hi', rfl⟩
    · exact ⟨0, by decide, rfl⟩
    · exact ⟨1, by decide, rfl⟩
    · exact ⟨i + 2, by simp; omega, rfl⟩
  have hinj : Set.InjOn g (range 7) := by
    intro a _ b _ hab
    match a, b with
    | 0, 0 => rfl
    | 0, 1 => simp [g] at hab
    | 0, j + 2 => simp [g] at hab
    | 1, 0 => simp [g] at hab
    | 1, 1 => rfl
    | 1, j + 2 => simp [g] at hab
    | i + 2, 0 => simp [g] at hab
    | i + 2, 1 => simp [g] at hab
    | i + 2, j + 2 => simp [g] at hab; omega
  have key := phi7 (fun i => if g i ∈ lineDG o then c (g i) else 0) (by
    intro x hx
    obtain ⟨h1, h2⟩ := abs_le.mp hx
    have := cover (lineDG o) (line_nodup o) c (fun f => f.eval ![x]) (range 7) g hinj hmem (h ![x] ⟨h1, h2⟩)
    refine Eq.trans ?_ this
    refine sum_congr rfl fun i _ => ?_
    congr 1
    match i with
    | 0 => simp [g, phi, LineFn.eval]; ring
    | 1 => simp [g, phi, LineFn.eval]; norm_num
    | i + 2 =>
      show (1 - x) * (1 + x) * lobatto i x / 4 = _
      simp [g, LineFn.eval]
      left; ring)
  intro f hf
  obtain ⟨i, hi, rfl⟩ := hmem f hf
  simpa [hf] using key i (mem_range.mp hi)

theorem triangle_independent (o : Nat) (ho : o ≤ 6) : Independent triangleG TriangleFn.eval (triangleDG o) := by
  intro c h
  rcases Nat.eq_zero_or_pos o with rfl | hpos
  · intro f hf
    have := h ![0, 0] (by simp [triangleG])
    simp [triangleDG] at hf
    subst hf
    simpa [triangleDG, TriangleFn.eval] using this
  let na : Fin 3 → Fin 3 := ![1, 2, 2]
  let nb : Fin 3 → Fin 3 := ![0, 0, 1]
  let g : Fin 3 ⊕ (Fin 3 × Nat) ⊕ (Nat × Nat) → TriangleFn := fun k => match k with
    | .inl v => .vertex v
    | .inr (.inl (e, j)) => .face (na e) (nb e) j
    | .inr (.inr (i, j)) => .interior i j
  let I : Finset (Fin 3 ⊕ (Fin 3 × Nat) ⊕ (Nat × Nat)) := univ.disjSum ((univ ×ˢ range 5).disjSum (range 5 ×ˢ range 5))
  have hmem : ∀ f ∈ triangleDG o, ∃ i ∈ I, g i = f := by
    intro f hf
    unfold triangleDG at hf
    rw [if_pos hpos] at hf
    simp only [List.mem_append, List.mem_map, List.mem_flatMap, mem_upTo, List.mem_finRange, true_and, List.mem_filter] at hf
    rcases hf with ⟨v, rfl⟩ | ⟨k, hk, (⟨i, j, hij, rfl⟩ | hf)⟩
    · exact ⟨.inl v, by simp [I], rfl⟩
    · have hij : j < i := by simpa using hij
      obtain ⟨e, rfl, rfl⟩ : ∃ e : Fin 3, na e = i ∧ nb e = j := by revert i j; decide
      exact ⟨.inr (.inl (e, k)), by simp [I]; omega, rfl⟩
    · split at hf
      · simp only [List.mem_map, List.mem_range] at hf
        obtain ⟨j, hj, rfl⟩ := hf
        exact ⟨.inr (.inr (k - j, j)), by simp [I]; omega, rfl⟩
      · simp at hf
  have hinj : Function.Injective g := by
    have hn : ∀ e e', na e = na e' → nb e = nb e' → e = e' := by decide
    rintro (a | ⟨a, i⟩ | ⟨a, b⟩) (a' | ⟨a', i'⟩ | ⟨a', b'⟩) h <;> simp [g] at h ⊢
    · exact h
    · exact ⟨hn a a' h.1 h.2.1, h.2.2⟩
    · exact h
  have key := tri_indep nb na (by decide) (by decide) 0 1 2 (by decide)
    (fun v => if g (.inl v) ∈ triangleDG o then c (g (.inl v)) else 0)
    (fun e j => if g (.inr (.inl (e, j))) ∈ triangleDG o then c (g (.inr (.inl (e, j)))) else 0)
    (fun i j => if g (.inr (.inr (i, j))) ∈ triangleDG o then c (g (.inr (.inr (i, j)))) else 0) (by
    rintro w ⟨hw, hs⟩
    rw [Fin.sum_univ_three] at hs
    have h0 := hw 0; have h1 := hw 1; have h2 := hw 2
    have := cover (triangleDG o) (triangle_nodup o) c (fun f => f.eval ![w 1, w 2]) I g hinj.injOn hmem
      (h ![w 1, w 2] (by simp [triangleG]; refine ⟨h1, ?_, h2, ?_⟩ <;> linarith))
    have hb : ∀ k, bary2 k ![w 1, w 2] = w k := by
      intro k
      obtain rfl | rfl | rfl : k = 0 ∨ k = 1 ∨ k = 2 := by revert k; decide
      · simp [bary2]; linarith
      · rfl
      · rfl
    simp only [I, sum_disjSum, sum_product] at this
    refine Eq.trans ?_ this
    rw [add_assoc]
    simp only [g, TriangleFn.eval, hb]
    congr 1
    congr 1
    refine sum_congr rfl fun e _ => sum_congr rfl fun j _ => ?_
    rw [mul_comm (w (nb e)) (w (na e))])
  obtain ⟨k1, k2, k3⟩ := key
  intro f hf
  obtain ⟨i, hi, rfl⟩ := hmem f hf
  rcases i with v | ⟨e, j⟩ | ⟨i, j⟩
  · simpa [hf] using k1 v
  · simpa [hf] using k2 e j (by simpa [I] using hi)
  · simp [I] at hi
    simpa [hf] using k3 i hi.1 j hi.2

theorem square_independent (o : Nat) (ho : o ≤ 6) : Independent squareG SquareFn.eval (squareDG o) := by
  intro c h
  rcases Nat.eq_zero_or_pos o with rfl | hpos
  · intro f hf
    have := h ![0, 0] (by simp [squareG])
    simp [squareDG] at hf
    subst hf
    simpa [squareDG, SquareFn.eval] using this
  let g : Nat × Nat → SquareFn := fun k => match k with
    | (0, 0) => .vertex 0
    | (1, 0) => .vertex 1
    | (0, 1) => .vertex 2
    | (1, 1) => .vertex 3
    | (i + 2, 0) => .face0 0 1 i
    | (i + 2, 1) => .face0 2 3 i
    | (0, j + 2) => .face1 0 2 j
    | (1, j + 2) => .face1 1 3 j
    | (i + 2, j + 2) => .interior i j
  let I : Finset (Nat × Nat) := range 7 ×ˢ range 7
  have hmem : ∀ f ∈ squareDG o, ∃ i ∈ I, g i = f := by
    intro f hf
    unfold squareDG at hf
    rw [if_pos hpos] at hf
    simp only [List.mem_append, List.mem_map, List.mem_flatMap, mem_upTo, List.mem_finRange, true_and, List.mem_cons,
      List.not_mem_nil, or_false] at hf
    rcases hf with ⟨v, rfl⟩ | ⟨k, hk, ((rfl | rfl | rfl | rfl) | ⟨j, hj, rfl⟩)⟩
    · obtain rfl | rfl | rfl | rfl : v = 0 ∨ v = 1 ∨ v = 2 ∨ v = 3 := by revert v; decide
      exacts [⟨(0, 0), by decide, rfl⟩, ⟨(1, 0), by decide, rfl⟩, ⟨(0, 1), by decide, rfl⟩, ⟨(1, 1), by decide, rfl⟩]
    · exact ⟨(k + 2, 0), by simp [I]; omega, rfl⟩
    · exact ⟨(k + 2, 1), by simp [I]; omega, rfl⟩
    · exact ⟨(0, k + 2), by simp [I]; omega, rfl⟩
    · exact ⟨(1, k + 2), by simp [I]; omega, rfl⟩
    · exact ⟨(k + 2, j + 2), by simp [I]; omega, rfl⟩
  have hinj : Function.Injective g := by
    rintro ⟨_ | _ | a, _ | _ | b⟩ ⟨_ | _ | a', _ | _ | b'⟩ hab <;> simp [g] at hab ⊢ <;> omega
  have key := phi77 (fun i j => if g (i, j) ∈ squareDG o then c (g (i, j)) else 0) (by
    intro x y hx hy
    obtain ⟨h1, h2⟩ := abs_le.mp hx
    obtain ⟨h3, h4⟩ := abs_le.mp hy
    have := cover (squareDG o) (square_nodup o) c (fun f => f.eval ![x, y]) I g hinj.injOn hmem (h ![x, y] ⟨h1, h2, h3, h4⟩)
    rw [sum_product] at this
    refine Eq.trans ?_ this
    refine sum_congr rfl fun i _ => sum_congr rfl fun j _ => ?_
    congr 1
    rcases i with _ | _ | i <;> rcases j with _ | _ | j <;>
      simp [g, phi, SquareFn.eval, squareEdgePosition, mirror', pos0, pos1] <;> norm_num <;> ring)
  intro f hf
  obtain ⟨⟨i, j⟩, hi, rfl⟩ := hmem f hf
  simp [I] at hi
  simpa [hf] using key i hi.1 j hi.2

theorem tet_independent (o : Nat) (ho : o ≤ 6) : Independent tetrahedronG TetFn.eval (tetDG o) := by
  intro c h
  rcases Nat.eq_zero_or_pos o with rfl | hpos
  · intro f hf
    have := h ![0, 0, 0] (by simp [tetrahedronG])
    simp [tetDG] at hf
    subst hf
    simpa [tetDG, TetFn.eval] using this
  let ea : Fin 6 → Fin 4 := ![0, 0, 0, 2, 1, 1]
  let eb : Fin 6 → Fin 4 := ![1, 2, 3, 3, 3, 2]
  let fa : Fin 4 → Fin 4 := ![0, 0, 0, 1]
  let fb : Fin 4 → Fin 4 := ![3, 1, 2, 2]
  let fc : Fin 4 → Fin 4 := ![2, 3, 1, 3]
  let g : Fin 4 ⊕ (Fin 6 × Nat) ⊕ (Fin 4 × Nat × Nat) ⊕ (Nat × Nat × Nat) → TetFn := fun k => match k with
    | .inl v => .vertex v
    | .inr (.inl (e, j)) => .edge (ea e) (eb e) j
    | .inr (.inr (.inl (e, i, j))) => .face (fa e) (fb e) (fc e) i j
    | .inr (.inr (.inr (i, j, k))) => .interior i j k
  let I : Finset (Fin 4 ⊕ (Fin 6 × Nat) ⊕ (Fin 4 × Nat × Nat) ⊕ (Nat × Nat × Nat)) :=
    univ.disjSum ((univ ×ˢ range 5).disjSum ((univ ×ˢ range 5 ×ˢ range 5).disjSum (range 5 ×ˢ range 5 ×ˢ range 5)))
  have hmem : ∀ f ∈ tetDG o, ∃ i ∈ I, g i = f := by
    intro f hf
    unfold tetDG at hf
    rw [if_pos hpos] at hf
    simp only [List.mem_append, List.mem_map, List.mem_flatMap, mem_upTo, List.mem_finRange, true_and] at hf
    rcases hf with ⟨v, rfl⟩ | ⟨k, hk, ((⟨⟨a, b⟩, hab, rfl⟩ | hf) | hf)⟩
    · exact ⟨.inl v, by simp [I], rfl⟩
    · obtain ⟨e, rfl, rfl⟩ : ∃ e : Fin 6, ea e = a ∧ eb e = b := by revert a b; decide
      exact ⟨.inr (.inl (e, k)), by simp [I]; omega, rfl⟩
    · split at hf
      · simp only [List.mem_flatMap, List.mem_map, mem_upTo] at hf
        obtain ⟨⟨a, b, c⟩, habc, j, hj, rfl⟩ := hf
        obtain ⟨e, rfl, rfl, rfl⟩ : ∃ e : Fin 4, fa e = a ∧ fb e = b ∧ fc e = c := by revert a b c; decide
        exact ⟨.inr (.inr (.inl (e, k - j - 1, j))), by simp [I]; omega, rfl⟩
      · simp at hf
    · split at hf
      · simp only [List.mem_flatMap, List.mem_map, mem_upTo] at hf
        obtain ⟨i, hi, j, hj, rfl⟩ := hf
        exact ⟨.inr (.inr (.inr (i, k - i - j - 2, j))), by simp [I]; omega, rfl⟩
      · simp at hf
  have hinj : Function.Injective g := by
    have hn : ∀ e e', ea e = ea e' → eb e = eb e' → e = e' := by decide
    have hn' : ∀ e e', fa e = fa e' → fb e = fb e' → fc e = fc e' → e = e' := by decide
    rintro (a | ⟨a, i⟩ | ⟨a, i, j⟩ | ⟨a, b, i⟩) (a' | ⟨a', i'⟩ | ⟨a', i', j'⟩ | ⟨a', b', i'⟩) h <;> simp [g] at h ⊢
    · exact h
    · exact ⟨hn a a' h.1 h.2.1, h.2.2⟩
    · exact ⟨hn' a a' h.1 h.2.1 h.2.2.1, h.2.2.2⟩
    · exact h
  have key := tet_indep ea eb (by decide) (by decide) fa fb fc (by decide) (by decide)
    (fun v => if g (.inl v) ∈ tetDG o then c (g (.inl v)) else 0)
    (fun e j => if g (.inr (.inl (e, j))) ∈ tetDG o then c (g (.inr (.inl (e, j)))) else 0)
    (fun e i j => if g (.inr (.inr (.inl (e, i, j)))) ∈ tetDG o then c (g (.inr (.inr (.inl (e, i, j))))) else 0)
    (fun i j k => if g (.inr (.inr (.inr (i, j, k)))) ∈ tetDG o then c (g (.inr (.inr (.inr (i, j, k))))) else 0) (by
    rintro w ⟨hw, hs⟩
    rw [Fin.sum_univ_four] at hs
    have h0 := hw 0; have h1 := hw 1; have h2 := hw 2; have h3 := hw 3
    have := cover (tetDG o) (tet_nodup o) c (fun f => f.eval ![w 1, w 2, w 3]) I g hinj.injOn hmem
      (h ![w 1, w 2, w 3] (by simp [tetrahedronG]; refine ⟨h1, ?_, h2, ?_, h3, ?_⟩ <;> linarith))
    have hb : ∀ k, bary3 k ![w 1, w 2, w 3] = w k := by
      intro k
      obtain rfl | rfl | rfl | rfl : k = 0 ∨ k = 1 ∨ k = 2 ∨ k = 3 := by revert k; decide
      · simp [bary3]; linarith
      · rfl
      · rfl
      · rfl
    simp only [I, sum_disjSum, sum_product] at this
    refine Eq.trans ?_ this
    rw [add_assoc]
    simp only [g, TetFn.eval, hb])
  obtain ⟨k1, k2, k3, k4⟩ := key
  intro f hf
  obtain ⟨i, hi, rfl⟩ := hmem f hf
  rcases i with v | ⟨e, j⟩ | ⟨e, i, j⟩ | ⟨i, j, k⟩
  · simpa [hf] using k1 v
  · simpa [hf] using k2 e j (by simpa [I] using hi)
  · simp [I] at hi
    simpa [hf] using k3 e i hi.1 j hi.2
  · simp [I] at hi
    simpa [hf] using k4 i hi.1 j hi.2.1 k hi.2.2

def cubeAt : Nat × Nat × Nat → CubeFn
  | (0, 0, 0) => .vertex 0
  | (1, 0, 0) => .vertex 1
  | (0, 1, 0) => .vertex 2
  | (1, 1, 0) => .vertex 3
  | (0, 0, 1) => .vertex 4
  | (1, 0, 1) => .vertex 5
  | (0, 1, 1) => .vertex 6
  | (1, 1, 1) => .vertex 7
  | (i + 2, 0, 0) => .edge0 0 1 i
  | (i + 2, 1, 0) => .edge0 2 3 i
  | (i + 2, 0, 1) => .edge0 4 5 i
  | (i + 2, 1, 1) => .edge0 6 7 i
  | (0, i + 2, 0) => .edge1 0 2 i
  | (1, i + 2, 0) => .edge1 1 3 i
  | (0, i + 2, 1) => .edge1 4 6 i
  | (1, i + 2, 1) => .edge1 5 7 i
  | (0, 0, i + 2) => .edge2 0 4 i
  | (1, 0, i + 2) => .edge2 1 5 i
  | (0, 1, i + 2) => .edge2 2 6 i
  | (1, 1, i + 2) => .edge2 3 7 i
  | (i + 2, j + 2, 0) => .face2 0 1 2 i j
  | (i + 2, j + 2, 1) => .face2 4 5 6 i j
  | (i + 2, 0, j + 2) => .face1 0 1 4 i j
  | (i + 2, 1, j + 2) => .face1 2 3 6 i j
  | (0, i + 2, j + 2) => .face0 0 2 4 i j
  | (1, i + 2, j + 2) => .face0 1 3 5 i j
  | (i + 2, j + 2, k + 2) => .interior i j k

theorem cube_eval (x y z : ℝ) (i j k : Nat) : phi i x * phi j y * phi k z = (cubeAt (i, j, k)).eval ![x, y, z] := by
  rcases i with _ | _ | i <;> rcases j with _ | _ | j <;> rcases k with _ | _ | k <;>
    simp [cubeAt, phi, CubeFn.eval, mirror, pos0, pos1, pos2] <;> norm_num <;> ring

theorem cube_independent (o : Nat) (ho : o ≤ 6) : Independent cubeG CubeFn.eval (cubeDG o) := by
  intro c h
  rcases Nat.eq_zero_or_pos o with rfl | hpos
  · intro f hf
    have := h ![0, 0, 0] (by simp [cubeG])
    simp [cubeDG] at hf
    subst hf
    simpa [cubeDG, CubeFn.eval] using this
  let g : Nat × Nat × Nat → CubeFn := cubeAt
  let I : Finset (Nat × Nat × Nat) := range 7 ×ˢ range 7 ×ˢ range 7
  let q : CubeFn → Nat × Nat × Nat := fun f => match f with
    | .constant => (0, 0, 0)
    | .vertex n => (n.val % 2, n.val / 2 % 2, n.val / 4)
    | .edge0 a _ i => (i + 2, a.val / 2 % 2, a.val / 4)
    | .edge1 a _ i => (a.val % 2, i + 2, a.val / 4)
    | .edge2 a _ i => (a.val % 2, a.val / 2 % 2, i + 2)
    | .face0 a _ _ i j => (a.val % 2, i + 2, j + 2)
    | .face1 a _ _ i j => (i + 2, a.val / 2 % 2, j + 2)
    | .face2 a _ _ i j => (i + 2, j + 2, a.val / 4)
    | .interior i j k => (i + 2, j + 2, k + 2)
  have hmem : ∀ f ∈ cubeDG o, ∃ i ∈ I, g i = f := by
    intro f hf
    have hI : ∀ a b c, a < 7 → b < 7 → c < 7 → (a, b, c) ∈ I := by
      intro a b c h1 h2 h3
      exact mem_product.2 ⟨mem_range.2 h1, mem_product.2 ⟨mem_range.2 h2, mem_range.2 h3⟩⟩
    unfold cubeDG at hf
    rw [if_pos hpos] at hf
    simp only [List.mem_append, List.mem_map, List.mem_flatMap, mem_upTo, List.mem_finRange, true_and, List.mem_cons,
      List.not_mem_nil, or_false, List.mem_range, cubeEdgeNodes0, cubeEdgeNodes1, cubeEdgeNodes2, exists_eq_or_imp,
      exists_eq_left] at hf
    refine ⟨q f, ?_⟩
    clear_value I
    rcases hf with ⟨v, rfl⟩ | ⟨k, hk, hf⟩
    · obtain rfl | rfl | rfl | rfl | rfl | rfl | rfl | rfl : v = 0 ∨ v = 1 ∨ v = 2 ∨ v = 3 ∨ v = 4 ∨ v = 5 ∨ v = 6 ∨ v = 7 := by
        clear_value g q
        clear h hI
        revert v; decide
      all_goals exact ⟨hI _ _ _ (by decide) (by decide) (by decide), rfl⟩
    · have k7 : k + 2 < 7 := by omega
      rcases hf with hf | ⟨i, hi, hf | ⟨l, hl, hf⟩⟩
      · casesm* _ ∨ _
        all_goals subst_vars
        all_goals exact ⟨hI _ _ _ (by first | assumption | decide) (by first | assumption | decide) (by first | assumption | decide), rfl⟩
      · have i7 : i + 2 < 7 := by omega
        casesm* _ ∨ _
        all_goals subst_vars
        all_goals exact ⟨hI _ _ _ (by first | assumption | decide) (by first | assumption | decide) (by first | assumption | decide), rfl⟩
      · have i7 : i + 2 < 7 := by omega
        have l7 : l + 2 < 7 := by omega
        casesm* _ ∨ _
        all_goals subst_vars
        all_goals exact ⟨hI _ _ _ (by first | assumption | decide) (by first | assumption | decide) (by first | assumption | decide), rfl⟩
  have hinj : Function.Injective g := by
    refine Function.LeftInverse.injective (g := q) ?_
    rintro ⟨_ | _ | a, _ | _ | b, _ | _ | c⟩ <;> rfl
  have key := phi777 (fun i j k => if g (i, j, k) ∈ cubeDG o then c (g (i, j, k)) else 0) (by
    intro x y z hx hy hz
    obtain ⟨h1, h2⟩ := abs_le.mp hx
    obtain ⟨h3, h4⟩ := abs_le.mp hy
    obtain ⟨h5, h6⟩ := abs_le.mp hz
    have := cover (cubeDG o) (cube_nodup o) c (fun f => f.eval ![x, y, z]) I g hinj.injOn hmem
      (h ![x, y, z] ⟨h1, h2, h3, h4, h5, h6⟩)
    simp only [I, sum_product] at this
    refine Eq.trans ?_ this
    refine sum_congr rfl fun i _ => sum_congr rfl fun j _ => sum_congr rfl fun k _ => ?_
    congr 1
    exact cube_eval x y z i j k)
  intro f hf
  obtain ⟨⟨i, j, k⟩, hi, rfl⟩ := hmem f hf
  simp [I] at hi
  simpa [hf] using key i hi.1 j hi.2.1 k hi.2.2

abbrev TriIx := Fin 3 ⊕ (Fin 3 × Nat) ⊕ (Nat × Nat)

def triIx : Finset TriIx := univ.disjSum ((univ ×ˢ range 5).disjSum (range 5 ×ˢ range 5))

def lowNode : Fin 3 → Fin 6 := ![0, 1, 2]
def upNode : Fin 3 → Fin 6 := ![3, 4, 5]
def e1 : Fin 3 → Fin 3 := ![0, 0, 1]
def e2 : Fin 3 → Fin 3 := ![1, 2, 2]
def s1 : Fin 3 → Fin 3 := ![2, 0, 1]
def s2 : Fin 3 → Fin 3 := ![0, 1, 2]

def prismAt : TriIx ⊕ TriIx ⊕ (Nat × TriIx) → PrismFn
  | .inl (.inl v) => .vertex (lowNode v)
  | .inl (.inr (.inl (e, j))) => .edge0 (lowNode (e1 e)) (lowNode (e2 e)) j
  | .inl (.inr (.inr (i, j))) => .face0 0 2 1 i j
  | .inr (.inl (.inl v)) => .vertex (upNode v)
  | .inr (.inl (.inr (.inl (e, j)))) => .edge0 (upNode (e1 e)) (upNode (e2 e)) j
  | .inr (.inl (.inr (.inr (i, j)))) => .face0 3 4 5 i j
  | .inr (.inr (m, .inl v)) => .edge1 (lowNode v) (upNode v) m
  | .inr (.inr (m, .inr (.inl (e, j)))) => .face1 (lowNode (s1 e)) (lowNode (s2 e)) (upNode (s1 e)) m j
  | .inr (.inr (m, .inr (.inr (i, j)))) => .interior i j m

theorem prismAt_inj : Function.Injective prismAt := by
  have h1 : ∀ a b, lowNode a = lowNode b → a = b := by decide
  have h2 : ∀ a b, upNode a = upNode b → a = b := by decide
  have h3 : ∀ a b, lowNode a ≠ upNode b := by decide
  have h3' : ∀ a b, upNode a ≠ lowNode b := by decide
  have h4 : ∀ a b, e1 a = e1 b → e2 a = e2 b → a = b := by decide
  have h5 : ∀ a b, s1 a = s1 b → a = b := by decide
  rintro ((a | ⟨a, i⟩ | ⟨a, b⟩) | (a | ⟨a, i⟩ | ⟨a, b⟩) | ⟨m, (a | ⟨a, i⟩ | ⟨a, b⟩)⟩)
    ((a' | ⟨a', i'⟩ | ⟨a', b'⟩) | (a' | ⟨a', i'⟩ | ⟨a', b'⟩) | ⟨m', (a' | ⟨a', i'⟩ | ⟨a', b'⟩)⟩) h <;>
    simp only [prismAt, PrismFn.vertex.injEq, PrismFn.edge0.injEq, PrismFn.edge1.injEq, PrismFn.face0.injEq,
      PrismFn.face1.injEq, PrismFn.interior.injEq, reduceCtorEq, true_and, h3, h3', false_and] at h
  · rw [h1 _ _ h]
  · obtain ⟨x, y, rfl⟩ := h
    rw [h4 _ _ (h1 _ _ x) (h1 _ _ y)]
  · obtain ⟨rfl, rfl⟩ := h; rfl
  · exact absurd h.1 (by decide)
  · rw [h2 _ _ h]
  · obtain ⟨x, y, rfl⟩ := h
    rw [h4 _ _ (h2 _ _ x) (h2 _ _ y)]
  · exact absurd h.1 (by decide)
  · obtain ⟨rfl, rfl⟩ := h; rfl
  · obtain ⟨x, y, rfl⟩ := h
    rw [h1 _ _ x]
  · obtain ⟨x, y, z, rfl, rfl⟩ := h
    rw [h5 _ _ (h1 _ _ x)]
  · obtain ⟨rfl, rfl, rfl⟩ := h; rfl

theorem prism_covered (o : Nat) (hpos : o > 0) (ho : o ≤ 6) (f : PrismFn) (hf : f ∈ prismDG o) :
    ∃ i ∈ triIx.disjSum (triIx.disjSum (range 5 ×ˢ triIx)), prismAt i = f := by
  unfold prismDG at hf
  rw [if_pos hpos] at hf
  simp only [List.mem_append, List.mem_map, List.mem_flatMap, mem_upTo, List.mem_finRange, true_and, List.mem_range,
    List.mem_cons, List.not_mem_nil, or_false] at hf
  rcases hf with ⟨v, rfl⟩ | ⟨k, hk, ((((⟨⟨a, b⟩, hab, rfl⟩ | ⟨⟨a, b⟩, hab, rfl⟩) | ⟨⟨a, b, c⟩, habc, l, hl, rfl⟩) |
      ⟨⟨a, b, c, d⟩, habc, hf⟩) | ⟨i, hi, l, hl, hf⟩)⟩
  · obtain ⟨w, hw⟩ : ∃ w, lowNode w = v ∨ upNode w = v := by revert v; decide
    rcases hw with rfl | rfl
    · exact ⟨.inl (.inl w), by simp [triIx], rfl⟩
    · exact ⟨.inr (.inl (.inl w)), by simp [triIx], rfl⟩
  · obtain ⟨e, he⟩ : ∃ e, (lowNode (e1 e) = a ∧ lowNode (e2 e) = b) ∨ (upNode (e1 e) = a ∧ upNode (e2 e) = b) := by
      revert a b; decide
    rcases he with ⟨rfl, rfl⟩ | ⟨rfl, rfl⟩
    · exact ⟨.inl (.inr (.inl (e, k))), by simp [triIx]; omega, rfl⟩
    · exact ⟨.inr (.inl (.inr (.inl (e, k)))), by simp [triIx]; omega, rfl⟩
  · obtain ⟨w, rfl, rfl⟩ : ∃ w, lowNode w = a ∧ upNode w = b := by revert a b; decide
    exact ⟨.inr (.inr (k, .inl w)), by simp [triIx]; omega, rfl⟩
  · simp only [prismTriFaceNodes, List.mem_cons, List.not_mem_nil, or_false, Prod.mk.injEq] at habc
    rcases habc with ⟨rfl, rfl, rfl⟩ | ⟨rfl, rfl, rfl⟩
    · exact ⟨.inl (.inr (.inr (k - l - 1, l))), by simp [triIx]; omega, rfl⟩
    · exact ⟨.inr (.inl (.inr (.inr (k - l - 1, l)))), by simp [triIx]; omega, rfl⟩
  · obtain ⟨e, rfl, rfl, rfl⟩ : ∃ e, lowNode (s1 e) = a ∧ lowNode (s2 e) = b ∧ upNode (s1 e) = c := by
      clear hf; revert a b c d; decide
    rcases hf with rfl | ⟨l, hl, rfl | rfl⟩
    · exact ⟨.inr (.inr (k, .inr (.inl (e, k)))), by simp [triIx]; omega, rfl⟩
    · exact ⟨.inr (.inr (k, .inr (.inl (e, l)))), by simp [triIx]; omega, rfl⟩
    · exact ⟨.inr (.inr (l, .inr (.inl (e, k)))), by simp [triIx]; omega, rfl⟩
  · rcases hf with rfl | rfl | rfl
    · exact ⟨.inr (.inr (l, .inr (.inr (i, k)))), by simp [triIx]; omega, rfl⟩
    · exact ⟨.inr (.inr (l, .inr (.inr (k, i)))), by simp [triIx]; omega, rfl⟩
    · exact ⟨.inr (.inr (k, .inr (.inr (i, l)))), by simp [triIx]; omega, rfl⟩

noncomputable def triFn (ea eb : Fin 3 → Fin 3) (a b c : Fin 3) (w : Fin 3 → ℝ) : TriIx → ℝ
  | .inl v => w v
  | .inr (.inl (e, j)) => w (ea e) * w (eb e) * lobatto j (w (ea e) - w (eb e))
  | .inr (.inr (i, j)) => w a * w b * w c * lobatto i (w a - w b) * lobatto j (w b - w c)

theorem triFn_indep (ea eb : Fin 3 → Fin 3) (hab : ∀ e, ea e ≠ eb e)
    (hd : ∀ e e', e ≠ e' → (ea e' ≠ ea e ∧ ea e' ≠ eb e) ∨ (eb e' ≠ ea e ∧ eb e' ≠ eb e))
    (a b c : Fin 3) (hn : a ≠ b ∧ a ≠ c ∧ b ≠ c) (k : TriIx → ℝ)
    (h : ∀ w, Bary w → ∑ y ∈ triIx, k y * triFn ea eb a b c w y = 0) : ∀ y ∈ triIx, k y = 0 := by
  obtain ⟨k1, k2, k3⟩ := tri_indep ea eb hab hd a b c hn (fun v => k (.inl v)) (fun e j => k (.inr (.inl (e, j))))
    (fun i j => k (.inr (.inr (i, j)))) (by
      intro w hw
      refine Eq.trans ?_ (h w hw)
      simp only [triIx, sum_disjSum, sum_product, triFn]
      rw [add_assoc])
  rintro (v | ⟨e, j⟩ | ⟨i, j⟩) hy
  · exact k1 v
  · exact k2 e j (by simpa [triIx] using hy)
  · simp [triIx] at hy
    exact k3 i hy.1 j hy.2

theorem prism_independent (o : Nat) (ho : o ≤ 6) : Independent prismG PrismFn.eval (prismDG o) := by
  intro c h
  rcases Nat.eq_zero_or_pos o with rfl | hpos
  · intro f hf
    have := h ![0, 0, 0] (by simp [prismG])
    simp [prismDG] at hf
    subst hf
    simpa [prismDG, PrismFn.eval] using this
  have hs : ∀ m, ∃ s : ℝ, s ≠ 0 ∧ (m < 5 → ∀ x, lobatto m (-x) = s * lobatto m x) := by
    intro m
    by_cases hm : m < 5
    · obtain ⟨s, h1, h2⟩ := lob_neg m hm
      exact ⟨s, h1, fun _ => h2⟩
    · exact ⟨1, one_ne_zero, fun h => absurd h hm⟩
  choose s hs0 hs using hs
  let k : TriIx ⊕ TriIx ⊕ (Nat × TriIx) → ℝ := fun i => if prismAt i ∈ prismDG o then c (prismAt i) else 0
  let kz : Nat → TriIx → ℝ := fun m y => match y with
    | .inr (.inr (i, j)) => k (.inr (.inr (m, .inr (.inr (i, j))))) * s m
    | y => k (.inr (.inr (m, y)))
  have main : ∀ w, Bary w → ∀ z : ℝ, -1 ≤ z → z ≤ 1 →
      (1 - z) / 2 * ∑ y ∈ triIx, k (.inl y) * triFn e1 e2 0 2 1 w y +
      ((1 + z) / 2 * ∑ y ∈ triIx, k (.inr (.inl y)) * triFn e1 e2 0 1 2 w y +
      ∑ m ∈ range 5, ((1 - z) * (1 + z) / 4 * lobatto m (-z)) * ∑ y ∈ triIx, kz m y * triFn s1 s2 0 1 2 w y) = 0 := by
    rintro w ⟨hw, hsum⟩ z hz1 hz2
    rw [Fin.sum_univ_three] at hsum
    have h0 := hw 0; have h1 := hw 1; have h2 := hw 2
    have := cover (prismDG o) (prism_nodup o) c (fun f => f.eval ![w 1, w 2, z]) _ prismAt prismAt_inj.injOn
      (prism_covered o hpos ho) (h ![w 1, w 2, z] (by
        simp [prismG]; refine ⟨hz1, hz2, h1, ?_, h2, ?_⟩ <;> linarith))
    have hb : ∀ k, baryP k ![w 1, w 2, z] = w k := by
      intro k
      obtain rfl | rfl | rfl : k = 0 ∨ k = 1 ∨ k = 2 := by clear * -; revert k; decide
      · simp [baryP, bary2]; linarith
      · rfl
      · rfl
    have tl : ∀ v, triNode (lowNode v) = v := by decide
    have tu : ∀ v, triNode (upNode v) = v := by decide
    have pl : ∀ v, posP (lowNode v) = -1 := by
      intro v
      obtain rfl | rfl | rfl : v = 0 ∨ v = 1 ∨ v = 2 := by clear * -; revert v; decide
      all_goals simp [posP, lowNode]
    have pu : ∀ v, posP (upNode v) = 1 := by
      intro v
      obtain rfl | rfl | rfl : v = 0 ∨ v = 1 ∨ v = 2 := by clear * -; revert v; decide
      all_goals simp [posP, upNode]; norm_num
    have mp : ∀ v, mirrorP (lowNode v) (upNode v) = -1 := by
      intro v
      have : lowNode v < upNode v := by revert v; decide
      rw [mirrorP, if_pos this]
    have ns : ∀ e, s2 e ≠ s1 e := by decide
    rw [sum_disjSum, sum_disjSum, sum_product] at this
    refine Eq.trans ?_ this
    refine congrArg₂ _ ?_ (congrArg₂ _ ?_ ?_)
    · rw [mul_sum]
      refine sum_congr rfl fun y _ => ?_
      rcases y with v | ⟨e, j⟩ | ⟨i, j⟩
      · simp only [k, triFn, prismAt, PrismFn.eval, tl, pl, hb]
        simp; ring
      · simp only [k, triFn, prismAt, PrismFn.eval, tl, pl, hb]
        simp; ring
      · have := pl 0; have t1 := tl 0; have t2 := tl 2; have t3 := tl 1
        simp only [lowNode, Matrix.cons_val] at this t1 t2 t3
        simp only [k, triFn, prismAt, PrismFn.eval, this, t1, t2, t3, hb]
        simp; ring
    · rw [mul_sum]
      refine sum_congr rfl fun y _ => ?_
      rcases y with v | ⟨e, j⟩ | ⟨i, j⟩
      · simp only [k, triFn, prismAt, PrismFn.eval, tu, pu, hb]
        simp; ring
      · simp only [k, triFn, prismAt, PrismFn.eval, tu, pu, hb]
        simp; ring
      · have := pu 0; have t1 := tu 0; have t2 := tu 2; have t3 := tu 1
        simp only [upNode, Matrix.cons_val] at this t1 t2 t3
        simp only [k, triFn, prismAt, PrismFn.eval, this, t1, t2, t3, hb]
        simp; ring
    · refine sum_congr rfl fun m hm => ?_
      rw [mul_sum]
      refine sum_congr rfl fun y _ => ?_
      rcases y with v | ⟨e, j⟩ | ⟨i, j⟩
      · simp only [kz, k, triFn, prismAt, PrismFn.eval, tl, mp, hb]
        simp; ring
      · simp only [kz, k, triFn, prismAt, PrismFn.eval, mkFace1, tl, mp, hb, if_neg (ns e)]
        simp; ring
      · have := hs m (mem_range.1 hm) (-z)
        rw [neg_neg] at this
        simp only [kz, k, triFn, prismAt, PrismFn.eval, hb]
        simp [this]; ring
  have low : ∀ y ∈ triIx, k (.inl y) = 0 :=
    triFn_indep e1 e2 (by decide) (by decide) 0 2 1 (by decide) _ (fun w hw => by
      have := main w hw (-1) (by norm_num) (by norm_num)
      simpa using this)
  have up : ∀ y ∈ triIx, k (.inr (.inl y)) = 0 :=
    triFn_indep e1 e2 (by decide) (by decide) 0 1 2 (by decide) (fun y => k (.inr (.inl y))) (fun w hw => by
      have := main w hw 1 (by norm_num) (by norm_num)
      simpa using this)
  have side : ∀ m < 5, ∀ y ∈ triIx, kz m y = 0 := by
    intro m hm
    refine triFn_indep s1 s2 (by decide) (by decide) 0 1 2 (by decide) (kz m) (fun w hw => ?_)
    refine lob5' (fun m => ∑ y ∈ triIx, kz m y * triFn s1 s2 0 1 2 w y) (fun x hx => ?_) m hm
    obtain ⟨h1, h2⟩ := abs_le.mp hx
    refine ⟨(1 - -x) * (1 + -x) / 4, ?_, ?_⟩
    · have a1 : (0 : ℝ) < 1 - -x := by linarith
      have a2 : (0 : ℝ) < 1 + -x := by linarith
      positivity
    · have := main w hw (-x) (by linarith) (by linarith)
      rw [sum_eq_zero (fun y hy => by rw [low y hy, zero_mul]), sum_eq_zero (fun y hy => by rw [up y hy, zero_mul]),
        mul_zero, mul_zero, zero_add, zero_add, neg_neg] at this
      refine Eq.trans (sum_congr rfl fun i _ => ?_) this
      ring
  intro f hf
  obtain ⟨i, hi, rfl⟩ := prism_covered o hpos ho f hf
  rcases i with y | y | ⟨m, y⟩
  · have := low y (by simpa using hi)
    simpa [k, hf] using this
  · have := up y (by simpa using hi)
    simpa [k, hf] using this
  · simp only [inr_mem_disjSum, mem_product, mem_range] at hi
    have := side m hi.1 y hi.2
    rcases y with v | ⟨e, j⟩ | ⟨i, j⟩
    · simpa [kz, k, hf] using this
    · simpa [kz, k, hf] using this
    · simpa [kz, k, hf, hs0 m] using this

end Verif.Basis
