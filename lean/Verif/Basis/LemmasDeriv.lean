import Verif.Basis.Model
import Verif.Legendre.Props
import Mathlib.Analysis.Calculus.Deriv.Mul
import Mathlib.Analysis.Calculus.Deriv.Inv
import Mathlib.Analysis.Calculus.Deriv.Comp
import Mathlib.Analysis.Calculus.Deriv.Pow
import Mathlib.Algebra.BigOperators.Fin
import Mathlib.Tactic.FinCases
import Mathlib.Tactic.LinearCombination
import Mathlib.Tactic.FieldSimp

set_option linter.all false

/-! Proof that the derivative functions are derivatives. -/
namespace Verif.Basis
open Verif.RefGeometry (Pt)
open Verif.Legendre (lobatto lobattoDeriv)

theorem lob_comp {n : Nat} {g : ℝ → ℝ} {g' t x d : ℝ} (h : lobattoDeriv n x = some d)
    (hx : g t = x) (hg : HasDerivAt g g' t) :
    HasDerivAt (fun t => lobatto n (g t)) (d * g') t := by
  subst hx
  have hn : n < 4 := by
    by_contra hn
    have := (Verif.Legendre.lobattoDeriv_is_derivative n (g t)).2 (by omega)
    simp [this] at h
  obtain ⟨v, hv, hd⟩ := (Verif.Legendre.lobattoDeriv_is_derivative n (g t)).1 hn
  obtain rfl : v = d := by simpa [hv] using h
  exact hd.comp t hg

theorem upd_any {d : Nat} (p : Pt d) (k i : Fin d) :
    HasDerivAt (fun t => Function.update p k t i) (if i = k then 1 else 0) (p k) := by
  split_ifs with h
  · subst h; simp only [Function.update_self]; exact hasDerivAt_id' _
  · simp only [Function.update_of_ne h]
    exact hasDerivAt_const _ _

/-- Differentiates an expression by rules. -/
macro "hd" : tactic => `(tactic| repeat' first
  | exact hasDerivAt_const _ _
  | exact hasDerivAt_id' _
  | exact upd_any _ _ _
  | apply HasDerivAt.fun_add
  | apply HasDerivAt.fun_sub
  | apply HasDerivAt.fun_mul
  | apply HasDerivAt.fun_neg
  | apply HasDerivAt.div_const)

theorem bary2_deriv (node : Fin 3) (p : Pt 2) (k : Fin 2) :
    HasDerivAt (fun t => bary2 node (Function.update p k t)) (baryDeriv node k) (p k) := by
  fin_cases node <;> simp only [bary2]
  all_goals
    apply HasDerivAt.congr_deriv
    · hd
    · fin_cases k <;> simp [baryDeriv]

theorem bary3_deriv (node : Fin 4) (p : Pt 3) (k : Fin 3) :
    HasDerivAt (fun t => bary3 node (Function.update p k t)) (baryDeriv node k) (p k) := by
  fin_cases node <;> simp only [bary3]
  all_goals
    apply HasDerivAt.congr_deriv
    · hd
    · fin_cases k <;> simp [baryDeriv]

theorem baryP_deriv0 (node : Fin 3) (p : Pt 3) :
    HasDerivAt (fun t => baryP node (Function.update p 0 t)) (baryDeriv node 0) (p 0) := by
  have h := bary2_deriv node ![p 0, p 1] 0
  refine (h.congr_deriv (by simp)).congr_of_eventuallyEq (Filter.Eventually.of_forall fun t => ?_)
  simp only [baryP]
  congr 1
  ext i
  fin_cases i <;> simp

theorem baryP_deriv1 (node : Fin 3) (p : Pt 3) :
    HasDerivAt (fun t => baryP node (Function.update p 1 t)) (baryDeriv node 1) (p 1) := by
  have h := bary2_deriv node ![p 0, p 1] 1
  refine (h.congr_deriv (by simp)).congr_of_eventuallyEq (Filter.Eventually.of_forall fun t => ?_)
  simp only [baryP]
  congr 1
  ext i
  fin_cases i <;> simp

theorem baryP_upd2 (node : Fin 3) (p : Pt 3) (t : ℝ) :
    baryP node (Function.update p 2 t) = baryP node p := by
  simp [baryP]

macro "hdl" : tactic => `(tactic| repeat' first
  | exact hasDerivAt_const _ _
  | exact hasDerivAt_id' _
  | exact bary2_deriv _ _ _
  | exact bary3_deriv _ _ _
  | exact baryP_deriv0 _ _
  | exact baryP_deriv1 _ _
  | exact upd_any _ _ _
  | apply HasDerivAt.fun_add
  | apply HasDerivAt.fun_sub
  | apply HasDerivAt.fun_mul
  | apply HasDerivAt.fun_neg
  | apply HasDerivAt.div_const
  | apply lob_comp (by assumption) (by simp))

theorem bind_some {α β : Type} {o : Option α} {f : α → Option β} {b : β} :
    (o >>= f) = some b ↔ ∃ a, o = some a ∧ f a = some b := Option.bind_eq_some_iff

theorem line_deriv (f : LineFn) (k : Fin 1) (p : Pt 1) (v : ℝ) (h : f.evalDeriv k p = some v) :
    HasDerivAt (fun t => f.eval (Function.update p k t)) v (p k) := by
  obtain rfl : k = 0 := Subsingleton.elim _ _
  rcases f with _ | n | n
  · obtain rfl : 0 = v := by simpa [LineFn.evalDeriv] using h
    exact hasDerivAt_const _ _
  · simp only [LineFn.evalDeriv, Option.some.injEq] at h
    subst h
    simp only [LineFn.eval]
    apply HasDerivAt.congr_deriv
    · hdl
    · simp; ring
  · simp only [LineFn.evalDeriv, bind_some, Option.pure_def, Option.some.injEq] at h
    obtain ⟨d, h0, rfl⟩ := h
    simp only [LineFn.eval]
    apply HasDerivAt.congr_deriv
    · hdl
    · simp; ring

theorem triangle_deriv (f : TriangleFn) (k : Fin 2) (p : Pt 2) (v : ℝ)
    (h : f.evalDeriv k p = some v) :
    HasDerivAt (fun t => f.eval (Function.update p k t)) v (p k) := by
  rcases f with _ | n | ⟨a, b, n⟩ | ⟨m, n⟩
  · obtain rfl : 0 = v := by simpa [TriangleFn.evalDeriv] using h
    exact hasDerivAt_const _ _
  · simp only [TriangleFn.evalDeriv, Option.some.injEq] at h
    subst h
    exact bary2_deriv _ _ _
  · simp only [TriangleFn.evalDeriv, bind_some, Option.pure_def, Option.some.injEq] at h
    obtain ⟨d, h0, rfl⟩ := h
    simp only [TriangleFn.eval]
    apply HasDerivAt.congr_deriv
    · hdl
    · simp; ring
  · fin_cases k
    all_goals
      simp only [TriangleFn.evalDeriv, bind_some, Option.pure_def, Option.some.injEq] at h
      obtain ⟨d, h0, d', h1, rfl⟩ := h
      simp only [TriangleFn.eval]
      apply HasDerivAt.congr_deriv
      · hdl
      · simp [baryDeriv]; ring

theorem square_deriv (f : SquareFn) (k : Fin 2) (p : Pt 2) (v : ℝ)
    (h : f.evalDeriv k p = some v) :
    HasDerivAt (fun t => f.eval (Function.update p k t)) v (p k) := by
  rcases f with _ | n | ⟨a, b, n⟩ | ⟨a, b, n⟩ | ⟨m, n⟩
  · obtain rfl : 0 = v := by simpa [SquareFn.evalDeriv] using h
    exact hasDerivAt_const _ _
  all_goals fin_cases k
  all_goals
    simp only [SquareFn.evalDeriv, bind_some, Option.pure_def, Option.some.injEq, Fin.mk_zero,
      Fin.mk_one, Fin.zero_eta] at h
    first
    | subst h
    | obtain ⟨d, h0, rfl⟩ := h
    simp only [SquareFn.eval, Fin.mk_one, Fin.zero_eta, Function.update_self, Function.update_of_ne,
      ne_eq, not_false_eq_true, zero_ne_one, one_ne_zero]
    apply HasDerivAt.congr_deriv
    · hdl
    · simp; try ring

theorem tet_deriv (f : TetFn) (k : Fin 3) (p : Pt 3) (v : ℝ)
    (h : f.evalDeriv k p = some v) :
    HasDerivAt (fun t => f.eval (Function.update p k t)) v (p k) := by
  rcases f with _ | n | ⟨a, b, n⟩ | ⟨a, b, c, m, n⟩ | ⟨l, m, n⟩
  · obtain rfl : 0 = v := by simpa [TetFn.evalDeriv] using h
    exact hasDerivAt_const _ _
  · simp only [TetFn.evalDeriv, Option.some.injEq] at h
    subst h
    exact bary3_deriv _ _ _
  · simp only [TetFn.evalDeriv, bind_some, Option.pure_def, Option.some.injEq] at h
    obtain ⟨d, h0, rfl⟩ := h
    simp only [TetFn.eval]
    apply HasDerivAt.congr_deriv
    · hdl
    · simp; ring
  · simp only [TetFn.evalDeriv, bind_some, Option.pure_def, Option.some.injEq] at h
    obtain ⟨d, h0, d', h1, rfl⟩ := h
    simp only [TetFn.eval]
    apply HasDerivAt.congr_deriv
    · hdl
    · simp; ring
  · fin_cases k
    · simp only [TetFn.evalDeriv, bind_some, Option.pure_def, Option.some.injEq] at h
      obtain ⟨d, h0, d', h1, rfl⟩ := h
      have e : ∀ t, bary3 2 (Function.update p 0 t) - bary3 3 (Function.update p 0 t)
        = bary3 2 p - bary3 3 p := by intro t; simp [bary3]
      simp only [TetFn.eval, Fin.zero_eta, e]
      apply HasDerivAt.congr_deriv
      · hdl
      · simp [baryDeriv]; ring
    · simp only [TetFn.evalDeriv, bind_some, Option.pure_def, Option.some.injEq] at h
      obtain ⟨d, h0, d', h1, d'', h2, rfl⟩ := h
      simp only [TetFn.eval, Fin.mk_one]
      apply HasDerivAt.congr_deriv
      · hdl
      · simp [baryDeriv]; ring
    · simp only [TetFn.evalDeriv, bind_some, Option.pure_def, Option.some.injEq] at h
      obtain ⟨d, h0, d', h1, rfl⟩ := h
      have e : ∀ t, bary3 1 (Function.update p 2 t) - bary3 2 (Function.update p 2 t)
        = bary3 1 p - bary3 2 p := by intro t; simp [bary3]
      simp only [TetFn.eval, Fin.reduceFinMk, e]
      apply HasDerivAt.congr_deriv
      · hdl
      · simp [baryDeriv]; ring

theorem cube_deriv (f : CubeFn) (k : Fin 3) (p : Pt 3) (v : ℝ)
    (h : f.evalDeriv k p = some v) :
    HasDerivAt (fun t => f.eval (Function.update p k t)) v (p k) := by
  rcases f with _ | n | ⟨a, b, n⟩ | ⟨a, b, n⟩ | ⟨a, b, n⟩ | ⟨a, b, c, m, n⟩ | ⟨a, b, c, m, n⟩ |
    ⟨a, b, c, m, n⟩ | ⟨l, m, n⟩
  · obtain rfl : 0 = v := by simpa [CubeFn.evalDeriv] using h
    exact hasDerivAt_const _ _
  all_goals fin_cases k
  all_goals
    simp only [CubeFn.evalDeriv, bind_some, Option.pure_def, Option.some.injEq, Fin.mk_zero,
      Fin.mk_one, Fin.zero_eta, Fin.reduceFinMk] at h
    first
    | subst h
    | obtain ⟨d, h0, rfl⟩ := h
    simp only [CubeFn.eval, Fin.mk_one, Fin.zero_eta, Fin.reduceFinMk, Function.update_self,
      Function.update_of_ne,
      ne_eq, not_false_eq_true, zero_ne_one, one_ne_zero, Fin.reduceEq]
    apply HasDerivAt.congr_deriv
    · hdl
    · simp; try ring

theorem prism_deriv_vertex (n : Fin 6) (k : Fin 3) (p : Pt 3) (v : ℝ)
    (h : (PrismFn.vertex n).evalDeriv k p = some v) :
    HasDerivAt (fun t => (PrismFn.vertex n).eval (Function.update p k t)) v (p k) := by
  fin_cases k
  all_goals
    simp only [PrismFn.evalDeriv, prismEdge0Deriv, prismFace0Deriv, prismFace1Deriv, bind_some,
      Option.pure_def, Option.some.injEq, Fin.mk_zero,
      Fin.mk_one, Fin.zero_eta, Fin.reduceFinMk] at h
    first
    | subst h
    | obtain ⟨d, h0, rfl⟩ := h
    | obtain ⟨d, h0, d', h1, rfl⟩ := h
    simp only [PrismFn.eval, Fin.mk_one, Fin.zero_eta, Fin.reduceFinMk, Function.update_self,
      Function.update_of_ne, baryP_upd2,
      ne_eq, not_false_eq_true, zero_ne_one, one_ne_zero, Fin.reduceEq]
    apply HasDerivAt.congr_deriv
    · hdl
    · simp; try ring

theorem prism_deriv_edge0 (a b : Fin 6) (n : Nat) (k : Fin 3) (p : Pt 3) (v : ℝ)
    (h : (PrismFn.edge0 a b n).evalDeriv k p = some v) :
    HasDerivAt (fun t => (PrismFn.edge0 a b n).eval (Function.update p k t)) v (p k) := by
  fin_cases k
  all_goals
    simp only [PrismFn.evalDeriv, prismEdge0Deriv, prismFace0Deriv, prismFace1Deriv, bind_some,
      Option.pure_def, Option.some.injEq, Fin.mk_zero,
      Fin.mk_one, Fin.zero_eta, Fin.reduceFinMk] at h
    first
    | subst h
    | obtain ⟨d, h0, rfl⟩ := h
    | obtain ⟨d, h0, d', h1, rfl⟩ := h
    simp only [PrismFn.eval, Fin.mk_one, Fin.zero_eta, Fin.reduceFinMk, Function.update_self,
      Function.update_of_ne, baryP_upd2,
      ne_eq, not_false_eq_true, zero_ne_one, one_ne_zero, Fin.reduceEq]
    apply HasDerivAt.congr_deriv
    · hdl
    · simp; try ring

theorem prism_deriv_edge1 (a b : Fin 6) (n : Nat) (k : Fin 3) (p : Pt 3) (v : ℝ)
    (h : (PrismFn.edge1 a b n).evalDeriv k p = some v) :
    HasDerivAt (fun t => (PrismFn.edge1 a b n).eval (Function.update p k t)) v (p k) := by
  fin_cases k
  all_goals
    simp only [PrismFn.evalDeriv, prismEdge0Deriv, prismFace0Deriv, prismFace1Deriv, bind_some,
      Option.pure_def, Option.some.injEq, Fin.mk_zero,
      Fin.mk_one, Fin.zero_eta, Fin.reduceFinMk] at h
    first
    | subst h
    | obtain ⟨d, h0, rfl⟩ := h
    | obtain ⟨d, h0, d', h1, rfl⟩ := h
    simp only [PrismFn.eval, Fin.mk_one, Fin.zero_eta, Fin.reduceFinMk, Function.update_self,
      Function.update_of_ne, baryP_upd2,
      ne_eq, not_false_eq_true, zero_ne_one, one_ne_zero, Fin.reduceEq]
    apply HasDerivAt.congr_deriv
    · hdl
    · simp; try ring

set_option maxHeartbeats 800000 in
theorem prism_deriv_face0 (a b c : Fin 6) (m n : Nat) (k : Fin 3) (p : Pt 3) (v : ℝ)
    (h : (PrismFn.face0 a b c m n).evalDeriv k p = some v) :
    HasDerivAt (fun t => (PrismFn.face0 a b c m n).eval (Function.update p k t)) v (p k) := by
  fin_cases k
  all_goals
    simp only [PrismFn.evalDeriv, prismEdge0Deriv, prismFace0Deriv, prismFace1Deriv, bind_some,
      Option.pure_def, Option.some.injEq, Fin.mk_zero,
      Fin.mk_one, Fin.zero_eta, Fin.reduceFinMk] at h
    first
    | subst h
    | obtain ⟨d, h0, rfl⟩ := h
    | obtain ⟨d, h0, d', h1, rfl⟩ := h
    simp only [PrismFn.eval, Fin.mk_one, Fin.zero_eta, Fin.reduceFinMk, Function.update_self,
      Function.update_of_ne, baryP_upd2,
      ne_eq, not_false_eq_true, zero_ne_one, one_ne_zero, Fin.reduceEq]
    apply HasDerivAt.congr_deriv
    · hdl
    · simp; try ring

theorem prism_deriv_face1 (a b c : Fin 6) (m n : Nat) (k : Fin 3) (p : Pt 3) (v : ℝ)
    (h : (PrismFn.face1 a b c m n).evalDeriv k p = some v) :
    HasDerivAt (fun t => (PrismFn.face1 a b c m n).eval (Function.update p k t)) v (p k) := by
  fin_cases k
  all_goals
    simp only [PrismFn.evalDeriv, prismEdge0Deriv, prismFace0Deriv, prismFace1Deriv, bind_some,
      Option.pure_def, Option.some.injEq, Fin.mk_zero,
      Fin.mk_one, Fin.zero_eta, Fin.reduceFinMk] at h
    first
    | subst h
    | obtain ⟨d, h0, rfl⟩ := h
    | obtain ⟨d, h0, d', h1, rfl⟩ := h
    simp only [PrismFn.eval, Fin.mk_one, Fin.zero_eta, Fin.reduceFinMk, Function.update_self,
      Function.update_of_ne, baryP_upd2,
      ne_eq, not_false_eq_true, zero_ne_one, one_ne_zero, Fin.reduceEq]
    generalize mkFace1 a b c m n = f at *
    apply HasDerivAt.congr_deriv
    · hdl
    · simp; try ring

theorem prism_deriv_interior (l m n : Nat) (k : Fin 3) (p : Pt 3) (v : ℝ)
    (h : (PrismFn.interior l m n).evalDeriv k p = some v) :
    HasDerivAt (fun t => (PrismFn.interior l m n).eval (Function.update p k t)) v (p k) := by
  fin_cases k
  all_goals
    simp only [PrismFn.evalDeriv, prismEdge0Deriv, prismFace0Deriv, prismFace1Deriv, bind_some,
      Option.pure_def, Option.some.injEq, Fin.mk_zero,
      Fin.mk_one, Fin.zero_eta, Fin.reduceFinMk] at h
    first
    | subst h
    | obtain ⟨d, h0, rfl⟩ := h
    | obtain ⟨d, h0, d', h1, rfl⟩ := h
    simp only [PrismFn.eval, Fin.mk_one, Fin.zero_eta, Fin.reduceFinMk, Function.update_self,
      Function.update_of_ne, baryP_upd2,
      ne_eq, not_false_eq_true, zero_ne_one, one_ne_zero, Fin.reduceEq]
    apply HasDerivAt.congr_deriv
    · hdl
    · simp [baryDeriv]; try ring

theorem prism_deriv (f : PrismFn) (k : Fin 3) (p : Pt 3) (v : ℝ)
    (h : f.evalDeriv k p = some v) :
    HasDerivAt (fun t => f.eval (Function.update p k t)) v (p k) := by
  rcases f with _ | n | ⟨a, b, n⟩ | ⟨a, b, n⟩ | ⟨a, b, c, m, n⟩ | ⟨a, b, c, m, n⟩ | ⟨l, m, n⟩
  · obtain rfl : 0 = v := by simpa [PrismFn.evalDeriv] using h
    exact hasDerivAt_const _ _
  · exact prism_deriv_vertex _ _ _ _ h
  · exact prism_deriv_edge0 _ _ _ _ _ _ h
  · exact prism_deriv_edge1 _ _ _ _ _ _ h
  · exact prism_deriv_face0 _ _ _ _ _ _ _ _ h
  · exact prism_deriv_face1 _ _ _ _ _ _ _ _ h
  · exact prism_deriv_interior _ _ _ _ _ _ h

theorem pyramid_deriv_aux (n : Fin 5) (k : Fin 3) (p : Pt 3) (h : p 2 ≠ 1) (hs : pyramidShift p = p) :
    HasDerivAt (fun t => pyramidEval 0 n (Function.update p k t)) (pyramidDeriv n k p) (p k) := by
  have h' : 1 - p 2 ≠ 0 := sub_ne_zero.2 (Ne.symm h)
  fin_cases k
  · fin_cases n <;> simp only [pyramidEval, pyramidDeriv, hs, Fin.mk_one, Fin.zero_eta,
      Fin.reduceFinMk, Function.update_self, Function.update_of_ne, ne_eq, not_false_eq_true,
      zero_ne_one, one_ne_zero, Fin.reduceEq]
    all_goals
      apply HasDerivAt.congr_deriv
      · hdl
      · simp <;> field_simp
  · fin_cases n <;> simp only [pyramidEval, pyramidDeriv, hs, Fin.mk_one, Fin.zero_eta,
      Fin.reduceFinMk, Function.update_self, Function.update_of_ne, ne_eq, not_false_eq_true,
      zero_ne_one, one_ne_zero, Fin.reduceEq]
    all_goals
      apply HasDerivAt.congr_deriv
      · hdl
      · simp <;> field_simp
  · fin_cases n <;> simp only [pyramidEval, pyramidDeriv, hs, Fin.mk_one, Fin.zero_eta,
      Fin.reduceFinMk, Function.update_self, Function.update_of_ne, ne_eq, not_false_eq_true,
      zero_ne_one, one_ne_zero, Fin.reduceEq, add_zero]
    · exact hasDerivAt_id' _
    all_goals
      apply HasDerivAt.congr_deriv
      · apply HasDerivAt.fun_div _ _ h'
        all_goals hdl
      · simp; field_simp; ring

theorem ipow_eq (x : ℝ) (n : Nat) : ipow x n = x ^ n := by
  induction n with
  | zero => rfl
  | succ n ih => rw [ipow, ih, pow_succ]

theorem foldl_mul_eq {d : Nat} (g : Fin d → ℝ) (l : List (Fin d)) (a : ℝ) :
    l.foldl (fun r i => r * g i) a = a * (l.map g).prod := by
  induction l generalizing a with
  | nil => simp
  | cons x l ih => simp [ih, mul_assoc]

theorem monomialEval_eq {d : Nat} (e : Fin d → Nat) (p : Pt d) :
    monomialEval e p = ∏ i, p i ^ e i := by
  rw [monomialEval, foldl_mul_eq, one_mul]
  simp only [ipow_eq]
  rw [Fin.prod_univ_def]

theorem monomialDeriv_eq {d : Nat} (e : Fin d → Nat) (k : Fin d) (p : Pt d) :
    monomialDeriv e k p = (e k : ℝ) * p k ^ (e k - 1) * ∏ i ∈ Finset.univ.erase k, p i ^ e i := by
  have h : monomialDeriv e k p = (e k : ℝ) * ((List.finRange d).map fun i =>
      if i ≠ k then p i ^ e i else if e i ≠ 0 then p i ^ (e i - 1) else 0).prod := by
    rw [monomialDeriv, ← foldl_mul_eq]
    congr 1
    funext r i
    simp only [ipow_eq]
    split_ifs <;> simp
  rw [h, ← Fin.prod_univ_def, ← Finset.mul_prod_erase _ _ (Finset.mem_univ k)]
  have : ∏ x ∈ Finset.univ.erase k, (if x ≠ k then p x ^ e x else if e x ≠ 0 then p x ^ (e x - 1)
      else 0) = ∏ i ∈ Finset.univ.erase k, p i ^ e i :=
    Finset.prod_congr rfl fun i hi => by simp [Finset.ne_of_mem_erase hi]
  rw [this]
  by_cases hk : e k = 0
  · simp [hk]
  · simp [hk, mul_assoc]

theorem monomial_deriv {d : Nat} (e : Fin d → Nat) (k : Fin d) (p : Pt d) :
    HasDerivAt (fun t => monomialEval e (Function.update p k t)) (monomialDeriv e k p) (p k) := by
  have h : ∀ t, monomialEval e (Function.update p k t) =
      t ^ e k * ∏ i ∈ Finset.univ.erase k, p i ^ e i := by
    intro t
    rw [monomialEval_eq, ← Finset.mul_prod_erase _ _ (Finset.mem_univ k), Function.update_self]
    congr 1
    exact Finset.prod_congr rfl fun i hi => by
      rw [Function.update_of_ne (Finset.ne_of_mem_erase hi)]
  simp only [h]
  rw [monomialDeriv_eq]
  exact (hasDerivAt_pow (e k) (p k)).mul_const _

end Verif.Basis
