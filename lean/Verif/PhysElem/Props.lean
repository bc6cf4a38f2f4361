import Verif.PhysElem.LemmasTrace
import Mathlib.Algebra.BigOperators.Fin

/-!
# C64, C65: answers of a `PhysicalElement`
-/
namespace Verif.PhysElem

set_option linter.unusedSectionVars false
set_option linter.unusedVariables false

variable {R P X M W : Type} [CommRing R] [AddCommGroup W] [Module R W] (g : Prog R P X M W)

theorem upToDate_of_no_solution (l : List (Op R P)) (h : ∀ a ∈ l, a ≠ .solution ∧ a ≠ .solutionDeriv) (b d : Bool) :
    upToDate b d l = true := by
  induction l generalizing b d with
  | nil => rfl
  | cons a l ih =>
    have h' := h a (by simp)
    have hl : ∀ a ∈ l, a ≠ .solution ∧ a ≠ .solutionDeriv := fun a ha => h a (by simp [ha])
    cases a <;> first | exact absurd rfl h'.1 | exact absurd rfl h'.2 | exact ih hl _ _

/-- **Every answer is that for the present element, point, and transformation**, after any sequence of requests: basis functions
and their derivatives, the Jacobian, its transpose, inverse and determinant, the positions. Result matrices and vectors are
handed out once for each place, filled with zeros, with the size for the element (or the size the user last gave them on this
element). Whatever the members without initial value hold at first. The program stops only at requests that make no sense. -/
theorem answers_eq (coeffs : Nat → Nat → Nat → R) (cache : Cache R X M W) (r m q : Nat) (f : Bool) (l : List (Op R P))
    (hl : ∀ a ∈ l, a.sound) (hs : ∀ a ∈ l, a ≠ .solution ∧ a ≠ .solutionDeriv) :
    (State.init coeffs cache r m q f).answers g l = (Now.start coeffs).answers g l :=
  answers_now _ false false (inv_init coeffs cache r m q f) l hl (upToDate_of_no_solution l hs _ _)

/-- With requests for the solution: the answer is the expansion in the functions of the first unknown, with the present
coefficients, if something is set between a change of coefficients and a repeated request. Missing: later requests without that
(`solution_stale`), functions that differ between the unknowns (`solution_wrong`). -/
theorem solution_partial (coeffs : Nat → Nat → Nat → R) (cache : Cache R X M W) (r m q : Nat) (f : Bool) (l : List (Op R P))
    (hl : ∀ a ∈ l, a.sound) (hup : upToDate false false l = true) :
    (State.init coeffs cache r m q f).answers g l = (Now.start coeffs).answers g l :=
  answers_now _ false false (inv_init coeffs cache r m q f) l hl hup

/-- The solution and its derivatives: for each unknown the sum of coefficients times functions of that unknown, with the transformation
`t v` of the unknown. -/
def trueSolution (n : Now R P) (e : Elem P X M W) (id : Nat) (t : Nat → Nat) (k : Kind) (p : P) : List W :=
  (List.range e.unknowns).map fun v => ∑ b ∈ Finset.range (e.size v), n.coeffs id v b • value g e (t v) k v b p

/-- If the unknowns have the same functions and transformations, the answer is the solution. -/
theorem expansion_true (n : Now R P) (e : Elem P X M W) (id : Nat) (t : Nat → Nat) (k : Kind) (p : P)
    (hfn : ∀ v < e.unknowns, ∀ b < e.size v, e.fn k v b p = e.fn k 0 b p) (ht : ∀ v < e.unknowns, t v = t 0) :
    n.expansion g e id (t 0) k p = trueSolution g n e id t k p := by
  refine List.map_congr_left fun v hv => Finset.sum_congr rfl fun b hb => ?_
  rw [List.mem_range] at hv
  rw [Finset.mem_range] at hb
  unfold value
  rw [hfn v hv b hb, ht v hv]

/-- Two unknowns with one function each: the coordinate and its square. -/
def sample : Prog ℤ ℤ ℤ ℤ ℤ where
  elem _ := ⟨2, fun _ => 1, fun k u _ p => if k = .deriv then (if u = 0 then 1 else 2 * p) else if u = 0 then p else p * p,
    fun p => 10 * p, fun _ => -10⟩
  points _ := [3, 5]
  faceMap _ p := p + 1
  transform t k w j jt d := if k = .deriv then t * w + j else w
  transpose j := j
  inverse j := j
  det j := j
  abs j := if j < 0 then -j else j

/-- Anything in members without initial value. -/
def garbage : Cache ℤ ℤ ℤ ℤ := ⟨fun _ => [[7]], fun _ => [true], some [7], some [7], some 7, some 7, some 7, some 7, some 7, some 7⟩

/-- **The solution of a later unknown is computed with the functions of the first**: with coefficients 1 and 1, at the point 3, the
solution is (3, 9), the answer (3, 3). -/
theorem solution_wrong :
    (State.init (fun _ _ _ => 1) garbage 0 0 0 false).answers sample [.setElement 0, .setPoint 3, .solution] =
      ([.done, .done, .fns [3, 3]], true) ∧
    trueSolution sample (Now.start fun _ _ _ => 1) (sample.elem 0) 0 (fun _ => 0) .value 3 = [3, 9] := by
  refine ⟨?_, by decide⟩
  rw [solution_partial _ _ _ _ _ _ _ _ (by simp [Op.sound]) (by decide)]
  decide

/-- **After a change of coefficients the old solution is returned**, until something is set. -/
theorem solution_stale :
    (State.init (fun _ _ _ => 1) garbage 0 0 0 false).answers sample
      [.setElement 0, .setPoint 3, .solution, .change (fun _ _ _ => 2), .solution, .setPoint 3, .solution] =
      ([.done, .done, .fns [3, 3], .done, .fns [3, 3], .done, .fns [6, 6]], true) := by
  decide

/-- A history with rules, transformations, another element and the result matrix. -/
example : (State.init (fun _ _ _ => 1) garbage 0 0 0 false).answers sample
    [.setTransformation 4 1, .setElement 0, .setRule 0, .get .value 0 (some 1), .get .deriv 0 (some 1), .absDet, .setIndex 1,
     .get .value 0 (some 1), .get .value 0 none, .matrix ⟨2, 2, [1, 2, 3, 4]⟩, .setTransformation 6 0, .matrix ⟨1, 1, [5]⟩,
     .get .deriv 0 none, .setFaceRule 0 0, .get .value 0 (some 0), .vector [7, 7], .pointPhysical, .setElement 1, .vector [7, 7],
     .matrix ⟨1, 1, [5]⟩, .vector [7, 7]] =
    ([.done, .done, .done, .fn 9, .fn 14, .num 10, .done, .fn 25, .fn 5, .result ⟨2, 2, [0, 0, 0, 0]⟩, .done,
      .result ⟨2, 2, [0, 0, 0, 0]⟩, .fn (-4), .done, .fn 4, .resultVector [0, 0], .phys 40, .done, .resultVector [0, 0],
      .result ⟨2, 2, [0, 0, 0, 0]⟩], false) := by
  rw [answers_eq _ _ _ _ _ _ _ _ (by simp [Op.sound]) (by simp)]
  decide

end Verif.PhysElem
