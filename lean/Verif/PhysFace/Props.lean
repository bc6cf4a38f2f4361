import Verif.PhysFace.LemmasStep
import Verif.PhysElem.Props

/-!
# C76: answers of a `PhysicalFace`
-/
namespace Verif.PhysFace
open PhysElem (Kind Mat)

set_option linter.unusedSectionVars false
set_option linter.unusedVariables false

variable {R P X M W : Type} [CommRing R] [AddCommGroup W] [Module R W] (g : Prog R P X M W)

/-- **Every answer is that for the present face, point and transformations**, after any sequence of requests: functions of both
elements in one count or by side, with those on the right turned to the left, their derivatives, products with the normal that
points out of the element of the function, the solution, normal and surface element; results are handed out once for each place
and are zero. Whatever members without initial value hold. Missing: faces with different numbers of functions (`mixed_wrong`),
points by number without a new rule for the face (`rule_stale`), products of a scalar function of a later unknown with the
normal (`unknown_wrong`), the solution on the right of a face that is turned (`solution_wrong`), derivatives by side with a number
that is too large (`beyond_wrong`). -/
theorem answers_partial (unknowns : Nat) (size : Side → Nat → Nat) (internal : Bool) (turn : Option Nat) (normal unitNormal : Option W)
    (area : Option R) (coeffs : Nat → Nat → Nat → R) (cache : Side → PhysElem.Cache R X M W) (r m q : Side → Nat) (b : Side → Bool)
    (l : List (Op R P)) (hsize : alike g unknowns size l) (hturn : straight g l) (hl : ∀ a ∈ l, a.sound internal unknowns size)
    (hreg : regular false l) :
    answers g (PhysElem.State.act g.base) (Core.init internal turn normal unitNormal area)
      (fun s => PhysElem.State.init coeffs (cache s) (r s) (m s) (q s) (b s)) l = (Now.start internal coeffs).answers g l :=
  answers_sim l hsize hturn _ _ (fun _ => PhysElem.Now.start coeffs) _
    (fun s => ⟨false, PhysElem.inv_init coeffs (cache s) (r s) (m s) (q s) (b s), rfl⟩)
    (J_init internal turn normal unitNormal area coeffs _) l (fun a h => h) hl false hreg (by simp)

/-- Two unknowns; elements have one function for each, those from number 4 on have two. The face 2 has such an element on the left, the
face 3 is turned, the face 4 is on the boundary. -/
def sample : Prog ℤ ℤ ℤ ℤ ℤ where
  base :=
    { elem := fun id => ⟨2, fun _ => if id < 4 then 1 else 2, fun k u i p => p + 10 * id + 100 * u + 1000 * i + if k = .deriv then 10000 else 0,
        fun p => p, fun _ => 1⟩
      points := fun _ => [3, 5]
      faceMap := fun m p => p + m
      transform := fun t _ w _ _ _ => w + 100000 * t
      transpose := id
      inverse := id
      det := id
      abs := id }
  face f :=
    match f with
    | 0 => ⟨true, fun s => if s = .left then 0 else 1, fun s => if s = .left then 0 else 1, none⟩
    | 1 => ⟨true, fun s => if s = .left then 2 else 3, fun s => if s = .left then 2 else 3, none⟩
    | 2 => ⟨true, fun s => if s = .left then 4 else 1, fun s => if s = .left then 0 else 1, none⟩
    | 3 => ⟨true, fun s => if s = .left then 0 else 1, fun s => if s = .left then 0 else 1, some 1⟩
    | _ => ⟨false, fun _ => 0, fun _ => 0, none⟩
  normal f p := p + f
  norm w := w
  divide w _ := w
  times _ _ v w := v * w
  turned _ _ _ w := -w

/-- The face object at the start, with anything in members without initial value. -/
def run (internal : Bool) (l : List (Op ℤ ℤ)) : List (Ans ℤ ℤ ℤ ℤ ℤ) × Bool :=
  answers sample (PhysElem.State.act sample.base) (Core.init internal (some 1) (some 77) none (some 77))
    (fun _ => PhysElem.State.init (fun _ _ _ => 1) PhysElem.garbage 0 0 0 false) l

/-- **After a face with other numbers of functions, functions are taken from the wrong element**: function 1 of face 2 is the second
function of its element on the left (value 1043), the answer is the first on the right (14). -/
theorem mixed_wrong : run true [.setFace 0, .setPoint 3, .setFace 2, .fn false none 1 (some 0)] =
      ([.elem .done, .elem .done, .elem .done, .elem (.fn 14)], true) ∧
    (Now.start true fun _ _ _ => 1).answers sample [.setFace 0, .setPoint 3, .setFace 2, .fn false none 1 (some 0)] =
      ([.elem .done, .elem .done, .elem .done, .elem (.fn 1043)], true) := by
  decide +kernel

/-- **After a change of the face, points of the rule are placed with the maps of the face before**: on face 1 the point 5 is at 7 in the
element on the left (value 27), the answer is for the place 5 (25). -/
theorem rule_stale : run true [.setFace 0, .setRule 0, .setFace 1, .setIndex 1, .fn false (some .left) 0 (some 0)] =
      ([.elem .done, .elem .done, .elem .done, .elem .done, .elem (.fn 25)], true) ∧
    (Now.start true fun _ _ _ => 1).answers sample [.setFace 0, .setRule 0, .setFace 1, .setRule 0, .setIndex 1, .fn false (some .left) 0 (some 0)] =
      ([.elem .done, .elem .done, .elem .done, .elem .done, .elem .done, .elem (.fn 27)], true) := by
  decide +kernel

/-- **The product of a function of the second unknown with the normal is that of the first unknown**: 3 · 103 = 309, the answer is
3 · 3 = 9. -/
theorem unknown_wrong : run true [.setTransform 0 1, .setFace 0, .setPoint 3, .timesNormal false false none 0 (some 1)] =
      ([.elem .done, .elem .done, .elem .done, .elem (.fn 9)], true) ∧
    (Now.start true fun _ _ _ => 1).answers sample [.setTransform 0 1, .setFace 0, .setPoint 3, .timesNormal false false none 0 (some 1)] =
      ([.elem .done, .elem .done, .elem .done, .elem (.fn 309)], true) := by
  decide +kernel

/-- **The derivatives of the solution on the right are not turned, though those of the functions are.** -/
theorem solution_wrong : run true [.setFace 3, .setPoint 3, .solutionDeriv .right, .der .deriv (some .right) 0 0] =
      ([.elem .done, .elem .done, .elem (.fns [10014, 10014]), .elem (.fn (-10014))], true) ∧
    (Now.start true fun _ _ _ => 1).answers sample [.setFace 3, .setPoint 3, .solutionDeriv .right, .der .deriv (some .right) 0 0] =
      ([.elem .done, .elem .done, .elem (.fns [-10014, -10014]), .elem (.fn (-10014))], true) := by
  decide +kernel

/-- **The derivative of a function that the left element does not have is one of the right element.** -/
theorem beyond_wrong : run true [.setFace 0, .setPoint 3, .der .deriv (some .left) 1 0, .der .deriv (some .right) 0 0] =
      ([.elem .done, .elem .done, .elem (.fn 10014), .elem (.fn 10014)], true) ∧
    (Now.start true fun _ _ _ => 1).answers sample [.setFace 0, .setPoint 3, .der .deriv (some .left) 1 0, .der .deriv (some .right) 0 0] =
      ([.elem .done, .elem .done], false) := by
  decide +kernel

/-- A history on faces 0, 1 and 3 (turned). -/
def history : List (Op ℤ ℤ) :=
  [.setTransform 2 1, .setFace 0, .setRule 0, .fn false none 1 (some 1), .timesNormal true true none 1 (some 1), .setIndex 1,
   .timesNormal false false (some .right) 0 none, .der .curl (some .right) 0 1, .area, .setFace 1, .timesNormal false false (some .right) 0 none,
   .result .matrix [⟨2, 2, [1, 2, 3, 4]⟩, ⟨2, 2, [1, 2, 3, 4]⟩, ⟨2, 2, [1, 2, 3, 4]⟩, ⟨2, 2, [1, 2, 3, 4]⟩], .setTransform 0 1,
   .result (.elemVector .right) [⟨2, 1, [5, 6]⟩], .setFace 3, .setRule 0, .result (.elemVector .right) [⟨2, 1, [5, 6]⟩],
   .result .matrix [⟨2, 2, [1, 2, 3, 4]⟩, ⟨2, 2, [1, 2, 3, 4]⟩, ⟨2, 2, [1, 2, 3, 4]⟩, ⟨2, 2, [1, 2, 3, 4]⟩],
   .fn true (some .right) 0 (some 1), .pointPhysical, .normal, .result .vector [⟨4, 1, [1, 1, 1, 1]⟩], .result .vector [⟨4, 1, [1, 1, 1, 1]⟩]]

example : run true history =
    ([.elem .done, .elem .done, .elem .done, .elem (.fn 200114), .elem (.fn (-600342)), .elem .done, .elem (.fn (-80)), .elem (.fn 200116),
      .elem (.num 5), .elem .done, .elem (.fn (-228)), .results [⟨2, 2, [0, 0, 0, 0]⟩, ⟨2, 2, [0, 0, 0, 0]⟩, ⟨2, 2, [0, 0, 0, 0]⟩,
      ⟨2, 2, [0, 0, 0, 0]⟩], .elem .done, .results [⟨2, 1, [0, 0]⟩], .elem .done, .elem .done, .results [⟨2, 1, [0, 0]⟩],
      .results [⟨2, 2, [0, 0, 0, 0]⟩, ⟨2, 2, [0, 0, 0, 0]⟩, ⟨2, 2, [0, 0, 0, 0]⟩, ⟨2, 2, [0, 0, 0, 0]⟩], .elem (.fn (-114)),
      .elem (.phys 3), .elem (.fn 6), .results [⟨4, 1, [0, 0, 0, 0]⟩]], false) := by
  unfold run
  rw [answers_partial sample 2 (fun _ _ => 1)]
  · decide +kernel
  · intro f hf s hs
    simp only [history, List.mem_cons, Op.setFace.injEq, reduceCtorEq, List.not_mem_nil, or_false, false_or] at hf
    obtain rfl | rfl | rfl := hf <;> cases s <;> exact ⟨rfl, fun u _ => rfl⟩
  · intro h; simp [history] at h
  · intro a ha
    simp only [history, List.mem_cons, List.not_mem_nil, or_false] at ha
    rcases ha with rfl | rfl | rfl | rfl | rfl | rfl | rfl | rfl | rfl | rfl | rfl | rfl | rfl | rfl | rfl | rfl | rfl | rfl | rfl | rfl | rfl | rfl | rfl <;>
      first | trivial | exact ⟨rfl, by decide⟩
  · simp [history, regular]

end Verif.PhysFace
