import Verif.FaceInt.LemmasJobs
import Verif.PhysFace.Props

/-!
# C77: integrals over faces
-/
namespace Verif.FaceInt
open PhysFace

set_option linter.unusedSectionVars false
set_option linter.unusedVariables false

variable {R P X M W V : Type} [CommRing R] [AddCommGroup W] [Module R W] [AddCommGroup V] [Module R V]
variable (g : PhysFace.Prog R P X M W) (weight : Nat → Nat → R)

/-- **The integral over each face is the sum over the points of its rule** of weight times surface element times the value of the integrand
on that face at that point with the transformations set last, whichever faces, inside and on the boundary, were treated before with
the same object, and whatever members without initial value hold. Missing: faces with different numbers of functions (`mixed_wrong`),
and what is missing in `PhysFace.answers_partial`. -/
theorem integrals_partial (q : Prop) (unknowns : Bool → Nat) (size : Bool → Side → Nat → Nat) (coeffs : Nat → Nat → Nat → R)
    (turn : Bool → Option Nat) (normal unitNormal : Bool → Option W) (area : Bool → Option R)
    (cache : Bool → Side → PhysElem.Cache R X M W) (r m i : Bool → Side → Nat) (d : Bool → Side → Bool) (l : List (Job R P X M W V))
    (hl : ∀ a ∈ l, a.fits g q unknowns size) :
    (State.init coeffs turn normal unitNormal area cache r m i d).answers g weight l = Setting.start.answers g weight coeffs l :=
  jobs_sim l _ _ (stands_init coeffs turn normal unitNormal area cache r m i d) hl

/-- Weights of the rules of the sample. -/
def weights (_ i : Nat) : ℤ := if i = 0 then 2 else 7

/-- The integrator of the sample with anything in members without initial value. -/
def run (l : List (Job ℤ ℤ ℤ ℤ ℤ ℤ)) : List (Option ℤ) × Bool :=
  (State.init (fun _ _ _ => 1) (fun _ => some 1) (fun _ => some 77) (fun _ => none) (fun _ => some 77)
    (fun _ _ => PhysElem.garbage) (fun _ _ => 0) (fun _ _ => 0) (fun _ _ => 0) (fun _ _ => false)).answers sample weights l

/-- The value of function `i` of both sides in one count. -/
def function (i : Nat) : Script ℤ ℤ ℤ ℤ ℤ ℤ := .ask (.fn false none i (some 0)) fun
  | .elem (.fn w) => .ret w
  | _ => .stop

/-- The sum of the functions on the left and on the right. -/
def twoSides : Script ℤ ℤ ℤ ℤ ℤ ℤ := .ask (.fn false (some .left) 0 (some 0)) fun
  | .elem (.fn a) => .ask (.fn false (some .right) 0 (some 0)) fun
    | .elem (.fn b) => .ret (a + b)
    | _ => .stop
  | _ => .stop

/-- **Integrals over faces with different numbers of functions are wrong**: the integral of function 1 over face 2, as it is, and after an
integral over face 0. -/
theorem mixed_wrong : (run [.integrate 2 0 (function 1)]).1 = [some 61635] ∧
    (run [.integrate 0 0 (function 1), .integrate 2 0 (function 1)]).1 = [some 644, some 924] ∧
    Setting.start.answers sample weights (fun _ _ _ => 1) [.integrate 0 0 (function 1), .integrate 2 0 (function 1)] =
      ([some 644, some 61635], true) := by
  decide +kernel

/-- Faces 0, 1, 3 (turned) and 4 (on the boundary), with a change of the transformation. -/
example : run [.integrate 0 0 twoSides, .transform 2 0, .integrate 1 0 twoSides, .integrate 4 0 (function 0), .scaling false,
    .integrate 3 0 twoSides, .integrate 0 0 (function 1), .transform 1 1] =
    ([some 837, none, some 20003218, some 15400357, none, some (-99), some 1800140], false) := by
  unfold run
  rw [integrals_partial sample weights False (fun _ => 2) (fun _ _ _ => 1)]
  · decide +kernel
  · intro a ha
    have hp : ∀ b, twoSides.polite False b 2 (fun _ _ => 1) := by
      intro b
      refine ⟨⟨trivial, trivial, by simp, by simp⟩, fun v => ?_⟩
      simp only
      split
      · refine ⟨⟨trivial, trivial, by simp, by simp⟩, fun v => ?_⟩
        simp only
        split <;> trivial
      · trivial
    have hf : ∀ b i, (function i).polite False b 2 (fun _ _ => 1) := by
      intro b i
      refine ⟨⟨trivial, trivial, by simp, by simp⟩, fun v => ?_⟩
      simp only
      split <;> trivial
    simp only [List.mem_cons, List.not_mem_nil, or_false] at ha
    rcases ha with rfl | rfl | rfl | rfl | rfl | rfl | rfl | rfl <;>
      first | exact True.intro | exact ⟨fun s hs => ⟨rfl, fun u _ => by cases s <;> rfl⟩, hp _, by simp⟩ |
        exact ⟨fun s hs => ⟨rfl, fun u _ => by cases s <;> rfl⟩, hf _ _, by simp⟩

end Verif.FaceInt
