import Verif.EvalCache.Lemmas

/-!
# C63: stored values of basis functions are never out of date
-/
namespace Verif.EvalCache

variable {P φ V : Type} (g : Prog P φ V)

/-- **Every request to a quadrature rule is answered as if the basis function were evaluated at that moment**, whatever was
asked before, whatever sets were created, extended and destroyed, also if an address is used again, and whatever compositions
of maps came and went. The program stops at the first request for something that does not exist, and only there. -/
theorem answers_eq (l : List (Op φ)) : (State.init : State φ V).answers g l = (Objects.empty : Objects φ).answers g l :=
  answers_objects g _ (inv_init g) l

/-- The comparison of the keys of stored face values is a strict order, and two keys are equivalent only if they are equal. -/
theorem key_order : (∀ a : Key, a.lt a = false) ∧ (∀ a b c : Key, a.lt b → b.lt c → a.lt c) ∧
    ∀ a b : Key, a.lt b = false → b.lt a = false → a = b := by
  refine ⟨?_, ?_, ?_⟩
  · rintro (_ | _) <;> simp [Key.lt]
  · rintro (_ | _) (_ | _) (_ | _) <;> simp [Key.lt] <;> omega
  · rintro (_ | _) (_ | _) <;> simp [Key.lt] <;> omega

/-- Functions and points are numbers, functions are evaluated by multiplication; there is one map into the element, at 7. -/
def sample : Prog Nat Nat Nat where
  rules _ := ⟨1, [3, 5]⟩
  ev k f x := if k = .grad then f else f * x
  self m x := x + m
  face p := if p = 7 then some (100 * ·) else none

/-- A set is destroyed and another one created at its address; a composition too. -/
def history : List (Op Nat) :=
  [.newSet 1, .addFunction 1 2, .eval 0 .value 1 0 1, .addFunction 1 4, .eval 0 .value 1 1 0, .newConcat 20 1 7,
   .evalFace 0 .value 1 0 0 20, .destroySet 1, .newSet 1, .addFunction 1 9, .eval 0 .value 1 0 1, .evalFace 0 .value 1 0 0 20,
   .destroyConcat 20, .newConcat 20 2 7, .evalFace 0 .grad 1 0 1 20, .evalFace 0 .value 1 0 0 20, .eval 0 .div 1 0 0]

example : (State.init : State Nat Nat).answers sample history =
    ([none, none, some 10, none, some 12, none, some 800, none, none, none, some 45, some 3600, none, none, some 9, some 4500],
     false) := by
  rw [answers_eq]; decide

end Verif.EvalCache
