import Verif.LazyCached.Model

/-! # Vocabulary: histories -/
namespace Verif.LazyCached

/-- Operations that forget the values. -/
def Op.isReset {S : Type} : Op S → Bool
  | .reset | .resize _ => true
  | _ => false

/-- Operations that change what the computation would give. -/
def Op.isChange {S : Type} : Op S → Bool
  | .change _ => true
  | _ => false

/-- A source that is the same for the computation, whatever the old value was. -/
def OldValueIrrelevant {S T : Type} (compute : S → Nat → T → T) : Prop :=
  ∀ s i a b, compute s i a = compute s i b

/-- The source has not changed since the last reset (or since the start). -/
def UnchangedSinceReset {S : Type} (ops : List (Op S)) : Prop :=
  (∀ op ∈ ops, op.isChange = false) ∨
  ∃ pre r post, ops = pre ++ r :: post ∧ r.isReset = true ∧ ∀ op ∈ post, op.isChange = false

end Verif.LazyCached
