import Verif.Common.Prefix
import Mathlib.Tactic.Common
import Mathlib.Data.List.Nodup

set_option linter.all false
/-! Consecutive numbering of concatenated lists. -/
namespace Verif
variable {ι κ : Type} [DecidableEq ι] [DecidableEq κ]

theorem sum_flatMap (e : ι → Nat) (l : List κ) (f : κ → List ι) :
    ((l.flatMap f).map e).sum = (l.map fun a => ((f a).map e).sum).sum := by
  induction l with
  | nil => rfl
  | cons a l ih => simp [ih]

theorem prefixOffset_flatMap (e : ι → Nat) (l : List κ) (f : κ → List ι) (a : κ) (x : ι)
    (ha : a ∈ l) (hx : x ∈ f a) (hu : ∀ b ∈ l, x ∈ f b → b = a) :
    prefixOffset e (l.flatMap f) x =
      prefixOffset (fun b => ((f b).map e).sum) l a + prefixOffset e (f a) x := by
  induction l with
  | nil => simp at ha
  | cons b l ih =>
    rw [List.flatMap_cons, prefixOffset_append]
    by_cases h : a = b
    · subst h; simp [hx, prefixOffset]
    · have hb : x ∉ f b := fun hb => h (hu b (by simp) hb).symm
      have ha' : a ∈ l := (List.mem_cons.1 ha).resolve_left h
      rw [if_neg hb, ih ha' (fun c hc => hu c (by simp [hc]))]
      simp [prefixOffset, h]; omega

theorem prefixOffset_map (e : ι → Nat) (l : List κ) (g : κ → ι) (hg : Function.Injective g) (x : κ) :
    prefixOffset e (l.map g) (g x) = prefixOffset (fun a => e (g a)) l x := by
  induction l with
  | nil => rfl
  | cons a l ih => simp [prefixOffset, hg.eq_iff, ih]

theorem prefixOffset_range (e : Nat → Nat) (n r : Nat) (h : r ≤ n) :
    prefixOffset e (List.range n) r = ((List.range r).map e).sum := by
  induction n with
  | zero => have : r = 0 := by omega
            subst this; rfl
  | succ n ih =>
    rw [List.range_succ, prefixOffset_append]
    by_cases hr : r < n
    · rw [if_pos (by simpa using hr), ih (by omega)]
    · have hn : r ∉ List.range n := by simpa using Nat.le_of_not_lt hr
      rw [if_neg hn]
      rcases Nat.lt_or_ge r (n+1) with h1 | h1
      · have : r = n := by omega
        subst this; simp [prefixOffset]
      · have : r = n + 1 := by omega
        subst this
        simp [prefixOffset, List.range_succ]

/-- Two different items come in one order, whatever the sizes. -/
theorem prefixOffset_order (l : List ι) (a b : ι) (ha : a ∈ l) (hb : b ∈ l) (hab : a ≠ b) :
    (∀ e : ι → Nat, prefixOffset e l a + e a ≤ prefixOffset e l b) ∨
    (∀ e : ι → Nat, prefixOffset e l b + e b ≤ prefixOffset e l a) := by
  induction l with
  | nil => simp at ha
  | cons c l ih =>
    by_cases h1 : a = c
    · subst h1
      left; intro e; simp [prefixOffset, Ne.symm hab]
    · by_cases h2 : b = c
      · subst h2; right; intro e; simp [prefixOffset, hab]
      · rcases ih ((List.mem_cons.1 ha).resolve_left h1) ((List.mem_cons.1 hb).resolve_left h2) with
          h | h
        · left; intro e; have := h e; simp only [prefixOffset, if_neg h1, if_neg h2]; omega
        · right; intro e; have := h e; simp only [prefixOffset, if_neg h1, if_neg h2]; omega

theorem prefixOffset_lt_sum (e : ι → Nat) (l : List ι) (a : ι) (ha : a ∈ l) :
    prefixOffset e l a + e a ≤ (l.map e).sum := by
  induction l with
  | nil => simp at ha
  | cons c l ih =>
    simp only [prefixOffset, List.map_cons, List.sum_cons]
    split_ifs with h
    · subst h; omega
    · have := ih ((List.mem_cons.1 ha).resolve_left h); omega

theorem prefixOffset_congr (e e' : ι → Nat) (l : List ι) (h : ∀ a ∈ l, e a = e' a) (x : ι) :
    prefixOffset e l x = prefixOffset e' l x := by
  induction l with
  | nil => rfl
  | cons a l ih =>
    simp only [prefixOffset]
    rw [ih (fun b hb => h b (by simp [hb])), h a (by simp)]

end Verif
