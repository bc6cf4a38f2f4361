import Verif.MeshFile.Spec
import Mathlib.Data.List.Nodup
import Mathlib.Data.List.Lex

/-! # Helper lemmas: sets and tokens -/
set_option linter.all false
namespace Verif.MeshFile
open Verif.PreMesh

section sets
variable {α : Type} [LT α] [DecidableEq α] [DecidableRel (LT.lt (α := α))]

theorem mem_insertSet (a x : α) (l : List α) : x ∈ insertSet a l ↔ x = a ∨ x ∈ l := by
  induction l with
  | nil => simp [insertSet]
  | cons b l ih =>
    unfold insertSet
    split
    · subst_vars; simp
    · split
      · simp
      · simp only [List.mem_cons, ih]; tauto

theorem insertSet_sorted (htr : ∀ a b c : α, a < b → b < c → a < c) (htri : ∀ a b : α, a ≠ b → ¬ a < b → b < a)
    (a : α) (l : List α) (h : l.Pairwise (· < ·)) : (insertSet a l).Pairwise (· < ·) := by
  induction l with
  | nil => simp [insertSet]
  | cons b l ih =>
    unfold insertSet
    rw [List.pairwise_cons] at h
    split
    · exact List.pairwise_cons.2 h
    · split
      · rename_i h1 h2
        refine List.pairwise_cons.2 ⟨?_, List.pairwise_cons.2 h⟩
        intro x hx
        rcases List.mem_cons.1 hx with rfl | hx
        · exact h2
        · exact htr _ _ _ h2 (h.1 x hx)
      · rename_i h1 h2
        refine List.pairwise_cons.2 ⟨?_, ih h.2⟩
        intro x hx
        rcases (mem_insertSet a x l).1 hx with rfl | hx
        · exact htri _ _ h1 h2
        · exact h.1 x hx

theorem mem_toSet (x : α) (l : List α) : x ∈ toSet l ↔ x ∈ l := by
  induction l with
  | nil => simp [toSet]
  | cons a l ih =>
    rw [show toSet (a :: l) = insertSet a (toSet l) from rfl, mem_insertSet, ih, List.mem_cons]

theorem toSet_sorted (htr : ∀ a b c : α, a < b → b < c → a < c) (htri : ∀ a b : α, a ≠ b → ¬ a < b → b < a) (l : List α) :
    (toSet l).Pairwise (· < ·) := by
  induction l with
  | nil => simp [toSet]
  | cons a l ih => exact insertSet_sorted htr htri a _ ih

theorem toSet_nodup (l : List Nat) : (toSet l).Nodup :=
  (toSet_sorted (fun _ _ _ => Nat.lt_trans) (fun a b h1 h2 => by omega) l).imp fun h => Nat.ne_of_lt h

theorem toSet_nodup_pos {R : Type} [LinearOrder R] (l : List (List R)) : (toSet l).Nodup :=
  (toSet_sorted (fun a b c h1 h2 => lt_trans (α := List R) h1 h2)
    (fun a b h1 h2 => lt_of_le_of_ne (α := List R) (not_lt.1 h2) (Ne.symm h1)) l).imp fun h => ne_of_lt h
end sets

section mapM
variable {α β : Type}

theorem mapM_get {f : α → Option β} : ∀ {l : List α} {r : List β}, l.mapM f = some r →
    r.length = l.length ∧ ∀ (i : Nat) x, l[i]? = some x → r[i]? = f x ∧ (f x).isSome
  | [], r, h => by
    simp at h
    subst h
    simp
  | a :: l, r, h => by
    simp only [List.mapM_cons, Option.pure_def, Option.bind_eq_bind, Option.bind_eq_some_iff, Option.some.injEq] at h
    obtain ⟨b, hb, bs, hbs, rfl⟩ := h
    obtain ⟨h1, h2⟩ := mapM_get hbs
    refine ⟨by simp [h1], ?_⟩
    intro i x hx
    cases i with
    | zero =>
      simp at hx
      subst hx
      simp [hb]
    | succ i =>
      simp at hx
      simpa using h2 i x hx

theorem mapM_some {f : α → Option β} : ∀ {l : List α} (g : α → β), (∀ x ∈ l, f x = some (g x)) → l.mapM f = some (l.map g)
  | [], g, _ => by simp
  | a :: l, g, h => by
    have := mapM_some (f := f) g fun x hx => h x (List.mem_cons_of_mem a hx)
    simp [List.mapM_cons, h a (by simp), this]

theorem mapM_isSome {f : α → Option β} : ∀ {l : List α}, (∀ x ∈ l, (f x).isSome) → (l.mapM f).isSome
  | [], _ => by simp
  | a :: l, h => by
    obtain ⟨b, hb⟩ := Option.isSome_iff_exists.1 (h a (by simp))
    obtain ⟨r, hr⟩ := Option.isSome_iff_exists.1 (mapM_isSome (f := f) fun x hx => h x (List.mem_cons_of_mem a hx))
    simp [List.mapM_cons, hb, hr]
end mapM

section tokens
variable {R : Type} [LinearOrder R]

/-- The same up to white space. -/
def Same (t t' : List (Tok R)) : Prop := strip t = strip t'

theorem Same.rfl {t : List (Tok R)} : Same t t := Eq.refl _
theorem same_eol (t : List (Tok R)) : Same (.eol :: t) t := Eq.refl _

theorem readNat_same {t t' : List (Tok R)} (h : Same t t') : readNat t = readNat t' := by unfold readNat; rw [h]

theorem readHeader_same {s : String} {t t' : List (Tok R)} (h : Same t t') : readHeader s t = readHeader s t' := by
  unfold readHeader; rw [h]

@[simp] theorem readNat_nat (n : Nat) (t : List (Tok R)) : readNat (.nat n :: t) = some (n, t) := by rfl
@[simp] theorem readNat_eol (t : List (Tok R)) : readNat (.eol :: t) = readNat t := by rfl
@[simp] theorem readReal_real (x : R) (t : List (Tok R)) : readReal (.real x :: t) = some (x, t) := by rfl
@[simp] theorem readHeader_word (s : String) (t : List (Tok R)) : readHeader s (.word s :: t) = some t := by
  simp [readHeader, strip]
@[simp] theorem readHeader_eol (s : String) (t : List (Tok R)) : readHeader s (.eol :: t) = readHeader s t := by rfl
@[simp] theorem ignoreLine_eol (t : List (Tok R)) : ignoreLine (.eol :: t) = t := by rfl

theorem readNats_map (l : List Nat) (t : List (Tok R)) : readNats l.length (l.map Tok.nat ++ t) = some (l, t) := by
  induction l with
  | nil => rfl
  | cons a l ih => simp [readNats, ih]

theorem readReals_map (l : List R) (t : List (Tok R)) : readReals l.length (l.map Tok.real ++ t) = some (l, t) := by
  induction l with
  | nil => rfl
  | cons a l ih => simp [readReals, ih]

theorem readPoints_map (dim : Nat) (l : List (List R)) (h : ∀ x ∈ l, x.length = dim) (t : List (Tok R)) :
    readPoints dim l.length (l.flatten.map Tok.real ++ t) = some (l, t) := by
  induction l with
  | nil => rfl
  | cons a l ih =>
    have := readReals_map a (l.flatten.map Tok.real ++ t)
    rw [h a (by simp)] at this
    simp only [List.map_flatten] at this ih
    simp [readPoints, List.append_assoc, this, ih fun x hx => h x (by simp [hx])]

theorem readPairs_map (l : List (Nat × Nat)) (t : List (Tok R)) :
    readPairs l.length ((l.map fun q => [Tok.nat q.1, Tok.nat q.2]).flatten ++ t) = some (l, t) := by
  induction l with
  | nil => rfl
  | cons a l ih => simp [readPairs, ih]

theorem readZones_map (l : List String) (t : List (Tok R)) :
    readZones l.length ((l.map fun z => [Tok.word z, Tok.eol]).flatten ++ t) = some (l, t) := by
  induction l with
  | nil => rfl
  | cons a l ih => simp [readZones, ih]

theorem ignoreLine_nats (l : List Nat) (t : List (Tok R)) : ignoreLine (l.map Tok.nat ++ .eol :: t) = t := by
  induction l with
  | nil => rfl
  | cons a l ih => simp [ignoreLine, ih]

theorem ignoreLine_reals (l : List R) (t : List (Tok R)) : ignoreLine (l.map Tok.real ++ .eol :: t) = t := by
  induction l with
  | nil => rfl
  | cons a l ih => simp [ignoreLine, ih]

theorem findRank_mem (rank : Nat) (l : List Nat) (t : List (Tok R)) (h : rank ∈ l) :
    ∃ l' : List Nat, findRank rank l.length (l.map Tok.nat ++ t) = some (true, l'.map Tok.nat ++ t) := by
  induction l with
  | nil => simp at h
  | cons a l ih =>
    by_cases ha : a = rank
    · exact ⟨l, by simp [findRank, ha]⟩
    · obtain ⟨l', h'⟩ := ih (by simpa [Ne.symm ha] using h)
      exact ⟨l', by simp [findRank, ha, h']⟩

theorem findRank_not_mem (rank : Nat) (l : List Nat) (t : List (Tok R)) (h : rank ∉ l) :
    findRank rank l.length (l.map Tok.nat ++ t) = some (false, t) := by
  induction l with
  | nil => rfl
  | cons a l ih =>
    simp only [List.mem_cons, not_or] at h
    simp [findRank, Ne.symm h.1, ih h.2]

end tokens
end Verif.MeshFile
