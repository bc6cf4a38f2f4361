import Verif.Refine.MeshSpec
import Verif.Refine.Props

/-! # Lemmas for the refinement of an element of a mesh -/
set_option linter.all false
namespace Verif.Refine
open Verif.RefGeometry (Pt)

/-- What is known of the places after some have been filled. -/
structure Filled (W : Nat → Nat → Prop) (slots slots' : List (Option Nat)) : Prop where
  length : slots'.length = slots.length
  keep : ∀ pos id : Nat, slots[pos]? = some (some id) → slots'[pos]? = some (some id)
  right : ∀ pos id : Nat, slots'[pos]? = some (some id) → W pos id

theorem Filled.trans {W : Nat → Nat → Prop} {a b c : List (Option Nat)} (h : Filled W a b) (g : Filled W b c) : Filled W a c :=
  ⟨g.length.trans h.length, fun p i e => g.keep p i (h.keep p i e), g.right⟩

theorem filled_set {W : Nat → Nat → Prop} (hW : ∀ pos i j : Nat, W pos i → W pos j → i = j) (slots : List (Option Nat))
    (h : ∀ pos id : Nat, slots[pos]? = some (some id) → W pos id) (pos id : Nat) (hp : pos < slots.length) (hw : W pos id) :
    Filled W slots (slots.set pos (some id)) := by
  refine ⟨by simp, ?_, ?_⟩
  · intro p i e
    by_cases hpp : pos = p
    · subst hpp
      rw [List.getElem?_set_self hp, hW _ _ _ (h _ _ e) hw]
    · rw [List.getElem?_set_ne hpp]; exact e
  · intro p i e
    by_cases hpp : pos = p
    · subst hpp
      rw [List.getElem?_set_self hp] at e
      obtain rfl := Option.some.inj (Option.some.inj e)
      exact hw
    · rw [List.getElem?_set_ne hpp] at e; exact h _ _ e

theorem putNodes_ok {W : Nat → Nat → Prop} (hW : ∀ pos i j : Nat, W pos i → W pos j → i = j) (l lj : List Nat) (N : Nat)
    (ids : List Nat) : ∀ (k : Nat) (slots : List (Option Nat)), slots.length = N →
      (∀ pos id : Nat, slots[pos]? = some (some id) → W pos id) →
      (∀ t id : Nat, ids[t]? = some id → ∃ a pos : Nat, lj[k + t]? = some a ∧ l[a]? = some pos ∧ pos < N ∧ W pos id) →
      ∃ slots', putNodes l lj ids k slots = some slots' ∧ Filled W slots slots' ∧
        ∀ t id a pos : Nat, ids[t]? = some id → lj[k + t]? = some a → l[a]? = some pos → slots'[pos]? = some (some id) := by
  induction ids with
  | nil =>
    intro k slots hl h _
    exact ⟨slots, rfl, ⟨rfl, fun _ _ e => e, h⟩, by intro t id a pos e; simp at e⟩
  | cons x xs ih =>
    intro k slots hl h hall
    obtain ⟨a, pos, ha, hp, hN, hw⟩ := hall 0 x rfl
    rw [Nat.add_zero] at ha
    have hlt : pos < slots.length := by omega
    have f1 := filled_set hW slots h pos x hlt hw
    obtain ⟨slots', e, f2, g⟩ := ih (k + 1) (slots.set pos (some x)) (by simp [hl]) f1.right (by
      intro t id ht
      obtain ⟨a', pos', c⟩ := hall (t + 1) id (by simpa using ht)
      exact ⟨a', pos', by rw [show k + 1 + t = k + (t + 1) by omega]; exact c.1, c.2⟩)
    refine ⟨slots', ?_, f1.trans f2, ?_⟩
    · simp only [putNodes, ha, hp, Option.bind_some, if_pos hlt]; exact e
    · intro t id a' pos' h1 h2 h3
      cases t with
      | zero =>
        have h1 : x = id := by simpa using h1
        rw [Nat.add_zero, ha] at h2
        obtain rfl := Option.some.inj h2
        rw [hp] at h3
        obtain rfl := Option.some.inj h3
        rw [← h1]
        exact f2.keep _ _ (List.getElem?_set_self hlt)
      | succ t =>
        exact g t id a' pos' (by simpa using h1) (by rw [show k + 1 + t = k + (t + 1) by omega]; exact h2) h3

theorem putParts_ok {d : Nat} {W : Nat → Nat → Prop} (hW : ∀ pos i j : Nat, W pos i → W pos j → i = j) (m : Name d) (l : List Nat)
    (N : Nat) (subs : List (List Nat)) : ∀ (j : Nat) (slots : List (Option Nat)), slots.length = N →
      (∀ pos id : Nat, slots[pos]? = some (some id) → W pos id) →
      (∀ (t : Nat) (sub : List Nat), subs[t]? = some sub → ∃ lj, m.table.subNodes (j + t) = some lj ∧
        ∀ k id : Nat, sub[k]? = some id → ∃ a pos : Nat, lj[k]? = some a ∧ l[a]? = some pos ∧ pos < N ∧ W pos id) →
      ∃ slots', putParts m l subs j slots = some slots' ∧ Filled W slots slots' ∧
        ∀ (t : Nat) (sub lj : List Nat) (k id a pos : Nat), subs[t]? = some sub → m.table.subNodes (j + t) = some lj → sub[k]? = some id →
          lj[k]? = some a → l[a]? = some pos → slots'[pos]? = some (some id) := by
  induction subs with
  | nil =>
    intro j slots hl h _
    exact ⟨slots, rfl, ⟨rfl, fun _ _ e => e, h⟩, by intro t sub lj k id a pos e; simp at e⟩
  | cons x xs ih =>
    intro j slots hl h hall
    obtain ⟨lj, hlj, hx⟩ := hall 0 x rfl
    rw [Nat.add_zero] at hlj
    obtain ⟨s1, e1, f1, g1⟩ := putNodes_ok hW l lj N x 0 slots hl h (by simpa using hx)
    obtain ⟨s2, e2, f2, g2⟩ := ih (j + 1) s1 (by rw [f1.length, hl]) f1.right (by
      intro t sub ht
      obtain ⟨lj', c⟩ := hall (t + 1) sub (by simpa using ht)
      exact ⟨lj', by rw [show j + 1 + t = j + (t + 1) by omega]; exact c.1, c.2⟩)
    refine ⟨s2, ?_, f1.trans f2, ?_⟩
    · simp only [putParts, hlj, Option.bind_some, e1]; exact e2
    · intro t sub lj' k id a pos h1 h2 h3 h4 h5
      cases t with
      | zero =>
        have h1 : x = sub := by simpa using h1
        subst h1
        rw [Nat.add_zero, hlj] at h2
        obtain rfl := Option.some.inj h2
        exact f2.keep _ _ (g1 k id a pos h3 (by simpa using h4) h5)
      | succ t =>
        exact g2 t sub lj' k id a pos (by simpa using h1) (by rw [show j + 1 + t = j + (t + 1) by omega]; exact h2) h3 h4 h5

theorem putFaces_ok {d : Nat} {W : Nat → Nat → Prop} (hW : ∀ pos i j : Nat, W pos i → W pos j → i = j) (n : Name d) (N : Nat)
    (faces : List (Option (List (List Nat)))) : ∀ (i : Nat) (slots : List (Option Nat)), slots.length = N →
      (∀ pos id : Nat, slots[pos]? = some (some id) → W pos id) →
      (∀ (t : Nat) (subs : List (List Nat)), faces[t]? = some (some subs) → ∃ m, n.table.faceMaps[i + t]? = some m ∧
        (m.table.numNew ≠ 0 → ∃ l, n.table.faceNodes (i + t) = some l ∧
          ∀ (j : Nat) (sub : List Nat), subs[j]? = some sub → ∃ lj, m.table.subNodes j = some lj ∧
            ∀ k id : Nat, sub[k]? = some id → ∃ a pos : Nat, lj[k]? = some a ∧ l[a]? = some pos ∧ pos < N ∧ W pos id)) →
      ∃ slots', putFaces n faces i slots = some slots' ∧ Filled W slots slots' ∧
        ∀ (t : Nat) (subs : List (List Nat)) (m : Name (d - 1)) (l sub lj : List Nat) (j k id a pos : Nat), faces[t]? = some (some subs) →
          n.table.faceMaps[i + t]? = some m → m.table.numNew ≠ 0 → n.table.faceNodes (i + t) = some l → subs[j]? = some sub →
          m.table.subNodes j = some lj → sub[k]? = some id → lj[k]? = some a → l[a]? = some pos → slots'[pos]? = some (some id) := by
  induction faces with
  | nil =>
    intro i slots hl h _
    exact ⟨slots, rfl, ⟨rfl, fun _ _ e => e, h⟩, by intro t subs m l sub lj j k id a pos e; simp at e⟩
  | cons x xs ih =>
    intro i slots hl h hall
    have hrest : ∀ (t : Nat) (subs : List (List Nat)), xs[t]? = some (some subs) → ∃ m, n.table.faceMaps[i + 1 + t]? = some m ∧
        (m.table.numNew ≠ 0 → ∃ l, n.table.faceNodes (i + 1 + t) = some l ∧
          ∀ (j : Nat) (sub : List Nat), subs[j]? = some sub → ∃ lj, m.table.subNodes j = some lj ∧
            ∀ k id : Nat, sub[k]? = some id → ∃ a pos : Nat, lj[k]? = some a ∧ l[a]? = some pos ∧ pos < N ∧ W pos id) := by
      intro t subs ht
      have := hall (t + 1) subs (by simpa using ht)
      rw [show i + (t + 1) = i + 1 + t by omega] at this
      exact this
    have skip : putFaces n (x :: xs) i slots = putFaces n xs (i + 1) slots →
        (∀ subs m, x = some subs → n.table.faceMaps[i]? = some m → m.table.numNew = 0) →
        ∃ slots', putFaces n (x :: xs) i slots = some slots' ∧ Filled W slots slots' ∧
        ∀ (t : Nat) (subs : List (List Nat)) (m : Name (d - 1)) (l sub lj : List Nat) (j k id a pos : Nat),
          (x :: xs)[t]? = some (some subs) →
          n.table.faceMaps[i + t]? = some m → m.table.numNew ≠ 0 → n.table.faceNodes (i + t) = some l → subs[j]? = some sub →
          m.table.subNodes j = some lj → sub[k]? = some id → lj[k]? = some a → l[a]? = some pos → slots'[pos]? = some (some id) := by
      intro he hno
      obtain ⟨s2, e2, f2, g2⟩ := ih (i + 1) slots hl h hrest
      refine ⟨s2, he.trans e2, f2, ?_⟩
      intro t subs m l sub lj j k id a pos h1 h2 h3 h4
      cases t with
      | zero => exact absurd (hno subs m (by simpa using h1) h2) h3
      | succ t =>
        refine g2 t subs m l sub lj j k id a pos (by simpa using h1) ?_ h3 ?_
        · rw [show i + 1 + t = i + (t + 1) by omega]; exact h2
        · rw [show i + 1 + t = i + (t + 1) by omega]; exact h4
    cases x with
    | none => exact skip rfl (by intro subs m e; cases e)
    | some subs =>
      obtain ⟨m, hm, hx⟩ := hall 0 subs rfl
      rw [Nat.add_zero] at hm hx
      by_cases h0 : m.table.numNew = 0
      · refine skip ?_ ?_
        · simp only [putFaces, hm, Option.bind_some, if_pos h0]
        · intro subs' m' _ hm'
          rw [hm] at hm'
          obtain rfl := Option.some.inj hm'
          exact h0
      · obtain ⟨l, hl', hx⟩ := hx h0
        obtain ⟨s1, e1, f1, g1⟩ := putParts_ok hW m l N subs 0 slots hl h (by simpa using hx)
        obtain ⟨s2, e2, f2, g2⟩ := ih (i + 1) s1 (by rw [f1.length, hl]) f1.right hrest
        refine ⟨s2, ?_, f1.trans f2, ?_⟩
        · simp only [putFaces, hm, Option.bind_some, if_neg h0, hl', e1]; exact e2
        · intro t subs' m' l' sub lj j k id a pos h1 h2 h3 h4 h5 h6 h7 h8 h9
          cases t with
          | zero =>
            have h1 : subs = subs' := by simpa using h1
            subst h1
            rw [Nat.add_zero, hm] at h2
            obtain rfl := Option.some.inj h2
            rw [Nat.add_zero, hl'] at h4
            obtain rfl := Option.some.inj h4
            exact f2.keep _ _ (g1 j sub lj k id a pos h5 (by simpa using h6) h7 h8 h9)
          | succ t =>
            refine g2 t subs' m' l' sub lj j k id a pos (by simpa using h1) ?_ h3 ?_ h5 h6 h7 h8 h9
            · rw [show i + 1 + t = i + (t + 1) by omega]; exact h2
            · rw [show i + 1 + t = i + (t + 1) by omega]; exact h4

section
variable {V : Type*} [AddCommGroup V] [Module ℝ V]

theorem addNodes_ok {d : Nat} (place : Pt d → V) (qs : List (Pt d)) : ∀ (k : Nat) (slots : List (Option Nat)) (coords : List V),
    slots.length = k + qs.length →
    ∃ slots' more, addNodes place qs k (slots, coords) = (slots', coords ++ more) ∧ slots'.length = slots.length ∧
      (∀ pos id : Nat, slots[pos]? = some (some id) → slots'[pos]? = some (some id)) ∧
      (∀ pos < k, slots'[pos]? = slots[pos]?) ∧
      (∀ (t : Nat) (q : Pt d), qs[t]? = some q → slots[k + t]? = some none → ∃ id : Nat, slots'[k + t]? = some (some id) ∧
        coords.length ≤ id ∧ (coords ++ more)[id]? = some (place q)) ∧
      (∀ t t' id id' : Nat, t < t' → t' < qs.length → slots[k + t]? = some none → slots[k + t']? = some none →
        slots'[k + t]? = some (some id) → slots'[k + t']? = some (some id') → id < id') := by
  induction qs with
  | nil =>
    intro k slots coords hl
    exact ⟨slots, [], by simp [addNodes], rfl, fun _ _ e => e, fun _ _ => rfl, by intro t q e; simp at e, by intro t t' id id' _ e; simp at e⟩
  | cons q qs ih =>
    intro k slots coords hl
    simp only [List.length_cons] at hl
    by_cases hk : slots[k]? = some none
    · have hlt : k < slots.length := by omega
      obtain ⟨s', more, e, h1, h2, h3, h4, h5⟩ := ih (k + 1) (slots.set k (some coords.length)) (coords ++ [place q]) (by simp; omega)
      have hke : s'[k]? = some (some coords.length) := by
        rw [h3 k (by omega)]; exact List.getElem?_set_self hlt
      have hne : ∀ t : Nat, (slots.set k (some coords.length))[k + 1 + t]? = slots[k + (t + 1)]? := by
        intro t
        rw [List.getElem?_set_ne (by omega), show k + 1 + t = k + (t + 1) by omega]
      refine ⟨s', [place q] ++ more, ?_, by rw [h1]; simp, ?_, ?_, ?_, ?_⟩
      · simp only [addNodes, hk]; rw [e]; simp
      · intro pos id hp
        refine h2 pos id ?_
        have : k ≠ pos := by rintro rfl; rw [hk] at hp; cases hp
        rw [List.getElem?_set_ne this]; exact hp
      · intro pos hp
        rw [h3 pos (by omega), List.getElem?_set_ne (by omega)]
      · intro t q' ht hs
        cases t with
        | zero =>
          have ht : q = q' := by simpa using ht
          subst ht
          exact ⟨coords.length, hke, le_rfl, by simp⟩
        | succ t =>
          obtain ⟨id, a, b, c⟩ := h4 t q' (by simpa using ht) (by rw [hne]; exact hs)
          rw [show k + 1 + t = k + (t + 1) by omega] at a
          refine ⟨id, a, by simp at b; omega, by rw [← c]; simp⟩
      · intro t t' id id' htt ht' hs hs' hi hi'
        cases t' with
        | zero => omega
        | succ t' =>
          simp only [List.length_cons] at ht'
          rw [show k + (t' + 1) = k + 1 + t' by omega] at hi'
          cases t with
          | zero =>
            rw [Nat.add_zero, hke] at hi
            have hi : coords.length = id := by simpa using hi
            obtain ⟨q', hq'⟩ : ∃ q', qs[t']? = some q' := ⟨_, List.getElem?_eq_getElem (by omega)⟩
            obtain ⟨id'', a, b, c⟩ := h4 t' q' hq' (by rw [hne]; exact hs')
            rw [a] at hi'
            have : id'' = id' := by simpa using hi'
            simp at b
            omega
          | succ t =>
            refine h5 t t' id id' (by omega) (by omega) (by rw [hne]; exact hs) (by rw [hne]; exact hs') ?_ hi'
            rw [show k + 1 + t = k + (t + 1) by omega]; exact hi
    · obtain ⟨s', more, e, h1, h2, h3, h4, h5⟩ := ih (k + 1) slots coords (by omega)
      have hlt : k < slots.length := by omega
      obtain ⟨v, hv⟩ : ∃ v, slots[k]? = some (some v) := by
        cases hh : slots[k]? with
        | none => rw [List.getElem?_eq_none_iff] at hh; omega
        | some o => cases o with
          | none => exact absurd hh hk
          | some v => exact ⟨v, rfl⟩
      refine ⟨s', more, ?_, h1, h2, fun pos hp => h3 pos (by omega), ?_, ?_⟩
      · simp only [addNodes, hv]; exact e
      · intro t q' ht hs
        cases t with
        | zero => exact absurd hs hk
        | succ t =>
          rw [show k + (t + 1) = k + 1 + t by omega] at hs ⊢
          exact h4 t q' (by simpa using ht) hs
      · intro t t' id id' htt ht' hs hs' hi hi'
        cases t' with
        | zero => omega
        | succ t' =>
          cases t with
          | zero => exact absurd hs hk
          | succ t =>
            simp only [List.length_cons] at ht'
            rw [show k + (t' + 1) = k + 1 + t' by omega] at hi' hs'
            rw [show k + (t + 1) = k + 1 + t by omega] at hi hs
            exact h5 t t' id id' (by omega) (by omega) hs hs' hi hi'

end

end Verif.Refine
