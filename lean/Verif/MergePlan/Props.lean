import Verif.MergePlan.LemmasExec
import Mathlib.Analysis.Normed.Group.Basic
import Mathlib.Tactic.NormNum
import Mathlib.Tactic.Linarith

/-! # Joining parts of a mesh by a pairing of coordinates: properties (C55) -/
namespace Verif.MergePlan
open Verif.ElementShape Verif.PreMesh

variable {P : Type}

theorem asked_lt (shapes : List Shape) (dim : Nat) (m : Mesh P) (h : Consistent shapes dim m) (hv : CoordsValid m)
    (pairing : List (Nat × Nat)) (d : Nat) (hd : d < dim) (a b : Nat) (hab : Asked m pairing d a b) :
    a < (m.ents d).length ∧ b < (m.ents d).length := by
  unfold Asked at hab
  split at hab
  · rename_i h0
    subst h0
    obtain ⟨p, _, x, y, hx, hy, hn, hn'⟩ := hab
    obtain ⟨n, c1, c2⟩ := hv x (List.mem_of_getElem? hx)
    obtain ⟨n', c1', c2'⟩ := hv y (List.mem_of_getElem? hy)
    rw [hn] at c1; cases c1
    rw [hn'] at c1'; cases c1'
    exact ⟨c2, c2'⟩
  · obtain ⟨e, i, e', i', cs, cs', ⟨el, _, a1, a2, _⟩, ⟨el', _, b1, b2, _⟩, _⟩ := hab
    obtain ⟨x, hx, _⟩ := (h.both d hd e i a).1 ⟨el, a1, a2⟩
    obtain ⟨y, hy, _⟩ := (h.both d hd e' i' b).1 ⟨el', b1, b2⟩
    exact ⟨(List.getElem?_eq_some_iff.1 hx).1, (List.getElem?_eq_some_iff.1 hy).1⟩

theorem partOf_renamed (shapes : List Shape) (dim : Nat) (m m' : Mesh P) (ρ : Nat → Nat → Nat) (h : Renamed shapes dim m m' ρ)
    (d e i k' : Nat) (cs : List Nat) : PartOf m' d e i k' cs ↔ ∃ k, PartOf m d e i k cs ∧ ρ d k = k' := by
  unfold PartOf
  simp only [h.elems, List.getElem?_map, Option.map_eq_some_iff]
  constructor
  · rintro ⟨el, p, ⟨el0, h1, rfl⟩, h2, h3, h4⟩
    simp only [List.getElem?_map, Option.map_eq_some_iff] at h2
    obtain ⟨k, h5, h6⟩ := h2
    exact ⟨k, ⟨el0, p, h1, h5, h3, h4⟩, h6⟩
  · rintro ⟨k, ⟨el0, p, h1, h5, h3, h4⟩, h6⟩
    refine ⟨_, p, ⟨el0, h1, rfl⟩, ?_, h3, h4⟩
    simp only [List.getElem?_map, Option.map_eq_some_iff]
    exact ⟨k, h5, h6⟩

theorem coordShared_renamed (shapes : List Shape) (dim : Nat) (m m' : Mesh P) (ρ : Nat → Nat → Nat) (h : Renamed shapes dim m m' ρ)
    (hs : CoordShared dim m) : CoordShared dim m' := by
  refine ⟨?_, ?_⟩
  · intro el hel
    rw [h.elems] at hel
    obtain ⟨el0, h1, rfl⟩ := List.mem_map.1 hel
    exact hs.1 el0 h1
  · intro d h0 hd e i k e' i' k' cs cs' hp hp' hc
    obtain ⟨k0, h1, rfl⟩ := (partOf_renamed shapes dim m m' ρ h d e i k cs).1 hp
    obtain ⟨k0', h1', rfl⟩ := (partOf_renamed shapes dim m m' ρ h d e' i' k' cs').1 hp'
    rw [hs.2 d h0 hd e i k0 e' i' k0' cs cs' h1 h1' hc]

/-- **C55.** Computing and executing the merge plan of a one-to-one pairing of coordinates always succeeds. It changes
nothing but the numbers of the entities in the elements, and two entities become one exactly when a chain of requested
merges links them: nodes of paired coordinates, and edges or faces whose coordinates the pairing maps onto each other. -/
theorem connect_spec (shapes : List Shape) (dim : Nat) (hdim : 0 < dim) (hsh : ShapesOk shapes dim) (m : Mesh P)
    (h : Consistent shapes dim m) (hs : CoordShared dim m) (hv : CoordsValid m) (pairing : List (Nat × Nat))
    (hone : OneToOne pairing) (hb : ∀ p ∈ pairing, p.1 < m.coords.length ∧ p.2 < m.coords.length) :
    ∃ m' ρ, connect dim m pairing = some m' ∧ Renamed shapes dim m m' ρ ∧ CoordShared dim m' ∧
      ∀ d < dim, ∀ k k', ρ d k = ρ d k' ↔ Relation.EqvGen (Asked m pairing d) k k' := by
  have hlevel : ∀ d < dim, ∃ pairs gs, levelPlan dim m pairing d = some gs ∧ (∀ a b, (a, b) ∈ pairs ↔ Asked m pairing d a b) ∧
      gs.flatten.Nodup ∧ (∀ a, a ∈ gs.flatten ↔ ∃ b, b ≠ a ∧ ((a, b) ∈ pairs ∨ (b, a) ∈ pairs)) ∧
      (∀ a ∈ gs.flatten, ∀ b ∈ gs.flatten, (∃ g ∈ gs, a ∈ g ∧ b ∈ g) ↔ UnionFind.Linked pairs a b) := by
    intro d hd
    obtain ⟨pairs, h1, h2⟩ : ∃ pairs, (if d = 0 then nodePairs m pairing else levelPairs dim m pairing d) = some pairs ∧
        ∀ a b, (a, b) ∈ pairs ↔ Asked m pairing d a b := by
      by_cases h0 : d = 0
      · subst h0; rw [if_pos rfl]; exact nodePairs_spec m hv pairing hb
      · rw [if_neg h0]; exact levelPairs_spec shapes dim hdim hsh m h hs hv pairing hone hb d (by omega) hd
    obtain ⟨gs, g1, g2, g3, g4, _⟩ := UnionFind.groupMerges_correct pairs (pairs.length + 1) (by omega)
    exact ⟨pairs, gs, by rw [levelPlan, h1]; exact g1, h2, g2, g3, g4⟩
  obtain ⟨gss, m1, m2, m3, _⟩ := mapM_get (levelPlan dim m pairing) (List.range dim) (by
    intro d hd
    obtain ⟨_, gs, h1, _⟩ := hlevel d (List.mem_range.1 hd)
    exact ⟨gs, h1⟩)
  have hplan : computeMergePlan dim m pairing = some gss := by
    unfold computeMergePlan
    split
    · rename_i hp
      have hnil : ∀ d < dim, levelPlan dim m pairing d = some [] := by
        intro d hd
        have hpairs : (if d = 0 then nodePairs m pairing else levelPairs dim m pairing d) = some [] := by
          by_cases h0 : d = 0
          · rw [if_pos h0, hp]; rfl
          · rw [if_neg h0, hp]; rfl
        rw [levelPlan, hpairs]
        rfl
      have : gss = List.replicate dim [] := by
        apply List.ext_getElem?
        intro i
        by_cases hi : i < dim
        · rw [m3 i i (List.getElem?_range hi), hnil i hi, List.getElem?_replicate, if_pos hi]
        · rw [List.getElem?_eq_none (by rw [m2]; simp; omega), List.getElem?_replicate, if_neg hi]
      rw [this]
    · exact m1
  have hget : ∀ (j : Nat) (gs : List (List Nat)), gss[j]? = some gs → j < dim ∧ levelPlan dim m pairing j = some gs := by
    intro j gs hj
    have hlt := (List.getElem?_eq_some_iff.1 hj).1
    rw [m2, List.length_range] at hlt
    have := m3 j j (List.getElem?_range hlt)
    rw [hj] at this
    exact ⟨hlt, this.symm⟩
  obtain ⟨m', e1, e2⟩ := executeFrom_renamed shapes dim gss 0 m h (by rw [m2]; simp) (by
    intro j gs hj
    obtain ⟨hlt, hl⟩ := hget j gs hj
    obtain ⟨pairs, gs', h1, h2, h3, h4, h5⟩ := hlevel j hlt
    rw [hl] at h1; cases h1
    refine ⟨h3, fun k hk => ?_⟩
    rw [Nat.zero_add]
    obtain ⟨b, _, hb' | hb'⟩ := (h4 k).1 hk
    · exact (asked_lt shapes dim m h hv pairing j hlt k b ((h2 _ _).1 hb')).1
    · exact (asked_lt shapes dim m h hv pairing j hlt b k ((h2 _ _).1 hb')).2)
  refine ⟨m', plan gss 0, ?_, e2, coordShared_renamed shapes dim m m' _ e2 hs, ?_⟩
  · simp only [connect, hplan, Option.bind_eq_bind, Option.bind_some, executeMerge]; exact e1
  · intro d hd k k'
    obtain ⟨pairs, gs, h1, h2, h3, h4, h5⟩ := hlevel d hd
    have hy1 := m3 d d (List.getElem?_range hd)
    rw [h1] at hy1
    simp only [plan, Nat.zero_le, if_true, Nat.sub_zero, hy1, Option.getD_some]
    rw [rep_linked pairs gs h3 h4 h5]
    have : (fun x y => (x, y) ∈ pairs) = Asked m pairing d := by funext a b; exact propext (h2 a b)
    unfold UnionFind.Linked
    rw [this]

/-- Merging in two steps is merging once. -/
theorem eqvGen_two_steps {α : Type} (R S : α → α → Prop) (ρ : α → α) (hρ : ∀ k k', ρ k = ρ k' ↔ Relation.EqvGen R k k') (k k' : α) :
    Relation.EqvGen (fun a b => ∃ x y, ρ x = a ∧ ρ y = b ∧ S x y) (ρ k) (ρ k') ↔ Relation.EqvGen (fun a b => R a b ∨ S a b) k k' := by
  have hR : ∀ x y, Relation.EqvGen R x y → Relation.EqvGen (fun a b => R a b ∨ S a b) x y := by
    intro x y h
    exact h.mono (fun _ _ h => Or.inl h)
  constructor
  · intro h
    have key : ∀ a b, Relation.EqvGen (fun a b => ∃ x y, ρ x = a ∧ ρ y = b ∧ S x y) a b →
        a = b ∨ ∃ x y, ρ x = a ∧ ρ y = b ∧ Relation.EqvGen (fun a b => R a b ∨ S a b) x y := by
      intro a b h
      induction h with
      | rel a b h =>
        obtain ⟨x, y, h1, h2, h3⟩ := h
        exact Or.inr ⟨x, y, h1, h2, .rel _ _ (Or.inr h3)⟩
      | refl a => exact Or.inl rfl
      | symm a b _ ih =>
        rcases ih with h | ⟨x, y, h1, h2, h3⟩
        · exact Or.inl h.symm
        · exact Or.inr ⟨y, x, h2, h1, .symm _ _ h3⟩
      | trans a b c _ _ ih1 ih2 =>
        rcases ih1 with rfl | ⟨x, y, h1, h2, h3⟩
        · exact ih2
        · rcases ih2 with rfl | ⟨x', y', h1', h2', h3'⟩
          · exact Or.inr ⟨x, y, h1, h2, h3⟩
          · refine Or.inr ⟨x, y', h1, h2', .trans _ _ _ h3 (.trans _ _ _ (hR _ _ ((hρ y x').1 ?_)) h3')⟩
            rw [h2, h1']
    rcases key _ _ h with h1 | ⟨x, y, h1, h2, h3⟩
    · exact hR _ _ ((hρ _ _).1 h1)
    · exact .trans _ _ _ (hR _ _ ((hρ _ _).1 h1.symm)) (.trans _ _ _ h3 (hR _ _ ((hρ _ _).1 h2)))
  · intro h
    induction h with
    | rel a b h =>
      rcases h with h | h
      · rw [(hρ a b).2 (.rel _ _ h)]; exact .refl _
      · exact .rel _ _ ⟨a, b, rfl, rfl, h⟩
    | refl a => exact .refl _
    | symm a b _ ih => exact .symm _ _ ih
    | trans a b c _ _ ih1 ih2 => exact .trans _ _ _ ih1 ih2

/-- A coordinate that an element uses. -/
def UsedCoord (m : Mesh P) (c : Nat) : Prop := ∃ el ∈ m.elems, c ∈ el.coords

theorem usedCoord_node (shapes : List Shape) (dim : Nat) (m m' : Mesh P) (ρ : Nat → Nat → Nat)
    (h : Consistent shapes dim m) (hr : Renamed shapes dim m m' ρ) (c : Nat) (hc : UsedCoord m c) :
    ∃ x y n, m.coords[c]? = some x ∧ m'.coords[c]? = some y ∧ x.node = some n ∧ y.node = some (ρ 0 n) := by
  obtain ⟨el, h1, h2⟩ := hc
  obtain ⟨i, hi⟩ := List.mem_iff_getElem?.1 h2
  obtain ⟨x, hx1, hx2⟩ := (h.coords el h1).2 i c hi
  obtain ⟨y, hy1, hy2⟩ := (hr.cons.coords { el with inc := fun d => (el.inc d).map (ρ d) } (by
    rw [hr.elems]; exact List.mem_map.2 ⟨el, h1, rfl⟩)).2 i c hi
  have hlen := (h.coords el h1).1
  have hlt := (List.getElem?_eq_some_iff.1 hi).1
  have hn := List.getElem?_eq_getElem (show i < (el.inc 0).length by omega)
  refine ⟨x, y, (el.inc 0)[i], hx1, hy1, by rw [hx2, hn], ?_⟩
  rw [hy2, List.getElem?_map, hn]; rfl

/-- What a pairing asks of a renamed mesh is what it asked of the mesh. -/
theorem asked_renamed (shapes : List Shape) (dim : Nat) (m m' : Mesh P) (ρ : Nat → Nat → Nat) (h : Consistent shapes dim m)
    (hr : Renamed shapes dim m m' ρ) (pairing : List (Nat × Nat)) (hu : ∀ p ∈ pairing, UsedCoord m p.1 ∧ UsedCoord m p.2)
    (d a b : Nat) : Asked m' pairing d a b ↔ ∃ x y, ρ d x = a ∧ ρ d y = b ∧ Asked m pairing d x y := by
  unfold Asked
  split
  · rename_i h0
    subst h0
    constructor
    · rintro ⟨p, hp, x', y', hx', hy', ha, hb⟩
      obtain ⟨u1, u2⟩ := hu p hp
      obtain ⟨x, x1, n, c1, c2, c3, c4⟩ := usedCoord_node shapes dim m m' ρ h hr p.1 u1
      obtain ⟨y, y1, n', d1, d2, d3, d4⟩ := usedCoord_node shapes dim m m' ρ h hr p.2 u2
      rw [hx'] at c2; cases c2
      rw [hy'] at d2; cases d2
      rw [ha] at c4; rw [hb] at d4
      cases c4; cases d4
      exact ⟨n, n', rfl, rfl, p, hp, x, y, c1, d1, c3, d3⟩
    · rintro ⟨n, n', rfl, rfl, p, hp, x, y, c1, d1, c3, d3⟩
      obtain ⟨u1, u2⟩ := hu p hp
      obtain ⟨x0, x1, n0, e1, e2, e3, e4⟩ := usedCoord_node shapes dim m m' ρ h hr p.1 u1
      obtain ⟨y0, y1, n0', f1, f2, f3, f4⟩ := usedCoord_node shapes dim m m' ρ h hr p.2 u2
      rw [c1] at e1; cases e1
      rw [d1] at f1; cases f1
      rw [c3] at e3; cases e3
      rw [d3] at f3; cases f3
      exact ⟨p, hp, x1, y1, e2, f2, e4, f4⟩
  · constructor
    · rintro ⟨e, i, e', i', cs, cs', h1, h2, h3⟩
      obtain ⟨k, g1, g2⟩ := (partOf_renamed shapes dim m m' ρ hr d e i a cs).1 h1
      obtain ⟨k', g1', g2'⟩ := (partOf_renamed shapes dim m m' ρ hr d e' i' b cs').1 h2
      exact ⟨k, k', g2, g2', e, i, e', i', cs, cs', g1, g1', h3⟩
    · rintro ⟨k, k', g2, g2', e, i, e', i', cs, cs', g1, g1', h3⟩
      exact ⟨e, i, e', i', cs, cs', (partOf_renamed shapes dim m m' ρ hr d e i a cs).2 ⟨k, g1, g2⟩,
        (partOf_renamed shapes dim m m' ρ hr d e' i' b cs').2 ⟨k', g1', g2'⟩, h3⟩

/-- **C55.** Several pairings, of coordinates that elements use, can be applied one after another. The order does not
matter: two entities become one exactly when a chain of merges that the pairings ask of the original mesh links them. -/
theorem connect_all (shapes : List Shape) (dim : Nat) (hdim : 0 < dim) (hsh : ShapesOk shapes dim)
    (pairings : List (List (Nat × Nat))) (hone : ∀ p ∈ pairings, OneToOne p) : ∀ (m : Mesh P), Consistent shapes dim m →
    CoordShared dim m → CoordsValid m → (∀ p ∈ pairings, ∀ q ∈ p, UsedCoord m q.1 ∧ UsedCoord m q.2) →
    ∃ m' ρ, pairings.foldlM (connect dim) m = some m' ∧ Renamed shapes dim m m' ρ ∧ CoordShared dim m' ∧
      ∀ d < dim, ∀ k k', ρ d k = ρ d k' ↔ Relation.EqvGen (fun a b => ∃ p ∈ pairings, Asked m p d a b) k k' := by
  induction pairings with
  | nil =>
    intro m h hs hv _
    refine ⟨m, fun _ => id, rfl, Renamed.refl h, hs, ?_⟩
    intro d _ k k'
    constructor
    · intro h; simp only [id] at h; subst h; exact .refl _
    · intro h
      induction h with
      | rel a b h => obtain ⟨p, hp, _⟩ := h; cases hp
      | refl a => rfl
      | symm a b _ ih => exact ih.symm
      | trans a b c _ _ ih1 ih2 => exact ih1.trans ih2
  | cons p ps ih =>
    intro m h hs hv hu
    have hlt : ∀ c, UsedCoord m c → c < m.coords.length := by
      rintro c ⟨el, h1, h2⟩
      obtain ⟨i, hi⟩ := List.mem_iff_getElem?.1 h2
      obtain ⟨x, hx, _⟩ := (h.coords el h1).2 i c hi
      exact (List.getElem?_eq_some_iff.1 hx).1
    obtain ⟨m1, ρ, a1, a2, a3, a4⟩ := connect_spec shapes dim hdim hsh m h hs hv p (hone p (by simp)) (by
      intro q hq
      obtain ⟨u1, u2⟩ := hu p (by simp) q hq
      exact ⟨hlt _ u1, hlt _ u2⟩)
    have hu1 : ∀ c, UsedCoord m c → UsedCoord m1 c := by
      rintro c ⟨el, h1, h2⟩
      exact ⟨{ el with inc := fun d => (el.inc d).map (ρ d) }, by rw [a2.elems]; exact List.mem_map.2 ⟨el, h1, rfl⟩, h2⟩
    obtain ⟨m2, σ, b1, b2, b3, b4⟩ := ih (fun q hq => hone q (by simp [hq])) m1 a2.cons a3 (a2.valid hv) (by
      intro q hq x hx
      obtain ⟨u1, u2⟩ := hu q (by simp [hq]) x hx
      exact ⟨hu1 _ u1, hu1 _ u2⟩)
    refine ⟨m2, fun d k => σ d (ρ d k), by simp only [List.foldlM_cons, a1, Option.bind_eq_bind, Option.bind_some]; exact b1,
      a2.trans b2, b3, ?_⟩
    intro d hd k k'
    rw [b4 d hd]
    have e1 : (fun a b => ∃ q ∈ ps, Asked m1 q d a b) = fun a b => ∃ x y, ρ d x = a ∧ ρ d y = b ∧ ∃ q ∈ ps, Asked m q d x y := by
      funext a b
      apply propext
      constructor
      · rintro ⟨q, hq, hab⟩
        obtain ⟨x, y, h1, h2, h3⟩ := (asked_renamed shapes dim m m1 ρ h a2 q (hu q (by simp [hq])) d a b).1 hab
        exact ⟨x, y, h1, h2, q, hq, h3⟩
      · rintro ⟨x, y, h1, h2, q, hq, h3⟩
        exact ⟨q, hq, (asked_renamed shapes dim m m1 ρ h a2 q (hu q (by simp [hq])) d a b).2 ⟨x, y, h1, h2, h3⟩⟩
    have e2 : (fun a b => ∃ q ∈ p :: ps, Asked m q d a b) = fun a b => Asked m p d a b ∨ ∃ q ∈ ps, Asked m q d a b := by
      funext a b
      apply propext
      simp
    rw [e1, e2]
    exact eqvGen_two_steps (Asked m p d) (fun a b => ∃ q ∈ ps, Asked m q d a b) (ρ d) (fun k k' => a4 d hd k k') k k'

/-- **C55.** A mesh in which elements have different nodes and entities are shared by nodes meets the condition on
coordinates. -/
theorem shared_coordShared (shapes : List Shape) (dim : Nat) (hdim : 0 < dim) (hsh : ShapesOk shapes dim) (m : Mesh P)
    (h : Consistent shapes dim m) (hs : Shared dim m) (hn : ∀ el ∈ m.elems, (el.inc 0).Nodup) : CoordShared dim m := by
  have hnode : ∀ el ∈ m.elems, ∀ (a c : Nat), el.coords[a]? = some c → (el.inc 0)[a]? = (m.coords[c]?).bind (·.node) := by
    intro el hel a c hac
    obtain ⟨x, hx1, hx2⟩ := (h.coords el hel).2 a c hac
    rw [hx1, ← hx2]; rfl
  refine ⟨?_, ?_⟩
  · intro el hel
    rw [List.nodup_iff_injective_getElem]
    intro ⟨a, ha⟩ ⟨b, hb⟩ hab
    simp only at hab
    have h1 := hnode el hel a _ (List.getElem?_eq_getElem ha)
    have h2 := hnode el hel b _ (List.getElem?_eq_getElem hb)
    rw [← hab, ← h1] at h2
    have hlen := (h.coords el hel).1
    have := (List.getElem?_inj (by omega) (hn el hel)).1 h2
    exact Fin.ext this.symm
  · intro d h0 hd e i k e' i' k' cs cs' hp hp' hc
    have key : ∀ e i k cs, PartOf m d e i k cs → ∃ el ns, m.elems[e]? = some el ∧ (el.inc d)[i]? = some k ∧
        partNodes el.shape (el.inc 0) d i = some ns ∧ ∀ n, n ∈ ns ↔ ∃ c ∈ cs, (m.coords[c]?).bind (·.node) = some n := by
      rintro e i k cs ⟨el, p, h1, h2, h3, h4⟩
      have hel := List.mem_of_getElem? h1
      obtain ⟨hok, _⟩ := hsh.shape _ (h.full el hel).1
      have hlen := (h.coords el hel).1
      have hf := (h.full el hel).2 0 hdim
      have hin : ∀ l ∈ p, l < (el.inc 0).length := by
        intro l hl
        have := hok.bound d p (List.mem_of_getElem? h3) l hl
        omega
      obtain ⟨ns, b1, _, _, b2⟩ := mapM_get (fun l => (el.inc 0)[l]?) p (fun l hl => ⟨_, List.getElem?_eq_getElem (hin l hl)⟩)
      obtain ⟨cs0, c1, _, _, c2⟩ := mapM_get (fun l => el.coords[l]?) p
        (fun l hl => ⟨_, List.getElem?_eq_getElem (by have := hin l hl; omega)⟩)
      rw [h4] at c1; cases c1
      refine ⟨el, ns, h1, h2, by simp [partNodes, h3, b1], ?_⟩
      intro n
      rw [b2]
      constructor
      · rintro ⟨l, hl, hln⟩
        have hc := List.getElem?_eq_getElem (show l < el.coords.length by have := hin l hl; omega)
        exact ⟨_, (c2 _).2 ⟨l, hl, hc⟩, by rw [← hnode el hel l _ hc]; exact hln⟩
      · rintro ⟨c, hc, hcn⟩
        obtain ⟨l, hl, hlc⟩ := (c2 c).1 hc
        exact ⟨l, hl, by rw [hnode el hel l c hlc]; exact hcn⟩
    obtain ⟨el, ns, a1, a2, a3, a4⟩ := key e i k cs hp
    obtain ⟨el', ns', b1, b2, b3, b4⟩ := key e' i' k' cs' hp'
    rw [hs d h0 hd e e' el el' i i' k k' ns ns' a1 b1 a2 b2 a3 b3]
    intro n
    rw [a4, b4]
    constructor
    · rintro ⟨c, hc1, hc2⟩; exact ⟨c, (hc c).1 hc1, hc2⟩
    · rintro ⟨c, hc1, hc2⟩; exact ⟨c, (hc c).2 hc1, hc2⟩

/-- **C55.** From the reader to the connected mesh: with elements that fit together and one-to-one pairings of coordinates
of elements all steps succeed, and entities are joined exactly as asked. -/
theorem reader_connect (shapes : List Shape) (dim : Nat) (hdim : 0 < dim) (hsh : ShapesOk shapes dim) (n : Nat)
    (coords : List (Nat × P)) (hcoords : ∀ c ∈ coords, c.1 < n) (els : List (List Nat × String))
    (given : List (Shape × List Nat)) (hlen : given.length = els.length)
    (hgiven : ∀ (i : Nat) (x : List Nat × String) (g : Shape × List Nat), els[i]? = some x → given[i]? = some g →
      findGeometry shapes x.1.length = some g.1 ∧ x.1.mapM (fun c => (coords[c]?).map Prod.fst) = some g.2)
    (hc : Conforming dim given) (pairings : List (List (Nat × Nat))) (hone : ∀ p ∈ pairings, OneToOne p) :
    ∃ m, run shapes dim Mesh.empty (reader n coords els) = some m ∧ Consistent shapes dim m ∧ Shared dim m ∧
      elemNodes m = given ∧ ((∀ p ∈ pairings, ∀ q ∈ p, UsedCoord m q.1 ∧ UsedCoord m q.2) →
      ∃ m' ρ, pairings.foldlM (connect dim) m = some m' ∧ Renamed shapes dim m m' ρ ∧ CoordShared dim m' ∧
        ∀ d < dim, ∀ k k', ρ d k = ρ d k' ↔ Relation.EqvGen (fun a b => ∃ p ∈ pairings, Asked m p d a b) k k') := by
  obtain ⟨m, h1, h2, h3, h4, h5, h6⟩ := reader_shared shapes dim hdim hsh n coords hcoords els given hlen hgiven hc
  refine ⟨m, h1, h2, h3, h4, fun hu => ?_⟩
  have hs := shared_coordShared shapes dim hdim hsh m h2 h3 (by
    intro el hel
    exact hc.1 (el.shape, el.inc 0) (by rw [← h4]; exact List.mem_map.2 ⟨el, hel, rfl⟩))
  have hv : CoordsValid m := by
    intro co hco
    rw [h5] at hco
    obtain ⟨c, hc1, rfl⟩ := List.mem_map.1 hco
    exact ⟨c.1, rfl, by rw [h6]; exact hcoords c hc1⟩
  exact connect_all shapes dim hdim hsh pairings hone m h2 hs hv hu

/-- The coordinates found by stage 1 are those on the boundary. -/
theorem boundaryCoords_spec (shapes : List Shape) (dim : Nat) (hdim : 0 < dim) (hsh : ShapesOk shapes dim) (m : Mesh P)
    (h : Consistent shapes dim m) (hs : CoordShared dim m) :
    ∃ bs, boundaryCoords dim m = some bs ∧ bs.Nodup ∧ ∀ c, c ∈ bs ↔ OnBoundary dim m c := by
  have key : ∀ fs : List Entity, (∀ f ∈ fs, f ∈ m.ents (dim - 1)) → ∃ r, boundaryOf dim m fs = some r ∧
      ∀ c, c ∈ r ↔ ∃ f ∈ fs, ∃ e i cs, f.inc = [(e, i)] ∧ PartOf m (dim - 1) e i f.id cs ∧ c ∈ cs := by
    intro fs
    induction fs with
    | nil => intro _; exact ⟨[], rfl, by simp⟩
    | cons f fs ih =>
      intro hfs
      obtain ⟨r, r1, r2⟩ := ih (fun x hx => hfs x (by simp [hx]))
      by_cases hf : ∃ e i, f.inc = [(e, i)]
      · obtain ⟨e, i, hf⟩ := hf
        obtain ⟨k, hk⟩ := List.mem_iff_getElem?.1 (hfs f (by simp))
        have hid := h.entId _ _ _ hk
        obtain ⟨el, a1, a2⟩ := (h.both (dim - 1) (by omega) e i k).2 ⟨f, hk, by rw [hf]; simp⟩
        have hcount := (h.full el (List.mem_of_getElem? a1)).2 (dim - 1) (by omega)
        have hlt := (List.getElem?_eq_some_iff.1 a2).1
        obtain ⟨cs, k', c1, c2, c3, c4, c5, c6⟩ := partCoords_some shapes dim hsh m h hdim hs.1 (dim - 1) e i (by omega) el a1 (by omega)
        rw [a2] at c2; cases c2
        have hloc : localIndexOf f e = some i := by simp [localIndexOf, hf]
        have hf0 := (h.full el (List.mem_of_getElem? a1)).2 0 hdim
        have hnl : ¬ (el.inc 0).length < el.shape.count 0 := by omega
        simp only [partCoords, Option.bind_eq_bind, Option.bind_eq_some_iff] at c1
        obtain ⟨ls, c1, c1'⟩ := c1
        refine ⟨cs ++ r, by simp [boundaryOf, r1, hf, a1, hloc, localIncidence, hnl, c1, c1'], ?_⟩
        intro c
        rw [List.mem_append, r2]
        constructor
        · rintro (h1 | ⟨f', h1, h2⟩)
          · exact ⟨f, by simp, e, i, cs, hf, by rw [hid]; exact c3, h1⟩
          · exact ⟨f', by simp [h1], h2⟩
        · rintro ⟨f', h1, e', i', cs', h2, h3, h4⟩
          rcases List.mem_cons.1 h1 with rfl | h1
          · rw [hf] at h2
            simp only [List.cons.injEq, Prod.mk.injEq, and_true] at h2
            obtain ⟨rfl, rfl⟩ := h2
            obtain ⟨_, rfl⟩ := c3.unique h3
            exact Or.inl h4
          · exact Or.inr ⟨f', h1, e', i', cs', h2, h3, h4⟩
      · refine ⟨r, ?_, ?_⟩
        · simp only [boundaryOf, r1, Option.bind_eq_bind, Option.bind_some]
          split
          · rename_i e i hx
            exact absurd ⟨e, i, hx⟩ hf
          · rfl
        · intro c
          rw [r2]
          constructor
          · rintro ⟨f', h1, h2⟩; exact ⟨f', by simp [h1], h2⟩
          · rintro ⟨f', h1, e', i', cs', h2, h3, h4⟩
            rcases List.mem_cons.1 h1 with rfl | h1
            · exact absurd ⟨e', i', h2⟩ hf
            · exact ⟨f', h1, e', i', cs', h2, h3, h4⟩
  obtain ⟨r, r1, r2⟩ := key (m.ents (dim - 1)) (fun _ h => h)
  refine ⟨toSet r, by simp [boundaryCoords, r1], toSet_nodup r, ?_⟩
  intro c
  rw [toSet_mem, r2]
  constructor
  · rintro ⟨f, hf, e, i, cs, h1, h2, h3⟩
    obtain ⟨k, hk⟩ := List.mem_iff_getElem?.1 hf
    rw [h.entId _ _ _ hk] at h2
    exact ⟨k, f, e, i, cs, hk, h1, h2, h3⟩
  · rintro ⟨k, f, e, i, cs, hk, h1, h2, h3⟩
    exact ⟨f, List.mem_of_getElem? hk, e, i, cs, h1, by rw [h.entId _ _ _ hk]; exact h2, h3⟩

/-- **C55.** A periodic connection along a translation. If no coordinate on the boundary matches two others, in either
direction, then `translationConnect` succeeds and joins exactly the nodes of matching boundary coordinates and the edges
and faces whose coordinates match. -/
theorem translationConnect_spec (shapes : List Shape) (dim : Nat) (hdim : 0 < dim) (hsh : ShapesOk shapes dim) (m : Mesh P)
    (h : Consistent shapes dim m) (hs : CoordShared dim m) (hv : CoordsValid m) (near : P → P → Bool)
    (hright : ∀ a b c, OnBoundary dim m a → OnBoundary dim m b → OnBoundary dim m c → Near m near a b → Near m near a c → b = c)
    (hleft : ∀ a b c, OnBoundary dim m a → OnBoundary dim m b → OnBoundary dim m c → Near m near b a → Near m near c a → b = c) :
    ∃ m' ρ pairing, translationConnect dim m near = some m' ∧ Renamed shapes dim m m' ρ ∧ CoordShared dim m' ∧
      (∀ c c', (c, c') ∈ pairing ↔ OnBoundary dim m c ∧ OnBoundary dim m c' ∧ Near m near c c') ∧
      ∀ d < dim, ∀ k k', ρ d k = ρ d k' ↔ Relation.EqvGen (Asked m pairing d) k k' := by
  obtain ⟨bs, b1, b2, b3⟩ := boundaryCoords_spec shapes dim hdim hsh m h hs
  have hnear : ∀ c c', (((m.coords[c]?).bind fun x => (m.coords[c']?).map fun y => near x.pos y.pos).getD false) = true ↔ Near m near c c' := by
    intro c c'
    unfold Near
    cases hx : m.coords[c]? with
    | none => simp
    | some x =>
      cases hy : m.coords[c']? with
      | none => simp
      | some y => simp
  have hpartner : ∀ c ∈ bs, ∀ c', partner m near bs c = some c' ↔ c' ∈ bs ∧ Near m near c c' := by
    intro c hc c'
    unfold partner
    constructor
    · intro h1
      have := List.mem_of_getLast? h1
      rw [List.mem_filter, hnear] at this
      exact this
    · rintro ⟨h1, h2⟩
      have hmem : c' ∈ bs.filter fun c' => ((m.coords[c]?).bind fun x => (m.coords[c']?).map fun y => near x.pos y.pos).getD false := by
        rw [List.mem_filter, hnear]; exact ⟨h1, h2⟩
      cases hl : (bs.filter fun c' => ((m.coords[c]?).bind fun x => (m.coords[c']?).map fun y => near x.pos y.pos).getD false).getLast? with
      | none => rw [List.getLast?_eq_none_iff] at hl; rw [hl] at hmem; cases hmem
      | some c'' =>
        have := List.mem_of_getLast? hl
        rw [List.mem_filter, hnear] at this
        rw [hright c c' c'' ((b3 c).1 hc) ((b3 c').1 h1) ((b3 c'').1 this.1) h2 this.2]
  have hpair : ∀ c c', (c, c') ∈ translationPairing m near bs ↔ OnBoundary dim m c ∧ OnBoundary dim m c' ∧ Near m near c c' := by
    intro c c'
    unfold translationPairing
    rw [List.mem_filterMap]
    constructor
    · rintro ⟨x, hx, hxc⟩
      rw [Option.map_eq_some_iff] at hxc
      obtain ⟨y, hy, hyc⟩ := hxc
      cases hyc
      obtain ⟨h1, h2⟩ := (hpartner c hx c').1 hy
      exact ⟨(b3 c).1 hx, (b3 c').1 h1, h2⟩
    · rintro ⟨h1, h2, h3⟩
      refine ⟨c, (b3 c).2 h1, ?_⟩
      rw [(hpartner c ((b3 c).2 h1) c').2 ⟨(b3 c').2 h2, h3⟩]; rfl
  have hfst : ((translationPairing m near bs).map Prod.fst).Nodup := by
    have : (translationPairing m near bs).map Prod.fst = bs.filter fun c => (partner m near bs c).isSome := by
      unfold translationPairing
      rw [List.map_filterMap]
      have : ∀ l : List Nat, l.filterMap (fun x => (Option.map (fun c' => (x, c')) (partner m near bs x)).map Prod.fst) =
          l.filter fun c => (partner m near bs c).isSome := by
        intro l
        induction l with
        | nil => rfl
        | cons a l ih =>
          rw [List.filterMap_cons, List.filter_cons]
          cases hp : partner m near bs a with
          | none => simpa using ih
          | some y => simpa using ih
      exact this bs
    rw [this]
    exact b2.filter _
  have hone : OneToOne (translationPairing m near bs) := by
    refine ⟨hfst, ?_⟩
    apply List.Nodup.map_on
    · rintro ⟨a, x⟩ hax ⟨b, y⟩ hby hxy
      simp only at hxy
      subst hxy
      obtain ⟨h1, h2, h3⟩ := (hpair a x).1 hax
      obtain ⟨h1', h2', h3'⟩ := (hpair b x).1 hby
      rw [hleft x a b h2 h1 h1' h3 h3']
    · exact List.Nodup.of_map _ hfst
  obtain ⟨m', ρ, c1, c2, c3, c4⟩ := connect_spec shapes dim hdim hsh m h hs hv (translationPairing m near bs) hone (by
    rintro ⟨a, b⟩ hab
    obtain ⟨_, _, x, y, hx, hy, _⟩ := (hpair a b).1 hab
    exact ⟨(List.getElem?_eq_some_iff.1 hx).1, (List.getElem?_eq_some_iff.1 hy).1⟩)
  refine ⟨m', ρ, _, ?_, c2, c3, hpair, c4⟩
  simp only [translationConnect, b1, Option.bind_eq_bind, Option.bind_some]
  exact c1

/-- **C55.** The test of `translationConnect` (TransformationConnector.h:75-76) never matches one point with two points
that are at least twice the tolerance `1e-8` apart, in either direction. -/
theorem near_unique {E : Type} [NormedAddCommGroup E] (t a b c : E) (hbc : 2e-8 ≤ ‖b - c‖) :
    ¬ (‖a + t - b‖ ^ 2 < 1e-16 ∧ ‖a + t - c‖ ^ 2 < 1e-16) ∧ ¬ (‖b + t - a‖ ^ 2 < 1e-16 ∧ ‖c + t - a‖ ^ 2 < 1e-16) := by
  have key : ∀ x y : E, ‖x‖ ^ 2 < 1e-16 → ‖y‖ ^ 2 < 1e-16 → ‖x - y‖ < 2e-8 := by
    intro x y hx hy
    have h1 : ‖x‖ < 1e-8 := by
      by_contra hc
      have : (1e-8 : ℝ) ≤ ‖x‖ := not_lt.1 hc
      nlinarith
    have h2 : ‖y‖ < 1e-8 := by
      by_contra hc
      have : (1e-8 : ℝ) ≤ ‖y‖ := not_lt.1 hc
      nlinarith
    have := norm_sub_le x y
    linarith
  constructor
  · rintro ⟨h1, h2⟩
    have := key _ _ h2 h1
    rw [show a + t - c - (a + t - b) = b - c by abel] at this
    linarith
  · rintro ⟨h1, h2⟩
    have := key _ _ h1 h2
    rw [show b + t - a - (c + t - a) = b - c by abel] at this
    linarith

/-- The square `[0,1]²` of two triangles, with its coordinates. -/
def square : Option (Mesh (Int × Int)) :=
  run (hpgemShapes 2) 2 Mesh.empty
    (reader 4 [(0, (0, 0)), (1, (1, 0)), (2, (0, 1)), (3, (1, 1))] [([0, 1, 2], ""), ([1, 3, 2], "")])

/-- `near` for a translation. -/
def shift (t x y : Int × Int) : Bool := (x.1 + t.1, x.2 + t.2) = y

/-- The plan that connects left and right: nodes 0 and 1, nodes 2 and 3, edges 1 and 3. -/
example : square.bind (fun m => boundaryCoords 2 m) = some [0, 1, 2, 3] ∧
    square.map (fun m => translationPairing m (shift (1, 0)) [0, 1, 2, 3]) = some [(0, 1), (2, 3)] ∧
    square.bind (fun m => computeMergePlan 2 m [(0, 1), (2, 3)]) = some [[[0, 1], [2, 3]], [[1, 3]]] := by decide +kernel

/-- All conditions of `reader_connect` hold for the square, connected left to right and bottom to top. -/
example : ∃ m m' : Mesh (Int × Int), square = some m ∧ [[(0, 1), (2, 3)], [(0, 2), (1, 3)]].foldlM (connect 2) m = some m' := by
  obtain ⟨m, h1, h2, h3, h4, h5⟩ := reader_connect (hpgemShapes 2) 2 (by decide) (hpgemShapes_shapesOk 2) 4
    [(0, ((0, 0) : Int × Int)), (1, (1, 0)), (2, (0, 1)), (3, (1, 1))] (by decide) [([0, 1, 2], ""), ([1, 3, 2], "")]
    [(triangle, [0, 1, 2]), (triangle, [1, 3, 2])] rfl (by
      intro i x g hx hg
      match i, hx, hg with
      | 0, hx, hg => cases hx; cases hg; exact ⟨rfl, rfl⟩
      | 1, hx, hg => cases hx; cases hg; exact ⟨rfl, rfl⟩)
    (conforming_of_size 2 _ (fun _ => 2) (by decide) (by
      intro x hx d h0 h1
      have hd : d = 1 := by omega
      subst hd
      simp only [List.mem_cons, List.not_mem_nil, or_false] at hx
      rcases hx with rfl | rfl <;> decide)) [[(0, 1), (2, 3)], [(0, 2), (1, 3)]] (by unfold OneToOne; decide)
  have hco : ∃ m0 : Mesh (Int × Int), square = some m0 ∧ ∀ c < 4, ∃ el ∈ m0.elems, c ∈ el.coords := by
    have hd : (square.map fun m => decide (∀ c ∈ List.range 4, m.elems.any (fun el => el.coords.contains c) = true)) = some true := by decide +kernel
    rw [Option.map_eq_some_iff] at hd
    obtain ⟨m0, e1, e2⟩ := hd
    refine ⟨m0, e1, fun c hc => ?_⟩
    have := of_decide_eq_true e2 c (List.mem_range.2 hc)
    rw [List.any_eq_true] at this
    obtain ⟨el, e3, e4⟩ := this
    exact ⟨el, e3, List.contains_iff_mem.1 e4⟩
  obtain ⟨m0, e1, e2⟩ := hco
  have : m0 = m := by
    have h1' : square = some m := h1
    rw [e1] at h1'; cases h1'; rfl
  subst this
  obtain ⟨m', ρ, g1, _⟩ := h5 (by
    intro p hp q hq
    have : q.1 < 4 ∧ q.2 < 4 := by
      revert q; revert p; decide
    exact ⟨e2 _ this.1, e2 _ this.2⟩)
  exact ⟨m0, m', h1, g1⟩

/-- **Finding.** With a pairing that is not one-to-one a merge is forgotten. The
edges of the triangles `[0,1,2]` and `[3,4,5]` on coordinates 1, 2 and 4, 5 are both mapped onto the edge of triangle
`[6,7,8]` on coordinates 7, 8. The nodes of all three are joined, but only one of the two edges is joined. -/
theorem computeMergePlan_forgets :
    (run (hpgemShapes 2) 2 (Mesh.empty : Mesh Unit)
      (reader 9 ((List.range 9).map fun i => (i, ())) [([0, 1, 2], ""), ([3, 4, 5], ""), ([6, 7, 8], "")])).bind
      (fun m => computeMergePlan 2 m [(1, 7), (2, 8), (4, 7), (5, 8)]) =
    some [[[1, 4, 7], [2, 5, 8]], [[5, 8]]] := by decide +kernel

/-- **Finding.** A pairing that maps two nodes of a part to the same coordinate stops the program. -/
theorem computeMergePlan_aborts :
    (run (hpgemShapes 2) 2 (Mesh.empty : Mesh Unit) (reader 3 ((List.range 3).map fun i => (i, ())) [([0, 1, 2], "")])).bind
      (fun m => computeMergePlan 2 m [(0, 2), (1, 2)]) = none := by decide +kernel

end Verif.MergePlan
