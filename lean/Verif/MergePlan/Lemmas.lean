import Verif.MergePlan.Spec
import Verif.PreMesh.PropsShare

/-! # Pairing of coordinates: lemmas about the plan -/
set_option linter.all false
namespace Verif.MergePlan
open Verif.ElementShape Verif.PreMesh

variable {P : Type}

theorem toSet_mem (l : List Nat) (x : Nat) : x ∈ toSet l ↔ x ∈ l := by
  unfold toSet; rw [unique_mem, sort_mem]

theorem toSet_strict (l : List Nat) : (toSet l).Pairwise (· < ·) :=
  unique_strict _ (List.pairwise_insertionSort (· ≤ ·) l)

theorem toSet_nodup (l : List Nat) : (toSet l).Nodup := (toSet_strict l).imp (fun h => Nat.ne_of_lt h)

theorem toSet_eq_iff (a b : List Nat) : toSet a = toSet b ↔ ∀ x, x ∈ a ↔ x ∈ b := by
  constructor
  · intro h x; rw [← toSet_mem a, ← toSet_mem b, h]
  · intro h
    have hp : (toSet a).Perm (toSet b) := by
      rw [List.perm_ext_iff_of_nodup (toSet_nodup a) (toSet_nodup b)]
      intro x; rw [toSet_mem, toSet_mem, h]
    exact hp.eq_of_pairwise (fun x y _ _ h1 h2 => by omega) (toSet_strict a) (toSet_strict b)

theorem toSet_length (l : List Nat) (h : l.Nodup) : (toSet l).length = l.length := by
  apply List.Perm.length_eq
  rw [List.perm_ext_iff_of_nodup (toSet_nodup l) h]
  intro x; rw [toSet_mem]

theorem lookup_iff (pairing : List (Nat × Nat)) (h : (pairing.map Prod.fst).Nodup) (c c' : Nat) :
    lookup pairing c = some c' ↔ (c, c') ∈ pairing := by
  unfold lookup
  induction pairing with
  | nil => simp
  | cons p l ih =>
    obtain ⟨a, b⟩ := p
    simp only [List.map_cons, List.nodup_cons] at h
    rw [List.find?_cons]
    by_cases hac : a = c
    · subst hac
      simp only [decide_true, Option.map_some, Option.some.injEq, List.mem_cons, Prod.mk.injEq, true_and]
      constructor
      · intro h1; exact Or.inl h1.symm
      · rintro (h1 | h1)
        · exact h1.symm
        · exact absurd (List.mem_map.2 ⟨(a, c'), h1, rfl⟩) h.1
    · simp only [hac, decide_false, List.mem_cons, Prod.mk.injEq]
      rw [ih h.2]
      constructor
      · intro h1; exact Or.inr h1
      · rintro (h1 | h1)
        · exact absurd h1.1.symm hac
        · exact h1

theorem second_inj (pairing : List (Nat × Nat)) (h : (pairing.map Prod.snd).Nodup) (a b c : Nat) (ha : (a, c) ∈ pairing)
    (hb : (b, c) ∈ pairing) : a = b := by
  have := List.inj_on_of_nodup_map h ha hb rfl
  exact congrArg Prod.fst this

theorem first_inj (pairing : List (Nat × Nat)) (h : (pairing.map Prod.fst).Nodup) (a b c : Nat) (ha : (c, a) ∈ pairing)
    (hb : (c, b) ∈ pairing) : a = b := by
  have := List.inj_on_of_nodup_map h ha hb rfl
  exact congrArg Prod.snd this

/-- Translating a list of coordinates. -/
theorem mapM_lookup (pairing : List (Nat × Nat)) (h : OneToOne pairing) (cs : List Nat) (hc : cs.Nodup) :
    (cs.mapM (lookup pairing) = none ∧ ∃ c ∈ cs, ∀ c', (c, c') ∉ pairing) ∨
    ∃ rs, cs.mapM (lookup pairing) = some rs ∧ rs.Nodup ∧ rs.length = cs.length ∧
      (∀ c ∈ cs, ∃ c' ∈ rs, (c, c') ∈ pairing) ∧ ∀ c' ∈ rs, ∃ c ∈ cs, (c, c') ∈ pairing := by
  by_cases hall : ∀ c ∈ cs, ∃ c', lookup pairing c = some c'
  · right
    obtain ⟨rs, h1, h2, h3, h4⟩ := mapM_get (lookup pairing) cs hall
    obtain ⟨h5, h6, h7⟩ := mapM_inj (lookup pairing) cs rs h1 hc (by
      intro a ha b hb hab
      obtain ⟨c', hc'⟩ := hall a ha
      have e1 := (lookup_iff pairing h.1 a c').1 hc'
      have e2 := (lookup_iff pairing h.1 b c').1 (hab ▸ hc')
      exact second_inj pairing h.2 a b c' e1 e2)
    refine ⟨rs, h1, h6, h5, ?_, ?_⟩
    · intro c hc
      obtain ⟨c', hc'⟩ := hall c hc
      exact ⟨c', (h4 c').2 ⟨c, hc, hc'⟩, (lookup_iff pairing h.1 c c').1 hc'⟩
    · intro c' hc'
      obtain ⟨c, hc, hl⟩ := h7 c' hc'
      exact ⟨c, hc, (lookup_iff pairing h.1 c c').1 hl⟩
  · left
    simp only [not_forall, not_exists] at hall
    obtain ⟨c, hc, hno⟩ := hall
    refine ⟨?_, c, hc, fun c' hcc => hno c' ((lookup_iff pairing h.1 c c').2 hcc)⟩
    have hnone : lookup pairing c = none := by
      cases hl : lookup pairing c with
      | none => rfl
      | some x => exact absurd hl (hno x)
    clear hno
    induction cs with
    | nil => cases hc
    | cons a l ih =>
      rw [List.mapM_cons]
      rcases List.mem_cons.1 hc with rfl | h6
      · simp [hnone]
      · rw [ih (List.nodup_cons.1 ‹_›).2 h6]; cases lookup pairing a <;> rfl

theorem usingElements_spec (shapes : List Shape) (dim : Nat) (hdim : 0 < dim) (m : Mesh P) (h : Consistent shapes dim m)
    (c n : Nat) (ent : Entity) (hn : (m.ents 0)[n]? = some ent) (l : List (Nat × Nat)) (hl : ∀ p ∈ l, p ∈ ent.inc) :
    ∃ r, usingElements m c l = some r ∧ ∀ e, e ∈ r ↔ ∃ loc el, (e, loc) ∈ l ∧ m.elems[e]? = some el ∧ el.coords[loc]? = some c := by
  induction l with
  | nil => exact ⟨[], rfl, by simp⟩
  | cons p l ih =>
    obtain ⟨e, loc⟩ := p
    obtain ⟨r, h1, h2⟩ := ih (fun p hp => hl p (by simp [hp]))
    obtain ⟨el, a1, a2⟩ := (h.both 0 hdim e loc n).2 ⟨ent, hn, hl (e, loc) (by simp)⟩
    have hid := h.elemId e el a1
    have hlen := (h.coords el (List.mem_of_getElem? a1)).1
    have hlt := (List.getElem?_eq_some_iff.1 a2).1
    have hcc := List.getElem?_eq_getElem (show loc < el.coords.length by omega)
    refine ⟨_, by simp only [usingElements, a1, hcc, h1, Option.bind_eq_bind, Option.bind_some]; rfl, ?_⟩
    intro e'
    by_cases hceq : el.coords[loc] = c
    · rw [if_pos hceq, List.mem_cons, h2, hid]
      constructor
      · rintro (rfl | ⟨loc', el', b1, b2⟩)
        · exact ⟨loc, el, by simp, a1, by rw [hcc, hceq]⟩
        · exact ⟨loc', el', by simp [b1], b2⟩
      · rintro ⟨loc', el', b1, b2⟩
        rcases List.mem_cons.1 b1 with b3 | b3
        · cases b3; exact Or.inl rfl
        · exact Or.inr ⟨loc', el', b3, b2⟩
    · rw [if_neg hceq, h2]
      constructor
      · rintro ⟨loc', el', b1, b2⟩
        exact ⟨loc', el', by simp [b1], b2⟩
      · rintro ⟨loc', el', b1, b2, b3⟩
        rcases List.mem_cons.1 b1 with b4 | b4
        · cases b4
          rw [a1] at b2; cases b2
          rw [hcc] at b3; cases b3
          exact absurd rfl hceq
        · exact ⟨loc', el', b4, b2, b3⟩

theorem collect_spec (shapes : List Shape) (dim : Nat) (hdim : 0 < dim) (m : Mesh P) (h : Consistent shapes dim m)
    (hv : CoordsValid m) (cs : List Nat) (hcs : ∀ c ∈ cs, c < m.coords.length) :
    ∃ r, collect m cs = some r ∧ ∀ e, e ∈ r ↔ ∃ el, m.elems[e]? = some el ∧ ∃ c ∈ cs, c ∈ el.coords := by
  induction cs with
  | nil => exact ⟨[], rfl, by simp⟩
  | cons c cs ih =>
    obtain ⟨r, h1, h2⟩ := ih (fun x hx => hcs x (by simp [hx]))
    have hco := List.getElem?_eq_getElem (hcs c (by simp))
    obtain ⟨n, hn, hlt⟩ := hv _ (List.mem_of_getElem? hco)
    have hent := List.getElem?_eq_getElem hlt
    obtain ⟨r1, h3, h4⟩ := usingElements_spec shapes dim hdim m h c n _ hent _ (fun _ h => h)
    refine ⟨r1 ++ r, by simp only [collect, hco, hn, hent, h3, h1, Option.bind_eq_bind, Option.bind_some], ?_⟩
    intro e
    rw [List.mem_append, h4, h2]
    constructor
    · rintro (⟨loc, el, b1, b2, b3⟩ | ⟨el, b1, c', b2, b3⟩)
      · exact ⟨el, b2, c, by simp, List.mem_of_getElem? b3⟩
      · exact ⟨el, b1, c', by simp [b2], b3⟩
    · rintro ⟨el, b1, c', b2, b3⟩
      rcases List.mem_cons.1 b2 with rfl | b4
      · left
        obtain ⟨loc, hloc⟩ := List.mem_iff_getElem?.1 b3
        obtain ⟨co, d1, d2⟩ := (h.coords el (List.mem_of_getElem? b1)).2 loc c' hloc
        rw [hco] at d1; cases d1
        rw [hn] at d2
        obtain ⟨ent, e1, e2⟩ := (h.both 0 hdim e loc n).1 ⟨el, b1, d2.symm⟩
        rw [hent] at e1; cases e1
        exact ⟨loc, el, e2, b1, hloc⟩
      · right; exact ⟨el, b1, c', b4, b3⟩

/-- An element reports all its parts. -/
theorem elemIncidence_all (shapes : List Shape) (dim : Nat) (hsh : ShapesOk shapes dim) (m : Mesh P) (h : Consistent shapes dim m)
    (el : Elem) (hel : el ∈ m.elems) (d : Nat) (hd : 0 < d) (hdd : d < dim) :
    ∃ r, elemIncidence el dim d 0 = some r ∧ r.length = el.shape.count d := by
  obtain ⟨f1, f2⟩ := h.full el hel
  obtain ⟨hok, hsd⟩ := hsh.shape _ f1
  have hwhole : (el.shape.parts dim)[0]? = some (List.range (el.shape.count 0)) := by rw [← hsd, hok.element]; rfl
  have hconn : connected el.shape dim d (List.range (el.shape.count 0)) = List.range (el.shape.count d) := by
    unfold connected
    rw [List.filter_eq_self]
    intro i hi
    rw [List.mem_range] at hi
    have hp : (el.shape.parts d)[i]? = some (el.shape.parts d)[i] := List.getElem?_eq_getElem hi
    have hpm : (el.shape.parts d)[i] ∈ el.shape.parts d := List.getElem_mem hi
    rw [hp]
    simp only [hdd, if_true]
    rw [includes_iff _ _ (sort_strict _ List.nodup_range) (sort_strict _ (hok.nodup d _ hpm))]
    intro x hx
    rw [sort_mem] at hx ⊢
    rw [List.mem_range]
    exact hok.bound d _ hpm x hx
  have hadj : el.shape.adjacent dim d 0 = some (List.range (el.shape.count d)) := by
    have h0 : d ≠ 0 := by omega
    have h1 : d ≠ dim := by omega
    simp [Shape.adjacent, hwhole, h0, h1, hconn]
  have hlen := f2 d hdd
  have hnl : ¬ (el.inc d).length < el.shape.count d := by omega
  obtain ⟨r, b1, b2, _⟩ := mapM_get (fun l => (el.inc d)[l]?) (List.range (el.shape.count d)) (by
    intro l hl; rw [List.mem_range] at hl; exact ⟨_, List.getElem?_eq_getElem (by omega)⟩)
  refine ⟨r, by simp [elemIncidence, localIncidence, hnl, hadj, b1], by simp [b2]⟩

theorem boundingEntities_spec (shapes : List Shape) (dim : Nat) (hsh : ShapesOk shapes dim) (m : Mesh P)
    (h : Consistent shapes dim m) (d : Nat) (hd : 0 < d) (hdd : d < dim) (es : List Nat) (hes : ∀ e ∈ es, e < m.elems.length) :
    ∃ r, boundingEntities dim m d es = some r ∧ ∀ e i, (e, i) ∈ r ↔ e ∈ es ∧ ∃ el, m.elems[e]? = some el ∧ i < el.shape.count d := by
  induction es with
  | nil => exact ⟨[], rfl, by simp⟩
  | cons e es ih =>
    obtain ⟨r, h1, h2⟩ := ih (fun x hx => hes x (by simp [hx]))
    have he := List.getElem?_eq_getElem (hes e (by simp))
    obtain ⟨r1, h3, h4⟩ := elemIncidence_all shapes dim hsh m h _ (List.mem_of_getElem? he) d hd hdd
    refine ⟨_, by simp only [boundingEntities, he, h3, h1, Option.bind_eq_bind, Option.bind_some]; rfl, ?_⟩
    intro e' i
    rw [List.mem_append, h2]
    simp only [List.mem_map, List.mem_range, Prod.mk.injEq, List.mem_cons]
    constructor
    · rintro (⟨a, ha, rfl, rfl⟩ | ⟨b1, b2⟩)
      · exact ⟨Or.inl rfl, _, he, by omega⟩
      · exact ⟨Or.inr b1, b2⟩
    · rintro ⟨rfl | b1, el, b2, b3⟩
      · rw [he] at b2; cases b2
        exact Or.inl ⟨i, by omega, rfl, rfl⟩
      · exact Or.inr ⟨b1, el, b2, b3⟩

/-- The coordinates of a part that exists. -/
theorem partCoords_some (shapes : List Shape) (dim : Nat) (hsh : ShapesOk shapes dim) (m : Mesh P) (h : Consistent shapes dim m)
    (hdim : 0 < dim) (hnd : ∀ el ∈ m.elems, el.coords.Nodup) (d e i : Nat) (hdd : d < dim) (el : Elem) (he : m.elems[e]? = some el) (hi : i < el.shape.count d) :
    ∃ cs k, partCoords el d i = some cs ∧ (el.inc d)[i]? = some k ∧ PartOf m d e i k cs ∧ cs.Nodup ∧ cs ≠ [] ∧ ∀ c ∈ cs, c ∈ el.coords := by
  have hel := List.mem_of_getElem? he
  obtain ⟨f1, f2⟩ := h.full el hel
  obtain ⟨hok, hsd⟩ := hsh.shape _ f1
  have hp : (el.shape.parts d)[i]? = some (el.shape.parts d)[i] := List.getElem?_eq_getElem hi
  generalize (el.shape.parts d)[i] = p at hp
  have hpm := List.mem_of_getElem? hp
  have hlen := (h.coords el hel).1
  have h0 := f2 0 hdim
  have hin : ∀ l ∈ p, ∃ y, el.coords[l]? = some y := by
    intro l hl
    have := hok.bound d p hpm l hl
    exact ⟨_, List.getElem?_eq_getElem (by omega)⟩
  obtain ⟨cs, b1, b2, b3, b4⟩ := mapM_get (fun l => el.coords[l]?) p hin
  obtain ⟨_, c2, _⟩ := mapM_inj (fun l => el.coords[l]?) p cs b1 (hok.nodup d p hpm) (by
    intro a ha b hb hab
    obtain ⟨v, hv⟩ := hin a ha
    exact (List.getElem?_inj (List.getElem?_eq_some_iff.1 hv).1 (hnd el hel)).1 hab)
  have hk := List.getElem?_eq_getElem (show i < (el.inc d).length by rw [f2 d hdd]; exact hi)
  refine ⟨cs, _, ?_, hk, ⟨el, p, he, hk, hp, b1⟩, c2, ?_, ?_⟩
  · simp [partCoords, adjacent_nodes, hp, b1]
  · intro hc
    rw [hc] at b2
    exact hok.nonempty d p hpm (List.length_eq_zero_iff.1 b2.symm)
  · intro c hc
    obtain ⟨l, _, hl⟩ := (b4 c).1 hc
    exact List.mem_of_getElem? hl

theorem PartOf.unique {m : Mesh P} {d e i k k' : Nat} {cs cs' : List Nat} (h : PartOf m d e i k cs) (h' : PartOf m d e i k' cs') :
    k = k' ∧ cs = cs' := by
  obtain ⟨el, p, a1, a2, a3, a4⟩ := h
  obtain ⟨el', p', b1, b2, b3, b4⟩ := h'
  rw [a1] at b1; cases b1
  rw [a2] at b2; cases b2
  rw [a3] at b3; cases b3
  rw [a4] at b4; cases b4
  exact ⟨rfl, rfl⟩

theorem PartOf.index {shapes : List Shape} {dim : Nat} {m : Mesh P} {d e i k : Nat} {cs : List Nat} (h : PartOf m d e i k cs) :
    ∃ el, m.elems[e]? = some el ∧ i < el.shape.count d := by
  obtain ⟨el, p, a1, a2, a3, a4⟩ := h
  exact ⟨el, a1, (List.getElem?_eq_some_iff.1 a3).1⟩

theorem findLeft_spec (shapes : List Shape) (dim : Nat) (hdim : 0 < dim) (hsh : ShapesOk shapes dim) (m : Mesh P)
    (h : Consistent shapes dim m) (hnd : ∀ el ∈ m.elems, el.coords.Nodup) (pairing : List (Nat × Nat)) (hone : OneToOne pairing)
    (d : Nat) (hdd : d < dim) (ps : List (Nat × Nat))
    (hps : ∀ e i, (e, i) ∈ ps → ∃ el, m.elems[e]? = some el ∧ i < el.shape.count d) : ∀ found : List (List Nat × Nat),
    ∃ r, findLeft m d pairing ps found = some r ∧ ∀ S k, (S, k) ∈ r ↔ (S, k) ∈ found ∨
      ∃ e i cs rs, (e, i) ∈ ps ∧ PartOf m d e i k cs ∧ cs.mapM (lookup pairing) = some rs ∧ S = toSet rs := by
  induction ps with
  | nil => intro found; exact ⟨found, rfl, by simp⟩
  | cons p ps ih =>
    intro found
    obtain ⟨e, i⟩ := p
    obtain ⟨el, he, hi⟩ := hps e i (by simp)
    obtain ⟨cs, k, c1, c2, c3, c4, c5, c6⟩ := partCoords_some shapes dim hsh m h hdim hnd d e i hdd el he hi
    have ih' := ih (fun e i hm => hps e i (by simp [hm]))
    rcases mapM_lookup pairing hone cs c4 with ⟨hnone, _⟩ | ⟨rs, hrs, hrn, hrl, _⟩
    · obtain ⟨r, h1, h2⟩ := ih' found
      refine ⟨r, by simp only [findLeft, he, c1, hnone, Option.bind_eq_bind, Option.bind_some]; exact h1, ?_⟩
      intro S k'
      rw [h2]
      constructor
      · rintro (h3 | ⟨e', i', cs', rs', h3, h4⟩)
        · exact Or.inl h3
        · exact Or.inr ⟨e', i', cs', rs', by simp [h3], h4⟩
      · rintro (h3 | ⟨e', i', cs', rs', h3, h4, h5, h6⟩)
        · exact Or.inl h3
        · rcases List.mem_cons.1 h3 with h7 | h7
          · cases h7
            obtain ⟨_, rfl⟩ := c3.unique h4
            rw [hnone] at h5; cases h5
          · exact Or.inr ⟨e', i', cs', rs', h7, h4, h5, h6⟩
    · obtain ⟨r, h1, h2⟩ := ih' ((toSet rs, k) :: found)
      have hl : ¬ cs.length ≠ (toSet rs).length := by rw [toSet_length rs hrn]; omega
      refine ⟨r, by simp only [findLeft, he, c1, hrs, hl, if_false, c2, Option.bind_eq_bind, Option.bind_some]; exact h1, ?_⟩
      intro S k'
      rw [h2, List.mem_cons]
      constructor
      · rintro ((h3 | h3) | ⟨e', i', cs', rs', h3, h4⟩)
        · cases h3; exact Or.inr ⟨e, i, cs, rs, by simp, c3, hrs, rfl⟩
        · exact Or.inl h3
        · exact Or.inr ⟨e', i', cs', rs', by simp [h3], h4⟩
      · rintro (h3 | ⟨e', i', cs', rs', h3, h4, h5, h6⟩)
        · exact Or.inl (Or.inr h3)
        · rcases List.mem_cons.1 h3 with h7 | h7
          · cases h7
            obtain ⟨rfl, rfl⟩ := c3.unique h4
            rw [hrs] at h5; cases h5
            exact Or.inl (Or.inl (by rw [h6]))
          · exact Or.inr ⟨e', i', cs', rs', h7, h4, h5, h6⟩

theorem matchRight_spec (shapes : List Shape) (dim : Nat) (hdim : 0 < dim) (hsh : ShapesOk shapes dim) (m : Mesh P)
    (h : Consistent shapes dim m) (hnd : ∀ el ∈ m.elems, el.coords.Nodup) (d : Nat) (hdd : d < dim) (left : List (List Nat × Nat))
    (hfun : ∀ S k k', (S, k) ∈ left → (S, k') ∈ left → k = k') (ps : List (Nat × Nat))
    (hps : ∀ e i, (e, i) ∈ ps → ∃ el, m.elems[e]? = some el ∧ i < el.shape.count d) :
    ∃ r, matchRight m d left ps = some r ∧ ∀ a b, (a, b) ∈ r ↔ ∃ e i cs, (e, i) ∈ ps ∧ PartOf m d e i b cs ∧ (toSet cs, a) ∈ left := by
  induction ps with
  | nil => exact ⟨[], rfl, by simp⟩
  | cons p ps ih =>
    obtain ⟨e, i⟩ := p
    obtain ⟨el, he, hi⟩ := hps e i (by simp)
    obtain ⟨cs, k, c1, c2, c3, c4, c5, c6⟩ := partCoords_some shapes dim hsh m h hdim hnd d e i hdd el he hi
    obtain ⟨r, h1, h2⟩ := ih (fun e i hm => hps e i (by simp [hm]))
    cases hf : left.find? (fun x => decide (x.1 = toSet cs)) with
    | none =>
      refine ⟨r, by simp only [matchRight, he, c1, hf, Option.bind_eq_bind, Option.bind_some]; exact h1, ?_⟩
      intro a b
      rw [h2]
      constructor
      · rintro ⟨e', i', cs', h3, h4⟩; exact ⟨e', i', cs', by simp [h3], h4⟩
      · rintro ⟨e', i', cs', h3, h4, h5⟩
        rcases List.mem_cons.1 h3 with h7 | h7
        · cases h7
          obtain ⟨_, rfl⟩ := c3.unique h4
          rw [List.find?_eq_none] at hf
          have := hf _ h5
          simp at this
        · exact ⟨e', i', cs', h7, h4, h5⟩
    | some x =>
      obtain ⟨S, a0⟩ := x
      have hS := List.find?_some hf
      simp only [decide_eq_true_eq] at hS
      subst hS
      have hx := List.mem_of_find?_eq_some hf
      refine ⟨(a0, k) :: r, by simp only [matchRight, he, c1, hf, c2, h1, Option.bind_eq_bind, Option.bind_some], ?_⟩
      intro a b
      rw [List.mem_cons, h2]
      constructor
      · rintro (h3 | ⟨e', i', cs', h3, h4⟩)
        · cases h3; exact ⟨e, i, cs, by simp, c3, hx⟩
        · exact ⟨e', i', cs', by simp [h3], h4⟩
      · rintro ⟨e', i', cs', h3, h4, h5⟩
        rcases List.mem_cons.1 h3 with h7 | h7
        · cases h7
          obtain ⟨rfl, rfl⟩ := c3.unique h4
          left
          rw [hfun _ _ _ h5 hx]
        · exact Or.inr ⟨e', i', cs', h7, h4, h5⟩

/-- The pairs of one level are those asked for. -/
theorem levelPairs_spec (shapes : List Shape) (dim : Nat) (hdim : 0 < dim) (hsh : ShapesOk shapes dim) (m : Mesh P)
    (h : Consistent shapes dim m) (hs : CoordShared dim m) (hv : CoordsValid m) (pairing : List (Nat × Nat)) (hone : OneToOne pairing)
    (hb : ∀ p ∈ pairing, p.1 < m.coords.length ∧ p.2 < m.coords.length) (d : Nat) (hd : 0 < d) (hdd : d < dim) :
    ∃ r, levelPairs dim m pairing d = some r ∧ ∀ a b, (a, b) ∈ r ↔ Asked m pairing d a b := by
  obtain ⟨l1, l2, l3⟩ := collect_spec shapes dim hdim m h hv (pairing.map Prod.fst) (by
    intro c hc; obtain ⟨p, hp, rfl⟩ := List.mem_map.1 hc; exact (hb p hp).1)
  obtain ⟨r1, r2, r3⟩ := collect_spec shapes dim hdim m h hv (pairing.map Prod.snd) (by
    intro c hc; obtain ⟨p, hp, rfl⟩ := List.mem_map.1 hc; exact (hb p hp).2)
  obtain ⟨ls, b1, b2⟩ := boundingEntities_spec shapes dim hsh m h d hd hdd (toSet l1) (by
    intro e he; rw [toSet_mem, l3] at he; obtain ⟨el, he, _⟩ := he; exact (List.getElem?_eq_some_iff.1 he).1)
  obtain ⟨rs, b3, b4⟩ := boundingEntities_spec shapes dim hsh m h d hd hdd (toSet r1) (by
    intro e he; rw [toSet_mem, r3] at he; obtain ⟨el, he, _⟩ := he; exact (List.getElem?_eq_some_iff.1 he).1)
  obtain ⟨left, f1, f2⟩ := findLeft_spec shapes dim hdim hsh m h hs.1 pairing hone d hdd ls
    (fun e i hm => ((b2 e i).1 hm).2) []
  -- coordinates of a part
  have hpart : ∀ e i k cs, PartOf m d e i k cs → ∃ el, m.elems[e]? = some el ∧ i < el.shape.count d ∧ cs.Nodup ∧ cs ≠ [] ∧
      ∀ c ∈ cs, c ∈ el.coords := by
    intro e i k cs hp
    obtain ⟨el, he, hi⟩ := hp.index (shapes := shapes) (dim := dim)
    obtain ⟨cs', k', _, _, c3, c4, c5, c6⟩ := partCoords_some shapes dim hsh m h hdim hs.1 d e i hdd el he hi
    obtain ⟨_, rfl⟩ := hp.unique c3
    exact ⟨el, he, hi, c4, c5, c6⟩
  have hleft : ∀ S k, (S, k) ∈ left ↔ ∃ e i cs rs, PartOf m d e i k cs ∧ cs.mapM (lookup pairing) = some rs ∧ S = toSet rs := by
    intro S k
    rw [f2]
    constructor
    · rintro (h3 | ⟨e, i, cs, rs, _, h4⟩)
      · cases h3
      · exact ⟨e, i, cs, rs, h4⟩
    · rintro ⟨e, i, cs, rs, h4, h5, h6⟩
      refine Or.inr ⟨e, i, cs, rs, ?_, h4, h5, h6⟩
      obtain ⟨el, he, hi, hn, hne, hsub⟩ := hpart e i k cs h4
      rw [b2]
      refine ⟨?_, el, he, hi⟩
      rw [toSet_mem, l3]
      obtain ⟨c, tl, rfl⟩ := List.exists_cons_of_ne_nil hne
      rcases mapM_lookup pairing hone _ hn with ⟨hnone, _⟩ | ⟨rs', hrs, _, _, hx, _⟩
      · rw [hnone] at h5; cases h5
      · obtain ⟨c', _, hcc⟩ := hx c (by simp)
        exact ⟨el, he, c, List.mem_map.2 ⟨_, hcc, rfl⟩, hsub c (by simp)⟩
  have hfun : ∀ S k k', (S, k) ∈ left → (S, k') ∈ left → k = k' := by
    intro S k k' h3 h4
    obtain ⟨e, i, cs, rs, a1, a2, a3⟩ := (hleft S k).1 h3
    obtain ⟨e', i', cs', rs', a1', a2', a3'⟩ := (hleft S k').1 h4
    have hmem := (toSet_eq_iff rs rs').1 (a3 ▸ a3')
    apply hs.2 d hd hdd e i k e' i' k' cs cs' a1 a1'
    obtain ⟨_, _, _, hn, _⟩ := hpart e i k cs a1
    obtain ⟨_, _, _, hn', _⟩ := hpart e' i' k' cs' a1'
    rcases mapM_lookup pairing hone cs hn with ⟨hnone, _⟩ | ⟨q, hq, _, _, x1, x2⟩
    · rw [hnone] at a2; cases a2
    rcases mapM_lookup pairing hone cs' hn' with ⟨hnone, _⟩ | ⟨q', hq', _, _, y1, y2⟩
    · rw [hnone] at a2'; cases a2'
    rw [a2] at hq; cases hq
    rw [a2'] at hq'; cases hq'
    intro c
    constructor
    · intro hc
      obtain ⟨z, hz, hcz⟩ := x1 c hc
      obtain ⟨w, hw, hwz⟩ := y2 z ((hmem z).1 hz)
      rw [second_inj pairing hone.2 c w z hcz hwz]; exact hw
    · intro hc
      obtain ⟨z, hz, hcz⟩ := y1 c hc
      obtain ⟨w, hw, hwz⟩ := x2 z ((hmem z).2 hz)
      rw [second_inj pairing hone.2 c w z hcz hwz]; exact hw
  obtain ⟨r, m1, m2⟩ := matchRight_spec shapes dim hdim hsh m h hs.1 d hdd left hfun rs (fun e i hm => ((b4 e i).1 hm).2)
  refine ⟨r, ?_, ?_⟩
  · simp only [levelPairs, adjacentElements, l2, r2, Option.map_some, Option.bind_eq_bind, Option.bind_some, b1, f1, b3]
    exact m1
  · intro a b
    have h0 : d ≠ 0 := by omega
    rw [m2]
    simp only [Asked, h0, if_false]
    constructor
    · rintro ⟨e', i', cs', _, p2, p3⟩
      obtain ⟨e, i, cs, q, p4, p5, p6⟩ := (hleft _ _).1 p3
      refine ⟨e, i, e', i', cs, cs', p4, p2, ?_⟩
      obtain ⟨_, _, _, hn, _⟩ := hpart e i a cs p4
      have hmem := (toSet_eq_iff cs' q).1 p6
      rcases mapM_lookup pairing hone cs hn with ⟨hnone, _⟩ | ⟨q', hq, _, _, x1, x2⟩
      · rw [hnone] at p5; cases p5
      rw [p5] at hq; cases hq
      constructor
      · intro c hc
        obtain ⟨z, hz, hcz⟩ := x1 c hc
        exact ⟨z, (hmem z).2 hz, hcz⟩
      · intro c' hc'
        exact x2 c' ((hmem c').1 hc')
    · rintro ⟨e, i, e', i', cs, cs', p1, p2, p3, p4⟩
      obtain ⟨_, _, _, hn, _⟩ := hpart e i a cs p1
      obtain ⟨el', he', hi', hn', hne', hsub'⟩ := hpart e' i' b cs' p2
      rcases mapM_lookup pairing hone cs hn with ⟨_, c, hc, hno⟩ | ⟨q, hq, _, _, x1, x2⟩
      · obtain ⟨c', _, hcc⟩ := p3 c hc
        exact absurd hcc (hno c')
      refine ⟨e', i', cs', ?_, p2, (hleft _ _).2 ⟨e, i, cs, q, p1, hq, ?_⟩⟩
      · rw [b4]
        refine ⟨?_, el', he', hi'⟩
        rw [toSet_mem, r3]
        obtain ⟨c', tl, rfl⟩ := List.exists_cons_of_ne_nil hne'
        obtain ⟨c, _, hcc⟩ := p4 c' (by simp)
        exact ⟨el', he', c', List.mem_map.2 ⟨_, hcc, rfl⟩, hsub' c' (by simp)⟩
      · rw [toSet_eq_iff]
        intro c'
        constructor
        · intro hc'
          obtain ⟨c, hc, hcc⟩ := p4 c' hc'
          obtain ⟨z, hz, hcz⟩ := x1 c hc
          rw [first_inj pairing hone.1 c' z c hcc hcz]; exact hz
        · intro hc'
          obtain ⟨c, hc, hcc⟩ := x2 c' hc'
          obtain ⟨z, hz, hcz⟩ := p3 c hc
          rw [first_inj pairing hone.1 c' z c hcc hcz]; exact hz

theorem nodePairs_spec (m : Mesh P) (hv : CoordsValid m) (pairing : List (Nat × Nat))
    (hb : ∀ p ∈ pairing, p.1 < m.coords.length ∧ p.2 < m.coords.length) :
    ∃ r, nodePairs m pairing = some r ∧ ∀ a b, (a, b) ∈ r ↔ Asked m pairing 0 a b := by
  obtain ⟨r, h1, _, _, h2⟩ := mapM_get (fun p : Nat × Nat => do
    let a ← m.coords[p.1]?
    let b ← m.coords[p.2]?
    let x ← a.node
    let y ← b.node
    some (x, y)) pairing (by
      intro p hp
      obtain ⟨b1, b2⟩ := hb p hp
      have e1 := List.getElem?_eq_getElem b1
      have e2 := List.getElem?_eq_getElem b2
      obtain ⟨n1, c1, _⟩ := hv _ (List.mem_of_getElem? e1)
      obtain ⟨n2, c2, _⟩ := hv _ (List.mem_of_getElem? e2)
      exact ⟨(n1, n2), by simp [e1, e2, c1, c2]⟩)
  refine ⟨r, h1, ?_⟩
  intro a b
  rw [h2]
  simp only [Asked, if_true, Option.bind_eq_bind, Option.bind_eq_some_iff, Option.some.injEq, Prod.mk.injEq]
  constructor
  · rintro ⟨p, hp, x, hx, y, hy, n, hn, n', hn', rfl, rfl⟩
    exact ⟨p, hp, x, y, hx, hy, hn, hn'⟩
  · rintro ⟨p, hp, x, y, hx, hy, hn, hn'⟩
    exact ⟨p, hp, x, hx, y, hy, a, hn, b, hn', rfl, rfl⟩

end Verif.MergePlan
