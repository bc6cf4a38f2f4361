import Verif.StructMesh.Lemmas

/-!
# Lemmas about the corners of a cell
-/

set_option linter.all false

namespace Verif.StructMesh

variable {K : Type*}

def dot : List ℕ → List ℕ → ℕ
  | m :: ms, p :: ps => p * m + dot ms ps
  | _, _ => 0

theorem cornerNodes_get (j i : ℕ) (ms ls ids : List ℕ) (hlen : ms.length = ls.length)
    (hi : ids.length = 2 ^ i) (hj : j < 2 ^ (i + ls.length)) :
    (cornerNodes ms ls ids).length = 2 ^ (i + ls.length) ∧
    (cornerNodes ms ls ids)[j]?
      = (ids[j % 2 ^ i]?).map (· + dot ms (corner ls (j / 2 ^ i))) := by
  induction ls generalizing i ms ids with
  | nil =>
    have : ms = [] := List.length_eq_zero_iff.1 hlen
    subst this
    simp only [List.length_nil, Nat.add_zero] at hj
    simp only [cornerNodes, corner, dot, Nat.add_zero, Nat.mod_eq_of_lt hj]
    refine ⟨by simpa using hi, ?_⟩
    cases ids[j]? <;> simp
  | cons l ls ih =>
    cases ms with
    | nil => simp at hlen
    | cons m ms =>
      simp only [List.length_cons] at hlen hj
      have h2 : (ids.map (· + l * m) ++ ids.map (fun x => x + l * m + m)).length = 2 ^ (i + 1) := by
        simp [hi, pow_succ]; ring
      have e : i + (ls.length + 1) = (i + 1) + ls.length := by omega
      obtain ⟨q1, q2⟩ := ih (i + 1) ms _ (by omega) h2 (by rw [← e]; exact hj)
      simp only [cornerNodes, List.length_cons]
      refine ⟨by rw [q1, e], ?_⟩
      rw [q2]
      simp only [corner, dot]
      have hd : j / 2 ^ i / 2 = j / 2 ^ (i + 1) := by rw [Nat.div_div_eq_div_mul, pow_succ]
      have hm := @Nat.mod_pow_succ j 2 i
      have hlt : j % 2 ^ i < 2 ^ i := Nat.mod_lt _ (by positivity)
      have hb : j / 2 ^ i % 2 = 0 ∨ j / 2 ^ i % 2 = 1 := by omega
      rw [hd]
      generalize dot ms (corner ls (j / 2 ^ (i + 1))) = D
      obtain ⟨x, hx⟩ : ∃ x, ids[j % 2 ^ i]? = some x := ⟨_, List.getElem?_eq_getElem (by omega)⟩
      rcases hb with hb | hb
      · rw [hb] at hm; simp only [Nat.mul_zero, Nat.add_zero] at hm
        rw [hm, List.getElem?_append_left (by simp [hi, hlt]), List.getElem?_map, hx, hb]
        simp only [Option.map_some, Option.some.injEq]
        ring
      · rw [hb, Nat.mul_one] at hm
        rw [hm, List.getElem?_append_right (by simp [hi]), List.length_map, hi,
          Nat.add_sub_cancel, List.getElem?_map, hx, hb]
        simp only [Option.map_some, Option.some.injEq]
        ring

theorem dot_mults (m : ℕ) (ds : List (Dim K)) (p : List ℕ) :
    dot (mults m ds) p = m * flat (ds.map Dim.nodes) p := by
  induction ds generalizing m p with
  | nil => cases p <;> simp [mults, dot, flat]
  | cons d ds ih =>
    cases p with
    | nil => simp [mults, dot, flat]
    | cons a p => simp only [mults, dot, List.map_cons, flat, ih]; ring

theorem mults_length (m : ℕ) (ds : List (Dim K)) : (mults m ds).length = ds.length := by
  induction ds generalizing m with
  | nil => rfl
  | cons d ds ih => simp [mults, ih]

/-- Place of a lattice point among those of its node. -/
def sub : List (Dim K) → List ℕ → ℕ
  | d :: ds, p :: ps =>
    if d.periodic = true ∧ p = d.n then 1 + 2 * sub ds ps
    else if d.periodic = true ∧ p = 0 then 2 * sub ds ps else sub ds ps
  | _, _ => 0

def prevs : List (Dim K) → List ℕ → ℕ
  | d :: ds, p :: ps => (if d.periodic = true ∧ (p = d.n ∨ p = 0) then 1 else 0) + prevs ds ps
  | _, _ => 0

theorem pts_sub {ds : List (Dim K)} (h0 : ∀ d ∈ ds, 0 < d.n) {p : List ℕ} (h : IsPoint ds p) :
    (pts ds (wrap ds p))[sub ds p]? = some p := by
  unfold IsPoint at h
  induction h with
  | nil => simp [pts, wrap, sub]
  | @cons d i ds is h1 h2 ih =>
    have hd := h0 d List.mem_cons_self
    have ih' := ih fun x hx => h0 x (List.mem_cons_of_mem _ hx)
    clear ih
    simp only [wrap, pts, sub]
    have two : ∀ (L : List (List ℕ)) (a b : ℕ) (s : ℕ) (q : List ℕ), L[s]? = some q →
        (L.flatMap fun q => [a, b].map (· :: q))[2 * s]? = some (a :: q) ∧
        (L.flatMap fun q => [a, b].map (· :: q))[1 + 2 * s]? = some (b :: q) := by
      intro L a b s q hq
      induction L generalizing s with
      | nil => simp at hq
      | cons x L ih =>
        cases s with
        | zero => simp at hq; subst hq; simp
        | succ s =>
          obtain ⟨a1, a2⟩ := ih s (by simpa using hq)
          constructor
          · rw [show 2 * (s + 1) = 2 * s + 2 by ring]; simpa using a1
          · rw [show 1 + 2 * (s + 1) = (1 + 2 * s) + 2 by ring]; simpa using a2
    have one : ∀ (L : List (List ℕ)) (a : ℕ) (s : ℕ) (q : List ℕ), L[s]? = some q →
        (L.flatMap fun q => [a].map (· :: q))[s]? = some (a :: q) := by
      intro L a s q hq
      simp only [List.map_cons, List.map_nil]
      rw [← List.map_eq_flatMap, List.getElem?_map, hq]; rfl
    unfold heads
    by_cases hp : d.periodic = true
    · by_cases hn : i = d.n
      · subst hn
        simp only [hp, true_and, if_true, Bool.true_and, beq_self_eq_true]
        exact (two _ _ _ _ _ ih').2
      · by_cases hz : i = 0
        · subst hz
          simp only [hp, true_and, if_true, Bool.true_and, if_neg hn, beq_self_eq_true]
          exact (two _ _ _ _ _ ih').1
        · simp only [hp, true_and, if_true, Bool.true_and, if_neg hn, if_neg hz]
          rw [if_neg (by simpa using hz)]
          exact one _ _ _ _ ih'
    · simp only [hp, false_and, if_false, Bool.false_and]
      exact one _ _ _ _ ih'

theorem corner_point {ds : List (Dim K)} {l : List ℕ} (h : IsCell ds l) (j : ℕ) :
    IsPoint ds (corner l j) := by
  unfold IsCell at h
  unfold IsPoint
  induction h generalizing j with
  | nil => simp [corner]
  | @cons d i ds is h1 h2 ih =>
    simp only [corner]
    exact List.Forall₂.cons (by omega) (ih _)

theorem wrapCorner_eq (j i : ℕ) {ds : List (Dim K)} {l : List ℕ} (h : IsCell ds l) (m id s prev : ℕ) :
    wrapCorner j i ds (mults m ds) l
      (id + m * flat (ds.map Dim.nodes) (corner l (j / 2 ^ i)), s, prev)
    = (id + m * flat (ds.map Dim.nodes) (wrap ds (corner l (j / 2 ^ i))),
        s + 2 ^ prev * sub ds (corner l (j / 2 ^ i)),
        prev + prevs ds (corner l (j / 2 ^ i))) := by
  unfold IsCell at h
  induction h generalizing i m id s prev with
  | nil => simp [mults, wrapCorner, flat, corner, sub, prevs]
  | @cons d a ds is h1 h2 ih =>
    have hd : j / 2 ^ i / 2 = j / 2 ^ (i + 1) := by rw [Nat.div_div_eq_div_mul, pow_succ]
    have hbit : j &&& (1 <<< i) = (j / 2 ^ i % 2) * 2 ^ i := by
      rw [Nat.one_shiftLeft, Nat.and_two_pow, Nat.testBit_eq_decide_div_mod_eq]
      rcases Nat.mod_two_eq_zero_or_one (j / 2 ^ i) with h | h <;> simp [h]
    have hpos : 0 < 2 ^ i := by positivity
    simp only [mults, wrapCorner, corner, hd, List.map_cons, flat, wrap, sub, prevs]
    rw [hbit]
    have hb : j / 2 ^ i % 2 = 0 ∨ j / 2 ^ i % 2 = 1 := by omega
    set F := flat (ds.map Dim.nodes) (corner is (j / 2 ^ (i + 1))) with hF
    clear_value F
    have hn : d.nodes = if d.periodic = true then d.n else d.n + 1 := by
      unfold Dim.nodes; split <;> rfl
    rcases hb with hb | hb
    · rw [hb]
      simp only [Nat.zero_mul, ne_eq, not_true_eq_false, false_and, if_false, Nat.add_zero]
      have e1 : id + m * (a + d.nodes * F) = (id + m * a) + (m * d.nodes) * F := by ring
      have ne : ¬ (a = d.n) := by omega
      simp only [ne, and_false, if_false, false_or]
      by_cases hz : d.periodic = true ∧ a = 0
      · rw [if_pos hz, if_pos hz, if_pos hz]
        rw [e1, hF, ih]
        simp only [Prod.mk.injEq]
        refine ⟨by ring, by rw [pow_succ]; ring, by ring⟩
      · rw [if_neg hz, if_neg hz, if_neg hz, e1, hF, ih]
        simp only [Prod.mk.injEq]
        refine ⟨by ring, trivial, by ring⟩
    · rw [hb]
      have hne : ¬ ((1 : ℕ) * 2 ^ i = 0) := by omega
      have hne2 : ¬ (a + 1 * 2 ^ i = 0) := by omega
      have hne3 : ¬ (a + 1 = 0) := by omega
      simp only [ne_eq, hne, not_false_eq_true, true_and, hne2, and_false, if_false, hne3, or_false]
      by_cases hp : d.periodic = true ∧ a + 1 = d.n
      · have hc : a = d.nodes - 1 := by rw [hn, if_pos hp.1]; omega
        have hc' : d.nodes = a + 1 := by rw [hn, if_pos hp.1]; omega
        rw [if_pos hc, if_pos hp, if_pos hp, if_pos hp]
        have e1 : id + m * (a + 1 + d.nodes * F) - d.nodes * m = id + (m * d.nodes) * F := by
          rw [← hc']
          have : id + m * (d.nodes + d.nodes * F) = id + m * d.nodes * F + d.nodes * m := by ring
          rw [this, Nat.add_sub_cancel]
        rw [e1, hF, ih, Nat.one_shiftLeft]
        simp only [Prod.mk.injEq]
        refine ⟨by ring, by rw [pow_succ]; ring, by ring⟩
      · have hc : ¬ (a = d.nodes - 1) := by
          rw [hn]
          split
          · rename_i hq; intro h; exact hp ⟨hq, by omega⟩
          · omega
        rw [if_neg hc, if_neg hp, if_neg hp, if_neg hp]
        have e1 : id + m * (a + 1 + d.nodes * F) = (id + m * (a + 1)) + (m * d.nodes) * F := by ring
        rw [e1, hF, ih]
        simp only [Prod.mk.injEq]
        refine ⟨by ring, trivial, by ring⟩

theorem cell_length {ds : List (Dim K)} {l : List ℕ} (h : IsCell ds l) : ds.length = l.length :=
  List.Forall₂.length_eq h

theorem cornerNodes_cell {ds : List (Dim K)} {l : List ℕ} (h : IsCell ds l) (j : ℕ)
    (hj : j < 2 ^ ds.length) :
    (cornerNodes (mults 1 ds) l [0]).length = 2 ^ ds.length ∧
    (cornerNodes (mults 1 ds) l [0])[j]? = some (flat (ds.map Dim.nodes) (corner l j)) := by
  have hl := cell_length h
  have := cornerNodes_get j 0 (mults 1 ds) l [0] (by rw [mults_length, hl]) rfl
    (by rw [Nat.zero_add, ← hl]; exact hj)
  rw [Nat.zero_add, ← hl] at this
  refine ⟨this.1, ?_⟩
  rw [this.2]
  simp [dot_mults, Nat.mod_one]

variable [Field K]

theorem cornerId_spec [CharZero K] {ds : List (Dim K)} (h0 : ∀ d ∈ ds, 0 < d.n) {l : List ℕ}
    (h : IsCell ds l) (j : ℕ) (hj : j < 2 ^ ds.length) :
    ∃ g ids, cornerId ds l j = some g ∧
      (coordinateIDs ds)[flat (ds.map Dim.nodes) (wrap ds (corner l j))]? = some ids ∧ g ∈ ids ∧
      (allPts ds)[g]? = some (corner l j) := by
  have hp := corner_point h j
  obtain ⟨ids, i1, i2⟩ := node_get h0 (below_wrap h0 hp)
  obtain ⟨g, g1, g2⟩ := i2 _ _ (pts_sub h0 hp)
  refine ⟨g, ids, ?_, i1, List.mem_of_getElem? g1, g2⟩
  unfold cornerId
  rw [(cornerNodes_cell h j hj).2]
  have := wrapCorner_eq j 0 h 1 0 0 0
  simp only [pow_zero, Nat.div_one, Nat.one_mul, Nat.zero_add] at this
  simp only [Option.bind_eq_bind, Option.bind_some, this, i1, g1]

theorem cellIds_spec [CharZero K] {ds : List (Dim K)} (h0 : ∀ d ∈ ds, 0 < d.n) {l : List ℕ}
    (h : IsCell ds l) : ∃ ids, cellIds ds l = some ids ∧ ids.length = 2 ^ ds.length ∧
      ∀ j < 2 ^ ds.length, ids[j]? = cornerId ds l j := by
  have hlen := (cornerNodes_cell h 0 (by positivity)).1
  unfold cellIds
  rw [hlen]
  have key : ∀ L : List ℕ, (∀ j ∈ L, j < 2 ^ ds.length) →
      ∃ ids, L.mapM (cornerId ds l) = some ids ∧ ids.map some = L.map (cornerId ds l) := by
    intro L
    induction L with
    | nil => intro _; exact ⟨[], rfl, rfl⟩
    | cons j L ih =>
      intro hL
      obtain ⟨ids, a1, a2⟩ := ih fun x hx => hL x (List.mem_cons_of_mem _ hx)
      obtain ⟨g, _, g1, -⟩ := cornerId_spec h0 h j (hL j List.mem_cons_self)
      refine ⟨g :: ids, ?_, by simp [g1, a2]⟩
      rw [List.mapM_cons, g1, a1]
      rfl
  obtain ⟨ids, a1, a2⟩ := key (List.range (2 ^ ds.length)) fun j hj => List.mem_range.1 hj
  refine ⟨ids, a1, by simpa using congrArg List.length a2, ?_⟩
  intro j hj
  have := congrArg (·[j]?) a2
  simp only [List.getElem?_map, List.getElem?_range hj, Option.map_some] at this
  cases hc : ids[j]? with
  | none => rw [hc] at this; simp at this
  | some x => rw [hc] at this; simpa using this

end Verif.StructMesh
