import Verif.StructMesh.Spec
import Mathlib.Data.Nat.Bitwise
import Mathlib.Data.List.Basic
import Mathlib.Data.List.Nodup
import Mathlib.Data.List.Perm.Basic
import Mathlib.Algebra.BigOperators.Group.List.Basic
import Mathlib.Algebra.CharZero.Defs
import Mathlib.Tactic.Ring
import Mathlib.Tactic.FieldSimp
import Mathlib.Tactic.Linarith

/-!
# Lemmas about loops and lattice points
-/

set_option linter.all false

namespace Verif.StructMesh

variable {K : Type*}

/-! ## Loops -/

/-- Loop indices below the counts. -/
def Below (cs l : List ℕ) : Prop := List.Forall₂ (fun c i => i < c) cs l

/-- Number of a combination of loop indices. -/
def flat : List ℕ → List ℕ → ℕ
  | c :: cs, i :: is => i + c * flat cs is
  | _, _ => 0

theorem flat_lt {cs l : List ℕ} (h : Below cs l) : flat cs l < cs.prod := by
  unfold Below at h
  induction h with
  | nil => simp [flat]
  | @cons c i cs is h1 h2 ih =>
    simp only [flat, List.prod_cons]
    calc i + c * flat cs is < c + c * flat cs is := by omega
      _ = c * (flat cs is + 1) := by ring
      _ ≤ c * cs.prod := Nat.mul_le_mul_left _ ih

theorem flat_inj {cs l m : List ℕ} (h : Below cs l) (h' : Below cs m)
    (e : flat cs l = flat cs m) : l = m := by
  unfold Below at h h'
  induction h generalizing m with
  | nil => cases h'; rfl
  | @cons c i cs is h1 h2 ih =>
    cases h' with
    | @cons _ k _ ks k1 k2 =>
      simp only [flat] at e
      have e1 : i = k := by
        have := congrArg (· % c) e
        simpa [Nat.add_mul_mod_self_left, Nat.mod_eq_of_lt h1, Nat.mod_eq_of_lt k1] using this
      subst e1
      have e2 : c * flat cs is = c * flat cs ks := by omega
      rw [ih k2 (Nat.eq_of_mul_eq_mul_left (by omega) e2)]

theorem step_spec {cs l : List ℕ} (h : Below cs l) :
    Below cs (step cs l) ∧ (flat cs l + 1 < cs.prod → flat cs (step cs l) = flat cs l + 1) := by
  unfold Below at *
  induction h with
  | nil => simp [step, flat]
  | @cons c i cs is h1 h2 ih =>
    simp only [step]
    split
    · rename_i h
      exact ⟨List.Forall₂.cons h h2, fun _ => by simp only [flat]; omega⟩
    · rename_i h
      have hi : i + 1 = c := by omega
      refine ⟨List.Forall₂.cons (by omega) ih.1, ?_⟩
      simp only [flat, List.prod_cons]
      intro hp
      have : flat cs is + 1 < cs.prod := by
        by_contra hc
        have : c * cs.prod ≤ c * (flat cs is + 1) := Nat.mul_le_mul_left _ (by omega)
        rw [Nat.mul_add] at this
        omega
      rw [ih.2 this, Nat.mul_add]
      omega

theorem below_zero {cs : List ℕ} (h : ∀ c ∈ cs, 0 < c) :
    Below cs (List.replicate cs.length 0) := by
  unfold Below
  induction cs with
  | nil => simp
  | cons c cs ih =>
    simp only [List.length_cons, List.replicate_succ]
    exact List.Forall₂.cons (h c List.mem_cons_self) (ih fun x hx => h x (List.mem_cons_of_mem _ hx))

theorem flat_zero (cs : List ℕ) (n : ℕ) : flat cs (List.replicate n 0) = 0 := by
  induction cs generalizing n with
  | nil => cases n <;> rfl
  | cons c cs ih => cases n <;> simp [flat, List.replicate_succ, ih]

theorem loop_spec {cs : List ℕ} (h : ∀ c ∈ cs, 0 < c) (k : ℕ) (hk : k < cs.prod) :
    Below cs ((step cs)^[k] (List.replicate cs.length 0)) ∧
      flat cs ((step cs)^[k] (List.replicate cs.length 0)) = k := by
  induction k with
  | zero => exact ⟨below_zero h, flat_zero _ _⟩
  | succ k ih =>
    obtain ⟨i1, i2⟩ := ih (by omega)
    rw [Function.iterate_succ_apply']
    obtain ⟨s1, s2⟩ := step_spec i1
    exact ⟨s1, by rw [s2 (by omega), i2]⟩

theorem loop_flat {cs l : List ℕ} (h : ∀ c ∈ cs, 0 < c) (hl : Below cs l) :
    (step cs)^[flat cs l] (List.replicate cs.length 0) = l :=
  flat_inj (loop_spec h _ (flat_lt hl)).1 hl (loop_spec h _ (flat_lt hl)).2

/-- The combinations in the order of the loop. -/
def allLoops (cs : List ℕ) : List (List ℕ) :=
  (List.range cs.prod).map fun k => (step cs)^[k] (List.replicate cs.length 0)

theorem mem_allLoops {cs l : List ℕ} (h : ∀ c ∈ cs, 0 < c) : l ∈ allLoops cs ↔ Below cs l := by
  simp only [allLoops, List.mem_map, List.mem_range]
  constructor
  · rintro ⟨k, hk, rfl⟩; exact (loop_spec h k hk).1
  · intro hl; exact ⟨_, flat_lt hl, loop_flat h hl⟩

theorem nodup_allLoops {cs : List ℕ} (h : ∀ c ∈ cs, 0 < c) : (allLoops cs).Nodup := by
  unfold allLoops
  refine List.Nodup.map_on ?_ List.nodup_range
  intro x hx y hy e
  rw [List.mem_range] at hx hy
  rw [← (loop_spec h x hx).2, e, (loop_spec h y hy).2]

/-! ## Lattice points of a node -/

/-- The node of a lattice point. -/
def wrap : List (Dim K) → List ℕ → List ℕ
  | d :: ds, p :: ps => (if d.periodic = true ∧ p = d.n then 0 else p) :: wrap ds ps
  | _, _ => []

def heads (d : Dim K) (w : ℕ) : List ℕ := if d.periodic && w == 0 then [0, d.n] else [w]

def pts : List (Dim K) → List ℕ → List (List ℕ)
  | d :: ds, w :: ws => (pts ds ws).flatMap fun q => (heads d w).map (· :: q)
  | _, _ => [[]]

theorem below_wrap {ds : List (Dim K)} (h0 : ∀ d ∈ ds, 0 < d.n) {p : List ℕ} (h : IsPoint ds p) :
    Below (ds.map Dim.nodes) (wrap ds p) := by
  unfold IsPoint at h
  unfold Below
  induction h with
  | nil => simp [wrap]
  | @cons d i ds is h1 h2 ih =>
    simp only [List.map_cons, wrap]
    refine List.Forall₂.cons ?_ (ih fun x hx => h0 x (List.mem_cons_of_mem _ hx))
    have := h0 d List.mem_cons_self
    unfold Dim.nodes
    cases hp : d.periodic
    · simp [hp]; omega
    · simp [hp]; split <;> omega

theorem mem_pts {ds : List (Dim K)} (h0 : ∀ d ∈ ds, 0 < d.n) {w p : List ℕ}
    (h : Below (ds.map Dim.nodes) w) : p ∈ pts ds w ↔ IsPoint ds p ∧ wrap ds p = w := by
  unfold IsPoint
  unfold Below at h
  induction ds generalizing w p with
  | nil =>
    cases h
    simp only [pts, List.mem_singleton]
    constructor
    · rintro rfl; exact ⟨List.Forall₂.nil, rfl⟩
    · rintro ⟨h, -⟩; cases h; rfl
  | cons d ds ih =>
    cases h with
    | @cons _ i _ is h1 h2 =>
      have hd := h0 d List.mem_cons_self
      have ih' := @ih (fun x hx => h0 x (List.mem_cons_of_mem _ hx)) is
      simp only [pts, List.mem_flatMap, List.mem_map]
      have hh : ∀ a, a ∈ heads d i ↔ a ≤ d.n ∧ (if d.periodic = true ∧ a = d.n then 0 else a) = i := by
        intro a
        unfold heads
        unfold Dim.nodes at h1
        cases hp : d.periodic
        · simp [hp] at h1 ⊢; omega
        · by_cases hi : i = 0
          · subst hi
            simp
            constructor
            · rintro (rfl | rfl) <;> simp
            · rintro ⟨a1, a2⟩
              by_cases ha : a = d.n
              · exact Or.inr ha
              · exact Or.inl (a2 ha)
          · simp [hp, hi] at h1 ⊢
            split <;> omega
      constructor
      · rintro ⟨q, hq, a, ha, rfl⟩
        obtain ⟨q1, q2⟩ := (ih' h2).1 hq
        obtain ⟨a1, a2⟩ := (hh a).1 ha
        exact ⟨List.Forall₂.cons a1 q1, by simp only [wrap, q2, a2]⟩
      · rintro ⟨hp, hw⟩
        cases hp with
        | @cons _ a _ q a1 q1 =>
          simp only [wrap, List.cons.injEq] at hw
          exact ⟨q, (ih' h2).2 ⟨q1, hw.2⟩, a, (hh a).2 ⟨a1, hw.1⟩, rfl⟩

theorem nodup_pts {ds : List (Dim K)} (h0 : ∀ d ∈ ds, 0 < d.n) (w : List ℕ) : (pts ds w).Nodup := by
  induction ds generalizing w with
  | nil => cases w <;> simp [pts]
  | cons d ds ih =>
    cases w with
    | nil => simp [pts]
    | cons i is =>
      have hd := h0 d List.mem_cons_self
      simp only [pts]
      rw [List.nodup_flatMap]
      constructor
      · intro q _
        unfold heads
        split
        · simp; omega
        · simp
      · have := ih (fun x hx => h0 x (List.mem_cons_of_mem _ hx)) is
        refine List.Pairwise.imp ?_ this
        intro a b hab
        simp only [Function.onFun, List.disjoint_left, List.mem_map]
        rintro x ⟨u, -, rfl⟩ ⟨v, -, e⟩
        simp only [List.cons.injEq] at e
        exact hab e.2.symm

/-- All lattice points in the order of the nodes. -/
def allPts (ds : List (Dim K)) : List (List ℕ) := (allLoops (ds.map Dim.nodes)).flatMap (pts ds)

theorem nodes_pos {ds : List (Dim K)} (h0 : ∀ d ∈ ds, 0 < d.n) : ∀ c ∈ ds.map Dim.nodes, 0 < c := by
  intro c hc
  obtain ⟨d, hd, rfl⟩ := List.mem_map.1 hc
  have := h0 d hd
  unfold Dim.nodes
  omega

theorem n_pos {ds : List (Dim K)} (h0 : ∀ d ∈ ds, 0 < d.n) : ∀ c ∈ ds.map Dim.n, 0 < c := by
  intro c hc
  obtain ⟨d, hd, rfl⟩ := List.mem_map.1 hc
  exact h0 d hd

theorem mem_allPts {ds : List (Dim K)} (h0 : ∀ d ∈ ds, 0 < d.n) (p : List ℕ) :
    p ∈ allPts ds ↔ IsPoint ds p := by
  simp only [allPts, List.mem_flatMap]
  constructor
  · rintro ⟨w, hw, hp⟩
    exact ((mem_pts h0 ((mem_allLoops (nodes_pos h0)).1 hw)).1 hp).1
  · intro hp
    have hb := below_wrap h0 hp
    exact ⟨wrap ds p, (mem_allLoops (nodes_pos h0)).2 hb, (mem_pts h0 hb).2 ⟨hp, rfl⟩⟩

theorem nodup_allPts {ds : List (Dim K)} (h0 : ∀ d ∈ ds, 0 < d.n) : (allPts ds).Nodup := by
  unfold allPts
  rw [List.nodup_flatMap]
  refine ⟨fun w _ => nodup_pts h0 w, ?_⟩
  refine List.Pairwise.imp_of_mem ?_ (nodup_allLoops (nodes_pos h0))
  intro a b ha hb hab
  simp only [Function.onFun, List.disjoint_left]
  intro p hpa hpb
  rw [mem_pts h0 ((mem_allLoops (nodes_pos h0)).1 ha)] at hpa
  rw [mem_pts h0 ((mem_allLoops (nodes_pos h0)).1 hb)] at hpb
  exact hab (hpa.2.symm.trans hpb.2)

/-! ## Coordinates of a node -/

variable [Field K]

def addFrom : ℕ → List (Dim K) → List ℕ → List K → List K
  | i, d :: ds, p :: ps, c =>
    addFrom (i + 1) ds ps (if d.periodic = true ∧ p = d.n then c.modify i (· + d.size) else c)
  | _, _, _, c => c

theorem copies_eq {ds : List (Dim K)} (h0 : ∀ d ∈ ds, 0 < d.n) (i : ℕ) {w : List ℕ}
    (h : Below (ds.map Dim.nodes) w) (cs : List (List K)) :
    copies i ds w cs = (pts ds w).flatMap fun q => cs.map (addFrom i ds q) := by
  unfold Below at h
  induction ds generalizing i w cs with
  | nil =>
    cases h
    simp [copies, pts, addFrom]
  | cons d ds ih =>
    cases h with
    | @cons _ v _ ws h1 h2 =>
      have hd := h0 d List.mem_cons_self
      simp only [copies, pts]
      rw [ih (fun x hx => h0 x (List.mem_cons_of_mem _ hx)) (i + 1) h2, List.flatMap_assoc]
      congr 1
      funext q
      unfold heads
      unfold Dim.nodes at h1
      by_cases hc : d.periodic = true ∧ v = 0
      · obtain ⟨c1, rfl⟩ := hc
        have : ¬ (0 = d.n) := by omega
        simp [c1, addFrom, this, Function.comp_def]
      · have : ¬ (d.periodic = true ∧ v = d.n) := by
          rintro ⟨a, rfl⟩; simp [a] at h1
        have hc' : ¬ ((d.periodic && v == 0) = true) := by simpa using hc
        rw [if_neg hc', if_neg hc']
        simp only [List.map_cons, List.map_nil, List.flatMap_cons, List.flatMap_nil,
          List.append_nil, addFrom, if_neg this]

theorem modify_append_length {α : Type*} (f : α → α) (pre : List α) (x : α) (l : List α) :
    (pre ++ x :: l).modify pre.length f = pre ++ f x :: l := by
  induction pre with
  | nil => simp
  | cons a pre ih => simp [ih]

theorem addFrom_base [CharZero K] {ds : List (Dim K)} (h0 : ∀ d ∈ ds, 0 < d.n) {p : List ℕ}
    (h : IsPoint ds p) (pre : List K) :
    addFrom pre.length ds p (pre ++ basePoint ds (wrap ds p)) = pre ++ position ds p := by
  unfold IsPoint at h
  induction h generalizing pre with
  | nil => simp [addFrom, basePoint, position, wrap]
  | @cons d i ds is h1 h2 ih =>
    have hd := h0 d List.mem_cons_self
    have hn : (d.n : K) ≠ 0 := Nat.cast_ne_zero.2 (by omega)
    have ih' := fun pre => ih (fun x hx => h0 x (List.mem_cons_of_mem _ hx)) pre
    simp only [addFrom, wrap, basePoint, position, List.zipWith_cons_cons] at ih' ⊢
    by_cases hc : d.periodic = true ∧ i = d.n
    · obtain ⟨c1, rfl⟩ := hc
      have e : (pre ++ (d.lower + ((0 : ℕ) : K) * d.size / (d.n : K)) ::
          List.zipWith (fun (d : Dim K) (i : ℕ) => d.lower + (i : K) * d.size / (d.n : K)) ds (wrap ds is)).modify pre.length (· + d.size)
          = (pre ++ [d.lower + (d.n : K) * d.size / (d.n : K)]) ++
          List.zipWith (fun (d : Dim K) (i : ℕ) => d.lower + (i : K) * d.size / (d.n : K)) ds (wrap ds is) := by
        rw [modify_append_length]
        simp only [List.append_assoc, List.cons_append, List.nil_append]
        congr 2
        rw [Nat.cast_zero]
        field_simp
        ring
      rw [if_pos ⟨c1, rfl⟩, if_pos ⟨c1, rfl⟩, e]
      have := ih' (pre ++ [d.lower + (d.n : K) * d.size / (d.n : K)])
      rw [List.length_append, List.length_singleton] at this
      rw [this]
      simp
    · rw [if_neg hc, if_neg hc]
      have := ih' (pre ++ [d.lower + (i : K) * d.size / (d.n : K)])
      rw [List.length_append, List.length_singleton] at this
      simp only [List.append_assoc, List.cons_append, List.nil_append] at this
      exact this

theorem copies_pts [CharZero K] {ds : List (Dim K)} (h0 : ∀ d ∈ ds, 0 < d.n) {w : List ℕ}
    (h : Below (ds.map Dim.nodes) w) :
    copies 0 ds w [basePoint ds w] = (pts ds w).map (position ds) := by
  rw [copies_eq h0 0 h]
  simp only [List.map_cons, List.map_nil]
  rw [← List.map_eq_flatMap]
  refine List.map_congr_left ?_
  intro p hp
  obtain ⟨h1, h2⟩ := (mem_pts h0 h).1 hp
  have := addFrom_base h0 h1 ([] : List K)
  rw [h2] at this
  simpa using this

/-! ## All nodes -/

theorem nodeRun_fst (ds : List (Dim K)) (k : ℕ) (l : List ℕ) (cum : ℕ) :
    (nodeRun ds k l cum).map (·.1) = (List.range k).map fun i =>
      copies 0 ds ((step (ds.map Dim.nodes))^[i] l)
        [basePoint ds ((step (ds.map Dim.nodes))^[i] l)] := by
  induction k generalizing l cum with
  | zero => rfl
  | succ k ih =>
    simp only [nodeRun, List.map_cons, ih, List.range_succ_eq_map, List.map_map]
    rfl

theorem nodeRun_snd (ds : List (Dim K)) (k : ℕ) (l : List ℕ) (cum : ℕ) :
    (nodeRun ds k l cum).flatMap (·.2)
      = List.range' cum ((nodeRun ds k l cum).flatMap (·.1)).length := by
  induction k generalizing l cum with
  | zero => rfl
  | succ k ih =>
    simp only [nodeRun, List.flatMap_cons, ih, List.length_append]
    rw [List.range'_append_1]

theorem nodeRun_get {β : Type*} (ds : List (Dim K)) (k : ℕ) (l : List ℕ) (cum : ℕ) (i : ℕ)
    (cs : List (List K)) (ids : List ℕ) (h : (nodeRun ds k l cum)[i]? = some (cs, ids)) (s : ℕ)
    (hs : s < cs.length) (M : List (List β))
    (hM : M.map List.length = (nodeRun ds k l cum).map (·.1.length)) :
    ∃ g, ids[s]? = some (cum + g) ∧ M.flatten[g]? = (M[i]?).bind (·[s]?) := by
  induction k generalizing l cum i M with
  | zero => simp [nodeRun] at h
  | succ k ih =>
    simp only [nodeRun] at h hM ⊢
    cases M with
    | nil => simp at hM
    | cons m M =>
    simp only [List.map_cons, List.cons.injEq] at hM
    obtain ⟨hm, hM⟩ := hM
    cases i with
    | zero =>
      simp only [List.getElem?_cons_zero, Option.some.injEq, Prod.mk.injEq] at h
      obtain ⟨h1, h2⟩ := h
      subst h1
      refine ⟨s, ?_, ?_⟩
      · rw [← h2]; simp [hs]
      · simp only [List.flatten_cons, List.getElem?_cons_zero, Option.bind_some]
        rw [List.getElem?_append_left (by omega)]
    | succ i =>
      simp only [List.getElem?_cons_succ] at h
      obtain ⟨g, g1, g2⟩ := ih _ _ _ h M hM
      refine ⟨(copies 0 ds l [basePoint ds l]).length + g, by rw [g1, Nat.add_assoc], ?_⟩
      simp only [List.flatten_cons, List.getElem?_cons_succ]
      rw [List.getElem?_append_right (by omega), ← g2]
      congr 1
      omega

theorem coordinates_eq [CharZero K] {ds : List (Dim K)} (h0 : ∀ d ∈ ds, 0 < d.n) :
    coordinates ds = (allPts ds).map (position ds) := by
  unfold coordinates nodes allPts allLoops
  rw [List.flatMap_def, nodeRun_fst, List.map_flatMap, List.flatMap_def, List.map_map]
  congr 1
  refine List.map_congr_left ?_
  intro k hk
  have := (loop_spec (nodes_pos h0) k (List.mem_range.1 hk)).1
  rw [List.length_map] at this
  simp only [Function.comp, List.length_map]
  exact copies_pts h0 this

theorem node_get [CharZero K] {ds : List (Dim K)} (h0 : ∀ d ∈ ds, 0 < d.n) {w : List ℕ}
    (h : Below (ds.map Dim.nodes) w) : ∃ ids : List ℕ, (coordinateIDs ds)[flat (ds.map Dim.nodes) w]? = some ids ∧
      ∀ (s : ℕ) (p : List ℕ), (pts ds w)[s]? = some p → ∃ g, ids[s]? = some g ∧ (allPts ds)[g]? = some p := by
  have hl : (step (ds.map Dim.nodes))^[flat (ds.map Dim.nodes) w] (List.replicate ds.length 0) = w := by
    have := loop_flat (nodes_pos h0) h
    rwa [List.length_map] at this
  have e1 := nodeRun_fst ds (ds.map Dim.nodes).prod (List.replicate ds.length 0) 0
  have e2 : ((nodes ds).map (·.1))[flat (ds.map Dim.nodes) w]?
      = some ((pts ds w).map (position ds)) := by
    unfold nodes
    rw [e1, List.getElem?_map, List.getElem?_range (flat_lt h), Option.map_some, hl, copies_pts h0 h]
  rw [List.getElem?_map, Option.map_eq_some_iff] at e2
  obtain ⟨⟨cs, ids⟩, e3, e4⟩ := e2
  simp only at e4
  refine ⟨ids, by unfold coordinateIDs; rw [List.getElem?_map, e3]; rfl, ?_⟩
  intro s p hp
  have hs : s < cs.length := by
    rw [e4, List.length_map]
    exact (List.getElem?_eq_some_iff.1 hp).1
  have hM : ((allLoops (ds.map Dim.nodes)).map (pts ds)).map List.length
      = (nodes ds).map (·.1.length) := by
    have : (nodes ds).map (·.1.length) = ((nodes ds).map (·.1)).map List.length := by
      rw [List.map_map]; rfl
    rw [this]
    unfold nodes
    rw [e1]
    unfold allLoops
    simp only [List.map_map, List.length_map]
    refine List.map_congr_left ?_
    intro k hk
    have := (loop_spec (nodes_pos h0) k (List.mem_range.1 hk)).1
    rw [List.length_map] at this
    simp only [Function.comp]
    rw [copies_pts h0 this, List.length_map]
  obtain ⟨g, g1, g2⟩ := nodeRun_get ds _ _ 0 _ cs ids e3 s hs _ hM
  refine ⟨g, by rw [g1, Nat.zero_add], ?_⟩
  unfold allPts
  rw [List.flatMap_def, g2, List.getElem?_map]
  unfold allLoops
  rw [List.getElem?_map, List.getElem?_range (flat_lt h), List.length_map]
  simp only [Option.map_some, Option.bind_some]
  rw [hl, hp]

end Verif.StructMesh
