import Verif.StructMesh.LemmasCorner
import Mathlib.Logic.Function.Iterate

/-!
# Lemmas about the elements
-/

set_option linter.all false

namespace Verif.StructMesh

variable {K : Type*}

/-- Number of quarter turns while the loops advance. -/
def rots : List ℕ → List ℕ → ℕ
  | c :: cs, i :: is => if i + 1 < c then 1 else 1 + (i + 1) % 2 + rots cs is
  | _, _ => 0

theorem turned_turned (T : List (List ℕ)) (a b : ℕ) : turned (turned T a) b = turned T (a + b) := by
  unfold turned
  rw [List.map_map]
  refine List.map_congr_left fun t _ => ?_
  simp only [Function.comp, List.map_map]
  refine List.map_congr_left fun k _ => ?_
  simp only [Function.comp]
  rw [Nat.add_comm, Function.iterate_add_apply]

theorem turned_one (T : List (List ℕ)) : T.map (List.map rot) = turned T 1 := rfl

theorem turned_zero (T : List (List ℕ)) : turned T 0 = T := by
  simp [turned]

theorem advance_eq (cs is : List ℕ) (T : List (List ℕ)) :
    advance cs is T = (step cs is, turned T (rots cs is)) := by
  induction cs generalizing is T with
  | nil => simp [advance, step, rots, turned_zero]
  | cons c cs ih =>
    cases is with
    | nil => simp [advance, step, rots, turned_zero]
    | cons i is =>
      simp only [advance, step, rots, turned_one]
      split
      · rfl
      · rcases Nat.mod_two_eq_zero_or_one (i + 1) with h | h
        · simp only [h, ih]
          simp [turned_turned]
        · simp only [h, ih]
          simp [turned_turned]

theorem rots_parity {cs is : List ℕ} (h : Below cs is) :
    (rots cs is + is.sum) % 2 = (step cs is).sum % 2 := by
  unfold Below at h
  induction h with
  | nil => rfl
  | @cons c i cs is h1 h2 ih =>
    simp only [rots, step]
    split
    · simp only [List.sum_cons]; omega
    · simp only [List.sum_cons]; omega

theorem cell_below (ds : List (Dim K)) (l : List ℕ) : IsCell ds l ↔ Below (ds.map Dim.n) l := by
  unfold IsCell Below
  rw [List.forall₂_map_left_iff]

variable [Field K]

/-! ## Rectangular -/

theorem run_rect (ds : List (Dim K)) (k : ℕ) (l : List ℕ) (T : List (List ℕ)) :
    elementRun ds false k ⟨l, 0, T⟩
      = ((List.range k).map fun i => (step (ds.map Dim.n))^[i] l).mapM (cellIds ds) := by
  induction k generalizing l T with
  | zero => rfl
  | succ k ih =>
    simp only [elementRun, increment, List.range_succ_eq_map, List.map_cons, List.map_map,
      List.mapM_cons, advance_eq]
    cases hc : cellIds ds l with
    | none => simp [hc]
    | some ids =>
      have := ih (step (ds.map Dim.n) l) (turned T (rots (ds.map Dim.n) l))
      simp [hc, this]
      rfl

theorem mapM_some {α β : Type*} (L : List α) (f : α → Option β) (g : α → β)
    (h : ∀ x ∈ L, f x = some (g x)) : L.mapM f = some (L.map g) := by
  induction L with
  | nil => rfl
  | cons x L ih =>
    rw [List.mapM_cons, h x List.mem_cons_self, ih fun y hy => h y (List.mem_cons_of_mem _ hy)]
    rfl

/-! ## Triangular -/

def pick (ids : List ℕ) (t : List ℕ) : List ℕ := t.map fun k => ids.getD k 0

theorem pick_spec (ids t : List ℕ) (h : ∀ k ∈ t, k < ids.length) :
    t.mapM (fun k => ids[k]?) = some (pick ids t) := by
  refine mapM_some _ _ _ fun k hk => ?_
  rw [List.getD_eq_getElem?_getD, List.getElem?_eq_getElem (h k hk)]
  rfl

theorem run_cell (ds : List (Dim K)) (l : List ℕ) (T : List (List ℕ)) (ids : List ℕ)
    (hids : cellIds ds l = some ids) (hT : ∀ t ∈ T, ∀ k ∈ t, k < ids.length) (m b : ℕ) :
    ∀ a, a + b + 1 = T.length →
    elementRun ds true (b + 1 + m) ⟨l, a, T⟩
      = (elementRun ds true m ⟨step (ds.map Dim.n) l, 0, turned T (rots (ds.map Dim.n) l)⟩).map
          (((T.drop a).map (pick ids)) ++ ·) := by
  induction b with
  | zero =>
    intro a ha
    have hlt : a < T.length := by omega
    have hget : T[a]? = some T[a] := List.getElem?_eq_getElem hlt
    have hp := pick_spec ids T[a] (hT _ (List.getElem_mem hlt))
    rw [show 0 + 1 + m = m + 1 by omega]
    have hd : T.drop a = [T[a]] := by
      rw [List.drop_eq_getElem_cons hlt, List.drop_of_length_le (by omega)]
    simp only [elementRun, increment, hids, hget, hp, advance_eq, hd]
    have e : a + 1 = T.length := by omega
    simp [e, hp]
    cases elementRun ds true m ⟨step (ds.map Dim.n) l, 0, turned T (rots (ds.map Dim.n) l)⟩ <;> simp
  | succ b ih =>
    intro a ha
    have hlt : a < T.length := by omega
    have hget : T[a]? = some T[a] := List.getElem?_eq_getElem hlt
    have hp := pick_spec ids T[a] (hT _ (List.getElem_mem hlt))
    rw [show b + 1 + 1 + m = (b + 1 + m) + 1 by omega]
    have ih' := ih (a + 1) (by omega)
    rw [List.drop_eq_getElem_cons hlt]
    generalize T.drop (a + 1) = D at ih' ⊢
    have e : ¬ (a + 1 = T.length) := by omega
    simp only [elementRun, increment, hids, hget, hp, advance_eq]
    simp [e, ih', hp]
    cases elementRun ds true m ⟨step (ds.map Dim.n) l, 0, turned T (rots (ds.map Dim.n) l)⟩ <;> simp

/-- Cell and number of quarter turns. -/
def adv (ds : List (Dim K)) (s : List ℕ × ℕ) : List ℕ × ℕ :=
  (step (ds.map Dim.n) s.1, s.2 + rots (ds.map Dim.n) s.1)

def idsOf (ds : List (Dim K)) (l : List ℕ) : List ℕ := (cellIds ds l).getD []

theorem run_tri [CharZero K] {ds : List (Dim K)} (h0 : ∀ d ∈ ds, 0 < d.n) (T : List (List ℕ))
    (ht : 0 < T.length) (hT : ∀ r, ∀ t ∈ turned T r, ∀ k ∈ t, k < 2 ^ ds.length) (k : ℕ)
    (s : List ℕ × ℕ) (hs : IsCell ds s.1) :
    elementRun ds true (k * T.length) ⟨s.1, 0, turned T s.2⟩
      = some ((List.range k).flatMap fun i =>
          (turned T ((adv ds)^[i] s).2).map (pick (idsOf ds ((adv ds)^[i] s).1))) := by
  induction k generalizing s with
  | zero => simp [elementRun]
  | succ k ih =>
    obtain ⟨ids, i1, i2, -⟩ := cellIds_spec h0 hs
    have hl : (turned T s.2).length = T.length := by simp [turned]
    have := run_cell ds s.1 (turned T s.2) ids i1 (by rw [i2]; exact hT _) (k * T.length)
      (T.length - 1) 0 (by rw [hl]; omega)
    rw [show (k + 1) * T.length = T.length - 1 + 1 + k * T.length by rw [Nat.add_mul]; omega, this,
      turned_turned, show step (ds.map Dim.n) s.1 = (adv ds s).1 from rfl,
      show s.2 + rots (ds.map Dim.n) s.1 = (adv ds s).2 from rfl,
      ih (adv ds s) ((cell_below _ _).2 (step_spec ((cell_below _ _).1 hs)).1)]
    simp only [Option.map_some, List.drop_zero, List.range_succ_eq_map, List.flatMap_cons,
      List.flatMap_map, Function.iterate_zero, id]
    have : idsOf ds s.1 = ids := by simp [idsOf, i1]
    rw [this]
    rfl

theorem adv_fst (ds : List (Dim K)) (s : List ℕ × ℕ) (i : ℕ) :
    ((adv ds)^[i] s).1 = (step (ds.map Dim.n))^[i] s.1 := by
  induction i generalizing s with
  | zero => rfl
  | succ i ih => rw [Function.iterate_succ_apply, ih, Function.iterate_succ_apply]; rfl

theorem adv_parity {ds : List (Dim K)} (s : List ℕ × ℕ) (hs : IsCell ds s.1)
    (hp : s.2 % 2 = s.1.sum % 2) (i : ℕ) :
    ((adv ds)^[i] s).2 % 2 = ((adv ds)^[i] s).1.sum % 2 := by
  induction i generalizing s with
  | zero => exact hp
  | succ i ih =>
    rw [Function.iterate_succ_apply]
    have hb := (cell_below _ _).1 hs
    refine ih _ ((cell_below _ _).2 (step_spec hb).1) ?_
    have := rots_parity hb
    simp only [adv]
    omega

/-! ## Turns -/

theorem rot_lt : ∀ k < 8, rot k < 8 := by decide
theorem rot_lt4 : ∀ k < 4, rot k < 4 := by decide
theorem rot_four : ∀ k < 8, rot^[4] k = k := by decide

theorem turned_lt (n : ℕ) (hr : ∀ k < n, rot k < n) (T : List (List ℕ)) (hT : ∀ t ∈ T, ∀ k ∈ t, k < n)
    (r : ℕ) : ∀ t ∈ turned T r, ∀ k ∈ t, k < n := by
  have : ∀ r k, k < n → rot^[r] k < n := by
    intro r
    induction r with
    | zero => intro k hk; exact hk
    | succ r ih => intro k hk; rw [Function.iterate_succ_apply]; exact ih _ (hr k hk)
  intro t ht k hk
  unfold turned at ht
  obtain ⟨u, hu, rfl⟩ := List.mem_map.1 ht
  obtain ⟨v, hv, rfl⟩ := List.mem_map.1 hk
  exact this r v (hT u hu v hv)

theorem turned_mod (T : List (List ℕ)) (hT : ∀ t ∈ T, ∀ k ∈ t, k < 8) (r : ℕ) :
    turned T r = turned T (r % 4) := by
  unfold turned
  refine List.map_congr_left fun t ht => List.map_congr_left fun k hk => ?_
  have h8 := hT t ht k hk
  have : ∀ q, rot^[4 * q] k = k := by
    intro q
    induction q with
    | zero => rfl
    | succ q ih => rw [Nat.mul_succ, Function.iterate_add_apply, rot_four k h8, ih]
  conv_lhs => rw [← Nat.mod_add_div r 4]
  rw [Function.iterate_add_apply, this]

end Verif.StructMesh
