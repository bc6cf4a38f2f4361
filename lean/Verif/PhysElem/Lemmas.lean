import Verif.PhysElem.Model
import Mathlib.Tactic.SplitIfs
import Mathlib.Data.List.Basic

set_option linter.all false

/-! # C64, C65: helpers -/
namespace Verif.PhysElem

variable {R P X M W : Type} [CommRing R] [AddCommGroup W] [Module R W] (g : Prog R P X M W)

/-- Stored geometry belongs to the point. -/
structure JacOK (e : Elem P X M W) (p : P) (c : Cache R X M W) : Prop where
  jac : ∀ j, c.jacobian = some j → j = e.jac p
  jacT : ∀ j, c.transposeJacobian = some j → j = g.transpose (e.jac p)
  inv : ∀ j, c.inverseTransposeJacobian = some j → j = g.inverse (g.transpose (e.jac p))
  det : ∀ j, c.det = some j → j = g.det (e.jac p)
  absDet : ∀ j, c.absDet = some j → j = g.abs (g.det (e.jac p))
  phys : ∀ x, c.pointPhysical = some x → x = e.phys p

/-- The stored values and solutions are the same. -/
structure Ext (c c' : Cache R X M W) : Prop where
  values : c'.values = c.values
  has : c'.has = c.has
  solution : c'.solution = c.solution
  solutionDeriv : c'.solutionDeriv = c.solutionDeriv

theorem Ext.refl (c : Cache R X M W) : Ext c c := ⟨rfl, rfl, rfl, rfl⟩

theorem Ext.trans {a b c : Cache R X M W} (h : Ext a b) (h' : Ext b c) : Ext a c :=
  ⟨h'.1.trans h.1, h'.2.trans h.2, h'.3.trans h.3, h'.4.trans h.4⟩

section Geometry
variable {g} {s : Core R P} {e : Elem P X M W} {p : P} {c : Cache R X M W}

theorem getJacobian_eq (hl : s.located g = some (e, p)) (hc : JacOK g e p c) :
    ∃ c', s.getJacobian g c = some (c', e.jac p) ∧ JacOK g e p c' ∧ Ext c c' := by
  unfold Core.getJacobian
  rw [hl]
  cases h : c.jacobian with
  | some j => exact ⟨c, by simp [hc.jac j h], hc, Ext.refl c⟩
  | none => exact ⟨_, rfl, ⟨by simp, hc.2, hc.3, hc.4, hc.5, hc.6⟩, ⟨rfl, rfl, rfl, rfl⟩⟩

theorem getTransposeJacobian_eq (hl : s.located g = some (e, p)) (hc : JacOK g e p c) :
    ∃ c', s.getTransposeJacobian g c = some (c', g.transpose (e.jac p)) ∧ JacOK g e p c' ∧ Ext c c' := by
  unfold Core.getTransposeJacobian
  obtain ⟨c', h1, h2, h3⟩ := getJacobian_eq hl hc
  rw [hl, h1]
  cases h : c.transposeJacobian with
  | some j => exact ⟨c, by simp [hc.jacT j h], hc, Ext.refl c⟩
  | none =>
    exact ⟨_, rfl, ⟨h2.1, by simp, h2.3, h2.4, h2.5, h2.6⟩, h3.trans ⟨rfl, rfl, rfl, rfl⟩⟩

theorem getInverseTransposeJacobian_eq (hl : s.located g = some (e, p)) (hc : JacOK g e p c) :
    ∃ c', s.getInverseTransposeJacobian g c = some (c', g.inverse (g.transpose (e.jac p))) ∧ JacOK g e p c' ∧ Ext c c' := by
  unfold Core.getInverseTransposeJacobian
  obtain ⟨c', h1, h2, h3⟩ := getTransposeJacobian_eq hl hc
  rw [hl, h1]
  cases h : c.inverseTransposeJacobian with
  | some j => exact ⟨c, by simp [hc.inv j h], hc, Ext.refl c⟩
  | none =>
    exact ⟨_, rfl, ⟨h2.1, h2.2, by simp, h2.4, h2.5, h2.6⟩, h3.trans ⟨rfl, rfl, rfl, rfl⟩⟩

theorem getJacobianDet_eq (hl : s.located g = some (e, p)) (hc : JacOK g e p c) :
    ∃ c', s.getJacobianDet g c = some (c', g.det (e.jac p)) ∧ JacOK g e p c' ∧ Ext c c' := by
  unfold Core.getJacobianDet
  obtain ⟨c', h1, h2, h3⟩ := getJacobian_eq hl hc
  rw [hl, h1]
  cases h : c.det with
  | some j => exact ⟨c, by simp [hc.det j h], hc, Ext.refl c⟩
  | none =>
    exact ⟨_, rfl, ⟨h2.1, h2.2, h2.3, by simp, h2.5, h2.6⟩, h3.trans ⟨rfl, rfl, rfl, rfl⟩⟩

theorem getJacobianAbsDet_eq (hl : s.located g = some (e, p)) (hc : JacOK g e p c) :
    ∃ c', s.getJacobianAbsDet g c = some (c', g.abs (g.det (e.jac p))) ∧ JacOK g e p c' ∧ Ext c c' := by
  unfold Core.getJacobianAbsDet
  obtain ⟨c', h1, h2, h3⟩ := getJacobianDet_eq hl hc
  rw [hl, h1]
  cases h : c.absDet with
  | some j => exact ⟨c, by simp [hc.absDet j h], hc, Ext.refl c⟩
  | none =>
    exact ⟨_, rfl, ⟨h2.1, h2.2, h2.3, h2.4, by simp, h2.6⟩, h3.trans ⟨rfl, rfl, rfl, rfl⟩⟩

theorem getPointPhysical_eq (hl : s.located g = some (e, p)) (hc : JacOK g e p c) :
    ∃ c', s.getPointPhysical g c = some (c', e.phys p) ∧ JacOK g e p c' ∧ Ext c c' := by
  unfold Core.getPointPhysical
  rw [hl]
  cases h : c.pointPhysical with
  | some j => exact ⟨c, by simp [hc.phys j h], hc, Ext.refl c⟩
  | none => exact ⟨_, rfl, ⟨hc.1, hc.2, hc.3, hc.4, hc.5, by simp⟩, ⟨rfl, rfl, rfl, rfl⟩⟩

/-- One function. -/
theorem fillOne_eq (hl : s.located g = some (e, p)) (hp : s.evaluationPoint g = some p) (hc : JacOK g e p c) (k : Kind) (u j t : Nat)
    (ht : s.trafos[u]?.join = some t) (row : List W) (hr : (c.values k)[u]? = some row) (hj : j < row.length) :
    ∃ c', s.fillOne g e k u c j = some c' ∧ JacOK g e p c' ∧ c'.has = c.has ∧ c'.solution = c.solution ∧
      c'.solutionDeriv = c.solutionDeriv ∧
      c'.values = Function.update c.values k ((c.values k).set u (row.set j (value g e t k u j p))) := by
  unfold Core.fillOne
  obtain ⟨c1, h1, h2, h3⟩ := getJacobian_eq hl hc
  obtain ⟨c2, h4, h5, h6⟩ := getTransposeJacobian_eq hl h2
  obtain ⟨c3, h7, h8, h9⟩ := getJacobianDet_eq hl h5
  have hx := h3.trans (h6.trans h9)
  simp only [hp, ht, h1, h4, h7, Option.bind_some, hx.values, hr, if_pos hj]
  exact ⟨_, rfl, ⟨h8.1, h8.2, h8.3, h8.4, h8.5, h8.6⟩, hx.has, hx.solution, hx.solutionDeriv, rfl⟩

/-- The first `n` entries are new. -/
theorem fill_eq (hl : s.located g = some (e, p)) (hp : s.evaluationPoint g = some p) (hc : JacOK g e p c) (k : Kind) (u t : Nat)
    (ht : s.trafos[u]?.join = some t) (row : List W) (hr : (c.values k)[u]? = some row) (n : Nat) (hn : n ≤ row.length) :
    ∃ c', (List.range n).foldlM (fun c j => s.fillOne g e k u c j) c = some c' ∧ JacOK g e p c' ∧ c'.has = c.has ∧
      c'.solution = c.solution ∧ c'.solutionDeriv = c.solutionDeriv ∧
      c'.values = Function.update c.values k ((c.values k).set u
        ((List.range n).map (fun j => value g e t k u j p) ++ row.drop n)) := by
  have hu : u < (c.values k).length := (List.getElem?_eq_some_iff.1 hr).1
  induction n with
  | zero =>
    refine ⟨c, rfl, hc, rfl, rfl, rfl, ?_⟩
    rw [List.range_zero, List.map_nil, List.nil_append, List.drop_zero]
    have : (c.values k).set u row = c.values k := by
      obtain ⟨h, rfl⟩ := List.getElem?_eq_some_iff.1 hr
      exact List.set_getElem_self h
    rw [this, Function.update_eq_self]
  | succ n ih =>
    obtain ⟨c1, h1, h2, h3, h4, h5, h6⟩ := ih (by omega)
    rw [List.range_succ, List.foldlM_append, h1]
    have hrow : (c1.values k)[u]? = some ((List.range n).map (fun j => value g e t k u j p) ++ row.drop n) := by
      rw [h6, Function.update_self, List.getElem?_set_self hu]
    obtain ⟨c2, i1, i2, i3, i4, i5, i6⟩ := fillOne_eq hl hp h2 k u n t ht _ hrow (by simp; omega)
    refine ⟨c2, ?_, i2, i3.trans h3, i4.trans h4, i5.trans h5, ?_⟩
    · simp [i1]
    · rw [i6, h6, Function.update_self, Function.update_idem, List.set_set]
      congr 2
      rw [List.map_append, List.set_append_right _ _ (by simp)]
      simp only [List.length_map, List.length_range, Nat.sub_self, List.map_cons, List.map_nil, List.append_assoc]
      congr 1
      rw [List.drop_eq_getElem_cons (by omega)]
      rfl

theorem fill_none (k : Kind) (u n : Nat) (ht : s.trafos[u]?.join = none) (hn : 0 < n) :
    (List.range n).foldlM (fun c j => s.fillOne g e k u c j) c = none := by
  obtain ⟨m, rfl⟩ : ∃ m, n = m + 1 := ⟨n - 1, by omega⟩
  rw [List.range_succ_eq_map, List.foldlM_cons]
  have : s.fillOne g e k u c 0 = none := by
    unfold Core.fillOne
    rw [ht]
    cases s.evaluationPoint g <;> simp
  rw [this]
  rfl

end Geometry

/-- Stored values are those at the point. -/
structure ValOK (e : Elem P X M W) (p? : Option P) (trafos : List (Option Nat)) (c : Cache R X M W) : Prop where
  hasLen : ∀ k, (c.has k).length = e.unknowns
  len : ∀ k, (c.values k).length = e.unknowns
  row : ∀ k u, u < e.unknowns → ∃ row, (c.values k)[u]? = some row ∧ row.length = e.size u
  val : ∀ k u, (c.has k)[u]? = some true → ∃ p t, p? = some p ∧ trafos[u]?.join = some t ∧
    (c.values k)[u]? = some ((List.range (e.size u)).map fun j => value g e t k u j p)

theorem ValOK.ext {e : Elem P X M W} {p? : Option P} {tr : List (Option Nat)} {c c' : Cache R X M W} (h : ValOK g e p? tr c)
    (hx : Ext c c') : ValOK g e p? tr c' :=
  ⟨by rw [hx.has]; exact h.1, by rw [hx.values]; exact h.2, by rw [hx.values]; exact h.3,
    by rw [hx.values, hx.has]; exact h.4⟩

section Values
variable {g} {s : Core R P} {e : Elem P X M W} {p : P} {c : Cache R X M W}

theorem getUnknown_some (hl : s.located g = some (e, p)) (hp : s.evaluationPoint g = some p) (hc : JacOK g e p c)
    (hv : ValOK g e (some p) s.trafos c) (k : Kind) (i u t : Nat) (ht : s.trafos[u]?.join = some t) (hu : u < e.unknowns)
    (hi : i < e.size u) :
    ∃ c', s.getUnknown g c k i u = some (c', value g e t k u i p) ∧ JacOK g e p c' ∧ ValOK g e (some p) s.trafos c' ∧
      c'.solution = c.solution ∧ c'.solutionDeriv = c.solutionDeriv := by
  unfold Core.getUnknown
  rw [hl]
  simp only [Option.bind_some, if_pos hu]
  have hh : ∃ b, (c.has k)[u]? = some b := ⟨_, List.getElem?_eq_getElem (by rw [hv.hasLen]; exact hu)⟩
  obtain ⟨b, hb⟩ := hh
  rw [hb]
  cases b with
  | true =>
    obtain ⟨p', t', h1, h2, h3⟩ := hv.val k u hb
    cases h1
    rw [ht] at h2; cases h2
    simp only [Option.bind_some, if_true, h3, List.getElem?_map, List.getElem?_range hi, Option.map_some]
    exact ⟨c, rfl, hc, hv, rfl, rfl⟩
  | false =>
    obtain ⟨row, hr, hrl⟩ := hv.row k u hu
    obtain ⟨c', h1, h2, h3, h4, h5, h6⟩ := fill_eq (c := { c with has := Function.update c.has k ((c.has k).set u true) })
      hl hp ⟨hc.1, hc.2, hc.3, hc.4, hc.5, hc.6⟩ k u t ht row hr (e.size u) (le_of_eq hrl.symm)
    have hlen : u < (c.values k).length := by rw [hv.len]; exact hu
    rw [List.drop_eq_nil_of_le (le_of_eq hrl), List.append_nil] at h6
    have hrow : (c'.values k)[u]? = some ((List.range (e.size u)).map fun j => value g e t k u j p) := by
      rw [h6, Function.update_self, List.getElem?_set_self hlen]
    simp only [Option.bind_some, Bool.false_eq_true, if_false, h1, hrow, List.getElem?_map, List.getElem?_range hi,
      Option.map_some]
    refine ⟨c', rfl, h2, ⟨?_, ?_, ?_, ?_⟩, h4, h5⟩
    · intro k'
      rw [h3]
      by_cases hk : k' = k
      · subst hk; simp [hv.hasLen]
      · simp only [Function.update_of_ne hk]; exact hv.hasLen k'
    · intro k'
      rw [h6]
      by_cases hk : k' = k
      · subst hk; simp [hv.len]
      · simp only [Function.update_of_ne hk]; exact hv.len k'
    · intro k' u' hu'
      rw [h6]
      by_cases hk : k' = k
      · subst hk
        simp only [Function.update_self]
        by_cases huu : u' = u
        · subst huu
          exact ⟨_, List.getElem?_set_self hlen, by simp⟩
        · rw [List.getElem?_set_ne (Ne.symm huu)]
          exact hv.row k' u' hu'
      · simp only [Function.update_of_ne hk]; exact hv.row k' u' hu'
    · intro k' u' hh
      rw [h3] at hh
      by_cases hk : k' = k
      · subst hk
        simp only [Function.update_self] at hh
        by_cases huu : u' = u
        · subst huu
          exact ⟨p, t, rfl, ht, hrow⟩
        · rw [List.getElem?_set_ne (Ne.symm huu)] at hh
          obtain ⟨p', t', a, b, d⟩ := hv.val k' u' hh
          refine ⟨p', t', a, b, ?_⟩
          rw [h6, Function.update_self, List.getElem?_set_ne (Ne.symm huu)]
          exact d
      · simp only [Function.update_of_ne hk] at hh
        obtain ⟨p', t', a, b, d⟩ := hv.val k' u' hh
        refine ⟨p', t', a, b, ?_⟩
        rw [h6, Function.update_of_ne hk]
        exact d

theorem getUnknown_none (hl : s.located g = some (e, p)) (hp : s.evaluationPoint g = some p) (hc : JacOK g e p c)
    (hv : ValOK g e (some p) s.trafos c) (k : Kind) (i u : Nat)
    (h : s.trafos[u]?.join = none ∨ ¬ u < e.unknowns ∨ ¬ i < e.size u) : s.getUnknown g c k i u = none := by
  unfold Core.getUnknown
  rw [hl]
  simp only [Option.bind_some]
  by_cases hu : u < e.unknowns
  swap
  · rw [if_neg hu]
  rw [if_pos hu]
  have hh : ∃ b, (c.has k)[u]? = some b := ⟨_, List.getElem?_eq_getElem (by rw [hv.hasLen]; exact hu)⟩
  obtain ⟨b, hb⟩ := hh
  rw [hb]
  simp only [hu, not_true, false_or] at h
  cases b with
  | true =>
    obtain ⟨p', t', h1, h2, h3⟩ := hv.val k u hb
    rw [h2] at h
    simp only [reduceCtorEq, false_or, Nat.not_lt] at h
    simp only [Option.bind_some, if_true, h3]
    rw [List.getElem?_eq_none (by simpa using h)]
    rfl
  | false =>
    simp only [Option.bind_some, Bool.false_eq_true, if_false]
    obtain ⟨row, hr, hrl⟩ := hv.row k u hu
    cases ht : s.trafos[u]?.join with
    | none =>
      by_cases hn : 0 < e.size u
      · rw [fill_none k u _ ht hn]; rfl
      · have : e.size u = 0 := by omega
        rw [this, List.range_zero, List.foldlM_nil]
        simp only [pure, Option.bind_some, hr]
        rw [List.getElem?_eq_none (by omega)]
        rfl
    | some t =>
      rw [ht] at h
      simp only [reduceCtorEq, false_or, Nat.not_lt] at h
      obtain ⟨c', h1, h2, h3, h4, h5, h6⟩ := fill_eq (c := { c with has := Function.update c.has k ((c.has k).set u true) })
        hl hp ⟨hc.1, hc.2, hc.3, hc.4, hc.5, hc.6⟩ k u t ht row hr (e.size u) (le_of_eq hrl.symm)
      have hlen : u < (c.values k).length := by rw [hv.len]; exact hu
      rw [List.drop_eq_nil_of_le (le_of_eq hrl), List.append_nil] at h6
      have hrow : (c'.values k)[u]? = some ((List.range (e.size u)).map fun j => value g e t k u j p) := by
        rw [h6, Function.update_self, List.getElem?_set_self hlen]
      rw [h1]
      simp only [Option.bind_some, hrow]
      rw [List.getElem?_eq_none (by simpa using h)]
      rfl

/-- Loops of the solution. -/
theorem sumUnknown_eq (hl : s.located g = some (e, p)) (hp : s.evaluationPoint g = some p) (hc : JacOK g e p c)
    (hv : ValOK g e (some p) s.trafos c) (hu : e.uniform) (k : Kind) (id t v : Nat) (ht : s.trafos[0]?.join = some t)
    (hvu : v < e.unknowns) :
    ∃ c', s.sumUnknown g e id k c v = some (c', ∑ b ∈ Finset.range (e.size v), s.coeffs id v b • value g e t k 0 b p) ∧
      JacOK g e p c' ∧ ValOK g e (some p) s.trafos c' ∧ c'.solution = c.solution ∧ c'.solutionDeriv = c.solutionDeriv := by
  unfold Core.sumUnknown
  have hsz := hu v hvu
  generalize hn : e.size v = n at *
  have hle : n ≤ e.size 0 := le_of_eq hsz
  clear hsz hn
  induction n with
  | zero => exact ⟨c, by simp, hc, hv, rfl, rfl⟩
  | succ n ih =>
    obtain ⟨c1, h1, h2, h3, h4, h5⟩ := ih (by omega)
    rw [List.range_succ, List.foldlM_append, h1]
    obtain ⟨c2, i1, i2, i3, i4, i5⟩ := getUnknown_some hl hp h2 h3 k n 0 t ht (by omega) (by omega)
    refine ⟨c2, ?_, i2, i3, i4.trans h4, i5.trans h5⟩
    simp only [bind, Option.bind_some, List.foldlM_cons, List.foldlM_nil, Core.getPlain, hl, if_pos hu, i1, Option.map_some,
      pure, Finset.sum_range_succ]

theorem sumAll_eq (hl : s.located g = some (e, p)) (hp : s.evaluationPoint g = some p) (hc : JacOK g e p c)
    (hv : ValOK g e (some p) s.trafos c) (hu : e.uniform) (k : Kind) (id t : Nat) (ht : s.trafos[0]?.join = some t) :
    ∃ c', s.sumAll g e id k c = some (c', (List.range e.unknowns).map fun v =>
        ∑ b ∈ Finset.range (e.size v), s.coeffs id v b • value g e t k 0 b p) ∧
      JacOK g e p c' ∧ ValOK g e (some p) s.trafos c' ∧ c'.solution = c.solution ∧ c'.solutionDeriv = c.solutionDeriv := by
  unfold Core.sumAll
  have : ∀ n ≤ e.unknowns, ∃ c', (List.range n).foldlM
      (fun (r : Cache R X M W × List W) v => (s.sumUnknown g e id k r.1 v).map fun (c, w) => (c, r.2 ++ [w])) (c, []) =
        some (c', (List.range n).map fun v => ∑ b ∈ Finset.range (e.size v), s.coeffs id v b • value g e t k 0 b p) ∧
      JacOK g e p c' ∧ ValOK g e (some p) s.trafos c' ∧ c'.solution = c.solution ∧ c'.solutionDeriv = c.solutionDeriv := by
    intro n
    induction n with
    | zero => intro _; exact ⟨c, by simp, hc, hv, rfl, rfl⟩
    | succ n ih =>
      intro hn
      obtain ⟨c1, h1, h2, h3, h4, h5⟩ := ih (by omega)
      rw [List.range_succ, List.foldlM_append, h1]
      obtain ⟨c2, i1, i2, i3, i4, i5⟩ := sumUnknown_eq hl hp h2 h3 hu k id t n ht (by omega)
      refine ⟨c2, ?_, i2, i3, i4.trans h4, i5.trans h5⟩
      simp only [bind, Option.bind_some, List.foldlM_cons, List.foldlM_nil, i1, Option.map_some, pure, List.map_append,
        List.map_cons, List.map_nil]
  exact this _ le_rfl

end Values

end Verif.PhysElem
