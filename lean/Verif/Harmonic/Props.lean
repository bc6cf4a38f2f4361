import Verif.Harmonic.Lemmas
import Mathlib.Tactic.Linarith

/-! # The solver for harmonic problems: the properties -/
namespace Verif.Harmonic

variable {E F BC Src Val A B : Type} [AddCommGroup A] [Module ℝ A] [AddCommGroup B]

theorem pass_upToDate (D : Discretisation E F BC Src Val A B) (hc : Closed D) (registered : List Nat) (hreg : Registered D registered) (c : Changes)
    (p : Problem F BC Src Val) (s : State E F A B)
    (h : c = ⟨true, true, true, true⟩ ∨ ∃ before, c.Honest before p ∧ UpToDate D before s) :
    ∃ s', pass D registered c p s = some (s', systemMatrix D p, systemVector D p) ∧ UpToDate D p s' := by
  unfold pass
  set s1 := if c.omega then setWave registered p.omega s else s with hs1
  have hw : ∀ e ∈ D.elements, ∀ o, D.object e = some o → s1.wave o = some p.omega := by
    intro e he o ho
    rcases hco : c.omega
    · rcases h with rfl | ⟨before, hon, hu⟩
      · cases hco
      · simp only [hs1, hco, Bool.false_eq_true, if_false]
        rw [hon.1 hco]; exact hu.wave e he o ho
    · simp only [hs1, hco, if_true, setWave, if_pos (hreg e he o ho)]
  rcases hfull : (c.bcType || (checkDispersion D && c.omega))
  · obtain ⟨before, hon, hu⟩ : ∃ before, c.Honest before p ∧ UpToDate D before s := by
      rcases h with rfl | h
      · simp at hfull
      · exact h
    have hu1 : ∃ w, UpToDate D before { s1 with wave := w } := by
      refine ⟨s.wave, ?_⟩
      have : ({ s1 with wave := s.wave } : State E F A B) = s := by
        simp only [hs1]; cases c.omega <;> rfl
      rw [this]; exact hu
    obtain ⟨kw, ke, kf, km, ks, ki, ksol, kl⟩ := partial_upToDate D hc c before p s1 hfull hon hw hu1
    obtain ⟨hb, hd⟩ := Bool.or_eq_false_iff.1 hfull
    rcases hco : c.omega
    · have hmat : systemMatrix D before = systemMatrix D p := by
        simp only [systemMatrix, hon.1 hco, hon.2.2.1 hb]
      simp only [hb, Bool.or_self, Bool.false_eq_true, if_false, Option.bind_eq_bind, Option.bind_some, ksol, hmat, kl]
      exact ⟨_, rfl, by rw [kw]; exact hw, ke, kf, km, ks, ki, by rw [ksol, hmat]⟩
    · refine ⟨{ computeIntegrals D c p s1 with solver := some (systemMatrix D p) }, ?_, by rw [kw]; exact hw, ke, kf, km, ks, ki, rfl⟩
      simp only [Bool.true_or, if_true, assembleSolverMatrix, ksol, systemMatrix_eq D p _ km ks ki, Option.bind_eq_bind, Option.bind_some, kl]
      rfl
  · obtain ⟨s', h1, h2, h3⟩ := full_upToDate D hc c p s1 hfull hw
    have : (c.omega || c.bcType) = true := by
      rcases Bool.or_eq_true_iff.1 hfull with h | h
      · simp [h]
      · simp [(Bool.and_eq_true_iff.1 h).2]
    refine ⟨s', ?_, h2⟩
    simp only [this, if_true, h1, Option.bind_eq_bind, Option.bind_some, h2.solver, h3]
    rfl

/-- **C89.** For every sequence of problems of a driver that is honest about changes, on a mesh with any materials: every problem is solved with the matrix and the right
hand side of that problem, as if it were the only one. The state at the start is arbitrary. -/
theorem solve_fresh (D : Discretisation E F BC Src Val A B) (hc : Closed D) (registered : List Nat) (hreg : Registered D registered)
    (problems : List (Changes × Problem F BC Src Val)) (hn : StartsNew problems) (hon : Honest problems) (s : State E F A B) :
    solve D registered problems s = some (problems.map fun cp => (systemMatrix D cp.2, systemVector D cp.2)) := by
  have main : ∀ (problems : List (Changes × Problem F BC Src Val)) (s : State E F A B),
      (∀ c p, problems.head? = some (c, p) → c = ⟨true, true, true, true⟩ ∨ ∃ before, c.Honest before p ∧ UpToDate D before s) → Honest problems →
      solve D registered problems s = some (problems.map fun cp => (systemMatrix D cp.2, systemVector D cp.2)) := by
    intro problems
    induction problems with
    | nil => intro s _ _; rfl
    | cons cp rest ih =>
      obtain ⟨c, p⟩ := cp
      intro s h hon
      obtain ⟨s', h1, h2⟩ := pass_upToDate D hc registered hreg c p s (h c p rfl)
      have := ih s' (by
        intro c' p' hh
        cases rest with
        | nil => cases hh
        | cons q rest =>
          obtain rfl : q = (c', p') := by simpa using hh
          exact Or.inr ⟨p, hon.1, h2⟩) (by
        cases rest with
        | nil => exact True.intro
        | cons q rest => exact hon.2)
      simp only [solve, h1, Option.bind_eq_bind, Option.bind_some, this]
      rfl
  refine main problems s ?_ hon
  intro c p hh
  cases problems with
  | nil => cases hh
  | cons q rest =>
    obtain rfl : q = (c, p) := by simpa using hh
    exact Or.inl hn

/-- **C89.** The driver of the application, which reports everything but the type of the boundary conditions as changed, is honest if all problems have the same types, and so every
wave number is solved as if it were the only one. -/
theorem source_driver_fresh (D : Discretisation E F BC Src Val A B) (hc : Closed D) (registered : List Nat) (hreg : Registered D registered)
    (problems : List (Problem F BC Src Val)) (hbc : ∀ p ∈ problems, ∀ q ∈ problems, p.bcType = q.bcType) (s : State E F A B) :
    solve D registered (problems.mapIdx fun n p => (sourceDriver n, p)) s = some (problems.map fun p => (systemMatrix D p, systemVector D p)) := by
  have := solve_fresh D hc registered hreg (problems.mapIdx fun n p => (sourceDriver n, p)) ?_ ?_ s
  · rw [this]
    congr 1
    refine List.ext_getElem? fun i => ?_
    simp only [List.getElem?_mapIdx, List.getElem?_map, Option.map_map]
    rfl
  · cases problems with
    | nil => exact True.intro
    | cons p rest => simp [StartsNew, sourceDriver]
  · have gen : ∀ (problems : List (Problem F BC Src Val)) (k : Nat), (∀ p ∈ problems, ∀ q ∈ problems, p.bcType = q.bcType) →
        Honest (problems.mapIdx fun n p => (sourceDriver (n + k), p)) := by
      intro problems
      induction problems with
      | nil => intro k _; exact True.intro
      | cons p rest ih =>
        intro k hbc
        cases rest with
        | nil => exact True.intro
        | cons q rest =>
          have h1 := ih (k + 1) (fun a ha b hb => hbc a (List.mem_cons_of_mem _ ha) b (List.mem_cons_of_mem _ hb))
          have e : (List.mapIdx (fun n p => (sourceDriver (n + (k + 1)), p)) (q :: rest)) =
              ((sourceDriver (0 + 1 + k), q) :: rest.mapIdx fun n p => (sourceDriver (n + 1 + 1 + k), p)) := by
            rw [List.mapIdx_cons]
            congr 2
            · congr 1; omega
            · funext n p; congr 2; omega
          rw [e] at h1
          rw [List.mapIdx_cons, List.mapIdx_cons]
          refine ⟨?_, h1⟩
          have : sourceDriver (0 + 1 + k) = ⟨true, true, false, true⟩ := by unfold sourceDriver; rw [if_neg (by omega)]
          rw [this]
          refine ⟨(by intro h; cases h), (by intro h; cases h), fun _ => hbc q (by simp) p (by simp), (by intro h; cases h)⟩
    exact gen problems 0 hbc

/-- **C89.** A driver that does not report the types of the boundary conditions, or on a dispersive mesh the wave number, as changed for its first problem gets no answer: there
is no matrix. -/
theorem solve_without_matrix (D : Discretisation E F BC Src Val A B) (registered : List Nat) (c : Changes) (p : Problem F BC Src Val)
    (rest : List (Changes × Problem F BC Src Val)) (s : State E F A B) (hs : s.solver = none) (hb : c.bcType = false)
    (hd : c.omega = false ∨ ∀ e ∈ D.elements, D.object e = none) : solve D registered ((c, p) :: rest) s = none := by
  have hfull : (c.bcType || (checkDispersion D && c.omega)) = false := by
    rw [hb, Bool.false_or, Bool.and_eq_false_iff]
    rcases hd with h | h
    · exact Or.inr h
    · refine Or.inl (List.any_eq_false.2 fun e he => by simp [h e he])
  have hsol : ∀ s : State E F A B, s.solver = none → (computeIntegrals D c p s).solver = none := by
    intro s hs
    simp only [computeIntegrals, hfull, Bool.false_or, Bool.false_eq_true, if_false]
    cases c.source <;> cases c.bcValue <;> exact hs
  have hpass : pass D registered c p s = none := by
    unfold pass
    have : (computeIntegrals D c p (if c.omega then setWave registered p.omega s else s)).solver = none :=
      hsol _ (by cases c.omega <;> exact hs)
    simp only [assembleSolverMatrix, this, Option.bind_eq_bind]
    cases (c.omega || c.bcType) <;> simp [this]
  simp only [solve, hpass, Option.bind_eq_bind, Option.bind_none]

/-- **C89.** A solve does not touch the wave number of a material that belongs to another computation, and sets that of the materials of this one as far as the driver reports it. -/
theorem pass_wave (D : Discretisation E F BC Src Val A B) (registered : List Nat) (c : Changes) (p : Problem F BC Src Val) (s s' : State E F A B) (m : A) (b : B)
    (h : pass D registered c p s = some (s', m, b)) (o : Nat) :
    s'.wave o = if o ∈ registered ∧ c.omega = true then some p.omega else s.wave o := by
  have hw : ∀ t : State E F A B, (computeIntegrals D c p t).wave = t.wave := by
    intro t
    simp only [computeIntegrals]
    cases (c.bcType || (checkDispersion D && c.omega)) <;> cases c.source <;> cases c.bcValue <;> rfl
  have ha : ∀ t t' : State E F A B, assembleSolverMatrix p.omega t = some t' → t'.wave = t.wave := by
    intro t t' ht
    unfold assembleSolverMatrix at ht
    cases hs : t.solver <;> rw [hs] at ht <;> simp at ht
    rw [← ht]
  have h1 : s'.wave = (if c.omega then setWave registered p.omega s else s).wave := by
    unfold pass at h
    cases hc : (c.omega || c.bcType) <;>
      simp only [hc, Bool.false_eq_true, if_false, if_true, Option.bind_eq_bind, Option.pure_def, Option.bind_eq_some_iff, Option.some.injEq, Prod.mk.injEq] at h
    · obtain ⟨t, rfl, m', hm, rfl, rfl, rfl⟩ := h
      exact hw _
    · obtain ⟨t, ht, m', hm, rfl, rfl, rfl⟩ := h
      rw [ha _ _ ht, hw]
  rw [h1]
  cases c.omega <;> simp [setWave]

section Example

/-- Two elements, the second with a dispersive material, a face between them and one at the boundary. Matrices and vectors are numbers. -/
noncomputable def slab : Discretisation Bool Bool Bool ℝ ℝ ℝ ℝ where
  elements := [false, true]
  faces := [false, true]
  object := fun e => if e then some 7 else none
  left := fun f => f
  right := fun f => if f then none else some true
  mass := fun _ w => w.getD 1
  stiff := fun _ w => 3 * w.getD 2
  elementVector := fun _ x => x
  faceStiff := fun _ bc l r => (if bc then 1 else 0) + l.getD 0 + r.getD 0
  impedance := fun _ bc => if bc then 1 else 0
  faceVector := fun _ _ v l _ => v * l.getD 1

/-- Three problems: the source changes, then the wave number. -/
noncomputable def scan : List (Changes × Problem Bool Bool ℝ ℝ) :=
  [(⟨true, true, true, true⟩, ⟨1, 1, id, 1⟩), (⟨false, true, false, false⟩, ⟨1, 2, id, 1⟩), (⟨true, false, false, false⟩, ⟨2, 2, id, 1⟩)]

/-- The hypotheses of `solve_fresh` hold for them. -/
example : Closed slab ∧ Registered slab [7] ∧ StartsNew scan ∧ Honest scan := by
  refine ⟨?_, ?_, rfl, ?_⟩
  · intro f _; cases f <;> simp [slab]
  · intro e _ o; cases e <;> simp [slab, eq_comm]
  · simp [scan, Honest, Changes.Honest]

/-- Their matrices differ. -/
example : systemMatrix slab ⟨1, 1, id, 1⟩ ≠ systemMatrix slab (⟨2, 2, id, 1⟩ : Problem Bool Bool ℝ ℝ) := by
  norm_num [systemMatrix, slab, waveOf]

end Example

end Verif.Harmonic
