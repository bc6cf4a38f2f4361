import Verif.Harmonic.Spec
import Mathlib.Tactic.Module

/-! # The solver for harmonic problems: lemmas -/
set_option linter.all false

namespace Verif.Harmonic

variable {E F BC Src Val A B : Type} [AddCommGroup A] [Module ℝ A] [AddCommGroup B]

/-- What is kept is that of the last problem. -/
structure UpToDate (D : Discretisation E F BC Src Val A B) (p : Problem F BC Src Val) (s : State E F A B) : Prop where
  wave : ∀ e ∈ D.elements, ∀ o, D.object e = some o → s.wave o = some p.omega
  eVec : ∀ e ∈ D.elements, s.eVec e = D.elementVector e p.source
  fVec : ∀ f ∈ D.faces, s.fVec f = D.faceVector f (p.bcType f) p.bcValue (waveOf D p.omega (D.left f)) ((D.right f).bind (waveOf D p.omega))
  mass : s.mass = (D.elements.map fun e => D.mass e (waveOf D p.omega e)).sum
  stiff : s.stiff = (D.elements.map fun e => D.stiff e (waveOf D p.omega e)).sum +
    (D.faces.map fun f => D.faceStiff f (p.bcType f) (waveOf D p.omega (D.left f)) ((D.right f).bind (waveOf D p.omega))).sum
  imp : s.imp = (D.faces.map fun f => D.impedance f (p.bcType f)).sum
  solver : s.solver = some (systemMatrix D p)

theorem seen_eq (D : Discretisation E F BC Src Val A B) (omega : ℝ) (wave : Nat → Option ℝ)
    (h : ∀ e ∈ D.elements, ∀ o, D.object e = some o → wave o = some omega) (e : E) (he : e ∈ D.elements) : seen D wave e = waveOf D omega e := by
  unfold seen waveOf
  rcases ho : D.object e with _ | o
  · rfl
  · exact h e he o ho

theorem seenRight_eq (D : Discretisation E F BC Src Val A B) (omega : ℝ) (wave : Nat → Option ℝ)
    (h : ∀ e ∈ D.elements, ∀ o, D.object e = some o → wave o = some omega) (hc : Closed D) (f : F) (hf : f ∈ D.faces) :
    seenRight D wave f = (D.right f).bind (waveOf D omega) := by
  unfold seenRight
  rcases hr : D.right f with _ | e
  · rfl
  · exact seen_eq D omega wave h e ((hc f hf).2 e hr)

theorem waveOf_congr (D : Discretisation E F BC Src Val A B) (a b : ℝ) (h : checkDispersion D = false ∨ a = b) (e : E) (he : e ∈ D.elements) :
    waveOf D a e = waveOf D b e := by
  rcases h with h | rfl
  · unfold checkDispersion at h
    rw [List.any_eq_false] at h
    have := h e he
    unfold waveOf
    rcases ho : D.object e with _ | o
    · rfl
    · rw [ho] at this; simp at this
  · rfl

theorem waveOf_right (D : Discretisation E F BC Src Val A B) (hc : Closed D) (a b : ℝ) (h : checkDispersion D = false ∨ a = b) (f : F) (hf : f ∈ D.faces) :
    (D.right f).bind (waveOf D a) = (D.right f).bind (waveOf D b) := by
  rcases hr : D.right f with _ | e
  · rfl
  · exact waveOf_congr D a b h e ((hc f hf).2 e hr)

theorem systemMatrix_eq (D : Discretisation E F BC Src Val A B) (p : Problem F BC Src Val) (s : State E F A B)
    (hm : s.mass = (D.elements.map fun e => D.mass e (waveOf D p.omega e)).sum)
    (hs : s.stiff = (D.elements.map fun e => D.stiff e (waveOf D p.omega e)).sum +
    (D.faces.map fun f => D.faceStiff f (p.bcType f) (waveOf D p.omega (D.left f)) ((D.right f).bind (waveOf D p.omega))).sum)
    (hi : s.imp = (D.faces.map fun f => D.impedance f (p.bcType f)).sum) :
    s.stiff + p.omega • s.imp + (-p.omega * p.omega) • s.mass = systemMatrix D p := by
  rw [systemMatrix, hm, hs, hi]
  module

theorem load_eq (D : Discretisation E F BC Src Val A B) (p : Problem F BC Src Val) (s : State E F A B)
    (he : ∀ e ∈ D.elements, s.eVec e = D.elementVector e p.source)
    (hf : ∀ f ∈ D.faces, s.fVec f = D.faceVector f (p.bcType f) p.bcValue (waveOf D p.omega (D.left f)) ((D.right f).bind (waveOf D p.omega))) :
    (D.elements.map s.eVec).sum + (D.faces.map s.fVec).sum = systemVector D p := by
  rw [systemVector, List.map_congr_left he, List.map_congr_left hf]

/-- After everything was recomputed. -/
theorem full_upToDate (D : Discretisation E F BC Src Val A B) (hc : Closed D) (c : Changes) (p : Problem F BC Src Val) (s : State E F A B)
    (hfull : (c.bcType || (checkDispersion D && c.omega)) = true) (hw : ∀ e ∈ D.elements, ∀ o, D.object e = some o → s.wave o = some p.omega) :
    ∃ s', assembleSolverMatrix p.omega (computeIntegrals D c p s) = some s' ∧ UpToDate D p s' ∧ s'.load = systemVector D p := by
  have hm : (computeIntegrals D c p s).mass = (D.elements.map fun e => D.mass e (waveOf D p.omega e)).sum := by
    simp only [computeIntegrals, hfull, Bool.true_or, if_true, assemble, faceIntegrals, elementIntegrals]
    congr 1
    exact List.map_congr_left fun e he => by rw [seen_eq D _ _ hw e he]
  have hs : (computeIntegrals D c p s).stiff = (D.elements.map fun e => D.stiff e (waveOf D p.omega e)).sum +
      (D.faces.map fun f => D.faceStiff f (p.bcType f) (waveOf D p.omega (D.left f)) ((D.right f).bind (waveOf D p.omega))).sum := by
    simp only [computeIntegrals, hfull, Bool.true_or, if_true, assemble, faceIntegrals, elementIntegrals]
    congr 2
    · exact List.map_congr_left fun e he => by rw [seen_eq D _ _ hw e he]
    · exact List.map_congr_left fun f hf => by rw [seen_eq D _ _ hw _ (hc f hf).1, seenRight_eq D _ _ hw hc f hf]
  have hi : (computeIntegrals D c p s).imp = (D.faces.map fun f => D.impedance f (p.bcType f)).sum := by
    simp only [computeIntegrals, hfull, Bool.true_or, if_true, assemble, faceIntegrals, elementIntegrals]
  have he : ∀ e ∈ D.elements, (computeIntegrals D c p s).eVec e = D.elementVector e p.source := by
    intro e _
    simp only [computeIntegrals, hfull, Bool.true_or, if_true, assemble, faceIntegrals, elementIntegrals]
  have hf : ∀ f ∈ D.faces, (computeIntegrals D c p s).fVec f =
      D.faceVector f (p.bcType f) p.bcValue (waveOf D p.omega (D.left f)) ((D.right f).bind (waveOf D p.omega)) := by
    intro f hf
    simp only [computeIntegrals, hfull, Bool.true_or, if_true, assemble, faceIntegrals, elementIntegrals]
    rw [seen_eq D _ _ hw _ (hc f hf).1, seenRight_eq D _ _ hw hc f hf]
  have hwv : (computeIntegrals D c p s).wave = s.wave := by
    simp only [computeIntegrals, hfull, Bool.true_or, if_true, assemble, faceIntegrals, elementIntegrals]
  have hsol : ∃ m, (computeIntegrals D c p s).solver = some m := by
    simp only [computeIntegrals, hfull, Bool.true_or, if_true, assemble, faceIntegrals, elementIntegrals]
    exact ⟨_, rfl⟩
  have hl : (computeIntegrals D c p s).load = systemVector D p := by
    rw [← load_eq D p _ he hf]
    simp only [computeIntegrals]
  obtain ⟨m, hsol⟩ := hsol
  refine ⟨{ computeIntegrals D c p s with solver := some (systemMatrix D p) }, ?_, ?_, hl⟩
  · simp only [assembleSolverMatrix, hsol, systemMatrix_eq D p _ hm hs hi]
  · exact ⟨by rw [hwv]; exact hw, he, hf, hm, hs, hi, rfl⟩

/-- When nothing that needs new matrices has changed. -/
theorem partial_upToDate (D : Discretisation E F BC Src Val A B) (hc : Closed D) (c : Changes) (before p : Problem F BC Src Val) (s : State E F A B)
    (hfull : (c.bcType || (checkDispersion D && c.omega)) = false) (hon : c.Honest before p)
    (hw : ∀ e ∈ D.elements, ∀ o, D.object e = some o → s.wave o = some p.omega) (h : ∃ w, UpToDate D before { s with wave := w }) :
    (computeIntegrals D c p s).wave = s.wave ∧
    (∀ e ∈ D.elements, (computeIntegrals D c p s).eVec e = D.elementVector e p.source) ∧
    (∀ f ∈ D.faces, (computeIntegrals D c p s).fVec f =
      D.faceVector f (p.bcType f) p.bcValue (waveOf D p.omega (D.left f)) ((D.right f).bind (waveOf D p.omega))) ∧
    (computeIntegrals D c p s).mass = (D.elements.map fun e => D.mass e (waveOf D p.omega e)).sum ∧
    (computeIntegrals D c p s).stiff = (D.elements.map fun e => D.stiff e (waveOf D p.omega e)).sum +
      (D.faces.map fun f => D.faceStiff f (p.bcType f) (waveOf D p.omega (D.left f)) ((D.right f).bind (waveOf D p.omega))).sum ∧
    (computeIntegrals D c p s).imp = (D.faces.map fun f => D.impedance f (p.bcType f)).sum ∧
    (computeIntegrals D c p s).solver = some (systemMatrix D before) ∧
    (computeIntegrals D c p s).load = systemVector D p := by
  obtain ⟨w, h⟩ := h
  obtain ⟨hb, hd⟩ := Bool.or_eq_false_iff.1 hfull
  have hbc := hon.2.2.1 hb
  have hwv : checkDispersion D = false ∨ before.omega = p.omega := by
    rcases Bool.and_eq_false_iff.1 hd with h | h
    · exact Or.inl h
    · exact Or.inr (hon.1 h).symm
  have w1 := fun e he => waveOf_congr D _ _ hwv e he
  have w2 := fun f hf => waveOf_right D hc _ _ hwv f hf
  have key : (∀ e ∈ D.elements, (computeIntegrals D c p s).eVec e = D.elementVector e p.source) ∧
    (∀ f ∈ D.faces, (computeIntegrals D c p s).fVec f =
      D.faceVector f (p.bcType f) p.bcValue (waveOf D p.omega (D.left f)) ((D.right f).bind (waveOf D p.omega))) := by
    constructor
    · intro e he
      have h0 : s.eVec e = D.elementVector e before.source := h.eVec e he
      rcases hcs : c.source
      · have : (computeIntegrals D c p s).eVec e = s.eVec e := by
          simp only [computeIntegrals, hfull, hcs, Bool.false_or, Bool.false_eq_true, if_false]
          cases c.bcValue <;> rfl
        rw [this, h0, hon.2.1 hcs]
      · simp only [computeIntegrals, hfull, hcs, Bool.false_or, Bool.false_eq_true, if_false, if_true]
        cases c.bcValue <;> rfl
    · intro f hf
      have h0 : s.fVec f = D.faceVector f (before.bcType f) before.bcValue (waveOf D before.omega (D.left f)) ((D.right f).bind (waveOf D before.omega)) :=
        h.fVec f hf
      rcases hcs : c.bcValue
      · have : (computeIntegrals D c p s).fVec f = s.fVec f := by
          simp only [computeIntegrals, hfull, hcs, Bool.false_or, Bool.false_eq_true, if_false]
          cases c.source <;> rfl
        rw [this, h0, hon.2.2.2 hcs, hbc, w1 _ (hc f hf).1, w2 f hf]
      · have : (computeIntegrals D c p s).fVec f = D.faceVector f (p.bcType f) p.bcValue (seen D s.wave (D.left f)) (seenRight D s.wave f) := by
          simp only [computeIntegrals, hfull, hcs, Bool.false_or, Bool.false_eq_true, if_false, if_true, faceIntegrals]
          cases c.source <;> rfl
        rw [this, seen_eq D _ _ hw _ (hc f hf).1, seenRight_eq D _ _ hw hc f hf]
  have same : (computeIntegrals D c p s).wave = s.wave ∧ (computeIntegrals D c p s).mass = s.mass ∧ (computeIntegrals D c p s).stiff = s.stiff ∧
      (computeIntegrals D c p s).imp = s.imp ∧ (computeIntegrals D c p s).solver = s.solver := by
    simp only [computeIntegrals, hfull, Bool.false_or, Bool.false_eq_true, if_false]
    cases c.source <;> cases c.bcValue <;> exact ⟨rfl, rfl, rfl, rfl, rfl⟩
  refine ⟨same.1, key.1, key.2, ?_, ?_, ?_, ?_, ?_⟩
  · rw [same.2.1]
    exact h.mass.trans (congrArg List.sum (List.map_congr_left fun e he => by rw [w1 e he]))
  · rw [same.2.2.1]
    refine h.stiff.trans (congrArg₂ _ (congrArg List.sum (List.map_congr_left fun e he => by rw [w1 e he]))
      (congrArg List.sum (List.map_congr_left fun f hf => by rw [w1 _ (hc f hf).1, w2 f hf, hbc])))
  · rw [same.2.2.2.1, hbc]; exact h.imp
  · rw [same.2.2.2.2]; exact h.solver
  · rw [← load_eq D p _ key.1 key.2]
    simp only [computeIntegrals]

end Verif.Harmonic
