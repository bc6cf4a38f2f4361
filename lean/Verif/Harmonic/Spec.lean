import Verif.Harmonic.Model

/-!
# Specification of the solver for harmonic problems

The system of one problem, from the problem alone, and what is required of the answers of a driver.
-/
namespace Verif.Harmonic

variable {E F BC Src Val A B : Type} [AddCommGroup A] [Module ℝ A] [AddCommGroup B]

/-- The wave number that matters for the integrals of an element. -/
def waveOf (D : Discretisation E F BC Src Val A B) (omega : ℝ) (e : E) : Option ℝ := (D.object e).map fun _ => omega

/-- The matrix of a problem: stiffness, plus wave number times impedance, minus square of the wave number times mass. -/
noncomputable def systemMatrix (D : Discretisation E F BC Src Val A B) (p : Problem F BC Src Val) : A :=
  (D.elements.map fun e => D.stiff e (waveOf D p.omega e)).sum +
  (D.faces.map fun f => D.faceStiff f (p.bcType f) (waveOf D p.omega (D.left f)) ((D.right f).bind (waveOf D p.omega))).sum +
  p.omega • (D.faces.map fun f => D.impedance f (p.bcType f)).sum -
  (p.omega ^ 2) • (D.elements.map fun e => D.mass e (waveOf D p.omega e)).sum

/-- The right hand side of a problem. -/
def systemVector (D : Discretisation E F BC Src Val A B) (p : Problem F BC Src Val) : B :=
  (D.elements.map fun e => D.elementVector e p.source).sum +
  (D.faces.map fun f => D.faceVector f (p.bcType f) p.bcValue (waveOf D p.omega (D.left f)) ((D.right f).bind (waveOf D p.omega))).sum

/-- What is reported as unchanged is the same as in the problem before. -/
def Changes.Honest (c : Changes) (before p : Problem F BC Src Val) : Prop :=
  (c.omega = false → p.omega = before.omega) ∧ (c.source = false → p.source = before.source) ∧
  (c.bcType = false → p.bcType = before.bcType) ∧ (c.bcValue = false → p.bcValue = before.bcValue)

/-- The driver is honest from one problem to the next. -/
def Honest : List (Changes × Problem F BC Src Val) → Prop
  | (_, p) :: (c, q) :: rest => c.Honest p q ∧ Honest ((c, q) :: rest)
  | _ => True

/-- For the first problem everything is reported as changed. -/
def StartsNew : List (Changes × Problem F BC Src Val) → Prop
  | (c, _) :: _ => c = ⟨true, true, true, true⟩
  | [] => True

/-- The mesh has the elements that its faces refer to. -/
def Closed (D : Discretisation E F BC Src Val A B) : Prop :=
  ∀ f ∈ D.faces, D.left f ∈ D.elements ∧ ∀ e, D.right f = some e → e ∈ D.elements

/-- All dispersive materials of the mesh were given to the solver with `addDispersive`. -/
def Registered (D : Discretisation E F BC Src Val A B) (registered : List Nat) : Prop :=
  ∀ e ∈ D.elements, ∀ o, D.object e = some o → o ∈ registered

end Verif.Harmonic
