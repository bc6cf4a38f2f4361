import Verif.PhysFace.Model
import Verif.PhysElem.LemmasTrace

/-!
# C76, C77: programs of requests, and the two elements
-/
namespace Verif.PhysFace
open PhysElem (Kind Mat resize)

set_option linter.all false

variable {R P X M W : Type} [CommRing R] [AddCommGroup W] [Module R W] (g : Prog R P X M W)

namespace Call
variable {α β E : Type} (act : E → PhysElem.Op R P → Option (E × PhysElem.Ans R P X M W))

theorem run_bind (c : Call R P X M W α) (f : α → Call R P X M W β) (e : Side → E) :
    (c.bind f).run act e = (c.run act e).bind fun x => (f x.2).run act x.1 := by
  induction c generalizing e with
  | ret a => rfl
  | stop => rfl
  | ask s a k ih =>
    simp only [bind, run]
    cases act (e s) a with
    | none => rfl
    | some x => exact ih x.2 _

theorem run_lift (o : Option α) (e : Side → E) : (lift o : Call R P X M W α).run act e = o.map fun a => (e, a) := by
  cases o <;> rfl

theorem run_ret (a : α) (e : Side → E) : (ret a : Call R P X M W α).run act e = some (e, a) := rfl

theorem run_stop (e : Side → E) : (stop : Call R P X M W α).run act e = none := rfl

theorem run_when (b : Bool) (c : Call R P X M W Unit) (e : Side → E) :
    (when b c).run act e = if b then c.run act e else some (e, ()) := by
  cases b <;> rfl

theorem run_tell (s : Side) (a : PhysElem.Op R P) (e : Side → E) :
    (tell s a : Call R P X M W Unit).run act e = (act (e s) a).map fun x => (Function.update e s x.1, ()) := by
  unfold tell
  simp only [run]
  cases act (e s) a <;> rfl

/-- A loop of requests that change nothing. -/
theorem run_collect (f : Nat → Call R P X M W α) (h : Nat → Option α) (e : Side → E) (l : List Nat)
    (hf : ∀ j ∈ l, (f j).run act e = (h j).map fun a => (e, a)) :
    (collect f l).run act e = (l.mapM h).map fun a => (e, a) := by
  induction l with
  | nil => rfl
  | cons j l ih =>
    simp only [collect, run_bind, hf j (by simp), List.mapM_cons]
    cases h j with
    | none => rfl
    | some a =>
      simp only [Option.map_some, Option.bind_some, ih fun j hj => hf j (by simp [hj])]
      cases l.mapM h <;> rfl

/-- Only requests with which the elements can deal (matrices left as they should be, no change of coefficients). -/
def fine : Call R P X M W α → Prop
  | ret _ => True
  | stop => True
  | ask _ a k => (a.sound ∧ ∀ c, a ≠ .change c) ∧ ∀ v, (k v).fine

theorem fine_bind (c : Call R P X M W α) (f : α → Call R P X M W β) (hc : c.fine) (hf : ∀ a, (f a).fine) : (c.bind f).fine := by
  induction c with
  | ret a => exact hf a
  | stop => trivial
  | ask s a k ih => exact ⟨hc.1, fun v => ih v (hc.2 v)⟩

theorem fine_lift (o : Option α) : (lift o : Call R P X M W α).fine := by cases o <;> trivial

theorem fine_when (b : Bool) (c : Call R P X M W Unit) (hc : c.fine) : (when b c).fine := by cases b <;> simp [when, hc, fine]

theorem fine_collect (f : Nat → Call R P X M W α) (l : List Nat) (hf : ∀ j, (f j).fine) : (collect f l).fine := by
  induction l with
  | nil => trivial
  | cons j l ih => exact fine_bind _ _ (hf j) fun a => fine_bind _ _ ih fun r => trivial

end Call

/-- The element object is in order and stands for `n`. -/
def Rel (g : PhysElem.Prog R P X M W) (s : PhysElem.State R P X M W) (n : PhysElem.Now R P) : Prop :=
  ∃ b, PhysElem.Inv g s b false ∧ s.core.now = n

/-- The program runs on the element objects as it does on what they stand for. -/
theorem run_sim {α : Type} (c : Call R P X M W α) (hc : c.fine) (e : Side → PhysElem.State R P X M W) (n : Side → PhysElem.Now R P)
    (h : ∀ s, Rel g.base (e s) (n s)) :
    match c.run (PhysElem.State.act g.base) e with
    | none => c.run (PhysElem.Now.act g.base) n = none
    | some (e', a) => ∃ n', c.run (PhysElem.Now.act g.base) n = some (n', a) ∧ ∀ s, Rel g.base (e' s) (n' s) := by
  induction c generalizing e n with
  | ret a => exact ⟨n, rfl, h⟩
  | stop => rfl
  | ask s a k ih =>
    obtain ⟨b, hI, hn⟩ := h s
    have hstep := PhysElem.step (e s) b false hI a hc.1.1 [.solution] (by
      have := hc.1.2
      cases a <;> simp_all [PhysElem.upToDate])
    simp only [Call.run]
    unfold PhysElem.Step at hstep
    rw [← hn]
    cases hr : (e s).act g.base a with
    | none =>
      rw [hr] at hstep
      simp only [Option.bind_none]
      rw [hstep]; rfl
    | some x =>
      obtain ⟨e', v⟩ := x
      rw [hr] at hstep
      obtain ⟨h1, b', c', hI', hup⟩ := hstep
      have hc' : c' = false := by
        cases c' with
        | false => rfl
        | true => simp [PhysElem.upToDate] at hup
      subst hc'
      simp only [Option.bind_some, h1]
      refine ih v (hc.2 v) _ _ ?_
      intro s'
      by_cases hs : s' = s
      · subst hs
        rw [Function.update_self, Function.update_self]
        exact ⟨b', hI', rfl⟩
      · rw [Function.update_of_ne hs, Function.update_of_ne hs]
        exact h s'

section Fine
open Call
variable (s : Core R P W)

theorem fine_askFn (sd : Side) (k : Kind) (i : Nat) (u : Option Nat) : (askFn sd k i u : Call R P X M W W).fine :=
  ⟨⟨trivial, by simp⟩, fun v => fine_lift _⟩

theorem fine_askRight (k : Kind) (i : Nat) (u : Option Nat) : (s.askRight g k i u).fine :=
  fine_bind _ _ (fine_askFn _ _ _ _) fun _ => fine_lift _

theorem fine_fn (k : Kind) (i : Nat) (u : Option Nat) : (s.fn g k i u).fine := by
  refine fine_bind _ _ (fine_lift _) fun _ => fine_bind _ _ (fine_lift _) fun n => ?_
  split
  · exact fine_askFn _ _ _ _
  · split
    · exact fine_askRight g s _ _ _
    · trivial

theorem fine_fnSide (sd : Side) (k : Kind) (i : Nat) (u : Option Nat) : (s.fnSide g sd k i u).fine := by
  refine fine_bind _ _ (fine_lift _) fun _ => ?_
  cases sd
  · exact fine_askFn _ _ _ _
  · simp only
    split
    · exact fine_askRight g s _ _ _
    · trivial

theorem fine_timesNormal (c n : Bool) (i : Nat) (u : Option Nat) : (s.timesNormal g c n i u).fine := by
  refine fine_bind _ _ (fine_lift _) fun x => ?_
  simp only
  split
  · refine fine_bind _ _ (fine_lift _) fun h => ?_
    split
    · exact fine_bind _ _ (fine_lift _) fun _ => trivial
    · refine fine_bind _ _ (fine_lift _) fun _ => fine_bind _ _ (fine_lift _) fun _ => fine_bind _ _ (fine_lift _) fun _ =>
        fine_bind _ _ (fine_collect _ _ fun j => fine_bind _ _ (fine_fn g _ _ _ _) fun _ => trivial) fun l => ?_
      split
      · exact fine_bind _ _ (fine_lift _) fun _ => trivial
      · trivial
  · trivial

theorem fine_computeDer (k : Der) (u : Nat) : (s.computeDer g k u).fine := by
  refine fine_bind _ _ (fine_lift _) fun f => ?_
  split
  · refine fine_bind _ _ (fine_lift _) fun n => fine_collect _ _ fun j => ?_
    split
    · exact fine_askFn _ _ _ _
    · exact fine_askRight g s _ _ _
  · trivial

theorem fine_der (k : Der) (i u : Nat) : (s.der g k i u).fine := by
  refine fine_bind _ _ (fine_lift _) fun x => ?_
  simp only
  split
  · exact fine_bind _ _ (fine_lift _) fun _ => trivial
  · exact fine_bind _ _ (fine_computeDer g s k u) fun l => fine_bind _ _ (fine_lift _) fun _ => trivial

theorem fine_tell (sd : Side) (a : PhysElem.Op R P) (h : a.sound) (h' : ∀ c, a ≠ .change c) : (tell sd a : Call R P X M W Unit).fine :=
  ⟨⟨h, h'⟩, fun _ => trivial⟩

theorem fine_tellPoint (f : Nat) (b : Bool) (p : P) : (tellPoint g f b p).fine :=
  fine_bind _ _ (fine_tell _ _ trivial (by simp)) fun _ => fine_when _ _ (fine_tell _ _ trivial (by simp))

theorem fine_setPoint (p : P) : (s.setPoint g p).fine :=
  fine_bind _ _ (fine_lift _) fun f => fine_bind _ _ (fine_tellPoint g _ _ _) fun _ => trivial

theorem fine_setFace (f : Nat) : (s.setFace g f).fine := by
  unfold Core.setFace
  split
  · refine fine_bind _ _ (fine_tell _ _ trivial (by simp)) fun _ =>
      fine_bind _ _ (fine_when _ _ (fine_tell _ _ trivial (by simp))) fun _ => fine_bind _ _ ?_ fun _ => trivial
    split
    · exact fine_tellPoint g _ _ _
    · trivial
  · trivial

theorem fine_setTransform (t u : Nat) : (s.setTransform t u : Call R P X M W _).fine := by
  unfold Core.setTransform
  split
  · trivial
  · exact fine_bind _ _ (fine_tell _ _ trivial (by simp)) fun _ =>
      fine_bind _ _ (fine_when _ _ (fine_tell _ _ trivial (by simp))) fun _ => trivial

theorem fine_tellRule (sd : Side) (r : Nat) : (s.tellRule sd r : Call R P X M W _).fine :=
  fine_bind _ _ (fine_lift _) fun _ => fine_tell _ _ trivial (by simp)

theorem fine_setIndex (q : Nat) : (s.setIndex g q).fine :=
  fine_bind _ _ (fine_lift _) fun r => fine_bind _ _ (fine_lift _) fun p => fine_bind _ _ (fine_setPoint g s p) fun s' =>
    fine_bind _ _ (fine_tellRule s' _ _) fun _ => fine_bind _ _ (fine_tell _ _ trivial (by simp)) fun _ =>
    fine_bind _ _ (fine_when _ _ (fine_bind _ _ (fine_tellRule s' _ _) fun _ => fine_tell _ _ trivial (by simp))) fun _ => trivial

theorem fine_setRule (r : Nat) : (s.setRule g r).fine :=
  fine_bind _ _ (fine_lift _) fun f => fine_bind _ _ (fine_tellRule _ _ _) fun _ =>
    fine_bind _ _ (fine_when _ _ (fine_tellRule _ _ _)) fun _ => fine_setIndex g _ _

theorem fine_elemResult (sd : Side) (m : List (Mat R)) (vec : Bool) (h : ∀ x ∈ m, x.entries.length = x.rows * x.cols) :
    (elemResult sd m vec : Call R P X M W _).fine := by
  unfold elemResult
  split
  · refine ⟨?_, fun v => ?_⟩
    · cases vec
      · exact ⟨h _ (by simp), by simp⟩
      · exact ⟨trivial, by simp⟩
    · cases v <;> trivial
  · trivial

theorem fine_passOn (sd : Side) (a : PhysElem.Op R P) (h : a.sound) (h' : ∀ c, a ≠ .change c) :
    (s.passOn sd a : Call R P X M W _).fine := by
  refine fine_bind _ _ (fine_lift _) fun _ => ?_
  split
  · exact ⟨⟨h, h'⟩, fun _ => trivial⟩
  · trivial

theorem fine_act (a : Op R P) (U : Nat) (size : Side → Nat → Nat) (h : a.sound s.internal U size) : (s.act g a).fine := by
  cases a with
  | setFace f => exact fine_bind _ _ (fine_setFace g s f) fun _ => trivial
  | setPoint p => exact fine_bind _ _ (fine_setPoint g s p) fun _ => trivial
  | setRule r => exact fine_bind _ _ (fine_setRule g s r) fun _ => trivial
  | setIndex r => exact fine_bind _ _ (fine_setIndex g s r) fun _ => trivial
  | setTransform t u => exact fine_bind _ _ (fine_setTransform s t u) fun _ => trivial
  | fn vec sd i u =>
    cases sd with
    | none => exact fine_bind _ _ (fine_fn g s _ _ _) fun _ => trivial
    | some sd => exact fine_bind _ _ (fine_fnSide g s _ _ _ _) fun _ => trivial
  | der k sd i u => exact fine_bind _ _ (fine_lift _) fun j => fine_bind _ _ (fine_der g s _ _ _) fun _ => trivial
  | timesNormal c n sd i u =>
    simp only [Core.act]
    split
    · trivial
    · refine fine_bind _ _ (fine_lift _) fun _ => ?_
      split
      · trivial
      · exact fine_bind _ _ (fine_lift _) fun j => fine_bind _ _ (fine_timesNormal g s _ _ _ _) fun _ => trivial
  | solution sd => exact fine_passOn s _ _ trivial (by simp)
  | solutionDeriv sd => exact fine_passOn s _ _ trivial (by simp)
  | pointReference => exact fine_lift _
  | pointPhysical => exact fine_passOn s _ _ trivial (by simp)
  | normal => exact fine_lift _
  | unitNormal => exact fine_lift _
  | area => exact fine_lift _
  | result it m =>
    simp only [Core.act, Core.result]
    cases it with
    | matrix => exact fine_lift _
    | vector => exact fine_lift _
    | leftRight => simp only; split; exacts [fine_lift _, trivial]
    | rightLeft => simp only; split; exacts [fine_lift _, trivial]
    | elemMatrix sd =>
      refine fine_bind _ _ (fine_lift _) fun _ => ?_
      split
      · exact fine_bind _ _ (fine_elemResult _ _ _ h.2) fun _ => trivial
      · trivial
    | elemVector sd =>
      refine fine_bind _ _ (fine_lift _) fun _ => ?_
      split
      · exact fine_bind _ _ (fine_elemResult _ _ _ h.2) fun _ => trivial
      · trivial

end Fine

end Verif.PhysFace
