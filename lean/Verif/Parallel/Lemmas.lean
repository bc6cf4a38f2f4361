import Verif.Parallel.Spec
import Verif.Submesh.Props
import Mathlib.Tactic.Abel
import Mathlib.Data.List.Induction

/-! # Helper lemmas -/
set_option linter.all false
namespace Verif.Parallel
open Verif.Submesh

variable {V : Type} [AddCommGroup V] [Module ℝ V]

theorem set_same (d : Data V) (v e : Nat) (x : V) (e' : Nat) : d.set v e x v e' = if e' = e then x else d v e' := by
  simp [Data.set, Function.update_apply]

theorem set_other (d : Data V) (v e : Nat) (x : V) (v' : Nat) (h : v' ≠ v) : d.set v e x v' = d v' := by
  simp [Data.set, Function.update_apply, h]

theorem combination_congr (d d' : Data V) (e e' : Nat) (ins : List (Nat × ℝ)) (h : ∀ p ∈ ins, d p.1 e = d' p.1 e') :
    combination d e ins = combination d' e' ins := by
  cases ins with
  | nil => rfl
  | cons p l =>
    obtain ⟨v, c⟩ := p
    simp only [combination]
    rw [h (v, c) (by simp)]
    have : ∀ p ∈ l, d p.1 e = d' p.1 e' := fun p hp => h p (by simp [hp])
    clear h
    generalize c • d' v e' = a
    induction l generalizing a with
    | nil => rfl
    | cons q l ih =>
      simp only [List.foldl_cons]
      rw [this q (by simp)]
      exact ih (fun p hp => this p (by simp [hp])) _

theorem combination_eq (d : Data V) (e : Nat) (ins : List (Nat × ℝ)) : combination d e ins = combined d ins e := by
  have key : ∀ (l : List (Nat × ℝ)) (a : V), l.foldl (fun acc p => acc + p.2 • d p.1 e) a = a + (l.map fun p => p.2 • d p.1 e).sum := by
    intro l
    induction l with
    | nil => simp
    | cons q l ih => intro a; simp [ih, add_assoc]
  cases ins with
  | nil => rfl
  | cons p l => simp [combination, combined, key]

/-- A loop over elements that changes one vector of the element at hand. -/
theorem elems_loop (v : Nat) (φ : Data V → Nat → V)
    (hφ : ∀ (d d' : Data V) e, (∀ v', d v' e = d' v' e) → φ d e = φ d' e) (d : Data V) :
    ∀ (elems : List Nat), elems.Nodup →
    let d' := elems.foldl (fun d e => d.set v e (φ d e)) d
    (∀ v', v' ≠ v → d' v' = d v') ∧ (∀ e ∈ elems, d' v e = φ d e) ∧ ∀ e ∉ elems, d' v e = d v e := by
  intro elems
  induction elems using List.reverseRecOn with
  | nil => intro _; simp
  | append_singleton l a ih =>
    intro hn
    rw [List.nodup_append] at hn
    obtain ⟨h1, h2, h3⟩ := ih hn.1
    have ha : a ∉ l := fun h => hn.2.2 a h a (by simp) rfl
    simp only [List.foldl_append, List.foldl_cons, List.foldl_nil]
    refine ⟨fun v' hv => ?_, fun e he => ?_, fun e he => ?_⟩
    · rw [set_other _ _ _ _ _ hv, h1 v' hv]
    · rw [set_same]
      split
      · next h =>
        subst h
        refine hφ _ _ _ fun v' => ?_
        by_cases hv : v' = v
        · subst hv; exact h3 e ha
        · rw [h1 v' hv]
      · next h => exact h2 e (by simpa [h] using he)
    · rw [set_same, if_neg (by rintro rfl; simp at he), h3 e (by simp at he; tauto)]

/-- A loop over faces that adds to one vector of the elements next to the face at hand. -/
theorem faces_loop (v : Nat) (step : Data V → Face → Data V) (term : Face → Nat → V) (d : Data V)
    (h1 : ∀ d' : Data V, (∀ v', v' ≠ v → d' v' = d v') → ∀ f v', v' ≠ v → step d' f v' = d' v')
    (h2 : ∀ d' : Data V, (∀ v', v' ≠ v → d' v' = d v') → ∀ f e, step d' f v e = d' v e + term f e) :
    ∀ (faces : List Face) (d' : Data V), (∀ v', v' ≠ v → d' v' = d v') →
    (∀ v', v' ≠ v → faces.foldl step d' v' = d v') ∧ ∀ e, faces.foldl step d' v e = d' v e + (faces.map fun f => term f e).sum := by
  intro faces
  induction faces with
  | nil => intro d' hd; exact ⟨hd, by simp⟩
  | cons f l ih =>
    intro d' hd
    have hd' : ∀ v', v' ≠ v → step d' f v' = d v' := fun v' hv => by rw [h1 d' hd f v' hv, hd v' hv]
    obtain ⟨a, b⟩ := ih _ hd'
    refine ⟨a, fun e => ?_⟩
    rw [List.foldl_cons, b, h2 d' hd]
    simp [add_assoc]

theorem faceRef_other (P : Problem V) (t : ℝ) (inp res : Nat) (d : Data V) (f : Face) (v : Nat) (hv : v ≠ res) :
    faceRef P t inp res d f v = d v := by
  obtain ⟨id, l, r⟩ := f
  cases r with
  | none => exact set_other _ _ _ _ _ hv
  | some r =>
    simp only [faceRef]
    split <;> simp only [set_other _ _ _ _ _ hv]

theorem faceCopy_other (P : Problem V) (t : ℝ) (ins : List (Nat × ℝ)) (res : Nat) (d : Data V) (f : Face) (v : Nat) (hv : v ≠ res) :
    faceCopy P t ins res d f v = d v := by
  obtain ⟨id, l, r⟩ := f
  cases r with
  | none => exact set_other _ _ _ _ _ hv
  | some r =>
    simp only [faceCopy]
    split <;> simp only [set_other _ _ _ _ _ hv]

theorem multiplyFaceRef_other (P : Problem V) (inp res : Nat) (d : Data V) (f : Face) (v : Nat) (hv : v ≠ res) :
    multiplyFaceRef P inp res d f v = d v := by
  obtain ⟨id, l, r⟩ := f
  cases r with
  | none => exact set_other _ _ _ _ _ hv
  | some r =>
    simp only [multiplyFaceRef, set_other _ _ _ _ _ hv]

theorem multiplyFaceCopy_other (P : Problem V) (ins : List (Nat × ℝ)) (res : Nat) (d : Data V) (f : Face) (v : Nat) (hv : v ≠ res) :
    multiplyFaceCopy P ins res d f v = d v := by
  obtain ⟨id, l, r⟩ := f
  cases r with
  | none => exact set_other _ _ _ _ _ hv
  | some r =>
    simp only [multiplyFaceCopy, set_other _ _ _ _ _ hv]

/-- Addition on both sides of a face. -/
theorem two_adds (d : Data V) (v l r : Nat) (x y : V) (e : Nat) :
    (let d' := d.set v l (d v l + x); d'.set v r (d' v r + y)) v e = d v e + ((if l = e then x else 0) + (if r = e then y else 0)) := by
  simp only [set_same]
  by_cases h1 : e = r <;> by_cases h2 : e = l
  · subst h1; subst h2; simp [add_assoc]
  · subst h1; simp [h2, Ne.symm h2]
  · subst h2; simp [h1, Ne.symm h1]
  · simp [h1, h2, Ne.symm h1, Ne.symm h2]

theorem one_add (d : Data V) (v l : Nat) (x : V) (e : Nat) : d.set v l (d v l + x) v e = d v e + (if l = e then x else 0) := by
  rw [set_same]
  by_cases h : e = l
  · subst h; simp
  · simp [h, Ne.symm h]

theorem faceRef_same (P : Problem V) (t : ℝ) (inp res : Nat) (hne : inp ≠ res) (d : Data V) (f : Face) (e : Nat) :
    faceRef P t inp res d f res e = d res e + share (fun f a b => (sides P t f a b).1) (fun f a b => (sides P t f a b).2)
      (fun f a => P.atBoundary f a t) (d inp) e f := by
  obtain ⟨id, l, r⟩ := f
  cases r with
  | none => simp only [faceRef, share]; exact one_add _ _ _ _ _
  | some r =>
    simp only [faceRef, share, sides]
    cases P.computeBoth
    · simp only [Bool.false_eq_true, if_false, set_other _ _ _ _ _ hne]
      exact two_adds d res l r _ _ e
    · simp only [if_true]
      exact two_adds d res l r _ _ e

theorem faceCopy_same (P : Problem V) (t : ℝ) (ins : List (Nat × ℝ)) (res : Nat) (d : Data V) (f : Face) (e : Nat) :
    faceCopy P t ins res d f res e = d res e + share (fun f a b => (sides P t f a b).1) (fun f a b => (sides P t f a b).2)
      (fun f a => P.atBoundary f a t) (combined d ins) e f := by
  obtain ⟨id, l, r⟩ := f
  cases r with
  | none => simp only [faceCopy, share, combination_eq]; exact one_add _ _ _ _ _
  | some r =>
    simp only [faceCopy, share, sides, combination_eq]
    cases P.computeBoth
    · simp only [Bool.false_eq_true, if_false]
      exact two_adds d res l r _ _ e
    · simp only [if_true]
      exact two_adds d res l r _ _ e

theorem multiplyFaceRef_same (P : Problem V) (inp res : Nat) (hne : inp ≠ res) (d : Data V) (f : Face) (e : Nat) :
    multiplyFaceRef P inp res d f res e = d res e + share (fun f a b => P.faceMatrix f true true a + P.faceMatrix f true false b)
      (fun f a b => P.faceMatrix f false true a + P.faceMatrix f false false b) (fun f a => P.faceMatrix f true true a) (d inp) e f := by
  obtain ⟨id, l, r⟩ := f
  cases r with
  | none => simp only [multiplyFaceRef, share]; exact one_add _ _ _ _ _
  | some r =>
    simp only [multiplyFaceRef, share, set_other _ _ _ _ _ hne]
    exact two_adds d res l r _ _ e

theorem multiplyFaceCopy_same (P : Problem V) (ins : List (Nat × ℝ)) (res : Nat) (d : Data V) (f : Face) (e : Nat) :
    multiplyFaceCopy P ins res d f res e = d res e + share (fun f a b => P.faceMatrix f true true a + P.faceMatrix f true false b)
      (fun f a b => P.faceMatrix f false true a + P.faceMatrix f false false b) (fun f a => P.faceMatrix f true true a)
      (combined d ins) e f := by
  obtain ⟨id, l, r⟩ := f
  cases r with
  | none => simp only [multiplyFaceCopy, share, combination_eq]; exact one_add _ _ _ _ _
  | some r =>
    simp only [multiplyFaceCopy, share, combination_eq]
    rw [one_add, one_add, one_add, one_add]
    by_cases h1 : l = e <;> by_cases h2 : r = e <;> simp [h1, h2] <;> abel

/-- The sum over the faces of a process, with its own data, is the sum over all faces with the data of the mesh. -/
theorem sum_share (ws : List Rank) (faces : Nat → List Face) (all : List Face) (hC : Complete ws faces all) (q : Nat) (w : Rank)
    (hw : ws[q]? = some w) (left right : Nat → V → V → V) (wall : Nat → V → V) (u u' : Nat → V) (hu : ∀ e, Known w e → u e = u' e) (e : Nat)
    (he : e ∈ w.elems) :
    ((faces q).map (share left right wall u e)).sum = (all.map (share left right wall u' e)).sum := by
  have hz : ∀ (u : Nat → V) (f : Face), ¬ f.at e → share left right wall u e f = 0 := by
    intro u f hf
    obtain ⟨id, l, r⟩ := f
    simp only [Face.at, not_or] at hf
    cases r with
    | none => simp [share, hf.1]
    | some r => simp [share, hf.1, show ¬ r = e from fun h => hf.2 (by simp [h])]
  have key : ∀ (u : Nat → V) (l : List Face), (l.map (share left right wall u e)).sum =
      ((l.filter fun f => f.at e).map (share left right wall u e)).sum := by
    intro u l
    induction l with
    | nil => rfl
    | cons f l ih =>
      by_cases hf : f.at e
      · simp [hf, ih]
      · simp [hf, ih, hz u f hf]
  rw [key, key u' all]
  rw [← ((hC.own q w hw e he).map _).sum_eq]
  congr 1
  apply List.map_congr_left
  intro f hf
  rw [List.mem_filter, decide_eq_true_iff] at hf
  have hl := hu _ (hC.left q w hw e he f hf.1 hf.2)
  have hr := hC.right q w hw e he f hf.1 hf.2
  obtain ⟨id, l, r⟩ := f
  cases r with
  | none => simp only [share]; rw [hl]
  | some r => simp only [share]; rw [hl, hu _ (hr r rfl)]

/-- What a process has computed for its own elements before the exchange. -/
theorem work_own (P : Problem V) (ws : List Rank) (faces : Nat → List Face) (all : List Face) (hC : Complete ws faces all) (q : Nat)
    (w : Rank) (hw : ws[q]? = some w) (d g : Data V) (hd : ∀ v e, Known w e → d v e = g v e) (op : Op) (hop : op.Allowed) :
    (∀ v, v ≠ op.target → op.work P w.elems (faces q) d v = d v) ∧
      ∀ e ∈ w.elems, op.work P w.elems (faces q) d op.target e = op.value P all g e := by
  have hn := hC.nodup w (List.mem_of_getElem? hw)
  have own : ∀ e ∈ w.elems, Known w e := fun e he => Or.inl he
  have hcomb : ∀ (ins : List (Nat × ℝ)) e, Known w e → combined d ins e = combined g ins e := by
    intro ins e he
    unfold combined
    congr 1
    exact List.map_congr_left fun p _ => by rw [hd _ _ he]
  cases op with
  | rhs inp res t =>
    simp only [Op.Allowed] at hop
    simp only [Op.work, Op.target, rhsRef, Op.value, rightHandSide]
    obtain ⟨a, b, c⟩ := elems_loop res (fun d e => P.atElement e (d inp e) t) (fun d d' e h => by simp only [h]) d w.elems hn
    obtain ⟨a', b'⟩ := faces_loop res (faceRef P t inp res) (fun f e => share (fun f a b => (sides P t f a b).1)
      (fun f a b => (sides P t f a b).2) (fun f a => P.atBoundary f a t) (d inp) e f) d
      (fun d' _ f v' hv => faceRef_other P t inp res d' f v' hv)
      (fun d' hd' f e => by rw [faceRef_same P t inp res hop, hd' inp hop]) (faces q) _ a
    refine ⟨a', fun e he => ?_⟩
    rw [b', b e he, sum_share ws faces all hC q w hw _ _ _ (d inp) (g inp) (fun e he => hd inp e he) e he, hd _ _ (own e he)]
  | rhsOf ins res t =>
    simp only [Op.Allowed] at hop
    simp only [Op.work, Op.target, rhsCopy, Op.value, rightHandSide]
    obtain ⟨a, b, c⟩ := elems_loop res (fun d e => P.atElement e (combination d e ins) t)
      (fun d d' e h => by simp only [combination_congr d d' e e ins fun p _ => h p.1]) d w.elems hn
    obtain ⟨a', b'⟩ := faces_loop res (faceCopy P t ins res) (fun f e => share (fun f a b => (sides P t f a b).1)
      (fun f a b => (sides P t f a b).2) (fun f a => P.atBoundary f a t) (combined d ins) e f) d
      (fun d' _ f v' hv => faceCopy_other P t ins res d' f v' hv)
      (fun d' hd' f e => by
        rw [faceCopy_same P t ins res]
        congr 2
        funext e
        rw [← combination_eq, ← combination_eq]
        exact combination_congr _ _ _ _ _ fun p hp => by rw [hd' _ (hop.2 p hp)]) (faces q) _ a
    refine ⟨a', fun e he => ?_⟩
    rw [b', b e he, sum_share ws faces all hC q w hw _ _ _ (combined d ins) (combined g ins) (fun e he => hcomb ins e he) e he,
      combination_eq, hcomb ins e (own e he)]
  | mass v =>
    simp only [Op.work, Op.target, Op.value]
    obtain ⟨a, b, c⟩ := elems_loop v (fun d e => P.solveMass e (d v e)) (fun d d' e h => by simp only [h]) d w.elems hn
    exact ⟨a, fun e he => by rw [b e he, hd _ _ (own e he)]⟩
  | scale v s =>
    simp only [Op.work, Op.target, Op.value]
    obtain ⟨a, b, c⟩ := elems_loop v (fun d e => s • d v e) (fun d d' e h => by simp only [h]) d w.elems hn
    exact ⟨a, fun e he => by rw [b e he, hd _ _ (own e he)]⟩
  | add v x s =>
    simp only [Op.work, Op.target, Op.value]
    obtain ⟨a, b, c⟩ := elems_loop v (fun d e => d v e + s • d x e) (fun d d' e h => by simp only [h]) d w.elems hn
    exact ⟨a, fun e he => by rw [b e he, hd _ _ (own e he), hd _ _ (own e he)]⟩
  | initial v t k =>
    simp only [Op.work, Op.target, Op.value]
    obtain ⟨a, b, c⟩ := elems_loop v (fun _ e => P.initial e t k) (fun d d' e h => rfl) d w.elems hn
    exact ⟨a, fun e he => b e he⟩
  | multiply inp res =>
    simp only [Op.Allowed] at hop
    simp only [Op.work, Op.target, multiplyRef, Op.value, stiffness]
    obtain ⟨a, b, c⟩ := elems_loop res (fun d e => P.elementMatrix e (d inp e)) (fun d d' e h => by simp only [h]) d w.elems hn
    obtain ⟨a', b'⟩ := faces_loop res (multiplyFaceRef P inp res) (fun f e => share
      (fun f a b => P.faceMatrix f true true a + P.faceMatrix f true false b)
      (fun f a b => P.faceMatrix f false true a + P.faceMatrix f false false b) (fun f a => P.faceMatrix f true true a) (d inp) e f) d
      (fun d' _ f v' hv => multiplyFaceRef_other P inp res d' f v' hv)
      (fun d' hd' f e => by rw [multiplyFaceRef_same P inp res hop, hd' inp hop]) (faces q) _ a
    refine ⟨a', fun e he => ?_⟩
    rw [b', b e he, sum_share ws faces all hC q w hw _ _ _ (d inp) (g inp) (fun e he => hd inp e he) e he, hd _ _ (own e he)]
  | multiplyOf ins res =>
    simp only [Op.Allowed] at hop
    simp only [Op.work, Op.target, multiplyCopy, Op.value, stiffness]
    obtain ⟨a, b, c⟩ := elems_loop res (fun d e => P.elementMatrix e (combination d e ins))
      (fun d d' e h => by simp only [combination_congr d d' e e ins fun p _ => h p.1]) d w.elems hn
    obtain ⟨a', b'⟩ := faces_loop res (multiplyFaceCopy P ins res) (fun f e => share
      (fun f a b => P.faceMatrix f true true a + P.faceMatrix f true false b)
      (fun f a b => P.faceMatrix f false true a + P.faceMatrix f false false b) (fun f a => P.faceMatrix f true true a)
      (combined d ins) e f) d
      (fun d' _ f v' hv => multiplyFaceCopy_other P ins res d' f v' hv)
      (fun d' hd' f e => by
        rw [multiplyFaceCopy_same P ins res]
        congr 2
        funext e
        rw [← combination_eq, ← combination_eq]
        exact combination_congr _ _ _ _ _ fun p hp => by rw [hd' _ (hop.2 p hp)]) (faces q) _ a
    refine ⟨a', fun e he => ?_⟩
    rw [b', b e he, sum_share ws faces all hC q w hw _ _ _ (combined d ins) (combined g ins) (fun e he => hcomb ins e he) e he,
      combination_eq, hcomb ins e (own e he)]
  | source v t k =>
    simp only [Op.work, Op.target, Op.value]
    obtain ⟨a, b, c⟩ := elems_loop v (fun d e => d v e + P.source e t k) (fun d d' e h => by simp only [h]) d w.elems hn
    exact ⟨a, fun e he => by rw [b e he, hd _ _ (own e he)]⟩
  | boundary v t k =>
    simp only [Op.work, Op.target, Op.value, boundarySources]
    obtain ⟨a', b'⟩ := faces_loop v (boundaryFace P t k v) (fun f e => share (fun _ _ _ => 0) (fun _ _ _ => 0)
        (fun f _ => P.boundarySource f t k) (fun _ => 0) e f) d
      (fun d' _ f v' hv => by
        obtain ⟨id, l, r⟩ := f
        cases r with
        | none => exact set_other _ _ _ _ _ hv
        | some r => rfl)
      (fun d' hd' f e => by
        obtain ⟨id, l, r⟩ := f
        cases r with
        | none => exact one_add _ _ _ _ _
        | some r => simp [share, boundaryFace]) (faces q) d (fun _ _ => rfl)
    refine ⟨a', fun e he => ?_⟩
    rw [b', sum_share ws faces all hC q w hw _ _ _ (fun _ => 0) (fun _ => 0) (fun _ _ => rfl) e he, hd _ _ (own e he)]
  | sync v => exact ⟨fun _ _ => rfl, fun e he => hd _ _ (own e he)⟩

end Verif.Parallel
