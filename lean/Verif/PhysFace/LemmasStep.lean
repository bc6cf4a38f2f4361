import Verif.PhysFace.LemmasAll

/-!
# C76, C77: histories
-/
namespace Verif.PhysFace
open PhysElem (Kind Mat resize)

set_option linter.all false

variable {R P X M W : Type} [CommRing R] [AddCommGroup W] [Module R W] {g : Prog R P X M W}
variable {q : Prop} {U : Nat} {size : Side → Nat → Nat} {s : Core R P W} {e : Side → PhysElem.Now R P} {n : Now R P}

/-- One request on both sides. -/
def StepOK (g : Prog R P X M W) (q : Prop) (U : Nat) (size : Side → Nat → Nat) (s : Core R P W) (e : Side → PhysElem.Now R P) (n : Now R P)
    (a : Op R P) (l : List (Op R P)) : Prop :=
  match (s.act g a).run (PhysElem.Now.act g.base) e with
  | none => n.act g a = none
  | some (e', s', v) => ∃ n' fresh, n.act g a = some (n', v) ∧ J g q U size s' e' n' ∧ regular fresh l ∧ (fresh = true → n'.rule.isSome)

/-- A request for data. -/
theorem stepOK_get {a : Op R P} {l : List (Op R P)} {fresh : Bool} (hreg : regular fresh l) (hfr : fresh = true → n.rule.isSome)
    (hact : n.act g a = (n.ask g a).map fun v => (n, v))
    (h : match (s.act g a).run (PhysElem.Now.act g.base) e with
      | none => n.ask g a = none
      | some (e', s', v) => n.ask g a = some v ∧ J g q U size s' e' n) : StepOK g q U size s e n a l := by
  unfold StepOK
  rw [hact]
  cases hr : (s.act g a).run (PhysElem.Now.act g.base) e with
  | none => rw [hr] at h; simp only at h ⊢; rw [h]; rfl
  | some x =>
    obtain ⟨e', s', v⟩ := x
    rw [hr] at h
    exact ⟨n, fresh, by rw [h.1]; rfl, h.2, hreg, hfr⟩

theorem step (hJ : J g q U size s e n) (a : Op R P) (l : List (Op R P)) (hs : a.sound n.internal U size)
    (hal : ∀ f, a = .setFace f → (∀ sd, sd = .left ∨ (g.face f).internal = true →
      (g.elemAt f sd).unknowns = U ∧ ∀ u < U, (g.elemAt f sd).size u = size sd u) ∧ (q → (g.face f).turn = none))
    (hq : a = .solution .right ∨ a = .solutionDeriv .right → q) (fresh : Bool) (hreg : regular fresh (a :: l))
    (hfr : fresh = true → n.rule.isSome) : StepOK g q U size s e n a l := by
  have hown : ∀ (o : Own) (m : List (Mat R)), Op.sound (P := P) n.internal U size (.result o.item m) →
      m.map (fun x => (x.rows, x.cols)) = D n.internal U size o ∧ ∀ x ∈ m, x.entries.length = x.rows * x.cols := by
    intro o m h
    refine ⟨h.1.trans ?_, h.2⟩
    rw [sizes_item]; rfl
  cases a with
  | setFace f =>
    have h := setFace_step hJ f (hal f rfl).1 (hal f rfl).2
    unfold StepOK
    simp only [Core.act, Now.act]
    rw [Call.run_bind]
    cases hr : (s.setFace g f).run (PhysElem.Now.act g.base) e with
    | none => rw [hr] at h; simp only at h; simp only [Option.bind_none]; rw [if_neg h]
    | some x =>
      rw [hr] at h
      simp only at h
      simp only [Option.bind_some, Call.run_ret]
      rw [if_pos h.1]
      exact ⟨_, false, rfl, h.2, hreg, by simp⟩
  | setPoint p =>
    have h := setPoint_step hJ e (fun sd hsd => (hJ.el sd hsd).pre) p
    unfold StepOK
    simp only [Core.act, Now.act]
    rw [Call.run_bind]
    cases hr : (s.setPoint g p).run (PhysElem.Now.act g.base) e with
    | none => rw [hr] at h; simp only at h; simp only [Option.bind_none]; rw [h]; rfl
    | some x =>
      rw [hr] at h
      simp only at h
      obtain ⟨f, hf⟩ := Option.isSome_iff_exists.1 h.1
      simp only [Option.bind_some, Call.run_ret]
      have key : (n.face.bind fun _ => some (({ n with point := some p }.moved, .elem .done) : Now R P × Ans R P X M W)) =
        some ({ n with point := some p }.moved, .elem .done) := by rw [hf]; rfl
      rw [key]
      exact ⟨_, fresh, rfl, h.2.2.2.2, hreg, hfr⟩
  | setRule r =>
    have h := setRule_step hJ r
    unfold StepOK
    simp only [Core.act, Now.act]
    rw [Call.run_bind]
    cases hr : (s.setRule g r).run (PhysElem.Now.act g.base) e with
    | none =>
      rw [hr] at h; simp only at h; simp only [Option.bind_none]
      rcases h with h | h
      · rw [h]; rfl
      · rw [h]; cases n.face <;> rfl
    | some x =>
      rw [hr] at h
      simp only at h
      obtain ⟨h1, p, h2, h3⟩ := h
      obtain ⟨f, hf⟩ := Option.isSome_iff_exists.1 h1
      simp only [Option.bind_some, Call.run_ret]
      rw [h2]
      have key : ∀ z : Option (Now R P × Ans R P X M W), (n.face.bind fun _ => z) = z := by intro z; rw [hf]; rfl
      rw [key]
      exact ⟨_, true, rfl, h3, hreg, fun _ => rfl⟩
  | setIndex i =>
    obtain ⟨hfresh, hreg⟩ : fresh = true ∧ regular fresh l := hreg
    obtain ⟨r, hr'⟩ := Option.isSome_iff_exists.1 (hfr hfresh)
    obtain ⟨f, hf, _⟩ := hJ.rule r hr'
    have h := setIndex_step hJ e (fun sd hsd => (hJ.el sd hsd).pre) i r hr'
    unfold StepOK
    simp only [Core.act, Now.act]
    rw [Call.run_bind]
    have key : ∀ z : Nat → Option (Now R P × Ans R P X M W), (n.face.bind fun _ => n.rule.bind z) = z r := by
      intro z; rw [hf, hr']; rfl
    rw [key]
    cases hr : (s.setIndex g i).run (PhysElem.Now.act g.base) e with
    | none => rw [hr] at h; simp only at h; simp only [Option.bind_none]; rw [h]; rfl
    | some x =>
      rw [hr] at h
      simp only at h
      obtain ⟨p, h2, h3⟩ := h
      simp only [Option.bind_some, Call.run_ret]
      rw [h2]
      exact ⟨_, fresh, rfl, h3, hreg, hfr⟩
  | setTransform t u =>
    have h := setTransform_step hJ t u
    unfold StepOK
    simp only [Core.act]
    rw [Call.run_bind]
    cases hr : (s.setTransform t u : Call R P X M W (Core R P W)).run (PhysElem.Now.act g.base) e with
    | none => rw [hr] at h; exact h
    | some x =>
      rw [hr] at h
      obtain ⟨n', h1, h2, h3⟩ := h
      exact ⟨n', fresh, h1, h3, hreg, by rw [h2]; exact hfr⟩
  | fn vec sd i u =>
    cases sd with
    | none =>
      refine stepOK_get hreg hfr rfl ?_
      simp only [Core.act, Now.ask]
      rw [Call.run_bind, run_fn hJ]
      cases n.fn g (if vec = true then .vector else .value) i u with
      | none => rfl
      | some w => exact ⟨rfl, hJ⟩
    | some sd =>
      refine stepOK_get hreg hfr rfl ?_
      simp only [Core.act, Now.ask]
      rw [Call.run_bind, run_fnSide hJ]
      cases n.fnSide g sd (if vec = true then .vector else .value) i u with
      | none => rfl
      | some w => exact ⟨rfl, hJ⟩
  | der k sd i u =>
    have hfin : ∀ j, match ((s.der g k j u).bind fun (x : Core R P W × W) => Call.ret (x.1, (.elem (.fn x.2) : Ans R P X M W))).run
          (PhysElem.Now.act g.base) e with
        | none => ((n.fn g k.kind j (some u)).map fun w => (.elem (.fn w) : Ans R P X M W)) = none
        | some (e', s', v) => ((n.fn g k.kind j (some u)).map fun w => (.elem (.fn w) : Ans R P X M W)) = some v ∧ J g q U size s' e' n := by
      intro j
      have h := der_step hJ k j u
      rw [Call.run_bind]
      cases hr : (s.der g k j u).run (PhysElem.Now.act g.base) e with
      | none => rw [hr] at h; simp only at h; rw [h]; rfl
      | some x =>
        obtain ⟨e', s', w⟩ := x
        rw [hr] at h
        obtain ⟨rfl, h1, h2⟩ := h
        rw [h1]
        exact ⟨rfl, h2⟩
    cases sd with
    | none =>
      refine stepOK_get hreg hfr rfl ?_
      exact hfin i
    | some sd =>
      refine stepOK_get hreg hfr rfl ?_
      simp only [Core.act, Now.ask]
      rw [Call.run_bind, Call.run_lift]
      rcases Option.eq_none_or_eq_some n.face with hf | ⟨f, hf⟩
      · rw [show n.fnSide g sd k.kind i (some u) = none from here_none (Or.inl hf) _]
        cases hn : s.number (some sd) i u with
        | none => rfl
        | some j =>
          have h := hfin j
          rw [show n.fn g k.kind j (some u) = none from here_none (Or.inl hf) _] at h
          exact h
      · rw [fnSide_number hJ hf sd k.kind i (some u) (fun h => by subst h; exact hs)]
        simp only [Option.getD_some]
        cases hn : s.number (some sd) i u with
        | none => rfl
        | some j => exact hfin j
  | timesNormal c d sd i u =>
    have hcu : c = true ∨ u = none := by
      cases c with
      | true => exact Or.inl rfl
      | false =>
        cases u with
        | none => exact Or.inr rfl
        | some u => exact absurd hreg (by simp [regular])
    have hreg' : regular fresh l := by
      cases c with
      | true => exact hreg
      | false =>
        cases u with
        | none => exact hreg
        | some u => exact absurd hreg (by simp [regular])
    have hfin : ∀ j, match ((s.timesNormal g c d j u).bind fun (x : Core R P W × W) => Call.ret (x.1, (.elem (.fn x.2) : Ans R P X M W))).run
          (PhysElem.Now.act g.base) e with
        | none => ((n.timesNormal g c d j u).map fun w => (.elem (.fn w) : Ans R P X M W)) = none
        | some (e', s', v) => ((n.timesNormal g c d j u).map fun w => (.elem (.fn w) : Ans R P X M W)) = some v ∧ J g q U size s' e' n := by
      intro j
      have h := times_step hJ c d j u hcu
      rw [Call.run_bind]
      cases hr : (s.timesNormal g c d j u).run (PhysElem.Now.act g.base) e with
      | none => rw [hr] at h; simp only at h; rw [h]; rfl
      | some x =>
        obtain ⟨e', s', w⟩ := x
        rw [hr] at h
        obtain ⟨rfl, h1, h2⟩ := h
        rw [h1]
        exact ⟨rfl, h2⟩
    cases sd with
    | none =>
      refine stepOK_get hreg' hfr rfl ?_
      simp only [Core.act, Now.ask]
      rw [if_neg (by simp), Call.run_bind, Call.run_lift]
      rcases placed n with h | ⟨f, p, hf, hp⟩
      · rw [located_none hJ h, show n.timesNormal g c d i u = none from here_none h _]; rfl
      · rw [located_eq hJ hf hp]
        simp only [Option.map_some, Option.bind_some]
        rw [if_neg (by simp)]
        exact hfin i
    | some sd =>
      refine stepOK_get hreg' hfr rfl ?_
      simp only [Core.act, Now.ask]
      cases c with
      | true => rw [if_pos (by simp), if_pos rfl]; rfl
      | false =>
      rw [if_neg (show ¬ (false = true ∧ (some sd).isSome = true) by simp)]
      simp only [Bool.false_eq_true, if_false]
      rw [Call.run_bind, Call.run_lift]
      rcases placed n with h | ⟨f, p, hf, hp⟩
      · rw [located_none hJ h, show n.timesNormalSide g false d sd i u = none from here_none h _]; rfl
      · rw [located_eq hJ hf hp]
        simp only [Option.map_some, Option.bind_some]
        by_cases hr : some sd = some Side.right ∧ ¬ s.internal = true
        · rw [if_pos hr]
          have h1 : sd = .right := by simpa using hr.1
          have h2 : n.internal = false := by rw [← hJ.int]; simpa using hr.2
          have : n.timesNormalSide g false d sd i u = none := by
            unfold Now.timesNormalSide
            rw [here_some hf hp, h1, fnSide_right_none h2]
            cases n.normal g d <;> rfl
          rw [this]; rfl
        · rw [if_neg hr, timesSide_number hJ hf false d sd i u (fun h => by subst h; exact hs), Call.run_bind, Call.run_lift]
          cases hn : s.number (some sd) i (u.getD 0) with
          | none => rfl
          | some j => exact hfin j
  | solution sd =>
    refine stepOK_get hreg hfr rfl ?_
    simp only [Core.act, Now.ask]
    rw [passOn_step hJ sd .solution trivial, solution_eq hJ sd .value .solution (Or.inl rfl) (fun h => hq (by subst h; exact Or.inl rfl))]
    cases n.askSide g sd .solution with
    | none => rfl
    | some v => exact ⟨rfl, hJ⟩
  | solutionDeriv sd =>
    refine stepOK_get hreg hfr rfl ?_
    simp only [Core.act, Now.ask]
    rw [passOn_step hJ sd .solutionDeriv trivial,
      solution_eq hJ sd .deriv .solutionDeriv (Or.inr rfl) (fun h => hq (by subst h; exact Or.inr rfl))]
    cases n.askSide g sd .solutionDeriv with
    | none => rfl
    | some v => exact ⟨rfl, hJ⟩
  | pointReference =>
    refine stepOK_get hreg hfr rfl ?_
    simp only [Core.act, Now.ask, Call.run_lift]
    rw [hJ.point]
    cases n.point with
    | none => rfl
    | some p => exact ⟨rfl, hJ⟩
  | pointPhysical =>
    refine stepOK_get hreg hfr rfl ?_
    simp only [Core.act, Now.ask]
    rw [passOn_step hJ .left .pointPhysical trivial]
    cases n.askSide g .left .pointPhysical with
    | none => rfl
    | some v => exact ⟨rfl, hJ⟩
  | normal =>
    refine stepOK_get hreg hfr rfl ?_
    simp only [Core.act, Now.ask, Call.run_lift]
    rcases placed n with h | ⟨f, p, hf, hp⟩
    · rw [show s.getNormal g = none by unfold Core.getNormal; rw [located_none hJ h]; rfl,
        show n.normal g false = none from here_none h _]; rfl
    · obtain ⟨x, h1, h2⟩ := getNormal_step hJ hf hp
      rw [h1, show n.normal g false = some (g.normal f p) by unfold Now.normal; rw [here_some hf hp]; rfl]
      exact ⟨rfl, h2⟩
  | unitNormal =>
    refine stepOK_get hreg hfr rfl ?_
    simp only [Core.act, Now.ask, Call.run_lift]
    rcases placed n with h | ⟨f, p, hf, hp⟩
    · rw [show s.getUnitNormal g = none by unfold Core.getUnitNormal; rw [located_none hJ h]; rfl,
        show n.normal g true = none from here_none h _]; rfl
    · obtain ⟨x, y, z, h1, h2⟩ := getUnitNormal_step hJ hf hp
      rw [h1, show n.normal g true = some (g.divide (g.normal f p) (g.norm (g.normal f p))) by
        unfold Now.normal; rw [here_some hf hp]; rfl]
      exact ⟨rfl, h2⟩
  | area =>
    refine stepOK_get hreg hfr rfl ?_
    simp only [Core.act, Now.ask, Call.run_lift]
    rcases placed n with h | ⟨f, p, hf, hp⟩
    · rw [show s.getArea g = none by unfold Core.getArea; rw [located_none hJ h]; rfl,
        show n.normal g false = none from here_none h _]; rfl
    · obtain ⟨x, y, h1, h2⟩ := getArea_step hJ hf hp
      rw [h1, show n.normal g false = some (g.normal f p) by unfold Now.normal; rw [here_some hf hp]; rfl]
      exact ⟨rfl, h2⟩
  | result it m =>
    have hface : ∀ o : Own, it = o.item → (o.item.needsRight = true → n.internal = true) →
        (s.act g (.result it m) = .lift (s.handOut o m)) → StepOK g q U size s e n (.result it m) l := by
      intro o ho hi hact
      subst ho
      have h := handOut_step (g := g) hJ o m hi (hown o m hs).1 (hown o m hs).2
      unfold StepOK
      rw [hact, Call.run_lift]
      cases hr : (s.handOut o m : Option (Core R P W × Ans R P X M W)) with
      | none => rw [hr] at h; exact h
      | some x =>
        rw [hr] at h
        obtain ⟨n', h1, h2, h3⟩ := h
        exact ⟨n', fresh, h1, h3, hreg, by rw [h2]; exact hfr⟩
    have helem : ∀ (sd : Side) (vec : Bool), it = (if vec then .elemVector sd else .elemMatrix sd) →
        (s.act g (.result it m) = ((Call.lift s.located).bind fun _ => if sd = .left ∨ s.internal then (elemResult sd m vec).bind fun a =>
          .ret (s, a) else .stop)) → StepOK g q U size s e n (.result it m) l := by
      intro sd vec hit hact
      subst hit
      have h := elem_step (g := g) hJ sd vec m hs.1 hs.2
      unfold StepOK
      rw [hact]
      revert h
      generalize (Call.run _ _ e) = z
      intro h
      cases z with
      | none => exact h
      | some x =>
        obtain ⟨n', h1, h2, h3⟩ := h
        exact ⟨n', fresh, h1, h3, hreg, by rw [h2]; exact hfr⟩
    have hright : it.needsRight = true → n.internal = false → n.act g (.result it m) = none := by
      intro h1 h2
      simp only [Now.act]
      rcases placed n with h | ⟨f, p, hf, hp⟩
      · exact here_none h _
      · rw [here_some hf hp, if_neg]
        rintro ⟨_, h⟩
        have := h h1
        rw [h2] at this; cases this
    cases it with
    | matrix => exact hface .matrix rfl (fun h => by cases h) rfl
    | vector => exact hface .vector rfl (fun h => by cases h) rfl
    | leftRight =>
      by_cases hi : n.internal = true
      · refine hface .leftRight rfl (fun _ => hi) ?_
        simp only [Core.act, Core.result]
        rw [if_pos (hJ.int.trans hi)]
      · unfold StepOK
        simp only [Core.act, Core.result]
        rw [if_neg (by rw [hJ.int]; exact hi)]
        exact hright rfl (by simpa using hi)
    | rightLeft =>
      by_cases hi : n.internal = true
      · refine hface .rightLeft rfl (fun _ => hi) ?_
        simp only [Core.act, Core.result]
        rw [if_pos (hJ.int.trans hi)]
      · unfold StepOK
        simp only [Core.act, Core.result]
        rw [if_neg (by rw [hJ.int]; exact hi)]
        exact hright rfl (by simpa using hi)
    | elemMatrix sd => exact helem sd false rfl rfl
    | elemVector sd => exact helem sd true rfl rfl

theorem act_internal {n n' : Now R P} {a : Op R P} {v : Ans R P X M W} (h : n.act g a = some (n', v)) : n'.internal = n.internal := by
  cases a with
  | setFace f => simp only [Now.act] at h; split at h <;> cases h; rfl
  | setPoint p => cases hf : n.face <;> simp only [Now.act, hf] at h <;> cases h; rfl
  | setRule r =>
    cases hf : n.face <;> cases hr : (g.base.points r)[0]? <;> simp only [Now.act, hf, hr] at h <;> cases h; rfl
  | setIndex i =>
    cases hf : n.face with
    | none => simp only [Now.act, hf] at h; cases h
    | some f =>
      cases hr : n.rule with
      | none => simp only [Now.act, hf, hr] at h; cases h
      | some r =>
        cases hp : (g.base.points r)[i]? <;> simp only [Now.act, hf, hr, Option.bind_some, hp] at h <;> cases h; rfl
  | setTransform t u =>
    simp only [Now.act] at h
    split at h
    · cases h; rfl
    · split at h <;> cases h; rfl
  | result it m =>
    simp only [Now.act] at h
    rcases placed n with hh | ⟨f, p, hf, hp⟩
    · rw [here_none hh] at h; cases h
    · rw [here_some hf hp] at h
      split at h <;> cases h; rfl
  | _ =>
    simp only [Now.act, Option.map_eq_some_iff] at h
    obtain ⟨r, _, h⟩ := h
    cases h; rfl

/-- Whole histories. -/
theorem answers_sim (L : List (Op R P)) (hal : alike g U size L) (hstr : straight g L) (s : Core R P W)
    (e : Side → PhysElem.State R P X M W) (en : Side → PhysElem.Now R P) (n : Now R P) (hrel : ∀ sd, Rel g.base (e sd) (en sd))
    (hJ : J g (Op.solution .right ∈ L ∨ Op.solutionDeriv .right ∈ L) U size s en n) (l : List (Op R P)) (hl : ∀ a ∈ l, a ∈ L)
    (hs : ∀ a ∈ l, a.sound n.internal U size) (fresh : Bool) (hreg : regular fresh l) (hfr : fresh = true → n.rule.isSome) :
    answers g (PhysElem.State.act g.base) s e l = n.answers g l := by
  induction l generalizing s e en n fresh with
  | nil => rfl
  | cons a l ih =>
    unfold answers Now.answers
    have h1 := run_sim g (s.act g a) (fine_act g s a U size (by rw [hJ.int]; exact hs a (by simp))) e en hrel
    have h2 := step hJ a l (hs a (by simp))
      (fun f hf => ⟨hal f (by rw [← hf]; exact hl a (by simp)), fun hq => hstr hq f (by rw [← hf]; exact hl a (by simp))⟩)
      (fun h => by
        have := hl a (by simp)
        rcases h with rfl | rfl
        · exact Or.inl this
        · exact Or.inr this) fresh hreg hfr
    unfold StepOK at h2
    cases hr : (s.act g a).run (PhysElem.State.act g.base) e with
    | none =>
      rw [hr] at h1
      simp only at h1
      rw [h1] at h2
      simp only at h2
      rw [h2]
    | some x =>
      obtain ⟨e', s', v⟩ := x
      rw [hr] at h1
      obtain ⟨en', h3, h4⟩ := h1
      rw [h3] at h2
      obtain ⟨n', fresh', h5, h6, h7, h8⟩ := h2
      rw [h5]
      simp only
      have hint : n'.internal = n.internal := act_internal h5
      rw [ih s' e' en' n' h4 h6 (fun a ha => hl a (by simp [ha])) (fun a ha => by rw [hint]; exact hs a (by simp [ha])) fresh' h7 h8]

theorem J_init (internal : Bool) (turn : Option Nat) (nrm unm : Option W) (ar : Option R) (c : Nat → Nat → Nat → R) (q : Prop) :
    J g q U size (Core.init internal turn nrm unm ar) (fun _ => PhysElem.Now.start c) (Now.start internal c) := by
  refine ⟨rfl, rfl, rfl, rfl, (fun h => by cases h), (fun r h => by cases h), (fun o => by cases o <;> rfl), (fun f h => by cases h), ?_, fun _ _ => rfl⟩
  intro sd _
  exact ⟨rfl, rfl, rfl, rfl, (fun f h => by cases h), (fun f h => by cases h), rfl, rfl⟩

end Verif.PhysFace
