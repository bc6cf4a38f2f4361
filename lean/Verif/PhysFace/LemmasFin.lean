import Verif.PhysFace.LemmasSet

/-!
# C76, C77: faces, transformations, results; all requests
-/
namespace Verif.PhysFace
open PhysElem (Kind Mat resize)

set_option linter.all false

variable {R P X M W : Type} [CommRing R] [AddCommGroup W] [Module R W] {g : Prog R P X M W}
variable {q : Prop} {U : Nat} {size : Side → Nat → Nat} {s : Core R P W} {e : Side → PhysElem.Now R P} {n : Now R P}

/-- The numbers of functions on the sides. -/
theorem count_eq {b : Bool} {f : Nat} (int : (g.face f).internal = b)
    (unk : ∀ sd, sd = .left ∨ b = true → (g.elemAt f sd).unknowns = U ∧ ∀ u < U, (g.elemAt f sd).size u = size sd u) (sd : Side) :
    g.count f sd = cnt b U size sd := by
  have key : ∀ sd, sd = .left ∨ b = true → (g.elemAt f sd).total = ((List.range U).map (size sd)).sum := by
    intro sd h
    obtain ⟨h1, h2⟩ := unk sd h
    unfold PhysElem.Elem.total
    rw [h1]
    congr 1
    exact List.map_congr_left fun u hu => h2 u (List.mem_range.1 hu)
  cases sd with
  | left => exact key .left (Or.inl rfl)
  | right =>
    unfold Prog.count cnt
    simp only
    rw [int]
    by_cases h : b = true
    · rw [if_pos h, if_pos h]; exact key .right (Or.inr h)
    · rw [if_neg h, if_neg h]

theorem setFace_step (hJ : J g q U size s e n) (f : Nat)
    (hal : ∀ sd, sd = .left ∨ (g.face f).internal = true → (g.elemAt f sd).unknowns = U ∧ ∀ u < U, (g.elemAt f sd).size u = size sd u)
    (hstr : q → (g.face f).turn = none) :
    match (s.setFace g f).run (PhysElem.Now.act g.base) e with
    | none => n.internal ≠ (g.face f).internal
    | some (e'', s') => n.internal = (g.face f).internal ∧ J g q U size s' e'' { n with face := some f, rule := none }.moved := by
  unfold Core.setFace
  by_cases hint : s.internal = (g.face f).internal
  swap
  · rw [if_neg hint]; rw [hJ.int] at hint; exact hint
  rw [if_pos hint]
  have hni : n.internal = (g.face f).internal := hJ.int.symm.trans hint
  rw [← hni] at hal
  simp only
  rw [run_both (g := g) (fun sd => .setElement ((g.face f).elem sd)) s.internal e
    (fun sd => ({ e sd with elem := some ((g.face f).elem sd), matrixSize := ((g.elemAt f sd).total, (g.elemAt f sd).total),
                            vectorSize := (g.elemAt f sd).total } : PhysElem.Now R P).moved) (fun sd hsd => rfl)]
  generalize he1 : (fun sd => if sd = Side.left ∨ s.internal = true then
    ({ e sd with elem := some ((g.face f).elem sd), matrixSize := ((g.elemAt f sd).total, (g.elemAt f sd).total),
                 vectorSize := (g.elemAt f sd).total } : PhysElem.Now R P).moved else e sd) = e1
  have hpre : ∀ sd, n.hasSide sd → Pre g { n with face := some f, rule := none }.moved sd (e1 sd) ∧ (e1 sd).point = (e sd).point ∧
      (e1 sd).matrixThere = true ∧ (e1 sd).vectorThere = true := by
    intro sd hsd
    have hsd' : sd = .left ∨ s.internal = true := by rw [hJ.int]; exact hsd
    rw [← he1]
    simp only [if_pos hsd']
    refine ⟨⟨rfl, (hJ.el sd hsd).trafos, (hJ.el sd hsd).coeffs, ?_, ?_⟩, rfl, rfl, rfl⟩
    · intro f' hf'; cases hf'; rfl
    · intro f' hf'; cases hf'; rfl
  -- the sizes
  generalize hs1 : (if s.face.isNone = true then s.size g f else s) = s1
  have hbasic : s1.internal = s.internal ∧ s1.point = s.point ∧ s1.trafos = s.trafos ∧ s1.has = s.has := by
    rw [← hs1]; split <;> exact ⟨rfl, rfl, rfl, rfl⟩
  have hsize : s1.nLeft = (List.range U).map (size .left) ∧
      (∀ c d u, u < U → ∃ row, (s1.table c d)[u]? = some row ∧ row.length = num n.internal size u) ∧
      (∀ o, (s1.own o).map (fun x => (x.rows, x.cols)) = D n.internal U size o) ∧
      (∀ o, ∀ x ∈ s1.own o, x.entries.length = x.rows * x.cols) ∧
      (∀ o, s1.has o = true → s1.own o = (D n.internal U size o).map zeros) := by
    rcases Option.eq_none_or_eq_some n.face with hf | ⟨f0, hf⟩
    · have : s.face.isNone = true := by rw [hJ.face, hf]; rfl
      rw [if_pos this] at hs1
      rw [← hs1]
      obtain ⟨h1, h2⟩ := hal .left (Or.inl rfl)
      have hown : ∀ o, (s.size g f).own o = (D n.internal U size o).map zeros := by
        intro o
        unfold Core.size
        simp only
        rw [count_eq hni.symm hal, count_eq hni.symm hal]
      refine ⟨?_, ?_, ?_, ?_, ?_⟩
      · unfold Core.size
        simp only
        rw [h1]
        exact List.map_congr_left fun u hu => h2 u (List.mem_range.1 hu)
      · intro c d u hu
        refine ⟨List.replicate (g.number f u) 0, ?_, ?_⟩
        · unfold Core.size
          simp only
          rw [h1]
          simp [hu]
        · rw [List.length_replicate]
          unfold Prog.number num
          rw [h2 u hu, ← hni]
          by_cases h : n.internal = true
          · rw [if_pos h, if_pos h, (hal .right (Or.inr h)).2 u hu]
          · rw [if_neg h, if_neg h]
      · intro o; rw [hown o]; exact dims_zeros _
      · intro o; rw [hown o]; exact len_zeros _
      · intro o _; exact hown o
    · have : ¬ s.face.isNone = true := by rw [hJ.face, hf]; simp
      rw [if_neg this] at hs1
      rw [← hs1]
      have hO := hJ.on f0 hf
      exact ⟨hO.nLeft, hO.rows, hO.own, hO.len, hO.zero⟩
  obtain ⟨hb1, hb2, hb3, hb4⟩ := hbasic
  obtain ⟨hz1, hz2, hz3, hz4, hz5⟩ := hsize
  have hon : ∀ f', ({ n with face := some f, rule := none }.moved : Now R P).face = some f' →
      OnFace g q U size ({ s1 with face := some f, turn := (g.face f).turn }.forget (g.elemAt f .left).unknowns).renew
        { n with face := some f, rule := none }.moved f' := by
    intro f' hf'
    cases hf'
    have hal' : ∀ sd, ({ n with face := some f, rule := none }.moved : Now R P).hasSide sd →
        (g.elemAt f sd).unknowns = U ∧ ∀ u < U, (g.elemAt f sd).size u = size sd u := hal
    exact onFace_forget (s := { s1 with face := some f, turn := (g.face f).turn }) (n := { n with face := some f, rule := none }.moved)
      hni.symm hal' hstr rfl hz1 hz2 hz3 hz4 hz5
  have hfin : ∀ E : Side → PhysElem.Now R P, (∀ sd, n.hasSide sd → ElemOK g { n with face := some f, rule := none }.moved sd (E sd)) →
      J g q U size ({ s1 with face := some f, turn := (g.face f).turn }.forget (g.elemAt f .left).unknowns).renew E
        { n with face := some f, rule := none }.moved := fun E hE =>
    ⟨hb1.trans hJ.int, rfl, hb2.trans hJ.point, hb3.trans hJ.trafos, fun _ => rfl, (fun r h => by cases h), fun _ => rfl, hon, hE,
      (fun h => by cases h)⟩
  rw [Call.run_bind]
  rcases Option.eq_none_or_eq_some n.point with hp | ⟨p, hp⟩
  · rw [show s.point = none from hJ.point.trans hp]
    refine ⟨hni, hfin _ ?_⟩
    intro sd hsd
    obtain ⟨h1, h2, h3, h4⟩ := hpre sd hsd
    refine ⟨h1.elem, ?_, h1.trafos, h1.coeffs, h1.msize, h1.vsize, h3, h4⟩
    change (e1 sd).point = (n.point.map _)
    rw [h2, (hJ.el sd hsd).point, hp]
    cases n.face <;> rfl
  · rw [show s.point = some p from hJ.point.trans hp]
    simp only
    rw [run_tellPoint f s.internal p e1 (fun sd hsd => by
      rw [hJ.int] at hsd
      rw [(hpre sd hsd).1.elem]; rfl)]
    refine ⟨hni, hfin _ ?_⟩
    intro sd hsd
    have hsd' : sd = .left ∨ s.internal = true := by rw [hJ.int]; exact hsd
    obtain ⟨h1, h2, h3, h4⟩ := hpre sd hsd
    simp only [if_pos hsd']
    refine ⟨h1.elem, ?_, h1.trafos, h1.coeffs, h1.msize, h1.vsize, rfl, rfl⟩
    change _ = (n.point.map _)
    rw [hp]; rfl

theorem setTransform_step (hJ : J g q U size s e n) (t u : Nat) :
    match (s.setTransform t u).run (PhysElem.Now.act g.base) e with
    | none => (n.act g (.setTransform t u) : Option (Now R P × Ans R P X M W)) = none
    | some (e'', s') => ∃ n', n.act g (.setTransform t u) = some (n', .elem .done) ∧ n'.rule = n.rule ∧ J g q U size s' e'' n' := by
  unfold Core.setTransform
  by_cases hbad : s.trafos.length ≤ u ∧ s.face.isSome
  · rw [if_pos hbad]
    rw [hJ.trafos, hJ.face] at hbad
    simp only [Call.run_stop, Now.act]
    rw [if_neg (by omega), if_neg (by cases hf : n.face <;> simp_all)]
  rw [if_neg hbad]
  rw [hJ.face] at hbad
  -- the list of transformations
  obtain ⟨T, hT, hT1, hT2⟩ : ∃ T : List (Option Nat), n.act g (.setTransform t u) = some ({ n with trafos := T }.moved, .elem (.done : PhysElem.Ans R P X M W)) ∧
      (if s.trafos.length ≤ u then resize none s.trafos (u + 1) else s.trafos).set u (some t) = T ∧
      ∀ x : PhysElem.Now R P, x.trafos = n.trafos → (x.elem.isNone = n.face.isNone) →
        (x.act g.base (.setTransformation t u) : Option (PhysElem.Now R P × PhysElem.Ans R P X M W)) = some ({ x with trafos := T }.moved, .done) := by
    rw [hJ.trafos]
    rw [hJ.trafos] at hbad
    by_cases hu : u < n.trafos.length
    · refine ⟨_, by simp only [Now.act]; rw [if_pos hu], by rw [if_neg (by omega)], ?_⟩
      intro x hx _
      simp only [PhysElem.Now.act]
      rw [hx, if_pos hu]
    · have hf : n.face.isNone = true := by
        cases hf : n.face with
        | none => rfl
        | some f => exact absurd ⟨by omega, by rw [hf]; rfl⟩ hbad
      refine ⟨_, by simp only [Now.act]; rw [if_neg hu, if_pos hf], ?_, ?_⟩
      · rw [if_pos (by omega)]
        unfold resize
        rw [List.take_of_length_le (by omega), show u + 1 - n.trafos.length = (u - n.trafos.length) + 1 by omega,
          List.replicate_succ', ← List.append_assoc]
        rw [List.set_append_right _ _ (by simp; omega)]
        simp
        rw [show u - (n.trafos.length + (u - n.trafos.length)) = 0 by omega]
        rfl
      · intro x hx hx'
        simp only [PhysElem.Now.act]
        rw [hx, if_neg hu, hx', if_pos hf]
  rw [run_both (g := g) (fun _ => .setTransformation t u) s.internal e (fun sd => ({ e sd with trafos := T } : PhysElem.Now R P).moved)
    (fun sd hsd => by
      rw [hJ.int] at hsd
      have h := hJ.el sd hsd
      exact hT2 _ h.trafos (by rw [h.elem]; cases n.face <;> rfl))]
  simp only [Call.run_ret]
  refine ⟨_, hT, rfl, ?_⟩
  refine ⟨hJ.int, hJ.face, hJ.point, hT1, hJ.pf, hJ.rule, fun _ => rfl, ?_, ?_, ?_⟩
  · intro f hf
    have hO := hJ.on f hf
    have hr := renew_own (D n.internal U size) hO.own hO.len hO.zero
    refine ⟨hO.int, hO.unk, hO.str, hO.turn, hO.nLeft, hO.rows, ?_, ?_, ?_, ?_, hO.nrm, hO.unm, hO.ar, ?_, ?_, ?_⟩
    · intro c d; simp [Core.renew, hO.hasLen]
    · intro c d u h
      exfalso
      simp only [Core.renew] at h
      have := List.eq_of_mem_replicate (List.mem_of_getElem? h)
      cases this
    · intro k; simp only [Core.renew]; rw [resetLazy_length, hO.lazyLen]
    · intro k u l h; exact absurd h (resetLazy_get _ _ _ _)
    · intro o; exact (congrArg _ (hr o)).trans (dims_zeros _)
    · intro o x hx
      have hx' : x ∈ s.renew.own o := hx
      rw [hr o] at hx'
      exact len_zeros _ x hx'
    · intro o _; exact hr o
  · intro sd hsd
    have h := hJ.el sd hsd
    have hsd' : sd = .left ∨ s.internal = true := by rw [hJ.int]; exact hsd
    simp only [if_pos hsd']
    exact ⟨h.elem, h.point, rfl, h.coeffs, h.msize, h.vsize, rfl, rfl⟩
  · intro hf k
    simp only [Core.renew]
    rw [hJ.nof hf, hJ.nof hf]
    rfl

end Verif.PhysFace
