import Verif.PhysFace.LemmasGet

/-!
# C76, C77: setting faces, points, rules and transformations
-/
namespace Verif.PhysFace
open PhysElem (Kind Mat resize)

set_option linter.all false

variable {R P X M W : Type} [CommRing R] [AddCommGroup W] [Module R W] {g : Prog R P X M W}
variable {q : Prop} {U : Nat} {size : Side → Nat → Nat} {s : Core R P W} {e : Side → PhysElem.Now R P} {n : Now R P}

theorem resetLazy_length (l : List (Bool × List W)) (m : Nat) : (resetLazy l m).length = m := PhysElem.length_resize _ _ _

theorem resetLazy_get (l : List (Bool × List W)) (m u : Nat) (x : List W) : (resetLazy l m)[u]? ≠ some (true, x) := by
  intro h
  have := PhysElem.mem_resize (List.mem_of_getElem? h)
  rcases this with h | h
  · obtain ⟨y, _, hy⟩ := List.mem_map.1 h
    simp at hy
  · simp at h

theorem zeros_map {L : List (Mat R)} {D : List (Nat × Nat)} (h : L.map (fun x => (x.rows, x.cols)) = D)
    (hl : ∀ x ∈ L, x.entries.length = x.rows * x.cols) (hz : ∀ x ∈ L, ∀ y ∈ x.entries, y = 0) : L = D.map zeros := by
  subst h
  rw [List.map_map]
  conv_lhs => rw [← List.map_id L]
  refine List.map_congr_left fun x hx => ?_
  have := PhysElem.eq_replicate (hl x hx) (hz x hx)
  obtain ⟨r, c, en⟩ := x
  simp only [id, Function.comp, zeros] at this ⊢
  rw [this]

theorem dims_zeros (D : List (Nat × Nat)) : (D.map (zeros (R := R))).map (fun x => (x.rows, x.cols)) = D := by
  rw [List.map_map]
  conv_rhs => rw [← List.map_id D]
  rfl

theorem len_zeros (D : List (Nat × Nat)) : ∀ x ∈ D.map (zeros (R := R)), x.entries.length = x.rows * x.cols := by
  intro x hx
  obtain ⟨y, _, rfl⟩ := List.mem_map.1 hx
  simp [zeros]

theorem renew_own (D : Own → List (Nat × Nat)) (own : ∀ o, (s.own o).map (fun x => (x.rows, x.cols)) = D o)
    (len : ∀ o, ∀ x ∈ s.own o, x.entries.length = x.rows * x.cols) (zero : ∀ o, s.has o = true → s.own o = (D o).map zeros) (o : Own) :
    s.renew.own o = (D o).map zeros := by
  unfold Core.renew
  simp only
  by_cases h : s.has o = true
  · rw [if_pos h, zero o h]
  · rw [if_neg h]
    refine zeros_map ?_ ?_ ?_
    · rw [List.map_map, ← own o]; rfl
    · intro x hx
      obtain ⟨y, hy, rfl⟩ := List.mem_map.1 hx
      simpa using len o y hy
    · intro x hx z hz
      obtain ⟨y, hy, rfl⟩ := List.mem_map.1 hx
      simp only [List.mem_map] at hz
      obtain ⟨w, _, rfl⟩ := hz
      simp

abbrev D (b : Bool) (U : Nat) (size : Side → Nat → Nat) (o : Own) : List (Nat × Nat) :=
  ownSizes (cnt b U size .left) (cnt b U size .right) o

/-- After the flags are cleared. -/
theorem onFace_forget {f : Nat} (int : (g.face f).internal = n.internal)
    (unk : ∀ sd, n.hasSide sd → (g.elemAt f sd).unknowns = U ∧ ∀ u < U, (g.elemAt f sd).size u = size sd u)
    (str : q → (g.face f).turn = none) (turn : s.turn = (g.face f).turn) (nLeft : s.nLeft = (List.range U).map (size .left))
    (rows : ∀ c d u, u < U → ∃ row, (s.table c d)[u]? = some row ∧ row.length = num n.internal size u)
    (own : ∀ o, (s.own o).map (fun x => (x.rows, x.cols)) = D n.internal U size o)
    (len : ∀ o, ∀ x ∈ s.own o, x.entries.length = x.rows * x.cols)
    (zero : ∀ o, s.has o = true → s.own o = (D n.internal U size o).map zeros) :
    OnFace g q U size (s.forget (g.elemAt f .left).unknowns).renew n f := by
  have hU := (unk .left (Or.inl rfl)).1
  have hr := renew_own (s := s.forget (g.elemAt f .left).unknowns) (D n.internal U size) own len zero
  refine ⟨int, unk, str, turn, nLeft, rows, ?_, ?_, ?_, ?_, ?_, ?_, ?_, ?_, ?_, ?_⟩
  · intro c d; simp [Core.renew, Core.forget, hU]
  · intro c d u h
    exfalso
    simp only [Core.renew, Core.forget] at h
    have := List.eq_of_mem_replicate (List.mem_of_getElem? h)
    cases this
  · intro k; simp only [Core.renew, Core.forget]; rw [resetLazy_length, hU]
  · intro k u l h; exact absurd h (resetLazy_get _ _ _ _)
  · intro p v _ h; simp [Core.renew, Core.forget] at h
  · intro p v _ h; simp [Core.renew, Core.forget] at h
  · intro p v _ h; simp [Core.renew, Core.forget] at h
  · intro o; rw [hr o]; exact dims_zeros _
  · intro o; rw [hr o]; exact len_zeros _
  · intro o _; exact hr o

/-- The element has been set, but may be elsewhere. -/
structure Pre (g : Prog R P X M W) (n : Now R P) (sd : Side) (e : PhysElem.Now R P) : Prop where
  elem : e.elem = n.face.map fun f => (g.face f).elem sd
  trafos : e.trafos = n.trafos
  coeffs : e.coeffs = n.coeffs
  msize : ∀ f, n.face = some f → e.matrixSize = ((g.elemAt f sd).total, (g.elemAt f sd).total)
  vsize : ∀ f, n.face = some f → e.vectorSize = (g.elemAt f sd).total

theorem ElemOK.pre {sd : Side} {x : PhysElem.Now R P} (h : ElemOK g n sd x) : Pre g n sd x :=
  ⟨h.elem, h.trafos, h.coeffs, h.msize, h.vsize⟩

/-- A request to both elements, or to the left only. -/
theorem run_both {α : Type} (a : Side → PhysElem.Op R P) (b : Bool) (e : Side → PhysElem.Now R P) (h : Side → PhysElem.Now R P)
    (hact : ∀ sd, sd = .left ∨ b = true → (e sd).act g.base (a sd) = some (h sd, .done)) (k : Unit → Call R P X M W α) :
    ((Call.tell .left (a .left)).bind fun _ => (Call.when b (.tell .right (a .right))).bind k).run (PhysElem.Now.act g.base) e =
      (k ()).run (PhysElem.Now.act g.base) (fun sd => if sd = .left ∨ b = true then h sd else e sd) := by
  rw [Call.run_bind, Call.run_tell, hact .left (Or.inl rfl)]
  simp only [Option.map_some, Option.bind_some]
  rw [Call.run_bind, Call.run_when]
  cases b with
  | false =>
    simp only [Bool.false_eq_true, if_false, Option.bind_some, or_false]
    congr 1
    funext sd
    cases sd <;> simp
  | true =>
    simp only [if_true]
    rw [Call.run_tell, Function.update_of_ne (by simp), hact .right (Or.inr rfl)]
    simp only [Option.map_some, Option.bind_some, or_true, if_true]
    congr 1
    funext sd
    cases sd <;> simp

theorem bind_ret (c : Call R P X M W Unit) : (c.bind fun _ => .ret ()) = c := by
  induction c with
  | ret a => rfl
  | stop => rfl
  | ask s a k ih => simp only [Call.bind, ih]

theorem run_tellPoint (f : Nat) (b : Bool) (p : P) (e : Side → PhysElem.Now R P)
    (he : ∀ sd, sd = .left ∨ b = true → (e sd).elem.isSome) :
    (tellPoint g f b p).run (PhysElem.Now.act g.base) e = some ((fun sd => if sd = .left ∨ b = true then
      ({ e sd with point := some (g.base.faceMap ((g.face f).map sd) p), rule := none } : PhysElem.Now R P).moved else e sd), ()) := by
  have h := run_both (g := g) (fun sd => .setPoint (g.base.faceMap ((g.face f).map sd) p)) b e
    (fun sd => ({ e sd with point := some (g.base.faceMap ((g.face f).map sd) p), rule := none } : PhysElem.Now R P).moved)
    (fun sd hsd => by
      obtain ⟨x, hx⟩ := Option.isSome_iff_exists.1 (he sd hsd)
      simp only [PhysElem.Now.act, hx, Option.bind_some]) (fun _ => .ret ())
  unfold tellPoint
  simp only [bind_ret] at h
  exact h

/-- An element at a point of a rule. -/
def atRule (g : Prog R P X M W) (x : PhysElem.Now R P) (m : Nat) (p : P) (r : Nat) : PhysElem.Now R P :=
  ({ x with point := some (g.base.faceMap m p), rule := some (r, some m) } : PhysElem.Now R P).moved

/-- Moving to a point of the face. -/
theorem setPoint_step (hJ : J g q U size s e n) (e' : Side → PhysElem.Now R P) (hpre : ∀ sd, n.hasSide sd → Pre g n sd (e' sd)) (p : P) :
    match (s.setPoint g p).run (PhysElem.Now.act g.base) e' with
    | none => n.face = none
    | some (e'', s') => n.face.isSome ∧ s'.rule = s.rule ∧ s'.maps = s.maps ∧ s'.internal = s.internal ∧
        J g q U size s' e'' { n with point := some p }.moved := by
  unfold Core.setPoint
  rw [Call.run_bind, Call.run_lift]
  rcases Option.eq_none_or_eq_some n.face with hf | ⟨f, hf⟩
  · rw [hJ.face, hf]; rfl
  have hsf : s.face = some f := hJ.face.trans hf
  have key : (s.face.map fun a => (e', a)) = some (e', f) := by rw [hsf]; rfl
  rw [key]
  simp only [Option.bind_some]
  have hO := hJ.on f hf
  have hside : ∀ sd, sd = .left ∨ s.internal = true → n.hasSide sd := fun sd h => by rw [hJ.int] at h; exact h
  rw [Call.run_bind, run_tellPoint f s.internal p e' (fun sd hsd => by rw [(hpre sd (hside sd hsd)).elem, hf]; rfl)]
  simp only [Option.bind_some, Call.run_ret]
  refine ⟨by rw [hf]; rfl, rfl, rfl, rfl, ?_⟩
  refine ⟨hJ.int, hJ.face, rfl, hJ.trafos, ?_, ?_, fun _ => rfl, ?_, ?_, ?_⟩
  · intro _; change n.face.isSome; rw [hf]; rfl
  · intro r hr; exact hJ.rule r hr
  · intro f' hf'
    change n.face = some f' at hf'
    rw [hf] at hf'; cases hf'
    exact onFace_forget (s := { s with point := some p }) (n := { n with point := some p }.moved) hO.int hO.unk hO.str hO.turn hO.nLeft hO.rows hO.own hO.len hO.zero
  · intro sd hsd
    have hp := hpre sd hsd
    have hsd' : sd = .left ∨ s.internal = true := by rw [hJ.int]; exact hsd
    rw [if_pos hsd']
    refine ⟨hp.elem, ?_, hp.trafos, hp.coeffs, hp.msize, hp.vsize, rfl, rfl⟩
    change _ = n.face.bind _
    rw [hf]; rfl
  · intro h
    change n.face = none at h
    rw [hf] at h; cases h

theorem setIndex_step (hJ : J g q U size s e n) (e' : Side → PhysElem.Now R P) (hpre : ∀ sd, n.hasSide sd → Pre g n sd (e' sd)) (i r : Nat)
    (hr : n.rule = some r) :
    match (s.setIndex g i).run (PhysElem.Now.act g.base) e' with
    | none => (g.base.points r)[i]? = none
    | some (e'', s') => ∃ p, (g.base.points r)[i]? = some p ∧ J g q U size s' e'' { n with point := some p }.moved := by
  obtain ⟨f, hf, hsr, hmaps⟩ := hJ.rule r hr
  unfold Core.setIndex
  rw [Call.run_bind, Call.run_lift, hsr]
  simp only [Option.map_some, Option.bind_some]
  rw [Call.run_bind, Call.run_lift]
  cases hp : (g.base.points r)[i]? with
  | none => rfl
  | some p =>
  simp only [Option.map_some, Option.bind_some]
  rw [Call.run_bind]
  have h1 := setPoint_step hJ e' hpre p
  cases hrun : (s.setPoint g p).run (PhysElem.Now.act g.base) e' with
  | none => rw [hrun] at h1; simp only at h1; rw [hf] at h1; cases h1
  | some x =>
  obtain ⟨e1, s1⟩ := x
  rw [hrun] at h1
  obtain ⟨_, h2, h3, h4, hJ1⟩ := h1
  simp only [Option.bind_some]
  -- the first point of the rule
  obtain ⟨p0, hp0⟩ : ∃ p0, (g.base.points r)[0]? = some p0 := by
    have := (List.getElem?_eq_some_iff.1 hp).1
    exact ⟨_, List.getElem?_eq_getElem (by omega)⟩
  have helem : ∀ sd, n.hasSide sd → ∃ x, (e1 sd).elem = some x := by
    intro sd hsd
    have := (hJ1.el sd hsd).elem
    change _ = n.face.map _ at this
    rw [hf] at this
    exact ⟨_, this⟩
  have hone : ∀ sd, n.hasSide sd → ∀ (E : Side → PhysElem.Now R P), E sd = e1 sd →
      ((s1.tellRule sd r).bind fun _ => Call.tell sd (.setIndex i) : Call R P X M W Unit).run (PhysElem.Now.act g.base) E =
        some (Function.update E sd (atRule g (e1 sd) ((g.face f).map sd) p r), ()) := by
    intro sd hsd E hE
    obtain ⟨x, hx⟩ := helem sd hsd
    unfold Core.tellRule
    rw [Call.run_bind, Call.run_bind, Call.run_lift, h3, hmaps sd hsd]
    simp only [Option.map_some, Option.bind_some]
    rw [Call.run_tell, hE]
    simp only [PhysElem.Now.act, hx, Option.bind_some, PhysElem.place, hp0, Option.map_some]
    rw [Call.run_tell, Function.update_self]
    simp only [PhysElem.Now.moved, PhysElem.Now.act, hx, Option.bind_some, PhysElem.place, hp, Option.map_some, Function.update_idem, atRule]
  have hleft := hone .left (Or.inl rfl) e1 rfl
  rw [Call.run_bind] at hleft ⊢
  cases hL : (s1.tellRule .left r : Call R P X M W Unit).run (PhysElem.Now.act g.base) e1 with
  | none => rw [hL] at hleft; cases hleft
  | some y =>
  rw [hL] at hleft
  simp only [Option.bind_some] at hleft ⊢
  rw [Call.run_bind, hleft]
  simp only [Option.bind_some]
  rw [Call.run_bind, Call.run_when, h4, hJ.int]
  have hok : ∀ sd, n.hasSide sd → ElemOK g ({ n with point := some p }.moved) sd
      (atRule g (e1 sd) ((g.face f).map sd) p r) := by
    intro sd hsd
    have h := hJ1.el sd hsd
    refine ⟨h.elem, ?_, h.trafos, h.coeffs, h.msize, h.vsize, rfl, rfl⟩
    change _ = n.face.bind _
    rw [hf]; rfl
  have hfin : ∀ E : Side → PhysElem.Now R P, (∀ sd, n.hasSide sd → ElemOK g ({ n with point := some p }.moved) sd (E sd)) →
      J g q U size s1 E { n with point := some p }.moved := fun E hE =>
    ⟨hJ1.int, hJ1.face, hJ1.point, hJ1.trafos, hJ1.pf, hJ1.rule, hJ1.has, hJ1.on, hE, hJ1.nof⟩
  by_cases hi : n.internal = true
  · rw [if_pos hi, hone .right (Or.inr hi) _ (Function.update_of_ne (by simp) _ _)]
    refine ⟨p, rfl, hfin _ ?_⟩
    intro sd hsd
    cases sd with
    | left => simp only [ne_eq, reduceCtorEq, not_false_eq_true, Function.update_of_ne, Function.update_self]; exact hok .left hsd
    | right => simp only [Function.update_self]; exact hok .right hsd
  · rw [if_neg hi]
    refine ⟨p, rfl, hfin _ ?_⟩
    intro sd hsd
    cases sd with
    | left => simp only [Function.update_self]; exact hok .left hsd
    | right => rcases hsd with h | h; cases h; exact absurd h hi

theorem setRule_step (hJ : J g q U size s e n) (r : Nat) :
    match (s.setRule g r).run (PhysElem.Now.act g.base) e with
    | none => n.face = none ∨ (g.base.points r)[0]? = none
    | some (e'', s') => n.face.isSome ∧ ∃ p, (g.base.points r)[0]? = some p ∧
        J g q U size s' e'' { n with point := some p, rule := some r }.moved := by
  unfold Core.setRule
  rw [Call.run_bind, Call.run_lift]
  rcases Option.eq_none_or_eq_some n.face with hf | ⟨f, hf⟩
  · rw [hJ.face, hf]; exact Or.inl rfl
  have hsf : s.face = some f := hJ.face.trans hf
  have key : (s.face.map fun a => (e, a)) = some (e, f) := by rw [hsf]; rfl
  rw [key]
  simp only [Option.bind_some]
  have hO := hJ.on f hf
  have hone : ∀ (s0 : Core R P W) sd, n.hasSide sd → s0.maps sd = some ((g.face f).map sd) → ∀ (E : Side → PhysElem.Now R P), E sd = e sd →
      (s0.tellRule sd r : Call R P X M W Unit).run (PhysElem.Now.act g.base) E = (g.base.points r)[0]?.map fun p0 =>
        (Function.update E sd (atRule g (e sd) ((g.face f).map sd) p0 r), ()) := by
    intro s0 sd hsd hm E hE
    have hx := (hJ.el sd hsd).elem
    rw [hf] at hx
    unfold Core.tellRule
    rw [Call.run_bind, Call.run_lift, hm]
    simp only [Option.map_some, Option.bind_some]
    rw [Call.run_tell, hE]
    simp only [PhysElem.Now.act, hx, Option.map_some, Option.bind_some, PhysElem.place]
    cases (g.base.points r)[0]? with
    | none => rfl
    | some p => simp only [atRule, hx, Option.map_some, Option.bind_some]
  rw [Call.run_bind, hone _ .left (Or.inl rfl) (by simp) e rfl]
  cases hp0 : (g.base.points r)[0]? with
  | none => exact Or.inr rfl
  | some p0 =>
  have hsome : n.face.isSome := by rw [hf]; rfl
  simp only [Option.map_some, Option.bind_some]
  have hok : ∀ sd, n.hasSide sd → Pre g ({ n with rule := some r }) sd
      (atRule g (e sd) ((g.face f).map sd) p0 r) := fun sd hsd => by
    have h := hJ.el sd hsd
    exact ⟨h.elem, h.trafos, h.coeffs, h.msize, h.vsize⟩
  by_cases hi : n.internal = true
  · have hs : s.internal = true := hJ.int.trans hi
    simp only [hs, if_true]
    rw [Call.run_bind, Call.run_when, if_pos rfl, hone _ .right (Or.inr hi) (by simp) _ (Function.update_of_ne (by simp) _ _), hp0]
    simp only [Option.map_some, Option.bind_some]
    have hJ2 : J g q U size ({ s with
        maps := Function.update (Function.update s.maps .left (some ((g.face f).map .left))) .right (some ((g.face f).map .right))
        rule := some r }) e { n with rule := some r } := by
      refine ⟨hJ.int, hJ.face, hJ.point, hJ.trafos, hJ.pf, ?_, hJ.has, ?_, ?_, hJ.nof⟩
      · intro r' hr'
        refine ⟨f, hf, hr', ?_⟩
        intro sd _
        cases sd <;> simp
      · intro f' hf'
        have h := hJ.on f' hf'
        exact ⟨h.int, h.unk, h.str, h.turn, h.nLeft, h.rows, h.hasLen, h.tab, h.lazyLen, h.lazy, h.nrm, h.unm, h.ar, h.own, h.len, h.zero⟩
      · intro sd hsd
        have h := hJ.el sd hsd
        exact ⟨h.elem, h.point, h.trafos, h.coeffs, h.msize, h.vsize, h.mthere, h.vthere⟩
    have h := setIndex_step hJ2 (Function.update (Function.update e .left (atRule g (e .left) ((g.face f).map .left) p0 r)) .right
        (atRule g (e .right) ((g.face f).map .right) p0 r)) (by
      intro sd hsd
      cases sd with
      | left => rw [Function.update_of_ne (by simp), Function.update_self]; exact hok .left hsd
      | right => rw [Function.update_self]; exact hok .right hsd) 0 r rfl
    simp only [hs] at h
    split at h
    · rename_i hr; rw [hp0] at h; cases h
    · rename_i e'' s' hr
      obtain ⟨p, h1, h2⟩ := h
      rw [hp0] at h1; cases h1
      exact ⟨hsome, p0, rfl, h2⟩
  · have hs : s.internal = false := hJ.int.trans (by simpa using hi)
    simp only [hs, Bool.false_eq_true, if_false]
    rw [Call.run_bind, Call.run_when]
    simp only [Bool.false_eq_true, if_false, Option.bind_some]
    have hJ2 : J g q U size ({ s with maps := Function.update s.maps .left (some ((g.face f).map .left)), rule := some r }) e
        { n with rule := some r } := by
      refine ⟨hJ.int, hJ.face, hJ.point, hJ.trafos, hJ.pf, ?_, hJ.has, ?_, ?_, hJ.nof⟩
      · intro r' hr'
        refine ⟨f, hf, hr', ?_⟩
        intro sd hsd
        rcases hsd with h | h
        · subst h; simp
        · exact absurd h hi
      · intro f' hf'
        have h := hJ.on f' hf'
        exact ⟨h.int, h.unk, h.str, h.turn, h.nLeft, h.rows, h.hasLen, h.tab, h.lazyLen, h.lazy, h.nrm, h.unm, h.ar, h.own, h.len, h.zero⟩
      · intro sd hsd
        have h := hJ.el sd hsd
        exact ⟨h.elem, h.point, h.trafos, h.coeffs, h.msize, h.vsize, h.mthere, h.vthere⟩
    have h := setIndex_step hJ2 (Function.update e .left (atRule g (e .left) ((g.face f).map .left) p0 r)) (by
      intro sd hsd
      cases sd with
      | left => rw [Function.update_self]; exact hok .left hsd
      | right => rcases hsd with h | h; cases h; exact absurd h hi) 0 r rfl
    simp only [hs] at h
    split at h
    · rename_i hr; rw [hp0] at h; cases h
    · rename_i e'' s' hr
      obtain ⟨p, h1, h2⟩ := h
      rw [hp0] at h1; cases h1
      exact ⟨hsome, p0, rfl, h2⟩

end Verif.PhysFace
