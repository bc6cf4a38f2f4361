import Verif.PhysElem.Lemmas

set_option linter.all false

/-! # C64, C65: helpers for sequences of requests -/
namespace Verif.PhysElem

variable {R P X M W : Type} [CommRing R] [AddCommGroup W] [Module R W] (g : Prog R P X M W)

/-- What is set. -/
def Core.now (s : Core R P) : Now R P where
  elem := s.elem
  point := s.point
  rule := if s.hasRule then some (s.rule, if s.fromFace then some s.faceMap else none) else none
  trafos := s.trafos
  coeffs := s.coeffs
  matrixSize := (s.matrix.rows, s.matrix.cols)
  vectorSize := s.vector.length
  matrixThere := s.hasMatrix
  vectorThere := s.hasVector

structure CoreOK (s : Core R P) : Prop where
  t0 : ∃ t, s.trafos[0]? = some (some t)
  ev : s.evaluationPoint g = s.point
  pe : s.point.isSome → s.elem.isSome
  m1 : s.matrix.entries.length = s.matrix.rows * s.matrix.cols
  m2 : s.hasMatrix → ∀ x ∈ s.matrix.entries, x = 0
  v2 : s.hasVector → ∀ x ∈ s.vector, x = 0

structure Inv (s : State R P X M W) (asked changed : Bool) : Prop where
  core : CoreOK g s.core
  val : ∀ id, s.core.elem = some id → ValOK g (g.elem id) s.core.point s.core.trafos s.cache
  jac : ∀ id p, s.core.elem = some id → s.core.point = some p → JacOK g (g.elem id) p s.cache
  sol0 : s.core.elem.isSome → asked = false → s.cache.solution = none ∧ s.cache.solutionDeriv = none
  sol : changed = false → ∀ id p t, s.core.elem = some id → s.core.point = some p → s.core.trafos[0]?.join = some t →
    (∀ l, s.cache.solution = some l → l = s.core.now.expansion g (g.elem id) id t .value p) ∧
    (∀ l, s.cache.solutionDeriv = some l → l = s.core.now.expansion g (g.elem id) id t .deriv p)
  asked : changed = true → asked = true

theorem mem_resize {α : Type} {d : α} {l : List α} {n : Nat} {x : α} (h : x ∈ resize d l n) : x ∈ l ∨ x = d := by
  rcases List.mem_append.1 h with h | h
  · exact Or.inl (List.mem_of_mem_take h)
  · exact Or.inr (List.eq_of_mem_replicate h)

theorem length_resize {α : Type} (d : α) (l : List α) (n : Nat) : (resize d l n).length = n := by
  simp [resize]; omega

theorem CoreOK.renew {s : Core R P} (t0 : ∃ t, s.trafos[0]? = some (some t)) (ev : s.evaluationPoint g = s.point)
    (pe : s.point.isSome → s.elem.isSome) (m1 : s.matrix.entries.length = s.matrix.rows * s.matrix.cols)
    (m2 : s.hasMatrix → ∀ x ∈ s.matrix.entries, x = 0) (v2 : s.hasVector → ∀ x ∈ s.vector, x = 0) : CoreOK g s.renew := by
  refine ⟨t0, ev, pe, ?_, ?_, ?_⟩
  · unfold Core.renew
    cases h : s.hasMatrix <;> simp [m1]
  · intro _
    unfold Core.renew
    cases h : s.hasMatrix
    · simp
    · simpa using m2 h
  · intro _
    unfold Core.renew
    cases h : s.hasVector
    · simp
    · simpa using v2 h

theorem now_renew (s : Core R P) : s.renew.now = s.now.moved := by
  unfold Core.renew Core.now Now.moved
  cases s.hasMatrix <;> cases s.hasVector <;> simp <;> rfl

theorem located_eq {s : Core R P} {id : Nat} {p : P} (h : s.elem = some id) (h' : s.point = some p) :
    s.located g = some (g.elem id, p) := by
  simp [Core.located, Core.element, h, h']

theorem located_none {s : Core R P} (h : s.elem = none ∨ s.point = none) : s.located g = none := by
  unfold Core.located Core.element
  rcases h with h | h
  · simp [h]
  · cases s.elem <;> simp [h]

theorem eq_replicate {l : List R} {n : Nat} (hn : l.length = n) (h : ∀ x ∈ l, x = 0) : l = List.replicate n 0 :=
  List.eq_replicate_iff.2 ⟨hn, h⟩

/-- The claim for one request. -/
def Step (s : State R P X M W) (a : Op R P) (l : List (Op R P)) (r : Option (State R P X M W × Ans R P X M W)) : Prop :=
  match r with
  | none => s.core.now.act g a = (none : Option (Now R P × Ans R P X M W))
  | some (s', v) => s.core.now.act g a = some (s'.core.now, v) ∧ ∃ a' c', Inv g s' a' c' ∧ upToDate a' c' l = true

variable {g}

/-- Results computed only from element and point, and not stored with the values. -/
theorem step_geometry {α : Type} {s : State R P X M W} {b d : Bool} (hI : Inv g s b d) (a : Op R P) (l : List (Op R P))
    (hup : upToDate b d l = true) (r : Option (Cache R X M W × α)) (f : α → Ans R P X M W)
    (F : Elem P X M W → P → α)
    (hnone : s.core.elem = none ∨ s.core.point = none → r = none)
    (hsome : ∀ id p, s.core.elem = some id → s.core.point = some p → JacOK g (g.elem id) p s.cache →
      ∃ c', r = some (c', F (g.elem id) p) ∧ JacOK g (g.elem id) p c' ∧ Ext s.cache c')
    (hact : s.core.now.act g a = (s.core.now.here g fun e p => some (f (F e p))).map fun r => (s.core.now, r)) :
    Step g s a l (s.getter r f) := by
  unfold Step State.getter
  rw [hact]
  unfold Now.here
  have he' : s.core.now.elem = s.core.elem := rfl
  have hp' : s.core.now.point = s.core.point := rfl
  rw [he', hp']
  cases he : s.core.elem with
  | none => simp [hnone (Or.inl he)]
  | some id =>
    cases hp : s.core.point with
    | none => simp [hnone (Or.inr hp)]
    | some p =>
      obtain ⟨c', h1, h2, h3⟩ := hsome id p he hp (hI.jac id p he hp)
      simp only [h1, Option.map_some, Option.bind_some]
      refine ⟨trivial, b, d, ⟨hI.core, ?_, ?_, ?_, ?_, hI.asked⟩, hup⟩
      · intro id' hid; exact (hI.val id' hid).ext g h3
      · intro id' p' hid hp'
        simp only at hid hp'
        rw [he] at hid; rw [hp] at hp'; cases hid; cases hp'
        exact h2
      · intro h h'
        rw [h3.solution, h3.solutionDeriv]
        exact hI.sol0 h h'
      · intro h id' p' t' h1 h2 h4
        rw [h3.solution, h3.solutionDeriv]
        exact hI.sol h id' p' t' h1 h2 h4

/-- Setters clear everything. -/
theorem inv_forget {s : Core R P} {c : Cache R X M W} (hs : CoreOK g s) (id : Nat) (he : s.elem = some id)
    (len : ∀ k, (c.values k).length = (g.elem id).unknowns)
    (row : ∀ k u, u < (g.elem id).unknowns → ∃ row, (c.values k)[u]? = some row ∧ row.length = (g.elem id).size u) :
    Inv g ⟨s, c.forget (g.elem id).unknowns⟩ false false := by
  refine ⟨hs, ?_, ?_, ?_, ?_, by simp⟩
  · intro id' h
    simp only at h; rw [he] at h; cases h
    refine ⟨by simp [Cache.forget], len, row, ?_⟩
    intro k u h
    simp only [Cache.forget] at h
    rw [List.getElem?_replicate] at h
    split_ifs at h
    cases h
  · intro id' p h _
    exact ⟨by simp [Cache.forget], by simp [Cache.forget], by simp [Cache.forget], by simp [Cache.forget],
      by simp [Cache.forget], by simp [Cache.forget]⟩
  · intro _ _; exact ⟨rfl, rfl⟩
  · intro _ id p t _ _ _; exact ⟨by simp [Cache.forget], by simp [Cache.forget]⟩

theorem setPoint_step {s : State R P X M W} {b d : Bool} (hI : Inv g s b d) (p : P) (core : Core R P)
    (hcore : core.elem = s.core.elem ∧ core.trafos = s.core.trafos ∧ core.matrix = s.core.matrix ∧ core.vector = s.core.vector ∧
      core.hasMatrix = s.core.hasMatrix ∧ core.hasVector = s.core.hasVector) (id : Nat) (he : s.core.elem = some id) :
    ∃ c', setPointReference g core s.cache p = some (({ core with point := some p, hasRule := false } : Core R P).renew, c') ∧
      ∀ hr : Bool, ({ ({ core with point := some p, hasRule := false } : Core R P).renew with hasRule := hr } : Core R P).evaluationPoint g
        = some p → Inv g ⟨{ ({ core with point := some p, hasRule := false } : Core R P).renew with hasRule := hr }, c'⟩ false false := by
  obtain ⟨h1, h2, h3, h4, h5, h6⟩ := hcore
  refine ⟨s.cache.forget (g.elem id).unknowns, ?_, ?_⟩
  · simp [setPointReference, Core.element, h1, he]
  · intro hr hev
    refine inv_forget (g := g) ?_ id (by simpa [Core.renew, h1] using he) (hI.val id he).len (hI.val id he).row
    have := CoreOK.renew (g := g) (s := { core with point := some p, hasRule := false }) (by simpa [h2] using hI.core.t0)
      (by simp [Core.evaluationPoint]) (by simp [h1, he]) (by simpa [h3] using hI.core.m1)
      (by simpa [h3, h5] using hI.core.m2) (by simpa [h4, h6] using hI.core.v2)
    exact ⟨this.t0, by simpa [Core.renew] using hev, this.pe, this.m1, this.m2, this.v2⟩

theorem setIndex_step {s : State R P X M W} {b d : Bool} (hI : Inv g s b d) (core : Core R P) (r : Nat) (m : Option Nat) (q : Nat)
    (hcore : core.elem = s.core.elem ∧ core.trafos = s.core.trafos ∧ core.matrix = s.core.matrix ∧ core.vector = s.core.vector ∧
      core.hasMatrix = s.core.hasMatrix ∧ core.hasVector = s.core.hasVector ∧ core.coeffs = s.core.coeffs)
    (hrule : core.hasRule = true) (hr : core.rule = r) (hm : (if core.fromFace then some core.faceMap else none) = m) :
    match setQuadraturePointIndex g core s.cache q with
    | none => s.core.elem = none ∨ place g r m q = none
    | some (s', c') => ∃ p, s.core.elem.isSome ∧ place g r m q = some p ∧ Inv g ⟨s', c'⟩ false false ∧
        s'.now = ({ s.core.now with point := some p, rule := some (r, m) } : Now R P).moved := by
  obtain ⟨h1, h2, h3, h4, h5, h6, h7⟩ := hcore
  subst hr
  unfold setQuadraturePointIndex
  rw [if_pos hrule]
  cases hx : (g.points core.rule)[q]? with
  | none => right; simp [place, hx]
  | some x =>
    simp only [Option.bind_some]
    cases he : s.core.elem with
    | none => simp [setPointReference, Core.element, h1, he]
    | some id =>
      have hplace : place g core.rule m q = some (if core.fromFace then g.faceMap core.faceMap x else x) := by
        rw [← hm]
        cases hf : core.fromFace <;> simp [place, hx, hf]
      obtain ⟨c', e1, e2⟩ := setPoint_step (g := g) hI (if core.fromFace then g.faceMap core.faceMap x else x)
        { core with index := q } ⟨h1, h2, h3, h4, h5, h6⟩ id he
      have e1' : setPointReference g { core with index := q } s.cache
          (if core.fromFace = true then g.faceMap core.faceMap x else x) = _ := e1
      rw [e1']
      simp only [Option.map_some]
      refine ⟨_, rfl, hplace, e2 true ?_, ?_⟩
      · simp only [Core.evaluationPoint, Core.renew, if_true, hx]
        cases hf : core.fromFace <;> simp [hf]
      · unfold Core.now Core.renew Now.moved
        simp only [if_true, Now.mk.injEq, h1, h2, h7, hm, h3, h4, h5, h6, true_and, and_true]
        cases s.core.hasMatrix <;> cases s.core.hasVector <;> simp

theorem getFn_step {s : State R P X M W} {b d : Bool} (hI : Inv g s b d) (l : List (Op R P)) (hup : upToDate b d l = true)
    (k : Kind) (i u : Nat) (cond : Elem P X M W → Prop) [∀ e, Decidable (cond e)] (r : Option (Cache R X M W × W)) (a : Op R P)
    (hr : r = (s.core.located g).bind fun x => if cond x.1 then s.core.getUnknown g s.cache k i u else none)
    (hact : s.core.now.act g a = (s.core.now.here g fun e p => (s.core.trafos[u]?.join).bind fun t =>
      if u < e.unknowns ∧ i < e.size u ∧ cond e then some (.fn (value g e t k u i p)) else none).map fun r => (s.core.now, r)) :
    Step g s a l (s.getter r .fn) := by
  unfold Step State.getter
  rw [hact, hr]
  unfold Now.here
  have he' : s.core.now.elem = s.core.elem := rfl
  have hp' : s.core.now.point = s.core.point := rfl
  rw [he', hp']
  cases he : s.core.elem with
  | none => simp [located_none g (Or.inl he)]
  | some id =>
    cases hp : s.core.point with
    | none => simp [located_none g (Or.inr hp)]
    | some p =>
      have hl := located_eq g he hp
      have hev : s.core.evaluationPoint g = some p := by rw [hI.core.ev, hp]
      have hv := hI.val id he
      rw [hp] at hv
      have hj := hI.jac id p he hp
      rw [hl]
      simp only [Option.bind_some]
      by_cases hc : cond (g.elem id)
      swap
      · simp only [hc, if_false, and_false, Option.map_none]
        cases s.core.trafos[u]?.join <;> simp
      simp only [hc, if_true, and_true]
      cases ht : s.core.trafos[u]?.join with
      | none => rw [getUnknown_none hl hev hj hv k i u (Or.inl ht)]; simp
      | some t =>
        by_cases hui : u < (g.elem id).unknowns ∧ i < (g.elem id).size u
        · obtain ⟨c', h1, h2, h3, h4, h5⟩ := getUnknown_some hl hev hj hv k i u t ht hui.1 hui.2
          rw [h1]
          simp only [Option.map_some, Option.bind_some, if_pos hui]
          refine ⟨trivial, b, d, ⟨hI.core, ?_, ?_, ?_, ?_, hI.asked⟩, hup⟩
          · intro id' hid
            simp only at hid; rw [he] at hid; cases hid
            simp only [hp]; exact h3
          · intro id' p' hid hp'
            simp only at hid hp'
            rw [he] at hid; rw [hp] at hp'; cases hid; cases hp'
            exact h2
          · intro h h'
            simp only [h4, h5]; exact hI.sol0 h h'
          · intro h id' p' t' a1 a2 a3
            simp only [h4, h5]; exact hI.sol h id' p' t' a1 a2 a3
        · rw [getUnknown_none hl hev hj hv k i u (Or.inr (by
            by_cases hu : u < (g.elem id).unknowns
            · exact Or.inr fun h => hui ⟨hu, h⟩
            · exact Or.inl hu))]
          simp [hui]

theorem step (s : State R P X M W) (b d : Bool) (hI : Inv g s b d) (a : Op R P) (ha : a.sound) (l : List (Op R P))
    (hup : upToDate b d (a :: l) = true) : Step g s a l (s.act g a) := by
  cases a with
  | setElement id =>
    refine ⟨?_, false, false, ?_, by simpa [upToDate] using hup⟩
    · simp only [Now.act, setElement, now_renew]
      unfold Core.now Now.moved Elem.total
      simp only [length_resize]
    · refine inv_forget (g := g) ?_ id (by simp [setElement, Core.renew]) ?_ ?_
      · refine CoreOK.renew g hI.core.t0 hI.core.ev (by simp) (by simp [length_resize]) ?_ ?_
        · intro h x hx
          rcases mem_resize hx with hx | hx
          · exact hI.core.m2 h x hx
          · exact hx
        · intro h x hx
          rcases mem_resize hx with hx | hx
          · exact hI.core.v2 h x hx
          · exact hx
      · intro k
        simp only [List.length_mapIdx]
        split_ifs with h
        · exact length_resize _ _ _
        · push Not at h; exact h.2
      · intro k u hu
        simp only [List.getElem?_mapIdx]
        have : ∀ o : List (List W), o.length = (g.elem id).unknowns → ∃ row,
            Option.map (fun row => resize 0 row ((g.elem id).size u)) o[u]? = some row ∧ row.length = (g.elem id).size u := by
          intro o ho
          rw [List.getElem?_eq_getElem (by omega)]
          exact ⟨_, rfl, length_resize _ _ _⟩
        apply this
        split_ifs with h
        · exact length_resize _ _ _
        · push Not at h; exact h.2
  | setPoint p =>
    simp only [State.act, State.setter]
    cases he : s.core.elem with
    | none => simp [setPointReference, Core.element, he, Step, Now.act, Core.now]
    | some id =>
      obtain ⟨c', e1, e2⟩ := setPoint_step (g := g) hI p s.core ⟨rfl, rfl, rfl, rfl, rfl, rfl⟩ id he
      rw [e1]
      refine ⟨?_, false, false, ?_, by simpa [upToDate] using hup⟩
      · simp only [now_renew, Now.act]
        rw [show s.core.now.elem = s.core.elem from rfl, he]
        simp [Core.now, he]
      · exact e2 false (by simp [Core.evaluationPoint, Core.renew])
  | setRule r =>
    have h := setIndex_step (g := g) hI { s.core with rule := r, hasRule := true, fromFace := false } r none 0
      ⟨rfl, rfl, rfl, rfl, rfl, rfl, rfl⟩ rfl rfl rfl
    have he' : s.core.now.elem = s.core.elem := rfl
    simp only [State.act, setQuadratureRule]
    cases hs : setQuadraturePointIndex g { s.core with rule := r, hasRule := true, fromFace := false } s.cache 0 with
    | none =>
      rw [hs] at h
      simp only [State.setter, Option.map_none, Step, Now.act, he']
      rcases h with h | h
      · simp [h]
      · cases s.core.elem <;> simp [h]
    | some x =>
      obtain ⟨s', c'⟩ := x
      rw [hs] at h
      obtain ⟨p, h1, h2, h3, h4⟩ := h
      obtain ⟨id, hid⟩ := Option.isSome_iff_exists.1 h1
      refine ⟨?_, false, false, h3, by simpa [upToDate] using hup⟩
      simp only [Now.act, he', hid, h2, Option.bind_some, h4]
  | setFaceRule r m =>
    have h := setIndex_step (g := g) hI { s.core with rule := r, faceMap := m, hasRule := true, fromFace := true } r (some m) 0
      ⟨rfl, rfl, rfl, rfl, rfl, rfl, rfl⟩ rfl rfl rfl
    have he' : s.core.now.elem = s.core.elem := rfl
    simp only [State.act, setFaceQuadratureRule]
    cases hs : setQuadraturePointIndex g { s.core with rule := r, faceMap := m, hasRule := true, fromFace := true } s.cache 0 with
    | none =>
      rw [hs] at h
      simp only [State.setter, Option.map_none, Step, Now.act, he']
      rcases h with h | h
      · simp [h]
      · cases s.core.elem <;> simp [h]
    | some x =>
      obtain ⟨s', c'⟩ := x
      rw [hs] at h
      obtain ⟨p, h1, h2, h3, h4⟩ := h
      obtain ⟨id, hid⟩ := Option.isSome_iff_exists.1 h1
      refine ⟨?_, false, false, h3, by simpa [upToDate] using hup⟩
      simp only [Now.act, he', hid, h2, Option.bind_some, h4]
  | setIndex q =>
    have he' : s.core.now.elem = s.core.elem := rfl
    simp only [State.act]
    cases hr : s.core.hasRule with
    | false =>
      have : s.core.now.rule = none := by simp [Core.now, hr]
      simp only [setQuadraturePointIndex, hr, Bool.false_eq_true, if_false, State.setter, Option.map_none, Step, Now.act, this]
      cases s.core.now.elem <;> simp
    | true =>
      have hn : s.core.now.rule = some (s.core.rule, if s.core.fromFace then some s.core.faceMap else none) := by
        simp [Core.now, hr]
      have h := setIndex_step (g := g) hI s.core s.core.rule (if s.core.fromFace then some s.core.faceMap else none) q
        ⟨rfl, rfl, rfl, rfl, rfl, rfl, rfl⟩ hr rfl rfl
      cases hs : setQuadraturePointIndex g s.core s.cache q with
      | none =>
        rw [hs] at h
        simp only [State.setter, Option.map_none, Step, Now.act, he', hn]
        rcases h with h | h
        · simp [h]
        · cases s.core.elem <;> simp [h]
      | some x =>
        obtain ⟨s', c'⟩ := x
        rw [hs] at h
        obtain ⟨p, h1, h2, h3, h4⟩ := h
        obtain ⟨id, hid⟩ := Option.isSome_iff_exists.1 h1
        refine ⟨?_, false, false, h3, by simpa [upToDate] using hup⟩
        simp only [Now.act, he', hid, hn, h2, Option.bind_some, h4]
  | setTransformation t u =>
    have hup' : upToDate false false l = true := by simpa [upToDate] using hup
    have ht' : s.core.now.trafos = s.core.trafos := rfl
    have he' : s.core.now.elem = s.core.elem := rfl
    -- the stored values after the call
    have key : ∀ tr : List (Option Nat), (∃ t, tr[0]? = some (some t)) → Inv g ⟨({ s.core with trafos := tr } : Core R P).renew,
        { s.cache with has := fun k => List.replicate (s.cache.has k).length false, solution := none, solutionDeriv := none }⟩
        false false := by
      intro tr htr
      refine ⟨CoreOK.renew g htr hI.core.ev hI.core.pe hI.core.m1 hI.core.m2 hI.core.v2, ?_, ?_, ?_, ?_, by simp⟩
      · intro id he
        have hv := hI.val id he
        refine ⟨by simpa using hv.hasLen, hv.len, hv.row, ?_⟩
        intro k u h
        simp only [List.getElem?_replicate] at h
        split_ifs at h
        cases h
      · intro id p he hp
        have := hI.jac id p he hp
        exact ⟨this.1, this.2, this.3, this.4, this.5, this.6⟩
      · intro _ _; exact ⟨rfl, rfl⟩
      · intro _ id p t _ _ _; exact ⟨by simp, by simp⟩
    obtain ⟨t0, ht0⟩ := hI.core.t0
    have hpos : 0 < s.core.trafos.length := (List.getElem?_eq_some_iff.1 ht0).1
    simp only [State.act, setTransformation, State.setter]
    by_cases h : s.core.trafos.length ≤ u
    · rw [if_pos h]
      by_cases he : s.core.elem.isNone = true
      · rw [if_pos he]
        simp only [Option.map_some]
        refine ⟨?_, false, false, key _ ?_, hup'⟩
        · simp only [Now.act, ht', if_neg (Nat.not_lt.2 h), he', if_pos he, now_renew]
          have : (resize none s.core.trafos (u + 1)).set u (some t) =
              s.core.trafos ++ List.replicate (u - s.core.trafos.length) none ++ [some t] := by
            unfold resize
            rw [List.take_of_length_le (by omega), show u + 1 - s.core.trafos.length = (u - s.core.trafos.length) + 1 by omega,
              List.replicate_succ', ← List.append_assoc, List.set_append_right _ _ (by simp; omega)]
            simp [h]
          rw [this]
          rfl
        · refine ⟨t0, ?_⟩
          rw [List.getElem?_set_ne (by omega), resize, List.getElem?_append_left (by simp; omega), List.getElem?_take,
            if_pos (by omega), ht0]
      · rw [if_neg he]
        simp only [Option.map_none, Step, Now.act, ht', if_neg (Nat.not_lt.2 h), he', if_neg he]
    · rw [if_neg h]
      simp only [Option.map_some]
      refine ⟨?_, false, false, key _ ?_, hup'⟩
      · simp only [Now.act, ht', if_pos (Nat.not_le.1 h), now_renew]
        rfl
      · by_cases hu : u = 0
        · subst hu
          exact ⟨t, List.getElem?_set_self hpos⟩
        · exact ⟨t0, by rw [List.getElem?_set_ne hu, ht0]⟩
  | change c =>
    refine ⟨rfl, b, d || b, ⟨⟨hI.core.t0, hI.core.ev, hI.core.pe, hI.core.m1, hI.core.m2, hI.core.v2⟩, hI.val, ?_, hI.sol0, ?_, ?_⟩,
      by simpa [upToDate] using hup⟩
    · exact hI.jac
    · intro h id p t he hp ht
      simp only [Bool.or_eq_false_iff] at h
      have := hI.sol0 (by simp only at he; rw [he]; rfl) h.2
      simp only [this.1, this.2]
      exact ⟨by simp, by simp⟩
    · intro h
      simp only [Bool.or_eq_true] at h
      rcases h with h | h
      · exact hI.asked h
      · exact h
  | get k i u =>
    have hup' : upToDate b d l = true := by simpa [upToDate] using hup
    cases u with
    | some u =>
      refine getFn_step hI l hup' k i u (fun _ => True) _ _ ?_ ?_
      · simp only [if_true]
        unfold Core.getUnknown
        cases s.core.located g <;> rfl
      · simp only [and_true]; rfl
    | none =>
      refine getFn_step hI l hup' k i 0 (fun e => e.uniform) _ _ rfl ?_
      rfl
  | solution =>
    simp only [upToDate, Bool.and_eq_true, Bool.not_eq_true'] at hup
    obtain ⟨rfl, hup⟩ := hup
    have he' : s.core.now.elem = s.core.elem := rfl
    have hp' : s.core.now.point = s.core.point := rfl
    have ht' : s.core.now.trafos = s.core.trafos := rfl
    unfold Step
    simp only [State.act, State.getter, Core.getSolution, Now.act, Now.ask, Now.here, he', hp', ht']
    cases he : s.core.elem with
    | none => simp
    | some id =>
      cases hp : s.core.point with
      | none => simp [located_none g (Or.inr hp)]
      | some p =>
        have hl := located_eq g he hp
        have hev : s.core.evaluationPoint g = some p := by rw [hI.core.ev, hp]
        have hv := hI.val id he
        rw [hp] at hv
        have hj := hI.jac id p he hp
        obtain ⟨t, ht⟩ := hI.core.t0
        have htj : s.core.trafos[0]?.join = some t := by rw [ht]; rfl
        simp only [hl, Option.bind_some, htj]
        by_cases hu : (g.elem id).uniform
        swap
        · simp [hu]
        simp only [hu, if_true]
        cases hsol : s.cache.solution with
        | some v =>
          simp only [Option.map_some]
          refine ⟨?_, true, false, ⟨hI.core, hI.val, hI.jac, by simp, hI.sol, by simp⟩, hup⟩
          rw [(hI.sol rfl id p t he hp htj).1 v hsol]
        | none =>
          obtain ⟨c', h1, h2, h3, h4, h5⟩ := sumAll_eq hl hev hj hv hu .value id t htj
          rw [h1]
          simp only [Option.map_some]
          refine ⟨rfl, true, false, ⟨hI.core, ?_, ?_, by simp, ?_, by simp⟩, hup⟩
          · intro id' hid
            simp only at hid; rw [he] at hid; cases hid
            simp only [hp]
            exact ⟨h3.1, h3.2, h3.3, h3.4⟩
          · intro id' p' hid hp'
            simp only at hid hp'
            rw [he] at hid; rw [hp] at hp'; cases hid; cases hp'
            exact ⟨h2.1, h2.2, h2.3, h2.4, h2.5, h2.6⟩
          · intro _ id' p' t' hid hp' ht'
            have := (hI.sol rfl id' p' t' hid hp' ht').2
            simp only at hid hp' ht'
            rw [he] at hid; rw [hp] at hp'; rw [htj] at ht'; cases hid; cases hp'; cases ht'
            simp only [h5]
            exact ⟨by rintro l ⟨⟩; rfl, this⟩
  | solutionDeriv =>
    simp only [upToDate, Bool.and_eq_true, Bool.not_eq_true'] at hup
    obtain ⟨rfl, hup⟩ := hup
    have he' : s.core.now.elem = s.core.elem := rfl
    have hp' : s.core.now.point = s.core.point := rfl
    have ht' : s.core.now.trafos = s.core.trafos := rfl
    unfold Step
    simp only [State.act, State.getter, Core.getSolutionDeriv, Now.act, Now.ask, Now.here, he', hp', ht']
    cases he : s.core.elem with
    | none => simp
    | some id =>
      cases hp : s.core.point with
      | none => simp [located_none g (Or.inr hp)]
      | some p =>
        have hl := located_eq g he hp
        have hev : s.core.evaluationPoint g = some p := by rw [hI.core.ev, hp]
        have hv := hI.val id he
        rw [hp] at hv
        have hj := hI.jac id p he hp
        obtain ⟨t, ht⟩ := hI.core.t0
        have htj : s.core.trafos[0]?.join = some t := by rw [ht]; rfl
        simp only [hl, Option.bind_some, htj]
        by_cases hu : (g.elem id).uniform
        swap
        · simp [hu]
        simp only [hu, if_true]
        cases hsol : s.cache.solutionDeriv with
        | some v =>
          simp only [Option.map_some]
          refine ⟨?_, true, false, ⟨hI.core, hI.val, hI.jac, by simp, hI.sol, by simp⟩, hup⟩
          rw [(hI.sol rfl id p t he hp htj).2 v hsol]
        | none =>
          obtain ⟨c', h1, h2, h3, h4, h5⟩ := sumAll_eq hl hev hj hv hu .deriv id t htj
          rw [h1]
          simp only [Option.map_some]
          refine ⟨rfl, true, false, ⟨hI.core, ?_, ?_, by simp, ?_, by simp⟩, hup⟩
          · intro id' hid
            simp only at hid; rw [he] at hid; cases hid
            simp only [hp]
            exact ⟨h3.1, h3.2, h3.3, h3.4⟩
          · intro id' p' hid hp'
            simp only at hid hp'
            rw [he] at hid; rw [hp] at hp'; cases hid; cases hp'
            exact ⟨h2.1, h2.2, h2.3, h2.4, h2.5, h2.6⟩
          · intro _ id' p' t' hid hp' ht'
            have := (hI.sol rfl id' p' t' hid hp' ht').1
            simp only at hid hp' ht'
            rw [he] at hid; rw [hp] at hp'; rw [htj] at ht'; cases hid; cases hp'; cases ht'
            simp only [h4]
            exact ⟨this, by rintro l ⟨⟩; rfl⟩
  | pointReference =>
    have hup' : upToDate b d l = true := by simpa [upToDate] using hup
    have hp' : s.core.now.point = s.core.point := rfl
    simp only [State.act, Step, Now.act, Now.ask, hp']
    cases hp : s.core.point with
    | none => simp
    | some p => exact ⟨rfl, b, d, hI, hup'⟩
  | pointPhysical =>
    refine step_geometry hI _ l (by simpa [upToDate] using hup) _ _ (fun e p => e.phys p) ?_ ?_ rfl
    · intro h; simp [Core.getPointPhysical, located_none g h]
    · intro id p he hp hj; exact getPointPhysical_eq (located_eq g he hp) hj
  | jacobian =>
    refine step_geometry hI _ l (by simpa [upToDate] using hup) _ _ (fun e p => e.jac p) ?_ ?_ rfl
    · intro h; simp [Core.getJacobian, located_none g h]
    · intro id p he hp hj; exact getJacobian_eq (located_eq g he hp) hj
  | transposeJacobian =>
    refine step_geometry hI _ l (by simpa [upToDate] using hup) _ _ (fun e p => g.transpose (e.jac p)) ?_ ?_ rfl
    · intro h; simp [Core.getTransposeJacobian, located_none g h]
    · intro id p he hp hj; exact getTransposeJacobian_eq (located_eq g he hp) hj
  | inverseTransposeJacobian =>
    refine step_geometry hI _ l (by simpa [upToDate] using hup) _ _ (fun e p => g.inverse (g.transpose (e.jac p))) ?_ ?_ rfl
    · intro h; simp [Core.getInverseTransposeJacobian, located_none g h]
    · intro id p he hp hj; exact getInverseTransposeJacobian_eq (located_eq g he hp) hj
  | det =>
    refine step_geometry hI _ l (by simpa [upToDate] using hup) _ _ (fun e p => g.det (e.jac p)) ?_ ?_ rfl
    · intro h; simp [Core.getJacobianDet, located_none g h]
    · intro id p he hp hj; exact getJacobianDet_eq (located_eq g he hp) hj
  | absDet =>
    refine step_geometry hI _ l (by simpa [upToDate] using hup) _ _ (fun e p => g.abs (g.det (e.jac p))) ?_ ?_ rfl
    · intro h; simp [Core.getJacobianAbsDet, located_none g h]
    · intro id p he hp hj; exact getJacobianAbsDet_eq (located_eq g he hp) hj
  | matrix m =>
    have hup' : upToDate b d l = true := by simpa [upToDate] using hup
    simp only [State.act, getResultMatrix]
    by_cases h : s.core.elem.isSome ∧ s.core.point.isSome ∧ s.core.hasMatrix = true
    · rw [if_pos h]
      refine ⟨?_, b, d, ⟨⟨hI.core.t0, hI.core.ev, hI.core.pe, ha, by simp, hI.core.v2⟩, hI.val, hI.jac, hI.sol0, hI.sol, hI.asked⟩, hup'⟩
      have h' : s.core.now.elem.isSome ∧ s.core.now.point.isSome ∧ s.core.now.matrixThere = true := h
      simp only [Now.act, if_pos h']
      have := eq_replicate hI.core.m1 (hI.core.m2 h.2.2)
      simp only [Core.now, ← this]
    · rw [if_neg h]
      have h' : ¬ (s.core.now.elem.isSome ∧ s.core.now.point.isSome ∧ s.core.now.matrixThere = true) := h
      simp only [Step, Option.map_none, Now.act, if_neg h']
  | vector v =>
    have hup' : upToDate b d l = true := by simpa [upToDate] using hup
    simp only [State.act, getResultVector]
    by_cases h : s.core.elem.isSome ∧ s.core.point.isSome ∧ s.core.hasVector = true
    · rw [if_pos h]
      refine ⟨?_, b, d, ⟨⟨hI.core.t0, hI.core.ev, hI.core.pe, hI.core.m1, hI.core.m2, by simp⟩, hI.val, hI.jac, hI.sol0, hI.sol, hI.asked⟩, hup'⟩
      have h' : s.core.now.elem.isSome ∧ s.core.now.point.isSome ∧ s.core.now.vectorThere = true := h
      simp only [Now.act, if_pos h']
      have := eq_replicate rfl (hI.core.v2 h.2.2)
      simp only [Core.now, ← this]
    · rw [if_neg h]
      have h' : ¬ (s.core.now.elem.isSome ∧ s.core.now.point.isSome ∧ s.core.now.vectorThere = true) := h
      simp only [Step, Option.map_none, Now.act, if_neg h']

theorem answers_now (s : State R P X M W) (b d : Bool) (hI : Inv g s b d) (l : List (Op R P)) (hl : ∀ a ∈ l, a.sound)
    (hup : upToDate b d l = true) : s.answers g l = s.core.now.answers g l := by
  induction l generalizing s b d with
  | nil => rfl
  | cons a l ih =>
    have h := step s b d hI a (hl a (by simp)) l hup
    unfold State.answers Now.answers
    cases ha : s.act g a with
    | none => rw [ha] at h; simp only [Step] at h; rw [h]
    | some r =>
      obtain ⟨s', v⟩ := r
      rw [ha] at h
      obtain ⟨h1, a', c', h2, h3⟩ := h
      rw [h1]
      simp only [ih s' a' c' h2 (fun a ha => hl a (by simp [ha])) h3]

theorem inv_init (coeffs : Nat → Nat → Nat → R) (cache : Cache R X M W) (r m q : Nat) (f : Bool) :
    Inv g (State.init (P := P) coeffs cache r m q f) false false := by
  refine ⟨⟨⟨0, rfl⟩, rfl, by simp [State.init], rfl, by simp [State.init], by simp [State.init]⟩, ?_, ?_, ?_, ?_, by simp⟩
  · intro id h; cases h
  · intro id p h; cases h
  · intro h; cases h
  · intro _ id p t h; cases h

end Verif.PhysElem
