import Verif.PhysFace.LemmasFin

/-!
# C76, C77: results, the solution, and all requests
-/
namespace Verif.PhysFace
open PhysElem (Kind Mat resize)

set_option linter.all false

variable {R P X M W : Type} [CommRing R] [AddCommGroup W] [Module R W] {g : Prog R P X M W}
variable {q : Prop} {U : Nat} {size : Side → Nat → Nat} {s : Core R P W} {e : Side → PhysElem.Now R P} {n : Now R P}

theorem sizes_item (l r : Nat) (o : Own) : sizes l r o.item = ownSizes l r o := by cases o <;> rfl

/-- A result of the face itself. -/
theorem handOut_step (hJ : J g q U size s e n) (o : Own) (m : List (Mat R)) (hi : o.item.needsRight = true → n.internal = true)
    (hm : m.map (fun x => (x.rows, x.cols)) = D n.internal U size o) (hl : ∀ x ∈ m, x.entries.length = x.rows * x.cols) :
    match (s.handOut o m : Option (Core R P W × Ans R P X M W)) with
    | none => n.act g (.result o.item m) = none
    | some (s', v) => ∃ n', n.act g (.result o.item m) = some (n', v) ∧ n'.rule = n.rule ∧ J g q U size s' e n' := by
  unfold Core.handOut
  simp only [Now.act]
  rcases placed n with h | ⟨f, p, hf, hp⟩
  · rw [located_none hJ h, here_none h]; rfl
  rw [located_eq hJ hf hp, here_some hf hp, hJ.has o]
  have hO := hJ.on f hf
  simp only [Option.bind_some]
  by_cases ht : n.there o.item = true
  swap
  · rw [if_neg ht, if_neg (fun h => ht h.1)]
  rw [if_pos ht, if_pos ⟨ht, hi⟩]
  refine ⟨{ n with there := fun j => if j = o.item then false else n.there j }, ?_, rfl, ?_⟩
  rotate_left
  · refine ⟨hJ.int, hJ.face, hJ.point, hJ.trafos, hJ.pf, hJ.rule, ?_, ?_, ?_, hJ.nof⟩
    rotate_left
    · intro f' hf'
      have hO := hJ.on f' hf'
      refine ⟨hO.int, hO.unk, hO.str, hO.turn, hO.nLeft, hO.rows, hO.hasLen, hO.tab, hO.lazyLen, hO.lazy, hO.nrm, hO.unm, hO.ar, ?_, ?_, ?_⟩
      · intro o'
        by_cases h : o' = o
        · subst h; simp only [Function.update_self]; exact hm
        · simp only [Function.update_of_ne h]; exact hO.own o'
      · intro o'
        by_cases h : o' = o
        · subst h; simp only [Function.update_self]; exact hl
        · simp only [Function.update_of_ne h]; exact hO.len o'
      · intro o'
        by_cases h : o' = o
        · subst h; simp only [Function.update_self]; intro h; cases h
        · simp only [Function.update_of_ne h]; exact hO.zero o'
    · intro sd hsd
      have h := hJ.el sd hsd
      refine ⟨h.elem, h.point, h.trafos, h.coeffs, h.msize, h.vsize, h.mthere.trans ?_, h.vthere.trans ?_⟩
      · simp only; rw [if_neg (by cases o <;> simp [Own.item])]
      · simp only; rw [if_neg (by cases o <;> simp [Own.item])]
    · intro o'
      simp only
      by_cases h : o' = o
      · subst h; rw [Function.update_self, if_pos rfl]
      · rw [Function.update_of_ne h, if_neg (by cases o <;> cases o' <;> simp_all [Own.item])]
        exact hJ.has o'
  · have h1 : s.own o = (sizes (g.count f .left) (g.count f .right) o.item).map zeros := by
      rw [hO.zero o (by rw [hJ.has]; exact ht), count_eq hO.int hO.unk, count_eq hO.int hO.unk, sizes_item]
    rw [h1]

/-- The element items. -/
theorem elem_step (hJ : J g q U size s e n) (sd : Side) (vec : Bool) (m : List (Mat R))
    (hm : m.map (fun x => (x.rows, x.cols)) = sizes (cnt n.internal U size .left) (cnt n.internal U size .right)
      (if vec then .elemVector sd else .elemMatrix sd)) (hl : ∀ x ∈ m, x.entries.length = x.rows * x.cols) :
    match ((Call.lift s.located).bind fun _ => if sd = .left ∨ s.internal then (elemResult sd m vec).bind fun a => .ret (s, a)
        else .stop : Call R P X M W (Core R P W × Ans R P X M W)).run (PhysElem.Now.act g.base) e with
    | none => n.act g (.result (if vec then .elemVector sd else .elemMatrix sd) m) = none
    | some (e', s', v) => ∃ n', n.act g (.result (if vec then .elemVector sd else .elemMatrix sd) m) = some (n', v) ∧ n'.rule = n.rule ∧
        J g q U size s' e' n' := by
  rw [Call.run_bind, Call.run_lift]
  simp only [Now.act]
  rcases placed n with h | ⟨f, p, hf, hp⟩
  · rw [located_none hJ h, here_none h]; rfl
  rw [located_eq hJ hf hp, here_some hf hp]
  have hO := hJ.on f hf
  simp only [Option.map_some, Option.bind_some]
  by_cases hsd : sd = .left ∨ n.internal = true
  swap
  · rw [if_neg (by rw [hJ.int]; exact hsd)]
    rw [if_neg]
    · rfl
    · rintro ⟨_, h⟩
      apply hsd
      cases sd with
      | left => exact Or.inl rfl
      | right => right; apply h; cases vec <;> rfl
  rw [if_pos (by rw [hJ.int]; exact hsd)]
  have he := hJ.el sd hsd
  have hc : ∀ sd, g.count f sd = cnt n.internal U size sd := count_eq hO.int hO.unk
  have htot : (g.elemAt f sd).total = cnt n.internal U size sd := by
    rw [← hc sd]
    cases sd with
    | left => rfl
    | right =>
      unfold Prog.count; simp only
      rw [if_pos]
      rw [hO.int]
      rcases hsd with h | h
      · cases h
      · exact h
  have hneed : (if vec then Item.elemVector sd else Item.elemMatrix sd).needsRight = true → n.internal = true := by
    intro h
    rcases hsd with h' | h'
    · subst h'; cases vec <;> simp [Item.needsRight] at h
    · exact h'
  have helem : (e sd).elem.isSome := by rw [he.elem, hf]; rfl
  have hpoint : (e sd).point.isSome := by rw [he.point, hf, hp]; rfl
  rw [hc, hc]
  rw [Call.run_bind]
  have hJ2 : ∀ x : PhysElem.Now R P, x.elem = (e sd).elem → x.point = (e sd).point → x.trafos = (e sd).trafos → x.coeffs = (e sd).coeffs →
      x.matrixSize = (e sd).matrixSize → x.vectorSize = (e sd).vectorSize →
      x.matrixThere = (if vec then (e sd).matrixThere else false) → x.vectorThere = (if vec then false else (e sd).vectorThere) →
      J g q U size s (Function.update e sd x)
        { n with there := fun j => if j = (if vec then Item.elemVector sd else Item.elemMatrix sd) then false else n.there j } := by
    intro x h1 h2 h3 h4 h5 h6 h7 h8
    refine ⟨hJ.int, hJ.face, hJ.point, hJ.trafos, hJ.pf, hJ.rule, ?_, ?_, ?_, hJ.nof⟩
    · intro o
      simp only
      rw [if_neg (by cases vec <;> cases o <;> simp [Own.item])]
      exact hJ.has o
    · intro f' hf'
      have h := hJ.on f' hf'
      exact ⟨h.int, h.unk, h.str, h.turn, h.nLeft, h.rows, h.hasLen, h.tab, h.lazyLen, h.lazy, h.nrm, h.unm, h.ar, h.own, h.len, h.zero⟩
    · intro sd' hsd'
      have h := hJ.el sd' hsd'
      by_cases hs : sd' = sd
      · subst hs
        rw [Function.update_self]
        refine ⟨h1.trans h.elem, h2.trans h.point, h3.trans h.trafos, h4.trans h.coeffs, fun f hf => h5.trans (h.msize f hf),
          fun f hf => h6.trans (h.vsize f hf), ?_, ?_⟩
        · rw [h7]; cases vec <;> simp [h.mthere]
        · rw [h8]; cases vec <;> simp [h.vthere]
      · rw [Function.update_of_ne hs]
        refine ⟨h.elem, h.point, h.trafos, h.coeffs, h.msize, h.vsize, ?_, ?_⟩
        · rw [h.mthere]; simp only; rw [if_neg (by cases vec <;> simp [hs])]
        · rw [h.vthere]; simp only; rw [if_neg (by cases vec <;> simp [hs])]
  cases vec with
  | false =>
    have hsz : sizes (cnt n.internal U size .left) (cnt n.internal U size .right) (.elemMatrix sd) =
        [(cnt n.internal U size sd, cnt n.internal U size sd)] := by cases sd <;> rfl
    simp only [Bool.false_eq_true, if_false] at hm hJ2 hneed ⊢
    rw [hsz] at hm ⊢
    obtain ⟨m0, rfl⟩ : ∃ m0, m = [m0] := List.length_eq_one_iff.1 (by have := congrArg List.length hm; simpa using this)
    simp only [List.map_cons, List.map_nil, List.cons.injEq, Prod.mk.injEq, and_true] at hm
    simp only [elemResult, Bool.false_eq_true, if_false, Call.run, PhysElem.Now.act]
    rw [he.mthere]
    by_cases ht : n.there (.elemMatrix sd) = true
    swap
    · rw [if_neg (fun h => ht h.2.2), if_neg (fun h => ht h.1)]; rfl
    rw [if_pos ⟨helem, hpoint, ht⟩, if_pos ⟨ht, hneed⟩]
    have hms := he.msize f hf
    simp only [Option.bind_some, Call.run]
    refine ⟨{ n with there := fun j => if j = Item.elemMatrix sd then false else n.there j }, ?_, rfl, hJ2 _ ?_ ?_ ?_ ?_ ?_ ?_ ?_ ?_⟩
    · simp only [hms, htot, List.map_cons, List.map_nil, zeros]
    all_goals first | rfl | skip
    · rw [hms, htot, ← hm.1]; simp only; rw [hm.1, hm.2]
  | true =>
    have hsz : sizes (cnt n.internal U size .left) (cnt n.internal U size .right) (.elemVector sd) =
        [(cnt n.internal U size sd, 1)] := by cases sd <;> rfl
    simp only [if_true] at hm hJ2 hneed ⊢
    rw [hsz] at hm ⊢
    obtain ⟨m0, rfl⟩ : ∃ m0, m = [m0] := List.length_eq_one_iff.1 (by have := congrArg List.length hm; simpa using this)
    simp only [List.map_cons, List.map_nil, List.cons.injEq, Prod.mk.injEq, and_true] at hm
    simp only [elemResult, if_true, Call.run, PhysElem.Now.act]
    rw [he.vthere]
    by_cases ht : n.there (.elemVector sd) = true
    swap
    · rw [if_neg (fun h => ht h.2.2), if_neg (fun h => ht h.1)]; rfl
    rw [if_pos ⟨helem, hpoint, ht⟩, if_pos ⟨ht, hneed⟩]
    have hvs := he.vsize f hf
    simp only [Option.bind_some, Call.run]
    refine ⟨{ n with there := fun j => if j = Item.elemVector sd then false else n.there j }, ?_, rfl, hJ2 _ ?_ ?_ ?_ ?_ ?_ ?_ ?_ ?_⟩
    · simp only [hvs, htot, List.map_cons, List.map_nil, zeros, List.length_replicate, Nat.mul_one]
    all_goals first | rfl | skip
    · rw [hvs, htot, hl m0 (by simp), hm.1, hm.2, Nat.mul_one]

/-- Answers of the elements passed on. -/
theorem passOn_step (hJ : J g q U size s e n) (sd : Side) (a : PhysElem.Op R P) (ha : getter a) :
    (s.passOn sd a).run (PhysElem.Now.act g.base) e = (n.askSide g sd a).map fun v => (e, s, .elem v) := by
  unfold Core.passOn
  rw [Call.run_bind, Call.run_lift]
  rcases placed n with h | ⟨f, p, hf, hp⟩
  · rw [located_none hJ h]; unfold Now.askSide; rw [here_none h]; rfl
  rw [located_eq hJ hf hp]
  simp only [Option.map_some, Option.bind_some]
  by_cases hsd : sd = .left ∨ n.internal = true
  · rw [if_pos (by rw [hJ.int]; exact hsd), run_ask hJ hf hsd a ha]
    cases n.askSide g sd a <;> rfl
  · rw [if_neg (by rw [hJ.int]; exact hsd)]
    unfold Now.askSide
    rw [here_some hf hp, if_neg hsd]
    rfl

theorem ask_list (x : PhysElem.Now R P) (a : PhysElem.Op R P) (ha : a = .solution ∨ a = .solutionDeriv)
    (v : PhysElem.Ans R P X M W) (h : x.ask g.base a = some v) : ∃ l, v = .fns l := by
  rcases ha with rfl | rfl
  all_goals
    simp only [PhysElem.Now.ask, PhysElem.Now.here] at h
    cases hx : x.elem with
    | none => rw [hx] at h; cases h
    | some id =>
    rw [hx] at h
    cases hp : x.point with
    | none => rw [hp] at h; cases h
    | some p =>
    rw [hp] at h
    cases ht : x.trafos[0]?.join with
    | none => rw [ht] at h; cases h
    | some t =>
    rw [ht] at h
    simp only [Option.bind_some] at h
    split at h
    · cases h; exact ⟨_, rfl⟩
    · cases h

theorem solution_eq (hJ : J g q U size s e n) (sd : Side) (k : Kind) (a : PhysElem.Op R P) (ha : a = .solution ∨ a = .solutionDeriv)
    (hq : sd = .right → q) : ((n.solution g sd k a).map fun l => (.elem (.fns l) : Ans R P X M W)) = (n.askSide g sd a).map .elem := by
  rcases placed n with h | ⟨f, p, hf, hp⟩
  · unfold Now.solution Now.askSide; rw [here_none h, here_none h]; rfl
  unfold Now.solution
  rw [here_some hf hp]
  have hl : ∀ v, n.askSide g sd a = some v → ∃ l, v = .fns l := by
    intro v hv
    unfold Now.askSide at hv
    rw [here_some hf hp] at hv
    split at hv
    · exact ask_list _ _ ha _ hv
    · cases hv
  cases h : n.askSide g sd a with
  | none => rfl
  | some v =>
    obtain ⟨l, rfl⟩ := hl v h
    simp only [Option.bind_some, theFns]
    cases sd with
    | left => rfl
    | right => rw [(hJ.on f hf).str (hq rfl)]; rfl

/-- A function of a side in the count over both sides. -/
theorem fnSide_number (hJ : J g q U size s e n) {f : Nat} (hf : n.face = some f) (sd : Side) (k : Kind) (i : Nat) (u : Option Nat)
    (hi : sd = .left → i < size .left (u.getD 0)) :
    n.fnSide g sd k i u = (s.number (some sd) i (u.getD 0)).bind fun j => n.fn g k j u := by
  have hO := hJ.on f hf
  cases hp : n.point with
  | none =>
    rw [show n.fnSide g sd k i u = none from here_none (Or.inr hp) _]
    simp only [fn_nopoint hp]
    cases s.number (some sd) i (u.getD 0) <;> rfl
  | some p =>
  cases sd with
  | left =>
    simp only [Core.number, Option.bind_some]
    rw [fn_eq hf hp hO]
    by_cases hu : u.getD 0 < U
    · rw [if_pos hu, if_pos (hi rfl)]
    · rw [if_neg hu, fnSide_get hf hp (Or.inl rfl)]
      cases n.trafos[u.getD 0]?.join with
      | none => rfl
      | some t =>
        simp only [Option.bind_some]
        rw [if_neg]
        rw [(hO.unk .left (Or.inl rfl)).1]
        exact fun h => hu h.1
  | right =>
    simp only [Core.number]
    rw [nLeft_get hJ hf]
    by_cases hu : u.getD 0 < U
    · rw [if_pos hu]
      simp only [Option.map_some, Option.bind_some]
      rw [fn_eq hf hp hO, if_pos hu, if_neg (by omega), Nat.add_sub_cancel]
    · rw [if_neg hu]
      simp only [Option.map_none, Option.bind_none]
      by_cases hint : n.internal = true
      · rw [fnSide_get hf hp (Or.inr hint)]
        cases n.trafos[u.getD 0]?.join with
        | none => rfl
        | some t =>
          simp only [Option.bind_some]
          rw [if_neg]
          rw [(hO.unk .right (Or.inr hint)).1]
          exact fun h => hu h.1
      · exact fnSide_right_none (by simpa using hint) _ _ _

theorem timesSide_number (hJ : J g q U size s e n) {f : Nat} (hf : n.face = some f) (c d : Bool) (sd : Side) (i : Nat) (u : Option Nat)
    (hi : sd = .left → i < size .left (u.getD 0)) :
    n.timesNormalSide g c d sd i u = (s.number (some sd) i (u.getD 0)).bind fun j => n.timesNormal g c d j u := by
  have hO := hJ.on f hf
  unfold Now.timesNormalSide Now.timesNormal
  cases hp : n.point with
  | none =>
    rw [here_none (Or.inr hp)]
    simp only [here_none (Or.inr hp)]
    cases s.number (some sd) i (u.getD 0) <;> rfl
  | some p =>
  simp only [here_some hf hp]
  rw [fnSide_number hJ hf sd _ i u hi]
  cases hn : s.number (some sd) i (u.getD 0) with
  | none => simp
  | some j =>
    simp only [Option.bind_some]
    congr 1
    funext v
    cases hfn : n.fn g (if c = true then .vector else .value) j u with
    | none => rfl
    | some w =>
      simp only [Option.bind_some]
      have hu : u.getD 0 < U := by
        by_contra h
        rw [fn_eq hf hp hO, if_neg h] at hfn
        cases hfn
      congr 1
      rw [(hO.unk .left (Or.inl rfl)).2 _ hu]
      cases sd with
      | left =>
        simp only [Core.number, Option.some.injEq] at hn
        subst hn
        rw [if_pos (hi rfl)]
      | right =>
        simp only [Core.number] at hn
        rw [nLeft_get hJ hf, if_pos hu] at hn
        simp only [Option.map_some, Option.some.injEq] at hn
        rw [if_neg (by omega)]

end Verif.PhysFace
