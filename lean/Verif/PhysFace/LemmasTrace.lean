import Verif.PhysFace.Lemmas

/-!
# C76, C77: the face object and what it stands for
-/
namespace Verif.PhysFace
open PhysElem (Kind Mat resize)

set_option linter.all false

variable {R P X M W : Type} [CommRing R] [AddCommGroup W] [Module R W] (g : Prog R P X M W)

/-- The side exists. -/
def Now.hasSide (n : Now R P) (sd : Side) : Prop := sd = .left ∨ n.internal = true

/-- The element on a side is where it should be. -/
structure ElemOK (n : Now R P) (sd : Side) (e : PhysElem.Now R P) : Prop where
  elem : e.elem = n.face.map fun f => (g.face f).elem sd
  point : e.point = n.face.bind fun f => n.point.map fun p => g.base.faceMap ((g.face f).map sd) p
  trafos : e.trafos = n.trafos
  coeffs : e.coeffs = n.coeffs
  msize : ∀ f, n.face = some f → e.matrixSize = ((g.elemAt f sd).total, (g.elemAt f sd).total)
  vsize : ∀ f, n.face = some f → e.vectorSize = (g.elemAt f sd).total
  mthere : e.matrixThere = n.there (.elemMatrix sd)
  vthere : e.vectorThere = n.there (.elemVector sd)

def Own.item : Own → Item
  | .matrix => .matrix
  | .leftRight => .leftRight
  | .rightLeft => .rightLeft
  | .vector => .vector

def num (internal : Bool) (size : Side → Nat → Nat) (u : Nat) : Nat := size .left u + if internal then size .right u else 0

/-- Number of functions of a side. -/
def cnt (internal : Bool) (U : Nat) (size : Side → Nat → Nat) : Side → Nat
  | .left => ((List.range U).map (size .left)).sum
  | .right => if internal then ((List.range U).map (size .right)).sum else 0

/-- On a face: sizes and stored values. -/
structure OnFace (q : Prop) (U : Nat) (size : Side → Nat → Nat) (s : Core R P W) (n : Now R P) (f : Nat) : Prop where
  int : (g.face f).internal = n.internal
  unk : ∀ sd, n.hasSide sd → (g.elemAt f sd).unknowns = U ∧ ∀ u < U, (g.elemAt f sd).size u = size sd u
  str : q → (g.face f).turn = none
  turn : s.turn = (g.face f).turn
  nLeft : s.nLeft = (List.range U).map (size .left)
  rows : ∀ c d u, u < U → ∃ row, (s.table c d)[u]? = some row ∧ row.length = num n.internal size u
  hasLen : ∀ c d, (s.hasTable c d).length = U
  tab : ∀ c d u, (s.hasTable c d)[u]? = some true → ∃ row, (s.table c d)[u]? = some row ∧ ∀ i, row[i]? = n.timesNormal g c d i (some u)
  lazyLen : ∀ k, (s.lazy k).length = U
  lazy : ∀ k u l, (s.lazy k)[u]? = some (true, l) → ∀ i, l[i]? = n.fn g k.kind i (some u)
  nrm : ∀ p v, n.point = some p → s.normal = some v → v = g.normal f p
  unm : ∀ p v, n.point = some p → s.unitNormal = some v → v = g.divide (g.normal f p) (g.norm (g.normal f p))
  ar : ∀ p v, n.point = some p → s.area = some v → v = g.norm (g.normal f p)
  own : ∀ o, (s.own o).map (fun x => (x.rows, x.cols)) = ownSizes (cnt n.internal U size .left) (cnt n.internal U size .right) o
  len : ∀ o, ∀ x ∈ s.own o, x.entries.length = x.rows * x.cols
  zero : ∀ o, s.has o = true → s.own o = (ownSizes (cnt n.internal U size .left) (cnt n.internal U size .right) o).map zeros

/-- The face object with its elements stands for `n`. -/
structure J (q : Prop) (U : Nat) (size : Side → Nat → Nat) (s : Core R P W) (e : Side → PhysElem.Now R P) (n : Now R P) : Prop where
  int : s.internal = n.internal
  face : s.face = n.face
  point : s.point = n.point
  trafos : s.trafos = n.trafos
  pf : n.point.isSome → n.face.isSome
  rule : ∀ r, n.rule = some r → ∃ f, n.face = some f ∧ s.rule = some r ∧ ∀ sd, n.hasSide sd → s.maps sd = some ((g.face f).map sd)
  has : ∀ o, s.has o = n.there o.item
  on : ∀ f, n.face = some f → OnFace g q U size s n f
  el : ∀ sd, n.hasSide sd → ElemOK g n sd (e sd)
  nof : n.face = none → ∀ k, s.lazy k = []

variable {g} {q : Prop} {U : Nat} {size : Side → Nat → Nat} {s : Core R P W} {e : Side → PhysElem.Now R P} {n : Now R P}

theorem ask_congr (b : PhysElem.Prog R P X M W) {x y : PhysElem.Now R P} (h1 : x.elem = y.elem) (h2 : x.point = y.point)
    (h3 : x.trafos = y.trafos) (h4 : x.coeffs = y.coeffs) (a : PhysElem.Op R P) : x.ask b a = y.ask b a := by
  cases a with
  | get k i u => cases u <;> simp [PhysElem.Now.ask, PhysElem.Now.here, h1, h2, h3]
  | _ => simp [PhysElem.Now.ask, PhysElem.Now.here, PhysElem.Now.expansion, h1, h2, h3, h4]

/-- Requests for data. -/
def getter : PhysElem.Op R P → Prop
  | .get _ _ _ | .solution | .solutionDeriv | .pointPhysical => True
  | _ => False

theorem act_getter (b : PhysElem.Prog R P X M W) (x : PhysElem.Now R P) (a : PhysElem.Op R P) (h : getter a) :
    x.act b a = (x.ask b a).map fun v => (x, v) := by
  cases a <;> first | rfl | exact absurd h (by simp [getter])

theorem ask_nopoint (b : PhysElem.Prog R P X M W) (x : PhysElem.Now R P) (a : PhysElem.Op R P) (h : getter a) (hp : x.point = none) :
    x.ask b a = none := by
  cases a with
  | get k i u => cases u <;> cases x.elem <;> simp [PhysElem.Now.ask, PhysElem.Now.here, hp]
  | solution => cases hx : x.elem <;> simp [PhysElem.Now.ask, PhysElem.Now.here, hp, hx]
  | solutionDeriv => cases hx : x.elem <;> simp [PhysElem.Now.ask, PhysElem.Now.here, hp, hx]
  | pointPhysical => cases hx : x.elem <;> simp [PhysElem.Now.ask, PhysElem.Now.here, hp, hx]
  | _ => exact absurd h (by simp [getter])

theorem act_side (hJ : J g q U size s e n) {f : Nat} (hf : n.face = some f) {sd : Side} (hsd : n.hasSide sd) (a : PhysElem.Op R P)
    (ha : getter a) : (e sd).act g.base a = (n.askSide g sd a).map fun v => (e sd, v) := by
  have he := hJ.el sd hsd
  rw [act_getter _ _ _ ha]
  unfold Now.askSide Now.here
  rw [hf]
  simp only [Option.bind_some]
  cases hp : n.point with
  | none =>
    rw [ask_nopoint _ _ _ ha]
    · rfl
    · rw [he.point, hf, hp]; rfl
  | some p =>
    simp only [Option.bind_some]
    rw [if_pos (show sd = .left ∨ n.internal = true from hsd)]
    rw [ask_congr g.base (y := n.side g f p sd)]
    · rw [he.elem, hf]; rfl
    · rw [he.point, hf, hp]; rfl
    · rw [he.trafos]; rfl
    · rw [he.coeffs]; rfl

theorem run_ask {α : Type} (hJ : J g q U size s e n) {f : Nat} (hf : n.face = some f) {sd : Side} (hsd : n.hasSide sd)
    (a : PhysElem.Op R P) (ha : getter a) (k : PhysElem.Ans R P X M W → Call R P X M W α) :
    (Call.ask sd a k).run (PhysElem.Now.act g.base) e = (n.askSide g sd a).bind fun v => (k v).run (PhysElem.Now.act g.base) e := by
  simp only [Call.run]
  rw [act_side hJ hf hsd a ha]
  cases n.askSide g sd a with
  | none => rfl
  | some v => simp only [Option.map_some, Option.bind_some, Function.update_eq_self]

theorem run_askFn (hJ : J g q U size s e n) {f : Nat} (hf : n.face = some f) {sd : Side} (hsd : n.hasSide sd) (k : Kind) (i : Nat)
    (u : Option Nat) : (askFn sd k i u).run (PhysElem.Now.act g.base) e =
      ((n.askSide g sd (.get k i u)).bind theFn).map fun w => (e, w) := by
  unfold askFn
  rw [run_ask hJ hf hsd (.get k i u) trivial]
  cases n.askSide g sd (.get k i u) with
  | none => rfl
  | some v => simp only [Option.bind_some, Call.run_lift]

theorem askSide_nopoint (hp : n.point = none) (sd : Side) (a : PhysElem.Op R P) : n.askSide g sd a = none := by
  unfold Now.askSide Now.here
  rw [hp]
  cases n.face <;> rfl

theorem fnSide_eq {f : Nat} (hf : n.face = some f) (sd : Side) (k : Kind) (i : Nat) (u : Option Nat) :
    n.fnSide g sd k i u = ((n.askSide g sd (.get k i u)).bind theFn).bind fun w =>
      match sd, (g.face f).turn with
      | .right, some r => (n.trafos[u.getD 0]?.join).map fun t => g.turned t k r w
      | _, _ => some w := by
  unfold Now.fnSide
  cases hp : n.point with
  | none =>
    rw [askSide_nopoint hp]
    unfold Now.here
    rw [hf, hp]; rfl
  | some p =>
    unfold Now.here
    rw [hf, hp]; rfl

theorem run_left (hJ : J g q U size s e n) {f : Nat} (hf : n.face = some f) (k : Kind) (i : Nat) (u : Option Nat) :
    (askFn .left k i u).run (PhysElem.Now.act g.base) e = (n.fnSide g .left k i u).map fun w => (e, w) := by
  rw [run_askFn hJ hf (Or.inl rfl), fnSide_eq hf]
  cases (n.askSide g .left (.get k i u)).bind theFn <;> rfl

theorem run_right (hJ : J g q U size s e n) {f : Nat} (hf : n.face = some f) (hi : n.internal = true) (k : Kind) (i : Nat)
    (u : Option Nat) : (s.askRight g k i u).run (PhysElem.Now.act g.base) e = (n.fnSide g .right k i u).map fun w => (e, w) := by
  unfold Core.askRight
  rw [Call.run_bind, run_askFn hJ hf (Or.inr hi), fnSide_eq hf]
  cases (n.askSide g .right (.get k i u)).bind theFn with
  | none => rfl
  | some w =>
    simp only [Option.map_some, Option.bind_some, Call.run_lift]
    rw [(hJ.on f hf).turn, hJ.trafos]
    cases (g.face f).turn <;> rfl

theorem located_eq (hJ : J g q U size s e n) {f : Nat} {p : P} (hf : n.face = some f) (hp : n.point = some p) :
    s.located = some (f, p) := by
  unfold Core.located
  rw [hJ.face, hJ.point, hf, hp]; rfl

theorem located_none (hJ : J g q U size s e n) (h : n.face = none ∨ n.point = none) : s.located = none := by
  unfold Core.located
  rw [hJ.face, hJ.point]
  rcases h with h | h
  · rw [h]; rfl
  · rw [h]; cases n.face <;> rfl

theorem here_none {α : Type} (h : n.face = none ∨ n.point = none) (F : Nat → P → Option α) : n.here F = none := by
  unfold Now.here
  rcases h with h | h
  · rw [h]; rfl
  · rw [h]; cases n.face <;> rfl

theorem here_some {α : Type} {f : Nat} {p : P} (hf : n.face = some f) (hp : n.point = some p) (F : Nat → P → Option α) :
    n.here F = F f p := by
  unfold Now.here
  rw [hf, hp]; rfl

/-- Cases: no place, or a face and a point. -/
theorem placed (n : Now R P) : (n.face = none ∨ n.point = none) ∨ ∃ f p, n.face = some f ∧ n.point = some p := by
  cases hf : n.face with
  | none => exact Or.inl (Or.inl rfl)
  | some f =>
    cases hp : n.point with
    | none => exact Or.inl (Or.inr rfl)
    | some p => exact Or.inr ⟨f, p, rfl, rfl⟩

theorem nLeft_get (hJ : J g q U size s e n) {f : Nat} (hf : n.face = some f) (u : Nat) :
    s.nLeft[u]? = if u < U then some (size .left u) else none := by
  rw [(hJ.on f hf).nLeft]
  by_cases h : u < U
  · rw [if_pos h]; simp [h]
  · rw [if_neg h]; simp; omega

theorem fnSide_right_none (hi : n.internal = false) (k : Kind) (i : Nat) (u : Option Nat) : n.fnSide g .right k i u = none := by
  rcases placed n with h | ⟨f, p, hf, hp⟩
  · exact here_none h _
  · unfold Now.fnSide
    rw [here_some hf hp]
    unfold Now.askSide
    rw [here_some hf hp, if_neg (by simp [hi])]
    rfl

theorem fn_eq {f : Nat} {p : P} (hf : n.face = some f) (hp : n.point = some p)
    (hO : OnFace g q U size s n f) (k : Kind) (i : Nat) (u : Option Nat) : n.fn g k i u =
      if u.getD 0 < U then if i < size .left (u.getD 0) then n.fnSide g .left k i u
        else n.fnSide g .right k (i - size .left (u.getD 0)) u else none := by
  unfold Now.fn
  rw [here_some hf hp]
  simp only
  obtain ⟨h1, h2⟩ := hO.unk .left (Or.inl rfl)
  rw [h1]
  by_cases h : u.getD 0 < U
  · rw [if_pos h, if_pos h, h2 _ h]
  · rw [if_neg h, if_neg h]

theorem run_fn (hJ : J g q U size s e n) (k : Kind) (i : Nat) (u : Option Nat) :
    (s.fn g k i u).run (PhysElem.Now.act g.base) e = (n.fn g k i u).map fun w => (e, w) := by
  unfold Core.fn
  rw [Call.run_bind, Call.run_lift]
  rcases placed n with h | ⟨f, p, hf, hp⟩
  · rw [located_none hJ h]; unfold Now.fn; rw [here_none h]; rfl
  rw [located_eq hJ hf hp, fn_eq hf hp (hJ.on f hf)]
  simp only [Option.map_some, Option.bind_some, Call.run_bind, Call.run_lift, nLeft_get hJ hf]
  by_cases hu : u.getD 0 < U
  · rw [if_pos hu, if_pos hu]
    simp only [Option.map_some, Option.bind_some]
    by_cases hi : i < size .left (u.getD 0)
    · rw [if_pos hi, if_pos hi]; exact run_left hJ hf _ _ _
    · rw [if_neg hi, if_neg hi, hJ.int]
      by_cases hint : n.internal = true
      · rw [if_pos hint]; exact run_right hJ hf hint _ _ _
      · rw [if_neg hint, fnSide_right_none (by simpa using hint)]; rfl
  · rw [if_neg hu, if_neg hu]; rfl

theorem run_fnSide (hJ : J g q U size s e n) (sd : Side) (k : Kind) (i : Nat) (u : Option Nat) :
    (s.fnSide g sd k i u).run (PhysElem.Now.act g.base) e = (n.fnSide g sd k i u).map fun w => (e, w) := by
  unfold Core.fnSide
  rw [Call.run_bind, Call.run_lift]
  rcases placed n with h | ⟨f, p, hf, hp⟩
  · rw [located_none hJ h]; unfold Now.fnSide; rw [here_none h]; rfl
  rw [located_eq hJ hf hp]
  simp only [Option.map_some, Option.bind_some]
  cases sd
  · exact run_left hJ hf _ _ _
  · simp only
    rw [hJ.int]
    by_cases hint : n.internal = true
    · rw [if_pos hint]; exact run_right hJ hf hint _ _ _
    · rw [if_neg hint, fnSide_right_none (by simpa using hint)]; rfl

/-- What one side answers to a request for a function. -/
theorem fnSide_get {f : Nat} {p : P} (hf : n.face = some f) (hp : n.point = some p) {sd : Side} (hsd : n.hasSide sd) (k : Kind)
    (i : Nat) (u : Option Nat) :
    n.fnSide g sd k i u = ((n.trafos[u.getD 0]?.join).bind fun t =>
      if u.getD 0 < (g.elemAt f sd).unknowns ∧ i < (g.elemAt f sd).size (u.getD 0) ∧ (u = none → (g.elemAt f sd).uniform) then
        some (match (generalizing := false) sd, (g.face f).turn with
          | .right, some r => g.turned t k r (PhysElem.value g.base (g.elemAt f sd) t k (u.getD 0) i (g.base.faceMap ((g.face f).map sd) p))
          | _, _ => PhysElem.value g.base (g.elemAt f sd) t k (u.getD 0) i (g.base.faceMap ((g.face f).map sd) p))
      else none) := by
  rw [fnSide_eq hf]
  unfold Now.askSide
  rw [here_some hf hp, if_pos (show sd = .left ∨ n.internal = true from hsd)]
  cases u with
  | none =>
    simp only [PhysElem.Now.ask, PhysElem.Now.here, Now.side, Option.bind_some, Option.getD_none]
    cases n.trafos[0]?.join with
    | none => rfl
    | some t =>
      simp only [Option.bind_some, forall_const]
      change ((if 0 < (g.elemAt f sd).unknowns ∧ i < (g.elemAt f sd).size 0 ∧ (g.elemAt f sd).uniform then _ else none).bind theFn).bind _ = _
      by_cases h : 0 < (g.elemAt f sd).unknowns ∧ i < (g.elemAt f sd).size 0 ∧ (g.elemAt f sd).uniform
      · rw [if_pos h, if_pos h]
        simp only [Option.bind_some, theFn]
        cases sd <;> cases (g.face f).turn <;> rfl
      · rw [if_neg h, if_neg h]; rfl
  | some u =>
    simp only [PhysElem.Now.ask, PhysElem.Now.here, Now.side, Option.bind_some, Option.getD_some, reduceCtorEq, false_imp_iff, and_true]
    cases n.trafos[u]?.join with
    | none => rfl
    | some t =>
      simp only [Option.bind_some]
      change ((if u < (g.elemAt f sd).unknowns ∧ i < (g.elemAt f sd).size u then _ else none).bind theFn).bind _ = _
      by_cases h : u < (g.elemAt f sd).unknowns ∧ i < (g.elemAt f sd).size u
      · rw [if_pos h, if_pos h]
        simp only [Option.bind_some, theFn]
        cases sd <;> cases (g.face f).turn <;> rfl
      · rw [if_neg h, if_neg h]; rfl

section Defined
variable {f : Nat} {p : P}

theorem fn_oob (hf : n.face = some f) (hp : n.point = some p) (hO : OnFace g q U size s n f) (k : Kind) (i u : Nat)
    (h : num n.internal size u ≤ i) : n.fn g k i (some u) = none := by
  rw [fn_eq hf hp hO]
  unfold num at h
  simp only [Option.getD_some]
  split
  · rename_i hu
    rw [if_neg (by omega)]
    by_cases hi : n.internal = true
    · rw [fnSide_get hf hp (Or.inr hi)]
      rw [if_pos hi] at h
      obtain ⟨h1, h2⟩ := hO.unk .right (Or.inr hi)
      cases n.trafos[(some u).getD 0]?.join with
      | none => rfl
      | some t =>
        simp only [Option.bind_some, Option.getD_some]
        rw [if_neg]
        rw [h2 u hu]; omega
    · exact fnSide_right_none (by simpa using hi) _ _ _
  · rfl

theorem fn_notrafo (hf : n.face = some f) (hp : n.point = some p) (hO : OnFace g q U size s n f) (k : Kind) (i u : Nat)
    (h : n.trafos[u]?.join = none) : n.fn g k i (some u) = none := by
  rw [fn_eq hf hp hO]
  simp only [Option.getD_some]
  split
  · split
    · rw [fnSide_get hf hp (Or.inl rfl)]
      simp only [Option.getD_some, h, Option.bind_none]
    · by_cases hi : n.internal = true
      · rw [fnSide_get hf hp (Or.inr hi)]
        simp only [Option.getD_some, h, Option.bind_none]
      · exact fnSide_right_none (by simpa using hi) _ _ _
  · rfl

theorem fn_isSome (hf : n.face = some f) (hp : n.point = some p) (hO : OnFace g q U size s n f) (k : Kind) (i u t : Nat)
    (hu : u < U) (h : n.trafos[u]?.join = some t) (hi : i < num n.internal size u) : (n.fn g k i (some u)).isSome := by
  rw [fn_eq hf hp hO]
  unfold num at hi
  simp only [Option.getD_some]
  rw [if_pos hu]
  by_cases h' : i < size .left u
  · rw [if_pos h', fnSide_get hf hp (Or.inl rfl)]
    simp only [Option.getD_some, h, Option.bind_some]
    obtain ⟨h1, h2⟩ := hO.unk .left (Or.inl rfl)
    rw [if_pos ⟨by omega, by rw [h2 u hu]; exact h', by simp⟩]
    rfl
  · rw [if_neg h']
    by_cases hint : n.internal = true
    · rw [if_pos hint] at hi
      rw [fnSide_get hf hp (Or.inr hint)]
      simp only [Option.getD_some, h, Option.bind_some]
      obtain ⟨h1, h2⟩ := hO.unk .right (Or.inr hint)
      rw [if_pos ⟨by omega, by rw [h2 u hu]; omega, by simp⟩]
      rfl
    · rw [if_neg hint] at hi; omega

/-- Without unknown, if the unknowns have equally many functions. -/
theorem fn_plain (hf : n.face = some f) (hp : n.point = some p) (hO : OnFace g q U size s n f) (k : Kind) (i : Nat)
    (h : g.allowed f none) : n.fn g k i none = n.fn g k i (some 0) := by
  rw [fn_eq hf hp hO, fn_eq hf hp hO]
  simp only [Option.getD_some, Option.getD_none]
  have hl := h.1
  have hr := h.2
  rw [hO.int] at hr
  split
  · split
    · rw [fnSide_get hf hp (Or.inl rfl), fnSide_get hf hp (Or.inl rfl)]
      simp only [Option.getD_some, Option.getD_none, forall_const, hl, reduceCtorEq, false_imp_iff]
    · by_cases hi : n.internal = true
      · rw [fnSide_get hf hp (Or.inr hi), fnSide_get hf hp (Or.inr hi)]
        simp only [Option.getD_some, Option.getD_none, forall_const, hr hi, reduceCtorEq, false_imp_iff]
      · rw [fnSide_right_none (by simpa using hi), fnSide_right_none (by simpa using hi)]
  · rfl

end Defined

/-- A loop over functions: all values, or none. -/
theorem mapM_range {α : Type} (h : Nat → Option α) (N : Nat) :
    match (List.range N).mapM h with
    | none => ∃ j < N, h j = none
    | some l => l.length = N ∧ ∀ j < N, l[j]? = h j := by
  have key : ∀ (L : List Nat), match L.mapM h with
      | none => ∃ j ∈ L, h j = none
      | some l => l.length = L.length ∧ ∀ j (hj : j < L.length), l[j]? = h L[j] := by
    intro L
    induction L with
    | nil => simp
    | cons a L ih =>
      rw [List.mapM_cons]
      cases ha : h a with
      | none => exact ⟨a, by simp, ha⟩
      | some w =>
        cases hL : L.mapM h with
        | none =>
          rw [hL] at ih
          obtain ⟨j, hj, h'⟩ := ih
          exact ⟨j, by simp [hj], h'⟩
        | some l =>
          rw [hL] at ih
          refine ⟨by simp [ih.1], fun j hj => ?_⟩
          cases j with
          | zero => simp [ha]
          | succ j =>
            simp only [List.getElem?_cons_succ, List.getElem_cons_succ]
            exact ih.2 j (by simpa using hj)
  have := key (List.range N)
  cases hL : (List.range N).mapM h with
  | none =>
    rw [hL] at this
    obtain ⟨j, hj, h'⟩ := this
    exact ⟨j, List.mem_range.1 hj, h'⟩
  | some l =>
    rw [hL] at this
    refine ⟨by simpa using this.1, fun j hj => ?_⟩
    have := this.2 j (by simpa using hj)
    simpa using this

end Verif.PhysFace
