import Verif.FaceInt.Model
import Verif.PhysFace.LemmasStep
import Mathlib.Tactic.Abel

/-!
# C77: scripts run on face objects and on what they stand for
-/
namespace Verif.FaceInt
open PhysFace

set_option linter.all false

variable {R P X M W V : Type} [CommRing R] [AddCommGroup W] [Module R W] [AddCommGroup V] [Module R V]
variable {g : PhysFace.Prog R P X M W} {weight : Nat → Nat → R}
variable {q : Prop} {U : Nat} {size : Side → Nat → Nat}

theorem Script.run_bind {α β S : Type} (act : S → Op R P → Option (S × Ans R P X M W)) (c : Script R P X M W α)
    (f : α → Script R P X M W β) (s : S) : (c.bind f).run act s = (c.run act s).bind fun x => (f x.2).run act x.1 := by
  induction c generalizing s with
  | ret a => rfl
  | stop => rfl
  | ask a k ih =>
    simp only [Script.bind, Script.run]
    cases act s a with
    | none => rfl
    | some x => exact ih x.2 _

/-- The flag after a request. -/
def next (fresh : Bool) : Op R P → Bool
  | .setFace _ => false
  | .setRule _ => true
  | _ => fresh

/-- One request within bounds. -/
def okOp (g : PhysFace.Prog R P X M W) (q : Prop) (b : Bool) (U : Nat) (size : Side → Nat → Nat) (fresh : Bool) (a : Op R P) : Prop :=
  a.sound b U size ∧ (∀ f, a = .setFace f → (∀ sd, sd = .left ∨ (g.face f).internal = true →
      (g.elemAt f sd).unknowns = U ∧ ∀ u < U, (g.elemAt f sd).size u = size sd u) ∧ (q → (g.face f).turn = none)) ∧
    (a = .solution .right ∨ a = .solutionDeriv .right → q) ∧ (∀ d s i u, a ≠ .timesNormal false d s i (some u)) ∧
    (∀ i, a = .setIndex i → fresh = true)

/-- All requests of a script. -/
def ok {α : Type} (g : PhysFace.Prog R P X M W) (q : Prop) (b : Bool) (U : Nat) (size : Side → Nat → Nat) : Bool → Script R P X M W α → Prop
  | _, .ret _ => True
  | _, .stop => True
  | fresh, .ask a k => okOp g q b U size fresh a ∧ ∀ v, ok g q b U size (next fresh a) (k v)

/-- The face object stands for `n`. -/
def Good (g : PhysFace.Prog R P X M W) (q : Prop) (U : Nat) (size : Side → Nat → Nat) (s : FaceState R P X M W) (n : PhysFace.Now R P) : Prop :=
  ∃ en, J g q U size s.1 en n ∧ ∀ sd, Rel g.base (s.2 sd) (en sd)

theorem op_sim {s : FaceState R P X M W} {n : PhysFace.Now R P} (h : Good g q U size s n) (a : Op R P) (fresh : Bool)
    (ha : okOp g q n.internal U size fresh a) (hfr : fresh = true → n.rule.isSome) :
    match faceAct g s a with
    | none => n.act g a = none
    | some (s', v) => ∃ n', n.act g a = some (n', v) ∧ Good g q U size s' n' ∧ (next fresh a = true → n'.rule.isSome) := by
  obtain ⟨en, hJ, hrel⟩ := h
  obtain ⟨h1, h2, h3, h4, h5⟩ := ha
  have hs := run_sim g (s.1.act g a) (fine_act g s.1 a U size (by rw [hJ.int]; exact h1)) s.2 en hrel
  have hreg : regular fresh (a :: if next fresh a then [.setIndex 0] else []) := by
    cases a with
    | setFace f => simp [regular, next]
    | setRule f => simp [regular, next]
    | setIndex i =>
      have := h5 i rfl
      subst this
      simp [regular, next]
    | timesNormal c d s i u =>
      cases c with
      | true => cases fresh <;> simp [regular, next]
      | false =>
        cases u with
        | none => cases fresh <;> simp [regular, next]
        | some u => exact absurd rfl (h4 d s i u)
    | _ => cases fresh <;> simp [regular, next]
  have hst := step hJ a _ h1 h2 h3 fresh hreg hfr
  unfold StepOK at hst
  unfold faceAct
  cases hr : (s.1.act g a).run (PhysElem.State.act g.base) s.2 with
  | none =>
    rw [hr] at hs
    simp only at hs
    rw [hs] at hst
    exact hst
  | some x =>
    obtain ⟨e', s', v⟩ := x
    rw [hr] at hs
    obtain ⟨en', h6, h7⟩ := hs
    rw [h6] at hst
    obtain ⟨n', fresh', h8, h9, h10, h11⟩ := hst
    refine ⟨n', h8, ⟨en', h9, h7⟩, ?_⟩
    intro hn
    rw [hn] at h10
    exact h11 h10.1

theorem script_sim {α : Type} (c : Script R P X M W α) (s : FaceState R P X M W) (n : PhysFace.Now R P) (h : Good g q U size s n) (fresh : Bool)
    (hc : ok g q n.internal U size fresh c) (hfr : fresh = true → n.rule.isSome) :
    match c.run (faceAct g) s with
    | none => c.run (PhysFace.Now.act g) n = none
    | some (s', v) => ∃ n', c.run (PhysFace.Now.act g) n = some (n', v) ∧ Good g q U size s' n' := by
  induction c generalizing s n fresh with
  | ret a => exact ⟨n, rfl, h⟩
  | stop => rfl
  | ask a k ih =>
    have h1 := op_sim h a fresh hc.1 hfr
    simp only [Script.run]
    cases hr : faceAct g s a with
    | none => rw [hr] at h1; simp only at h1; rw [h1]; rfl
    | some x =>
      obtain ⟨s', v⟩ := x
      rw [hr] at h1
      obtain ⟨n', h2, h3, h4⟩ := h1
      rw [h2]
      simp only [Option.bind_some]
      refine ih v s' n' h3 (next fresh a) ?_ h4
      rw [act_internal h2]
      exact hc.2 v

/-- Requests for data do not depend on the rule, and change only what is still there. -/
theorem reads_act (n : PhysFace.Now R P) (a : Op R P) (ha : reads a) : ∃ o : Option ((Item → Bool) × Ans R P X M W), ∀ ρ,
    ({ n with rule := ρ } : PhysFace.Now R P).act g a = o.map fun x => ({ n with rule := ρ, there := x.1 }, x.2) := by
  cases a with
  | setFace f => exact absurd ha (by simp [reads])
  | setPoint f => exact absurd ha (by simp [reads])
  | setRule f => exact absurd ha (by simp [reads])
  | setIndex f => exact absurd ha (by simp [reads])
  | setTransform f => exact absurd ha (by simp [reads])
  | result it m =>
    rcases placed n with h | ⟨f, p, hf, hp⟩
    · refine ⟨none, fun ρ => ?_⟩
      simp only [PhysFace.Now.act]
      exact here_none (n := { n with rule := ρ }) h _
    · by_cases hc : n.there it = true ∧ (it.needsRight = true → n.internal = true)
      · refine ⟨some (fun j => if j = it then false else n.there j,
          .results ((sizes (g.count f .left) (g.count f .right) it).map zeros)), fun ρ => ?_⟩
        simp only [PhysFace.Now.act]
        rw [here_some (n := { n with rule := ρ }) hf hp, if_pos hc]; rfl
      · refine ⟨none, fun ρ => ?_⟩
        simp only [PhysFace.Now.act]
        rw [here_some (n := { n with rule := ρ }) hf hp, if_neg hc]; rfl
  | fn vec sd i u =>
    refine ⟨(n.ask g (.fn vec sd i u)).map fun v => (n.there, v), fun ρ => ?_⟩
    cases sd <;> · simp only [PhysFace.Now.act]; rw [Option.map_map]; rfl
  | der k sd i u =>
    refine ⟨(n.ask g (.der k sd i u)).map fun v => (n.there, v), fun ρ => ?_⟩
    cases sd <;> · simp only [PhysFace.Now.act]; rw [Option.map_map]; rfl
  | timesNormal c d sd i u =>
    refine ⟨(n.ask g (.timesNormal c d sd i u)).map fun v => (n.there, v), fun ρ => ?_⟩
    cases sd <;> · simp only [PhysFace.Now.act]; rw [Option.map_map]; rfl
  | solution sd => exact ⟨(n.ask g (.solution sd)).map fun v => (n.there, v), fun ρ => by simp only [PhysFace.Now.act]; rw [Option.map_map]; rfl⟩
  | solutionDeriv sd => exact ⟨(n.ask g (.solutionDeriv sd)).map fun v => (n.there, v), fun ρ => by simp only [PhysFace.Now.act]; rw [Option.map_map]; rfl⟩
  | pointReference => exact ⟨(n.ask g .pointReference).map fun v => (n.there, v), fun ρ => by simp only [PhysFace.Now.act]; rw [Option.map_map]; rfl⟩
  | pointPhysical => exact ⟨(n.ask g .pointPhysical).map fun v => (n.there, v), fun ρ => by simp only [PhysFace.Now.act]; rw [Option.map_map]; rfl⟩
  | normal => exact ⟨(n.ask g .normal).map fun v => (n.there, v), fun ρ => by simp only [PhysFace.Now.act]; rw [Option.map_map]; rfl⟩
  | unitNormal => exact ⟨(n.ask g .unitNormal).map fun v => (n.there, v), fun ρ => by simp only [PhysFace.Now.act]; rw [Option.map_map]; rfl⟩
  | area => exact ⟨(n.ask g .area).map fun v => (n.there, v), fun ρ => by simp only [PhysFace.Now.act]; rw [Option.map_map]; rfl⟩

theorem polite_run {α : Type} {b : Bool} (c : Script R P X M W α) (n : PhysFace.Now R P) (hc : c.polite q b U size) :
    ∃ o : Option ((Item → Bool) × α), ∀ ρ, c.run (PhysFace.Now.act g) { n with rule := ρ } =
      o.map fun x => ({ n with rule := ρ, there := x.1 }, x.2) := by
  induction c generalizing n with
  | ret a => exact ⟨some (n.there, a), fun ρ => rfl⟩
  | stop => exact ⟨none, fun ρ => rfl⟩
  | ask a k ih =>
    obtain ⟨o, ho⟩ := reads_act (g := g) n a hc.1.1
    cases o with
    | none => exact ⟨none, fun ρ => by simp only [Script.run]; rw [ho ρ]; rfl⟩
    | some x =>
      obtain ⟨o', ho'⟩ := ih x.2 { n with there := x.1 } (hc.2 x.2)
      exact ⟨o', fun ρ => by simp only [Script.run]; rw [ho ρ]; exact ho' ρ⟩

/-- An integrand at a fresh place. -/
theorem body_run {b : Bool} (body : Script R P X M W V) (hc : body.polite q b U size) (n : PhysFace.Now R P) {f : Nat} {p : P}
    (hf : n.face = some f) (hp : n.point = some p) (hi : n.internal = (g.face f).internal) (ht : n.there = fun _ => true) :
    ∃ th, body.run (PhysFace.Now.act g) n = (valueAt g n.trafos n.coeffs f p body).map fun v => ({ n with there := th }, v) := by
  obtain ⟨o, ho⟩ := polite_run (g := g) body n hc
  have h1 := ho n.rule
  have h2 := ho none
  have hpl : ({ n with rule := none } : PhysFace.Now R P) = place g n.trafos n.coeffs f p := by
    obtain ⟨i, fa, pt, ru, tr, co, th⟩ := n
    simp only at hf hp hi ht
    subst hf hp hi ht
    rfl
  cases o with
  | none =>
    refine ⟨n.there, ?_⟩
    unfold valueAt
    rw [← hpl, h2]
    exact h1
  | some x =>
    refine ⟨x.1, ?_⟩
    unfold valueAt
    rw [← hpl, h2]
    exact h1

theorem area_run (n : PhysFace.Now R P) {f : Nat} {p : P} (hf : n.face = some f) (hp : n.point = some p) (scaled : Bool) :
    (scale scaled : Script R P X M W R).run (PhysFace.Now.act g) n = some (n, if scaled then g.norm (g.normal f p) else 1) := by
  cases scaled with
  | false => rfl
  | true =>
    simp only [scale, if_true, Script.run, PhysFace.Now.act, PhysFace.Now.ask]
    rw [show n.normal g false = some (g.normal f p) by unfold PhysFace.Now.normal; rw [here_some hf hp]; rfl]
    rfl

/-- One term of the sum. -/
theorem term_run {b : Bool} (body : Script R P X M W V) (hc : body.polite q b U size) (scaled : Bool) (r i : Nat) (n : PhysFace.Now R P) {f : Nat} {p : P}
    (hf : n.face = some f) (hp : n.point = some p) (hi : n.internal = (g.face f).internal) (ht : n.there = fun _ => true) :
    ∃ th, (term weight scaled r i body).run (PhysFace.Now.act g) n = ((valueAt g n.trafos n.coeffs f p body).map fun v =>
        (weight r i * if scaled then g.norm (g.normal f p) else 1) • v).map fun v => ({ n with there := th }, v) := by
  obtain ⟨th, h⟩ := body_run body hc n hf hp hi ht
  refine ⟨th, ?_⟩
  unfold term
  rw [Script.run_bind, h]
  cases valueAt g n.trafos n.coeffs f p body with
  | none => rfl
  | some v =>
    simp only [Option.map_some, Option.bind_some]
    rw [Script.run_bind, area_run { n with there := th } hf hp]
    rfl

/-- The value of one term. -/
def termAt (g : PhysFace.Prog R P X M W) (weight : Nat → Nat → R) (trafos : List (Option Nat)) (coeffs : Nat → Nat → Nat → R) (scaled : Bool) (f r : Nat)
    (body : Script R P X M W V) (x : P × Nat) : Option V :=
  (valueAt g trafos coeffs f x.1 body).map fun v => (weight r x.2 * if scaled then g.norm (g.normal f x.1) else 1) • v

/-- The loop. -/
theorem more_run {b : Bool} (body : Script R P X M W V) (hc : body.polite q b U size) (scaled : Bool) (r : Nat) {f : Nat} (ps : List P) (k : Nat)
    (hk : (g.base.points r).drop k = ps) (n : PhysFace.Now R P) (hf : n.face = some f) (hpt : n.point.isSome)
    (hi : n.internal = (g.face f).internal) (hr : n.rule = some r) (acc : V) :
    match (ps.zipIdx k).mapM (termAt g weight n.trafos n.coeffs scaled f r body) with
    | none => (more weight scaled r body (List.range' k ps.length) acc).run (PhysFace.Now.act g) n = none
    | some l => ∃ n', (more weight scaled r body (List.range' k ps.length) acc).run (PhysFace.Now.act g) n = some (n', l.sum + acc) ∧
        n'.trafos = n.trafos ∧ n'.coeffs = n.coeffs ∧ n'.face = n.face ∧ n'.internal = n.internal := by
  induction ps generalizing k n acc with
  | nil => exact ⟨n, by simp [more, Script.run], rfl, rfl, rfl, rfl⟩
  | cons p ps ih =>
    have hp : (g.base.points r)[k]? = some p := by
      have : ((g.base.points r).drop k)[0]? = some p := by rw [hk]; rfl
      rw [List.getElem?_drop] at this
      simpa using this
    have hk' : (g.base.points r).drop (k + 1) = ps := by
      rw [← List.tail_drop, hk]; rfl
    have hset : n.act g (.setIndex k) = some ({ n with point := some p }.moved, .elem .done) := by
      simp only [PhysFace.Now.act]
      have key : ∀ z : Nat → Option (PhysFace.Now R P × Ans R P X M W), (n.face.bind fun _ => n.rule.bind z) = z r := by
        intro z; rw [hf, hr]; rfl
      rw [key, hp]; rfl
    simp only [List.length_cons, List.range'_succ, more, Script.run]
    rw [hset]
    simp only [Option.bind_some, List.zipIdx_cons, List.mapM_cons]
    rw [Script.run_bind]
    obtain ⟨th, h⟩ := term_run (weight := weight) body hc scaled r k ({ n with point := some p }.moved) hf rfl hi rfl
    rw [h]
    change match ((termAt g weight n.trafos n.coeffs scaled f r body (p, k)).bind fun v =>
      ((ps.zipIdx (k + 1)).mapM (termAt g weight n.trafos n.coeffs scaled f r body)).bind fun l => some (v :: l)) with
      | none => ((termAt g weight n.trafos n.coeffs scaled f r body (p, k)).map _ |>.bind _) = none
      | some l => ∃ n', ((termAt g weight n.trafos n.coeffs scaled f r body (p, k)).map _ |>.bind _) = some (n', _) ∧ _
    cases termAt g weight n.trafos n.coeffs scaled f r body (p, k) with
    | none => rfl
    | some v =>
      simp only [Option.map_some, Option.bind_some]
      have hh := ih (k + 1) hk' { n with point := some p, there := th } hf rfl hi hr (v + acc)
      simp only at hh
      cases hm : (ps.zipIdx (k + 1)).mapM (termAt g weight n.trafos n.coeffs scaled f r body) with
      | none =>
        rw [hm] at hh
        exact hh
      | some l =>
        rw [hm] at hh
        obtain ⟨n', h1, h2⟩ := hh
        refine ⟨n', ?_, h2⟩
        rw [List.sum_cons, show v + l.sum + acc = l.sum + (v + acc) by abel]
        exact h1

/-- The whole integral. -/
theorem integrate_run {b : Bool} (body : Script R P X M W V) (hc : body.polite q b U size) (scaled : Bool) (f r : Nat) (n : PhysFace.Now R P)
    (hi : n.internal = (g.face f).internal) :
    match integral g weight n.trafos n.coeffs scaled f r body with
    | none => (integrate g weight scaled f r body).run (PhysFace.Now.act g) n = none
    | some v => ∃ n', (integrate g weight scaled f r body).run (PhysFace.Now.act g) n = some (n', v) ∧
        n'.trafos = n.trafos ∧ n'.coeffs = n.coeffs ∧ n'.face = some f ∧ n'.internal = n.internal := by
  have hface : n.act g (.setFace f) = some ({ n with face := some f, rule := none }.moved, .elem (.done : PhysElem.Ans R P X M W)) := by
    simp only [PhysFace.Now.act]; rw [if_pos hi]
  unfold integrate
  simp only [Script.run]
  rw [hface]
  simp only [Option.bind_some]
  unfold integral
  cases hps : g.base.points r with
  | nil =>
    rw [if_pos rfl]
    simp [PhysFace.Now.act, hps]
  | cons p ps =>
    rw [if_neg (by simp)]
    have hrule : ({ n with face := some f, rule := none }.moved : PhysFace.Now R P).act g (.setRule r) =
        some ({ n with face := some f, point := some p, rule := some r }.moved, .elem (.done : PhysElem.Ans R P X M W)) := by
      simp only [PhysFace.Now.act]
      rw [show (g.base.points r)[0]? = some p by rw [hps]; rfl]
      rfl
    rw [hrule]
    simp only [Option.bind_some]
    rw [Script.run_bind]
    obtain ⟨th, h⟩ := term_run (weight := weight) body hc scaled r 0 ({ n with face := some f, point := some p, rule := some r }.moved) rfl rfl hi rfl
    rw [h]
    simp only [List.zipIdx_cons, List.mapM_cons, List.length_cons, Nat.add_sub_cancel]
    change match ((termAt g weight n.trafos n.coeffs scaled f r body (p, 0)).bind fun v =>
      ((ps.zipIdx (0 + 1)).mapM (termAt g weight n.trafos n.coeffs scaled f r body)).bind fun l => some (v :: l)).map List.sum with
      | none => ((termAt g weight n.trafos n.coeffs scaled f r body (p, 0)).map _ |>.bind _) = none
      | some v => ∃ n', ((termAt g weight n.trafos n.coeffs scaled f r body (p, 0)).map _ |>.bind _) = some (n', v) ∧ _
    cases termAt g weight n.trafos n.coeffs scaled f r body (p, 0) with
    | none => rfl
    | some v =>
      simp only [Option.map_some, Option.bind_some]
      have hh := more_run (weight := weight) body hc scaled r (f := f) ps 1 (by rw [hps]; rfl)
        { n with face := some f, point := some p, rule := some r, there := th } rfl rfl hi rfl v
      simp only at hh
      cases hm : (ps.zipIdx (0 + 1)).mapM (termAt g weight n.trafos n.coeffs scaled f r body) with
      | none =>
        rw [show (0 + 1 : Nat) = 1 from rfl] at hm
        rw [hm] at hh
        exact hh
      | some l =>
        rw [show (0 + 1 : Nat) = 1 from rfl] at hm
        rw [hm] at hh
        obtain ⟨n', h1, h2, h3, h4, h5⟩ := hh
        refine ⟨n', ?_, h2, h3, h4, h5⟩
        rw [show (v :: l).sum = l.sum + v by rw [List.sum_cons]; abel]
        exact h1

end Verif.FaceInt
