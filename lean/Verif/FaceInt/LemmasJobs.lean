import Verif.FaceInt.Lemmas

/-!
# C77: sequences of integrals
-/
namespace Verif.FaceInt
open PhysFace

set_option linter.all false

variable {R P X M W V : Type} [CommRing R] [AddCommGroup W] [Module R W] [AddCommGroup V] [Module R V]
variable {g : PhysFace.Prog R P X M W} {weight : Nat → Nat → R}
variable {q : Prop} {U : Bool → Nat} {size : Bool → Side → Nat → Nat}

theorem ok_mono {α : Type} {b : Bool} {U : Nat} {size : Side → Nat → Nat} (c : Script R P X M W α) (hc : c.polite q b U size) (fresh : Bool) :
    ∀ {β : Type} (k : α → Script R P X M W β), (∀ a, ok g q b U size fresh (k a)) → ok g q b U size fresh (c.bind k) := by
  intro β k hk
  induction c with
  | ret a => exact hk a
  | stop => trivial
  | ask a c ih =>
    obtain ⟨⟨h1, h2, h3, h4⟩, h5⟩ := hc
    refine ⟨⟨h2, ?_, h3, h4, ?_⟩, ?_⟩
    · intro f hf; subst hf; exact absurd h1 (by simp [reads])
    · intro f hf; subst hf; exact absurd h1 (by simp [reads])
    · intro v
      have : next fresh a = fresh := by cases a <;> first | rfl | exact absurd h1 (by simp [reads])
      rw [this]
      exact ih v (h5 v)

theorem polite_scale {b : Bool} {U : Nat} {size : Side → Nat → Nat} (scaled : Bool) : (scale scaled : Script R P X M W R).polite q b U size := by
  cases scaled with
  | false => trivial
  | true =>
    refine ⟨⟨trivial, trivial, by simp, by simp⟩, fun v => ?_⟩
    simp only
    split <;> trivial

theorem ok_integrate {U : Nat} {size : Side → Nat → Nat} (scaled : Bool) (f r : Nat) (body : Script R P X M W V)
    (hal : ∀ sd, sd = .left ∨ (g.face f).internal = true → (g.elemAt f sd).unknowns = U ∧ ∀ u < U, (g.elemAt f sd).size u = size sd u)
    (hb : body.polite q (g.face f).internal U size) (hq : q → (g.face f).turn = none) :
    ok g q (g.face f).internal U size false (integrate g weight scaled f r body) := by
  have hterm : ∀ i, ∀ {β : Type} (k : V → Script R P X M W β), (∀ a, ok g q (g.face f).internal U size true (k a)) →
      ok g q (g.face f).internal U size true ((term weight scaled r i body).bind k) := by
    intro i β k hk
    have : (term weight scaled r i body).bind k = body.bind fun v => (scale scaled).bind fun c => k ((weight r i * c) • v) := by
      unfold term
      have key : ∀ {α γ δ : Type} (c : Script R P X M W α) (F : α → Script R P X M W γ) (G : γ → Script R P X M W δ),
          (c.bind F).bind G = c.bind fun x => (F x).bind G := by
        intro α γ δ c F G
        induction c with
        | ret a => rfl
        | stop => rfl
        | ask a c ih => simp only [Script.bind, ih]
      rw [key]
      congr 1
      funext v
      rw [key]
      rfl
    rw [this]
    exact ok_mono body hb true _ fun v => ok_mono _ (polite_scale scaled) true _ fun c => hk _
  have hmore : ∀ (l : List Nat) acc, ok g q (g.face f).internal U size true (more weight scaled r body l acc) := by
    intro l
    induction l with
    | nil => intro acc; trivial
    | cons i l ih =>
      intro acc
      refine ⟨⟨trivial, by simp, by simp, by simp, by simp⟩, fun v => ?_⟩
      exact hterm i _ fun a => ih _
  refine ⟨⟨trivial, ?_, by simp, by simp, by simp⟩, fun v => ⟨⟨trivial, by simp, by simp, by simp, by simp⟩, fun v => ?_⟩⟩
  · intro f' hf'
    cases hf'
    exact ⟨hal, hq⟩
  · exact hterm 0 _ fun a => hmore _ _

/-- The integrator stands for the setting. -/
def Stands (g : PhysFace.Prog R P X M W) (q : Prop) (U : Bool → Nat) (size : Bool → Side → Nat → Nat) (coeffs : Nat → Nat → Nat → R)
    (s : State R P X M W) (t : Setting) : Prop :=
  s.scaled = t.scaled ∧ ∃ n : Bool → PhysFace.Now R P, (∀ b, Good g q (U b) (size b) (s.face b) (n b) ∧ (n b).internal = b ∧
    (n b).trafos = t.trafos ∧ (n b).coeffs = coeffs) ∧ t.used = ((n true).face.isSome || (n false).face.isSome)

/-- The list of transformations with one more. -/
def grown (l : List (Option Nat)) (t u : Nat) : List (Option Nat) :=
  if u < l.length then l.set u (some t) else l ++ List.replicate (u - l.length) none ++ [some t]

theorem transform_sim {U : Nat} {size : Side → Nat → Nat} {s : FaceState R P X M W} {n : PhysFace.Now R P} (h : Good g q U size s n) (t u : Nat) :
    match faceAct g s (.setTransform t u) with
    | none => n.trafos.length ≤ u ∧ n.face.isSome
    | some (s', v) => (u < n.trafos.length ∨ n.face.isSome = false) ∧
        Good g q U size s' { n with trafos := grown n.trafos t u }.moved := by
  have h1 := op_sim h (.setTransform t u) false ⟨trivial, by simp, by simp, by simp, by simp⟩ (by simp)
  cases hr : faceAct g s (.setTransform t u) with
  | none =>
    rw [hr] at h1
    simp only [PhysFace.Now.act] at h1
    by_cases hu : u < n.trafos.length
    · rw [if_pos hu] at h1; cases h1
    · rw [if_neg hu] at h1
      by_cases hf : n.face.isNone = true
      · rw [if_pos hf] at h1; cases h1
      · exact ⟨by omega, by cases hn : n.face with | none => rw [hn] at hf; exact absurd rfl hf | some f => rfl⟩
  | some x =>
    obtain ⟨s', v⟩ := x
    rw [hr] at h1
    obtain ⟨n', h2, h3, _⟩ := h1
    simp only [PhysFace.Now.act] at h2
    unfold grown
    by_cases hu : u < n.trafos.length
    · rw [if_pos hu] at h2
      cases h2
      simp only [if_pos hu]
      exact ⟨Or.inl hu, h3⟩
    · rw [if_neg hu] at h2
      by_cases hf : n.face.isNone = true
      · rw [if_pos hf] at h2
        cases h2
        simp only [if_neg hu]
        exact ⟨Or.inr (by simpa using hf), h3⟩
      · rw [if_neg hf] at h2; cases h2

theorem act_sim {coeffs : Nat → Nat → Nat → R} {s : State R P X M W} {t : Setting} (h : Stands g q U size coeffs s t) (a : Job R P X M W V)
    (ha : a.fits g q U size) :
    match s.act g weight a with
    | none => t.act g weight coeffs a = none
    | some (s', v) => ∃ t', t.act g weight coeffs a = some (t', v) ∧ Stands g q U size coeffs s' t' := by
  obtain ⟨hsc, n, hn, hused⟩ := h
  cases a with
  | scaling b =>
    exact ⟨{ t with scaled := b }, rfl, rfl, n, hn, hused⟩
  | transform t0 u =>
    have h1 := transform_sim (hn true).1 t0 u
    have h2 := transform_sim (hn false).1 t0 u
    simp only [State.act, Setting.act]
    rw [(hn true).2.2.1] at h1
    rw [(hn false).2.2.1] at h2
    cases hr1 : faceAct g (s.face true) (.setTransform t0 u) with
    | none =>
      rw [hr1] at h1
      simp only at h1
      simp only [Option.bind_none]
      rw [if_neg (by omega), if_pos (by rw [hused, h1.2]; rfl)]
    | some x =>
      rw [hr1] at h1
      simp only at h1
      simp only [Option.bind_some]
      cases hr2 : faceAct g (s.face false) (.setTransform t0 u) with
      | none =>
        rw [hr2] at h2
        simp only at h2
        simp only [Option.map_none]
        rw [if_neg (by omega), if_pos (by rw [hused, h2.2]; simp)]
      | some y =>
        rw [hr2] at h2
        simp only at h2
        simp only [Option.map_some]
        refine ⟨{ t with trafos := grown t.trafos t0 u }, ?_, hsc, fun b => { n b with trafos := grown t.trafos t0 u }.moved, ?_, ?_⟩
        · by_cases hu : u < t.trafos.length
          · simp only [if_pos hu, grown]
          · rw [if_neg hu, if_neg]
            · simp only [if_neg hu, grown]
            · rw [hused]
              rcases h1.1 with h | h
              · exact absurd h hu
              · rcases h2.1 with h' | h'
                · exact absurd h' hu
                · rw [h, h']; simp
        · intro b
          cases b with
          | true => exact ⟨h1.2, (hn true).2.1, rfl, (hn true).2.2.2⟩
          | false => exact ⟨h2.2, (hn false).2.1, rfl, (hn false).2.2.2⟩
        · exact hused
  | integrate f r body =>
    obtain ⟨h1, h2, h3⟩ := ha
    have hb := hn (g.face f).internal
    have hsim := script_sim (integrate g weight s.scaled f r body) (s.face (g.face f).internal) (n (g.face f).internal) hb.1 false
      (by rw [hb.2.1]; exact ok_integrate s.scaled f r body h1 h2 h3) (by simp)
    have hint := integrate_run (weight := weight) body h2 s.scaled f r (n (g.face f).internal) hb.2.1
    rw [hb.2.2.1, hb.2.2.2, hsc] at hint
    simp only [State.act, Setting.act]
    cases hr : (integrate g weight s.scaled f r body).run (faceAct g) (s.face (g.face f).internal) with
    | none =>
      rw [hr] at hsim
      simp only at hsim
      rw [hsc] at hsim
      simp only [Option.map_none]
      cases hi : integral g weight t.trafos coeffs t.scaled f r body with
      | none => rfl
      | some v =>
        rw [hi] at hint
        obtain ⟨n', h4, _⟩ := hint
        rw [hsim] at h4; cases h4
    | some x =>
      obtain ⟨s', v⟩ := x
      rw [hr] at hsim
      obtain ⟨n', h4, h5⟩ := hsim
      rw [hsc] at h4
      simp only [Option.map_some]
      cases hi : integral g weight t.trafos coeffs t.scaled f r body with
      | none =>
        rw [hi] at hint
        simp only at hint
        rw [hint] at h4; cases h4
      | some v' =>
        rw [hi] at hint
        obtain ⟨n'', h6, h7, h8, h9, h10⟩ := hint
        rw [h6] at h4
        cases h4
        refine ⟨{ t with used := true }, rfl, hsc, Function.update n (g.face f).internal n', ?_, ?_⟩
        · intro b
          by_cases hbb : b = (g.face f).internal
          · subst hbb
            simp only [Function.update_self]
            exact ⟨h5, h10.trans hb.2.1, h7, h8⟩
          · simp only [Function.update_of_ne hbb]
            exact hn b
        · have h0 : n'.face.isSome = true := by rw [h9]; rfl
          cases hfi : (g.face f).internal <;> simp [h0]

theorem jobs_sim {coeffs : Nat → Nat → Nat → R} (l : List (Job R P X M W V)) (s : State R P X M W) (t : Setting) (h : Stands g q U size coeffs s t)
    (hl : ∀ a ∈ l, a.fits g q U size) : s.answers g weight l = t.answers g weight coeffs l := by
  induction l generalizing s t with
  | nil => rfl
  | cons a l ih =>
    have h1 := act_sim (weight := weight) h a (hl a (by simp))
    unfold State.answers Setting.answers
    cases hr : s.act g weight a with
    | none => rw [hr] at h1; simp only at h1; rw [h1]
    | some x =>
      obtain ⟨s', v⟩ := x
      rw [hr] at h1
      obtain ⟨t', h2, h3⟩ := h1
      rw [h2]
      simp only
      rw [ih s' t' h3 fun a ha => hl a (by simp [ha])]

theorem stands_init (coeffs : Nat → Nat → Nat → R) (turn : Bool → Option Nat) (normal unitNormal : Bool → Option W) (area : Bool → Option R)
    (cache : Bool → Side → PhysElem.Cache R X M W) (r m i : Bool → Side → Nat) (d : Bool → Side → Bool) :
    Stands g q U size coeffs (State.init coeffs turn normal unitNormal area cache r m i d) Setting.start := by
  refine ⟨rfl, fun b => PhysFace.Now.start b coeffs, fun b => ⟨⟨fun _ => PhysElem.Now.start coeffs, J_init _ _ _ _ _ _ _, fun s =>
    ⟨false, PhysElem.inv_init coeffs (cache b s) (r b s) (m b s) (i b s) (d b s), rfl⟩⟩, rfl, rfl, rfl⟩, rfl⟩

end Verif.FaceInt
