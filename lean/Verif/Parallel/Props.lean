import Verif.Parallel.Lemmas
import Verif.RungeKutta.Props

/-! # The solver on several processes: the properties -/
namespace Verif.Parallel
open Verif.Submesh

variable {V : Type} [AddCommGroup V] [Module ℝ V]

/-- **C84.** One operation, on any number of processes and with the messages in any order: all processes then have the values that the operation is to
give for the whole mesh, for their own elements and for those they receive. -/
theorem after_coherent (P : Problem V) (ws : List Rank) (hA : Answered ws) (hO : Owned ws) (hD : Disjoint ws) (faces : Nat → List Face)
    (all : List Face) (hC : Complete ws faces all) (op : Op) (hop : op.Allowed) (D D' : Nat → Data V) (g : Data V)
    (hg : Coherent ws D g) (h : After P ws faces op D D') : Coherent ws D' (op.effect P all g) := by
  obtain ⟨s, r, hst, hr, hdone, rfl⟩ := h
  have hwork : ∀ (q : Nat) (w : Rank), ws[q]? = some w → _ := fun q w hw =>
    work_own P ws faces all hC q w hw (D q) g (hg q w hw) op hop
  intro q w hw v e he
  simp only [Op.effect]
  by_cases hv : v = op.target
  · subst hv
    rw [Function.update_self, Function.update_self]
    obtain ⟨hs1, hs2⟩ := synchronize_correct ws hA hO hD _ s hst r hr hdone q w hw e
    rcases he with he | ⟨p, he⟩
    · have hnot : ∀ p, e ∉ w.pull p := by
        intro p hp
        rcases lt_or_ge p ws.length with hpl | hpl
        · have hwp := List.getElem?_eq_getElem hpl
          have h1 : e ∈ ws[p].push q := by rw [hA p q _ w hwp hw]; exact hp
          have h2 := hO.push _ (List.getElem_mem hpl) q e h1
          have := hD p q _ w e hwp hw h2 he
          subst this
          rw [(hO.self p w hw).1] at hp
          simp at hp
        · rw [(hO.others w (List.mem_of_getElem? hw) p hpl).1] at hp
          simp at hp
      rw [hs2 hnot]
      simp only [hw, Option.elim]
      exact (hwork q w hw).2 e he
    · rw [hs1 p he]
      rcases lt_or_ge p ws.length with hpl | hpl
      · have hwp := List.getElem?_eq_getElem hpl
        have h1 : e ∈ ws[p].push q := by rw [hA p q _ w hwp hw]; exact he
        have h2 := hO.push _ (List.getElem_mem hpl) q e h1
        simp only [hwp, Option.elim]
        exact (hwork p _ hwp).2 e h2
      · rw [(hO.others w (List.mem_of_getElem? hw) p hpl).1] at he
        simp at he
  · rw [Function.update_of_ne hv, Function.update_of_ne hv]
    simp only [hw, Option.elim]
    rw [(hwork q w hw).1 v hv]
    exact hg q w hw v e he

/-- **C84.** Any operations in turn. -/
theorem run_coherent (P : Problem V) (ws : List Rank) (hA : Answered ws) (hO : Owned ws) (hD : Disjoint ws) (faces : Nat → List Face)
    (all : List Face) (hC : Complete ws faces all) (ops : List Op) (hops : ∀ op ∈ ops, op.Allowed) (D D' : Nat → Data V) (g : Data V)
    (hg : Coherent ws D g) (h : Run P ws faces ops D D') : Coherent ws D' (ops.foldl (Op.effect P all) g) := by
  induction h generalizing g with
  | nil => exact hg
  | cons h _ ih =>
    rw [List.foldl_cons]
    exact ih (fun op hop => hops op (by simp [hop])) _
      (after_coherent P ws hA hO hD faces all hC _ (hops _ (by simp)) _ _ g hg h)

/-- **C84.** Operations can always be carried out: no process waits forever. -/
theorem run_exists (P : Problem V) (ws : List Rank) (hne : ws ≠ []) (hA : Answered ws) (hO : Owned ws) (hD : Disjoint ws)
    (faces : Nat → List Face) (ops : List Op) (D : Nat → Data V) : ∃ D', Run P ws faces ops D D' := by
  induction ops generalizing D with
  | nil => exact ⟨D, .nil D⟩
  | cons op ops ih =>
    have hlen : 0 < ws.length := List.length_pos_iff.2 hne
    have key : ∀ (data : Nat → Nat → V) (s : State V), Steps ws.length (initial ws data) s →
        ∃ t, Steps ws.length (initial ws data) t ∧ t.phase 0 = .done := by
      intro data s
      induction s using (synchronize_terminates (V := V) ws.length).induction with
      | h s ih =>
        intro hs
        by_cases hd : s.phase 0 = .done
        · exact ⟨s, hs, hd⟩
        · obtain ⟨t, ht⟩ := synchronize_progress ws hA hO hD data s hs 0 hlen hd
          exact ih t ht (.step hs ht)
    obtain ⟨s, hs, hd⟩ := key (fun p e => op.work P ((ws[p]?).elim [] Rank.elems) (faces p) (D p) op.target e) _ (.refl _)
    obtain ⟨D', h⟩ := ih (fun p => Function.update (op.work P ((ws[p]?).elim [] Rank.elems) (faces p) (D p)) op.target (s.data p))
    exact ⟨D', .cons ⟨s, 0, hs, hlen, hd, rfl⟩ h⟩

/-- **C84.** The division into processes and the order of the messages make no difference: two runs of the same operations from the same values agree on every
element. -/
theorem runs_agree (P : Problem V) (all : List Face) (ops : List Op) (hops : ∀ op ∈ ops, op.Allowed) (g : Data V)
    (ws : List Rank) (hA : Answered ws) (hO : Owned ws) (hD : Disjoint ws) (faces : Nat → List Face) (hC : Complete ws faces all)
    (D E : Nat → Data V) (hg : Coherent ws D g) (h : Run P ws faces ops D E)
    (ws' : List Rank) (hA' : Answered ws') (hO' : Owned ws') (hD' : Disjoint ws') (faces' : Nat → List Face) (hC' : Complete ws' faces' all)
    (D' E' : Nat → Data V) (hg' : Coherent ws' D' g) (h' : Run P ws' faces' ops D' E')
    (q q' : Nat) (w w' : Rank) (hw : ws[q]? = some w) (hw' : ws'[q']? = some w') (v e : Nat) (he : Known w e) (he' : Known w' e) :
    E q v e = E' q' v e := by
  rw [run_coherent P ws hA hO hD faces all hC ops hops D E g hg h q w hw v e he,
    run_coherent P ws' hA' hO' hD' faces' all hC' ops hops D' E' g hg' h' q' w' hw' v e he']

/-! ## Time steps -/

theorem linComb_eq (g : Data V) (ins : List (Nat × ℝ)) : RungeKutta.linComb (V := Nat → V) g ins = combined g ins := by
  funext e
  rw [← combination_eq]
  cases ins with
  | nil => rfl
  | cons p l =>
    obtain ⟨v, c⟩ := p
    simp only [RungeKutta.linComb, combination]
    have : ∀ (l : List (Nat × ℝ)) (a : Nat → V), l.foldl (fun acc p => acc + p.2 • g p.1) a e = l.foldl (fun acc p => acc + p.2 • g p.1 e) (a e) := by
      intro l
      induction l with
      | nil => intro a; rfl
      | cons q l ih => intro a; rw [List.foldl_cons, ih]; rfl
    rw [this]
    rfl

theorem effect_timeDerivative (P : Problem V) (all : List Face) (g : Data V) (ins : List (Nat × ℝ)) (res : Nat) (t : ℝ) :
    (timeDerivative ins res t).foldl (Op.effect P all) g =
      RungeKutta.computeTimeDerivative (V := Nat → V) (derivative P all) g ins res t := by
  simp only [timeDerivative, List.foldl_cons, List.foldl_nil, Op.effect, Op.target, Op.value, RungeKutta.computeTimeDerivative, linComb_eq]
  simp [derivative]
  rfl

theorem effect_linearTimeDerivative (P : Problem V) (all : List Face) (s b : Bool) (g : Data V) (ins : List (Nat × ℝ)) (res : Nat) (t : ℝ) :
    (linearTimeDerivative s b ins res t).foldl (Op.effect P all) g =
      RungeKutta.computeTimeDerivative (V := Nat → V) (linearDerivative P all s b) g ins res t := by
  cases s <;> cases b <;>
  · simp only [linearTimeDerivative, RungeKutta.computeTimeDerivative, linComb_eq]
    simp [Op.effect, Op.target, Op.value]
    try
      refine congrArg (Function.update g res) ?_
      funext e
      simp [linearDerivative]

theorem effect_timeStep (P : Problem V) (all : List Face) (T : RungeKutta.Tableau) (deriv : List (Nat × ℝ) → Nat → ℝ → List Op)
    (f : ℝ → (Nat → V) → Nat → V)
    (hf : ∀ g ins res t, (deriv ins res t).foldl (Op.effect P all) g = RungeKutta.computeTimeDerivative (V := Nat → V) f g ins res t)
    (g : Data V) (time dt : ℝ) :
    (timeStep T deriv time dt).foldl (Op.effect P all) g = (RungeKutta.computeOneTimeStep (V := Nat → V) T f g time dt).1 := by
  simp only [timeStep, List.foldl_append, RungeKutta.computeOneTimeStep, List.foldl_map, List.foldl_flatMap, hf]
  rfl

/-- **C84.** A time step on several processes is the Runge-Kutta step (C08) for the equation of the whole mesh. `derivative` is the mass matrix solve of the
right hand side summed over the element and all its faces. -/
theorem timeStep_coherent (P : Problem V) (ws : List Rank) (hA : Answered ws) (hO : Owned ws) (hD : Disjoint ws) (faces : Nat → List Face)
    (all : List Face) (hC : Complete ws faces all) (T : RungeKutta.Tableau) (time dt : ℝ) (D D' : Nat → Data V) (g : Data V)
    (hg : Coherent ws D g) (h : Run P ws faces (timeStep T timeDerivative time dt) D D') :
    Coherent ws D' (RungeKutta.computeOneTimeStep (V := Nat → V) T (derivative P all) g time dt).1 := by
  rw [← effect_timeStep P all T timeDerivative (derivative P all) (effect_timeDerivative P all)]
  refine run_coherent P ws hA hO hD faces all hC _ ?_ D D' g hg h
  intro op hop
  simp only [timeStep, timeDerivative, List.mem_append, List.mem_flatMap, List.mem_range, List.mem_map, List.mem_cons,
    List.not_mem_nil, or_false] at hop
  obtain ⟨i, hi, rfl | rfl | rfl⟩ | ⟨j, hj, rfl⟩ := hop
  · refine ⟨by simp [RungeKutta.stageInputs], fun p hp => ?_⟩
    simp only [RungeKutta.stageInputs, List.mem_cons, List.mem_map, List.mem_range, RungeKutta.solId, RungeKutta.auxId] at hp ⊢
    obtain rfl | ⟨k, hk, rfl⟩ := hp
    · simp
    · simp; omega
  · exact True.intro
  · exact True.intro
  · exact True.intro

/-- **C84.** The same for linear problems with stored matrices. -/
theorem linear_timeStep_coherent (P : Problem V) (ws : List Rank) (hA : Answered ws) (hO : Owned ws) (hD : Disjoint ws)
    (faces : Nat → List Face) (all : List Face) (hC : Complete ws faces all) (T : RungeKutta.Tableau) (s b : Bool) (time dt : ℝ)
    (D D' : Nat → Data V) (g : Data V) (hg : Coherent ws D g)
    (h : Run P ws faces (timeStep T (linearTimeDerivative s b) time dt) D D') :
    Coherent ws D' (RungeKutta.computeOneTimeStep (V := Nat → V) T (linearDerivative P all s b) g time dt).1 := by
  rw [← effect_timeStep P all T (linearTimeDerivative s b) (linearDerivative P all s b) (effect_linearTimeDerivative P all s b)]
  refine run_coherent P ws hA hO hD faces all hC _ ?_ D D' g hg h
  intro op hop
  simp only [timeStep, linearTimeDerivative, List.mem_append, List.mem_flatMap, List.mem_range, List.mem_map] at hop
  obtain ⟨i, hi, ((hop | hop) | hop) | hop⟩ | ⟨j, hj, rfl⟩ := hop
  · simp only [List.mem_cons, List.not_mem_nil, or_false] at hop
    subst hop
    refine ⟨by simp [RungeKutta.stageInputs], fun p hp => ?_⟩
    simp only [RungeKutta.stageInputs, List.mem_cons, List.mem_map, List.mem_range, RungeKutta.solId, RungeKutta.auxId] at hp ⊢
    obtain rfl | ⟨k, hk, rfl⟩ := hp
    · simp
    · simp; omega
  · cases s <;> simp at hop
    subst hop; exact True.intro
  · cases b <;> simp at hop
    subst hop; exact True.intro
  · simp at hop
    obtain rfl | rfl := hop <;> exact True.intro
  · exact True.intro

theorem run_append {P : Problem V} {ws : List Rank} {faces : Nat → List Face} {ops ops' : List Op} {D D' : Nat → Data V}
    (h : Run P ws faces (ops ++ ops') D D') : ∃ E, Run P ws faces ops D E ∧ Run P ws faces ops' E D' := by
  induction ops generalizing D with
  | nil => exact ⟨D, .nil D, h⟩
  | cons op ops ih =>
    cases h with
    | cons h1 h2 =>
      obtain ⟨E, a, b⟩ := ih h2
      exact ⟨E, .cons h1 a, b⟩

/-- **C84.** The solution after any number of time steps, from initial values that were computed on the same processes. -/
theorem solve_coherent (P : Problem V) (ws : List Rank) (hA : Answered ws) (hO : Owned ws) (hD : Disjoint ws) (faces : Nat → List Face)
    (all : List Face) (hC : Complete ws faces all) (T : RungeKutta.Tableau) (time dt : ℝ) (n : Nat) (D D' : Nat → Data V) (g : Data V)
    (hg : Coherent ws D g)
    (h : Run P ws faces (setInitialSolution RungeKutta.solId time 0 ++ timeSteps T timeDerivative dt n time) D D') :
    Coherent ws D' (march T (derivative P all) dt n time
      (Function.update g RungeKutta.solId fun e => P.solveMass e (P.initial e time 0))) := by
  obtain ⟨E, h1, h2⟩ := run_append h
  have hE : Coherent ws E (Function.update g RungeKutta.solId fun e => P.solveMass e (P.initial e time 0)) := by
    have := run_coherent P ws hA hO hD faces all hC _ (by
      intro op hop
      simp only [setInitialSolution, List.mem_cons, List.not_mem_nil, or_false] at hop
      obtain rfl | rfl := hop <;> exact True.intro) D E g hg h1
    simpa [setInitialSolution, Op.effect, Op.target, Op.value] using this
  clear h h1 hg
  generalize Function.update g RungeKutta.solId (fun e => P.solveMass e (P.initial e time 0)) = g at hE ⊢
  induction n generalizing time E g with
  | zero => cases h2; exact hE
  | succ n ih =>
    obtain ⟨F, h3, h4⟩ := run_append h2
    exact ih _ _ h4 _ (timeStep_coherent P ws hA hO hD faces all hC T time dt E F g hE h3)

/-! ## Provisos and an example -/

/-- A problem with a flux: the difference of the values at the two sides. -/
noncomputable def difference : Problem ℝ where
  atElement _ u _ := u
  atSide _ left a b _ := if left then b - a else a - b
  both _ a b _ := (b - a, a - b)
  computeBoth := false
  atBoundary _ a _ := -a
  solveMass _ u := u / 2
  initial e _ _ := e
  elementMatrix _ u := u
  faceMatrix _ test from_ u := if test = from_ then -u else u
  source _ _ _ := 0
  boundarySource _ _ _ := 1

/-- **C84, finding.** The result has to be different from the input (which is not checked): with the same vector for both, the second side of a face sees the
coefficients after the first side has been added. -/
theorem in_place_differs : rhsRef difference 0 0 0 [0, 1] [⟨0, 0, some 1⟩] (fun _ e => if e = 0 then 1 else 4) 0 1 ≠
    rightHandSide difference [⟨0, 0, some 1⟩] 0 (fun e => if e = 0 then 1 else 4) 1 := by
  simp [rhsRef, faceRef, rightHandSide, share, sides, difference, Data.set, Function.update_apply]

/-- Two processes with one element each, which exchange them. Process 0 also has the outer face of the element of process 1. -/
def two : List Rank :=
  [⟨[0], [], fun p => if p = 1 then [1] else [], fun p => if p = 1 then [0] else []⟩,
    ⟨[1], [], fun p => if p = 0 then [0] else [], fun p => if p = 0 then [1] else []⟩]

/-- Their faces. -/
def twoFaces (q : Nat) : List Face :=
  if q = 0 then [⟨0, 0, none⟩, ⟨1, 0, some 1⟩, ⟨2, 1, none⟩] else [⟨2, 1, none⟩, ⟨1, 0, some 1⟩]

/-- The hypotheses hold for them. -/
theorem two_good : Answered two ∧ Owned two ∧ Submesh.Disjoint two ∧ Complete two twoFaces [⟨0, 0, none⟩, ⟨1, 0, some 1⟩, ⟨2, 1, none⟩] := by
  have hget : ∀ (r : Nat) (w : Rank), two[r]? = some w → (r = 0 ∧ w = two[0]) ∨ (r = 1 ∧ w = two[1]) := by
    intro r w hw
    match r, hw with
    | 0, hw => exact Or.inl ⟨rfl, (Option.some.inj hw).symm⟩
    | 1, hw => exact Or.inr ⟨rfl, (Option.some.inj hw).symm⟩
    | (n + 2), hw => simp [two] at hw
  have hknown : ∀ w ∈ two, ∀ e < 2, Known w e := by
    intro w hw e he
    simp only [two, List.mem_cons, List.not_mem_nil, or_false] at hw
    obtain rfl | rfl : e = 0 ∨ e = 1 := by omega
    · rcases hw with rfl | rfl
      · exact Or.inl (by simp)
      · exact Or.inr ⟨0, by simp⟩
    · rcases hw with rfl | rfl
      · exact Or.inr ⟨1, by simp⟩
      · exact Or.inl (by simp)
  have hface : ∀ q, ∀ f ∈ twoFaces q, f.left < 2 ∧ ∀ r, f.right = some r → r < 2 := by
    intro q f hf
    unfold twoFaces at hf
    split at hf
    · simp only [List.mem_cons, List.not_mem_nil, or_false] at hf
      rcases hf with rfl | rfl | rfl <;> simp
    · simp only [List.mem_cons, List.not_mem_nil, or_false] at hf
      rcases hf with rfl | rfl <;> simp
  refine ⟨?_, ⟨?_, ?_, ?_, ?_⟩, ?_, ⟨?_, ?_, ?_, ?_⟩⟩
  · intro p q wp wq hp hq
    rcases hget p wp hp with ⟨rfl, rfl⟩ | ⟨rfl, rfl⟩ <;> rcases hget q wq hq with ⟨rfl, rfl⟩ | ⟨rfl, rfl⟩ <;> rfl
  · intro w hw
    simp only [two, List.mem_cons, List.not_mem_nil, or_false] at hw
    rcases hw with rfl | rfl <;> decide
  · intro w hw q x hx
    simp only [two, List.mem_cons, List.not_mem_nil, or_false] at hw
    rcases hw with rfl | rfl
    · by_cases hq : q = 1 <;> simp [hq] at hx ⊢; omega
    · by_cases hq : q = 0 <;> simp [hq] at hx ⊢; omega
  · intro p w hp
    rcases hget p w hp with ⟨rfl, rfl⟩ | ⟨rfl, rfl⟩ <;> exact ⟨rfl, rfl⟩
  · intro w hw q hq
    have hq : 2 ≤ q := hq
    simp only [two, List.mem_cons, List.not_mem_nil, or_false] at hw
    have h0 : q ≠ 0 := by omega
    have h1 : q ≠ 1 := by omega
    rcases hw with rfl | rfl <;> simp [h0, h1]
  · intro p q wp wq x hp hq hx hy
    rcases hget p wp hp with ⟨rfl, rfl⟩ | ⟨rfl, rfl⟩ <;> rcases hget q wq hq with ⟨rfl, rfl⟩ | ⟨rfl, rfl⟩ <;>
      simp [two] at hx hy ⊢ <;> omega
  · intro w hw
    simp only [two, List.mem_cons, List.not_mem_nil, or_false] at hw
    rcases hw with rfl | rfl <;> simp
  · intro q w hw e he
    rcases hget q w hw with ⟨rfl, rfl⟩ | ⟨rfl, rfl⟩ <;> simp only [two, List.getElem_cons_zero, List.getElem_cons_succ, List.mem_cons,
      List.not_mem_nil, or_false] at he <;> subst he <;> decide
  · intro q w hw e he f hf _
    exact hknown w (List.mem_of_getElem? hw) _ (hface q f hf).1
  · intro q w hw e he f hf _ r hr
    exact hknown w (List.mem_of_getElem? hw) _ ((hface q f hf).2 r hr)

/-- There are runs of the solver on the two processes, and all of them agree with the whole mesh. -/
example (n : Nat) (dt : ℝ) (D : Nat → Data ℝ) (g : Data ℝ) (hg : Coherent two D g) :
    (∃ D', Run difference two twoFaces (setInitialSolution RungeKutta.solId 0 0 ++ timeSteps RungeKutta.rk4 timeDerivative dt n 0) D D') ∧
    ∀ D', Run difference two twoFaces (setInitialSolution RungeKutta.solId 0 0 ++ timeSteps RungeKutta.rk4 timeDerivative dt n 0) D D' →
      D' 0 0 1 = march RungeKutta.rk4 (derivative difference [⟨0, 0, none⟩, ⟨1, 0, some 1⟩, ⟨2, 1, none⟩]) dt n 0
        (Function.update g 0 fun e => (e : ℝ) / 2) 0 1 := by
  obtain ⟨hA, hO, hD, hC⟩ := two_good
  refine ⟨run_exists _ _ (by simp [two]) hA hO hD _ _ _, fun D' h => ?_⟩
  exact solve_coherent difference two hA hO hD twoFaces _ hC RungeKutta.rk4 0 dt n D D' g hg h 0 _ rfl 0 1 (Or.inr ⟨1, by simp⟩)

end Verif.Parallel
