import Verif.Bloch.Lemmas
import Mathlib.Analysis.SpecialFunctions.Pow.Real
import Mathlib.Tactic.NormNum

/-!
# What the phase shifts do to the matrix
-/

namespace Verif.Bloch

open Spec
open Verif.DenseMatrix (Mat)

variable {d : ℕ}

section helpers

variable {P : Type} {idx : ℕ → List ℕ} {owner : ℕ → P} {known : P → List (Face d)}
  {procs : List P} {fs : List (Face d)} {rest : List (Coupling d)}

private theorem Setup.good (h : Setup idx owner known procs fs rest) :
    ∀ f ∈ fs, f.internal = true → f.periodic = true → Good idx f := by
  intro f hf hi hp
  obtain ⟨⟨a, b⟩, c, e⟩ := h.size f hf hi hp
  constructor <;> simp [hasSize, *]

private theorem Setup.mark (h : Setup idx owner known procs fs rest) : ∀ f ∈ fs, Marked f :=
  fun f hf hi hp => not_lt.2 (h.marked f hf hi hp)

end helpers

/-- **C71.** Whatever wave vectors have been visited before, after moving to the
wave vector `k` the matrix is that of the problem whose fields are multiplied by
`exp(i k a)` from one cell to the next — for every distribution of the elements
over processes, whatever the processes know of each other's faces, provided no
entry of the matrix gets contributions from a periodic face and from something
else.  Missing: without that proviso it is false, see `thin_wrong`. -/
theorem bloch_history_partial {P : Type} [DecidableEq P] (idx : ℕ → List ℕ) (owner : ℕ → P)
    (known : P → List (Face d)) (procs : List P) (fs : List (Face d)) (rest : List (Coupling d))
    (h : Setup idx owner known procs fs rest) (he : ∀ f ∈ fs, f.extra = fun _ => 0)
    (ks : List (Vec d)) :
    ks.foldlM (fun m k => applyAll idx (fun p e => decide (owner e = p)) known k procs m)
      (bloch (rest ++ periodicCouplings idx fs) (fun _ => 0)) =
    some (bloch (rest ++ periodicCouplings idx fs) (ks.getLastD fun _ => 0)) := by
  have step : ∀ k k0 : Vec d, applyAll idx (fun p e => decide (owner e = p)) known k procs
      (bloch (rest ++ periodicCouplings idx fs) k0) =
      some (bloch (rest ++ periodicCouplings idx fs) k) := by
    intro k k0
    have := applyAll_bloch idx owner known fs procs rest k k0 (fun _ _ => 1)
      (bloch (rest ++ periodicCouplings idx fs) k0) (Setup.good h) (Setup.mark h)
      (fun f hf _ _ r _ c _ => by rw [he f hf, dot_zero_right, neg_zero, phase_zero]; simp)
      h.sound h.complete h.owners h.inner h.alone (fun r c => by simp)
    rw [this]; simp
  generalize (fun _ => 0 : Vec d) = k0
  induction ks generalizing k0 with
  | nil => rfl
  | cons k ks ih =>
    rw [List.foldlM_cons, step k k0]
    change ks.foldlM _ _ = _
    rw [ih k, List.getLastD_cons]

/-- **C71.** A face between two places that is not marked as periodic makes the
builder stop, on every process that owns one of its elements. -/
theorem unmarked_rejected (idx : ℕ → List ℕ) (owned : ℕ → Bool) (fs : List (Face d)) (f : Face d)
    (hf : f ∈ fs) (hi : f.internal = true) (hp : f.periodic = false)
    (hs : 1e-3 < Real.sqrt (dot f.shift f.shift))
    (ho : owned f.left = true ∨ owned f.right = true) : build idx owned fs = none := by
  induction fs with
  | nil => simp at hf
  | cons g l ih =>
    rcases List.mem_cons.1 hf with rfl | hf
    · have hc : (!owned f.left && !owned f.right) = false := by
        rcases ho with h | h <;> simp [h]
      rw [build]
      simp only [hi, hp, hc, Bool.not_true, Bool.false_eq_true, if_false]
      rw [if_pos hs]
    · have ih := ih hf
      unfold build
      rw [ih]
      split
      · rfl
      · split
        · split
          · rfl
          · cases g.phaseShift idx owned <;> rfl
        · split
          · split <;> rfl
          · rfl

/-- **C71.** A periodic face whose matrices do not fit its elements makes the
builder stop. -/
theorem misfit_rejected (idx : ℕ → List ℕ) (owned : ℕ → Bool) (f : Face d)
    (h : f.block1.rows ≠ (idx f.left).length ∨ f.block1.cols ≠ (idx f.right).length ∨
      f.block2.rows ≠ (idx f.right).length ∨ f.block2.cols ≠ (idx f.left).length) :
    f.phaseShift idx owned = none := by
  have key : (hasSize f.block1 (idx f.left).length (idx f.right).length &&
      hasSize f.block2 (idx f.right).length (idx f.left).length) = false := by
    by_contra hc
    rw [Bool.not_eq_false] at hc
    simp only [hasSize, Bool.and_eq_true, beq_iff_eq] at hc
    obtain ⟨⟨a, b⟩, c, e⟩ := hc
    rcases h with h | h | h | h <;> exact h (by assumption)
  have key2 : (hasSize f.block2 (idx f.right).length (idx f.left).length &&
      hasSize f.block1 (idx f.left).length (idx f.right).length) = false := by
    rw [Bool.and_comm]; exact key
  unfold Face.phaseShift
  simp only [key, key2]
  split <;> rfl

/-- **C71.** A process changes only rows of elements it owns. -/
theorem rows_owned (idx : ℕ → List ℕ) (owned : ℕ → Bool) (fs : List (Face d))
    (bs : List (ShiftBlock d)) (hb : build idx owned fs = some bs) (k : Vec d) (m : PMat) (r c : ℕ)
    (hne : applyShifts bs k m r c ≠ m r c) : ∃ e, owned e = true ∧ r ∈ idx e := by
  rw [applyShifts_eq] at hne
  have hT : ∃ t ∈ bs.flatMap (fun b => triples b k), t.1 = r ∧ t.2.1 = c := by
    by_contra hcon
    push Not at hcon
    exact hne (foldl_insT_none _ _ _ _ fun t ht hh => hcon t ht hh.1 hh.2)
  clear hne
  obtain ⟨t, ht, hr, -⟩ := hT
  induction fs generalizing bs with
  | nil =>
    rw [build, Option.some_inj] at hb
    rw [← hb] at ht; simp at ht
  | cons f l ih =>
    by_cases hcase : build idx owned (f :: l) = build idx owned l
    · exact ih bs (hcase ▸ hb) ht
    rw [build] at hb hcase
    by_cases hi : (!f.internal) = true
    · rw [if_pos hi] at hcase; exact absurd rfl hcase
    rw [if_neg hi] at hb hcase
    by_cases hp : f.periodic = true
    · rw [if_pos hp] at hb hcase
      by_cases ho : (!owned f.left && !owned f.right) = true
      · rw [if_pos ho] at hcase; exact absurd rfl hcase
      rw [if_neg ho] at hb
      obtain ⟨b, hb1, hb2⟩ := Option.bind_eq_some_iff.1 hb
      obtain ⟨bs', hb3, hb4⟩ := Option.map_eq_some_iff.1 hb2
      rw [← hb4, List.flatMap_cons, List.mem_append] at ht
      rcases ht with ht | ht
      · unfold Face.phaseShift at hb1
        by_cases hl : owned f.left = true
        · simp only [hl, if_true] at hb1
          split at hb1
          · obtain rfl := Option.some_inj.1 hb1
            unfold triples at ht
            rw [List.mem_append] at ht
            rcases ht with ht | ht
            · unfold trip1 at ht
              simp only [List.mem_flatMap, List.mem_map, List.mem_range] at ht
              obtain ⟨i, hi, j, hj, rfl⟩ := ht
              exact ⟨f.left, hl, hr ▸ mem_getD hi⟩
            · by_cases hrr : owned f.right = true
              · simp only [hrr, Bool.not_true, Bool.false_eq_true, if_false] at ht
                unfold trip2 at ht
                simp only [List.mem_flatMap, List.mem_map, List.mem_range] at ht
                obtain ⟨i, hi, j, hj, rfl⟩ := ht
                exact ⟨f.right, hrr, hr ▸ mem_getD hj⟩
              · simp [hrr] at ht
          · simp at hb1
        · have hrr : owned f.right = true := by
            by_contra hrr; exact ho (by simp [hl, hrr])
          simp only [hl, Bool.false_eq_true, if_false] at hb1
          split at hb1
          · obtain rfl := Option.some_inj.1 hb1
            unfold triples trip1 at ht
            simp only [List.append_nil, List.mem_flatMap, List.mem_map, List.mem_range] at ht
            obtain ⟨i, hi, j, hj, rfl⟩ := ht
            exact ⟨f.right, hrr, hr ▸ mem_getD hi⟩
          · simp at hb1
      · exact ih bs' hb3 ht
    · rw [if_neg hp] at hb hcase
      split at hb
      · rename_i hs
        rw [if_pos hs] at hcase
        split at hb
        · rename_i ho
          rw [if_pos ho] at hcase; exact absurd rfl hcase
        · simp at hb
      · rename_i hs
        rw [if_neg hs] at hcase; exact absurd rfl hcase

/-- **C71, counterexample.** Two elements that are neighbours inside the cell as
well as across its boundary — as in a cell that is two elements wide: the first
move to any wave vector, even to zero, removes the coupling of value `c` inside the
cell from the matrix. -/
theorem thin_wrong (a b c : ℂ) (ha : a ≠ 0) (hc : c ≠ 0) (s k : Vec d) :
    let f : Face d := ⟨0, 1, true, true, s, fun _ => 0, ⟨1, 1, [a]⟩, ⟨1, 1, [b]⟩⟩
    let cs : List (Coupling d) := ⟨0, 1, fun _ => 0, c⟩ :: periodicCouplings (fun e => [e]) [f]
    ∃ m, applyAll (fun e => [e]) (fun (_ : Unit) _ => true) (fun _ => [f]) k [()]
        (bloch cs fun _ => 0) = some m ∧
      bloch cs k 0 1 = c + a * Complex.exp (dot k s * Complex.I) ∧
      m 0 1 = a * Complex.exp (dot k s * Complex.I) ∧ m 0 1 ≠ bloch cs k 0 1 := by
  intro f cs
  have hb : bloch cs k 0 1 = c + a * Complex.exp (dot k s * Complex.I) := by
    simp [bloch, cs, periodicCouplings, across, Coupling.at, f, Mat.get, dot_zero_right]
  have hg : Good (fun e => [e]) f := by constructor <;> simp [hasSize, f]
  obtain ⟨T, h1, h2⟩ := applyAll_spec (fun e => [e]) (fun (_ : Unit) _ => true) (fun _ => [f]) k
    (fun _ _ => 1) [()] (by simpa using fun _ _ => hg) (by simp [Marked, f])
    (by
      intro p _ f' hf' _ _ r _ c _
      obtain rfl : f' = f := by simpa using hf'
      simp [f, dot_zero_right, phase_zero])
  refine ⟨_, h1 _, hb, ?_, ?_⟩
  all_goals
    have key : T.foldl insT (bloch cs fun _ => 0) 0 1 = a * Complex.exp (dot k s * Complex.I) := by
      refine foldl_insT_some _ _ _ _ _ ?_ ?_ ?_
      · intro hz
        rcases mul_eq_zero.1 hz with hz | hz
        · exact absurd hz ha
        · exact absurd hz (Complex.exp_ne_zero _)
      · intro t ht e1 e2
        have := (h2 t).1 ht
        simp [half1, half2, trip, f, Mat.get, phase] at this
        rcases this with rfl | rfl
        · rfl
        · simp at e1
      · refine Or.inr ⟨(0, 1, a * phase (dot k s) * 1), (h2 _).2 ?_, rfl, rfl⟩
        simp [half1, trip, f, Mat.get]
  · exact key
  · rw [key, hb]
    intro hcon
    exact hc (by simpa using hcon)

/-- **C71.** If each coupling occurs in both directions, the matrix is Hermitian for
every real wave vector. -/
theorem bloch_hermitian (cs : List (Coupling d)) (h : (cs.map Coupling.adjoint).Perm cs)
    (k : Vec d) (r c : ℕ) : bloch cs k r c = (starRingEnd ℂ) (bloch cs k c r) := by
  have e : ∀ l : List (Coupling d), bloch (l.map Coupling.adjoint) k r c =
      (starRingEnd ℂ) (bloch l k c r) := by
    intro l
    rw [bloch_phase, bloch_phase]
    induction l with
    | nil => simp
    | cons x l ih =>
      have hat : (Coupling.adjoint x).at r c = x.at c r := by
        simp [Coupling.at, Coupling.adjoint, Bool.and_comm]
      rw [List.map_cons, List.filter_cons, List.filter_cons, hat]
      by_cases hx : x.at c r = true
      · rw [if_pos hx, if_pos hx]
        simp only [List.map_cons, List.sum_cons, map_add, map_mul]
        rw [ih, conj_phase]
        simp only [Coupling.adjoint, dot_neg]
      · rw [if_neg hx, if_neg hx, ih]
  rw [← e cs, bloch_phase, bloch_phase]
  exact ((h.symm.filter _).map _).sum_eq

/-- **C72.** With shifted basis functions, where the extra shift of a face is the
difference of the centres of its elements times the factor: after every sequence of
wave vectors the matrix is that of the quasi-periodic problem with the factor
`exp(i f k x)` taken from the rows and columns of each element.  The proviso on
the steps says that the test for an unchanged step compares steps that are equal or
clearly different; missing as in C71 is the case of entries with several
contributions. -/
theorem shifted_history_partial {P : Type} [DecidableEq P] (idx : ℕ → List ℕ) (owner : ℕ → P)
    (known : P → List (Face d)) (procs : List P) (fs : List (Face d)) (rest : List (Coupling d))
    (h : Setup idx owner known procs fs rest) (centre : ℕ → Vec d) (x : ℕ → Vec d) (f : ℝ)
    (hx : ∀ g ∈ fs, ∀ r, (r ∈ idx g.left → x r = centre g.left) ∧
      (r ∈ idx g.right → x r = centre g.right))
    (he : ∀ g ∈ fs, g.extra = fun i => centre g.left i * f - centre g.right i * f)
    (ks : List (Vec d))
    (hs : ∀ a ∈ (fun _ => 0) :: steps (fun _ => 0) ks, ∀ b ∈ steps (fun _ => 0) ks,
      Real.sqrt (dot (fun i => b i - a i) (fun i => b i - a i)) < 1e-12 → a = b) :
    ∃ w, ks.foldlM (fun w k => w.update idx (fun p e => decide (owner e = p)) known procs x f k)
        (⟨bloch (rest ++ periodicCouplings idx fs) (fun _ => 0), fun _ => 0, fun _ => 0⟩ : Work d) =
        some w ∧
      w.mat = shifted x f (rest ++ periodicCouplings idx fs) (ks.getLastD fun _ => 0) := by
  set cs := rest ++ periodicCouplings idx fs with hcs
  have hext : ∀ k : Vec d, ∀ g ∈ fs, g.internal = true → g.periodic = true → Extra idx k
      (fun r c => phase (f * dot k (x r)) * phase (-(f * dot k (x c)))) g := by
    intro k g hg _ _ r hr c hc
    have ed : dot k g.extra = f * dot k (x r) + -(f * dot k (x c)) := by
      rw [he g hg, (hx g hg r).1 hr, (hx g hg c).2 hc]
      unfold dot
      rw [Finset.mul_sum, Finset.mul_sum, ← Finset.sum_neg_distrib, ← Finset.sum_add_distrib]
      exact Finset.sum_congr rfl fun i _ => by ring
    refine ⟨by rw [ed, phase_add], ?_⟩
    rw [ed, neg_add, phase_add, neg_neg, mul_comm]
  have hsh : ∀ k : Vec d, shifted x f cs k = fun r c =>
      bloch cs k r c * (phase (f * dot k (x r)) * phase (-(f * dot k (x c)))) := by
    intro k; funext r c; unfold shifted phase; push_cast; ring
  have hall : ∀ (k k0 : Vec d) (m : PMat),
      (∀ r c, m r c = bloch cs k0 r c * (phase (f * dot k (x r)) * phase (-(f * dot k (x c))))) →
      applyAll idx (fun p e => decide (owner e = p)) known k procs m = some (shifted x f cs k) := by
    intro k k0 m hm
    rw [applyAll_bloch idx owner known fs procs rest k k0 _ m (Setup.good h) (Setup.mark h)
      (hext k) h.sound h.complete h.owners h.inner h.alone hm, hsh]
  have step : ∀ (k k0 dk0 : Vec d), nextDK dk0 (fun i => k i - k0 i) = (fun i => k i - k0 i) →
      ∃ w, Work.update idx (fun p e => decide (owner e = p)) known procs x f
        ⟨shifted x f cs k0, k0, dk0⟩ k = some w ∧ w.mat = shifted x f cs k ∧ w.currentK = k ∧
        (w.currentDK = fun i => k i - k0 i) ∨
      ∃ w, f = 0 ∧ Work.update idx (fun p e => decide (owner e = p)) known procs x f
        ⟨shifted x f cs k0, k0, dk0⟩ k = some w ∧ w.mat = shifted x f cs k ∧ w.currentK = k ∧
        w.currentDK = dk0 := by
    intro k k0 dk0 hn
    by_cases hf : f ≠ 0
    · refine ⟨⟨shifted x f cs k, k, fun i => k i - k0 i⟩, Or.inl ⟨?_, rfl, rfl, rfl⟩⟩
      unfold Work.update
      rw [if_pos hf]
      simp only [hn]
      rw [hall k k0 _ ?_]
      · rfl
      · intro r c
        unfold diagonalScale
        rw [hsh]
        simp only
        rw [conj_phase, dot_sub_left, dot_sub_left]
        rw [show (dot k (x r) - dot k0 (x r)) * f = f * dot k (x r) + -(f * dot k0 (x r)) by ring,
          show -((dot k (x c) - dot k0 (x c)) * f) = -(f * dot k (x c)) + f * dot k0 (x c) by ring,
          phase_add, phase_add]
        have e1 : phase (-(f * dot k0 (x r))) * phase (f * dot k0 (x r)) = 1 := by
          rw [← phase_add]; simp [phase_zero]
        have e2 : phase (-(f * dot k0 (x c))) * phase (f * dot k0 (x c)) = 1 := by
          rw [← phase_add]; simp [phase_zero]
        linear_combination (bloch cs k0 r c * phase (f * dot k (x r)) * phase (-(f * dot k (x c)))) *
          (phase (-(f * dot k0 (x c))) * phase (f * dot k0 (x c)) * e1 + e2)
    · push Not at hf
      refine ⟨⟨shifted x f cs k, k, dk0⟩, Or.inr ⟨⟨shifted x f cs k, k, dk0⟩, hf, ?_, rfl, rfl, rfl⟩⟩
      unfold Work.update
      rw [if_neg (by simp [hf])]
      simp only
      rw [hall k k0 _ ?_]
      · rfl
      · intro r c; rw [hsh]; subst hf; simp [phase_zero]
  have hinit : bloch cs (fun _ => 0) = shifted x f cs (fun _ => 0) := by
    rw [hsh]; funext r c; simp [dot_zero_left, phase_zero]
  rw [hinit]
  -- along the list
  have main : ∀ (ks : List (Vec d)) (k0 dk0 : Vec d),
      (f ≠ 0 → ∀ a ∈ dk0 :: steps k0 ks, ∀ b ∈ steps k0 ks,
        Real.sqrt (dot (fun i => b i - a i) (fun i => b i - a i)) < 1e-12 → a = b) →
      ∃ w, ks.foldlM (fun w k => w.update idx (fun p e => decide (owner e = p)) known procs x f k)
        (⟨shifted x f cs k0, k0, dk0⟩ : Work d) = some w ∧
      w.mat = shifted x f cs (ks.getLastD k0) := by
    intro ks
    induction ks with
    | nil => intro k0 dk0 _; exact ⟨_, rfl, rfl⟩
    | cons k ks ih =>
      intro k0 dk0 hs
      by_cases hf : f ≠ 0
      · have hs := hs hf
        have hn : nextDK dk0 (fun i => k i - k0 i) = (fun i => k i - k0 i) := by
          unfold nextDK
          split
          · rename_i hlt
            exact hs dk0 (by simp) _ (by simp [steps]) hlt
          · rfl
        obtain ⟨w, hw | ⟨_, h0, _⟩⟩ := step k k0 dk0 hn
        · obtain ⟨e1, e2, e3, e4⟩ := hw
          obtain ⟨w', h1, h2⟩ := ih k (fun i => k i - k0 i) (fun _ a ha b hb => hs a
            (List.mem_cons_of_mem _ ha) b (List.mem_cons_of_mem _ hb))
          refine ⟨w', ?_, by rw [h2, List.getLastD_cons]⟩
          rw [List.foldlM_cons, e1, ← h1]
          obtain ⟨wm, wk, wd⟩ := w
          simp only at e2 e3 e4
          subst e2 e3 e4
          rfl
        · exact absurd h0 hf
      · push Not at hf
        subst hf
        have e1 : Work.update idx (fun p e => decide (owner e = p)) known procs x 0
            ⟨shifted x 0 cs k0, k0, dk0⟩ k = some ⟨shifted x 0 cs k, k, dk0⟩ := by
          unfold Work.update
          rw [if_neg (by simp)]
          simp only
          rw [hall k k0 _ ?_]
          · rfl
          · intro r c; rw [hsh]; simp [phase_zero]
        obtain ⟨w', h1, h2⟩ := ih k dk0 (fun h => absurd rfl h)
        refine ⟨w', ?_, by rw [h2, List.getLastD_cons]⟩
        rw [List.foldlM_cons, e1, ← h1]
        rfl
  exact main ks _ _ (fun _ => hs)

/-! ## A case -/

section example_

/-- Three elements in a row, one degree of freedom each, on a circle of length 3. -/
private noncomputable def ring3 : List (Face 1) :=
  [⟨0, 1, true, false, fun _ => 0, fun _ => 0, ⟨1, 1, [-1]⟩, ⟨1, 1, [-1]⟩⟩,
   ⟨1, 2, true, false, fun _ => 0, fun _ => 0, ⟨1, 1, [-1]⟩, ⟨1, 1, [-1]⟩⟩,
   ⟨0, 2, true, true, fun _ => -3, fun _ => 0, ⟨1, 1, [-1]⟩, ⟨1, 1, [-1]⟩⟩]

private noncomputable def rest3 : List (Coupling 1) :=
  [⟨0, 0, fun _ => 0, 2⟩, ⟨1, 1, fun _ => 0, 2⟩, ⟨2, 2, fun _ => 0, 2⟩,
   ⟨0, 1, fun _ => 0, -1⟩, ⟨1, 0, fun _ => 0, -1⟩, ⟨1, 2, fun _ => 0, -1⟩, ⟨2, 1, fun _ => 0, -1⟩]

/-- The hypotheses of `bloch_history_partial`, on two processes. -/
example : Setup (fun e => [e]) (fun e => decide (e = 2)) (fun _ => ring3) [true, false]
    ring3 rest3 where
  size := by simp [ring3]
  marked := by simp [ring3, dot]; norm_num
  sound := fun _ _ _ h => h
  complete := fun _ _ _ h _ => h
  owners := by simp [ring3]
  inner := by simp [rest3]
  alone := by
    intro x hx
    simp [periodicCouplings, ring3, across, Mat.get] at hx
    rcases hx with rfl | rfl <;>
      simp [periodicCouplings, ring3, across, Mat.get, rest3, Coupling.at, List.filter_cons]

/-- Its entry between the ends. -/
example (k : ℝ) : bloch (rest3 ++ periodicCouplings (fun e => [e]) ring3) (fun _ => k) 0 2 =
    -Complex.exp (-(k * 3) * Complex.I) := by
  simp [bloch, periodicCouplings, ring3, across, Mat.get, rest3, Coupling.at, List.filter_cons, dot]

end example_

end Verif.Bloch
