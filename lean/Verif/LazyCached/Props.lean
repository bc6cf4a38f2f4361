import Verif.LazyCached.Spec
import Mathlib.Tactic.Common

/-!
# C22: lazily computed caches
-/
namespace Verif.LazyCached

variable {S T : Type}

/-- Every present value is that of the current source. -/
def Fresh (compute : S → Nat → T → T) (s : State S T) : Prop :=
  ∀ (i : Nat) c, s.values[i]? = some c → c.hasValue = true → ∀ old, c.value = compute s.source i old

theorem get_fresh {compute : S → Nat → T → T} (h : OldValueIrrelevant compute) {src : S} {i : Nat}
    {c : Cell T} (hc : c.hasValue = true → ∀ old, c.value = compute src i old) (old : T) :
    (c.get (compute src i)).1.value = compute src i old := by
  unfold Cell.get
  split_ifs with hv
  · exact hc hv old
  · exact h _ _ _ _

theorem reset_not_hasValue (l : List (Cell T)) (i : Nat) (c : Cell T)
    (h : (l.map Cell.reset)[i]? = some c) : c.hasValue = false := by
  rw [List.getElem?_map] at h
  cases hl : l[i]? with
  | none => rw [hl] at h; simp at h
  | some d => rw [hl] at h; simp at h; rw [← h]; rfl

theorem resize_not_hasValue (l : List (Cell T)) (dflt : T) (n i : Nat) (c : Cell T)
    (h : ((l.map Cell.reset).take n ++ List.replicate (n - (l.map Cell.reset).length)
      ⟨false, dflt⟩)[i]? = some c) : c.hasValue = false := by
  have hm := List.mem_of_getElem? h
  rcases List.mem_append.1 hm with hm | hm
  · have := List.mem_of_mem_take hm
    obtain ⟨d, _, rfl⟩ := List.mem_map.1 this
    rfl
  · rw [List.eq_of_mem_replicate hm]

theorem fresh_of_reset {compute : S → Nat → T → T} {dflt : T} {s s' : State S T} {op : Op S} {r}
    (ho : op.isReset = true) (hs : step compute dflt s op = some (s', r)) : Fresh compute s' := by
  cases op with
  | read => simp [Op.isReset] at ho
  | change => simp [Op.isReset] at ho
  | reset =>
    simp only [step, Option.some.injEq, Prod.mk.injEq] at hs
    obtain ⟨rfl, _⟩ := hs
    intro i c hc hv
    rw [reset_not_hasValue _ _ _ hc] at hv; simp at hv
  | resize n =>
    simp only [step, Option.some.injEq, Prod.mk.injEq] at hs
    obtain ⟨rfl, _⟩ := hs
    intro i c hc hv
    rw [resize_not_hasValue _ _ _ _ _ hc] at hv; simp at hv

theorem fresh_step {compute : S → Nat → T → T} (h : OldValueIrrelevant compute) {dflt : T}
    {s s' : State S T} {op : Op S} {r} (hf : Fresh compute s) (ho : op.isChange = false)
    (hs : step compute dflt s op = some (s', r)) : Fresh compute s' := by
  cases op with
  | change => simp [Op.isChange] at ho
  | reset => exact fresh_of_reset rfl hs
  | resize n => exact fresh_of_reset rfl hs
  | read i =>
    simp only [step] at hs
    cases hc : s.values[i]? with
    | none => rw [hc] at hs; simp at hs
    | some c =>
      rw [hc] at hs
      simp only [Option.some.injEq, Prod.mk.injEq] at hs
      obtain ⟨rfl, _⟩ := hs
      intro j d hd hv old
      simp only at hd ⊢
      by_cases hij : i = j
      · subst hij
        have hlt : i < s.values.length := (List.getElem?_eq_some_iff.1 hc).1
        rw [List.getElem?_set_self hlt] at hd
        obtain rfl := Option.some.inj hd
        exact get_fresh h (hf i c hc) old
      · rw [List.getElem?_set_ne hij] at hd
        exact hf j d hd hv old

theorem fresh_run {compute : S → Nat → T → T} (h : OldValueIrrelevant compute) {dflt : T}
    (ops : List (Op S)) : ∀ {s s' : State S T}, Fresh compute s →
    (∀ op ∈ ops, op.isChange = false) → run compute dflt s ops = some s' → Fresh compute s' := by
  induction ops with
  | nil => intro s s' hf _ hr; simp [run] at hr; exact hr ▸ hf
  | cons op ops ih =>
    intro s s' hf ho hr
    simp only [run, List.foldlM_cons, Option.bind_eq_bind] at hr
    cases hs : step compute dflt s op with
    | none => rw [hs] at hr; simp at hr
    | some p =>
      rw [hs] at hr
      exact ih (fresh_step h hf (ho op (by simp)) (show step compute dflt s op = some (p.1, p.2) from hs))
        (fun o hm => ho o (by simp [hm])) hr

theorem run_append {compute : S → Nat → T → T} {dflt : T} {s s' : State S T} {a b : List (Op S)}
    (hr : run compute dflt s (a ++ b) = some s') :
    ∃ m, run compute dflt s a = some m ∧ run compute dflt m b = some s' := by
  simp only [run, List.foldlM_append, Option.bind_eq_bind] at hr
  exact Option.bind_eq_some_iff.1 hr

/-- C22. After any history of reads, resets, resizes and changes of the source in which the source did
not change after the last reset, every read inside the cache returns what the computation gives
now. -/
theorem read_eq_recompute {compute : S → Nat → T → T} (h : OldValueIrrelevant compute) {dflt : T}
    {source : S} {size : Nat} {ops : List (Op S)} {s : State S T}
    (hr : run compute dflt (init source dflt size) ops = some s) (ho : UnchangedSinceReset ops)
    (i : Nat) (hi : i < s.values.length) (old : T) :
    ∃ s', step compute dflt s (.read i) = some (s', some (compute s.source i old)) := by
  have hf : Fresh compute s := by
    have h0 : Fresh compute (init source dflt size) := by
      intro j c hc hv
      simp only [init] at hc
      have := List.eq_of_mem_replicate (List.mem_of_getElem? hc)
      rw [this] at hv; simp at hv
    rcases ho with ho | ⟨pre, r, post, rfl, h1, h2⟩
    · exact fresh_run h ops h0 ho hr
    · obtain ⟨m, _, hm2⟩ := run_append hr
      obtain ⟨m', hm3, hm4⟩ := run_append (a := [r]) (b := post) hm2
      simp only [run, List.foldlM_cons, List.foldlM_nil, Option.bind_eq_bind, Option.pure_def] at hm3
      cases hs : step compute dflt m r with
      | none => rw [hs] at hm3; simp at hm3
      | some p =>
        rw [hs] at hm3
        simp only [Option.map_some, Option.bind_some, Option.some.injEq] at hm3
        have : Fresh compute p.1 := fresh_of_reset h1 (show step compute dflt m r = some (p.1, p.2) from hs)
        rw [hm3] at this
        exact fresh_run h post this h2 hm4
  have hc : s.values[i]? = some s.values[i] := List.getElem?_eq_getElem hi
  have hg := get_fresh h (hf i _ hc) old
  simp only [step, hc, hg]
  exact ⟨_, rfl⟩

/-- C22, a second read returns the same value without running the computation again, also when the
source was changed in between: the number of runs for an index grows only at the first read after a
reset. -/
theorem second_read_cached {compute : S → Nat → T → T} {dflt : T} {s s1 s2 : State S T}
    {ops : List (Op S)} {i : Nat} {v : Option T}
    (h1 : step compute dflt s (.read i) = some (s1, v))
    (h2 : run compute dflt s1 ops = some s2) (ho : ∀ op ∈ ops, op.isReset = false) :
    ∃ s3, step compute dflt s2 (.read i) = some (s3, v) ∧ s3.runs i = s1.runs i := by
  -- the cell stays as it is
  have hcell : ∃ c, s1.values[i]? = some c ∧ c.hasValue = true ∧ v = some c.value := by
    simp only [step] at h1
    cases hc : s.values[i]? with
    | none => rw [hc] at h1; simp at h1
    | some c =>
      rw [hc] at h1
      simp only [Option.some.injEq, Prod.mk.injEq] at h1
      obtain ⟨rfl, rfl⟩ := h1
      have hlt : i < s.values.length := (List.getElem?_eq_some_iff.1 hc).1
      refine ⟨_, List.getElem?_set_self hlt, ?_, rfl⟩
      unfold Cell.get
      split_ifs with hv <;> simp [hv]
  have key : ∀ (ops : List (Op S)) (a b : State S T) (c : Cell T), (∀ op ∈ ops, op.isReset = false) →
      a.values[i]? = some c → c.hasValue = true → run compute dflt a ops = some b →
      b.values[i]? = some c ∧ b.runs i = a.runs i := by
    intro ops
    induction ops with
    | nil => intro a b c _ hc _ hr; simp [run] at hr; subst hr; exact ⟨hc, rfl⟩
    | cons op ops ih =>
      intro a b c ho hc hv hr
      simp only [run, List.foldlM_cons, Option.bind_eq_bind] at hr
      cases hs : step compute dflt a op with
      | none => rw [hs] at hr; simp at hr
      | some p =>
        rw [hs] at hr
        have hp : p.1.values[i]? = some c ∧ p.1.runs i = a.runs i := by
          have hor := ho op (by simp)
          cases op with
          | reset => simp [Op.isReset] at hor
          | resize => simp [Op.isReset] at hor
          | change src =>
            simp only [step, Option.some.injEq] at hs
            rw [← hs]; exact ⟨hc, rfl⟩
          | read j =>
            simp only [step] at hs
            cases hd : a.values[j]? with
            | none => rw [hd] at hs; simp at hs
            | some d =>
              rw [hd] at hs
              simp only [Option.some.injEq] at hs
              rw [← hs]
              by_cases hij : j = i
              · subst hij
                rw [hc] at hd
                obtain rfl := Option.some.inj hd
                have hlt : j < a.values.length := (List.getElem?_eq_some_iff.1 hc).1
                simp [Cell.get, hv, List.getElem?_set_self hlt]
              · simp [List.getElem?_set_ne hij, hc, Ne.symm hij]
        have := ih p.1 b c (fun o hm => ho o (by simp [hm])) hp.1 hv hr
        exact ⟨this.1, this.2.trans hp.2⟩
  obtain ⟨c, hc, hv, rfl⟩ := hcell
  obtain ⟨hc2, hr2⟩ := key ops s1 s2 c ho hc hv h2
  have hlt : i < s2.values.length := (List.getElem?_eq_some_iff.1 hc2).1
  refine ⟨_, by simp only [step, hc2, Cell.get, hv, if_true]; rfl, ?_⟩
  simpa using hr2

/-- C22, after `reset(n)` the cache has exactly `n` entries, and each is readable. -/
theorem resize_length {compute : S → Nat → T → T} {dflt : T} (s : State S T) (n : Nat) :
    ∃ s', step compute dflt s (.resize n) = some (s', none) ∧ s'.values.length = n ∧
      s'.source = s.source ∧ ∀ i, i < n ↔ (step compute dflt s' (.read i)).isSome := by
  refine ⟨_, rfl, by simp; omega, rfl, ?_⟩
  intro i
  simp only [step]
  have hlen : ((s.values.map Cell.reset).take n ++ List.replicate (n - (s.values.map Cell.reset).length)
      (⟨false, dflt⟩ : Cell T)).length = n := by simp; omega
  by_cases hi : i < n
  · rw [List.getElem?_eq_getElem (by rw [hlen]; exact hi)]; simp [hi]
  · rw [List.getElem?_eq_none (by rw [hlen]; omega)]; simp [hi]

/-! ## Concrete cases -/

/-- A cache of `10 * source + index` with two entries: reads before and after a change, then a reset. -/
example : (run (fun s i _ => 10 * s + i) 0 (init 1 0 2)
      [.read 1, .change 2, .reset, .read 0]).bind
    (fun s => (step (fun s i _ => 10 * s + i) 0 s (.read 1)).map Prod.snd) = some (some 21) := by
  decide

/-- Without the reset the old value is returned: the hypothesis on the history is needed. -/
example : (run (fun s i _ => 10 * s + i) 0 (init 1 0 2)
      [.read 1, .change 2]).bind
    (fun s => (step (fun s i _ => 10 * s + i) 0 s (.read 1)).map Prod.snd) = some (some 11) := by
  decide

example : UnchangedSinceReset ([.read 1, .change 2, .reset, .read 0] : List (Op Nat)) :=
  Or.inr ⟨[.read 1, .change 2], .reset, [.read 0], rfl, rfl, by simp [Op.isChange]⟩

end Verif.LazyCached
