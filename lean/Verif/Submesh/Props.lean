import Verif.Submesh.LemmasSync
import Verif.MeshFile.Props

/-! # Exchanged elements: the properties -/
namespace Verif.Submesh

/-- Pending requests are sorted and below the sentinel. -/
def Pending (ws : List Rank) : Prop := ∀ w ∈ ws, w.other.Pairwise (· < ·) ∧ ∀ x ∈ w.other, x < sentinel

/-- One operation keeps the lists of all processes in agreement. -/
theorem apply_good (ws : List Rank) (hA : Answered ws) (hO : Owned ws) (hP : Pending ws) (op : Op) (hv : Valid ws.length op) :
    ∃ ws', apply ws op = some ws' ∧ ws'.length = ws.length ∧ Answered ws' ∧ Owned ws' ∧ Pending ws' ∧
      ∀ (r : Nat) (w : Rank), ws[r]? = some w → ∃ w', ws'[r]? = some w' ∧ w'.elems = w.elems ∧
        (∀ p, w.pull p <+: w'.pull p) ∧ (∀ p x, x ∈ w'.pull p → x ∈ w.pull p ∨ x ∈ w.other) ∧
        (∀ x ∈ w.other, x ∈ w'.other ∨ ∀ p, p ≠ r → owns ws p x = true → x ∈ w'.pull p) := by
  cases op with
  | request r id =>
    have hr : r < ws.length := hv.1
    have hw := List.getElem?_eq_getElem hr
    obtain ⟨hs, hlt⟩ := hP _ (List.getElem_mem hr)
    by_cases hm : id ∈ (ws[r]).other
    · have h1 : addPullElement ws[r] id = some ws[r] := by
        simp [addPullElement, binarySearch_spec _ _ hs, hm]
      refine ⟨ws, ?_, rfl, hA, hO, hP, ?_⟩
      · simp [apply, hw, h1, hr]
      · intro r' w' hw'
        exact ⟨w', hw', rfl, fun p => List.prefix_refl _, fun p x hx => Or.inl hx, fun x hx => Or.inl hx⟩
    · have h1 : addPullElement ws[r] id = some { ws[r] with other := mergeLast (ws[r]).other id } := by
        simp [addPullElement, binarySearch_spec _ _ hs, hm]
      obtain ⟨m1, m2⟩ := mergeLast_sorted _ id hs hm
      have hget : ∀ (i : Nat) (w' : Rank), (ws.set r { ws[r] with other := mergeLast (ws[r]).other id })[i]? = some w' →
          ∃ w, ws[i]? = some w ∧ w'.elems = w.elems ∧ w'.pull = w.pull ∧ w'.push = w.push ∧
            (w'.other = w.other ∨ (w = ws[r] ∧ w'.other = mergeLast (ws[r]).other id)) := by
        intro i w' hi
        rw [List.getElem?_set] at hi
        by_cases hri : r = i
        · subst hri
          rw [if_pos rfl, if_pos hr] at hi
          cases hi
          exact ⟨ws[r], hw, rfl, rfl, rfl, Or.inr ⟨rfl, rfl⟩⟩
        · rw [if_neg hri] at hi
          exact ⟨w', hi, rfl, rfl, rfl, Or.inl rfl⟩
      refine ⟨ws.set r { ws[r] with other := mergeLast (ws[r]).other id }, ?_, by simp, ?_, ?_, ?_, ?_⟩
      · simp [apply, hw, h1]
      · intro p q wp wq hp hq
        obtain ⟨up, a1, _, _, a2, _⟩ := hget p wp hp
        obtain ⟨uq, b1, _, b2, _, _⟩ := hget q wq hq
        rw [a2, b2]
        exact hA p q up uq a1 b1
      · refine ⟨?_, ?_, ?_, ?_⟩
        · intro w hwm
          obtain ⟨i, hi⟩ := List.getElem?_of_mem hwm
          obtain ⟨u, a1, a2, _⟩ := hget i w hi
          rw [a2]
          exact hO.small u (List.mem_of_getElem? a1)
        · intro w hwm
          obtain ⟨i, hi⟩ := List.getElem?_of_mem hwm
          obtain ⟨u, a1, a2, a3, a4, _⟩ := hget i w hi
          rw [a2, a4]
          exact hO.push u (List.mem_of_getElem? a1)
        · intro p w hp
          obtain ⟨u, a1, a2, a3, a4, _⟩ := hget p w hp
          rw [a3, a4]
          exact hO.self p u a1
        · intro w hwm q hq
          obtain ⟨i, hi⟩ := List.getElem?_of_mem hwm
          obtain ⟨u, a1, a2, a3, a4, _⟩ := hget i w hi
          rw [a3, a4]
          exact hO.others u (List.mem_of_getElem? a1) q (by simpa using hq)
      · intro w hwm
        obtain ⟨i, hi⟩ := List.getElem?_of_mem hwm
        obtain ⟨u, a1, _, _, _, a5 | ⟨_, a5⟩⟩ := hget i w hi
        · rw [a5]
          exact hP u (List.mem_of_getElem? a1)
        · rw [a5]
          refine ⟨m1, ?_⟩
          intro x hx
          rcases (m2 x).1 hx with hx | hx
          · rw [hx]; exact hv.2
          · exact hlt x hx
      · intro i w hi
        have hil := lt_of_get hi
        obtain ⟨w', hw'⟩ : ∃ w', (ws.set r { ws[r] with other := mergeLast (ws[r]).other id })[i]? = some w' :=
          ⟨_, List.getElem?_eq_getElem (Nat.lt_of_lt_of_eq hil (List.length_set).symm)⟩
        obtain ⟨u, a1, a2, a3, a4, a5⟩ := hget i w' hw'
        rw [hi] at a1
        cases a1
        refine ⟨w', hw', a2, fun p => by rw [a3]; exact List.prefix_refl _, fun p x hx => Or.inl (by rw [← a3]; exact hx), ?_⟩
        intro x hx
        rcases a5 with a5 | ⟨rfl, a5⟩
        · rw [a5]; exact Or.inl hx
        · rw [a5]; exact Or.inl ((m2 x).2 (Or.inr hx))
  | process =>
    obtain ⟨ws', h1, h2, h3⟩ := processPullRequests_spec ws (fun w hw => (hP w hw).1) (fun w hw => (hP w hw).2)
    have hback : ∀ (r : Nat) (w' : Rank), ws'[r]? = some w' → ∃ w, ws[r]? = some w ∧ w'.elems = w.elems ∧ w'.other = [] ∧
      (∀ p, w'.pull p = w.pull p ++ if p ≠ r then w.other.filter (owns ws p) else []) ∧
      (∀ q, w'.push q = w.push q ++ if q ≠ r then ((ws[q]?).elim [] fun wq => wq.other.filter (owns ws r)) else []) := by
      intro r w' hw'
      have hr : r < ws.length := by rw [← h2]; exact lt_of_get hw'
      obtain ⟨u, a1, a2⟩ := h3 r _ (List.getElem?_eq_getElem hr)
      rw [hw'] at a1
      cases a1
      exact ⟨_, List.getElem?_eq_getElem hr, a2⟩
    refine ⟨ws', h1, h2, ?_, ⟨?_, ?_, ?_, ?_⟩, ?_, ?_⟩
    · intro p q wp wq hp hq
      obtain ⟨up, a1, _, _, _, a5⟩ := hback p wp hp
      obtain ⟨uq, b1, _, _, b4, _⟩ := hback q wq hq
      rw [a5, b4, hA p q up uq a1 b1, b1]
      by_cases hpq : p = q
      · simp [hpq]
      · simp [hpq, Ne.symm hpq]
    · intro w hw x hx
      obtain ⟨r, hr⟩ := List.getElem?_of_mem hw
      obtain ⟨u, a1, a2, _⟩ := hback r w hr
      exact hO.small u (List.mem_of_getElem? a1) x (a2 ▸ hx)
    · intro w hw q x hx
      obtain ⟨r, hr⟩ := List.getElem?_of_mem hw
      obtain ⟨u, a1, a2, _, _, a5⟩ := hback r w hr
      rw [a2]
      rw [a5, List.mem_append] at hx
      rcases hx with hx | hx
      · exact hO.push u (List.mem_of_getElem? a1) q x hx
      · by_cases hqr : q = r
        · simp [hqr] at hx
        · rw [if_pos hqr] at hx
          cases hq : ws[q]? with
          | none => rw [hq] at hx; simp at hx
          | some wq =>
            rw [hq] at hx
            have := (List.mem_filter.1 hx).2
            simpa [owns, a1] using this
    · intro p w hp
      obtain ⟨u, a1, _, _, a4, a5⟩ := hback p w hp
      rw [a4, a5, (hO.self p u a1).1, (hO.self p u a1).2]
      simp
    · intro w hw q hq
      obtain ⟨r, hr⟩ := List.getElem?_of_mem hw
      obtain ⟨u, a1, _, _, a4, a5⟩ := hback r w hr
      rw [h2] at hq
      have hnone : ws[q]? = none := List.getElem?_eq_none hq
      rw [a4, a5, (hO.others u (List.mem_of_getElem? a1) q hq).1, (hO.others u (List.mem_of_getElem? a1) q hq).2, hnone]
      have : owns ws q = fun _ => false := by funext x; simp [owns, hnone]
      simp [this]
    · intro w hw
      obtain ⟨r, hr⟩ := List.getElem?_of_mem hw
      obtain ⟨u, _, _, a3, _⟩ := hback r w hr
      rw [a3]
      simp
    · intro r w hw
      obtain ⟨w', a1, a2, a3, a4, a5⟩ := h3 r w hw
      refine ⟨w', a1, a2, ?_, ?_, ?_⟩
      · intro p; rw [a4]; exact List.prefix_append _ _
      · intro p x hx
        rw [a4, List.mem_append] at hx
        rcases hx with hx | hx
        · exact Or.inl hx
        · by_cases hpr : p = r
          · simp [hpr] at hx
          · rw [if_pos hpr] at hx
            exact Or.inr (List.mem_filter.1 hx).1
      · intro x hx
        right
        intro p hpr hown
        rw [a4, if_pos hpr]
        exact List.mem_append_right _ (List.mem_filter.2 ⟨hx, hown⟩)

/-- **C30.** Whatever processes ask for, in whatever order and however often the lists are looked at in between: the
operations succeed, and the elements that a process sends to another are the elements that the other receives, in the same
order. No list loses an element. -/
theorem run_answered (ops : List Op) : ∀ (ws : List Rank), Answered ws → Owned ws → Pending ws → (∀ op ∈ ops, Valid ws.length op) →
    ∃ ws', run ws ops = some ws' ∧ ws'.length = ws.length ∧ Answered ws' ∧ Owned ws' ∧ Pending ws' ∧
      ∀ (r : Nat) (w : Rank), ws[r]? = some w → ∃ w', ws'[r]? = some w' ∧ w'.elems = w.elems ∧ ∀ p, w.pull p <+: w'.pull p := by
  induction ops with
  | nil =>
    intro ws hA hO hP _
    exact ⟨ws, rfl, rfl, hA, hO, hP, fun r w hw => ⟨w, hw, rfl, fun p => List.prefix_refl _⟩⟩
  | cons op ops ih =>
    intro ws hA hO hP hv
    obtain ⟨ws1, h1, h2, h3, h4, h5, h6⟩ := apply_good ws hA hO hP op (hv op (by simp))
    obtain ⟨ws', g1, g2, g3, g4, g5, g6⟩ := ih ws1 h3 h4 h5 (by rw [h2]; exact fun o ho => hv o (List.mem_cons_of_mem _ ho))
    refine ⟨ws', ?_, by omega, g3, g4, g5, ?_⟩
    · simp only [run, List.foldlM_cons, h1, Option.bind_eq_bind, Option.bind_some]
      exact g1
    · intro r w hw
      obtain ⟨w1, a1, a2, a3, _⟩ := h6 r w hw
      obtain ⟨w', b1, b2, b3⟩ := g6 r w1 a1
      exact ⟨w', b1, b2.trans a2, fun p => (a3 p).trans (b3 p)⟩

theorem owns_congr {ws ws' : List Rank} (hl : ws'.length = ws.length)
    (h : ∀ (r : Nat) (w : Rank), ws[r]? = some w → ∃ w', ws'[r]? = some w' ∧ w'.elems = w.elems) (p x : Nat) : owns ws' p x = owns ws p x := by
  unfold owns
  by_cases hp : p < ws.length
  · have hw := List.getElem?_eq_getElem hp
    obtain ⟨w', a1, a2⟩ := h p _ hw
    rw [a1, hw]
    simp [a2]
  · rw [List.getElem?_eq_none (by omega), List.getElem?_eq_none (by omega)]

/-- **C30.** An element that a process asked for at any time, and that belongs to another process, is received from its
owner once the lists have been looked at, and stays in the list. -/
theorem request_granted (ws : List Rank) (hA : Answered ws) (hO : Owned ws) (hP : Pending ws) (ops ops' : List Op) (r id : Nat)
    (hv : ∀ op ∈ ops ++ ops', Valid ws.length op) (hr : r < ws.length) (hid : id < sentinel) (p : Nat) (hpr : p ≠ r) (wp : Rank)
    (hp : ws[p]? = some wp) (hown : id ∈ wp.elems) :
    ∃ ws' w', run ws (ops ++ .request r id :: ops' ++ [.process]) = some ws' ∧ ws'[r]? = some w' ∧ id ∈ w'.pull p := by
  -- the request is pending or granted
  have key : ∀ (l : List Op) (ws0 : List Rank), ws0.length = ws.length → Answered ws0 → Owned ws0 → Pending ws0 → (∀ op ∈ l, Valid ws.length op) →
      owns ws0 p id = true → (∃ w, ws0[r]? = some w ∧ (id ∈ w.other ∨ id ∈ w.pull p)) →
      ∃ ws1, run ws0 l = some ws1 ∧ ws1.length = ws.length ∧ Answered ws1 ∧ Owned ws1 ∧ Pending ws1 ∧ owns ws1 p id = true ∧
        ∃ w, ws1[r]? = some w ∧ (id ∈ w.other ∨ id ∈ w.pull p) := by
    intro l
    induction l with
    | nil => intro ws0 h1 h2 h3 h4 _ h6 h7; exact ⟨ws0, rfl, h1, h2, h3, h4, h6, h7⟩
    | cons op l ih =>
      intro ws0 h1 h2 h3 h4 h5 h6 ⟨w, hw, hw'⟩
      obtain ⟨ws1, a1, a2, a3, a4, a5, a6⟩ := apply_good ws0 h2 h3 h4 op (by rw [h1]; exact h5 op (by simp))
      obtain ⟨w1, b1, b2, b3, b4, b5⟩ := a6 r w hw
      have hown1 : owns ws1 p id = true := by
        rw [owns_congr a2 (fun r w hw => by obtain ⟨w', c1, c2, _⟩ := a6 r w hw; exact ⟨w', c1, c2⟩)]
        exact h6
      obtain ⟨ws2, d1, d2⟩ := ih ws1 (by omega) a3 a4 a5 (fun o ho => h5 o (List.mem_cons_of_mem _ ho)) hown1 ⟨w1, b1, by
        rcases hw' with hw' | hw'
        · rcases b5 id hw' with h | h
          · exact Or.inl h
          · exact Or.inr (h p hpr h6)
        · exact Or.inr ((b3 p).subset hw')⟩
      refine ⟨ws2, ?_, d2⟩
      simp only [run, List.foldlM_cons, a1, Option.bind_eq_bind, Option.bind_some]
      exact d1
  obtain ⟨ws1, a1, a2, a3, a4, a5, a6⟩ := run_answered ops ws hA hO hP (fun op ho => hv op (List.mem_append_left _ ho))
  have hown1 : owns ws1 p id = true := by
    rw [owns_congr a2 (fun r w hw => by obtain ⟨w', c1, c2, _⟩ := a6 r w hw; exact ⟨w', c1, c2⟩)]
    simpa [owns, hp] using hown
  have hr1 : r < ws1.length := by omega
  have hw1 := List.getElem?_eq_getElem hr1
  obtain ⟨ws2, b1, b2, b3, b4, b5, b6⟩ := apply_good ws1 a3 a4 a5 (.request r id) ⟨hr1, hid⟩
  have hreq : ∃ w, ws2[r]? = some w ∧ id ∈ w.other := by
    obtain ⟨hs, _⟩ := a5 _ (List.getElem_mem hr1)
    have h1 : apply ws1 (.request r id) = some (ws1.set r (if id ∈ (ws1[r]).other then ws1[r] else { ws1[r] with other := mergeLast (ws1[r]).other id })) := by
      simp only [apply, hw1, addPullElement, binarySearch_spec _ _ hs, Option.bind_eq_bind, Option.bind_some, decide_eq_true_eq]
      split <;> simp
    rw [b1] at h1
    cases h1
    refine ⟨_, by rw [List.getElem?_set, if_pos rfl, if_pos hr1], ?_⟩
    split
    · assumption
    · exact ((mergeLast_sorted _ id hs (by assumption)).2 id).2 (Or.inl rfl)
  obtain ⟨w2, hw2, hw2'⟩ := hreq
  have hown2 : owns ws2 p id = true := by
    rw [owns_congr b2 (fun r w hw => by obtain ⟨w', c1, c2, _⟩ := b6 r w hw; exact ⟨w', c1, c2⟩)]
    exact hown1
  obtain ⟨ws3, c1, c2, c3, c4, c5, c6, w3, c7, c8⟩ := key ops' ws2 (by omega) b3 b4 b5 (fun op ho => hv op (List.mem_append_right _ ho)) hown2
    ⟨w2, hw2, Or.inl hw2'⟩
  obtain ⟨ws4, d1, d2, d3, d4, d5, d6⟩ := apply_good ws3 c3 c4 c5 .process trivial
  obtain ⟨w4, e1, e2, e3, e4, e5⟩ := d6 r w3 c7
  refine ⟨ws4, w4, ?_, e1, ?_⟩
  · have : ops ++ .request r id :: ops' ++ [.process] = ops ++ ([.request r id] ++ (ops' ++ [.process])) := by simp
    rw [this]
    unfold run at *
    rw [List.foldlM_append, a1]
    simp only [Option.bind_eq_bind, Option.bind_some, List.foldlM_append, List.foldlM_cons, List.foldlM_nil, b1, c1, d1, Option.pure_def]
  · have hempty : w4.other = [] := by
      obtain ⟨ws', h1, h2, h3⟩ := processPullRequests_spec ws3 (fun w hw => (c5 w hw).1) (fun w hw => (c5 w hw).2)
      have : apply ws3 .process = some ws' := h1
      rw [d1] at this
      cases this
      obtain ⟨w', g1, _, g2, _⟩ := h3 r w3 c7
      rw [e1] at g1
      cases g1
      exact g2
    rcases c8 with c8 | c8
    · rcases e5 id c8 with h | h
      · rw [hempty] at h; simp at h
      · exact h p hpr c6
    · exact (e3 p).subset c8

/-- **C30**, finding: contrary to its description, asking again for an element that is already received has an effect: the
element is sent and received once more in every later communication. -/
theorem request_again (ws : List Rank) (hE : ∀ w ∈ ws, w.other = []) (r p id : Nat) (w wp : Rank)
    (hr : ws[r]? = some w) (hp : ws[p]? = some wp) (hpr : p ≠ r) (hid : id < sentinel) (hown : id ∈ wp.elems) :
    ∃ ws' w', run ws [.request r id, .process] = some ws' ∧ ws'[r]? = some w' ∧ w'.pull p = w.pull p ++ [id] := by
  have hrl := lt_of_get hr
  have h1 : apply ws (.request r id) = some (ws.set r { w with other := [id] }) := by
    have : w.other = [] := hE w (List.mem_of_getElem? hr)
    have hb : binarySearch w.other id = some false := by rw [binarySearch_spec _ _ (by rw [this]; simp), this]; rfl
    rw [apply, hr]
    have hm : mergeLast w.other id = [id] := by rw [this]; rfl
    simp only [addPullElement, hb, Option.bind_eq_bind, Option.bind_some, hm]
    rfl
  have hP : ∀ u ∈ ws.set r { w with other := [id] }, u.other.Pairwise (· < ·) ∧ ∀ x ∈ u.other, x < sentinel := by
    intro u hu
    rcases List.mem_or_eq_of_mem_set hu with h | h
    · rw [hE u h]; simp
    · rw [h]; simpa using hid
  obtain ⟨ws', g1, g2, g3⟩ := processPullRequests_spec (ws.set r { w with other := [id] }) (fun u hu => (hP u hu).1) (fun u hu => (hP u hu).2)
  obtain ⟨w', k1, k2, k3, k4, k5⟩ := g3 r { w with other := [id] } (by rw [List.getElem?_set, if_pos rfl, if_pos hrl])
  refine ⟨ws', w', ?_, k1, ?_⟩
  · have g1' : apply (ws.set r { w with other := [id] }) .process = some ws' := g1
    simp only [run, List.foldlM_cons, List.foldlM_nil, h1, Option.bind_eq_bind, Option.bind_some, g1', Option.pure_def]
  · rw [k4, if_pos hpr]
    have : owns (ws.set r { w with other := [id] }) p id = true := by
      simp [owns, List.getElem?_set, Ne.symm hpr, hp, hown]
    simp [this]

/-! ## Synchronisation -/

variable {V : Type}

/-- **C57.** When a synchronisation is over for some process, every process has the data of the owner for all elements it
receives, and unchanged data for all others. This holds for every order of the messages. -/
theorem synchronize_correct (ws : List Rank) (hA : Answered ws) (hO : Owned ws) (hD : Disjoint ws) (data : Nat → Nat → V) (s : State V)
    (hst : Steps ws.length (initial ws data) s) (r : Nat) (hr : r < ws.length) (hdone : s.phase r = .done) (q : Nat) (w : Rank)
    (hw : ws[q]? = some w) (x : Nat) :
    (∀ p, x ∈ w.pull p → s.data q x = data p x) ∧ ((∀ p, x ∉ w.pull p) → s.data q x = data q x) := by
  have h := inv_steps ws hA hO hD data s hst
  have hq := lt_of_get hw
  have hempty := h.waited q hq (h.left ⟨r, hr, hdone⟩ q hq)
  exact ⟨fun p hx => h.got q w hw p x hx (by rw [hempty]; simp), h.keep q w hw x⟩

/-- **C57.** A synchronisation does not get stuck: as long as some process is not done, something can happen. -/
theorem synchronize_progress (ws : List Rank) (hA : Answered ws) (hO : Owned ws) (hD : Disjoint ws) (data : Nat → Nat → V) (s : State V)
    (hst : Steps ws.length (initial ws data) s) (r : Nat) (hr : r < ws.length) (hnot : s.phase r ≠ .done) : ∃ t, Step ws.length s t := by
  have h := inv_steps ws hA hO hD data s hst
  by_cases h1 : ∃ p < ws.length, s.todo p ≠ []
  · obtain ⟨p, hp, hne⟩ := h1
    cases ht : s.todo p with
    | nil => exact absurd ht hne
    | cons a l => exact ⟨_, .start s p a l hp ht⟩
  have h1' : ∀ p < ws.length, s.todo p = [] := by
    intro p hp
    by_contra hc
    exact h1 ⟨p, hp, hc⟩
  by_cases h2 : ∃ p < ws.length, s.open_ p ≠ []
  · obtain ⟨p, hp, hne⟩ := h2
    have hw := List.getElem?_eq_getElem hp
    obtain ⟨a, ha⟩ := List.exists_mem_of_ne_nil _ hne
    have hpend : ∀ q < ws.length, pending s q = s.open_ q := by
      intro q hq
      simp [pending, h1' q hq]
    have ha' : a ∈ pending s p := by rw [hpend p hp]; exact ha
    rcases (mem_requests _ _ _).1 (h.known p _ hw a ha') with ⟨q, hq, x, hx, rfl⟩ | ⟨q, hq, x, hx, rfl⟩
    · have hb := h.balance q p x hq hp
      rw [hpend p hp, hpend q hq] at hb
      have hc := List.count_pos_iff.2 ha
      have hs : Request.send p x ∈ s.open_ q := List.count_pos_iff.1 (by omega)
      have hqp := (pull_owner hA hO hw hx).1
      exact ⟨_, .transfer s q p x hq hp hqp hs ha⟩
    · have hb := h.balance p q x hp hq
      rw [hpend p hp, hpend q hq] at hb
      have hc := List.count_pos_iff.2 ha
      have hs : Request.receive p x ∈ s.open_ q := List.count_pos_iff.1 (by omega)
      have hwq := List.getElem?_eq_getElem hq
      rw [hA p q _ _ hw hwq] at hx
      have hqp := (pull_owner hA hO hwq hx).1
      exact ⟨_, .transfer s p q x hp hq hqp ha hs⟩
  have h2' : ∀ p < ws.length, s.open_ p = [] := by
    intro p hp
    by_contra hc
    exact h2 ⟨p, hp, hc⟩
  by_cases h3 : ∃ p < ws.length, s.phase p = .communicating
  · obtain ⟨p, hp, hph⟩ := h3
    exact ⟨_, .wait s p hp hph (h1' p hp) (h2' p hp)⟩
  · have h3' : ∀ q < ws.length, s.phase q ≠ .communicating := fun q hq hc => h3 ⟨q, hq, hc⟩
    cases hph : s.phase r with
    | communicating => exact absurd hph (h3' r hr)
    | barrier => exact ⟨_, .leave s r hr hph h3'⟩
    | done => exact absurd hph hnot

/-- **C57.** A synchronisation ends: there is no infinite sequence of steps. -/
theorem synchronize_terminates (n : Nat) : WellFounded (fun t s : State V => Step n s t) := by
  apply Subrelation.wf (r := InvImage (· < ·) fun s : State V => ((List.range n).map (work s)).sum)
  · intro t s h
    exact work_lt n s t h
  · exact InvImage.wf _ Nat.lt_wfRel.wf

/-! ## From the mesh file -/

open MeshFile PreMesh ElementShape in
/-- The lists of a process after reading its part of the mesh (MeshManipulator_Impl.h:1683-1690). -/
def ofLocal {R : Type} (rank : Nat) (L : MeshFile.Local R) : Rank where
  elems := (L.elems.filter fun le => decide (le.owner = rank)).map MeshFile.LElem.id
  other := []
  pull p := (L.pull.filter fun x => decide (x.1 = p)).filterMap fun x => (L.elems[x.2]?).map MeshFile.LElem.id
  push p := (L.push.filter fun x => decide (x.1 = p)).filterMap fun x => (L.elems[x.2]?).map MeshFile.LElem.id

theorem filterMap_of_map {α β : Type} {f : α → Option β} {l : List α} {r : List β} (h : l.map f = r.map some) : l.filterMap f = r := by
  have : l.filterMap f = (l.map f).filterMap id := by rw [List.filterMap_map]; rfl
  rw [this, h, List.filterMap_map]
  simp

/-- **C30, C56, C57.** After reading the mesh file, the lists of all processes meet the hypotheses of the theorems above. Every
process has its own elements, and the elements it receives are exactly the elements of other processes that share a node with one of its own. -/
theorem read_answered {R : Type} [LinearOrder R] (shapes : List ElementShape.Shape) (dim : Nat) (m : PreMesh.Mesh (List R)) (parts : List Nat)
    (count : Nat) (h : MeshFile.Writable shapes dim m parts count) (hsmall : m.elems.length ≤ sentinel)
    (periodic : Nat → List MeshFile.LElem → Nat × Nat → Nat × Nat → Bool) (L : Nat → MeshFile.Local R)
    (hL : ∀ rank < count, MeshFile.Describes dim m parts rank (periodic rank) (L rank)) :
    let ws := (List.range count).map fun r => ofLocal r (L r)
    Answered ws ∧ Owned ws ∧ Pending ws ∧ Disjoint ws ∧
      ∀ (r : Nat) (w : Rank), ws[r]? = some w → w.elems = MeshFile.below m.elems.length (fun e => parts[e]? = some r) ∧ ∀ p, w.pull p =
        MeshFile.below m.elems.length fun e => parts[e]? = some p ∧ p ≠ r ∧ MeshFile.Present m parts r e := by
  intro ws
  have hget : ∀ (r : Nat) (w : Rank), ws[r]? = some w → r < count ∧ w = ofLocal r (L r) := by
    intro r w hw
    have hr : r < count := by simpa [ws] using lt_of_get hw
    refine ⟨hr, ?_⟩
    simpa [ws, hr] using hw.symm
  have hpull : ∀ r < count, ∀ p, (ofLocal r (L r)).pull p =
      MeshFile.below m.elems.length fun e => parts[e]? = some p ∧ p ≠ r ∧ MeshFile.Present m parts r e :=
    fun r hr p => filterMap_of_map ((hL r hr).pull p)
  have hpush : ∀ r < count, ∀ q, (ofLocal r (L r)).push q =
      MeshFile.below m.elems.length fun e => parts[e]? = some r ∧ q ≠ r ∧ MeshFile.Present m parts q e :=
    fun r hr q => filterMap_of_map ((hL r hr).push q)
  have helem : ∀ r < count, ∀ x, x ∈ (ofLocal r (L r)).elems → x < m.elems.length ∧ parts[x]? = some r := by
    intro r hr x hx
    obtain ⟨le, hle, rfl⟩ := List.mem_map.1 hx
    rw [List.mem_filter] at hle
    obtain ⟨el, a1, _, a2, _⟩ := (hL r hr).elem le hle.1
    refine ⟨MeshFile.lt_of_get a1, ?_⟩
    rw [a2]
    have := of_decide_eq_true hle.2
    rw [this]
  refine ⟨?_, ⟨?_, ?_, ?_, ?_⟩, ?_, ?_, ?_⟩
  · intro p q wp wq hp hq
    obtain ⟨hp1, rfl⟩ := hget p wp hp
    obtain ⟨hq1, rfl⟩ := hget q wq hq
    rw [hpush p hp1, hpull q hq1]
    congr 1
    funext e
    rw [ne_comm]
  · intro w hw x hx
    obtain ⟨r, hr⟩ := List.getElem?_of_mem hw
    obtain ⟨hr1, rfl⟩ := hget r w hr
    have := (helem r hr1 x hx).1
    omega
  · intro w hw q x hx
    obtain ⟨r, hr⟩ := List.getElem?_of_mem hw
    obtain ⟨hr1, rfl⟩ := hget r w hr
    rw [hpush r hr1] at hx
    unfold MeshFile.below at hx
    rw [List.mem_filter, List.mem_range] at hx
    obtain ⟨hlt, hx⟩ := hx
    have hx : parts[x]? = some r ∧ q ≠ r ∧ MeshFile.Present m parts q x := by simpa using hx
    have hmem : x ∈ (L r).elems.map MeshFile.LElem.id := by
      rw [(hL r hr1).elems]
      unfold MeshFile.below
      rw [List.mem_filter]
      obtain ⟨el, hel⟩ := MeshFile.get_of_lt hlt
      exact ⟨List.mem_range.2 hlt, by simpa using MeshFile.present_self h hel hx.1⟩
    obtain ⟨le, hle, rfl⟩ := List.mem_map.1 hmem
    apply List.mem_map.2
    refine ⟨le, List.mem_filter.2 ⟨hle, ?_⟩, rfl⟩
    obtain ⟨_, _, _, a2, _⟩ := (hL r hr1).elem le hle
    rw [hx.1] at a2
    have := Option.some.inj a2
    simp [this]
  · intro p w hp
    obtain ⟨hp1, rfl⟩ := hget p w hp
    rw [hpull p hp1, hpush p hp1]
    simp [MeshFile.below]
  · intro w hw q hq
    obtain ⟨r, hr⟩ := List.getElem?_of_mem hw
    obtain ⟨hr1, rfl⟩ := hget r w hr
    have hq' : count ≤ q := by simpa [ws] using hq
    rw [hpull r hr1, hpush r hr1]
    unfold MeshFile.below
    constructor
    · apply List.filter_eq_nil_iff.2
      intro e _ hc
      have hc : parts[e]? = some q ∧ q ≠ r ∧ MeshFile.Present m parts r e := by simpa using hc
      have := h.bound q (List.mem_of_getElem? hc.1)
      omega
    · apply List.filter_eq_nil_iff.2
      intro e _ hc
      have hc : parts[e]? = some r ∧ q ≠ r ∧ MeshFile.Present m parts q e := by simpa using hc
      have := MeshFile.present_lt h hc.2.2
      omega
  · intro w hw
    obtain ⟨r, hr⟩ := List.getElem?_of_mem hw
    obtain ⟨hr1, rfl⟩ := hget r w hr
    simp [ofLocal]
  · intro p q wp wq x hp hq hx hy
    obtain ⟨hp1, rfl⟩ := hget p wp hp
    obtain ⟨hq1, rfl⟩ := hget q wq hq
    have h1 := (helem p hp1 x hx).2
    have h2 := (helem q hq1 x hy).2
    rw [h1] at h2
    exact Option.some.inj h2
  · intro r w hw
    obtain ⟨hr1, rfl⟩ := hget r w hw
    refine ⟨?_, hpull r hr1⟩
    have h1 : (ofLocal r (L r)).elems = ((L r).elems.map MeshFile.LElem.id).filter fun e => decide (parts[e]? = some r) := by
      rw [List.filter_map]
      unfold ofLocal
      dsimp only
      congr 1
      apply List.filter_congr
      intro le hle
      obtain ⟨_, _, _, a2, _⟩ := (hL r hr1).elem le hle
      simp [a2]
    rw [h1, (hL r hr1).elems]
    unfold MeshFile.below
    rw [List.filter_filter]
    apply List.filter_congr
    intro e he
    obtain ⟨el, hel⟩ := MeshFile.get_of_lt (List.mem_range.1 he)
    by_cases hp : parts[e]? = some r
    · simp [hp, MeshFile.present_self h hel hp]
    · simp [hp]

/-! ## Example -/

/-- Three processes with two elements each; process 0 receives element 3 of process 1. -/
def three : List Rank :=
  [⟨[1, 0], [], fun p => if p = 1 then [3] else [], fun _ => []⟩, ⟨[2, 3], [], fun _ => [], fun p => if p = 0 then [3] else []⟩,
    ⟨[5, 4], [], fun _ => [], fun _ => []⟩]

/-- The processes of the example meet the hypotheses. -/
example : Answered three ∧ Owned three ∧ Pending three ∧ Disjoint three := by
  have hget : ∀ (r : Nat) (w : Rank), three[r]? = some w → (r = 0 ∧ w = three[0]) ∨ (r = 1 ∧ w = three[1]) ∨ (r = 2 ∧ w = three[2]) := by
    intro r w hw
    match r, hw with
    | 0, hw => exact Or.inl ⟨rfl, (Option.some.inj hw).symm⟩
    | 1, hw => exact Or.inr (Or.inl ⟨rfl, (Option.some.inj hw).symm⟩)
    | 2, hw => exact Or.inr (Or.inr ⟨rfl, (Option.some.inj hw).symm⟩)
    | (n + 3), hw => simp [three] at hw
  refine ⟨?_, ⟨?_, ?_, ?_, ?_⟩, ?_, ?_⟩
  · intro p q wp wq hp hq
    rcases hget p wp hp with ⟨rfl, rfl⟩ | ⟨rfl, rfl⟩ | ⟨rfl, rfl⟩ <;> rcases hget q wq hq with ⟨rfl, rfl⟩ | ⟨rfl, rfl⟩ | ⟨rfl, rfl⟩ <;> rfl
  · intro w hw
    simp only [three, List.mem_cons, List.not_mem_nil, or_false] at hw
    rcases hw with rfl | rfl | rfl <;> decide
  · intro w hw q x hx
    simp only [three, List.mem_cons, List.not_mem_nil, or_false] at hw
    rcases hw with rfl | rfl | rfl
    · simp at hx
    · by_cases hq : q = 0 <;> simp [hq] at hx ⊢; omega
    · simp at hx
  · intro p w hp
    rcases hget p w hp with ⟨rfl, rfl⟩ | ⟨rfl, rfl⟩ | ⟨rfl, rfl⟩ <;> exact ⟨rfl, rfl⟩
  · intro w hw q hq
    have hq : 3 ≤ q := hq
    simp only [three, List.mem_cons, List.not_mem_nil, or_false] at hw
    have h0 : q ≠ 0 := by omega
    have h1 : q ≠ 1 := by omega
    rcases hw with rfl | rfl | rfl <;> simp [h0, h1]
  · intro w hw
    simp only [three, List.mem_cons, List.not_mem_nil, or_false] at hw
    rcases hw with rfl | rfl | rfl <;> simp
  · intro p q wp wq x hp hq hx hy
    rcases hget p wp hp with ⟨rfl, rfl⟩ | ⟨rfl, rfl⟩ | ⟨rfl, rfl⟩ <;> rcases hget q wq hq with ⟨rfl, rfl⟩ | ⟨rfl, rfl⟩ | ⟨rfl, rfl⟩ <;>
      simp [three] at hx hy ⊢ <;> omega

end Verif.Submesh
