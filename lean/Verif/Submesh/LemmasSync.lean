import Verif.Submesh.Lemmas
import Mathlib.Data.List.Count

/-! # Invariants of a synchronisation -/
set_option linter.all false
namespace Verif.Submesh

variable {V : Type}

theorem lt_of_get {α : Type} {l : List α} {i : Nat} {a : α} (h : l[i]? = some a) : i < l.length := by
  by_contra hc
  rw [List.getElem?_eq_none (by omega)] at h
  simp at h

theorem mem_requests (n : Nat) (w : Rank) (a : Request) : a ∈ requests n w ↔
    (∃ p < n, ∃ id ∈ w.pull p, a = .receive p id) ∨ ∃ q < n, ∃ id ∈ w.push q, a = .send q id := by
  simp only [requests, List.mem_append, List.mem_flatMap, List.mem_range, List.mem_map]
  constructor
  · rintro (⟨p, hp, x, hx, rfl⟩ | ⟨p, hp, x, hx, rfl⟩)
    · exact Or.inl ⟨p, hp, x, hx, rfl⟩
    · exact Or.inr ⟨p, hp, x, hx, rfl⟩
  · rintro (⟨p, hp, x, hx, rfl⟩ | ⟨p, hp, x, hx, rfl⟩)
    · exact Or.inl ⟨p, hp, x, hx, rfl⟩
    · exact Or.inr ⟨p, hp, x, hx, rfl⟩

theorem count_flatMap_range (f : Nat → List Nat) (g : Nat → Nat → Request) (hg : ∀ a b c d, g a b = g c d → a = c ∧ b = d) (q id : Nat) :
    ∀ n, ((List.range n).flatMap fun p => (f p).map (g p)).count (g q id) = if q < n then (f q).count id else 0 := by
  intro n
  induction n with
  | zero => simp
  | succ n ih =>
    rw [List.range_succ, List.flatMap_append, List.count_append, ih]
    simp only [List.flatMap_cons, List.flatMap_nil, List.append_nil]
    by_cases h : q = n
    · subst h
      rw [if_neg (by omega), if_pos (by omega), List.count_map_of_injective _ _ (by intro a b hab; exact (hg _ _ _ _ hab).2)]
      omega
    · have h0 : ((f n).map (g n)).count (g q id) = 0 := by
        apply List.count_eq_zero_of_not_mem
        intro hm
        obtain ⟨x, _, hx⟩ := List.mem_map.1 hm
        exact h (hg _ _ _ _ hx).1.symm
      rw [h0]
      by_cases h1 : q < n
      · rw [if_pos h1, if_pos (by omega)]; rfl
      · rw [if_neg h1, if_neg (by omega)]

theorem count_other (f : Nat → List Nat) (g : Nat → Nat → Request) (a : Request) (hg : ∀ p x, g p x ≠ a) (n : Nat) :
    ((List.range n).flatMap fun p => (f p).map (g p)).count a = 0 := by
  apply List.count_eq_zero_of_not_mem
  intro hm
  obtain ⟨p, _, hm⟩ := List.mem_flatMap.1 hm
  obtain ⟨x, _, hx⟩ := List.mem_map.1 hm
  exact hg p x hx

theorem count_send (n : Nat) (w : Rank) (q id : Nat) (hq : q < n) : (requests n w).count (.send q id) = (w.push q).count id := by
  rw [requests, List.count_append, count_other _ _ _ (by intro p x h; cases h), count_flatMap_range _ _ (by
    intro a b c d h; cases h; exact ⟨rfl, rfl⟩), if_pos hq, Nat.zero_add]

theorem count_receive (n : Nat) (w : Rank) (p id : Nat) (hp : p < n) : (requests n w).count (.receive p id) = (w.pull p).count id := by
  rw [requests, List.count_append, count_other w.push _ _ (by intro p x h; cases h), count_flatMap_range _ _ (by
    intro a b c d h; cases h; exact ⟨rfl, rfl⟩), if_pos hp, Nat.add_zero]

/-- The requests of a process that are not completed. -/
def pending (s : State V) (p : Nat) : List Request := s.todo p ++ s.open_ p

/-- What holds in every state of a synchronisation. -/
structure Inv (ws : List Rank) (data : Nat → Nat → V) (s : State V) : Prop where
  balance : ∀ p q id : Nat, p < ws.length → q < ws.length → (pending s p).count (.send q id) = (pending s q).count (.receive p id)
  known : ∀ (p : Nat) (w : Rank), ws[p]? = some w → ∀ a ∈ pending s p, a ∈ requests ws.length w
  own : ∀ (p : Nat) (w : Rank), ws[p]? = some w → ∀ x ∈ w.elems, s.data p x = data p x
  got : ∀ (q : Nat) (w : Rank), ws[q]? = some w → ∀ p x : Nat, x ∈ w.pull p → Request.receive p x ∉ pending s q → s.data q x = data p x
  keep : ∀ (q : Nat) (w : Rank), ws[q]? = some w → ∀ x : Nat, (∀ p, x ∉ w.pull p) → s.data q x = data q x
  waited : ∀ p < ws.length, s.phase p ≠ .communicating → pending s p = []
  left : (∃ p < ws.length, s.phase p = .done) → ∀ p < ws.length, s.phase p ≠ .communicating

theorem inv_initial (ws : List Rank) (hA : Answered ws) (hO : Owned ws) (data : Nat → Nat → V) : Inv ws data (initial ws data) := by
  have hp : ∀ (p : Nat) (w : Rank), ws[p]? = some w → pending (initial ws data) p = requests ws.length w := by
    intro p w hw
    simp [pending, initial, hw]
  refine ⟨?_, ?_, ?_, ?_, ?_, ?_, ?_⟩
  · intro p q id hlp hlq
    have h1 := List.getElem?_eq_getElem hlp
    have h2 := List.getElem?_eq_getElem hlq
    rw [hp p _ h1, hp q _ h2, count_send _ _ _ _ hlq, count_receive _ _ _ _ hlp, hA p q _ _ h1 h2]
  · intro p w hw a ha
    rw [hp p w hw] at ha
    exact ha
  · intro p w _ x _; rfl
  · intro q w hw p x hx hn
    exfalso
    apply hn
    rw [hp q w hw, mem_requests]
    have hlt : p < ws.length := by
      by_contra hc
      rw [(hO.others w (List.mem_of_getElem? hw) p (by omega)).1] at hx
      simp at hx
    exact Or.inl ⟨p, hlt, x, hx, rfl⟩
  · intro q w _ x _; rfl
  · intro p _ h; exact absurd rfl h
  · rintro ⟨p, _, h⟩; simp [initial] at h

/-- Elements that a process receives are not its own, and come from their owner. -/
theorem pull_owner {ws : List Rank} (hA : Answered ws) (hO : Owned ws) {q p x : Nat} {w : Rank} (hw : ws[q]? = some w) (hx : x ∈ w.pull p) :
    p ≠ q ∧ ∃ wp, ws[p]? = some wp ∧ x ∈ wp.elems := by
  have hlt : p < ws.length := by
    by_contra hc
    rw [(hO.others w (List.mem_of_getElem? hw) p (by omega)).1] at hx
    simp at hx
  have hwp := List.getElem?_eq_getElem hlt
  refine ⟨?_, ws[p], hwp, ?_⟩
  · rintro rfl
    rw [(hO.self p w hw).1] at hx
    simp at hx
  · have := hA p q _ w hwp hw
    rw [← this] at hx
    exact hO.push _ (List.mem_of_getElem? hwp) q x hx

theorem inv_step (ws : List Rank) (hA : Answered ws) (hO : Owned ws) (hD : Disjoint ws) (data : Nat → Nat → V) (s t : State V)
    (h : Inv ws data s) (hst : Step ws.length s t) : Inv ws data t := by
  cases hst with
  | start p a l hp htodo =>
    have hpend : ∀ r, (pending { s with todo := Function.update s.todo p l, open_ := Function.update s.open_ p (a :: s.open_ p) } r).Perm (pending s r) := by
      intro r
      by_cases hr : r = p
      · subst hr
        simp only [pending, Function.update_self, htodo]
        exact List.perm_middle
      · simp [pending, Function.update_of_ne hr]
    refine ⟨?_, ?_, h.own, ?_, h.keep, ?_, h.left⟩
    · intro p' q id h1 h2
      rw [(hpend p').count_eq, (hpend q).count_eq]
      exact h.balance p' q id h1 h2
    · intro p' w hw a' ha
      exact h.known p' w hw a' ((hpend p').mem_iff.1 ha)
    · intro q w hw p' x hx hn
      exact h.got q w hw p' x hx (fun hc => hn ((hpend q).mem_iff.2 hc))
    · intro p' hp' hph
      have := h.waited p' hp' hph
      have h2 := hpend p'
      rw [this] at h2
      exact h2.eq_nil
  | transfer p q id hp hq hpq hsend hrecv =>
    have hwp := List.getElem?_eq_getElem hp
    have hwq := List.getElem?_eq_getElem hq
    have hmem : Request.receive p id ∈ pending s q := List.mem_append_right _ hrecv
    have hpull : id ∈ (ws[q]).pull p := by
      rcases (mem_requests _ _ _).1 (h.known q _ hwq _ hmem) with ⟨p', _, x, hx, he⟩ | ⟨p', _, x, hx, he⟩
      · cases he; exact hx
      · cases he
    obtain ⟨_, wp, hwp', hown⟩ := pull_owner hA hO hwq hpull
    rw [hwp] at hwp'; cases hwp'
    have hval : s.data p id = data p id := h.own p _ hwp id hown
    -- pending requests
    have hcount : ∀ (r : Nat) (b : Request), (pending { s with
        open_ := Function.update (Function.update s.open_ p ((s.open_ p).erase (.send q id))) q ((s.open_ q).erase (.receive p id))
        data := Function.update s.data q (Function.update (s.data q) id (s.data p id)) } r).count b =
        (pending s r).count b - (if r = p ∧ b = .send q id then 1 else 0) - (if r = q ∧ b = .receive p id then 1 else 0) := by
      intro r b
      simp only [pending, List.count_append]
      by_cases hrq : r = q
      · subst hrq
        have hrp : r ≠ p := fun h => hpq h.symm
        rw [Function.update_self, List.count_erase]
        by_cases hb : b = .receive p id
        · subst hb
          have : 0 < (s.open_ r).count (.receive p id) := List.count_pos_iff.2 hrecv
          simp [hrp]
          omega
        · simp [hrp, hb, Ne.symm hb]
      · by_cases hrp : r = p
        · subst hrp
          rw [Function.update_of_ne hrq, Function.update_self, List.count_erase]
          by_cases hb : b = .send q id
          · subst hb
            have : 0 < (s.open_ r).count (.send q id) := List.count_pos_iff.2 hsend
            simp [hrq]
            omega
          · simp [hrq, hb, Ne.symm hb]
        · rw [Function.update_of_ne hrq, Function.update_of_ne hrp]
          simp [hrq, hrp]
    have hsub : ∀ (r : Nat) (b : Request), b ∈ pending { s with
        open_ := Function.update (Function.update s.open_ p ((s.open_ p).erase (.send q id))) q ((s.open_ q).erase (.receive p id))
        data := Function.update s.data q (Function.update (s.data q) id (s.data p id)) } r → b ∈ pending s r := by
      intro r b hb
      have := hcount r b
      have h2 := List.count_pos_iff.2 hb
      exact List.count_pos_iff.1 (by omega)
    have hsend' : 0 < (pending s p).count (.send q id) := List.count_pos_iff.2 (List.mem_append_right _ hsend)
    refine ⟨?_, ?_, ?_, ?_, ?_, ?_, h.left⟩
    · intro p' q' id' h1 h2
      rw [hcount, hcount]
      have hb := h.balance p' q' id' h1 h2
      by_cases hc : p' = p ∧ q' = q ∧ id' = id
      · obtain ⟨rfl, rfl, rfl⟩ := hc
        simp
        omega
      · rw [if_neg (by rintro ⟨e1, e2⟩; cases e2; exact hc ⟨e1, rfl, rfl⟩), if_neg (by rintro ⟨_, h2⟩; cases h2),
          if_neg (by rintro ⟨_, h2⟩; cases h2), if_neg (by rintro ⟨e1, e2⟩; cases e2; exact hc ⟨rfl, e1, rfl⟩)]
        simpa using hb
    · intro p' w hw a ha
      exact h.known p' w hw a (hsub p' a ha)
    · intro p' w hw x hx
      dsimp only
      by_cases hr : p' = q
      · subst hr
        rw [Function.update_self]
        by_cases hxi : x = id
        · subst hxi
          exact absurd (hD p p' _ w x hwp hw hown hx) hpq
        · rw [Function.update_of_ne hxi]
          exact h.own p' w hw x hx
      · rw [Function.update_of_ne hr]
        exact h.own p' w hw x hx
    · intro q' w hw p' x hx hn
      dsimp only
      by_cases hr : q' = q
      · subst hr
        rw [Function.update_self]
        rw [hwq] at hw; cases hw
        by_cases hxi : x = id
        · subst hxi
          rw [Function.update_self]
          obtain ⟨_, wp', hwp'', hown'⟩ := pull_owner hA hO hwq hx
          have : p' = p := hD p' p _ _ x hwp'' hwp hown' hown
          subst this
          exact hval
        · rw [Function.update_of_ne hxi]
          apply h.got q' _ hwq p' x hx
          intro hc
          apply hn
          apply List.count_pos_iff.1
          rw [hcount]
          have := List.count_pos_iff.2 hc
          rw [if_neg (by rintro ⟨_, h2⟩; cases h2), if_neg (by rintro ⟨_, h2⟩; cases h2; exact hxi rfl)]
          omega
      · rw [Function.update_of_ne hr]
        apply h.got q' w hw p' x hx
        intro hc
        apply hn
        apply List.count_pos_iff.1
        rw [hcount]
        have := List.count_pos_iff.2 hc
        rw [if_neg (by rintro ⟨_, h2⟩; cases h2), if_neg (by rintro ⟨h2, _⟩; exact hr h2)]
        omega
    · intro q' w hw x hx
      dsimp only
      by_cases hr : q' = q
      · subst hr
        rw [Function.update_self]
        rw [hwq] at hw; cases hw
        by_cases hxi : x = id
        · subst hxi; exact absurd hpull (hx p)
        · rw [Function.update_of_ne hxi]
          exact h.keep q' _ hwq x hx
      · rw [Function.update_of_ne hr]
        exact h.keep q' w hw x hx
    · intro p' hp' hph
      have := h.waited p' hp' hph
      apply List.eq_nil_iff_forall_not_mem.2
      intro b hb
      have := hsub p' b hb
      simp_all
  | wait p hp hph htodo hopen =>
    refine ⟨h.balance, h.known, h.own, h.got, h.keep, ?_, ?_⟩
    · intro p' hp' hph'
      by_cases hr : p' = p
      · subst hr; simp [pending, htodo, hopen]
      · dsimp only at hph'
        rw [Function.update_of_ne hr] at hph'
        exact h.waited p' hp' hph'
    · rintro ⟨p', hp', hd⟩
      exfalso
      dsimp only at hd
      by_cases hr : p' = p
      · subst hr; rw [Function.update_self] at hd; cases hd
      · rw [Function.update_of_ne hr] at hd
        exact h.left ⟨p', hp', hd⟩ p hp hph
  | leave p hp hph hall =>
    refine ⟨h.balance, h.known, h.own, h.got, h.keep, ?_, ?_⟩
    · intro p' hp' hph'
      exact h.waited p' hp' (hall p' hp')
    · rintro _ p' hp'
      dsimp only
      by_cases hr : p' = p
      · subst hr; rw [Function.update_self]; intro hc; cases hc
      · rw [Function.update_of_ne hr]; exact hall p' hp'

theorem inv_steps (ws : List Rank) (hA : Answered ws) (hO : Owned ws) (hD : Disjoint ws) (data : Nat → Nat → V) (s : State V)
    (hst : Steps ws.length (initial ws data) s) : Inv ws data s := by
  generalize hi : initial ws data = s0 at hst
  induction hst with
  | refl => subst hi; exact inv_initial ws hA hO data
  | step _ hs ih => exact inv_step ws hA hO hD data _ _ ih hs

/-- The work left for a process. -/
def work (s : State V) (p : Nat) : Nat :=
  2 * (s.todo p).length + (s.open_ p).length + match s.phase p with | .communicating => 2 | .barrier => 1 | .done => 0

theorem sum_range_lt (f g : Nat → Nat) (n p : Nat) (hp : p < n) (hlt : f p < g p) (hle : ∀ i, f i ≤ g i) :
    ((List.range n).map f).sum < ((List.range n).map g).sum := by
  have mono : ∀ n, ((List.range n).map f).sum ≤ ((List.range n).map g).sum := by
    intro n
    induction n with
    | zero => simp
    | succ n ih => simp only [List.range_succ, List.map_append, List.map_cons, List.map_nil, List.sum_append, List.sum_cons, List.sum_nil]; have := hle n; omega
  induction n with
  | zero => omega
  | succ n ih =>
    simp only [List.range_succ, List.map_append, List.map_cons, List.map_nil, List.sum_append, List.sum_cons, List.sum_nil]
    by_cases h : p = n
    · subst h
      have := mono p
      omega
    · have := ih (by omega)
      have := hle n
      omega

theorem work_lt (n : Nat) (s t : State V) (h : Step n s t) : ((List.range n).map (work t)).sum < ((List.range n).map (work s)).sum := by
  cases h with
  | start p a l hp htodo =>
    apply sum_range_lt _ _ n p hp
    · simp [work, htodo]; omega
    · intro i
      by_cases hi : i = p
      · subst hi; simp [work, htodo]; omega
      · simp [work, Function.update_of_ne hi]
  | transfer p q id hp hq hpq hsend hrecv =>
    have hlen : ∀ (l : List Request) (a : Request), (l.erase a).length ≤ l.length := fun l a => List.length_erase_le
    apply sum_range_lt _ _ n q hq
    · simp only [work, Function.update_self]
      have := List.length_erase_of_mem hrecv
      have := List.length_pos_of_mem hrecv
      omega
    · intro i
      simp only [work]
      by_cases hi : i = q
      · subst hi
        rw [Function.update_self]
        have := hlen (s.open_ i) (.receive p id)
        omega
      · rw [Function.update_of_ne hi]
        by_cases hi' : i = p
        · subst hi'
          rw [Function.update_self]
          have := hlen (s.open_ i) (.send q id)
          omega
        · rw [Function.update_of_ne hi']
  | wait p hp hph htodo hopen =>
    apply sum_range_lt _ _ n p hp
    · simp [work, hph]
    · intro i
      by_cases hi : i = p
      · subst hi; simp [work, hph]
      · simp [work, Function.update_of_ne hi]
  | leave p hp hph hall =>
    apply sum_range_lt _ _ n p hp
    · simp [work, hph]
    · intro i
      by_cases hi : i = p
      · subst hi; simp [work, hph]
      · simp [work, Function.update_of_ne hi]

end Verif.Submesh
