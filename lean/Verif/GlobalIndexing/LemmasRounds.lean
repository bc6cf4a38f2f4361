import Verif.GlobalIndexing.LemmasMessage

set_option linter.all false
namespace Verif.GlobalIndexing
open Function (update)

theorem sum_range_update (n q : Nat) (hq : q < n) (f f' : Nat → Nat) (h : ∀ i, i ≠ q → f' i = f i) :
    ((List.range n).map f').sum + f q = ((List.range n).map f).sum + f' q := by
  induction n with
  | zero => omega
  | succ n ih =>
    simp only [List.range_succ, List.map_append, List.map_cons, List.map_nil, List.sum_append, List.sum_cons,
      List.sum_nil]
    by_cases hn : q = n
    · subst hn
      have : (List.range q).map f' = (List.range q).map f :=
        List.map_congr_left fun i hi => h i (by simp at hi; omega)
      rw [this]; omega
    · have := ih (by omega)
      have := h n (by omega)
      omega

theorem sum_zero_iff (l : List Nat) : l.sum = 0 ↔ ∀ a ∈ l, a = 0 := by
  induction l with
  | nil => simp
  | cons a l ih => simp [ih]

/-- Weighted number of messages to `p` that are not received yet. -/
def pend (m : Mesh) (todo : Nat → List Nat) (net : List Msg) (w : Nat → Nat → Nat) (p : Nat) : Nat :=
  ((List.range m.ranks).map fun q => if p ∈ todo q then w q p else 0).sum +
    ((net.filter fun x => x.dst = p).map fun x => w x.src p).sum

theorem pend_send (m : Mesh) (todo todo' : Nat → List Nat) (net : List Msg) (w) (p q p0 : Nat) (d)
    (hq : q < m.ranks) (h0 : todo q = p0 :: todo' q) (hn : (todo q).Nodup) (hr : ∀ i, i ≠ q → todo' i = todo i) :
    pend m todo' (net ++ [⟨q, p0, d⟩]) w p = pend m todo net w p := by
  unfold pend
  have := sum_range_update m.ranks q hq (fun q => if p ∈ todo q then w q p else 0)
    (fun q => if p ∈ todo' q then w q p else 0) (fun i hi => by simp [hr i hi])
  rw [h0] at hn
  simp only [List.nodup_cons] at hn
  simp only [h0, List.mem_cons] at this
  simp only [List.filter_append, List.map_append, List.sum_append]
  by_cases hp : p = p0
  · subst hp
    simp [hn.1] at this ⊢
    omega
  · have : ¬ p0 = p := fun h => hp h.symm
    by_cases hh : p ∈ todo' q <;> simp_all

theorem pend_congr (m : Mesh) (todo todo' : Nat → List Nat) (net : List Msg) (w) (p : Nat)
    (h : ∀ q, q < m.ranks → (p ∈ todo' q ↔ p ∈ todo q)) : pend m todo' net w p = pend m todo net w p := by
  unfold pend
  congr 2
  apply List.map_congr_left
  intro q hq
  simp only [h q (by simpa using hq)]

theorem pend_recv (m : Mesh) (todo : Nat → List Nat) (a b : List Msg) (x : Msg) (w) (p : Nat) :
    pend m todo (a ++ x :: b) w p = pend m todo (a ++ b) w p + if x.dst = p then w x.src p else 0 := by
  unfold pend
  by_cases h : x.dst = p <;> simp [h, List.filter_cons] <;> omega

theorem pend_zero (m : Mesh) (todo : Nat → List Nat) (net : List Msg) (p : Nat)
    (h : pend m todo net (fun _ _ => 1) p = 0) :
    (∀ q < m.ranks, p ∉ todo q) ∧ (∀ x ∈ net, x.dst ≠ p) := by
  unfold pend at h
  obtain ⟨h1, h2⟩ := Nat.add_eq_zero_iff.1 h
  constructor
  · intro q hq hp
    rw [sum_zero_iff] at h1
    have := h1 (if p ∈ todo q then 1 else 0) (List.mem_map.2 ⟨q, by simpa using hq, rfl⟩)
    simp [hp] at this
  · intro x hx hp
    rw [sum_zero_iff] at h2
    have := h2 1 (List.mem_map.2 ⟨x, by simp [hx, hp], rfl⟩)
    omega

theorem pend_eq_zero (m : Mesh) (todo : Nat → List Nat) (net : List Msg) (w) (p : Nat)
    (h1 : ∀ q < m.ranks, p ∉ todo q) (h2 : ∀ x ∈ net, x.dst ≠ p) : pend m todo net w p = 0 := by
  unfold pend
  rw [Nat.add_eq_zero_iff, sum_zero_iff, sum_zero_iff]
  constructor
  · intro a ha
    obtain ⟨q, hq, rfl⟩ := List.mem_map.1 ha
    rw [if_neg (h1 q (by simpa using hq))]
  · intro a ha
    obtain ⟨x, hx, rfl⟩ := List.mem_map.1 ha
    simp at hx
    exact absurd hx.2 (h2 x hx.1)

theorem pend_pos (m : Mesh) (todo : Nat → List Nat) (net : List Msg) (x : Msg) (hx : x ∈ net) :
    0 < pend m todo net (fun _ _ => 1) x.dst := by
  rcases Nat.eq_zero_or_pos (pend m todo net (fun _ _ => 1) x.dst) with h | h
  · exact absurd rfl ((pend_zero m todo net x.dst h).2 x hx)
  · exact h

/-- The state of the communication in one round. -/
structure Comm (m : Mesh) (tgt : Nat → Nat → Prop) (objs : Nat → Nat → List Obj) (data : Nat → Nat → List Nat)
    (todo : Nat → List Nat) (net : List Msg) (K : Nat → Set Obj) : Prop where
  net_ok : ∀ x ∈ net, x.src < m.ranks ∧ x.dst < m.ranks ∧ tgt x.src x.dst ∧ x.data = data x.src x.dst
  cover : ∀ q < m.ranks, ∀ p, tgt q p → p ∈ todo q ∨ (∃ x ∈ net, x.src = q ∧ x.dst = p) ∨ ∀ o ∈ objs q p, o ∈ K p

section
variable {m : Mesh} {tgt : Nat → Nat → Prop} {objs : Nat → Nat → List Obj} {data : Nat → Nat → List Nat}
  {todo todo' : Nat → List Nat} {net : List Msg} {K : Nat → Set Obj}

theorem Comm.congr (h : Comm m tgt objs data todo net K) (ht : ∀ q < m.ranks, ∀ p, p ∈ todo q → p ∈ todo' q) :
    Comm m tgt objs data todo' net K :=
  ⟨h.net_ok, fun q hq p hp => (h.cover q hq p hp).imp (ht q hq p) id⟩

theorem Comm.send (h : Comm m tgt objs data todo net K) (q p0 : Nat) (hq : q < m.ranks) (hp0 : p0 < m.ranks)
    (ht : tgt q p0) (h0 : todo q = p0 :: todo' q) (hr : ∀ i, i ≠ q → todo' i = todo i) :
    Comm m tgt objs data todo' (net ++ [⟨q, p0, data q p0⟩]) K := by
  refine ⟨?_, ?_⟩
  · intro x hx
    rcases List.mem_append.1 hx with hx | hx
    · exact h.net_ok x hx
    · simp at hx; subst hx; exact ⟨hq, hp0, ht, rfl⟩
  · intro q' hq' p hp
    rcases h.cover q' hq' p hp with hh | ⟨x, hx, hh⟩ | hh
    · by_cases e : q' = q
      · subst e
        rw [h0] at hh
        rcases List.mem_cons.1 hh with rfl | hh
        · exact Or.inr (Or.inl ⟨⟨q', p, data q' p⟩, by simp, rfl, rfl⟩)
        · exact Or.inl hh
      · exact Or.inl (by rw [hr q' e]; exact hh)
    · exact Or.inr (Or.inl ⟨x, by simp [hx], hh⟩)
    · exact Or.inr (Or.inr hh)

theorem Comm.recv {a b : List Msg} {x : Msg} {K' : Nat → Set Obj}
    (h : Comm m tgt objs data todo (a ++ x :: b) K)
    (hK : ∀ p, K p ⊆ K' p) (hx : ∀ o ∈ objs x.src x.dst, o ∈ K' x.dst) :
    Comm m tgt objs data todo (a ++ b) K' := by
  refine ⟨fun y hy => h.net_ok y (by simp at hy ⊢; tauto), ?_⟩
  intro q hq p hp
  rcases h.cover q hq p hp with hh | ⟨y, hy, h1, h2⟩ | hh
  · exact Or.inl hh
  · simp only [List.mem_append, List.mem_cons] at hy
    rcases hy with hy | rfl | hy
    · exact Or.inr (Or.inl ⟨y, by simp [hy], h1, h2⟩)
    · subst h1; subst h2; exact Or.inr (Or.inr hx)
    · exact Or.inr (Or.inl ⟨y, by simp [hy], h1, h2⟩)
  · exact Or.inr (Or.inr fun o ho => hK p (hh o ho))

end

theorem find_of_mem (l : SMap (List Nat)) (h : l.keys.Nodup) (q : Nat) (els) (hm : (q, els) ∈ l) :
    l.find q = some els := by
  induction l with
  | nil => simp at hm
  | cons x l ih =>
    obtain ⟨a, v⟩ := x
    simp only [SMap.keys, List.map_cons, List.nodup_cons] at h
    simp only [SMap.find]
    rcases List.mem_cons.1 hm with e | hm'
    · simp at e; simp [e]
    · have : q ≠ a := by
        rintro rfl; exact h.1 (List.mem_map.2 ⟨_, hm', rfl⟩)
      rw [if_neg this]; exact ih h.2 hm'

section
variable {m : Mesh}

def pushEls (m : Mesh) (p q : Nat) : List Nat := ((m.push p).find q).getD []

theorem mem_pushEls (p q e : Nat) : e ∈ pushEls m p q ↔ m.Pushes p q e := by
  unfold pushEls Mesh.Pushes
  cases (m.push p).find q <;> simp

theorem owns_of_tail (hg : m.Ghosts) (p : Nat) (hp : p < m.ranks) (e : Nat) (he : e ∈ m.owned p) (o : Obj)
    (ho : o ∈ (objects m e).tail) :
    m.owner (m.first o.kind o.id) < m.ranks ∧ m.Owns (m.owner (m.first o.kind o.id)) o ∧
      m.first o.kind o.id ∈ m.adj o.kind o.id ∧
      m.first o.kind o.id ∈ m.owned (m.owner (m.first o.kind o.id)) ∧ o.id ∈ m.sub o.kind (m.first o.kind o.id) := by
  obtain ⟨h1, h2, h3⟩ := (mem_tail m e o).1 ho
  have hadj := hg.adj_of_sub p hp e he o.kind o.id h2
  have hf : m.first o.kind o.id ∈ m.adj o.kind o.id := by
    unfold Mesh.first
    cases hh : m.adj o.kind o.id with
    | nil => rw [hh] at hadj; simp at hadj
    | cons a l => simp
  obtain ⟨g1, g2, g3⟩ := hg.sub_of_adj p hp e he o.kind o.id h2 _ hf
  refine ⟨g1, ?_, hf, g2, g3⟩
  obtain ⟨k, i⟩ := o
  cases k
  · exact absurd rfl h1
  · exact ⟨_, g2, g3, rfl⟩
  · exact ⟨_, g2, g3, rfl⟩
  · exact ⟨h3 rfl, _, g2, g3, rfl⟩

/-- The owner of a shared object sends it in the first round. -/
theorem first_sent (hg : m.Ghosts) (p : Nat) (hp : p < m.ranks) (e : Nat) (he : e ∈ m.owned p) (o : Obj)
    (ho : o ∈ (objects m e).tail) (hne : m.owner (m.first o.kind o.id) ≠ p) :
    o ∈ firstObjs m (m.owner (m.first o.kind o.id)) (pushEls m (m.owner (m.first o.kind o.id)) p) := by
  obtain ⟨h1, h2, h3, h4, h5⟩ := owns_of_tail hg p hp e he o ho
  obtain ⟨t1, t2, t3⟩ := (mem_tail m e o).1 ho
  have hpush := hg.closed _ h1 p hp hne _ h4 e he o.kind o.id h5 t2
  rw [mem_firstObjs]
  refine ⟨_, (mem_pushEls _ _ _).2 hpush, Or.inr ⟨(mem_tail m _ o).2 ⟨t1, h5, t3⟩, ?_⟩⟩
  simp [Mesh.ownedBy]

end
end Verif.GlobalIndexing
