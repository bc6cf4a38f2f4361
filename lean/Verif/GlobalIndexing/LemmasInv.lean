import Verif.GlobalIndexing.LemmasRounds

set_option linter.all false
namespace Verif.GlobalIndexing
open Function (update)

def objs1 (m : Mesh) (q p : Nat) : List Obj := firstObjs m q (pushEls m q p)
def later (m : Mesh) (q p : Nat) : SMap Unit := laterTags m q p (pushEls m q p)
def tgt1 (m : Mesh) (q p : Nat) : Prop := p ∈ (m.push q).keys
def flag (m : Mesh) (q p : Nat) : Nat := if (later m q p).isEmpty then 0 else 1
def data1 (m : Mesh) (inc : List Nat) (V : Obj → Nat → Nat) (q p : Nat) : List Nat :=
  (objs1 m q p).flatMap (part V inc) ++ [flag m q p]
def tgt2 (m : Mesh) (q p : Nat) : Prop := p ∈ (m.push q).keys ∧ (later m q p).isEmpty = false
def objs2 (m : Mesh) (q p : Nat) : List Obj := (later m q p).keys.map ofTag
def data2 (m : Mesh) (inc : List Nat) (V : Obj → Nat → Nat) (q p : Nat) : List Nat := (objs2 m q p).flatMap (part V inc)

def Pc.todo : Pc → List Nat
  | .send1 l => l.map Prod.fst
  | .send2 l => l.map Prod.fst
  | _ => []

def rem1 (m : Mesh) (p : Nat) : Pc → Nat
  | .send1 _ => m.pulls p
  | .recv1 n => n
  | _ => 0

def rem2 (r : Rank) : Nat :=
  match r.pc with
  | .send2 _ => r.secondRoundReceives
  | .recv2 n => n
  | _ => 0

/-- Number of second messages to `p`. -/
def tot (m : Mesh) (p : Nat) : Nat :=
  ((List.range m.ranks).map fun q => if p ∈ (m.push q).keys then flag m q p else 0).sum

def cTodo (c : Config) (q : Nat) : List Nat := (c.rank q).pc.todo

variable (m : Mesh) (inc : List Nat) (V : Obj → Nat → Nat) (S : Nat → State)

/-- What holds of the knowledge in both rounds. -/
structure Base (c : Config) (K : Nat → Set Obj) : Prop where
  knows : ∀ p < m.ranks, Knows m inc V (S p) (K p) (c.rank p).st
  owned : ∀ p < m.ranks, ∀ o, m.Owns p o → o ∈ K p
  known : ∀ p < m.ranks, ∀ o ∈ K p, ∃ q < m.ranks, m.Owns q o

structure Round1 (c : Config) (K : Nat → Set Obj) : Prop extends Base m inc V S c K where
  pcs : ∀ p < m.ranks, (∃ l, (c.rank p).pc = .send1 l) ∨ (∃ n, (c.rank p).pc = .recv1 n) ∨
    (c.rank p).pc = .barrier1
  ents : ∀ p < m.ranks, ∀ l, (c.rank p).pc = .send1 l →
    (∀ x ∈ l, (m.push p).find x.1 = some x.2) ∧ (l.map Prod.fst).Nodup
  comm : Comm m (tgt1 m) (objs1 m) (data1 m inc V) (cTodo c) c.net K
  rem : ∀ p < m.ranks, rem1 m p (c.rank p).pc = pend m (cTodo c) c.net (fun _ _ => 1) p
  flags : ∀ p < m.ranks, (c.rank p).secondRoundReceives + pend m (cTodo c) c.net (flag m) p = tot m p
  sorted : ∀ p < m.ranks, (c.rank p).secondRound.Sorted
  second : ∀ p < m.ranks, ∀ q T, (c.rank p).secondRound.find q = some T ↔
    tgt2 m p q ∧ q ∉ cTodo c p ∧ T = (later m p q).keys

structure Round2 (c : Config) (K : Nat → Set Obj) : Prop extends Base m inc V S c K where
  pcs : ∀ p < m.ranks, (∃ l, (c.rank p).pc = .send2 l) ∨ (∃ n, (c.rank p).pc = .recv2 n) ∨
    (c.rank p).pc = .barrier2
  ents : ∀ p < m.ranks, ∀ l, (c.rank p).pc = .send2 l →
    (∀ x ∈ l, tgt2 m p x.1 ∧ x.2 = (later m p x.1).keys) ∧ (l.map Prod.fst).Nodup
  comm : Comm m (tgt2 m) (objs2 m) (data2 m inc V) (cTodo c) c.net K
  rem : ∀ p < m.ranks, rem2 (c.rank p) = pend m (cTodo c) c.net (fun _ _ => 1) p
  first : ∀ p < m.ranks, ∀ q < m.ranks, tgt1 m q p → ∀ o ∈ objs1 m q p, o ∈ K p

structure Final (c : Config) (K : Nat → Set Obj) : Prop extends Base m inc V S c K where
  pcs : ∀ p < m.ranks, (c.rank p).pc = .done
  net : c.net = []
  first : ∀ p < m.ranks, ∀ q < m.ranks, tgt1 m q p → ∀ o ∈ objs1 m q p, o ∈ K p
  later : ∀ p < m.ranks, ∀ q < m.ranks, tgt2 m q p → ∀ o ∈ objs2 m q p, o ∈ K p

def Inv (c : Config) : Prop := ∃ K, Round1 m inc V S c K ∨ Round2 m inc V S c K ∨ Final m inc V S c K

variable {m inc V S}

theorem set_rank (c : Config) (p : Nat) (r : Rank) (net) (q) :
    ((c.set p r net).rank q) = if q = p then r else c.rank q := by
  simp [Config.set, Function.update_apply]

theorem Base.set {c K} (h : Base m inc V S c K) (p r net) (hst : r.st = (c.rank p).st) :
    Base m inc V S (c.set p r net) K := by
  refine ⟨?_, h.owned, h.known⟩
  intro q hq
  rw [set_rank]
  split_ifs with e
  · subst e; rw [hst]; exact h.knows q hq
  · exact h.knows q hq

theorem Base.mk' {c c' : Config} {K} (h : Base m inc V S c K) (hst : ∀ p < m.ranks, (c'.rank p).st = (c.rank p).st) :
    Base m inc V S c' K := ⟨fun q hq => by rw [hst q hq]; exact h.knows q hq, h.owned, h.known⟩

theorem Base.recv {c K} (h : Base m inc V S c K) (p : Nat) (hp : p < m.ranks) (r net) (L : List Obj)
    (hL : ∀ o ∈ L, ∃ q < m.ranks, m.Owns q o) (hk : Knows m inc V (S p) (K p ∪ {o | o ∈ L}) r.st) :
    Base m inc V S (c.set p r net) (update K p (K p ∪ {o | o ∈ L})) := by
  refine ⟨?_, ?_, ?_⟩
  · intro q hq
    rw [set_rank]
    by_cases e : q = p
    · subst e; simpa using hk
    · simpa [e] using h.knows q hq
  · intro q hq o ho
    by_cases e : q = p
    · subst e; simp [h.owned q hq o ho]
    · simpa [e] using h.owned q hq o ho
  · intro q hq o ho
    by_cases e : q = p
    · subst e
      simp only [Function.update_self, Set.mem_union, Set.mem_ofPred_eq] at ho
      rcases ho with ho | ho
      · exact h.known q hq o ho
      · exact hL o ho
    · simp [e] at ho; exact h.known q hq o ho

theorem subset_update (K : Nat → Set Obj) (p : Nat) (X : Set Obj) (q : Nat) : K q ⊆ update K p (K p ∪ X) q := by
  by_cases e : q = p
  · subst e; simp
  · simp [e]

/-- Objects of the first message are owned by the sender. -/
theorem objs1_owned (hm : m.Valid) (hg : m.Ghosts) (q p : Nat) (hq : q < m.ranks) (o : Obj) (ho : o ∈ objs1 m q p) :
    m.Owns q o := by
  obtain ⟨e, he, h⟩ := (mem_firstObjs m q _ o).1 ho
  have heo := hg.push_owned q hq p e ((mem_pushEls q p e).1 he)
  rcases h with rfl | ⟨h1, h2⟩
  · exact heo
  · have := (owns_of_tail hg q hq e heo o h1).2.1
    simp [Mesh.ownedBy] at h2
    rwa [h2] at this

theorem objs2_spec (hg : m.Ghosts) (q p : Nat) (hq : q < m.ranks) (o : Obj) (ho : o ∈ objs2 m q p) :
    ∃ e ∈ m.owned q, o ∈ (objects m e).tail ∧ m.owner (m.first o.kind o.id) ≠ q := by
  obtain ⟨t, ht, rfl⟩ := List.mem_map.1 ho
  obtain ⟨e, he, o, h1, h2, h3, rfl⟩ := (mem_laterTags m q p _ t).1 ht
  rw [ofTag_tag]
  exact ⟨e, hg.push_owned q hq p e ((mem_pushEls q p e).1 he), h1, by simpa [Mesh.ownedBy] using h2⟩

theorem objs2_owned (hg : m.Ghosts) (q p : Nat) (hq : q < m.ranks) (o : Obj) (ho : o ∈ objs2 m q p) :
    ∃ a < m.ranks, m.Owns a o := by
  obtain ⟨e, he, h1, h2⟩ := objs2_spec hg q p hq o ho
  have := owns_of_tail hg q hq e he o h1
  exact ⟨_, this.1, this.2.1⟩

theorem not_todo_congr {c : Config} {p r net} (q : Nat) (h : r.pc.todo = (c.rank p).pc.todo) :
    cTodo (c.set p r net) q = cTodo c q := by
  unfold cTodo
  rw [set_rank]
  split_ifs with e
  · subst e; exact h
  · rfl

/-- A step of rank `p` in round 1 that only changes the position. -/
theorem Round1.move {c K} (h : Round1 m inc V S c K) (p : Nat) (pc : Pc)
    (htodo : (c.rank p).pc.todo = []) (htodo' : pc.todo = []) (hpc : (∃ n, pc = .recv1 n) ∨ pc = .barrier1)
    (hrem : rem1 m p pc = rem1 m p (c.rank p).pc) :
    Round1 m inc V S (c.set p { c.rank p with pc := pc } c.net) K := by
  have ht : cTodo (c.set p { c.rank p with pc := pc } c.net) = cTodo c := by
    funext q; exact not_todo_congr q (by simp [htodo, htodo'])
  refine { toBase := h.toBase.set _ _ _ rfl, pcs := ?_, ents := ?_, comm := ?_, rem := ?_, flags := ?_,
           sorted := ?_, second := ?_ }
  · intro q hq
    rw [set_rank]
    split_ifs with e
    · exact Or.inr hpc
    · exact h.pcs q hq
  · intro q hq l hl
    rw [set_rank] at hl
    split_ifs at hl with e
    · rcases hpc with ⟨n, rfl⟩ | rfl <;> simp at hl
    · exact h.ents q hq l hl
  · rw [ht]; exact h.comm
  · intro q hq
    rw [ht, set_rank]
    split_ifs with e
    · subst e; simp only [hrem]; exact h.rem q hq
    · exact h.rem q hq
  · intro q hq
    rw [ht, set_rank]
    split_ifs with e
    · subst e; exact h.flags q hq
    · exact h.flags q hq
  · intro q hq
    rw [set_rank]
    split_ifs with e
    · subst e; exact h.sorted q hq
    · exact h.sorted q hq
  · intro q hq
    rw [ht, set_rank]
    split_ifs with e
    · subst e; exact h.second q hq
    · exact h.second q hq

theorem mem_push_keys (p q : Nat) (els) (h : (m.push p).find q = some els) : tgt1 m p q :=
  (SMap.mem_keys _ _).2 ⟨els, h⟩

theorem Round1.send {c K} (hm : m.Valid) (hg : m.Ghosts) (hlt : ∀ u ∈ inc, u < m.unknowns)
    (h : Round1 m inc V S c K) (p q : Nat) (els rest)
    (hp : p < m.ranks) (hpc : (c.rank p).pc = .send1 ((q, els) :: rest)) :
    Round1 m inc V S (c.set p ((c.rank p).send1 m p q els rest).1 (c.net ++ ((c.rank p).send1 m p q els rest).2)) K := by
  obtain ⟨he, hn⟩ := h.ents p hp _ hpc
  have hfind : (m.push p).find q = some els := he (q, els) (by simp)
  have hels : pushEls m p q = els := by simp [pushEls, hfind]
  have htgt : tgt1 m p q := mem_push_keys p q els hfind
  have hq := (hg.push_rank p hp q htgt).1
  obtain ⟨a, ha, ha1, ha2⟩ := createInitial_eq hlt (h.knows p hp) p q els (by
    intro e hee o ho hc
    apply h.owned p hp
    have heo := hg.push_owned p hp q e ((mem_pushEls p q e).1 (by rw [hels]; exact hee))
    by_cases hk : o.kind = .element
    · have : o = ⟨.element, e⟩ := by
        have ho' : o = ⟨.element, e⟩ ∨ o ∈ (objects m e).tail := by
          simpa [objects] using ho
        rcases ho' with h | h
        · exact h
        · exact absurd hk ((mem_tail m e o).1 h).1
      rw [this]; exact heo
    · have hc := hc.resolve_left hk
      have ho' : o ∈ (objects m e).tail := by
        have ho' : o = ⟨.element, e⟩ ∨ o ∈ (objects m e).tail := by
          simpa [objects] using ho
        rcases ho' with h | h
        · exact absurd (by rw [h]) hk
        · exact h
      have := (owns_of_tail hg p hp e heo o ho').2.1
      simp [Mesh.ownedBy] at hc
      rwa [hc] at this)
  have hlat : a.secondRoundTags = later m p q := by rw [ha2, later, hels]
  have hmsg : ((c.rank p).send1 m p q els rest).2 = [⟨p, q, data1 m inc V p q⟩] := by
    unfold Rank.send1
    rw [ha]
    simp only
    split_ifs with hh <;> rw [hlat] at hh <;> simp [data1, flag, hh, ha1, objs1, hels]
  have hr1 : ((c.rank p).send1 m p q els rest).1.st = (c.rank p).st := by
    unfold Rank.send1; rw [ha]; simp only; split_ifs <;> rfl
  have hr2 : ((c.rank p).send1 m p q els rest).1.pc = .send1 rest := by
    unfold Rank.send1; rw [ha]; simp only; split_ifs <;> rfl
  have hr3 : ((c.rank p).send1 m p q els rest).1.secondRoundReceives = (c.rank p).secondRoundReceives := by
    unfold Rank.send1; rw [ha]; simp only; split_ifs <;> rfl
  have hr4 : ((c.rank p).send1 m p q els rest).1.secondRound =
      if (later m p q).isEmpty then (c.rank p).secondRound else (c.rank p).secondRound.insert q (later m p q).keys := by
    unfold Rank.send1; rw [ha]; simp only; rw [hlat]; split_ifs <;> rfl
  rw [hmsg]
  generalize ((c.rank p).send1 m p q els rest).1 = r at *
  have ht0 : cTodo c p = q :: rest.map Prod.fst := by simp [cTodo, hpc, Pc.todo]
  have ht1 : cTodo (c.set p r (c.net ++ [⟨p, q, data1 m inc V p q⟩])) p = rest.map Prod.fst := by
    simp [cTodo, set_rank, hr2, Pc.todo]
  have ht2 : ∀ i, i ≠ p → cTodo (c.set p r (c.net ++ [⟨p, q, data1 m inc V p q⟩])) i = cTodo c i := by
    intro i hi; simp [cTodo, set_rank, hi]
  have hnn : (cTodo c p).Nodup := by rw [ht0]; simpa using hn
  have hpend : ∀ w i, pend m (cTodo (c.set p r (c.net ++ [⟨p, q, data1 m inc V p q⟩])))
      (c.net ++ [⟨p, q, data1 m inc V p q⟩]) w i = pend m (cTodo c) c.net w i := fun w i =>
    pend_send m _ _ _ w i p q _ hp (by rw [ht0, ht1]) hnn ht2
  have hqr : q ∉ rest.map Prod.fst := by
    rw [ht0] at hnn; exact (List.nodup_cons.1 hnn).1
  refine { toBase := h.toBase.set _ _ _ hr1, pcs := ?_, ents := ?_, comm := ?_, rem := ?_, flags := ?_,
           sorted := ?_, second := ?_ }
  · intro i hi
    rw [set_rank]
    split_ifs with e
    · exact Or.inl ⟨_, hr2⟩
    · exact h.pcs i hi
  · intro i hi l hl
    rw [set_rank] at hl
    split_ifs at hl with e
    · subst e
      rw [hr2] at hl
      simp only [Pc.send1.injEq] at hl
      subst hl
      exact ⟨fun x hx => he x (by simp [hx]), (List.nodup_cons.1 hn).2⟩
    · exact h.ents i hi l hl
  · exact h.comm.send p q hp hq htgt (by rw [ht0, ht1]) ht2
  · intro i hi
    show _ = pend m _ (c.net ++ _) _ _
    rw [hpend, set_rank]
    split_ifs with e
    · subst e
      rw [← h.rem i hi, hr2, hpc]; rfl
    · exact h.rem i hi
  · intro i hi
    show _ + pend m _ (c.net ++ _) _ _ = _
    rw [hpend, set_rank]
    split_ifs with e
    · subst e
      rw [hr3]; exact h.flags i hi
    · exact h.flags i hi
  · intro i hi
    rw [set_rank]
    split_ifs with e
    · subst e
      rw [hr4]
      split_ifs
      · exact h.sorted i hi
      · exact (h.sorted i hi).insert _ _
    · exact h.sorted i hi
  · intro i hi q' T
    by_cases e : i = p
    · subst e
      rw [set_rank, if_pos rfl, ht1, hr4]
      have hs := h.second i hi q' T
      rw [ht0] at hs
      by_cases hemp : (later m i q).isEmpty = true
      · rw [if_pos hemp, hs]
        constructor
        · rintro ⟨a, b, c⟩; exact ⟨a, fun hh => b (by simp only [List.mem_cons]; exact Or.inr hh), c⟩
        · rintro ⟨a, b, c⟩
          refine ⟨a, fun hh => ?_, c⟩
          rcases List.mem_cons.1 hh with rfl | hh
          · rw [a.2] at hemp; exact absurd hemp (by decide)
          · exact b hh
      · rw [if_neg hemp, SMap.find_insert]
        split_ifs with e2
        · subst e2
          constructor
          · intro hh; exact ⟨⟨htgt, by simpa using hemp⟩, hqr, by simpa using hh.symm⟩
          · rintro ⟨_, _, rfl⟩; rfl
        · rw [hs]
          simp [e2]
    · rw [set_rank, if_neg e, ht2 i e]
      exact h.second i hi q' T

theorem Round1.recv {c K} (hm : m.Valid) (hg : m.Ghosts)
    (h : Round1 m inc V S c K) (p n : Nat) (x : Msg) (a b : List Msg)
    (hp : p < m.ranks) (hpc : (c.rank p).pc = .recv1 (n + 1)) (hnet : c.net = a ++ x :: b) (hx : x.dst = p) :
    ∃ K', Round1 m inc V S (c.set p ((c.rank p).recv1 n x.data) (a ++ b)) K' := by
  obtain ⟨k1, k2, k3, k4⟩ := h.comm.net_ok x (by rw [hnet]; simp)
  rw [hx] at k4
  obtain ⟨t', ht', hk⟩ := (h.knows p hp).receive (objs1 m x.src p)
  have hr : (c.rank p).recv1 n x.data = { c.rank p with pc := .recv1 n, st := { (c.rank p).st with table := t' }, secondRoundReceives := (c.rank p).secondRoundReceives + flag m x.src p } := by
    unfold Rank.recv1
    rw [k4]
    unfold data1
    simp only [List.getLast?_append, List.getLast?_singleton, Option.some_or, List.dropLast_concat, ht']
    unfold flag
    split_ifs <;> simp_all
  rw [hr]
  refine ⟨update K p (K p ∪ {o | o ∈ objs1 m x.src p}), ?_⟩
  have ht : cTodo (c.set p { c.rank p with pc := .recv1 n, st := { (c.rank p).st with table := t' }, secondRoundReceives := (c.rank p).secondRoundReceives + flag m x.src p } (a ++ b)) = cTodo c := by
    funext q; exact not_todo_congr q (by simp [hpc, Pc.todo])
  have hpend : ∀ w i, pend m (cTodo c) c.net w i = pend m (cTodo c) (a ++ b) w i + if p = i then w x.src i else 0 := by
    intro w i; rw [hnet, pend_recv, hx]
  refine { toBase := h.toBase.recv p hp _ _ (objs1 m x.src p)
             (fun o ho => ⟨x.src, k1, objs1_owned hm hg _ _ k1 o ho⟩) hk,
           pcs := ?_, ents := ?_, comm := ?_, rem := ?_, flags := ?_, sorted := ?_, second := ?_ }
  · intro q hq
    rw [set_rank]
    split_ifs with e
    · exact Or.inr (Or.inl ⟨_, rfl⟩)
    · exact h.pcs q hq
  · intro q hq l hl
    rw [set_rank] at hl
    split_ifs at hl with e
    exact h.ents q hq l hl
  · rw [ht]
    have hc := h.comm
    rw [hnet] at hc
    exact hc.recv (subset_update K p _) (by rw [hx]; intro o ho; simp [ho])
  · intro q hq
    have := h.rem q hq
    rw [hpend] at this
    rw [ht]
    show _ = pend m _ (a ++ b) _ _
    rw [set_rank]
    split_ifs with e
    · subst e
      rw [hpc, if_pos rfl] at this
      simp only [rem1] at this ⊢
      omega
    · have : ¬ p = q := fun h => e h.symm
      simp_all
  · intro q hq
    have := h.flags q hq
    rw [hpend] at this
    rw [ht]
    show _ + pend m _ (a ++ b) _ _ = _
    rw [set_rank]
    split_ifs with e
    · subst e
      rw [if_pos rfl] at this
      simp only at this ⊢
      omega
    · have : ¬ p = q := fun h => e h.symm
      simp_all
  · intro q hq
    rw [set_rank]
    split_ifs with e
    · subst e; exact h.sorted q hq
    · exact h.sorted q hq
  · intro q hq
    rw [ht, set_rank]
    split_ifs with e
    · subst e; exact h.second q hq
    · exact h.second q hq

end Verif.GlobalIndexing
