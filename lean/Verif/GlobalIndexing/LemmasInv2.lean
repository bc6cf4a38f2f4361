import Verif.GlobalIndexing.LemmasInv

set_option linter.all false
namespace Verif.GlobalIndexing
open Function (update)
variable {m : Mesh} {inc : List Nat} {V : Obj → Nat → Nat} {S : Nat → State}

theorem Round1.barrier {c K} (h : Round1 m inc V S c K) (hpc : ∀ p < m.ranks, (c.rank p).pc = .barrier1) :
    Round2 m inc V S ⟨fun p => if p < m.ranks then { c.rank p with pc := .send2 (c.rank p).secondRound }
        else c.rank p, c.net⟩ K := by
  have hrem : ∀ p < m.ranks, pend m (cTodo c) c.net (fun _ _ => 1) p = 0 := by
    intro p hp
    rw [← h.rem p hp, hpc p hp]; rfl
  have hnet : c.net = [] := by
    apply List.eq_nil_iff_forall_not_mem.2
    intro x hx
    exact (pend_zero m _ _ _ (hrem x.dst (h.comm.net_ok x hx).2.1)).2 x hx rfl
  have htodo : ∀ p < m.ranks, cTodo c p = [] := by
    intro p hp; simp [cTodo, hpc p hp, Pc.todo]
  have hrec : ∀ p < m.ranks, (c.rank p).secondRoundReceives = tot m p := by
    intro p hp
    have := h.flags p hp
    rw [pend_eq_zero m _ _ _ _ (fun q hq => by simp [htodo q hq]) (by simp [hnet])] at this
    omega
  have hsec : ∀ p < m.ranks, ∀ q T, (c.rank p).secondRound.find q = some T ↔
      tgt2 m p q ∧ T = (later m p q).keys := by
    intro p hp q T
    rw [h.second p hp q T, htodo p hp]; simp
  have hkeys : ∀ p < m.ranks, ∀ q, q ∈ (c.rank p).secondRound.keys ↔ tgt2 m p q := by
    intro p hp q
    rw [SMap.mem_keys]
    constructor
    · rintro ⟨T, hT⟩; exact ((hsec p hp q T).1 hT).1
    · intro ht; exact ⟨_, (hsec p hp q _).2 ⟨ht, rfl⟩⟩
  refine { toBase := h.toBase.mk' (fun p hp => by simp [hp]), pcs := ?_, ents := ?_, comm := ?_, rem := ?_,
           first := ?_ }
  · intro p hp
    exact Or.inl ⟨_, by simp [hp]; rfl⟩
  · intro p hp l hl
    simp only [hp, if_true, Pc.send2.injEq] at hl
    subst hl
    refine ⟨?_, (h.sorted p hp).nodup⟩
    rintro ⟨q, T⟩ hx
    exact (hsec p hp q T).1 (find_of_mem _ (h.sorted p hp).nodup q T hx)
  · rw [show (⟨fun p => if p < m.ranks then { c.rank p with pc := .send2 (c.rank p).secondRound }
        else c.rank p, c.net⟩ : Config).net = [] from hnet]
    refine ⟨by simp, ?_⟩
    intro q hq p ht
    left
    simp only [cTodo, hq, if_true, Pc.todo]
    exact (hkeys q hq p).2 ht
  · intro p hp
    simp only [hp, if_true, rem2, hrec p hp]
    unfold pend tot
    rw [hnet]
    simp only [List.filter_nil, List.map_nil, List.sum_nil, Nat.add_zero]
    congr 1
    apply List.map_congr_left
    intro q hq
    have hq' : q < m.ranks := by simpa using hq
    have hk := hkeys q hq' p
    simp only [cTodo, hq', if_true, Pc.todo]
    have e : (p ∈ List.map Prod.fst (c.rank q).secondRound) ↔ tgt2 m q p := hk
    simp only [e, flag, tgt2]
    by_cases h1 : p ∈ (m.push q).keys <;> by_cases h2 : (later m q p).isEmpty = true <;> simp [h1, h2]
  · intro p hp q hq ht o ho
    rcases h.comm.cover q hq p ht with hh | ⟨x, hx, _⟩ | hh
    · rw [htodo q hq] at hh; simp at hh
    · rw [hnet] at hx; simp at hx
    · exact hh o ho

theorem Round2.move {c K} (h : Round2 m inc V S c K) (p : Nat) (pc : Pc)
    (htodo : (c.rank p).pc.todo = []) (htodo' : pc.todo = []) (hpc : (∃ n, pc = .recv2 n) ∨ pc = .barrier2)
    (hrem : rem2 { c.rank p with pc := pc } = rem2 (c.rank p)) :
    Round2 m inc V S (c.set p { c.rank p with pc := pc } c.net) K := by
  have ht : cTodo (c.set p { c.rank p with pc := pc } c.net) = cTodo c := by
    funext q; exact not_todo_congr q (by simp [htodo, htodo'])
  refine { toBase := h.toBase.set _ _ _ rfl, pcs := ?_, ents := ?_, comm := ?_, rem := ?_, first := h.first }
  · intro q hq
    rw [set_rank]
    split_ifs with e
    · exact Or.inr hpc
    · exact h.pcs q hq
  · intro q hq l hl
    rw [set_rank] at hl
    split_ifs at hl with e
    · rcases hpc with ⟨n, rfl⟩ | rfl <;> simp at hl
    · exact h.ents q hq l hl
  · rw [ht]; exact h.comm
  · intro q hq
    rw [ht, set_rank]
    split_ifs with e
    · subst e; simp only [hrem]; exact h.rem q hq
    · exact h.rem q hq

theorem Round2.send {c K} (hm : m.Valid) (hg : m.Ghosts) (hlt : ∀ u ∈ inc, u < m.unknowns)
    (h : Round2 m inc V S c K) (p q : Nat) (tags rest)
    (hp : p < m.ranks) (hpc : (c.rank p).pc = .send2 ((q, tags) :: rest)) :
    Round2 m inc V S (c.set p ((c.rank p).send2 p q tags rest).1 (c.net ++ ((c.rank p).send2 p q tags rest).2)) K := by
  obtain ⟨he, hn⟩ := h.ents p hp _ hpc
  obtain ⟨htgt, htags⟩ := he (q, tags) (by simp)
  simp only at htgt htags
  have hq := (hg.push_rank p hp q htgt.1).1
  have hK : ∀ o ∈ objs2 m p q, o ∈ K p := by
    intro o ho
    obtain ⟨e, e1, e2, e3⟩ := objs2_spec hg p q hp o ho
    have e4 := first_sent hg p hp e e1 o e2 e3
    have e5 := (owns_of_tail hg p hp e e1 o e2).1
    refine h.first p hp _ e5 ?_ o e4
    obtain ⟨e', he', _⟩ := (mem_firstObjs m _ _ o).1 e4
    obtain ⟨els, hels, _⟩ := (mem_pushEls _ _ _).1 he'
    exact (SMap.mem_keys _ _).2 ⟨els, hels⟩
  have ha := createSecond_eq hlt (h.knows p hp) tags (by
    intro t ht
    rw [htags] at ht
    refine ⟨?_, hK _ (List.mem_map.2 ⟨t, ht, rfl⟩)⟩
    obtain ⟨e, he, o, h1, h2, h3, rfl⟩ := (mem_laterTags m p q _ t).1 ht
    exact tag_mod o ((mem_tail m e o).1 h1).1)
  have hmsg : ((c.rank p).send2 p q tags rest).2 = [⟨p, q, data2 m inc V p q⟩] := by
    unfold Rank.send2
    rw [ha]
    simp [data2, objs2, htags]
  have hr1 : ((c.rank p).send2 p q tags rest).1.st = (c.rank p).st := by
    unfold Rank.send2; rw [ha]
  have hr2 : ((c.rank p).send2 p q tags rest).1.pc = .send2 rest := by
    unfold Rank.send2; rw [ha]
  have hr3 : ((c.rank p).send2 p q tags rest).1.secondRoundReceives = (c.rank p).secondRoundReceives := by
    unfold Rank.send2; rw [ha]
  rw [hmsg]
  generalize ((c.rank p).send2 p q tags rest).1 = r at *
  have ht0 : cTodo c p = q :: rest.map Prod.fst := by simp [cTodo, hpc, Pc.todo]
  have ht1 : cTodo (c.set p r (c.net ++ [⟨p, q, data2 m inc V p q⟩])) p = rest.map Prod.fst := by
    simp [cTodo, set_rank, hr2, Pc.todo]
  have ht2 : ∀ i, i ≠ p → cTodo (c.set p r (c.net ++ [⟨p, q, data2 m inc V p q⟩])) i = cTodo c i := by
    intro i hi; simp [cTodo, set_rank, hi]
  have hnn : (cTodo c p).Nodup := by rw [ht0]; simpa using hn
  have hpend : ∀ w i, pend m (cTodo (c.set p r (c.net ++ [⟨p, q, data2 m inc V p q⟩])))
      (c.net ++ [⟨p, q, data2 m inc V p q⟩]) w i = pend m (cTodo c) c.net w i := fun w i =>
    pend_send m _ _ _ w i p q _ hp (by rw [ht0, ht1]) hnn ht2
  refine { toBase := h.toBase.set _ _ _ hr1, pcs := ?_, ents := ?_, comm := ?_, rem := ?_, first := h.first }
  · intro i hi
    rw [set_rank]
    split_ifs with e
    · exact Or.inl ⟨_, hr2⟩
    · exact h.pcs i hi
  · intro i hi l hl
    rw [set_rank] at hl
    split_ifs at hl with e
    · subst e
      rw [hr2] at hl
      simp only [Pc.send2.injEq] at hl
      subst hl
      exact ⟨fun x hx => he x (by simp [hx]), (List.nodup_cons.1 hn).2⟩
    · exact h.ents i hi l hl
  · exact h.comm.send p q hp hq htgt (by rw [ht0, ht1]) ht2
  · intro i hi
    show _ = pend m _ (c.net ++ _) _ _
    rw [hpend, set_rank]
    split_ifs with e
    · subst e
      rw [← h.rem i hi]; simp only [rem2, hr2, hpc, hr3]
    · exact h.rem i hi

theorem Round2.recv {c K} (hg : m.Ghosts)
    (h : Round2 m inc V S c K) (p n : Nat) (x : Msg) (a b : List Msg)
    (hp : p < m.ranks) (hpc : (c.rank p).pc = .recv2 (n + 1)) (hnet : c.net = a ++ x :: b) (hx : x.dst = p) :
    ∃ K', Round2 m inc V S (c.set p ((c.rank p).recv2 n x.data) (a ++ b)) K' := by
  obtain ⟨k1, k2, k3, k4⟩ := h.comm.net_ok x (by rw [hnet]; simp)
  rw [hx] at k4
  obtain ⟨t', ht', hk⟩ := (h.knows p hp).receive (objs2 m x.src p)
  have hr : (c.rank p).recv2 n x.data = { c.rank p with pc := .recv2 n, st := { (c.rank p).st with table := t' } } := by
    unfold Rank.recv2
    rw [k4]
    unfold data2
    rw [ht']
  rw [hr]
  refine ⟨update K p (K p ∪ {o | o ∈ objs2 m x.src p}), ?_⟩
  have ht : cTodo (c.set p { c.rank p with pc := .recv2 n, st := { (c.rank p).st with table := t' } } (a ++ b)) = cTodo c := by
    funext q; exact not_todo_congr q (by simp [hpc, Pc.todo])
  have hpend : ∀ w i, pend m (cTodo c) c.net w i = pend m (cTodo c) (a ++ b) w i + if p = i then w x.src i else 0 := by
    intro w i; rw [hnet, pend_recv, hx]
  refine { toBase := h.toBase.recv p hp _ _ (objs2 m x.src p)
             (fun o ho => objs2_owned hg _ _ k1 o ho) hk,
           pcs := ?_, ents := ?_, comm := ?_, rem := ?_,
           first := fun p' hp' q hq hh o ho => subset_update K p _ p' (h.first p' hp' q hq hh o ho) }
  · intro q hq
    rw [set_rank]
    split_ifs with e
    · exact Or.inr (Or.inl ⟨_, rfl⟩)
    · exact h.pcs q hq
  · intro q hq l hl
    rw [set_rank] at hl
    split_ifs at hl with e
    exact h.ents q hq l hl
  · rw [ht]
    have hc := h.comm
    rw [hnet] at hc
    exact hc.recv (subset_update K p _) (by rw [hx]; intro o ho; simp [ho])
  · intro q hq
    have := h.rem q hq
    rw [hpend] at this
    rw [ht]
    show _ = pend m _ (a ++ b) _ _
    rw [set_rank]
    split_ifs with e
    · subst e
      rw [if_pos rfl] at this
      simp only [rem2, hpc] at this ⊢
      omega
    · have : ¬ p = q := fun h => e h.symm
      simp_all

theorem Round2.barrier {c K} (h : Round2 m inc V S c K) (hpc : ∀ p < m.ranks, (c.rank p).pc = .barrier2) :
    Final m inc V S ⟨fun p => if p < m.ranks then { c.rank p with pc := .done } else c.rank p, c.net⟩ K := by
  have hrem : ∀ p < m.ranks, pend m (cTodo c) c.net (fun _ _ => 1) p = 0 := by
    intro p hp
    rw [← h.rem p hp]; simp [rem2, hpc p hp]
  have hnet : c.net = [] := by
    apply List.eq_nil_iff_forall_not_mem.2
    intro x hx
    exact (pend_zero m _ _ _ (hrem x.dst (h.comm.net_ok x hx).2.1)).2 x hx rfl
  refine { toBase := h.toBase.mk' (fun p hp => by simp [hp]), pcs := fun p hp => by simp [hp], net := hnet,
           first := h.first, later := ?_ }
  intro p hp q hq ht o ho
  rcases h.comm.cover q hq p ht with hh | ⟨x, hx, _⟩ | hh
  · simp [cTodo, hpc q hq, Pc.todo] at hh
  · rw [hnet] at hx; simp at hx
  · exact hh o ho

theorem Inv.step (hm : m.Valid) (hg : m.Ghosts) (hlt : ∀ u ∈ inc, u < m.unknowns) {strict c c'}
    (h : Inv m inc V S c) (hs : Step m strict c c') : Inv m inc V S c' := by
  obtain ⟨K, h⟩ := h
  cases hs with
  | send1 p q els rest hp hpc =>
    rcases h with h | h | h
    · exact ⟨K, Or.inl (h.send hm hg hlt p q els rest hp hpc)⟩
    · rcases h.pcs p hp with ⟨_, e⟩ | ⟨_, e⟩ | e <;> simp [hpc] at e
    · have := h.pcs p hp; simp [hpc] at this
  | sent1 p hp hpc =>
    rcases h with h | h | h
    · exact ⟨K, Or.inl (h.move p _ (by simp [hpc, Pc.todo]) rfl (Or.inl ⟨_, rfl⟩) (by simp [hpc, rem1]))⟩
    · rcases h.pcs p hp with ⟨_, e⟩ | ⟨_, e⟩ | e <;> simp [hpc] at e
    · have := h.pcs p hp; simp [hpc] at this
  | recv1 p n x a b hp hpc hnet hx =>
    rcases h with h | h | h
    · obtain ⟨K', h'⟩ := h.recv hm hg p n x a b hp hpc hnet hx
      exact ⟨K', Or.inl h'⟩
    · rcases h.pcs p hp with ⟨_, e⟩ | ⟨_, e⟩ | e <;> simp [hpc] at e
    · have := h.pcs p hp; simp [hpc] at this
  | wait1 p hp hpc hw =>
    rcases h with h | h | h
    · exact ⟨K, Or.inl (h.move p _ (by simp [hpc, Pc.todo]) rfl (Or.inr rfl) (by simp [hpc, rem1]))⟩
    · rcases h.pcs p hp with ⟨_, e⟩ | ⟨_, e⟩ | e <;> simp [hpc] at e
    · have := h.pcs p hp; simp [hpc] at this
  | barrier1 h0 hpc =>
    rcases h with h | h | h
    · exact ⟨K, Or.inr (Or.inl (h.barrier hpc))⟩
    · rcases h.pcs 0 h0 with ⟨_, e⟩ | ⟨_, e⟩ | e <;> simp [hpc 0 h0] at e
    · have := h.pcs 0 h0; simp [hpc 0 h0] at this
  | send2 p q els rest hp hpc =>
    rcases h with h | h | h
    · rcases h.pcs p hp with ⟨_, e⟩ | ⟨_, e⟩ | e <;> simp [hpc] at e
    · exact ⟨K, Or.inr (Or.inl (h.send hm hg hlt p q els rest hp hpc))⟩
    · have := h.pcs p hp; simp [hpc] at this
  | sent2 p hp hpc =>
    rcases h with h | h | h
    · rcases h.pcs p hp with ⟨_, e⟩ | ⟨_, e⟩ | e <;> simp [hpc] at e
    · exact ⟨K, Or.inr (Or.inl (h.move p _ (by simp [hpc, Pc.todo]) rfl (Or.inl ⟨_, rfl⟩) (by simp [hpc, rem2])))⟩
    · have := h.pcs p hp; simp [hpc] at this
  | recv2 p n x a b hp hpc hnet hx =>
    rcases h with h | h | h
    · rcases h.pcs p hp with ⟨_, e⟩ | ⟨_, e⟩ | e <;> simp [hpc] at e
    · obtain ⟨K', h'⟩ := h.recv hg p n x a b hp hpc hnet hx
      exact ⟨K', Or.inr (Or.inl h')⟩
    · have := h.pcs p hp; simp [hpc] at this
  | wait2 p hp hpc hw =>
    rcases h with h | h | h
    · rcases h.pcs p hp with ⟨_, e⟩ | ⟨_, e⟩ | e <;> simp [hpc] at e
    · exact ⟨K, Or.inr (Or.inl (h.move p _ (by simp [hpc, Pc.todo]) rfl (Or.inr rfl) (by simp [hpc, rem2])))⟩
    · have := h.pcs p hp; simp [hpc] at this
  | barrier2 h0 hpc =>
    rcases h with h | h | h
    · rcases h.pcs 0 h0 with ⟨_, e⟩ | ⟨_, e⟩ | e <;> simp [hpc 0 h0] at e
    · exact ⟨K, Or.inr (Or.inr (h.barrier hpc))⟩
    · have := h.pcs 0 h0; simp [hpc 0 h0] at this

/-- No configuration blocks before all ranks are done. -/
theorem Inv.progress {c} (h : Inv m inc V S c) (hnd : ∃ p < m.ranks, (c.rank p).pc ≠ .done) :
    ∃ c', Step m true c c' := by
  obtain ⟨p0, hp0, hd0⟩ := hnd
  obtain ⟨K, h | h | h⟩ := h
  · by_cases h1 : ∃ p < m.ranks, ∃ l, (c.rank p).pc = .send1 l
    · obtain ⟨p, hp, l, hl⟩ := h1
      cases l with
      | nil => exact ⟨_, .sent1 c p hp hl⟩
      | cons x l => exact ⟨_, .send1 c p x.1 x.2 l hp hl⟩
    · have htodo : ∀ q < m.ranks, cTodo c q = [] := by
        intro q hq
        rcases h.pcs q hq with ⟨l, e⟩ | ⟨n, e⟩ | e
        · exact absurd ⟨q, hq, l, e⟩ h1
        · simp [cTodo, e, Pc.todo]
        · simp [cTodo, e, Pc.todo]
      cases hn : c.net with
      | cons x b =>
        have hx : x ∈ c.net := by rw [hn]; simp
        have hr := pend_pos m (cTodo c) c.net x hx
        have hd := (h.comm.net_ok x hx).2.1
        rw [← h.rem _ hd] at hr
        rcases h.pcs _ hd with ⟨l, e⟩ | ⟨n, e⟩ | e
        · exact absurd ⟨_, hd, l, e⟩ h1
        · cases n with
          | zero => simp [e, rem1] at hr
          | succ n => exact ⟨_, .recv1 c x.dst n x [] b hd e (by simpa using hn) rfl⟩
        · simp [e, rem1] at hr
      | nil =>
        by_cases h2 : ∃ p < m.ranks, ∃ n, (c.rank p).pc = .recv1 n
        · obtain ⟨p, hp, n, e⟩ := h2
          have := h.rem p hp
          rw [pend_eq_zero m _ _ _ _ (fun q hq => by simp [htodo q hq]) (by simp [hn]), e] at this
          simp only [rem1] at this
          subst this
          exact ⟨_, .wait1 c p hp e (by simp [waited, hn])⟩
        · refine ⟨_, .barrier1 c (by omega) ?_⟩
          intro q hq
          rcases h.pcs q hq with ⟨l, e⟩ | ⟨n, e⟩ | e
          · exact absurd ⟨q, hq, l, e⟩ h1
          · exact absurd ⟨q, hq, n, e⟩ h2
          · exact e
  · by_cases h1 : ∃ p < m.ranks, ∃ l, (c.rank p).pc = .send2 l
    · obtain ⟨p, hp, l, hl⟩ := h1
      cases l with
      | nil => exact ⟨_, .sent2 c p hp hl⟩
      | cons x l => exact ⟨_, .send2 c p x.1 x.2 l hp hl⟩
    · have htodo : ∀ q < m.ranks, cTodo c q = [] := by
        intro q hq
        rcases h.pcs q hq with ⟨l, e⟩ | ⟨n, e⟩ | e
        · exact absurd ⟨q, hq, l, e⟩ h1
        · simp [cTodo, e, Pc.todo]
        · simp [cTodo, e, Pc.todo]
      cases hn : c.net with
      | cons x b =>
        have hx : x ∈ c.net := by rw [hn]; simp
        have hr := pend_pos m (cTodo c) c.net x hx
        have hd := (h.comm.net_ok x hx).2.1
        rw [← h.rem _ hd] at hr
        rcases h.pcs _ hd with ⟨l, e⟩ | ⟨n, e⟩ | e
        · exact absurd ⟨_, hd, l, e⟩ h1
        · cases n with
          | zero => simp [e, rem2] at hr
          | succ n => exact ⟨_, .recv2 c x.dst n x [] b hd e (by simpa using hn) rfl⟩
        · simp [e, rem2] at hr
      | nil =>
        by_cases h2 : ∃ p < m.ranks, ∃ n, (c.rank p).pc = .recv2 n
        · obtain ⟨p, hp, n, e⟩ := h2
          have := h.rem p hp
          rw [pend_eq_zero m _ _ _ _ (fun q hq => by simp [htodo q hq]) (by simp [hn])] at this
          simp only [rem2, e] at this
          subst this
          exact ⟨_, .wait2 c p hp e (by simp [waited, hn])⟩
        · refine ⟨_, .barrier2 c (by omega) ?_⟩
          intro q hq
          rcases h.pcs q hq with ⟨l, e⟩ | ⟨n, e⟩ | e
          · exact absurd ⟨q, hq, l, e⟩ h1
          · exact absurd ⟨q, hq, n, e⟩ h2
          · exact e
  · exact absurd (h.pcs p0 hp0) hd0

/-- Everything about the elements a rank has is known at the end. -/
theorem Final.complete {c K} (hg : m.Ghosts) (h : Final m inc V S c K) (p : Nat) (hp : p < m.ranks)
    (e : Nat) (he : m.Has p e) (o : Obj) (ho : o ∈ objects m e) : o ∈ K p := by
  have ho' : o = ⟨.element, e⟩ ∨ o ∈ (objects m e).tail := by simpa [objects] using ho
  have tgt_of : ∀ a, o ∈ objs1 m a p → tgt1 m a p := by
    intro a ha
    obtain ⟨e', he', _⟩ := (mem_firstObjs m _ _ o).1 ha
    obtain ⟨els, hels, _⟩ := (mem_pushEls _ _ _).1 he'
    exact (SMap.mem_keys _ _).2 ⟨els, hels⟩
  -- an object next to an owned element
  have near : ∀ e' ∈ m.owned p, o ∈ (objects m e').tail → o ∈ K p := by
    intro e' he' hoe
    obtain ⟨h1, h2, h3, h4, h5⟩ := owns_of_tail hg p hp e' he' o hoe
    by_cases hne : m.owner (m.first o.kind o.id) = p
    · rw [hne] at h2; exact h.owned p hp o h2
    · have hs := first_sent hg p hp e' he' o hoe hne
      exact h.first p hp _ h1 (tgt_of _ hs) o hs
  rcases he with he | ⟨q, hq, hpush⟩
  · rcases ho' with rfl | ho'
    · exact h.owned p hp _ he
    · exact near e he ho'
  · have heq := hg.push_owned q hq p e hpush
    rcases ho' with rfl | ho'
    · have : (⟨.element, e⟩ : Obj) ∈ objs1 m q p := (mem_firstObjs m _ _ _).2 ⟨e, (mem_pushEls _ _ _).2 hpush, Or.inl rfl⟩
      exact h.first p hp q hq (tgt_of q this) _ this
    · by_cases hown : m.ownedBy q o.kind o.id = true
      · have : o ∈ objs1 m q p := (mem_firstObjs m _ _ _).2 ⟨e, (mem_pushEls _ _ _).2 hpush, Or.inr ⟨ho', hown⟩⟩
        exact h.first p hp q hq (tgt_of q this) _ this
      · by_cases hl : m.later p o = true
        · have ht : o.tag ∈ (GlobalIndexing.later m q p).keys :=
            (mem_laterTags m q p _ _).2 ⟨e, (mem_pushEls _ _ _).2 hpush, o, ho', by simpa using hown, hl, rfl⟩
          have : o ∈ objs2 m q p := List.mem_map.2 ⟨_, ht, ofTag_tag o⟩
          refine h.later p hp q hq ⟨?_, ?_⟩ o this
          · obtain ⟨els, hels, _⟩ := hpush
            exact (SMap.mem_keys _ _).2 ⟨els, hels⟩
          · cases hh : GlobalIndexing.later m q p with
            | nil => rw [hh] at ht; simp [SMap.keys] at ht
            | cons a l => rfl
        · obtain ⟨h1, h2, h3, h4, h5⟩ := owns_of_tail hg q hq e heq o ho'
          obtain ⟨t1, t2, t3⟩ := (mem_tail m e o).1 ho'
          have hadj : ∃ e' ∈ m.adj o.kind o.id, m.owner e' = p := by
            obtain ⟨k, i⟩ := o
            cases k
            · exact absurd rfl t1
            · simp [Mesh.later] at hl; exact ⟨_, h3, hl⟩
            · simp [Mesh.later] at hl; exact hl
            · simp [Mesh.later] at hl; exact hl
          obtain ⟨e', he', hown'⟩ := hadj
          obtain ⟨g1, g2, g3⟩ := hg.sub_of_adj q hq e heq o.kind o.id t2 e' he'
          rw [hown'] at g2
          exact near e' g2 ((mem_tail m e' o).2 ⟨t1, g3, t3⟩)

/-- Upper bound of the number of steps left of a rank. -/
def weight (m : Mesh) (p : Nat) (r : Rank) : Nat :=
  match r.pc with
  | .send1 l => 2 * l.length + 2 * m.pulls p + r.secondRound.length + r.secondRoundReceives + 6
  | .recv1 n => 2 * n + r.secondRound.length + r.secondRoundReceives + 5
  | .barrier1 => r.secondRound.length + r.secondRoundReceives + 4
  | .send2 l => l.length + r.secondRoundReceives + 3
  | .recv2 n => n + 2
  | .barrier2 => 1
  | .done => 0
  | .error => 0

def total (m : Mesh) (c : Config) : Nat := ((List.range m.ranks).map fun p => weight m p (c.rank p)).sum

theorem insert_length (l : SMap (List Nat)) (k v) : (l.insert k v).length ≤ l.length + 1 := by
  induction l with
  | nil => simp [SMap.insert]
  | cons x l ih =>
    obtain ⟨a, w⟩ := x
    simp only [SMap.insert]
    split_ifs <;> simp <;> omega

theorem total_set (c : Config) (p : Nat) (hp : p < m.ranks) (r net) (h : weight m p r < weight m p (c.rank p)) :
    total m (c.set p r net) < total m c := by
  have := sum_range_update m.ranks p hp (fun q => weight m q (c.rank q)) (fun q => weight m q ((c.set p r net).rank q))
    (fun i hi => by simp [set_rank, hi])
  simp only [set_rank, if_true] at this
  unfold total
  simp only [set_rank]
  omega

theorem total_lt (c c' : Config) (h0 : 0 < m.ranks) (h : ∀ p < m.ranks, weight m p (c'.rank p) < weight m p (c.rank p)) :
    total m c' < total m c := by
  unfold total
  have key : ∀ n, (∀ p < n, weight m p (c'.rank p) < weight m p (c.rank p)) →
      ((List.range n).map fun p => weight m p (c'.rank p)).sum + n ≤ ((List.range n).map fun p => weight m p (c.rank p)).sum := by
    intro n
    induction n with
    | zero => simp
    | succ n ih =>
      intro h
      have := ih (fun p hp => h p (by omega))
      have := h n (by omega)
      simp only [List.range_succ, List.map_append, List.map_cons, List.map_nil, List.sum_append, List.sum_cons,
        List.sum_nil]
      omega
  have := key m.ranks h
  omega

theorem total_step {strict c c'} (hs : Step m strict c c') : total m c' < total m c := by
  cases hs with
  | send1 p q els rest hp hpc =>
    apply total_set _ _ hp
    unfold Rank.send1
    split
    · simp [weight, hpc]
    · split_ifs
      · simp [weight, hpc]
      · have := insert_length (c.rank p).secondRound q
        simp only [weight, hpc, List.length_cons]
        rename_i a _ _
        have := insert_length (c.rank p).secondRound q a.secondRoundTags.keys
        omega
  | sent1 p hp hpc => apply total_set _ _ hp; simp [weight, hpc]
  | recv1 p n x a b hp hpc hnet hx =>
    apply total_set _ _ hp
    unfold Rank.recv1
    split
    · simp [weight, hpc]
    · split
      · simp [weight, hpc]
      · simp only [weight, hpc]; split_ifs <;> omega
  | wait1 p hp hpc hw => apply total_set _ _ hp; simp [weight, hpc]
  | barrier1 h0 hpc =>
    apply total_lt _ _ h0
    intro p hp; simp [weight, hpc p hp, hp]
  | send2 p q els rest hp hpc =>
    apply total_set _ _ hp
    unfold Rank.send2
    split <;> simp [weight, hpc]
  | sent2 p hp hpc => apply total_set _ _ hp; simp [weight, hpc]
  | recv2 p n x a b hp hpc hnet hx =>
    apply total_set _ _ hp
    unfold Rank.recv2
    split <;> simp [weight, hpc]
  | wait2 p hp hpc hw => apply total_set _ _ hp; simp [weight, hpc]
  | barrier2 h0 hpc =>
    apply total_lt _ _ h0
    intro p hp; simp [weight, hpc p hp, hp]

theorem run_le {strict n c c'} (h : Run m strict n c c') : n + total m c' ≤ total m c := by
  induction h with
  | nil => omega
  | step n c c' c'' _ hs ih => have := total_step hs; omega

end Verif.GlobalIndexing
