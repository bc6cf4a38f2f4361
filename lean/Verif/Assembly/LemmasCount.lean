import Verif.Assembly.LemmasEst
import Mathlib.Data.Set.Card
import Mathlib.Order.Interval.Finset.Nat
set_option linter.all false
namespace Verif.Assembly
open GlobalIndexing

theorem sum_sizes {m : Mesh} {unk} {g : Dof → Nat} (hstart : ∀ d, g d = g ⟨d.obj, d.unknown, 0⟩ + d.index)
    (hinj : ∀ d d', AllDofs m unk d → AllDofs m unk d' → g d = g d' → d = d') (V : Finset Interval) (Z : Obj → Nat → Prop)
    (hV : ∀ c, c ∈ V ↔ ∃ o u, Z o u ∧ m.count o u ≠ 0 ∧ c = toLex (g ⟨o, u, 0⟩, m.count o u))
    (hZ : ∀ o u, Z o u → ∀ i < m.count o u, AllDofs m unk ⟨o, u, i⟩) :
    ∑ c ∈ V, (ofLex c).2 = {d : Dof | Z d.obj d.unknown ∧ d.index < m.count d.obj d.unknown}.ncard := by
  set D := {d : Dof | Z d.obj d.unknown ∧ d.index < m.count d.obj d.unknown} with hD
  have hall : ∀ d ∈ D, AllDofs m unk d := fun d hd => hZ _ _ hd.1 _ hd.2
  have himg : g '' D = ↑(V.biUnion fun c => Finset.Ico (ofLex c).1 ((ofLex c).1 + (ofLex c).2)) := by
    ext n
    simp only [Set.mem_image, Finset.mem_coe, Finset.mem_biUnion, Finset.mem_Ico]
    constructor
    · rintro ⟨d, ⟨hz, hi⟩, rfl⟩
      refine ⟨toLex (g ⟨d.obj, d.unknown, 0⟩, m.count d.obj d.unknown), (hV _).2 ⟨_, _, hz, by omega, rfl⟩, ?_⟩
      simp only [ofLex_toLex]
      rw [hstart d]; omega
    · rintro ⟨c, hc, h1, h2⟩
      obtain ⟨o, u, hz, hcnt, rfl⟩ := (hV c).1 hc
      simp only [ofLex_toLex] at h1 h2
      refine ⟨⟨o, u, n - g ⟨o, u, 0⟩⟩, ⟨hz, ?_⟩, ?_⟩
      · show n - g ⟨o, u, 0⟩ < m.count o u; omega
      · rw [hstart]; dsimp only; omega
  have hcard : D.ncard = (g '' D).ncard :=
    (Set.ncard_image_of_injOn fun d hd d' hd' h => hinj d d' (hall d hd) (hall d' hd') h).symm
  rw [hcard, himg, Set.ncard_coe_finset, Finset.card_biUnion]
  · refine Finset.sum_congr rfl fun c _ => by simp
  · intro c hc c' hc' hne
    rw [Function.onFun, Finset.disjoint_left]
    intro n hn hn'
    simp only [Finset.mem_Ico] at hn hn'
    apply hne
    obtain ⟨o, u, hz, hcnt, rfl⟩ := (hV c).1 hc
    obtain ⟨o', u', hz', hcnt', rfl⟩ := (hV c').1 hc'
    simp only [ofLex_toLex] at hn hn'
    have := hinj ⟨o, u, n - g ⟨o, u, 0⟩⟩ ⟨o', u', n - g ⟨o', u', 0⟩⟩ (hZ _ _ hz _ (by omega)) (hZ _ _ hz' _ (by omega))
      (by rw [hstart ⟨o, u, _⟩, hstart ⟨o', u', _⟩]; dsimp only; omega)
    injection this with e1 e2 e3
    subst e1 e2; rfl

theorem Table2D.any_of_get {t : Table2D} {i j : Nat} (hi : i < t.rows) (hj : j < t.cols) (h : t.get i j = true) : t.any = true := by
  unfold Table2D.any
  rw [List.any_eq_true]
  refine ⟨i + j * t.rows, List.mem_range.2 ?_, h⟩
  calc i + j * t.rows < t.rows + j * t.rows := by omega
    _ = (j + 1) * t.rows := by rw [Nat.succ_mul, Nat.add_comm]
    _ ≤ t.cols * t.rows := Nat.mul_le_mul_right _ hj
    _ = t.rows * t.cols := Nat.mul_comm _ _

/-- The first local index of an object. -/
def stR (s : State) (o : Obj) (u : Nat) : Nat := ((s.getProcessorLocalIndex o u).getD 0).toNat

section
variable {m : Mesh} (hm : m.Valid) (hg : m.Ghosts) {P : Parts} (hL : Layer m P)
  {unkR unkC : Option (List Nat)} {R C : Nat → State} {gR gC : Dof → Nat}
  (hR : Facts m unkR R gR) (hC : Facts m unkC C gC) {p : Nat} (hp : p < m.ranks)

/-- The couplings and objects that are seen on a rank. -/
def WOn (m : Mesh) (P : Parts) (p : Nat) (unkR unkC : Option (List Nat)) (t : Table2D) (o : Obj) (u : Nat) (o' : Obj) (u' : Nat) : Prop :=
  u ∈ requested m unkR ∧ u' ∈ requested m unkC ∧ CoupledOn m P p (t.Couples m unkR unkC) ⟨o, u, 0⟩ ⟨o', u', 0⟩

def TOn (m : Mesh) (p : Nat) (unkR : Option (List Nat)) (o : Obj) (u : Nat) : Prop :=
  (∃ e, m.Has p e ∧ o ∈ objects m e) ∧ u ∈ requested m unkR

include hm hg hL hR hC hp

theorem known_row {e : Nat} (he : m.Has p e) : ∀ o ∈ objects m e, ∀ u ∈ (R p).included, Known m (R p) true p (stR (R p)) o u := by
  intro o ho u hu hc how
  obtain ⟨l, hl⟩ := hR.getLocal p hp o ((ownsObj_iff hm hg hp he ho).1 (how rfl)) u (by rw [hR.included p hp, order_mem] at hu; exact hu)
  simp [stR, hl]

theorem known_col {e : Nat} (he : m.Has p e) : ∀ o ∈ objects m e, ∀ u ∈ (C p).included,
    Known m (C p) false p (fun o u => gC ⟨o, u, 0⟩) o u := by
  intro o ho u hu hc how
  simpa using hC.get p hp e he o ho u (by rw [hC.included p hp, order_mem] at hu; exact hu)

theorem est_loops (t : Table2D) (hr : t.rows = (R p).included.length) (hc : t.cols = (C p).included.length) :
    ∃ x y, (P.present p).foldlM (Est.element m (R p) (C p) p) {} = some x ∧
      (if t.any then (P.faces p).foldlM (Est.face m P (R p) (C p) t.get p) x else some x) = some y ∧
      Inv m p (stR (R p)) (fun o u => gC ⟨o, u, 0⟩) (WOn m P p unkR unkC t) (TOn m p unkR) y := by
  obtain ⟨x, hx, ix⟩ := loop_inv (R := R p) (C := C p) (p := p) (m := m) (stR := stR (R p)) (stC := fun o u => gC ⟨o, u, 0⟩)
    (Est.element m (R p) (C p) p) (fun e o => o ∈ objects m e) (fun _ _ => true)
    (P.present p) (fun e he x => by
      have hh := (hL.present_iff p hp e).1 he
      obtain ⟨row, h1, h2⟩ := addElement_ext e (known_row hm hg hL hR hC hp hh) x.row.clear
      obtain ⟨col, h3, h4⟩ := addElement_ext e (known_col hm hg hL hR hC hp hh) x.col.clear
      exact ⟨row, col, by simp [Est.element, h1, h3], h2, h4⟩) Inv.start
  have hinc : ∀ u u', (∃ i j : Nat, (R p).included[i]? = some u ∧ (C p).included[j]? = some u' ∧ True) ↔
      u ∈ requested m unkR ∧ u' ∈ requested m unkC := by
    intro u u'
    rw [← order_mem, ← order_mem, hR.included p hp, hC.included p hp]
    constructor
    · rintro ⟨i, j, h1, h2, _⟩; exact ⟨List.mem_of_getElem? h1, List.mem_of_getElem? h2⟩
    · rintro ⟨h1, h2⟩
      obtain ⟨i, hi⟩ := List.getElem?_of_mem h1
      obtain ⟨j, hj⟩ := List.getElem?_of_mem h2
      exact ⟨i, j, hi, hj, trivial⟩
  have hcp : ∀ u u', (∃ i j, (R p).included[i]? = some u ∧ (C p).included[j]? = some u' ∧ t.get i j = true) ↔
      t.Couples m unkR unkC u u' := by
    intro u u'; rw [hR.included p hp, hC.included p hp]; rfl
  refine ⟨x, ?_⟩
  cases ha : t.any
  · refine ⟨x, hx, by simp, ix.congr ?_ ?_⟩
    · intro o u o' u'
      rw [WOn, CoupledOn, CoupledBy]
      have hno : ¬ t.Couples m unkR unkC u u' := by
        rintro ⟨i, j, h1, h2, h3⟩
        have := Table2D.any_of_get (t := t) (i := i) (j := j)
          (by rw [hr, hR.included p hp]; exact (List.getElem?_eq_some_iff.1 h1).1)
          (by rw [hc, hC.included p hp]; exact (List.getElem?_eq_some_iff.1 h2).1) h3
        rw [ha] at this; cases this
      simp only [hinc, hno, false_and, or_false, false_or]
      constructor
      · rintro ⟨e, h1, h2, h3, h4, h5⟩; exact ⟨h4, h5, e, h1, h2, h3⟩
      · rintro ⟨h4, h5, e, h1, h2, h3⟩; exact ⟨e, h1, h2, h3, h4, h5⟩
    · intro o u
      rw [TOn, hR.included p hp, order_mem]
      constructor
      · rintro (h | ⟨e, h1, h2, h3⟩); exacts [h.elim, ⟨⟨e, (hL.present_iff p hp e).1 h1, h2⟩, h3⟩]
      · rintro ⟨⟨e, h1, h2⟩, h3⟩; exact .inr ⟨e, (hL.present_iff p hp e).2 h1, h2, h3⟩
  · obtain ⟨y, hy, iy⟩ := loop_inv (R := R p) (C := C p) (p := p) (m := m) (stR := stR (R p)) (stC := fun o u => gC ⟨o, u, 0⟩)
      (Est.face m P (R p) (C p) t.get p) (fun f o => ∃ e ∈ P.around p f, o ∈ objects m e) t.get
      (P.faces p) (fun f hf x => by
        have hh := fun e he => ((hL.around_sub p hp f hf).2 e he).2.1
        obtain ⟨row, h1, h2⟩ := addFace_ext (P := P) f (fun e he => known_row hm hg hL hR hC hp (hh e he)) x.row.clear
        obtain ⟨col, h3, h4⟩ := addFace_ext (P := P) f (fun e he => known_col hm hg hL hR hC hp (hh e he)) x.col.clear
        exact ⟨row, col, by simp [Est.face, h1, h3], h2, h4⟩) ix
    refine ⟨y, hx, by simpa using hy, iy.congr ?_ ?_⟩
    · intro o u o' u'
      rw [WOn, CoupledOn, CoupledBy]
      simp only [hinc, hcp, false_or]
      constructor
      · rintro (⟨e, h1, h2, h3, h4, h5⟩ | ⟨f, h1, ⟨e, h2, h3⟩, ⟨e', h2', h3'⟩, h4⟩)
        · exact ⟨h4, h5, .inl ⟨e, h1, h2, h3⟩⟩
        · obtain ⟨i, j, h5, h6, h7⟩ := id h4
          exact ⟨(order_mem _ _ _).1 (List.mem_of_getElem? h5), (order_mem _ _ _).1 (List.mem_of_getElem? h6),
            .inr ⟨h4, f, h1, e, h2, e', h2', h3, h3'⟩⟩
      · rintro ⟨h4, h5, ⟨e, h1, h2, h3⟩ | ⟨h4, f, h1, e, h2, e', h2', h3, h3'⟩⟩
        · exact .inl ⟨e, h1, h2, h3, h4, h5⟩
        · exact .inr ⟨f, h1, ⟨e, h2, h3⟩, ⟨e', h2', h3'⟩, h4⟩
    · intro o u
      rw [TOn, hR.included p hp, order_mem]
      constructor
      · rintro ((h | ⟨e, h1, h2, h3⟩) | ⟨f, h1, ⟨e, h2, h3⟩, h4⟩)
        · exact h.elim
        · exact ⟨⟨e, (hL.present_iff p hp e).1 h1, h2⟩, h3⟩
        · exact ⟨⟨e, ((hL.around_sub p hp f h1).2 e h2).2.1, h3⟩, h4⟩
      · rintro ⟨⟨e, h1, h2⟩, h3⟩; exact .inl (.inr ⟨e, (hL.present_iff p hp e).2 h1, h2, h3⟩)

omit hL hC in
/-- The local indices of the basis functions of an object. -/
theorem local_eq {o : Obj} (ho : m.Owns p o) {u : Nat} (hu : u ∈ requested m unkR) {i : Nat} (hi : i < m.count o u) :
    (R p).local ⟨o, u, i⟩ = stR (R p) o u + i ∧ stR (R p) o u + m.count o u ≤ (R p).localNumber := by
  have hb := hR.locals p hp
  have hmem : ∀ i, i < m.count o u → (⟨o, u, i⟩ : Dof) ∈ m.dofs (requested m unkR) p := fun i hi => ⟨ho, hu, hi⟩
  have h0 := (hb.mapsTo (hmem 0 (by omega))).1
  have hl := (hb.mapsTo (hmem (m.count o u - 1) (by omega))).2
  simp only [State.local] at h0 hl ⊢
  unfold stR
  constructor
  · omega
  · omega

omit hL hC in
theorem iv_unique {o o' : Obj} (ho : m.Owns p o) (ho' : m.Owns p o') {u u' : Nat} (hu : u ∈ requested m unkR)
    (hu' : u' ∈ requested m unkR) {i : Nat} (hi : inI (toLex (stR (R p) o u, m.count o u)) i)
    (hi' : inI (toLex (stR (R p) o' u', m.count o' u')) i) : o = o' ∧ u = u' := by
  simp only [inI, ofLex_toLex] at hi hi'
  have e1 := (local_eq hm hg hR hp ho hu (i := i - stR (R p) o u) (by omega)).1
  have e2 := (local_eq hm hg hR hp ho' hu' (i := i - stR (R p) o' u') (by omega)).1
  have : (⟨o, u, i - stR (R p) o u⟩ : Dof) = ⟨o', u', i - stR (R p) o' u'⟩ :=
    (hR.locals p hp).injOn ⟨ho, hu, by dsimp only; omega⟩ ⟨ho', hu', by dsimp only; omega⟩ (by rw [e1, e2]; omega)
  injection this with a b; exact ⟨a, b⟩

/-- Whether the estimate stops, and what it returns. -/
theorem estimate_aux (t : Table2D) (hr : t.rows = (R p).included.length) (hc : t.cols = (C p).included.length)
    (hn : (R p).localNumber ≠ 0) :
    (estimate m P (R p) (C p) t p = none ↔ t.any = true ∧ (∃ f ∈ P.faces p, P.subdomain p f = true) ∧
      ∃ i < t.rows, ∃ j < t.cols, t.get i j = true ∧ ∃ o, TOn m p unkR o i ∧ m.count o i ≠ 0 ∧ o.kind ≠ .element) ∧
    ∀ own non, estimate m P (R p) (C p) t p = some (own, non) → own.length = (R p).localNumber ∧ non.length = (R p).localNumber ∧
      ∀ d ∈ m.dofs (requested m unkR) p,
        own[((R p).local d).toNat]? = some {d' | d' ∈ m.dofs (requested m unkC) p ∧
          CoupledOn m P p (t.Couples m unkR unkC) d d'}.ncard ∧
        non[((R p).local d).toNat]? = some {d' | AllDofs m unkC d' ∧ d' ∉ m.dofs (requested m unkC) p ∧
          CoupledOn m P p (t.Couples m unkR unkC) d d'}.ncard := by
  obtain ⟨x, y, hx, hy, iy⟩ := est_loops hm hg hL hR hC hp t hr hc
  have hkeys : ∀ k, (∃ o u, TOn m p unkR o u ∧ m.count o u ≠ 0 ∧ ownsObj m p o = true ∧ k = toLex (stR (R p) o u, m.count o u)) →
      ∃ o u, m.Owns p o ∧ u ∈ requested m unkR ∧ m.count o u ≠ 0 ∧ k = toLex (stR (R p) o u, m.count o u) := by
    rintro k ⟨o, u, ⟨⟨e, he, ho⟩, hu⟩, h1, h2, h3⟩
    exact ⟨o, u, (ownsObj_iff hm hg hp he ho).1 h2, hu, h1, h3⟩
  have hbound : ∀ k, (∃ o u, m.Owns p o ∧ u ∈ requested m unkR ∧ m.count o u ≠ 0 ∧ k = toLex (stR (R p) o u, m.count o u)) →
      (ofLex k).1 + (ofLex k).2 ≤ (R p).localNumber := by
    rintro k ⟨o, u, h1, h2, h3, rfl⟩
    exact (local_eq hm hg hR hp h1 h2 (i := 0) (by omega)).2
  have huniq : ∀ k k', (∃ o u, m.Owns p o ∧ u ∈ requested m unkR ∧ m.count o u ≠ 0 ∧ k = toLex (stR (R p) o u, m.count o u)) →
      (∃ o u, m.Owns p o ∧ u ∈ requested m unkR ∧ m.count o u ≠ 0 ∧ k' = toLex (stR (R p) o u, m.count o u)) →
      ∀ i, inI k i → inI k' i → k = k' := by
    rintro k k' ⟨o, u, h1, h2, h3, rfl⟩ ⟨o', u', h1', h2', h3', rfl⟩ i hi hi'
    obtain ⟨rfl, rfl⟩ := iv_unique hm hg hR hp h1 h1' h2 h2' hi hi'
    rfl
  obtain ⟨a, ha, hal, haw⟩ := write_spec y.owned (R p).localNumber (fun k hk => hbound k (hkeys k (iy.keys k hk)))
    (fun k hk k' hk' => huniq k k' (hkeys k (iy.keys k hk)) (hkeys k' (iy.keys k' hk'))) iy.hval
  obtain ⟨b, hb, hbl, hbw⟩ := write_spec y.nonOwned (R p).localNumber (fun k hk => hbound k (hkeys k (iy.nkeys k hk)))
    (fun k hk k' hk' => huniq k k' (hkeys k (iy.nkeys k hk)) (hkeys k' (iy.nkeys k' hk'))) iy.hnval
  have hest : estimate m P (R p) (C p) t p =
      if t.any && (P.faces p).any (P.subdomain p) && stops t t.rows t.cols y.row then none else some (a, b) := by
    unfold estimate
    rw [if_neg (by rw [hr, hc]; simp), if_neg hn, hx]
    cases hta : t.any
    · simp only [hta, Bool.false_eq_true, if_false, Option.some.injEq] at hy
      subst hy
      simp [ha, hb]
    · simp only [hta, if_true] at hy
      simp only [Option.bind_eq_bind, Option.bind_some, if_true, hy, ha, hb]
  constructor
  · rw [hest]
    have : stops t t.rows t.cols y.row = true ↔ ∃ i < t.rows, ∃ j < t.cols, t.get i j = true ∧
        ∃ o, TOn m p unkR o i ∧ m.count o i ≠ 0 ∧ o.kind ≠ .element := by
      simp only [stops, List.any_eq_true, List.mem_range, Bool.and_eq_true, Bool.not_eq_true', iy.only]
    rw [← this]
    simp only [ite_eq_left_iff, reduceCtorEq, imp_false, not_not, Bool.and_eq_true, List.any_eq_true, and_assoc]
  · intro own non h
    rw [hest] at h
    split_ifs at h
    simp only [Option.some.injEq, Prod.mk.injEq] at h
    obtain ⟨rfl, rfl⟩ := h
    refine ⟨hal, hbl, fun d hd => ?_⟩
    obtain ⟨ho, hu, hi⟩ := id hd
    obtain ⟨l1, l2⟩ := local_eq hm hg hR hp ho hu hi
    have hloc : ((R p).local d).toNat = stR (R p) d.obj d.unknown + d.index := by
      have : (R p).local d = _ := l1
      rw [this]; omega
    set k : Interval := toLex (stR (R p) d.obj d.unknown, m.count d.obj d.unknown) with hk
    have hin : inI k (stR (R p) d.obj d.unknown + d.index) := by
      simp only [inI, hk, ofLex_toLex]; omega
    have hkk : ∃ o u, m.Owns p o ∧ u ∈ requested m unkR ∧ m.count o u ≠ 0 ∧ k = toLex (stR (R p) o u, m.count o u) :=
      ⟨_, _, ho, hu, by omega, rfl⟩
    have hside : ∀ K : Finset Interval, (∀ k ∈ K, ∃ o u, TOn m p unkR o u ∧ m.count o u ≠ 0 ∧ ownsObj m p o = true ∧ k = toLex (stR (R p) o u, m.count o u)) →
        k ∈ K ∨ ∀ k' ∈ K, ¬ inI k' (stR (R p) d.obj d.unknown + d.index) := by
      intro K hK
      by_cases hkK : k ∈ K
      · exact .inl hkK
      · refine .inr fun k' hk' hi' => hkK ?_
        rw [huniq k k' hkk (hkeys k' (hK k' hk')) _ hin hi']; exact hk'
    have hdo : ∃ e, m.Has p e ∧ d.obj ∈ objects m e := by
      obtain ⟨e, h1, h2⟩ := objects_of_owns hm hg hp ho; exact ⟨e, .inl h1, h2⟩
    have hobj : ∀ o u o' u', WOn m P p unkR unkC t o u o' u' → (∃ e, m.Has p e ∧ o ∈ objects m e) ∧ ∃ e, m.Has p e ∧ o' ∈ objects m e := by
      rintro o u o' u' ⟨_, _, ⟨e, h1, h2, h3⟩ | ⟨_, f, h1, e, h2, e', h2', h3, h3'⟩⟩
      · exact ⟨⟨e, (hL.present_iff p hp e).1 h1, h2⟩, ⟨e, (hL.present_iff p hp e).1 h1, h3⟩⟩
      · exact ⟨⟨e, ((hL.around_sub p hp f h1).2 e h2).2.1, h3⟩, ⟨e', ((hL.around_sub p hp f h1).2 e' h2').2.1, h3'⟩⟩
    have hk2 : ∀ o u o' u', WOn m P p unkR unkC t o u o' u' → m.count o u ≠ 0 → ownsObj m p o = true →
        k = toLex (stR (R p) o u, m.count o u) → o = d.obj ∧ u = d.unknown := by
      intro o u o' u' hw h1 h2 h3
      obtain ⟨⟨e, he, hoe⟩, _⟩ := hobj _ _ _ _ hw
      obtain ⟨q1, q2⟩ := iv_unique hm hg hR hp ho ((ownsObj_iff hm hg hp he hoe).1 h2) hu hw.1 hin (by rw [← h3]; exact hin)
      exact ⟨q1.symm, q2.symm⟩
    have hdow : ownsObj m p d.obj = true := by
      obtain ⟨e, he, hoe⟩ := hdo
      exact (ownsObj_iff hm hg hp he hoe).2 ho
    rw [hloc]
    constructor
    · rw [haw k _ (by omega) hin (hside _ iy.keys), sum_sizes hC.start hC.inj (y.owned.val k)
        (fun o' u' => WOn m P p unkR unkC t d.obj d.unknown o' u' ∧ ownsObj m p o' = true)]
      · congr 2
        ext d'
        simp only [Set.mem_ofPred_eq]
        constructor
        · rintro ⟨⟨hw, how⟩, hi'⟩
          obtain ⟨_, e, he, hoe⟩ := hobj _ _ _ _ hw
          exact ⟨⟨(ownsObj_iff hm hg hp he hoe).1 how, hw.2.1, hi'⟩, hw.2.2⟩
        · rintro ⟨⟨h1, h2, h3⟩, h4⟩
          have hw : WOn m P p unkR unkC t d.obj d.unknown d'.obj d'.unknown := ⟨hu, h2, h4⟩
          obtain ⟨_, e, he, hoe⟩ := hobj _ _ _ _ hw
          exact ⟨⟨hw, (ownsObj_iff hm hg hp he hoe).2 h1⟩, h3⟩
      · intro c
        rw [iy.val]
        constructor
        · rintro ⟨o, u, o', u', hw, h1, h2, h3, h4, h5, h6⟩
          obtain ⟨rfl, rfl⟩ := hk2 o u o' u' hw h1 h2 h5
          exact ⟨o', u', ⟨hw, h4⟩, h3, h6⟩
        · rintro ⟨o', u', ⟨hw, h4⟩, h3, h6⟩
          exact ⟨d.obj, d.unknown, o', u', hw, by omega, hdow, h3, h4, rfl, h6⟩
      · rintro o' u' ⟨hw, how⟩ i hi'
        obtain ⟨_, e, he, hoe⟩ := hobj _ _ _ _ hw
        exact ⟨p, hp, (ownsObj_iff hm hg hp he hoe).1 how, hw.2.1, hi'⟩
    · rw [hbw k _ (by omega) hin (hside _ iy.nkeys), sum_sizes hC.start hC.inj (y.nonOwned.val k)
        (fun o' u' => WOn m P p unkR unkC t d.obj d.unknown o' u' ∧ ownsObj m p o' = false)]
      · congr 2
        ext d'
        simp only [Set.mem_ofPred_eq]
        constructor
        · rintro ⟨⟨hw, how⟩, hi'⟩
          obtain ⟨_, e, he, hoe⟩ := hobj _ _ _ _ hw
          obtain ⟨q, hq, hoq⟩ := hC.owner p hp e he _ hoe
          refine ⟨⟨q, hq, hoq, hw.2.1, hi'⟩, fun h => ?_, hw.2.2⟩
          rw [(ownsObj_iff hm hg hp he hoe).2 h.1] at how; cases how
        · rintro ⟨⟨q, hq, h1, h2, h3⟩, h0, h4⟩
          have hw : WOn m P p unkR unkC t d.obj d.unknown d'.obj d'.unknown := ⟨hu, h2, h4⟩
          obtain ⟨_, e, he, hoe⟩ := hobj _ _ _ _ hw
          refine ⟨⟨hw, ?_⟩, h3⟩
          cases how : ownsObj m p d'.obj
          · rfl
          · exact absurd ⟨(ownsObj_iff hm hg hp he hoe).1 how, h2, h3⟩ h0
      · intro c
        rw [iy.nval]
        constructor
        · rintro ⟨o, u, o', u', hw, h1, h2, h3, h4, h5, h6⟩
          obtain ⟨rfl, rfl⟩ := hk2 o u o' u' hw h1 h2 h5
          exact ⟨o', u', ⟨hw, h4⟩, h3, h6⟩
        · rintro ⟨o', u', ⟨hw, h4⟩, h3, h6⟩
          exact ⟨d.obj, d.unknown, o', u', hw, by omega, hdow, h3, h4, rfl, h6⟩
      · rintro o' u' ⟨hw, how⟩ i hi'
        obtain ⟨_, e, he, hoe⟩ := hobj _ _ _ _ hw
        obtain ⟨q, hq, hoq⟩ := hC.owner p hp e he _ hoe
        exact ⟨q, hq, hoq, hw.2.1, hi'⟩

end
end Verif.Assembly
