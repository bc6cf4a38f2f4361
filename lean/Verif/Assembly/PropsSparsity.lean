import Verif.Assembly.LemmasCount
import Verif.Assembly.Props
import Verif.Assembly.Example
import Mathlib.Data.Set.Finite.Lattice
import Mathlib.Order.Interval.Set.Basic
import Mathlib.Data.Int.Interval

/-! # Properties of the sparsity estimate -/
namespace Verif.Assembly
open GlobalIndexing

section
variable (m : Mesh) (hm : m.Valid) (hg : m.Ghosts) (h0 : 0 < m.unknowns) (P : Parts) (hL : Layer m P)
  (lR lC : Layout) (unkR unkC : Option (List Nat)) (R C : Nat → State)
  (hR : Indexing m lR unkR R) (hC : Indexing m lC unkC C) (p : Nat) (hp : p < m.ranks)
include hm hg h0 hL hR hC hp

/-- C34. The estimate is refused exactly if the table of couplings has the wrong size, or if the rank has rows, a face
on the boundary of its part, and a coupling of the unknown at position `i` such that the unknown with the number `i` is
included and has basis functions on faces, edges or nodes. (The number `i` should be that of the unknown at
position `i`.) -/
theorem estimate_none_iff (t : Table2D) : estimate m P (R p) (C p) t p = none ↔
    t.rows ≠ (requested m unkR).length ∨ t.cols ≠ (requested m unkC).length ∨
    ((∃ d, d ∈ m.dofs (requested m unkR) p) ∧ (∃ f ∈ P.faces p, P.subdomain p f = true) ∧
      ∃ i < t.rows, ∃ j < t.cols, t.get i j = true ∧ i ∈ requested m unkR ∧
        ∃ e, m.Has p e ∧ ∃ o ∈ objects m e, o.kind ≠ .element ∧ m.count o i ≠ 0) := by
  obtain ⟨gR, fR⟩ := hR.facts hm hg h0
  obtain ⟨gC, fC⟩ := hC.facts hm hg h0
  have e1 : (R p).included.length = (requested m unkR).length := by
    rw [fR.included p hp, order, List.length_mergeSort]
  have e2 : (C p).included.length = (requested m unkC).length := by
    rw [fC.included p hp, order, List.length_mergeSort]
  by_cases hr : t.rows = (requested m unkR).length
  · by_cases hc : t.cols = (requested m unkC).length
    · have hrn : (R p).localNumber ≠ 0 ↔ ∃ d, d ∈ m.dofs (requested m unkR) p := by
        have hb := fR.locals p hp
        constructor
        · intro hn
          obtain ⟨d, hd, _⟩ := hb.surjOn (show (0 : Int) ∈ {l : Int | 0 ≤ l ∧ l < (R p).localNumber} from
            ⟨le_refl _, by omega⟩)
          exact ⟨d, hd⟩
        · rintro ⟨d, hd⟩ hn
          have := hb.mapsTo hd
          simp only [Set.mem_ofPred_eq] at this
          omega
      by_cases hn : (R p).localNumber = 0
      · have : ¬ ∃ d, d ∈ m.dofs (requested m unkR) p := fun h => hrn.2 h hn
        have he : estimate m P (R p) (C p) t p = some ([], []) := by
          unfold estimate
          rw [if_neg (by rw [hr, hc, e1, e2]; simp), if_pos hn]
        rw [he]
        simp only [reduceCtorEq, hr, hc, ne_eq, not_true_eq_false, false_or, false_iff]
        exact fun h => this h.1
      · rw [(estimate_aux hm hg hL fR fC hp t (hr.trans e1.symm) (hc.trans e2.symm) hn).1]
        simp only [hr, hc, ne_eq, not_true_eq_false, false_or]
        constructor
        · rintro ⟨_, hs, i, hi, j, hj, hij, o, ⟨⟨e, he, ho⟩, hu⟩, h1, h2⟩
          exact ⟨hrn.1 hn, hs, i, hi, j, hj, hij, hu, e, he, o, ho, h2, h1⟩
        · rintro ⟨_, hs, i, hi, j, hj, hij, hu, e, he, o, ho, h2, h1⟩
          exact ⟨Table2D.any_of_get (hr ▸ hi) (hc ▸ hj) hij, hs, i, hi, j, hj, hij, o, ⟨⟨e, he, ho⟩, hu⟩, h1, h2⟩
    · have he : estimate m P (R p) (C p) t p = none := by
        unfold estimate; rw [if_pos (.inr (by rw [e2]; exact hc))]
      simp [he, hc]
  · have he : estimate m P (R p) (C p) t p = none := by
      unfold estimate; rw [if_pos (.inl (by rw [e1]; exact hr))]
    simp [he, hr]

/-- C34. What the estimate counts: for the row of a basis function `d` of this rank the numbers are exactly those of the
columns, of this rank and of the others, that elements and faces known to this rank couple to `d`. -/
theorem estimate_exact (t : Table2D) (own non : List Nat) (h : estimate m P (R p) (C p) t p = some (own, non)) :
    own.length = (R p).localNumber ∧ non.length = (R p).localNumber ∧ ∀ d ∈ m.dofs (requested m unkR) p,
      own[((R p).local d).toNat]? = some {d' | d' ∈ m.dofs (requested m unkC) p ∧
        CoupledOn m P p (t.Couples m unkR unkC) d d'}.ncard ∧
      non[((R p).local d).toNat]? = some {d' | AllDofs m unkC d' ∧ d' ∉ m.dofs (requested m unkC) p ∧
        CoupledOn m P p (t.Couples m unkR unkC) d d'}.ncard := by
  obtain ⟨gR, fR⟩ := hR.facts hm hg h0
  obtain ⟨gC, fC⟩ := hC.facts hm hg h0
  have hdim : t.rows = (R p).included.length ∧ t.cols = (C p).included.length := by
    by_contra hcon
    have : estimate m P (R p) (C p) t p = none := by unfold estimate; rw [if_pos (by tauto)]
    rw [this] at h; cases h
  by_cases hn : (R p).localNumber = 0
  · have he : estimate m P (R p) (C p) t p = some ([], []) := by
      unfold estimate; rw [if_neg (by tauto), if_pos hn]
    rw [he] at h
    simp only [Option.some.injEq, Prod.mk.injEq] at h
    obtain ⟨rfl, rfl⟩ := h
    refine ⟨by simp [hn], by simp [hn], fun d hd => ?_⟩
    have := (fR.locals p hp).mapsTo hd
    simp only [Set.mem_ofPred_eq] at this
    omega
  · exact (estimate_aux hm hg hL fR fC hp t hdim.1 hdim.2 hn).2 own non h

omit h0 hR hC in
/-- All couplings of a basis function of the rank are through elements and faces known to the rank, if the basis
function belongs to an element, or its unknown has no couplings through faces, or there is only one rank. -/
theorem coupled_iff (F : Nat → Nat → Prop) (d d' : Dof) (hd : d ∈ m.dofs (requested m unkR) p)
    (hv : d.obj.kind = .element ∨ (∀ u', ¬ F d.unknown u') ∨ m.ranks = 1) :
    Coupled m F d d' ↔ CoupledOn m P p F d d' := by
  have hfp : ∀ f e, e ∈ m.adj .face f → e ∈ m.owned p → f ∈ m.sub .face e → f ∈ P.faces p ∧ P.around p f = m.adj .face f := by
    intro f e h1 h2 h3
    have := hL.faces_own p hp e h2 f h3
    exact ⟨this, hL.around_own p hp f this e h1 h2⟩
  constructor
  · rintro (⟨e, he, h1, h2⟩ | ⟨hF, f, hf, e, he, e', he', h1, h2⟩)
    · exact .inl ⟨e, (hL.present_iff p hp e).2 (has_of_owns hm hg hp hd.1 he h1), h1, h2⟩
    · obtain ⟨q, hq, e0, he0, hfe0⟩ := mem_faces.1 hf
      obtain ⟨a1, a2, a3⟩ := hg.sub_of_adj q hq e0 he0 .face f hfe0 e he
      have hfin : f ∈ P.faces p ∧ P.around p f = m.adj .face f := by
        rcases hv with hv | hv | hv
        · have hobj : d.obj = ⟨.element, e⟩ := by
            simp only [objects, List.cons_append, List.mem_cons, List.mem_append, List.mem_map] at h1
            rcases h1 with h1 | (⟨x, hx, h1⟩ | ⟨x, hx, h1⟩) | h1
            · exact h1
            · rw [← h1] at hv; cases hv
            · rw [← h1] at hv; cases hv
            · split_ifs at h1 with hdim
              · obtain ⟨x, hx, h1⟩ := List.mem_map.1 h1
                rw [← h1] at hv; cases hv
              · simp at h1
          have hown : e ∈ m.owned p := by
            have := hd.1; rw [hobj] at this; exact this
          exact hfp f e he hown a3
        · exact absurd hF (hv _)
        · have e1 : m.owner e = p := by omega
          rw [e1] at a2
          exact hfp f e he a2 a3
      refine .inr ⟨hF, f, hfin.1, e, ?_, e', ?_, h1, h2⟩
      · rw [hfin.2]; exact he
      · rw [hfin.2]; exact he'
  · rintro (⟨e, he, h1, h2⟩ | ⟨hF, f, hf, e, he, e', he', h1, h2⟩)
    · exact .inl ⟨e, mem_elements.2 (has_owner hm hg hp ((hL.present_iff p hp e).1 he)), h1, h2⟩
    · obtain ⟨b1, b2, b3⟩ := (hL.around_sub p hp f hf).2 e he
      obtain ⟨q, hq, heq⟩ := has_owner hm hg hp b2
      exact .inr ⟨hF, f, mem_faces.2 ⟨q, hq, e, heq, b3⟩, e, b1, e', ((hL.around_sub p hp f hf).2 e' he').1, h1, h2⟩

/-- C34. If the unknown at each position has that number, as when all unknowns are included, and a distributed mesh
has on this rank a face at the boundary of its part, then the numbers are exactly those of the columns coupled by any
element or face of the mesh. Missing for the full property: other selections of unknowns, for which it is false
(`estimate_too_small`). -/
theorem estimate_bound_partial (t : Table2D) (own non : List Nat)
    (h : estimate m P (R p) (C p) t p = some (own, non))
    (hpos : ∀ i u : Nat, (order m unkR)[i]? = some u → u = i)
    (hdist : m.ranks = 1 ∨ ∃ f ∈ P.faces p, P.subdomain p f = true) :
    ∀ d ∈ m.dofs (requested m unkR) p,
      own[((R p).local d).toNat]? = some {d' | d' ∈ m.dofs (requested m unkC) p ∧
        Coupled m (t.Couples m unkR unkC) d d'}.ncard ∧
      non[((R p).local d).toNat]? = some {d' | AllDofs m unkC d' ∧ d' ∉ m.dofs (requested m unkC) p ∧
        Coupled m (t.Couples m unkR unkC) d d'}.ncard := by
  intro d hd
  have hv : d.obj.kind = .element ∨ (∀ u', ¬ t.Couples m unkR unkC d.unknown u') ∨ m.ranks = 1 := by
    rcases hdist with h1 | h1
    · exact .inr (.inr h1)
    · by_contra hcon
      push Not at hcon
      obtain ⟨hk, ⟨u', i, j, hi, hj, hij⟩, _⟩ := hcon
      have hui := hpos i _ hi
      have : estimate m P (R p) (C p) t p = none := by
        rw [estimate_none_iff m hm hg h0 P hL lR lC unkR unkC R C hR hC p hp t]
        by_cases a1 : t.rows = (requested m unkR).length
        · by_cases a2 : t.cols = (requested m unkC).length
          · obtain ⟨e, he, ho⟩ := objects_of_owns hm hg hp hd.1
            have := hd.2.2
            refine .inr (.inr ⟨⟨d, hd⟩, h1, i, ?_, j, ?_, hij, ?_, e, .inl he, d.obj, ho, hk, ?_⟩)
            · have := (List.getElem?_eq_some_iff.1 hi).1
              rwa [order, List.length_mergeSort, ← a1] at this
            · have := (List.getElem?_eq_some_iff.1 hj).1
              rwa [order, List.length_mergeSort, ← a2] at this
            · rw [← hui]; exact hd.2.1
            · rw [← hui]; omega
          · exact .inr (.inl a2)
        · exact .inl a1
      rw [this] at h; cases h
  have := (estimate_exact m hm hg h0 P hL lR lC unkR unkC R C hR hC p hp t own non h).2.2 d hd
  simpa only [coupled_iff m hm hg P hL unkR p hp (t.Couples m unkR unkC) d _ hd hv] using this

end

/-- The basis functions of a selection are finitely many. -/
theorem allDofs_finite {m : Mesh} {unk : Option (List Nat)} {s : Nat → State} {g : Dof → Nat} (F : Facts m unk s g) :
    {d | AllDofs m unk d}.Finite := by
  have : {d | AllDofs m unk d} = ⋃ p ∈ Finset.range m.ranks, m.dofs (requested m unk) p := by
    ext d; simp [AllDofs]
  rw [this]
  refine Set.Finite.biUnion (Finset.finite_toSet _) fun p hp => ?_
  have hb := F.locals p (by simpa using hp)
  refine Set.Finite.of_finite_image (f := (s p).local) ?_ hb.injOn
  rw [hb.image_eq]
  exact Set.finite_Ico (0 : Int) _

section
variable {α : Type} [AddCommMonoid α] (m : Mesh) (hm : m.Valid) (hg : m.Ghosts) (h0 : 0 < m.unknowns) (P : Parts)
  (hL : Layer m P) (lR lC : Layout) (unkR unkC : Option (List Nat)) (R C : Nat → State)
  (hR : Indexing m lR unkR R) (hC : Indexing m lC unkC C) (I : Input α) (hI : I.Fits m unkR unkC)
  (hs : I.symmetric = true → unkR = unkC ∧ R = C) (t : Table2D)
  (hZ : ∀ f ∈ faces m, ∀ a b d c, (faceDofs m unkR f)[a]? = some d → (faceDofs m unkC f)[b]? = some c →
    (I.faceMatrix f).entry a b ≠ 0 → t.Couples m unkR unkC d.unknown c.unknown)
  (calls : Nat → List (Call α)) (hcalls : ∀ p < m.ranks, assembleCalls m P I (R p) (C p) p = some (calls p))
  (all : List (Call α)) (hall : all.Perm ((List.range m.ranks).flatMap calls))
include hm hg h0 hL hR hC hI hs hZ hcalls hall

/-- C34. Assembly writes non-zero values only at coupled pairs of basis functions, if the entries of the face
matrices for unknowns without coupling are zero. -/
theorem nonzero_coupled (p q : Nat) (hp : p < m.ranks) (hq : q < m.ranks) (d c : Dof)
    (hd : d ∈ m.dofs (requested m unkR) p) (hc : c ∈ m.dofs (requested m unkC) q)
    (h : assembled all ((R p).global d) ((C q).global c) ≠ 0) : Coupled m (t.Couples m unkR unkC) d c := by
  obtain ⟨calls', h1, h2⟩ := assemble_sum m hm hg h0 P hL lR lC unkR unkC R C hR hC I hI hs
  have hall' : all.Perm ((List.range m.ranks).flatMap calls') := by
    refine hall.trans (List.Perm.of_eq (List.flatMap_congr fun p hp => ?_))
    have := h1 p (List.mem_range.1 hp)
    rw [hcalls p (List.mem_range.1 hp)] at this
    exact Option.some.inj this
  rw [(h2 all hall').1 p hp q hq d hd c hc] at h
  have key : ∀ (M : LocalMatrix α) rows cols, contribution M rows cols d c ≠ 0 →
      ∃ a b, rows[a]? = some d ∧ cols[b]? = some c ∧ M.entry a b ≠ 0 := by
    intro M rows cols hne
    obtain ⟨a, _, ha⟩ := Finset.exists_ne_zero_of_sum_ne_zero hne
    obtain ⟨b, _, hb⟩ := Finset.exists_ne_zero_of_sum_ne_zero ha
    by_cases hab : rows[a]? = some d ∧ cols[b]? = some c
    · rw [if_pos hab] at hb; exact ⟨a, b, hab.1, hab.2, hb⟩
    · rw [if_neg hab] at hb; exact absurd rfl hb
  by_cases hE : (if I.useElements then ∑ e ∈ elements m,
      contribution (I.elementMatrix e) (localDofs m unkR e) (localDofs m unkC e) d c else 0) = 0
  · rw [hE, zero_add] at h
    split_ifs at h with hu
    · obtain ⟨f, hf, hne⟩ := Finset.exists_ne_zero_of_sum_ne_zero h
      obtain ⟨a, b, ha, hb, hab⟩ := key _ _ _ hne
      obtain ⟨e, he, hde⟩ := List.mem_flatMap.1 (List.mem_of_getElem? ha)
      obtain ⟨e', he', hce⟩ := List.mem_flatMap.1 (List.mem_of_getElem? hb)
      exact .inr ⟨hZ f hf a b d c ha hb hab, f, hf, e, he, e', he', (mem_localDofs.1 hde).1, (mem_localDofs.1 hce).1⟩
    · exact absurd rfl h
  · split_ifs at hE with hu
    · obtain ⟨e, he, hne⟩ := Finset.exists_ne_zero_of_sum_ne_zero hE
      obtain ⟨a, b, ha, hb, hab⟩ := key _ _ _ hne
      exact .inl ⟨e, he, (mem_localDofs.1 (List.mem_of_getElem? ha)).1, (mem_localDofs.1 (List.mem_of_getElem? hb)).1⟩
    · exact absurd rfl hE

/-- C34. The estimate leaves room for all values: in the row of any basis function the number of non-zero values in
columns of this rank is at most the first number, that in the other columns at most the second number. Missing for the
full property: selections of unknowns in which the unknown at position `i` is not `i`. -/
theorem estimate_suffices_partial (p : Nat) (hp : p < m.ranks) (own non : List Nat)
    (h : estimate m P (R p) (C p) t p = some (own, non))
    (hpos : ∀ i u : Nat, (order m unkR)[i]? = some u → u = i)
    (hdist : m.ranks = 1 ∨ ∃ f ∈ P.faces p, P.subdomain p f = true) (d : Dof)
    (hd : d ∈ m.dofs (requested m unkR) p) :
    ∃ a b, own[((R p).local d).toNat]? = some a ∧ non[((R p).local d).toNat]? = some b ∧
      {j | (∃ c ∈ m.dofs (requested m unkC) p, (C p).global c = j) ∧ assembled all ((R p).global d) j ≠ 0}.ncard ≤ a ∧
      {j | (¬ ∃ c ∈ m.dofs (requested m unkC) p, (C p).global c = j) ∧
        assembled all ((R p).global d) j ≠ 0}.ncard ≤ b := by
  obtain ⟨h1, h2⟩ := estimate_bound_partial m hm hg h0 P hL lR lC unkR unkC R C hR hC p hp t own non h hpos hdist d hd
  refine ⟨_, _, h1, h2, ?_, ?_⟩
  all_goals obtain ⟨gC, fC⟩ := hC.facts hm hg h0
  all_goals have hfin := allDofs_finite fC
  · have hfin1 : {d' | d' ∈ m.dofs (requested m unkC) p ∧ Coupled m (t.Couples m unkR unkC) d d'}.Finite :=
      hfin.subset fun d' hd' => ⟨p, hp, hd'.1⟩
    refine (Set.ncard_le_ncard (t := gC '' _) ?_ (hfin1.image gC)).trans (Set.ncard_image_le hfin1)
    rintro j ⟨⟨c, hc, rfl⟩, hne⟩
    exact ⟨c, ⟨hc, nonzero_coupled m hm hg h0 P hL lR lC unkR unkC R C hR hC I hI hs t hZ calls hcalls all hall p p hp hp d c
      hd hc hne⟩, (fC.global p hp c hc).symm⟩
  · have hfin1 : {d' | AllDofs m unkC d' ∧ d' ∉ m.dofs (requested m unkC) p ∧
        Coupled m (t.Couples m unkR unkC) d d'}.Finite := hfin.subset fun d' hd' => hd'.1
    refine (Set.ncard_le_ncard (t := gC '' _) ?_ (hfin1.image gC)).trans (Set.ncard_image_le hfin1)
    rintro j ⟨hno, hne⟩
    obtain ⟨q, hq, c, hc, rfl⟩ : ∃ q < m.ranks, ∃ c ∈ m.dofs (requested m unkC) q, (C q).global c = j := by
      by_contra hcon
      obtain ⟨calls', g1, g2⟩ := assemble_sum m hm hg h0 P hL lR lC unkR unkC R C hR hC I hI hs
      have hall' : all.Perm ((List.range m.ranks).flatMap calls') := by
        refine hall.trans (List.Perm.of_eq (List.flatMap_congr fun p hp => ?_))
        have := g1 p (List.mem_range.1 hp)
        rw [hcalls p (List.mem_range.1 hp)] at this
        exact Option.some.inj this
      exact hne ((g2 all hall').2 _ _ (.inr hcon))
    refine ⟨c, ⟨⟨q, hq, hc⟩, fun hcp => hno ⟨c, hcp, ?_⟩,
      nonzero_coupled m hm hg h0 P hL lR lC unkR unkC R C hR hC I hI hs t hZ calls hcalls all hall p q hp hq d c
      hd hc hne⟩, (fC.global q hq c hc).symm⟩
    rw [fC.global p hp c hcp, fC.global q hq c hc]

end

/-! ### The wrong index -/

/-- The table of couplings for one unknown that is coupled to itself. -/
def oneCoupling : Table2D := ⟨1, 1, [true]⟩

/-- C34, violated. On three intervals in a row on three ranks, for the second unknown alone, which has its basis
functions on the end points, the estimate on rank 0 does not stop, but the number of columns of other ranks for the
basis function at the second end point is too small: that of the fourth end point is missing. -/
theorem estimate_too_small (layout : Layout) : ∃ s, Indexing row3 layout (some [1]) s ∧
    ∃ own non, estimate row3 row3Parts (s 0) (s 0) oneCoupling 0 = some (own, non) ∧
      ∃ d ∈ row3.dofs [1] 0, ∃ n, non[((s 0).local d).toNat]? = some n ∧
        n < {d' | AllDofs row3 (some [1]) d' ∧ d' ∉ row3.dofs [1] 0 ∧
          Coupled row3 (oneCoupling.Couples row3 (some [1]) (some [1])) d d'}.ncard := by
  obtain ⟨s, hs⟩ := exists_indexing row3 row3_valid (by decide) row3_ghosts layout (some [1]) (by simp [requested])
    (by rintro l hl; cases hl; decide)
  refine ⟨s, hs, ?_⟩
  have hp : 0 < row3.ranks := by decide
  have hnn : estimate row3 row3Parts (s 0) (s 0) oneCoupling 0 ≠ none := by
    rw [Ne, estimate_none_iff row3 row3_valid row3_ghosts (by decide) row3Parts row3_layer layout layout (some [1])
      (some [1]) s s hs hs 0 hp]
    simp only [requested, oneCoupling, List.length_singleton, ne_eq, not_true_eq_false, false_or, List.mem_singleton]
    rintro ⟨_, _, i, hi, j, hj, _, hi1, _⟩
    omega
  obtain ⟨⟨own, non⟩, hest⟩ := Option.ne_none_iff_exists'.1 hnn
  refine ⟨own, non, hest, ⟨⟨.face, 1⟩, 1, 0⟩, ⟨⟨0, by decide, by decide, by decide⟩, by decide, by decide⟩, _,
    ((estimate_exact row3 row3_valid row3_ghosts (by decide) row3Parts row3_layer layout layout (some [1]) (some [1]) s s hs hs
      0 hp oneCoupling own non hest).2.2 ⟨⟨.face, 1⟩, 1, 0⟩ ⟨⟨0, by decide, by decide, by decide⟩, by decide, by decide⟩).2, ?_⟩
  obtain ⟨g, F⟩ := hs.facts row3_valid row3_ghosts (by decide)
  have hcp : oneCoupling.Couples row3 (some [1]) (some [1]) 1 1 :=
    ⟨0, 0, by simp [order, requested], by simp [order, requested], by decide⟩
  refine Set.ncard_lt_ncard ⟨?_, fun hsub => ?_⟩ ((allDofs_finite F).subset fun d hd => hd.1)
  · rintro d' ⟨h1, h2, h3⟩
    refine ⟨h1, h2, ?_⟩
    rcases h3 with ⟨e, he, a1, a2⟩ | ⟨hF, f, hf, e, he, e', he', a1, a2⟩
    · exact .inl ⟨e, mem_elements.2 (has_owner row3_valid row3_ghosts hp ((row3_layer.present_iff 0 hp e).1 he)), a1, a2⟩
    · obtain ⟨b1, b2, b3⟩ := (row3_layer.around_sub 0 hp f hf).2 e he
      obtain ⟨q, hq, heq⟩ := has_owner row3_valid row3_ghosts hp b2
      exact .inr ⟨hF, f, mem_faces.2 ⟨q, hq, e, heq, b3⟩, e, b1, e', ((row3_layer.around_sub 0 hp f hf).2 e' he').1, a1, a2⟩
  · have hmem : (⟨⟨.face, 3⟩, 1, 0⟩ : Dof) ∈ {d' | AllDofs row3 (some [1]) d' ∧ d' ∉ row3.dofs [1] 0 ∧
        Coupled row3 (oneCoupling.Couples row3 (some [1]) (some [1])) ⟨⟨.face, 1⟩, 1, 0⟩ d'} := by
      refine ⟨⟨2, by decide, ⟨2, by decide, by decide, by decide⟩, by decide, by decide⟩, ?_, .inr ⟨hcp, 2, ?_, 1, by decide, 2,
        by decide, by decide, by decide⟩⟩
      · rintro ⟨⟨e, h1, h2, h3⟩, _⟩
        revert e; decide
      · exact mem_faces.2 ⟨1, by decide, 1, by decide, by decide⟩
    obtain ⟨_, _, h3⟩ := hsub hmem
    rcases h3 with ⟨e, he, a1, a2⟩ | ⟨hF, f, hf, e, he, e', he', a1, a2⟩
    · revert e; decide
    · revert a2 e'
      clear a1 he
      revert f; decide

/-- The hypotheses of `estimate_bound_partial` and `assemble_sum` can be met: three intervals on three ranks, with all
unknowns. -/
example (layout : Layout) : ∃ s, Indexing row3 layout none s ∧ row3.Valid ∧ row3.Ghosts ∧ Layer row3 row3Parts ∧
    (∀ i u : Nat, (order row3 none)[i]? = some u → u = i) ∧ (∃ f ∈ row3Parts.faces 0, row3Parts.subdomain 0 f = true) ∧
    (estimate row3 row3Parts (s 0) (s 0) ⟨2, 2, [true, false, false, false]⟩ 0).isSome := by
  obtain ⟨s, hs⟩ := exists_indexing row3 row3_valid (by decide) row3_ghosts layout none (by decide) (by simp)
  refine ⟨s, hs, row3_valid, row3_ghosts, row3_layer, ?_, ⟨1, by decide, by decide⟩, ?_⟩
  · intro i u h
    have e : order row3 none = [0, 1] := by simp [order, requested, row3, List.range_succ, List.mergeSort, List.merge]
    rw [e] at h
    match i, h with
    | 0, h => simpa using h.symm
    | 1, h => simpa using h.symm
  · rw [Option.isSome_iff_ne_none, Ne, estimate_none_iff row3 row3_valid row3_ghosts (by decide) row3Parts row3_layer layout
      layout none none s s hs hs 0 (by decide)]
    rintro (h | h | ⟨_, _, i, hi, j, hj, hij, _, e, he, o, ho, hk, hc⟩)
    · exact h rfl
    · exact h rfl
    · have : i = 0 ∧ j = 0 := by
        change i < 2 at hi; change j < 2 at hj
        interval_cases i <;> interval_cases j <;> first | decide | (exact absurd hij (by decide))
      obtain ⟨rfl, rfl⟩ := this
      apply hc
      rcases o with ⟨k, x⟩
      cases k
      · exact absurd rfl hk
      · rfl
      · simp [objects, row3] at ho
      · simp [objects, row3] at ho

end Verif.Assembly
