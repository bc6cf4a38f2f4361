import Verif.Bands.LemmasSpectrum
import Mathlib.Analysis.Complex.Norm

set_option linter.all false

/-! # Helpers: the lines along a segment -/
namespace Verif.Bands

variable {d : Nat}

/-! ## The search -/

theorem visit_spec : ∀ (ns c q : List (Point d)) (_ : ∀ p ∈ q, p ∈ c) (_ : c.Nodup) (_ : q.Nodup),
    (visit ns c q).2.Nodup ∧ (visit ns c q).1.Nodup ∧ (∀ p ∈ (visit ns c q).2, p ∈ (visit ns c q).1) ∧
    (∀ p, p ∈ (visit ns c q).1 ↔ p ∈ c ∨ p ∈ ns) ∧
    (∀ p, p ∈ (visit ns c q).2 ↔ p ∈ q ∨ (p ∈ ns ∧ p ∉ c)) ∧
    (visit ns c q).2.length + c.length = (visit ns c q).1.length + q.length := by
  intro ns
  induction ns with
  | nil => intro c q h1 h2 h3; simp [visit]; exact ⟨h3, h2, h1, by omega⟩
  | cons n ns ih =>
    intro c q h1 h2 h3
    have e : visit (n :: ns) c q = if n ∈ c then visit ns c q else visit ns (n :: c) (q ++ [n]) := by
      rw [visit, List.foldl_cons]
      by_cases hn : n ∈ c
      · simp only [if_pos hn]; rfl
      · simp only [if_neg hn]; rfl
    rw [e]
    by_cases hn : n ∈ c
    · rw [if_pos hn]
      obtain ⟨a1, a2, a3, a4, a5, a6⟩ := ih c q h1 h2 h3
      refine ⟨a1, a2, a3, ?_, ?_, a6⟩
      · intro p
        rw [a4]
        constructor
        · rintro (h | h)
          · exact Or.inl h
          · exact Or.inr (List.mem_cons_of_mem _ h)
        · rintro (h | h)
          · exact Or.inl h
          · rcases List.mem_cons.1 h with rfl | h
            · exact Or.inl hn
            · exact Or.inr h
      · intro p
        rw [a5]
        constructor
        · rintro (h | ⟨h, h'⟩)
          · exact Or.inl h
          · exact Or.inr ⟨List.mem_cons_of_mem _ h, h'⟩
        · rintro (h | ⟨h, h'⟩)
          · exact Or.inl h
          · rcases List.mem_cons.1 h with rfl | h
            · exact absurd hn h'
            · exact Or.inr ⟨h, h'⟩
    · rw [if_neg hn]
      have hnq : n ∉ q := fun h => hn (h1 n h)
      obtain ⟨a1, a2, a3, a4, a5, a6⟩ := ih (n :: c) (q ++ [n]) (by
          intro p hp
          rcases List.mem_append.1 hp with hp | hp
          · exact List.mem_cons_of_mem _ (h1 p hp)
          · rw [List.mem_singleton.1 hp]; exact List.mem_cons_self)
        (List.nodup_cons.2 ⟨hn, h2⟩)
        (by
          rw [List.nodup_append]
          refine ⟨h3, List.nodup_singleton _, ?_⟩
          intro a ha b hb
          rw [List.mem_singleton.1 hb]
          rintro rfl
          exact hnq ha)
      refine ⟨a1, a2, a3, ?_, ?_, ?_⟩
      · intro p
        rw [a4]
        simp only [List.mem_cons]
        tauto
      · intro p
        rw [a5]
        simp only [List.mem_cons, List.mem_append, List.not_mem_nil, or_false]
        constructor
        · rintro ((h | rfl) | ⟨h, h'⟩)
          · exact Or.inl h
          · exact Or.inr ⟨Or.inl rfl, hn⟩
          · exact Or.inr ⟨Or.inr h, fun hh => h' (Or.inr hh)⟩
        · rintro (h | ⟨rfl | h, h'⟩)
          · exact Or.inl (Or.inl h)
          · exact Or.inl (Or.inr rfl)
          · by_cases hpn : p = n
            · exact Or.inl (Or.inr hpn)
            · exact Or.inr ⟨h, by tauto⟩
      · simp only [List.length_cons, List.length_append, List.length_nil] at a6
        omega

/-- What the search keeps: `done` are the points that were taken and not left out. -/
structure LInv (ok : Point d → Prop) (init c q done : List (Point d)) : Prop where
  cnodup : c.Nodup
  qnodup : q.Nodup
  qsub : ∀ p ∈ q, p ∈ c
  dnodup : done.Nodup
  dfresh : ∀ p ∈ done, p ∉ q
  dsub : ∀ p ∈ done, p ∈ c ∧ ok p
  start : ∀ p ∈ init, p ∈ c
  seen : ∀ p ∈ c, p ∈ q ∨ p ∈ done ∨ ¬ ok p
  spread : ∀ p ∈ done, ∀ n, Next p n → n ∈ c
  closed : ∀ S : Point d → Prop, (∀ p ∈ init, S p) → (∀ r p, S r → ok r → Next r p → S p) → ∀ p ∈ c, S p

theorem lines_total (xy : Point d → ℝ × ℝ) (ε l M : ℝ) (hl : 0 ≤ l) (ok : Point d → Prop)
    (hok : ∀ p v, lowest ε l (xy p).1 (xy p).2 = some v → (ok p ↔ v ≤ M)) (init : List (Point d))
    (F : Finset (Point d)) (hF1 : ∀ p ∈ init, p ∈ F) (hF2 : ∀ p, ok p → ∀ n, Next p n → n ∈ F) :
    ∀ (m : Nat) (c q done : List (Point d)), LInv ok init c q done → 2 * (F.filter (· ∉ c)).card + q.length = m →
      ∃ c' done', LInv ok init c' [] done' ∧
        linesLoop xy ε l M c q (done.foldl (fun ms p => addMode ms (xy p).1 (xy p).2) []) =
          some (done'.foldl (fun ms p => addMode ms (xy p).1 (xy p).2) []) := by
  intro m
  induction m using Nat.strong_induction_on with
  | _ m ih =>
    intro c q done hI hm
    rw [linesLoop.eq_def]
    cases q with
    | nil => exact ⟨c, done, hI, rfl⟩
    | cons p q =>
      simp only []
      obtain ⟨v, hv⟩ : ∃ v, lowest ε l (xy p).1 (xy p).2 = some v := by
        rw [lowest, intervalDist, if_neg (by simpa using hl)]
        split
        · exact ⟨_, rfl⟩
        · split <;> exact ⟨_, rfl⟩
      rw [hv]
      simp only []
      have hq := List.nodup_cons.1 hI.qnodup
      by_cases hM : v > M
      · rw [if_pos hM]
        refine ih _ ?_ c q done ?_ rfl
        · simp only [List.length_cons] at hm; omega
        · refine ⟨hI.cnodup, hq.2, fun r hr => hI.qsub r (List.mem_cons_of_mem _ hr), hI.dnodup,
            fun r hr hh => hI.dfresh r hr (List.mem_cons_of_mem _ hh), hI.dsub, hI.start, ?_, hI.spread, hI.closed⟩
          intro r hr
          rcases hI.seen r hr with h | h
          · rcases List.mem_cons.1 h with rfl | h
            · exact Or.inr (Or.inr fun hh => absurd ((hok r v hv).1 hh) (not_le.2 hM))
            · exact Or.inl h
          · exact Or.inr h
      · rw [if_neg hM]
        have hpok : ok p := (hok p v hv).2 (not_lt.1 hM)
        obtain ⟨ns, hns, hmem⟩ := neighbours_eq (d := d) p
        rw [hns]
        simp only []
        obtain ⟨a1, a2, a3, a4, a5, a6⟩ := visit_spec ns c q (fun r hr => hI.qsub r (List.mem_cons_of_mem _ hr))
          hI.cnodup hq.2
        have hpc : p ∈ c := hI.qsub p List.mem_cons_self
        have hpd : p ∉ done := fun h => hI.dfresh p h List.mem_cons_self
        have hI' : LInv ok init (visit ns c q).1 (visit ns c q).2 (done ++ [p]) := by
          refine ⟨a2, a1, a3, ?_, ?_, ?_, ?_, ?_, ?_, ?_⟩
          · rw [List.nodup_append]
            refine ⟨hI.dnodup, List.nodup_singleton _, ?_⟩
            intro a ha b hb
            rw [List.mem_singleton.1 hb]
            rintro rfl
            exact hpd ha
          · intro r hr hh
            rcases (a5 r).1 hh with h | ⟨h, h'⟩
            · rcases List.mem_append.1 hr with hr | hr
              · exact hI.dfresh r hr (List.mem_cons_of_mem _ h)
              · rw [List.mem_singleton.1 hr] at h; exact hq.1 h
            · rcases List.mem_append.1 hr with hr | hr
              · exact h' (hI.dsub r hr).1
              · rw [List.mem_singleton.1 hr] at h'; exact h' hpc
          · intro r hr
            rcases List.mem_append.1 hr with hr | hr
            · exact ⟨(a4 r).2 (Or.inl (hI.dsub r hr).1), (hI.dsub r hr).2⟩
            · rw [List.mem_singleton.1 hr]; exact ⟨(a4 p).2 (Or.inl hpc), hpok⟩
          · intro r hr
            exact (a4 r).2 (Or.inl (hI.start r hr))
          · intro r hr
            by_cases hrc : r ∈ c
            · rcases hI.seen r hrc with h | h | h
              · rcases List.mem_cons.1 h with rfl | h
                · exact Or.inr (Or.inl (by simp))
                · exact Or.inl ((a5 r).2 (Or.inl h))
              · exact Or.inr (Or.inl (List.mem_append_left _ h))
              · exact Or.inr (Or.inr h)
            · rcases (a4 r).1 hr with h | h
              · exact absurd h hrc
              · exact Or.inl ((a5 r).2 (Or.inr ⟨h, hrc⟩))
          · intro r hr n hn
            rcases List.mem_append.1 hr with hr | hr
            · exact (a4 n).2 (Or.inl (hI.spread r hr n hn))
            · rw [List.mem_singleton.1 hr] at hn
              exact (a4 n).2 (Or.inr ((hmem n).2 hn))
          · intro S hS1 hS2 r hr
            rcases (a4 r).1 hr with h | h
            · exact hI.closed S hS1 hS2 r h
            · exact hS2 p r (hI.closed S hS1 hS2 p hpc) hpok ((hmem r).1 h)
        have hnF : ∀ n ∈ ns, n ∈ F := fun n hn => hF2 p hpok n ((hmem n).1 hn)
        have hcard : (F.filter (· ∉ (visit ns c q).1)).card + ((visit ns c q).1.length - c.length) ≤
            (F.filter (· ∉ c)).card := by
          have hdj : Disjoint (F.filter (· ∉ (visit ns c q).1))
              ((visit ns c q).1.toFinset \ c.toFinset) := by
            rw [Finset.disjoint_left]
            intro a ha hb
            rw [Finset.mem_filter] at ha
            rw [Finset.mem_sdiff, List.mem_toFinset] at hb
            exact ha.2 hb.1
          have hsub : F.filter (· ∉ (visit ns c q).1) ∪ ((visit ns c q).1.toFinset \ c.toFinset) ⊆
              F.filter (· ∉ c) := by
            intro a ha
            rw [Finset.mem_filter]
            rcases Finset.mem_union.1 ha with h | h
            · rw [Finset.mem_filter] at h
              exact ⟨h.1, fun hh => h.2 ((a4 a).2 (Or.inl hh))⟩
            · rw [Finset.mem_sdiff, List.mem_toFinset, List.mem_toFinset] at h
              rcases (a4 a).1 h.1 with h' | h'
              · exact absurd h' h.2
              · exact ⟨hnF a h', h.2⟩
          have h1 := Finset.card_le_card hsub
          rw [Finset.card_union_of_disjoint hdj] at h1
          have h2 : ((visit ns c q).1.toFinset \ c.toFinset).card = (visit ns c q).1.length - c.length := by
            rw [Finset.card_sdiff_of_subset (by
              intro a ha
              rw [List.mem_toFinset] at ha ⊢
              exact (a4 a).2 (Or.inl ha)), List.toFinset_card_of_nodup a2, List.toFinset_card_of_nodup hI.cnodup]
          omega
        have hlen : c.length ≤ (visit ns c q).1.length := by
          have : c.toFinset ⊆ (visit ns c q).1.toFinset := by
            intro a ha
            rw [List.mem_toFinset] at ha ⊢
            exact (a4 a).2 (Or.inl ha)
          have := Finset.card_le_card this
          rwa [List.toFinset_card_of_nodup a2, List.toFinset_card_of_nodup hI.cnodup] at this
        obtain ⟨c', done', h1, h2⟩ := ih _ (by
          simp only [List.length_cons] at hm
          omega) _ _ _ hI' rfl
        refine ⟨c', done', h1, ?_⟩
        rw [← h2, List.foldl_append]
        rfl

/-! ## Modes -/

/-- The square of the distance between two modes. -/
def gap (m : Mode) (x y : ℝ) : ℝ := (m.x - x) * (m.x - x) + (m.y - y) * (m.y - y)

theorem addMode_mem (ms : List Mode) (x y : ℝ) : ∀ m ∈ addMode ms x y,
    (∃ m' ∈ ms, m.x = m'.x ∧ m.y = m'.y) ∨ (m.x = x ∧ m.y = y) := by
  intro m hm
  rw [addMode] at hm
  split at hm
  · obtain ⟨m', h1, h2⟩ := List.mem_map.1 hm
    left
    refine ⟨m', h1, ?_⟩
    rw [← h2]
    split <;> exact ⟨rfl, rfl⟩
  · rcases List.mem_append.1 hm with h | h
    · exact Or.inl ⟨m, h, rfl, rfl⟩
    · rw [List.mem_singleton.1 h]; exact Or.inr ⟨rfl, rfl⟩

theorem addMode_keep (ms : List Mode) (x y : ℝ) : ∀ m ∈ ms, ∃ m' ∈ addMode ms x y, m'.x = m.x ∧ m'.y = m.y := by
  intro m hm
  rw [addMode]
  split
  · refine ⟨_, List.mem_map.2 ⟨m, hm, rfl⟩, ?_⟩
    split <;> exact ⟨rfl, rfl⟩
  · exact ⟨m, List.mem_append_left _ hm, rfl, rfl⟩

theorem addMode_new (ms : List Mode) (x y : ℝ) : ∃ m ∈ addMode ms x y, gap m x y < 1 / 10 ^ 10 := by
  rw [addMode]
  split
  · rename_i h
    obtain ⟨m, hm, hg⟩ := h
    refine ⟨_, List.mem_map.2 ⟨m, hm, rfl⟩, ?_⟩
    rw [if_pos hg]
    exact hg
  · exact ⟨_, List.mem_append_right _ (List.mem_singleton_self _), by simp [gap]⟩

/-- All points together. -/
noncomputable def collect (xy : Point d → ℝ × ℝ) (ps : List (Point d)) : List Mode :=
  ps.foldl (fun ms p => addMode ms (xy p).1 (xy p).2) []

theorem collect_append (xy : Point d → ℝ × ℝ) (ps : List (Point d)) (p : Point d) :
    collect xy (ps ++ [p]) = addMode (collect xy ps) (xy p).1 (xy p).2 := by
  rw [collect, List.foldl_append]; rfl

theorem collect_origin (xy : Point d → ℝ × ℝ) (ps : List (Point d)) : ∀ m ∈ collect xy ps,
    ∃ p ∈ ps, m.x = (xy p).1 ∧ m.y = (xy p).2 := by
  induction ps using List.reverseRecOn with
  | nil => intro m hm; simp [collect] at hm
  | append_singleton ps p ih =>
    intro m hm
    rw [collect_append] at hm
    rcases addMode_mem _ _ _ m hm with ⟨m', h1, h2, h3⟩ | ⟨h1, h2⟩
    · obtain ⟨r, hr, h4, h5⟩ := ih m' h1
      exact ⟨r, List.mem_append_left _ hr, h2.trans h4, h3.trans h5⟩
    · exact ⟨p, by simp, h1, h2⟩

theorem collect_covers (xy : Point d → ℝ × ℝ) (ps : List (Point d)) : ∀ p ∈ ps,
    ∃ m ∈ collect xy ps, gap m (xy p).1 (xy p).2 < 1 / 10 ^ 10 := by
  induction ps using List.reverseRecOn with
  | nil => intro p hp; simp at hp
  | append_singleton ps r ih =>
    intro p hp
    rw [collect_append]
    rcases List.mem_append.1 hp with hp | hp
    · obtain ⟨m, h1, h2⟩ := ih p hp
      obtain ⟨m', h3, h4, h5⟩ := addMode_keep (collect xy ps) (xy r).1 (xy r).2 m h1
      refine ⟨m', h3, ?_⟩
      rw [gap, h4, h5]
      exact h2
    · rw [List.mem_singleton.1 hp]
      exact addMode_new _ _ _

/-- Modes that are not the same are well apart. -/
def Separated (xy : Point d → ℝ × ℝ) (ps : List (Point d)) : Prop :=
  ∀ p ∈ ps, ∀ r ∈ ps, xy p = xy r ∨
    1 / 10 ^ 10 ≤ ((xy p).1 - (xy r).1) * ((xy p).1 - (xy r).1) + ((xy p).2 - (xy r).2) * ((xy p).2 - (xy r).2)

theorem collect_count (xy : Point d → ℝ × ℝ) (ps : List (Point d)) (hs : Separated xy ps) :
    ((collect xy ps).map fun m => (m.x, m.y)).Nodup ∧
    ∀ m ∈ collect xy ps, m.multiplicity = (open Classical in ps.filter fun p => xy p = (m.x, m.y)).length := by
  classical
  induction ps using List.reverseRecOn with
  | nil => simp [collect]
  | append_singleton ps p ih =>
    have hs' : Separated xy ps := fun a ha b hb =>
      hs a (List.mem_append_left _ ha) b (List.mem_append_left _ hb)
    obtain ⟨i1, i2⟩ := ih hs'
    have hclose : ∀ m ∈ collect xy ps,
        ((m.x - (xy p).1) * (m.x - (xy p).1) + (m.y - (xy p).2) * (m.y - (xy p).2) < 1 / 10 ^ 10 ↔
          xy p = (m.x, m.y)) := by
      intro m hm
      obtain ⟨r, hr, h1, h2⟩ := collect_origin xy ps m hm
      constructor
      · intro h
        rcases hs r (List.mem_append_left _ hr) p (by simp) with h' | h'
        · rw [← h', h1, h2]
        · rw [h1, h2] at h
          exact absurd h (not_lt.2 h')
      · intro h
        rw [h]
        simp
    rw [collect_append, addMode]
    by_cases hex : ∃ m ∈ collect xy ps,
        (m.x - (xy p).1) * (m.x - (xy p).1) + (m.y - (xy p).2) * (m.y - (xy p).2) < 1 / 10 ^ 10
    · rw [if_pos hex]
      refine ⟨?_, ?_⟩
      · rw [List.map_map]
        have : ((fun m : Mode => (m.x, m.y)) ∘ fun m : Mode =>
            if (m.x - (xy p).1) * (m.x - (xy p).1) + (m.y - (xy p).2) * (m.y - (xy p).2) < 1 / 10 ^ 10 then
              { m with multiplicity := m.multiplicity + 1 } else m) = fun m => (m.x, m.y) := by
          funext m
          simp only [Function.comp]
          split <;> rfl
        rw [this]
        exact i1
      · intro m hm
        obtain ⟨m', h1, h2⟩ := List.mem_map.1 hm
        by_cases hc : (m'.x - (xy p).1) * (m'.x - (xy p).1) + (m'.y - (xy p).2) * (m'.y - (xy p).2) < 1 / 10 ^ 10
        · rw [if_pos hc] at h2
          rw [← h2]
          simp only []
          rw [i2 m' h1, List.filter_append, List.length_append]
          rw [List.filter_cons_of_pos (by simpa using (hclose m' h1).1 hc)]
          simp
        · rw [if_neg hc] at h2
          rw [← h2, i2 m' h1, List.filter_append, List.length_append]
          rw [List.filter_cons_of_neg (by simpa using fun hh => hc ((hclose m' h1).2 hh))]
          simp
    · rw [if_neg hex]
      push Not at hex
      have hnew : ∀ m ∈ collect xy ps, xy p ≠ (m.x, m.y) := fun m hm h =>
        absurd ((hclose m hm).2 h) (not_lt.2 (hex m hm))
      refine ⟨?_, ?_⟩
      · rw [List.map_append, List.nodup_append]
        refine ⟨i1, by simp, ?_⟩
        intro a ha b hb
        obtain ⟨m, hm, rfl⟩ := List.mem_map.1 ha
        simp only [List.map_cons, List.map_nil, List.mem_singleton] at hb
        rw [hb]
        exact fun h => hnew m hm h.symm
      · intro m hm
        rcases List.mem_append.1 hm with hm | hm
        · rw [i2 m hm, List.filter_append, List.length_append,
            List.filter_cons_of_neg (by simpa using hnew m hm)]
          simp
        · rw [List.mem_singleton.1 hm]
          simp only []
          rw [List.filter_append, List.length_append, List.filter_cons_of_pos (by simp)]
          have : List.filter (fun r => decide (xy r = ((xy p).1, (xy p).2))) ps = [] := by
            rw [List.filter_eq_nil_iff]
            intro r hr
            simp only [decide_eq_true_eq]
            intro hh
            obtain ⟨m', h1, h2⟩ := collect_covers xy ps r hr
            have : xy r = xy p := hh
            rw [gap, this] at h2
            exact absurd h2 (not_lt.2 (hex m' h1))
          rw [this]
          simp

/-! ## Geometry -/

theorem dot_self (v : Vec d) : dot v v = l2Norm v * l2Norm v := (l2Norm_sq v).symm

/-- Pythagoras, with the direction of the segment. -/
theorem pythagoras (v u : Vec d) (hu : dot u u = 1) (s : ℝ) :
    ∑ j, (v j + s * u j) * (v j + s * u j) =
      l2Norm (fun j => v j - dot v u * u j) * l2Norm (fun j => v j - dot v u * u j) + (s + dot v u) * (s + dot v u) := by
  rw [l2Norm_sq]
  have e1 : ∑ j, (v j + s * u j) * (v j + s * u j) = dot v v + 2 * s * dot v u + s * s * dot u u := by
    simp only [dot, Finset.mul_sum, ← Finset.sum_add_distrib]
    exact Finset.sum_congr rfl fun j _ => by ring
  have e2 : ∑ j, (v j - dot v u * u j) * (v j - dot v u * u j) =
      dot v v - 2 * dot v u * dot v u + dot v u * dot v u * dot u u := by
    have key : ∀ c : ℝ, ∑ j, (v j - c * u j) * (v j - c * u j) = dot v v - 2 * c * dot v u + c * c * dot u u := by
      intro c
      simp only [dot, Finset.mul_sum, ← Finset.sum_add_distrib, ← Finset.sum_sub_distrib]
      exact Finset.sum_congr rfl fun j _ => by ring
    exact key _
  rw [e1, e2, hu]
  ring

end Verif.Bands
