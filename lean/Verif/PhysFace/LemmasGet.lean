import Verif.PhysFace.LemmasTrace

/-!
# C76, C77: requests for data
-/
namespace Verif.PhysFace
open PhysElem (Kind Mat resize)

set_option linter.all false

variable {R P X M W : Type} [CommRing R] [AddCommGroup W] [Module R W] {g : Prog R P X M W}
variable {q : Prop} {U : Nat} {size : Side → Nat → Nat} {s : Core R P W} {e : Side → PhysElem.Now R P} {n : Now R P}

/-- Only stored values differ. -/
theorem J.cached (hJ : J g q U size s e n) (s' : Core R P W) (h : s' = { s with
    table := s'.table, hasTable := s'.hasTable, lazy := s'.lazy, normal := s'.normal, unitNormal := s'.unitNormal, area := s'.area })
    (hon : ∀ f, n.face = some f → OnFace g q U size s' n f) (hnof : n.face = none → ∀ k, s'.lazy k = []) : J g q U size s' e n := by
  have h0 : s'.internal = s.internal ∧ s'.face = s.face ∧ s'.point = s.point ∧ s'.trafos = s.trafos ∧ s'.rule = s.rule ∧
    s'.maps = s.maps ∧ s'.has = s.has := by rw [h]; exact ⟨rfl, rfl, rfl, rfl, rfl, rfl, rfl⟩
  obtain ⟨h1, h2, h3, h4, h5, h6, h7⟩ := h0
  refine ⟨h1.trans hJ.int, h2.trans hJ.face, h3.trans hJ.point, h4.trans hJ.trafos, hJ.pf, ?_, ?_, hon, hJ.el, hnof⟩
  · rw [h5, h6]; exact hJ.rule
  · rw [h7]; exact hJ.has

section Normal
variable {f : Nat} {p : P}

theorem getNormal_step (hJ : J g q U size s e n) (hf : n.face = some f) (hp : n.point = some p) :
    ∃ a, s.getNormal g = some ({ s with normal := a }, g.normal f p) ∧ J g q U size { s with normal := a } e n := by
  have hO := hJ.on f hf
  unfold Core.getNormal
  rw [located_eq hJ hf hp]
  simp only [Option.bind_some]
  cases hn : s.normal with
  | some v =>
    refine ⟨s.normal, ?_, hJ⟩
    rw [hO.nrm p v hp hn]
  | none =>
    refine ⟨some (g.normal f p), rfl, hJ.cached _ rfl (fun f' hf' => ?_) hJ.nof⟩
    rw [hf] at hf'; cases hf'
    exact ⟨hO.int, hO.unk, hO.str, hO.turn, hO.nLeft, hO.rows, hO.hasLen, hO.tab, hO.lazyLen, hO.lazy,
      (by intro p' v hp' hv; rw [hp] at hp'; cases hp'; cases hv; rfl), hO.unm, hO.ar, hO.own, hO.len, hO.zero⟩

theorem getArea_step (hJ : J g q U size s e n) (hf : n.face = some f) (hp : n.point = some p) :
    ∃ a b, s.getArea g = some ({ s with normal := a, area := b }, g.norm (g.normal f p)) ∧
      J g q U size { s with normal := a, area := b } e n := by
  have hO := hJ.on f hf
  unfold Core.getArea
  rw [located_eq hJ hf hp]
  simp only [Option.bind_some]
  cases hn : s.area with
  | some v =>
    refine ⟨s.normal, s.area, ?_, hJ⟩
    rw [hO.ar p v hp hn]
  | none =>
    obtain ⟨a, h1, h2⟩ := getNormal_step hJ hf hp
    rw [h1]
    have hO := h2.on f hf
    refine ⟨a, some (g.norm (g.normal f p)), rfl, h2.cached _ rfl (fun f' hf' => ?_) h2.nof⟩
    rw [hf] at hf'; cases hf'
    exact ⟨hO.int, hO.unk, hO.str, hO.turn, hO.nLeft, hO.rows, hO.hasLen, hO.tab, hO.lazyLen, hO.lazy, hO.nrm, hO.unm,
      (by intro p' v hp' hv; rw [hp] at hp'; cases hp'; cases hv; rfl), hO.own, hO.len, hO.zero⟩

theorem getUnitNormal_step (hJ : J g q U size s e n) (hf : n.face = some f) (hp : n.point = some p) :
    ∃ a b c, s.getUnitNormal g = some ({ s with normal := a, area := b, unitNormal := c },
        g.divide (g.normal f p) (g.norm (g.normal f p))) ∧
      J g q U size { s with normal := a, area := b, unitNormal := c } e n := by
  have hO := hJ.on f hf
  unfold Core.getUnitNormal
  rw [located_eq hJ hf hp]
  simp only [Option.bind_some]
  cases hn : s.unitNormal with
  | some v =>
    refine ⟨s.normal, s.area, s.unitNormal, ?_, hJ⟩
    rw [hO.unm p v hp hn]
  | none =>
    obtain ⟨a, h1, h2⟩ := getNormal_step hJ hf hp
    rw [h1]
    simp only [Option.bind_some]
    obtain ⟨a', b, h3, h4⟩ := getArea_step h2 hf hp
    rw [h3]
    have hO := h4.on f hf
    refine ⟨a', b, some (g.divide (g.normal f p) (g.norm (g.normal f p))), rfl, h4.cached _ rfl (fun f' hf' => ?_) h4.nof⟩
    rw [hf] at hf'; cases hf'
    exact ⟨hO.int, hO.unk, hO.str, hO.turn, hO.nLeft, hO.rows, hO.hasLen, hO.tab, hO.lazyLen, hO.lazy, hO.nrm,
      (by intro p' v hp' hv; rw [hp] at hp'; cases hp'; cases hv; rfl), hO.ar, hO.own, hO.len, hO.zero⟩

theorem normal_step (hJ : J g q U size s e n) (hf : n.face = some f) (hp : n.point = some p) (unit : Bool) :
    ∃ a b c v, (if unit then s.getUnitNormal g else s.getNormal g) = some ({ s with normal := a, area := b, unitNormal := c }, v) ∧
      J g q U size { s with normal := a, area := b, unitNormal := c } e n ∧ n.normal g unit = some v := by
  cases unit with
  | false =>
    obtain ⟨a, h1, h2⟩ := getNormal_step hJ hf hp
    exact ⟨a, s.area, s.unitNormal, _, by simpa using h1, h2, by unfold Now.normal; rw [here_some hf hp]; rfl⟩
  | true =>
    obtain ⟨a, b, c, h1, h2⟩ := getUnitNormal_step hJ hf hp
    exact ⟨a, b, c, _, by simpa using h1, h2, by unfold Now.normal; rw [here_some hf hp]; rfl⟩

end Normal

section Table
variable {f : Nat} {p : P}

theorem tN_some (hf : n.face = some f) (hp : n.point = some p) (hO : OnFace g q U size s n f) (c d : Bool) (v : W)
    (hv : n.normal g d = some v) (i u : Nat) (hu : u < U) : n.timesNormal g c d i (some u) =
      (n.fn g (if c then .vector else .value) i (some u)).bind fun w =>
        some (if size .left u ≤ i then -g.times c d v w else g.times c d v w) := by
  unfold Now.timesNormal
  rw [here_some hf hp, hv]
  simp only [Option.bind_some, reduceCtorEq, false_imp_iff, if_true, Option.getD_some]
  have hsz := (hO.unk .left (Or.inl rfl)).2 u hu
  congr 1
  funext w
  by_cases h : i < size .left u
  · rw [if_pos (show i < (g.elemAt f .left).size u by omega), if_neg (by omega)]
  · rw [if_neg (show ¬ i < (g.elemAt f .left).size u by omega), if_pos (by omega)]

theorem tN_plain (hf : n.face = some f) (hp : n.point = some p) (hO : OnFace g q U size s n f) (c d : Bool) (i : Nat)
    (h : g.allowed f none) : n.timesNormal g c d i none = n.timesNormal g c d i (some 0) := by
  unfold Now.timesNormal
  rw [here_some hf hp, here_some hf hp]
  have h' : (g.elemAt f .left).uniform ∧ (n.internal = true → (g.elemAt f .right).uniform) := by
    refine ⟨h.1, ?_⟩
    rw [← hO.int]; exact h.2
  rw [fn_plain hf hp hO _ _ h]
  congr 1
  funext v
  congr 1
  funext w
  have h0 : (some 0 : Option Nat) = none → (g.elemAt f .left).uniform ∧ (n.internal = true → (g.elemAt f .right).uniform) := by simp
  rw [if_pos (fun _ => h'), if_pos h0]
  rfl

theorem tN_bad (hf : n.face = some f) (hp : n.point = some p) (hO : OnFace g q U size s n f) (c d : Bool) (i : Nat) (u : Option Nat)
    (h : ¬ g.allowed f u ∨ U ≤ u.getD 0) : n.timesNormal g c d i u = none := by
  unfold Now.timesNormal
  rw [here_some hf hp]
  cases n.normal g d with
  | none => rfl
  | some v =>
    simp only [Option.bind_some]
    cases hfn : n.fn g (if c then .vector else .value) i u with
    | none => rfl
    | some w =>
      simp only [Option.bind_some]
      have hu : u.getD 0 < U := by
        by_contra hu
        rw [fn_eq hf hp hO, if_neg hu] at hfn
        cases hfn
      cases u with
      | none =>
        rcases h with h | h
        · rw [if_neg]
          intro h'
          refine h ⟨(h' rfl).1, ?_⟩
          rw [hO.int]; exact (h' rfl).2
        · exact absurd hu (by omega)
      | some u =>
        exfalso
        have h1 := (hO.unk .left (Or.inl rfl)).1
        rcases h with h | h
        · exact h (by change u < _; rw [h1]; exact hu)
        · exact absurd hu (by omega)

theorem number_eq (hO : OnFace g q U size s n f) {u : Nat} (hu : u < U) : g.number f u = num n.internal size u := by
  unfold Prog.number num
  rw [(hO.unk .left (Or.inl rfl)).2 u hu, hO.int]
  by_cases h : n.internal = true
  · rw [if_pos h, if_pos h, (hO.unk .right (Or.inr h)).2 u hu]
  · rw [if_neg h, if_neg h]

/-- If one function is not there, none is. -/
theorem fn_none_all (hf : n.face = some f) (hp : n.point = some p) (hO : OnFace g q U size s n f) (k : Kind) (u : Nat) (hu : u < U)
    (h : ∃ j < num n.internal size u, n.fn g k j (some u) = none) (i : Nat) : n.fn g k i (some u) = none := by
  obtain ⟨j, hj, h'⟩ := h
  cases ht : n.trafos[u]?.join with
  | none => exact fn_notrafo hf hp hO k i u ht
  | some t =>
    have := fn_isSome hf hp hO k j u t hu ht hj
    rw [h'] at this; cases this

theorem times_step (hJ : J g q U size s e n) (c d : Bool) (i : Nat) (u : Option Nat) (hreg : c = true ∨ u = none) :
    match (s.timesNormal g c d i u).run (PhysElem.Now.act g.base) e with
    | none => n.timesNormal g c d i u = none
    | some (e', s', w) => e' = e ∧ n.timesNormal g c d i u = some w ∧ J g q U size s' e n := by
  unfold Core.timesNormal
  rw [Call.run_bind, Call.run_lift]
  rcases placed n with h | ⟨f, p, hf, hp⟩
  · rw [located_none hJ h]
    exact here_none h _
  rw [located_eq hJ hf hp]
  simp only [Option.map_some, Option.bind_some]
  have hO := hJ.on f hf
  by_cases hall : g.allowed f u
  swap
  · rw [if_neg hall]
    exact tN_bad hf hp hO c d i u (Or.inl hall)
  rw [if_pos hall, Call.run_bind, Call.run_lift]
  by_cases hu : u.getD 0 < U
  swap
  · rw [List.getElem?_eq_none (by rw [hO.hasLen]; omega)]
    exact tN_bad hf hp hO c d i u (Or.inr (by omega))
  have hplain : n.timesNormal g c d i u = n.timesNormal g c d i (some (u.getD 0)) := by
    cases u with
    | none => exact tN_plain hf hp hO c d i hall
    | some u => rfl
  rw [hplain]
  obtain ⟨h, hh⟩ : ∃ h, (s.hasTable c d)[u.getD 0]? = some h := ⟨_, List.getElem?_eq_getElem (by rw [hO.hasLen]; exact hu)⟩
  rw [hh]
  simp only [Option.map_some, Option.bind_some]
  cases h with
  | true =>
    rw [if_pos rfl, Call.run_bind, Call.run_lift]
    obtain ⟨row, h1, h2⟩ := hO.tab c d _ hh
    rw [h1]
    simp only [Option.bind_some]
    rw [h2]
    cases n.timesNormal g c d i (some (u.getD 0)) with
    | none => rfl
    | some w => exact ⟨rfl, rfl, hJ⟩
  | false =>
    rw [if_neg (by simp), Call.run_bind, Call.run_lift]
    obtain ⟨a, b, c', v, h1, h2, h3⟩ := normal_step hJ hf hp d
    rw [h1]
    simp only [Option.map_some, Option.bind_some]
    rw [Call.run_bind, Call.run_lift]
    have hn : s.nLeft[u.getD 0]? = some (size .left (u.getD 0)) := by rw [nLeft_get hJ hf, if_pos hu]
    rw [hn]
    simp only [Option.map_some, Option.bind_some]
    rw [Call.run_bind, Call.run_lift]
    obtain ⟨row, hr1, hr2⟩ := hO.rows c d _ hu
    rw [hr1]
    simp only [Option.map_some, Option.bind_some]
    rw [Call.run_bind]
    have hO2 := h2.on f hf
    have hu' : (if c = true then u else none) = u := by
      rcases hreg with h | h
      · rw [if_pos h]
      · rw [h]; split <;> rfl
    have hfn : ∀ k j, n.fn g k j u = n.fn g k j (some (u.getD 0)) := by
      intro k j
      cases u with
      | none => exact fn_plain hf hp hO k j hall
      | some u => rfl
    rw [Call.run_collect _ _ (fun j => n.timesNormal g c d j (some (u.getD 0)))]
    swap
    · intro j hj
      rw [Call.run_bind, hu', run_fn h2, tN_some hf hp hO c d v h3 j _ hu, ← hfn]
      cases n.fn g (if c then .vector else .value) j u <;> rfl
    rw [number_eq hO hu]
    have hm := mapM_range (fun j => n.timesNormal g c d j (some (u.getD 0))) (num n.internal size (u.getD 0))
    cases hl : (List.range (num n.internal size (u.getD 0))).mapM fun j => n.timesNormal g c d j (some (u.getD 0)) with
    | none =>
      rw [hl] at hm
      simp only [Option.map_none, Option.bind_none]
      obtain ⟨j, hj, hj'⟩ := hm
      rw [tN_some hf hp hO c d v h3 i _ hu, fn_none_all hf hp hO _ _ hu ⟨j, hj, ?_⟩]
      · rfl
      · simp only [tN_some hf hp hO c d v h3 j _ hu] at hj'
        cases hfj : n.fn g (if c then .vector else .value) j (some (u.getD 0)) with
        | none => rfl
        | some w => rw [hfj] at hj'; simp at hj'
    | some l =>
      rw [hl] at hm
      simp only [Option.map_some, Option.bind_some]
      have hlen : l.length = row.length := by rw [hm.1, hr2]
      rw [if_pos (by omega)]
      have hdrop : l ++ row.drop l.length = l := by rw [List.drop_of_length_le (by omega), List.append_nil]
      rw [hdrop, Call.run_bind, Call.run_lift]
      have hall' : ∀ j, l[j]? = n.timesNormal g c d j (some (u.getD 0)) := by
        intro j
        by_cases hj : j < num n.internal size (u.getD 0)
        · exact hm.2 j hj
        · rw [List.getElem?_eq_none (by omega), tN_some hf hp hO c d v h3 j _ hu, fn_oob hf hp hO _ _ _ (by omega)]; rfl
      rw [hall' i]
      cases hti : n.timesNormal g c d i (some (u.getD 0)) with
      | none => rfl
      | some w =>
        refine ⟨rfl, rfl, h2.cached _ rfl (fun f' hf' => ?_) h2.nof⟩
        rw [hf] at hf'; cases hf'
        have hrl : u.getD 0 < (s.table c d).length := (List.getElem?_eq_some_iff.1 hr1).1
        refine ⟨hO2.int, hO2.unk, hO2.str, hO2.turn, hO2.nLeft, ?_, ?_, ?_, hO2.lazyLen, hO2.lazy, hO2.nrm, hO2.unm, hO2.ar, hO2.own,
          hO2.len, hO2.zero⟩
        · intro c1 d1 u1 hu1
          by_cases hcd : c1 = c ∧ d1 = d
          · obtain ⟨rfl, rfl⟩ := hcd
            simp only [Function.update_self]
            by_cases hu2 : u.getD 0 = u1
            · subst hu2
              exact ⟨l, by rw [List.getElem?_set_self hrl], hm.1⟩
            · rw [List.getElem?_set_ne hu2]; exact hO.rows _ _ _ hu1
          · have : Function.update s.table c (Function.update (s.table c) d ((s.table c d).set (u.getD 0) l)) c1 d1 = s.table c1 d1 := by
              by_cases hc : c1 = c
              · subst hc
                rw [Function.update_self, Function.update_of_ne (fun h => hcd ⟨rfl, h⟩)]
              · rw [Function.update_of_ne hc]
            simp only [this]
            exact hO.rows _ _ _ hu1
        · intro c1 d1
          by_cases hc : c1 = c
          · subst hc
            simp only [Function.update_self]
            by_cases hd : d1 = d
            · subst hd
              simp only [Function.update_self, List.length_set]; exact hO.hasLen _ _
            · rw [Function.update_of_ne hd]; exact hO.hasLen _ _
          · simp only [Function.update_of_ne hc]; exact hO.hasLen _ _
        · intro c1 d1 u1 ht
          by_cases hcd : c1 = c ∧ d1 = d
          · obtain ⟨rfl, rfl⟩ := hcd
            simp only [Function.update_self] at ht ⊢
            by_cases hu2 : u.getD 0 = u1
            · subst hu2
              exact ⟨l, by rw [List.getElem?_set_self hrl], hall'⟩
            · rw [List.getElem?_set_ne hu2] at ht ⊢; exact hO.tab _ _ _ ht
          · have h1 : Function.update s.table c (Function.update (s.table c) d ((s.table c d).set (u.getD 0) l)) c1 d1 = s.table c1 d1 := by
              by_cases hc : c1 = c
              · subst hc
                rw [Function.update_self, Function.update_of_ne (fun h => hcd ⟨rfl, h⟩)]
              · rw [Function.update_of_ne hc]
            have h2 : Function.update s.hasTable c (Function.update (s.hasTable c) d ((s.hasTable c d).set (u.getD 0) true)) c1 d1 =
                s.hasTable c1 d1 := by
              by_cases hc : c1 = c
              · subst hc
                rw [Function.update_self, Function.update_of_ne (fun h => hcd ⟨rfl, h⟩)]
              · rw [Function.update_of_ne hc]
            simp only [h1]
            simp only [h2] at ht
            exact hO.tab _ _ _ ht

end Table

theorem fn_nopoint (hp : n.point = none) (k : Kind) (i : Nat) (u : Option Nat) : n.fn g k i u = none := here_none (Or.inr hp) _

theorem der_step (hJ : J g q U size s e n) (k : Der) (i u : Nat) :
    match (s.der g k i u).run (PhysElem.Now.act g.base) e with
    | none => n.fn g k.kind i (some u) = none
    | some (e', s', w) => e' = e ∧ n.fn g k.kind i (some u) = some w ∧ J g q U size s' e n := by
  unfold Core.der
  rw [Call.run_bind, Call.run_lift]
  cases hf : n.face with
  | none =>
    rw [hJ.nof hf]
    exact here_none (Or.inl hf) _
  | some f =>
  have hO := hJ.on f hf
  by_cases hu : u < U
  swap
  · rw [List.getElem?_eq_none (by rw [hO.lazyLen]; omega)]
    simp only [Option.map_none, Option.bind_none]
    cases hp : n.point with
    | none => exact fn_nopoint hp _ _ _
    | some p => rw [fn_eq hf hp hO, if_neg (by simpa using hu)]
  obtain ⟨x, hx⟩ : ∃ x, (s.lazy k)[u]? = some x := ⟨_, List.getElem?_eq_getElem (by rw [hO.lazyLen]; exact hu)⟩
  rw [hx]
  obtain ⟨h, l⟩ := x
  simp only [Option.map_some, Option.bind_some]
  cases h with
  | true =>
    rw [if_pos rfl, Call.run_bind, Call.run_lift, hO.lazy k u l hx i]
    cases n.fn g k.kind i (some u) with
    | none => rfl
    | some w => exact ⟨rfl, rfl, hJ⟩
  | false =>
    rw [if_neg (by simp), Call.run_bind]
    have hc : (s.computeDer g k u).run (PhysElem.Now.act g.base) e =
        ((List.range (num n.internal size u)).mapM fun j => n.fn g k.kind j (some u)).map fun l => (e, l) := by
      unfold Core.computeDer
      rw [Call.run_bind, Call.run_lift, hJ.face, hf]
      simp only [Option.map_some, Option.bind_some]
      rw [if_pos (by rw [(hO.unk .left (Or.inl rfl)).1]; exact hu), Call.run_bind, Call.run_lift, nLeft_get hJ hf, if_pos hu]
      simp only [Option.map_some, Option.bind_some]
      rw [number_eq hO hu]
      refine Call.run_collect _ _ _ _ _ fun j hj => ?_
      rw [List.mem_range] at hj
      cases hp : n.point with
      | none =>
        rw [fn_nopoint hp]
        have h1 : ∀ sd k i u, n.fnSide g sd k i u = none := fun sd k i u => here_none (Or.inr hp) _
        split
        · rw [run_left hJ hf, h1]
        · by_cases hi : n.internal = true
          · rw [run_right hJ hf hi, h1]
          · unfold num at hj
            rw [if_neg hi] at hj
            omega
      | some p =>
        rw [fn_eq hf hp hO]
        simp only [Option.getD_some]
        rw [if_pos hu]
        by_cases h : j < size .left u
        · rw [if_pos h, if_pos h, run_left hJ hf]
        · rw [if_neg h, if_neg h]
          by_cases hi : n.internal = true
          · rw [run_right hJ hf hi]
          · unfold num at hj
            rw [if_neg hi] at hj
            omega
    rw [hc]
    have hm := mapM_range (fun j => n.fn g k.kind j (some u)) (num n.internal size u)
    cases hl : (List.range (num n.internal size u)).mapM fun j => n.fn g k.kind j (some u) with
    | none =>
      rw [hl] at hm
      simp only [Option.map_none, Option.bind_none]
      cases hp : n.point with
      | none => exact fn_nopoint hp _ _ _
      | some p => exact fn_none_all hf hp hO _ _ hu hm i
    | some l =>
      rw [hl] at hm
      simp only [Option.map_some, Option.bind_some]
      rw [Call.run_bind, Call.run_lift]
      have hall : ∀ j, l[j]? = n.fn g k.kind j (some u) := by
        intro j
        by_cases hj : j < num n.internal size u
        · exact hm.2 j hj
        · rw [List.getElem?_eq_none (by omega)]
          cases hp : n.point with
          | none => exact (fn_nopoint hp _ _ _).symm
          | some p => exact (fn_oob hf hp hO _ _ _ (by omega)).symm
      rw [hall i]
      cases hti : n.fn g k.kind i (some u) with
      | none => rfl
      | some w =>
        refine ⟨rfl, rfl, hJ.cached _ rfl (fun f' hf' => ?_) (by rw [hf]; simp)⟩
        rw [hf] at hf'; cases hf'
        refine ⟨hO.int, hO.unk, hO.str, hO.turn, hO.nLeft, hO.rows, hO.hasLen, hO.tab, ?_, ?_, hO.nrm, hO.unm, hO.ar, hO.own,
          hO.len, hO.zero⟩
        · intro k1
          by_cases hk : k1 = k
          · subst hk
            simp only [Function.update_self, List.length_set]; exact hO.lazyLen _
          · simp only [Function.update_of_ne hk]; exact hO.lazyLen _
        · intro k1 u1 l1 h1
          by_cases hk : k1 = k
          · subst hk
            simp only [Function.update_self] at h1
            by_cases hu2 : u = u1
            · subst hu2
              rw [List.getElem?_set_self (by rw [hO.lazyLen]; exact hu)] at h1
              cases h1
              exact hall
            · rw [List.getElem?_set_ne hu2] at h1; exact hO.lazy _ _ _ h1
          · simp only [Function.update_of_ne hk] at h1; exact hO.lazy _ _ _ h1

end Verif.PhysFace
