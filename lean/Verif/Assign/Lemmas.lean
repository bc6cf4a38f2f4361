import Verif.Assign.Spec
import Mathlib.Data.List.Nodup

set_option linter.all false
namespace Verif.Assign
open Verif.Basis Verif.ElementData

/-! ### One element -/

def posOf (b : EBF) (u p : Nat) : Option Nat := (b.positions[u]?).bind fun l => (l[p]?).join

theorem place_get (l : List (Option Nat)) (p x q : Nat) :
    ((EBF.place l p x)[q]?).join = if q = p then some x else (l[q]?).join := by
  unfold EBF.place
  by_cases h : q = p
  · subst h
    rw [if_pos rfl, List.getElem?_set_self]
    · rfl
    · split
      · simp; omega
      · omega
  · rw [if_neg h, List.getElem?_set_ne (Ne.symm h)]
    split
    · by_cases hq : q < l.length
      · rw [List.getElem?_append_left hq]
      · rw [List.getElem?_append_right (by omega), List.getElem?_replicate]
        rw [List.getElem?_eq_none (l := l) (by omega)]
        split <;> rfl
    · rfl

theorem register_spec {sets : List BSet} {b b' : EBF} {u p x : Nat} (h : b.register sets u p x = some b') :
    b'.positions.length = b.positions.length ∧
      ∀ v q, posOf b' v q = if v = u ∧ q = p then some x else posOf b v q := by
  unfold EBF.register at h
  split at h
  · cases h
  rename_i l hl
  split at h
  · cases h
    have hu : u < b.positions.length := (List.getElem?_eq_some_iff.1 hl).1
    refine ⟨by simp, fun v q => ?_⟩
    unfold posOf
    by_cases hv : v = u
    · subst hv
      rw [List.getElem?_set_self hu]
      simp only [Option.bind_some, hl, true_and]
      exact place_get l p x q
    · rw [List.getElem?_set_ne (Ne.symm hv), if_neg (by tauto)]
  · cases h

theorem register_defined (sets : List BSet) (b : EBF) (u p x : Nat) (hu : u < b.positions.length)
    (hx : x < sets.length) : ∃ b', b.register sets u p x = some b' := by
  unfold EBF.register
  rw [List.getElem?_eq_getElem hu]
  simp [hx]

theorem registerAll_spec {sets : List BSet} {p x : Nat} (us : List Nat) {b b' : EBF}
    (h : registerAll sets p x us b = some b') :
    b'.positions.length = b.positions.length ∧
      ∀ v q, posOf b' v q = if v ∈ us ∧ q = p then some x else posOf b v q := by
  induction us generalizing b with
  | nil => cases h; simp
  | cons u us ih =>
    simp only [registerAll, Option.bind_eq_some_iff] at h
    obtain ⟨c, hc, h⟩ := h
    obtain ⟨l1, p1⟩ := register_spec hc
    obtain ⟨l2, p2⟩ := ih h
    refine ⟨l2.trans l1, fun v q => ?_⟩
    rw [p2, p1]
    simp only [List.mem_cons]
    by_cases h1 : v ∈ us <;> by_cases h2 : v = u <;> by_cases h3 : q = p <;> simp [h1, h2, h3] <;> simp_all

theorem registerAll_lt {sets : List BSet} {p x : Nat} (us : List Nat) (hu : us ≠ []) {b b' : EBF}
    (h : registerAll sets p x us b = some b') : x < sets.length := by
  cases us with
  | nil => exact absurd rfl hu
  | cons u us =>
    simp only [registerAll, Option.bind_eq_some_iff] at h
    obtain ⟨c, hc, -⟩ := h
    unfold EBF.register at hc
    split at hc
    · cases hc
    · split at hc
      · assumption
      · cases hc

theorem registerAll_defined (sets : List BSet) (p x : Nat) (us : List Nat) (b : EBF)
    (hu : ∀ u ∈ us, u < b.positions.length) (hx : x < sets.length) : ∃ b', registerAll sets p x us b = some b' := by
  induction us generalizing b with
  | nil => exact ⟨b, rfl⟩
  | cons u us ih =>
    obtain ⟨c, hc⟩ := register_defined sets b u p x (hu u (by simp)) hx
    obtain ⟨b', hb⟩ := ih c (fun v hv => by rw [(register_spec hc).1]; exact hu v (by simp [hv]))
    exact ⟨b', by simp [registerAll, hc, hb]⟩

theorem clear_spec {b b' : EBF} {u : Nat} (h : b.clear u = some b') :
    b'.positions.length = b.positions.length ∧ ∀ v q, posOf b' v q = if v = u then none else posOf b v q := by
  unfold EBF.clear at h
  split at h
  · rename_i hu
    cases h
    refine ⟨by simp, fun v q => ?_⟩
    unfold posOf
    by_cases hv : v = u
    · subst hv; rw [List.getElem?_set_self hu]; simp
    · rw [List.getElem?_set_ne (Ne.symm hv), if_neg hv]
  · cases h

theorem clear_defined (b : EBF) (u : Nat) (h : u < b.positions.length) : ∃ b', b.clear u = some b' :=
  ⟨_, by unfold EBF.clear; rw [if_pos h]⟩

theorem clearAll_spec (us : List Nat) {b b' : EBF} (h : clearAll us b = some b') :
    b'.positions.length = b.positions.length ∧ ∀ v q, posOf b' v q = if v ∈ us then none else posOf b v q := by
  induction us generalizing b with
  | nil => cases h; simp
  | cons u us ih =>
    simp only [clearAll, Option.bind_eq_some_iff] at h
    obtain ⟨c, hc, h⟩ := h
    obtain ⟨l1, p1⟩ := clear_spec hc
    obtain ⟨l2, p2⟩ := ih h
    refine ⟨l2.trans l1, fun v q => ?_⟩
    rw [p2, p1]
    simp only [List.mem_cons]
    by_cases h1 : v ∈ us <;> by_cases h2 : v = u <;> simp [h1, h2] <;> simp_all

theorem clearAll_defined (us : List Nat) (b : EBF) (hu : ∀ u ∈ us, u < b.positions.length) :
    ∃ b', clearAll us b = some b' := by
  induction us generalizing b with
  | nil => exact ⟨b, rfl⟩
  | cons u us ih =>
    obtain ⟨c, hc⟩ := clear_defined b u (hu u (by simp))
    obtain ⟨b', hb⟩ := ih c (fun v hv => by rw [(clear_spec hc).1]; exact hu v (by simp [hv]))
    exact ⟨b', by simp [clearAll, hc, hb]⟩

theorem setDefault_spec {sets : List BSet} {x : Nat} (us : List Nat) {b b' : EBF}
    (h : setDefault sets x us b = some b') :
    b'.positions.length = b.positions.length ∧
      ∀ v q, posOf b' v q = if v ∈ us then (if q = 0 then some x else none) else posOf b v q := by
  induction us generalizing b with
  | nil => cases h; simp
  | cons u us ih =>
    simp only [setDefault, Option.bind_eq_some_iff] at h
    obtain ⟨c, hc, d, hd, h⟩ := h
    obtain ⟨l1, p1⟩ := clear_spec hc
    obtain ⟨l2, p2⟩ := register_spec hd
    obtain ⟨l3, p3⟩ := ih h
    refine ⟨l3.trans (l2.trans l1), fun v q => ?_⟩
    rw [p3, p2, p1]
    simp only [List.mem_cons]
    by_cases h1 : v ∈ us <;> by_cases h2 : v = u <;> by_cases h3 : q = 0 <;> simp [h1, h2, h3] <;> simp_all

theorem setDefault_defined (sets : List BSet) (x : Nat) (us : List Nat) (b : EBF)
    (hu : ∀ u ∈ us, u < b.positions.length) (hx : x < sets.length) : ∃ b', setDefault sets x us b = some b' := by
  induction us generalizing b with
  | nil => exact ⟨b, rfl⟩
  | cons u us ih =>
    obtain ⟨c, hc⟩ := clear_defined b u (hu u (by simp))
    obtain ⟨d, hd⟩ := register_defined sets c u 0 x (by rw [(clear_spec hc).1]; exact hu u (by simp)) hx
    obtain ⟨b', hb⟩ := ih d (fun v hv => by
      rw [(register_spec hd).1, (clear_spec hc).1]; exact hu v (by simp [hv]))
    exact ⟨b', by simp [setDefault, hc, hd, hb]⟩

theorem setDefaults_spec {us : List Nat} {sets : List BSet} {ps : List Nat} {bs bs' : List EBF}
    (h : setDefaults us sets ps bs = some bs') :
    ps.length = bs.length ∧ bs'.length = bs.length ∧ ∀ (i : Nat) b, bs[i]? = some b → ∃ x b', ps[i]? = some x ∧ bs'[i]? = some b' ∧
      setDefault sets x us b = some b' := by
  induction ps generalizing bs bs' with
  | nil =>
    cases bs with
    | nil => cases h; simp
    | cons b bs => cases h
  | cons p ps ih =>
    cases bs with
    | nil => cases h
    | cons b bs =>
      simp only [setDefaults, Option.bind_eq_some_iff, Option.map_eq_some_iff] at h
      obtain ⟨b', hb, l, hl, rfl⟩ := h
      obtain ⟨e1, e2, e3⟩ := ih hl
      refine ⟨by simp [e1], by simp [e2], fun i c hc => ?_⟩
      cases i with
      | zero => simp at hc; subst hc; exact ⟨p, b', by simp, by simp, hb⟩
      | succ i => simpa using e3 i c (by simpa using hc)

theorem setDefaults_defined (us : List Nat) (sets : List BSet) (ps : List Nat) (bs : List EBF)
    (hl : ps.length = bs.length) (hp : ∀ x ∈ ps, x < sets.length) (hb : ∀ b ∈ bs, ∀ u ∈ us, u < b.positions.length) :
    ∃ bs', setDefaults us sets ps bs = some bs' := by
  induction ps generalizing bs with
  | nil => cases bs with
    | nil => exact ⟨[], rfl⟩
    | cons b bs => simp at hl
  | cons p ps ih =>
    cases bs with
    | nil => simp at hl
    | cons b bs =>
      obtain ⟨b', h1⟩ := setDefault_defined sets p us b (hb b (by simp)) (hp p (by simp))
      obtain ⟨l, h2⟩ := ih bs (by simpa using hl) (fun x hx => hp x (by simp [hx])) (fun c hc => hb c (by simp [hc]))
      exact ⟨b' :: l, by simp [setDefaults, h1, h2]⟩

/-! ### Numbers -/

theorem countAll_spec {n : Nat} (us : List Nat) {l l' : List Nat} (h : countAll n us l = some l') :
    l'.length = l.length ∧ ∀ v, l'[v]? = if v ∈ us then some n else l[v]? := by
  induction us generalizing l with
  | nil => cases h; simp
  | cons u us ih =>
    simp only [countAll] at h
    split at h
    · rename_i hu
      obtain ⟨e1, e2⟩ := ih h
      refine ⟨by simpa using e1, fun v => ?_⟩
      rw [e2]
      by_cases h1 : v ∈ us
      · simp [h1]
      · by_cases h2 : v = u
        · subst h2; simp [h1, hu]
        · rw [if_neg h1, List.getElem?_set_ne (Ne.symm h2), if_neg (by simp [h1, h2])]
    · cases h

theorem countAll_defined (n : Nat) (us l : List Nat) (h : ∀ u ∈ us, u < l.length) : ∃ l', countAll n us l = some l' := by
  induction us generalizing l with
  | nil => exact ⟨l, rfl⟩
  | cons u us ih =>
    obtain ⟨l', hl⟩ := ih (l.set u n) (fun v hv => by simpa using h v (by simp [hv]))
    exact ⟨l', by rw [countAll, if_pos (h u (by simp)), hl]⟩

theorem modifyAt_spec {α : Type} {i : Nat} {f : α → Option α} {l l' : List α} (h : modifyAt i f l = some l') :
    ∃ a b, l[i]? = some a ∧ f a = some b ∧ l'.length = l.length ∧ ∀ j, l'[j]? = if j = i then some b else l[j]? := by
  simp only [modifyAt, Option.bind_eq_some_iff, Option.map_eq_some_iff] at h
  obtain ⟨a, ha, b, hb, rfl⟩ := h
  have hi := (List.getElem?_eq_some_iff.1 ha).1
  refine ⟨a, b, ha, hb, by simp, fun j => ?_⟩
  by_cases hj : j = i
  · subst hj; rw [List.getElem?_set_self hi, if_pos rfl]
  · rw [List.getElem?_set_ne (Ne.symm hj), if_neg hj]

theorem modifyAt_defined {α : Type} {i : Nat} {f : α → Option α} {l : List α} {a b : α} (ha : l[i]? = some a)
    (hb : f a = some b) : ∃ l', modifyAt i f l = some l' := ⟨_, by simp [modifyAt, ha, hb]; rfl⟩

theorem forAll_spec {α : Type} {f : α → Option α} {l l' : List α} (h : forAll f l = some l') :
    l'.length = l.length ∧ ∀ (i : Nat) a, l[i]? = some a → ∃ b, l'[i]? = some b ∧ f a = some b := by
  induction l generalizing l' with
  | nil => cases h; simp
  | cons a l ih =>
    simp only [forAll, Option.bind_eq_some_iff, Option.map_eq_some_iff] at h
    obtain ⟨b, hb, r, hr, rfl⟩ := h
    obtain ⟨e1, e2⟩ := ih hr
    refine ⟨by simp [e1], fun i c hc => ?_⟩
    cases i with
    | zero => simp at hc; subst hc; exact ⟨b, by simp, hb⟩
    | succ i => simpa using e2 i c (by simpa using hc)

theorem forAll_defined {α : Type} (f : α → Option α) (l : List α) (h : ∀ a ∈ l, ∃ b, f a = some b) :
    ∃ l', forAll f l = some l' := by
  induction l with
  | nil => exact ⟨[], rfl⟩
  | cons a l ih =>
    obtain ⟨b, hb⟩ := h a (by simp)
    obtain ⟨r, hr⟩ := ih (fun x hx => h x (by simp [hx]))
    exact ⟨b :: r, by simp [forAll, hb, hr]⟩

/-! ### The calls -/

def St.pos (st : St) (e u p : Nat) : Option Nat := (st.elems[e]?).bind fun b => posOf b u p

theorem content_eq (st : St) (e u p : Nat) : st.content e u p = (st.pos e u p).bind fun i => st.coll[i]? := rfl

/-- the position a call puts at a place of an element -/
def hit (m : Mesh) (e p : Nat) : Call → Option Nat
  | .put e' s x => if e' = e ∧ ((m.elems[e']?).bind fun el => el.place s) = some p then some x else none
  | _ => none

/-- the number a call gives a part -/
def hitCount (part : Part) (i : Nat) : Call → Option Nat
  | .count part' i' n => if part' = part ∧ i' = i then some n else none
  | _ => none

theorem exec_spec {m : Mesh} {us : List Nat} {st st' : St} {c : Call} (h : exec m us st c = some st') :
    st'.coll = st.coll ∧ (Fits m st → Fits m st') ∧
    (∀ e u p, st'.pos e u p = if u ∈ us then (hit m e p c).or (st.pos e u p) else st.pos e u p) ∧
    ∀ part i u, st'.count part i u =
      if u ∈ us then (hitCount part i c).or (st.count part i u) else st.count part i u := by
  cases c with
  | put e0 s x =>
    simp only [exec, Option.bind_eq_some_iff, Option.map_eq_some_iff] at h
    obtain ⟨el, hel, p0, hp0, l, hl, rfl⟩ := h
    obtain ⟨a, b, ha, hb, hlen, hget⟩ := modifyAt_spec hl
    obtain ⟨h1, h2⟩ := registerAll_spec us hb
    refine ⟨rfl, fun F => ⟨hlen.trans F.elems, fun c hc => ?_, F.parts, F.part⟩, fun e u p => ?_, fun part i u => ?_⟩
    · obtain ⟨j, hj⟩ := List.mem_iff_getElem?.1 hc
      rw [hget] at hj
      split at hj
      · cases hj; rw [h1]; exact F.unknowns a (List.mem_of_getElem? ha)
      · exact F.unknowns c (List.mem_of_getElem? hj)
    · unfold St.pos hit
      simp only [hget, hel, Option.bind_some, hp0]
      by_cases he : e = e0
      · subst he
        simp only [if_true, Option.bind_some, ha, h2, true_and, Option.some.injEq]
        by_cases hu : u ∈ us <;> by_cases hp : p = p0
        · simp [hu, hp]
        · simp [hu, hp, Ne.symm hp]
        · simp [hu, hp]
        · simp [hu, hp]
      · simp [he, Ne.symm he]
    · simp [hitCount, St.count]
  | count part0 i0 n =>
    simp only [exec, Option.map_eq_some_iff] at h
    obtain ⟨l, hl, rfl⟩ := h
    obtain ⟨a, b, ha, hb, hlen, hget⟩ := modifyAt_spec hl
    obtain ⟨h1, h2⟩ := countAll_spec us hb
    refine ⟨rfl, fun F => ⟨F.elems, F.unknowns, fun part => ?_, fun part c hc => ?_⟩, fun e u p => ?_,
      fun part i u => ?_⟩
    · by_cases hp : part = part0
      · subst hp; simpa using hlen.trans (F.parts part)
      · simpa [Function.update_of_ne hp] using F.parts part
    · by_cases hp : part = part0
      · subst hp
        simp only [Function.update_self] at hc
        obtain ⟨j, hj⟩ := List.mem_iff_getElem?.1 hc
        rw [hget] at hj
        split at hj
        · cases hj; rw [h1]; exact F.part part a (List.mem_of_getElem? ha)
        · exact F.part part c (List.mem_of_getElem? hj)
      · simp only [Function.update_of_ne hp] at hc
        exact F.part part c hc
    · simp [hit, St.pos]
    · unfold St.count hitCount
      by_cases hp : part = part0
      · subst hp
        simp only [Function.update_self, hget, true_and]
        by_cases hi : i = i0
        · subst hi
          simp only [if_true, Option.bind_some, ha, h2]
          by_cases hu : u ∈ us <;> simp [hu]
        · simp [hi, Ne.symm hi]
      · simp [Function.update_of_ne hp, Ne.symm hp]

theorem exec_hit_lt {m : Mesh} {us : List Nat} (hu : us ≠ []) {st st' : St} {c : Call} (h : exec m us st c = some st')
    {e p x : Nat} (hx : hit m e p c = some x) : x < st.coll.length := by
  cases c with
  | put e0 s y =>
    simp only [exec, Option.bind_eq_some_iff, Option.map_eq_some_iff] at h
    obtain ⟨el, hel, p0, hp0, l, hl, rfl⟩ := h
    obtain ⟨a, b, ha, hb, hlen, hget⟩ := modifyAt_spec hl
    have := registerAll_lt us hu hb
    simp only [hit] at hx
    split at hx
    · cases hx; simpa [sizesOf] using this
    · cases hx
  | count part i n => simp [hit] at hx

theorem exec_defined {m : Mesh} {us : List Nat} {st : St} {c : Call} (F : Fits m st) (hu : ∀ u ∈ us, u < m.unknowns)
    (h : match c with
      | .put e s x => x < st.coll.length ∧ ∃ el p, m.elems[e]? = some el ∧ el.place s = some p
      | .count part i _ => i < m.number part) : ∃ st', exec m us st c = some st' := by
  cases c with
  | put e s x =>
    obtain ⟨hx, el, p, hel, hp⟩ := h
    have he : e < st.elems.length := by rw [F.elems]; exact (List.getElem?_eq_some_iff.1 hel).1
    obtain ⟨b', hb⟩ := registerAll_defined (sizesOf st.coll) p x us st.elems[e]
      (fun u h => by rw [F.unknowns _ (List.getElem_mem he)]; exact hu u h) (by simpa [sizesOf] using hx)
    obtain ⟨l, hl⟩ := modifyAt_defined (List.getElem?_eq_getElem he) hb
    exact ⟨_, by simp [exec, hel, hp, hl]; rfl⟩
  | count part i n =>
    have hi : i < (st.counts part).length := by rw [F.parts]; exact h
    obtain ⟨b', hb⟩ := countAll_defined n us (st.counts part)[i]
      (fun u h => by rw [F.part part _ (List.getElem_mem hi)]; exact hu u h)
    obtain ⟨l, hl⟩ := modifyAt_defined (List.getElem?_eq_getElem hi) hb
    exact ⟨_, by simp [exec, hl]; rfl⟩

theorem run_spec {m : Mesh} {us : List Nat} (cs : List Call) {st st' : St} (h : run m us cs st = some st') :
    st'.coll = st.coll ∧ (Fits m st → Fits m st') ∧
    (∀ e p x, (∀ c ∈ cs, hit m e p c = none ∨ hit m e p c = some x) → ∀ u,
      ((u ∈ us ∧ ∃ c ∈ cs, hit m e p c = some x) → st'.pos e u p = some x) ∧
      (¬ (u ∈ us ∧ ∃ c ∈ cs, hit m e p c = some x) → st'.pos e u p = st.pos e u p)) ∧
    (∀ part i n, (∀ c ∈ cs, hitCount part i c = none ∨ hitCount part i c = some n) → ∀ u,
      ((u ∈ us ∧ ∃ c ∈ cs, hitCount part i c = some n) → st'.count part i u = some n) ∧
      (¬ (u ∈ us ∧ ∃ c ∈ cs, hitCount part i c = some n) → st'.count part i u = st.count part i u)) := by
  induction cs generalizing st with
  | nil => cases h; simp
  | cons c cs ih =>
    simp only [run, Option.bind_eq_some_iff] at h
    obtain ⟨s, hs, h⟩ := h
    obtain ⟨a1, a2, a3, a4⟩ := exec_spec hs
    obtain ⟨b1, b2, b3, b4⟩ := ih h
    refine ⟨b1.trans a1, b2 ∘ a2, fun e p x hx u => ?_, fun part i n hn u => ?_⟩
    · obtain ⟨c1, c2⟩ := b3 e p x (fun d hd => hx d (by simp [hd])) u
      by_cases hr : u ∈ us ∧ ∃ c ∈ cs, hit m e p c = some x
      · refine ⟨fun _ => c1 hr, fun hn => absurd ⟨hr.1, ?_⟩ hn⟩
        obtain ⟨d, hd, e⟩ := hr.2
        exact ⟨d, by simp [hd], e⟩
      · rw [c2 hr, a3]
        refine ⟨fun ⟨hu, d, hd, e⟩ => ?_, fun hn => ?_⟩
        · rcases List.mem_cons.1 hd with rfl | hd
          · simp [hu, e]
          · exact absurd ⟨hu, d, hd, e⟩ hr
        · by_cases hu : u ∈ us
          · rcases hx c (by simp) with e | e
            · simp [e]
            · exact absurd ⟨hu, c, by simp, e⟩ hn
          · simp [hu]
    · obtain ⟨c1, c2⟩ := b4 part i n (fun d hd => hn d (by simp [hd])) u
      by_cases hr : u ∈ us ∧ ∃ c ∈ cs, hitCount part i c = some n
      · refine ⟨fun _ => c1 hr, fun hn => absurd ⟨hr.1, ?_⟩ hn⟩
        obtain ⟨d, hd, e⟩ := hr.2
        exact ⟨d, by simp [hd], e⟩
      · rw [c2 hr, a4]
        refine ⟨fun ⟨hu, d, hd, e⟩ => ?_, fun hn' => ?_⟩
        · rcases List.mem_cons.1 hd with rfl | hd
          · simp [hu, e]
          · exact absurd ⟨hu, d, hd, e⟩ hr
        · by_cases hu : u ∈ us
          · rcases hn c (by simp) with e | e
            · simp [e]
            · exact absurd ⟨hu, c, by simp, e⟩ hn'
          · simp [hu]

/-- Unknowns that are not in the list are left alone. -/
theorem run_other {m : Mesh} {us : List Nat} (cs : List Call) {st st' : St} (h : run m us cs st = some st') (u : Nat)
    (hu : u ∉ us) : (∀ e p, st'.pos e u p = st.pos e u p) ∧ ∀ part i, st'.count part i u = st.count part i u := by
  induction cs generalizing st with
  | nil => cases h; simp
  | cons c cs ih =>
    simp only [run, Option.bind_eq_some_iff] at h
    obtain ⟨s, hs, h⟩ := h
    obtain ⟨a1, a2, a3, a4⟩ := exec_spec hs
    obtain ⟨b1, b2⟩ := ih h
    exact ⟨fun e p => by rw [b1, a3, if_neg hu], fun part i => by rw [b2, a4, if_neg hu]⟩

theorem run_defined {m : Mesh} {us : List Nat} (cs : List Call) (st : St) (F : Fits m st)
    (hu : ∀ u ∈ us, u < m.unknowns) (h : ∀ c ∈ cs, match c with
      | .put e s x => x < st.coll.length ∧ ∃ el p, m.elems[e]? = some el ∧ el.place s = some p
      | .count part i _ => i < m.number part) : ∃ st', run m us cs st = some st' := by
  induction cs generalizing st with
  | nil => exact ⟨st, rfl⟩
  | cons c cs ih =>
    obtain ⟨s, hs⟩ := exec_defined (c := c) F hu (h c (by simp))
    obtain ⟨a1, a2, -, -⟩ := exec_spec hs
    obtain ⟨st', h'⟩ := ih s (a2 F) (by rw [a1]; exact fun d hd => h d (by simp [hd]))
    exact ⟨st', by simp [run, hs, h']⟩

end Verif.Assign
