import Verif.EigenProgram.Spec
import Verif.KPath.Props
import Mathlib.Data.List.TakeWhile
import Mathlib.Tactic.FieldSimp
import Mathlib.Tactic.Ring
import Mathlib.Tactic.Positivity
import Mathlib.Analysis.Real.Pi.Bounds

/-!
# Properties of the program for band structures
-/

namespace Verif.EigenProgram

theorem numeric_iff (c : Char) : numeric c = true ↔ c ∈ "0123456789.-e".toList := by
  have h : "0123456789.-e".toList = ['0','1','2','3','4','5','6','7','8','9','.','-','e'] := by decide
  rw [h]
  constructor
  · intro hc
    simp only [numeric, Bool.or_eq_true, decide_eq_true_eq] at hc
    rcases hc with ((hc | rfl) | rfl) | rfl
    · rw [Char.isDigit, Bool.and_eq_true] at hc
      have h1 := decide_eq_true_eq.mp hc.1
      have h2 := decide_eq_true_eq.mp hc.2
      have h1' : 48 ≤ c.val.toNat := h1
      have h2' : c.val.toNat ≤ 57 := h2
      have key : ∀ d : Char, c.val.toNat = d.val.toNat → c = d := fun d hd =>
        Char.ext (UInt32.toNat_inj.mp hd)
      have : c.val.toNat = 48 ∨ c.val.toNat = 49 ∨ c.val.toNat = 50 ∨ c.val.toNat = 51 ∨ c.val.toNat = 52 ∨
        c.val.toNat = 53 ∨ c.val.toNat = 54 ∨ c.val.toNat = 55 ∨ c.val.toNat = 56 ∨ c.val.toNat = 57 := by omega
      rcases this with h | h | h | h | h | h | h | h | h | h
      · rw [key '0' h]; decide
      · rw [key '1' h]; decide
      · rw [key '2' h]; decide
      · rw [key '3' h]; decide
      · rw [key '4' h]; decide
      · rw [key '5' h]; decide
      · rw [key '6' h]; decide
      · rw [key '7' h]; decide
      · rw [key '8' h]; decide
      · rw [key '9' h]; decide
    · decide
    · decide
    · decide
  · intro hc
    simp only [List.mem_cons, List.not_mem_nil, or_false] at hc
    rcases hc with rfl | rfl | rfl | rfl | rfl | rfl | rfl | rfl | rfl | rfl | rfl | rfl | rfl <;> decide

theorem terms_sound (stod : List Char → Option ℚ) : ∀ (n : Nat) (s : List Char) (ps : List Param) (rest : List Char),
    terms stod n s = some (ps, rest) →
    ∃ ts, s = ts.flatten ++ rest ∧ List.Forall₂ (Written stod) ts ps
  | 0, s, ps, rest, h => by
    simp only [terms, Option.some.injEq, Prod.mk.injEq] at h
    obtain ⟨rfl, rfl⟩ := h
    exact ⟨[], by simp, .nil⟩
  | n + 1, [], ps, rest, h => by
    simp only [terms, Option.some.injEq, Prod.mk.injEq] at h
    obtain ⟨rfl, rfl⟩ := h
    exact ⟨[], by simp, .nil⟩
  | n + 1, c :: s, ps, rest, h => by
    rw [terms] at h
    simp only [Option.bind_eq_bind, Option.bind_eq_some_iff] at h
    obtain ⟨flux, hf, h⟩ := h
    split at h
    · cases h
    · rename_i hl
      simp only [Option.bind_eq_some_iff] at h
      obtain ⟨v, hv, ⟨qs, r⟩, hq, h⟩ := h
      simp only [Option.some.injEq, Prod.mk.injEq] at h
      obtain ⟨rfl, rfl⟩ := h
      obtain ⟨ts, h1, h2⟩ := terms_sound stod n _ qs r hq
      have hc : c = if flux then 'b' else 'i' := by
        unfold fluxOf at hf
        split at hf
        · cases hf; assumption
        · split at hf
          · cases hf; assumption
          · cases hf
      refine ⟨(c :: s.takeWhile numeric) :: ts, ?_, .cons ⟨s.takeWhile numeric, ?_, ?_, ?_, hv⟩ h2⟩
      · rw [List.flatten_cons, List.cons_append, List.cons_append, List.append_assoc, ← h1,
          List.takeWhile_append_dropWhile]
      · rw [hc]
      · rintro he; rw [he] at hl; exact hl rfl
      · intro x hx
        rw [← numeric_iff]
        exact List.mem_takeWhile_imp hx

theorem Written.head {stod t p} (h : Written stod t p) : ∃ c num, t = c :: num ∧ numeric c = false := by
  obtain ⟨num, ht, _⟩ := h.text
  exact ⟨_, num, ht, by cases p.brezzi <;> decide⟩

theorem terms_complete (stod : List Char → Option ℚ) : ∀ (ts : List (List Char)) (ps : List Param) (s : List Char),
    List.Forall₂ (Written stod) ts ps → (∀ c ∈ s.head?, numeric c = false) →
    terms stod ts.length (ts.flatten ++ s) = some (ps, s)
  | [], _, s, h, _ => by cases h; simp [terms]
  | t :: ts, p :: ps, s, .cons ht h, hs => by
    obtain ⟨num, rfl, hn, hnum, hv⟩ := ht.text
    have ih := terms_complete stod ts ps s h hs
    have hall : ∀ x ∈ num, numeric x = true := fun x hx => (numeric_iff x).mpr (hnum x hx)
    have hstop : ∀ c ∈ (ts.flatten ++ s).head?, numeric c = false := by
      cases h with
      | nil => simpa using hs
      | cons ht' _ =>
        obtain ⟨c, num', rfl, hc⟩ := ht'.head
        simpa using hc
    have htk : (num ++ (ts.flatten ++ s)).takeWhile numeric = num := by
      rw [List.takeWhile_append_of_pos hall]
      cases hr : ts.flatten ++ s with
      | nil => simp
      | cons c r =>
        rw [hr] at hstop
        rw [List.takeWhile_cons_of_neg (by simpa using hstop c rfl), List.append_nil]
    have hdr : (num ++ (ts.flatten ++ s)).dropWhile numeric = ts.flatten ++ s := by
      rw [List.dropWhile_append_of_pos hall]
      cases hr : ts.flatten ++ s with
      | nil => simp
      | cons c r =>
        rw [hr] at hstop
        rw [List.dropWhile_cons_of_neg (by simpa using hstop c rfl)]
    rw [List.flatten_cons, List.cons_append, List.cons_append, List.append_assoc, List.length_cons, terms, htk, hdr, ih]
    have hflux : fluxOf (if p.brezzi then 'b' else 'i') = some p.brezzi := by
      cases p.brezzi <;> decide
    rw [hflux]
    simp only [Option.bind_eq_bind, Option.bind_some]
    rw [if_neg (by simpa using hn), hv]
    rfl

/-- C186. The option for the stabilisation parameters of the mixed method is accepted exactly when it consists of
three parameters, each a letter for the flux and a number, and these are the parameters used. -/
theorem penalties_iff (stod : List Char → Option ℚ) (s : List Char) (ps : List Param) :
    penalties stod (some s) = some ps ↔
      ∃ t1 t2 t3 p1 p2 p3, s = t1 ++ t2 ++ t3 ∧ ps = [p1, p2, p3] ∧
        Written stod t1 p1 ∧ Written stod t2 p2 ∧ Written stod t3 p3 := by
  constructor
  · intro h
    simp only [penalties, Option.bind_eq_bind, Option.bind_eq_some_iff] at h
    obtain ⟨⟨qs, rest⟩, hq, h⟩ := h
    simp only at h
    split at h
    · cases h
    · rename_i hlen
      split at h
      · cases h
      · rename_i hrest
        obtain rfl : qs = ps := by simpa using h
        obtain ⟨ts, h1, h2⟩ := terms_sound stod 3 s qs rest hq
        have hle : ∀ (n : Nat) (s : List Char) ps rest, terms stod n s = some (ps, rest) → ps.length ≤ n := by
          intro n
          induction n with
          | zero => intro s ps rest h; simp only [terms, Option.some.injEq, Prod.mk.injEq] at h; simp [← h.1]
          | succ n ih =>
            intro s ps rest h
            cases s with
            | nil => simp only [terms, Option.some.injEq, Prod.mk.injEq] at h; simp [← h.1]
            | cons c s =>
              rw [terms] at h
              simp only [Option.bind_eq_bind, Option.bind_eq_some_iff] at h
              obtain ⟨flux, hf, h⟩ := h
              split at h
              · cases h
              · simp only [Option.bind_eq_some_iff] at h
                obtain ⟨v, hv, ⟨qs, r⟩, hq, h⟩ := h
                simp only [Option.some.injEq, Prod.mk.injEq] at h
                rw [← h.1, List.length_cons]
                have := ih _ qs r hq
                omega
        have h3 := hle 3 s qs rest hq
        have hr : rest = [] := by simpa using hrest
        subst hr
        clear hq h
        match qs, h2, hlen, h3 with
        | [p1, p2, p3], .cons w1 (.cons w2 (.cons w3 .nil)), _, _ =>
          exact ⟨_, _, _, p1, p2, p3, by rw [h1]; simp, rfl, w1, w2, w3⟩
        | [], _, hl, _ => simp at hl
        | [_], _, hl, _ => simp at hl
        | [_, _], _, hl, _ => simp at hl
        | _ :: _ :: _ :: _ :: _, _, _, h3 => simp only [List.length_cons] at h3; omega
  · rintro ⟨t1, t2, t3, p1, p2, p3, rfl, rfl, w1, w2, w3⟩
    have := terms_complete stod [t1, t2, t3] [p1, p2, p3] [] (.cons w1 (.cons w2 (.cons w3 .nil))) (by simp)
    simp only [List.length_cons, List.length_nil, List.flatten_cons, List.flatten_nil, List.append_nil] at this
    simp only [penalties, Option.bind_eq_bind]
    rw [List.append_assoc, this]
    rfl

/-- C186. The parameter of the primal method is accepted exactly when it is a number as a whole. -/
theorem penalty_iff (stod : List Char → Option (ℚ × Nat)) (s : List Char) (v : ℚ) :
    penalty stod (some s) = some v ↔ stod s = some (v, s.length) := by
  simp only [penalty, Option.bind_eq_bind, Option.bind_eq_some_iff]
  constructor
  · rintro ⟨⟨w, n⟩, h1, h2⟩
    simp only at h2
    split at h2
    · cases h2
    · rename_i hn; cases h2; rw [h1]; simp only [ne_eq, not_not] at hn; rw [hn]
  · intro h; exact ⟨_, h, by simp⟩

/-- C186. The defaults are those of the example in the help text, `b5b0b5`, and 100. -/
theorem penalty_defaults (stod : List Char → Option ℚ) (h5 : stod ['5'] = some 5) (h0 : stod ['0'] = some 0)
    (stod' : List Char → Option (ℚ × Nat)) :
    penalties stod none = penalties stod (some "b5b0b5".toList) ∧ penalty stod' none = some 100 := by
  refine ⟨?_, rfl⟩
  symm
  refine (penalties_iff stod _ _).mpr ⟨['b', '5'], ['b', '0'], ['b', '5'], ⟨true, 5⟩, ⟨true, 0⟩, ⟨true, 5⟩, by decide,
    rfl, ⟨['5'], rfl, by decide, by decide, h5⟩, ⟨['0'], rfl, by decide, by decide, h0⟩,
    ⟨['5'], rfl, by decide, by decide, h5⟩⟩

/-- C186 (finding). The length read is not looked at: with `stod "1-2" = 1`, as the standard prescribes, the
input `b1-2b0b5` is accepted as `b1b0b5`. -/
theorem garbage_ignored (stod : List Char → Option ℚ) (h1 : stod ['1', '-', '2'] = some 1) (h0 : stod ['0'] = some 0)
    (h5 : stod ['5'] = some 5) :
    penalties stod (some "b1-2b0b5".toList) = some [⟨true, 1⟩, ⟨true, 0⟩, ⟨true, 5⟩] := by
  refine (penalties_iff stod _ _).mpr ⟨['b', '1', '-', '2'], ['b', '0'], ['b', '5'], _, _, _, by decide, rfl,
    ⟨['1', '-', '2'], rfl, by decide, by decide, h1⟩, ⟨['0'], rfl, by decide, by decide, h0⟩,
    ⟨['5'], rfl, by decide, by decide, h5⟩⟩

/-- C186. Four methods are accepted. A second unknown is there exactly for the mixed method and the projector, and a
third element matrix exactly for the projector, which is used with the primal method only. -/
theorem selectMethod_spec (m : String) :
    ((selectMethod m).isSome ↔ m ∈ ["DGMAX", "DGMAX_PROJECT", "DGMAX_PROJECT1", "DIVDGMAX"]) ∧
    ∀ r, selectMethod m = some r →
      (r.div = true ↔ m = "DIVDGMAX") ∧
      (r.projector = .all ↔ m = "DGMAX_PROJECT") ∧ (r.projector = .initial ↔ m = "DGMAX_PROJECT1") ∧
      r.unknowns = (if r.div = true ∨ r.projector ≠ .none then 2 else 1) ∧
      r.matrices = (if r.projector ≠ .none then 3 else 2) := by
  by_cases h1 : m = "DGMAX"
  · subst h1; decide
  by_cases h2 : m = "DGMAX_PROJECT"
  · subst h2; decide
  by_cases h3 : m = "DGMAX_PROJECT1"
  · subst h3; decide
  by_cases h4 : m = "DIVDGMAX"
  · subst h4; decide
  simp [selectMethod, h1, h2, h3, h4]

open Verif.KPath (Path)

theorem k_smul {dim : Nat} (ps : List (Fin dim → ℝ)) (n i : Nat) (a : ℝ) :
    (⟨ps.map fun p => a • p, n⟩ : Path (Fin dim → ℝ)).k (K := ℝ) i = (wave dim ps n i).map (a • ·) := by
  unfold wave Path.k
  simp only [List.getElem?_map]
  split
  · rfl
  · split
    · rfl
    · cases ps[i / n + 1]? with
      | none => rfl
      | some x =>
        cases ps[i / n]? with
        | none => rfl
        | some y =>
          simp only [Option.map_some, Option.bind_eq_bind, Option.bind_some, Option.some.injEq]
          rw [smul_add, smul_comm a, smul_comm a]

theorem len_smul {dim : Nat} (k : Fin dim → ℝ) (a : ℝ) (ha : 0 ≤ a) : len (a • k) = a * len k := by
  have : (∑ i, (a • k) i ^ 2) = a ^ 2 * ∑ i, k i ^ 2 := by
    rw [Finset.mul_sum]; refine Finset.sum_congr rfl fun i _ => ?_
    simp only [Pi.smul_apply, smul_eq_mul]; ring
  rw [len, this, Real.sqrt_mul (sq_nonneg a), Real.sqrt_sq ha]; rfl

/-- C187. A row of the table for given points. The wave vector reported is half the one on the path through the
points of the user (who gives them in units of pi), whatever the length scale; the size reported is the length of
this vector; a frequency is in units of `2 pi / scale`. -/
theorem row_points (dim : Nat) (pi scale : ℝ) (hpi : 0 < pi) (hs : 0 < scale) (ps : List (Fin dim → ℝ)) (n : Int)
    (steps i : Nat) (fs : List ℝ) (k : Fin dim → ℝ)
    (hk : wave dim ps (if n < 0 then 1 else n.toNat) i = some k) :
    ∃ r, row dim pi scale (path dim pi scale (some (ps, n)) steps) i fs = some r ∧
      r.index = i + 1 ∧ (∀ j, r.k j = k j / 2) ∧ r.kmag = len r.k ∧
      r.bands = fs.map fun f => f / (2 * pi / scale) := by
  have h := k_smul ps (if n < 0 then 1 else n.toNat) i (pi / scale)
  rw [hk] at h
  refine ⟨⟨i + 1, fun j => (scale • (pi / scale) • k) j / (2 * pi),
    len (scale • (pi / scale) • k) / (2 * pi), fs.map fun f => f / (2 * pi) * scale⟩, ?_, rfl, ?_, ?_, ?_⟩
  · simp only [row, path, h]; rfl
  · intro j
    simp only [Pi.smul_apply, smul_eq_mul]
    field_simp
  · have h1 : (fun j => (scale • (pi / scale) • k) j / (2 * pi)) =
        (1 / (2 * pi)) • (scale • (pi / scale) • k) := by
      funext j; simp only [Pi.smul_apply, smul_eq_mul]; ring
    simp only [h1]
    rw [len_smul _ (1 / (2 * pi)) (by positivity)]; ring
  · refine List.map_congr_left fun f _ => ?_
    field_simp

/-- C187. The wave vector the solver gets for given points: that of the path, times `pi / scale`. -/
theorem solver_points (dim : Nat) (pi scale : ℝ) (ps : List (Fin dim → ℝ)) (n : Int) (steps i : Nat) :
    (path dim pi scale (some (ps, n)) steps).k (K := ℝ) i =
      (wave dim ps (if n < 0 then 1 else n.toNat) i).map ((pi / scale) • ·) :=
  k_smul ps _ i _

theorem rows_exact (dim : Nat) (pi scale : ℝ) (p : Path (Fin dim → ℝ)) (solve : (Fin dim → ℝ) → List ℝ) :
    ∀ (left point : Nat) (rs : List (Row dim)), rows dim pi scale p solve left point = some rs →
      rs.length = left ∧ ∀ i, i < left → ∃ k, p.k (K := ℝ) (point + i) = some k ∧
        row dim pi scale p (point + i) (solve k) = rs[i]?
  | 0, point, rs, h => by
    simp only [rows, Option.some.injEq] at h; subst h; simp
  | left + 1, point, rs, h => by
    rw [rows] at h
    simp only [Option.bind_eq_bind, Option.bind_eq_some_iff] at h
    obtain ⟨k, hk, r, hr, qs, hq, h⟩ := h
    cases h
    obtain ⟨h1, h2⟩ := rows_exact dim pi scale p solve left (point + 1) qs hq
    refine ⟨by simp [h1], ?_⟩
    intro i hi
    cases i with
    | zero => exact ⟨k, hk, by simpa using hr⟩
    | succ i =>
      obtain ⟨k', h3, h4⟩ := h2 i (by omega)
      refine ⟨k', by rw [← h3]; congr 1; omega, ?_⟩
      rw [show point + (i + 1) = point + 1 + i by omega, h4]; simp

/-- C187. The table has a row for every point of the path, in order and numbered from one, made from what the
solver finds at this point. -/
theorem table_exact (dim : Nat) (pi scale : ℝ) (p : Path (Fin dim → ℝ)) (solve : (Fin dim → ℝ) → List ℝ)
    (rs : List (Row dim)) (h : table dim pi scale p solve = some rs) :
    rs.length = p.totalNumberOfSteps ∧
    ∀ (i : Nat) (hi : i < rs.length), ∃ k, p.k (K := ℝ) i = some k ∧ rs[i].index = i + 1 ∧
      (∀ j, rs[i].k j = scale * k j / (2 * pi)) ∧ rs[i].bands = (solve k).map fun f => scale * f / (2 * pi) := by
  obtain ⟨h1, h2⟩ := rows_exact dim pi scale p solve _ 0 rs h
  refine ⟨h1, ?_⟩
  intro i hi
  obtain ⟨k, h3, h4⟩ := h2 i (by omega)
  rw [Nat.zero_add] at h3 h4
  refine ⟨k, h3, ?_⟩
  rw [List.getElem?_eq_getElem hi] at h4
  simp only [row, h3, Option.bind_eq_bind, Option.bind_some, Option.some.injEq] at h4
  rw [← h4]
  refine ⟨rfl, fun j => rfl, List.map_congr_left fun f _ => ?_⟩
  ring

/-- C187. In vacuum, where the frequency is the length of the wave vector, the table shows this for any path and
length scale: the band equals `kmag/2pi`. -/
theorem vacuum_row (dim : Nat) (pi scale : ℝ) (hs : 0 < scale) (p : Path (Fin dim → ℝ)) (i : Nat)
    (k : Fin dim → ℝ) (hk : p.k (K := ℝ) i = some k) :
    ∃ r, row dim pi scale p i [len k] = some r ∧ r.bands = [r.kmag] := by
  refine ⟨⟨i + 1, fun j => (scale • k) j / (2 * pi), len (scale • k) / (2 * pi),
    [len k / (2 * pi) * scale]⟩, ?_, ?_⟩
  · simp only [row, hk]; rfl
  · simp only [len_smul k scale hs.le, List.cons.injEq, and_true]; ring

/-- C187 (negation for the default path). The default path is not divided by the length scale, though the program
says so of all wave vectors: its first corner, `(pi, 0, ..)` of the unit cell, is reported as `scale / 2`. -/
theorem default_path_unscaled (dim steps : Nat) (pi scale : ℝ) (hpi : 0 < pi) (hdim : 0 < dim) (hs : 0 < steps)
    (fs : List ℝ) :
    ∃ r, row dim pi scale (path dim pi scale none steps) steps fs = some r ∧ r.k ⟨0, hdim⟩ = scale / 2 := by
  have hk : (path dim pi scale none steps).k (K := ℝ) steps = some (fun i => if i.1 < 1 then pi else 0) := by
    have := Verif.KPath.k_corner (K := ℝ) (path dim pi scale none steps) hs 1
    simp only [path, Path.cubePath, Nat.one_mul] at this ⊢
    rw [this]
    simp [hdim]
  refine ⟨⟨steps + 1, fun j => (scale • fun i : Fin dim => if i.1 < 1 then pi else 0) j / (2 * pi),
    Real.sqrt (∑ j, (scale • fun i : Fin dim => if i.1 < 1 then pi else 0) j ^ 2) / (2 * pi),
    fs.map fun f => f / (2 * pi) * scale⟩, ?_, ?_⟩
  · simp only [row, hk]; rfl
  · simp only [Pi.smul_apply, smul_eq_mul, Nat.lt_one_iff, if_true]
    field_simp

/-- Non-vacuity: half way between `0` and `(1, 0)` in a mesh of scale 3. -/
example : ∃ r, row 2 Real.pi 3 (path 2 Real.pi 3 (some ([0, ![1, 0]], 2)) 7) 1 [] = some r ∧ r.k 0 = 1 / 4 := by
  have hk : wave 2 [0, ![1, 0]] (if (2 : Int) < 0 then 1 else (2 : Int).toNat) 1 =
      some ((1 * ((1 % 2 : Nat) : ℝ) / ((2 : Nat) : ℝ)) • ![1, 0] + (1 - 1 * ((1 % 2 : Nat) : ℝ) / ((2 : Nat) : ℝ)) • 0) := by
    rfl
  obtain ⟨r, h1, _, h2, _⟩ := row_points 2 Real.pi 3 Real.pi_pos (by norm_num) _ 2 7 1 [] _ hk
  refine ⟨r, h1, ?_⟩
  rw [h2]
  simp
  norm_num

end Verif.EigenProgram
