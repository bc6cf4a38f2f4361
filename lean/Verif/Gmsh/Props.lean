import Verif.Gmsh.Spec
import Mathlib.Data.List.Forall2
import Mathlib.Data.List.Nodup
import Mathlib.Data.List.Induction
import Mathlib.Tactic.NormNum
import Mathlib.Tactic.Linarith

/-!
# Theorems about reading gmsh files
-/

namespace Verif.Gmsh

/-! ### Lines -/

theorem getLine_append (l rest : List Char) (hl : ∀ c ∈ l, c ≠ '\n' ∧ c ≠ '\r') :
    getLine (l ++ rest) = (l ++ (getLine rest).1, (getLine rest).2) := by
  induction l with
  | nil => simp
  | cons c l ih =>
    have h := hl c (by simp)
    rw [List.cons_append, getLine, if_neg h.1, if_neg h.2, ih (fun d hd => hl d (by simp [hd]))]
    simp

/-- The lines of a text are found whatever of the three line ends it uses, and also if the last line has
no end. After the last line an empty one is delivered. -/
theorem lines_found (ls : List (List Char)) (last term : List Char)
    (ht : term = ['\n'] ∨ term = ['\r', '\n'] ∨ term = ['\r'])
    (hl : ∀ l ∈ ls, ∀ c ∈ l, c ≠ '\n' ∧ c ≠ '\r') (hlast : ∀ c ∈ last, c ≠ '\n' ∧ c ≠ '\r') :
    readLines ((ls.map (· ++ term)).flatten ++ last) =
      ls ++ (if last = [] then [[]] else [last, []]) := by
  induction ls with
  | nil =>
    simp only [List.map_nil, List.flatten_nil, List.nil_append]
    by_cases h : last = []
    · rw [readLines, dif_pos h, if_pos h]
    · rw [readLines, dif_neg h, if_neg h]
      have := getLine_append last [] hlast
      simp only [List.append_nil, getLine] at this
      rw [this]
      simp only
      rw [readLines, dif_pos rfl]
  | cons l ls ih =>
    have hl' := hl l (by simp)
    have ih := ih (fun m hm => hl m (by simp [hm]))
    simp only [List.map_cons, List.flatten_cons, List.append_assoc, List.cons_append]
    set rest := (ls.map (· ++ term)).flatten ++ last with hrest
    have hterm : getLine (term ++ rest) = ([], rest) := by
      rcases ht with rfl | rfl | rfl
      · simp [getLine]
      · simp [getLine, skipLF]
      · have hnn : ∀ d r, rest = d :: r → d ≠ '\n' := by
          intro d r hd
          have hmem : ∀ c ∈ rest, c ≠ '\n' := by
            intro c hc
            rw [hrest, List.mem_append, List.mem_flatten] at hc
            rcases hc with ⟨m, hm, hc⟩ | hc
            · obtain ⟨m', hm', rfl⟩ := List.mem_map.mp hm
              rcases List.mem_append.mp hc with h | h
              · exact (hl m' (by simp [hm']) c h).1
              · simp at h; subst h; decide
            · exact (hlast c hc).1
          exact hmem d (by rw [hd]; simp)
        rw [List.singleton_append, getLine, if_neg (by decide), if_pos rfl]
        cases hr : rest with
        | nil => rfl
        | cons d r => simp [skipLF, hnn d r hr]
    have hg : getLine (l ++ (term ++ rest)) = (l, rest) := by
      rw [getLine_append l _ hl', hterm]; simp
    rw [readLines, dif_neg, hg]
    · simp only
      rw [ih]
    · intro h
      have : term = [] := by
        have := List.append_eq_nil_iff.mp h
        exact (List.append_eq_nil_iff.mp this.2).1
      rcases ht with rfl | rfl | rfl <;> simp at this

example : readLines "$Nodes\r\n1 2\r\n".toList = ["$Nodes".toList, "1 2".toList, []] := by
  have := lines_found ["$Nodes".toList, "1 2".toList] [] ['\r', '\n'] (Or.inr (Or.inl rfl)) (by decide)
    (by decide)
  simpa using this

/-- A section that is skipped ends at its end marker; another end marker is an error. But a section that
is not closed at all is accepted, by both functions. -/
theorem sections_partial (name : List Char) :
    (∀ body rest : List (List Char), (∀ l ∈ body, ¬ "$End".toList.isPrefixOf l) →
      skipSection name (body ++ ("$End".toList ++ name) :: rest) = some rest ∧
      (∀ other, other ≠ name → skipSection name (body ++ ("$End".toList ++ other) :: rest) = none)) ∧
    (∀ body : List (List Char), (∀ l ∈ body, ¬ "$End".toList.isPrefixOf l) →
      skipSection name body = some []) ∧
    (∀ blank rest : List (List Char), (∀ l ∈ blank, l.all isSpace) →
      readSectionEnd name (blank ++ ("$End".toList ++ name) :: rest) = some rest ∧
      (∀ other, other ≠ name → readSectionEnd name (blank ++ ("$End".toList ++ other) :: rest) = none)) ∧
    (∀ blank : List (List Char), (∀ l ∈ blank, l.all isSpace) → readSectionEnd name blank = some []) := by
  have hskip : ∀ body rest : List (List Char), (∀ l ∈ body, ¬ "$End".toList.isPrefixOf l) →
      skipSection name (body ++ rest) = skipSection name rest := by
    intro body rest h
    induction body with
    | nil => rfl
    | cons l body ih =>
      rw [List.cons_append, skipSection, if_neg (h l (by simp)), ih (fun m hm => h m (by simp [hm]))]
  have hend : ∀ blank rest : List (List Char), (∀ l ∈ blank, l.all isSpace) →
      readSectionEnd name (blank ++ rest) = readSectionEnd name rest := by
    intro blank rest h
    induction blank with
    | nil => rfl
    | cons l blank ih =>
      rw [List.cons_append, readSectionEnd, if_pos (h l (by simp)), ih (fun m hm => h m (by simp [hm]))]
  have hpre : ∀ n : List Char, "$End".toList.isPrefixOf ("$End".toList ++ n) = true := by
    intro n; rw [List.isPrefixOf_iff_prefix]; exact List.prefix_append _ _
  have hdrop : ∀ n : List Char, ("$End".toList ++ n).drop 4 = n := fun n => rfl
  have hns : ∀ n : List Char, ¬ ("$End".toList ++ n).all isSpace = true := by
    intro n
    rw [List.all_append, show "$End".toList.all isSpace = false by decide, Bool.false_and]
    decide
  have hlen : ∀ n : List Char, ¬ ("$End".toList ++ n).length < 4 := by
    intro n; simp
  refine ⟨fun body rest h => ⟨?_, fun other ho => ?_⟩, fun body h => ?_, fun blank rest h =>
    ⟨?_, fun other ho => ?_⟩, fun blank h => ?_⟩
  · rw [hskip _ _ h, skipSection, if_pos (hpre _), if_pos (hdrop _)]
  · rw [hskip _ _ h, skipSection, if_pos (hpre _), if_neg (by rw [hdrop]; exact ho)]
  · have := hskip body [] h
    rw [List.append_nil] at this
    rw [this, skipSection]
  · rw [hend _ _ h, readSectionEnd, if_neg (hns _), if_neg (hlen _), if_pos (hdrop _)]
  · rw [hend _ _ h, readSectionEnd, if_neg (hns _), if_neg (hlen _), if_neg (by rw [hdrop]; exact ho)]
  · have := hend blank [] h
    rw [List.append_nil] at this
    rw [this, readSectionEnd]

/-- The end of a section is recognised by what follows the first four characters, whatever these are. -/
theorem section_end_prefix_ignored (name rest4 : List Char) (h4 : rest4.length = 4)
    (hs : ¬ (rest4.all isSpace)) (rest : List (List Char)) :
    readSectionEnd name ((rest4 ++ name) :: rest) = some rest := by
  rw [readSectionEnd, if_neg (by rw [List.all_append]; simp [hs]), if_neg (by simp; omega),
    if_pos (by rw [← h4, List.drop_left])]

/-! ### Dimension and nodes -/

theorem dimStep_max (d : Nat) (n : Node) : dimStep d n = max d (needed n) := by
  unfold dimStep needed
  by_cases hz : |n.z| > tol <;> by_cases hy : |n.y| > tol <;> by_cases hx : |n.x| > tol <;>
    simp only [hz, hy, hx, and_true, and_false, if_true, if_false] <;> (repeat' split) <;> omega

/-- The dimension of the mesh is the largest one that a node or a physical name needs, and cutting the
coordinates to it drops only coordinates that are zero up to the tolerance. -/
theorem dimension_is_largest (names : List PhysName) (nodes : List Node) :
    (∀ d, meshDimension names nodes ≤ d ↔ (∀ p ∈ names, p.dim ≤ d) ∧ ∀ n ∈ nodes, needed n ≤ d) ∧
    ∀ n ∈ nodes, meshDimension names nodes ≤ 3 →
      ∀ (i : Nat) (v : ℚ), [n.x, n.y, n.z][i]? = some v →
        (coords (meshDimension names nodes) n)[i]? = some v ∨ |v| ≤ tol := by
  have hmax : ∀ d, meshDimension names nodes ≤ d ↔
      (∀ p ∈ names, p.dim ≤ d) ∧ ∀ n ∈ nodes, needed n ≤ d := by
    intro d
    have h1 : ∀ (ns : List PhysName) (e : Nat),
        ns.foldl (fun d p => if p.dim > d then p.dim else d) e ≤ d ↔ e ≤ d ∧ ∀ p ∈ ns, p.dim ≤ d := by
      intro ns
      induction ns with
      | nil => intro e; simp
      | cons p ns ih =>
        intro e
        rw [List.foldl_cons, ih]
        simp only [List.mem_cons, forall_eq_or_imp]
        split <;> constructor <;> rintro ⟨h1, h2⟩
        · exact ⟨by omega, by omega, h2⟩
        · exact ⟨h2.1, h2.2⟩
        · exact ⟨h1, by omega, h2⟩
        · exact ⟨h1, h2.2⟩
    have h2 : ∀ (ns : List Node) (e : Nat),
        ns.foldl dimStep e ≤ d ↔ e ≤ d ∧ ∀ n ∈ ns, needed n ≤ d := by
      intro ns
      induction ns with
      | nil => intro e; simp
      | cons n ns ih =>
        intro e
        rw [List.foldl_cons, ih, dimStep_max]
        simp only [List.mem_cons, forall_eq_or_imp, max_le_iff, and_assoc]
    rw [meshDimension, h2, h1]
    simp
  refine ⟨hmax, ?_⟩
  intro n hn h3 i v hv
  have hneed := ((hmax _).mp (le_refl _)).2 n hn
  set d := meshDimension names nodes
  unfold needed at hneed
  unfold coords
  match i, hv with
  | 0, hv =>
    simp at hv; subst hv
    by_cases h : |n.x| > tol
    · left
      have : 1 ≤ d := by
        revert hneed; repeat' split
        all_goals omega
      split
      · rfl
      · rw [List.getElem?_take, if_pos (by omega)]; rfl
    · right; exact not_lt.mp h
  | 1, hv =>
    simp at hv; subst hv
    by_cases h : |n.y| > tol
    · left
      have : 2 ≤ d := by
        revert hneed; repeat' split
        all_goals first | omega | contradiction
      split
      · rfl
      · rw [List.getElem?_take, if_pos (by omega)]; rfl
    · right; exact not_lt.mp h
  | 2, hv =>
    simp at hv; subst hv
    by_cases h : |n.z| > tol
    · left
      rw [if_pos h] at hneed
      rw [if_pos (by omega)]
      rfl
    · right; exact not_lt.mp h
  | (i + 3), hv => simp at hv

example : meshDimension [⟨1, -3, "edge"⟩] [⟨1, 0, 0, 0⟩, ⟨2, 1, 1 / 2, 0⟩] = 2 := by decide +kernel

/-- Elements find their nodes if the tags of the nodes are 1, 2, 3, ... in the order of the file. For
meshes without coinciding nodes they do so only then: nothing checks the tags. -/
theorem nodes_found_iff_consecutive (dim : Nat) (nodes : List Node)
    (hd : (nodes.map (coords dim)).Nodup) (ht : ∀ n ∈ nodes, 1 ≤ n.tag) :
    (∀ n ∈ nodes, coordOf dim nodes (n.tag - 1) = some (coords dim n)) ↔
      ∀ i n, nodes[i]? = some n → n.tag = i + 1 := by
  constructor
  · intro h i n hi
    have hi' : i < nodes.length := by
      by_contra hc
      rw [List.getElem?_eq_none (by omega)] at hi
      simp at hi
    have hmem : n ∈ nodes := List.mem_of_getElem? hi
    have h1 := h n hmem
    rw [coordOf, Option.map_eq_some_iff] at h1
    obtain ⟨m, hm, hc⟩ := h1
    have hlt : n.tag - 1 < nodes.length := by
      by_contra hc
      rw [List.getElem?_eq_none (by omega)] at hm
      simp at hm
    have e1 : (nodes.map (coords dim))[n.tag - 1]'(by simpa using hlt) =
        (nodes.map (coords dim))[i]'(by simpa using hi') := by
      rw [List.getElem_map, List.getElem_map]
      rw [List.getElem?_eq_getElem hlt] at hm
      rw [List.getElem?_eq_getElem hi'] at hi
      rw [Option.some.inj hm, Option.some.inj hi, hc]
    have := hd.getElem_inj_iff.mp e1
    have := ht n hmem
    omega
  · intro h n hn
    obtain ⟨i, hi, rfl⟩ := List.getElem_of_mem hn
    have := h i nodes[i] (List.getElem?_eq_getElem hi)
    rw [coordOf, this, Nat.add_sub_cancel, List.getElem?_eq_getElem hi]
    rfl

/-- Node tags 1, 3, 2: an element with node 2 gets the position of node 3. -/
example : coordOf 1 [⟨1, 0, 0, 0⟩, ⟨3, 5, 0, 0⟩, ⟨2, 1, 0, 0⟩] (2 - 1) = some [5] := by decide +kernel

/-! ### Elements -/

theorem mod_dec (t : Nat) (h1 : 1 ≤ t) (h2 : t ≤ S) : (t + (S - 1)) % S = t - 1 := by
  have hS : S = 18446744073709551616 := by rw [S]; norm_num
  rw [hS] at h2 ⊢
  omega

theorem elementType_documented (type dim n : Nat) :
    (type, dim, n) ∈ documented ↔ elementType type = some (dim, n) := by
  constructor
  · intro h
    simp only [documented, List.mem_cons, Prod.mk.injEq, List.not_mem_nil, or_false] at h
    rcases h with h | h | h | h | h | h | h | h | h | h | h <;> obtain ⟨rfl, rfl, rfl⟩ := h <;> rfl
  · intro h
    unfold elementType at h
    split at h <;> first | (simp at h) | skip
    all_goals (obtain ⟨rfl, rfl⟩ := h; decide)

theorem readElement_spec (index : Nat) (e : FileElement) (r : RawElement) (more : List Nat)
    (h : ReadAs e r) (ht : e.tags ≠ []) (hl : e.tags.length < 2 ^ 64)
    (hn : ∀ t ∈ e.nodes, 1 ≤ t ∧ t < 2 ^ 64) :
    readElement index (e.tokens index ++ more) = some (r, more) := by
  obtain ⟨h1, h2, h3⟩ := h
  rw [elementType_documented] at h1
  obtain ⟨ty, tags, nodes⟩ := e
  obtain ⟨rd, rt, rc⟩ := r
  simp only at *
  obtain ⟨t, ts, rfl⟩ : ∃ t ts, tags = t :: ts := by
    cases tags with
    | nil => exact absurd rfl ht
    | cons a b => exact ⟨a, b, rfl⟩
  have hmap : nodes.map (fun t => (t + (S - 1)) % S) = nodes.map (· - 1) := by
    apply List.map_congr_left
    intro x hx
    have := hn x hx
    exact mod_dec x this.1 (by rw [S]; omega)
  have hskip : (ts.length + 1 + (S - 1)) % S = ts.length := by
    rw [List.length_cons] at hl
    rw [mod_dec _ (by omega) (by rw [S]; omega)]
    omega
  unfold FileElement.tokens readElement
  simp only [List.cons_append, List.nil_append, h1, Option.bind_some, if_true, hskip,
    List.length_cons, Nat.zero_lt_succ, gt_iff_lt, List.drop_succ_cons, List.drop_zero, List.head?_cons]
  rw [if_neg (by simp), List.append_assoc, List.drop_left, List.take_left, hmap, h3, List.drop_left]
  simp only [Option.map_some, h2, List.head?_cons]

/-- All elements of a file are read: type, first tag and nodes, and nothing behind them is consumed; each
must have at least one tag. -/
theorem elements_read (es : List FileElement) (rs : List RawElement) (h : List.Forall₂ ReadAs es rs)
    (ht : ∀ e ∈ es, e.tags ≠ [] ∧ e.tags.length < 2 ^ 64 ∧ ∀ t ∈ e.nodes, 1 ≤ t ∧ t < 2 ^ 64)
    (index : Nat) (more : List Nat) :
    readElements es.length index (tokensFrom index es ++ more) = some (rs, more) := by
  induction h generalizing index with
  | nil => rfl
  | @cons e r es rs h _ ih =>
    have he := ht e (by simp)
    rw [List.length_cons, readElements, tokensFrom, List.append_assoc,
      readElement_spec index e r _ h he.1 he.2.1 he.2.2, Option.bind_some]
    simp only
    rw [ih (fun x hx => ht x (by simp [hx]))]
    rfl

/-- A triangle and a quadrilateral. -/
example : readElements 2 0 [1, 2, 2, 7, 1, 1, 2, 3, 2, 3, 2, 8, 1, 3, 4, 5, 6, 99] =
    some ([⟨2, some 7, [0, 1, 2]⟩, ⟨2, some 8, [2, 3, 5, 4]⟩], [99]) := by decide +kernel

/-- An element without tags makes the reader skip `2 ^ 64 - 1` numbers: no file that can be stored is
read. -/
theorem element_without_tags (index type : Nat) (rest : List Nat) (h : rest.length < 2 ^ 64 - 1) :
    readElement index ((index + 1) :: type :: 0 :: rest) = none := by
  unfold readElement
  simp only [gt_iff_lt, lt_irrefl, if_false, if_true]
  cases elementType type with
  | none => rfl
  | some dn =>
    rw [Option.bind_some, if_pos]
    have : (0 + (S - 1)) % S = 2 ^ 64 - 1 := by decide +kernel
    rw [this]
    omega

/-- Elements whose numbers are not consecutive are refused. -/
theorem element_numbers_checked (index number : Nat) (rest : List Nat) (h : number ≠ index + 1) :
    readElement index (number :: rest) = none := by
  unfold readElement
  match rest with
  | [] => rfl
  | [_] => rfl
  | ty :: _ :: _ =>
    simp only
    cases elementType ty with
    | none => rfl
    | some dn => rw [Option.bind_some, if_neg h]

/-! ### Zones -/

theorem nameOf_append (names : List PhysName) (dim tag : Nat) (p : PhysName) :
    nameOf (names ++ [p]) dim tag = if p.dim = dim ∧ p.tag.natAbs = tag then p.name
      else nameOf names dim tag := by
  rw [nameOf, List.foldl_append]
  rfl

theorem nameOf_unique (names : List PhysName) (p : PhysName) (hp : p ∈ names)
    (hu : ∀ q ∈ names, q.dim = p.dim → q.tag.natAbs = p.tag.natAbs → q.name = p.name) :
    nameOf names p.dim p.tag.natAbs = p.name := by
  induction names using List.reverseRecOn with
  | nil => simp at hp
  | append_singleton l q ih =>
    rw [nameOf_append]
    by_cases hq : q.dim = p.dim ∧ q.tag.natAbs = p.tag.natAbs
    · rw [if_pos hq]; exact hu q (by simp) hq.1 hq.2
    · rw [if_neg hq]
      rcases List.mem_append.mp hp with h | h
      · exact ih h (fun r hr => hu r (by simp [hr]))
      · simp only [List.mem_singleton] at h; subst h; exact absurd ⟨rfl, rfl⟩ hq

/-- The elements of the mesh are those of full dimension, in the order of the file. The zone of a tagged
element is the physical name of its tag in this dimension (with the sign of the tag ignored), the tag
itself in a file without physical names, and `Main` for an element without a tag. -/
theorem zones_named (names : List PhysName) (dim : Nat) (raw : List RawElement) (zone : RawElement → String)
    (h : ∀ e ∈ raw, e.dim = dim →
      (e.tag = none ∧ zone e = "Main") ∨
      (∃ t, e.tag = some t ∧ names = [] ∧ zone e = toString t) ∨
      (∃ t, e.tag = some t ∧ ∃ p ∈ names, p.dim = dim ∧ p.tag.natAbs = t ∧ p.name = zone e ∧
        p.name ≠ "" ∧ ∀ q ∈ names, q.dim = dim → q.tag.natAbs = t → q.name = p.name)) :
    convert names dim raw =
      some ((raw.filter fun e => e.dim = dim).map fun e => (e.coordinates, zone e)) := by
  have mapM_some : ∀ (l : List RawElement) (f : RawElement → Option (List Nat × String))
      (g : RawElement → List Nat × String), (∀ e ∈ l, f e = some (g e)) → l.mapM f = some (l.map g) := by
    intro l f g
    induction l with
    | nil => intro _; rfl
    | cons a l ih =>
      intro h
      rw [List.mapM_cons, h a (by simp), ih (fun x hx => h x (by simp [hx]))]
      rfl
  unfold convert
  apply mapM_some
  intro e he
  rw [List.mem_filter] at he
  have hed : e.dim = dim := by simpa using he.2
  have hz : zoneName names dim e = some (zone e) := by
    rcases h e he.1 hed with ⟨h1, h2⟩ | ⟨t, h1, h2, h3⟩ | ⟨t, h1, p, hp, hpd, hpt, hpn, hne, hu⟩
    · simp only [zoneName, h1, h2]
    · subst h2
      simp only [zoneName, h1, h3, if_true]
    · have hnn : names ≠ [] := List.ne_nil_of_mem hp
      have hname : nameOf names dim t = p.name := by
        rw [← hpd, ← hpt]
        exact nameOf_unique names p hp (fun q hq a b => hu q hq (a.trans hpd) (b.trans hpt))
      have hany : names.any (fun p => decide (p.dim ≥ dim)) = true := by
        rw [List.any_eq_true]
        exact ⟨p, hp, by simp [hpd]⟩
      simp only [zoneName, h1]
      rw [if_neg hnn, if_pos hany, hname, if_neg hne, hpn]
  rw [hz]
  rfl

/-- A tagged element of a file with physical names, none of which belongs to its tag, ends the reading. -/
theorem unnamed_tag_rejected (names : List PhysName) (dim t : Nat) (e : RawElement) (hn : names ≠ [])
    (he : e.tag = some t) (hu : ∀ q ∈ names, q.dim = dim → q.tag.natAbs ≠ t) :
    zoneName names dim e = none := by
  have hname : nameOf names dim t = "" := by
    clear hn
    induction names using List.reverseRecOn with
    | nil => rfl
    | append_singleton l q ih =>
      rw [nameOf_append, if_neg (fun h => hu q (by simp) h.1 h.2)]
      exact ih (fun r hr => hu r (by simp [hr]))
  simp only [zoneName, he]
  rw [if_neg hn, hname]
  simp

example : convert [⟨2, -7, "steel"⟩, ⟨1, 8, "edge"⟩] 2
    [⟨1, some 8, [0, 1]⟩, ⟨2, some 7, [0, 1, 2]⟩, ⟨2, none, [1, 2, 3]⟩] =
      some [([0, 1, 2], "steel"), ([1, 2, 3], "Main")] := by decide +kernel

end Verif.Gmsh
