import Verif.FaceRotation.Lemmas

/-!
# C66: vectors from the right element are turned to the left
-/
namespace Verif.FaceRotation
open Verif.RefGeometry (Pt wedge2 wedge3 wedge4 det2 det3 det4)
open Verif.PhysMap (distSq)
open Verif.Transform
open Matrix

variable {d : Nat}

/-- The claim, for the wedge product and the determinant of one dimension: between congruent faces there is exactly one proper rotation
that (with a translation) takes the right face to the left, the program accepts the face, and finds this rotation; it leaves
it out exactly if the faces are aligned up to rounding. -/
def FindsRotation (d : Nat) (wedge : Matrix (Fin (d + 1)) (Fin d) ℝ → Pt (d + 1))
    (det : Matrix (Fin (d + 1)) (Fin (d + 1)) ℝ → ℝ) : Prop :=
  ∀ left right : Pt d → Pt (d + 1), SameShape left right → Spread left →
    ∃ X, (∀ Y, Turns Y left right ↔ Y = X) ∧
      ((Aligned left right ∧ update wedge det left right = some none) ∨
        (¬ Aligned left right ∧ update wedge det left right = some (some X)))

theorem finds_rotation : FindsRotation 1 wedge2 det2 ∧ FindsRotation 2 wedge3 det3 ∧ FindsRotation 3 wedge4 det4 := by
  have key : ∀ (d : Nat) (w : Matrix (Fin (d + 1)) (Fin d) ℝ → Pt (d + 1)) (det : Matrix (Fin (d + 1)) (Fin (d + 1)) ℝ → ℝ),
      IsWedge w → (∀ m, det m = m.det) → FindsRotation d w det := by
    intro d w det hw hdet left right hs hl
    have ht := turns_solve hw left right hs hl
    refine ⟨solveMatrix (directions w fun i => left (corner i)) (directions w fun i => right (corner i)),
      fun Y => ⟨fun h => (solve_turns hw left right hl Y h).symm, fun h => h ▸ ht⟩, ?_⟩
    have hA : Aligned left right ↔ (∀ i, distSq (left (corner i)) (right (corner i)) < 1 / 10 ^ 24) ∨
        ¬ ∃ i j, |solveMatrix (directions w fun i => left (corner i)) (directions w fun i => right (corner i)) i j -
          (if i = j then 1 else 0)| > 1 / 10 ^ 8 := by
      refine or_congr Iff.rfl ⟨fun h => ?_, fun h X hX i j => ?_⟩
      · rintro ⟨i, j, hij⟩
        exact absurd (h _ ht i j) (not_le.2 (by rw [one_apply]; exact hij))
      · have e := solve_turns hw left right hl X hX
        rw [← e, one_apply]
        exact not_lt.1 fun hlt => h ⟨i, j, hlt⟩
    rw [hA]
    unfold update
    dsimp only
    by_cases h1 : ∀ i, distSq (left (corner i)) (right (corner i)) < 1 / 10 ^ 24
    · exact Or.inl ⟨Or.inl h1, if_pos h1⟩
    rw [if_neg h1]
    by_cases h2 : ∃ i j, |solveMatrix (directions w fun i => left (corner i)) (directions w fun i => right (corner i)) i j -
          (if i = j then 1 else 0)| > 1 / 10 ^ 8
    · refine Or.inr ⟨fun h => h.elim h1 fun h => h h2, ?_⟩
      rw [if_pos h2, if_pos]
      rw [hdet, ht.2.1]
      norm_num
    · exact Or.inl ⟨Or.inr h2, if_neg h2⟩
  obtain ⟨_, _, h2, h3, h4⟩ := RefGeometry.determinant_correct
  exact ⟨key 1 _ _ isWedge2 h2, key 2 _ _ isWedge3 h3, key 3 _ _ isWedge4 h4⟩

/-- **What happens to functions of the right element**: with the rotation, every conforming transformation turns vectors (values, gradients,
curls) and leaves scalars (values, divergences, the curl in the plane) as they are. -/
theorem fromRight_turns {left right : Pt d → Pt (d + 1)} {X : Matrix (Fin (d + 1)) (Fin (d + 1)) ℝ} (hX : Turns X left right)
    (v : Pt (d + 1)) (s : ℝ) :
    fromRight h1Deriv (some X) v = X *ᵥ v ∧ fromRight hcurlValue (some X) v = X *ᵥ v ∧
    fromRight hcurlCurl (some X) v = X *ᵥ v ∧ fromRight hdivValue (some X) v = X *ᵥ v ∧
    fromRight h1Value (some X) s = s ∧ fromRight hdivDiv (some X) s = s := by
  obtain ⟨h1, h2, -⟩ := hX
  refine ⟨solve_rotation X h1 h2 v, solve_rotation X h1 h2 v, ?_, ?_, rfl, ?_⟩
  · funext i; simp [fromRight, hcurlCurl, h2]
  · funext i; simp [fromRight, hdivValue, h2]
  · simp [fromRight, hdivDiv, h2]

/-- In the plane the curl is a number. -/
theorem fromRight_curl2 {left right : Pt 1 → Pt 2} {X : Matrix (Fin 2) (Fin 2) ℝ} (hX : Turns X left right) (v : Pt 2) :
    fromRight hcurlCurl2 (some X) v = v := by
  funext i; simp [fromRight, hcurlCurl2, hX.2.1]

/-- So components of a vector along the face are the same on both sides. -/
theorem tangential_same {left right : Pt d → Pt (d + 1)} {X : Matrix (Fin (d + 1)) (Fin (d + 1)) ℝ} (hX : Turns X left right)
    (v : Pt (d + 1)) (i j : Fin (d + 1)) :
    fromRight hcurlValue (some X) v ⬝ᵥ (left (corner i) - left (corner j)) = v ⬝ᵥ (right (corner i) - right (corner j)) := by
  rw [(fromRight_turns hX v 0).2.1, ← hX.2.2 i j, dotProduct_mulVec, vecMul_mulVec, hX.1, vecMul_one]

/-- The claim about normals in one dimension: if the faces are turned to each other at a point and the elements lie on different sides (the
products of the orientations of the element and the face map differ), the outward normal of the right element is turned to the
inward normal of the left. Otherwise it is turned to the outward normal. -/
def TurnsNormals (d : Nat) (wedge : Matrix (Fin (d + 1)) (Fin d) ℝ → Pt (d + 1))
    (det : Matrix (Fin (d + 1)) (Fin (d + 1)) ℝ → ℝ) : Prop :=
  ∀ (X : Matrix (Fin (d + 1)) (Fin (d + 1)) ℝ), Xᵀ * X = 1 → X.det = 1 → ∀ (fL fR : RefGeometry.FaceMap d)
    (jL jR : Matrix (Fin (d + 1)) (Fin (d + 1)) ℝ) (p : Pt d), X * (jR * fR.jacobian p) = jL * fL.jacobian p →
    let s := fun (f : RefGeometry.FaceMap d) (j : Matrix (Fin (d + 1)) (Fin (d + 1)) ℝ) => (if det j > 0 then (1 : ℝ) else -1) * f.sign
    (s fR jR = -s fL jL → X *ᵥ RefGeometry.normalVector wedge det fR jR p = -RefGeometry.normalVector wedge det fL jL p) ∧
    (s fR jR = s fL jL → X *ᵥ RefGeometry.normalVector wedge det fR jR p = RefGeometry.normalVector wedge det fL jL p)

theorem normals_turned : TurnsNormals 1 wedge2 det2 ∧ TurnsNormals 2 wedge3 det3 ∧ TurnsNormals 3 wedge4 det4 := by
  have key : ∀ (d : Nat) (w : Matrix (Fin (d + 1)) (Fin d) ℝ → Pt (d + 1)) (det : Matrix (Fin (d + 1)) (Fin (d + 1)) ℝ → ℝ),
      IsWedge w → TurnsNormals d w det := by
    intro d w det hw X h1 h2 fL fR jL jR p h s
    have e : ∀ (f : RefGeometry.FaceMap d) j, RefGeometry.normalVector w det f j p = s f j • w (j * f.jacobian p) := by
      intro f j; funext i; rw [RefGeometry.normalVector]; exact mul_comm _ _
    rw [e, e, mulVec_smul, ← wedge_turn hw X h1 h2, h]
    exact ⟨fun h => by rw [h, neg_smul], fun h => by rw [h]⟩
  exact ⟨key 1 _ _ isWedge2, key 2 _ _ isWedge3, key 3 _ _ isWedge4⟩

/-- A quarter turn: the right face is on the line `y = 0`, the left one on `x = 5`. -/
theorem quarter_turn : ∃ X, update wedge2 det2 (fun p => ![5, p 0]) (fun p => ![p 0, 0]) = some (some X) ∧
    X *ᵥ ![1, 0] = ![0, 1] ∧ X *ᵥ ![0, 1] = ![-1, 0] := by
  have hs : SameShape (d := 1) (fun p => ![5, p 0]) (fun p => ![p 0, 0]) := by
    intro i j; simp [distSq, Fin.sum_univ_two]
  have hl : Spread (d := 1) (fun p => ![5, p 0]) := by
    refine Fintype.linearIndependent_iff.2 fun v hv i => ?_
    have := congrFun hv 1
    rw [Subsingleton.elim i 0]
    simpa [corner] using this
  have hT : Turns (d := 1) !![0, -1; 1, 0] (fun p => ![5, p 0]) (fun p => ![p 0, 0]) := by
    refine ⟨?_, by simp [det_fin_two], fun i j => ?_⟩
    · ext i j; fin_cases i <;> fin_cases j <;> simp [mul_apply, Fin.sum_univ_two]
    · ext k; fin_cases k <;> simp [mulVec, dotProduct, Fin.sum_univ_two]
  obtain ⟨X, hX, h⟩ := finds_rotation.1 _ _ hs hl
  have e := (hX _).1 hT
  subst e
  have hA : ¬ Aligned (d := 1) (fun p => ![5, p 0]) (fun p => ![p 0, 0]) := by
    rintro (h | h)
    · have := h 0
      simp [distSq, Fin.sum_univ_two, corner] at this
      norm_num at this
    · have := h _ hT 0 0
      norm_num at this
  refine ⟨_, (h.resolve_left fun h => hA h.1).2, ?_, ?_⟩ <;>
    (ext k; fin_cases k <;> simp [mulVec, dotProduct, Fin.sum_univ_two])

/-- Faces that are not congruent but have the same area are accepted, and the matrix found does not take one to the other. -/
theorem shear_wrong : ∃ (left right : Pt 2 → Pt 3) (X : Matrix (Fin 3) (Fin 3) ℝ), Spread left ∧
    update wedge3 det3 left right = some (some X) ∧ X *ᵥ (right (corner 2) - right (corner 0)) ≠ left (corner 2) - left (corner 0) := by
  have c0 : (corner 2 : Pt 2) 0 = 0 := by change (Pi.single 1 1 : Pt 2) 0 = 0; simp
  have c1 : (corner 2 : Pt 2) 1 = 1 := by change (Pi.single 1 1 : Pt 2) 1 = 1; simp
  have hL : directions wedge3 (fun i => (fun p : Pt 2 => (![p 0, p 1, 0] : Pt 3)) (corner i)) = 1 := by
    ext i j; fin_cases i <;> fin_cases j <;> simp [directions, corner, wedge3, Fin.snoc, Pi.single_apply]
  have hR : directions wedge3 (fun i => (fun p : Pt 2 => (![p 0 + p 1, p 1, 0] : Pt 3)) (corner i)) = !![1, 0, 0; 1, 1, 0; 0, 0, 1] := by
    ext i j; fin_cases i <;> fin_cases j <;> simp [directions, corner, wedge3, Fin.snoc, Pi.single_apply]
  refine ⟨fun p => ![p 0, p 1, 0], fun p => ![p 0 + p 1, p 1, 0], !![1, 0, 0; 1, 1, 0; 0, 0, 1], ?_, ?_, ?_⟩
  · refine Fintype.linearIndependent_iff.2 fun v hv i => ?_
    have h0 := congrFun hv 0
    have h1 := congrFun hv 1
    simp [corner, Pi.single_apply] at h0 h1
    fin_cases i
    · exact h0
    · exact h1
  · unfold update
    dsimp only
    rw [if_neg, hL, hR, solveMatrix_unique 1 _ _ (by simp) (Matrix.one_mul _), if_pos ⟨1, 0, by norm_num⟩, if_pos]
    · simp [det3]
    · intro h
      have := h 2
      simp [distSq, Fin.sum_univ_three, c0, c1] at this
      norm_num at this
  · intro h
    have := congrFun h 1
    have d0 : (corner 0 : Pt 2) = 0 := rfl
    simp [mulVec, dotProduct, Fin.sum_univ_three, c0, c1, d0] at this

end Verif.FaceRotation
