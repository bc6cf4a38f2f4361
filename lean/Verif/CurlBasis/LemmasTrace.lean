import Verif.CurlBasis.LemmasAinsworthSpan
import Verif.Basis.LemmasDefined
import Verif.Basis.LemmasSets

set_option linter.all false
namespace Verif.CurlBasis
open Verif.RefGeometry (Pt tetrahedronG)
open Verif.Basis (bary3)
open Verif.Legendre (legendre legendreDeriv rodrigues)

theorem bary_face {d : Fin 4} {p : Pt 3} (h : OnFace d p) : bary3 d p = 0 := by
  fin_cases d <;> simp [OnFace] at h <;> simp [bary3] <;> linarith

theorem grad_face {d : Fin 4} {t : Pt 3} (h : Parallel d t) : dot (baryGrad d) t = 0 := by
  fin_cases d <;> simp [Parallel] at h <;> simp [baryGrad, dot, h] <;> linarith

theorem sum_dot (u t : Pt 3) : ∑ i, u i * t i = dot u t := by rw [Fin.sum_univ_three]; rfl

theorem bary_corner (i j : Fin 4) : dot (baryGrad i) (corner j) = (if i = j then 1 else 0) -
    if i = 0 then 1 else 0 := by
  fin_cases i <;> fin_cases j <;> simp [baryGrad, corner, dot]

theorem dot_sub_right (u s t : Pt 3) : dot u (s - t) = dot u s - dot u t := by simp [dot]; ring

theorem nedelec_edge_notrace (l m : Nat) (i j : Fin 4) :
    NoTrace (NedelecFn.edge l m i j).eval i ∧ NoTrace (NedelecFn.edge l m i j).eval j := by
  constructor <;> intro p hp t ht <;>
    simp only [sum_dot, NedelecFn.eval, dot_smul, dot_sub, bary_face hp, grad_face ht] <;> ring

theorem nedelec_face_notrace (l m n : Nat) (d e : Fin 4) (h : e ≠ d) :
    NoTrace (NedelecFn.face1 l m n d).eval e ∧ NoTrace (NedelecFn.face2 l m n d).eval e := by
  constructor <;> intro p hp t ht <;> have h1 := bary_face hp <;> have h2 := grad_face ht <;>
    rw [sum_dot] <;> fin_cases d <;> fin_cases e <;>
    first
    | exact absurd rfl h
    | (simp at h1 h2; simp only [NedelecFn.eval, faceNodes, dot_smul, dot_sub, h1, h2]; ring)

theorem nedelec_interior_notrace (l m n o : Nat) (e : Fin 4) :
    NoTrace (NedelecFn.interior1 l m n o).eval e ∧ NoTrace (NedelecFn.interior2 l m n o).eval e ∧
      NoTrace (NedelecFn.interior3 l m n o).eval e := by
  refine ⟨?_, ?_, ?_⟩ <;> intro p hp t ht <;> have h1 := bary_face hp <;> have h2 := grad_face ht <;>
    rw [sum_dot] <;> fin_cases e <;>
    (simp at h1 h2; simp only [NedelecFn.eval, dot_smul, dot_sub, h1, h2]; ring)

theorem nedelec_edge_value (l m : Nat) (i j : Fin 4) (hij : i ≠ j) (s : ℝ) :
    ∑ k, (NedelecFn.edge l m i j).eval ((1 - s) • corner i + s • corner j) k *
      (corner j k - corner i k) = -((1 - s) ^ l * s ^ m) := by
  have e : ∀ k, corner j k - corner i k = (corner j - corner i) k := fun k => rfl
  simp only [e, sum_dot, NedelecFn.eval, dot_smul, dot_sub, dot_sub_right, bary_corner]
  have b1 : bary3 i ((1 - s) • corner i + s • corner j) = 1 - s := by
    fin_cases i <;> fin_cases j <;> first | exact absurd rfl hij | (simp [bary3, corner]) <;> try ring
  have b2 : bary3 j ((1 - s) • corner i + s • corner j) = s := by
    fin_cases i <;> fin_cases j <;> first | exact absurd rfl hij | (simp [bary3, corner]) <;> try ring
  rw [b1, b2]
  rw [if_neg hij, if_neg hij.symm, if_pos trivial]
  ring

theorem ainsworth_edge_notrace (q : Nat) (o i : Fin 4) :
    NoTrace (AinsworthFn.edge q o i).eval o ∧ NoTrace (AinsworthFn.edge q o i).eval i := by
  constructor <;> intro p hp t ht <;> rw [sum_dot] <;> apply edge_zero <;>
    simp [bary_face hp, grad_face ht]

theorem ainsworth_edge_value (q : Nat) (o i : Fin 4) (hij : o ≠ i) (s : ℝ) :
    ∑ k, (AinsworthFn.edge q o i).eval ((1 - s) • corner o + s • corner i) k *
      (corner i k - corner o k) = -legendre q (2 * s - 1) := by
  have e : ∀ k, corner i k - corner o k = (corner i - corner o) k := fun k => rfl
  have b1 : bary3 o ((1 - s) • corner o + s • corner i) = 1 - s := by
    fin_cases o <;> fin_cases i <;> first | exact absurd rfl hij | (simp [bary3, corner]) <;> try ring
  have b2 : bary3 i ((1 - s) • corner o + s • corner i) = s := by
    fin_cases o <;> fin_cases i <;> first | exact absurd rfl hij | (simp [bary3, corner]) <;> try ring
  simp only [e, sum_dot]
  rw [edge_value q o i _ _ (by rw [b1, b2]; ring), b1, b2]
  · congr 2; ring
  · rw [dot_sub_right, bary_corner, bary_corner, if_neg hij, if_pos rfl]; ring
  · rw [dot_sub_right, bary_corner, bary_corner, if_neg hij.symm, if_pos rfl]; ring

theorem ainsworth_edgeFace_notrace (q : Nat) (d c e : Fin 4) (hdc : d ≠ c) (h : e ≠ d) :
    NoTrace (AinsworthFn.edgeFace q d c).eval e := by
  intro p hp t ht
  have h1 := bary_face hp
  have h2 := grad_face ht
  rw [sum_dot]
  fin_cases d <;> fin_cases c <;> fin_cases e <;>
    first
    | exact absurd rfl h
    | exact absurd rfl hdc
    | (simp at h1 h2; simp only [AinsworthFn.eval]; simp [edgeNodes_table, dot_smul, dot_zero, h1, h2])

theorem ainsworth_face_notrace (l m : Nat) (d e : Fin 4) (b : Bool) (h : e ≠ d) :
    NoTrace (AinsworthFn.face l m d b).eval e := by
  intro p hp t ht
  have h1 := bary_face hp
  rw [sum_dot]
  fin_cases d <;> fin_cases e <;> cases b <;>
    first
    | exact absurd rfl h
    | (simp at h1; simp [AinsworthFn.eval, faceNodesDir, faceNodes, dot_smul, dot_zero, h1])

theorem ainsworth_faceInterior_notrace (l m : Nat) (d e : Fin 4) :
    NoTrace (AinsworthFn.faceInterior l m d).eval e := by
  intro p hp t ht
  have h1 := bary_face hp
  have h2 := grad_face ht
  rw [sum_dot]
  fin_cases d <;> fin_cases e <;>
    (simp at h1 h2; simp [AinsworthFn.eval, faceNodes, dot_smul, dot_zero, h1, h2])

theorem ainsworth_interior_notrace (l m n : Nat) (d : Fin 3) (e : Fin 4) :
    NoTrace (AinsworthFn.interior l m n d).eval e := by
  intro p hp t ht
  have h1 := bary_face hp
  rw [sum_dot]
  fin_cases e <;> (simp at h1; simp [AinsworthFn.eval, dot_smul, dot_zero, h1])

theorem nedelec2_length (k : Nat) (hk : 0 < k) : (nedelec2 k).length = k * (k + 2) := by
  have h1 := Verif.Basis.line_length (k - 1)
  have h2 := Verif.Basis.triangle_length (k - 2)
  simp only [nedelec2, List.length_append, List.length_flatMap, List.length_cons, List.length_nil,
    List.map_const', List.sum_replicate, h1, smul_eq_mul]
  match k with
  | 1 => simp
  | k + 2 =>
    simp only [show k + 2 - 1 = k + 1 by omega, show k + 2 - 2 = k by omega] at *
    rw [if_pos (by omega)]
    simp only [List.length_flatMap, List.length_cons, List.length_nil, List.map_const', List.sum_replicate,
      smul_eq_mul]
    nlinarith

end Verif.CurlBasis
