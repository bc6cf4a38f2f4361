import Mathlib.Tactic.Module
import Mathlib.Algebra.Module.LinearMap.Defs
import Mathlib.Data.Real.Basic

/-! # The stages of the method of fourth order as polynomials of the step -/
set_option linter.all false
namespace Verif.MaxTime
variable {V : Type*} [AddCommGroup V] [Module ℝ V]

theorem stage1 (s t : ℝ) (hs : s ^ 2 = 19) (A : V →ₗ[ℝ] V) (u v : V) :
    u + (t * ((7/54) + (-1/108) * s)) • (v) =
      u + (t * ((7/54) + (-1/108) * s)) • v ∧
    v + (-((2/5) * t)) • A (u + (t * ((7/54) + (-1/108) * s)) • v) =
      v + (t * (-2/5)) • A u + (t ^ 2 * ((-7/135) + (1/270) * s)) • A v := by
  constructor
  · match_scalars <;> (try ring_nf) <;> (try simp only [hs]) <;> (try ring)
  · simp only [map_add, map_smul]
    match_scalars <;> (try ring_nf) <;> (try simp only [hs]) <;> (try ring)

theorem stage2 (s t : ℝ) (hs : s ^ 2 = 19) (A : V →ₗ[ℝ] V) (u v : V) :
    u + (t * ((7/54) + (-1/108) * s)) • v + (t * ((5/27) + (-7/108) * s)) • (v + (t * (-2/5)) • A u + (t ^ 2 * ((-7/135) + (1/270) * s)) • A v) =
      u + (t * ((17/54) + (-2/27) * s)) • v + (t ^ 2 * ((-2/27) + (7/270) * s)) • A u + (t ^ 3 * ((-413/29160) + (59/14580) * s)) • A v ∧
    v + (t * (-2/5)) • A u + (t ^ 2 * ((-7/135) + (1/270) * s)) • A v + (-((-1/10) * t)) • A (u + (t * ((17/54) + (-2/27) * s)) • v + (t ^ 2 * ((-2/27) + (7/270) * s)) • A u + (t ^ 3 * ((-413/29160) + (59/14580) * s)) • A v) =
      v + (t * (-3/10)) • A u + (t ^ 2 * ((-11/540) + (-1/270) * s)) • A v + (t ^ 3 * ((-1/135) + (7/2700) * s)) • A (A u) + (t ^ 4 * ((-413/291600) + (59/145800) * s)) • A (A v) := by
  constructor
  · match_scalars <;> (try ring_nf) <;> (try simp only [hs]) <;> (try ring)
  · simp only [map_add, map_smul]
    match_scalars <;> (try ring_nf) <;> (try simp only [hs]) <;> (try ring)

theorem stage3 (s t : ℝ) (hs : s ^ 2 = 19) (A : V →ₗ[ℝ] V) (u v : V) :
    u + (t * ((17/54) + (-2/27) * s)) • v + (t ^ 2 * ((-2/27) + (7/270) * s)) • A u + (t ^ 3 * ((-413/29160) + (59/14580) * s)) • A v + (t * ((5/27) + (2/27) * s)) • (v + (t * (-3/10)) • A u + (t ^ 2 * ((-11/540) + (-1/270) * s)) • A v + (t ^ 3 * ((-1/135) + (7/2700) * s)) • A (A u) + (t ^ 4 * ((-413/291600) + (59/145800) * s)) • A (A v)) =
      u + (t * (1/2)) • v + (t ^ 2 * ((-7/54) + (1/270) * s)) • A u + (t ^ 3 * ((-5/216) + (1/540) * s)) • A v + (t ^ 4 * ((83/36450) + (-1/14580) * s)) • A (A u) + (t ^ 5 * ((2419/7873200) + (-59/1968300) * s)) • A (A v) ∧
    v + (t * (-3/10)) • A u + (t ^ 2 * ((-11/540) + (-1/270) * s)) • A v + (t ^ 3 * ((-1/135) + (7/2700) * s)) • A (A u) + (t ^ 4 * ((-413/291600) + (59/145800) * s)) • A (A v) + (-((2/5) * t)) • A (u + (t * (1/2)) • v + (t ^ 2 * ((-7/54) + (1/270) * s)) • A u + (t ^ 3 * ((-5/216) + (1/540) * s)) • A v + (t ^ 4 * ((83/36450) + (-1/14580) * s)) • A (A u) + (t ^ 5 * ((2419/7873200) + (-59/1968300) * s)) • A (A v)) =
      v + (t * (-7/10)) • A u + (t ^ 2 * ((-119/540) + (-1/270) * s)) • A v + (t ^ 3 * ((2/45) + (1/900) * s)) • A (A u) + (t ^ 4 * ((2287/291600) + (-49/145800) * s)) • A (A v) + (t ^ 5 * ((-83/91125) + (1/36450) * s)) • A (A (A u)) + (t ^ 6 * ((-2419/19683000) + (59/4920750) * s)) • A (A (A v)) := by
  constructor
  · match_scalars <;> (try ring_nf) <;> (try simp only [hs]) <;> (try ring)
  · simp only [map_add, map_smul]
    match_scalars <;> (try ring_nf) <;> (try simp only [hs]) <;> (try ring)

theorem stage4 (s t : ℝ) (hs : s ^ 2 = 19) (A : V →ₗ[ℝ] V) (u v : V) :
    u + (t * (1/2)) • v + (t ^ 2 * ((-7/54) + (1/270) * s)) • A u + (t ^ 3 * ((-5/216) + (1/540) * s)) • A v + (t ^ 4 * ((83/36450) + (-1/14580) * s)) • A (A u) + (t ^ 5 * ((2419/7873200) + (-59/1968300) * s)) • A (A v) + (t * ((5/27) + (2/27) * s)) • (v + (t * (-7/10)) • A u + (t ^ 2 * ((-119/540) + (-1/270) * s)) • A v + (t ^ 3 * ((2/45) + (1/900) * s)) • A (A u) + (t ^ 4 * ((2287/291600) + (-49/145800) * s)) • A (A v) + (t ^ 5 * ((-83/91125) + (1/36450) * s)) • A (A (A u)) + (t ^ 6 * ((-2419/19683000) + (59/4920750) * s)) • A (A (A v))) =
      u + (t * ((37/54) + (2/27) * s)) • v + (t ^ 2 * ((-7/27) + (-13/270) * s)) • A u + (t ^ 3 * ((-2017/29160) + (-221/14580) * s)) • A v + (t ^ 4 * ((44/3645) + (5/1458) * s)) • A (A u) + (t ^ 5 * ((1013/787320) + (481/984150) * s)) • A (A v) + (t ^ 6 * ((-64/492075) + (-307/4920750) * s)) • A (A (A u)) + (t ^ 7 * ((-3127/531441000) + (-1829/265720500) * s)) • A (A (A v)) ∧
    v + (t * (-7/10)) • A u + (t ^ 2 * ((-119/540) + (-1/270) * s)) • A v + (t ^ 3 * ((2/45) + (1/900) * s)) • A (A u) + (t ^ 4 * ((2287/291600) + (-49/145800) * s)) • A (A v) + (t ^ 5 * ((-83/91125) + (1/36450) * s)) • A (A (A u)) + (t ^ 6 * ((-2419/19683000) + (59/4920750) * s)) • A (A (A v)) + (-((-1/10) * t)) • A (u + (t * ((37/54) + (2/27) * s)) • v + (t ^ 2 * ((-7/27) + (-13/270) * s)) • A u + (t ^ 3 * ((-2017/29160) + (-221/14580) * s)) • A v + (t ^ 4 * ((44/3645) + (5/1458) * s)) • A (A u) + (t ^ 5 * ((1013/787320) + (481/984150) * s)) • A (A v) + (t ^ 6 * ((-64/492075) + (-307/4920750) * s)) • A (A (A u)) + (t ^ 7 * ((-3127/531441000) + (-1829/265720500) * s)) • A (A (A v))) =
      v + (t * (-3/5)) • A u + (t ^ 2 * ((-41/270) + (1/270) * s)) • A v + (t ^ 3 * ((1/54) + (-1/270) * s)) • A (A u) + (t ^ 4 * ((1/1080) + (-1/540) * s)) • A (A v) + (t ^ 5 * ((1/3375) + (1/2700) * s)) • A (A (A u)) + (t ^ 6 * ((227/39366000) + (599/9841500) * s)) • A (A (A v)) + (t ^ 7 * ((-32/2460375) + (-307/49207500) * s)) • A (A (A (A u))) + (t ^ 8 * ((-3127/5314410000) + (-1829/2657205000) * s)) • A (A (A (A v))) := by
  constructor
  · match_scalars <;> (try ring_nf) <;> (try simp only [hs]) <;> (try ring)
  · simp only [map_add, map_smul]
    match_scalars <;> (try ring_nf) <;> (try simp only [hs]) <;> (try ring)

theorem stage5 (s t : ℝ) (hs : s ^ 2 = 19) (A : V →ₗ[ℝ] V) (u v : V) :
    u + (t * ((37/54) + (2/27) * s)) • v + (t ^ 2 * ((-7/27) + (-13/270) * s)) • A u + (t ^ 3 * ((-2017/29160) + (-221/14580) * s)) • A v + (t ^ 4 * ((44/3645) + (5/1458) * s)) • A (A u) + (t ^ 5 * ((1013/787320) + (481/984150) * s)) • A (A v) + (t ^ 6 * ((-64/492075) + (-307/4920750) * s)) • A (A (A u)) + (t ^ 7 * ((-3127/531441000) + (-1829/265720500) * s)) • A (A (A v)) + (t * ((5/27) + (-7/108) * s)) • (v + (t * (-3/5)) • A u + (t ^ 2 * ((-41/270) + (1/270) * s)) • A v + (t ^ 3 * ((1/54) + (-1/270) * s)) • A (A u) + (t ^ 4 * ((1/1080) + (-1/540) * s)) • A (A v) + (t ^ 5 * ((1/3375) + (1/2700) * s)) • A (A (A u)) + (t ^ 6 * ((227/39366000) + (599/9841500) * s)) • A (A (A v)) + (t ^ 7 * ((-32/2460375) + (-307/49207500) * s)) • A (A (A (A u))) + (t ^ 8 * ((-3127/5314410000) + (-1829/2657205000) * s)) • A (A (A (A v)))) =
      u + (t * ((47/54) + (1/108) * s)) • v + (t ^ 2 * ((-10/27) + (-1/108) * s)) • A u + (t ^ 3 * ((-11/108) + (-1/216) * s)) • A v + (t ^ 4 * ((13/648) + (1/648) * s)) • A (A u) + (t ^ 5 * ((5887/1574640) + (1351/15746400) * s)) • A (A v) + (t ^ 6 * ((-4183/7873200) + (-32/2460375) * s)) • A (A (A u)) + (t ^ 7 * ((-14131/177147000) + (5689/1417176000) * s)) • A (A (A v)) + (t ^ 8 * ((28031/5314410000) + (-83/265720500) * s)) • A (A (A (A u))) + (t ^ 9 * ((211987/286978140000) + (-51271/573956280000) * s)) • A (A (A (A v))) ∧
    v + (t * (-3/5)) • A u + (t ^ 2 * ((-41/270) + (1/270) * s)) • A v + (t ^ 3 * ((1/54) + (-1/270) * s)) • A (A u) + (t ^ 4 * ((1/1080) + (-1/540) * s)) • A (A v) + (t ^ 5 * ((1/3375) + (1/2700) * s)) • A (A (A u)) + (t ^ 6 * ((227/39366000) + (599/9841500) * s)) • A (A (A v)) + (t ^ 7 * ((-32/2460375) + (-307/49207500) * s)) • A (A (A (A u))) + (t ^ 8 * ((-3127/5314410000) + (-1829/2657205000) * s)) • A (A (A (A v))) + (-((2/5) * t)) • A (u + (t * ((47/54) + (1/108) * s)) • v + (t ^ 2 * ((-10/27) + (-1/108) * s)) • A u + (t ^ 3 * ((-11/108) + (-1/216) * s)) • A v + (t ^ 4 * ((13/648) + (1/648) * s)) • A (A u) + (t ^ 5 * ((5887/1574640) + (1351/15746400) * s)) • A (A v) + (t ^ 6 * ((-4183/7873200) + (-32/2460375) * s)) • A (A (A u)) + (t ^ 7 * ((-14131/177147000) + (5689/1417176000) * s)) • A (A (A v)) + (t ^ 8 * ((28031/5314410000) + (-83/265720500) * s)) • A (A (A (A u))) + (t ^ 9 * ((211987/286978140000) + (-51271/573956280000) * s)) • A (A (A (A v)))) =
      v + (t * (-1)) • A u + (t ^ 2 * (-1/2)) • A v + (t ^ 3 * (1/6)) • A (A u) + (t ^ 4 * (1/24)) • A (A v) + (t ^ 5 * ((-313/40500) + (-1/4050) * s)) • A (A (A u)) + (t ^ 6 * ((-58643/39366000) + (209/7873200) * s)) • A (A (A v)) + (t ^ 7 * ((1309/6561000) + (-17/16402500) * s)) • A (A (A (A u))) + (t ^ 8 * ((33289/1062882000) + (-24383/10628820000) * s)) • A (A (A (A v))) + (t ^ 9 * ((-28031/13286025000) + (83/664301250) * s)) • A (A (A (A (A u)))) + (t ^ 10 * ((-211987/717445350000) + (51271/1434890700000) * s)) • A (A (A (A (A v)))) := by
  constructor
  · match_scalars <;> (try ring_nf) <;> (try simp only [hs]) <;> (try ring)
  · simp only [map_add, map_smul]
    match_scalars <;> (try ring_nf) <;> (try simp only [hs]) <;> (try ring)

theorem stage6 (s t : ℝ) (hs : s ^ 2 = 19) (A : V →ₗ[ℝ] V) (u v : V) :
    u + (t * ((47/54) + (1/108) * s)) • v + (t ^ 2 * ((-10/27) + (-1/108) * s)) • A u + (t ^ 3 * ((-11/108) + (-1/216) * s)) • A v + (t ^ 4 * ((13/648) + (1/648) * s)) • A (A u) + (t ^ 5 * ((5887/1574640) + (1351/15746400) * s)) • A (A v) + (t ^ 6 * ((-4183/7873200) + (-32/2460375) * s)) • A (A (A u)) + (t ^ 7 * ((-14131/177147000) + (5689/1417176000) * s)) • A (A (A v)) + (t ^ 8 * ((28031/5314410000) + (-83/265720500) * s)) • A (A (A (A u))) + (t ^ 9 * ((211987/286978140000) + (-51271/573956280000) * s)) • A (A (A (A v))) + (t * ((7/54) + (-1/108) * s)) • (v + (t * (-1)) • A u + (t ^ 2 * (-1/2)) • A v + (t ^ 3 * (1/6)) • A (A u) + (t ^ 4 * (1/24)) • A (A v) + (t ^ 5 * ((-313/40500) + (-1/4050) * s)) • A (A (A u)) + (t ^ 6 * ((-58643/39366000) + (209/7873200) * s)) • A (A (A v)) + (t ^ 7 * ((1309/6561000) + (-17/16402500) * s)) • A (A (A (A u))) + (t ^ 8 * ((33289/1062882000) + (-24383/10628820000) * s)) • A (A (A (A v))) + (t ^ 9 * ((-28031/13286025000) + (83/664301250) * s)) • A (A (A (A (A u)))) + (t ^ 10 * ((-211987/717445350000) + (51271/1434890700000) * s)) • A (A (A (A (A v))))) =
      u + (t * (1)) • v + (t ^ 2 * (-1/2)) • A u + (t ^ 3 * (-1/6)) • A v + (t ^ 4 * (1/24)) • A (A u) + (t ^ 5 * ((1799/196830) + (-1181/3936600) * s)) • A (A v) + (t ^ 6 * ((-58643/39366000) + (209/7873200) * s)) • A (A (A u)) + (t ^ 7 * ((-1180001/4251528000) + (4517/212576400) * s)) • A (A (A v)) + (t ^ 8 * ((33289/1062882000) + (-24383/10628820000) * s)) • A (A (A (A u))) + (t ^ 9 * ((1194337/229582512000) + (-388397/573956280000) * s)) • A (A (A (A v))) + (t ^ 10 * ((-211987/717445350000) + (51271/1434890700000) * s)) • A (A (A (A (A u)))) + (t ^ 11 * ((-1381957/30993639120000) + (142721/19371024450000) * s)) • A (A (A (A (A v)))) := by
  match_scalars <;> (try ring_nf) <;> (try simp only [hs]) <;> (try ring)

end Verif.MaxTime
