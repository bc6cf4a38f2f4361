import Verif.Fields.Model
import Mathlib.Analysis.SpecialFunctions.Trigonometric.Deriv

/-!
# Model of the sample problems of DG-Max

applications/DG-Max/ProblemTypes/Time/SampleTestProblems.cpp, TimeIntegrationProblem.h and Harmonic/SampleHarmonicProblems.cpp. Arithmetic is exact. `DummyTestProblem` is not
modelled: it lacks a function and cannot be used.
-/
namespace Verif.Fields

open scoped Real
open Real (sin cos)

/-- SampleTestProblems.h:50-63. -/
inductive Sample
  | constant
  | linear
  | sinsin
  | sarmany
  deriving DecidableEq

/-- SampleTestProblems.cpp:219-229 `sinx`. -/
noncomputable def sinx {d : Nat} (point : Fin d → ℝ) : Fin d → ℝ := fun i => sin (π * point i) * sin (π * point i)

/-- SampleTestProblems.cpp:231-245 `sarmany2013x`. Outside three dimensions it is an error in debug builds and zero otherwise. -/
noncomputable def sarmanyx : {d : Nat} → (Fin d → ℝ) → Fin d → ℝ
  | 3, p => ![sin (π * p 1) * sin (π * p 2), sin (π * p 2) * sin (π * p 0), sin (π * p 0) * sin (π * p 1)]
  | _, _ => fun _ => 0

/-- SampleTestProblems.cpp:48-75 `initialConditionDerivative`. -/
noncomputable def Sample.initialDerivative {d : Nat} (s : Sample) (point : Fin d → ℝ) : Fin d → ℝ :=
  match s with
  | .constant => fun _ => 0
  | .linear => fun _ => 1
  | .sinsin => fun i => sinx point i * π
  | .sarmany => fun _ => 0

/-- SampleTestProblems.cpp:77-102 `sourceTermRef`. -/
noncomputable def Sample.sourceRef {d : Nat} (s : Sample) (point : Fin d → ℝ) : Fin d → ℝ :=
  match s with
  | .constant => fun _ => 0
  | .linear => fun _ => 0
  | .sinsin => fun i => sinx point i * -π * π
  | .sarmany => sarmanyx point

/-- SampleTestProblems.cpp:104-130 `exactSolution`. -/
noncomputable def Sample.exact {d : Nat} (s : Sample) (point : Fin d → ℝ) (t : ℝ) : Fin d → ℝ :=
  match s with
  | .constant => fun _ => 1
  | .linear => fun _ => t
  | .sinsin => fun i => sinx point i * sin (π * t)
  | .sarmany => fun i => sarmanyx point i * (cos t + cos (t / 2) + cos (t / 3))

/-- SampleHarmonicProblems.cpp:55-66: the curl of the field, before the factors. It is the same in SampleTestProblems.cpp:144-148. -/
noncomputable def sarmanyCurl : {d : Nat} → (Fin d → ℝ) → Fin d → ℝ
  | 3, p => ![sin (π * p 0) * (cos (π * p 1) - cos (π * p 2)), sin (π * p 1) * (cos (π * p 2) - cos (π * p 0)), sin (π * p 2) * (cos (π * p 0) - cos (π * p 1))]
  | _, _ => fun _ => 0

/-- SampleTestProblems.cpp:132-161 `exactSolutionCurl`. -/
noncomputable def Sample.exactCurl {d : Nat} (s : Sample) (point : Fin d → ℝ) (t : ℝ) : Fin d → ℝ :=
  match s with
  | .constant | .linear | .sinsin => fun _ => 0
  | .sarmany => fun i => sarmanyCurl point i * (π * (cos t + cos (t / 2) + cos (t / 3)))

/-- SampleTestProblems.cpp:163-178 `referenceTimeBoundary`. -/
noncomputable def Sample.referenceTime : Sample → ℝ
  | .constant => 0
  | .linear => 1
  | .sinsin => 0.5
  | .sarmany => 0

/-- SampleTestProblems.cpp:180-197 `timeScalingBoundary`. -/
noncomputable def Sample.scalingBoundary (s : Sample) (t : ℝ) : ℝ :=
  match s with
  | .constant => 1
  | .linear => t
  | .sinsin => sin (π * t)
  | .sarmany => (cos t + cos (t / 2) + cos (t / 3)) / 3

/-- SampleTestProblems.cpp:199-217 `timeScalingSource`. -/
noncomputable def Sample.scalingSource (s : Sample) (t : ℝ) : ℝ :=
  match s with
  | .constant => 0
  | .linear => t
  | .sinsin => sin (π * t)
  | .sarmany =>
    let p22 := 2 * π * π
    (p22 - 1) * cos t + (p22 - 1 / 4) * cos (t / 2) + (p22 - 1 / 9) * cos (t / 3)

/-- TimeIntegrationProblem.h:157-160 `initialCondition`. -/
noncomputable def Sample.initial {d : Nat} (s : Sample) (point : Fin d → ℝ) : Fin d → ℝ := s.exact point 0

/-- TimeIntegrationProblem.h:124-127 `sourceTerm`. -/
noncomputable def Sample.source {d : Nat} (s : Sample) (point : Fin d → ℝ) (t : ℝ) : Fin d → ℝ := fun i => s.sourceRef point i * s.scalingSource t

/-- TimeIntegrationProblem.h:176-191 `boundaryCondition` at a point of a face with the unit normal `normal`. -/
noncomputable def Sample.boundary {d : Nat} (s : Sample) (normal point : Fin d → ℝ) (t : ℝ) : Fin d → ℝ :=
  fun i => MaxLocal.cross normal (s.exact point s.referenceTime) i * s.scalingBoundary t

/-- SampleHarmonicProblems.cpp:44-53 `exactSolution`. -/
noncomputable def harmonicExact (p : Fin 3 → ℝ) : Fin 3 → ℂ := MaxLocal.cast (sarmanyx p)

/-- SampleHarmonicProblems.cpp:54-66 `exactSolutionCurl`. -/
noncomputable def harmonicCurl (p : Fin 3 → ℝ) : Fin 3 → ℂ := fun i => ((sarmanyCurl p i * π : ℝ) : ℂ)

/-- SampleHarmonicProblems.cpp:68-71 `sourceTerm`. -/
noncomputable def harmonicSource (omega : ℝ) (p : Fin 3 → ℝ) : Fin 3 → ℂ := fun i => harmonicExact p i * ((2 * π * π - omega * omega : ℝ) : ℂ)

end Verif.Fields
