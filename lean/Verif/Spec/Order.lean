import Verif.Spec.Run

/-!
# Specification: comparing runs over reordered lists of optics
-/

namespace Optics

/-- Two optics that would act on the ray at the same distance are the same. -/
def NoTies (optics : List (Optic ℝ)) (ray : Ray ℝ) (remaining : ℝ) : Prop :=
  ∀ o ∈ optics, ∀ o' ∈ optics, ∀ d pt n pt' n', Candidate ray remaining o d pt n →
    Candidate ray remaining o' d pt' n' → o = o'

/-- Not a lens that refracts by Snell's law. -/
def Optic.NotRefractingLens : Optic ℝ → Prop
  | .lens l => l.type = "ideal" ∨ l.type = "ideal_collimate" ∨ l.type = "ideal_focus"
  | _ => True

/-- Two states of `run` that agree in everything a caller can see or that influences the ray's path: all but the
leftover local variables `intersected_optic` and `shooting_from_outside`. -/
structure SameTrace (s s' : RunState ℝ) : Prop where
  ray : s'.ray = s.ray
  remaining : s'.remaining = s.remaining
  interactions : s'.interactions = s.interactions
  log : s'.log = s.log

/-- Two runs that end in the same way (if with an exception, perhaps with another one) in the same state. -/
inductive SameOutcome : Outcome ℝ → Outcome ℝ → Prop
  | finished {s s'} (h : SameTrace s s') : SameOutcome (.finished s) (.finished s')
  | outOfFuel {s s'} (h : SameTrace s s') : SameOutcome (.outOfFuel s) (.outOfFuel s')
  | raised {e e' s s'} (h : SameTrace s s') : SameOutcome (.raised e s) (.raised e' s')

end Optics
