import Verif.Model.Optics
import Verif.Spec.Geometry

/-!
# Specification: what is observed of a `run`

Broken paths, the passes of the loop as a relation, sequences of runs.
-/

namespace Optics
variable {α : Type} [PyNum α]

/-- The length of the broken path through the points of a list. -/
noncomputable def pathLength : List (V3 ℝ) → ℝ
  | [] => 0
  | [_] => 0
  | p :: q :: rest => dist p.toE q.toE + pathLength (q :: rest)

/-- The state a `run` ends in, however it ends. -/
def Outcome.state : Outcome α → RunState α
  | .finished s => s
  | .raised _ s => s
  | .outOfFuel s => s

/-- The ray moved to `p`, with `p` noted in its history and nothing else changed. -/
def Ray.movedTo (ray : Ray α) (p : V3 α) : Ray α :=
  { ray with position := p, pointHistory := ray.pointHistory ++ [p] }

/-- `Passes md optics mi n s s'`: `n` complete passes of the loop lead from `s` to `s'`. -/
inductive Passes (md : α) (optics : List (Optic α)) (mi : Option Int) :
    Nat → RunState α → RunState α → Prop
  | zero (s) : Passes md optics mi 0 s s
  | succ {n s s' s''} : Passes md optics mi n s s' → s'.continues mi = true →
      runStep md optics s' = .next s'' → Passes md optics mi (n + 1) s s''

/-- One call of `run`: its arguments, and a bound on the number of passes. -/
structure RunCall (α : Type) where
  maxDistance : α
  optics : List (Optic α)
  maxInteractions : Option Int
  fuel : Nat

/-- Several calls of `run` on one ray, one after the other (exceptions caught by the caller): the ray
afterwards and all the rows written to detectors. -/
def Ray.runs (ray : Ray α) : List (RunCall α) → Ray α × List (DetHit α)
  | [] => (ray, [])
  | c :: cs =>
    let s := (ray.run c.maxDistance c.optics c.maxInteractions (c.fuel + 1)).state
    let r := s.ray.runs cs
    (r.1, s.log ++ r.2)

/-- `optic` would act on the ray at distance `d`, at the point `pt` with the normal `n`, if nothing were
nearer. -/
structure Candidate (ray : Ray ℝ) (remaining : ℝ) (optic : Optic ℝ) (d : ℝ) (pt : V3 ℝ)
    (n : Option (V3 ℝ)) : Prop where
  notSkipped : optic.skipped = false
  hit : ∃ sfo, optic.testIntersect ray = .ok ⟨true, some pt, n, sfo⟩
  dist_eq : dist ray.position.toE pt.toE = d
  notTooNear : 1e-12 < d
  inReach : d ≤ remaining

end Optics
