import Verif.Spec.Rounded
import Verif.Spec.PlaneMirrors

/-! # Specification: the path of a rounded run between plane mirrors -/

namespace Optics
variable {R : Rounding}
open V3

/-- A plane mirror as the constructor builds it, round or rectangular, from the point and the normal of a plane. -/
inductive RoundedMirror : Optic (Fl R) → MirrorPlane → Prop
  | mk {m shape D w h f tangent dmd} {p : MirrorPlane} (hN : SaneLength p.normal)
      (hs : shape = "circular_flat" ∨ shape = "rectangular_flat")
      (hm : Mirror.new p.point.fl shape (some p.normal.fl) D w h f tangent "normal" dmd = .ok m) :
      RoundedMirror (.mirror m) p

/-- What does not turn a ray. -/
inductive Inert : Optic (Fl R) → Prop
  | detector (d : Detector (Fl R)) : Inert (.detector d)
  | annotation : Inert .annotation
  | filter : Inert .filter
  | window : Inert .window

/-- A scene of plane mirrors centred within `B` of the origin, and of things that do not turn rays. -/
def MirrorScene (optics : List (Optic (Fl R))) (B : ℝ) : Prop :=
  ∀ o ∈ optics, Inert o ∨ ∃ p, RoundedMirror o p ∧ ‖p.point.toE‖ ≤ B

/-- What a run has done: the number of passes, the mirrors met, as planes, in order, and the length of the path, measured
exactly between the computed points. -/
inductive RoundedPath (md : Fl R) (optics : List (Optic (Fl R))) (mi : Option Int) (s₀ : RunState (Fl R)) :
    Nat → List MirrorPlane → ℝ → RunState (Fl R) → Prop
  | start : RoundedPath md optics mi s₀ 0 [] 0 s₀
  /-- a pass that meets nothing, or something that does not turn the ray; rays of the faerie fire are never turned -/
  | straight {n ps L s s'} {P P' : V3 ℝ} : RoundedPath md optics mi s₀ n ps L s → s.continues mi = true →
      runStep md optics s = .next s' → s.ray.position = P.fl → s'.ray.position = P'.fl →
      (s'.interactions = s.interactions ∨ (∃ sel, s'.selected = some sel ∧ Inert sel.optic) ∨ s.ray.type = "faerie_fire") →
      RoundedPath md optics mi s₀ (n + 1) ps (L + ‖P'.toE - P.toE‖) s'
  /-- a pass that ends at a mirror -/
  | bounce {n ps L s s' sel p} {P P' : V3 ℝ} : RoundedPath md optics mi s₀ n ps L s → s.continues mi = true →
      runStep md optics s = .next s' → s.ray.position = P.fl → s'.ray.position = P'.fl →
      s'.interactions = s.interactions + 1 → s'.selected = some sel → sel.optic ∈ optics → RoundedMirror sel.optic p →
      s.ray.type ≠ "faerie_fire" → RoundedPath md optics mi s₀ (n + 1) (ps ++ [p]) (L + ‖P'.toE - P.toE‖) s'

end Optics
