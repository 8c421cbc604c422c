import Verif.Model.Rounded
import Verif.Spec.RayOptics
import Verif.Spec.Run
import Mathlib.Analysis.InnerProductSpace.Projection.Reflection

/-! # Specification: rounded scenes of plane mirrors -/

namespace Optics
open V3

/-- A real vector as an array of finite floats. -/
noncomputable def V3.fl {R : Rounding} (v : V3 ℝ) : V3 (Fl R) := ⟨Fl.fin v.x, Fl.fin v.y, Fl.fin v.z⟩

/-- A vector whose length is neither tiny nor huge: its square neither underflows nor overflows. -/
def SaneLength (v : V3 ℝ) : Prop := 1 / 10 ^ 100 ≤ ‖v.toE‖ ∧ ‖v.toE‖ ≤ 10 ^ 100

/-- The mirror image of a direction in the plane perpendicular to `N`: Mathlib's reflection. -/
noncomputable def mirrorImage (N : V3 ℝ) (d : E3) : E3 := (ℝ ∙ N.toE)ᗮ.reflection d

/-- Reflections one after the other. -/
noncomputable def mirrorImages (ns : List (V3 ℝ)) (d : E3) : E3 := ns.foldl (fun d N => mirrorImage N d) d

/-- What an optic does to the direction of a ray: `some N`, reflect it in the plane perpendicular to `N`; `none`,
leave it.  Flat mirrors and micromirror arrays as the constructor builds them, detectors, and what rays pass
unnoticed. -/
inductive PlainOptic {R : Rounding} : Optic (Fl R) → Option (V3 ℝ) → Prop
  | mirror {m position shape D w h f tangent dmd} {N : V3 ℝ} (hN : SaneLength N)
      (hs : shape = "circular_flat" ∨ shape = "rectangular_flat")
      (hm : Mirror.new position shape (some N.fl) D w h f tangent "normal" dmd = .ok m) : PlainOptic (.mirror m) (some N)
  | micromirrors {m position shape normal D w h f tangent} {N : V3 ℝ} (hN : SaneLength N)
      (hm : Mirror.new position shape normal D w h f tangent "dmd" (some N.fl) = .ok m) : PlainOptic (.mirror m) (some N)
  | detector (d : Detector (Fl R)) : PlainOptic (.detector d) none
  | annotation : PlainOptic .annotation none
  | filter : PlainOptic .filter none
  | window : PlainOptic .window none

/-- A scene of such optics. -/
def PlainScene {R : Rounding} (optics : List (Optic (Fl R))) : Prop := ∀ o ∈ optics, ∃ N, PlainOptic o N

/-- The mirrors a run has met so far, by their normals, in order. -/
inductive Bounces {R : Rounding} (md : Fl R) (optics : List (Optic (Fl R))) (mi : Option Int) (s₀ : RunState (Fl R)) :
    List (V3 ℝ) → RunState (Fl R) → Prop
  | start : Bounces md optics mi s₀ [] s₀
  /-- a pass that meets nothing -/
  | free {ns s s'} : Bounces md optics mi s₀ ns s → s.continues mi = true → runStep md optics s = .next s' →
      s'.interactions = s.interactions → Bounces md optics mi s₀ ns s'
  /-- a pass that ends at a detector, or at any optic if the ray is one of the faerie fire -/
  | stop {ns s s' sel} : Bounces md optics mi s₀ ns s → s.continues mi = true → runStep md optics s = .next s' →
      s'.interactions = s.interactions + 1 → s'.selected = some sel → sel.optic ∈ optics →
      (PlainOptic sel.optic none ∨ s.ray.type = "faerie_fire") → Bounces md optics mi s₀ ns s'
  /-- a pass that ends at a mirror -/
  | bounce {ns s s' sel N} : Bounces md optics mi s₀ ns s → s.continues mi = true → runStep md optics s = .next s' →
      s'.interactions = s.interactions + 1 → s'.selected = some sel → sel.optic ∈ optics →
      s.ray.type ≠ "faerie_fire" → PlainOptic sel.optic (some N) → Bounces md optics mi s₀ (ns ++ [N]) s'

end Optics
