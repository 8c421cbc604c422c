import Verif.Spec.Euclid

/-!
# Specification: rays, surfaces and solids as point sets of Euclidean 3-space

Nothing here mentions the model's functions: distances are Mathlib's.
-/

namespace Optics

/-- The point at parameter `t` on the line through `p` with direction `d`. -/
noncomputable def lineAt (p d : V3 ℝ) (t : ℝ) : V3 ℝ := p + t * d

/-- `x` lies on the plane through `c` perpendicular to `n`. -/
def OnPlane (c n x : V3 ℝ) : Prop := inner ℝ (x - c).toE n.toE = 0

/-- `x` lies on the sphere of radius `|R|` about `c`. -/
def OnSphere (c : V3 ℝ) (R : ℝ) (x : V3 ℝ) : Prop := dist x.toE c.toE = |R|

/-- `x` lies in the open ball of radius `R` about `c`. -/
def InBall (c : V3 ℝ) (R : ℝ) (x : V3 ℝ) : Prop := dist x.toE c.toE < R

/-- `x` is closer than `r` to the line through `c` with direction `a`. -/
def InCylinder (c a : V3 ℝ) (r : ℝ) (x : V3 ℝ) : Prop :=
  ∃ s : ℝ, dist x.toE (lineAt c a s).toE < r

/-- `x` is at distance exactly `r` from the line through `c` with direction `a`: no point of the
line is closer, and one is that close. -/
def OnCylinder (c a : V3 ℝ) (r : ℝ) (x : V3 ℝ) : Prop :=
  (∀ s : ℝ, r ≤ dist x.toE (lineAt c a s).toE) ∧ ∃ s : ℝ, dist x.toE (lineAt c a s).toE = r

/-- The line through `p` with direction `d` touches the sphere of radius `|R|` about `c` without
crossing it. -/
def Tangent (c : V3 ℝ) (R : ℝ) (p d : V3 ℝ) : Prop :=
  ∃ t, OnSphere c R (lineAt p d t) ∧ inner ℝ (lineAt p d t - c).toE d.toE = 0

end Optics
