import Verif.Spec.Scene
import Verif.Spec.RayOptics
import Verif.Spec.Drawing
import Mathlib.LinearAlgebra.Matrix.Notation
import Mathlib.Data.Matrix.Mul

/-!
# Specification: ideal lenses on an optical bench

The lenses share an axis, and a ray is described where it crosses a plane perpendicular to the axis: by the height of the
plane along the axis, the offset of the ray from the axis there, and its slope (the change of the offset for each unit of
height).  In these coordinates free flight and ideal lenses are the ray-transfer matrices of matrix optics.
-/

namespace Optics

/-- The axis of an optical bench. -/
structure Bench where
  origin : V3 ℝ
  axis : V3 ℝ

/-- The point at height `y` with offset `x` from the axis. -/
noncomputable def Bench.point (b : Bench) (y : ℝ) (x : V3 ℝ) : V3 ℝ := b.origin + y * b.axis + x

/-- A lens on the bench: the height of its plane, its focal length and its diameter. -/
structure BenchLens where
  height : ℝ
  f : ℝ
  D : ℝ

/-- The optic is an ideal lens, built with its centre on the axis and its normal along the axis, to either side. -/
inductive Optic.LensAt (b : Bench) (e : BenchLens) : Optic ℝ → Prop
  | mk {c index : ℝ} {w h : Option ℝ} {l : Lens ℝ} (hc : c ≠ 0) (hi : 0 < index)
      (hl : Lens.new (b.point e.height ⟨0, 0, 0⟩) (some (c * b.axis)) "spherical_biconvex" (some e.D) w h (some e.f) "ideal"
        index = .ok l) : LensAt b e (.lens l)

/-- The optic is a detector, built with its centre at height `Y` on the axis, its normal along the axis to either side, and
the tangent `t` across the axis. -/
inductive Optic.DetectorAt (b : Bench) (Y : ℝ) (id : Nat) (t : V3 ℝ) (w h : ℝ) : Optic ℝ → Prop
  | mk {c : ℝ} {d : Detector ℝ} (hc : c ≠ 0) (ht : t ≠ ⟨0, 0, 0⟩) (hp : inner ℝ b.axis.toE t.toE = 0)
      (hd : Detector.new id (b.point Y ⟨0, 0, 0⟩) (c * b.axis) t "rectangular_flat" (some w) (some h) = .ok d) :
      DetectorAt b Y id t w h (.detector d)

/-- The offset is within the sides `h` along `t` and `w` across it. -/
def Bench.Within (b : Bench) (t : V3 ℝ) (w h : ℝ) (x : V3 ℝ) : Prop :=
  |inner ℝ x.toE t.toE| ≤ h / 2 * ‖t.toE‖ ∧ |inner ℝ x.toE (V3.cross b.axis t).toE| ≤ w / 2 * ‖t.toE‖

/-- A ray crossing the plane at `height`. -/
structure BenchRay where
  height : ℝ
  offset : V3 ℝ
  slope : V3 ℝ

/-- The offset at another height. -/
noncomputable def BenchRay.at (q : BenchRay) (y : ℝ) : V3 ℝ := q.offset + (y - q.height) * q.slope

/-- The ray of the tracer is at this point of the bench, and runs up the axis with this slope. -/
structure BenchRay.Is (b : Bench) (q : BenchRay) (r : Ray ℝ) : Prop where
  position : r.position = b.point q.height q.offset
  unit : ‖r.direction.toE‖ = 1
  direction : ∃ κ : ℝ, 0 < κ ∧ r.direction = κ * (b.axis + q.slope)
  offset : inner ℝ q.offset.toE b.axis.toE = 0
  slope : inner ℝ q.slope.toE b.axis.toE = 0

/-- The direction of this slope agrees with the axis up to the tolerance of the tracer, in each coordinate. -/
def Bench.NearAxis (b : Bench) (u : V3 ℝ) : Prop :=
  ∀ i, |((‖(b.axis + u).toE‖⁻¹ • (b.axis + u).toE : E3) i) - b.axis.toE i| ≤ 1e-8 + 1e-10 * |b.axis.toE i|

open Classical in
/-- The ray behind an ideal lens: the offset stays, and the slope changes by the offset over the focal length.  A slope
within the tolerance is taken to be zero. -/
noncomputable def Bench.through (b : Bench) (q : BenchRay) (e : BenchLens) : BenchRay :=
  { height := e.height, offset := q.at e.height,
    slope := (if b.NearAxis q.slope then ⟨0, 0, 0⟩ else q.slope) - (1 / e.f) * q.at e.height }

/-- The ray behind each of the lenses of a list. -/
noncomputable def Bench.behind (b : Bench) : BenchRay → List BenchLens → List BenchRay
  | _, [] => []
  | q, e :: es => b.through q e :: b.behind (b.through q e) es

/-- The points where the ray crosses the lenses. -/
noncomputable def Bench.points (b : Bench) (q : BenchRay) (es : List BenchLens) : List (V3 ℝ) :=
  (b.behind q es).map fun q => b.point q.height q.offset

/-- The ray behind the last lens. -/
noncomputable def Bench.last (b : Bench) (q : BenchRay) (es : List BenchLens) : BenchRay :=
  es.foldl b.through q

/-- The ray crosses the lenses in this order: each is above the one before it by more than the tolerance of the hit tests,
converges, is met within its aperture and not at grazing incidence. -/
def Bench.Crosses (b : Bench) : BenchRay → List BenchLens → Prop
  | _, [] => True
  | q, e :: es => q.height + 1e-9 < e.height ∧ 0 < e.f ∧ ‖q.slope.toE‖ ≤ 1e7 ∧ ‖(q.at e.height).toE‖ < e.D / 2 ∧
      b.Crosses (b.through q e) es

/-- The ray does not meet any of the lenses with a slope within the tolerance, except zero. -/
def Bench.Clearly (b : Bench) : BenchRay → List BenchLens → Prop
  | _, [] => True
  | q, e :: es => (b.NearAxis q.slope → q.slope = ⟨0, 0, 0⟩) ∧ b.Clearly (b.through q e) es

/-! ## Matrix optics -/

/-- Free flight over the distance `d` along the axis. -/
noncomputable def flightMatrix (d : ℝ) : Matrix (Fin 2) (Fin 2) ℝ := !![1, d; 0, 1]

/-- An ideal lens of focal length `f`. -/
noncomputable def lensMatrix (f : ℝ) : Matrix (Fin 2) (Fin 2) ℝ := !![1, 0; -1 / f, 1]

/-- The ray-transfer matrix from the height `y` through the lenses to the height `Y`. -/
noncomputable def transferMatrix (Y : ℝ) : ℝ → List BenchLens → Matrix (Fin 2) (Fin 2) ℝ
  | y, [] => flightMatrix (Y - y)
  | y, e :: es => transferMatrix Y e.height es * (lensMatrix e.f * flightMatrix (e.height - y))

/-- The displacement at `Y` for each unit of error in the slope behind each of the lenses, added up. -/
noncomputable def slopeSensitivity (Y : ℝ) : List BenchLens → ℝ
  | [] => 0
  | e :: es => |transferMatrix Y e.height es 0 1| + slopeSensitivity Y es

end Optics
