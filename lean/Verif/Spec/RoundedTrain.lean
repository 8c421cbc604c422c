import Verif.Spec.RoundedLens

/-! # Specification: several ideal lenses one after the other, with rounded arithmetic -/

namespace Optics
open V3
variable {R : Rounding}

/-- The line of the ray passes within `ε` of the point `S`. -/
def Aims (s : RunState (Fl R)) (S : E3) (ε : ℝ) : Prop :=
  ∃ (O w : V3 ℝ) (t : ℝ), s.ray.position = O.fl ∧ s.ray.direction = w.fl ∧ |‖w.toE‖ - 1| ≤ 5 * R.u ∧ ‖O.toE + t • w.toE - S‖ ≤ ε

/-- Passes of the loop, one after the other, each of which takes the ray to an ideal lens.  In front of the first lens, as the ray sees it, is the
point `S`; the image of it lies in front of the second lens, and so on; the last image is `S'`.  `ε` is what the ray may miss `S` by and `ε'` what it may
miss `S'` by: each lens with the focal length `f`, from whose plane the point before is at the distance `p`, magnifies what is there by about
`f / |p - f|` and adds some roundoffs, and for a ray so close to the axis that the code takes it for an axial one some `1e-7` focal lengths. -/
inductive LensTrain (md : Fl R) (optics : List (Optic (Fl R))) : RunState (Fl R) → E3 → ℝ → RunState (Fl R) → E3 → ℝ → Prop
  | nil {s S ε} : LensTrain md optics s S ε s S ε
  | cons {s s₁ s' : RunState (Fl R)} {S I S' : E3} {ε ε₁ ε' : ℝ} {O w P N : V3 ℝ} {f B c r p : ℝ}
      (pass : LensPass md optics s s₁ O w P N f B c r) (dist : |inner ℝ (S - P.toE) (axisOf N)| = p)
      (front : 0 < inner ℝ (axisOf N) (P.toE - S) * inner ℝ (axisOf N) w.toE) (far : ε + 200 * (R.u * (B / c ^ 2)) ≤ p)
      (small : ε ≤ |p - f| / 100) (image : ImageOf f P.toE (axisOf N) S I)
      (cost : OffAxis R N w ∧
          (73 + 153 * (f / |p - f|)) * (R.u * (B / c ^ 2)) + 102 / 100 * (f / |p - f|) * ε * (1 + ‖S - P.toE‖ / |p - f|) ≤ ε₁ ∨
        (73 + 153 * (f / |p - f|)) * (R.u * (B / c ^ 2)) + 102 / 100 * (f / |p - f|) * ε * (1 + ‖S - P.toE‖ / |p - f|) +
          8 / 10 ^ 8 * f * (1 + 102 / 100 * (f / |p - f|)) ≤ ε₁)
      (rest : LensTrain md optics s₁ I ε₁ s' S' ε') : LensTrain md optics s S ε s' S' ε'

end Optics
