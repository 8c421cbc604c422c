import Verif.Lemmas.Refocus
import Verif.Spec.RoundedTrain

/-!
# C120: any number of ideal lenses, with rounding
-/

namespace Optics
open V3
variable {R : Rounding}

/-- **C120: any number of ideal lenses, with rounded arithmetic.**  A ray that passes within `ε` of an object point passes, after one lens or many,
within `ε'` of the image of the image ... of that point, where `ε'` is as `LensTrain` adds it up. -/
theorem C120_train {md : Fl R} {optics : List (Optic (Fl R))} {s s' : RunState (Fl R)} {S S' : E3} {ε ε' : ℝ}
    (h : LensTrain md optics s S ε s' S' ε') (ha : Aims s S ε) : Aims s' S' ε' := by
  induction h with
  | nil => exact ha
  | @cons s s₁ s' S I S' ε ε₁ ε' O w P N f B c r p pass dist front far small image cost rest ih =>
    apply ih
    obtain ⟨O₂, w₂, t, e1, e2, -, e4⟩ := ha
    obtain rfl : O = O₂ := fl_injective (pass.pos.symm.trans e1)
    obtain rfl : w = w₂ := fl_injective (pass.dir.symm.trans e2)
    obtain ⟨sel, hsel, hlens⟩ := pass.lens
    obtain ⟨P', d', q, x, h1, h2, h3, h4, h5, h6, h7, h8, h9⟩ := lens_pass pass.sizes pass.grid pass.pos pass.dir pass.unit pass.rem pass.rem_nonneg
      pass.room pass.cos pass.kind pass.step pass.hit hsel hlens
    obtain ⟨t', -, ht⟩ := refocus pass.sizes hlens.axis_norm (NearUnit.bounds pass.unit).1 pass.cos h6 h7 h8 h9 e4 front dist far small image
    refine ⟨P', d', t', h1, h2, h3, ?_⟩
    have hf := pass.sizes.f_pos
    have hextra : 0 ≤ 8 / 10 ^ 8 * f * (1 + 102 / 100 * (f / |p - f|)) := by positivity
    rcases ht with ht | ⟨hA, ht⟩
    · rcases cost with ⟨-, cost⟩ | cost <;> linarith
    · rcases cost with ⟨ho, -⟩ | cost
      · exfalso
        rcases hA with hA | hA
        · exact absurd ho.1 (not_lt.mpr hA)
        · exact absurd ho.2 (not_lt.mpr hA)
      · linarith

end Optics
