import Verif.Lemmas.Rounding64
import Verif.Lemmas.RunBudget

/-! # Computing with rounded numbers -/

namespace Optics
variable {R : Rounding}
open V3

theorem fl_add (x y : ℝ) : (Fl.fin x : Fl R) + Fl.fin y = ⟨R.rnd (x + y)⟩ := rfl
theorem fl_sub (x y : ℝ) : (Fl.fin x : Fl R) - Fl.fin y = ⟨R.rnd (x - y)⟩ := by
  rw [sub_eq_add_neg]; rfl
theorem fl_mul (x y : ℝ) : (Fl.fin x : Fl R) * Fl.fin y = ⟨R.rnd (x * y)⟩ := rfl
theorem fl_div (x y : ℝ) (h : y ≠ 0) : (Fl.fin x : Fl R) / Fl.fin y = ⟨R.rnd (x / y)⟩ := by
  show (⟨R.apply (XR.fin x / XR.fin y)⟩ : Fl R) = _
  rw [XR.fin_div _ _ h]; rfl
theorem fl_neg (x : ℝ) : -(Fl.fin x : Fl R) = Fl.fin (-x) := rfl
theorem fl_sqrt (x : ℝ) (h : 0 ≤ x) : PyNum.sqrt (Fl.fin x : Fl R) = ⟨R.rnd (Real.sqrt x)⟩ := by
  show (⟨R.apply (PyNum.sqrt (XR.fin x))⟩ : Fl R) = _
  rw [XR.fin_sqrt _ h]; rfl
theorem fl_abs (x : ℝ) : PyNum.abs (Fl.fin x : Fl R) = Fl.fin |x| := rfl
theorem fl_lt (x y : ℝ) : ((Fl.fin x : Fl R) < Fl.fin y) = (x < y) := rfl
theorem fl_le (x y : ℝ) : ((Fl.fin x : Fl R) ≤ Fl.fin y) = (x ≤ y) := rfl
theorem fl_eqb (x y : ℝ) : PyNum.eqb (Fl.fin x : Fl R) (Fl.fin y) = decide (x = y) := rfl
theorem fl_ltInf (x : ℝ) : PyNum.ltInf (Fl.fin x : Fl R) = true := rfl
theorem fl_lit (m : ℕ) (s : Bool) (e : ℕ) :
    (OfScientific.ofScientific m s e : Fl R) = ⟨R.rnd (OfScientific.ofScientific m s e)⟩ := rfl

theorem fl_lit0 : (0.0 : Fl R) = Fl.fin 0 := by
  rw [fl_lit, show (OfScientific.ofScientific 0 true 1 : ℝ) = 0 by norm_num, R.zero]; rfl

/-- Rounding keeps the sign. -/
theorem rnd_nonneg {x y : ℝ} (hx : 0 ≤ x) (h : R.rnd x = .fin y) : 0 ≤ y := by
  have := R.mono 0 x hx; rw [R.zero, h] at this; exact this

theorem rnd_nonpos {x y : ℝ} (hx : x ≤ 0) (h : R.rnd x = .fin y) : y ≤ 0 := by
  have := R.mono x 0 hx; rw [R.zero, h] at this; exact this

theorem tiny_le : (1 : ℝ) / 10 ^ 300 ≤ 1 / 10 ^ 30 :=
  one_div_le_one_div_of_le (by positivity) (pow_le_pow_right₀ (by norm_num) (by norm_num))

theorem huge_ge : (10 : ℝ) ^ 30 ≤ 10 ^ 300 := pow_le_pow_right₀ (by norm_num) (by norm_num)

end Optics
