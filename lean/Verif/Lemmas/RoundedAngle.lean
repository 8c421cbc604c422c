import Verif.Lemmas.RoundedSphere
import Verif.Lemmas.RoundedSnell
import Verif.Lemmas.Dyadic64
import Verif.Props.Vectors
import Mathlib.Analysis.SpecialFunctions.Trigonometric.Bounds
import Mathlib.Analysis.SpecialFunctions.Complex.Arg
import Mathlib.Geometry.Euclidean.Angle.Unoriented.Basic

/-! # Angles with rounding -/

namespace Optics
open V3

variable {R : Rounding}

/-! ## Angles and their cosines -/

/-- Two angles between 0 and `π` whose cosines differ by at most `δ`. -/
theorem angle_of_cos {a b δ : ℝ} (ha : 0 ≤ a) (ha' : a ≤ Real.pi) (hb : 0 ≤ b) (hb' : b ≤ Real.pi)
    (h : |Real.cos a - Real.cos b| ≤ δ) :
    |a - b| * Real.sin b ≤ Real.pi * δ ∧ |a - b| ^ 2 ≤ Real.pi ^ 2 * (δ / 2) := by
  have hpi := Real.pi_pos
  obtain ⟨x, hx⟩ : ∃ x, x = |a - b| / 2 := ⟨_, rfl⟩
  have hx0 : 0 ≤ x := by rw [hx]; positivity
  have hx1 : x ≤ Real.pi / 2 := by
    rw [hx]
    have : |a - b| ≤ Real.pi := by rw [abs_le]; constructor <;> linarith
    linarith
  have hs : 2 * (Real.sin ((a + b) / 2) * Real.sin x) ≤ δ := by
    rw [Real.cos_sub_cos, abs_mul, abs_mul, abs_neg, abs_two, mul_assoc] at h
    refine le_trans (mul_le_mul_of_nonneg_left ?_ (by norm_num)) h
    refine mul_le_mul (le_abs_self _) (le_of_eq ?_) (Real.sin_nonneg_of_nonneg_of_le_pi hx0 (by linarith)) (abs_nonneg _)
    rw [hx]
    rcases abs_cases (a - b) with ⟨e, _⟩ | ⟨e, _⟩
    · rw [e, abs_of_nonneg (Real.sin_nonneg_of_nonneg_of_le_pi (by linarith) (by linarith))]
    · rw [e, show -(a - b) / 2 = -((a - b) / 2) by ring, Real.sin_neg,
        abs_of_nonpos (by
          rw [← neg_nonneg, ← Real.sin_neg]
          exact Real.sin_nonneg_of_nonneg_of_le_pi (by linarith) (by linarith))]
  have jordan : 2 / Real.pi * x ≤ Real.sin x := Real.mul_le_sin hx0 hx1
  have h2x : 2 * x = |a - b| := by rw [hx]; ring
  have mid : Real.sin b / 2 ≤ Real.sin ((a + b) / 2) := by
    have := strictConcaveOn_sin_Icc.concaveOn.2 (show a ∈ Set.Icc 0 Real.pi from ⟨ha, ha'⟩) (show b ∈ Set.Icc 0 Real.pi from ⟨hb, hb'⟩)
      (show (0 : ℝ) ≤ 1 / 2 by norm_num) (show (0 : ℝ) ≤ 1 / 2 by norm_num) (by norm_num)
    simp only [smul_eq_mul] at this
    have e : 1 / 2 * a + 1 / 2 * b = (a + b) / 2 := by ring
    rw [e] at this
    have := Real.sin_nonneg_of_nonneg_of_le_pi ha ha'
    linarith
  have hsb := Real.sin_nonneg_of_nonneg_of_le_pi hb hb'
  have wide : Real.sin x ≤ Real.sin ((a + b) / 2) := by
    have h1 : x ≤ (a + b) / 2 := by
      rw [hx]
      have : |a - b| ≤ a + b := by rw [abs_le]; constructor <;> linarith
      linarith
    have h2 : (a + b) / 2 ≤ Real.pi - x := by
      rw [hx]
      have : |a - b| ≤ 2 * Real.pi - (a + b) := by rw [abs_le]; constructor <;> linarith
      linarith
    rcases le_total ((a + b) / 2) (Real.pi / 2) with h3 | h3
    · exact Real.sin_le_sin_of_le_of_le_pi_div_two (by linarith) h3 h1
    · rw [← Real.sin_pi_sub ((a + b) / 2)]
      exact Real.sin_le_sin_of_le_of_le_pi_div_two (by linarith) (by linarith) (by linarith)
  have hj0 : 0 ≤ 2 / Real.pi * x := by positivity
  have ex : 2 / Real.pi * x * Real.pi = |a - b| := by rw [← h2x]; field_simp
  constructor
  · have h1 : Real.sin b / 2 * (2 / Real.pi * x) ≤ Real.sin ((a + b) / 2) * Real.sin x :=
      mul_le_mul mid jordan hj0 (by linarith [mid])
    rw [← ex]
    have h3 : Real.sin b * (2 / Real.pi * x) ≤ δ := by linarith
    have := mul_le_mul_of_nonneg_left h3 hpi.le
    linarith
  · have h1 : 2 / Real.pi * x * (2 / Real.pi * x) ≤ Real.sin ((a + b) / 2) * Real.sin x :=
      mul_le_mul (jordan.trans wide) jordan hj0 ((hj0.trans jordan).trans wide)
    have h3 : 2 / Real.pi * x * (2 / Real.pi * x) ≤ δ / 2 := by linarith
    have := mul_le_mul_of_nonneg_left h3 (sq_nonneg Real.pi)
    rw [← ex]
    linarith

/-! ## The functions -/

theorem fl_arccos (x : ℝ) (h : -1 ≤ x ∧ x ≤ 1) : PyNum.arccos (Fl.fin x : Fl R) = ⟨R.rnd (Real.arccos x)⟩ := by
  show (⟨R.apply (PyNum.arccos (XR.fin x))⟩ : Fl R) = _
  rw [XR.fin_arccos x h]; rfl

theorem fl_arccos_out (x : ℝ) (h : ¬(-1 ≤ x ∧ x ≤ 1)) : PyNum.arccos (Fl.fin x : Fl R) = ⟨.nan⟩ := by
  show (⟨R.apply (XR.onUnit Real.arccos x)⟩ : Fl R) = _
  rw [XR.onUnit, if_neg h]; rfl

theorem fl_arctan2 (y x : ℝ) : PyNum.arctan2 (Fl.fin y : Fl R) (Fl.fin x) = ⟨R.rnd (Complex.arg ⟨x, y⟩)⟩ := rfl

theorem norm_cross_le (a b : V3 ℝ) : ‖(cross a b).toE‖ ≤ ‖a.toE‖ * ‖b.toE‖ := by
  have h := cross_dot_self a b
  have e : ∀ v : V3 ℝ, dot v v = ‖v.toE‖ ^ 2 := by
    intro v; rw [normE_sq]; simp only [dot]; ring
  rw [e, e, e] at h
  refine abs_le_of_sq_le_sq' ?_ (by positivity) |>.2
  rw [mul_pow]
  linarith [sq_nonneg (dot a b)]

/-- The cross product of two vectors that are about as long as unit vectors. -/
theorem cross_near {a b : V3 ℝ} (ha : ‖a.toE‖ ≤ 1 + 1 / 1000) (hb : ‖b.toE‖ ≤ 1 + 1 / 1000) :
    ∃ c : V3 ℝ, cross (a.fl : V3 (Fl R)) b.fl = c.fl ∧ ‖c.toE - (cross a b).toE‖ ≤ 5 * R.u := by
  have hu := R.u_pos
  have hus := (five_u (R := R)).2
  have hab : ‖a.toE‖ * ‖b.toE‖ ≤ 1 + 3 / 1000 :=
    (mul_le_mul ha hb (_root_.norm_nonneg _) (by norm_num)).trans (by norm_num)
  have sa := normE_sq a
  have sb := normE_sq b
  have two : ∀ p q r s : ℝ, p ^ 2 + q ^ 2 ≤ ‖a.toE‖ ^ 2 → r ^ 2 + s ^ 2 ≤ ‖b.toE‖ ^ 2 →
      ∃ y, (Fl.fin p : Fl R) * Fl.fin s - Fl.fin q * Fl.fin r = Fl.fin y ∧ |y - (p * s - q * r)| ≤ 23 / 10 * R.u := by
    intro p q r s h1 h2
    have hS : |p * s| + |q * r| ≤ 1 + 3 / 1000 := by
      refine le_trans ?_ hab
      refine abs_le_of_sq_le_sq' ?_ (by positivity) |>.2
      have h3 : (|p * s| + |q * r|) ^ 2 ≤ (p ^ 2 + q ^ 2) * (r ^ 2 + s ^ 2) := by
        rw [abs_mul, abs_mul, ← sq_abs p, ← sq_abs q, ← sq_abs r, ← sq_abs s]
        nlinarith [sq_nonneg (|p| * |r| - |q| * |s|)]
      rw [mul_pow]
      exact h3.trans (mul_le_mul h1 h2 (by positivity) (by positivity))
    obtain ⟨y₁, hy₁, e₁⟩ := rnd_mid (R := R) (x := p * s) le_rfl (by linarith [abs_nonneg (q * r)])
    obtain ⟨y₂, hy₂, e₂⟩ := rnd_mid (R := R) (x := q * r) le_rfl (by linarith [abs_nonneg (p * s)])
    have h12 : |(y₁ - y₂) - (p * s - q * r)| ≤ R.u * (1 + 5 / 1000) := by
      rw [show (y₁ - y₂) - (p * s - q * r) = (y₁ - p * s) - (y₂ - q * r) by ring]
      have := abs_sub (y₁ - p * s) (y₂ - q * r)
      have h5 := mul_le_mul_of_nonneg_left hS hu.le
      linarith
    have h6 : |p * s - q * r| ≤ 1 + 3 / 1000 := (abs_sub _ _).trans hS
    have h7 : |y₁ - y₂| ≤ 1 + 4 / 1000 := by
      have := abs_add_le ((y₁ - y₂) - (p * s - q * r)) (p * s - q * r)
      rw [sub_add_cancel] at this
      linarith
    obtain ⟨y, hy, e₃⟩ := rnd_mid (R := R) h7 (by norm_num)
    refine ⟨y, ?_, ?_⟩
    · rw [fl_mul, fl_mul, hy₁, hy₂]
      show (Fl.fin y₁ : Fl R) - Fl.fin y₂ = _
      rw [fl_sub, hy]; rfl
    · have := abs_add_le (y - (y₁ - y₂)) ((y₁ - y₂) - (p * s - q * r))
      rw [sub_add_sub_cancel] at this
      linarith
  obtain ⟨x, hx, ex⟩ := two a.y a.z b.y b.z (by nlinarith [sq_nonneg a.x]) (by nlinarith [sq_nonneg b.x])
  obtain ⟨y, hy, ey⟩ := two a.z a.x b.z b.x (by nlinarith [sq_nonneg a.y]) (by nlinarith [sq_nonneg b.y])
  obtain ⟨z, hz, ez⟩ := two a.x a.y b.x b.y (by nlinarith [sq_nonneg a.z]) (by nlinarith [sq_nonneg b.z])
  refine ⟨⟨x, y, z⟩, ?_, ?_⟩
  · exact V3.ext hx hy hz
  · rw [← toE_sub]
    refine (normE_le (e := 23 / 10 * R.u) (by positivity) ex ey ez).trans ?_
    linarith

end Optics
