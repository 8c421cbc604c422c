import Verif.Lemmas.Singlet
import Mathlib.Topology.Instances.Real.Lemmas
import Mathlib.Analysis.SpecialFunctions.Pow.Real

/-!
# Lemmas for C91: a ray parallel to the axis of a singlet, traced exactly

The lens has the front radius `R`, the back radius `S`, the thickness `T` and the index `n`; the ray is at the distance `h` from the
axis.  Components along the axis `a` and along the offset `b` of the ray.
-/

namespace Optics
open V3

variable (n R S T h : ℝ)

/-- From the centre of the front sphere back to the entry point. -/
noncomputable def sgC : ℝ := Real.sqrt (R ^ 2 - h ^ 2)
/-- The part of the refracted direction along the normal that refraction adds. -/
noncomputable def sgG : ℝ := Real.sqrt (1 - (h / (n * R)) ^ 2) - sgC R h / (n * R)
/-- The direction in the glass is `u a - v b`. -/
noncomputable def sgU : ℝ := 1 / n + sgG n R h * sgC R h / R
noncomputable def sgV : ℝ := sgG n R h / R
/-- From the entry point to the centre of the back sphere, along the axis. -/
noncomputable def sgE : ℝ := T - S - R + sgC R h
noncomputable def sgM : ℝ := sgU n R h * sgE R S T h + h ^ 2 * sgV n R h
noncomputable def sgD : ℝ := sgM n R S T h ^ 2 - (sgE R S T h ^ 2 + h ^ 2 - S ^ 2)
/-- The length of the path in the glass. -/
noncomputable def sgL : ℝ := sgM n R S T h + Real.sqrt (sgD n R S T h)
/-- The square of the cosine of the angle of the ray that leaves. -/
noncomputable def sgW : ℝ := 1 - n ^ 2 * (1 - sgD n R S T h / S ^ 2)
noncomputable def sgH : ℝ := -Real.sqrt (sgW n R S T h) + n * Real.sqrt (sgD n R S T h) / S
/-- The exit point is `1 - L v` times the offset from the axis, and the direction behind the lens is `A a - B b`. -/
noncomputable def sgX : ℝ := 1 - sgL n R S T h * sgV n R h
noncomputable def sgA : ℝ := n * sgU n R h + sgH n R S T h * (sgE R S T h - sgL n R S T h * sgU n R h) / S
noncomputable def sgB : ℝ := n * sgV n R h + sgH n R S T h * sgX n R S T h / S
/-- Where the ray crosses the axis, behind the back vertex. -/
noncomputable def sgF : ℝ :=
  R - sgC R h + sgL n R S T h * sgU n R h - T + sgX n R S T h / sgB n R S T h * sgA n R S T h

/-- The ray gets from the front sphere to the back sphere and out: it meets the front sphere, inside the back sphere and where the glass is
thicker than `1e-8`, meets the back sphere, inside the front sphere and not within `1e-12`, and is not totally reflected there. -/
structure SgThrough : Prop where
  meets : h ^ 2 < R ^ 2
  inside : sgE R S T h ^ 2 + h ^ 2 < S ^ 2
  thick : (1e-8 - sgC R h) ^ 2 + h ^ 2 < R ^ 2
  thick' : (sgE R S T h - 1e-8) ^ 2 + h ^ 2 < S ^ 2
  meets' : 0 < sgD n R S T h
  apart : 1e-12 < sgL n R S T h
  inside' : (sgL n R S T h * sgU n R h - sgC R h) ^ 2 + h ^ 2 * sgX n R S T h ^ 2 < R ^ 2
  noTIR : 0 < sgW n R S T h
  converges : 0 < sgB n R S T h

section continuity

theorem sgC_cont : Continuous (sgC R) := by unfold sgC; fun_prop
theorem sgG_cont : Continuous (sgG n R) := by have := sgC_cont R; unfold sgG; fun_prop
theorem sgU_cont : Continuous (sgU n R) := by have := sgC_cont R; have := sgG_cont n R; unfold sgU; fun_prop
theorem sgV_cont : Continuous (sgV n R) := by have := sgG_cont n R; unfold sgV; fun_prop
theorem sgE_cont : Continuous (sgE R S T) := by have := sgC_cont R; unfold sgE; fun_prop
theorem sgM_cont : Continuous (sgM n R S T) := by
  have := sgU_cont n R; have := sgV_cont n R; have := sgE_cont R S T; unfold sgM; fun_prop
theorem sgD_cont : Continuous (sgD n R S T) := by have := sgM_cont n R S T; have := sgE_cont R S T; unfold sgD; fun_prop
theorem sgL_cont : Continuous (sgL n R S T) := by have := sgM_cont n R S T; have := sgD_cont n R S T; unfold sgL; fun_prop
theorem sgW_cont : Continuous (sgW n R S T) := by have := sgD_cont n R S T; unfold sgW; fun_prop
theorem sgH_cont : Continuous (sgH n R S T) := by have := sgW_cont n R S T; have := sgD_cont n R S T; unfold sgH; fun_prop
theorem sgX_cont : Continuous (sgX n R S T) := by have := sgL_cont n R S T; have := sgV_cont n R; unfold sgX; fun_prop
theorem sgA_cont : Continuous (sgA n R S T) := by
  have := sgL_cont n R S T; have := sgU_cont n R; have := sgH_cont n R S T; have := sgE_cont R S T; unfold sgA; fun_prop
theorem sgB_cont : Continuous (sgB n R S T) := by
  have := sgX_cont n R S T; have := sgV_cont n R; have := sgH_cont n R S T; unfold sgB; fun_prop

end continuity

section axis
variable {n R S T}

theorem sgC_zero (hR : 0 < R) : sgC R 0 = R := by
  unfold sgC; rw [show R ^ 2 - (0 : ℝ) ^ 2 = R ^ 2 by ring]; exact Real.sqrt_sq hR.le
theorem sgG_zero (hn : 0 < n) (hR : 0 < R) : sgG n R 0 = 1 - 1 / n := by
  unfold sgG; rw [sgC_zero hR]; simp only [zero_div, zero_pow two_ne_zero, sub_zero, Real.sqrt_one]; field_simp
theorem sgU_zero (hn : 0 < n) (hR : 0 < R) : sgU n R 0 = 1 := by
  unfold sgU; rw [sgC_zero hR, sgG_zero hn hR]; field_simp; ring
theorem sgV_zero (hn : 0 < n) (hR : 0 < R) : sgV n R 0 = (n - 1) / (n * R) := by
  unfold sgV; rw [sgG_zero hn hR]; field_simp
theorem sgE_zero (hR : 0 < R) : sgE R S T 0 = T - S := by unfold sgE; rw [sgC_zero hR]; ring
theorem sgM_zero (hn : 0 < n) (hR : 0 < R) : sgM n R S T 0 = T - S := by
  unfold sgM; rw [sgU_zero hn hR, sgE_zero hR]; ring
theorem sgD_zero (hn : 0 < n) (hR : 0 < R) : sgD n R S T 0 = S ^ 2 := by
  unfold sgD; rw [sgM_zero hn hR, sgE_zero hR]; ring
theorem sgL_zero (hn : 0 < n) (hR : 0 < R) (hS : 0 < S) : sgL n R S T 0 = T := by
  unfold sgL; rw [sgM_zero hn hR, sgD_zero hn hR, Real.sqrt_sq hS.le]; ring
theorem sgW_zero (hn : 0 < n) (hR : 0 < R) (hS : 0 < S) : sgW n R S T 0 = 1 := by
  unfold sgW; rw [sgD_zero hn hR, div_self (pow_ne_zero 2 hS.ne')]; ring
theorem sgH_zero (hn : 0 < n) (hR : 0 < R) (hS : 0 < S) : sgH n R S T 0 = n - 1 := by
  unfold sgH; rw [sgW_zero hn hR hS, sgD_zero hn hR, Real.sqrt_sq hS.le, Real.sqrt_one]; field_simp; ring
theorem sgX_zero (hn : 0 < n) (hR : 0 < R) (hS : 0 < S) : sgX n R S T 0 = 1 - T * ((n - 1) / (n * R)) := by
  unfold sgX; rw [sgL_zero hn hR hS, sgV_zero hn hR]
theorem sgA_zero (hn : 0 < n) (hR : 0 < R) (hS : 0 < S) : sgA n R S T 0 = 1 := by
  unfold sgA; rw [sgL_zero hn hR hS, sgU_zero hn hR, sgH_zero hn hR hS, sgE_zero hR]; field_simp; ring
theorem sgB_zero (hn : 0 < n) (hR : 0 < R) (hS : 0 < S) :
    sgB n R S T 0 = (n - 1) * (n * (R + S) - (n - 1) * T) / (n * R * S) := by
  unfold sgB; rw [sgX_zero hn hR hS, sgV_zero hn hR, sgH_zero hn hR hS]; field_simp; ring

theorem sgB_zero_pos (hn : 1 < n) (hR : 0 < R) (hS : 0 < S) (h1 : T < 2 * R) (h2 : T < 2 * S) (hT : 0 < T) : 0 < sgB n R S T 0 := by
  rw [sgB_zero (by linarith) hR hS]
  have : 0 < n - 1 := by linarith
  have h3 : (n - 1) * T < n * (R + S) := by nlinarith
  have h4 : 0 < n * (R + S) - (n - 1) * T := by linarith
  positivity

theorem sgF_zero (hn : 1 < n) (hR : 0 < R) (hS : 0 < S) (h1 : T < 2 * R) (h2 : T < 2 * S) (hT : 0 < T) :
    sgF n R S T 0 = S * (n * R - (n - 1) * T) / ((n - 1) * (n * (R + S) - (n - 1) * T)) := by
  have hn0 : 0 < n := by linarith
  have h4 : 0 < n * (R + S) - (n - 1) * T := by nlinarith
  have h5 : n - 1 ≠ 0 := by linarith
  unfold sgF
  rw [sgC_zero hR, sgL_zero hn0 hR hS, sgU_zero hn0 hR, sgX_zero hn0 hR hS, sgB_zero hn0 hR hS, sgA_zero hn0 hR hS]
  field_simp
  ring

theorem sgF_cont (hn : 1 < n) (hR : 0 < R) (hS : 0 < S) (h1 : T < 2 * R) (h2 : T < 2 * S) (hT : 0 < T) :
    ContinuousAt (sgF n R S T) 0 := by
  have c1 := (sgC_cont R).continuousAt (x := 0)
  have c2 := (sgL_cont n R S T).continuousAt (x := 0)
  have c3 := (sgU_cont n R).continuousAt (x := 0)
  have c4 := (sgX_cont n R S T).continuousAt (x := 0)
  have c5 := (sgB_cont n R S T).continuousAt (x := 0)
  have c6 := (sgA_cont n R S T).continuousAt (x := 0)
  have c7 := c4.div c5 (sgB_zero_pos hn hR hS h1 h2 hT).ne'
  unfold sgF
  exact (((continuousAt_const.sub c1).add (c2.mul c3)).sub continuousAt_const).add (c7.mul c6)

end axis

/-- Snell's law from the components. -/
theorem refracted_of_components {k d e : V3 ℝ} {η₁ η₂ q : ℝ} (h1 : 0 < η₁) (h2 : 0 < η₂) (hk : dot k k = 1) (hd : dot d d = 1)
    (hq : q ^ 2 = 1 - (η₁ / η₂) ^ 2 * (1 - dot d k ^ 2)) (hs : 0 ≤ dot d k * q)
    (he : e = (η₁ / η₂) * d + (q - η₁ / η₂ * dot d k) * k) :
    Refracted η₁ η₂ k.toE d.toE e.toE ∧ dot e e = 1 ∧ dot e k = q := by
  have hek : dot e k = q := by
    rw [he, dot_add_left, dot_smul_left, dot_smul_left, hk]; ring
  have hee : dot e e = 1 := by
    rw [he]
    simp only [dot_add_left, dot_add_right, dot_smul_left, dot_smul_right, hd, hk, dot_comm k d]
    linear_combination hq
  refine ⟨⟨by rw [norm_toE, norm_eq_one_iff]; exact hee, ?_, by rw [inner_toE, inner_toE, hek]; exact hs⟩, hee, hek⟩
  simp only [tangential, inner_toE, hek]
  simp only [← toE_smul, ← toE_sub]
  congr 1
  rw [he]
  ext <;> simp only [add_x, add_y, add_z, sub_x, sub_y, sub_z, smul_x, smul_y, smul_z] <;> field_simp <;> ring

end Optics
