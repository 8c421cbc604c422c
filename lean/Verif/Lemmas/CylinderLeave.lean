import Verif.Lemmas.CylinderNormal
import Verif.Lemmas.NearBallRun
/-!
The second pass of `InfiniteCylinder.test_intersect`, after a reflection. Used by `Props/RoundedCylinderRuns.lean`.
-/

namespace Optics
open V3

variable {R : Rounding}

/-- The roots computed for a ray that starts near the cylinder and goes away. -/
theorem cylinderRoots_leaving {A B K N : ℝ} (hR : Proper R) (N1 : 1 ≤ N) (N2 : N ≤ 10 ^ 50) (A0 : 1 / 10 ^ 95 ≤ A) (A1 : A ≤ 1001 / 1000)
    (B0 : 1 / 10 ^ 60 ≤ B) (B1 : B ≤ 2001 / 1000 * N) (K1 : |K| ≤ N ^ 2) (hs : 4 * (1001 / 1000 * |K|) + 310 * (R.u * N ^ 2) ≤ B ^ 2 / 500) :
    ∃ y₀ y₁ : ℝ, cylinderRoots (Fl.fin A : Fl R) (Fl.fin B) (Fl.fin K) = (some (Fl.fin y₀), some (Fl.fin y₁)) ∧ y₀ ≤ 0 ∧ |y₀| ≤ 10 ^ 200 ∧
      |y₁| ≤ 1002 / 1000 * (|K| / B) + 1 / 10 ^ 180 := by
  have hu := R.u_pos
  have hus := (five_u (R := R)).2
  have A0' : 0 < A := lt_of_lt_of_le (by norm_num) A0
  have B0' : 0 < B := lt_of_lt_of_le (by norm_num) B0
  have tB : (1 : ℝ) / 10 ^ 250 ≤ 1 / 1000 * B := le_trans (by norm_num) (mul_le_mul_of_nonneg_left B0 (by norm_num))
  have N50 : N ^ 2 ≤ 10 ^ 100 := by
    calc N ^ 2 ≤ (10 ^ 50) ^ 2 := pow_le_pow_left₀ (by linarith) N2 2
      _ = 10 ^ 100 := by norm_num
  have NN : N ≤ N ^ 2 := by nlinarith only [N1]
  have B200 : B ≤ 10 ^ 101 := by
    have : (2001 / 1000 : ℝ) * 10 ^ 100 ≤ 10 ^ 101 := by norm_num
    linarith
  obtain ⟨D, hD, eD⟩ := discriminant_near (R := R) (ε := 5 * R.u) (A := A) (B := B) (C := K) (A₀ := A) (B₀ := B) (C₀ := K) hR N1 N2 le_rfl
    (by have := (five_u (R := R)).1; norm_num; linarith) (by rw [sub_self, abs_zero]; positivity) (by rw [sub_self, abs_zero]; positivity)
    (by rw [sub_self, abs_zero]; positivity) (by rw [abs_of_pos A0']; exact A1) (by rw [abs_of_pos B0']; exact B1) K1
  have AK : |4 * A * K| ≤ 4 * (1001 / 1000 * |K|) := by
    rw [abs_mul, abs_of_pos (by positivity : 0 < 4 * A), mul_assoc]
    have := mul_le_mul_of_nonneg_right A1 (abs_nonneg K)
    linarith
  have e310 : 62 * (5 * R.u * N ^ 2) = 310 * (R.u * N ^ 2) := by ring
  rw [e310] at eD
  have dD : |D - B ^ 2| ≤ B ^ 2 / 500 := by
    have h1 := abs_sub (D - (B ^ 2 - 4 * A * K)) (4 * A * K)
    rw [show D - (B ^ 2 - 4 * A * K) - 4 * A * K = D - B ^ 2 by ring] at h1
    linarith
  have dD' := abs_le.mp dD
  have BB : 0 < B ^ 2 := by positivity
  have D0 : 0 < D := by linarith
  obtain ⟨r, hr⟩ : ∃ r, r = Real.sqrt D := ⟨_, rfl⟩
  have r2 : r ^ 2 = D := by rw [hr, Real.sq_sqrt D0.le]
  have r0 : 0 ≤ r := hr ▸ Real.sqrt_nonneg _
  have rlo : 9989 / 10000 * B ≤ r := le_of_sq_le_sq (by rw [mul_pow]; linarith) r0
  have rhi : r ≤ 10011 / 10000 * B := le_of_sq_le_sq (by rw [mul_pow]; linarith) (by positivity)
  have top : (10 : ℝ) ^ 101 * 1000 ≤ 10 ^ 250 := by norm_num
  obtain ⟨s, hs', es⟩ := rnd_near (R := R) (x := r) (e := 10011 / 10000 * B) (by rw [abs_of_nonneg r0]; exact rhi) (by linarith)
  have w1 : R.u * (10011 / 10000 * B + 1 / 10 ^ 250) ≤ 1 / 1000000 * (2 * B) := mul_le_mul hus (by linarith) (by positivity) (by norm_num)
  have es' := abs_le.mp es
  have eroot : PyNum.sqrt (Fl.fin D : Fl R) = Fl.fin s := by rw [fl_sqrt _ D0.le, ← hr, hs']
  have nz : |-B - s| ≤ 201 / 100 * B := by rw [abs_le]; constructor <;> linarith
  obtain ⟨z, hz, ez⟩ := rnd_near (R := R) nz (by linarith)
  have w2 : R.u * (201 / 100 * B + 1 / 10 ^ 250) ≤ 1 / 1000000 * (3 * B) := mul_le_mul hus (by linarith) (by positivity) (by norm_num)
  have ez' := abs_le.mp ez
  have zlo : z ≤ -(19985 / 10000 * B) := by linarith
  have zhi : -(202 / 100 * B) ≤ z := by linarith
  have esum : -(Fl.fin B : Fl R) - Fl.fin s = Fl.fin z := by rw [fl_neg, fl_sub, hz]
  -- 2 A
  obtain ⟨a, ha, ea⟩ := rnd_near (R := R) (x := 2 * A) (e := 2 * A) (by rw [abs_of_pos (by positivity)]) (by linarith [show (3 : ℝ) ≤ 10 ^ 250 by norm_num])
  have tA : (1 : ℝ) / 10 ^ 250 ≤ A := le_trans (by norm_num) A0
  have w3 : R.u * (2 * A + 1 / 10 ^ 250) ≤ 1 / 1000000 * (3 * A) := mul_le_mul hus (by linarith) (by positivity) (by norm_num)
  have alo : A ≤ a := by linarith [(abs_le.mp ea).1]
  have a0 : 0 < a := by linarith
  have eA : (2.0 : Fl R) * Fl.fin A = Fl.fin a := by rw [hR.lit2, fl_mul, ha]
  -- 2 K
  have K0 := abs_nonneg K
  obtain ⟨k, hk, ek⟩ := rnd_near (R := R) (x := 2 * K) (e := 2 * |K|) (by rw [abs_mul, abs_of_pos (by norm_num : (0:ℝ) < 2)]) (by
    have : (2 : ℝ) * 10 ^ 100 ≤ 10 ^ 250 := by norm_num
    linarith)
  have eK : (2.0 : Fl R) * Fl.fin K = Fl.fin k := by rw [hR.lit2, fl_mul, hk]
  obtain ⟨τ, hτ⟩ : ∃ τ : ℝ, τ = 1 / 10 ^ 250 := ⟨_, rfl⟩
  have τ0 : 0 < τ := by rw [hτ]; positivity
  have nk : |k| ≤ 2000002 / 1000000 * |K| + τ := by
    have h1 := abs_add_le (k - 2 * K) (2 * K)
    rw [sub_add_cancel, abs_mul 2 K, abs_of_pos (by norm_num : (0:ℝ) < 2)] at h1
    rw [← hτ] at ek
    have h2 : R.u * (2 * |K| + τ) ≤ 1 / 1000000 * (2 * |K| + τ) := mul_le_mul_of_nonneg_right hus (by positivity)
    linarith
  -- the first root
  have z0 : z < 0 := by linarith
  have nza : |z / a| ≤ 10 ^ 200 := by
    rw [abs_div, abs_of_neg z0, abs_of_pos a0, div_le_iff₀ a0]
    have : (10 : ℝ) ^ 200 * (1 / 10 ^ 95) ≤ 10 ^ 200 * a := mul_le_mul_of_nonneg_left (A0.trans alo) (by positivity)
    have : (10 : ℝ) ^ 101 * 3 ≤ 10 ^ 200 * (1 / 10 ^ 95) := by norm_num
    linarith
  obtain ⟨y₀, hy₀, ey₀⟩ := rnd_near (R := R) (x := z / a) (e := |z / a|) le_rfl (nza.trans (by norm_num))
  have y0 : y₀ ≤ 0 := rnd_nonpos (div_nonpos_of_nonpos_of_nonneg z0.le a0.le) (congrArg Fl.val hy₀)
  -- the second root
  have KB : 0 ≤ |K| / B := by positivity
  have nkz : |k / z| ≤ 10011 / 10000 * (|K| / B) + 1 / 10 ^ 185 := by
    have e1 : |k / z| ≤ (2000002 / 1000000 * |K| + τ) / (19985 / 10000 * B) := by
      rw [abs_div]
      exact div_le_div₀ (by positivity) nk (by positivity) (by rw [abs_of_neg z0]; linarith)
    have e2 : (2000002 / 1000000 * |K| + τ) / (19985 / 10000 * B) = 2000002 / 1998500 * (|K| / B) + 10000 / 19985 * (τ / B) := by
      field_simp; ring
    have e3 : τ / B ≤ 1 / 10 ^ 190 := by
      rw [div_le_iff₀ B0']
      refine le_trans ?_ (mul_le_mul_of_nonneg_left B0 (by positivity))
      rw [hτ]; norm_num
    rw [e2] at e1
    have e4 : (1 : ℝ) / 10 ^ 190 ≤ 1 / 10 ^ 185 := by norm_num
    have : 0 ≤ τ / B := by positivity
    linarith
  have KB1 : |K| / B ≤ 10 ^ 165 := by
    rw [div_le_iff₀ B0']
    have : (10 : ℝ) ^ 165 * (1 / 10 ^ 60) ≤ 10 ^ 165 * B := mul_le_mul_of_nonneg_left B0 (by positivity)
    have : (10 : ℝ) ^ 100 ≤ 10 ^ 165 * (1 / 10 ^ 60) := by norm_num
    linarith
  obtain ⟨y₁, hy₁, ey₁⟩ := rnd_near (R := R) nkz (by
    have : 10011 / 10000 * (10 : ℝ) ^ 165 + 1 / 10 ^ 185 ≤ 10 ^ 250 := by norm_num
    linarith)
  refine ⟨y₀, y₁, ?_, y0, ?_, ?_⟩
  · unfold cylinderRoots
    simp only [hD, eroot, esum, eA, eK]
    rw [if_pos (show (Fl.fin D : Fl R) > 0.0 by rw [fl_lit0]; exact (fl_lt _ _).mpr D0),
      if_pos (show (Fl.fin B : Fl R) ≥ 0.0 by rw [fl_lit0]; exact (fl_le _ _).mpr B0'.le), fl_div _ _ a0.ne', fl_div _ _ z0.ne, hy₀, hy₁]
  · have nza' : |z / a| ≤ 10 ^ 199 := by
      rw [abs_div, abs_of_neg z0, abs_of_pos a0, div_le_iff₀ a0]
      have : (10 : ℝ) ^ 199 * (1 / 10 ^ 95) ≤ 10 ^ 199 * a := mul_le_mul_of_nonneg_left (A0.trans alo) (by positivity)
      have : (10 : ℝ) ^ 101 * 3 ≤ 10 ^ 199 * (1 / 10 ^ 95) := by norm_num
      linarith
    have h1 := abs_add_le (y₀ - z / a) (z / a)
    rw [sub_add_cancel] at h1
    have h2 : R.u * (|z / a| + 1 / 10 ^ 250) ≤ 1 * (|z / a| + 1 / 10 ^ 250) := mul_le_mul_of_nonneg_right (by linarith) (by positivity)
    have : (10 : ℝ) ^ 199 * 2 + 1 / 10 ^ 250 ≤ 10 ^ 200 := by norm_num
    linarith
  · have h1 := abs_add_le (y₁ - k / z) (k / z)
    rw [sub_add_cancel] at h1
    obtain ⟨Q, hQ⟩ : ∃ Q, Q = |K| / B := ⟨_, rfl⟩
    have Q0 : 0 ≤ Q := by rw [hQ]; exact KB
    rw [← hQ] at ey₁ nkz ⊢
    have h2 : R.u * (10011 / 10000 * Q + 1 / 10 ^ 185 + 1 / 10 ^ 250) ≤ 1 / 1000000 * (10011 / 10000 * Q + 1 / 10 ^ 185 + 1 / 10 ^ 250) :=
      mul_le_mul_of_nonneg_right hus (by positivity)
    have : (1 : ℝ) / 10 ^ 185 + 1 / 1000000 * (1 / 10 ^ 185 + 1 / 10 ^ 250) ≤ 1 / 10 ^ 180 := by norm_num
    linarith

/-- A reflection at a normal that is known nearly, compared with the exact law of reflection. -/
theorem reflect_accurate {x e : E3} {d p w : V3 ℝ} {ρ δ : ℝ} (he : ‖e‖ = 1) (hρ : 0 < ρ) (hx : ‖x‖ = ρ) (hp : ‖p.toE - -x‖ ≤ δ)
    (hδ : 2 * δ / ρ ≤ 1 / 100) (hp0 : 0 < ‖p.toE‖) (hd : ‖d.toE - e‖ ≤ 5 * R.u) (hw : ‖w.toE - mirrorImage p d.toE‖ ≤ 300 * R.u) :
    ∃ r, Reflected x e r ∧ ‖w.toE - r‖ ≤ 305 * R.u + 10 * δ / ρ := by
  have hnx : ‖-x‖ = ρ := by rw [_root_.norm_neg, hx]
  have hn := dirE_stretched hnx hρ hp0 hp
  obtain ⟨ν, hν⟩ : ∃ ν : E3, ν = (1 / ρ) • -x := ⟨_, rfl⟩
  rw [← hν] at hn
  have hν1 : ‖ν‖ = 1 := by
    rw [hν, _root_.norm_smul, hnx, Real.norm_of_nonneg (by positivity)]; field_simp
  have hxν : x = (-ρ) • ν := by rw [hν, smul_smul, smul_neg]; field_simp; simp
  have hνν : inner ℝ ν ν = (1 : ℝ) := by rw [real_inner_self_eq_norm_sq, hν1]; norm_num
  clear hν
  have key := image_near (i := e) (I := e) (n := p.dirE) (M := ν) he hν1 (δ := 0) (by simp) hn hδ
  rw [← mirrorImage_apply hp0] at key
  refine ⟨e - (2 * inner ℝ e ν) • ν, ?_, ?_⟩
  · have hr : ∀ y : E3, inner ℝ (e - (2 * inner ℝ e ν) • ν) y = inner ℝ e y - 2 * inner ℝ e ν * inner ℝ ν y := by
      intro y
      rw [inner_sub_left, inner_smul_left]; rfl
    refine ⟨?_, ?_, ?_⟩
    · have : ‖e - (2 * inner ℝ e ν) • ν‖ ^ 2 = 1 := by
        rw [norm_sub_sq_real, _root_.norm_smul, hν1, he, inner_smul_right, Real.norm_eq_abs, mul_one, sq_abs]
        ring
      exact (pow_eq_one_iff_of_nonneg (_root_.norm_nonneg _) two_ne_zero).mp this
    · rw [he, one_mul, hr, hxν, inner_smul_right, inner_smul_right, hνν]; ring
    · intro y hy
      rw [hxν, inner_smul_right] at hy
      have hy' : inner ℝ ν y = (0 : ℝ) := by
        rw [real_inner_comm]; exact (mul_eq_zero.mp hy).resolve_left (neg_ne_zero.mpr hρ.ne')
      rw [he, one_mul, hr, hy']; ring
  · have e1 : w.toE - (e - (2 * inner ℝ e ν) • ν) = (w.toE - mirrorImage p d.toE) + mirrorImage p (d.toE - e) +
        (mirrorImage p e - (e - (2 * inner ℝ e ν) • ν)) := by
      rw [← mirrorImage_sub]; abel
    rw [e1]
    have a1 := norm_add₃_le (a := w.toE - mirrorImage p d.toE) (b := mirrorImage p (d.toE - e))
      (c := mirrorImage p e - (e - (2 * inner ℝ e ν) • ν))
    rw [mirrorImage_norm] at a1
    rw [show 10 * δ / ρ = 5 * (2 * δ / ρ) by ring]
    linarith

variable {c : InfiniteCylinder (Fl R)} {C P a' a'' : V3 ℝ} {e a : E3} {ρ σ η t h A L q ω N E : ℝ} {M W : M3 ℝ} {d : V3 ℝ}

theorem gram_abs (ha : ‖a‖ = 1) (ω1 : ω ≤ 1 / 20000)
    (G : ∀ v w : V3 ℝ, |gram M v w - inner ℝ (across a v.toE) w.toE| ≤ ω * (‖v.toE‖ * ‖w.toE‖)) (v w : V3 ℝ) :
    |gram M v w| ≤ (1 + 1 / 20000) * (‖v.toE‖ * ‖w.toE‖) := by
  have h1 := abs_add_le (gram M v w - inner ℝ (across a v.toE) w.toE) (inner ℝ (across a v.toE) w.toE)
  rw [sub_add_cancel] at h1
  have h2 := across_abs ha v.toE w.toE
  have h3 := G v w
  have h4 : ω * (‖v.toE‖ * ‖w.toE‖) ≤ 1 / 20000 * (‖v.toE‖ * ‖w.toE‖) := mul_le_mul_of_nonneg_right ω1 (by positivity)
  linarith

/-- **Where the ray lands**: how far it is from the exact point, and how well the computed quadratic vanishes there. -/
theorem CylinderAhead.landing (H : CylinderAhead R C P e a ρ t h A L q) (hω : ω = 1000 * R.u / q) (hE : E = ω * L ^ 2 / (A * h))
    (hN : N = 1001 / 1000 * (L / ρ)) (G : ∀ v w : V3 ℝ, |gram M v w - inner ℝ (across a v.toE) w.toE| ≤ ω * (‖v.toE‖ * ‖w.toE‖))
    (hσ : |σ * ρ - 1| ≤ 1001 / 1000 * R.u) (hd : ‖d.toE - e‖ ≤ 5 * R.u) {x₀ x : ℝ} (hx₀ : |x₀ - t| ≤ 8 * E)
    (hx : |x - x₀| ≤ 125 / 10 * (R.u * L)) (hAlo : 999 / 1000 * A ≤ gram M d d)
    (hres : gram M d d * |σ ^ 2 * gram M (P - C + x₀ * d) (P - C + x₀ * d) - 1| ≤ 172 * (R.u * N ^ 2))
    {P' : V3 ℝ} (hP' : ‖P'.toE - (P.toE + x • d.toE)‖ ≤ R.u * (21 / 10 * x + 11 / 10 * L)) :
    ‖P'.toE - (P.toE + t • e)‖ ≤ 82 / 10 * E ∧ ‖(P' - C).toE‖ ≤ 10005 / 10000 * L ∧
      |σ ^ 2 * gram M (P' - C) (P' - C) - 1| * A ≤ 2052 / 10 * (R.u * N ^ 2) := by
  obtain ⟨Et, Eh, uE, E0, -, uL, EL⟩ := H.units hω hE
  obtain ⟨uω, s1, s2, ω1, ω0, -, uA⟩ := H.scale hω
  obtain ⟨-, -, A0, A1, -, ρL, hρ', -, -, -⟩ := H.exact
  have hu := R.u_pos
  have hus := (five_u (R := R)).2
  have L1 := H.one
  have ht := H.ahead
  have tL := H.reach
  have hρ : 0 < ρ := lt_of_lt_of_le (by norm_num) H.thick
  have hx₀' := abs_le.mp hx₀
  have hx' := abs_le.mp hx
  have uL0 : 0 < R.u * L := by positivity
  have hdu : NearUnit R d := nearUnit_of H.unit hd
  have dn := hdu.bounds.1
  have x0L : x₀ ≤ 10005 / 10000 * L := by linarith
  have xL : x ≤ 1001 / 1000 * L := by norm_num at uL; linarith
  have ux : R.u * x ≤ 1001 / 1000 * (R.u * L) := by
    have := mul_le_mul_of_nonneg_left xL hu.le
    linarith
  have x0 : 0 < x₀ := by linarith
  -- the point found by the test, and the landing
  obtain ⟨Y, hY⟩ : ∃ Y : V3 ℝ, Y = P - C + x₀ * d := ⟨_, rfl⟩
  obtain ⟨ζ, hζ⟩ : ∃ ζ : V3 ℝ, ζ = (P' - C) - Y := ⟨_, rfl⟩
  rw [← hY] at hres
  have YE : Y.toE = P.toE + t • e - C.toE + ((x₀ - t) • d.toE + t • (d.toE - e)) := by
    rw [hY, toE_add, toE_sub, toE_smul, sub_smul, smul_sub]; abel
  have nY : ‖Y.toE - (P.toE + t • e - C.toE)‖ ≤ 802 / 100 * E := by
    rw [YE, add_sub_cancel_left]
    have h6 := norm_add_le ((x₀ - t) • d.toE) (t • (d.toE - e))
    rw [_root_.norm_smul, _root_.norm_smul, Real.norm_eq_abs, Real.norm_eq_abs, abs_of_pos (show 0 < t by linarith)] at h6
    have h7 := mul_le_mul hx₀ dn (_root_.norm_nonneg _) (by positivity)
    have h8 := mul_le_mul tL hd (_root_.norm_nonneg _) (by linarith)
    linarith
  have nζ : ‖ζ.toE‖ ≤ 158 / 10 * (R.u * L) := by
    have e1 : ζ.toE = (P'.toE - (P.toE + x • d.toE)) + (x - x₀) • d.toE := by
      rw [hζ, hY, toE_sub, toE_sub, toE_add, toE_sub, toE_smul, sub_smul]; abel
    rw [e1]
    have h1 := norm_add_le (P'.toE - (P.toE + x • d.toE)) ((x - x₀) • d.toE)
    rw [_root_.norm_smul, Real.norm_eq_abs] at h1
    have h2 := mul_le_mul hx dn (_root_.norm_nonneg _) (by positivity)
    linarith
  have eV : (P' - C).toE = Y.toE + ζ.toE := by rw [hζ, toE_sub (P' - C) Y]; abel
  have nX : ‖P'.toE - (P.toE + t • e)‖ ≤ 82 / 10 * E := by
    have e1 : P'.toE - (P.toE + t • e) = (Y.toE - (P.toE + t • e - C.toE)) + ζ.toE := by
      have : P'.toE = (P' - C).toE + C.toE := by rw [toE_sub]; abel
      rw [this, eV]; abel
    rw [e1]
    have := norm_add_le (Y.toE - (P.toE + t • e - C.toE)) ζ.toE
    linarith
  have nY' : ‖Y.toE‖ ≤ 10005 / 10000 * L := by
    have := norm_add_le (Y.toE - (P.toE + t • e - C.toE)) (P.toE + t • e - C.toE)
    rw [sub_add_cancel] at this
    linarith [H.land]
  have nV : ‖(P' - C).toE‖ ≤ 10005 / 10000 * L := by
    have e1 : (P' - C).toE = (P'.toE - (P.toE + t • e)) + (P.toE + t • e - C.toE) := by rw [toE_sub]; abel
    rw [e1]
    have := norm_add_le (P'.toE - (P.toE + t • e)) (P.toE + t • e - C.toE)
    linarith [H.land]
  refine ⟨nX, nV, ?_⟩
  have gV : gram M (P' - C) (P' - C) = gram M Y Y + (2 * gram M Y ζ + gram M ζ ζ) := by
    have e1 : P' - C = Y + ζ := by rw [hζ]; apply V3.ext <;> simp
    rw [e1, gram_add, gram_comm M Y, gram_comm M ζ, gram_add, gram_add, gram_comm M ζ Y]; ring
  have g1 := gram_abs H.axis ω1 G Y ζ
  have g2 := gram_abs H.axis ω1 G ζ ζ
  have m1 := mul_le_mul nY' nζ (_root_.norm_nonneg _) (by linarith)
  have m2 := mul_le_mul nζ nζ (_root_.norm_nonneg _) (by positivity)
  have uL2 : R.u * L * (R.u * L) ≤ 1 / 1000000 * (R.u * L * L) := by
    have h1 : R.u * L ≤ 1 / 1000000 * L := mul_le_mul_of_nonneg_right hus (by linarith)
    have := mul_le_mul_of_nonneg_left h1 uL0.le
    linarith
  have uLL : 0 < R.u * L * L := by positivity
  have gd : |2 * gram M Y ζ + gram M ζ ζ| ≤ 3165 / 100 * (R.u * L * L) := by
    refine (abs_add_le _ _).trans ?_
    rw [abs_mul, abs_of_pos (by norm_num : (0:ℝ) < 2)]
    linarith
  obtain ⟨T, hT⟩ : ∃ T, T = R.u * N ^ 2 := ⟨_, rfl⟩
  have σ2 : σ ^ 2 * (R.u * L * L) ≤ T := by
    have hσ' := abs_le.mp hσ
    have h1 : (σ * ρ) ^ 2 ≤ (1001 / 1000) ^ 2 := pow_le_pow_left₀ (by linarith) (by linarith) 2
    have h2 : (1001 / 1000) ^ 2 * (R.u * L * L) = T * ρ ^ 2 := by rw [hT, hN]; field_simp
    have h3 := mul_le_mul_of_nonneg_right h1 uLL.le
    rw [h2] at h3
    refine le_of_mul_le_mul_right ?_ (show 0 < ρ ^ 2 by positivity)
    linarith [(by ring : σ ^ 2 * (R.u * L * L) * ρ ^ 2 = (σ * ρ) ^ 2 * (R.u * L * L))]
  have T0 : 0 ≤ T := by rw [hT]; positivity
  have k1 : |σ ^ 2 * (2 * gram M Y ζ + gram M ζ ζ)| ≤ 3165 / 100 * T := by
    rw [abs_mul, abs_of_nonneg (sq_nonneg σ)]
    have := mul_le_mul_of_nonneg_left gd (sq_nonneg σ)
    linarith
  have k2 : |σ ^ 2 * gram M Y Y - 1| * A ≤ 1722 / 10 * T * (1 + 1 / 10000) := by
    rw [← hT] at hres
    have := mul_le_mul_of_nonneg_right hAlo (abs_nonneg (σ ^ 2 * gram M Y Y - 1))
    linarith
  have k3 := abs_add_le (σ ^ 2 * gram M Y Y - 1) (σ ^ 2 * (2 * gram M Y ζ + gram M ζ ζ))
  rw [show σ ^ 2 * gram M Y Y - 1 + σ ^ 2 * (2 * gram M Y ζ + gram M ζ ζ) = σ ^ 2 * gram M (P' - C) (P' - C) - 1 by rw [gV]; ring] at k3
  have k4 := mul_le_mul_of_nonneg_right k3 A0.le
  have k5 : |σ ^ 2 * (2 * gram M Y ζ + gram M ζ ζ)| * A ≤ 3165 / 100 * T * 1 := mul_le_mul k1 A1 A0.le (by positivity)
  rw [← hT]
  linarith

/-- The reflected ray goes outwards. -/
theorem CylinderAhead.outward (H : CylinderAhead R C P e a ρ t h A L q) (hω : ω = 1000 * R.u / q) (hE : E = ω * L ^ 2 / (A * h))
    (G : ∀ v w : V3 ℝ, |gram M v w - inner ℝ (across a v.toE) w.toE| ≤ ω * (‖v.toE‖ * ‖w.toE‖))
    {P' w : V3 ℝ} (hP' : ‖P'.toE - (P.toE + t • e)‖ ≤ 82 / 10 * E) (hV : ‖(P' - C).toE‖ ≤ 10005 / 10000 * L) (hw : NearUnit R w) {r : E3}
    (hr : Reflected (across a (P.toE + t • e - C.toE)) e r) (er : ‖w.toE - r‖ ≤ 305 * R.u + 84 * E / ρ) :
    99 / 100 * h ≤ gram M (P' - C) w := by
  obtain ⟨Et, Eh, uE, E0, ωE, uL, EL⟩ := H.units hω hE
  obtain ⟨uω, s1, s2, ω1, ω0, -, uA⟩ := H.scale hω
  obtain ⟨-, -, A0, A1, -, ρL, hρ', -, -, -⟩ := H.exact
  have hu := R.u_pos
  have L1 := H.one
  have hρ : 0 < ρ := lt_of_lt_of_le (by norm_num) H.thick
  have wn := hw.bounds.1
  obtain ⟨X, hX⟩ : ∃ X, X = P.toE + t • e - C.toE := ⟨_, rfl⟩
  have on := H.on
  have co := H.cosine
  rw [← hX] at hr on co
  have h1 : inner ℝ (across a X) r = h := by
    have := hr.normalReversed
    rw [H.unit, one_mul, co] at this
    rw [real_inner_comm]; linarith
  have h2 := G (P' - C) w
  have h3 : ω * (‖(P' - C).toE‖ * ‖w.toE‖) ≤ ω * (10005 / 10000 * L * (1 + 1 / 100000)) :=
    mul_le_mul_of_nonneg_left (mul_le_mul hV wn (_root_.norm_nonneg _) (by positivity)) ω0.le
  have e1 : inner ℝ (across a (P' - C).toE) w.toE - h = inner ℝ (across a ((P' - C).toE - X)) w.toE + inner ℝ (across a X) (w.toE - r) := by
    rw [across_sub, inner_sub_left, inner_sub_right, h1]; ring
  have eX : (P' - C).toE - X = P'.toE - (P.toE + t • e) := by rw [hX, toE_sub]; abel
  rw [eX] at e1
  have h4 := across_abs H.axis (P'.toE - (P.toE + t • e)) w.toE
  have h5 := mul_le_mul hP' wn (_root_.norm_nonneg _) (by positivity)
  have h6 := abs_real_inner_le_norm (across a X) (w.toE - r)
  rw [on] at h6
  have h7 := mul_le_mul_of_nonneg_left er hρ.le
  have h8 : ρ * (305 * R.u + 84 * E / ρ) = 305 * (R.u * ρ) + 84 * E := by field_simp
  have h9 := mul_le_mul_of_nonneg_left ρL hu.le
  have i1 := (abs_le.mp h2).1
  have i2 := (abs_le.mp (h4.trans h5)).1
  have i3 := (abs_le.mp h6).1
  linarith

end Optics
