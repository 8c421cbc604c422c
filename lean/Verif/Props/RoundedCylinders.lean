import Verif.Lemmas.CylinderScript
/-!
# C115: infinite cylinders with rounded arithmetic

C20 and C83 say what `InfiniteCylinder.test_intersect` and `test_point` find with exact arithmetic.  Both turn the cylinder upright
with a matrix computed by `rotation_matrix2`, whose error C113 bounds.
-/

namespace Optics
open V3

variable {R : Rounding} {C P a D : V3 ℝ} {ρ t h A L q : ℝ} {c : InfiniteCylinder (Fl R)}

/-- C115: with rounding, `test_intersect` of a cylinder of radius `ρ` with axis `a` through `C`, for a ray from `P` in the
direction `D`.  `CylinderAhead` says that the ray comes from outside and meets the cylinder after the distance `t`, not too
obliquely.  Then two points are reported; the first is within `8100 u L² / (q A h)` of the exact point, and the normal there is within
`17000 u L² / (q A h ρ)` of the exact one, which points at the axis.  `q` is one plus the cosine of the angle between the axis and
the z direction: for an axis nearly opposite to z the accuracy is lost. -/
theorem C115_hit (hR : Proper R) (ha : SaneLength a) (hD : SaneLength D) (hP : Rep R P) (hC : Rep R (-C))
    (hc : InfiniteCylinder.new (C.fl : V3 (Fl R)) a.fl (some (Fl.fin ρ)) none = .ok c)
    (hq : q = 1 + inner ℝ a.dirE (⟨0, 0, 1⟩ : V3 ℝ).toE) (H : CylinderAhead R C P D.dirE a.dirE ρ t h A L q)
    (wavelength order : Fl R) (type : String) :
    ∃ (P₀ n₀ : V3 ℝ) (P₁ n₁ : V3 (Fl R)),
      c.testIntersect (Ray.new P.fl D.fl wavelength order type) = .ok (Hit6.two P₀.fl P₁ n₀.fl n₁ 2) ∧
      ‖P₀.toE - (P.toE + t • D.dirE)‖ ≤ 8100 * (R.u * L ^ 2 / (q * A * h)) ∧
      ‖n₀.toE - (1 / ρ) • across a.dirE (C.toE - (P.toE + t • D.dirE))‖ ≤ 17000 * (R.u * L ^ 2 / (q * A * h)) / ρ := by
  obtain ⟨ω, hω⟩ : ∃ ω, ω = 1000 * R.u / q := ⟨_, rfl⟩
  obtain ⟨E, hE⟩ : ∃ E, E = ω * L ^ 2 / (A * h) := ⟨_, rfl⟩
  obtain ⟨N, hN⟩ : ∃ N, N = 1001 / 1000 * (L / ρ) := ⟨_, rfl⟩
  obtain ⟨-, -, A0, A1, -, ρL, hρ', -, -, -⟩ := H.exact
  obtain ⟨uω, s1, s2, ω1, ω0, uq, uA⟩ := H.scale hω
  obtain ⟨Et, Eh, uE, E0, -, uL, EL⟩ := H.units hω hE
  have hu := R.u_pos
  have L1 := H.one
  have hh := H.steep
  have hρ : 0 < ρ := by linarith
  have hq0 := H.qpos
  obtain ⟨a', σ, M, W, η, a'', hca, ea', F, G⟩ := cylinder_frame hR ha hC hc H.thick (ρL.trans H.range) hq uq H.qtop
  rw [← hω] at G
  obtain ⟨d, hd, ed⟩ := unitVector_near (R := R) hD
  obtain ⟨x₀, x₁, hit, ex, -, -, -⟩ := F.first hR H hω hN G ed hP (ray := Ray.new P.fl D.fl wavelength order type) rfl hd
  rw [← hE] at ex
  obtain ⟨P₀, hP₀, eP₀, -⟩ := H.walk hω hE ed ex
  obtain ⟨p, n, hn, sp, en, ep⟩ := H.normal hω hE F.center hca ea' eP₀
  have hpos : (Ray.new (P.fl : V3 (Fl R)) D.fl wavelength order type).position + (Fl.fin x₀ : Fl R) *
      (Ray.new (P.fl : V3 (Fl R)) D.fl wavelength order type).direction = P₀.fl := by
    rw [← hP₀, ← hd]; rfl
  rw [hpos, hn] at hit
  have E1 : E = 1000 * (R.u * L ^ 2 / (q * A * h)) := by rw [hE, hω]; field_simp
  refine ⟨P₀, n, _, _, hit, by rw [E1] at eP₀; linarith, ?_⟩
  have np : ‖across a.dirE (C.toE - (P.toE + t • D.dirE))‖ = ρ := by
    rw [← H.on, show C.toE - (P.toE + t • D.dirE) = (-1 : ℝ) • (P.toE + t • D.dirE - C.toE) by rw [neg_one_smul]; abel, across_smul,
      _root_.norm_smul]; simp
  have h1 := dirE_stretched np hρ sp.pos ep
  have h2 := norm_add_le (n.toE - p.dirE) (p.dirE - (1 / ρ) • across a.dirE (C.toE - (P.toE + t • D.dirE)))
  rw [sub_add_sub_cancel] at h2
  have h3 : 5 * R.u ≤ 2 / 10 * E / ρ := by
    rw [le_div_iff₀ hρ]
    have := mul_le_mul_of_nonneg_left ρL hu.le
    linarith
  have h4 : 17000 * (R.u * L ^ 2 / (q * A * h)) / ρ = 17 * E / ρ := by rw [E1]; ring
  have h5 : 17 * E / ρ = 2 * (84 / 10 * E) / ρ + 2 / 10 * E / ρ := by ring
  rw [h4, h5]; linarith

/-- C115: with rounding, `test_point`.  A point whose distance from the axis is less than the radius, by a margin, is inside; one
whose distance is greater, by the same margin, is outside. -/
theorem C115_point (hR : Proper R) (ha : SaneLength a) {p : V3 ℝ} (hp : Rep R p) (hC : Rep R (-C))
    (hc : InfiniteCylinder.new (C.fl : V3 (Fl R)) a.fl (some (Fl.fin ρ)) none = .ok c) (hρ : 1 / 10 ^ 10 ≤ ρ)
    (hq : q = 1 + inner ℝ a.dirE (⟨0, 0, 1⟩ : V3 ℝ).toE) (hq' : 2 * 10 ^ 7 * R.u ≤ q)
    {X : ℝ} (hX : ‖p.toE - C.toE‖ ≤ X) (hρX : ρ ≤ X) (h1 : 1 ≤ X) (hX' : X ≤ 10 ^ 30) :
    (‖across a.dirE (p.toE - C.toE)‖ ^ 2 + 1200 * (R.u * X ^ 2 / q) ≤ ρ ^ 2 → c.testPoint p.fl = .ok true) ∧
    (ρ ^ 2 + 1200 * (R.u * X ^ 2 / q) ≤ ‖across a.dirE (p.toE - C.toE)‖ ^ 2 → c.testPoint p.fl = .ok false) := by
  have hu := R.u_pos
  have hus := (five_u (R := R)).2
  have na : ‖a.dirE‖ = 1 := dirE_norm ha.pos
  have z1 : ‖(⟨0, 0, 1⟩ : V3 ℝ).toE‖ = 1 := by rw [norm_toE]; simp [V3.norm, dot]
  have q0 : 0 < q := lt_of_lt_of_le (by positivity) hq'
  have hq2 : q ≤ 2 := by
    have := (le_abs_self _).trans (abs_real_inner_le_norm a.dirE (⟨0, 0, 1⟩ : V3 ℝ).toE)
    rw [na, z1] at this
    linarith
  obtain ⟨a', σ, M, W, η, a'', -, -, F, G⟩ := cylinder_frame hR ha hC hc hρ (hρX.trans hX') hq hq' hq2
  obtain ⟨ω, hω⟩ : ∃ ω, ω = 1000 * R.u / q := ⟨_, rfl⟩
  rw [← hω] at G
  have uω : 500 * R.u ≤ ω := by
    rw [hω, le_div_iff₀ q0]
    have := mul_le_mul_of_nonneg_left hq2 hu.le
    linarith
  have ω1 : ω ≤ 1 / 20000 := by rw [hω, div_le_iff₀ q0]; norm_num at hq'; linarith
  obtain ⟨hτ, slo, shi⟩ := F.sigma hR
  have hσ : 0 < σ := lt_of_lt_of_le (by positivity) slo
  have hρ0 := F.rpos
  obtain ⟨x, y, hx, hy, ex, ey⟩ := F.point hR hp hX h1 (hX'.trans (by norm_num))
  -- the exact distance from the axis
  obtain ⟨g, hg⟩ : ∃ g, g = ‖across a.dirE (p.toE - C.toE)‖ ^ 2 := ⟨_, rfl⟩
  have g0 : 0 ≤ g := by rw [hg]; positivity
  have gX : g ≤ X ^ 2 := by
    rw [hg]; exact pow_le_pow_left₀ (_root_.norm_nonneg _) ((across_le na _).trans hX) 2
  have hG := G (p - C) (p - C)
  rw [toE_sub, ← across_norm na, ← hg] at hG
  have hXX : ‖p.toE - C.toE‖ * ‖p.toE - C.toE‖ ≤ X ^ 2 := by
    rw [sq]; exact mul_le_mul hX hX (_root_.norm_nonneg _) (by linarith)
  have ω0 : 0 < ω := by linarith
  have hG' : |gram M (p - C) (p - C) - g| ≤ ω * X ^ 2 := hG.trans (mul_le_mul_of_nonneg_left hXX ω0.le)
  -- in units of the radius
  obtain ⟨Y, hY⟩ : ∃ Y, Y = X / ρ := ⟨_, rfl⟩
  have eY : Y * ρ = X := by rw [hY]; field_simp
  have Y1 : 1 ≤ Y := by rw [hY, le_div_iff₀ hρ0]; linarith
  have Y2 : 1 ≤ Y ^ 2 := one_le_pow₀ Y1
  have Ytop : Y ≤ 10 ^ 40 := by
    rw [hY, div_le_iff₀ hρ0]
    have := mul_le_mul_of_nonneg_left hρ (show (0 : ℝ) ≤ 10 ^ 40 by positivity)
    norm_num at *; linarith
  have τ' := abs_le.mp hτ
  have σX : σ * X ≤ 1001 / 1000 * Y := by
    rw [← eY, show σ * (Y * ρ) = σ * ρ * Y by ring]
    exact mul_le_mul_of_nonneg_right (by linarith) (by linarith)
  obtain ⟨Γ, hΓ⟩ : ∃ Γ, Γ = g / ρ ^ 2 := ⟨_, rfl⟩
  have eΓ : Γ * ρ ^ 2 = g := by rw [hΓ]; field_simp
  have ρ2 : 0 < ρ ^ 2 := by positivity
  have hform : |σ ^ 2 * gram M (p - C) (p - C) - Γ| ≤ 101 / 100 * (ω * Y ^ 2) := by
    refine le_of_mul_le_mul_right ?_ ρ2
    rw [← abs_of_pos ρ2, ← abs_mul, abs_of_pos ρ2, sub_mul, eΓ,
      show 101 / 100 * (ω * Y ^ 2) * ρ ^ 2 = 101 / 100 * (ω * (Y * ρ) ^ 2) by ring, eY]
    obtain ⟨τ, hτd⟩ : ∃ τ, τ = σ * ρ := ⟨_, rfl⟩
    rw [show σ ^ 2 * gram M (p - C) (p - C) * ρ ^ 2 = (σ * ρ) ^ 2 * gram M (p - C) (p - C) by ring, ← hτd]
    rw [← hτd] at hτ τ'
    have h8 := abs_add_le (τ ^ 2 * (gram M (p - C) (p - C) - g)) ((τ ^ 2 - 1) * g)
    rw [show τ ^ 2 * (gram M (p - C) (p - C) - g) + (τ ^ 2 - 1) * g = τ ^ 2 * gram M (p - C) (p - C) - g by ring,
      abs_mul, abs_mul, abs_of_nonneg g0, abs_of_nonneg (sq_nonneg τ)] at h8
    have τ2 : |τ ^ 2 - 1| ≤ 201 / 100 * R.u := by
      rw [show τ ^ 2 - 1 = (τ - 1) * (τ + 1) by ring, abs_mul, abs_of_nonneg (show 0 ≤ τ + 1 by linarith)]
      have := mul_le_mul hτ (show τ + 1 ≤ 20001 / 10000 by linarith) (by linarith) (by positivity)
      linarith
    have τ3 : τ ^ 2 ≤ 10001 / 10000 := by linarith [(abs_le.mp τ2).2]
    have h9 := mul_le_mul τ3 hG' (abs_nonneg _) (by norm_num)
    have h10 := mul_le_mul τ2 gX g0 (by positivity)
    have h11 := mul_le_mul_of_nonneg_right uω (show 0 ≤ X ^ 2 by positivity)
    have h12 : 0 < R.u * X ^ 2 := by positivity
    linarith
  have hform' := abs_le.mp hform
  have ωY : ω * Y ^ 2 ≤ 1 / 20000 * Y ^ 2 := mul_le_mul_of_nonneg_right ω1 (by positivity)
  have ΓY : Γ ≤ Y ^ 2 := by
    refine le_of_mul_le_mul_right ?_ ρ2
    rw [eΓ, ← mul_pow, eY]; exact gX
  have uY : 500 * (R.u * Y ^ 2) ≤ ω * Y ^ 2 := by
    have := mul_le_mul_of_nonneg_right uω (show 0 ≤ Y ^ 2 by positivity)
    linarith
  have uY0 : 0 < R.u * Y ^ 2 := by positivity
  have pl : (σ * dot M.r0 (p - C)) ^ 2 + (σ * dot M.r1 (p - C)) ^ 2 = σ ^ 2 * gram M (p - C) (p - C) := by unfold gram; ring
  have N2 : (1001 / 1000 * Y) ^ 2 = 1002001 / 1000000 * Y ^ 2 := by ring
  have D : PlaneRay R (σ * dot M.r0 (p - C)) (σ * dot M.r1 (p - C)) 0 0 x y 0 0 (28 / 5 * R.u) (1001 / 1000 * Y) :=
    { dir := by norm_num
      pos := by rw [pl, N2]; linarith
      size := by linarith
      range := by norm_num at Ytop ⊢; linarith
      unit := by linarith
      small := by norm_num at hus ⊢; linarith
      ex := ex.trans (mul_le_mul_of_nonneg_left σX (by positivity))
      ey := ey.trans (mul_le_mul_of_nonneg_left σX (by positivity))
      ep := by simp; positivity
      eq := by simp; positivity }
  obtain ⟨-, -, hsum⟩ := D.exact
  rw [pl, N2] at hsum
  have hsum' := abs_le.mp hsum
  obtain ⟨z, hz, ez⟩ := dot2_near (R := R) (a := x) (b := x) (c := y) (d := y) (S := 101 / 100 * Y ^ 2)
    (by rw [abs_mul_self, abs_mul_self]; linarith) (by linarith) (by
      have := pow_le_pow_left₀ (by linarith) Ytop 2
      have : 101 / 100 * ((10 : ℝ) ^ 40) ^ 2 ≤ 10 ^ 200 := by norm_num
      linarith)
  have dz : |z - Γ| ≤ 11 / 10 * (ω * Y ^ 2) := by
    have h2 := abs_add_three (z - (x * x + y * y)) (x * x + y * y - σ ^ 2 * gram M (p - C) (p - C)) (σ ^ 2 * gram M (p - C) (p - C) - Γ)
    rw [show z - (x * x + y * y) + (x * x + y * y - σ ^ 2 * gram M (p - C) (p - C)) + (σ ^ 2 * gram M (p - C) (p - C) - Γ) = z - Γ by ring] at h2
    linarith
  have dz' := abs_le.mp dz
  have z0 : 0 ≤ z := by
    have b : Y ^ 2 ≤ 10 ^ 200 := by
      have := pow_le_pow_left₀ (by linarith) Ytop 2
      have : ((10 : ℝ) ^ 40) ^ 2 ≤ 10 ^ 200 := by norm_num
      linarith
    have b2 : 2 * (10 : ℝ) ^ 200 ≤ 10 ^ 250 := by norm_num
    obtain ⟨v, hv, -⟩ := rnd_near (R := R) (x := x * x) (e := 2 * Y ^ 2) (by
      rw [abs_mul_self]; linarith [mul_self_nonneg y]) (by linarith)
    obtain ⟨w, hw, -⟩ := rnd_near (R := R) (x := y * y) (e := 2 * Y ^ 2) (by
      rw [abs_mul_self]; linarith [mul_self_nonneg x]) (by linarith)
    have v0 : 0 ≤ v := rnd_nonneg (mul_self_nonneg x) (congrArg Fl.val hv)
    have w0 : 0 ≤ w := rnd_nonneg (mul_self_nonneg y) (congrArg Fl.val hw)
    rw [fl_mul, fl_mul, hv, hw, fl_add] at hz
    exact rnd_nonneg (add_nonneg v0 w0) (congrArg Fl.val hz)
  have h0 : ¬ (PyNum.eqb c.R 0.0 = true) := by
    rw [F.radius, fl_lit0, fl_eqb]
    simpa using hρ0.ne'
  have marg : 1200 * (R.u * X ^ 2 / q) = 12 / 10 * (ω * Y ^ 2) * ρ ^ 2 := by
    rw [show 12 / 10 * (ω * Y ^ 2) * ρ ^ 2 = 12 / 10 * (ω * (Y * ρ) ^ 2) by ring, eY, hω]; ring
  have ωY1 : ω ≤ ω * Y ^ 2 := le_mul_of_one_le_right ω0.le Y2
  have sr : Real.sqrt z ≤ 10 ^ 200 := by
    have b : Y ^ 2 ≤ ((10 : ℝ) ^ 40) ^ 2 := pow_le_pow_left₀ (by linarith) Ytop 2
    rw [Real.sqrt_le_left (by positivity)]
    have : 2 * ((10 : ℝ) ^ 40) ^ 2 ≤ (10 ^ 200) ^ 2 := by norm_num
    linarith
  obtain ⟨r, hr, er⟩ := rnd_near (R := R) (x := Real.sqrt z) (e := Real.sqrt z) (by rw [abs_of_nonneg (Real.sqrt_nonneg z)])
    (sr.trans (by norm_num))
  have run : c.testPoint p.fl = if (Fl.fin r : Fl R) < 1.0 then .ok true else .ok false := by
    unfold InfiniteCylinder.testPoint
    rw [if_neg h0]
    simp only [hx, hy, hz, fl_sqrt z z0, hr]
  rw [run, marg, hR.lit1, ← hg]
  constructor
  · intro hin
    have h2 : Γ + 12 / 10 * (ω * Y ^ 2) ≤ 1 := by
      refine le_of_mul_le_mul_right ?_ ρ2
      rw [add_mul, eΓ]; linarith
    have h3 : Real.sqrt z ≤ 1 - 20 * R.u := by
      rw [Real.sqrt_le_left (by linarith)]
      nlinarith only [dz'.2, h2, ωY1, uω, hu, hus]
    have h4 := (abs_le.mp er).2
    have h5 : R.u * (Real.sqrt z + 1 / 10 ^ 250) ≤ R.u * 2 := mul_le_mul_of_nonneg_left (by
      have : (1 : ℝ) / 10 ^ 250 ≤ 1 := by norm_num
      linarith) hu.le
    rw [if_pos ((fl_lt _ _).mpr (by linarith))]
  · intro hout
    have h2 : 1 + 12 / 10 * (ω * Y ^ 2) ≤ Γ := by
      refine le_of_mul_le_mul_right ?_ ρ2
      rw [add_mul, eΓ]; linarith
    have h3 : 1 ≤ Real.sqrt z := by
      rw [Real.le_sqrt' (by norm_num)]; linarith
    have h4 : 1 ≤ r := by
      have := R.mono _ _ h3
      rw [hR.one, show R.rnd (Real.sqrt z) = .fin r from congrArg Fl.val hr] at this
      exact this
    rw [if_neg (by rw [fl_lt]; exact not_lt.mpr h4)]

/-- The hypotheses can be met with doubles: the cylinder of script_testCylinder.py, and the central ray of that script. -/
example : ∃ (c : InfiniteCylinder D64) (P₀ n₀ : V3 ℝ) (P₁ n₁ : V3 D64),
    InfiniteCylinder.new (V3.fl ⟨0, 2, 0⟩ : V3 D64) (V3.fl ⟨0, 1, 1⟩) (some (Fl.fin 2)) none = .ok c ∧
    c.testIntersect (Ray.new (V3.fl ⟨-6, 2, 0⟩) (V3.fl ⟨1, 0, 0⟩) 532.0 0.0 "normal") = .ok (Hit6.two P₀.fl P₁ n₀.fl n₁ 2) ∧
    ‖P₀.toE - (⟨-2, 2, 0⟩ : V3 ℝ).toE‖ ≤ 1 / 10 ^ 10 ∧ c.testPoint (V3.fl ⟨0, 2, 0⟩) = .ok true := by
  have hc : InfiniteCylinder.new (V3.fl ⟨0, 2, 0⟩ : V3 D64) (V3.fl ⟨0, 1, 1⟩) (some (Fl.fin 2)) none =
      .ok ⟨V3.fl ⟨0, 2, 0⟩, Fl.fin 2, Fl.fin 2 * 2.0, unitVector (V3.fl ⟨0, 1, 1⟩)⟩ := rfl
  have hu : binary64.u = 1 / 2 ^ 53 := rfl
  obtain ⟨H, q1⟩ := script_ahead (z := 0) (by norm_num)
  have i2 : ∀ n : ℤ, |n| ≤ 2 ^ 52 → binary64.rnd n = .fin n := fun n hn => rnd64_int hn
  have repC : Rep binary64 (-⟨0, 2, 0⟩ : V3 ℝ) := script_repC
  have repP : Rep binary64 (⟨-6, 2, 0⟩ : V3 ℝ) := by
    refine ⟨?_, ?_, binary64.zero⟩
    · have := i2 (-6) (by norm_num); simpa using this
    · have := i2 2 (by norm_num); simpa using this
  have repO : Rep binary64 (⟨0, 2, 0⟩ : V3 ℝ) := by
    refine ⟨binary64.zero, ?_, binary64.zero⟩
    have := i2 2 (by norm_num); simpa using this
  obtain ⟨P₀, n₀, P₁, n₁, hit, eP, -⟩ := C115_hit binary64_proper script_axis script_dir repP repC hc rfl H 532.0 0.0 "normal"
  have s4 : Real.sqrt (4 - 0 ^ 2 / 2) = 2 := by
    rw [show (4 - 0 ^ 2 / 2 : ℝ) = 2 ^ 2 by norm_num, Real.sqrt_sq (by norm_num)]
  rw [s4] at eP
  refine ⟨_, P₀, n₀, P₁, n₁, hc, hit, ?_, ?_⟩
  · have e1 : (⟨-6, 2, 0⟩ : V3 ℝ).toE + (6 - 2 : ℝ) • (⟨1, 0, 0⟩ : V3 ℝ).dirE = (⟨-2, 2, 0⟩ : V3 ℝ).toE := by
      rw [script_dirE, ← toE_smul, ← toE_add]; congr 1; apply V3.ext <;> simp <;> norm_num
    rw [e1] at eP
    refine eP.trans ?_
    have h2 : (binary64.u * (133 / 20) ^ 2 / ((1 + inner ℝ (⟨0, 1, 1⟩ : V3 ℝ).dirE (⟨0, 0, 1⟩ : V3 ℝ).toE) * 1 * 2)) ≤ binary64.u * (133 / 20) ^ 2 / (1 * 1 * 2) :=
      div_le_div_of_nonneg_left (by rw [hu]; positivity) (by norm_num) (by linarith)
    rw [hu] at h2 ⊢
    norm_num at h2 ⊢; linarith
  · refine (C115_point binary64_proper script_axis repO repC hc (by norm_num) rfl (by rw [hu]; norm_num; linarith) (X := 2) ?_ le_rfl (by norm_num)
      (by norm_num)).1 ?_
    · simp
    · have h2 : 1200 * (binary64.u * 2 ^ 2 / (1 + inner ℝ (⟨0, 1, 1⟩ : V3 ℝ).dirE (⟨0, 0, 1⟩ : V3 ℝ).toE)) ≤ 1200 * (binary64.u * 2 ^ 2 / 1) :=
        mul_le_mul_of_nonneg_left (div_le_div_of_nonneg_left (by rw [hu]; positivity) (by norm_num) q1) (by norm_num)
      rw [hu] at h2 ⊢
      simp only [sub_self, across, inner_zero_left, zero_smul, _root_.norm_zero]
      norm_num at h2 ⊢; linarith

end Optics
