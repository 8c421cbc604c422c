import Verif.Lemmas.NearBallRun
import Verif.Lemmas.Dyadic64

/-!
# C104: mirror balls near a ray, with rounding

C101 shows that with doubles a mirror ball may be hit twice, and then leaks.  Near by that does not happen.
-/

namespace Optics
open V3

variable {R : Rounding} {C P : V3 ℝ} {e : E3} {ρ t h L : ℝ}

/-- After the reflection the sphere test finds nothing. -/
theorem BallAhead.leaves (H : BallAhead R C P e ρ t h L) {w P' : V3 ℝ} (hw : NearUnit R w) {ε : ℝ}
    (hε : ε = R.u * L ^ 2 / h) (hP' : ‖P'.toE - (P.toE + t • e)‖ ≤ 50 * ε)
    (hrad : |‖C.toE - P'.toE‖ ^ 2 - ρ ^ 2| ≤ 31 * (R.u * L ^ 2) + 67 * (R.u * L * ρ))
    (hout : inner ℝ w.toE (C.toE - (P.toE + t • e)) ≤ -h + 390 * ε)
    {s : Sphere (Fl R)} (hsC : s.center = C.fl) (hsR : s.R = Fl.fin ρ) {ray : Ray (Fl R)}
    (hp : ray.position = P'.fl) (hrd : ray.direction = w.fl) : s.testIntersect ray = Hit6.miss 0 := by
  obtain ⟨q, v, D, r, hq, hv, hD, hD0, hr', hle, hfl, hvb, hrb⟩ := H.second hw hε hP' hrad hout
  obtain ⟨z1, z2, z3, z4⟩ := H.sizes
  exact sphere_left (z2.trans H.range) hq hv hD hD0 hr' hle hfl hvb hrb hsC hsR hp hrd

/-- C104: with rounding, a mirror ball near a ray is hit exactly once.  The ray starts outside, in the direction `D`, and
`BallAhead` says that its line meets the ball of radius `ρ` after the distance `t`, not too obliquely and not too far away.
Then the run ends after one interaction; the ray is deflected within `60 R.u L² / h` of the exact point, and within
`305 R.u + 390 R.u L² / (h ρ)` of the exact law of reflection; and then it flies on with nothing in its way. -/
theorem C104_one_reflection {D : V3 ℝ} (hD : SaneLength D) (H : BallAhead R C P D.dirE ρ t h L)
    {n : Option (V3 (Fl R))} {Dia : Fl R} (hDia : Dia / 2.0 = Fl.fin ρ) {ww hh f : Option (Fl R)} {tan : Option (V3 (Fl R))}
    {dmd : Option (V3 (Fl R))} {m : Mirror (Fl R)}
    (hm : Mirror.new C.fl "circular_convex_spherical" n (some Dia) ww hh f tan "normal" dmd = .ok m)
    {wavelength order : Fl R} {type : String} (htype : type ≠ "faerie_fire")
    {md : ℝ} (hmd : R.rnd md = .fin md) (hfar : 2 * L ≤ md) (hmd' : md ≤ 10 ^ 50)
    {mi : Option Int} (hmi : ∀ k, mi = some k → 1 < k) (fuel : Nat) :
    ∃ (s : RunState (Fl R)) (P' w : V3 ℝ) (last : V3 (Fl R)),
      (Ray.new P.fl D.fl wavelength order type).run (Fl.fin md) [.mirror m] mi (fuel + 3) = .finished s ∧
      s.interactions = 1 ∧ s.ray.blocked = false ∧ s.ray.pointHistory = [P.fl, P'.fl, last] ∧
      ‖P'.toE - (P.toE + t • D.dirE)‖ ≤ 60 * (R.u * L ^ 2 / h) ∧
      s.ray.direction = w.fl ∧ |‖w.toE‖ - 1| ≤ 5 * R.u ∧
      ∃ r, Reflected (P.toE + t • D.dirE - C.toE) D.dirE r ∧ ‖w.toE - r‖ ≤ 305 * R.u + 390 * (R.u * L ^ 2 / h) / ρ := by
  have hu := R.u_pos
  have hus := (five_u (R := R)).2
  obtain ⟨hshape, hmt, hsurf⟩ := ball_new hm
  obtain ⟨d, hd, ed⟩ := unitVector_near (R := R) hD
  obtain ⟨ε, hε⟩ : ∃ ε, ε = R.u * L ^ 2 / h := ⟨_, rfl⟩
  obtain ⟨z1, z2, z3, z4⟩ := H.sizes
  obtain ⟨u1, u2, u3, u4, u5, u6, u7, u8⟩ := H.units hε
  have ht := H.ahead
  have hh := H.steep
  have hρ := H.radius
  have hdu : NearUnit R d := nearUnit_of H.unit ed
  set sph : Sphere (Fl R) := ⟨C.fl, Dia / 2.0, Dia⟩ with hsph
  obtain ⟨P₀, P₁, x₀, x₁, hit, hx₀, hx₁, hlt, ex, eP₀⟩ := H.first ed hε (s := sph) rfl hDia
    (ray := Ray.new P.fl D.fl wavelength order type) rfl hd
  have ex' := abs_le.mp ex
  have hr50 : L ≤ 10 ^ 50 := H.range.trans (by norm_num)
  obtain ⟨P', hP', eP'⟩ := fly_near (R := R) (P := P) (w := d) (s := x₀) H.size z4 hr50 hdu (by linarith) (by
    have : (10 : ℝ) ^ 50 ≤ 10 ^ 100 := by norm_num
    linarith)
  obtain ⟨land, hrad⟩ := H.landing ed hε ex eP'
  obtain ⟨c, w, ec, hw, hwu, ew⟩ := H.bounce ed hε (P₀ := P₀) (by linarith)
  have hout := H.outward ed hε ec (N := -c) (toE_neg _) ew
  obtain ⟨r, hr, er⟩ := H.accurate ed hε ec ew
  obtain ⟨fl, f1, f2, hfl, -⟩ := fl_floor (R := R)
  -- first pass
  have rep := ball_reports hshape hsurf hit (by rw [show (Ray.new P.fl D.fl wavelength order type).position = P.fl from rfl, hx₁]; rfl)
    (by rw [show (Ray.new P.fl D.fl wavelength order type).position = P.fl from rfl, hx₀, hx₁]; exact hlt)
  have step1 := single_hit (md := Fl.fin md) (s := RunState.init (Ray.new P.fl D.fl wavelength order type) (Fl.fin md)) hmt rep htype
    (by
      show ¬ distanceBetween P.fl P₀.fl > Fl.fin md
      rw [hx₀]; exact not_lt.mpr (show x₀ ≤ md by linarith))
    (by
      show distanceBetween P.fl P₀.fl > clippingFloor
      rw [hx₀, hfl]; exact (fl_lt _ _).mpr (by linarith))
    (by
      show PyNum.ltInf (distanceBetween P.fl P₀.fl) = true
      rw [hx₀]; rfl)
  have hnorm : specular (d.fl : V3 (Fl R)) (-sph.normal P₀.fl) = w.fl := hw
  simp only [RunState.init, Ray.new, hx₀, hd, hP', hnorm] at step1
  -- what remains
  have b200 : md ≤ 10 ^ 200 := hmd'.trans (by norm_num)
  obtain ⟨y, hy, ey⟩ := rnd_big (R := R) (x := md - x₀) (e := md) (by rw [abs_le]; constructor <;> linarith) b200
  have hy1 : y ≤ md := by
    have := R.mono (md - x₀) md (by linarith)
    rw [show R.rnd (md - x₀) = .fin y from congrArg Fl.val hy, hmd] at this
    exact this
  have hy0 : 0 < y := by
    have h1 := (abs_le.mp ey).1
    have h2 : R.u * (md + 1 / 1000) ≤ 1 / 1000000 * (md + 1 / 1000) := mul_le_mul_of_nonneg_right hus (by linarith)
    linarith
  have hrem : (Fl.fin md : Fl R) - Fl.fin x₀ = Fl.fin y := by rw [fl_sub, hy]
  obtain ⟨z, hz, -⟩ := rnd_big (R := R) (x := y - md) (e := md) (by rw [abs_le]; constructor <;> linarith) b200
  have hz0 : z ≤ 0 := rnd_nonpos (by linarith) (congrArg Fl.val hz)
  have hrem2 : (Fl.fin y : Fl R) - Fl.fin md = Fl.fin z := by rw [fl_sub, hz]
  rw [hrem] at step1
  -- second pass
  have leaves : ∀ ray : Ray (Fl R), ray.position = P'.fl → ray.direction = w.fl → sph.testIntersect ray = Hit6.miss 0 :=
    fun ray h1 h2 => H.leaves hwu hε (by linarith) hrad hout rfl hDia h1 h2
  have hgo : ∀ (s : RunState (Fl R)) (x : ℝ), s.remaining = Fl.fin x → 0 < x → s.interactions ≤ 1 → s.ray.blocked = false →
      s.continues mi = true := by
    intro s x h1 h2 h3 h4
    have h5 : (Fl.fin x : Fl R) > 0.0 := by rw [fl_lit0]; exact (fl_lt _ _).mpr h2
    unfold RunState.continues
    rw [h1, h4, decide_eq_true h5]
    cases mi with
    | none => rfl
    | some k =>
      have := hmi k rfl
      simp only [Bool.true_and, Bool.not_false, Bool.and_true, decide_eq_true_eq]; omega
  have hneg : decide ((Fl.fin z : Fl R) > 0.0) = false := by
    rw [decide_eq_false_iff_not, fl_lit0]; exact not_lt.mpr hz0
  unfold Ray.run
  rw [show fuel + 3 = (fuel + 2) + 1 from rfl]
  unfold runLoop
  rw [if_pos (hgo _ md rfl (by linarith) (Nat.zero_le _) rfl)]
  simp only [RunState.init, Ray.new, hd, step1]
  unfold runLoop
  rw [if_pos (hgo _ y rfl hy0 (by show 0 + 1 ≤ 1; norm_num) rfl)]
  rw [single_miss (ball_misses hshape hsurf (leaves _ rfl rfl))]
  dsimp only
  rw [hrem2]
  unfold runLoop
  rw [if_neg (by simp only [RunState.continues, hneg, Bool.false_and, Bool.false_eq_true, not_false_eq_true])]
  refine ⟨_, P', w, _, rfl, rfl, rfl, rfl, ?_, rfl, hwu, r, hr, ?_⟩
  · rw [← hε]; linarith
  · rw [← hε]; exact er

/-- The hypotheses can be met with doubles: a ball of diameter 25, the size of those in script_testConvexSphereMirror.py, at
`(10, 0, 40)`, and the ray from the origin along the z axis, which meets it at an angle of 53 degrees. -/
example (dmd : V3 D64) : ∃ (m : Mirror D64) (s : RunState D64),
    Mirror.new (V3.fl ⟨10, 0, 40⟩) "circular_convex_spherical" none (some (Fl.fin 25)) none none none none "normal" (some dmd)
      = .ok m ∧
    (Ray.new (V3.fl ⟨0, 0, 0⟩) (V3.fl ⟨0, 0, 1⟩) 532.0 0.0 "normal").run (Fl.fin 100) [.mirror m] none 3 = .finished s ∧
    s.interactions = 1 := by
  have hu : binary64.u = 1 / 2 ^ 53 := rfl
  have hz : ‖(⟨0, 0, 1⟩ : V3 ℝ).toE‖ = 1 := by rw [norm_toE]; simp [V3.norm, dot]
  have hdir : (⟨0, 0, 1⟩ : V3 ℝ).dirE = (⟨0, 0, 1⟩ : V3 ℝ).toE := by
    unfold V3.dirE; rw [hz, div_one, one_smul]
  have hpt : (⟨0, 0, 0⟩ : V3 ℝ).toE + (65 / 2 : ℝ) • (⟨0, 0, 1⟩ : V3 ℝ).toE = (⟨0, 0, 65 / 2⟩ : V3 ℝ).toE := by
    rw [← toE_smul, ← toE_add]; congr 1; apply V3.ext <;> simp
  have H : BallAhead binary64 ⟨10, 0, 40⟩ ⟨0, 0, 0⟩ (⟨0, 0, 1⟩ : V3 ℝ).dirE (25 / 2) (65 / 2) (15 / 2) 42 := by
    rw [hdir]
    refine ⟨hz, ?_, ?_, by norm_num, by norm_num, by norm_num, ?_, ?_, by norm_num, by rw [hu]; norm_num⟩
    · rw [hpt, ← toE_sub, norm_toE]
      simp only [V3.norm, dot, real_sqrt, sub_x, sub_y, sub_z]
      rw [show ((0 - 10) * (0 - 10) + (0 - 0) * (0 - 0) + (65 / 2 - 40) * (65 / 2 - 40) : ℝ) = (25 / 2) ^ 2 by norm_num,
        Real.sqrt_sq (by norm_num)]
    · rw [hpt, ← toE_sub, inner_toE]; simp [dot]; norm_num
    · rw [norm_toE]; simp [V3.norm, dot]
    · rw [← toE_sub, norm_toE]
      simp only [V3.norm, dot, real_sqrt, sub_x, sub_y, sub_z]
      rw [Real.sqrt_le_left (by norm_num)]; norm_num
  have h25 : (Fl.fin 25 : D64) / 2.0 = Fl.fin (25 / 2) := by
    have h2 : binary64.rnd 2 = .fin 2 := by
      have := rnd64_dyE (x := 2) (m := 2) (e := 0) (by norm_num) (by norm_num) (by norm_num) (by norm_num)
      show rnd64 2 = _
      rw [this]; norm_num
    have h3 : binary64.rnd (25 / 2) = .fin (25 / 2) := by
      have := rnd64_dyE (x := 25 / 2) (m := 25) (e := -1) (by norm_num) (by norm_num) (by norm_num) (by norm_num)
      show rnd64 (25 / 2) = _
      rw [this]; norm_num
    rw [fl_lit, show (OfScientific.ofScientific 20 true 1 : ℝ) = 2 by norm_num, h2]
    show (Fl.fin 25 : D64) / Fl.fin 2 = _
    rw [fl_div _ _ (by norm_num), h3]; rfl
  have h100 : binary64.rnd 100 = .fin 100 := by
    have := rnd64_dyE (x := 100) (m := 100) (e := 0) (by norm_num) (by norm_num) (by norm_num) (by norm_num)
    show rnd64 100 = _
    rw [this]; norm_num
  obtain ⟨m, hm⟩ : ∃ m, Mirror.new (V3.fl ⟨10, 0, 40⟩ : V3 D64) "circular_convex_spherical" none (some (Fl.fin 25)) none none
      none none "normal" (some dmd) = .ok m := ⟨_, rfl⟩
  obtain ⟨s, -, -, -, hs, hi, -⟩ := C104_one_reflection (R := binary64) (D := ⟨0, 0, 1⟩)
    (sane_of_near (by rw [hz]; norm_num)) H h25 hm (wavelength := 532.0) (order := 0.0) (type := "normal") (by decide)
    (md := 100) h100 (by norm_num) (by norm_num) (mi := none) (by intro k hk; cases hk) 0
  exact ⟨m, s, hm, hs, hi⟩

end Optics
