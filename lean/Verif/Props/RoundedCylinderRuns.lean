import Verif.Lemmas.CylinderRun
/-!
# C116: rays reflected by a cylinder, with rounded arithmetic

script_testCylinder.py sends rays at an infinite cylinder that reflects.  C115 bounds the errors of the point and the normal found
there.  Here the whole run is followed, with the second pass of the loop, in which the ray starts on the cylinder, up to rounding,
and must not find it again.
-/

namespace Optics
open V3

variable {R : Rounding} {C P a D : V3 ℝ} {ρ t h A L q : ℝ} {c : InfiniteCylinder (Fl R)}

/-- C116: with rounding, a ray that meets a reflecting cylinder as `CylinderAhead` says is reflected once, within
`8200 u L² / (q A h)` of the exact point and within `305 u + 84000 u L² / (q A h ρ)` of the exact law of reflection, and then flies
on: the cylinder is not found a second time. -/
theorem C116_one_reflection (hR : Proper R) (ha : SaneLength a) (hD : SaneLength D) (hP : Rep R P) (hC : Rep R (-C))
    (hc : InfiniteCylinder.new (C.fl : V3 (Fl R)) a.fl (some (Fl.fin ρ)) none = .ok c)
    (hq : q = 1 + inner ℝ a.dirE (⟨0, 0, 1⟩ : V3 ℝ).toE) (H : CylinderAhead R C P D.dirE a.dirE ρ t h A L q)
    {wavelength order index : Fl R} {type : String} (htype : type ≠ "faerie_fire")
    {md : ℝ} (hmd : R.rnd md = .fin md) (hfar : 101 / 100 * L ≤ md) (hmd' : md ≤ 10 ^ 50)
    {mi : Option Int} (hmi : ∀ k, mi = some k → 1 < k) (fuel : Nat) :
    ∃ (s : RunState (Fl R)) (P' w : V3 ℝ) (last : V3 (Fl R)),
      (Ray.new P.fl D.fl wavelength order type).run (Fl.fin md)
        [.compound ⟨Tree.new (.shape (.infiniteCylinder c)), "reflect", index⟩] mi (fuel + 3) = .finished s ∧
      s.interactions = 1 ∧ s.ray.blocked = false ∧ s.ray.pointHistory = [P.fl, P'.fl, last] ∧
      ‖P'.toE - (P.toE + t • D.dirE)‖ ≤ 8200 * (R.u * L ^ 2 / (q * A * h)) ∧
      s.ray.direction = w.fl ∧ |‖w.toE‖ - 1| ≤ 5 * R.u ∧
      ∃ r, Reflected (across a.dirE (P.toE + t • D.dirE - C.toE)) D.dirE r ∧
        ‖w.toE - r‖ ≤ 305 * R.u + 84000 * (R.u * L ^ 2 / (q * A * h)) / ρ := by
  have hu := R.u_pos
  have hus := (five_u (R := R)).2
  have L1 := H.one
  obtain ⟨d, P₀, n, P', w, x, P₁, n₁, hd, hit, hx, xlo, xhi, hP', eP', hw, hwu, hr, gone⟩ :=
    cylinder_story hR ha hD hP hC hc hq H wavelength order type
  obtain ⟨fl, f1, f2, hfl, -⟩ := fl_floor (R := R)
  have hxm : x ≤ 9911 / 10000 * md := by linarith
  -- first pass
  have step1 := compound_hit (md := Fl.fin md) (s := RunState.init (Ray.new P.fl D.fl wavelength order type) (Fl.fin md))
    (m := ⟨Tree.new (.shape (.infiniteCylinder c)), "reflect", index⟩) rfl (lone_cylinder c _ _ _ hit) htype
    (by
      show ¬ distanceBetween P.fl P₀.fl > Fl.fin md
      rw [hx]; exact not_lt.mpr (show x ≤ md by linarith))
    (by
      show distanceBetween P.fl P₀.fl > clippingFloor
      rw [hx, hfl]; exact (fl_lt _ _).mpr (by norm_num at f2; linarith))
    (by
      show PyNum.ltInf (distanceBetween P.fl P₀.fl) = true
      rw [hx]; rfl)
  simp only [RunState.init, Ray.new, hx, hd, hP', hw] at step1
  -- what remains
  have b200 : md ≤ 10 ^ 200 := hmd'.trans (by norm_num)
  obtain ⟨y, hy, ey⟩ := rnd_big (R := R) (x := md - x) (e := md) (by rw [abs_le]; constructor <;> linarith) b200
  have hy1 : y ≤ md := by
    have := R.mono (md - x) md (by linarith)
    rw [show R.rnd (md - x) = .fin y from congrArg Fl.val hy, hmd] at this
    exact this
  have hy0 : 0 < y := by
    have h1 := (abs_le.mp ey).1
    have h2 : R.u * (md + 1 / 1000) ≤ 1 / 1000000 * (md + 1 / 1000) := mul_le_mul_of_nonneg_right hus (by linarith)
    linarith
  have hrem : (Fl.fin md : Fl R) - Fl.fin x = Fl.fin y := by rw [fl_sub, hy]
  obtain ⟨z, hz, -⟩ := rnd_big (R := R) (x := y - md) (e := md) (by rw [abs_le]; constructor <;> linarith) b200
  have hz0 : z ≤ 0 := rnd_nonpos (by linarith) (congrArg Fl.val hz)
  have hrem2 : (Fl.fin y : Fl R) - Fl.fin md = Fl.fin z := by rw [fl_sub, hz]
  rw [hrem] at step1
  have hgo : ∀ (s : RunState (Fl R)) (x : ℝ), s.remaining = Fl.fin x → 0 < x → s.interactions ≤ 1 → s.ray.blocked = false →
      s.continues mi = true := by
    intro s x h1 h2 h3 h4
    have h5 : (Fl.fin x : Fl R) > 0.0 := by rw [fl_lit0]; exact (fl_lt _ _).mpr h2
    unfold RunState.continues
    rw [h1, h4, decide_eq_true h5]
    cases mi with
    | none => rfl
    | some k =>
      have := hmi k rfl
      simp only [Bool.true_and, Bool.not_false, Bool.and_true, decide_eq_true_eq]; omega
  have hneg : decide ((Fl.fin z : Fl R) > 0.0) = false := by
    rw [decide_eq_false_iff_not, fl_lit0]; exact not_lt.mpr hz0
  unfold Ray.run
  rw [show fuel + 3 = (fuel + 2) + 1 from rfl]
  unfold runLoop
  rw [if_pos (hgo _ md rfl (by linarith) (Nat.zero_le _) rfl)]
  simp only [RunState.init, Ray.new, hd, step1]
  unfold runLoop
  rw [if_pos (hgo _ y rfl hy0 (by show 0 + 1 ≤ 1; norm_num) rfl)]
  rw [compound_miss (lone_cylinder c _ _ _ (gone _ rfl rfl))]
  dsimp only
  rw [hrem2]
  unfold runLoop
  rw [if_neg (by simp only [RunState.continues, hneg, Bool.false_and, Bool.false_eq_true, not_false_eq_true])]
  exact ⟨_, P', w, _, rfl, rfl, rfl, rfl, eP', rfl, hwu, hr⟩

/-- C116: a faerie-fire ray stops there: it leaves one point, within `8200 u L² / (q A h)` of the exact surface. -/
theorem C116_faerie_fire (hR : Proper R) (ha : SaneLength a) (hD : SaneLength D) (hP : Rep R P) (hC : Rep R (-C))
    (hc : InfiniteCylinder.new (C.fl : V3 (Fl R)) a.fl (some (Fl.fin ρ)) none = .ok c)
    (hq : q = 1 + inner ℝ a.dirE (⟨0, 0, 1⟩ : V3 ℝ).toE) (H : CylinderAhead R C P D.dirE a.dirE ρ t h A L q)
    {wavelength order index : Fl R} {behavior : String} {md : ℝ} (hfar : 101 / 100 * L ≤ md)
    {mi : Option Int} (hmi : ∀ k, mi = some k → 0 < k) (fuel : Nat) :
    ∃ (s : RunState (Fl R)) (P' : V3 ℝ),
      (Ray.new P.fl D.fl wavelength order "faerie_fire").run (Fl.fin md)
        [.compound ⟨Tree.new (.shape (.infiniteCylinder c)), behavior, index⟩] mi (fuel + 2) = .finished s ∧
      s.interactions = 1 ∧ s.ray.blocked = true ∧ s.ray.pointHistory = [P.fl, P'.fl] ∧
      ‖P'.toE - (P.toE + t • D.dirE)‖ ≤ 8200 * (R.u * L ^ 2 / (q * A * h)) := by
  have L1 := H.one
  obtain ⟨d, P₀, n, P', w, x, P₁, n₁, hd, hit, hx, xlo, xhi, hP', eP', -, -, -, -⟩ :=
    cylinder_story hR ha hD hP hC hc hq H wavelength order "faerie_fire"
  obtain ⟨fl, f1, f2, hfl, -⟩ := fl_floor (R := R)
  have step1 := compound_hit_faerie (md := Fl.fin md) (s := RunState.init (Ray.new P.fl D.fl wavelength order "faerie_fire") (Fl.fin md))
    (m := ⟨Tree.new (.shape (.infiniteCylinder c)), behavior, index⟩) (lone_cylinder c _ _ _ hit) rfl
    (by
      show ¬ distanceBetween P.fl P₀.fl > Fl.fin md
      rw [hx]; exact not_lt.mpr (show x ≤ md by linarith))
    (by
      show distanceBetween P.fl P₀.fl > clippingFloor
      rw [hx, hfl]; exact (fl_lt _ _).mpr (by norm_num at f2; linarith))
    (by
      show PyNum.ltInf (distanceBetween P.fl P₀.fl) = true
      rw [hx]; rfl)
  simp only [RunState.init, Ray.new, hx, hd, hP'] at step1
  have hgo : ∀ s : RunState (Fl R), s.remaining = Fl.fin md → s.interactions = 0 → s.ray.blocked = false → s.continues mi = true := by
    intro s h1 h3 h4
    have h5 : (Fl.fin md : Fl R) > 0.0 := by rw [fl_lit0]; exact (fl_lt _ _).mpr (by linarith)
    unfold RunState.continues
    rw [h1, h3, h4, decide_eq_true h5]
    cases mi with
    | none => rfl
    | some k =>
      have := hmi k rfl
      simp only [Bool.true_and, Bool.not_false, Bool.and_true, decide_eq_true_eq]; exact_mod_cast this
  unfold Ray.run
  rw [show fuel + 2 = (fuel + 1) + 1 from rfl]
  unfold runLoop
  rw [if_pos (hgo _ rfl rfl rfl)]
  simp only [RunState.init, Ray.new, hd, step1]
  unfold runLoop
  rw [if_neg (by simp only [RunState.continues, Bool.not_true, Bool.and_false, Bool.false_eq_true, not_false_eq_true])]
  exact ⟨_, P', rfl, rfl, rfl, rfl, eP'⟩

/-- C116: script_testCylinder.py with doubles.  Each of the 21 rays before the faerie fire starts at some height `z` between -2 and 2, is
reflected once, within 1e-10 of the exact point, by the law of reflection to within 1e-9, and flies on. -/
theorem C116_script (fuel : Nat) : ∃ optics : List (Optic D64), cylinderScene = .ok optics ∧
    ∀ ray ∈ (cylinderRays : List (Ray D64)), ∃ (z : ℝ) (s : RunState D64) (P' w : V3 ℝ) (last : V3 D64),
      |z| ≤ 2 ∧ ray.position = V3.fl ⟨-6, 2, z⟩ ∧ ray.run 10.0 optics none (fuel + 3) = .finished s ∧
      s.interactions = 1 ∧ s.ray.blocked = false ∧ s.ray.pointHistory = [V3.fl ⟨-6, 2, z⟩, P'.fl, last] ∧
      ‖P'.toE - (⟨-Real.sqrt (4 - z ^ 2 / 2), 2, z⟩ : V3 ℝ).toE‖ ≤ 1 / 10 ^ 10 ∧ s.ray.direction = w.fl ∧
      ∃ r, Reflected (⟨-Real.sqrt (4 - z ^ 2 / 2), -z / 2, z / 2⟩ : V3 ℝ).toE (⟨1, 0, 0⟩ : V3 ℝ).toE r ∧ ‖w.toE - r‖ ≤ 1 / 10 ^ 9 := by
  have hp := binary64_proper
  have hu : binary64.u = 1 / 2 ^ 53 := rfl
  have e0 : (0.0 : D64) = Fl.fin 0 := fl_lit0
  have e1 := hp.lit1
  have e2 := hp.lit2
  obtain ⟨c, hc⟩ : ∃ c, InfiniteCylinder.new (V3.fl ⟨0, 2, 0⟩ : V3 D64) (V3.fl ⟨0, 1, 1⟩) (some (Fl.fin 2)) none = .ok c := ⟨_, rfl⟩
  have hscene : cylinderScene = .ok [Optic.compound ⟨Tree.new (.shape (.infiniteCylinder c)), "reflect", (1.5167 : D64)⟩] := by
    have : InfiniteCylinder.new (⟨0.0, 2.0, 0.0⟩ : V3 D64) ⟨0.0, 1.0, 1.0⟩ (some 2.0) none = .ok c := by
      rw [← hc, e0, e1, e2]; rfl
    simp only [cylinderScene, this, bind, Except.bind, pure, Except.pure]
  refine ⟨_, hscene, ?_⟩
  intro ray hray
  obtain ⟨z', hz', rfl⟩ := List.mem_map.mp hray
  obtain ⟨z, rfl, hz, rz⟩ := script_heights hz'
  obtain ⟨H, q1⟩ := script_ahead hz
  have i2 : ∀ n : ℤ, |n| ≤ 2 ^ 52 → binary64.rnd n = .fin n := fun n hn => rnd64_int hn
  have r6 : binary64.rnd (-6) = .fin (-6) := by have := i2 (-6) (by norm_num); simpa using this
  have r6' : binary64.rnd 6 = .fin 6 := by have := i2 6 (by norm_num); simpa using this
  have r10 : binary64.rnd 10 = .fin 10 := by have := i2 10 (by norm_num); simpa using this
  have repP : Rep binary64 (⟨-6, 2, z⟩ : V3 ℝ) := ⟨r6, hp.two, rz⟩
  have e6 : (-6.0 : D64) = Fl.fin (-6) := by
    have : (6.0 : D64) = Fl.fin 6 := by
      rw [fl_lit, show (OfScientific.ofScientific 60 true 1 : ℝ) = 6 by norm_num, r6']; rfl
    rw [this, fl_neg]
  have e10 : (10.0 : D64) = Fl.fin 10 := by
    rw [fl_lit, show (OfScientific.ofScientific 100 true 1 : ℝ) = 10 by norm_num, r10]; rfl
  have er : (Ray.new ⟨-6.0, 2.0, Fl.fin z⟩ ⟨1.0, 0.0, 0.0⟩ 532.0 0.0 "normal" : Ray D64) =
      Ray.new (V3.fl ⟨-6, 2, z⟩) (V3.fl ⟨1, 0, 0⟩) 532.0 0.0 "normal" := by
    rw [e6, e2, e1, e0]; rfl
  rw [er, e10]
  obtain ⟨s, P', w, last, h1, h2, h3, h4, h5, h6, -, r, h8, h9⟩ := C116_one_reflection hp script_axis script_dir repP script_repC hc rfl H
    (wavelength := 532.0) (order := 0.0) (index := 1.5167) (type := "normal") (by decide) (md := 10) r10 (by norm_num) (by norm_num)
    (mi := none) (by intro k hk; cases hk) fuel
  have hh : 14 / 10 ≤ Real.sqrt (4 - z ^ 2 / 2) := by
    have z2 : z ^ 2 ≤ 4 := by have := sq_le_sq' (abs_le.mp hz).1 (abs_le.mp hz).2; linarith
    rw [Real.le_sqrt' (by norm_num)]; linarith
  obtain ⟨g, hg⟩ : ∃ g, g = Real.sqrt (4 - z ^ 2 / 2) := ⟨_, rfl⟩
  rw [← hg] at hh h5 h8 h9
  have hX : binary64.u * (133 / 20) ^ 2 / ((1 + inner ℝ (⟨0, 1, 1⟩ : V3 ℝ).dirE (⟨0, 0, 1⟩ : V3 ℝ).toE) * 1 * g) ≤
      binary64.u * (133 / 20) ^ 2 / (14 / 10) := by
    apply div_le_div_of_nonneg_left (by rw [hu]; positivity) (by norm_num)
    rw [mul_one]
    have := mul_le_mul q1 hh (by norm_num) (by linarith)
    linarith
  rw [hu] at hX h5 h9
  have epos : (⟨-6, 2, z⟩ : V3 ℝ).toE + (6 - g) • (⟨1, 0, 0⟩ : V3 ℝ).dirE = (⟨-g, 2, z⟩ : V3 ℝ).toE := by
    rw [script_dirE, ← toE_smul, ← toE_add]; congr 1; apply V3.ext <;> simp; ring
  have enor : across (⟨0, 1, 1⟩ : V3 ℝ).dirE ((⟨-g, 2, z⟩ : V3 ℝ).toE - (⟨0, 2, 0⟩ : V3 ℝ).toE) = (⟨-g, -z / 2, z / 2⟩ : V3 ℝ).toE := by
    rw [← toE_sub]
    have : (⟨-g, 2, z⟩ - ⟨0, 2, 0⟩ : V3 ℝ) = ⟨-g, 0, z⟩ := by apply V3.ext <;> simp
    rw [this, script_across]; congr 1; apply V3.ext <;> simp
  rw [epos] at h5 h8
  rw [enor, script_dirE] at h8
  refine ⟨z, s, P', w, last, hz, rfl, h1, h2, h3, h4, ?_, h6, r, by rw [← hg]; exact h8, ?_⟩
  · rw [← hg]
    refine h5.trans ?_
    norm_num at hX ⊢; linarith
  · refine h9.trans ?_
    norm_num at hX ⊢; linarith

/-- The hypotheses of `C116_faerie_fire` can be met: a faerie-fire ray at the script's cylinder. -/
example : ∃ (c : InfiniteCylinder D64) (s : RunState D64) (P' : V3 ℝ),
    InfiniteCylinder.new (V3.fl ⟨0, 2, 0⟩ : V3 D64) (V3.fl ⟨0, 1, 1⟩) (some (Fl.fin 2)) none = .ok c ∧
    (Ray.new (V3.fl ⟨-6, 2, 1⟩) (V3.fl ⟨1, 0, 0⟩) 532.0 0.0 "faerie_fire").run (Fl.fin 10)
      [.compound ⟨Tree.new (.shape (.infiniteCylinder c)), "reflect", 1.5167⟩] none 2 = .finished s ∧
    s.ray.blocked = true ∧ s.ray.pointHistory = [V3.fl ⟨-6, 2, 1⟩, P'.fl] := by
  have hp := binary64_proper
  obtain ⟨c, hc⟩ : ∃ c, InfiniteCylinder.new (V3.fl ⟨0, 2, 0⟩ : V3 D64) (V3.fl ⟨0, 1, 1⟩) (some (Fl.fin 2)) none = .ok c := ⟨_, rfl⟩
  obtain ⟨H, -⟩ := script_ahead (z := 1) (by norm_num)
  have i2 : ∀ n : ℤ, |n| ≤ 2 ^ 52 → binary64.rnd n = .fin n := fun n hn => rnd64_int hn
  have r6 : binary64.rnd (-6) = .fin (-6) := by have := i2 (-6) (by norm_num); simpa using this
  have repP : Rep binary64 (⟨-6, 2, 1⟩ : V3 ℝ) := ⟨r6, hp.two, hp.one⟩
  obtain ⟨s, P', h1, -, h3, h4, -⟩ := C116_faerie_fire hp script_axis script_dir repP script_repC hc rfl H (wavelength := 532.0)
    (order := 0.0) (index := 1.5167) (behavior := "reflect") (md := 10) (by norm_num) (mi := none) (by intro k hk; cases hk) 0
  exact ⟨c, s, P', hc, h1, h3, h4⟩

end Optics
