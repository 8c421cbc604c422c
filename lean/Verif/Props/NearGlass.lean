import Verif.Lemmas.GlassRun

/-!
# C105: glass balls near a ray, with rounding

C102 shows that with doubles a glass ball may refract a ray twice on the way in.  Near by that does not happen.
-/

namespace Optics
open V3

variable {R : Rounding} {C P : V3 ℝ} {ρ t h L η : ℝ}

/-- The three passes, from what the sphere tests and the refractions give. -/
theorem glass_passes {P d P₀ P₁ P₁' w P₂ P₂' w₂ : V3 ℝ} {sph : Sphere (Fl R)} {l : Lens (Fl R)} (hshape : l.shape = "spherical")
    (hsurf : l.surfaces = [.sphere sph]) (hlt : l.type ≠ "ideal" ∧ l.type ≠ "ideal_collimate" ∧ l.type ≠ "ideal_focus")
    {x₀ x₁ x md y y₂ z : ℝ} {ray : Ray (Fl R)} (htype : ray.type ≠ "faerie_fire") (hrp : ray.position = P.fl)
    (hrd : ray.direction = d.fl) (hrb : ray.blocked = false)
    (hit₁ : sph.testIntersect ray = Hit6.two P₁.fl P₀.fl (sph.normal P₁.fl) (sph.normal P₀.fl) 2)
    (hx₀ : distanceBetween (P.fl : V3 (Fl R)) P₀.fl = Fl.fin x₀) (hx₁ : distanceBetween (P.fl : V3 (Fl R)) P₁.fl = Fl.fin x₁)
    (h01 : x₀ < x₁) (hx₀s : 1 / 2000 ≤ x₀) (hx₀m : x₀ ≤ md)
    (fly₁ : (P.fl : V3 (Fl R)) + (Fl.fin x₀ : Fl R) * (d.fl : V3 (Fl R)) = P₁'.fl)
    (snell₁ : snellDirection (d.fl : V3 (Fl R)) (-sph.normal P₀.fl) 1.0 l.index = .ok w.fl)
    (rem₁ : (Fl.fin md : Fl R) - Fl.fin x₀ = Fl.fin y)
    (hit₂ : ∀ ray : Ray (Fl R), ray.position = P₁'.fl → ray.direction = w.fl →
      sph.testIntersect ray = Hit6.one P₂.fl (sph.normal P₂.fl) 1)
    (hx : distanceBetween (P₁'.fl : V3 (Fl R)) P₂.fl = Fl.fin x) (hxs : 1 / 2000 ≤ x) (hxy : x ≤ y)
    (fly₂ : (P₁'.fl : V3 (Fl R)) + (Fl.fin x : Fl R) * (w.fl : V3 (Fl R)) = P₂'.fl)
    (snell₂ : snellDirection (w.fl : V3 (Fl R)) (- -sph.normal P₂.fl) l.index 1.0 = .ok w₂.fl)
    (rem₂ : (Fl.fin y : Fl R) - Fl.fin x = Fl.fin y₂) (hy₂ : 0 < y₂)
    (hit₃ : ∀ ray : Ray (Fl R), ray.position = P₂'.fl → ray.direction = w₂.fl → sph.testIntersect ray = Hit6.miss 0)
    (rem₃ : (Fl.fin y₂ : Fl R) - Fl.fin md = Fl.fin z) (hz : z ≤ 0)
    {mi : Option Int} (hmi : ∀ k, mi = some k → 2 < k) (fuel : Nat) :
    ∃ s last, ray.run (Fl.fin md) [.lens l] mi (fuel + 4) = .finished s ∧
      s.interactions = 2 ∧ s.ray.blocked = false ∧ s.ray.pointHistory = ray.pointHistory ++ [P₁'.fl] ++ [P₂'.fl] ++ [last] ∧
      s.ray.direction = w₂.fl := by
  obtain ⟨f, f1, f2, hf, -⟩ := fl_floor (R := R)
  have hgo : ∀ (s : RunState (Fl R)) (x : ℝ), s.remaining = Fl.fin x → 0 < x → s.interactions ≤ 2 → s.ray.blocked = false →
      s.continues mi = true := by
    intro s x h1 h2 h3 h4
    have h5 : (Fl.fin x : Fl R) > 0.0 := by rw [fl_lit0]; exact (fl_lt _ _).mpr h2
    unfold RunState.continues
    rw [h1, h4, decide_eq_true h5]
    cases mi with
    | none => rfl
    | some k =>
      have := hmi k rfl
      simp only [Bool.true_and, Bool.not_false, Bool.and_true, decide_eq_true_eq]; omega
  have hneg : decide ((Fl.fin z : Fl R) > 0.0) = false := by
    rw [decide_eq_false_iff_not, fl_lit0]; exact not_lt.mpr hz
  -- first pass
  have rep₁ := lens_reports_two hshape hsurf hit₁ (by rw [hrp, hx₁]; rfl) (by rw [hrp, hx₀, hx₁]; exact (fl_lt _ _).mpr h01)
  have step₁ := lens_enter (md := Fl.fin md) (s := RunState.init ray (Fl.fin md)) (w := w.fl) hlt rep₁ htype
    (by
      show ¬ distanceBetween ray.position P₀.fl > Fl.fin md
      rw [hrp, hx₀]; exact not_lt.mpr hx₀m)
    (by
      show distanceBetween ray.position P₀.fl > clippingFloor
      rw [hrp, hx₀, hf]; exact (fl_lt _ _).mpr (by linarith))
    (by
      show PyNum.ltInf (distanceBetween ray.position P₀.fl) = true
      rw [hrp, hx₀]; rfl)
    (by
      show snellDirection ray.direction _ _ _ = _
      rw [hrd]; exact snell₁)
  obtain ⟨s₁, hs₁⟩ : ∃ s₁, s₁ = lensNext l (RunState.init ray (Fl.fin md)) P₀.fl (-sph.normal P₀.fl) w.fl true := ⟨_, rfl⟩
  have p₁ : s₁.ray.position = P₁'.fl := by
    rw [hs₁]
    show ray.position + distanceBetween ray.position P₀.fl * ray.direction = _
    rw [hrp, hx₀, hrd]; exact fly₁
  have r₁ : s₁.remaining = Fl.fin y := by
    rw [hs₁]
    show Fl.fin md - distanceBetween ray.position P₀.fl = _
    rw [hrp, hx₀]; exact rem₁
  have d₁ : s₁.ray.direction = w.fl := by rw [hs₁]; rfl
  have i₁ : s₁.interactions = 1 := by rw [hs₁]; rfl
  have b₁ : s₁.ray.blocked = false := by rw [hs₁]; exact hrb
  have t₁ : s₁.ray.type ≠ "faerie_fire" := by rw [hs₁]; exact htype
  have q₁ : s₁.ray.pointHistory = ray.pointHistory ++ [P₁'.fl] := by
    rw [← p₁, hs₁]; rfl
  rw [← hs₁] at step₁
  clear hs₁
  -- second pass
  have rep₂ := lens_reports_one hshape hsurf (hit₂ s₁.ray p₁ d₁) (by rw [p₁, hx]; rfl)
  have step₂ := lens_leave (md := Fl.fin md) (s := s₁) (w := w₂.fl) hlt rep₂ t₁
    (by rw [p₁, hx, r₁]; exact not_lt.mpr hxy) (by rw [p₁, hx, hf]; exact (fl_lt _ _).mpr (by linarith))
    (by rw [p₁, hx]; rfl) (by rw [d₁]; exact snell₂)
  obtain ⟨s₂, hs₂⟩ : ∃ s₂, s₂ = lensNext l s₁ P₂.fl (-sph.normal P₂.fl) w₂.fl false := ⟨_, rfl⟩
  have p₂ : s₂.ray.position = P₂'.fl := by
    rw [hs₂]
    show s₁.ray.position + distanceBetween s₁.ray.position P₂.fl * s₁.ray.direction = _
    rw [p₁, hx, d₁]; exact fly₂
  have r₂ : s₂.remaining = Fl.fin y₂ := by
    rw [hs₂]
    show s₁.remaining - distanceBetween s₁.ray.position P₂.fl = _
    rw [p₁, hx, r₁]; exact rem₂
  have d₂ : s₂.ray.direction = w₂.fl := by rw [hs₂]; rfl
  have i₂ : s₂.interactions = 2 := by
    rw [hs₂]
    show s₁.interactions + 1 = 2
    rw [i₁]
  have b₂ : s₂.ray.blocked = false := by rw [hs₂]; exact b₁
  have q₂ : s₂.ray.pointHistory = ray.pointHistory ++ [P₁'.fl] ++ [P₂'.fl] := by
    rw [← q₁, ← p₂, hs₂]; rfl
  rw [← hs₂] at step₂
  clear hs₂
  -- third pass
  have step₃ := lens_gone (md := Fl.fin md) (s := s₂) (lens_misses hshape hsurf (hit₃ s₂.ray p₂ d₂))
  have r₃ : (missNext s₂ (Fl.fin md) true).remaining = Fl.fin z := by
    show s₂.remaining - Fl.fin md = _
    rw [r₂]; exact rem₃
  refine ⟨missNext s₂ (Fl.fin md) true, s₂.ray.position + s₂.remaining * s₂.ray.direction, ?_, i₂, b₂, ?_, d₂⟩
  · unfold Ray.run
    rw [show fuel + 4 = (fuel + 3) + 1 from rfl]
    unfold runLoop
    rw [if_pos (hgo _ md rfl (by linarith) (Nat.zero_le _) hrb), step₁]
    dsimp only
    unfold runLoop
    rw [if_pos (hgo _ y r₁ (by linarith) (by rw [i₁]; norm_num) b₁), step₂]
    dsimp only
    unfold runLoop
    rw [if_pos (hgo _ y₂ r₂ hy₂ (by rw [i₂]) b₂), step₃]
    dsimp only
    unfold runLoop
    rw [if_neg (by
      unfold RunState.continues
      rw [r₃, hneg, Bool.false_and, Bool.false_and]; exact Bool.false_ne_true)]
  · show s₂.ray.pointHistory ++ _ = _
    rw [q₂]

/-- C105: with rounding, a glass ball near a ray refracts it exactly twice.  The ray starts outside, in the direction `D`, and
`GlassAhead` says that its line meets the ball of radius `ρ` and index `η` after the distance `t`, not too obliquely and not too
far away.  Then the run ends after two interactions, one where the ray enters and one where it leaves; both points and the final
direction are close to those of the exact way through the ball; and then the ray flies on with nothing in its way. -/
theorem C105_two_refractions (hone : R.rnd 1 = .fin 1) {D : V3 ℝ} (hD : SaneLength D) (H : GlassAhead R C P D.dirE ρ t h L η)
    {n : Option (V3 (Fl R))} {Dia : Fl R} (hDia : Dia / 2.0 = Fl.fin ρ) {ww hh f : Option (Fl R)} {ltype : String}
    (hlt : ltype ≠ "ideal" ∧ ltype ≠ "ideal_collimate" ∧ ltype ≠ "ideal_focus") {l : Lens (Fl R)}
    (hl : Lens.new C.fl n "spherical" (some Dia) ww hh f ltype (Fl.fin η) = .ok l)
    {wavelength order : Fl R} {type : String} (htype : type ≠ "faerie_fire")
    {md : ℝ} (hmd : R.rnd md = .fin md) (hfar : 4 * L ≤ md) (hmd' : md ≤ 10 ^ 50)
    {mi : Option Int} (hmi : ∀ k, mi = some k → 2 < k) (fuel : Nat) :
    ∃ (s : RunState (Fl R)) (P₁ P₂ w : V3 ℝ) (last : V3 (Fl R)) (e₁ e₂ : E3) (k : ℝ),
      (Ray.new P.fl D.fl wavelength order type).run (Fl.fin md) [.lens l] mi (fuel + 4) = .finished s ∧
      s.interactions = 2 ∧ s.ray.blocked = false ∧ s.ray.pointHistory = [P.fl, P₁.fl, P₂.fl, last] ∧
      s.ray.direction = w.fl ∧ |‖w.toE‖ ^ 2 - 1| ≤ 1391 * R.u ∧
      ThroughGlass C.toE (P.toE + t • D.dirE) D.dirE e₁ e₂ ρ k η ∧ h ≤ k ∧
      ‖P₁.toE - (P.toE + t • D.dirE)‖ ≤ 50 * (R.u * L ^ 2 / h) ∧
      ‖P₂.toE - (P.toE + t • D.dirE + (2 * k) • e₁)‖ ≤ 5300 * (R.u * L ^ 2 / h * ρ / k) ∧
      ‖w.toE - e₂‖ ≤ 497000 * (R.u * L ^ 2 / h * ρ / (k * h)) := by
  have hu := R.u_pos
  have hη := H.glass
  obtain ⟨hshape, hlt', hidx, hsurf⟩ := ballLens_new' hl
  obtain ⟨d, hd, ed⟩ := unitVector_near (R := R) hD
  obtain ⟨ε, hε⟩ : ∃ ε, ε = R.u * L ^ 2 / h := ⟨_, rfl⟩
  obtain ⟨z1, z2, z3, z4⟩ := H.sizes
  obtain ⟨u1, u2, u3, u4, u5, u6, u7, u8⟩ := H.units hε
  have ht := H.ahead
  have hh := H.steep
  have hρ := H.radius
  have hdu : NearUnit R d := nearUnit_of H.unit ed
  have hcA := H.cosine
  obtain ⟨e₁, e₂, k, hT, s₁, s₂, he₁, he₂, hhk, hkρ, hB₁, hB₂, hcos⟩ :=
    through_glass H.unit H.on (by linarith) (by linarith) hcA hη
  obtain ⟨sph, hsph⟩ : ∃ sph : Sphere (Fl R), sph = ⟨C.fl, Dia / 2.0, Dia⟩ := ⟨_, rfl⟩
  have hsC : sph.center = C.fl := by rw [hsph]
  have hsR : sph.R = Fl.fin ρ := by rw [hsph]; exact hDia
  have hsn : ∀ p, sph.normal p = unitVector ((C.fl : V3 (Fl R)) - p) := by intro p; rw [hsph]; rfl
  obtain ⟨P₀, P₁, x₀, x₁, hit, hx₀, hx₁, h01, ex, eP₀⟩ := H.first ed hε hsC hsR
    (ray := Ray.new P.fl D.fl wavelength order type) rfl hd
  have ex' := abs_le.mp ex
  have hr50 : L ≤ 10 ^ 50 := H.range.trans (by norm_num)
  obtain ⟨P₁', hP₁', eP₁'⟩ := fly_near (R := R) (P := P) (w := d) (s := x₀) H.size z4 hr50 hdu (by linarith) (by
    have : (10 : ℝ) ^ 50 ≤ 10 ^ 100 := by norm_num
    linarith)
  obtain ⟨land, hrad⟩ := H.landing ed hε ex eP₁'
  obtain ⟨w, hw, ew, hwl⟩ := H.enter hone ed hε (P₀ := P₀) (by linarith) s₁ hT.chord hhk hkρ
  have hcross := fun (ray : Ray (Fl R)) (h1 : ray.position = P₁'.fl) (h2 : ray.direction = w.fl) =>
    H.cross hε ew hwl he₁ hT.chord hhk hkρ (by linarith) hrad hsC hsR h1 h2
  obtain ⟨P₂, P₂', x, hit₂, hx, hxs, hxρ, hP₂', eP₂, eP₂', hrad₂⟩ :=
    hcross { Ray.new P.fl D.fl wavelength order type with position := P₁'.fl, direction := w.fl } rfl rfl
  have hit₂' : ∀ ray : Ray (Fl R), ray.position = P₁'.fl → ray.direction = w.fl →
      sph.testIntersect ray = Hit6.one P₂.fl (sph.normal P₂.fl) 1 := by
    intro ray h1 h2
    rw [← hit₂]
    unfold Sphere.testIntersect
    simp only [h1, h2]
  obtain ⟨w₂, hw₂, ew₂, hw₂l⟩ := H.exit hone hε ew hwl he₁ hhk hkρ hT.on hB₁ hB₂ hcos s₂ eP₂
  obtain ⟨y, hy, hym, hyl⟩ := left_over (R := R) (a := md) (x := x₀) hmd hmd' le_rfl (by linarith) (by linarith)
  obtain ⟨y₂, hy₂, hy₂m, hy₂l⟩ := left_over (R := R) (a := y) (x := x) hmd hmd' hym (by linarith) (by linarith)
  have hy₂0 : 0 < y₂ := by linarith
  obtain ⟨z, hz, -⟩ := rnd_big (R := R) (x := y₂ - md) (e := md) (by rw [abs_le]; constructor <;> linarith)
    (hmd'.trans (by norm_num))
  have hz0 : z ≤ 0 := rnd_nonpos (by linarith) (congrArg Fl.val hz)
  obtain ⟨s, last, hs, hi, hb, hp, hdir⟩ := glass_passes (l := l) hshape (by rw [hsurf, hsph]) (by rw [hlt']; exact hlt)
    (ray := Ray.new P.fl D.fl wavelength order type) (mi := mi)
    htype rfl hd rfl hit hx₀ hx₁ h01 (by linarith) (by linarith) hP₁' (by rw [hsn, fl_lit1 hone, hidx]; exact hw) hy
    hit₂' hx hxs (by linarith) hP₂' (by rw [hsn, fl_lit1 hone, hidx]; exact hw₂) hy₂ hy₂0
    (fun ray h1 h2 => H.gone hε hhk hkρ ew₂ hw₂l hT.on hB₂ eP₂' hrad₂ hsC hsR h1 h2)
    (by rw [fl_sub, hz]) hz0 hmi fuel
  rw [← hε]
  exact ⟨s, P₁', P₂', w₂, last, e₁, e₂, k, hs, hi, hb, hp, hdir, hw₂l, hT, hhk, by linarith, eP₂', ew₂⟩

/-- The hypotheses can be met with doubles: a ball of diameter 25 and index 1.5 at `(10, 0, 40)`, and the ray from the origin
along the z axis, which meets it at an angle of 53 degrees. -/
example : ∃ (l : Lens D64) (s : RunState D64),
    Lens.new (V3.fl ⟨10, 0, 40⟩) none "spherical" (some (Fl.fin 25)) none none none "normal" (Fl.fin (3 / 2)) = .ok l ∧
    (Ray.new (V3.fl ⟨0, 0, 0⟩) (V3.fl ⟨0, 0, 1⟩) 532.0 0.0 "normal").run (Fl.fin 200) [.lens l] none 4 = .finished s ∧
    s.interactions = 2 := by
  have hu : binary64.u = 1 / 2 ^ 53 := rfl
  have hz : ‖(⟨0, 0, 1⟩ : V3 ℝ).toE‖ = 1 := by rw [norm_toE]; simp [V3.norm, dot]
  have hdir : (⟨0, 0, 1⟩ : V3 ℝ).dirE = (⟨0, 0, 1⟩ : V3 ℝ).toE := by
    unfold V3.dirE; rw [hz, div_one, one_smul]
  have hpt : (⟨0, 0, 0⟩ : V3 ℝ).toE + (65 / 2 : ℝ) • (⟨0, 0, 1⟩ : V3 ℝ).toE = (⟨0, 0, 65 / 2⟩ : V3 ℝ).toE := by
    rw [← toE_smul, ← toE_add]; congr 1; apply V3.ext <;> simp
  have H : GlassAhead binary64 ⟨10, 0, 40⟩ ⟨0, 0, 0⟩ (⟨0, 0, 1⟩ : V3 ℝ).dirE (25 / 2) (65 / 2) (15 / 2) 42 (3 / 2) := by
    rw [hdir]
    refine ⟨⟨hz, ?_, ?_, by norm_num, by norm_num, by norm_num, ?_, ?_, by norm_num, by rw [hu]; norm_num⟩, by norm_num,
      by norm_num, by rw [hu]; norm_num, by rw [hu]; norm_num⟩
    · rw [hpt, ← toE_sub, norm_toE]
      simp only [V3.norm, dot, real_sqrt, sub_x, sub_y, sub_z]
      rw [show ((0 - 10) * (0 - 10) + (0 - 0) * (0 - 0) + (65 / 2 - 40) * (65 / 2 - 40) : ℝ) = (25 / 2) ^ 2 by norm_num,
        Real.sqrt_sq (by norm_num)]
    · rw [hpt, ← toE_sub, inner_toE]; simp [dot]; norm_num
    · rw [norm_toE]; simp [V3.norm, dot]
    · rw [← toE_sub, norm_toE]
      simp only [V3.norm, dot, real_sqrt, sub_x, sub_y, sub_z]
      rw [Real.sqrt_le_left (by norm_num)]; norm_num
  have h25 : (Fl.fin 25 : D64) / 2.0 = Fl.fin (25 / 2) := by
    have h2 : binary64.rnd 2 = .fin 2 := by
      have := rnd64_dyE (x := 2) (m := 2) (e := 0) (by norm_num) (by norm_num) (by norm_num) (by norm_num)
      show rnd64 2 = _
      rw [this]; norm_num
    have h3 : binary64.rnd (25 / 2) = .fin (25 / 2) := by
      have := rnd64_dyE (x := 25 / 2) (m := 25) (e := -1) (by norm_num) (by norm_num) (by norm_num) (by norm_num)
      show rnd64 (25 / 2) = _
      rw [this]; norm_num
    rw [fl_lit, show (OfScientific.ofScientific 20 true 1 : ℝ) = 2 by norm_num, h2]
    show (Fl.fin 25 : D64) / Fl.fin 2 = _
    rw [fl_div _ _ (by norm_num), h3]; rfl
  have h200 : binary64.rnd 200 = .fin 200 := by
    have := rnd64_dyE (x := 200) (m := 200) (e := 0) (by norm_num) (by norm_num) (by norm_num) (by norm_num)
    show rnd64 200 = _
    rw [this]; norm_num
  obtain ⟨l, hl⟩ : ∃ l, Lens.new (V3.fl ⟨10, 0, 40⟩ : V3 D64) none "spherical" (some (Fl.fin 25)) none none none "normal"
      (Fl.fin (3 / 2)) = .ok l := ⟨_, rfl⟩
  obtain ⟨s, -, -, -, -, -, -, -, hs, hi, -⟩ := C105_two_refractions (R := binary64) binary64_one (D := ⟨0, 0, 1⟩)
    (sane_of_near (by rw [hz]; norm_num)) H h25 (by decide) hl (wavelength := 532.0) (order := 0.0) (type := "normal") (by decide)
    (md := 200) h200 (by norm_num) (by norm_num) (mi := none) (by intro k hk; cases hk) 0
  exact ⟨l, s, hl, hs, hi⟩

end Optics
