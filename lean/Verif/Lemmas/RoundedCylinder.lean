import Verif.Lemmas.RoundedRoots
import Verif.Props.RoundedAlignment
/-!
`InfiniteCylinder` with rounded arithmetic: the transformation to object space, and the quadratic form it measures distances with.
Used by `Props/RoundedCylinders.lean`.
-/

namespace Optics
open V3

variable {R : Rounding}

/-- All components are results of rounding. -/
def Rep (R : Rounding) (v : V3 ℝ) : Prop := R.rnd v.x = .fin v.x ∧ R.rnd v.y = .fin v.y ∧ R.rnd v.z = .fin v.z

theorem rep_of {v : V3 ℝ} {a b c : ℝ} (hR : Proper R) (h : (⟨⟨R.rnd a⟩, ⟨R.rnd b⟩, ⟨R.rnd c⟩⟩ : V3 (Fl R)) = v.fl) : Rep R v := by
  unfold V3.fl at h
  injection h with h1 h2 h3
  exact ⟨hR.again _ _ (congrArg Fl.val h1), hR.again _ _ (congrArg Fl.val h2), hR.again _ _ (congrArg Fl.val h3)⟩

theorem rnd_fin {x y : ℝ} (h : R.rnd x = .fin y) : (⟨R.rnd x⟩ : Fl R) = Fl.fin y := by rw [h]; rfl

/-- Adding zeros. -/
theorem add_zeros (hR : Proper R) {a b : ℝ} (h : R.rnd a = .fin b) : (Fl.fin b : Fl R) + Fl.fin 0 = Fl.fin b := by
  rw [fl_add, add_zero, rnd_fin (hR.again _ _ h)]

theorem zero_times (x : ℝ) : (Fl.fin 0 : Fl R) * Fl.fin x = Fl.fin 0 := by rw [fl_mul, zero_mul, rnd_fin R.zero]

theorem zero_plus {x : ℝ} (h : R.rnd x = .fin x) : (Fl.fin 0 : Fl R) + Fl.fin x = Fl.fin x := by rw [fl_add, zero_add, rnd_fin h]

theorem one_times {x : ℝ} (h : R.rnd x = .fin x) : (Fl.fin 1 : Fl R) * Fl.fin x = Fl.fin x := by rw [fl_mul, one_mul, rnd_fin h]

theorem times_one {x : ℝ} (h : R.rnd x = .fin x) : (Fl.fin x : Fl R) * Fl.fin 1 = Fl.fin x := by rw [fl_mul, mul_one, rnd_fin h]

/-- The translation of `InfiniteCylinder`, applied to a point, is a subtraction. -/
theorem translated {p C : V3 ℝ} (hR : Proper R) (hp : Rep R p) (hC : Rep R (-C)) :
    M4.mulVec (translationMatrix4 (-(C.fl : V3 (Fl R)))) ((p.fl : V3 (Fl R)).hom 1.0) =
      ((p.fl : V3 (Fl R)) - C.fl).hom 1.0 := by
  obtain ⟨p1, p2, p3⟩ := hp
  obtain ⟨c1, c2, c3⟩ := hC
  simp only [neg_x, neg_y, neg_z] at c1 c2 c3
  have z0 : (Fl.fin 0 : Fl R) + Fl.fin 0 = Fl.fin 0 := by rw [fl_add, add_zero, rnd_fin R.zero]
  simp only [M4.mulVec, translationMatrix4, V3.hom, V4.dot, hR.lit1, fl_lit0, V3.fl, neg_x, neg_y, neg_z, fl_neg, zero_times,
    one_times p1, one_times p2, one_times p3, times_one c1, times_one c2, times_one c3, times_one hR.one, z0, zero_plus p2, zero_plus p3,
    zero_plus hR.one, add_zeros hR p1, add_zeros hR p2, sub_x, sub_y, sub_z, fl_sub, fl_add, sub_eq_add_neg]

/-- The rotation, applied to three components. -/
theorem turned (hR : Proper R) {m v : V3 ℝ} {w y : ℝ} (h : dot (m.fl : V3 (Fl R)) v.fl = Fl.fin y) :
    V4.dot ⟨Fl.fin m.x, Fl.fin m.y, Fl.fin m.z, 0.0⟩ ⟨Fl.fin v.x, Fl.fin v.y, Fl.fin v.z, Fl.fin w⟩ = (Fl.fin y : Fl R) := by
  have h' : (Fl.fin m.x : Fl R) * Fl.fin v.x + Fl.fin m.y * Fl.fin v.y + Fl.fin m.z * Fl.fin v.z = Fl.fin y := h
  have hy : R.rnd y = .fin y := by
    obtain ⟨a, ha⟩ : ∃ a : Fl R, a = Fl.fin m.x * Fl.fin v.x + Fl.fin m.y * Fl.fin v.y := ⟨_, rfl⟩
    rw [← ha, fl_mul] at h'
    have h2 := congrArg Fl.val h'
    have h3 : R.apply (a.val + R.rnd (m.z * v.z)) = .fin y := h2
    cases e : a.val + R.rnd (m.z * v.z) with
    | fin x => rw [e] at h3; exact hR.again _ _ h3
    | nan => rw [e] at h3; cases h3
    | inf => rw [e] at h3; cases h3
    | ninf => rw [e] at h3; cases h3
  simp only [V4.dot, fl_lit0]
  rw [h', zero_times, add_zeros hR hy]

/-- The scaling of one component. -/
theorem scaled (hR : Proper R) {σ a b c w y : ℝ} (h : R.rnd (σ * a) = .fin y) :
    V4.dot ⟨Fl.fin σ, 0.0, 0.0, 0.0⟩ ⟨Fl.fin a, Fl.fin b, Fl.fin c, Fl.fin w⟩ = (Fl.fin y : Fl R) ∧
    V4.dot ⟨0.0, Fl.fin σ, 0.0, 0.0⟩ ⟨Fl.fin b, Fl.fin a, Fl.fin c, Fl.fin w⟩ = (Fl.fin y : Fl R) := by
  have hy := hR.again _ _ h
  simp only [V4.dot, fl_lit0, zero_times]
  rw [fl_mul, rnd_fin h, add_zeros hR hy, add_zeros hR hy, add_zeros hR hy, zero_plus hy, add_zeros hR hy, add_zeros hR hy]
  exact ⟨rfl, rfl⟩

/-- What is known of a cylinder and the matrix `M` its `test_intersect` computes, `W` being the exact one. -/
structure CylinderFrame (R : Rounding) (c : InfiniteCylinder (Fl R)) (C a : V3 ℝ) (ρ σ : ℝ) (M W : M3 ℝ) (η : ℝ) : Prop where
  center : c.center = C.fl
  repc : Rep R (-C)
  radius : c.R = Fl.fin ρ
  rpos : 0 < ρ
  rtop : ρ ≤ 10 ^ 40
  rlow : 1 / 10 ^ 40 ≤ ρ
  scale : (1.0 : Fl R) / Fl.fin ρ = Fl.fin σ
  matrix : (rotationMatrix2 c.direction ⟨0.0, 0.0, 1.0⟩).1 = M.fl
  close : M.Close W η
  small : η ≤ 1 / 10 ^ 5
  turn : IsRotation W
  maps : M3.mulVec W a = ⟨0, 0, 1⟩

variable {c : InfiniteCylinder (Fl R)} {C a : V3 ℝ} {ρ σ η : ℝ} {M W : M3 ℝ}

theorem CylinderFrame.row (F : CylinderFrame R c C a ρ σ M W η) :
    ‖M.r0.toE - W.r0.toE‖ ≤ 9 / 5 * η ∧ ‖M.r1.toE - W.r1.toE‖ ≤ 9 / 5 * η ∧ ‖M.r2.toE - W.r2.toE‖ ≤ 9 / 5 * η ∧
    ‖W.r0.toE‖ = 1 ∧ ‖W.r1.toE‖ = 1 ∧ ‖W.r2.toE‖ = 1 ∧
    ‖M.r0.toE‖ ≤ 1 + 1 / 10000 ∧ ‖M.r1.toE‖ ≤ 1 + 1 / 10000 ∧ ‖M.r2.toE‖ ≤ 1 + 1 / 10000 := by
  obtain ⟨⟨x0, y0, z0⟩, ⟨x1, y1, z1⟩, ⟨x2, y2, z2⟩⟩ := F.close
  have e0 : 0 ≤ η := (abs_nonneg _).trans x0
  have hs := F.small
  obtain ⟨⟨n0, n1, n2, -, -, -⟩, -⟩ := (isRotation_iff W).mp F.turn
  have one : ∀ v : V3 ℝ, dot v v = 1 → ‖v.toE‖ = 1 := fun v h => by rw [norm_toE, norm_eq_one_iff.mpr h]
  have d0 := normE_le (v := M.r0 - W.r0) e0 x0 y0 z0
  have d1 := normE_le (v := M.r1 - W.r1) e0 x1 y1 z1
  have d2 := normE_le (v := M.r2 - W.r2) e0 x2 y2 z2
  rw [toE_sub] at d0 d1 d2
  have bound : ∀ m w : V3 ℝ, ‖m.toE - w.toE‖ ≤ 9 / 5 * η → ‖w.toE‖ = 1 → ‖m.toE‖ ≤ 1 + 1 / 10000 := by
    intro m w h1 h2
    have := norm_add_le (m.toE - w.toE) w.toE
    rw [sub_add_cancel, h2] at this
    norm_num at hs ⊢; linarith
  exact ⟨d0, d1, d2, one _ n0, one _ n1, one _ n2, bound _ _ d0 (one _ n0), bound _ _ d1 (one _ n1), bound _ _ d2 (one _ n2)⟩

theorem CylinderFrame.sigma (F : CylinderFrame R c C a ρ σ M W η) (hR : Proper R) :
    |σ * ρ - 1| ≤ 1001 / 1000 * R.u ∧ 1 / 10 ^ 41 ≤ σ ∧ σ ≤ 10 ^ 41 := by
  have hρ := F.rpos
  have hu := R.u_pos
  have hus := (five_u (R := R)).2
  have hrt := F.rtop
  have hrl := F.rlow
  have hsc := F.scale
  rw [hR.lit1, fl_div _ _ hρ.ne'] at hsc
  have hi : 1 / ρ ≤ 10 ^ 40 := by
    rw [div_le_iff₀ hρ]
    have := mul_le_mul_of_nonneg_left hrl (by positivity : (0 : ℝ) ≤ 10 ^ 40)
    rwa [mul_one_div_cancel (by positivity)] at this
  obtain ⟨y, ey, dy⟩ := rnd_near (R := R) (x := 1 / ρ) (e := 1 / ρ) (by rw [abs_of_pos (by positivity)])
    (hi.trans (pow_le_pow_right₀ (by norm_num) (by norm_num)))
  have hy : y = σ := by
    have : (Fl.fin y : Fl R) = Fl.fin σ := by rw [← ey, hsc]
    exact XR.fin.inj (congrArg Fl.val this)
  rw [hy] at dy
  have h1 : |σ * ρ - 1| ≤ 1001 / 1000 * R.u := by
    have e : σ * ρ - 1 = (σ - 1 / ρ) * ρ := by field_simp
    rw [e, abs_mul, abs_of_pos hρ]
    have h2 := mul_le_mul_of_nonneg_right dy hρ.le
    have h3 : R.u * (1 / ρ + 1 / 10 ^ 250) * ρ = R.u * (1 + ρ * (1 / 10 ^ 250)) := by field_simp
    have h4 : ρ * (1 / 10 ^ 250) ≤ 10 ^ 40 * (1 / 10 ^ 250) := mul_le_mul_of_nonneg_right hrt (by positivity)
    have h5 : (10 : ℝ) ^ 40 * (1 / 10 ^ 250) ≤ 1 / 1000 := by norm_num
    have h6 : R.u * (1 + ρ * (1 / 10 ^ 250)) ≤ R.u * (1001 / 1000) := mul_le_mul_of_nonneg_left (by linarith) hu.le
    linarith
  have h2 := abs_le.mp h1
  have hσ : 0 < σ := by
    by_contra h
    have := mul_nonpos_of_nonpos_of_nonneg (not_lt.mp h) hρ.le
    linarith
  refine ⟨h1, ?_, ?_⟩
  · have h3 : σ * ρ ≤ σ * 10 ^ 40 := mul_le_mul_of_nonneg_left hrt hσ.le
    have h4 : (1 : ℝ) / 10 ^ 41 * 10 ^ 40 = 1 / 10 := by norm_num
    have h5 : (1 : ℝ) / 10 ^ 41 * 10 ^ 40 ≤ σ * 10 ^ 40 := by rw [h4]; linarith
    exact le_of_mul_le_mul_right h5 (by positivity)
  · have h3 : σ * (1 / 10 ^ 40) ≤ σ * ρ := mul_le_mul_of_nonneg_left hrl hσ.le
    have h4 : (10 : ℝ) ^ 41 * (1 / 10 ^ 40) = 10 := by norm_num
    have h5 : σ * (1 / 10 ^ 40) ≤ 10 ^ 41 * (1 / 10 ^ 40) := by rw [h4]; linarith
    exact le_of_mul_le_mul_right h5 (by positivity)

/-- **A point in object space**, compared with the exact product with the computed matrix. -/
theorem CylinderFrame.point (F : CylinderFrame R c C a ρ σ M W η) (hR : Proper R) {p : V3 ℝ} (hp : Rep R p) {X : ℝ}
    (hX : ‖p.toE - C.toE‖ ≤ X) (h1 : 1 ≤ X) (hX' : X ≤ 10 ^ 50) :
    ∃ x y : ℝ, (c.pointToObjectSpace p.fl).x = Fl.fin x ∧ (c.pointToObjectSpace p.fl).y = Fl.fin y ∧
      |x - σ * dot M.r0 (p - C)| ≤ 28 / 5 * R.u * (σ * X) ∧ |y - σ * dot M.r1 (p - C)| ≤ 28 / 5 * R.u * (σ * X) := by
  have hu := R.u_pos
  have hus := (five_u (R := R)).2
  obtain ⟨-, -, -, -, -, -, m0, m1, m2⟩ := F.row
  obtain ⟨-, slo, shi⟩ := F.sigma hR
  have hσ : 0 < σ := lt_of_lt_of_le (by positivity) slo
  have b1 : (10 : ℝ) ^ 50 * 10 ≤ 10 ^ 200 := by norm_num
  obtain ⟨v, hv, dv⟩ := vsub_near (R := R) hX (by linarith)
  have nv : ‖v.toE‖ ≤ 10001 / 10000 * X := by
    have h2 := norm_add_le (v.toE - (p.toE - C.toE)) (p.toE - C.toE)
    rw [sub_add_cancel] at h2
    have : R.u * (X + 1 / 1000) ≤ 1 / 1000000 * (X + 1 / 1000) := mul_le_mul_of_nonneg_right hus (by linarith)
    linarith
  have key : ∀ m : V3 ℝ, ‖m.toE‖ ≤ 1 + 1 / 10000 → ∃ z, dot (m.fl : V3 (Fl R)) v.fl = Fl.fin z ∧ ∃ y, R.rnd (σ * z) = .fin y ∧
      |y - σ * dot m (p - C)| ≤ 28 / 5 * R.u * (σ * X) := by
    intro m hm
    have hmv : ‖m.toE‖ * ‖v.toE‖ ≤ 1001 / 1000 * X := by
      have := mul_le_mul hm nv (_root_.norm_nonneg _) (by norm_num)
      nlinarith only [this, h1]
    obtain ⟨z, hz, dz⟩ := dot_near' (R := R) hmv (by linarith) (by linarith)
    have e : inner ℝ m.toE (p.toE - C.toE) = dot m (p - C) := by rw [← toE_sub, inner_toE]
    have d1 : |inner ℝ m.toE v.toE - dot m (p - C)| ≤ 1002 / 1000 * (R.u * X) := by
      rw [← e, ← inner_sub_right]
      refine (abs_real_inner_le_norm _ _).trans ?_
      have h3 := mul_le_mul hm dv (_root_.norm_nonneg _) (by norm_num)
      have h4 : R.u * 1 ≤ R.u * X := mul_le_mul_of_nonneg_left h1 hu.le
      linarith
    have d2 : |z - dot m (p - C)| ≤ 451 / 100 * (R.u * X) := by
      have h3 := abs_add_le (z - inner ℝ m.toE v.toE) (inner ℝ m.toE v.toE - dot m (p - C))
      rw [sub_add_sub_cancel] at h3
      have : 0 ≤ R.u * X := by positivity
      linarith
    have nz : |z| ≤ 1002 / 1000 * X := by
      have h3 := abs_add_le (z - inner ℝ m.toE v.toE) (inner ℝ m.toE v.toE)
      rw [sub_add_cancel] at h3
      have h4 := (abs_real_inner_le_norm m.toE v.toE).trans hmv
      have : R.u * X ≤ 1 / 1000000 * X := mul_le_mul_of_nonneg_right hus (by linarith)
      linarith
    have nσz : |σ * z| ≤ 1002 / 1000 * (σ * X) := by
      rw [abs_mul, abs_of_pos hσ]
      have := mul_le_mul_of_nonneg_left nz hσ.le
      linarith
    have top : 1002 / 1000 * (σ * X) ≤ 10 ^ 250 := by
      have h3 := mul_le_mul shi hX' (by linarith) (by positivity)
      have h4 : 1002 / 1000 * ((10 : ℝ) ^ 41 * 10 ^ 50) ≤ 10 ^ 250 := by norm_num
      linarith
    obtain ⟨y, ey, dy⟩ := rnd_near (R := R) nσz top
    refine ⟨z, hz, y, congrArg Fl.val ey, ?_⟩
    have tiny : (1 : ℝ) / 10 ^ 250 ≤ 1 / 1000 * (σ * X) := by
      have h3 : (1 : ℝ) / 10 ^ 250 ≤ 1 / 1000 * (1 / 10 ^ 41) := by norm_num
      have h4 : (1 : ℝ) / 10 ^ 41 * 1 ≤ σ * X := mul_le_mul slo h1 (by norm_num) hσ.le
      linarith
    have h3 := abs_add_le (y - σ * z) (σ * (z - dot m (p - C)))
    rw [show y - σ * z + σ * (z - dot m (p - C)) = y - σ * dot m (p - C) by ring, abs_mul, abs_of_pos hσ] at h3
    have h4 := mul_le_mul_of_nonneg_left d2 hσ.le
    have h5 : R.u * (1002 / 1000 * (σ * X) + 1 / 10 ^ 250) ≤ R.u * (1003 / 1000 * (σ * X)) :=
      mul_le_mul_of_nonneg_left (by linarith) hu.le
    have h6 : 0 ≤ R.u * (σ * X) := by positivity
    linarith
  obtain ⟨z0, hz0, x, hx, dx⟩ := key M.r0 m0
  obtain ⟨z1, hz1, y, hy, dy⟩ := key M.r1 m1
  obtain ⟨z2, hz2, -⟩ := key M.r2 m2
  refine ⟨x, y, ?_, ?_, dx, dy⟩
  all_goals
    unfold InfiniteCylinder.pointToObjectSpace
    simp only [F.center, F.radius, F.scale]
    rw [translated hR hp F.repc, hv]
    have r3 : V4.dot ⟨(0.0 : Fl R), 0.0, 0.0, 1.0⟩ ⟨Fl.fin v.x, Fl.fin v.y, Fl.fin v.z, Fl.fin 1⟩ = Fl.fin 1 := by
      simp only [V4.dot, fl_lit0, hR.lit1, zero_times, times_one hR.one, zero_plus R.zero, zero_plus hR.one]
    have e : M4.mulVec (rotationMatrix4 c.direction ⟨0.0, 0.0, 1.0⟩) ((v.fl : V3 (Fl R)).hom 1.0) =
        ⟨Fl.fin z0, Fl.fin z1, Fl.fin z2, Fl.fin 1⟩ := by
      unfold M4.mulVec rotationMatrix4 V3.hom
      dsimp only
      rw [F.matrix, hR.lit1]
      have t0 := turned hR (w := 1) hz0
      have t1 := turned hR (w := 1) hz1
      have t2 := turned hR (w := 1) hz2
      rw [← hR.lit1] at r3 t0 t1 t2 ⊢
      simp only [M3.fl, V3.fl] at t0 t1 t2 r3 ⊢
      rw [t0, t1, t2, r3]
    rw [e]
  · exact (scaled hR hx).1
  · exact (scaled hR hy).2

/-- **A direction in object space.** -/
theorem CylinderFrame.dir (F : CylinderFrame R c C a ρ σ M W η) (hR : Proper R) {d : V3 ℝ} (hd : ‖d.toE‖ ≤ 1 + 1 / 100000) :
    ∃ p q : ℝ, (c.dirToObjectSpace d.fl).x = Fl.fin p ∧ (c.dirToObjectSpace d.fl).y = Fl.fin q ∧
      |p - dot M.r0 d| ≤ 28 / 5 * R.u ∧ |q - dot M.r1 d| ≤ 28 / 5 * R.u := by
  have hu := R.u_pos
  obtain ⟨-, -, -, -, -, -, m0, m1, m2⟩ := F.row
  have key : ∀ m : V3 ℝ, ‖m.toE‖ ≤ 1 + 1 / 10000 → ∃ z, dot (m.fl : V3 (Fl R)) d.fl = Fl.fin z ∧ |z - dot m d| ≤ 28 / 5 * R.u := by
    intro m hm
    have hmv : ‖m.toE‖ * ‖d.toE‖ ≤ 1001 / 1000 := by
      have := mul_le_mul hm hd (_root_.norm_nonneg _) (by norm_num)
      norm_num at this ⊢; linarith
    obtain ⟨z, hz, dz⟩ := dot_near' (R := R) hmv (by norm_num) (by norm_num)
    rw [inner_toE] at dz
    exact ⟨z, hz, by linarith⟩
  obtain ⟨z0, hz0, d0⟩ := key M.r0 m0
  obtain ⟨z1, hz1, d1⟩ := key M.r1 m1
  refine ⟨z0, z1, ?_, ?_, d0, d1⟩
  all_goals
    unfold InfiniteCylinder.dirToObjectSpace M4.mulVec rotationMatrix4 V3.hom
    dsimp only
    rw [F.matrix, fl_lit0]
    have t0 := turned hR (w := 0) hz0
    have t1 := turned hR (w := 0) hz1
    rw [fl_lit0] at t0 t1
    simp only [M3.fl, V3.fl] at t0 t1 ⊢
  · exact t0
  · exact t1

end Optics
