import Verif.Lemmas.Drawing
import Verif.Props.Bundles
import Mathlib.Analysis.Convex.Combination

/-!
# C75-C79: what the `draw` methods draw is what the rays hit

`circle` is matplotlib's path of the unit circle (an arbitrary list of plane points here).
-/

namespace Optics
open V3

/-- The two names of the 3D view. -/
def View3d (view : String) : Prop := view = "3d" ∨ view = "xyz"

theorem view3d_cases {view : String} (h : View3d view) :
    ¬ (view = "xy" ∨ view = "tangential") ∧ ¬ (view = "xz" ∨ view = "sagittal") ∧ (view = "3d" ∨ view = "xyz") := by
  rcases h with rfl | rfl <;> exact ⟨by decide, by decide, by decide⟩

theorem circleVerts_placed (circle : List (ℝ × ℝ)) (D : ℝ) (c e₁ e₂ : V3 ℝ) :
    (circleVerts circle (D / 2)).map (placed c e₁ e₂)
      = circle.map fun p => placed c e₁ e₂ (D / 2 * p.1, D / 2 * p.2) := by
  rw [circleVerts, List.map_map]; rfl

/-! ## C75 -/

theorem disc_coords {n e₁ e₂ : V3 ℝ} (hn : n ≠ ⟨0, 0, 0⟩) (hf : PlaneFrame n e₁ e₂) (c x : V3 ℝ) (r : ℝ) :
    (OnPlane c n x ∧ dist x.toE c.toE < r) ↔ ∃ q : ℝ × ℝ, Real.sqrt (q.1 ^ 2 + q.2 ^ 2) < r ∧ x = placed c e₁ e₂ q := by
  rw [frame_coords hn hf]
  constructor
  · rintro ⟨⟨q, rfl⟩, h⟩
    exact ⟨q, by rwa [frame_dist hf] at h, rfl⟩
  · rintro ⟨q, h, rfl⟩
    exact ⟨⟨q, rfl⟩, by rwa [frame_dist hf]⟩

/-- C75 for a flat circular mirror: it draws the circle of radius `D/2` placed by an isometry (`PlaneFrame`) in the
plane through its position perpendicular to its normal, and it can be hit exactly inside that circle. -/
theorem C75_disc_mirror (position n : V3 ℝ) (hn : n ≠ ⟨0, 0, 0⟩) (D : ℝ) (w h f : Option ℝ) (t : Option (V3 ℝ))
    (type : String) (dmd : V3 ℝ) (hdmd : dmd ≠ ⟨0, 0, 0⟩) (m : Mirror ℝ)
    (hm : Mirror.new position "circular_flat" (some n) (some D) w h f t type (some dmd) = .ok m)
    (circle : List (ℝ × ℝ)) (view : String) (hv : View3d view) :
    ∃ e₁ e₂, PlaneFrame n e₁ e₂ ∧
      m.draw circle view
        = .ok ([.patch (circle.map fun p => placed position e₁ e₂ (D / 2 * p.1, D / 2 * p.2))], m) ∧
      ∀ x, (Optic.mirror m).CanBeHit x ↔
        ∃ q : ℝ × ℝ, Real.sqrt (q.1 ^ 2 + q.2 ^ 2) < D / 2 ∧ x = placed position e₁ e₂ q := by
  obtain ⟨e₁, e₂, hf, hp⟩ := drawPatch_frame n hn
  refine ⟨e₁, e₂, hf, ?_, fun x => ?_⟩
  · obtain ⟨v1, v2, v3⟩ := view3d_cases hv
    simp only [Mirror.new, need, bind, Except.bind, pure, Except.pure, if_true] at hm
    cases hC : Circle.new position (some n) none (some D) with
    | error e => rw [hC] at hm; cases hm
    | ok C =>
    rw [hC] at hm
    obtain rfl := Except.ok.inj hm
    unfold Mirror.draw
    simp only [if_neg v1, if_neg v2, if_pos v3, if_true, need, bind, Except.bind, pure, Except.pure, lit2, hp,
      circleVerts_placed]
  · rw [canBeHit_flat hn (fun ray hd => discMirror_flat hn hm hdmd ray hd), disc_coords hn hf]

/-- C75 for a flat (biconvex) lens. -/
theorem C75_disc_lens (position n : V3 ℝ) (hn : n ≠ ⟨0, 0, 0⟩) (D : ℝ) (w h f : Option ℝ) (type : String) (index : ℝ)
    (l : Lens ℝ) (hl : Lens.new position (some n) "spherical_biconvex" (some D) w h f type index = .ok l)
    (circle : List (ℝ × ℝ)) (view : String) (hv : View3d view) :
    ∃ e₁ e₂, PlaneFrame n e₁ e₂ ∧
      l.draw circle view
        = .ok ([.patch (circle.map fun p => placed position e₁ e₂ (D / 2 * p.1, D / 2 * p.2))], l) ∧
      ∀ x, (Optic.lens l).CanBeHit x ↔
        ∃ q : ℝ × ℝ, Real.sqrt (q.1 ^ 2 + q.2 ^ 2) < D / 2 ∧ x = placed position e₁ e₂ q := by
  obtain ⟨e₁, e₂, hf, hp⟩ := drawPatch_frame n hn
  refine ⟨e₁, e₂, hf, ?_, fun x => ?_⟩
  · obtain ⟨v1, v2, v3⟩ := view3d_cases hv
    simp only [Lens.new, bind, Except.bind, pure, Except.pure, if_true] at hl
    cases hC : Circle.new position (some n) none (some D) with
    | error e => rw [hC] at hl; cases hl
    | ok C =>
    rw [hC] at hl
    obtain rfl := Except.ok.inj hl
    unfold Lens.draw
    simp only [if_pos v3, if_true, need, bind, Except.bind, pure, Except.pure, lit2, Option.map_some, hp,
      circleVerts_placed]
  · rw [canBeHit_flat hn (fun ray hd => discLens_flat hn hl ray hd), disc_coords hn hf]

/-- A tilted mirror that C75 is about: it can be hit at its centre. -/
example : ∃ m, Mirror.new (⟨1, 2, 3⟩ : V3 ℝ) "circular_flat" (some ⟨0, 3, 4⟩) (some 2) none none none none "normal"
    (some ⟨0, 0, 1⟩) = .ok m ∧ (Optic.mirror m).CanBeHit ⟨1, 2, 3⟩ := by
  refine ⟨_, rfl, ?_⟩
  obtain ⟨e₁, e₂, -, -, h⟩ := C75_disc_mirror ⟨1, 2, 3⟩ ⟨0, 3, 4⟩ (by simp) 2 none none none none "normal" ⟨0, 0, 1⟩
    (by simp) _ rfl [] "3d" (Or.inl rfl)
  refine (h _).mpr ⟨(0, 0), by norm_num, ?_⟩
  ext <;> simp [placed]

/-- A lens that C75 is about. -/
example : ∃ l, Lens.new (⟨1, 2, 3⟩ : V3 ℝ) (some ⟨0, 3, 4⟩) "spherical_biconvex" (some 2) none none (some 5) "ideal" 1.5
    = .ok l ∧ (Optic.lens l).CanBeHit ⟨1, 2, 3⟩ := by
  refine ⟨_, rfl, ?_⟩
  obtain ⟨e₁, e₂, -, -, h⟩ := C75_disc_lens ⟨1, 2, 3⟩ ⟨0, 3, 4⟩ (by simp) 2 none none (some 5) "ideal" 1.5 _ rfl []
    "3d" (Or.inl rfl)
  refine (h _).mpr ⟨(0, 0), by norm_num, ?_⟩
  ext <;> simp [placed]

/-- C75 for a concave mirror: what is drawn is its flat aperture, and only rays that cross the drawn circle hit it. -/
theorem C75_concave (position n : V3 ℝ) (hn : n ≠ ⟨0, 0, 0⟩) (D f : ℝ) (w h : Option ℝ) (t : Option (V3 ℝ))
    (type : String) (dmd : V3 ℝ) (m : Mirror ℝ)
    (hm : Mirror.new position "circular_concave_spherical" (some n) (some D) w h (some f) t type (some dmd) = .ok m)
    (circle : List (ℝ × ℝ)) (view : String) (hv : View3d view) :
    ∃ e₁ e₂, PlaneFrame n e₁ e₂ ∧
      m.draw circle view
        = .ok ([.patch (circle.map fun p => placed position e₁ e₂ (D / 2 * p.1, D / 2 * p.2))], m) ∧
      ∀ (ray : Ray ℝ), ‖ray.direction.toE‖ = 1 → ∀ r, m.testIntersect ray = .ok r → r.hit = true →
        ∃ s, 1e-9 < s ∧ ∃ q : ℝ × ℝ, Real.sqrt (q.1 ^ 2 + q.2 ^ 2) < D / 2 ∧
          lineAt ray.position ray.direction s = placed position e₁ e₂ q := by
  obtain ⟨e₁, e₂, hf, hp⟩ := drawPatch_frame n hn
  simp only [Mirror.new, need, bind, Except.bind, pure, Except.pure, Sphere.new] at hm
  rw [if_neg (by decide), if_neg (by decide), if_pos trivial] at hm
  cases hC : Circle.new position (some n) none (some D) with
  | error e => rw [hC] at hm; cases hm
  | ok C =>
  rw [hC] at hm
  simp only [checkRAndD] at hm
  obtain rfl := Except.ok.inj hm
  have hR : C.R = D / 2 := by
    obtain ⟨-, -, -, h4⟩ := circle_new_ok hC
    simp only [checkRAndD, lit2] at h4
    exact (Prod.mk.inj (Except.ok.inj h4)).1.symm
  refine ⟨e₁, e₂, hf, ?_, fun ray hd r hr hh => ?_⟩
  · obtain ⟨v1, v2, v3⟩ := view3d_cases hv
    unfold Mirror.draw
    simp only [if_neg v1, if_neg v2, if_pos v3]
    rw [if_neg (by decide), if_neg (by decide), if_pos trivial]
    simp only [need, bind, Except.bind, pure, Except.pure, lit2, hp, circleVerts_placed]
  · obtain ⟨cr, hcr, h1, -, -⟩ := C13_circle position n hn none (some D) C hC ray hd
    have hcross : cr.hit = true := by
      unfold Mirror.testIntersect at hr
      rw [if_neg (show ¬ ("circular_concave_spherical" = "circular_flat" ∨
        "circular_concave_spherical" = "rectangular_flat") by decide), if_pos rfl] at hr
      simp only [firstSphere, firstCircle, bound, hcr, bind, Except.bind, pure, Except.pure] at hr
      by_contra hno
      rw [if_neg hno] at hr
      split_ifs at hr <;> (obtain rfl := Except.ok.inj hr; cases hh)
    obtain ⟨-, s, hs, ho, hdist⟩ := h1.mp hcross
    rw [hR] at hdist
    obtain ⟨q, hq, e⟩ := (disc_coords hn hf position _ (D / 2)).mp ⟨ho, hdist⟩
    exact ⟨s, hs, q, hq, e⟩

/-! ## C76 -/

/-- The sphere in spherical coordinates. -/
theorem sphere_coords (c : V3 ℝ) {R : ℝ} (hR : 0 < R) (x : V3 ℝ) :
    OnSphere c R x ↔ ∃ u v, (0 ≤ u ∧ u ≤ 2 * Real.pi) ∧ (0 ≤ v ∧ v ≤ Real.pi) ∧ x = spherePoint c R u v := by
  rw [onSphere_iff]
  constructor
  · intro h
    have hz : ((x.z - c.z) / R) ^ 2 ≤ 1 := by
      rw [div_pow, div_le_one (by positivity)]
      simp only [dot, sub_x, sub_y, sub_z] at h
      nlinarith [sq_nonneg (x.x - c.x), sq_nonneg (x.y - c.y)]
    have hz' := abs_le.mp (sq_le_one_iff_abs_le_one _ |>.mp hz)
    have hcos : Real.cos (Real.arccos ((x.z - c.z) / R)) = (x.z - c.z) / R := Real.cos_arccos hz'.1 hz'.2
    have hsin : Real.sin (Real.arccos ((x.z - c.z) / R)) = Real.sqrt (1 - ((x.z - c.z) / R) ^ 2) :=
      Real.sin_arccos _
    set ρ := Real.sqrt (1 - ((x.z - c.z) / R) ^ 2) with hρ
    have hρ2 : ρ ^ 2 = ((x.x - c.x) / R) ^ 2 + ((x.y - c.y) / R) ^ 2 := by
      rw [hρ, Real.sq_sqrt (by linarith)]
      simp only [dot, sub_x, sub_y, sub_z] at h
      field_simp
      linarith
    have key : ∃ u, (0 ≤ u ∧ u ≤ 2 * Real.pi) ∧ Real.cos u * ρ = (x.x - c.x) / R ∧ Real.sin u * ρ = (x.y - c.y) / R := by
      let z : ℂ := ⟨(x.x - c.x) / R, (x.y - c.y) / R⟩
      have hnorm : ‖z‖ = ρ := by
        rw [Complex.norm_def, Complex.normSq_apply, show z.re * z.re + z.im * z.im = ρ ^ 2 by rw [hρ2]; ring]
        exact Real.sqrt_sq (Real.sqrt_nonneg _)
      have hre : Real.cos z.arg * ρ = (x.x - c.x) / R := by
        have := Complex.norm_mul_cos_arg z
        rw [hnorm, mul_comm] at this; exact this
      have him : Real.sin z.arg * ρ = (x.y - c.y) / R := by
        have := Complex.norm_mul_sin_arg z
        rw [hnorm, mul_comm] at this; exact this
      have := Complex.neg_pi_lt_arg z
      have := Complex.arg_le_pi z
      have := Real.pi_pos
      by_cases h0 : 0 ≤ z.arg
      · exact ⟨z.arg, ⟨h0, by linarith⟩, hre, him⟩
      · exact ⟨z.arg + 2 * Real.pi, ⟨by linarith, by linarith⟩, by rw [Real.cos_add_two_pi]; exact hre,
          by rw [Real.sin_add_two_pi]; exact him⟩
    obtain ⟨u, hu, hc, hs⟩ := key
    refine ⟨u, Real.arccos ((x.z - c.z) / R), hu, ⟨Real.arccos_nonneg _, Real.arccos_le_pi _⟩, ?_⟩
    unfold spherePoint
    rw [hcos, hsin, hc, hs]
    ext <;> simp only [add_x, add_y, add_z, smul_x, smul_y, smul_z] <;> field_simp <;> ring
  · rintro ⟨u, v, -, -, rfl⟩
    simp only [spherePoint, dot, sub_x, sub_y, sub_z, add_x, add_y, add_z, smul_x, smul_y, smul_z]
    linear_combination R ^ 2 * (Real.sin v ^ 2 * Real.sin_sq_add_cos_sq u + Real.sin_sq_add_cos_sq v)

theorem linspace_zero (stop : ℝ) (i : Nat) (hi : i < 50) : (linspace (0.0 : ℝ) stop 50)[i]? = some (stop * i / 49) := by
  unfold linspace
  rw [List.getElem?_map, List.getElem?_range hi, Option.map_some, lit0, real_ofNat, real_ofNat]
  split_ifs with h
  · have : i = 49 := by omega
    subst this; push_cast; congr 1; field_simp
  · push_cast; congr 1; ring

/-- What `ballGrid` contains. -/
theorem ballGrid_spec (c : V3 ℝ) (D : ℝ) :
    (ballGrid c D).length = 50 ∧ (∀ row ∈ ballGrid c D, row.length = 50) ∧
    ∀ i j : Nat, i < 50 → j < 50 → ∃ row, (ballGrid c D)[i]? = some row ∧
      row[j]? = some (spherePoint c (D / 2) (2 * Real.pi * i / 49) (Real.pi * j / 49)) := by
  refine ⟨by simp [ballGrid, linspace], ?_, ?_⟩
  · intro row hrow
    simp only [ballGrid, List.mem_map] at hrow
    obtain ⟨a, -, rfl⟩ := hrow
    simp [linspace]
  · intro i j hi hj
    unfold ballGrid
    simp only [List.getElem?_map]
    rw [real_pi, lit2, linspace_zero _ _ hi]
    refine ⟨_, rfl, ?_⟩
    rw [List.getElem?_map, linspace_zero _ _ hj, Option.map_some, lit1, one_mul]
    congr 1

theorem ballGrid_mem {c x : V3 ℝ} {D : ℝ} {row : List (V3 ℝ)} (hr : row ∈ ballGrid c D) (hx : x ∈ row) :
    OnSphere c (D / 2) x := by
  obtain ⟨h1, h2, h3⟩ := ballGrid_spec c D
  obtain ⟨i, hi, rfl⟩ := List.mem_iff_getElem.mp hr
  obtain ⟨j, hj, rfl⟩ := List.mem_iff_getElem.mp hx
  obtain ⟨row, e1, e2⟩ := h3 i j (by omega) (by rw [h2 _ hr] at hj; exact hj)
  rw [List.getElem?_eq_getElem hi] at e1
  obtain rfl := Option.some.inj e1
  rw [List.getElem?_eq_getElem hj] at e2
  rw [Option.some.inj e2, onSphere_iff]
  simp only [spherePoint, dot, sub_x, sub_y, sub_z, add_x, add_y, add_z, smul_x, smul_y, smul_z]
  generalize 2 * Real.pi * i / 49 = u
  generalize Real.pi * j / 49 = v
  linear_combination (D / 2) ^ 2 * (Real.sin v ^ 2 * Real.sin_sq_add_cos_sq u + Real.sin_sq_add_cos_sq v)

/-- C76 for a convex mirror: a 50x50 grid over the whole sphere, all of whose points can be hit; and it can be hit
exactly on that sphere. -/
theorem C76_ball_mirror (position : V3 ℝ) (n : Option (V3 ℝ)) (D : ℝ) (hD : 0 < D) (w h f : Option ℝ)
    (t : Option (V3 ℝ)) (type : String) (dmd : V3 ℝ) (hdmd : dmd ≠ ⟨0, 0, 0⟩) (m : Mirror ℝ)
    (hm : Mirror.new position "circular_convex_spherical" n (some D) w h f t type (some dmd) = .ok m)
    (circle : List (ℝ × ℝ)) (view : String) (hv : View3d view) :
    ∃ grid : List (List (V3 ℝ)), m.draw circle view = .ok ([.surface grid], m) ∧
      (grid.length = 50 ∧ ∀ row ∈ grid, row.length = 50) ∧
      (∀ i j : Nat, i < 50 → j < 50 → ∃ row, grid[i]? = some row ∧
        row[j]? = some (spherePoint position (D / 2) (2 * Real.pi * i / 49) (Real.pi * j / 49))) ∧
      (∀ x, (Optic.mirror m).CanBeHit x ↔ ∃ u v, (0 ≤ u ∧ u ≤ 2 * Real.pi) ∧ (0 ≤ v ∧ v ≤ Real.pi) ∧
        x = spherePoint position (D / 2) u v) ∧
      ∀ row ∈ grid, ∀ x ∈ row, (Optic.mirror m).CanBeHit x := by
  obtain ⟨h1, h2, h3⟩ := ballGrid_spec position D
  have hit := fun x => canBeHit_ballMirror hD.ne' hdmd hm x
  refine ⟨ballGrid position D, ?_, ⟨h1, h2⟩, h3, fun x => by rw [hit, sphere_coords _ (by positivity)],
    fun row hr x hx => (hit x).mpr (ballGrid_mem hr hx)⟩
  obtain ⟨v1, v2, v3⟩ := view3d_cases hv
  simp only [Mirror.new, need, bind, Except.bind, pure, Except.pure, Sphere.new, checkRAndD, lit2] at hm
  rw [if_neg (by decide), if_neg (by decide), if_neg (by decide), if_pos trivial] at hm
  obtain rfl := Except.ok.inj hm
  unfold Mirror.draw
  simp only [if_neg v1, if_neg v2, if_pos v3]
  rw [if_neg (by decide), if_neg (by decide), if_neg (by decide), if_pos trivial]
  rfl

/-- A ball that C76 is about: its north pole can be hit. -/
example : ∃ m, Mirror.new (⟨1, 2, 3⟩ : V3 ℝ) "circular_convex_spherical" none (some 2) none none none none "normal"
    (some ⟨0, 0, 1⟩) = .ok m ∧ (Optic.mirror m).CanBeHit ⟨1, 2, 4⟩ := by
  refine ⟨_, rfl, ?_⟩
  obtain ⟨-, -, -, -, h, -⟩ := C76_ball_mirror ⟨1, 2, 3⟩ none 2 two_pos none none none none "normal" ⟨0, 0, 1⟩
    (by simp) _ rfl [] "3d" (Or.inl rfl)
  refine (h _).mpr ⟨0, 0, ⟨le_rfl, by positivity⟩, ⟨le_rfl, Real.pi_pos.le⟩, ?_⟩
  ext <;> simp [spherePoint]
  norm_num

/-- C76 for a ball lens. -/
theorem C76_ball_lens (position : V3 ℝ) (n : Option (V3 ℝ)) (D : ℝ) (hD : 0 < D) (w h f : Option ℝ) (type : String)
    (index : ℝ) (l : Lens ℝ) (hl : Lens.new position n "spherical" (some D) w h f type index = .ok l)
    (circle : List (ℝ × ℝ)) (view : String) (hv : View3d view) :
    ∃ grid : List (List (V3 ℝ)), l.draw circle view = .ok ([.surface grid], l) ∧
      (grid.length = 50 ∧ ∀ row ∈ grid, row.length = 50) ∧
      (∀ i j : Nat, i < 50 → j < 50 → ∃ row, grid[i]? = some row ∧
        row[j]? = some (spherePoint position (D / 2) (2 * Real.pi * i / 49) (Real.pi * j / 49))) ∧
      (∀ x, (Optic.lens l).CanBeHit x ↔ ∃ u v, (0 ≤ u ∧ u ≤ 2 * Real.pi) ∧ (0 ≤ v ∧ v ≤ Real.pi) ∧
        x = spherePoint position (D / 2) u v) ∧
      ∀ row ∈ grid, ∀ x ∈ row, (Optic.lens l).CanBeHit x := by
  obtain ⟨h1, h2, h3⟩ := ballGrid_spec position D
  have hit := fun x => canBeHit_ballLens hD.ne' hl x
  refine ⟨ballGrid position D, ?_, ⟨h1, h2⟩, h3, fun x => by rw [hit, sphere_coords _ (by positivity)],
    fun row hr x hx => (hit x).mpr (ballGrid_mem hr hx)⟩
  obtain ⟨v1, v2, v3⟩ := view3d_cases hv
  simp only [Lens.new, bind, Except.bind, pure, Except.pure, Sphere.new, checkRAndD, lit2] at hl
  rw [if_neg (by decide), if_pos trivial] at hl
  obtain rfl := Except.ok.inj hl
  unfold Lens.draw
  simp only [if_pos v3]
  rw [if_neg (by decide), if_pos trivial]
  rfl

/-! ## C77 -/

/-- Inner products in the coordinates of a frame. -/
theorem frame_dot {n e₁ e₂ v : V3 ℝ} (hn : n ≠ ⟨0, 0, 0⟩) (hf : PlaneFrame n e₁ e₂) (hv : dot v n = 0) (w : V3 ℝ) :
    dot v w = dot v e₁ * dot w e₁ + dot v e₂ * dot w e₂ := by
  obtain ⟨⟨a, b⟩, e⟩ := (frame_coords hn hf ⟨0, 0, 0⟩ v).mp
    (by rw [onPlane_iff]; simp only [dot, sub_x, sub_y, sub_z] at hv ⊢; linarith)
  obtain ⟨h1, h2, h3, -, -⟩ := hf
  simp only [norm_toE, norm_eq_one_iff, inner_toE] at h1 h2 h3
  subst e
  simp only [placed, dot, add_x, add_y, add_z, smul_x, smul_y, smul_z] at *
  linear_combination -(a * (w.x * e₁.x + w.y * e₁.y + w.z * e₁.z) * h1 + b * (w.x * e₂.x + w.y * e₂.y + w.z * e₂.z) * h2
    + (b * (w.x * e₁.x + w.y * e₁.y + w.z * e₁.z) + a * (w.x * e₂.x + w.y * e₂.y + w.z * e₂.z)) * h3)

/-- When the rectangle along `e₁`, `e₂` is the rectangle along the tangent. -/
theorem rect_coords {n tan e₁ e₂ : V3 ℝ} (hn : n ≠ ⟨0, 0, 0⟩) (htan : tan ≠ ⟨0, 0, 0⟩)
    (hperp : inner ℝ n.toE tan.toE = 0) (hf : PlaneFrame n e₁ e₂) (c : V3 ℝ) {w h : ℝ} (hw : 0 < w) (hh : 0 < h) :
    (∀ x, (OnPlane c n x ∧ |inner ℝ (x - c).toE (unitVector tan).toE| ≤ h / 2 ∧
        |inner ℝ (x - c).toE (cross (unitVector n) (unitVector tan)).toE| ≤
          w / 2 * ‖(cross (unitVector n) (unitVector tan)).toE‖ ^ 2) ↔
      ∃ q : ℝ × ℝ, (|q.1| ≤ w / 2 ∧ |q.2| ≤ h / 2) ∧ x = placed c e₁ e₂ q) ↔
    (inner ℝ tan.toE e₁.toE = 0 ∨ (w = h ∧ inner ℝ tan.toE e₂.toE = 0)) := by
  have hnu := unit_dot hn
  have htu := unit_dot htan
  have hnt : dot (unitVector n) (unitVector tan) = 0 := by
    rw [inner_toE] at hperp
    rw [unitVector, unitVector, dot_div_left, dot_div_right, hperp]; norm_num
  have htn : dot (unitVector tan) n = 0 := by
    rw [inner_toE] at hperp
    rw [unitVector, dot_div_left, dot_comm, hperp, zero_div]
  set T := unitVector tan with hT
  set T2 := cross (unitVector n) T with hT2
  have h22 : dot T2 T2 = 1 := by rw [hT2, cross_dot_self, hnu, htu, hnt]; norm_num
  have h2n : dot T2 n = 0 := by
    have : dot (unitVector n) T2 = 0 := dot_cross_left _ _
    rw [dot_comm, unitVector_smul_dot hn, this, mul_zero]
  have hTT2 : dot T T2 = 0 := dot_cross_right _ _
  have hnorm : ‖T2.toE‖ ^ 2 = 1 := by rw [norm_toE, norm_sq, h22]
  have hab : dot T e₁ ^ 2 + dot T e₂ ^ 2 = 1 := by
    have := frame_dot hn hf htn T
    rw [htu] at this; linarith
  have hpq : dot T2 e₁ ^ 2 + dot T2 e₂ ^ 2 = 1 := by
    have := frame_dot hn hf h2n T2
    rw [h22] at this; linarith
  have ho : dot T e₁ * dot T2 e₁ + dot T e₂ * dot T2 e₂ = 0 := by
    have := frame_dot hn hf htn T2
    rw [hTT2] at this; linarith
  have hpl : ∀ (q : ℝ × ℝ) (v : V3 ℝ), dot (placed c e₁ e₂ q - c) v = dot v e₁ * q.1 + dot v e₂ * q.2 := by
    intro q v
    simp only [placed, dot, sub_x, sub_y, sub_z, add_x, add_y, add_z, smul_x, smul_y, smul_z]; ring
  have hinj : ∀ q q' : ℝ × ℝ, placed c e₁ e₂ q = placed c e₁ e₂ q' → q = q' := by
    intro q q' e
    obtain ⟨h1, h2, h3, -, -⟩ := hf
    simp only [norm_toE, norm_eq_one_iff, inner_toE] at h1 h2 h3
    have a1 := hpl q e₁
    have a2 := hpl q e₂
    rw [e, hpl] at a1 a2
    rw [h1, h3] at a1
    rw [dot_comm e₂ e₁, h3, h2] at a2
    ext <;> linarith
  rw [inner_toE, inner_toE, unitVector_smul_dot htan, unitVector_smul_dot htan,
    mul_eq_zero, mul_eq_zero, or_iff_right (norm_pos htan).ne', or_iff_right (norm_pos htan).ne',
    ← rect_agree hab hpq ho hw hh]
  simp only [inner_toE, hnorm, mul_one]
  constructor
  · intro H u v
    have := H (placed c e₁ e₂ (u, v))
    rw [hpl, hpl] at this
    constructor
    · intro h
      obtain ⟨q, hq, e⟩ := this.mp ⟨(frame_coords hn hf c _).mpr ⟨_, rfl⟩, h⟩
      rw [← hinj _ _ e] at hq; exact hq
    · intro h
      exact (this.mpr ⟨_, h, rfl⟩).2
  · intro H x
    constructor
    · rintro ⟨hx, hr⟩
      obtain ⟨q, rfl⟩ := (frame_coords hn hf c x).mp hx
      rw [hpl, hpl, H] at hr
      exact ⟨q, hr, rfl⟩
    · rintro ⟨q, hq, rfl⟩
      refine ⟨(frame_coords hn hf c _).mpr ⟨_, rfl⟩, ?_⟩
      rw [hpl, hpl, H]; exact hq

theorem rectangleVerts_placed (w h : ℝ) (c e₁ e₂ : V3 ℝ) :
    (rectangleVerts (-w / 2.0) (-h / 2.0) w h).map (placed c e₁ e₂)
      = [placed c e₁ e₂ (-(w / 2), -(h / 2)), placed c e₁ e₂ (w / 2, -(h / 2)), placed c e₁ e₂ (w / 2, h / 2),
         placed c e₁ e₂ (-(w / 2), h / 2), placed c e₁ e₂ (-(w / 2), -(h / 2))] := by
  have e1 : ∀ a : ℝ, -a / 2 = -(a / 2) := fun a => by ring
  have e2 : ∀ a : ℝ, -(a / 2) + a = a / 2 := fun a => by ring
  simp only [rectangleVerts, List.map_cons, List.map_nil, lit2, e1, e2]

/-- C77 for mirrors, what holds.  The frame in which the rectangle is drawn depends on the normal alone, width along
`e₁` and height along `e₂`; what is drawn is what can be hit iff the tangent happens to be along `e₂` (or along `e₁` and
the rectangle is a square).  Missing: the claim for the other tangents, which is false (`C77_counterexample`). -/
theorem C77_rectangle_mirror_partial (n : V3 ℝ) (hn : n ≠ ⟨0, 0, 0⟩) : ∃ e₁ e₂, PlaneFrame n e₁ e₂ ∧
    ∀ (position tan : V3 ℝ), tan ≠ ⟨0, 0, 0⟩ → inner ℝ n.toE tan.toE = 0 →
    ∀ (D f : Option ℝ) (w h : ℝ), 0 < w → 0 < h → ∀ (type : String) (dmd : V3 ℝ), dmd ≠ ⟨0, 0, 0⟩ → ∀ m : Mirror ℝ,
    Mirror.new position "rectangular_flat" (some n) D (some w) (some h) f (some tan) type (some dmd) = .ok m →
    ∀ (circle : List (ℝ × ℝ)) (view : String), View3d view →
      m.draw circle view = .ok ([.patch
        [placed position e₁ e₂ (-(w / 2), -(h / 2)), placed position e₁ e₂ (w / 2, -(h / 2)),
         placed position e₁ e₂ (w / 2, h / 2), placed position e₁ e₂ (-(w / 2), h / 2),
         placed position e₁ e₂ (-(w / 2), -(h / 2))]], m) ∧
      ((∀ x, (Optic.mirror m).CanBeHit x ↔
          ∃ q : ℝ × ℝ, (|q.1| ≤ w / 2 ∧ |q.2| ≤ h / 2) ∧ x = placed position e₁ e₂ q) ↔
        (inner ℝ tan.toE e₁.toE = 0 ∨ (w = h ∧ inner ℝ tan.toE e₂.toE = 0))) := by
  obtain ⟨e₁, e₂, hf, hp⟩ := drawPatch_frame n hn
  refine ⟨e₁, e₂, hf, fun position tan htan hperp D f w h hw hh type dmd hdmd m hm circle view hv => ⟨?_, ?_⟩⟩
  · obtain ⟨v1, v2, v3⟩ := view3d_cases hv
    simp only [Mirror.new, need, bind, Except.bind, pure, Except.pure] at hm
    rw [if_neg (by decide), if_pos trivial] at hm
    cases hC : Rectangle.new position n tan (some h) (some w) with
    | error e => rw [hC] at hm; cases hm
    | ok C =>
    rw [hC] at hm
    obtain rfl := Except.ok.inj hm
    unfold Mirror.draw
    simp only [if_neg v1, if_neg v2, if_pos v3]
    rw [if_neg (by decide), if_pos trivial]
    simp only [need, bind, Except.bind, pure, Except.pure, hp, rectangleVerts_placed]
  · rw [← rect_coords hn htan hperp hf position hw hh]
    have := fun x => canBeHit_flat hn (fun ray hd => rectMirror_flat hn htan hw hh hdmd hm ray hd) x
    simp only [this]

/-- C77 for gratings, what holds (see `C77_rectangle_mirror_partial`). -/
theorem C77_grating_partial (n : V3 ℝ) (hn : n ≠ ⟨0, 0, 0⟩) : ∃ e₁ e₂, PlaneFrame n e₁ e₂ ∧
    ∀ (position tan : V3 ℝ), tan ≠ ⟨0, 0, 0⟩ → inner ℝ n.toE tan.toE = 0 →
    ∀ (w h : ℝ) (G : Option ℝ), 0 < w → 0 < h → ∀ g : Grating ℝ,
    Grating.new position n tan "rectangular_flat" (some w) (some h) G = .ok g →
    ∀ (view : String), View3d view →
      g.draw view = .ok ([.patch
        [placed position e₁ e₂ (-(w / 2), -(h / 2)), placed position e₁ e₂ (w / 2, -(h / 2)),
         placed position e₁ e₂ (w / 2, h / 2), placed position e₁ e₂ (-(w / 2), h / 2),
         placed position e₁ e₂ (-(w / 2), -(h / 2))]], g) ∧
      ((∀ x, (Optic.grating g).CanBeHit x ↔
          ∃ q : ℝ × ℝ, (|q.1| ≤ w / 2 ∧ |q.2| ≤ h / 2) ∧ x = placed position e₁ e₂ q) ↔
        (inner ℝ tan.toE e₁.toE = 0 ∨ (w = h ∧ inner ℝ tan.toE e₂.toE = 0))) := by
  obtain ⟨e₁, e₂, hf, hp⟩ := drawPatch_frame n hn
  refine ⟨e₁, e₂, hf, fun position tan htan hperp w h G hw hh g hg view hv => ⟨?_, ?_⟩⟩
  · obtain ⟨v1, v2, v3⟩ := view3d_cases hv
    simp only [Grating.new, bind, Except.bind, pure, Except.pure, if_true] at hg
    cases hC : Rectangle.new position n tan (some h) (some w) with
    | error e => rw [hC] at hg; cases hg
    | ok C =>
    rw [hC] at hg
    obtain rfl := Except.ok.inj hg
    unfold Grating.draw
    simp only [if_pos v3, if_true, need, bind, Except.bind, pure, Except.pure, hp, rectangleVerts_placed]
  · rw [← rect_coords hn htan hperp hf position hw hh]
    have := fun x => canBeHit_flat hn (fun ray hd => rectGrating_flat hn htan hw hh hg ray hd) x
    simp only [this]

/-- A rectangle with a perpendicular tangent can be built. -/
theorem rectangle_new_perp (c n t : V3 ℝ) {h w : ℝ} (hh : 0 ≤ h) (hw : 0 ≤ w) (hnt : inner ℝ n.toE t.toE = 0) :
    ∃ r, Rectangle.new c n t (some h) (some w) = .ok r := by
  have h0 : dot (unitVector n) (unitVector t) = 0 := by
    rw [inner_toE] at hnt
    rw [unitVector, unitVector, dot_div_left, dot_div_right, hnt]; norm_num
  unfold Rectangle.new
  simp only [h0]
  rw [if_neg]
  · simp only [checkHAndW, lit0, if_neg (not_lt.mpr hh), if_neg (not_lt.mpr hw)]
    exact ⟨_, rfl⟩
  · norm_num [isclose, atolDefault, rtolDefault]

/-- The corner at `(w/2, h/2)` of the drawn rectangle is off the traced one when the tangent is `e₁` and `w < h`. -/
theorem corner_off {n e₁ e₂ : V3 ℝ} (hn : n ≠ ⟨0, 0, 0⟩) (hf : PlaneFrame n e₁ e₂) (c : V3 ℝ) {w h : ℝ} (hw : 0 < w)
    (hwh : w < h) :
    ¬ (|inner ℝ (placed c e₁ e₂ (w / 2, h / 2) - c).toE (cross (unitVector n) (unitVector e₁)).toE| ≤
          w / 2 * ‖(cross (unitVector n) (unitVector e₁)).toE‖ ^ 2) := by
  obtain ⟨h1, h2, h3, h4, h5⟩ := id hf
  simp only [norm_toE, norm_eq_one_iff, inner_toE] at h1 h2 h3 h4 h5
  have hnu := unit_dot hn
  have h4' : dot (unitVector n) e₁ = 0 := by rw [unitVector, dot_div_left, dot_comm, h4, zero_div]
  rw [unitVector_of_unit h1]
  set T2 := cross (unitVector n) e₁ with hT2
  have h22 : dot T2 T2 = 1 := by rw [hT2, cross_dot_self, hnu, h1, h4']; norm_num
  have h2n : dot T2 n = 0 := by
    have : dot (unitVector n) T2 = 0 := dot_cross_left _ _
    rw [dot_comm, unitVector_smul_dot hn, this, mul_zero]
  have h21 : dot T2 e₁ = 0 := by rw [dot_comm]; exact dot_cross_right _ _
  have hb : dot T2 e₂ ^ 2 = 1 := by
    have := frame_dot hn hf h2n T2
    rw [h22, h21] at this; linarith
  have hb' : |dot T2 e₂| = 1 := by rw [← abs_one, ← sq_eq_sq_iff_abs_eq_abs, hb, one_pow]
  have hpl : dot (placed c e₁ e₂ (w / 2, h / 2) - c) T2 = h / 2 * dot T2 e₂ := by
    have : dot (placed c e₁ e₂ (w / 2, h / 2) - c) T2 = dot T2 e₁ * (w / 2) + dot T2 e₂ * (h / 2) := by
      simp only [placed, dot, sub_x, sub_y, sub_z, add_x, add_y, add_z, smul_x, smul_y, smul_z]; ring
    rw [this, h21]; ring
  rw [inner_toE, hpl, norm_toE, norm_sq, h22, abs_mul, hb', abs_of_pos (by linarith)]
  linarith

/-- C77 is false: whatever the normal, some mirror has a drawn corner that no ray can hit. -/
theorem C77_counterexample (n : V3 ℝ) (hn : n ≠ ⟨0, 0, 0⟩) (circle : List (ℝ × ℝ)) :
    ∃ tan : V3 ℝ, tan ≠ ⟨0, 0, 0⟩ ∧ inner ℝ n.toE tan.toE = 0 ∧
      ∃ m seg x, Mirror.new ⟨0, 0, 0⟩ "rectangular_flat" (some n) none (some 1) (some 2) none (some tan) "normal"
          (some n) = .ok m ∧ m.draw circle "3d" = .ok ([.patch seg], m) ∧ x ∈ seg ∧ ¬ (Optic.mirror m).CanBeHit x := by
  obtain ⟨e₁, e₂, hf, H⟩ := C77_rectangle_mirror_partial n hn
  have hne : e₁ ≠ ⟨0, 0, 0⟩ := by
    have := hf.unit₁; rw [norm_toE, norm_eq_one_iff] at this; exact ne_zero_of_dot_one this
  have hperp : inner ℝ n.toE e₁.toE = 0 := by rw [real_inner_comm]; exact hf.perp₁
  obtain ⟨C, hC⟩ := rectangle_new_perp ⟨0, 0, 0⟩ n e₁ (h := 2) (w := 1) (by norm_num) (by norm_num) hperp
  obtain ⟨m, hm⟩ : ∃ m, Mirror.new (⟨0, 0, 0⟩ : V3 ℝ) "rectangular_flat" (some n) none (some 1) (some 2) none (some e₁)
      "normal" (some n) = .ok m := by
    simp only [Mirror.new, need, bind, Except.bind, pure, Except.pure]
    rw [if_neg (by decide), if_pos trivial, hC]
    exact ⟨_, rfl⟩
  refine ⟨e₁, hne, hperp, m, _, placed ⟨0, 0, 0⟩ e₁ e₂ (1 / 2, 2 / 2), hm,
    (H _ e₁ hne hperp none none 1 2 one_pos two_pos "normal" n hn m hm circle "3d" (Or.inl rfl)).1, by simp, ?_⟩
  rw [canBeHit_flat hn (fun ray hd => rectMirror_flat hn hne one_pos two_pos hn hm ray hd)]
  exact fun h => corner_off hn hf _ one_pos one_lt_two h.2.2

/-- The same for gratings. -/
theorem C77_counterexample_grating (n : V3 ℝ) (hn : n ≠ ⟨0, 0, 0⟩) :
    ∃ tan : V3 ℝ, tan ≠ ⟨0, 0, 0⟩ ∧ inner ℝ n.toE tan.toE = 0 ∧
      ∃ g seg x, Grating.new ⟨0, 0, 0⟩ n tan "rectangular_flat" (some 1) (some 2) none = .ok g ∧
        g.draw "3d" = .ok ([.patch seg], g) ∧ x ∈ seg ∧ ¬ (Optic.grating g).CanBeHit x := by
  obtain ⟨e₁, e₂, hf, H⟩ := C77_grating_partial n hn
  have hne : e₁ ≠ ⟨0, 0, 0⟩ := by
    have := hf.unit₁; rw [norm_toE, norm_eq_one_iff] at this; exact ne_zero_of_dot_one this
  have hperp : inner ℝ n.toE e₁.toE = 0 := by rw [real_inner_comm]; exact hf.perp₁
  obtain ⟨C, hC⟩ := rectangle_new_perp ⟨0, 0, 0⟩ n e₁ (h := 2) (w := 1) (by norm_num) (by norm_num) hperp
  obtain ⟨g, hg⟩ : ∃ g, Grating.new (⟨0, 0, 0⟩ : V3 ℝ) n e₁ "rectangular_flat" (some 1) (some 2) none = .ok g := by
    simp only [Grating.new, bind, Except.bind, pure, Except.pure, if_true, hC]
    exact ⟨_, rfl⟩
  refine ⟨e₁, hne, hperp, g, _, placed ⟨0, 0, 0⟩ e₁ e₂ (1 / 2, 2 / 2), hg,
    (H _ e₁ hne hperp 1 2 none one_pos two_pos g hg "3d" (Or.inl rfl)).1, by simp, ?_⟩
  rw [canBeHit_flat hn (fun ray hd => rectGrating_flat hn hne one_pos two_pos hg ray hd)]
  exact fun h => corner_off hn hf _ one_pos one_lt_two h.2.2

/-! ## C78 -/

/-- The points of a rectangle in space, by their coordinates and as a convex hull. -/
theorem rect_hull {n T S : V3 ℝ} (hn : n ≠ ⟨0, 0, 0⟩) (hf : PlaneFrame n T S) (c : V3 ℝ) {w h : ℝ} (hw : 0 < w)
    (hh : 0 < h) (x : V3 ℝ) :
    (OnPlane c n x ∧ |dot (x - c) T| ≤ h / 2 ∧ |dot (x - c) S| ≤ w / 2) ↔
      x.toE ∈ convexHull ℝ {(c + h / 2 * T - w / 2 * S).toE, (c + h / 2 * T + w / 2 * S).toE,
        (c - h / 2 * T + w / 2 * S).toE, (c - h / 2 * T - w / 2 * S).toE} := by
  obtain ⟨h1, h2, h3, h4, h5⟩ := id hf
  simp only [norm_toE, norm_eq_one_iff, inner_toE] at h1 h2 h3 h4 h5
  have h3' : dot S T = 0 := by rw [dot_comm]; exact h3
  constructor
  · rintro ⟨hp, ha, hb⟩
    obtain ⟨⟨a, b⟩, rfl⟩ := (frame_coords hn hf c x).mp hp
    have ea : dot (placed c T S (a, b) - c) T = a := by
      have : dot (placed c T S (a, b) - c) T = a * dot T T + b * dot S T := by
        simp only [placed, dot, sub_x, sub_y, sub_z, add_x, add_y, add_z, smul_x, smul_y, smul_z]; ring
      rw [this, h1, h3']; ring
    have eb : dot (placed c T S (a, b) - c) S = b := by
      have : dot (placed c T S (a, b) - c) S = a * dot T S + b * dot S S := by
        simp only [placed, dot, sub_x, sub_y, sub_z, add_x, add_y, add_z, smul_x, smul_y, smul_z]; ring
      rw [this, h2, h3]; ring
    rw [ea, abs_le] at ha
    rw [eb, abs_le] at hb
    set K : Set _ := {(c + h / 2 * T - w / 2 * S).toE, (c + h / 2 * T + w / 2 * S).toE,
        (c - h / 2 * T + w / 2 * S).toE, (c - h / 2 * T - w / 2 * S).toE} with hK
    have hcv := convex_convexHull ℝ K
    have m0 := subset_convexHull ℝ K (show (c + h / 2 * T - w / 2 * S).toE ∈ K by simp [hK])
    have m1 := subset_convexHull ℝ K (show (c + h / 2 * T + w / 2 * S).toE ∈ K by simp [hK])
    have m2 := subset_convexHull ℝ K (show (c - h / 2 * T + w / 2 * S).toE ∈ K by simp [hK])
    have m3 := subset_convexHull ℝ K (show (c - h / 2 * T - w / 2 * S).toE ∈ K by simp [hK])
    have t0 : 0 ≤ 1 / 2 + b / w := by
      have : -1 / 2 ≤ b / w := by rw [le_div_iff₀ hw]; linarith
      linarith
    have t1 : 0 ≤ 1 / 2 - b / w := by
      have : b / w ≤ 1 / 2 := by rw [div_le_iff₀ hw]; linarith
      linarith
    have s0 : 0 ≤ 1 / 2 + a / h := by
      have : -1 / 2 ≤ a / h := by rw [le_div_iff₀ hh]; linarith
      linarith
    have s1 : 0 ≤ 1 / 2 - a / h := by
      have : a / h ≤ 1 / 2 := by rw [div_le_iff₀ hh]; linarith
      linarith
    have q1 := hcv m1 m0 t0 t1 (by ring)
    have q2 := hcv m2 m3 t0 t1 (by ring)
    have q := hcv q1 q2 s0 s1 (by ring)
    convert q using 1
    simp only [← toE_smul, ← toE_add]
    congr 1
    have e1 : b / w * w = b := by field_simp
    have e2 : a / h * h = a := by field_simp
    ext <;> simp only [placed, sub_x, sub_y, sub_z, add_x, add_y, add_z, smul_x, smul_y, smul_z]
    · linear_combination (-S.x) * e1 - T.x * e2
    · linear_combination (-S.y) * e1 - T.y * e2
    · linear_combination (-S.z) * e1 - T.z * e2
  · intro hx
    have key := convexHull_min (t := {y | inner ℝ (y - c.toE) n.toE = 0 ∧ |inner ℝ (y - c.toE) T.toE| ≤ h / 2 ∧
      |inner ℝ (y - c.toE) S.toE| ≤ w / 2}) ?_ ?_ hx
    · obtain ⟨k1, k2, k3⟩ := key
      rw [← toE_sub, inner_toE] at k1 k2 k3
      refine ⟨?_, k2, k3⟩
      rw [onPlane_iff]; exact k1
    · intro y hy
      have hc : ∀ σ τ : ℝ, (σ = h / 2 ∨ σ = -(h / 2)) → (τ = w / 2 ∨ τ = -(w / 2)) → y = (c + σ * T + τ * S).toE →
          inner ℝ (y - c.toE) n.toE = 0 ∧ |inner ℝ (y - c.toE) T.toE| ≤ h / 2 ∧
            |inner ℝ (y - c.toE) S.toE| ≤ w / 2 := by
        rintro σ τ hσ hτ rfl
        simp only [← toE_sub, inner_toE]
        have ex : ∀ v : V3 ℝ, dot (c + σ * T + τ * S - c) v = σ * dot T v + τ * dot S v := fun v => by
          simp only [dot, sub_x, sub_y, sub_z, add_x, add_y, add_z, smul_x, smul_y, smul_z]; ring
        rw [ex, ex, ex, h1, h2, h3, h3', h4, h5]
        refine ⟨by ring, ?_, ?_⟩
        · rcases hσ with rfl | rfl <;> rw [abs_le] <;> constructor <;> linarith
        · rcases hτ with rfl | rfl <;> rw [abs_le] <;> constructor <;> linarith
      rcases hy with rfl | rfl | rfl | rfl
      · refine hc (h / 2) (-(w / 2)) (Or.inl rfl) (Or.inr rfl) ?_
        congr 1; ext <;> simp only [sub_x, sub_y, sub_z, add_x, add_y, add_z, smul_x, smul_y, smul_z] <;> ring
      · exact hc (h / 2) (w / 2) (Or.inl rfl) (Or.inl rfl) rfl
      · refine hc (-(h / 2)) (w / 2) (Or.inr rfl) (Or.inl rfl) ?_
        congr 1; ext <;> simp only [sub_x, sub_y, sub_z, add_x, add_y, add_z, smul_x, smul_y, smul_z] <;> ring
      · refine hc (-(h / 2)) (-(w / 2)) (Or.inr rfl) (Or.inr rfl) ?_
        congr 1; ext <;> simp only [sub_x, sub_y, sub_z, add_x, add_y, add_z, smul_x, smul_y, smul_z] <;> ring
    · rintro y ⟨y1, y2, y3⟩ z ⟨z1, z2, z3⟩ a b ha hb hab
      have e : ∀ v : EuclideanSpace ℝ (Fin 3), inner ℝ (a • y + b • z - c.toE) v
          = a * inner ℝ (y - c.toE) v + b * inner ℝ (z - c.toE) v := by
        intro v
        simp only [inner_sub_left, inner_add_left, real_inner_smul_left]
        linear_combination (inner ℝ c.toE v) * hab
      rw [abs_le] at y2 y3 z2 z3
      refine ⟨by rw [e, y1, z1]; ring, ?_, ?_⟩
      · rw [e, abs_le]; constructor <;> nlinarith
      · rw [e, abs_le]; constructor <;> nlinarith

/-- C78: a detector draws a rectangle, its vertices in order, whose points are those at which it can be hit. -/
theorem C78_detector (id : Nat) (position n tan : V3 ℝ) (hn : n ≠ ⟨0, 0, 0⟩) (htan : tan ≠ ⟨0, 0, 0⟩)
    (hperp : inner ℝ n.toE tan.toE = 0) (w h : ℝ) (hw : 0 < w) (hh : 0 < h) (d : Detector ℝ)
    (hd : Detector.new id position n tan "rectangular_flat" (some w) (some h) = .ok d) (view : String)
    (hv : View3d view) : ∃ p₀ p₁ p₂ p₃ : V3 ℝ,
      d.draw view = [.polygon [p₀, p₁, p₂, p₃]] ∧
      (dist p₀.toE p₁.toE = w ∧ dist p₁.toE p₂.toE = h ∧ dist p₂.toE p₃.toE = w ∧ dist p₃.toE p₀.toE = h) ∧
      ∀ x, (Optic.detector d).CanBeHit x ↔ x.toE ∈ convexHull ℝ {p₀.toE, p₁.toE, p₂.toE, p₃.toE} := by
  have hnu := unit_dot hn
  have htu := unit_dot htan
  have hnt : dot (unitVector n) (unitVector tan) = 0 := by
    rw [inner_toE] at hperp
    rw [unitVector, unitVector, dot_div_left, dot_div_right, hperp]; norm_num
  have htn : dot (unitVector tan) n = 0 := by
    rw [inner_toE] at hperp
    rw [unitVector, dot_div_left, dot_comm, hperp, zero_div]
  have hch : ∀ x, (Optic.detector d).CanBeHit x ↔ _ :=
    fun x => canBeHit_flat hn (fun ray hr => rectDetector_flat hn htan hw hh hd ray hr) x
  obtain ⟨v1, v2, v3⟩ := view3d_cases hv
  simp only [Detector.new, bind, Except.bind, pure, Except.pure, if_true] at hd
  cases hC : Rectangle.new position n tan (some h) (some w) with
  | error e => rw [hC] at hd; cases hd
  | ok C =>
  rw [hC] at hd
  obtain rfl := Except.ok.inj hd
  obtain ⟨q, hq⟩ := rectangle_new_perp position n tan hh.le hw.le hperp
  have hCq : C = ⟨position, unitVector n, unitVector tan, cross (unitVector n) (unitVector tan), h, w,
      position + h / 2 * unitVector tan - w / 2 * cross (unitVector n) (unitVector tan),
      position + h / 2 * unitVector tan + w / 2 * cross (unitVector n) (unitVector tan),
      position - h / 2 * unitVector tan + w / 2 * cross (unitVector n) (unitVector tan),
      position - h / 2 * unitVector tan - w / 2 * cross (unitVector n) (unitVector tan), Plane.new position n⟩ := by
    simp only [Rectangle.new] at hC
    split at hC
    · cases hC
    · simp only [checkHAndW, lit0, lit2, if_neg (not_lt.mpr hh.le), if_neg (not_lt.mpr hw.le)] at hC
      exact (Except.ok.inj hC).symm
  subst hCq
  set T := unitVector tan with hT
  set S := cross (unitVector n) T with hS
  have h22 : dot S S = 1 := by rw [hS, cross_dot_self, hnu, htu, hnt]; norm_num
  have h2n : dot S n = 0 := by
    have : dot (unitVector n) S = 0 := dot_cross_left _ _
    rw [dot_comm, unitVector_smul_dot hn, this, mul_zero]
  have hTS : dot T S = 0 := dot_cross_right _ _
  have hf : PlaneFrame n T S := by
    constructor <;> simp only [norm_toE, norm_eq_one_iff, inner_toE] <;> assumption
  have hdist : ∀ (a b u v : V3 ℝ) (r : ℝ), 0 < r → dot v v = 1 → a - b = r * v ∨ a - b = (-r) * v →
      dist a.toE b.toE = r := by
    intro a b u v r hr hv e
    rw [dist_toE_eq, norm_eq]
    rw [Real.sqrt_eq_iff_mul_self_eq_of_pos hr]
    rcases e with e | e <;> rw [e, dot_smul_left, dot_smul_right, hv] <;> ring
  refine ⟨position + h / 2 * T - w / 2 * S, position + h / 2 * T + w / 2 * S, position - h / 2 * T + w / 2 * S,
    position - h / 2 * T - w / 2 * S, ?_, ⟨hdist _ _ S S w hw h22 (Or.inr ?_), hdist _ _ S T h hh htu (Or.inl ?_),
    hdist _ _ S S w hw h22 (Or.inl ?_), hdist _ _ S T h hh htu (Or.inr ?_)⟩, fun x => ?_⟩
  · unfold Detector.draw
    simp only [if_pos v3, if_true, List.filterMap_cons, List.filterMap_nil]
  · ext <;> simp only [sub_x, sub_y, sub_z, add_x, add_y, add_z, smul_x, smul_y, smul_z] <;> ring
  · ext <;> simp only [sub_x, sub_y, sub_z, add_x, add_y, add_z, smul_x, smul_y, smul_z] <;> ring
  · ext <;> simp only [sub_x, sub_y, sub_z, add_x, add_y, add_z, smul_x, smul_y, smul_z] <;> ring
  · ext <;> simp only [sub_x, sub_y, sub_z, add_x, add_y, add_z, smul_x, smul_y, smul_z] <;> ring
  · rw [hch, ← rect_hull hn hf position hw hh, inner_toE, inner_toE, norm_toE, norm_sq, h22, mul_one]

/-- A detector that C78 is about. -/
example : ∃ d, Detector.new 0 (⟨1, 2, 3⟩ : V3 ℝ) ⟨2, 0, 0⟩ ⟨0, 3, 4⟩ "rectangular_flat" (some 2) (some 4) = .ok d ∧
    ∃ p₀ p₁ p₂ p₃, d.draw "3d" = [.polygon [p₀, p₁, p₂, p₃]] := by
  have hp : inner ℝ (⟨2, 0, 0⟩ : V3 ℝ).toE (⟨0, 3, 4⟩ : V3 ℝ).toE = 0 := by rw [inner_toE]; simp [dot]
  obtain ⟨r, hr⟩ := rectangle_new_perp ⟨1, 2, 3⟩ ⟨2, 0, 0⟩ ⟨0, 3, 4⟩ (h := 4) (w := 2) (by norm_num) (by norm_num) hp
  obtain ⟨d, hd⟩ : ∃ d, Detector.new 0 (⟨1, 2, 3⟩ : V3 ℝ) ⟨2, 0, 0⟩ ⟨0, 3, 4⟩ "rectangular_flat" (some 2) (some 4)
      = .ok d := by
    simp only [Detector.new, bind, Except.bind, pure, Except.pure, if_true, hr]
    exact ⟨_, rfl⟩
  obtain ⟨p₀, p₁, p₂, p₃, h, -⟩ := C78_detector 0 ⟨1, 2, 3⟩ ⟨2, 0, 0⟩ ⟨0, 3, 4⟩ (by simp) (by simp) hp 2 4 (by norm_num)
    (by norm_num) _ hd "3d" (Or.inl rfl)
  exact ⟨_, hd, p₀, p₁, p₂, p₃, h⟩

/-! ## C79 -/

theorem need_unit {n : V3 ℝ} (hn : n ≠ ⟨0, 0, 0⟩) (verts : List (ℝ × ℝ)) (c : V3 ℝ) :
    ∃ seg, drawPatch verts (some (unitVector n)) c = .ok (.patch seg, unitVector n) := by
  obtain ⟨e₁, e₂, -, h⟩ := drawPatch_frame n hn
  exact ⟨_, h verts c⟩

theorem mirror_draw_3d {position : V3 ℝ} {shape : String} {n t : Option (V3 ℝ)} {D w h f : Option ℝ} {type : String}
    {dmd : V3 ℝ} {m : Mirror ℝ} (hn : NonZeroVec n) (hm : Mirror.new position shape n D w h f t type (some dmd) = .ok m)
    (circle : List (ℝ × ℝ)) {view : String} (hv : View3d view) : ∃ a, m.draw circle view = .ok ([a], m) := by
  obtain ⟨v1, v2, v3⟩ := view3d_cases hv
  have hne : ∀ {n' : V3 ℝ}, n = some n' → n' ≠ ⟨0, 0, 0⟩ := fun e e' => hn (by rw [e, e'])
  simp only [Mirror.new, need, bind, Except.bind, pure, Except.pure] at hm
  unfold Mirror.draw
  simp only [if_neg v1, if_neg v2, if_pos v3]
  by_cases s1 : shape = "circular_flat"
  · subst s1
    rw [if_pos rfl] at hm
    cases n with
    | none => cases hm
    | some n =>
    cases D with
    | none => simp [Circle.new, checkRAndD, bind, Except.bind] at hm
    | some D =>
    simp only [Circle.new, checkRAndD, bind, Except.bind, pure, Except.pure] at hm
    obtain rfl := Except.ok.inj hm
    obtain ⟨seg, hs⟩ := need_unit (hne rfl) (circleVerts circle (D / 2.0)) position
    simp only [if_true, need, bind, Except.bind, pure, Except.pure, hs]
    exact ⟨_, rfl⟩
  · rw [if_neg s1] at hm
    by_cases s2 : shape = "rectangular_flat"
    · subst s2
      rw [if_pos rfl] at hm
      cases n with
      | none => cases hm
      | some n =>
      cases t with
      | none => cases hm
      | some t =>
      cases hC : Rectangle.new position n t h w with
      | error e => simp only [hC] at hm; cases hm
      | ok C =>
      simp only [hC] at hm
      obtain rfl := Except.ok.inj hm
      simp only [Rectangle.new] at hC
      split at hC
      · cases hC
      · cases h with
        | none => simp [checkHAndW, bind, Except.bind] at hC
        | some h =>
        cases w with
        | none => simp [checkHAndW, bind, Except.bind] at hC
        | some w =>
        obtain ⟨seg, hs⟩ := need_unit (hne rfl) (rectangleVerts (-w / 2.0) (-h / 2.0) w h) position
        simp only [if_neg s1, if_true, need, bind, Except.bind, pure, Except.pure, hs]
        exact ⟨_, rfl⟩
    · rw [if_neg s2] at hm
      by_cases s3 : shape = "circular_concave_spherical"
      · subst s3
        rw [if_pos rfl] at hm
        cases n with
        | none => cases hm
        | some n =>
        cases f with
        | none => cases hm
        | some f =>
        cases D with
        | none => simp [Circle.new, checkRAndD, bind, Except.bind] at hm
        | some D =>
        simp only [Circle.new, Sphere.new, checkRAndD, bind, Except.bind, pure, Except.pure] at hm
        obtain rfl := Except.ok.inj hm
        obtain ⟨seg, hs⟩ := need_unit (hne rfl) (circleVerts circle (D / 2.0)) position
        simp only [if_neg s1, if_neg s2, if_true, need, bind, Except.bind, pure, Except.pure, hs]
        exact ⟨_, rfl⟩
      · rw [if_neg s3] at hm
        by_cases s4 : shape = "circular_convex_spherical"
        · subst s4
          rw [if_pos rfl] at hm
          cases D with
          | none => simp [Sphere.new, checkRAndD, bind, Except.bind] at hm
          | some D =>
          simp only [Sphere.new, checkRAndD, bind, Except.bind, pure, Except.pure] at hm
          obtain rfl := Except.ok.inj hm
          simp only [if_neg s1, if_neg s2, if_neg s3, if_true, need, bind, Except.bind, pure, Except.pure]
          exact ⟨_, rfl⟩
        · rw [if_neg s4] at hm; cases hm

theorem lens_draw_3d {position : V3 ℝ} {n : Option (V3 ℝ)} {shape : String} {D w h f : Option ℝ} {type : String}
    {index : ℝ} {l : Lens ℝ} (hn : NonZeroVec n) (hn' : shape = "spherical_biconvex" → n ≠ none)
    (hl : Lens.new position n shape D w h f type index = .ok l)
    (circle : List (ℝ × ℝ)) {view : String} (hv : View3d view) : ∃ a, l.draw circle view = .ok ([a], l) := by
  obtain ⟨v1, v2, v3⟩ := view3d_cases hv
  simp only [Lens.new, bind, Except.bind, pure, Except.pure] at hl
  unfold Lens.draw
  simp only [if_pos v3]
  by_cases s1 : shape = "spherical_biconvex"
  · subst s1
    rw [if_pos rfl] at hl
    cases n with
    | none => exact absurd rfl (hn' rfl)
    | some n =>
    cases D with
    | none => simp [Circle.new, checkRAndD, bind, Except.bind] at hl
    | some D =>
    simp only [Circle.new, checkRAndD, bind, Except.bind, pure, Except.pure] at hl
    obtain rfl := Except.ok.inj hl
    obtain ⟨seg, hs⟩ := need_unit (n := n) (fun e => hn (by rw [e])) (circleVerts circle (D / 2.0)) position
    simp only [if_true, need, bind, Except.bind, pure, Except.pure, Option.map_some, hs]
    exact ⟨_, rfl⟩
  · rw [if_neg s1] at hl
    by_cases s2 : shape = "spherical"
    · subst s2
      rw [if_pos rfl] at hl
      cases D with
      | none => simp [Sphere.new, checkRAndD, bind, Except.bind] at hl
      | some D =>
      simp only [Sphere.new, checkRAndD, bind, Except.bind, pure, Except.pure] at hl
      obtain rfl := Except.ok.inj hl
      simp only [if_neg s1, if_true, need, bind, Except.bind, pure, Except.pure]
      exact ⟨_, rfl⟩
    · rw [if_neg s2] at hl; cases hl

theorem grating_draw_3d {position n t : V3 ℝ} {shape : String} {w h G : Option ℝ} {g : Grating ℝ}
    (hn : n ≠ ⟨0, 0, 0⟩) (hg : Grating.new position n t shape w h G = .ok g) {view : String} (hv : View3d view) :
    ∃ a, g.draw view = .ok ([a], g) := by
  obtain ⟨v1, v2, v3⟩ := view3d_cases hv
  simp only [Grating.new, bind, Except.bind, pure, Except.pure] at hg
  unfold Grating.draw
  simp only [if_pos v3]
  by_cases s1 : shape = "rectangular_flat"
  · subst s1
    rw [if_pos rfl] at hg
    cases hC : Rectangle.new position n t h w with
    | error e => simp only [hC] at hg; cases hg
    | ok C =>
    simp only [hC] at hg
    obtain rfl := Except.ok.inj hg
    simp only [Rectangle.new] at hC
    split at hC
    · cases hC
    · cases h with
      | none => simp [checkHAndW, bind, Except.bind] at hC
      | some h =>
      cases w with
      | none => simp [checkHAndW, bind, Except.bind] at hC
      | some w =>
      obtain ⟨seg, hs⟩ := need_unit hn (rectangleVerts (-w / 2.0) (-h / 2.0) w h) position
      simp only [if_true, need, bind, Except.bind, pure, Except.pure, hs]
      exact ⟨_, rfl⟩
  · rw [if_neg s1] at hg; cases hg

/-- Optics that draw themselves: the others inherit an empty `draw`. -/
def Optic.Drawn : Optic ℝ → Bool
  | .mirror _ | .lens _ | .grating _ | .detector _ => true
  | _ => false

/-- C79, 3D views: drawing a well-formed optic never raises, leaves it as it was, and adds one artist to the axes for
a mirror, lens, grating or detector and none for the others. -/
theorem C79_three_d (o : Optic ℝ) (ho : o.WellFormed) (circle : List (ℝ × ℝ)) (view : String) (hv : View3d view) :
    ∃ as, o.draw circle view = .ok (as, o) ∧ as.length = if o.Drawn then 1 else 0 := by
  cases ho with
  | mirror hn _ _ _ _ hm =>
    obtain ⟨a, ha⟩ := mirror_draw_3d hn hm circle hv
    exact ⟨[a], by simp only [Optic.draw, ha, bind, Except.bind, pure, Except.pure], rfl⟩
  | lens hn hn' _ _ hl _ =>
    obtain ⟨a, ha⟩ := lens_draw_3d hn hn' hl circle hv
    exact ⟨[a], by simp only [Optic.draw, ha, bind, Except.bind, pure, Except.pure], rfl⟩
  | grating hn _ hg =>
    obtain ⟨a, ha⟩ := grating_draw_3d hn hg hv
    exact ⟨[a], by simp only [Optic.draw, ha, bind, Except.bind, pure, Except.pure], rfl⟩
  | @detector id position n t shape w h d hn ht hd =>
    refine ⟨_, rfl, ?_⟩
    obtain ⟨v1, v2, v3⟩ := view3d_cases hv
    simp only [Detector.new, bind, Except.bind, pure, Except.pure] at hd
    by_cases s1 : shape = "rectangular_flat"
    · subst s1
      rw [if_pos rfl] at hd
      cases hC : Rectangle.new position n t h w with
      | error e => simp only [hC] at hd; cases hd
      | ok C =>
      simp only [hC] at hd
      obtain rfl := Except.ok.inj hd
      unfold Detector.draw
      simp only [if_pos v3, if_true, List.filterMap_cons, List.filterMap_nil]
      rfl
    · rw [if_neg s1] at hd; cases hd
  | compound => exact ⟨[], rfl, rfl⟩
  | annotation => exact ⟨[], rfl, rfl⟩
  | filter => exact ⟨[], rfl, rfl⟩
  | window => exact ⟨[], rfl, rfl⟩

/-- The 2D views, with the coordinate each shows upwards. -/
inductive View2d : String → (V3 ℝ → ℝ) → Prop
  | xy : View2d "xy" (·.y)
  | tangential : View2d "tangential" (·.y)
  | xz : View2d "xz" (·.z)
  | sagittal : View2d "sagittal" (·.z)

/-- C79, 2D views: a flat circular mirror is a dot, any other mirror raises `ValueError`, nothing else draws. -/
theorem C79_two_d (o : Optic ℝ) (circle : List (ℝ × ℝ)) (view : String) (up : V3 ℝ → ℝ) (hv : View2d view up) :
    match (generalizing := false) o with
    | .mirror m => m.draw circle view =
        if m.shape = "circular_flat" then .ok ([.dot m.position.x (up m.position)], m) else .error .valueError
    | o => o.draw circle view = .ok ([], o) := by
  cases o <;> cases hv <;> rfl

/-- C79, any other view: nothing is drawn. -/
theorem C79_other_views (o : Optic ℝ) (circle : List (ℝ × ℝ)) (view : String) (h3 : ¬ View3d view)
    (h2 : ∀ up, ¬ View2d view up) : o.draw circle view = .ok ([], o) := by
  have v3 : ¬ (view = "3d" ∨ view = "xyz") := h3
  have v1 : ¬ (view = "xy" ∨ view = "tangential") := by
    rintro (rfl | rfl); exacts [h2 _ .xy, h2 _ .tangential]
  have v2 : ¬ (view = "xz" ∨ view = "sagittal") := by
    rintro (rfl | rfl); exacts [h2 _ .xz, h2 _ .sagittal]
  cases o <;> simp only [Optic.draw, Mirror.draw, Lens.draw, Grating.draw, Detector.draw, if_neg v1, if_neg v2,
    if_neg v3, bind, Except.bind, pure, Except.pure]

/-- C79: whatever the view, an optic that was drawn is as it was. -/
theorem C79_unchanged (o : Optic ℝ) (ho : o.WellFormed) (circle : List (ℝ × ℝ)) (view : String) (as : List (Artist ℝ))
    (o' : Optic ℝ) (h : o.draw circle view = .ok (as, o')) : o' = o := by
  by_cases h3 : View3d view
  · obtain ⟨as', e, -⟩ := C79_three_d o ho circle view h3
    rw [e] at h; cases h; rfl
  · by_cases h2 : ∃ up, View2d view up
    · obtain ⟨up, h2⟩ := h2
      have := C79_two_d o circle view up h2
      cases o with
      | mirror m =>
        simp only [] at this
        simp only [Optic.draw, this] at h
        split at h
        · simp only [bind, Except.bind, pure, Except.pure] at h; cases h; rfl
        · cases h
      | _ => simp only [] at this; rw [this] at h; cases h; rfl
    · rw [C79_other_views o circle view h3 (fun up hu => h2 ⟨up, hu⟩)] at h
      cases h; rfl

/-- A mirror that C79 is about. -/
example : ∃ m, Mirror.new (⟨1, 2, 3⟩ : V3 ℝ) "circular_flat" (some ⟨0, 3, 4⟩) (some 2) none none none none "normal"
    (some ⟨0, 0, 1⟩) = .ok m ∧ (Optic.mirror m).WellFormed ∧
    (∃ a, (Optic.mirror m).draw [] "3d" = .ok ([a], .mirror m)) ∧
    m.draw [] "xz" = .ok ([.dot 1 3], m) ∧ (Optic.mirror m).draw [] "top" = .ok ([], .mirror m) := by
  have hw : (Optic.mirror _).WellFormed := .mirror (position := ⟨1, 2, 3⟩) (shape := "circular_flat")
    (n := some ⟨0, 3, 4⟩) (t := none) (D := some 2) (w := none) (h := none) (f := none) (type := "normal")
    (dmd := ⟨0, 0, 1⟩) (by simp [NonZeroVec]) (by simp [NonZeroVec]) (by simp) (by simp [NonZero]) (by simp [NonZero])
    rfl
  refine ⟨_, rfl, hw, ?_, rfl, ?_⟩
  · obtain ⟨as, h, hl⟩ := C79_three_d _ hw [] "3d" (Or.inl rfl)
    obtain ⟨a, rfl⟩ := List.length_eq_one_iff.mp hl
    exact ⟨a, h⟩
  · exact C79_other_views _ [] "top" (by simp [View3d]) (fun up h => by
      generalize e : "top" = v at h; cases h <;> exact absurd e (by decide))

end Optics
