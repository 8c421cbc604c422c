import Verif.Spec.BallMirrors
import Verif.Lemmas.Shapes

/-!
# A ray that touches one mirror ball behind it and is about to hit another

The ball `A` around `(0, 1, -5)` is touched by the z axis at `(0, 0, -5)`; the ball `B` begins on the z axis at
`5 + 5e-13`.  Both have the radius 1.
-/

namespace Optics
open V3

namespace TouchedBall

/-- A mirror ball of radius 1. -/
noncomputable def ball (c : V3 ℝ) : Mirror ℝ :=
  { position := c, shape := "circular_convex_spherical", D := some 2, w := none, h := none, f := none,
    type := "normal", dmdNormal := ⟨0, 0, 1⟩, normal := none, surfaces := [.sphere ⟨c, 1, 2⟩] }

theorem unit_z : unitVector (⟨0, 0, 1⟩ : V3 ℝ) = ⟨0, 0, 1⟩ := by
  unfold unitVector V3.norm dot; ext <;> norm_num [real_sqrt]

theorem ball_new (c : V3 ℝ) : Mirror.new c "circular_convex_spherical" none (some (2 * 1)) none none none none "normal"
    (some ⟨0, 0, 1⟩) = .ok (ball c) := by
  simp [Mirror.new, Sphere.new, checkRAndD, need, bind, Except.bind, pure, Except.pure, unit_z, ball, lit2]

/-- The centre of the second ball. -/
noncomputable def cB : V3 ℝ := ⟨0, 0, 6 + 5 / 10 ^ 13⟩

theorem sphereA (p : ℝ) (ray : Ray ℝ) (hp : ray.position = ⟨0, 0, p⟩) (hd : ray.direction = ⟨0, 0, 1⟩) :
    Sphere.testIntersect ⟨⟨0, 1, -5⟩, 1, 2⟩ ray = Hit6.one ⟨0, 0, -5⟩ ⟨0, 1, 0⟩ 2 := by
  rw [sphere_eq]
  have hD : sphDisc ⟨0, 1, -5⟩ ray.position ray.direction 1 = 0 := by rw [hp, hd]; simp [sphDisc, dot]
  have hv : dot ray.direction ((⟨0, 1, -5⟩ : V3 ℝ) - ray.position) = -5 - p := by rw [hp, hd]; simp [dot]
  have hl : lineAt ray.position ray.direction (-5 - p) = ⟨0, 0, -5⟩ := by
    rw [hp, hd]; ext <;> simp [lineAt]
  simp only [hD, hv, hl, lt_irrefl, if_false, if_true]
  unfold Hit6.one Sphere.normal unitVector V3.norm dot
  congr 2
  ext <;> norm_num [real_sqrt]

theorem sphereB0 (ray : Ray ℝ) (hp : ray.position = ⟨0, 0, 0⟩) (hd : ray.direction = ⟨0, 0, 1⟩) :
    Sphere.testIntersect ⟨cB, 1, 2⟩ ray =
      Hit6.two ⟨0, 0, 7 + 5 / 10 ^ 13⟩ ⟨0, 0, 5 + 5 / 10 ^ 13⟩ ⟨0, 0, -1⟩ ⟨0, 0, 1⟩ 2 := by
  rw [sphere_eq]
  have hD : sphDisc cB ray.position ray.direction 1 = 1 := by rw [hp, hd]; simp [sphDisc, dot, cB]
  have hv : dot ray.direction (cB - ray.position) = 6 + 5 / 10 ^ 13 := by rw [hp, hd]; simp [dot, cB]
  have hl : ∀ t, lineAt ray.position ray.direction t = ⟨0, 0, t⟩ := by
    intro t; rw [hp, hd]; ext <;> simp [lineAt]
  simp only [hD, hv, hl, Real.sqrt_one]
  rw [if_pos (by norm_num), if_pos (by norm_num)]
  unfold Hit6.two Sphere.normal unitVector V3.norm dot cB
  norm_num [real_sqrt]
  constructor <;> ext <;> norm_num

theorem sphereB5 (ray : Ray ℝ) (hp : ray.position = ⟨0, 0, 5⟩) (hd : ray.direction = ⟨0, 0, 1⟩) :
    Sphere.testIntersect ⟨cB, 1, 2⟩ ray = Hit6.one ⟨0, 0, 7 + 5 / 10 ^ 13⟩ ⟨0, 0, -1⟩ 1 := by
  rw [sphere_eq]
  have hD : sphDisc cB ray.position ray.direction 1 = 1 := by rw [hp, hd]; simp [sphDisc, dot, cB]
  have hv : dot ray.direction (cB - ray.position) = 1 + 5 / 10 ^ 13 := by rw [hp, hd]; simp [dot, cB]; ring
  have hl : ∀ t, lineAt ray.position ray.direction t = ⟨0, 0, 5 + t⟩ := by
    intro t; rw [hp, hd]; ext <;> simp [lineAt]
  simp only [hD, hv, hl, Real.sqrt_one]
  rw [if_pos (by norm_num), if_neg (by norm_num), if_pos (by norm_num)]
  unfold Hit6.one Sphere.normal unitVector V3.norm dot cB
  norm_num [real_sqrt]
  ext <;> norm_num

theorem dist_z (a b : ℝ) : distanceBetween (⟨0, 0, a⟩ : V3 ℝ) ⟨0, 0, b⟩ = |a - b| := by
  simp [distanceBetween, V3.norm, dot, real_sqrt, Real.sqrt_mul_self_eq_abs]

theorem mirrorA (p : ℝ) (ray : Ray ℝ) (hp : ray.position = ⟨0, 0, p⟩) (hd : ray.direction = ⟨0, 0, 1⟩) :
    (Optic.mirror (ball ⟨0, 1, -5⟩)).testIntersect ray =
      .ok ⟨true, some ⟨0, 0, -5⟩, some (-⟨0, 1, 0⟩), .count 2⟩ := by
  simp [Optic.testIntersect, Mirror.testIntersect, ball, sphereStep, sphereA p ray hp hd, Hit6.one, sphereUpdate,
    ltMin, PyNum.ltInf, need, bound, hp, bind, Except.bind, pure, Except.pure]

theorem mirrorB0 (ray : Ray ℝ) (hp : ray.position = ⟨0, 0, 0⟩) (hd : ray.direction = ⟨0, 0, 1⟩) :
    (Optic.mirror (ball cB)).testIntersect ray =
      .ok ⟨true, some ⟨0, 0, 5 + 5 / 10 ^ 13⟩, some (-⟨0, 0, 1⟩), .count 2⟩ := by
  have h1 : |(0 : ℝ) - (7 + 5 / 10 ^ 13)| = 7 + 5 / 10 ^ 13 := by rw [abs_of_neg] <;> norm_num
  have h2 : |(0 : ℝ) - (5 + 5 / 10 ^ 13)| = 5 + 5 / 10 ^ 13 := by rw [abs_of_neg] <;> norm_num
  have h3 : (5 + 5 / 10 ^ 13 : ℝ) < 7 + 5 / 10 ^ 13 := by norm_num
  simp only [Optic.testIntersect, Mirror.testIntersect, ball, sphereStep, sphereB0 ray hp hd, Hit6.two, sphereUpdate,
    ltMin, PyNum.ltInf, need, bound, hp, dist_z, bind, Except.bind, pure, Except.pure, List.foldlM, h1, h2]
  simp [h3]

theorem mirrorB5 (ray : Ray ℝ) (hp : ray.position = ⟨0, 0, 5⟩) (hd : ray.direction = ⟨0, 0, 1⟩) :
    (Optic.mirror (ball cB)).testIntersect ray =
      .ok ⟨true, some ⟨0, 0, 7 + 5 / 10 ^ 13⟩, some (-⟨0, 0, -1⟩), .count 1⟩ := by
  simp [Optic.testIntersect, Mirror.testIntersect, ball, sphereStep, sphereB5 ray hp hd, Hit6.one, sphereUpdate,
    ltMin, PyNum.ltInf, need, bound, hp, bind, Except.bind, pure, Except.pure]

theorem specularA : specular (⟨0, 0, 1⟩ : V3 ℝ) (-⟨0, 1, 0⟩) = ⟨0, 0, 1⟩ := by
  have h : unitVector (-⟨0, 1, 0⟩ : V3 ℝ) = ⟨0, -1, 0⟩ := by
    unfold unitVector V3.norm dot; ext <;> norm_num [real_sqrt]
  have e : (⟨0, 0, 1⟩ : V3 ℝ) - ((2.0 : ℝ) * dot ⟨0, 0, 1⟩ ⟨0, -1, 0⟩) * (⟨0, -1, 0⟩ : V3 ℝ) = ⟨0, 0, 1⟩ := by
    ext <;> norm_num [dot]
  simp only [specular, unit_z, h, e]

theorem ball_type (c : V3 ℝ) : (ball c).type = "normal" := rfl

/-- The first pass: the ray flies to `5`, as far as the touching point is behind it, and goes on. -/
theorem pass0 (s : RunState ℝ) (hp : s.ray.position = ⟨0, 0, 0⟩) (hd : s.ray.direction = ⟨0, 0, 1⟩)
    (hr : s.remaining = 100) (ht : s.ray.type = "normal") (hb : s.ray.blocked = false) :
    ∃ s', runStep (100 : ℝ) [.mirror (ball ⟨0, 1, -5⟩), .mirror (ball cB)] s = .next s' ∧
      s'.ray.position = ⟨0, 0, 5⟩ ∧ s'.ray.direction = ⟨0, 0, 1⟩ ∧ s'.remaining = 95 ∧ s'.ray.type = "normal" ∧
      s'.ray.blocked = false ∧ s'.ray.pointHistory = s.ray.pointHistory ++ [⟨0, 0, 5⟩] := by
  have hA := mirrorA 0 s.ray hp hd
  have hB := mirrorB0 s.ray hp hd
  have h1 : |(0 : ℝ) - -5| = 5 := by norm_num
  have h2 : |(0 : ℝ) - (5 + 5 / 10 ^ 13)| = 5 + 5 / 10 ^ 13 := by rw [abs_of_neg] <;> norm_num
  have hf : (⟨0, 0, 0⟩ : V3 ℝ) + (5 : ℝ) * (⟨0, 0, 1⟩ : V3 ℝ) = ⟨0, 0, 5⟩ := by ext <;> norm_num
  have c1 : ¬ ((5 : ℝ) > 100) := by norm_num
  have c2 : (5 : ℝ) > clippingFloor := by rw [clippingFloor_eq]; norm_num
  have c3 : ¬ ((5 + 5 / 10 ^ 13 : ℝ) > 100) := by norm_num
  have c4 : (5 + 5 / 10 ^ 13 : ℝ) > clippingFloor := by rw [clippingFloor_eq]; norm_num
  have c5 : ¬ ((5 + 5 / 10 ^ 13 : ℝ) < 5) := by norm_num
  have c6 : (100 : ℝ) - 5 = 95 := by norm_num
  simp only [runStep, List.foldlM, scanStep, Optic.skipped, hA, hB, bind, Except.bind, pure, Except.pure, need, hp, dist_z,
    h1, h2, hr, ltMin, PyNum.ltInf, if_true, if_false, c1, c2, c3, c4, c5, c6, Ray.fly, hd, hf, ht, hb, Optic.doIntersect,
    Mirror.doIntersect, ball_type, Ray.reflect, specularA, Functor.map, Except.map, decide_false, Bool.false_eq_true,
    Bool.not_true, show ¬ ("normal" = "faerie_fire") by decide]
  exact ⟨_, rfl, rfl, rfl, rfl, rfl, rfl, rfl⟩

/-- The second pass: `B` begins `5e-13` ahead, less than the clipping floor; the ray flies through it. -/
theorem pass1 (s : RunState ℝ) (hp : s.ray.position = ⟨0, 0, 5⟩) (hd : s.ray.direction = ⟨0, 0, 1⟩)
    (hr : s.remaining = 95) (ht : s.ray.type = "normal") :
    ∃ s', runStep (100 : ℝ) [.mirror (ball ⟨0, 1, -5⟩), .mirror (ball cB)] s = .next s' ∧
      s'.ray.pointHistory = s.ray.pointHistory ++ [⟨0, 0, 7 + 5 / 10 ^ 13⟩] := by
  have hA := mirrorA 5 s.ray hp hd
  have hB := mirrorB5 s.ray hp hd
  have h1 : |(5 : ℝ) - -5| = 10 := by norm_num
  have h2 : |(5 : ℝ) - (7 + 5 / 10 ^ 13)| = 2 + 5 / 10 ^ 13 := by rw [abs_of_neg] <;> norm_num
  have hf : (⟨0, 0, 5⟩ : V3 ℝ) + (2 + 5 / 10 ^ 13 : ℝ) * (⟨0, 0, 1⟩ : V3 ℝ) = ⟨0, 0, 7 + 5 / 10 ^ 13⟩ := by
    ext <;> norm_num
  have c1 : ¬ ((10 : ℝ) > 95) := by norm_num
  have c2 : (10 : ℝ) > clippingFloor := by rw [clippingFloor_eq]; norm_num
  have c3 : ¬ ((2 + 5 / 10 ^ 13 : ℝ) > 95) := by norm_num
  have c4 : (2 + 5 / 10 ^ 13 : ℝ) > clippingFloor := by rw [clippingFloor_eq]; norm_num
  have c5 : ((2 + 5 / 10 ^ 13 : ℝ) < 10) := by norm_num
  simp only [runStep, List.foldlM, scanStep, Optic.skipped, hA, hB, bind, Except.bind, pure, Except.pure, need, hp, dist_z,
    h1, h2, hr, ltMin, PyNum.ltInf, if_true, if_false, c1, c2, c3, c4, c5, Ray.fly, hd, hf, ht, Optic.doIntersect,
    Mirror.doIntersect, ball_type, Ray.reflect, Functor.map, Except.map, decide_true, Bool.false_eq_true,
    Bool.not_true, show ¬ ("normal" = "faerie_fire") by decide]
  exact ⟨_, rfl, rfl⟩

end TouchedBall

end Optics
