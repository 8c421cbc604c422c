import Verif.Props.Spheres
import Verif.Props.RayOptics
import Verif.Props.Nearest
import Verif.Lemmas.SceneTest
import Verif.Lemmas.Concrete
import Verif.Spec.Surfaces

/-!
# Optics made of one sphere
-/

namespace Optics
open V3

theorem real_ltMin_none (d : ℝ) : ltMin d none = true := rfl

/-- What a sphere reports for a line that does not touch it, by the first point ahead. -/
inductive BallHit (s : Sphere ℝ) (ray : Ray ℝ) : Prop
  | miss (h : s.testIntersect ray = Hit6.miss 0)
      (hn : ∀ t, 1e-12 < t → ¬ OnSphere s.center s.R (lineAt ray.position ray.direction t))
  | enter (t : ℝ) (far : V3 ℝ) (m : V3 ℝ) (ht : FirstOnSphere s.center s.R ray.position ray.direction t)
      (hi : inner ℝ (lineAt ray.position ray.direction t - s.center).toE ray.direction.toE < 0)
      (h : s.testIntersect ray = Hit6.two far (lineAt ray.position ray.direction t) m
        (s.normal (lineAt ray.position ray.direction t)) 2)
      (hf : distanceBetween ray.position (lineAt ray.position ray.direction t) < distanceBetween ray.position far)
  | leave (t : ℝ) (ht : FirstOnSphere s.center s.R ray.position ray.direction t)
      (hi : 0 < inner ℝ (lineAt ray.position ray.direction t - s.center).toE ray.direction.toE)
      (h : s.testIntersect ray = Hit6.one (lineAt ray.position ray.direction t)
        (s.normal (lineAt ray.position ray.direction t)) 1)

theorem dot_radius (c p d : V3 ℝ) (hd : dot d d = 1) (t : ℝ) : dot (lineAt p d t - c) d = t - dot d (c - p) := by
  simp only [lineAt, dot, sub_x, sub_y, sub_z, add_x, add_y, add_z, smul_x, smul_y, smul_z] at *
  linear_combination t * hd

theorem ball_hit (s : Sphere ℝ) (ray : Ray ℝ) (hd : dot ray.direction ray.direction = 1)
    (hT : ¬ Tangent s.center s.R ray.position ray.direction) : BallHit s ray := by
  have hr := sphere_eq s ray
  rw [tangent_iff _ _ _ _ hd] at hT
  simp only [hT, if_false] at hr
  have hdist : ∀ t, 0 ≤ t → distanceBetween ray.position (lineAt ray.position ray.direction t) = t := by
    intro t ht
    rw [distanceBetween, norm_sub_comm, lineAt, add_sub_cancel', V3.norm_smul, norm_eq_one_iff.mpr hd,
        abs_of_nonneg ht, mul_one]
  have h12 : (0 : ℝ) < 1e-12 := by norm_num
  split_ifs at hr with h0 h1 h2
  · have hp := Real.sqrt_pos.mpr h0
    have hon := fun t => onSphere_roots s.center ray.position ray.direction s.R t hd h0
    refine .enter _ _ _ ⟨h1, (hon _).mpr (.inl rfl), fun u _ hu => ?_⟩ ?_ hr ?_
    · rcases (hon u).mp hu with e | e <;> linarith
    · rw [inner_toE, dot_radius _ _ _ hd]; linarith
    · rw [hdist _ (by linarith), hdist _ (by linarith)]; linarith
  · have hp := Real.sqrt_pos.mpr h0
    have hon := fun t => onSphere_roots s.center ray.position ray.direction s.R t hd h0
    refine .leave _ ⟨h2, (hon _).mpr (.inr rfl), fun u hu1 hu => ?_⟩ ?_ hr
    · rcases (hon u).mp hu with e | e <;> linarith
    · rw [inner_toE, dot_radius _ _ _ hd]; linarith
  · refine .miss hr fun t ht ho => ?_
    have hp := Real.sqrt_pos.mpr h0
    rcases (onSphere_roots s.center ray.position ray.direction s.R t hd h0).mp ho with e | e <;> linarith
  · refine .miss hr fun t ht ho => ?_
    rw [onSphere_line _ _ _ _ _ hd] at ho
    have := sq_nonneg (t - dot ray.direction (s.center - ray.position))
    rcases lt_or_eq_of_le (ho ▸ this) with h | h
    · exact h0 h
    · exact hT h.symm

/-- The loop's update for such a hit: the first point, with the outward normal. -/
theorem sphereUpdate_enter (ray : Ray ℝ) (far near m n : V3 ℝ) (k : Nat)
    (hf : distanceBetween ray.position near < distanceBetween ray.position far) :
    sphereUpdate ray ⟨false, none, none, some none⟩ (Hit6.two far near m n k)
      = .ok ⟨true, some near, some (distanceBetween ray.position near), some (some (-n))⟩ := by
  unfold sphereUpdate Hit6.two
  simp only [need, bind, Except.bind, pure, Except.pure, real_ltInf, if_true, ltMin, decide_eq_true hf]

theorem sphereUpdate_leave (ray : Ray ℝ) (x n : V3 ℝ) (k : Nat) :
    sphereUpdate ray ⟨false, none, none, some none⟩ (Hit6.one x n k)
      = .ok ⟨true, some x, some (distanceBetween ray.position x), some (some (-n))⟩ := by
  unfold sphereUpdate Hit6.one
  simp only [need, bind, Except.bind, pure, Except.pure, real_ltMin_none, if_true]

/-! ## Scaling the axis of a reflection -/

theorem Reflected.of_smul {a d d' : E3} {c : ℝ} (hc : c ≠ 0) (h : Reflected (c • a) d d') : Reflected a d d' where
  unit := h.unit
  normalReversed := by
    have := h.normalReversed
    rw [inner_smul_right, inner_smul_right] at this
    exact mul_left_cancel₀ hc (by linear_combination this)
  surfaceKept u hu := h.surfaceKept u (by rw [inner_smul_right, hu, mul_zero])

/-- What a mirror does when handed a normal parallel to `a`. -/
theorem mirror_acts (m : Mirror ℝ) {dmd : V3 ℝ} (hdmd : dmd ≠ ⟨0, 0, 0⟩) (hm : m.dmdNormal = unitVector dmd)
    (ray : Ray ℝ) (hd : dot ray.direction ray.direction = 1) (x k a : V3 ℝ) (c : ℝ) (hc : c ≠ 0) (hk : k = c * a)
    (hk1 : dot k k = 1) :
    ∃ d', m.doIntersect ray x (some k) = .ok { ray with direction := d' } ∧
      MirrorLaw m.type dmd.toE a.toE ray.direction.toE d'.toE := by
  have h0 := ne_zero_of_dot_one hd
  unfold Mirror.doIntersect
  by_cases h1 : m.type = "normal"
  · refine ⟨specular ray.direction k, by rw [if_pos h1]; rfl, fun _ => ?_, fun h => ?_, fun h => absurd h1 h⟩
    · have := specular_reflected h0 (ne_zero_of_dot_one hk1)
      rw [hk, toE_smul, ← hk] at this
      exact this.of_smul hc
    · rw [h1] at h; exact absurd h (by decide)
  · rw [if_neg h1]
    by_cases h2 : m.type = "dmd"
    · refine ⟨specular ray.direction (unitVector dmd), by rw [if_pos h2, hm]; rfl, fun h => absurd h h1, fun _ => ?_,
        fun _ h => absurd h2 h⟩
      have := specular_reflected h0 (ne_zero_of_dot_one (unit_dot hdmd))
      rw [unitVector_eq, toE_smul, ← unitVector_eq] at this
      exact this.of_smul (one_div_ne_zero (norm_pos hdmd).ne')
    · exact ⟨ray.direction, by rw [if_neg h2], fun h => absurd h h1, fun h => absurd h h2, fun _ _ => rfl⟩

end Optics
