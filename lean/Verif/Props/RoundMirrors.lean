import Verif.Lemmas.RoundMirrors
import Verif.Props.GlassBall

/-!
# C88: spherical mirrors focus parallel light with their spherical aberration
-/

namespace Optics
open V3

theorem dist_at_at (r : Ray ℝ) (hd : dot r.direction r.direction = 1) (s t : ℝ) :
    dist (r.at s).toE (r.at t).toE = |s - t| := by
  rw [dist_toE_eq, at_eq, at_eq]
  have : r.position + s * r.direction - (r.position + t * r.direction) = (s - t) * r.direction := by
    ext <;> simp only [sub_x, sub_y, sub_z, add_x, add_y, add_z, smul_x, smul_y, smul_z] <;> ring
  rw [this, V3.norm_smul, norm_eq_one_iff.mpr hd, mul_one]

theorem neg_one_smul' (v : V3 ℝ) : -v = (-1 : ℝ) * v := by
  ext <;> simp

/-- The size of the aberration. -/
theorem aberration_bounds {f N c : ℝ} (hf : 0 < f) (hN : 0 ≤ N) (hc : 0 < c) (hcc : c ^ 2 = (2 * f) ^ 2 - N ^ 2)
    (hcle : c ≤ 2 * f) : N ^ 2 / (8 * f) ≤ f - (2 * f - 2 * f ^ 2 / c) ∧
      (N ≤ f → f - (2 * f - 2 * f ^ 2 / c) ≤ N ^ 2 / (6 * f)) := by
  have hab : f - (2 * f - 2 * f ^ 2 / c) = f * N ^ 2 / (c * (2 * f + c)) := by
    have : N ^ 2 = (2 * f - c) * (2 * f + c) := by linarith
    rw [this]
    field_simp
    ring
  rw [hab]
  refine ⟨?_, fun hNf => ?_⟩
  · rw [div_le_div_iff₀ (by positivity) (by positivity)]
    have h1 : c * (2 * f + c) ≤ 2 * f * (4 * f) := mul_le_mul hcle (by linarith) (by linarith) (by linarith)
    have := mul_le_mul_of_nonneg_left h1 (sq_nonneg N)
    linarith
  · rw [div_le_div_iff₀ (by positivity) (by positivity)]
    have h0 : N ^ 2 ≤ f ^ 2 := pow_le_pow_left₀ hN hNf 2
    have h4 : 3 / 2 * f ≤ c := by
      by_contra hh
      have := pow_lt_pow_left₀ (not_le.mp hh) hc.le two_ne_zero
      linarith [mul_pow (3 / 2) f 2, mul_pow 2 f 2, pow_pos hf 2]
    have h1 : 3 / 2 * f * (7 / 2 * f) ≤ c * (2 * f) + c ^ 2 - 3 / 4 * f ^ 2 := by
      have h5 := mul_le_mul_of_nonneg_right h4 (show 0 ≤ 2 * f by linarith)
      linarith [mul_pow 2 f 2]
    have h6 : 6 * f ^ 2 ≤ c * (2 * f + c) := by linarith
    have := mul_le_mul_of_nonneg_left h6 (sq_nonneg N)
    linarith

theorem pos_of_sq_lt {a b : ℝ} (hb : 0 < b) (ha : 0 ≤ a) (h : a < b) : 0 < b ^ 2 - a ^ 2 :=
  sub_pos.mpr (pow_lt_pow_left₀ h ha two_ne_zero)

theorem le_of_sq_eq {a b N : ℝ} (hb : 0 ≤ b) (h : a ^ 2 = b ^ 2 - N ^ 2) : a ≤ b := by
  by_contra hh
  have := pow_lt_pow_left₀ (not_le.mp hh) hb two_ne_zero
  linarith [sq_nonneg N]

/-- C88: parallel light on a concave mirror.  A ray that comes down the axis of the mirror at the offset `a`, within the
aperture, meets the mirror once, on its sphere, and leaves along a line that crosses the axis at the height
`z = 2 f - 2 f² / √(4 f² - ‖a‖²)` above the vertex: at the focal point but for the spherical aberration, which is at least
`‖a‖² / (8 f)`, and at most `‖a‖² / (6 f)` if the offset is not more than the focal length. -/
theorem C88_concave (position n : V3 ℝ) (hn : ‖n.toE‖ = 1) (D f : ℝ) (hf : 0 < f) (w h : Option ℝ) (t : Option (V3 ℝ))
    (ht : t ≠ some ⟨0, 0, 0⟩) (dmd : V3 ℝ) (hdmd : dmd ≠ ⟨0, 0, 0⟩) (m : Mirror ℝ)
    (hm : Mirror.new position "circular_concave_spherical" (some n) (some D) w h (some f) t "normal" (some dmd) = .ok m)
    (a : V3 ℝ) (ha : inner ℝ a.toE n.toE = 0) (hap : ‖a.toE‖ < D / 2) (hsh : ‖a.toE‖ ^ 2 < 2 * f ^ 2)
    (y : ℝ) (hy : 2 * f - Real.sqrt ((2 * f) ^ 2 - ‖a.toE‖ ^ 2) + 1e-9 < y)
    (ray : Ray ℝ) (hp : ray.position = position + y * n + a) (hdir : ray.direction = -n) (hty : ray.type ≠ "faerie_fire")
    (hbl : ray.blocked = false) (md : ℝ) (hmd : y - (2 * f - Real.sqrt ((2 * f) ^ 2 - ‖a.toE‖ ^ 2)) < md)
    (fuel : Nat) (hfu : 3 ≤ fuel) :
    ∃ (s : RunState XR) (x e : V3 ℝ) (L z : ℝ), ray.lift.run (.fin md) [(Optic.mirror m).lift] none fuel = .finished s ∧
      s.ray = { ray with position := lineAt x e L, direction := e,
                         pointHistory := ray.pointHistory ++ [x, lineAt x e L] }.lift ∧
      s.log = [] ∧ s.interactions = 1 ∧
      x = position + (2 * f - Real.sqrt ((2 * f) ^ 2 - ‖a.toE‖ ^ 2)) * n + a ∧
      dist x.toE (position + (2 * f) * n).toE = 2 * f ∧ Reflected (x - (position + (2 * f) * n)).toE ray.direction.toE e.toE ∧
      dist ray.position.toE x.toE + L = md ∧
      z = 2 * f - 2 * f ^ 2 / Real.sqrt ((2 * f) ^ 2 - ‖a.toE‖ ^ 2) ∧
      lineAt x e (2 * f - z) = position + z * n ∧ 0 < 2 * f - z ∧
      ‖a.toE‖ ^ 2 / (8 * f) ≤ f - z ∧ (‖a.toE‖ ≤ f → f - z ≤ ‖a.toE‖ ^ 2 / (6 * f)) := by
  rw [norm_toE, norm_eq_one_iff] at hn
  rw [inner_toE] at ha
  have hN : 0 ≤ ‖a.toE‖ := _root_.norm_nonneg _
  have hA : dot a a = ‖a.toE‖ ^ 2 := by rw [norm_toE, norm_sq]
  generalize hNe : ‖a.toE‖ = N at *
  have hdisc : 0 < (2 * f) ^ 2 - N ^ 2 := by linarith [mul_pow 2 f 2, pow_pos hf 2]
  have hc := Real.sqrt_pos.mpr hdisc
  have hcc := Real.sq_sqrt hdisc.le
  generalize Real.sqrt ((2 * f) ^ 2 - N ^ 2) = c at *
  have hc2 : 2 * f ^ 2 < c ^ 2 := by linarith [mul_pow 2 f 2]
  have hcle : c ≤ 2 * f := le_of_sq_eq (by linarith) hcc
  have hu : dot ray.direction ray.direction = 1 := by rw [hdir, dot_neg_left, dot_neg_right, neg_neg]; exact hn
  have hna : dot n a = 0 := by rw [dot_comm]; exact ha
  obtain ⟨hw, hmt, H⟩ := concave_reports hn (show D ≠ 0 by intro e; rw [e] at hap; linarith) hf.ne' ht hdmd hm
  -- the line of the ray
  have hat : ∀ s, ray.at s = position + (y - s) * n + a := by
    intro s
    rw [at_eq, hp, hdir]
    ext <;> simp only [add_x, add_y, add_z, smul_x, smul_y, smul_z, neg_x, neg_y, neg_z] <;> ring
  have hon : ∀ s, OnSphere (position + (2 * f) * n) (2 * f) (ray.at s) ↔ (y - s - 2 * f) ^ 2 = c ^ 2 := by
    intro s
    have e : ray.at s - (position + (2 * f) * n) = (y - s - 2 * f) * n + a := by
      rw [hat]
      ext <;> simp only [sub_x, sub_y, sub_z, add_x, add_y, add_z, smul_x, smul_y, smul_z] <;> ring
    rw [onSphere_iff, e]
    simp only [dot_add_left, dot_add_right, dot_smul_left, dot_smul_right, hn, ha, hna, hA]
    constructor <;> intro <;> linarith
  have hpl : ∀ s, dot (ray.at s - position) n = y - s := by
    intro s
    have e : ray.at s - position = (y - s) * n + a := by
      rw [hat]
      ext <;> simp only [sub_x, sub_y, sub_z, add_x, add_y, add_z, smul_x, smul_y, smul_z] <;> ring
    rw [e, dot_add_left, dot_smul_left, hn, ha]; ring
  have hy0 : 1e-9 < y := by linarith
  have hdisc_pt : dist (ray.at y).toE position.toE < D / 2 := by
    have e : ray.at y - position = a := by
      rw [hat]
      ext <;> simp only [sub_x, sub_y, sub_z, add_x, add_y, add_z, smul_x, smul_y, smul_z] <;> ring
    rw [dist_toE_eq, e, ← norm_toE, hNe]
    exact hap
  set δ := y - (2 * f - c) with hδ
  have hδ9 : 1e-9 < δ := by rw [hδ]; linarith
  have hδ12 : 1e-12 < δ := by norm_num at hδ9 ⊢; linarith
  have hδon : OnSphere (position + (2 * f) * n) (2 * f) (ray.at δ) := by rw [hon, hδ]; ring
  obtain ⟨x, k, hr⟩ := (H ray hu).2 (by
      rintro ⟨s, h1, h2⟩
      have h1 := (hon s).mp h1
      have e : lineAt ray.position ray.direction s - (position + (2 * f) * n) = (y - s - 2 * f) * n + a := by
        rw [show lineAt ray.position ray.direction s = ray.at s from rfl, hat]
        ext <;> simp only [sub_x, sub_y, sub_z, add_x, add_y, add_z, smul_x, smul_y, smul_z] <;> ring
      rw [e, inner_toE, hdir, dot_neg_right, dot_add_left, dot_smul_left, hn, ha] at h2
      have h0 : y - s - 2 * f = 0 := by linarith
      rw [h0] at h1
      exact absurd h1.symm (by simpa using hc.ne')) ⟨δ, hδ12, hδon⟩
      (by rw [hdir, dot_neg_right, hn]; norm_num)
      ⟨y, hy0, by rw [hpl, sub_self], hdisc_pt⟩
  obtain ⟨hk, hspec, t', hx, hon', u, hu9, hupl, -, hnear⟩ := (H ray hu).1 x k hr
  have hut : u = y := by rw [hpl] at hupl; linarith
  subst hut
  have htd : t' = δ := by
    have h1 := hnear δ hδ12 hδon
    rw [dist_at_at ray hu, dist_at_at ray hu, hδ, show u - (u - (2 * f - c)) = 2 * f - c by ring,
      abs_of_nonneg (show 0 ≤ 2 * f - c by linarith)] at h1
    have h2 := (hon t').mp hon'
    rcases sq_eq_sq_iff_eq_or_eq_neg.mp h2 with e | e
    · have := le_abs_self (u - t')
      linarith
    · rw [hδ]; linarith
  subst htd
  have hxe : x = position + (2 * f - c) * n + a := by
    rw [hx, hat, hδ]
    ext <;> simp only [add_x, add_y, add_z, smul_x, smul_y, smul_z] <;> ring
  have hxa : x - (position + (2 * f) * n) = (-c) * n + a := by
    rw [hxe]
    ext <;> simp only [sub_x, sub_y, sub_z, add_x, add_y, add_z, smul_x, smul_y, smul_z] <;> ring
  have hee : specular ray.direction k = (c ^ 2 / (2 * f ^ 2) - 1) * n + (-(c / (2 * f ^ 2))) * a := by
    rw [hspec, hxa, hdir, dot_neg_left, dot_add_right, dot_smul_right, hn, hna]
    ext <;> simp only [sub_x, sub_y, sub_z, add_x, add_y, add_z, smul_x, smul_y, smul_z, neg_x, neg_y, neg_z] <;>
      field_simp <;> ring
  set e := specular ray.direction k with he
  have heu : dot e e = 1 := (lift_reflect hu hk ⟨x.lift, none, none, none, none⟩).2
  have hdx : dist ray.position.toE x.toE = δ := by
    rw [dist_toE_eq, hx]
    change distanceBetween _ _ = _
    rw [dist_at ray hu, abs_of_pos (by norm_num at hδ12; linarith)]
  obtain ⟨s, r1, r2, r3, r4⟩ := run_bounce (md := md) hw (by intro c e; cases e) hu hty hbl hx
    ⟨rfl, hr, hdx, hδ12, hmd.le⟩ hmd heu (fun sfo => mirror_does hmt (y := ray.movedTo x) hu hk x.lift sfo)
    (by
      intro d z j hz
      obtain ⟨-, -, t2, -, -, v, hv9, hvpl, -⟩ := (H (ray.turnedAt x e) heu).1 z j hz.reports
      have hpos : dot (x + v * e - position) n = (2 * f - c) + v * (c ^ 2 / (2 * f ^ 2) - 1) := by
        rw [hee, hxe]
        have e1 : position + (2 * f - c) * n + a + v * ((c ^ 2 / (2 * f ^ 2) - 1) * n + (-(c / (2 * f ^ 2))) * a) - position
            = ((2 * f - c) + v * (c ^ 2 / (2 * f ^ 2) - 1)) * n + (1 - v * (c / (2 * f ^ 2))) * a := by
          ext <;> simp only [sub_x, sub_y, sub_z, add_x, add_y, add_z, smul_x, smul_y, smul_z] <;> ring
        rw [e1, dot_add_left, dot_smul_left, dot_smul_left, hn, ha]; ring
      have hvpl' : dot (x + v * e - position) n = 0 := hvpl
      rw [hpos] at hvpl'
      have h1 : 1 < c ^ 2 / (2 * f ^ 2) := by rw [lt_div_iff₀ (by positivity)]; linarith
      have : 0 < v * (c ^ 2 / (2 * f ^ 2) - 1) := mul_pos (by norm_num at hv9; linarith) (by linarith)
      linarith) fuel hfu
  have hz : 2 * f - (2 * f - 2 * f ^ 2 / c) = 2 * f ^ 2 / c := by ring
  obtain ⟨b1, b2⟩ := aberration_bounds hf hN hc hcc hcle
  refine ⟨s, x, e, md - δ, _, r1, r2, r3, r4, hxe, ?_, ?_, ?_, rfl, ?_, ?_, b1, b2⟩
  · have := hon'
    rw [← hx] at this
    rw [this, abs_of_pos (by linarith)]
  · rw [hspec]
    have := (onSphere_iff _ _ _).mp hon'
    rw [← hx] at this
    exact reflected_radius hu (by simp [hf.ne']) this
  · rw [hdx]; ring
  · rw [hz, hee, hxe]
    unfold lineAt
    ext <;> simp only [add_x, add_y, add_z, smul_x, smul_y, smul_z] <;> field_simp <;> ring
  · rw [hz]; positivity

/-- C88: parallel light on a convex mirror.  A ray whose line passes the centre of the ball at the offset `a`, smaller than
the radius, meets the ball once, and leaves along a line that, followed back, crosses the line through the centre parallel to
the light at the distance `R² / (2 √(R² - ‖a‖²))` before the centre. -/
theorem C88_convex (position : V3 ℝ) (n : Option (V3 ℝ)) (hn : n ≠ some ⟨0, 0, 0⟩) (R : ℝ) (hR : 0 < R) (w h f : Option ℝ)
    (hf : f ≠ some 0) (t : Option (V3 ℝ)) (ht : t ≠ some ⟨0, 0, 0⟩) (dmd : V3 ℝ) (hdmd : dmd ≠ ⟨0, 0, 0⟩) (m : Mirror ℝ)
    (hm : Mirror.new position "circular_convex_spherical" n (some (2 * R)) w h f t "normal" (some dmd) = .ok m)
    (ray : Ray ℝ) (hdir : ‖ray.direction.toE‖ = 1) (a : V3 ℝ) (ha : inner ℝ a.toE ray.direction.toE = 0) (hap : ‖a.toE‖ < R)
    (y : ℝ) (hy : Real.sqrt (R ^ 2 - ‖a.toE‖ ^ 2) + 1e-12 < y) (hp : ray.position = position + (-y) * ray.direction + a)
    (hty : ray.type ≠ "faerie_fire") (hbl : ray.blocked = false) (md : ℝ)
    (hmd : y - Real.sqrt (R ^ 2 - ‖a.toE‖ ^ 2) < md) (fuel : Nat) (hfu : 3 ≤ fuel) :
    ∃ (s : RunState XR) (x e : V3 ℝ) (L z : ℝ), ray.lift.run (.fin md) [(Optic.mirror m).lift] none fuel = .finished s ∧
      s.ray = { ray with position := lineAt x e L, direction := e,
                         pointHistory := ray.pointHistory ++ [x, lineAt x e L] }.lift ∧
      s.log = [] ∧ s.interactions = 1 ∧
      x = position + (-Real.sqrt (R ^ 2 - ‖a.toE‖ ^ 2)) * ray.direction + a ∧
      dist x.toE position.toE = R ∧ Reflected (x - position).toE ray.direction.toE e.toE ∧
      dist ray.position.toE x.toE + L = md ∧
      z = R ^ 2 / (2 * Real.sqrt (R ^ 2 - ‖a.toE‖ ^ 2)) ∧
      lineAt x e (-z) = position + (-z) * ray.direction ∧ R / 2 ≤ z := by
  rw [norm_toE, norm_eq_one_iff] at hdir
  rw [inner_toE] at ha
  have hN : 0 ≤ ‖a.toE‖ := _root_.norm_nonneg _
  have hA : dot a a = ‖a.toE‖ ^ 2 := by rw [norm_toE, norm_sq]
  generalize hNe : ‖a.toE‖ = N at *
  have hdisc : 0 < R ^ 2 - N ^ 2 := pos_of_sq_lt hR hN hap
  have hc := Real.sqrt_pos.mpr hdisc
  have hcc := Real.sq_sqrt hdisc.le
  generalize Real.sqrt (R ^ 2 - N ^ 2) = c at *
  have hcle : c ≤ R := le_of_sq_eq hR.le hcc
  have hda : dot ray.direction a = 0 := by rw [dot_comm]; exact ha
  have hD2 : 2 * R / 2 = R := by ring
  obtain ⟨hw, hmt, H⟩ := convex_reports hn (show 2 * R ≠ 0 by positivity) hf ht hdmd hm
  rw [hD2] at H
  have hat : ∀ s, ray.at s - position = (s - y) * ray.direction + a := by
    intro s
    rw [at_eq, hp]
    ext <;> simp only [sub_x, sub_y, sub_z, add_x, add_y, add_z, smul_x, smul_y, smul_z] <;> ring
  have hon : ∀ s, OnSphere position R (ray.at s) ↔ (s - y) ^ 2 = c ^ 2 := by
    intro s
    rw [onSphere_iff, hat]
    simp only [dot_add_left, dot_add_right, dot_smul_left, dot_smul_right, hdir, ha, hda, hA]
    constructor <;> intro <;> linarith
  have hT : ¬ Tangent position R ray.position ray.direction := by
    rintro ⟨s, h1, h2⟩
    have h1 := (hon s).mp h1
    rw [show lineAt ray.position ray.direction s = ray.at s from rfl, hat, inner_toE, dot_add_left, dot_smul_left, hdir, ha] at h2
    have h0 : s - y = 0 := by linarith
    rw [h0] at h1
    exact absurd h1.symm (by simpa using hc.ne')
  obtain ⟨δ, hδ⟩ : ∃ δ, δ = y - c := ⟨_, rfl⟩
  rw [← hδ] at hmd
  have hδ12 : 1e-12 < δ := by rw [hδ]; linarith
  have hδon : OnSphere position R (ray.at δ) := by rw [hon, hδ]; ring
  obtain ⟨x, k, hr⟩ := (H ray hdir hT).2 ⟨δ, hδ12, hδon⟩
  obtain ⟨hk, hspec, t', hx, hfirst⟩ := (H ray hdir hT).1 x k hr
  have htd : t' = δ := by
    have h1 := hfirst.first δ hδ12 hδon
    have h2 := (hon t').mp hfirst.on
    rcases sq_eq_sq_iff_eq_or_eq_neg.mp h2 with e | e
    · rw [hδ] at h1; linarith
    · rw [hδ]; linarith
  rw [htd] at hx
  have hxa : x - position = (-c) * ray.direction + a := by
    rw [hx, hat, hδ]
    ext <;> simp only [add_x, add_y, add_z, smul_x, smul_y, smul_z] <;> ring
  have hxe : x = position + (-c) * ray.direction + a := by
    rw [V3.ext_iff] at hxa ⊢
    simp only [sub_x, sub_y, sub_z, add_x, add_y, add_z, smul_x, smul_y, smul_z] at hxa ⊢
    obtain ⟨h1, h2, h3⟩ := hxa
    exact ⟨by linarith, by linarith, by linarith⟩
  have hee : specular ray.direction k = (1 - 2 * c ^ 2 / R ^ 2) * ray.direction + (2 * c / R ^ 2) * a := by
    rw [hspec, hxa, dot_add_right, dot_smul_right, hdir, hda]
    ext <;> simp only [sub_x, sub_y, sub_z, add_x, add_y, add_z, smul_x, smul_y, smul_z] <;> ring
  have hxs : OnSphere position R x := by rw [hx]; exact hδon
  obtain ⟨e, he⟩ : ∃ e, e = specular ray.direction k := ⟨_, rfl⟩
  rw [← he] at hee hspec
  have heu : dot e e = 1 := by
    rw [he]; exact (lift_reflect hdir hk ⟨x.lift, none, none, none, none⟩).2
  have hexr : dot (x - position) e = c := by
    rw [hxa, hee]
    simp only [dot_add_left, dot_add_right, dot_smul_left, dot_smul_right, hdir, ha, hda, hA]
    have : N ^ 2 = R ^ 2 - c ^ 2 := by linarith
    rw [this]
    field_simp
    ring
  have hdx : dist ray.position.toE x.toE = δ := by
    rw [dist_toE_eq, hx]
    change distanceBetween _ _ = _
    rw [dist_at ray hdir, abs_of_pos (by norm_num at hδ12; linarith)]
  have hno : ∀ d z j, ¬ (Optic.mirror m).InReach (ray.turnedAt x e) (md - δ) d z j := by
    intro d z j hz
    have hagain := onSphere_again position x e R heu hxs
    rw [inner_toE, hexr] at hagain
    have hT2 : ¬ Tangent position R x e := by
      rintro ⟨s, h1, h2⟩
      have e1 : lineAt x e s - position = (x - position) + s * e := by
        unfold lineAt
        ext <;> simp only [sub_x, sub_y, sub_z, add_x, add_y, add_z, smul_x, smul_y, smul_z] <;> ring
      rw [inner_toE, e1, dot_add_left, dot_smul_left, heu, hexr] at h2
      rcases (hagain s).mp h1 with h3 | h3 <;> linarith
    obtain ⟨-, -, t2, -, hf2⟩ := (H (ray.turnedAt x e) heu hT2).1 z j hz.reports
    have h1 := hf2.ahead
    have h2 : OnSphere position R (lineAt x e t2) := hf2.on
    norm_num at h1
    rcases (hagain t2).mp h2 with h3 | h3 <;> linarith
  obtain ⟨s, r1, r2, r3, r4⟩ := run_bounce (md := md) hw (by intro c e; cases e) hdir hty hbl hx
    ⟨rfl, hr, hdx, hδ12, hmd.le⟩ hmd heu (fun sfo => by rw [he]; exact mirror_does hmt (y := ray.movedTo x) hdir hk x.lift sfo)
    hno fuel hfu
  refine ⟨s, x, e, md - δ, _, r1, r2, r3, r4, hxe, ?_, ?_, ?_, rfl, ?_, ?_⟩
  · rw [hxs, abs_of_pos hR]
  · rw [hspec]
    exact reflected_radius hdir hR.ne' ((onSphere_iff _ _ _).mp hxs)
  · rw [hdx]; ring
  · rw [hee, hxe]
    unfold lineAt
    ext <;> simp only [add_x, add_y, add_z, smul_x, smul_y, smul_z] <;> field_simp <;> ring
  · rw [div_le_div_iff₀ (by norm_num) (by positivity)]
    linarith [mul_le_mul_of_nonneg_left hcle hR.le, sq R]

/-- C88: light through the centre of curvature.  A ray on a line through the centre of a concave mirror, starting inside its
sphere and heading for its aperture, comes back along the same line. -/
theorem C88_centre (position n : V3 ℝ) (hn : ‖n.toE‖ = 1) (D f : ℝ) (hf : 0 < f) (w h : Option ℝ) (t : Option (V3 ℝ))
    (ht : t ≠ some ⟨0, 0, 0⟩) (dmd : V3 ℝ) (hdmd : dmd ≠ ⟨0, 0, 0⟩) (m : Mirror ℝ)
    (hm : Mirror.new position "circular_concave_spherical" (some n) (some D) w h (some f) t "normal" (some dmd) = .ok m)
    (ray : Ray ℝ) (hu : ‖ray.direction.toE‖ = 1) (hdn : inner ℝ n.toE ray.direction.toE < -1e-9)
    (u : ℝ) (hlow : -(2 * f) < u) (hup : u + 1e-9 < 2 * f)
    (hp : ray.position = position + (2 * f) * n + u * ray.direction)
    (hap : dist (position + (2 * f) * n + (2 * f / -inner ℝ n.toE ray.direction.toE) * ray.direction).toE position.toE < D / 2)
    (hty : ray.type ≠ "faerie_fire") (hbl : ray.blocked = false) (md : ℝ) (hmd : 2 * f - u < md)
    (fuel : Nat) (hfu : 3 ≤ fuel) :
    ∃ (s : RunState XR) (x : V3 ℝ) (L : ℝ), ray.lift.run (.fin md) [(Optic.mirror m).lift] none fuel = .finished s ∧
      s.ray = { ray with position := lineAt x (-ray.direction) L, direction := -ray.direction,
                         pointHistory := ray.pointHistory ++ [x, lineAt x (-ray.direction) L] }.lift ∧
      s.log = [] ∧ s.interactions = 1 ∧ x = position + (2 * f) * n + (2 * f) * ray.direction ∧ L = md - (2 * f - u) := by
  rw [norm_toE, norm_eq_one_iff] at hn hu
  rw [inner_toE] at hdn hap
  set q := -dot n ray.direction with hq
  have hq9 : 1e-9 < q := by rw [hq]; linarith
  have hq0 : 0 < q := by norm_num at hq9; linarith
  have hq1 : q ≤ 1 := by
    have h1 := dot_self_nonneg (n + ray.direction)
    rw [dot_add_left, dot_add_right, dot_add_right, hn, hu, dot_comm ray.direction n] at h1
    linarith
  have hdn' : dot ray.direction n = -q := by rw [dot_comm, hq, neg_neg]
  have hD : D ≠ 0 := by
    intro e
    rw [e] at hap
    have := @dist_nonneg _ _ (position + (2 * f) * n + (2 * f / q) * ray.direction).toE position.toE
    linarith
  obtain ⟨hw, hmt, H⟩ := concave_reports hn hD hf.ne' ht hdmd hm
  set C := position + (2 * f) * n with hC
  have hat : ∀ s, ray.at s = C + (u + s) * ray.direction := by
    intro s
    rw [at_eq, hp]
    ext <;> simp only [add_x, add_y, add_z, smul_x, smul_y, smul_z] <;> ring
  have hatC : ∀ s, ray.at s - C = (u + s) * ray.direction := by
    intro s
    rw [hat]
    ext <;> simp only [sub_x, sub_y, sub_z, add_x, add_y, add_z, smul_x, smul_y, smul_z] <;> ring
  have hon : ∀ s, OnSphere C (2 * f) (ray.at s) ↔ (u + s) ^ 2 = (2 * f) ^ 2 := by
    intro s
    rw [onSphere_iff, hatC, dot_smul_left, dot_smul_right, hu]
    constructor <;> intro <;> linarith
  have hpl : ∀ s, dot (ray.at s - position) n = 2 * f - (u + s) * q := by
    intro s
    have e : ray.at s - position = (2 * f) * n + (u + s) * ray.direction := by
      rw [hat, hC]
      ext <;> simp only [sub_x, sub_y, sub_z, add_x, add_y, add_z, smul_x, smul_y, smul_z] <;> ring
    rw [e, dot_add_left, dot_smul_left, dot_smul_left, hn, hdn']; ring
  set v := 2 * f / q with hv
  have hvq : v * q = 2 * f := div_mul_cancel₀ _ hq0.ne'
  have hv2 : 2 * f ≤ v := by rw [hv, le_div_iff₀ hq0]; nlinarith
  set δ := 2 * f - u with hδ
  have hδ9 : 1e-9 < δ := by rw [hδ]; linarith
  have hδ12 : 1e-12 < δ := by norm_num at hδ9 ⊢; linarith
  have hδon : OnSphere C (2 * f) (ray.at δ) := by rw [hon, hδ]; ring
  obtain ⟨x, k, hr⟩ := (H ray hu).2 (by
      rintro ⟨s, h1, h2⟩
      have h1 := (hon s).mp h1
      rw [show lineAt ray.position ray.direction s = ray.at s from rfl, hatC, inner_toE, dot_smul_left, hu] at h2
      have h0 : u + s = 0 := by linarith
      rw [h0] at h1
      exact absurd h1.symm (by simpa using hf.ne')) ⟨δ, hδ12, hδon⟩
      (by rw [show dot n ray.direction = -q by rw [hq, neg_neg], abs_neg, abs_of_pos hq0]; exact hq9)
      ⟨v - u, by linarith, by rw [hpl]; linarith, by rw [hat, show u + (v - u) = v by ring]; exact hap⟩
  obtain ⟨hk, hspec, t', hx, hon', z, hz9, hzpl, -, hnear⟩ := (H ray hu).1 x k hr
  have hzv : u + z = v := by
    rw [hpl] at hzpl
    have : (u + z - v) * q = 0 := by rw [sub_mul, hvq]; linarith
    linarith [(mul_eq_zero.mp this).resolve_right hq0.ne']
  have htd : t' = δ := by
    have h1 := hnear δ hδ12 hδon
    rw [dist_at_at ray hu, dist_at_at ray hu, hδ, show z - (2 * f - u) = v - 2 * f by linarith,
      abs_of_nonneg (show 0 ≤ v - 2 * f by linarith)] at h1
    have h2 := (hon t').mp hon'
    rcases sq_eq_sq_iff_eq_or_eq_neg.mp h2 with e | e
    · rw [hδ]; linarith
    · have := le_abs_self (z - t')
      linarith
  subst htd
  have hxC : x - C = (2 * f) * ray.direction := by
    rw [hx, hatC, hδ, show u + (2 * f - u) = 2 * f by ring]
  have hxe : x = C + (2 * f) * ray.direction := by
    rw [hx, hat, hδ, show u + (2 * f - u) = 2 * f by ring]
  have hee : specular ray.direction k = -ray.direction := by
    rw [hspec, hxC, dot_smul_right, hu]
    ext <;> simp only [sub_x, sub_y, sub_z, smul_x, smul_y, smul_z, neg_x, neg_y, neg_z] <;> field_simp <;> ring
  have heu : dot (-ray.direction) (-ray.direction) = 1 := by rw [dot_neg_left, dot_neg_right, neg_neg]; exact hu
  have hdx : dist ray.position.toE x.toE = δ := by
    rw [dist_toE_eq, hx]
    change distanceBetween _ _ = _
    rw [dist_at ray hu, abs_of_pos (by norm_num at hδ12; linarith)]
  obtain ⟨s, r1, r2, r3, r4⟩ := run_bounce (md := md) hw (by intro c e; cases e) hu hty hbl hx
    ⟨rfl, hr, hdx, hδ12, hmd.le⟩ hmd heu
    (fun sfo => by rw [← hee]; exact mirror_does hmt (y := ray.movedTo x) hu hk x.lift sfo)
    (by
      intro d z j hz
      obtain ⟨-, -, t2, -, -, v', hv9, hvpl, -⟩ := (H (ray.turnedAt x (-ray.direction)) heu).1 z j hz.reports
      have hvpl' : dot (x + v' * (-ray.direction) - position) n = 0 := hvpl
      have e1 : x + v' * (-ray.direction) - position = (2 * f) * n + (2 * f - v') * ray.direction := by
        rw [hxe, hC]
        ext <;> simp only [sub_x, sub_y, sub_z, add_x, add_y, add_z, smul_x, smul_y, smul_z, neg_x, neg_y, neg_z] <;> ring
      rw [e1, dot_add_left, dot_smul_left, dot_smul_left, hn, hdn'] at hvpl'
      have h0 : 0 < v' := by norm_num at hv9; linarith
      nlinarith [mul_pos h0 hq0]) fuel hfu
  exact ⟨s, x, _, r1, r2, r3, r4, hxe, rfl⟩

/-! ## Cases meeting the hypotheses -/

/-- A ray parallel to the z axis, at the distance 3 from it. -/
noncomputable def offAxisRay : Ray ℝ := ⟨⟨3, 0, 10⟩, ⟨0, 0, -1⟩, 532, 0, [⟨3, 0, 10⟩], false, "normal"⟩

theorem three_norm : ‖(⟨3, 0, 0⟩ : V3 ℝ).toE‖ = 3 := by
  rw [norm_toE, norm_eq, show dot (⟨3, 0, 0⟩ : V3 ℝ) ⟨3, 0, 0⟩ = 3 ^ 2 by norm_num [dot]]
  exact Real.sqrt_sq (by norm_num)

theorem three_four_five : Real.sqrt (5 ^ 2 - 3 ^ 2 : ℝ) = 4 := by
  rw [show (5 ^ 2 - 3 ^ 2 : ℝ) = 4 ^ 2 by norm_num]
  exact Real.sqrt_sq (by norm_num)

/-- A concave mirror of focal length 5/2: the ray is reflected at height 1 and crosses the axis at height 15/8, closer to the
vertex than the focal point. -/
example : ∃ m, Mirror.new (⟨0, 0, 0⟩ : V3 ℝ) "circular_concave_spherical" (some ⟨0, 0, 1⟩) (some 8) none none (some (5 / 2))
      none "normal" (some ⟨0, 0, 1⟩) = .ok m ∧
    ∃ (s : RunState XR) (e : V3 ℝ), offAxisRay.lift.run (.fin 20) [(Optic.mirror m).lift] none 3 = .finished s ∧
      s.ray.pointHistory = [V3.lift ⟨3, 0, 10⟩, V3.lift ⟨3, 0, 1⟩, V3.lift (lineAt ⟨3, 0, 1⟩ e 11)] ∧
      lineAt ⟨3, 0, 1⟩ e (25 / 8) = ⟨0, 0, 15 / 8⟩ := by
  obtain ⟨m, hm⟩ := C54_concave_partial (⟨0, 0, 0⟩ : V3 ℝ) ⟨0, 0, 1⟩ 8 (5 / 2) none none none "normal" ⟨0, 0, 1⟩
  have hsq : Real.sqrt ((2 * (5 / 2)) ^ 2 - ‖(⟨3, 0, 0⟩ : V3 ℝ).toE‖ ^ 2) = 4 := by
    rw [three_norm, show (2 * (5 / 2) : ℝ) = 5 by norm_num]; exact three_four_five
  obtain ⟨s, x, e, L, z, h1, h2, -, -, h3, -, -, h4, h5, h6, -⟩ := C88_concave ⟨0, 0, 0⟩ ⟨0, 0, 1⟩
    (by rw [norm_toE, norm_eq_one_iff]; norm_num [dot]) 8 (5 / 2) (by norm_num) none none none (by simp) ⟨0, 0, 1⟩ (by simp)
    m hm ⟨3, 0, 0⟩ (by rw [inner_toE]; norm_num [dot]) (by rw [three_norm]; norm_num) (by rw [three_norm]; norm_num) 10
    (by rw [hsq]; norm_num) offAxisRay (by ext <;> simp [offAxisRay]) (by ext <;> simp [offAxisRay])
    (by simp [offAxisRay]) rfl 20 (by rw [hsq]; norm_num) 3 le_rfl
  rw [hsq] at h3 h5
  have hx : x = ⟨3, 0, 1⟩ := by rw [h3]; ext <;> norm_num
  subst hx
  have hL : L = 11 := by
    have : dist offAxisRay.position.toE (⟨3, 0, 1⟩ : V3 ℝ).toE = 9 := by
      rw [dist_toE_eq, norm_eq, show dot (offAxisRay.position - ⟨3, 0, 1⟩) (offAxisRay.position - ⟨3, 0, 1⟩) = (9 : ℝ) ^ 2 by
        norm_num [dot, offAxisRay]]
      exact Real.sqrt_sq (by norm_num)
    linarith
  have hz : z = 15 / 8 := by rw [h5]; norm_num
  subst hL hz
  refine ⟨m, hm, s, e, h1, by rw [h2]; rfl, ?_⟩
  rw [show (25 / 8 : ℝ) = 2 * (5 / 2) - 15 / 8 by norm_num, h6]
  ext <;> norm_num

/-- A ball mirror of radius 5: the ray is reflected at height 4, away from a point 25/8 above the centre. -/
example : ∃ m, Mirror.new (⟨0, 0, 0⟩ : V3 ℝ) "circular_convex_spherical" none (some (2 * 5)) none none none
      none "normal" (some ⟨0, 0, 1⟩) = .ok m ∧
    ∃ (s : RunState XR) (e : V3 ℝ), offAxisRay.lift.run (.fin 20) [(Optic.mirror m).lift] none 3 = .finished s ∧
      s.ray.pointHistory = [V3.lift ⟨3, 0, 10⟩, V3.lift ⟨3, 0, 4⟩, V3.lift (lineAt ⟨3, 0, 4⟩ e 14)] ∧
      lineAt ⟨3, 0, 4⟩ e (-(25 / 8)) = ⟨0, 0, 25 / 8⟩ := by
  obtain ⟨m, hm⟩ := C54_convex_partial (⟨0, 0, 0⟩ : V3 ℝ) none (2 * 5) none none none none "normal" ⟨0, 0, 1⟩
  have hsq : Real.sqrt (5 ^ 2 - ‖(⟨3, 0, 0⟩ : V3 ℝ).toE‖ ^ 2) = 4 := by rw [three_norm]; exact three_four_five
  obtain ⟨s, x, e, L, z, h1, h2, -, -, h3, -, -, h4, h5, h6, -⟩ := C88_convex ⟨0, 0, 0⟩ none (by simp) 5 (by norm_num) none none
    none (by simp) none (by simp) ⟨0, 0, 1⟩ (by simp) m hm offAxisRay
    (by rw [norm_toE, norm_eq_one_iff]; norm_num [dot, offAxisRay]) ⟨3, 0, 0⟩
    (by rw [inner_toE]; norm_num [dot, offAxisRay]) (by rw [three_norm]; norm_num) 10
    (by rw [hsq]; norm_num) (by ext <;> simp [offAxisRay])
    (by simp [offAxisRay]) rfl 20 (by rw [hsq]; norm_num) 3 le_rfl
  rw [hsq] at h3 h5
  have hx : x = ⟨3, 0, 4⟩ := by rw [h3]; ext <;> norm_num [offAxisRay]
  subst hx
  have hL : L = 14 := by
    have : dist offAxisRay.position.toE (⟨3, 0, 4⟩ : V3 ℝ).toE = 6 := by
      rw [dist_toE_eq, norm_eq, show dot (offAxisRay.position - ⟨3, 0, 4⟩) (offAxisRay.position - ⟨3, 0, 4⟩) = (6 : ℝ) ^ 2 by
        norm_num [dot, offAxisRay]]
      exact Real.sqrt_sq (by norm_num)
    linarith
  have hz : z = 25 / 8 := by rw [h5]; norm_num
  subst hL hz
  refine ⟨m, hm, s, e, h1, by rw [h2]; rfl, ?_⟩
  rw [h6]
  ext <;> norm_num [offAxisRay]

/-- A ray from the centre of curvature, towards a point of the concave mirror off its axis. -/
noncomputable def centreRay : Ray ℝ := ⟨⟨0, 0, 5⟩, ⟨0, 3 / 5, -4 / 5⟩, 532, 0, [⟨0, 0, 5⟩], false, "normal"⟩

/-- It comes back to where it started, after 5 out and 5 back. -/
example : ∃ m, Mirror.new (⟨0, 0, 0⟩ : V3 ℝ) "circular_concave_spherical" (some ⟨0, 0, 1⟩) (some 8) none none (some (5 / 2))
      none "normal" (some ⟨0, 0, 1⟩) = .ok m ∧
    ∃ s : RunState XR, centreRay.lift.run (.fin 10) [(Optic.mirror m).lift] none 3 = .finished s ∧
      s.ray.pointHistory = [V3.lift ⟨0, 0, 5⟩, V3.lift ⟨0, 3, 1⟩, V3.lift ⟨0, 0, 5⟩] := by
  obtain ⟨m, hm⟩ := C54_concave_partial (⟨0, 0, 0⟩ : V3 ℝ) ⟨0, 0, 1⟩ 8 (5 / 2) none none none "normal" ⟨0, 0, 1⟩
  have hi : inner ℝ (⟨0, 0, 1⟩ : V3 ℝ).toE centreRay.direction.toE = -4 / 5 := by
    rw [inner_toE]; norm_num [dot, centreRay]
  obtain ⟨s, x, L, h1, h2, -, -, h3, h4⟩ := C88_centre ⟨0, 0, 0⟩ ⟨0, 0, 1⟩
    (by rw [norm_toE, norm_eq_one_iff]; norm_num [dot]) 8 (5 / 2) (by norm_num) none none none (by simp) ⟨0, 0, 1⟩ (by simp)
    m hm centreRay (by rw [norm_toE, norm_eq_one_iff]; norm_num [dot, centreRay]) (by rw [hi]; norm_num) 0 (by norm_num)
    (by norm_num) (by ext <;> norm_num [centreRay])
    (by
      rw [hi, dist_toE_eq, show (⟨0, 0, 0⟩ : V3 ℝ) + (2 * (5 / 2) : ℝ) * (⟨0, 0, 1⟩ : V3 ℝ) +
        (2 * (5 / 2) / -(-4 / 5) : ℝ) * centreRay.direction - ⟨0, 0, 0⟩ = ⟨0, 15 / 4, 0⟩ by ext <;> norm_num [centreRay], norm_eq,
        show dot (⟨0, 15 / 4, 0⟩ : V3 ℝ) ⟨0, 15 / 4, 0⟩ = (15 / 4) ^ 2 by norm_num [dot], Real.sqrt_sq (by norm_num)]
      norm_num)
    (by simp [centreRay]) rfl 10 (by norm_num) 3 le_rfl
  refine ⟨m, hm, s, h1, ?_⟩
  have hx : x = ⟨0, 3, 1⟩ := by rw [h3]; ext <;> norm_num [centreRay]
  have e : lineAt x (-centreRay.direction) L = ⟨0, 0, 5⟩ := by
    rw [hx, h4]; unfold lineAt; ext <;> norm_num [centreRay]
  rw [h2, e, hx]; rfl

end Optics
