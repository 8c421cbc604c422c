import Verif.Spec.BallMirrors
import Verif.Props.Nearest
import Verif.Props.Mirrors

/-! # Rays around mirror balls, with real numbers -/

namespace Optics
open V3

theorem line_dist_sq (P d c : V3 ℝ) (hd : ‖d.toE‖ = 1) (t : ℝ) :
    dist (lineAt P d t).toE c.toE ^ 2 = t ^ 2 - 2 * t * inner ℝ d.toE (c - P).toE + dist P.toE c.toE ^ 2 := by
  have h1 : dot d d = 1 := by rwa [norm_toE, norm_eq_one_iff] at hd
  rw [dist_toE_eq, dist_toE_eq, norm_sq, norm_sq, inner_toE]
  simp only [lineAt, dot, sub_x, sub_y, sub_z, add_x, add_y, add_z, smul_x, smul_y, smul_z] at h1 ⊢
  linear_combination t ^ 2 * h1

/-- A ray that may go on: outside the ball, and going away from it or not close to it. -/
def BallClear (b : V3 ℝ × ℝ) (P d : V3 ℝ) : Prop :=
  b.2 ≤ dist P.toE b.1.toE ∧ (inner ℝ d.toE (b.1 - P).toE ≤ 0 ∨ b.2 + 1e-12 < dist P.toE b.1.toE)

theorem onSphere_pos {c x : V3 ℝ} {R : ℝ} (hR : 0 < R) : OnSphere c R x ↔ dist x.toE c.toE = R := by
  rw [OnSphere, abs_of_pos hR]

/-- A leg that stops before the first point of the sphere stays outside. -/
theorem leg_outside {b : V3 ℝ × ℝ} {P d : V3 ℝ} (hR : 0 < b.2) (hd : ‖d.toE‖ = 1) (h : BallClear b P d) {T : ℝ}
    (hfirst : ¬ Tangent b.1 b.2 P d → ∀ t, FirstOnSphere b.1 b.2 P d t → T ≤ t) {s : ℝ} (h0 : 0 ≤ s) (hs : s ≤ T) :
    b.2 ≤ dist (lineAt P d s).toE b.1.toE := by
  obtain ⟨hout, hdir⟩ := h
  by_contra hin
  rw [not_le] at hin
  set v := inner ℝ d.toE (b.1 - P).toE with hv
  set q := dist P.toE b.1.toE with hq
  have hF := fun t => line_dist_sq P d b.1 hd t
  have hq0 : 0 ≤ q := dist_nonneg
  have hs2 : s ^ 2 - 2 * s * v + q ^ 2 < b.2 ^ 2 := by
    rw [← hF s]; exact pow_lt_pow_left₀ hin dist_nonneg (by norm_num)
  rcases hdir with hdir | hfar
  · nlinarith
  · -- the roots
    have hdisc : 0 < v ^ 2 - q ^ 2 + b.2 ^ 2 := by nlinarith [sq_nonneg (s - v)]
    have hr := Real.sqrt_pos.mpr hdisc
    have hrr := Real.sq_sqrt hdisc.le
    set r := Real.sqrt (v ^ 2 - q ^ 2 + b.2 ^ 2) with hrdef
    have hv0 : 0 < v := by
      by_contra hc
      rw [not_lt] at hc
      nlinarith
    have hon : ∀ t, OnSphere b.1 b.2 (lineAt P d t) ↔ (t - v) ^ 2 = r ^ 2 := by
      intro t
      rw [onSphere_pos hR, ← sq_eq_sq₀ dist_nonneg hR.le, hF t, hrr]
      constructor <;> intro <;> linarith
    have hT : ¬ Tangent b.1 b.2 P d := by
      rintro ⟨t, h1, h2⟩
      have h1 := (hon t).mp h1
      have e : inner ℝ (lineAt P d t - b.1).toE d.toE = t - v := by
        have hdd : dot d d = 1 := by rwa [norm_toE, norm_eq_one_iff] at hd
        rw [hv, inner_toE, inner_toE]
        simp only [lineAt, dot, sub_x, sub_y, sub_z, add_x, add_y, add_z, smul_x, smul_y, smul_z] at hdd ⊢
        linear_combination t * hdd
      rw [e] at h2
      rw [h2] at h1
      nlinarith
    have hsr : (s - v) ^ 2 < r ^ 2 := by rw [hrr]; nlinarith
    have hsl : v - r < s := by nlinarith [abs_lt_of_sq_lt_sq hsr hr.le, (abs_lt.mp (abs_lt_of_sq_lt_sq hsr hr.le)).1]
    have hclose : q - b.2 ≤ v - r := by
      have hvq : v ≤ q := by
        have := real_inner_le_norm d.toE (b.1 - P).toE
        rw [hd, one_mul] at this
        rwa [hv, hq, dist_comm, dist_eq_norm, ← toE_sub]
      have hrb : r ^ 2 ≤ (v - q + b.2) ^ 2 := by rw [hrr]; nlinarith
      have hvb : 0 < v - q + b.2 := by
        by_contra hc
        rw [not_lt] at hc
        have hqv : b.2 ≤ q - v := by linarith
        nlinarith
      have := abs_le_of_sq_le_sq hrb hvb.le
      have := (abs_le.mp this).2
      linarith
    have ht0 : 1e-12 < v - r := by linarith
    have hfo : FirstOnSphere b.1 b.2 P d (v - r) := by
      refine ⟨ht0, (hon _).mpr (by ring), fun t _ ht => ?_⟩
      have ht := (hon t).mp ht
      rcases sq_eq_sq_iff_eq_or_eq_neg.mp ht with e | e <;> linarith
    have := hfirst hT _ hfo
    linarith

theorem inner_line (P d c : V3 ℝ) (hd : ‖d.toE‖ = 1) (t : ℝ) :
    inner ℝ d.toE (c - lineAt P d t).toE = inner ℝ d.toE (c - P).toE - t := by
  have hdd : dot d d = 1 := by rwa [norm_toE, norm_eq_one_iff] at hd
  rw [inner_toE, inner_toE]
  simp only [lineAt, dot, sub_x, sub_y, sub_z, add_x, add_y, add_z, smul_x, smul_y, smul_z] at hdd ⊢
  linear_combination -t * hdd

theorem dist_line (P d : V3 ℝ) (hd : ‖d.toE‖ = 1) (t : ℝ) : dist P.toE (lineAt P d t).toE = |t| := by
  have h := line_dist_sq P d P hd t
  rw [dist_self, show P - P = (0 : ℝ) * P by ext <;> simp, toE_smul, zero_smul, inner_zero_right] at h
  rw [dist_comm, ← abs_of_nonneg (dist_nonneg (x := (lineAt P d t).toE) (y := P.toE)), ← sq_eq_sq_iff_abs_eq_abs]
  linarith

/-- At the end of a leg that stayed outside the ball, a ray on the ball points into it, or along it. -/
theorem arrives {b : V3 ℝ × ℝ} {P d : V3 ℝ} (hd : ‖d.toE‖ = 1) {T : ℝ} (hT : 0 < T)
    (hleg : ∀ s, 0 ≤ s → s ≤ T → b.2 ≤ dist (lineAt P d s).toE b.1.toE) (hR : 0 < b.2)
    (hon : dist (lineAt P d T).toE b.1.toE = b.2) : 0 ≤ inner ℝ d.toE (b.1 - lineAt P d T).toE := by
  rw [inner_line P d b.1 hd]
  by_contra hc
  rw [not_le] at hc
  set v := inner ℝ d.toE (b.1 - P).toE with hv
  have hF := fun t => line_dist_sq P d b.1 hd t
  have hTF := hF T
  rw [hon, ← hv] at hTF
  have hmax := hleg (max 0 v) (le_max_left _ _) (max_le hT.le (by linarith))
  have h2 := pow_le_pow_left₀ hR.le hmax 2
  rw [hF, ← hv] at h2
  rcases max_cases 0 v with ⟨e, h⟩ | ⟨e, h⟩ <;> rw [e] at h2 <;> nlinarith

/-- A mirror ball the ray heads for is a candidate for the next hit. -/
theorem ball_candidate {o : Optic ℝ} {b : V3 ℝ × ℝ} (ho : BallMirror o b) {ray : Ray ℝ} (hd : ‖ray.direction.toE‖ = 1)
    (hT : ¬ Tangent b.1 b.2 ray.position ray.direction) {t rem : ℝ}
    (ht : FirstOnSphere b.1 b.2 ray.position ray.direction t) (hr : t ≤ rem) :
    ∃ n, Candidate ray rem o t (lineAt ray.position ray.direction t) n := by
  obtain ⟨hR, n, w, h, f, tan, dmd, m, hdmd, hm, rfl⟩ := ho
  have e2 : 2 * b.2 / 2 = b.2 := by ring
  have H := C55_convex b.1 n (2 * b.2) (by positivity) w h f tan "normal" dmd hdmd m hm ray hd (by rwa [e2])
  rw [e2] at H
  obtain ⟨r, hr1, hr2, hr3⟩ := H
  have hhit := hr2.mpr ⟨t, ht.ahead, ht.on⟩
  obtain ⟨t', ht', hpt, -⟩ := hr3 hhit
  have : t' = t := le_antisymm (ht'.first t ht.ahead ht.on) (ht.first t' ht'.ahead ht'.on)
  rw [this] at hpt
  have h0 : 0 < t := lt_trans (by norm_num) ht.ahead
  refine ⟨r.normal, rfl, ⟨r.sfo, ?_⟩, ?_, ht.ahead, hr⟩
  · show m.testIntersect ray = _
    rw [hr1]
    obtain ⟨a, b, c, d⟩ := r
    simp only at hhit hpt
    rw [hhit, hpt]
  · rw [dist_line _ _ hd, abs_of_pos h0]

/-- What a mirror ball does to a ray that hits it. -/
theorem ball_struck {o : Optic ℝ} {b : V3 ℝ × ℝ} (ho : BallMirror o b) {ray : Ray ℝ} (hd : ‖ray.direction.toE‖ = 1) {d rem : ℝ}
    {pt : V3 ℝ} {n : Option (V3 ℝ)} (hc : Candidate ray rem o d pt n) :
    ∃ t, pt = lineAt ray.position ray.direction t ∧ |t| = d ∧ dist pt.toE b.1.toE = b.2 ∧
      (t < 0 → TouchedBehind b ray ∧ t = inner ℝ ray.direction.toE (b.1 - ray.position).toE) ∧
      ∀ (ray₀ ray' : Ray ℝ) sfo hits, ray₀.direction = ray.direction → o.doIntersect ray₀ pt n sfo = .ok (ray', hits) →
        ∃ d' : V3 ℝ, ray' = { ray₀ with direction := d' } ∧ Reflected (pt - b.1).toE ray.direction.toE d'.toE := by
  obtain ⟨hR, nn, w, h, f, tan, dmd, m, hdmd, hm, rfl⟩ := ho
  obtain ⟨-, ⟨sfo, hit⟩, hdist, hnear, -⟩ := hc
  have e2 : 2 * b.2 / 2 = b.2 := by ring
  have hit : m.testIntersect ray = .ok ⟨true, some pt, n, sfo⟩ := hit
  by_cases hT : Tangent b.1 b.2 ray.position ray.direction
  · have H := C55_convex_tangent b.1 nn (2 * b.2) (by positivity) w h f tan "normal" dmd hdmd m hm ray hd (by rwa [e2])
    rw [e2] at H
    obtain ⟨r, t, hr1, -, hpt, hon, hact⟩ := H
    rw [hit] at hr1
    obtain rfl := Except.ok.inj hr1
    simp only [Option.some.injEq] at hpt
    subst hpt
    rw [dist_line _ _ hd] at hdist
    rw [onSphere_pos hR] at hon
    have htv : t = inner ℝ ray.direction.toE (b.1 - ray.position).toE := by
      obtain ⟨t', h1, h2⟩ := hT
      rw [onSphere_pos hR] at h1
      have e : inner ℝ (lineAt ray.position ray.direction t' - b.1).toE ray.direction.toE =
          -inner ℝ ray.direction.toE (b.1 - lineAt ray.position ray.direction t').toE := by
        rw [real_inner_comm, ← inner_neg_right, ← toE_neg]; congr 2; ext <;> simp
      rw [e, inner_line _ _ _ hd] at h2
      have a1 := line_dist_sq ray.position ray.direction b.1 hd t
      have a2 := line_dist_sq ray.position ray.direction b.1 hd t'
      rw [hon] at a1
      rw [h1] at a2
      have : (t - inner ℝ ray.direction.toE (b.1 - ray.position).toE) ^ 2 = 0 := by
        have : t' = inner ℝ ray.direction.toE (b.1 - ray.position).toE := by linarith
        rw [← this] at a1 a2 ⊢
        nlinarith
      have := pow_eq_zero_iff (two_ne_zero) |>.mp this
      linarith
    refine ⟨t, rfl, hdist, hon, fun ht => ⟨⟨hT, by rw [← htv]; exact ht⟩, htv⟩, ?_⟩
    intro ray₀ ray' sfo' hits hdir hdo
    obtain ⟨d', hd', law⟩ := hact ray₀ hdir
    simp only [Optic.doIntersect, hd', Functor.map, Except.map, bind, Except.bind, pure, Except.pure] at hdo
    refine ⟨d', ?_, law.ordinary rfl⟩
    injection hdo with hdo
    exact (Prod.mk.inj hdo).1.symm
  · have H := C55_convex b.1 nn (2 * b.2) (by positivity) w h f tan "normal" dmd hdmd m hm ray hd (by rwa [e2])
    rw [e2] at H
    obtain ⟨r, hr1, -, hr3⟩ := H
    rw [hit] at hr1
    obtain rfl := Except.ok.inj hr1
    obtain ⟨t, hfo, hpt, hact⟩ := hr3 rfl
    simp only [Option.some.injEq] at hpt
    subst hpt
    rw [dist_line _ _ hd] at hdist
    have h0 : 0 < t := lt_trans (by norm_num) hfo.ahead
    refine ⟨t, rfl, hdist, (onSphere_pos hR).mp hfo.on, fun ht => absurd ht (not_lt.mpr h0.le), ?_⟩
    intro ray₀ ray' sfo' hits hdir hdo
    obtain ⟨d', hd', law⟩ := hact ray₀ hdir
    simp only [Optic.doIntersect, hd', Functor.map, Except.map, bind, Except.bind, pure, Except.pure] at hdo
    refine ⟨d', ?_, law.ordinary rfl⟩
    injection hdo with hdo
    exact (Prod.mk.inj hdo).1.symm

/-- One pass between mirror balls: the leg flown enters no ball, and the ray may go on. -/
theorem ball_step {optics : List (Optic ℝ)} {balls : List (V3 ℝ × ℝ)} (hsc : List.Forall₂ BallMirror optics balls)
    (hgap : balls.Pairwise fun a b => a.2 + b.2 + 1e-12 < dist a.1.toE b.1.toE) {md : ℝ} {mi : Option Int}
    {s s' : RunState ℝ} (hd : ‖s.ray.direction.toE‖ = 1) (hrem : s.remaining ≤ md) (hpos : 0 < s.remaining)
    (hclear : ∀ b ∈ balls, BallClear b s.ray.position s.ray.direction)
    (hT : ∀ b ∈ balls, TouchedBehind b s.ray → balls = [b]) (h : runStep md optics s = .next s') :
    ∃ T, 0 ≤ T ∧ s'.ray.position = lineAt s.ray.position s.ray.direction T ∧
      (∀ x, 0 ≤ x → x ≤ T → OutsideBalls balls (lineAt s.ray.position s.ray.direction x).toE) ∧
      (s'.continues mi = false ∨ s'.remaining ≤ md ∧ ‖s'.ray.direction.toE‖ = 1 ∧
        ∀ b ∈ balls, BallClear b s'.ray.position s'.ray.direction) := by
  have hball : ∀ b ∈ balls, ∃ o ∈ optics, BallMirror o b := by
    clear hgap hclear hT h
    induction hsc with
    | nil => intro b hb; cases hb
    | cons h1 _ ih =>
      intro b hb
      rcases List.mem_cons.mp hb with rfl | hb
      · exact ⟨_, List.mem_cons_self, h1⟩
      · obtain ⟨o, ho, hb⟩ := ih b hb; exact ⟨o, List.mem_cons_of_mem _ ho, hb⟩
  have hoptic : ∀ o ∈ optics, ∃ b ∈ balls, BallMirror o b := by
    clear hgap hclear hT h hball
    induction hsc with
    | nil => intro b hb; cases hb
    | cons h1 _ ih =>
      intro b hb
      rcases List.mem_cons.mp hb with rfl | hb
      · exact ⟨_, List.mem_cons_self, h1⟩
      · obtain ⟨o, ho, hb⟩ := ih b hb; exact ⟨o, List.mem_cons_of_mem _ ho, hb⟩
  rcases C45_nearest md optics s s' h with ⟨hno, hray, -, hint⟩ | ⟨l1, o, l2, d, pt, n, hl, hc, hl1, hl2, hrm, hint, hact, hff⟩
  · refine ⟨s.remaining, hpos.le, by rw [hray]; rfl, ?_, .inl ?_⟩
    · intro x h0 hx b hb
      obtain ⟨o, ho, hob⟩ := hball b hb
      refine leg_outside hob.1 hd (hclear b hb) (fun hnt t ht => ?_) h0 hx
      by_contra hlt
      obtain ⟨n, hn⟩ := ball_candidate hob hd hnt ht (not_le.mp hlt).le
      exact hno o ho _ _ _ hn
    · obtain ⟨v, hv, hs⟩ := runStep_next h
      rcases hs with ⟨_, rfl⟩ | ⟨sel, _, _, _, rfl⟩ | ⟨sel, sfo, ray', hits, _, _, _, _, ha, rfl⟩
      · have : ¬ (s.remaining - md > 0.0) := by
          rw [lit0]; simp only [gt_iff_lt, sub_pos, not_lt]; exact hrem
        simp [RunState.continues, this]
      · simp at hint
      · simp at hint
  · have hom : o ∈ optics := by rw [hl]; simp
    obtain ⟨b, hb, hob⟩ := hoptic o hom
    obtain ⟨t, hpt, htd, hon, hneg, hdo⟩ := ball_struck hob hd hc
    have hd0 : 0 < d := lt_trans (by norm_num) hc.notTooNear
    have hleg : ∀ x, 0 ≤ x → x ≤ d → OutsideBalls balls (lineAt s.ray.position s.ray.direction x).toE := by
      intro x h0 hx b' hb'
      obtain ⟨o', ho', hob'⟩ := hball b' hb'
      refine leg_outside hob'.1 hd (hclear b' hb') (fun hnt t' ht' => ?_) h0 hx
      rcases le_or_gt t' s.remaining with hle | hgt
      · obtain ⟨n', hn'⟩ := ball_candidate hob' hd hnt ht' hle
        rw [hl, List.mem_append, List.mem_cons] at ho'
        rcases ho' with ho' | rfl | ho'
        · exact (hl1 _ ho' _ _ _ hn').le
        · exact (candidate_unique hc hn').1.le
        · exact hl2 _ ho' _ _ _ hn'
      · exact hc.inReach.trans hgt.le
    have hremd : s'.remaining ≤ md := by rw [hrm]; linarith
    by_cases hty : s.ray.type = "faerie_fire"
    · obtain ⟨-, hr'⟩ := hff hty
      refine ⟨d, hd0.le, by rw [hr']; rfl, hleg, .inl ?_⟩
      simp [RunState.continues, hr']
    · obtain ⟨sfo, hits, hdo', -⟩ := hact hty
      obtain ⟨d', hray', hrefl⟩ := hdo (s.ray.movedTo (lineAt s.ray.position s.ray.direction d)) _ _ _ rfl hdo'
      have hpos' : s'.ray.position = lineAt s.ray.position s.ray.direction d := by rw [hray']; rfl
      have hdir' : s'.ray.direction = d' := by rw [hray']
      refine ⟨d, hd0.le, hpos', hleg, .inr ⟨hremd, by rw [hdir']; exact hrefl.unit, ?_⟩⟩
      rw [hpos', hdir']
      have hnr := hrefl.normalReversed
      rw [hd, one_mul] at hnr
      rcases lt_or_ge t 0 with ht | ht
      · obtain ⟨htb, htv⟩ := hneg ht
        have hone := hT b hb htb
        intro b' hb'
        rw [hone, List.mem_singleton] at hb'
        subst hb'
        refine ⟨hleg d hd0.le le_rfl b' hb, .inl ?_⟩
        have hdt : d = -t := by rw [← htd, abs_of_neg ht]
        have hperp : inner ℝ s.ray.direction.toE (pt - b'.1).toE = 0 := by
          have := inner_line s.ray.position s.ray.direction b'.1 hd t
          rw [← htv, sub_self, ← hpt] at this
          rw [show pt - b'.1 = -(b'.1 - pt) by ext <;> simp, toE_neg, inner_neg_right, this, neg_zero]
        have hk := hrefl.surfaceKept s.ray.direction.toE hperp
        rw [hd, one_mul, real_inner_self_eq_norm_sq, hd] at hk
        have e : b'.1 - lineAt s.ray.position s.ray.direction d = (t - d) * s.ray.direction - (pt - b'.1) := by
          rw [hpt]; ext <;> simp [lineAt] <;> ring
        rw [e, toE_sub, inner_sub_right, toE_smul, inner_smul_right, hk, hnr, hperp]
        linarith
      · have hdt : d = t := by rw [← htd, abs_of_nonneg ht]
        rw [← hdt] at hpt
        rw [← hpt]
        have harr := arrives hd hd0 (fun x h0 hx => hleg x h0 hx b hb) hob.1 (by rw [← hpt]; exact hon)
        rw [← hpt] at harr
        intro b' hb'
        by_cases hbb : b' = b
        · subst hbb
          refine ⟨hon.ge, .inl ?_⟩
          rw [show b'.1 - pt = -(pt - b'.1) by ext <;> simp, toE_neg, inner_neg_right] at harr ⊢
          rw [hnr]; linarith
        · have hg : b'.2 + b.2 + 1e-12 < dist b'.1.toE b.1.toE := by
            haveI : Std.Symm fun a b : V3 ℝ × ℝ => a.2 + b.2 + 1e-12 < dist a.1.toE b.1.toE :=
              ⟨fun x y h => by rw [dist_comm]; linarith⟩
            exact hgap.forall hb' hb hbb
          have tri := dist_triangle b'.1.toE pt.toE b.1.toE
          rw [hon, dist_comm b'.1.toE pt.toE] at tri
          have : b'.2 + 1e-12 < dist pt.toE b'.1.toE := by linarith
          exact ⟨by linarith [show (0 : ℝ) < 1e-12 by norm_num], .inr this⟩

/-- A ray on the z axis, between mirror balls on the z axis, stays on it. -/
theorem axis_stays {optics : List (Optic ℝ)} {balls : List (V3 ℝ × ℝ)} (hsc : ∀ o ∈ optics, ∃ b ∈ balls, BallMirror o b)
    (hax : ∀ b ∈ balls, b.1.x = 0 ∧ b.1.y = 0) {md : ℝ} {mi : Option Int} {k : Nat} {s0 t : RunState ℝ}
    (hp : Passes md optics mi k s0 t) (h0 : ‖s0.ray.direction.toE‖ = 1) (h1 : s0.ray.position.x = 0 ∧ s0.ray.position.y = 0)
    (h2 : s0.ray.direction.x = 0 ∧ s0.ray.direction.y = 0) :
    ‖t.ray.direction.toE‖ = 1 ∧ (t.ray.position.x = 0 ∧ t.ray.position.y = 0) ∧
      (t.ray.direction.x = 0 ∧ t.ray.direction.y = 0) := by
  induction hp with
  | zero => exact ⟨h0, h1, h2⟩
  | @succ n s s' s'' hp hc hstep ih =>
    obtain ⟨hd, ⟨px, py⟩, dx, dy⟩ := ih h0 h1 h2
    rcases C45_nearest md optics _ _ hstep with ⟨-, hray, -, -⟩ | ⟨l1, o, l2, d, pt, n, hl, hc, -, -, -, -, hact, hff⟩
    · rw [hray]
      exact ⟨hd, ⟨by simp [Ray.movedTo, lineAt, px, dx], by simp [Ray.movedTo, lineAt, py, dy]⟩, dx, dy⟩
    · obtain ⟨b, hb, hob⟩ := hsc o (by rw [hl]; simp)
      obtain ⟨bx, by'⟩ := hax b hb
      obtain ⟨t, hpt, htd, hon, hneg, hdo⟩ := ball_struck hob hd hc
      by_cases hty : s'.ray.type = "faerie_fire"
      · obtain ⟨-, hr'⟩ := hff hty
        rw [hr']
        exact ⟨hd, ⟨by simp [Ray.movedTo, lineAt, px, dx], by simp [Ray.movedTo, lineAt, py, dy]⟩, dx, dy⟩
      · obtain ⟨sfo, hits, hdo', -⟩ := hact hty
        obtain ⟨d', hray', hrefl⟩ := hdo (s'.ray.movedTo (lineAt s'.ray.position s'.ray.direction d)) _ _ _ rfl hdo'
        rw [hray']
        have hx := hrefl.surfaceKept (⟨1, 0, 0⟩ : V3 ℝ).toE (by rw [inner_toE, hpt]; simp [dot, lineAt, px, dx, bx])
        have hy := hrefl.surfaceKept (⟨0, 1, 0⟩ : V3 ℝ).toE (by rw [inner_toE, hpt]; simp [dot, lineAt, py, dy, by'])
        rw [inner_toE, inner_toE, hd] at hx hy
        simp only [dot, dx, dy] at hx hy
        refine ⟨hrefl.unit, ⟨by simp [Ray.movedTo, lineAt, px, dx], by simp [Ray.movedTo, lineAt, py, dy]⟩, ?_, ?_⟩
        · show d'.x = 0
          linarith
        · show d'.y = 0
          linarith

/-- The z axis touches no ball around a point of it. -/
theorem axis_not_tangent {b : V3 ℝ × ℝ} (hR : 0 < b.2) (hb : b.1.x = 0 ∧ b.1.y = 0) {P d : V3 ℝ} (hd : ‖d.toE‖ = 1)
    (hP : P.x = 0 ∧ P.y = 0) (hdz : d.x = 0 ∧ d.y = 0) : ¬ Tangent b.1 b.2 P d := by
  rintro ⟨t, h1, h2⟩
  rw [onSphere_pos hR, dist_toE_eq] at h1
  rw [inner_toE] at h2
  rw [norm_toE, norm_eq_one_iff] at hd
  simp only [V3.norm, dot, lineAt, hP, hdz, hb, sub_x, sub_y, sub_z, add_x, add_y, add_z, smul_x, smul_y, smul_z, mul_zero,
    zero_add, sub_zero, add_zero] at h1 h2 hd
  rcases mul_eq_zero.mp h2 with h | h
  · rw [h] at h1
    simp [real_sqrt] at h1
    linarith
  · rw [h] at hd; norm_num at hd

end Optics
