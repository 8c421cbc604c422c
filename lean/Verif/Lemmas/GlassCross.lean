import Verif.Lemmas.GlassInside
import Verif.Lemmas.GlassEnter

/-! # A glass ball near a ray, with rounding: crossing the ball -/

namespace Optics
open V3

variable {R : Rounding} {C P : V3 ℝ} {e : E3} {ρ t h L η : ℝ}

/-- The computed vector to the centre from a point near the sphere. -/
theorem to_centre {C P' : V3 ℝ} {X : E3} {ρ E Δ : ℝ} (hρ : 1 ≤ ρ) (hr : ρ ≤ 10 ^ 40) (hX : ‖C.toE - X‖ = ρ)
    (hP' : ‖P'.toE - X‖ ≤ E) (hE : E ≤ ρ / 1000) (hrad : |‖C.toE - P'.toE‖ ^ 2 - ρ ^ 2| ≤ Δ) :
    ∃ q : V3 ℝ, (C.fl : V3 (Fl R)) - P'.fl = q.fl ∧ ‖q.toE - (C.toE - P'.toE)‖ ≤ 1002 / 1000 * (R.u * ρ) ∧
      ‖q.toE‖ ≤ (1 + 2 / 1000) * ρ ∧ |‖q.toE‖ ^ 2 - ρ ^ 2| ≤ Δ + 201 / 100 * (R.u * ρ ^ 2) := by
  have hu := R.u_pos
  have hus := (five_u (R := R)).2
  have huρ : 0 < R.u * ρ := by positivity
  have huu : R.u ≤ R.u * ρ := le_mul_of_one_le_right hu.le hρ
  have huρρ : 0 < R.u * ρ ^ 2 := by positivity
  have hCP : ‖C.toE - P'.toE‖ ≤ (1 + 1 / 1000) * ρ := by
    have : C.toE - P'.toE = (C.toE - X) - (P'.toE - X) := by abel
    rw [this]
    have := norm_sub_le (C.toE - X) (P'.toE - X)
    linarith
  have b200 : (1 + 1 / 1000) * ρ ≤ 10 ^ 200 := by
    have : 2 * (10 : ℝ) ^ 40 ≤ 10 ^ 200 := by norm_num
    linarith
  obtain ⟨q, hq, eq⟩ := vsub_near (R := R) hCP b200
  have eq' : ‖q.toE - (C.toE - P'.toE)‖ ≤ 1002 / 1000 * (R.u * ρ) := eq.trans (by linarith)
  have hqn : |‖q.toE‖ - ‖C.toE - P'.toE‖| ≤ 1002 / 1000 * (R.u * ρ) := (abs_norm_sub_norm_le _ _).trans eq'
  have hqn' := abs_le.mp hqn
  have uρs : R.u * ρ ≤ ρ / 1000000 := by nlinarith
  have hqb : ‖q.toE‖ ≤ (1 + 2 / 1000) * ρ := by linarith
  refine ⟨q, hq, eq', hqb, ?_⟩
  have b2 : |‖q.toE‖ ^ 2 - ‖C.toE - P'.toE‖ ^ 2| ≤ 1002 / 1000 * (R.u * ρ) * ((2 + 3 / 1000) * ρ) := by
    rw [show ‖q.toE‖ ^ 2 - ‖C.toE - P'.toE‖ ^ 2 = (‖q.toE‖ - ‖C.toE - P'.toE‖) * (‖q.toE‖ + ‖C.toE - P'.toE‖) by ring]
    refine abs_mul_le' hqn ?_
    rw [abs_le]; constructor <;> linarith [_root_.norm_nonneg q.toE, _root_.norm_nonneg (C.toE - P'.toE)]
  have b3 := abs_add_le (‖q.toE‖ ^ 2 - ‖C.toE - P'.toE‖ ^ 2) (‖C.toE - P'.toE‖ ^ 2 - ρ ^ 2)
  rw [sub_add_sub_cancel] at b3
  have b4 : 1002 / 1000 * (R.u * ρ) * ((2 + 3 / 1000) * ρ) = 1002 / 1000 * (2 + 3 / 1000) * (R.u * ρ ^ 2) := by ring
  rw [b4] at b2
  linarith

/-- The radius after a walk across the ball. -/
theorem cross_radius {q w ζ x : E3} {ρ L T U : ℝ} (hU : 0 < U) (hUs : U ≤ 1 / 10 ^ 12) (hρ : 1 ≤ ρ) (hL : ρ ≤ L) (hUL : U * L ≤ 1 / 10 ^ 10)
    (hw : |‖w‖ ^ 2 - 1| ≤ 50 * U) (hT0 : 0 ≤ T) (hT : T ≤ 204 / 100 * ρ)
    (hG : |T ^ 2 - 2 * T * inner ℝ w q + (‖q‖ ^ 2 - ρ ^ 2)| ≤ 30 * (U * ρ ^ 2)) (hx : x = q - T • w + ζ)
    (hζ : ‖ζ‖ ≤ U * (725 / 10 * ρ + 465 / 100 * L)) : |‖x‖ ^ 2 - ρ ^ 2| ≤ 395 * (U * ρ ^ 2) + 10 * (U * L * ρ) := by
  have c0 : 0 < U * ρ ^ 2 := by positivity
  have uρ : U * ρ ≤ U * L := mul_le_mul_of_nonneg_left hL hU.le
  have uρ0 : 0 < U * ρ := by positivity
  have b1 : ‖q - T • w‖ ^ 2 - ρ ^ 2 = (T ^ 2 - 2 * T * inner ℝ w q + (‖q‖ ^ 2 - ρ ^ 2)) + T ^ 2 * (‖w‖ ^ 2 - 1) := by
    rw [norm_sub_sq_real, inner_smul_right, _root_.norm_smul, Real.norm_eq_abs, mul_pow, sq_abs, real_inner_comm]; ring
  have b2 : |T ^ 2 * (‖w‖ ^ 2 - 1)| ≤ 2081 / 10 * (U * ρ ^ 2) := by
    rw [abs_mul, abs_of_nonneg (sq_nonneg T)]
    have a1 : T ^ 2 ≤ (204 / 100 * ρ) ^ 2 := pow_le_pow_left₀ hT0 hT 2
    have := mul_le_mul a1 hw (abs_nonneg _) (by positivity)
    refine this.trans (le_of_eq_of_le (show _ = 50 * (204 / 100) ^ 2 * (U * ρ ^ 2) by ring) ?_)
    linarith
  have b3 : |‖q - T • w‖ ^ 2 - ρ ^ 2| ≤ 2382 / 10 * (U * ρ ^ 2) := by
    rw [b1]
    refine (abs_add_le _ _).trans ?_
    linarith
  have b4 : ‖q - T • w‖ ≤ 1001 / 1000 * ρ := by
    refine abs_le_of_sq_le_sq' ?_ (by linarith) |>.2
    have := (abs_le.mp b3).2
    have u2 : U * ρ ^ 2 ≤ 1 / 10 ^ 12 * ρ ^ 2 := mul_le_mul_of_nonneg_right hUs (by positivity)
    nlinarith [sq_nonneg ρ]
  have b5 : ‖ζ‖ ≤ 1 / 1000 := by linarith
  have b6 : ‖x‖ ^ 2 - ρ ^ 2 = (‖q - T • w‖ ^ 2 - ρ ^ 2) + (2 * inner ℝ (q - T • w) ζ + ‖ζ‖ ^ 2) := by
    rw [hx, norm_add_sq_real]; ring
  have b7 : |2 * inner ℝ (q - T • w) ζ + ‖ζ‖ ^ 2| ≤ 2003 / 1000 * ρ * ‖ζ‖ := by
    have i1 := abs_real_inner_le_norm (q - T • w) ζ
    have i2 := mul_le_mul_of_nonneg_right b4 (_root_.norm_nonneg ζ)
    have i3 := mul_le_mul_of_nonneg_right b5 (_root_.norm_nonneg ζ)
    have i4 := mul_le_mul_of_nonneg_right hρ (_root_.norm_nonneg ζ)
    have i5 := abs_le.mp (i1.trans i2)
    rw [abs_le]
    constructor <;> nlinarith only [i5.1, i5.2, i3, i4, sq_nonneg ‖ζ‖]
  have b8 : 2003 / 1000 * ρ * ‖ζ‖ ≤ 2003 / 1000 * (725 / 10 * (U * ρ ^ 2) + 465 / 100 * (U * L * ρ)) := by
    have := mul_le_mul_of_nonneg_left hζ (show 0 ≤ 2003 / 1000 * ρ by linarith)
    refine this.trans_eq (by ring)
  have d0 : 0 < U * L * ρ := by
    have : 0 < L := by linarith
    positivity
  rw [b6]
  refine (abs_add_le _ _).trans ?_
  linarith

/-- The computed distance to the centre along the refracted ray. -/
theorem GlassAhead.start (H : GlassAhead R C P e ρ t h L η) {w P' : V3 ℝ} {e₁ : E3} {ε k : ℝ} (hε : ε = R.u * L ^ 2 / h)
    (hw : ‖w.toE - e₁‖ ≤ 1211 * ε / k) (he₁ : ‖e₁‖ = 1) (hk : inner ℝ e₁ (C.toE - (P.toE + t • e)) = k) (hkh : h ≤ k) (hkρ : k ≤ ρ)
    (hP' : ‖P'.toE - (P.toE + t • e)‖ ≤ 50 * ε)
    (hrad : |‖C.toE - P'.toE‖ ^ 2 - ρ ^ 2| ≤ 31 * (R.u * L ^ 2) + 67 * (R.u * L * ρ)) :
    ∃ q : V3 ℝ, (C.fl : V3 (Fl R)) - P'.fl = q.fl ∧ ‖q.toE - (C.toE - P'.toE)‖ ≤ 1002 / 1000 * (R.u * ρ) ∧
      ‖q.toE‖ ≤ (1 + 2 / 1000) * ρ ∧
      |‖q.toE‖ ^ 2 - ρ ^ 2| ≤ 31 * (R.u * L ^ 2) + 67 * (R.u * L * ρ) + 201 / 100 * (R.u * ρ ^ 2) ∧
      |inner ℝ w.toE q.toE - k| ≤ 1266 * (ε * ρ / k) := by
  obtain ⟨z1, z2, z3, z4⟩ := H.sizes
  obtain ⟨u1, u2, u3, u4, u5, u6, u7, u8⟩ := H.units hε
  have hρ := H.radius
  have hρ0 : 0 < ρ := by linarith
  have hh := H.steep
  have hk0 : 0 < k := by linarith
  have hn : ‖C.toE - (P.toE + t • e)‖ = ρ := by rw [norm_sub_rev]; exact H.on
  obtain ⟨q, hq, eq, hqb, hδ⟩ := to_centre (R := R) hρ (z2.trans H.range) hn hP' (by linarith) hrad
  refine ⟨q, hq, eq, hqb, hδ, ?_⟩
  have hθ : ε ≤ ε * ρ / k := by rw [le_div_iff₀ hk0]; exact mul_le_mul_of_nonneg_left hkρ u1.le
  have a0 : inner ℝ w.toE q.toE - k = inner ℝ (w.toE - e₁) q.toE + inner ℝ e₁ ((q.toE - (C.toE - P'.toE)) - (P'.toE - (P.toE + t • e))) := by
    rw [inner_sub_left, show (q.toE - (C.toE - P'.toE)) - (P'.toE - (P.toE + t • e)) = q.toE - (C.toE - (P.toE + t • e)) by abel,
      inner_sub_right e₁ q.toE, hk]; ring
  have a1 := abs_real_inner_le_norm (w.toE - e₁) q.toE
  have a2 := abs_real_inner_le_norm e₁ ((q.toE - (C.toE - P'.toE)) - (P'.toE - (P.toE + t • e)))
  have a3 := norm_sub_le (q.toE - (C.toE - P'.toE)) (P'.toE - (P.toE + t • e))
  rw [he₁, one_mul] at a2
  have a4 : ‖w.toE - e₁‖ * ‖q.toE‖ ≤ 1211 * ε / k * ((1 + 2 / 1000) * ρ) :=
    mul_le_mul hw hqb (_root_.norm_nonneg _) (by positivity)
  rw [show 1211 * ε / k * ((1 + 2 / 1000) * ρ) = 1211 * (1 + 2 / 1000) * (ε * ρ / k) by ring] at a4
  have a5 := abs_add_le (inner ℝ (w.toE - e₁) q.toE) (inner ℝ e₁ ((q.toE - (C.toE - P'.toE)) - (P'.toE - (P.toE + t • e))))
  rw [a0]
  linarith

/-- Crossing the ball. -/
theorem GlassAhead.cross (H : GlassAhead R C P e ρ t h L η) {w P' : V3 ℝ} {e₁ : E3} {ε k : ℝ} (hε : ε = R.u * L ^ 2 / h)
    (hw : ‖w.toE - e₁‖ ≤ 1211 * ε / k) (hwl : |‖w.toE‖ ^ 2 - 1| ≤ 50 * R.u) (he₁ : ‖e₁‖ = 1)
    (hk : inner ℝ e₁ (C.toE - (P.toE + t • e)) = k) (hkh : h ≤ k) (hkρ : k ≤ ρ)
    (hP' : ‖P'.toE - (P.toE + t • e)‖ ≤ 50 * ε)
    (hrad : |‖C.toE - P'.toE‖ ^ 2 - ρ ^ 2| ≤ 31 * (R.u * L ^ 2) + 67 * (R.u * L * ρ))
    {s : Sphere (Fl R)} (hsC : s.center = C.fl) (hsR : s.R = Fl.fin ρ) {ray : Ray (Fl R)}
    (hp : ray.position = P'.fl) (hrd : ray.direction = w.fl) :
    ∃ (P₂ P'' : V3 ℝ) (x : ℝ), s.testIntersect ray = Hit6.one P₂.fl (s.normal P₂.fl) 1 ∧
      distanceBetween (P'.fl : V3 (Fl R)) P₂.fl = Fl.fin x ∧ 1 / 2000 ≤ x ∧ x ≤ 205 / 100 * ρ ∧
      (P'.fl : V3 (Fl R)) + (Fl.fin x : Fl R) * (w.fl : V3 (Fl R)) = P''.fl ∧
      ‖P₂.toE - (P.toE + t • e + (2 * k) • e₁)‖ ≤ 5300 * (ε * ρ / k) ∧
      ‖P''.toE - (P.toE + t • e + (2 * k) • e₁)‖ ≤ 5300 * (ε * ρ / k) ∧
      |‖C.toE - P''.toE‖ ^ 2 - ρ ^ 2| ≤ 395 * (R.u * ρ ^ 2) + 10 * (R.u * L * ρ) := by
  obtain ⟨z1, z2, z3, z4⟩ := H.sizes
  obtain ⟨u1, u2, u3, u4, u5, u6, u7, u8⟩ := H.units hε
  obtain ⟨g1, g2, g3, g4, g5, g6⟩ := H.small hε hkh
  have hu := R.u_pos
  have ht := H.ahead
  have hρ := H.radius
  have hρ0 : 0 < ρ := by linarith
  have hh := H.steep
  have hk0 : 0 < k := by linarith
  have hnear := H.near
  have huρρ : 0 < R.u * ρ ^ 2 := by positivity
  have huLρ : 0 < R.u * L * ρ := by positivity
  have huLL : 0 < R.u * L ^ 2 := by positivity
  have hθ : ε ≤ ε * ρ / k := by rw [le_div_iff₀ hk0]; exact mul_le_mul_of_nonneg_left hkρ u1.le
  have hθk : 10 ^ 8 * (ε * ρ / k) ≤ k := by
    rw [mul_div_assoc', div_le_iff₀ hk0]; linarith only [g2, g5, sq k]
  obtain ⟨q, hq, eq, hqb, hδ, ei⟩ := H.start hε hw he₁ hk hkh hkρ hP' hrad
  have ei' := abs_le.mp ei
  have hwn : |‖w.toE‖ - 1| ≤ 26 * R.u := by
    have e1 : |‖w.toE‖ - 1| * (‖w.toE‖ + 1) ≤ 50 * R.u := by
      rw [← abs_of_nonneg (show 0 ≤ ‖w.toE‖ + 1 by positivity), ← abs_mul]
      refine le_of_eq_of_le ?_ hwl
      congr 1; ring
    have e2 : 198 / 100 ≤ ‖w.toE‖ + 1 := by
      have : (98 / 100 : ℝ) ^ 2 ≤ ‖w.toE‖ ^ 2 := by linarith [(abs_le.mp hwl).1]
      have := abs_le_of_sq_le_sq' this (_root_.norm_nonneg _) |>.2
      linarith
    have := mul_le_mul_of_nonneg_left e2 (abs_nonneg (‖w.toE‖ - 1))
    linarith
  have hw1 : ‖w.toE‖ ≤ 1 + 1 / 100000 := by linarith [(abs_le.mp hwn).2]
  obtain ⟨v, D, r, t₀, t₁, f, hv, hD, hD0, hr', ht₀, ht₁, hf, hfl, hf2, ht₁ρ, hG, e2i⟩ :=
    inside_root (R := R) (h := k) hw1 (by linarith) hkρ hρ (z2.trans H.range)
      (by linarith only [hnear, hkh, huLL, huLρ, huρρ]) hqb hδ (by linarith only [ei'.1, hθk, hk0])
  -- the far root
  have e3 : |t₁ - 2 * inner ℝ w.toE q.toE| ≤ 126 * ε := by
    refine le_of_mul_le_mul_right (e2i.trans ?_) hk0
    have a1 : R.u * L * ρ ≤ ε * h := by rw [u2, u8]; exact mul_le_mul_of_nonneg_left z2 u3.le
    have a2 : R.u * ρ ^ 2 ≤ R.u * L * ρ := by
      rw [show R.u * ρ ^ 2 = R.u * ρ * ρ by ring]; exact mul_le_mul_of_nonneg_right u5 hρ0.le
    have a3 : ε * h ≤ ε * k := mul_le_mul_of_nonneg_left hkh u1.le
    linarith only [a1, a2, a3, u2, mul_pos u1 hk0]
  have e3' := abs_le.mp e3
  have e4 : |t₁ - 2 * k| ≤ 2658 * (ε * ρ / k) := by
    rw [abs_le]; constructor <;> linarith only [e3'.1, e3'.2, ei'.1, ei'.2, hθ]
  have e4' := abs_le.mp e4
  have ht₁k : 199 / 100 * k ≤ t₁ := by linarith only [e4'.1, hθk, hk0]
  -- walking
  have hB : ‖P'.toE‖ ≤ 201 / 100 * L := by
    have : P'.toE = (P'.toE - (P.toE + t • e)) + (P.toE + t • e) := by abel
    rw [this]
    have a1 := norm_add_le (P'.toE - (P.toE + t • e)) (P.toE + t • e)
    have a2 := norm_add_le P.toE (t • e)
    rw [_root_.norm_smul, H.unit, mul_one, Real.norm_of_nonneg (by linarith)] at a2
    have := H.size
    linarith
  have hL50 : 201 / 100 * L ≤ 10 ^ 50 := by
    have := H.range
    have : 3 * (10 : ℝ) ^ 40 ≤ 10 ^ 50 := by norm_num
    linarith
  obtain ⟨P₂, hP₂, eP₂, x, hx, ex⟩ := walk_near_of (R := R) (g := 26) hB (by linarith) hL50 hw1 hwn (by norm_num)
    (s := t₁) (by linarith) (by linarith) (by linarith)
  have ex' := abs_le.mp ex
  have ut₁ : R.u * t₁ ≤ 204 / 100 * (R.u * ρ) := by
    have := mul_le_mul_of_nonneg_left ht₁ρ hu.le
    linarith
  have hxb : |x - t₁| ≤ 1 / 10 ^ 8 := by
    refine ex.trans ?_
    linarith
  have hxb' := abs_le.mp hxb
  obtain ⟨P'', hP'', eP''⟩ := fly_near_of (R := R) (s := x) hB (by linarith) hL50 hw1 (by linarith) (by
    have : (10 : ℝ) ^ 50 ≤ 10 ^ 100 := by norm_num
    linarith)
  have ux : R.u * x ≤ R.u * t₁ + R.u * (1 / 10 ^ 8) := by
    have := mul_le_mul_of_nonneg_left (show x ≤ t₁ + 1 / 10 ^ 8 by linarith) hu.le
    linarith
  have eP3 : ‖P''.toE - (P'.toE + t₁ • w.toE)‖ ≤ R.u * (714 / 10 * ρ + 465 / 100 * L) := by
    have a1 : P''.toE - (P'.toE + t₁ • w.toE) = (P''.toE - (P'.toE + x • w.toE)) + (x - t₁) • w.toE := by
      rw [sub_smul]; abel
    rw [a1]
    have a2 := norm_add_le (P''.toE - (P'.toE + x • w.toE)) ((x - t₁) • w.toE)
    rw [_root_.norm_smul, Real.norm_eq_abs] at a2
    have a3 : |x - t₁| * ‖w.toE‖ ≤ R.u * ((62 / 10 + 26) * t₁ + 12 / 10 * (201 / 100 * L)) * (1 + 1 / 100000) :=
      mul_le_mul ex hw1 (_root_.norm_nonneg _) ((abs_nonneg _).trans ex)
    linarith only [a2, a3, eP'', ux, ut₁, u5, u3, u6, hu, mul_pos hu hρ0]
  -- positions
  have pos : ∀ Q : V3 ℝ, ‖Q.toE - (P'.toE + t₁ • w.toE)‖ ≤ R.u * (714 / 10 * ρ + 465 / 100 * L) →
      ‖Q.toE - (P.toE + t • e + (2 * k) • e₁)‖ ≤ 5300 * (ε * ρ / k) := by
    intro Q hQ
    have a1 : Q.toE - (P.toE + t • e + (2 * k) • e₁) = (Q.toE - (P'.toE + t₁ • w.toE)) + (P'.toE - (P.toE + t • e)) +
        (t₁ • (w.toE - e₁) + (t₁ - 2 * k) • e₁) := by
      rw [smul_sub, sub_smul]; abel
    rw [a1]
    have a2 := norm_add₃_le (a := Q.toE - (P'.toE + t₁ • w.toE)) (b := P'.toE - (P.toE + t • e))
      (c := t₁ • (w.toE - e₁) + (t₁ - 2 * k) • e₁)
    have a3 := norm_add_le (t₁ • (w.toE - e₁)) ((t₁ - 2 * k) • e₁)
    rw [_root_.norm_smul, _root_.norm_smul, he₁, mul_one, Real.norm_eq_abs, Real.norm_eq_abs, abs_of_pos (show 0 < t₁ by linarith)] at a3
    have a4 : t₁ * ‖w.toE - e₁‖ ≤ 204 / 100 * ρ * (1211 * ε / k) := mul_le_mul ht₁ρ hw (_root_.norm_nonneg _) (by positivity)
    rw [show 204 / 100 * ρ * (1211 * ε / k) = 204 / 100 * 1211 * (ε * ρ / k) by ring] at a4
    linarith only [a2, a3, a4, e4, hQ, hP', hθ, u4, u5, u1]
  refine ⟨P₂, P'', x, ?_, hx, by linarith, by linarith, hP'', pos P₂ (eP₂.trans ?_), pos P'' eP3, ?_⟩
  · unfold Sphere.testIntersect
    simp only [hsC, hsR, hp, hrd, hq, hv, hD, hr', ht₀, ht₁, hP₂]
    rw [if_pos (show (Fl.fin D : Fl R) > 0.0 by rw [fl_lit0]; exact (fl_lt _ _).mpr hD0),
      if_neg (fun h => (not_lt.mpr hfl) (by have := h.1; rw [hf] at this; exact this)),
      if_pos (show (Fl.fin t₁ : Fl R) > clippingFloor by rw [hf]; exact (fl_lt _ _).mpr (by linarith))]
  · linarith only [ut₁, u3, u5, hu, mul_pos hu hρ0]
  · refine cross_radius (q := q.toE) (w := w.toE) (ζ := (C.toE - P'.toE - q.toE) - (P''.toE - (P'.toE + t₁ • w.toE))) (T := t₁)
      hu g4 hρ z2 (by linarith) hwl (by linarith) ht₁ρ hG (by abel) ?_
    refine (norm_sub_le _ _).trans ?_
    rw [norm_sub_rev] at eq
    linarith only [eq, eP3, u5, hu, u3, mul_pos hu hρ0]

end Optics
