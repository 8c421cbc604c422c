import Verif.Lemmas.CylinderFirst
import Verif.Lemmas.RoundedGrating
import Verif.Props.RoundedAlignment
/-!
The matrix and the normals of an `InfiniteCylinder` with rounding. Used by `Props/RoundedCylinders.lean`.
-/

namespace Optics
open V3

variable {R : Rounding}

/-- **`project_onto_plane`** for vectors of any length. -/
theorem project_big {x t : V3 ℝ} {T : E3} {X : ℝ} (hT : ‖T‖ = 1) (ht : ‖t.toE - T‖ ≤ 5 * R.u) (hx : ‖x.toE‖ ≤ X) (h1 : 1 ≤ X)
    (hX : X ≤ 10 ^ 100) :
    ∃ p : V3 ℝ, projectOntoPlane (x.fl : V3 (Fl R)) t.fl = p.fl ∧ ‖p.toE - across T x.toE‖ ≤ 40 * (R.u * X) := by
  have hu := R.u_pos
  obtain ⟨h5, h6⟩ := five_u (R := R)
  have hn := abs_norm_sub_norm_le t.toE T
  rw [hT] at hn
  have hn' := abs_le.mp (hn.trans ht)
  have sane : SaneLength t := sane_of_near (by linarith)
  obtain ⟨U, hU, dU, nU⟩ := reunit_near (R := R) hT sane ht
  obtain ⟨q, hq, eq⟩ := norm_near (R := R) sane
  have h0 := _root_.norm_nonneg x.toE
  have uX : 0 < R.u * X := by positivity
  have uX1 : R.u * 1 ≤ R.u * X := mul_le_mul_of_nonneg_left h1 hu.le
  have uX6 : R.u * X ≤ 1 / 1000000 * X := mul_le_mul_of_nonneg_right h6 (by linarith)
  have top : (10 : ℝ) ^ 100 * 1000 ≤ 10 ^ 200 := by norm_num
  have hxt : ‖x.toE‖ * ‖t.toE‖ ≤ 1001 / 1000 * X := by
    have := mul_le_mul hx (show ‖t.toE‖ ≤ 1 + 1 / 100000 by linarith) (_root_.norm_nonneg _) (by linarith)
    linarith
  obtain ⟨s, hs, es⟩ := dot_near' (R := R) hxt (by linarith) (by linarith)
  have eq1 : |q - 1| ≤ 81 / 10 * R.u := by
    have h1 := abs_add_le (q - ‖t.toE‖) (‖t.toE‖ - 1)
    rw [sub_add_sub_cancel] at h1
    have h2 : 3 * R.u * ‖t.toE‖ ≤ 3 * R.u * (101 / 100) := mul_le_mul_of_nonneg_left (by linarith) (by positivity)
    linarith
  have hq1 : 99 / 100 ≤ q := by linarith [(abs_le.mp eq1).1]
  have hq0 : q ≠ 0 := by intro h; rw [h] at hq1; norm_num at hq1
  obtain ⟨D, hD⟩ : ∃ D, D = inner ℝ x.toE T := ⟨_, rfl⟩
  have hDa : |D| ≤ X := by
    rw [hD]; refine (abs_real_inner_le_norm _ _).trans ?_; rw [hT, mul_one]; exact hx
  have esD : |s - D| ≤ 86 / 10 * (R.u * X) := by
    have e : inner ℝ x.toE t.toE - D = inner ℝ x.toE (t.toE - T) := by rw [hD, inner_sub_right]
    have h1 := abs_real_inner_le_norm x.toE (t.toE - T)
    rw [← e] at h1
    have h2 : ‖x.toE‖ * ‖t.toE - T‖ ≤ X * (5 * R.u) := mul_le_mul hx ht (_root_.norm_nonneg _) (by linarith)
    have h3 := abs_add_le (s - inner ℝ x.toE t.toE) (inner ℝ x.toE t.toE - D)
    rw [sub_add_sub_cancel] at h3
    linarith
  have hsa : |s| ≤ 1001 / 1000 * X := by
    have := abs_add_le (s - D) D
    rw [sub_add_cancel] at this; linarith
  have hsq : |s / q - s| ≤ 83 / 10 * (R.u * X) := by
    have e : s / q - s = s * (1 - q) / q := by field_simp
    rw [e, abs_div, abs_mul, abs_sub_comm 1 q, abs_of_pos (by linarith : 0 < q), div_le_iff₀ (by linarith)]
    have h1 := mul_le_mul hsa eq1 (abs_nonneg _) (by linarith)
    have h2 : 83 / 10 * (R.u * X) * (99 / 100) ≤ 83 / 10 * (R.u * X) * q := mul_le_mul_of_nonneg_left hq1 (by positivity)
    linarith
  have hsq1 : |s / q| ≤ 1002 / 1000 * X := by
    have := abs_add_le (s / q - s) s
    rw [sub_add_cancel] at this; linarith
  obtain ⟨d, hd, ed⟩ := rnd_big (R := R) hsq1 (by linarith)
  have edD : |d - D| ≤ 18 * (R.u * X) := by
    have h1 := abs_add_le (d - s / q) (s / q - s)
    have h2 := abs_add_le (d - s) (s - D)
    rw [sub_add_sub_cancel] at h1 h2
    linarith
  have hd1 : |d| ≤ 1001 / 1000 * X := by
    have := abs_add_le (d - D) D
    rw [sub_add_cancel] at this; linarith
  have dUT : ‖d • U.toE - D • T‖ ≤ 333 / 10 * (R.u * X) := by
    have e : d • U.toE - D • T = d • (U.toE - T) + (d - D) • T := by
      rw [smul_sub, sub_smul]; abel
    rw [e]
    refine (norm_add_le _ _).trans ?_
    rw [_root_.norm_smul, _root_.norm_smul, hT, mul_one, Real.norm_eq_abs, Real.norm_eq_abs]
    have := mul_le_mul hd1 dU (_root_.norm_nonneg _) (by linarith)
    linarith
  have hdU : ‖d • U.toE‖ ≤ 1001 / 1000 * X := by
    have h1 := norm_add_le (d • U.toE - D • T) (D • T)
    rw [sub_add_cancel, _root_.norm_smul D, hT, mul_one, Real.norm_eq_abs] at h1
    linarith
  obtain ⟨m, hm, em⟩ := vsmul_near (R := R) hdU (by linarith)
  have hxm : ‖x.toE - m.toE‖ ≤ 201 / 100 * X := by
    have h1 := norm_sub_le x.toE m.toE
    have h2 := norm_add_le (m.toE - d • U.toE) (d • U.toE)
    rw [sub_add_cancel] at h2
    linarith
  obtain ⟨p, hp, ep⟩ := vsub_near (R := R) hxm (by linarith)
  refine ⟨p, ?_, ?_⟩
  · have hsq' : dot (x.fl : V3 (Fl R)) t.fl / V3.norm (t.fl : V3 (Fl R)) = Fl.fin d := by
      rw [hs, hq, fl_div _ _ hq0, hd]
    unfold projectOntoPlane
    simp only [hsq', hU]
    rw [← hp, ← hm]; rfl
  · unfold across
    rw [← hD]
    have e : p.toE - (x.toE - D • T) = (p.toE - (x.toE - m.toE)) + (-(m.toE - d • U.toE) - (d • U.toE - D • T)) := by abel
    rw [e]
    have h1 := norm_add_le (p.toE - (x.toE - m.toE)) (-(m.toE - d • U.toE) - (d • U.toE - D • T))
    have h2 := norm_sub_le (-(m.toE - d • U.toE)) (d • U.toE - D • T)
    rw [_root_.norm_neg] at h2
    linarith

/-- **The matrix of a cylinder** with axis `a`. -/
theorem cylinder_frame {C a : V3 ℝ} {ρ : ℝ} {c : InfiniteCylinder (Fl R)} (hR : Proper R) (ha : SaneLength a) (hC : Rep R (-C))
    (hc : InfiniteCylinder.new (C.fl : V3 (Fl R)) a.fl (some (Fl.fin ρ)) none = .ok c) (hlo : 1 / 10 ^ 10 ≤ ρ) (hhi : ρ ≤ 10 ^ 30)
    {q : ℝ} (hq : q = 1 + inner ℝ a.dirE (⟨0, 0, 1⟩ : V3 ℝ).toE) (hq' : 2 * 10 ^ 7 * R.u ≤ q) (hq2 : q ≤ 2) :
    ∃ (a' : V3 ℝ) (σ : ℝ) (M W : M3 ℝ) (η : ℝ) (a'' : V3 ℝ), c.direction = a'.fl ∧ ‖a'.toE - a.dirE‖ ≤ 5 * R.u ∧
      CylinderFrame R c C a'' ρ σ M W η ∧
      ∀ v w : V3 ℝ, |gram M v w - inner ℝ (across a.dirE v.toE) w.toE| ≤ 1000 * R.u / q * (‖v.toE‖ * ‖w.toE‖) := by
  have hu := R.u_pos
  have hus := (five_u (R := R)).2
  have q0 : 0 < q := lt_of_lt_of_le (by positivity) hq'
  obtain ⟨a', ha', ea'⟩ := unitVector_near (R := R) ha
  have hdir : c.center = C.fl ∧ c.R = Fl.fin ρ ∧ c.direction = a'.fl := by
    simp only [InfiniteCylinder.new, checkRAndD, bind, Except.bind, pure, Except.pure] at hc
    obtain rfl := Except.ok.inj hc
    exact ⟨rfl, rfl, ha'⟩
  have na : ‖a.dirE‖ = 1 := dirE_norm ha.pos
  have nu : NearUnit R a' := nearUnit_of na ea'
  have sa' : SaneLength a' := nu.sane
  have da' := dirE_near na sa'.pos ea'
  have z1 : ‖(⟨0, 0, 1⟩ : V3 ℝ).toE‖ = 1 := by rw [norm_toE]; simp [V3.norm, dot]
  have zdir : (⟨0, 0, 1⟩ : V3 ℝ).dirE = (⟨0, 0, 1⟩ : V3 ℝ).toE := by
    unfold V3.dirE; rw [z1, div_one, one_smul]
  have sz : SaneLength (⟨0, 0, 1⟩ : V3 ℝ) := sane_of_near (by rw [z1]; norm_num)
  obtain ⟨q', hq'd⟩ : ∃ q', q' = 1 + inner ℝ a'.dirE (⟨0, 0, 1⟩ : V3 ℝ).dirE := ⟨_, rfl⟩
  have qq : |q' - q| ≤ 10 * R.u := by
    have e : q' - q = inner ℝ (a'.dirE - a.dirE) (⟨0, 0, 1⟩ : V3 ℝ).toE := by rw [hq'd, hq, zdir, inner_sub_left]; ring
    rw [e]
    refine (abs_real_inner_le_norm _ _).trans ?_
    rw [z1, mul_one]; linarith
  have qq' := abs_le.mp qq
  norm_num at hq'
  have q'lo : (1 - 1 / 100000) * q ≤ q' := by linarith
  obtain ⟨hrot, hmap, M, b1, b2, hM, hclose, -, -⟩ := C113_matrix (R := R) a' ⟨0, 0, 1⟩ sa' sz (by rw [← hq'd]; linarith) hR.fine
  rw [← hq'd] at hclose
  have hi : 1 / ρ ≤ 10 ^ 250 := by
    rw [div_le_iff₀ (by linarith [show (0 : ℝ) < 1 / 10 ^ 10 by norm_num])]
    have := mul_le_mul_of_nonneg_left hlo (show (0 : ℝ) ≤ 10 ^ 250 by positivity)
    have : (1 : ℝ) ≤ 10 ^ 250 * (1 / 10 ^ 10) := by norm_num
    linarith
  have hρ : 0 < ρ := lt_of_lt_of_le (by norm_num) hlo
  obtain ⟨σ, hσ, -⟩ := rnd_near (R := R) (x := 1 / ρ) (e := 1 / ρ) (by rw [abs_of_pos (by positivity)]) hi
  have q'0 : 0 < q' := lt_of_lt_of_le (by positivity) q'lo
  have η1 : 130 * R.u / q' ≤ 1301 / 10 * R.u / q := by
    rw [div_le_div_iff₀ q'0 q0]
    have := mul_le_mul_of_nonneg_left q'lo hu.le
    have : 0 < R.u * q := by positivity
    linarith
  have uz : unitVector (⟨0, 0, 1⟩ : V3 ℝ) = ⟨0, 0, 1⟩ := unitVector_of_unit (by simp [dot])
  rw [uz] at hmap
  have F : CylinderFrame R c C (unitVector a') ρ σ M (rotationMatrix2 a' ⟨0, 0, 1⟩).1 (130 * R.u / q') :=
    { center := hdir.1
      repc := hC
      radius := hdir.2.1
      rpos := hρ
      rtop := hhi.trans (by norm_num)
      rlow := le_trans (by norm_num) hlo
      scale := by rw [hR.lit1, fl_div _ _ hρ.ne', hσ]
      matrix := by
        have e : (⟨0.0, 0.0, 1.0⟩ : V3 (Fl R)) = V3.fl ⟨0, 0, 1⟩ := by rw [fl_lit0, hR.lit1]; rfl
        rw [hdir.2.2, e, hM]
      close := hclose
      small := by
        refine η1.trans ?_
        rw [div_le_iff₀ q0]; norm_num; linarith
      turn := hrot
      maps := hmap }
  have ea'' : (unitVector a').toE = a'.dirE := by rw [unitVector_dirE]
  refine ⟨a', σ, M, _, _, _, hdir.2.2, ea', F, ?_⟩
  refine F.form (by rw [ea'']; exact dirE_norm sa'.pos) na (by rw [ea'']; linarith) ?_
  have h1 : 22 * R.u ≤ 44 * R.u / q := by
    rw [le_div_iff₀ q0]
    have := mul_le_mul_of_nonneg_left hq2 hu.le
    linarith
  have h2 : 1000 * R.u / q = 1000 * (R.u / q) := by ring
  have h3 : 1301 / 10 * R.u / q = 1301 / 10 * (R.u / q) := by ring
  have h4 : 44 * R.u / q = 44 * (R.u / q) := by ring
  have h5 : 0 < R.u / q := by positivity
  rw [h3] at η1
  rw [h4] at h1
  rw [h2]; linarith

variable {c : InfiniteCylinder (Fl R)} {C P a' a'' : V3 ℝ} {e a : E3} {ρ σ η t h A L q ω N E : ℝ} {M W : M3 ℝ} {d : V3 ℝ}

theorem CylinderAhead.units (H : CylinderAhead R C P e a ρ t h A L q) (hω : ω = 1000 * R.u / q) (hE : E = ω * L ^ 2 / (A * h)) :
    10 * E ≤ t ∧ 20000 * E ≤ h ∧ 500 * (R.u * L) ≤ E ∧ 0 < E ∧ ω * L ≤ E ∧ 10 ^ 14 * (R.u * L) ≤ 1 ∧ E ≤ 1 / 20000 * L := by
  obtain ⟨uω, s1, s2, ω1, ω0, -, uA⟩ := H.scale hω
  obtain ⟨-, -, A0, A1, -, ρL, hρ', -, -, -⟩ := H.exact
  have hu := R.u_pos
  have hh := H.steep
  have L1 := H.one
  have Ah : 0 < A * h := by positivity
  have eE : E * (A * h) = ω * L ^ 2 := by rw [hE]; field_simp
  have AhL : A * h ≤ 1 * L := mul_le_mul A1 (hρ'.trans ρL) hh.le (by norm_num)
  have Eh : 20000 * E ≤ h := by
    refine le_of_mul_le_mul_right ?_ Ah
    rw [show 20000 * E * (A * h) = 20000 * (E * (A * h)) by ring, eE]; norm_num at s1; linarith
  have ωE : ω * L ≤ E := by
    refine le_of_mul_le_mul_right ?_ Ah
    rw [eE]
    have := mul_le_mul_of_nonneg_left AhL (show 0 ≤ ω * L by positivity)
    linarith [sq L, (by ring : ω * L * (1 * L) = ω * L ^ 2)]
  refine ⟨?_, Eh, ?_, by rw [hE]; positivity, ωE, ?_, by linarith⟩
  · refine le_of_mul_le_mul_right ?_ Ah
    rw [show 10 * E * (A * h) = 10 * (E * (A * h)) by ring, eE]; linarith
  · have := mul_le_mul_of_nonneg_right uω (show 0 ≤ L by linarith)
    linarith
  · have h1 := H.near
    have h2 : 150 * (R.u * L ^ 2) ≤ L / 10 ^ 12 := h1.trans (div_le_div_of_nonneg_right (by linarith) (by positivity))
    have h3 : 10 ^ 14 * (R.u * L) * L ≤ 1 * L := by
      have e : R.u * L ^ 2 = R.u * L * L := by ring
      rw [e] at h2
      rw [le_div_iff₀ (by positivity)] at h2
      norm_num at h2 ⊢; linarith
    exact le_of_mul_le_mul_right h3 (by linarith)

/-- **The point** at which the ray is found to meet the cylinder, and how far away it is found to be. -/
theorem CylinderAhead.walk (H : CylinderAhead R C P e a ρ t h A L q) (hω : ω = 1000 * R.u / q) (hE : E = ω * L ^ 2 / (A * h))
    (hd : ‖d.toE - e‖ ≤ 5 * R.u) {x₀ : ℝ} (hx : |x₀ - t| ≤ 8 * E) :
    ∃ P₀ : V3 ℝ, (P.fl : V3 (Fl R)) + (Fl.fin x₀ : Fl R) * (d.fl : V3 (Fl R)) = P₀.fl ∧ ‖P₀.toE - (P.toE + t • e)‖ ≤ 81 / 10 * E ∧
      ∃ x, distanceBetween (P.fl : V3 (Fl R)) P₀.fl = Fl.fin x ∧ |x - x₀| ≤ 125 / 10 * (R.u * L) := by
  obtain ⟨Et, Eh, uE, E0, -, uL, EL⟩ := H.units hω hE
  have hu := R.u_pos
  have hus := (five_u (R := R)).2
  have L1 := H.one
  have ht := H.ahead
  have tL := H.reach
  have hx' := abs_le.mp hx
  have hdu : NearUnit R d := nearUnit_of H.unit hd
  have x0L : x₀ ≤ 1001 / 1000 * L := by linarith
  obtain ⟨P₀, h1, h2, x, h3, h4⟩ := walk_near (R := R) (P := P) (d := d) (s := x₀) H.size L1 (H.range.trans (by norm_num)) hdu (by linarith)
    (by linarith) (by norm_num at uL ⊢; linarith)
  have uL0 : 0 < R.u * L := by positivity
  have ux : R.u * x₀ ≤ 1001 / 1000 * (R.u * L) := by
    have := mul_le_mul_of_nonneg_left x0L hu.le
    linarith
  refine ⟨P₀, h1, ?_, x, h3, by linarith⟩
  have e1 : P₀.toE - (P.toE + t • e) = (P₀.toE - (P.toE + x₀ • d.toE)) + ((x₀ - t) • d.toE + t • (d.toE - e)) := by
    rw [sub_smul, smul_sub]; abel
  rw [e1]
  have h5 := norm_add_le (P₀.toE - (P.toE + x₀ • d.toE)) ((x₀ - t) • d.toE + t • (d.toE - e))
  have h6 := norm_add_le ((x₀ - t) • d.toE) (t • (d.toE - e))
  rw [_root_.norm_smul, _root_.norm_smul, Real.norm_eq_abs, Real.norm_eq_abs, abs_of_pos (show 0 < t by linarith)] at h6
  have h7 := mul_le_mul hx hdu.bounds.1 (_root_.norm_nonneg _) (by positivity)
  have h8 := mul_le_mul tL hd (_root_.norm_nonneg _) (by linarith)
  linarith

/-- **The normal** computed there. -/
theorem CylinderAhead.normal (H : CylinderAhead R C P e a ρ t h A L q) (hω : ω = 1000 * R.u / q) (hE : E = ω * L ^ 2 / (A * h))
    (hcC : c.center = C.fl) (hca : c.direction = a'.fl) (ha : ‖a'.toE - a‖ ≤ 5 * R.u) {P₀ : V3 ℝ} (hP₀ : ‖P₀.toE - (P.toE + t • e)‖ ≤ 81 / 10 * E) :
    ∃ p n : V3 ℝ, c.normal P₀.fl = n.fl ∧ SaneLength p ∧ ‖n.toE - p.dirE‖ ≤ 5 * R.u ∧
      ‖p.toE - across a (C.toE - (P.toE + t • e))‖ ≤ 84 / 10 * E := by
  obtain ⟨Et, Eh, uE, E0, -, uL, EL⟩ := H.units hω hE
  obtain ⟨-, -, A0, A1, -, ρL, hρ', -, -, -⟩ := H.exact
  have hu := R.u_pos
  have hus := (five_u (R := R)).2
  have L1 := H.one
  have uL0 : 0 < R.u * L := by positivity
  have uL1 : R.u * 1 ≤ R.u * L := mul_le_mul_of_nonneg_left L1 hu.le
  have uL6 : R.u * L ≤ 1 / 1000000 * L := mul_le_mul_of_nonneg_right hus (by linarith)
  have e1 : C.toE - P₀.toE = -(P.toE + t • e - C.toE) - (P₀.toE - (P.toE + t • e)) := by abel
  have nCP : ‖C.toE - P₀.toE‖ ≤ 1001 / 1000 * L := by
    rw [e1]
    have h1 := norm_sub_le (-(P.toE + t • e - C.toE)) (P₀.toE - (P.toE + t • e))
    rw [_root_.norm_neg] at h1
    linarith [H.land]
  have b200 : 1001 / 1000 * L ≤ 10 ^ 200 := by
    have := H.range
    have : 1001 / 1000 * (10 : ℝ) ^ 30 ≤ 10 ^ 200 := by norm_num
    linarith
  obtain ⟨v, hv, ev⟩ := vsub_near (R := R) nCP b200
  have nv : ‖v.toE‖ ≤ 1002 / 1000 * L := by
    have h1 := norm_add_le (v.toE - (C.toE - P₀.toE)) (C.toE - P₀.toE)
    rw [sub_add_cancel] at h1
    linarith
  obtain ⟨p, hp, ep⟩ := project_big (R := R) H.axis ha nv (by linarith) (by
    have := H.range
    have : 1002 / 1000 * (10 : ℝ) ^ 30 ≤ 10 ^ 100 := by norm_num
    linarith)
  have dp : ‖p.toE - across a (C.toE - (P.toE + t • e))‖ ≤ 84 / 10 * E := by
    have e2 : p.toE - across a (C.toE - (P.toE + t • e)) = (p.toE - across a v.toE) +
        across a ((v.toE - (C.toE - P₀.toE)) - (P₀.toE - (P.toE + t • e))) := by
      rw [show v.toE - (C.toE - P₀.toE) - (P₀.toE - (P.toE + t • e)) = v.toE - (C.toE - (P.toE + t • e)) by abel,
        across_sub a v.toE (C.toE - (P.toE + t • e))]; abel
    rw [e2]
    have h1 := norm_add_le (p.toE - across a v.toE) (across a ((v.toE - (C.toE - P₀.toE)) - (P₀.toE - (P.toE + t • e))))
    have h2 := across_le H.axis ((v.toE - (C.toE - P₀.toE)) - (P₀.toE - (P.toE + t • e)))
    have h3 := norm_sub_le (v.toE - (C.toE - P₀.toE)) (P₀.toE - (P.toE + t • e))
    linarith
  have np : ‖across a (C.toE - (P.toE + t • e))‖ = ρ := by
    rw [← H.on, show C.toE - (P.toE + t • e) = (-1 : ℝ) • (P.toE + t • e - C.toE) by rw [neg_one_smul]; abel, across_smul,
      _root_.norm_smul]; simp
  have hn := abs_le.mp ((abs_norm_sub_norm_le p.toE _).trans dp)
  rw [np] at hn
  have sane : SaneLength p := by
    constructor
    · refine le_trans (show (1 : ℝ) / 10 ^ 100 ≤ 1 / 2 * (1 / 10 ^ 10) by norm_num) ?_
      linarith [H.thick]
    · refine le_trans (show ‖p.toE‖ ≤ 2 * 10 ^ 30 by linarith [H.range]) (by norm_num)
  obtain ⟨n, hn', en⟩ := unitVector_near (R := R) sane
  refine ⟨p, n, ?_, sane, en, dp⟩
  unfold InfiniteCylinder.normal
  rw [hcC, hca, hv, hp, hn']

/-- A direction near a vector of known length. -/
theorem dirE_stretched {p : V3 ℝ} {x : E3} {ρ δ : ℝ} (hx : ‖x‖ = ρ) (hρ : 0 < ρ) (hp : 0 < ‖p.toE‖) (h : ‖p.toE - x‖ ≤ δ) :
    ‖p.dirE - (1 / ρ) • x‖ ≤ 2 * δ / ρ := by
  have hc := abs_norm_sub_norm_le p.toE x
  rw [hx] at hc
  have e1 : p.dirE - (1 / ρ) • x = (1 / ‖p.toE‖ - 1 / ρ) • p.toE + (1 / ρ) • (p.toE - x) := by
    unfold V3.dirE
    rw [smul_sub, sub_smul]; abel
  have e2 : ‖(1 / ‖p.toE‖ - 1 / ρ) • p.toE‖ ≤ δ / ρ := by
    rw [_root_.norm_smul, Real.norm_eq_abs, ← abs_of_pos hp, ← abs_mul, abs_of_pos hp,
      show (1 / ‖p.toE‖ - 1 / ρ) * ‖p.toE‖ = (ρ - ‖p.toE‖) / ρ by field_simp, abs_div, abs_of_pos hρ]
    apply div_le_div_of_nonneg_right _ hρ.le
    rw [abs_sub_comm]
    exact hc.trans h
  have e3 : ‖(1 / ρ) • (p.toE - x)‖ ≤ δ / ρ := by
    rw [_root_.norm_smul, Real.norm_of_nonneg (by positivity), one_div, inv_mul_eq_div]
    exact div_le_div_of_nonneg_right h hρ.le
  rw [e1]
  refine (norm_add_le _ _).trans ?_
  rw [show 2 * δ / ρ = δ / ρ + δ / ρ by ring]
  linarith

end Optics
