import Verif.Lemmas.RoundedMirror
import Verif.Lemmas.RoundedPlane

/-! # Refraction with rounding -/

namespace Optics
variable {R : Rounding}
open V3

theorem abs_mul_le' {a b A B : ℝ} (ha : |a| ≤ A) (hb : |b| ≤ B) : |a * b| ≤ A * B := by
  rw [abs_mul]
  exact mul_le_mul ha hb (abs_nonneg _) ((abs_nonneg _).trans ha)

/-- One rounded operation on numbers of moderate size. -/
theorem rnd_mid {x e : ℝ} (hx : |x| ≤ e) (he : e ≤ 1000) :
    ∃ y, R.rnd x = .fin y ∧ |y - x| ≤ R.u * (e + 1 / 1000) := by
  obtain ⟨y, h1, h2⟩ := rnd_near (R := R) hx (he.trans (by norm_num))
  refine ⟨y, congrArg Fl.val h1, h2.trans ?_⟩
  apply mul_le_mul_of_nonneg_left _ R.u_pos.le
  have : (1 : ℝ) / 10 ^ 250 ≤ 1 / 1000 := by norm_num
  linarith

theorem rnd_le_one (hone : R.rnd 1 = .fin 1) {x y : ℝ} (hx : x ≤ 1) (h : R.rnd x = .fin y) : y ≤ 1 := by
  have := R.mono x 1 hx
  rw [h, hone] at this
  exact this

theorem fl_lit1 (hone : R.rnd 1 = .fin 1) : (1.0 : Fl R) = Fl.fin 1 := by
  have : (1.0 : Fl R) = ⟨R.rnd 1⟩ := by
    rw [show (1.0 : Fl R) = ⟨R.apply (1.0 : XR)⟩ from rfl]
    congr 1
    show R.rnd _ = _
    congr 1
    norm_num
  rw [this, hone]; rfl

/-- The square of the sine of the angle of refraction, as computed. -/
theorem snell_sine {ρ C c : ℝ} (hρ0 : 1 / 4 ≤ ρ) (hρ : ρ ≤ 4) (hC : |C| ≤ 1 + 11 / 10000) (hc : |c - C| ≤ 18 / 5 * R.u) :
    ∃ r q c2 m s2 : ℝ, R.rnd ρ = .fin r ∧ R.rnd (r * r) = .fin q ∧ R.rnd (c * c) = .fin c2 ∧ R.rnd (1 - c2) = .fin m ∧
      R.rnd (q * m) = .fin s2 ∧ |r - ρ| ≤ 401 / 100 * R.u ∧ |r| ≤ 401 / 100 ∧ |c| ≤ 1 + 12 / 10000 ∧
      |s2 - r ^ 2 * (1 - c ^ 2)| ≤ 70 * R.u ∧ |r ^ 2 * (1 - c ^ 2) - ρ ^ 2 * (1 - C ^ 2)| ≤ 170 * R.u ∧ -(1 / 10) ≤ s2 := by
  have hu := R.u_pos
  have hu' := (five_u (R := R)).2
  generalize hU : R.u = u at *
  have hcb : |c| ≤ 1 + 12 / 10000 := by
    have h1 := abs_le.mp hC; have h2 := abs_le.mp hc
    rw [abs_le]; constructor <;> linarith [h1.1, h1.2, h2.1, h2.2]
  have hρa : |ρ| ≤ 4 := by rw [abs_of_nonneg (by linarith)]; exact hρ
  obtain ⟨r, hr, er⟩ := rnd_mid (R := R) hρa (by norm_num)
  rw [hU] at er
  have er' : |r - ρ| ≤ 401 / 100 * u := er.trans (by linarith)
  have hra : |r| ≤ 401 / 100 := by
    have h1 := abs_le.mp hρa; have h2 := abs_le.mp er'
    rw [abs_le]; constructor <;> linarith [h1.1, h1.2, h2.1, h2.2]
  have hrr : |r * r| ≤ 161 / 10 := (abs_mul_le' hra hra).trans (by norm_num)
  obtain ⟨q, hq, eq⟩ := rnd_mid (R := R) hrr (by norm_num)
  rw [hU] at eq
  have hcc : |c * c| ≤ 1 + 25 / 10000 := (abs_mul_le' hcb hcb).trans (by norm_num)
  obtain ⟨c2, hc2, ec2⟩ := rnd_mid (R := R) hcc (by norm_num)
  rw [hU] at ec2
  have hc20 : 0 ≤ c2 := rnd_nonneg (mul_self_nonneg c) hc2
  have hm1 : |1 - c2| ≤ 1 := by
    have h1 := abs_le.mp hcc; have h2 := abs_le.mp ec2
    rw [abs_le]; constructor <;> linarith [h1.2, h2.2]
  obtain ⟨m, hm, em⟩ := rnd_mid (R := R) hm1 (by norm_num)
  rw [hU] at em
  have hma : |m| ≤ 101 / 100 := by
    have h1 := abs_le.mp hm1; have h2 := abs_le.mp em
    rw [abs_le]; constructor <;> linarith [h1.1, h1.2, h2.1, h2.2]
  have hqa : |q| ≤ 162 / 10 := by
    have h1 := abs_le.mp hrr; have h2 := abs_le.mp eq
    rw [abs_le]; constructor <;> linarith [h1.1, h1.2, h2.1, h2.2]
  have hqm : |q * m| ≤ 165 / 10 := (abs_mul_le' hqa hma).trans (by norm_num)
  obtain ⟨s2, hs2, es2⟩ := rnd_mid (R := R) hqm (by norm_num)
  rw [hU] at es2
  have k1 : |(q - r * r) * m| ≤ 164 / 10 * u := by
    refine (abs_mul_le' eq hma).trans ?_
    linarith
  have k2 : |m - (1 - c ^ 2)| ≤ 21 / 10 * u := by
    have h1 := abs_le.mp em; have h2 := abs_le.mp ec2
    rw [abs_le]; constructor <;> linarith [h1.1, h1.2, h2.1, h2.2]
  have k3 : |(r * r) * (m - (1 - c ^ 2))| ≤ 34 * u := by
    refine (abs_mul_le' hrr k2).trans ?_
    linarith
  have k4 : |s2 - r ^ 2 * (1 - c ^ 2)| ≤ 70 * u := by
    rw [show s2 - r ^ 2 * (1 - c ^ 2) = (s2 - q * m) + (q - r * r) * m + (r * r) * (m - (1 - c ^ 2)) by ring]
    refine (abs_add_three _ _ _).trans ?_
    linarith
  have k5 : |r ^ 2 * (1 - c ^ 2) - ρ ^ 2 * (1 - C ^ 2)| ≤ 170 * u := by
    have a1 : |1 - c ^ 2| ≤ 1 := by
      have h1 := abs_le.mp hcc
      rw [abs_le]; constructor <;> linarith [h1.2, sq_nonneg c]
    have a2 : |r + ρ| ≤ 801 / 100 := (abs_add_le _ _).trans (by linarith)
    have a3 : |(r - ρ) * (r + ρ)| ≤ 33 * u := (abs_mul_le' er' a2).trans (by linarith)
    have a4 : |(r - ρ) * (r + ρ) * (1 - c ^ 2)| ≤ 33 * u := (abs_mul_le' a3 a1).trans (by linarith)
    have a5 : |c + C| ≤ 201 / 100 := (abs_add_le _ _).trans (by linarith)
    have a6 : |(c - C) * (c + C)| ≤ 8 * u := (abs_mul_le' hc a5).trans (by linarith)
    have a7 : |ρ * ρ| ≤ 16 := (abs_mul_le' hρa hρa).trans (by norm_num)
    have a8 : |(ρ * ρ) * ((c - C) * (c + C))| ≤ 128 * u := (abs_mul_le' a7 a6).trans (by linarith)
    rw [show r ^ 2 * (1 - c ^ 2) - ρ ^ 2 * (1 - C ^ 2) = (r - ρ) * (r + ρ) * (1 - c ^ 2) - (ρ * ρ) * ((c - C) * (c + C)) by ring]
    refine (abs_sub _ _).trans ?_
    linarith
  refine ⟨r, q, c2, m, s2, hr, hq, hc2, hm, hs2, er', hra, hcb, k4, k5, ?_⟩
  have h1 := abs_le.mp k4
  have h2 := abs_le.mp hcc
  have h3 := abs_le.mp hrr
  have h4 : -(5 / 100) ≤ r ^ 2 * (1 - c ^ 2) := by
    have : r ^ 2 * (c ^ 2 - 1) ≤ 161 / 10 * (25 / 10000) := by
      rcases le_or_gt (c ^ 2 - 1) 0 with h | h
      · have := mul_nonneg (sq_nonneg r) (neg_nonneg.mpr h)
        linarith
      · exact mul_le_mul (by nlinarith [h3.2]) (by nlinarith [h2.2]) h.le (by norm_num)
    linarith
  linarith [h1.1]

/-- The computed `(eta1 / eta2) * i + ((eta1 / eta2) * cos - sqrt(...)) * n`. -/
theorem snell_vector {d n : V3 ℝ} {r c s : ℝ} (hd : |‖d.toE‖ - 1| ≤ 1 / 1000) (hn : NearUnit R n) (hr : |r| ≤ 401 / 100)
    (hc : |c| ≤ 1 + 12 / 10000) (hs0 : 0 ≤ s) (hs1 : s ≤ 11 / 10) :
    ∃ w : V3 ℝ, (Fl.fin r : Fl R) * (d.fl : V3 (Fl R)) + ((Fl.fin r : Fl R) * Fl.fin c - Fl.fin s) * (n.fl : V3 (Fl R)) = w.fl ∧
      ‖w.toE - (r • d.toE + (r * c - s) • n.toE)‖ ≤ 31 * R.u := by
  have hu := R.u_pos
  have hu' := (five_u (R := R)).2
  obtain ⟨n1, -⟩ := hn.bounds
  have hd1 : ‖d.toE‖ ≤ 1001 / 1000 := by linarith [(abs_le.mp hd).2]
  have hrc : |r * c| ≤ 402 / 100 := (abs_mul_le' hr hc).trans (by norm_num)
  obtain ⟨a, ha, ea⟩ := rnd_mid (R := R) hrc (by norm_num)
  have has : |a - s| ≤ 52 / 10 := by
    have h1 := abs_le.mp hrc; have h2 := abs_le.mp ea
    rw [abs_le]; constructor <;> linarith [h1.1, h1.2, h2.1, h2.2]
  obtain ⟨b, hb, eb⟩ := rnd_mid (R := R) has (by norm_num)
  have hbb : |b - (r * c - s)| ≤ 94 / 10 * R.u := by
    have h1 := abs_le.mp ea; have h2 := abs_le.mp eb
    rw [abs_le]; constructor <;> linarith [h1.1, h1.2, h2.1, h2.2]
  have hba : |b| ≤ 53 / 10 := by
    have h1 := abs_le.mp has; have h2 := abs_le.mp eb
    rw [abs_le]; constructor <;> linarith [h1.1, h1.2, h2.1, h2.2]
  have ht1 : ‖r • d.toE‖ ≤ 402 / 100 := by
    rw [_root_.norm_smul, Real.norm_eq_abs]
    exact (mul_le_mul hr hd1 (_root_.norm_nonneg _) (by norm_num)).trans (by norm_num)
  have ht2 : ‖b • n.toE‖ ≤ 54 / 10 := by
    rw [_root_.norm_smul, Real.norm_eq_abs]
    exact (mul_le_mul hba n1 (_root_.norm_nonneg _) (by norm_num)).trans (by norm_num)
  obtain ⟨t1, h1, e1⟩ := vsmul_near (R := R) ht1 (by norm_num)
  obtain ⟨t2, h2, e2⟩ := vsmul_near (R := R) ht2 (by norm_num)
  have hsum : ‖t1.toE + t2.toE‖ ≤ 10 := by
    have k1 := norm_le_norm_add_norm_sub' t1.toE (r • d.toE)
    have k2 := norm_le_norm_add_norm_sub' t2.toE (b • n.toE)
    have k3 := norm_add_le t1.toE t2.toE
    linarith
  obtain ⟨w, h3, e3⟩ := vadd_near (R := R) hsum (by norm_num)
  refine ⟨w, ?_, ?_⟩
  · rw [fl_mul, ha, show (⟨.fin a⟩ : Fl R) = Fl.fin a from rfl, fl_sub, hb, show (⟨.fin b⟩ : Fl R) = Fl.fin b from rfl,
      h1, h2, h3]
  · have e4 : ‖(b - (r * c - s)) • n.toE‖ ≤ 95 / 10 * R.u := by
      rw [_root_.norm_smul, Real.norm_eq_abs]
      refine (mul_le_mul hbb n1 (_root_.norm_nonneg _) (by positivity)).trans ?_
      linarith
    rw [show w.toE - (r • d.toE + (r * c - s) • n.toE) = (w.toE - (t1.toE + t2.toE)) + (t1.toE - r • d.toE) +
      ((t2.toE - b • n.toE) + (b - (r * c - s)) • n.toE) by module]
    have k1 := norm_add_le ((w.toE - (t1.toE + t2.toE)) + (t1.toE - r • d.toE))
      ((t2.toE - b • n.toE) + (b - (r * c - s)) • n.toE)
    have k2 := norm_add_le (w.toE - (t1.toE + t2.toE)) (t1.toE - r • d.toE)
    have k3 := norm_add_le (t2.toE - b • n.toE) ((b - (r * c - s)) • n.toE)
    linarith

/-- The length of the computed direction: what it should be, and how far it is from that. -/
theorem snell_length {d n w : E3} {r c s u : ℝ} (hu : 0 < u) (hu' : u ≤ 1 / 1000000) (hd : |‖d‖ - 1| ≤ 1 / 1000)
    (hn : |‖n‖ - 1| ≤ 5 * u) (hr : |r| ≤ 401 / 100) (hc : |c| ≤ 1 + 12 / 10000) (hs0 : 0 ≤ s) (hs1 : s ≤ 11 / 10)
    (hC : |c + inner ℝ d n| ≤ 18 / 5 * u) (hs : |s ^ 2 - (1 - r ^ 2 * (1 - c ^ 2))| ≤ 75 * u)
    (hw : ‖w - (r • d + (r * c - s) • n)‖ ≤ 31 * u) :
    |‖w‖ ^ 2 - 1 - r ^ 2 * (‖d‖ ^ 2 - 1)| ≤ 590 * u ∧ inner ℝ w n ≤ 110 * u := by
  have hn' := abs_le.mp hn
  have hd' := abs_le.mp hd
  have hrc : |r * c| ≤ 402 / 100 := (abs_mul_le' hr hc).trans (by norm_num)
  have hb : |r * c - s| ≤ 52 / 10 := by
    have h1 := abs_le.mp hrc
    rw [abs_le]; constructor <;> linarith [h1.1, h1.2]
  have hnn : |‖n‖ ^ 2 - 1| ≤ 101 / 10 * u := by
    rw [show ‖n‖ ^ 2 - 1 = (‖n‖ - 1) * (‖n‖ + 1) by ring]
    refine (abs_mul_le' (B := 2001 / 1000) hn ?_).trans (by linarith)
    rw [abs_le]; constructor <;> linarith
  have hbb : |(r * c - s) * (r * c - s)| ≤ 271 / 10 := (abs_mul_le' hb hb).trans (by norm_num)
  obtain ⟨E1, hE1⟩ : ∃ E, E = 2 * ((r * (r * c - s)) * (c + inner ℝ d n)) := ⟨_, rfl⟩
  obtain ⟨E2, hE2⟩ : ∃ E, E = ((r * c - s) * (r * c - s)) * (‖n‖ ^ 2 - 1) := ⟨_, rfl⟩
  have b1 : |E1| ≤ 152 * u := by
    rw [hE1, abs_mul, abs_of_pos two_pos]
    linarith [abs_mul_le' (abs_mul_le' hr hb) hC]
  have b2 : |E2| ≤ 275 * u := by
    rw [hE2]
    have := abs_mul_le' hbb hnn
    linarith
  obtain ⟨w0, hw0⟩ : ∃ w0, w0 = r • d + (r * c - s) • n := ⟨_, rfl⟩
  rw [← hw0] at hw
  have k0 : ‖w0‖ ^ 2 = r ^ 2 * ‖d‖ ^ 2 + 2 * (r * (r * c - s)) * inner ℝ d n + (r * c - s) ^ 2 * ‖n‖ ^ 2 := by
    rw [hw0, norm_add_sq_real, inner_smul_left, inner_smul_right, _root_.norm_smul, _root_.norm_smul, mul_pow, mul_pow,
      Real.norm_eq_abs, Real.norm_eq_abs, sq_abs, sq_abs]
    simp only [conj_trivial]
    ring
  have k1 : ‖w0‖ ^ 2 - 1 - r ^ 2 * (‖d‖ ^ 2 - 1) = (s ^ 2 - (1 - r ^ 2 * (1 - c ^ 2))) + E1 + E2 := by
    rw [k0, hE1, hE2]; ring
  have k2 : |‖w0‖ ^ 2 - 1 - r ^ 2 * (‖d‖ ^ 2 - 1)| ≤ 502 * u := by
    rw [k1]
    refine (abs_add_three _ _ _).trans ?_
    linarith
  have hdd : |‖d‖ ^ 2 - 1| ≤ 21 / 10000 := by
    rw [abs_le]; constructor <;> nlinarith
  have hrr : |r * r| ≤ 161 / 10 := (abs_mul_le' hr hr).trans (by norm_num)
  have k3 : ‖w0‖ ≤ 102 / 100 := by
    have h1 := abs_le.mp (abs_mul_le' hrr hdd)
    have h2 := abs_le.mp k2
    apply le_of_pow_le_pow_left₀ two_ne_zero (by norm_num)
    nlinarith [h1.2, h2.2]
  have k4 := abs_le.mp ((abs_norm_sub_norm_le w w0).trans hw)
  have hw0n := _root_.norm_nonneg w0
  have hwn := _root_.norm_nonneg w
  have k5 : |‖w‖ ^ 2 - ‖w0‖ ^ 2| ≤ 64 * u := by
    rw [show ‖w‖ ^ 2 - ‖w0‖ ^ 2 = (‖w‖ - ‖w0‖) * (‖w‖ + ‖w0‖) by ring]
    refine (abs_mul_le' (B := 205 / 100) (abs_le.mpr k4) ?_).trans (by linarith)
    rw [abs_le]; constructor <;> linarith [k4.2]
  refine ⟨?_, ?_⟩
  · rw [show ‖w‖ ^ 2 - 1 - r ^ 2 * (‖d‖ ^ 2 - 1) = (‖w‖ ^ 2 - ‖w0‖ ^ 2) + (‖w0‖ ^ 2 - 1 - r ^ 2 * (‖d‖ ^ 2 - 1)) by ring]
    refine (abs_add_le _ _).trans ?_
    linarith
  · have e : inner ℝ w n = inner ℝ (w - w0) n + (r * (c + inner ℝ d n) - s + (r * c - s) * (‖n‖ ^ 2 - 1)) := by
      rw [inner_sub_left, hw0, inner_add_left, inner_smul_left, inner_smul_left, real_inner_self_eq_norm_sq]
      simp only [conj_trivial]
      ring
    rw [e]
    have h1 := real_inner_le_norm (w - w0) n
    have h2 : ‖w - w0‖ * ‖n‖ ≤ 31 * u * (1001 / 1000) := mul_le_mul hw (by linarith) (_root_.norm_nonneg _) (by positivity)
    have h3 := (abs_le.mp (abs_mul_le' hr hC)).2
    have h4 := (abs_le.mp (abs_mul_le' hb hnn)).2
    linarith

/-- The computed square root. -/
theorem snell_root {t s2 : ℝ} (hs2 : s2 ≤ 1) (hlo : -(1 / 10) ≤ s2) (ht : |s2 - t| ≤ 70 * R.u) :
    ∃ g s : ℝ, R.rnd (1 - s2) = .fin g ∧ 0 ≤ g ∧ R.rnd (Real.sqrt g) = .fin s ∧ 0 ≤ s ∧ s ≤ 11 / 10 ∧
      |s ^ 2 - (1 - t)| ≤ 75 * R.u := by
  have hu := R.u_pos
  have hu' := (five_u (R := R)).2
  have h1 : |1 - s2| ≤ 11 / 10 := by rw [abs_le]; constructor <;> linarith
  obtain ⟨g, hg, eg⟩ := rnd_mid (R := R) h1 (by norm_num)
  have hg0 : 0 ≤ g := rnd_nonneg (by linarith) hg
  have eg' := abs_le.mp eg
  have hg1 : g ≤ 1102 / 1000 := by linarith [(abs_le.mp h1).2, eg'.2]
  have hsq : Real.sqrt g ≤ 105 / 100 := by
    rw [Real.sqrt_le_left (by norm_num)]; linarith
  have hsq0 := Real.sqrt_nonneg g
  obtain ⟨s, hs, es⟩ := rnd_mid (R := R) (x := Real.sqrt g) (e := 105 / 100) (by rw [abs_of_nonneg hsq0]; exact hsq) (by norm_num)
  have hs0 : 0 ≤ s := rnd_nonneg hsq0 hs
  have es' := abs_le.mp es
  have hs1 : s ≤ 106 / 100 := by linarith
  refine ⟨g, s, hg, hg0, hs, hs0, by linarith, ?_⟩
  have k : |s ^ 2 - g| ≤ 23 / 10 * R.u := by
    rw [show s ^ 2 - g = (s - Real.sqrt g) * (s + Real.sqrt g) by
      rw [show (s - Real.sqrt g) * (s + Real.sqrt g) = s ^ 2 - Real.sqrt g ^ 2 by ring, Real.sq_sqrt hg0]]
    refine (abs_mul_le' (B := 211 / 100) es ?_).trans (by linarith)
    rw [abs_of_nonneg (by linarith)]; linarith
  rw [show s ^ 2 - (1 - t) = (s ^ 2 - g) + (g - (1 - s2)) + (t - s2) by ring]
  rw [abs_sub_comm] at ht
  refine (abs_add_three _ _ _).trans ?_
  linarith

/-- `n` or `-n`, whichever the computed dot product says faces the ray; and the computed cosine. -/
theorem snell_facing {d n : V3 ℝ} (hd : |‖d.toE‖ - 1| ≤ 1 / 1000) (hn : NearUnit R n) :
    ∃ (m : V3 ℝ) (c : ℝ), (m = n ∨ m = -n) ∧
      (if dot (d.fl : V3 (Fl R)) n.fl < 0.0 then (n.fl : V3 (Fl R)) else -n.fl) = m.fl ∧
      dot (-(d.fl : V3 (Fl R))) m.fl = Fl.fin c ∧ |c - -inner ℝ d.toE m.toE| ≤ 18 / 5 * R.u ∧
      inner ℝ d.toE m.toE ≤ 18 / 5 * R.u ∧ |inner ℝ d.toE m.toE| ≤ 1 + 11 / 10000 := by
  have hu := R.u_pos
  obtain ⟨n1, -⟩ := hn.bounds
  have hd1 : ‖d.toE‖ ≤ 1001 / 1000 := by linarith [(abs_le.mp hd).2]
  have hA : ‖d.toE‖ * ‖n.toE‖ ≤ 1 + 11 / 10000 :=
    (mul_le_mul hd1 n1 (_root_.norm_nonneg _) (by norm_num)).trans (by norm_num)
  have hin : ∀ m : V3 ℝ, ‖m.toE‖ = ‖n.toE‖ → |inner ℝ d.toE m.toE| ≤ 1 + 11 / 10000 := by
    intro m hm
    refine (abs_real_inner_le_norm _ _).trans ?_
    rw [hm]; exact hA
  have hcos : ∀ m : V3 ℝ, ‖m.toE‖ = ‖n.toE‖ →
      ∃ c, dot (-(d.fl : V3 (Fl R))) m.fl = Fl.fin c ∧ |c - -inner ℝ d.toE m.toE| ≤ 18 / 5 * R.u := by
    intro m hm
    obtain ⟨c, h1, h2⟩ := dot_near' (R := R) (a := -d) (b := m) (A := 1 + 11 / 10000)
      (by rw [toE_neg, _root_.norm_neg, hm]; exact hA) (by norm_num) (by norm_num)
    rw [toE_neg, inner_neg_left] at h2
    exact ⟨c, h1, h2.trans (by linarith)⟩
  obtain ⟨z, hz, ez⟩ := dot_near' (R := R) hA (by norm_num) (by norm_num)
  have ez' := abs_le.mp ez
  rw [hz, fl_lit0]
  by_cases h : z < 0
  · obtain ⟨c, h1, h2⟩ := hcos n rfl
    exact ⟨n, c, Or.inl rfl, by rw [if_pos (show (Fl.fin z : Fl R) < Fl.fin 0 from h)], h1, h2, by linarith, hin n rfl⟩
  · have hm : ‖(-n : V3 ℝ).toE‖ = ‖n.toE‖ := by rw [toE_neg, _root_.norm_neg]
    obtain ⟨c, h1, h2⟩ := hcos (-n) hm
    refine ⟨-n, c, Or.inr rfl, by rw [if_neg (show ¬ (Fl.fin z : Fl R) < Fl.fin 0 from h)]; rfl, h1, h2, ?_, hin (-n) hm⟩
    rw [toE_neg, inner_neg_right]
    linarith

end Optics
