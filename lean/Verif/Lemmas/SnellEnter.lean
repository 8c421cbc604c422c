import Verif.Lemmas.RoundedSphere

/-!
# The length of a refracted direction when the ray enters the denser medium

Sharper than in C103, because the ratio of the indices is at most 1.
-/

namespace Optics
variable {R : Rounding}
open V3

theorem enter_sine (hone : R.rnd 1 = .fin 1) {ρ c : ℝ} (hρ0 : 1 / 4 ≤ ρ) (hρ : ρ ≤ 1) (hc : |c| ≤ 1 + 1 / 10000) :
    ∃ r q c2 m s2 g s : ℝ, R.rnd ρ = .fin r ∧ R.rnd (r * r) = .fin q ∧ R.rnd (c * c) = .fin c2 ∧ R.rnd (1 - c2) = .fin m ∧
      R.rnd (q * m) = .fin s2 ∧ R.rnd (1 - s2) = .fin g ∧ 0 ≤ g ∧ R.rnd (Real.sqrt g) = .fin s ∧ 0 ≤ r ∧ r ≤ 1 ∧ 0 ≤ s ∧
      s ≤ 101 / 100 ∧ |s ^ 2 - (1 - r ^ 2 * (1 - c ^ 2))| ≤ 72 / 10 * R.u := by
  have hu := R.u_pos
  have hu' := (five_u (R := R)).2
  obtain ⟨r, hr, er⟩ := rnd_mid (R := R) (x := ρ) (e := 1) (by rw [abs_of_nonneg (by linarith)]; exact hρ) (by norm_num)
  have hr1 := rnd_le_one hone hρ hr
  have hr0 : 0 ≤ r := rnd_nonneg (by linarith) hr
  have hra : |r| ≤ 1 := by rw [abs_of_nonneg hr0]; exact hr1
  have hrr : |r * r| ≤ 1 := (abs_mul_le' hra hra).trans (by norm_num)
  obtain ⟨q, hq, eq⟩ := rnd_mid (R := R) hrr (by norm_num)
  have hq1 := rnd_le_one hone (le_of_abs_le hrr) hq
  have hq0 : 0 ≤ q := rnd_nonneg (mul_self_nonneg r) hq
  have hcc : |c * c| ≤ 1 + 3 / 10000 := (abs_mul_le' hc hc).trans (by norm_num)
  obtain ⟨c2, hc2, ec2⟩ := rnd_mid (R := R) hcc (by norm_num)
  have hc20 : 0 ≤ c2 := rnd_nonneg (mul_self_nonneg c) hc2
  have hcc' := abs_le.mp hcc
  have ec2' := abs_le.mp ec2
  have hm1 : |1 - c2| ≤ 1 := by
    rw [abs_le]; constructor <;> linarith
  obtain ⟨m, hm, em⟩ := rnd_mid (R := R) hm1 (by norm_num)
  have em' := abs_le.mp em
  have hmu := rnd_le_one hone (by linarith) hm
  have hml : -(4 / 10000) ≤ m := by linarith
  have hma : |m| ≤ 1 := by rw [abs_le]; constructor <;> linarith
  have hqm : |q * m| ≤ 1 := (abs_mul_le' (A := 1) (by rw [abs_of_nonneg hq0]; exact hq1) hma).trans (by norm_num)
  obtain ⟨s2, hs2, es2⟩ := rnd_mid (R := R) hqm (by norm_num)
  have es2' := abs_le.mp es2
  have hs21 := rnd_le_one hone (le_of_abs_le hqm) hs2
  have hqml : -(4 / 10000) ≤ q * m := by nlinarith
  have hs2l : -(5 / 10000) ≤ s2 := by linarith
  have h1 : |1 - s2| ≤ 1 + 5 / 10000 := by rw [abs_le]; constructor <;> linarith
  obtain ⟨g, hg, eg⟩ := rnd_mid (R := R) h1 (by norm_num)
  have hg0 : 0 ≤ g := rnd_nonneg (by linarith) hg
  have eg' := abs_le.mp eg
  have hsq : Real.sqrt g ≤ 1 + 5 / 10000 := by
    rw [Real.sqrt_le_left (by norm_num)]; linarith
  have hsq0 := Real.sqrt_nonneg g
  obtain ⟨s, hs, es⟩ := rnd_mid (R := R) (x := Real.sqrt g) (e := 1 + 5 / 10000) (by rw [abs_of_nonneg hsq0]; exact hsq) (by norm_num)
  have hs0 : 0 ≤ s := rnd_nonneg hsq0 hs
  have es' := abs_le.mp es
  refine ⟨r, q, c2, m, s2, g, s, hr, hq, hc2, hm, hs2, hg, hg0, hs, hr0, hr1, hs0, by linarith, ?_⟩
  have k : |s ^ 2 - g| ≤ 203 / 100 * R.u := by
    rw [show s ^ 2 - g = (s - Real.sqrt g) * (s + Real.sqrt g) by
      rw [show (s - Real.sqrt g) * (s + Real.sqrt g) = s ^ 2 - Real.sqrt g ^ 2 by ring, Real.sq_sqrt hg0]]
    refine (abs_mul_le' (B := 202 / 100) es ?_).trans (by linarith)
    rw [abs_of_nonneg (by linarith)]; linarith
  have k1 : |(q - r * r) * m| ≤ 1001 / 1000 * R.u := (abs_mul_le' eq hma).trans (by linarith)
  have k2 : |m - (1 - c ^ 2)| ≤ 201 / 100 * R.u := by
    rw [abs_le]; constructor <;> linarith
  have k3 : |(r * r) * (m - (1 - c ^ 2))| ≤ 201 / 100 * R.u := (abs_mul_le' hrr k2).trans (by linarith)
  have k4 : |s2 - r ^ 2 * (1 - c ^ 2)| ≤ 41 / 10 * R.u := by
    rw [show s2 - r ^ 2 * (1 - c ^ 2) = (s2 - q * m) + (q - r * r) * m + (r * r) * (m - (1 - c ^ 2)) by ring]
    refine (abs_add_three _ _ _).trans ?_
    linarith
  rw [show s ^ 2 - (1 - r ^ 2 * (1 - c ^ 2)) = (s ^ 2 - g) + (g - (1 - s2)) + (r ^ 2 * (1 - c ^ 2) - s2) by ring]
  rw [abs_sub_comm] at k4
  refine (abs_add_three _ _ _).trans ?_
  linarith

theorem enter_vector {d n : V3 ℝ} {r c s : ℝ} (hd : NearUnit R d) (hn : NearUnit R n) (hr0 : 0 ≤ r) (hr : r ≤ 1)
    (hc : |c| ≤ 1 + 1 / 10000) (hc0 : -(1 / 10000) ≤ c) (hs0 : 0 ≤ s) (hs1 : s ≤ 101 / 100) :
    |r * c - s| ≤ 102 / 100 ∧
    ∃ w : V3 ℝ, (Fl.fin r : Fl R) * (d.fl : V3 (Fl R)) + ((Fl.fin r : Fl R) * Fl.fin c - Fl.fin s) * (n.fl : V3 (Fl R)) = w.fl ∧
      ‖w.toE - (r • d.toE + (r * c - s) • n.toE)‖ ≤ 62 / 10 * R.u := by
  have hu := R.u_pos
  have hu' := (five_u (R := R)).2
  obtain ⟨n1, -⟩ := hn.bounds
  obtain ⟨d1, -⟩ := hd.bounds
  have hra : |r| ≤ 1 := by rw [abs_of_nonneg hr0]; exact hr
  have hrc : |r * c| ≤ 1 + 1 / 10000 := (abs_mul_le' hra hc).trans (by norm_num)
  have hrc' := abs_le.mp hrc
  have hrcl : -(1 / 10000) ≤ r * c := by nlinarith
  have hgap : |r * c - s| ≤ 102 / 100 := by rw [abs_le]; constructor <;> linarith
  refine ⟨hgap, ?_⟩
  obtain ⟨a, ha, ea⟩ := rnd_mid (R := R) hrc (by norm_num)
  have ea' := abs_le.mp ea
  have has : |a - s| ≤ 102 / 100 := by rw [abs_le]; constructor <;> linarith
  obtain ⟨b, hb, eb⟩ := rnd_mid (R := R) has (by norm_num)
  have eb' := abs_le.mp eb
  have has' := abs_le.mp has
  have hbb : |b - (r * c - s)| ≤ 203 / 100 * R.u := by
    rw [abs_le]; constructor <;> linarith
  have hba : |b| ≤ 103 / 100 := by
    rw [abs_le]; constructor <;> linarith
  have ht1 : ‖r • d.toE‖ ≤ 101 / 100 := by
    rw [_root_.norm_smul, Real.norm_eq_abs]
    exact (mul_le_mul hra d1 (_root_.norm_nonneg _) (by norm_num)).trans (by norm_num)
  have ht2 : ‖b • n.toE‖ ≤ 104 / 100 := by
    rw [_root_.norm_smul, Real.norm_eq_abs]
    exact (mul_le_mul hba n1 (_root_.norm_nonneg _) (by norm_num)).trans (by norm_num)
  obtain ⟨t1, h1, e1⟩ := vsmul_near (R := R) ht1 (by norm_num)
  obtain ⟨t2, h2, e2⟩ := vsmul_near (R := R) ht2 (by norm_num)
  have hsum : ‖t1.toE + t2.toE‖ ≤ 206 / 100 := by
    have k1 := norm_le_norm_add_norm_sub' t1.toE (r • d.toE)
    have k2 := norm_le_norm_add_norm_sub' t2.toE (b • n.toE)
    have k3 := norm_add_le t1.toE t2.toE
    linarith
  obtain ⟨w, h3, e3⟩ := vadd_near (R := R) hsum (by norm_num)
  refine ⟨w, ?_, ?_⟩
  · rw [fl_mul, ha, show (⟨.fin a⟩ : Fl R) = Fl.fin a from rfl, fl_sub, hb, show (⟨.fin b⟩ : Fl R) = Fl.fin b from rfl,
      h1, h2, h3]
  · have e4 : ‖(b - (r * c - s)) • n.toE‖ ≤ 204 / 100 * R.u := by
      rw [_root_.norm_smul, Real.norm_eq_abs]
      refine (mul_le_mul hbb n1 (_root_.norm_nonneg _) (by positivity)).trans ?_
      linarith
    rw [show w.toE - (r • d.toE + (r * c - s) • n.toE) = (w.toE - (t1.toE + t2.toE)) + (t1.toE - r • d.toE) +
      ((t2.toE - b • n.toE) + (b - (r * c - s)) • n.toE) by module]
    have k1 := norm_add_le ((w.toE - (t1.toE + t2.toE)) + (t1.toE - r • d.toE))
      ((t2.toE - b • n.toE) + (b - (r * c - s)) • n.toE)
    have k2 := norm_add_le (w.toE - (t1.toE + t2.toE)) (t1.toE - r • d.toE)
    have k3 := norm_add_le (t2.toE - b • n.toE) ((b - (r * c - s)) • n.toE)
    linarith

theorem enter_length {d n w : E3} {r c s u : ℝ} (hu : 0 < u) (hu' : u ≤ 1 / 1000000) (hd : |‖d‖ - 1| ≤ 5 * u)
    (hn : |‖n‖ - 1| ≤ 5 * u) (hr0 : 0 ≤ r) (hr : r ≤ 1) (hb : |r * c - s| ≤ 102 / 100)
    (hC : |c + inner ℝ d n| ≤ 18 / 5 * u) (hs : |s ^ 2 - (1 - r ^ 2 * (1 - c ^ 2))| ≤ 72 / 10 * u)
    (hw : ‖w - (r • d + (r * c - s) • n)‖ ≤ 62 / 10 * u) : |‖w‖ ^ 2 - 1| ≤ 50 * u := by
  have sq1 : ∀ x : ℝ, 0 ≤ x → |x - 1| ≤ 5 * u → |x ^ 2 - 1| ≤ 101 / 10 * u := by
    intro x hx0 hx
    have hx' := abs_le.mp hx
    rw [show x ^ 2 - 1 = (x - 1) * (x + 1) by ring]
    refine (abs_mul_le' (B := 2001 / 1000) hx ?_).trans (by linarith)
    rw [abs_le]; constructor <;> linarith
  have hnn := sq1 _ (_root_.norm_nonneg n) hn
  have hdd := sq1 _ (_root_.norm_nonneg d) hd
  have hra : |r| ≤ 1 := by rw [abs_of_nonneg hr0]; exact hr
  have hbb : |(r * c - s) * (r * c - s)| ≤ 1041 / 1000 := (abs_mul_le' hb hb).trans (by norm_num)
  have hrr : |r * r| ≤ 1 := (abs_mul_le' hra hra).trans (by norm_num)
  obtain ⟨E1, hE1⟩ : ∃ E, E = 2 * ((r * (r * c - s)) * (c + inner ℝ d n)) := ⟨_, rfl⟩
  obtain ⟨E2, hE2⟩ : ∃ E, E = ((r * c - s) * (r * c - s)) * (‖n‖ ^ 2 - 1) := ⟨_, rfl⟩
  obtain ⟨E3, hE3⟩ : ∃ E, E = (r * r) * (‖d‖ ^ 2 - 1) := ⟨_, rfl⟩
  have b1 : |E1| ≤ 74 / 10 * u := by
    rw [hE1, abs_mul, abs_of_pos two_pos]
    linarith [abs_mul_le' (abs_mul_le' hra hb) hC]
  have b2 : |E2| ≤ 106 / 10 * u := by
    rw [hE2]
    have := abs_mul_le' hbb hnn
    linarith
  have b3 : |E3| ≤ 101 / 10 * u := by
    rw [hE3]
    have := abs_mul_le' hrr hdd
    linarith
  obtain ⟨w0, hw0⟩ : ∃ w0, w0 = r • d + (r * c - s) • n := ⟨_, rfl⟩
  rw [← hw0] at hw
  have k0 : ‖w0‖ ^ 2 = r ^ 2 * ‖d‖ ^ 2 + 2 * (r * (r * c - s)) * inner ℝ d n + (r * c - s) ^ 2 * ‖n‖ ^ 2 := by
    rw [hw0, norm_add_sq_real, inner_smul_left, inner_smul_right, _root_.norm_smul, _root_.norm_smul, mul_pow, mul_pow,
      Real.norm_eq_abs, Real.norm_eq_abs, sq_abs, sq_abs]
    simp only [conj_trivial]
    ring
  have k1 : ‖w0‖ ^ 2 - 1 = (s ^ 2 - (1 - r ^ 2 * (1 - c ^ 2))) + (E1 + E2 + E3) := by
    rw [k0, hE1, hE2, hE3]; ring
  have k2 : |‖w0‖ ^ 2 - 1| ≤ 353 / 10 * u := by
    rw [k1]
    refine (abs_add_le _ _).trans ?_
    have := abs_add_three E1 E2 E3
    linarith
  have hw0n := _root_.norm_nonneg w0
  have hwn := _root_.norm_nonneg w
  have k3 : ‖w0‖ ≤ 101 / 100 := by
    have h2 := abs_le.mp k2
    apply le_of_pow_le_pow_left₀ two_ne_zero (by norm_num)
    linarith [h2.2]
  have k4 := abs_le.mp ((abs_norm_sub_norm_le w w0).trans hw)
  have k5 : |‖w‖ ^ 2 - ‖w0‖ ^ 2| ≤ 126 / 10 * u := by
    rw [show ‖w‖ ^ 2 - ‖w0‖ ^ 2 = (‖w‖ - ‖w0‖) * (‖w‖ + ‖w0‖) by ring]
    refine (abs_mul_le' (B := 203 / 100) (abs_le.mpr k4) ?_).trans (by linarith)
    rw [abs_le]; constructor <;> linarith [k4.2]
  rw [show ‖w‖ ^ 2 - 1 = (‖w‖ ^ 2 - ‖w0‖ ^ 2) + (‖w0‖ ^ 2 - 1) by ring]
  refine (abs_add_le _ _).trans ?_
  linarith

/-- The length of the direction of a ray that has entered glass. -/
theorem snell_enter (hone : R.rnd 1 = .fin 1) {d n w : V3 ℝ} {η : ℝ} (h1 : 1 ≤ η) (h2 : η ≤ 4) (hd : NearUnit R d)
    (hn : NearUnit R n) (hw : snellDirection (d.fl : V3 (Fl R)) n.fl (Fl.fin 1) (Fl.fin η) = .ok w.fl) :
    |‖w.toE‖ ^ 2 - 1| ≤ 50 * R.u := by
  have hu := R.u_pos
  have hu' := (five_u (R := R)).2
  have p2 : 0 < η := by linarith
  have hd' : |‖d.toE‖ - 1| ≤ 1 / 1000 := hd.trans (by linarith)
  obtain ⟨m, c, hm, hface, hcos, hcC, hfr, -⟩ := snell_facing (R := R) hd' hn
  have hmu : NearUnit R m := by
    rcases hm with rfl | rfl
    · exact hn
    · unfold NearUnit; rw [toE_neg, _root_.norm_neg]; exact hn
  have hin : |inner ℝ d.toE m.toE| ≤ 1 + 3 / 100000 := by
    refine (abs_real_inner_le_norm _ _).trans ?_
    exact (mul_le_mul hd.bounds.1 hmu.bounds.1 (_root_.norm_nonneg _) (by norm_num)).trans (by norm_num)
  have hin' := abs_le.mp hin
  have hcC' := abs_le.mp hcC
  have hca : |c| ≤ 1 + 1 / 10000 := by rw [abs_le]; constructor <;> linarith
  have hρ0 : 1 / 4 ≤ 1 / η := one_div_le_one_div_of_le p2 h2
  have hρ1 : 1 / η ≤ 1 := by rw [div_le_one p2]; exact h1
  obtain ⟨r, q, c2, k, s2, g, s, hr, hq, hc2, hk, hs2, hg, hg0, hs, hr0, hr1, hs0, hs1, es⟩ := enter_sine hone hρ0 hρ1 hca
  obtain ⟨hgap, w', hw', ew⟩ := enter_vector (R := R) hd hmu hr0 hr1 hca (by linarith) hs0 hs1
  have hratio : (Fl.fin 1 : Fl R) / Fl.fin η = Fl.fin r := by
    rw [fl_div _ _ p2.ne', hr]; rfl
  have hsin : (Fl.fin r : Fl R) * Fl.fin r * (1.0 - Fl.fin c * Fl.fin c) = Fl.fin s2 := by
    rw [fl_mul, hq, fl_mul, hc2, fl_lit1 hone]
    change Fl.fin q * (Fl.fin 1 - Fl.fin c2) = _
    rw [fl_sub, hk]
    change Fl.fin q * Fl.fin k = _
    rw [fl_mul, hs2]; rfl
  have hz : PyNum.eqb (Fl.fin η : Fl R) 0.0 = false := by
    rw [fl_lit0, fl_eqb]; simp [p2.ne']
  have hroot : PyNum.sqrt ((1.0 : Fl R) - Fl.fin s2) = Fl.fin s := by
    rw [fl_lit1 hone, fl_sub, hg]
    change PyNum.sqrt (Fl.fin g : Fl R) = _
    rw [fl_sqrt _ hg0, hs]; rfl
  have key : snellDirection (d.fl : V3 (Fl R)) n.fl (Fl.fin 1) (Fl.fin η) = .ok w'.fl := by
    unfold snellDirection
    simp only []
    rw [hz, hface, hcos, hratio, hsin, hroot, hw', fl_lit1 hone]
    simp only [Bool.false_eq_true, if_false]
    rw [if_neg]
    rintro ⟨h, -⟩
    have : η < 1 := h
    linarith
  have hww : w.toE = w'.toE := by
    have := Except.ok.inj (hw.symm.trans key)
    have hx := congrArg V3.x this
    have hy := congrArg V3.y this
    have hz := congrArg V3.z this
    have inj : ∀ a b : ℝ, (Fl.fin a : Fl R) = Fl.fin b → a = b := by
      intro a b h
      have := congrArg Fl.val h
      exact XR.fin.inj this
    rw [show w = w' from V3.ext (inj _ _ hx) (inj _ _ hy) (inj _ _ hz)]
  rw [hww]
  exact enter_length (d := d.toE) (n := m.toE) hu (by linarith) hd hmu hr0 hr1 hgap (by rwa [sub_neg_eq_add] at hcC) es ew

end Optics
