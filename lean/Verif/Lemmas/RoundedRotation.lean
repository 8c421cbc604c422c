import Verif.Lemmas.RoundedPlane
import Verif.Lemmas.RoundedSnell
import Verif.Lemmas.Rotation
import Verif.Props.RoundedAngles
/-!
Bounds for `rotation_matrix_axis_angle` computed with rounded arithmetic. Used by `Props/RoundedRotations.lean` and
`Props/RoundedGratings.lean`.
-/

namespace Optics
open V3

variable {R : Rounding}

theorem fl_cos (x : ℝ) : PyNum.cos (Fl.fin x : Fl R) = ⟨R.rnd (Real.cos x)⟩ := rfl
theorem fl_sin (x : ℝ) : PyNum.sin (Fl.fin x : Fl R) = ⟨R.rnd (Real.sin x)⟩ := rfl

/-- A rounded product of two rounded numbers. -/
theorem prod_near {a b A B e f X Y : ℝ} (ha : |a - A| ≤ e) (hb : |b - B| ≤ f) (hA : |A| ≤ X) (hB : |B| ≤ Y)
    (hX : X ≤ 3) (hY : Y ≤ 3) (he : e ≤ 1 / 1000) (hf : f ≤ 1 / 1000) :
    ∃ y, (Fl.fin a : Fl R) * Fl.fin b = Fl.fin y ∧
      |y - A * B| ≤ e * Y + f * (X + 1 / 1000) + R.u * (X * Y + 1 / 100) := by
  have hu := R.u_pos
  have e0 : 0 ≤ e := (abs_nonneg _).trans ha
  have f0 : 0 ≤ f := (abs_nonneg _).trans hb
  have X0 : 0 ≤ X := (abs_nonneg _).trans hA
  have Y0 : 0 ≤ Y := (abs_nonneg _).trans hB
  have ha' : |a| ≤ X + 1 / 1000 := by
    have := abs_add_le (a - A) A; rw [sub_add_cancel] at this; linarith
  have hd : |a * b - A * B| ≤ e * Y + f * (X + 1 / 1000) := by
    have e1 : a * b - A * B = (a - A) * B + (b - B) * a := by ring
    rw [e1]
    have h1 := abs_add_le ((a - A) * B) ((b - B) * a)
    rw [abs_mul, abs_mul] at h1
    have h2 := mul_le_mul ha hB (abs_nonneg _) e0
    have h3 := mul_le_mul hb ha' (abs_nonneg _) f0
    linarith
  have hAB : |A * B| ≤ X * Y := by rw [abs_mul]; exact mul_le_mul hA hB (abs_nonneg _) X0
  have hab : |a * b| ≤ X * Y + 7 / 1000 := by
    have h1 := abs_add_le (a * b - A * B) (A * B)
    rw [sub_add_cancel] at h1
    have h2 : e * Y ≤ 1 / 1000 * 3 := mul_le_mul he hY Y0 (by norm_num)
    have h3 : f * (X + 1 / 1000) ≤ 1 / 1000 * (3 + 1 / 1000) := mul_le_mul hf (by linarith) (by linarith) (by norm_num)
    linarith
  have hXY : X * Y ≤ 3 * 3 := mul_le_mul hX hY Y0 (by norm_num)
  obtain ⟨y, hy, ey⟩ := rnd_mid (R := R) hab (by linarith)
  refine ⟨y, by rw [fl_mul, hy]; rfl, ?_⟩
  have h1 := abs_add_le (y - a * b) (a * b - A * B)
  rw [sub_add_sub_cancel] at h1
  have h2 : R.u * (X * Y + 7 / 1000 + 1 / 1000) ≤ R.u * (X * Y + 1 / 100) :=
    mul_le_mul_of_nonneg_left (by linarith) hu.le
  linarith

/-- A rounded sum of two rounded numbers. -/
theorem sum_near {a b A B e f X : ℝ} (ha : |a - A| ≤ e) (hb : |b - B| ≤ f) (hX : |A + B| ≤ X) (hX' : X ≤ 100)
    (he : e ≤ 4 / 1000) (hf : f ≤ 4 / 1000) :
    ∃ y, (Fl.fin a : Fl R) + Fl.fin b = Fl.fin y ∧ |y - (A + B)| ≤ e + f + R.u * (X + 1 / 100) := by
  have hu := R.u_pos
  have hd : |a + b - (A + B)| ≤ e + f := by
    have e1 : a + b - (A + B) = (a - A) + (b - B) := by ring
    rw [e1]
    exact (abs_add_le _ _).trans (add_le_add ha hb)
  have hab : |a + b| ≤ X + 8 / 1000 := by
    have h1 := abs_add_le (a + b - (A + B)) (A + B)
    rw [sub_add_cancel] at h1
    linarith
  obtain ⟨y, hy, ey⟩ := rnd_mid (R := R) hab (by linarith)
  refine ⟨y, by rw [fl_add, hy]; rfl, ?_⟩
  have h1 := abs_add_le (y - (a + b)) (a + b - (A + B))
  rw [sub_add_sub_cancel] at h1
  have h2 : R.u * (X + 8 / 1000 + 1 / 1000) ≤ R.u * (X + 1 / 100) := mul_le_mul_of_nonneg_left (by linarith) hu.le
  linarith

/-- A rounded difference of two rounded numbers. -/
theorem diff_near {a b A B e f X : ℝ} (ha : |a - A| ≤ e) (hb : |b - B| ≤ f) (hX : |A - B| ≤ X) (hX' : X ≤ 100)
    (he : e ≤ 4 / 1000) (hf : f ≤ 4 / 1000) :
    ∃ y, (Fl.fin a : Fl R) - Fl.fin b = Fl.fin y ∧ |y - (A - B)| ≤ e + f + R.u * (X + 1 / 100) := by
  have hu := R.u_pos
  have hd : |a - b - (A - B)| ≤ e + f := by
    have e1 : a - b - (A - B) = (a - A) - (b - B) := by ring
    rw [e1]
    exact (abs_sub _ _).trans (add_le_add ha hb)
  have hab : |a - b| ≤ X + 8 / 1000 := by
    have h1 := abs_add_le (a - b - (A - B)) (A - B)
    rw [sub_add_cancel] at h1
    linarith
  obtain ⟨y, hy, ey⟩ := rnd_mid (R := R) hab (by linarith)
  refine ⟨y, by rw [fl_sub, hy]; rfl, ?_⟩
  have h1 := abs_add_le (y - (a - b)) (a - b - (A - B))
  rw [sub_add_sub_cancel] at h1
  have h2 : R.u * (X + 8 / 1000 + 1 / 1000) ≤ R.u * (X + 1 / 100) := mul_le_mul_of_nonneg_left (by linarith) hu.le
  linarith

/-- The literal `2.0`. -/
theorem two_near : ∃ l, (2.0 : Fl R) = Fl.fin l ∧ |l - 2| ≤ 201 / 100 * R.u := by
  have hu := R.u_pos
  obtain ⟨τ, hτ, eτ⟩ := rnd_near (R := R) (x := 2) (e := 2) (by norm_num) (by norm_num)
  refine ⟨τ, by rw [fl_lit, show (OfScientific.ofScientific 20 true 1 : ℝ) = 2 by norm_num, hτ], eτ.trans ?_⟩
  have : R.u * (2 + 1 / 10 ^ 250) ≤ R.u * (201 / 100) := mul_le_mul_of_nonneg_left (by norm_num) hu.le
  linarith

/-- Half of an angle. -/
theorem half_near {θ : ℝ} (hθ : |θ| ≤ 5) :
    ∃ h, (Fl.fin θ : Fl R) / 2.0 = Fl.fin h ∧ |h - θ / 2| ≤ 51 / 10 * R.u := by
  have hu := R.u_pos
  obtain ⟨h5, h6⟩ := five_u (R := R)
  obtain ⟨l, hl, el⟩ := two_near (R := R)
  have hl2 : 199 / 100 ≤ l := by linarith [(abs_le.mp el).1]
  have hl0 : l ≠ 0 := by intro h; rw [h] at hl2; norm_num at hl2
  have hd : |θ / l - θ / 2| ≤ 254 / 100 * R.u := by
    have e : θ / l - θ / 2 = θ * (2 - l) / (2 * l) := by field_simp
    rw [e, abs_div, abs_mul, abs_sub_comm 2 l, div_le_iff₀ (by positivity), abs_of_nonneg (by linarith : 0 ≤ 2 * l)]
    have h1 := mul_le_mul hθ el (abs_nonneg _) (by norm_num)
    have h2 : 254 / 100 * R.u * (2 * (199 / 100)) ≤ 254 / 100 * R.u * (2 * l) :=
      mul_le_mul_of_nonneg_left (by linarith) (by positivity)
    linarith
  have hb : |θ / l| ≤ 251 / 100 := by
    have h1 := abs_add_le (θ / l - θ / 2) (θ / 2)
    rw [sub_add_cancel, abs_div θ 2, abs_two] at h1
    linarith
  obtain ⟨y, hy, ey⟩ := rnd_mid (R := R) hb (by norm_num)
  refine ⟨y, by rw [hl, fl_div _ _ hl0, hy]; rfl, ?_⟩
  have h1 := abs_add_le (y - θ / l) (θ / l - θ / 2)
  rw [sub_add_sub_cancel] at h1
  linarith

theorem cos_dist (a b : ℝ) : |Real.cos a - Real.cos b| ≤ |a - b| := by
  have h := chord_le_arc a b
  exact sq_le_sq.mp (by nlinarith [sq_nonneg (Real.sin a - Real.sin b)])

theorem sin_dist (a b : ℝ) : |Real.sin a - Real.sin b| ≤ |a - b| := by
  have h := chord_le_arc a b
  exact sq_le_sq.mp (by nlinarith [sq_nonneg (Real.cos a - Real.cos b)])

theorem cos_near {h H e : ℝ} (hh : |h - H| ≤ e) :
    ∃ y, PyNum.cos (Fl.fin h : Fl R) = Fl.fin y ∧ |y - Real.cos H| ≤ e + 101 / 100 * R.u := by
  have hu := R.u_pos
  obtain ⟨y, hy, ey⟩ := rnd_mid (R := R) (Real.abs_cos_le_one h) (by norm_num)
  refine ⟨y, by rw [fl_cos, hy]; rfl, ?_⟩
  have h1 := abs_add_le (y - Real.cos h) (Real.cos h - Real.cos H)
  rw [sub_add_sub_cancel] at h1
  linarith [cos_dist h H]

theorem sin_near {h H e : ℝ} (hh : |h - H| ≤ e) :
    ∃ y, PyNum.sin (Fl.fin h : Fl R) = Fl.fin y ∧ |y - Real.sin H| ≤ e + 101 / 100 * R.u := by
  have hu := R.u_pos
  obtain ⟨y, hy, ey⟩ := rnd_mid (R := R) (Real.abs_sin_le_one h) (by norm_num)
  refine ⟨y, by rw [fl_sin, hy]; rfl, ?_⟩
  have h1 := abs_add_le (y - Real.sin h) (Real.sin h - Real.sin H)
  rw [sub_add_sub_cancel] at h1
  linarith [sin_dist h H]

/-- A matrix of finite numbers. -/
noncomputable def M3.fl {R : Rounding} (M : M3 ℝ) : M3 (Fl R) := ⟨M.r0.fl, M.r1.fl, M.r2.fl⟩

/-- All nine entries of two matrices differ by at most `e`. -/
def M3.Close (M N : M3 ℝ) (e : ℝ) : Prop :=
  ((|M.r0.x - N.r0.x| ≤ e ∧ |M.r0.y - N.r0.y| ≤ e ∧ |M.r0.z - N.r0.z| ≤ e) ∧
   (|M.r1.x - N.r1.x| ≤ e ∧ |M.r1.y - N.r1.y| ≤ e ∧ |M.r1.z - N.r1.z| ≤ e) ∧
   (|M.r2.x - N.r2.x| ≤ e ∧ |M.r2.y - N.r2.y| ≤ e ∧ |M.r2.z - N.r2.z| ≤ e))

/-- The Euler-Rodrigues matrix in terms of its four parameters. -/
def eulerRodrigues (a b c d : ℝ) : M3 ℝ :=
  ⟨⟨a * a + b * b - c * c - d * d, 2 * (b * c + a * d), 2 * (b * d - a * c)⟩,
   ⟨2 * (b * c - a * d), a * a + c * c - b * b - d * d, 2 * (c * d + a * b)⟩,
   ⟨2 * (b * d + a * c), 2 * (c * d - a * b), a * a + d * d - b * b - c * c⟩⟩

/-- A diagonal entry. -/
theorem diag_near {p q r s P Q S T : ℝ} (hp : |p - P| ≤ 46 * R.u) (hq : |q - Q| ≤ 46 * R.u) (hr : |r - S| ≤ 46 * R.u)
    (hs : |s - T| ≤ 46 * R.u) (hP : 0 ≤ P) (hQ : 0 ≤ Q) (hS : 0 ≤ S) (hT : 0 ≤ T) (h1 : P + Q + S + T = 1) :
    ∃ y, (Fl.fin p : Fl R) + Fl.fin q - Fl.fin r - Fl.fin s = Fl.fin y ∧ |y - (P + Q - S - T)| ≤ 190 * R.u := by
  have hu := R.u_pos
  obtain ⟨h5, h6⟩ := five_u (R := R)
  obtain ⟨y1, e1, b1⟩ := sum_near hp hq (X := 1) (by rw [abs_le]; constructor <;> linarith) (by norm_num) (by linarith) (by linarith)
  obtain ⟨y2, e2, b2⟩ := diff_near b1 hr (X := 1) (by rw [abs_le]; constructor <;> linarith) (by norm_num) (by linarith) (by linarith)
  obtain ⟨y3, e3, b3⟩ := diff_near b2 hs (X := 1) (by rw [abs_le]; constructor <;> linarith) (by norm_num) (by linarith) (by linarith)
  exact ⟨y3, by rw [e1, e2, e3], by linarith⟩

/-- An entry off the diagonal, with a sum. -/
theorem off_near_add {p q P Q : ℝ} (hp : |p - P| ≤ 46 * R.u) (hq : |q - Q| ≤ 30 * R.u) (h : |P + Q| ≤ 1) :
    ∃ y, (2.0 : Fl R) * (Fl.fin p + Fl.fin q) = Fl.fin y ∧ |y - 2 * (P + Q)| ≤ 190 * R.u := by
  have hu := R.u_pos
  obtain ⟨h5, h6⟩ := five_u (R := R)
  obtain ⟨l, hl, el⟩ := two_near (R := R)
  obtain ⟨y1, e1, b1⟩ := sum_near hp hq h (by norm_num) (by linarith) (by linarith)
  obtain ⟨y2, e2, b2⟩ := prod_near (R := R) el b1 (X := 2) (Y := 1) (by norm_num) h (by norm_num) (by norm_num) (by linarith) (by linarith)
  exact ⟨y2, by rw [hl, e1, e2], by linarith⟩

/-- An entry off the diagonal, with a difference. -/
theorem off_near_sub {p q P Q : ℝ} (hp : |p - P| ≤ 46 * R.u) (hq : |q - Q| ≤ 30 * R.u) (h : |P - Q| ≤ 1) :
    ∃ y, (2.0 : Fl R) * (Fl.fin p - Fl.fin q) = Fl.fin y ∧ |y - 2 * (P - Q)| ≤ 190 * R.u := by
  have hu := R.u_pos
  obtain ⟨h5, h6⟩ := five_u (R := R)
  obtain ⟨l, hl, el⟩ := two_near (R := R)
  obtain ⟨y1, e1, b1⟩ := diff_near hp hq h (by norm_num) (by linarith) (by linarith)
  obtain ⟨y2, e2, b2⟩ := prod_near (R := R) el b1 (X := 2) (Y := 1) (by norm_num) h (by norm_num) (by norm_num) (by linarith) (by linarith)
  exact ⟨y2, by rw [hl, e1, e2], by linarith⟩

theorem eulerRodrigues_eq {T : V3 ℝ} (hT : ‖T.toE‖ = 1) (θ : ℝ) :
    rotationMatrixAxisAngle T θ =
      eulerRodrigues (Real.cos (θ / 2)) ((-T.x) * Real.sin (θ / 2)) ((-T.y) * Real.sin (θ / 2)) ((-T.z) * Real.sin (θ / 2)) := by
  have h1 : dot T T = 1 := by
    have := normE_sq T
    rw [hT] at this
    simp only [dot]; nlinarith
  have h2 : PyNum.sqrt (dot T T) = 1 := by rw [h1, real_sqrt, Real.sqrt_one]
  unfold rotationMatrixAxisAngle eulerRodrigues
  have l2 : (2.0 : ℝ) = 2 := by norm_num
  have hx : (T / PyNum.sqrt (dot T T)) = T := by rw [h2]; ext <;> simp
  simp only [hx, l2]
  rfl

theorem sq_le_of_sum {a b c d : ℝ} (h : a * a + b * b + c * c + d * d = 1) : |a| ≤ 1 ∧ |b| ≤ 1 ∧ |c| ≤ 1 ∧ |d| ≤ 1 := by
  refine ⟨?_, ?_, ?_, ?_⟩ <;> rw [abs_le] <;> constructor <;> nlinarith

theorem param_mul {p q P Q : ℝ} (hp : |p - P| ≤ 223 / 10 * R.u) (hq : |q - Q| ≤ 223 / 10 * R.u) (hP : |P| ≤ 1)
    (hQ : |Q| ≤ 1) : ∃ y, (Fl.fin p : Fl R) * Fl.fin q = Fl.fin y ∧ |y - P * Q| ≤ 46 * R.u := by
  have hu := R.u_pos
  obtain ⟨h5, h6⟩ := five_u (R := R)
  obtain ⟨y, e, h⟩ := prod_near (R := R) hp hq hP hQ (by norm_num) (by norm_num) (by linarith) (by linarith)
  exact ⟨y, e, by linarith⟩

theorem param_mul' {p q P Q : ℝ} (hp : |p - P| ≤ 62 / 10 * R.u) (hq : |q - Q| ≤ 223 / 10 * R.u) (hP : |P| ≤ 1)
    (hQ : |Q| ≤ 1) : ∃ y, (Fl.fin p : Fl R) * Fl.fin q = Fl.fin y ∧ |y - P * Q| ≤ 30 * R.u := by
  have hu := R.u_pos
  obtain ⟨h5, h6⟩ := five_u (R := R)
  obtain ⟨y, e, h⟩ := prod_near (R := R) hp hq hP hQ (by norm_num) (by norm_num) (by linarith) (by linarith)
  exact ⟨y, e, by linarith⟩

theorem two_prods (p q r t : ℝ) (h : p * p + q * q + r * r + t * t = 1) : |p * q + r * t| ≤ 1 := by
  rw [abs_le]
  constructor <;> linarith [mul_self_nonneg (p + q), mul_self_nonneg (r + t), mul_self_nonneg (p - q), mul_self_nonneg (r - t)]

theorem two_prods' (p q r t : ℝ) (h : p * p + q * q + r * r + t * t = 1) : |p * q - r * t| ≤ 1 := by
  rw [abs_le]
  constructor <;> linarith [mul_self_nonneg (p + q), mul_self_nonneg (r + t), mul_self_nonneg (p - q), mul_self_nonneg (r - t)]

/-- **The matrix** computed from four rounded parameters. -/
theorem euler_near {a b c d A B C D : ℝ} (ha : |a - A| ≤ 62 / 10 * R.u) (hb : |b - B| ≤ 223 / 10 * R.u)
    (hc : |c - C| ≤ 223 / 10 * R.u) (hd : |d - D| ≤ 223 / 10 * R.u) (h1 : A * A + B * B + C * C + D * D = 1) :
    ∃ M : M3 ℝ, (let a : Fl R := Fl.fin a
      let b : Fl R := Fl.fin b
      let c : Fl R := Fl.fin c
      let d : Fl R := Fl.fin d
      (⟨⟨a * a + b * b - c * c - d * d, 2.0 * (b * c + a * d), 2.0 * (b * d - a * c)⟩,
       ⟨2.0 * (b * c - a * d), a * a + c * c - b * b - d * d, 2.0 * (c * d + a * b)⟩,
       ⟨2.0 * (b * d + a * c), 2.0 * (c * d - a * b), a * a + d * d - b * b - c * c⟩⟩ : M3 (Fl R))) = M.fl ∧
      M.Close (eulerRodrigues A B C D) (190 * R.u) := by
  have hu := R.u_pos
  obtain ⟨h5, h6⟩ := five_u (R := R)
  obtain ⟨A1, B1, C1, D1⟩ := sq_le_of_sum h1
  obtain ⟨aa, eaa, haa⟩ := param_mul (R := R) (ha.trans (by linarith)) (ha.trans (by linarith)) A1 A1
  obtain ⟨bb, ebb, hbb⟩ := param_mul hb hb B1 B1
  obtain ⟨cc, ecc, hcc⟩ := param_mul hc hc C1 C1
  obtain ⟨dd, edd, hdd⟩ := param_mul hd hd D1 D1
  obtain ⟨bc, ebc, hbc⟩ := param_mul hb hc B1 C1
  obtain ⟨bd, ebd, hbd⟩ := param_mul hb hd B1 D1
  obtain ⟨cd, ecd, hcd⟩ := param_mul hc hd C1 D1
  obtain ⟨ad, ead, had⟩ := param_mul' ha hd A1 D1
  obtain ⟨ac, eac, hac⟩ := param_mul' ha hc A1 C1
  obtain ⟨ab, eab, hab⟩ := param_mul' ha hb A1 B1
  have a0 := mul_self_nonneg A
  have b0 := mul_self_nonneg B
  have c0 := mul_self_nonneg C
  have d0 := mul_self_nonneg D
  obtain ⟨m00, e00, h00⟩ := diag_near haa hbb hcc hdd a0 b0 c0 d0 (by linarith)
  obtain ⟨m11, e11, h11⟩ := diag_near haa hcc hbb hdd a0 c0 b0 d0 (by linarith)
  obtain ⟨m22, e22, h22⟩ := diag_near haa hdd hbb hcc a0 d0 b0 c0 (by linarith)
  obtain ⟨m01, e01, h01⟩ := off_near_add hbc had (two_prods B C A D (by linarith))
  obtain ⟨m02, e02, h02⟩ := off_near_sub hbd hac (two_prods' B D A C (by linarith))
  obtain ⟨m10, e10, h10⟩ := off_near_sub hbc had (two_prods' B C A D (by linarith))
  obtain ⟨m12, e12, h12⟩ := off_near_add hcd hab (two_prods C D A B (by linarith))
  obtain ⟨m20, e20, h20⟩ := off_near_add hbd hac (two_prods B D A C (by linarith))
  obtain ⟨m21, e21, h21⟩ := off_near_sub hcd hab (two_prods' C D A B (by linarith))
  refine ⟨⟨⟨m00, m01, m02⟩, ⟨m10, m11, m12⟩, ⟨m20, m21, m22⟩⟩, ?_, ⟨h00, h01, h02⟩, ⟨h10, h11, h12⟩, ⟨h20, h21, h22⟩⟩
  simp only [eaa, ebb, ecc, edd, ebc, ebd, ecd, ead, eac, eab, e00, e01, e02, e10, e11, e12, e20, e21, e22]
  rfl

theorem comp_le_norm (v : V3 ℝ) : |v.x| ≤ ‖v.toE‖ ∧ |v.y| ≤ ‖v.toE‖ ∧ |v.z| ≤ ‖v.toE‖ := by
  have h := normE_sq v
  have h0 := _root_.norm_nonneg v.toE
  refine ⟨?_, ?_, ?_⟩ <;> refine abs_le_of_sq_le_sq ?_ h0 |> fun h => h <;> nlinarith [sq_nonneg v.x, sq_nonneg v.y, sq_nonneg v.z]

/-- **`rotation_matrix_axis_angle`** computed with rounding, about an axis whose computed unit vector is within `15u`
of the unit vector `T`. -/
theorem axisAngle_near {t w T : V3 ℝ} (hT : ‖T.toE‖ = 1) (hw : unitVector (t.fl : V3 (Fl R)) = w.fl)
    (dw : ‖w.toE - T.toE‖ ≤ 5 * R.u + 2 * (5 * R.u)) {θ : ℝ} (hθ : |θ| ≤ 5) :
    ∃ M : M3 ℝ, rotationMatrixAxisAngle (t.fl : V3 (Fl R)) (Fl.fin θ) = M.fl ∧
      M.Close (rotationMatrixAxisAngle T θ) (190 * R.u) := by
  have hu := R.u_pos
  obtain ⟨h5, h6⟩ := five_u (R := R)
  rw [← toE_sub] at dw
  obtain ⟨wx, wy, wz⟩ := comp_le_norm (w - T)
  simp only [sub_x, sub_y, sub_z] at wx wy wz
  obtain ⟨Tx, Ty, Tz⟩ := comp_le_norm T
  rw [hT] at Tx Ty Tz
  obtain ⟨h, hh, eh⟩ := half_near (R := R) hθ
  obtain ⟨a, ea, ha⟩ := cos_near (R := R) eh
  obtain ⟨s, es, hs⟩ := sin_near (R := R) eh
  have S1 := Real.abs_sin_le_one (θ / 2)
  have mk : ∀ {p P : ℝ}, |p - P| ≤ ‖(w - T).toE‖ → |P| ≤ 1 →
      ∃ y, -(Fl.fin p : Fl R) * Fl.fin s = Fl.fin y ∧ |y - (-P) * Real.sin (θ / 2)| ≤ 223 / 10 * R.u := by
    intro p P hp hP
    have hp' : |(-p) - (-P)| ≤ 15 * R.u := by
      rw [show -p - -P = -(p - P) by ring, abs_neg]; linarith
    obtain ⟨y, e, h⟩ := prod_near (R := R) hp' hs (X := 1) (by rwa [abs_neg]) S1 (by norm_num) (by norm_num) (by linarith) (by linarith)
    exact ⟨y, by rw [fl_neg, e], by linarith⟩
  obtain ⟨b, eb, hb⟩ := mk wx Tx
  obtain ⟨c, ec, hc⟩ := mk wy Ty
  obtain ⟨d, ed, hd⟩ := mk wz Tz
  have h1 : Real.cos (θ / 2) * Real.cos (θ / 2) + ((-T.x) * Real.sin (θ / 2)) * ((-T.x) * Real.sin (θ / 2))
      + ((-T.y) * Real.sin (θ / 2)) * ((-T.y) * Real.sin (θ / 2)) + ((-T.z) * Real.sin (θ / 2)) * ((-T.z) * Real.sin (θ / 2)) = 1 := by
    have n := normE_sq T
    rw [hT] at n
    have q := Real.sin_sq_add_cos_sq (θ / 2)
    have : T.x ^ 2 + T.y ^ 2 + T.z ^ 2 = 1 := by linarith
    linear_combination q + Real.sin (θ / 2) ^ 2 * this
  obtain ⟨M, eM, hM⟩ := euler_near (R := R) (ha.trans (by linarith)) hb hc hd h1
  refine ⟨M, ?_, by rwa [eulerRodrigues_eq hT]⟩
  rw [← eM]
  have hw' : (t.fl : V3 (Fl R)) / PyNum.sqrt (dot (t.fl : V3 (Fl R)) t.fl) = w.fl := hw
  unfold rotationMatrixAxisAngle
  simp only [hw', hh, ea, es]
  simp only [V3.fl, eb, ec, ed]

/-- A row of the matrix times a vector. -/
theorem row_near {m N v : V3 ℝ} {X : ℝ} (hx : |m.x - N.x| ≤ 190 * R.u) (hy : |m.y - N.y| ≤ 190 * R.u)
    (hz : |m.z - N.z| ≤ 190 * R.u) (hN : ‖N.toE‖ ≤ 1) (hv : ‖v.toE‖ ≤ X * (1 + 1 / 1000)) (hX : 1 ≤ X) (hX' : X ≤ 10 ^ 150) :
    ∃ y, dot (m.fl : V3 (Fl R)) v.fl = Fl.fin y ∧ |y - dot N v| ≤ 347 * R.u * X := by
  have hu := R.u_pos
  obtain ⟨h5, h6⟩ := five_u (R := R)
  have hd := normE_le (v := m - N) (e := 190 * R.u) (by positivity) hx hy hz
  rw [toE_sub] at hd
  have hm : ‖m.toE‖ ≤ 1 + 1 / 1000 := by
    have := norm_add_le (m.toE - N.toE) N.toE
    rw [sub_add_cancel] at this; linarith
  have h0 := _root_.norm_nonneg v.toE
  have hmv : ‖m.toE‖ * ‖v.toE‖ ≤ 101 / 100 * X := by
    have := mul_le_mul hm hv h0 (by norm_num); linarith
  obtain ⟨y, hy, ey⟩ := dot_near' (R := R) hmv (by linarith) (by
    have : (101 / 100 : ℝ) * 10 ^ 150 ≤ 10 ^ 200 := by norm_num
    linarith)
  rw [inner_toE] at ey
  refine ⟨y, hy, ?_⟩
  have e : dot m v - dot N v = inner ℝ (m.toE - N.toE) v.toE := by
    rw [inner_sub_left, inner_toE, inner_toE]
  have h1 : |dot m v - dot N v| ≤ 9 / 5 * (190 * R.u) * (X * (1 + 1 / 1000)) := by
    rw [e]
    exact (abs_real_inner_le_norm _ _).trans (mul_le_mul hd hv h0 (by positivity))
  have h2 := abs_add_le (y - dot m v) (dot m v - dot N v)
  rw [sub_add_sub_cancel] at h2
  have h3 : 0 ≤ R.u * X := by positivity
  linarith

theorem euler_rows {a b c d : ℝ} (h : a * a + b * b + c * c + d * d = 1) :
    ‖(eulerRodrigues a b c d).r0.toE‖ ≤ 1 ∧ ‖(eulerRodrigues a b c d).r1.toE‖ ≤ 1 ∧ ‖(eulerRodrigues a b c d).r2.toE‖ ≤ 1 := by
  have mk : ∀ v : V3 ℝ, v.x ^ 2 + v.y ^ 2 + v.z ^ 2 = 1 → ‖v.toE‖ ≤ 1 := by
    intro v hv
    have := normE_sq v
    nlinarith [_root_.norm_nonneg v.toE]
  refine ⟨mk _ ?_, mk _ ?_, mk _ ?_⟩ <;> simp only [eulerRodrigues] <;>
    linear_combination (a * a + b * b + c * c + d * d + 1) * h

theorem axis_param {T : V3 ℝ} (hT : ‖T.toE‖ = 1) (θ : ℝ) :
    Real.cos (θ / 2) * Real.cos (θ / 2) + ((-T.x) * Real.sin (θ / 2)) * ((-T.x) * Real.sin (θ / 2))
      + ((-T.y) * Real.sin (θ / 2)) * ((-T.y) * Real.sin (θ / 2)) + ((-T.z) * Real.sin (θ / 2)) * ((-T.z) * Real.sin (θ / 2)) = 1 := by
  have n := normE_sq T
  rw [hT] at n
  have q := Real.sin_sq_add_cos_sq (θ / 2)
  have : T.x ^ 2 + T.y ^ 2 + T.z ^ 2 = 1 := by linarith
  linear_combination q + Real.sin (θ / 2) ^ 2 * this

theorem unit_dot_self {T : V3 ℝ} (hT : ‖T.toE‖ = 1) : dot T T = 1 := by
  have := normE_sq T
  rw [hT] at this
  simp only [dot]; nlinarith

theorem unit_ne_zero {T : V3 ℝ} (hT : ‖T.toE‖ = 1) : T ≠ ⟨0, 0, 0⟩ := by
  intro h
  have := unit_dot_self hT
  rw [h] at this
  simp [dot] at this

theorem unit_unitVector {T : V3 ℝ} (hT : ‖T.toE‖ = 1) : unitVector T = T := by
  unfold unitVector
  rw [← norm_toE, hT]; ext <;> simp

/-- **`np.dot(rotation_matrix_axis_angle(axis, theta), v)`** computed with rounding. -/
theorem turn_axis_scaled {t w T v : V3 ℝ} {X : ℝ} (hT : ‖T.toE‖ = 1) (hw : unitVector (t.fl : V3 (Fl R)) = w.fl)
    (dw : ‖w.toE - T.toE‖ ≤ 5 * R.u + 2 * (5 * R.u)) {θ : ℝ} (hθ : |θ| ≤ 5) (hv : ‖v.toE‖ ≤ X * (1 + 1 / 1000)) (hX : 1 ≤ X)
    (hX' : X ≤ 10 ^ 150) :
    ∃ w : V3 ℝ, M3.mulVec (rotationMatrixAxisAngle (t.fl : V3 (Fl R)) (Fl.fin θ)) v.fl = w.fl ∧
      ‖w.toE - (rodrigues T θ v).toE‖ ≤ 625 * R.u * X := by
  have hu := R.u_pos
  obtain ⟨M, eM, ⟨a0, a1, a2⟩, ⟨b0, b1, b2⟩, c0, c1, c2⟩ := axisAngle_near (R := R) hT hw dw hθ
  have hr := euler_rows (axis_param hT θ)
  rw [← eulerRodrigues_eq hT] at hr
  obtain ⟨x, ex, hx⟩ := row_near (R := R) a0 a1 a2 hr.1 hv hX hX'
  obtain ⟨y, ey, hy⟩ := row_near (R := R) b0 b1 b2 hr.2.1 hv hX hX'
  obtain ⟨z, ez, hz⟩ := row_near (R := R) c0 c1 c2 hr.2.2 hv hX hX'
  refine ⟨⟨x, y, z⟩, ?_, ?_⟩
  · rw [eM]
    unfold M3.mulVec M3.fl
    simp only [ex, ey, ez]
    rfl
  · have e := axisAngle_rodrigues (unit_ne_zero hT) θ v
    rw [unit_unitVector hT] at e
    rw [← e, ← toE_sub]
    have := normE_le (v := (⟨x, y, z⟩ : V3 ℝ) - M3.mulVec (rotationMatrixAxisAngle T θ) v) (e := 347 * R.u * X) (by positivity) hx hy hz
    have : 0 ≤ R.u * X := by positivity
    linarith

theorem turn_axis_near {t w T v : V3 ℝ} (hT : ‖T.toE‖ = 1) (hw : unitVector (t.fl : V3 (Fl R)) = w.fl)
    (dw : ‖w.toE - T.toE‖ ≤ 5 * R.u + 2 * (5 * R.u)) {θ : ℝ} (hθ : |θ| ≤ 5) (hv : ‖v.toE‖ ≤ 1 + 1 / 1000) :
    ∃ w : V3 ℝ, M3.mulVec (rotationMatrixAxisAngle (t.fl : V3 (Fl R)) (Fl.fin θ)) v.fl = w.fl ∧
      ‖w.toE - (rodrigues T θ v).toE‖ ≤ 625 * R.u := by
  obtain ⟨w, h1, h2⟩ := turn_axis_scaled (R := R) (v := v) (X := 1) hT hw dw hθ (by linarith) le_rfl (by norm_num)
  exact ⟨w, h1, by linarith⟩

/-- A rotation keeps distances. -/
theorem rodrigues_isom {T : V3 ℝ} (hT : ‖T.toE‖ = 1) (θ : ℝ) (v w : V3 ℝ) :
    ‖(rodrigues T θ v).toE - (rodrigues T θ w).toE‖ = ‖v.toE - w.toE‖ := by
  have e := axisAngle_rodrigues (unit_ne_zero hT) θ
  rw [unit_unitVector hT] at e
  rw [← e, ← e, ← toE_sub, ← mulVec_sub, norm_toE, (axisAngle_isRotation (unit_ne_zero hT) θ).norm_mulVec, ← norm_toE, toE_sub]

theorem rodrigues_norm {T : V3 ℝ} (hT : ‖T.toE‖ = 1) (θ : ℝ) (v : V3 ℝ) : ‖(rodrigues T θ v).toE‖ = ‖v.toE‖ := by
  have e := axisAngle_rodrigues (unit_ne_zero hT) θ
  rw [unit_unitVector hT] at e
  rw [← e, norm_toE, (axisAngle_isRotation (unit_ne_zero hT) θ).norm_mulVec, ← norm_toE]

/-- Turning by two angles close together. -/
theorem rodrigues_angle {T : V3 ℝ} (hT : ‖T.toE‖ = 1) (a b : ℝ) (v : V3 ℝ) :
    ‖(rodrigues T a v).toE - (rodrigues T b v).toE‖ ≤ |a - b| * ‖v.toE‖ := by
  have d : ∀ v : V3 ℝ, ‖v.toE‖ ^ 2 = dot v v := by
    intro v; rw [normE_sq]; simp only [dot]; ring
  have hT' := unit_dot_self hT
  have e : rodrigues T a v - rodrigues T b v =
      (Real.cos a - Real.cos b) * (v - dot T v * T) + (Real.sin a - Real.sin b) * cross T v := by
    unfold rodrigues
    ext <;> simp only [sub_x, sub_y, sub_z, add_x, add_y, add_z, smul_x, smul_y, smul_z] <;> ring
  have c := cross_dot_self T v
  have h1 : ‖(rodrigues T a v - rodrigues T b v).toE‖ ^ 2 =
      ((Real.cos a - Real.cos b) ^ 2 + (Real.sin a - Real.sin b) ^ 2) * (dot v v - dot T v ^ 2) := by
    rw [e, d]
    have c1 : dot (v - dot T v * T) (cross T v) = 0 := by
      simp only [dot, cross, sub_x, sub_y, sub_z, smul_x, smul_y, smul_z]; ring
    have c2 : dot (v - dot T v * T) (v - dot T v * T) = dot v v - dot T v ^ 2 := by
      have : dot (v - dot T v * T) (v - dot T v * T) = dot v v - 2 * dot T v ^ 2 + dot T v ^ 2 * dot T T := by
        simp only [dot, sub_x, sub_y, sub_z, smul_x, smul_y, smul_z]; ring
      rw [this, hT']; ring
    have c3 : ∀ (p q : ℝ) (x y : V3 ℝ), dot (p * x + q * y) (p * x + q * y) = p ^ 2 * dot x x + 2 * p * q * dot x y + q ^ 2 * dot y y := by
      intro p q x y
      simp only [dot, add_x, add_y, add_z, smul_x, smul_y, smul_z]; ring
    rw [c3, c1, c2]
    rw [hT'] at c
    rw [c]; ring
  rw [← toE_sub]
  refine abs_le_of_sq_le_sq (a := ‖_‖) ?_ (by positivity) |> fun h => (le_abs_self _).trans h
  rw [h1, mul_pow, sq_abs, d v]
  have h2 := chord_le_arc a b
  have h3 : dot v v - dot T v ^ 2 ≤ dot v v := by linarith [sq_nonneg (dot T v)]
  have h4 : 0 ≤ dot v v := by rw [← d]; positivity
  have h5 : 0 ≤ (Real.cos a - Real.cos b) ^ 2 + (Real.sin a - Real.sin b) ^ 2 := by positivity
  calc _ ≤ ((Real.cos a - Real.cos b) ^ 2 + (Real.sin a - Real.sin b) ^ 2) * dot v v := mul_le_mul_of_nonneg_left h3 h5
    _ ≤ _ := mul_le_mul_of_nonneg_right h2 h4

end Optics
