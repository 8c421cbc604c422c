import Verif.Lemmas.RoundedPath
import Verif.Props.RoundedTermination

/-!
# C99, C100: positions with rounded arithmetic

Between plane mirrors the exact path of a ray unfolds to a straight line: the point reached after a path of length `L`
is the image of `P₀ + L d₀` under the reflections in the planes met, one after the other (C80 for the exact run).  C99
says how far a rounded run can be from that point.  C100 says that it does not hit the mirror it has just left.
-/

namespace Optics
variable {R : Rounding}
open V3

/-- C99: how far off the rounded position is.  In a scene of plane mirrors within a ball of radius `B`, which the run
cannot leave, after any number `n` of passes with `n u ≤ 1/1000`, let `ps` be the mirrors met so far and `L` the length of
the path.  The position is within `(160 n B + (300 b + 5) L) u` of the exact image of the point at the distance `L` on the
initial ray, `b` being the number of the mirrors met. -/
theorem C99_position {md B : ℝ} {optics : List (Optic (Fl R))} (hsc : MirrorScene optics B) (hB : 1 ≤ B) (hB' : B ≤ 10 ^ 50)
    (huB : R.u * B ≤ 1 / 10 ^ 10) (hmd : R.rnd md = .fin md) (hmd0 : 0 ≤ md) {P₀ D : V3 ℝ} (hD : SaneLength D)
    (hstart : ‖P₀.toE‖ + md ≤ 9 / 10 * B) {wavelength order : Fl R} {type : String} {mi : Option Int} {n : Nat}
    (hn : n * R.u ≤ 1 / 1000) {s : RunState (Fl R)}
    (h : Passes (Fl.fin md) optics mi n (RunState.init (Ray.new P₀.fl D.fl wavelength order type) (Fl.fin md)) s) :
    ∃ (ps : List MirrorPlane) (L : ℝ) (P : V3 ℝ),
      RoundedPath (Fl.fin md) optics mi (RunState.init (Ray.new P₀.fl D.fl wavelength order type) (Fl.fin md)) n ps L s ∧
      ps.length ≤ n ∧ 0 ≤ L ∧ L ≤ B ∧ s.ray.position = P.fl ∧
      ‖P.toE - imageThrough ps (P₀.toE + L • (1 / ‖D.toE‖) • D.toE)‖ ≤ (160 * n * B + (300 * ps.length + 5) * L) * R.u := by
  obtain ⟨w₀, h1, h2⟩ := unitVector_near (R := R) hD
  obtain ⟨ps, L, P, w, r, hon⟩ := onPath_passes hsc hB hB' huB hmd hmd0 hstart hn
    (ray := Ray.new P₀.fl D.fl wavelength order type) rfl h1 (nearUnit_of (dirE_norm hD.pos) h2) h2 h
  refine ⟨ps, L, P, hon.path, hon.count, hon.len, ?_, hon.pos, hon.near⟩
  have := hon.len_le
  have h3 := le_max_right r 0
  have h4 := mul_le_mul_of_nonneg_right hn (show 0 ≤ 11 * B by linarith)
  have e : n * R.u * (11 * B) = 11 * (R.u * B) * n := by ring
  rw [e] at h4
  have := _root_.norm_nonneg P₀.toE
  linarith

/-- C99: where a mirror is met.  After a pass that ends at a mirror the ray is within `70 u B` of the plane of the
mirror. -/
theorem C99_on_mirror {md B : ℝ} {optics : List (Optic (Fl R))} (hsc : MirrorScene optics B) (hB : 1 ≤ B)
    (hB' : B ≤ 10 ^ 50) (huB : R.u * B ≤ 1 / 10 ^ 10) (hmd : R.rnd md = .fin md) (hmd0 : 0 ≤ md) {P₀ D : V3 ℝ}
    (hD : SaneLength D) (hstart : ‖P₀.toE‖ + md ≤ 9 / 10 * B) {wavelength order : Fl R} {type : String} {mi : Option Int}
    {n : Nat} (hn : n * R.u ≤ 1 / 1000) {s s' : RunState (Fl R)}
    (h : Passes (Fl.fin md) optics mi n (RunState.init (Ray.new P₀.fl D.fl wavelength order type) (Fl.fin md)) s)
    (hc : s.continues mi = true) (hst : runStep (Fl.fin md) optics s = .next s')
    (hint : s'.interactions = s.interactions + 1) {sel : Selected (Fl R)} (hsel : s'.selected = some sel) {p : MirrorPlane}
    (hp : RoundedMirror sel.optic p) (hpB : ‖p.point.toE‖ ≤ B) :
    ∃ P' : V3 ℝ, s'.ray.position = P'.fl ∧
      |inner ℝ ((1 / ‖p.normal.toE‖) • p.normal.toE) (P'.toE - p.point.toE)| ≤ 70 * (R.u * B) := by
  obtain ⟨w₀, h1, h2⟩ := unitVector_near (R := R) hD
  obtain ⟨ps, L, P, w, r, hon⟩ := onPath_passes hsc hB hB' huB hmd hmd0 hstart hn
    (ray := Ray.new P₀.fl D.fl wavelength order type) rfl h1 (nearUnit_of (dirE_norm hD.pos) h2) h2 h
  exact mirror_pass_near hB hB' huB hmd0 hstart hn hon hc hst hint hsel hp hpB

/-- C99 for doubles: in a scene within 1000 units of the origin the position is off by less than `1e-7` in the first
1000 passes. -/
theorem C99_double {md : ℝ} {optics : List (Optic (Fl binary64))} (hsc : MirrorScene optics 1000)
    (hmd : rnd64 md = .fin md) (hmd0 : 0 ≤ md) {P₀ D : V3 ℝ} (hD : SaneLength D)
    (hstart : ‖P₀.toE‖ + md ≤ 900) {wavelength order : Fl binary64} {type : String} {mi : Option Int} {n : Nat}
    (hn : n ≤ 1000) {s : RunState (Fl binary64)}
    (h : Passes (Fl.fin md) optics mi n (RunState.init (Ray.new P₀.fl D.fl wavelength order type) (Fl.fin md)) s) :
    ∃ (ps : List MirrorPlane) (L : ℝ) (P : V3 ℝ),
      RoundedPath (Fl.fin md) optics mi (RunState.init (Ray.new P₀.fl D.fl wavelength order type) (Fl.fin md)) n ps L s ∧
      s.ray.position = P.fl ∧ ‖P.toE - imageThrough ps (P₀.toE + L • (1 / ‖D.toE‖) • D.toE)‖ ≤ 1 / 10 ^ 7 := by
  have hu : binary64.u = 1 / 2 ^ 53 := rfl
  have hn' : (n : ℝ) ≤ 1000 := by exact_mod_cast hn
  obtain ⟨ps, L, P, hpath, hlen, hL0, hL, hpos, herr⟩ := C99_position hsc (by norm_num) (by norm_num)
    (by rw [hu]; norm_num) hmd hmd0 hD (by linarith) (by
      rw [hu]
      calc (n : ℝ) * (1 / 2 ^ 53) ≤ 1000 * (1 / 2 ^ 53) := mul_le_mul_of_nonneg_right hn' (by positivity)
        _ ≤ 1 / 1000 := by norm_num) h
  refine ⟨ps, L, P, hpath, hpos, herr.trans ?_⟩
  have hps : (ps.length : ℝ) ≤ 1000 := by exact_mod_cast hlen.trans hn
  rw [hu]
  have h1 : (300 * (ps.length : ℝ) + 5) * L ≤ (300 * 1000 + 5) * 1000 :=
    mul_le_mul (by linarith) hL hL0 (by norm_num)
  calc (160 * (n : ℝ) * 1000 + (300 * ps.length + 5) * L) * (1 / 2 ^ 53)
      ≤ (160 * 1000 * 1000 + (300 * 1000 + 5) * 1000) * (1 / 2 ^ 53) :=
        mul_le_mul_of_nonneg_right (by linarith) (by positivity)
    _ ≤ 1 / 10 ^ 7 := by norm_num

/-- C100: a ray does not hit the plane mirror it has just left.  If the ray leaves at an angle to the plane whose sine is
at least `1.1e11 u B`, the mirror's test finds nothing in the next pass. -/
theorem C100_no_second_hit {md B : ℝ} {optics : List (Optic (Fl R))} (hsc : MirrorScene optics B) (hB : 1 ≤ B)
    (hB' : B ≤ 10 ^ 50) (huB : R.u * B ≤ 1 / 10 ^ 10) (hmd : R.rnd md = .fin md) (hmd0 : 0 ≤ md) {P₀ D : V3 ℝ}
    (hD : SaneLength D) (hstart : ‖P₀.toE‖ + md ≤ 9 / 10 * B) {wavelength order : Fl R} {type : String} {mi : Option Int}
    {n : Nat} (hn : (n + 1) * R.u ≤ 1 / 1000) {s s' : RunState (Fl R)}
    (h : Passes (Fl.fin md) optics mi n (RunState.init (Ray.new P₀.fl D.fl wavelength order type) (Fl.fin md)) s)
    (hc : s.continues mi = true) (hst : runStep (Fl.fin md) optics s = .next s')
    (hint : s'.interactions = s.interactions + 1) {sel : Selected (Fl R)} (hsel : s'.selected = some sel) {p : MirrorPlane}
    (hp : RoundedMirror sel.optic p) (hpB : ‖p.point.toE‖ ≤ B)
    (hang : ∀ w : V3 ℝ, s'.ray.direction = w.fl →
      11 * 10 ^ 10 * (R.u * B) ≤ |inner ℝ ((1 / ‖p.normal.toE‖) • p.normal.toE) w.toE|) :
    ∀ hit, sel.optic.testIntersect s'.ray = .ok hit → hit.hit = false := by
  have hu := R.u_pos
  have hn0 : (n : ℝ) * R.u ≤ 1 / 1000 := by linarith
  obtain ⟨w₀, h1, h2⟩ := unitVector_near (R := R) hD
  have hw₀ := nearUnit_of (dirE_norm hD.pos) h2
  obtain ⟨ps, L, P, w, r, hon⟩ := onPath_passes hsc hB hB' huB hmd hmd0 hstart hn0
    (ray := Ray.new P₀.fl D.fl wavelength order type) rfl h1 hw₀ h2 h
  obtain ⟨Q, hQ, hnear⟩ := mirror_pass_near hB hB' huB hmd0 hstart hn0 hon hc hst hint hsel hp hpB
  obtain ⟨ps', L', P', w', r', hon'⟩ := onPath_step hsc hB hB' huB hmd hmd0 hstart hn0 hon hc hst
  have hP' : ‖P'.toE‖ ≤ B := by
    have e0 := norm_le_norm_add_norm_sub' P'.toE P₀.toE
    have e1 := hon'.len_le
    have e2 := le_max_right r' 0
    have e3 := mul_le_mul_of_nonneg_right hn (show 0 ≤ 11 * B by linarith)
    have e : ((n : ℝ) + 1) * R.u * (11 * B) = 11 * (R.u * B) * ((n + 1 : Nat) : ℝ) := by push_cast; ring
    rw [e] at e3
    linarith [hon'.far]
  have hQP : Q.toE = P'.toE := by
    have : (Q.fl : V3 (Fl R)) = P'.fl := hQ.symm.trans hon'.pos
    have ex := congrArg (fun v => v.x.val) this
    have ey := congrArg (fun v => v.y.val) this
    have ez := congrArg (fun v => v.z.val) this
    congr 1
    ext
    · exact XR.fin.inj ex
    · exact XR.fin.inj ey
    · exact XR.fin.inj ez
  rw [hQP] at hnear
  intro hit htest
  by_contra hne
  have hhit : hit.hit = true := by simpa using hne
  cases hq : sel.optic with
  | mirror m =>
    rw [hq] at hp htest
    cases hp with
    | mk hN hs hm =>
      obtain ⟨pt, nn, hnn, -⟩ := flat_mirror_plane hs hm htest hhit
      exact leaving_misses hN hpB hP' hB hB' hon'.unit hon'.pos hon'.dir hnear (hang w' hon'.dir) hnn
  | _ => rw [hq] at hp; cases hp

/-- C100: so the next optic it meets, if any, is a different one. -/
theorem C100_next_optic {md B : ℝ} {optics : List (Optic (Fl R))} (hsc : MirrorScene optics B) (hB : 1 ≤ B)
    (hB' : B ≤ 10 ^ 50) (huB : R.u * B ≤ 1 / 10 ^ 10) (hmd : R.rnd md = .fin md) (hmd0 : 0 ≤ md) {P₀ D : V3 ℝ}
    (hD : SaneLength D) (hstart : ‖P₀.toE‖ + md ≤ 9 / 10 * B) {wavelength order : Fl R} {type : String} {mi : Option Int}
    {n : Nat} (hn : (n + 1) * R.u ≤ 1 / 1000) {s s' s'' : RunState (Fl R)}
    (h : Passes (Fl.fin md) optics mi n (RunState.init (Ray.new P₀.fl D.fl wavelength order type) (Fl.fin md)) s)
    (hc : s.continues mi = true) (hst : runStep (Fl.fin md) optics s = .next s')
    (hint : s'.interactions = s.interactions + 1) {sel sel' : Selected (Fl R)} (hsel : s'.selected = some sel)
    {p : MirrorPlane} (hp : RoundedMirror sel.optic p) (hpB : ‖p.point.toE‖ ≤ B)
    (hang : ∀ w : V3 ℝ, s'.ray.direction = w.fl →
      11 * 10 ^ 10 * (R.u * B) ≤ |inner ℝ ((1 / ‖p.normal.toE‖) • p.normal.toE) w.toE|)
    (hc' : s'.continues mi = true) (hst' : runStep (Fl.fin md) optics s' = .next s'')
    (hint' : s''.interactions = s'.interactions + 1) (hsel' : s''.selected = some sel') : sel'.optic ≠ sel.optic := by
  intro heq
  have hmiss := C100_no_second_hit hsc hB hB' huB hmd hmd0 hD hstart hn h hc hst hint hsel hp hpB hang
  obtain ⟨w₀, h1, h2⟩ := unitVector_near (R := R) hD
  have hn' : ((n + 1 : Nat) : ℝ) * R.u ≤ 1 / 1000 := by push_cast; exact hn
  obtain ⟨ps, L, P, w, r, hon⟩ := onPath_passes hsc hB hB' huB hmd hmd0 hstart hn'
    (ray := Ray.new P₀.fl D.fl wavelength order type) rfl h1 (nearUnit_of (dirE_norm hD.pos) h2) h2 (.succ h hc hst)
  obtain ⟨v, hv, hs'⟩ := runStep_next hst'
  have key : v.intersected = true → v.selected = some sel' → False := by
    intro hi hse
    obtain ⟨sel₂, q, e1, -, -, htest, hhit, -⟩ := scan_tested (fun d h1 h2 =>
      (budget_hit (R := R) (r := r) (by rw [hon.rem] at h1; exact h1) h2).1) hv hi
    rw [hse] at e1; cases e1
    rw [heq] at htest
    rw [hmiss q htest] at hhit
    cases hhit
  rcases hs' with ⟨_, e⟩ | ⟨sel₂, hi, hse, ht, e⟩ | ⟨sel₂, sfo, ray', hits, hi, hse, _, ht, ha, e⟩
  · rw [e] at hint'; exact absurd hint' (Nat.succ_ne_self _).symm
  · exact key hi (by rw [e] at hsel'; exact hsel')
  · exact key hi (by rw [e] at hsel'; exact hsel')

/-- The scene of C97 with a `max_distance` of 200 meets the hypotheses, for doubles. -/
example : MirrorScene [Optic.mirror (flatMirror 0), .mirror (flatMirror 1)] 1000 ∧ rnd64 200 = .fin 200 := by
  have hz : SaneLength ⟨0, 0, 1⟩ := by
    have : ‖(⟨0, 0, 1⟩ : V3 ℝ).toE‖ = 1 := by rw [norm_toE]; simp [V3.norm, dot]
    unfold SaneLength
    rw [this]; constructor <;> norm_num
  refine ⟨?_, by simpa using rnd64_int (k := 200) (by norm_num)⟩
  intro o ho
  simp only [List.mem_cons, List.not_mem_nil, or_false] at ho
  rcases ho with rfl | rfl
  · refine .inr ⟨⟨⟨0, 0, 0⟩, ⟨0, 0, 1⟩⟩, .mk hz (.inl rfl) (flatMirror_new 0), ?_⟩
    rw [norm_toE]; simp [V3.norm, dot]
  · refine .inr ⟨⟨⟨0, 0, 1⟩, ⟨0, 0, 1⟩⟩, .mk hz (.inl rfl) (flatMirror_new 1), ?_⟩
    rw [norm_toE]; simp [V3.norm, dot]

/-- With this `max_distance` a ray along the axis makes 199 passes each of which ends at a mirror, so C99 and C100 speak
about 199 bounces. -/
example (wavelength order : Fl binary64) (n : Nat) (hn : n ≤ 198) :
    ∃ s s' sel p, Passes (Fl.fin 200) [.mirror (flatMirror 0), .mirror (flatMirror 1)] none n
      (RunState.init (Ray.new (V3.fl ⟨0, 0, 0⟩) (V3.fl ⟨0, 0, 1⟩) wavelength order "normal") (Fl.fin 200)) s ∧
      s.continues none = true ∧ runStep (Fl.fin 200) [.mirror (flatMirror 0), .mirror (flatMirror 1)] s = .next s' ∧
      s'.interactions = s.interactions + 1 ∧ s'.selected = some sel ∧ RoundedMirror sel.optic p := by
  have hz : SaneLength ⟨0, 0, 1⟩ := by
    have : ‖(⟨0, 0, 1⟩ : V3 ℝ).toE‖ = 1 := by rw [norm_toE]; simp [V3.norm, dot]
    unfold SaneLength
    rw [this]; constructor <;> norm_num
  have hrem : ∀ k : Nat, k ≤ 198 → (Fl.fin (200 - k) : Fl binary64) - Fl.fin 1 = Fl.fin (200 - (k + 1 : Nat)) := by
    intro k hk
    rw [fl_sub]
    show (⟨rnd64 _⟩ : Fl binary64) = _
    have e : (200 - (k : ℝ) - 1) = ((199 - k : ℤ) : ℝ) := by push_cast; ring
    rw [e, rnd64_int (by rw [abs_of_nonneg (by omega)]; omega), fl_mk]
    congr 1
    push_cast; ring
  have hcont : ∀ (k : Nat) (s : RunState (Fl binary64)), k ≤ 198 → Bouncing (200 - k) s → s.continues none = true := by
    rintro k s hk ⟨p, d, -, -, -, hb, -, hr⟩
    have : (Fl.fin (200 - k) : Fl binary64) > 0.0 := by
      rw [fl_lit0]
      show (0 : ℝ) < 200 - k
      have : (k : ℝ) ≤ 198 := by exact_mod_cast hk
      linarith
    simp [RunState.continues, hr, hb, this]
  have hone : ∀ k : Nat, k ≤ 198 → (1 : ℝ) ≤ 200 - k := by
    intro k hk
    have : (k : ℝ) ≤ 198 := by exact_mod_cast hk
    linarith
  have key : ∃ s, Passes (Fl.fin 200) [.mirror (flatMirror 0), .mirror (flatMirror 1)] none n
      (RunState.init (Ray.new (dvec 0 0 0) (dvec 0 0 1) wavelength order "normal") (Fl.fin 200)) s ∧
      Bouncing (200 - n) s := by
    induction n with
    | zero => exact ⟨_, .zero _, 0, 1, .inl ⟨rfl, rfl⟩, rfl, d_unit (.inl rfl), rfl, rfl, by simp [RunState.init]⟩
    | succ n ih =>
      obtain ⟨s, h, hb⟩ := ih (by omega)
      obtain ⟨s', hs', hb', -⟩ := bouncing_step (hone n (by omega)) (hrem n (by omega)) hb
      exact ⟨s', .succ h (hcont n s (by omega) hb) hs', hb'⟩
  obtain ⟨s, h, hb⟩ := key
  obtain ⟨s', hs', -, hi, sel, c, hsel, hc, h01⟩ := bouncing_step (md := Fl.fin 200) (hone n hn) (hrem n hn) hb
  refine ⟨s, s', sel, ⟨⟨0, 0, c⟩, ⟨0, 0, 1⟩⟩, h, hcont n s hn hb, hs', hi, hsel, ?_⟩
  rw [hc]
  exact .mk hz (.inl rfl) (flatMirror_new c)

end Optics
