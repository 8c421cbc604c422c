import Verif.Lemmas.CylinderGone
import Verif.Lemmas.CylinderScript
import Verif.Model.Scripts
/-!
The passes of `Ray.run` with one infinite cylinder. Used by `Props/RoundedCylinderRuns.lean`.
-/

namespace Optics
open V3

section generic

variable {α : Type} [PyNum α]

/-- A compound of one cylinder reports what the cylinder reports. -/
theorem lone_cylinder (c : InfiniteCylinder α) (b : String) (n : α) (ray : Ray α) {r : Hit6 α} (h : c.testIntersect ray = .ok r) :
    (⟨Tree.new (.shape (.infiniteCylinder c)), b, n⟩ : Compound α).testIntersect ray = .ok ⟨r.hit, r.pt1, r.n1, .bool (decide (r.count % 2 = 0))⟩ := by
  simp only [Compound.testIntersect, Tree.new, testTreeIntersect, Key.testIntersect, Shape.testIntersect, bind, Except.bind, h, pure, Except.pure]

/-- The scan over one compound that is hit. -/
theorem compound_scan_hit {m : Compound α} {s : RunState α} {p n : V3 α} {b : Bool}
    (hm : m.testIntersect s.ray = .ok ⟨true, some p, some n, .bool b⟩)
    (h1 : ¬ distanceBetween s.ray.position p > s.remaining) (h2 : distanceBetween s.ray.position p > clippingFloor)
    (h3 : PyNum.ltInf (distanceBetween s.ray.position p) = true) :
    [Optic.compound m].foldlM (scanStep s.ray s.remaining) ⟨false, none, s.selected, s.sfo⟩ =
      .ok ⟨true, some (distanceBetween s.ray.position p), some ⟨.compound m, p, some n⟩, some (.bool b)⟩ := by
  rw [List.foldlM_cons]
  unfold scanStep
  simp only [Optic.skipped, Bool.false_eq_true, if_false, Optic.testIntersect, hm, bind, Except.bind, pure, Except.pure, if_true,
    need, h1, h2, ltMin, h3]
  rfl

/-- A pass of the loop with one reflecting compound that is hit. -/
theorem compound_hit {m : Compound α} (ht : m.surfaceBehavior = "reflect") {md : α} {s : RunState α} {p n : V3 α} {b : Bool}
    (hm : m.testIntersect s.ray = .ok ⟨true, some p, some n, .bool b⟩) (htype : s.ray.type ≠ "faerie_fire")
    (h1 : ¬ distanceBetween s.ray.position p > s.remaining) (h2 : distanceBetween s.ray.position p > clippingFloor)
    (h3 : PyNum.ltInf (distanceBetween s.ray.position p) = true) :
    runStep md [.compound m] s = .next
      { s with
        ray := { s.ray with
          position := s.ray.position + distanceBetween s.ray.position p * s.ray.direction
          pointHistory := s.ray.pointHistory ++ [s.ray.position + distanceBetween s.ray.position p * s.ray.direction]
          direction := specular s.ray.direction n }
        remaining := s.remaining - distanceBetween s.ray.position p
        interactions := s.interactions + 1
        selected := some ⟨.compound m, p, some n⟩
        sfo := some (.bool b)
        log := s.log ++ [] } := by
  unfold runStep
  rw [compound_scan_hit hm h1 h2 h3]
  simp only [Bool.not_true, Bool.false_eq_true, if_false, Ray.fly, htype, Optic.doIntersect, Compound.doIntersect, ht, if_true,
    Ray.reflect, need, bind, Except.bind, pure, Except.pure]

/-- The same for a faerie-fire ray, which stops there. -/
theorem compound_hit_faerie {m : Compound α} {md : α} {s : RunState α} {p n : V3 α} {b : Bool}
    (hm : m.testIntersect s.ray = .ok ⟨true, some p, some n, .bool b⟩) (htype : s.ray.type = "faerie_fire")
    (h1 : ¬ distanceBetween s.ray.position p > s.remaining) (h2 : distanceBetween s.ray.position p > clippingFloor)
    (h3 : PyNum.ltInf (distanceBetween s.ray.position p) = true) :
    runStep md [.compound m] s = .next
      { s with
        ray := { s.ray with
          position := s.ray.position + distanceBetween s.ray.position p * s.ray.direction
          pointHistory := s.ray.pointHistory ++ [s.ray.position + distanceBetween s.ray.position p * s.ray.direction]
          blocked := true }
        remaining := s.remaining - distanceBetween s.ray.position p
        interactions := s.interactions + 1
        selected := some ⟨.compound m, p, some n⟩
        sfo := some (.bool b) } := by
  unfold runStep
  rw [compound_scan_hit hm h1 h2 h3]
  simp only [Bool.not_true, Bool.false_eq_true, if_false, Ray.fly, htype, if_true]

/-- A pass of the loop with one compound that is missed. -/
theorem compound_miss {m : Compound α} {md : α} {s : RunState α} {b : Bool}
    (hm : m.testIntersect s.ray = .ok ⟨false, none, none, .bool b⟩) :
    runStep md [.compound m] s = .next
      { s with
        ray := { s.ray with
          position := s.ray.position + s.remaining * s.ray.direction
          pointHistory := s.ray.pointHistory ++ [s.ray.position + s.remaining * s.ray.direction] }
        remaining := s.remaining - md
        sfo := some (.bool b) } := by
  unfold runStep
  have e : [Optic.compound m].foldlM (scanStep s.ray s.remaining) ⟨false, none, s.selected, s.sfo⟩ =
      .ok ⟨false, none, s.selected, some (.bool b)⟩ := by
    rw [List.foldlM_cons]
    unfold scanStep
    simp only [Optic.skipped, Bool.false_eq_true, if_false, Optic.testIntersect, hm, bind, Except.bind, pure, Except.pure]
    rfl
  rw [e]
  simp only [Bool.not_false, if_true, Ray.fly]

end generic

variable {R : Rounding} {C P a D : V3 ℝ} {ρ t h A L q : ℝ} {c : InfiniteCylinder (Fl R)}

/-- The result of an addition is a number that rounding does not change. -/
theorem add_rep (hR : Proper R) {x y : Fl R} {z : ℝ} (h : x + y = Fl.fin z) : R.rnd z = .fin z := by
  have h1 : R.apply (x.val + y.val) = .fin z := congrArg Fl.val h
  cases hv : x.val + y.val with
  | fin v => rw [hv] at h1; exact hR.again v z h1
  | _ => rw [hv] at h1; cases h1

/-- The whole story of the first reflection: what the first test reports, where the ray lands, how it is deflected, and that the second
test finds nothing. -/
theorem cylinder_story (hR : Proper R) (ha : SaneLength a) (hD : SaneLength D) (hP : Rep R P) (hC : Rep R (-C))
    (hc : InfiniteCylinder.new (C.fl : V3 (Fl R)) a.fl (some (Fl.fin ρ)) none = .ok c)
    (hq : q = 1 + inner ℝ a.dirE (⟨0, 0, 1⟩ : V3 ℝ).toE) (H : CylinderAhead R C P D.dirE a.dirE ρ t h A L q)
    (wavelength order : Fl R) (type : String) :
    ∃ (d P₀ n P' w : V3 ℝ) (x : ℝ) (P₁ n₁ : V3 (Fl R)), unitVector (D.fl : V3 (Fl R)) = d.fl ∧
      c.testIntersect (Ray.new P.fl D.fl wavelength order type) = .ok (Hit6.two P₀.fl P₁ n.fl n₁ 2) ∧
      distanceBetween (P.fl : V3 (Fl R)) P₀.fl = Fl.fin x ∧ 1 / 1000 ≤ x ∧ x ≤ 1001 / 1000 * L ∧
      (P.fl : V3 (Fl R)) + (Fl.fin x : Fl R) * (d.fl : V3 (Fl R)) = P'.fl ∧
      ‖P'.toE - (P.toE + t • D.dirE)‖ ≤ 8200 * (R.u * L ^ 2 / (q * A * h)) ∧
      specular (d.fl : V3 (Fl R)) n.fl = w.fl ∧ NearUnit R w ∧
      (∃ r, Reflected (across a.dirE (P.toE + t • D.dirE - C.toE)) D.dirE r ∧
        ‖w.toE - r‖ ≤ 305 * R.u + 84000 * (R.u * L ^ 2 / (q * A * h)) / ρ) ∧
      ∀ ray : Ray (Fl R), ray.position = P'.fl → ray.direction = w.fl → c.testIntersect ray = .ok (Hit6.miss 0) := by
  obtain ⟨ω, hω⟩ : ∃ ω, ω = 1000 * R.u / q := ⟨_, rfl⟩
  obtain ⟨E, hE⟩ : ∃ E, E = ω * L ^ 2 / (A * h) := ⟨_, rfl⟩
  obtain ⟨N, hN⟩ : ∃ N, N = 1001 / 1000 * (L / ρ) := ⟨_, rfl⟩
  obtain ⟨-, -, A0, A1, -, ρL, hρ', -, -, -⟩ := H.exact
  obtain ⟨uω, s1, s2, ω1, ω0, uq, uA⟩ := H.scale hω
  obtain ⟨Et, Eh, uE, E0, -, uL, EL⟩ := H.units hω hE
  have hu := R.u_pos
  have L1 := H.one
  have hh := H.steep
  have ht := H.ahead
  have tL := H.reach
  have hρ : 0 < ρ := by linarith
  have hq0 := H.qpos
  obtain ⟨a', σ, M, W, η, a'', hca, ea', F, G⟩ := cylinder_frame hR ha hC hc H.thick (ρL.trans H.range) hq uq H.qtop
  rw [← hω] at G
  obtain ⟨d, hd, ed⟩ := unitVector_near (R := R) hD
  have hdu : NearUnit R d := nearUnit_of H.unit ed
  obtain ⟨x₀, x₁, hit, ex, -, -, res⟩ := F.first hR H hω hN G ed hP (ray := Ray.new P.fl D.fl wavelength order type) rfl hd
  rw [← hE] at ex
  have ex' := abs_le.mp ex
  obtain ⟨P₀, hP₀, eP₀, x, hx, dx⟩ := H.walk hω hE ed ex
  have dx' := abs_le.mp dx
  obtain ⟨p, n, hn, sp, en, ep⟩ := H.normal hω hE F.center hca ea' eP₀
  have hpos : (Ray.new (P.fl : V3 (Fl R)) D.fl wavelength order type).position + (Fl.fin x₀ : Fl R) *
      (Ray.new (P.fl : V3 (Fl R)) D.fl wavelength order type).direction = P₀.fl := by
    rw [← hP₀, ← hd]; rfl
  rw [hpos, hn] at hit
  norm_num at uL
  have xlo : 1 / 1000 ≤ x := by linarith
  have xhi : x ≤ 1001 / 1000 * L := by linarith
  obtain ⟨P', hP', eP'⟩ := fly_near (R := R) (P := P) (w := d) (s := x) H.size L1 (H.range.trans (by norm_num)) hdu (by linarith) (by
    have := H.range
    have : 1001 / 1000 * (10 : ℝ) ^ 30 ≤ 10 ^ 100 := by norm_num
    linarith)
  obtain ⟨-, -, -, -, -, -, Alo⟩ := H.approach hω hN G (F.sigma hR).1 ed
  obtain ⟨nX, nV, res'⟩ := H.landing hω hE hN G (F.sigma hR).1 ed ex dx Alo res eP'
  obtain ⟨w, hw, hwu, ew⟩ := specular_near (R := R) (d := d) (n := n) (N := p) hdu sp en
  have hon := H.on
  have neg : across a.dirE (C.toE - (P.toE + t • D.dirE)) = -across a.dirE (P.toE + t • D.dirE - C.toE) := by
    rw [show C.toE - (P.toE + t • D.dirE) = (-1 : ℝ) • (P.toE + t • D.dirE - C.toE) by rw [neg_one_smul]; abel, across_smul, neg_one_smul]
  rw [neg] at ep
  obtain ⟨r, hr, er⟩ := reflect_accurate (R := R) H.unit hρ hon ep (by
    rw [div_le_iff₀ hρ]; linarith) sp.pos ed ew
  have er' : ‖w.toE - r‖ ≤ 305 * R.u + 84 * E / ρ := er.trans_eq (by ring)
  have out := H.outward hω hE G nX nV hwu hr er'
  have rep : Rep R P' := ⟨add_rep hR (congrArg V3.x hP'), add_rep hR (congrArg V3.y hP'), add_rep hR (congrArg V3.z hP')⟩
  have E1 : E = 1000 * (R.u * L ^ 2 / (q * A * h)) := by rw [hE, hω]; field_simp
  refine ⟨d, P₀, n, P', w, x, _, _, hd, hit, hx, xlo, xhi, hP', ?_, hw, hwu, ⟨r, hr, ?_⟩, ?_⟩
  · rw [E1] at nX; linarith
  · rw [E1] at er'; exact er'.trans_eq (by ring)
  · intro ray h1 h2
    exact F.leaves hR H hω hN G rep nV hwu res' out h1 h2

/-- The heights at which the rays of script_testCylinder.py start. -/
theorem script_heights {z : D64} (hz : z ∈ linspace (-2.0 : D64) 2.0 21) : ∃ x : ℝ, z = Fl.fin x ∧ |x| ≤ 2 ∧ binary64.rnd x = .fin x := by
  have hp := binary64_proper
  have hu : binary64.u = 1 / 2 ^ 53 := rfl
  have i2 : ∀ n : ℤ, |n| ≤ 2 ^ 52 → binary64.rnd n = .fin n := fun n hn => rnd64_int hn
  have r2 : binary64.rnd (-2) = .fin (-2) := by have := i2 (-2) (by norm_num); simpa using this
  have r20 : binary64.rnd 20 = .fin 20 := by have := i2 20 (by norm_num); simpa using this
  have nat : ∀ n : ℕ, n ≤ 20 → (ofNat n : D64) = Fl.fin n := by
    intro n hn
    have h1 := i2 n (by rw [abs_of_nonneg (by positivity)]; have : (n : ℤ) ≤ 20 := by exact_mod_cast hn
                        linarith)
    unfold ofNat
    have h2 : (OfScientific.ofScientific n false 0 : ℝ) = (n : ℝ) := by
      simp [OfScientific.ofScientific, Rat.ofScientific]
      exact Rat.cast_natCast n
    have h3 : ((n : ℤ) : ℝ) = (n : ℝ) := Int.cast_natCast n
    rw [fl_lit, h2]
    rw [h3] at h1
    rw [h1]; rfl
  obtain ⟨i, hi, rfl⟩ := List.mem_map.mp hz
  have hi' : i < 21 := List.mem_range.mp hi
  by_cases h : i + 1 = 21
  · rw [if_pos h, hp.lit2]
    exact ⟨2, rfl, by norm_num, hp.two⟩
  · rw [if_neg h, hp.lit2, fl_neg, nat i (by omega), show (21 : ℕ) - 1 = 20 from rfl, nat 20 le_rfl]
    have e4 : (Fl.fin 2 : D64) - Fl.fin (-2) = Fl.fin 4 := by
      rw [fl_sub, show (2 : ℝ) - -2 = 4 by norm_num, hp.four]; rfl
    rw [e4, show ((20 : ℕ) : ℝ) = 20 by norm_num, fl_div _ _ (by norm_num)]
    obtain ⟨s, hs, es⟩ := rnd_near (R := binary64) (x := 4 / 20) (e := 4 / 20) (by rw [abs_of_pos (by norm_num)]) (by norm_num)
    rw [hs, fl_mul]
    have i19 : (i : ℝ) ≤ 19 := by exact_mod_cast (by omega : i ≤ 19)
    have i0 : (0 : ℝ) ≤ i := by positivity
    rw [hu] at es
    have es' := abs_le.mp es
    have s1 : s ≤ 4 / 19 := by norm_num at es' ⊢; linarith
    have s0 : 0 ≤ s := by norm_num at es' ⊢; linarith
    have p0 : 0 ≤ (i : ℝ) * s := by positivity
    have p4 : (i : ℝ) * s ≤ 4 := by
      have := mul_le_mul i19 s1 s0 (by norm_num)
      linarith
    obtain ⟨y, hy, -⟩ := rnd_near (R := binary64) (x := (i : ℝ) * s) (e := 4) (by rw [abs_of_nonneg p0]; exact p4) (by norm_num)
    have y0 : 0 ≤ y := rnd_nonneg (R := binary64) p0 (congrArg Fl.val hy)
    have y4 : y ≤ 4 := by
      have := binary64.mono _ _ p4
      rw [hp.four, show binary64.rnd ((i : ℝ) * s) = .fin y from congrArg Fl.val hy] at this
      exact this
    rw [hy, fl_add]
    obtain ⟨x, hx, -⟩ := rnd_near (R := binary64) (x := y + -2) (e := 2) (by rw [abs_le]; constructor <;> linarith) (by norm_num)
    have hx' : binary64.rnd (y + -2) = .fin x := congrArg Fl.val hx
    refine ⟨x, hx, ?_, hp.again _ _ hx'⟩
    rw [abs_le]
    constructor
    · have := binary64.mono (-2) (y + -2) (by linarith)
      rw [r2, hx'] at this
      exact this
    · have := binary64.mono (y + -2) 2 (by linarith)
      rw [hp.two, hx'] at this
      exact this

end Optics
