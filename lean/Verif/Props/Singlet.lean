import Verif.Lemmas.SingletScript
import Verif.Model.Scripts
import Verif.Props.Bundles

/-!
# C91: a singlet lens

script_testSingletLens.py and script_testBestformLens.py make a lens as a `Compound`: the intersection of two spheres, refracting.
-/

namespace Optics
open V3

/-- C91: a ray through a lens that is the intersection of two spheres (in either order).  If the ray comes to the one sphere from
outside, at a point inside the other and where the glass is thicker than `1e-8`, and Snell's law takes it on to a point of the other
sphere that is inside the first, and out of it there, then `run` refracts it at exactly these two points and lets it fly on. -/
theorem C91_through (P Q : Sphere ℝ) (hP : 0 < P.R) (hQ : 0 < Q.R) (e : Csg (Prim ℝ)) (he : IsSinglet P Q e) (index : ℝ) (hi : 0 < index)
    (ray : Ray ℝ) (hd : ‖ray.direction.toE‖ = 1) (hf : ray.type ≠ "faerie_fire") (hbl : ray.blocked = false)
    (t₁ : ℝ) (ht₁ : 1e-12 < t₁) (x₁ : V3 ℝ) (hx₁ : x₁ = lineAt ray.position ray.direction t₁)
    (on₁ : dist x₁.toE P.center.toE = P.R) (in₁ : dist x₁.toE Q.center.toE < Q.R)
    (into₁ : 0 < inner ℝ ray.direction.toE (P.center - x₁).toE)
    (thick : ∀ S ∈ [P, Q], dist (lineAt x₁ ray.direction 1e-8).toE S.center.toE < S.R)
    (d₁ : V3 ℝ) (hr₁ : Refracted 1 index (P.R⁻¹ • (P.center - x₁).toE) ray.direction.toE d₁.toE)
    (t₂ : ℝ) (ht₂ : 1e-12 < t₂) (x₂ : V3 ℝ) (hx₂ : x₂ = lineAt x₁ d₁ t₂)
    (on₂ : dist x₂.toE Q.center.toE = Q.R) (in₂ : dist x₂.toE P.center.toE < P.R)
    (d₂ : V3 ℝ) (hr₂ : Refracted index 1 (Q.R⁻¹ • (Q.center - x₂).toE) d₁.toE d₂.toE)
    (out₂ : inner ℝ d₂.toE (Q.center - x₂).toE ≠ 0)
    (md : ℝ) (hmd : t₁ + t₂ < md) (fuel : Nat) (hfu : 4 ≤ fuel) :
    ∃ s : RunState XR, ray.lift.run (.fin md) [(Optic.compound ⟨e.tree, "refract", index⟩).lift] none fuel = .finished s ∧
      s.ray = { ray with position := lineAt x₂ d₂ (md - t₁ - t₂), direction := d₂,
                         pointHistory := ray.pointHistory ++ [x₁, x₂, lineAt x₂ d₂ (md - t₁ - t₂)] }.lift ∧
      s.log = [] ∧ s.interactions = 2 := by
  have hdE := hd
  rw [norm_toE, norm_eq_one_iff] at hd
  have hu₁ : dot d₁ d₁ = 1 := by have := hr₁.unit; rwa [norm_toE, norm_eq_one_iff] at this
  have hu₂ : dot d₂ d₂ = 1 := by have := hr₂.unit; rwa [norm_toE, norm_eq_one_iff] at this
  have h12 : (0 : ℝ) < 1e-12 := by norm_num
  have h8 : (0 : ℝ) < 1e-8 := by norm_num
  have l0 : ∀ x d : V3 ℝ, lineAt x d 0 = x := by intro x d; ext <;> simp [lineAt]
  have hon₁ : OnSphere P.center P.R x₁ := by rw [OnSphere, abs_of_pos hP]; exact on₁
  have hon₂ : OnSphere Q.center Q.R x₂ := by rw [OnSphere, abs_of_pos hQ]; exact on₂
  have hw := singlet_wellFormed he hP hQ
  -- the normals
  have hnorm : ∀ (S : Sphere ℝ) (x : V3 ℝ), 0 < S.R → OnSphere S.center S.R x →
      dot (S.normal x) (S.normal x) = 1 ∧ S.center - x = S.R * S.normal x ∧ (S.normal x).toE = S.R⁻¹ • (S.center - x).toE := by
    intro S x hS hx
    obtain ⟨a, b⟩ := sphere_normal_spec S hS.ne' x hx
    rw [abs_of_pos hS] at b
    refine ⟨by rwa [norm_toE, norm_eq_one_iff] at a, b, ?_⟩
    rw [b, toE_smul, smul_smul, inv_mul_cancel₀ hS.ne', one_smul]
  obtain ⟨n1, n1c, n1E⟩ := hnorm P x₁ hP hon₁
  obtain ⟨n2, n2c, n2E⟩ := hnorm Q x₂ hQ hon₂
  rw [← n1E] at hr₁
  rw [← n2E] at hr₂
  rw [inner_toE, n1c, dot_smul_right] at into₁
  have into₁ := (mul_pos_iff_of_pos_left hP).mp into₁
  -- the chords of the incoming ray
  have cp : Chord P.center P.R x₁ ray.direction 0 (2 * dot ray.direction (P.center - x₁)) :=
    chord_inward hP hd hon₁ (by rw [n1c, dot_smul_right]; exact mul_pos hP into₁)
  obtain ⟨q0, q1, cq⟩ := chord_of_in (t := 0) hQ hd (show InBall Q.center Q.R (lineAt x₁ ray.direction 0) by rw [l0]; exact in₁)
  have hq := (cq.inside 0).mp (by rw [l0]; exact in₁)
  have back : ray.position = lineAt x₁ ray.direction (-t₁) := by
    rw [hx₁]; unfold lineAt
    ext <;> simp only [add_x, add_y, add_z, smul_x, smul_y, smul_z] <;> ring
  have cp' := cp.shift (-t₁)
  have cq' := cq.shift (-t₁)
  rw [← back] at cp' cq'
  have hat₁ : ray.at (0 - -t₁) = x₁ := by rw [zero_sub, neg_neg]; exact hx₁.symm
  have hent := singlet_enter he hP hQ hd cp' cq' (by linarith) (by linarith [hq.1]) (by linarith [hq.2])
  rw [hat₁, show x₁ = ray.at t₁ from hx₁] at hent
  rw [← show x₁ = ray.at t₁ from hx₁] at hent
  have hthP := (cp.inside _).mp (thick P (by simp))
  have hthQ := (cq.inside _).mp (thick Q (by simp))
  have hin : ∀ u, 0 < u → u ≤ 1e-8 → lineAt x₁ ray.direction u ∈ e.den Prim.solid := by
    intro u hu hu'
    rw [singlet_den he, cp.inside, cq.inside]
    exact ⟨⟨hu, by linarith [hthP.2]⟩, by linarith [hq.1], by linarith [hthQ.2]⟩
  have hx₁' : (RunState.init ray md).ray.at t₁ = x₁ := hx₁.symm
  obtain ⟨s₁, hs₁, hrem₁, hint₁, hlog₁, hray₁, hg₁, -⟩ := compound_pass (e := e) (md := md) (s := RunState.init ray md) hi hw hd hf ht₁
    (by show t₁ ≤ md; linarith) n1 (by rw [hx₁']; exact hent)
    (by rw [hx₁']; exact fun u hu hu' => iff_of_true (hin u hu hu') (hin _ h8 le_rfl))
  rw [hx₁'] at hray₁ hg₁
  have hg₁ := hg₁ ⟨1e-8, h8, fun u hu hu' => hin u hu hu'.le⟩
  -- the chords of the ray in the glass
  have in1P := in₂
  have cP := cp
  have hx₂in : InBall P.center P.R (lineAt x₁ d₁ t₂) := by rw [← hx₂]; exact in₂
  obtain ⟨a0, a1, ca⟩ := chord_of_in hP hu₁ hx₂in
  have ha := (ca.inside t₂).mp hx₂in
  have ha0 := (ca.on 0).mp (by rw [l0]; exact hon₁)
  obtain ⟨b0, b1, cb⟩ := chord_of_in (t := 0) hQ hu₁ (show InBall Q.center Q.R (lineAt x₁ d₁ 0) by rw [l0]; exact in₁)
  have hb := (cb.inside 0).mp (by rw [l0]; exact in₁)
  have hb1 : b1 = t₂ := by
    rcases (cb.on t₂).mp (by rw [← hx₂]; exact hon₂) with h | h
    · linarith [hb.1]
    · exact h.symm
  have ha00 : a0 = 0 := by
    rcases ha0 with h | h
    · exact h.symm
    · linarith [ha.2]
  subst hb1 ha00
  have hdn₁ : dot d₁ (P.normal x₁) ≠ 0 := by
    intro h0
    have hq0 : dot d₁ (P.center - x₁) = 0 := by rw [n1c, dot_smul_right, h0, mul_zero]
    have h5 := (inBall_line (x := x₁) hP hu₁ b1).mp hx₂in
    have h6 := (onSphere_line P.center x₁ d₁ P.R 0 hu₁).mp (by rw [l0]; exact hon₁)
    rw [hq0] at h5 h6
    rw [← h6] at h5
    nlinarith [sq_nonneg b1]
  have hd₁' : s₁.ray.direction = d₁ := glass_unique one_pos hi n1 hd hr₁ into₁.ne' hdn₁ hg₁
  rw [hd₁'] at hray₁
  have hpos₁ : s₁.ray.position = x₁ := by rw [hray₁]; rfl
  have hrem₁' : s₁.remaining = md - t₁ := hrem₁
  have hty₁ : s₁.ray.type = ray.type := by rw [hray₁]; rfl
  have hat₂ : s₁.ray.at b1 = x₂ := by rw [Ray.at, hpos₁, hd₁', hx₂]
  have hlv := singlet_leave (ray := s₁.ray) he hP hQ (by rw [hd₁']; exact hu₁) (by rw [hpos₁, hd₁']; exact ca) (by rw [hpos₁, hd₁']; exact cb)
    h12.le (by linarith [hb.1]) ht₂ ha.2
  rw [hat₂] at hlv
  have cb' := cb.shift b1
  rw [← hx₂] at cb'
  have hout : ∀ u, 0 < u → lineAt x₂ d₁ u ∉ e.den Prim.solid := by
    intro u hu
    rw [singlet_den he, cb'.inside]
    rintro ⟨-, -, h⟩
    linarith
  obtain ⟨s₂, hs₂, hrem₂, hint₂, hlog₂, hray₂, -, hg₂⟩ := compound_pass (e := e) (md := md) (s := s₁) hi hw (by rw [hd₁']; exact hu₁)
    (by rw [hty₁]; exact hf) ht₂ (by rw [hrem₁']; linarith) n2 (by rw [hat₂]; exact hlv)
    (by rw [hat₂, hd₁']; exact fun u hu _ => iff_of_false (hout u hu) (hout _ h8))
  rw [hat₂] at hray₂
  rw [hat₂, hd₁'] at hg₂
  have hg₂ := hg₂ ⟨1, one_pos, fun u hu _ => hout u hu⟩
  have hmid : dot d₁ (Q.center - x₂) < 0 := by
    have h7 := (onSphere_line Q.center x₂ d₁ Q.R (b0 - b1) hu₁).mp ((cb'.on _).mpr (.inl rfl))
    have h8 := (onSphere_line Q.center x₂ d₁ Q.R 0 hu₁).mp (by rw [l0]; exact hon₂)
    rw [← h8] at h7
    have h9 : (b0 - b1) * (b0 - b1 - 2 * dot d₁ (Q.center - x₂)) = 0 := by linear_combination h7
    rcases mul_eq_zero.mp h9 with h | h
    · linarith [cb.lt]
    · linarith [cb.lt]
  have hmid' : dot d₁ (Q.normal x₂) < 0 := by
    rw [n2c, dot_smul_right] at hmid
    exact (pos_iff_neg_of_mul_neg hmid).mp hQ
  rw [inner_toE, n2c, dot_smul_right] at out₂
  have hdn₂ : dot d₂ (Q.normal x₂) ≠ 0 := right_ne_zero_of_mul out₂
  have hd₂' : s₂.ray.direction = d₂ := glass_unique hi one_pos n2 hu₁ hr₂ hmid'.ne hdn₂ hg₂
  rw [hd₂'] at hray₂
  have hfar := hr₂.farSide
  rw [inner_toE, inner_toE] at hfar
  have hdn₂' : dot d₂ (Q.normal x₂) < 0 := by
    rcases lt_or_gt_of_ne hdn₂ with h | h
    · exact h
    · nlinarith
  have hpos₂ : s₂.ray.position = x₂ := by rw [hray₂]; rfl
  have hrem₂' : s₂.remaining = md - t₁ - b1 := by rw [hrem₂, hrem₁']
  have cc : Chord Q.center Q.R x₂ d₂ (2 * dot d₂ (Q.center - x₂)) 0 :=
    chord_outward hQ hu₂ hon₂ (by rw [n2c, dot_smul_right]; exact mul_neg_of_pos_of_neg hQ hdn₂')
  obtain ⟨s₃, hs₃, hray₃, hrem₃, hint₃, hlog₃⟩ := compound_free (e := e) (index := index) (md := md) (s := s₂)
    (singlet_gone he hQ (by rw [hd₂']; exact hu₂) (by rw [hpos₂, hd₂']; exact cc) h12.le)
  have hat₃ : s₂.ray.at s₂.remaining = lineAt x₂ d₂ (md - t₁ - b1) := by rw [Ray.at, hpos₂, hd₂', hrem₂']
  rw [hat₃] at hray₃
  obtain ⟨g, rfl⟩ : ∃ g, fuel = g + 1 + 1 + 1 + 1 := ⟨fuel - 4, by omega⟩
  have hb₁ : s₁.ray.blocked = false := by rw [hray₁]; exact hbl
  have hb₂ : s₂.ray.blocked = false := by rw [hray₂]; exact hb₁
  have hrun : ray.run md [.compound ⟨e.tree, "refract", index⟩] none (g + 1 + 1 + 1 + 1) = .finished s₃ := by
    show runLoop md [.compound ⟨e.tree, "refract", index⟩] none (g + 1 + 1 + 1 + 1) (RunState.init ray md) = _
    rw [runLoop_next _ (real_continues (show 0 < md by linarith) hbl) hs₁,
      runLoop_next _ (real_continues (by rw [hrem₁']; linarith) hb₁) hs₂,
      runLoop_next _ (real_continues (by rw [hrem₂']; linarith) hb₂) hs₃,
      runLoop_stop _ (real_stops (by rw [hrem₃, hrem₂']; linarith))]
  have hlift := C89_without_cylinders_and_gratings (optics := [.compound ⟨e.tree, "refract", index⟩])
    (by simpa using Optic.WellFormed.compound hw (.inr rfl) hi) (by
      intro o ho c' hc'
      cases List.mem_singleton.mp ho
      rcases he with rfl | rfl <;>
        simp [Optic.prims, Csg.tree, Csg.toTree, Prim.toShape, Shape.prims, Tree.prims, Key.prims] at hc') (by intro g hg; cases List.mem_singleton.mp hg)
    ray hdE md none (g + 1 + 1 + 1 + 1)
  rw [hrun] at hlift
  refine ⟨s₃.lift, hlift, ?_, ?_, ?_⟩
  · show s₃.ray.lift = _
    rw [hray₃, hray₂, hray₁]
    simp [Ray.movedTo, Ray.lift, RunState.init]
  · show s₃.log.map _ = []
    rw [hlog₃, hlog₂, hlog₁]; rfl
  · show s₃.interactions = 2
    rw [hint₃, hint₂, hint₁]; rfl

/-- The distance from the back vertex of a lens to its focus: the lensmaker's equation for a lens of thickness `T`, with the front
radius `R` and the back radius `S`. -/
noncomputable def backFocus (n R S T : ℝ) : ℝ := S * (n * R - (n - 1) * T) / ((n - 1) * (n * (R + S) - (n - 1) * T))

/-- C91: with the focal length `f` of the lensmaker's equation this is `f (1 - (n - 1) T / (n R))`. -/
theorem C91_focal_length (n R S T f : ℝ) (hn : 1 < n) (hR : 0 < R) (hS : 0 < S)
    (hf : 1 / f = (n - 1) * (1 / R + 1 / S - (n - 1) * T / (n * R * S))) (hf0 : f ≠ 0) :
    backFocus n R S T = f * (1 - (n - 1) * T / (n * R)) := by
  have hn0 : 0 < n := by linarith
  have h1 : n - 1 ≠ 0 := by linarith
  have h2 : n * R * S = f * ((n - 1) * (n * (R + S) - (n - 1) * T)) := by
    field_simp at hf
    linear_combination hf
  have h3 : n * (R + S) - (n - 1) * T ≠ 0 := by
    intro h
    rw [h, mul_zero, mul_zero] at h2
    exact absurd h2 (by positivity)
  unfold backFocus
  rw [div_eq_iff (mul_ne_zero h1 h3)]
  field_simp
  linear_combination (n * R - (n - 1) * T) * h2

/-- C91: a ray parallel to the axis of a biconvex lens, at the distance `h`, traced exactly.  As long as it gets from the front sphere to the
back sphere and out (`SgThrough`), it crosses the axis `sgF` behind the back vertex. -/
theorem C91_trace (V a : V3 ℝ) (ha : ‖a.toE‖ = 1) (n R S T : ℝ) (hn : 1 < n) (hR : 0 < R) (hS : 0 < S)
    (P Q : Sphere ℝ) (hP : P.R = R) (hQ : Q.R = S) (hPc : P.center = V + R * a) (hQc : Q.center = V + (T - S) * a)
    (e : Csg (Prim ℝ)) (he : IsSinglet P Q e) (y md : ℝ) (hy : 1e-12 < y)
    (ray : Ray ℝ) (b : V3 ℝ) (fuel : Nat) (hdir : ray.direction = a) (hpos : ray.position = V + (-y) * a + b)
    (hba : inner ℝ b.toE a.toE = 0) (hs : SgThrough n R S T ‖b.toE‖) (hmd : y + R - sgC R ‖b.toE‖ + sgL n R S T ‖b.toE‖ < md)
    (hf : ray.type ≠ "faerie_fire") (hbl : ray.blocked = false) (hfu : 4 ≤ fuel) :
    ∃ (s : RunState XR) (x₁ x₂ d₂ : V3 ℝ) (L u : ℝ),
      ray.lift.run (.fin md) [(Optic.compound ⟨e.tree, "refract", n⟩).lift] none fuel = .finished s ∧ s.interactions = 2 ∧ s.log = [] ∧
      s.ray = { ray with position := lineAt x₂ d₂ L, direction := d₂,
                         pointHistory := ray.pointHistory ++ [x₁, x₂, lineAt x₂ d₂ L] }.lift ∧
      dist x₁.toE P.center.toE = R ∧ dist x₂.toE Q.center.toE = S ∧
      lineAt x₂ d₂ u = V + (T + sgF n R S T ‖b.toE‖) * a ∧ u = sgX n R S T ‖b.toE‖ / sgB n R S T ‖b.toE‖ ∧
      L = md - (y + R - sgC R ‖b.toE‖) - sgL n R S T ‖b.toE‖ := by
  rw [norm_toE, norm_eq_one_iff] at ha
  have hn0 : 0 < n := by linarith
  have hA : dot b b = ‖b.toE‖ ^ 2 := by rw [norm_toE, norm_sq]
  rw [inner_toE] at hba
  have hab : dot a b = 0 := by rw [dot_comm]; exact hba
  obtain ⟨w1, w2, w3, w4, w5, w6, w7, w8, w10⟩ := hs
  generalize ‖b.toE‖ = h at *
  have hC : sgC R h ^ 2 = R ^ 2 - h ^ 2 := Real.sq_sqrt (by linarith)
  have hC0 : 0 < sgC R h := Real.sqrt_pos.mpr (by linarith)
  have hnR : 1 < n ^ 2 := one_lt_pow₀ hn two_ne_zero
  have hG1 : 0 < 1 - (h / (n * R)) ^ 2 := by
    rw [div_pow, sub_pos, div_lt_one (by positivity), mul_pow]
    nlinarith [pow_pos hR 2]
  have hS1 := Real.sq_sqrt hG1.le
  have hS10 := Real.sqrt_pos.mpr hG1
  have hrD := Real.sq_sqrt w5.le
  have hrD0 := Real.sqrt_pos.mpr w5
  have hrW := Real.sq_sqrt w8.le
  have hrW0 := Real.sqrt_pos.mpr w8
  have dG : sgG n R h = Real.sqrt (1 - (h / (n * R)) ^ 2) - sgC R h / (n * R) := rfl
  have dU : sgU n R h = 1 / n + sgG n R h * sgC R h / R := rfl
  have dV : sgV n R h = sgG n R h / R := rfl
  have dE : sgE R S T h = T - S - R + sgC R h := rfl
  have dM : sgM n R S T h = sgU n R h * sgE R S T h + h ^ 2 * sgV n R h := rfl
  have dD : sgD n R S T h = sgM n R S T h ^ 2 - (sgE R S T h ^ 2 + h ^ 2 - S ^ 2) := rfl
  have dL : sgL n R S T h = sgM n R S T h + Real.sqrt (sgD n R S T h) := rfl
  have dW : sgW n R S T h = 1 - n ^ 2 * (1 - sgD n R S T h / S ^ 2) := rfl
  have dH : sgH n R S T h = -Real.sqrt (sgW n R S T h) + n * Real.sqrt (sgD n R S T h) / S := rfl
  have dX : sgX n R S T h = 1 - sgL n R S T h * sgV n R h := rfl
  have dA : sgA n R S T h = n * sgU n R h + sgH n R S T h * (sgE R S T h - sgL n R S T h * sgU n R h) / S := rfl
  have dB : sgB n R S T h = n * sgV n R h + sgH n R S T h * sgX n R S T h / S := rfl
  have dF : sgF n R S T h = R - sgC R h + sgL n R S T h * sgU n R h - T + sgX n R S T h / sgB n R S T h * sgA n R S T h := rfl
  generalize Real.sqrt (1 - (h / (n * R)) ^ 2) = S1 at *
  generalize sgF n R S T h = F at *
  generalize sgB n R S T h = B at *
  generalize sgA n R S T h = A at *
  generalize sgX n R S T h = X at *
  generalize sgH n R S T h = H at *
  generalize Real.sqrt (sgW n R S T h) = rW at *
  generalize sgW n R S T h = W at *
  generalize sgL n R S T h = L at *
  generalize Real.sqrt (sgD n R S T h) = rD at *
  generalize sgD n R S T h = D at *
  generalize sgM n R S T h = M at *
  generalize sgE R S T h = E at *
  generalize sgV n R h = v at *
  generalize sgU n R h = u at *
  generalize sgG n R h = G at *
  generalize sgC R h = C at *
  obtain ⟨x₁, hx₁⟩ : ∃ x₁ : V3 ℝ, x₁ = V + (R - C) * a + b := ⟨_, rfl⟩
  obtain ⟨d₁, hd₁⟩ : ∃ d₁ : V3 ℝ, d₁ = u * a + (-v) * b := ⟨_, rfl⟩
  obtain ⟨x₂, hx₂⟩ : ∃ x₂ : V3 ℝ, x₂ = V + (R - C + L * u) * a + X * b := ⟨_, rfl⟩
  obtain ⟨d₂, hd₂⟩ : ∃ d₂ : V3 ℝ, d₂ = A * a + (-B) * b := ⟨_, rfl⟩
  have cP1 : P.center - x₁ = C * a + (-1 : ℝ) * b := by
    rw [hx₁, hPc]; ext <;> simp only [add_x, add_y, add_z, sub_x, sub_y, sub_z, smul_x, smul_y, smul_z] <;> ring
  have cQ1 : Q.center - x₁ = E * a + (-1 : ℝ) * b := by
    rw [hx₁, hQc, dE]; ext <;> simp only [add_x, add_y, add_z, sub_x, sub_y, sub_z, smul_x, smul_y, smul_z] <;> ring
  have cQ2 : Q.center - x₂ = (E - L * u) * a + (-X) * b := by
    rw [hx₂, hQc, dE]; ext <;> simp only [add_x, add_y, add_z, sub_x, sub_y, sub_z, smul_x, smul_y, smul_z] <;> ring
  have dab : ∀ p q r s : ℝ, dot (p * a + q * b) (r * a + s * b) = p * r + q * s * h ^ 2 := by
    intro p q r s
    simp only [dot_add_left, dot_add_right, dot_smul_left, dot_smul_right, ha, hab, hba, hA]; ring
  have da : ∀ r s : ℝ, dot a (r * a + s * b) = r := by
    intro r s
    simp only [dot_add_right, dot_smul_right, ha, hab]; ring
  have dist_lt : ∀ (x c : V3 ℝ) (p q ρ : ℝ), 0 < ρ → c - x = p * a + q * b → p ^ 2 + q ^ 2 * h ^ 2 < ρ ^ 2 → dist x.toE c.toE < ρ := by
    intro x c p q ρ hρ hc hlt
    rw [dist_comm, dist_toE_eq, norm_eq, Real.sqrt_lt' hρ, hc, dab]
    linarith
  have dist_eq : ∀ (x c : V3 ℝ) (p q ρ : ℝ), 0 < ρ → c - x = p * a + q * b → p ^ 2 + q ^ 2 * h ^ 2 = ρ ^ 2 → dist x.toE c.toE = ρ := by
    intro x c p q ρ hρ hc hlt
    rw [dist_comm, dist_toE_eq, norm_eq, hc, dab, show p * p + q * q * h ^ 2 = ρ ^ 2 by linarith]
    exact Real.sqrt_sq hρ.le
  -- Snell's law at the front
  have k1 : P.R⁻¹ • (P.center - x₁).toE = (R⁻¹ * (C * a + (-1 : ℝ) * b)).toE := by rw [hP, cP1, toE_smul]
  obtain ⟨r1, u1, -⟩ := refracted_of_components (k := R⁻¹ * (C * a + (-1 : ℝ) * b)) (d := a) (e := d₁) (η₁ := 1) (η₂ := n) (q := S1) one_pos hn0
    (by rw [dot_smul_left, dot_smul_right, dab]; field_simp; linarith) ha
    (by rw [dot_smul_right, da, hS1]; field_simp; linear_combination -hC)
    (by rw [dot_smul_right, da]; positivity)
    (by
      rw [hd₁, dot_smul_right, da, dU, dV, dG]
      ext <;> simp only [add_x, add_y, add_z, smul_x, smul_y, smul_z] <;> field_simp <;> ring)
  -- at the back
  have hq : dot d₁ (Q.center - x₂) = -rD := by
    rw [hd₁, cQ2, dab]
    have hu1 : u * u + v * v * h ^ 2 = 1 := by rw [hd₁, dab] at u1; linarith
    rw [dX]
    linear_combination dM.symm - dL - L * hu1
  have hon2 : (E - L * u) ^ 2 + (-X) ^ 2 * h ^ 2 = S ^ 2 := by
    have hu1 : u * u + v * v * h ^ 2 = 1 := by rw [hd₁, dab] at u1; linarith
    rw [dX]
    have : E ^ 2 - 2 * L * (u * E + h ^ 2 * v) + L ^ 2 * (u * u + v * v * h ^ 2) + h ^ 2 = S ^ 2 := by
      rw [hu1, ← dM, dL]
      linear_combination hrD + dD
    linear_combination this
  have k2 : Q.R⁻¹ • (Q.center - x₂).toE = (S⁻¹ * (Q.center - x₂)).toE := by rw [hQ, toE_smul]
  obtain ⟨r2, u2, v2⟩ := refracted_of_components (k := S⁻¹ * (Q.center - x₂)) (d := d₁) (e := d₂) (η₁ := n) (η₂ := 1) (q := -rW) hn0 one_pos
    (by rw [dot_smul_left, dot_smul_right, cQ2, dab]; field_simp; linarith) u1
    (by rw [dot_smul_right, hq, neg_sq, hrW, dW]; field_simp; linear_combination (-n ^ 2) * hrD)
    (by rw [dot_smul_right, hq]; have : 0 < S⁻¹ * rD * rW := by positivity
        linarith)
    (by
      rw [dot_smul_right, hq, cQ2, hd₁, hd₂, dA, dB, dH]
      ext <;> simp only [add_x, add_y, add_z, smul_x, smul_y, smul_z] <;> field_simp <;> ring)
  have hx₂' : x₂ = lineAt x₁ d₁ L := by
    rw [hx₂, hx₁, hd₁, dX]; unfold lineAt
    ext <;> simp only [add_x, add_y, add_z, smul_x, smul_y, smul_z] <;> ring
  have hon1 := dist_eq x₁ P.center C (-1) R hR cP1 (by linarith)
  have hCR : C ≤ R := (sq_le_sq₀ hC0.le hR.le).mp (by rw [hC]; linarith [sq_nonneg h])
  have hth : ∀ S' ∈ [P, Q], dist (lineAt x₁ ray.direction 1e-8).toE S'.center.toE < S'.R := by
    have e1 : P.center - lineAt x₁ ray.direction 1e-8 = (C - 1e-8) * a + (-1 : ℝ) * b := by
      rw [hdir, V3.ext_iff] at *
      simp only [lineAt, add_x, add_y, add_z, sub_x, sub_y, sub_z, smul_x, smul_y, smul_z] at cP1 ⊢
      exact ⟨by linear_combination cP1.1, by linear_combination cP1.2.1, by linear_combination cP1.2.2⟩
    have e2 : Q.center - lineAt x₁ ray.direction 1e-8 = (E - 1e-8) * a + (-1 : ℝ) * b := by
      rw [hdir, V3.ext_iff] at *
      simp only [lineAt, add_x, add_y, add_z, sub_x, sub_y, sub_z, smul_x, smul_y, smul_z] at cQ1 ⊢
      exact ⟨by linear_combination cQ1.1, by linear_combination cQ1.2.1, by linear_combination cQ1.2.2⟩
    have f1 := dist_lt _ _ _ _ R hR e1 (by linear_combination w3)
    have f2 := dist_lt _ _ _ _ S hS e2 (by linear_combination w4)
    rw [← hP] at f1
    rw [← hQ] at f2
    intro S' hS'
    rcases List.mem_cons.mp hS' with h | h
    · rw [h]; exact f1
    · rw [List.mem_singleton.mp h]; exact f2
  have hin1 : dist x₁.toE Q.center.toE < S := dist_lt x₁ Q.center E (-1) S hS cQ1 (by linear_combination w2)
  have hin2 : dist x₂.toE P.center.toE < R := by
    refine dist_lt x₂ P.center (C - L * u) (-X) R hR ?_ (by linear_combination w7)
    rw [hx₂, hPc]
    ext <;> simp only [add_x, add_y, add_z, sub_x, sub_y, sub_z, smul_x, smul_y, smul_z] <;> ring
  have hon2' := dist_eq x₂ Q.center _ _ S hS cQ2 hon2
  obtain ⟨s, q1, q2, q3, q4⟩ := C91_through P Q (by rw [hP]; exact hR) (by rw [hQ]; exact hS) e he n hn0 ray (by rw [hdir, norm_toE, norm_eq_one_iff]; exact ha)
    hf hbl (y + R - C) (by linarith) x₁ (by
      rw [hx₁, hdir, hpos]; unfold lineAt
      ext <;> simp only [add_x, add_y, add_z, smul_x, smul_y, smul_z] <;> ring) (by rw [hP]; exact hon1)
    (by rw [hQ]; exact hin1) (by rw [hdir, inner_toE, cP1, da]; exact hC0) hth
    d₁ (by rw [k1, hdir]; exact r1) L w6 x₂ hx₂' (by rw [hQ]; exact hon2') (by rw [hP]; exact hin2)
    d₂ (by rw [k2]; exact r2)
    (by
      rw [inner_toE]
      rw [dot_smul_right] at v2
      intro h0
      rw [h0, mul_zero] at v2
      linarith) md (by linarith) fuel hfu
  refine ⟨s, x₁, x₂, d₂, _, X / B, q1, q4, q3, q2, hon1, hon2', ?_, rfl, rfl⟩
  rw [hx₂, hd₂, dF]; unfold lineAt
  ext <;> simp only [add_x, add_y, add_z, smul_x, smul_y, smul_z] <;> field_simp <;> ring

/-- C91: parallel light through a biconvex lens.  Rays parallel to the axis and close enough to it are refracted by the front sphere and
by the back sphere, and leave along a line that crosses the axis as close as wanted to the focus of the lensmaker's equation. -/
theorem C91_lensmaker (V a : V3 ℝ) (ha : ‖a.toE‖ = 1) (n R S T : ℝ) (hn : 1 < n) (hT : 1e-8 < T) (hTR : T < 2 * R) (hTS : T < 2 * S)
    (P Q : Sphere ℝ) (hP : P.R = R) (hQ : Q.R = S) (hPc : P.center = V + R * a) (hQc : Q.center = V + (T - S) * a)
    (e : Csg (Prim ℝ)) (he : IsSinglet P Q e) (y md : ℝ) (hy : 1e-12 < y) (hmd : y + T < md) (ε : ℝ) (hε : 0 < ε) :
    ∃ h₀ > 0, ∀ (ray : Ray ℝ) (b : V3 ℝ) (fuel : Nat), ray.direction = a → ray.position = V + (-y) * a + b →
      inner ℝ b.toE a.toE = 0 → 0 < ‖b.toE‖ → ‖b.toE‖ < h₀ → ray.type ≠ "faerie_fire" → ray.blocked = false → 4 ≤ fuel →
      ∃ (s : RunState XR) (x₁ x₂ d₂ : V3 ℝ) (L u z : ℝ),
        ray.lift.run (.fin md) [(Optic.compound ⟨e.tree, "refract", n⟩).lift] none fuel = .finished s ∧ s.interactions = 2 ∧ s.log = [] ∧
        s.ray = { ray with position := lineAt x₂ d₂ L, direction := d₂,
                           pointHistory := ray.pointHistory ++ [x₁, x₂, lineAt x₂ d₂ L] }.lift ∧
        dist x₁.toE P.center.toE = R ∧ dist x₂.toE Q.center.toE = S ∧
        lineAt x₂ d₂ u = V + (T + z) * a ∧ |z - backFocus n R S T| < ε := by
  have hR : 0 < R := by norm_num at hT; linarith
  have hS : 0 < S := by norm_num at hT; linarith
  have hT0 : 0 < T := by norm_num at hT; linarith
  have hn0 : 0 < n := by linarith
  have h8 : (0 : ℝ) < 1e-8 := by norm_num
  have h12 : (0 : ℝ) < 1e-12 := by norm_num
  have e0 : ∀ {f g : ℝ → ℝ}, Continuous f → Continuous g → f 0 < g 0 → ∀ᶠ h in nhds 0, f h < g h :=
    fun cf cg h => cf.continuousAt.eventually_lt cg.continuousAt h
  have cC := sgC_cont R
  have cU := sgU_cont n R
  have cV := sgV_cont n R
  have cE := sgE_cont R S T
  have cL := sgL_cont n R S T
  have cX := sgX_cont n R S T
  have zC := sgC_zero hR
  have zU := sgU_zero hn0 hR
  have zE := sgE_zero (S := S) (T := T) hR
  have zL := sgL_zero (T := T) hn0 hR hS
  have ev1 : ∀ᶠ h in nhds (0 : ℝ), h ^ 2 < R ^ 2 := e0 (by fun_prop) (by fun_prop) (by simp; positivity)
  have ev2 : ∀ᶠ h in nhds (0 : ℝ), sgE R S T h ^ 2 + h ^ 2 < S ^ 2 := e0 (by fun_prop) (by fun_prop) (by
    rw [zE]; nlinarith)
  have ev3 : ∀ᶠ h in nhds (0 : ℝ), (1e-8 - sgC R h) ^ 2 + h ^ 2 < R ^ 2 := e0 (by fun_prop) (by fun_prop) (by
    rw [zC]; nlinarith)
  have ev4 : ∀ᶠ h in nhds (0 : ℝ), (sgE R S T h - 1e-8) ^ 2 + h ^ 2 < S ^ 2 := e0 (by fun_prop) (by fun_prop) (by
    rw [zE]; nlinarith)
  have ev5 : ∀ᶠ h in nhds (0 : ℝ), 0 < sgD n R S T h := e0 continuous_const (sgD_cont n R S T) (by
    rw [sgD_zero hn0 hR]; positivity)
  have ev6 : ∀ᶠ h in nhds (0 : ℝ), 1e-12 < sgL n R S T h := e0 continuous_const cL (by
    rw [zL]; norm_num at hT ⊢; linarith)
  have ev7 : ∀ᶠ h in nhds (0 : ℝ), (sgL n R S T h * sgU n R h - sgC R h) ^ 2 + h ^ 2 * sgX n R S T h ^ 2 < R ^ 2 :=
    e0 (by fun_prop) (by fun_prop) (by rw [zL, zU, zC]; nlinarith)
  have ev8 : ∀ᶠ h in nhds (0 : ℝ), 0 < sgW n R S T h := e0 continuous_const (sgW_cont n R S T) (by
    rw [sgW_zero hn0 hR hS]; exact one_pos)
  have ev9 : ∀ᶠ h in nhds (0 : ℝ), y + R - sgC R h + sgL n R S T h < md := e0 (by fun_prop) continuous_const (by
    rw [zL, zC]; linarith)
  have ev10 : ∀ᶠ h in nhds (0 : ℝ), 0 < sgB n R S T h := e0 continuous_const (sgB_cont n R S T) (sgB_zero_pos hn hR hS hTR hTS hT0)
  have ev11 : ∀ᶠ h in nhds (0 : ℝ), |sgF n R S T h - backFocus n R S T| < ε := by
    have h1 := (sgF_cont hn hR hS hTR hTS hT0).tendsto
    rw [sgF_zero hn hR hS hTR hTS hT0] at h1
    have h2 := (Metric.tendsto_nhds.mp h1) ε hε
    exact h2.mono fun h hh => by rw [Real.dist_eq] at hh; exact hh
  obtain ⟨h₀, hh₀, hev⟩ := Metric.eventually_nhds_iff.mp
    (ev1.and (ev2.and (ev3.and (ev4.and (ev5.and (ev6.and (ev7.and (ev8.and (ev9.and (ev10.and ev11))))))))))
  refine ⟨h₀, hh₀, fun ray b fuel hdir hpos hba hb0 hbh hf hbl hfu => ?_⟩
  obtain ⟨w1, w2, w3, w4, w5, w6, w7, w8, w9, w10, w11⟩ := hev (y := ‖b.toE‖) (by
    rw [Real.dist_eq, sub_zero, abs_of_pos hb0]; exact hbh)
  obtain ⟨s, x₁, x₂, d₂, L, u, q1, q2, q3, q4, q5, q6, q7, -⟩ := C91_trace V a ha n R S T hn hR hS P Q hP hQ hPc hQc e he y md hy ray b fuel
    hdir hpos hba ⟨w1, w2, w3, w4, w5, w6, w7, w8, w10⟩ w9 hf hbl hfu
  exact ⟨s, x₁, x₂, d₂, L, u, _, q1, q2, q3, q4, q5, q6, q7, w11⟩

/-! ## The scripts -/

theorem pairScene_eq (oper : String) (a b : Sphere ℝ) (behavior : String) (index : ℝ) :
    pairScene oper a b behavior index
      = .ok [.compound ⟨.node (.str oper) (.node (.shape (.sphere a)) .nil .nil) (.node (.shape (.sphere b)) .nil .nil), behavior, index⟩] :=
  rfl

/-- The rays of the two scripts are parallel to the `y` axis and within 6.35 of it. -/
theorem singletRays_spec : ∀ r ∈ singletRays (α := ℝ), ∃ z : ℝ, |z| ≤ 127 / 20 ∧ r = Ray.new ⟨0, 0, z⟩ ⟨0, 1, 0⟩ 532 0 "normal" := by
  intro r hr
  obtain ⟨z, hz, rfl⟩ := List.mem_map.mp hr
  obtain ⟨xs, ex, -, bx, -, -⟩ := imageAxis_spec 21 (127 / 20) (by norm_num)
  have e : xs = linspace (-(25.4 : ℝ) / 4.0) (25.4 / 4.0) 21 := by
    unfold imageAxis at ex
    rw [if_neg (by norm_num), if_neg (by norm_num)] at ex
    rw [show -(25.4 : ℝ) / 4.0 = -(127 / 20) by norm_num, show (25.4 : ℝ) / 4.0 = 127 / 20 by norm_num]
    exact (Except.ok.inj ex).symm
  have := bx z (by rw [e]; exact hz)
  rw [abs_of_pos (by norm_num : (0 : ℝ) < 127 / 20)] at this
  exact ⟨z, this, by norm_num⟩

/-- One ray of the scripts through a lens on the `y` axis. -/
theorem singlet_script_ray {n R S T V lo hi : ℝ} (hn : 1 < n) (hR : 0 < R) (hS : 0 < S) (hV0 : 1 < V) (hV : V < 400)
    (hthr : ∀ h : ℝ, 0 ≤ h → h ≤ 127 / 20 →
      SgThrough n R S T h ∧ R - sgC R h + sgL n R S T h < 5 ∧ (lo < sgF n R S T h ∧ sgF n R S T h < hi) ∧
        0 < sgX n R S T h / sgB n R S T h ∧ sgX n R S T h / sgB n R S T h < 110)
    (z : ℝ) (hz : |z| ≤ 127 / 20) (P Q : Sphere ℝ) (hP : P.R = R) (hQ : Q.R = S) (hPc : P.center = ⟨0, V + R, 0⟩)
    (hQc : Q.center = ⟨0, V + T - S, 0⟩) (e : Csg (Prim ℝ)) (he : IsSinglet P Q e) (fuel : Nat) (hf : 4 ≤ fuel) :
    ∃ (s : RunState XR) (x₁ x₂ d₂ : V3 ℝ) (L u w : ℝ),
      (Ray.new (⟨0, 0, z⟩ : V3 ℝ) ⟨0, 1, 0⟩ 532 0 "normal").lift.run (.fin 550) [(Optic.compound ⟨e.tree, "refract", n⟩).lift] none fuel
        = .finished s ∧ s.interactions = 2 ∧ s.log = [] ∧
      s.ray = { Ray.new (⟨0, 0, z⟩ : V3 ℝ) ⟨0, 1, 0⟩ 532 0 "normal" with
                position := lineAt x₂ d₂ L, direction := d₂, pointHistory := [⟨0, 0, z⟩, x₁, x₂, lineAt x₂ d₂ L] }.lift ∧
      dist x₁.toE P.center.toE = R ∧ dist x₂.toE Q.center.toE = S ∧ lineAt x₂ d₂ u = ⟨0, V + T + w, 0⟩ ∧
      lo < w ∧ w < hi ∧ 0 < u ∧ u < L := by
  have hb : ‖(⟨0, 0, z⟩ : V3 ℝ).toE‖ = |z| := by
    rw [norm_toE, norm_eq]
    simp only [dot]
    rw [show (0 : ℝ) * 0 + 0 * 0 + z * z = z ^ 2 by ring, Real.sqrt_sq_eq_abs]
  obtain ⟨h1, h2, ⟨h3, h4⟩, h5, h6⟩ := hthr |z| (abs_nonneg z) hz
  have hu : unitVector (⟨0, 1, 0⟩ : V3 ℝ) = ⟨0, 1, 0⟩ := unitVector_of_unit (by simp [dot])
  obtain ⟨s, x₁, x₂, d₂, L, u, q1, q2, q3, q4, q5, q6, q7, q8, q9⟩ := C91_trace ⟨0, V, 0⟩ ⟨0, 1, 0⟩
    (by rw [norm_toE, norm_eq_one_iff]; simp [dot]) n R S T hn hR hS P Q hP hQ (by rw [hPc]; ext <;> simp)
    (by rw [hQc]; ext <;> simp; ring) e he V 550 (by norm_num; linarith)
    (Ray.new (⟨0, 0, z⟩ : V3 ℝ) ⟨0, 1, 0⟩ 532 0 "normal") ⟨0, 0, z⟩ fuel hu (by ext <;> simp [Ray.new])
    (by rw [inner_toE]; simp [dot]) (by rw [hb]; exact h1) (by rw [hb]; linarith) (by simp [Ray.new]) rfl hf
  rw [hb] at q7 q8 q9
  refine ⟨s, x₁, x₂, d₂, L, u, _, q1, q2, q3, q4, q5, q6, ?_, h3, h4, by rw [q8]; exact h5, by rw [q8, q9]; linarith⟩
  rw [q7]
  ext <;> simp; ring

theorem singletScene_eq : singletScene (α := ℝ) = .ok [.compound ⟨(Csg.op .intersect (.prim (.sphere ⟨⟨0, 500.6, 0⟩, 102.4, 204.8⟩))
    (.prim (.sphere ⟨⟨0, 299.4, 0⟩, 102.4, 204.8⟩))).tree, "refract", 1.5167⟩] := by
  have e1 : (400.0 : ℝ) + 102.4 - 3.6 / 2.0 = 500.6 := by norm_num
  have e2 : (400.0 : ℝ) - 102.4 + 3.6 / 2.0 = 299.4 := by norm_num
  have e3 : (102.4 : ℝ) * 2.0 = 204.8 := by norm_num
  have e4 : Sphere.new (⟨0.0, 500.6, 0.0⟩ : V3 ℝ) none (some 204.8) = .ok ⟨⟨0, 500.6, 0⟩, 102.4, 204.8⟩ := by
    unfold Sphere.new checkRAndD; norm_num [bind, Except.bind, pure, Except.pure]
  have e5 : Sphere.new (⟨0.0, 299.4, 0.0⟩ : V3 ℝ) none (some 204.8) = .ok ⟨⟨0, 299.4, 0⟩, 102.4, 204.8⟩ := by
    unfold Sphere.new checkRAndD; norm_num [bind, Except.bind, pure, Except.pure]
  unfold singletScene
  simp only [e1, e2, e3, e4, e5, bind, Except.bind]
  rfl

/-- C91: script_testSingletLens.py.  The script builds its lens, and each of its 21 rays is refracted by the front sphere and by the back
sphere, and crosses the axis on its last segment, between 95 and 101 behind the lens (the back vertex is at 401.8). -/
theorem C91_singlet_script : ∃ optics, singletScene (α := ℝ) = .ok optics ∧ ∀ r ∈ singletRays (α := ℝ), ∀ fuel, 4 ≤ fuel →
    ∃ (s : RunState XR) (x₁ x₂ d₂ : V3 ℝ) (L u w : ℝ),
      r.lift.run (.fin 550) (optics.map Optic.lift) none fuel = .finished s ∧ s.interactions = 2 ∧ s.log = [] ∧
      s.ray = { r with position := lineAt x₂ d₂ L, direction := d₂, pointHistory := [r.position, x₁, x₂, lineAt x₂ d₂ L] }.lift ∧
      dist x₁.toE (⟨0, 500.6, 0⟩ : V3 ℝ).toE = 102.4 ∧ dist x₂.toE (⟨0, 299.4, 0⟩ : V3 ℝ).toE = 102.4 ∧
      lineAt x₂ d₂ u = ⟨0, 401.8 + w, 0⟩ ∧ 95 < w ∧ w < 101 ∧ 0 < u ∧ u < L := by
  refine ⟨_, singletScene_eq, fun r hr fuel hf => ?_⟩
  obtain ⟨z, hz, rfl⟩ := singletRays_spec r hr
  obtain ⟨s, x₁, x₂, d₂, L, u, w, h1, h2, h3, h4, h5, h6, h7, h8⟩ := singlet_script_ray (n := 1.5167) (R := 102.4) (S := 102.4) (T := 3.6)
    (V := 398.2) (lo := 95) (hi := 101) (by norm_num) (by norm_num) (by norm_num) (by norm_num) (by norm_num)
    (fun h h0 h1 => singlet_through h h0 h1 1.5167 102.4 102.4 3.6 (by norm_num) (by norm_num) (by norm_num) (by norm_num)) z hz
    ⟨⟨0, 500.6, 0⟩, 102.4, 204.8⟩ ⟨⟨0, 299.4, 0⟩, 102.4, 204.8⟩ rfl rfl (by ext <;> norm_num) (by ext <;> norm_num) _ (.inl rfl) fuel hf
  refine ⟨s, x₁, x₂, d₂, L, u, w, h1, h2, h3, h4, h5, h6, ?_, h8⟩
  rw [h7]; ext <;> norm_num

theorem bestformScene_eq : bestformScene (α := ℝ) = .ok [.compound ⟨(Csg.op .intersect (.prim (.sphere ⟨⟨0, 458.72, 0⟩, 60.02, 120.04⟩))
    (.prim (.sphere ⟨⟨0, 49.4, 0⟩, 353.3, 706.6⟩))).tree, "refract", 1.5167⟩] := by
  have e1 : (400.0 : ℝ) + 60.02 - (4.0 - (100.0 - 97.3)) = 458.72 := by norm_num
  have e2 : (400.0 : ℝ) - 353.30 + (100.0 - 97.3) = 49.4 := by norm_num
  have e3 : (60.02 : ℝ) * 2.0 = 120.04 := by norm_num
  have e3' : (353.30 : ℝ) * 2.0 = 706.6 := by norm_num
  have e4 : Sphere.new (⟨0.0, 458.72, 0.0⟩ : V3 ℝ) none (some 120.04) = .ok ⟨⟨0, 458.72, 0⟩, 60.02, 120.04⟩ := by
    unfold Sphere.new checkRAndD; norm_num [bind, Except.bind, pure, Except.pure]
  have e5 : Sphere.new (⟨0.0, 49.4, 0.0⟩ : V3 ℝ) none (some 706.6) = .ok ⟨⟨0, 49.4, 0⟩, 353.3, 706.6⟩ := by
    unfold Sphere.new checkRAndD; norm_num [bind, Except.bind, pure, Except.pure]
  unfold bestformScene
  simp only [e1, e2, e3, e3', e4, e5, bind, Except.bind]
  rfl

/-- C91: script_testBestformLens.py.  Its rays cross the axis between 94 and 100 behind the lens (the back vertex is at 402.7). -/
theorem C91_bestform_script : ∃ optics, bestformScene (α := ℝ) = .ok optics ∧ ∀ r ∈ singletRays (α := ℝ), ∀ fuel, 4 ≤ fuel →
    ∃ (s : RunState XR) (x₁ x₂ d₂ : V3 ℝ) (L u w : ℝ),
      r.lift.run (.fin 550) (optics.map Optic.lift) none fuel = .finished s ∧ s.interactions = 2 ∧ s.log = [] ∧
      s.ray = { r with position := lineAt x₂ d₂ L, direction := d₂, pointHistory := [r.position, x₁, x₂, lineAt x₂ d₂ L] }.lift ∧
      dist x₁.toE (⟨0, 458.72, 0⟩ : V3 ℝ).toE = 60.02 ∧ dist x₂.toE (⟨0, 49.4, 0⟩ : V3 ℝ).toE = 353.3 ∧
      lineAt x₂ d₂ u = ⟨0, 402.7 + w, 0⟩ ∧ 94 < w ∧ w < 100 ∧ 0 < u ∧ u < L := by
  refine ⟨_, bestformScene_eq, fun r hr fuel hf => ?_⟩
  obtain ⟨z, hz, rfl⟩ := singletRays_spec r hr
  obtain ⟨s, x₁, x₂, d₂, L, u, w, h1, h2, h3, h4, h5, h6, h7, h8⟩ := singlet_script_ray (n := 1.5167) (R := 60.02) (S := 353.3) (T := 4)
    (V := 398.7) (lo := 94) (hi := 100) (by norm_num) (by norm_num) (by norm_num) (by norm_num) (by norm_num)
    (fun h h0 h1 => bestform_through h h0 h1 1.5167 60.02 353.3 4 (by norm_num) (by norm_num) (by norm_num) (by norm_num)) z hz
    ⟨⟨0, 458.72, 0⟩, 60.02, 120.04⟩ ⟨⟨0, 49.4, 0⟩, 353.3, 706.6⟩ rfl rfl (by ext <;> norm_num) (by ext <;> norm_num) _ (.inl rfl) fuel hf
  refine ⟨s, x₁, x₂, d₂, L, u, w, h1, h2, h3, h4, h5, h6, ?_, h8⟩
  rw [h7]; ext <;> norm_num

end Optics
