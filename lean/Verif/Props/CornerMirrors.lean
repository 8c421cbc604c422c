import Verif.Props.PlaneMirrors
import Verif.Lemmas.Drawing

/-!
# C82: mirrors at right angles
-/

namespace Optics
open V3

/-- The planes described by `Q` are at right angles to each other. -/
def Perpendicular (Q : MirrorPlane → Prop) : Prop :=
  ∀ a b, Q a → Q b → a ≠ b → inner ℝ a.normal.toE b.normal.toE = 0

theorem perp_units {Q : MirrorPlane → Prop} (h : Perpendicular Q) {a b : MirrorPlane} (ha : Q a) (hb : Q b) (hab : a ≠ b) :
    dot (unitVector a.normal) (unitVector b.normal) = 0 := by
  have := h a b ha hb hab
  rw [inner_toE] at this
  rw [unitVector, unitVector, dot_div_left, dot_div_right, this]
  simp

/-- What is known besides after some passes over perpendicular mirrors: the ray is moving away from every mirror it
has met. -/
structure Departing (r : Ray ℝ) (ms : List MirrorPlane) : Prop where
  nodup : ms.Nodup
  away : ∀ m ∈ ms, 0 ≤ dot (r.position - m.point) (unitVector m.normal) * dot r.direction (unitVector m.normal)
  crosses : ∀ m ∈ ms, dot r.direction (unitVector m.normal) ≠ 0

theorem dot_at (r : Ray ℝ) (t : ℝ) (c u : V3 ℝ) :
    dot (r.at t - c) u = dot (r.position - c) u + t * dot r.direction u := by
  have : r.at t - c = (r.position - c) + t * r.direction := by
    rw [at_eq]
    ext <;> simp only [sub_x, sub_y, sub_z, add_x, add_y, add_z, smul_x, smul_y, smul_z] <;> ring
  rw [this, dot_add_left, dot_smul_left]

theorem departing_passes {Q : MirrorPlane → Prop} (hQ : Perpendicular Q) {optics : List (Optic ℝ)}
    (hw : ∀ o ∈ optics, ∃ m, Q m ∧ o.PlaneMirror m.point m.normal) {ray : Ray ℝ}
    (hd : dot ray.direction ray.direction = 1) (hty : ray.type ≠ "faerie_fire") {md : ℝ} {mi : Option Int}
    {k : Nat} {s : RunState XR}
    (h : Passes (.fin md) (optics.map Optic.lift) mi k (RunState.init ray.lift (.fin md)) s) :
    ∃ r ρ P ms, Unfolded Q optics ray md s r ρ P ms ∧ Departing r ms := by
  generalize h0 : RunState.init ray.lift (.fin md) = s0 at h
  induction h with
  | zero s =>
    subst h0
    exact ⟨ray, md, [], [], unfolded_init hd, List.nodup_nil, by simp, by simp⟩
  | succ hp hc hs ih =>
    subst h0
    obtain ⟨r, ρ, P, ms, ih, dep⟩ := ih rfl
    have hpos := continues_pos hc ih.sane.remaining
    rcases unfolded_step hw hty ih hc hs with h | ⟨o, c, n, t, ho, hq, hpm, ht, ht', hon, hsl, -, h⟩
    · refine ⟨_, _, _, _, h, dep.nodup, fun m hm => ?_, dep.crosses⟩
      show 0 ≤ dot (r.at ρ - m.point) (unitVector m.normal) * dot r.direction (unitVector m.normal)
      rw [dot_at]
      nlinarith [dep.away m hm, mul_nonneg hpos.le (mul_self_nonneg (dot r.direction (unitVector m.normal)))]
    · have ht0 : 0 < t := by norm_num at ht; linarith
      have hfar : ∀ m ∈ ms, 0 < dot (r.at t - m.point) (unitVector m.normal) * dot r.direction (unitVector m.normal) := by
        intro m hm
        rw [dot_at]
        have := mul_pos ht0 (mul_self_pos.mpr (dep.crosses m hm))
        nlinarith [dep.away m hm]
      have hnew : (⟨c, n⟩ : MirrorPlane) ∉ ms := by
        intro hm
        have := hfar _ hm
        rw [hon, zero_mul] at this
        exact lt_irrefl _ this
      have hun := unit_dot hpm.normal_ne
      have e := specular_eq_unit ih.sane.unit hun
      have hkeep : ∀ m ∈ ms, dot (r.bounced n t).direction (unitVector m.normal) = dot r.direction (unitVector m.normal) := by
        intro m hm
        show dot (specular _ _) _ = _
        rw [e, dot_sub_left, dot_smul_left, perp_units hQ hq (ih.mirrors m hm).1 (fun e => hnew (e ▸ hm)), mul_zero, sub_zero]
      have hself : dot (r.bounced n t).direction (unitVector n) = -dot r.direction (unitVector n) := by
        show dot (specular _ _) _ = _
        rw [e, dot_sub_left, dot_smul_left, hun]; ring
      refine ⟨_, _, _, _, h, ?_, fun m hm => ?_, fun m hm => ?_⟩
      · rw [List.nodup_append]
        refine ⟨dep.nodup, List.nodup_singleton _, ?_⟩
        rintro a ha b hb rfl
        rw [List.mem_singleton] at hb
        exact hnew (hb ▸ ha)
      · rcases List.mem_append.mp hm with hm | hm
        · rw [hkeep m hm]; exact (hfar m hm).le
        · obtain rfl := List.mem_singleton.mp hm
          show 0 ≤ dot (r.at t - c) (unitVector n) * _
          rw [hon, zero_mul]
      · rcases List.mem_append.mp hm with hm | hm
        · rw [hkeep m hm]; exact dep.crosses m hm
        · obtain rfl := List.mem_singleton.mp hm
          rw [hself, neg_ne_zero, dot_comm]
          intro e
          rw [e, abs_zero] at hsl
          norm_num at hsl

theorem mem_normal_ne {Q : MirrorPlane → Prop} {optics : List (Optic ℝ)} {ray : Ray ℝ} {md : ℝ} {s : RunState XR} {r : Ray ℝ}
    {ρ : ℝ} {P : List (V3 ℝ)} {ms : List MirrorPlane} (h : Unfolded Q optics ray md s r ρ P ms) {m : MirrorPlane} (hm : m ∈ ms) :
    m.normal ≠ ⟨0, 0, 0⟩ := by
  obtain ⟨-, o, -, ho⟩ := h.mirrors m hm
  exact ho.normal_ne

/-- Three planes at right angles form a frame. -/
theorem perp_frame {Q : MirrorPlane → Prop} (hQ : Perpendicular Q) {a b c : MirrorPlane} (ha : Q a) (hb : Q b) (hc : Q c)
    (hab : a ≠ b) (hac : a ≠ c) (hbc : b ≠ c) (na : a.normal ≠ ⟨0, 0, 0⟩) (nb : b.normal ≠ ⟨0, 0, 0⟩) :
    PlaneFrame (unitVector c.normal) (unitVector a.normal) (unitVector b.normal) := by
  constructor
  · rw [norm_toE, norm_eq_one_iff]; exact unit_dot na
  · rw [norm_toE, norm_eq_one_iff]; exact unit_dot nb
  · rw [inner_toE]; exact perp_units hQ ha hb hab
  · rw [inner_toE]; exact perp_units hQ ha hc hac
  · rw [inner_toE]; exact perp_units hQ hb hc hbc

/-- C82: over plane mirrors at right angles to each other a ray meets no plane twice, and no more than three mirrors in all,
however long the run. -/
theorem C82_each_once {Q : MirrorPlane → Prop} (hQ : Perpendicular Q) {optics : List (Optic ℝ)}
    (hw : ∀ o ∈ optics, ∃ m, Q m ∧ o.PlaneMirror m.point m.normal) (ray : Ray ℝ) (hd : ‖ray.direction.toE‖ = 1)
    (hty : ray.type ≠ "faerie_fire") (md : ℝ) (mi : Option Int) (fuel : Nat) :
    let s := (ray.lift.run (.fin md) (optics.map Optic.lift) mi fuel).state
    s.interactions ≤ 3 ∧ ∃ (P : List (V3 ℝ)) (ms : List MirrorPlane),
      s.ray.pointHistory = (ray.pointHistory ++ P).map V3.lift ∧ ms.Nodup ∧ ms.length = s.interactions ∧
      (P.length = ms.length ∨ P.length = ms.length + 1) ∧
      (∀ m ∈ ms, Q m ∧ ∃ o ∈ optics, o.PlaneMirror m.point m.normal) ∧
      ∀ k (h : k < ms.length) (h' : k < P.length), OnPlane ms[k].point ms[k].normal P[k] := by
  rw [norm_toE, norm_eq_one_iff] at hd
  intro s
  obtain ⟨k, hp, -⟩ := fate_run (fun o ho => by
    obtain ⟨m, -, h⟩ := hw o ho
    exact h.wellFormed) ray hd (md := md) (mi := mi) fuel
  obtain ⟨r, ρ, P, ms, h, dep⟩ := departing_passes hQ hw hd hty hp
  constructor
  · rw [← h.count]
    by_contra hlt
    match ms, h, dep, hlt with
    | a :: b :: c :: d :: l, h, dep, _ =>
      have hn := dep.nodup
      simp only [List.nodup_cons, List.mem_cons, not_or] at hn
      obtain ⟨⟨ab, ac, ad, -⟩, ⟨bc, bd, -⟩, ⟨cd, -⟩, -⟩ := hn
      have nn : ∀ m ∈ a :: b :: c :: d :: l, m.normal ≠ ⟨0, 0, 0⟩ := fun m hm => mem_normal_ne h hm
      have qq : ∀ m ∈ a :: b :: c :: d :: l, Q m := fun m hm => (h.mirrors m hm).1
      simp only [List.forall_mem_cons] at nn qq
      obtain ⟨na, nb, nc, nd, -⟩ := nn
      obtain ⟨qa, qb, qc, qd, -⟩ := qq
      have := frame_zero (ne_zero_of_dot_one (unit_dot nc)) (perp_frame hQ qa qb qc ab ac bc na nb)
        (perp_units hQ qd qa (Ne.symm ad)) (perp_units hQ qd qb (Ne.symm bd)) (perp_units hQ qd qc (Ne.symm cd))
      exact ne_zero_of_dot_one (unit_dot nd) this
    | [], _, _, hlt => simp at hlt
    | [_], _, _, hlt => simp at hlt
    | [_, _], _, _, hlt => simp at hlt
    | [_, _, _], _, _, hlt => simp at hlt
  · refine ⟨P, ms, ?_, dep.nodup, h.count, ?_, h.mirrors, h.onPlane⟩
    · rw [← h.history]
      exact congrArg Ray.pointHistory h.sane.ray
    · rcases h.length with ⟨-, h, -⟩ | ⟨-, h, -⟩
      · exact .inl h
      · exact .inr h

/-- C82: a corner of three mirrors at right angles is a retroreflector.  If the planes meet in `K` and the ray has met
three mirrors, its line is the point reflection of the line of the incoming ray in `K`; so it goes back in the direction
it came from. -/
theorem C82_retroreflector {Q : MirrorPlane → Prop} (hQ : Perpendicular Q) {optics : List (Optic ℝ)}
    (hw : ∀ o ∈ optics, ∃ m, Q m ∧ o.PlaneMirror m.point m.normal) (K : V3 ℝ) (hK : ∀ m, Q m → OnPlane m.point m.normal K)
    (ray : Ray ℝ) (hd : ‖ray.direction.toE‖ = 1) (hty : ray.type ≠ "faerie_fire") (md : ℝ) (mi : Option Int) (fuel : Nat)
    (h3 : (ray.lift.run (.fin md) (optics.map Optic.lift) mi fuel).state.interactions = 3) :
    ∃ (r : Ray ℝ) (P : List (V3 ℝ)), (ray.lift.run (.fin md) (optics.map Optic.lift) mi fuel).state.ray = r.lift ∧
      r.pointHistory = ray.pointHistory ++ P ∧ r.direction = -ray.direction ∧
      ∀ t, (r.at t).toE = (2 : ℝ) • K.toE - (ray.at (pathLength (ray.position :: P) + t)).toE := by
  rw [norm_toE, norm_eq_one_iff] at hd
  obtain ⟨k, hp, -⟩ := fate_run (fun o ho => by
    obtain ⟨m, -, h⟩ := hw o ho
    exact h.wellFormed) ray hd (md := md) (mi := mi) fuel
  obtain ⟨r, ρ, P, ms, h, dep⟩ := departing_passes hQ hw hd hty hp
  have hc := h.count
  rw [h3] at hc
  obtain ⟨a, b, c, rfl⟩ := List.length_eq_three.mp hc
  have hn := dep.nodup
  simp only [List.nodup_cons, List.mem_cons, not_or] at hn
  obtain ⟨⟨ab, ac, -⟩, ⟨bc, -⟩, -⟩ := hn
  have nn : ∀ m ∈ [a, b, c], m.normal ≠ ⟨0, 0, 0⟩ := fun m hm => mem_normal_ne h hm
  have qq : ∀ m ∈ [a, b, c], Q m := fun m hm => (h.mirrors m hm).1
  simp only [List.forall_mem_cons] at nn qq
  obtain ⟨na, nb, nc, -⟩ := nn
  obtain ⟨qa, qb, qc, -⟩ := qq
  have eab := perp_units hQ qa qb ab
  have eac := perp_units hQ qa qc ac
  have ebc := perp_units hQ qb qc bc
  have ua := unit_dot na
  have ub := unit_dot nb
  have uc := unit_dot nc
  have onK : ∀ m : MirrorPlane, Q m → m.normal ≠ ⟨0, 0, 0⟩ → ∀ x, dot (x - m.point) (unitVector m.normal)
      = dot (x - K) (unitVector m.normal) := by
    intro m hm hn x
    have := hK m hm
    rw [onPlane_iff, ← unit_smul_norm hn, dot_smul_right] at this
    have h0 := (mul_eq_zero.mp this).resolve_left (norm_pos hn).ne'
    have e : x - m.point = (x - K) + (K - m.point) := by
      ext <;> simp only [sub_x, sub_y, sub_z, add_x, add_y, add_z] <;> ring
    rw [e, dot_add_left, h0, add_zero]
  have hline : ∀ x : V3 ℝ, imageThrough [a, b, c] x.toE = (2 : ℝ) • K.toE - x.toE := by
    intro x
    simp only [imageThrough]
    rw [planeImage_toE _ _ na, planeImage_toE _ _ nb, planeImage_toE _ _ nc, onK a qa na, onK b qb nb, onK c qc nc]
    have hz : x - K - (dot (x - K) (unitVector a.normal) * unitVector a.normal
        + dot (x - K) (unitVector b.normal) * unitVector b.normal
        + dot (x - K) (unitVector c.normal) * unitVector c.normal) = ⟨0, 0, 0⟩ := by
      refine frame_zero (ne_zero_of_dot_one uc) (perp_frame hQ qa qb qc ab ac bc na nb) ?_ ?_ ?_
      · rw [dot_sub_left, dot_add_left, dot_add_left, dot_smul_left, dot_smul_left, dot_smul_left, ua,
          dot_comm (unitVector b.normal), eab, dot_comm (unitVector c.normal), eac]; ring
      · rw [dot_sub_left, dot_add_left, dot_add_left, dot_smul_left, dot_smul_left, dot_smul_left, ub,
          eab, dot_comm (unitVector c.normal), ebc]; ring
      · rw [dot_sub_left, dot_add_left, dot_add_left, dot_smul_left, dot_smul_left, dot_smul_left, uc,
          eac, ebc]; ring
    generalize unitVector a.normal = u at *
    generalize unitVector b.normal = v at *
    generalize unitVector c.normal = w at *
    have e1 : dot (x - (2 * dot (x - K) u) * u - K) v = dot (x - K) v := by
      have : x - (2 * dot (x - K) u) * u - K = (x - K) - (2 * dot (x - K) u) * u := by
        ext <;> simp only [sub_x, sub_y, sub_z, smul_x, smul_y, smul_z] <;> ring
      rw [this, dot_sub_left, dot_smul_left, eab]; ring
    rw [e1]
    have e2 : dot (x - (2 * dot (x - K) u) * u - (2 * dot (x - K) v) * v - K) w = dot (x - K) w := by
      have : x - (2 * dot (x - K) u) * u - (2 * dot (x - K) v) * v - K
          = (x - K) - (2 * dot (x - K) u) * u - (2 * dot (x - K) v) * v := by
        ext <;> simp only [sub_x, sub_y, sub_z, smul_x, smul_y, smul_z] <;> ring
      rw [this, dot_sub_left, dot_sub_left, dot_smul_left, dot_smul_left, eac, ebc]; ring
    rw [e2, ← toE_smul, ← toE_sub]
    congr 1
    have hx := congrArg V3.x hz
    have hy := congrArg V3.y hz
    have hzz := congrArg V3.z hz
    simp only [sub_x, sub_y, sub_z, add_x, add_y, add_z, smul_x, smul_y, smul_z] at hx hy hzz
    ext <;> simp only [sub_x, sub_y, sub_z, smul_x, smul_y, smul_z] <;> linarith
  refine ⟨r, P, h.sane.ray, h.history, ?_, fun t => by rw [h.line t, hline]⟩
  have e0 := h.line 0
  have e1 := h.line 1
  rw [hline, ← toE_smul, ← toE_sub] at e0 e1
  have e0 := toE_injective e0
  have e1 := toE_injective e1
  simp only [at_eq] at e0 e1
  have x0 := congrArg V3.x e0
  have y0 := congrArg V3.y e0
  have z0 := congrArg V3.z e0
  have x1 := congrArg V3.x e1
  have y1 := congrArg V3.y e1
  have z1 := congrArg V3.z e1
  simp only [sub_x, sub_y, sub_z, add_x, add_y, add_z, smul_x, smul_y, smul_z] at x0 y0 z0 x1 y1 z1
  ext <;> simp only [neg_x, neg_y, neg_z] <;> linarith

end Optics
