import Verif.Lemmas.BallMirrors
import Verif.Lemmas.LeakyBall
import Verif.Lemmas.TouchedBall
import Verif.Props.Vectors
import Verif.Spec.Rounded

/-!
# C101: mirror balls

A mirror ball reflects light and lets none in.  With exact numbers that is what the code does, in every scene of balls with
gaps between them, as long as the line of the ray does not touch a ball behind the ray (a touched ball is reported as hit,
C16).  With doubles it is false: a ray that has just been reflected may be computed to be slightly inside the ball, further
than the clipping floor of `1e-12`; then it is reflected again and passes through the ball.
-/

namespace Optics
open V3

theorem pathOutside_snoc {balls : List (V3 ℝ × ℝ)} {l : List (V3 ℝ)} {p q : V3 ℝ} (h : PathOutside balls (l ++ [p]))
    (hs : ∀ x ∈ segment ℝ p.toE q.toE, OutsideBalls balls x) : PathOutside balls (l ++ [p] ++ [q]) := by
  refine ⟨?_, ?_⟩
  · intro x hx
    rcases List.mem_append.mp hx with hx | hx
    · exact h.1 x hx
    · rw [List.mem_singleton.mp hx]; exact hs _ (right_mem_segment ℝ _ _)
  · intro l₁ a b l₂ e
    rcases List.eq_nil_or_concat l₂ with rfl | ⟨l₃, c, rfl⟩
    · have e' : (l ++ [p]) ++ [q] = (l₁ ++ [a]) ++ [b] := by rw [e]; simp
      obtain ⟨h1, h2⟩ := List.append_inj' e' rfl
      obtain ⟨-, h3⟩ := List.append_inj' h1 rfl
      rw [← List.singleton_inj.mp h2, ← List.singleton_inj.mp h3]
      exact hs
    · have e' : (l ++ [p]) ++ [q] = (l₁ ++ a :: b :: l₃) ++ [c] := by rw [e]; simp
      obtain ⟨h1, -⟩ := List.append_inj' e' rfl
      exact h.2 l₁ a b l₃ h1

/-- C101: around mirror balls with gaps of more than `1e-12` between them, a ray that starts outside, more than `1e-12`
from every ball, never enters one: neither the corners of its path nor the legs between them, however often it is reflected
and wherever it stops.  Excluded are rays whose line touches a ball behind them, unless there is only one ball. -/
theorem C101_opaque_partial {optics : List (Optic ℝ)} {balls : List (V3 ℝ × ℝ)}
    (hsc : List.Forall₂ BallMirror optics balls)
    (hgap : balls.Pairwise fun a b => a.2 + b.2 + 1e-12 < dist a.1.toE b.1.toE) (p d : V3 ℝ) (hd : d ≠ ⟨0, 0, 0⟩)
    (wavelength order : ℝ) (type : String) (hstart : ∀ b ∈ balls, b.2 + 1e-12 < dist p.toE b.1.toE) (md : ℝ)
    (mi : Option Int) (n : Nat) (s : RunState ℝ)
    (hs : Passes md optics mi n (RunState.init (Ray.new p d wavelength order type) md) s)
    (hT : ∀ k t, Passes md optics mi k (RunState.init (Ray.new p d wavelength order type) md) t →
      ∀ b ∈ balls, TouchedBehind b t.ray → balls = [b]) :
    PathOutside balls s.ray.pointHistory := by
  have key : (∃ l, s.ray.pointHistory = l ++ [s.ray.position]) ∧ PathOutside balls s.ray.pointHistory ∧
      (s.continues mi = false ∨ s.remaining ≤ md ∧ ‖s.ray.direction.toE‖ = 1 ∧
        ∀ b ∈ balls, BallClear b s.ray.position s.ray.direction) := by
    generalize hi : RunState.init (Ray.new p d wavelength order type) md = s0 at hs hT
    induction hs with
    | zero =>
      rw [← hi]
      refine ⟨⟨[], rfl⟩, ⟨?_, ?_⟩, .inr ⟨le_rfl, ?_, ?_⟩⟩
      · intro x hx b hb
        rw [List.mem_singleton.mp (show x ∈ [p] from hx)]
        linarith [hstart b hb, show (0 : ℝ) < 1e-12 by norm_num]
      · intro l₁ a b l₂ e
        have := congrArg List.length e
        simp [RunState.init, Ray.new] at this
        omega
      · exact (C01_unit_vector d hd).1
      · intro b hb
        refine ⟨?_, .inr (hstart b hb)⟩
        show b.2 ≤ dist p.toE b.1.toE
        linarith [hstart b hb, show (0 : ℝ) < 1e-12 by norm_num]
    | @succ n s s' s'' hp hc hstep ih =>
      obtain ⟨⟨l, hl⟩, hpath, hst⟩ := ih hi hT
      rcases hst with hst | ⟨hrem, hdir, hclear⟩
      · rw [hst] at hc; cases hc
      have hpos : 0 < s'.remaining := by
        simp only [RunState.continues, Bool.and_eq_true, decide_eq_true_eq] at hc
        have := hc.1.1
        rwa [lit0] at this
      obtain ⟨T, hT0, hposn, hleg, hnext⟩ := ball_step (mi := mi) hsc hgap hdir hrem hpos hclear (hT n s' hp) hstep
      have hh := (step_frame hstep).1
      refine ⟨⟨_, hh⟩, ?_, hnext⟩
      rw [hh, hl]
      rw [hl] at hpath
      apply pathOutside_snoc hpath
      intro x hx
      rw [segment_eq_image'] at hx
      obtain ⟨θ, ⟨h0, h1⟩, rfl⟩ := hx
      have := hleg (θ * T) (by positivity) (by nlinarith)
      convert this using 1
      rw [hposn]
      simp only [lineAt, toE_add, toE_smul, add_sub_cancel_left, smul_smul]
  exact key.2.1

/-- The hypotheses can be met: two balls of radius 1 face each other on the z axis, and a ray goes back and forth between
them. -/
example (n : Nat) (s : RunState ℝ)
    (hs : Passes 100 [.mirror (TouchedBall.ball ⟨0, 0, 0⟩), .mirror (TouchedBall.ball ⟨0, 0, 10⟩)] none n
      (RunState.init (Ray.new ⟨0, 0, 5⟩ ⟨0, 0, 1⟩ 532 0 "normal") 100) s) :
    PathOutside [(⟨0, 0, 0⟩, 1), (⟨0, 0, 10⟩, 1)] s.ray.pointHistory := by
  have hne : (⟨0, 0, 1⟩ : V3 ℝ) ≠ ⟨0, 0, 0⟩ := by intro h; simpa using congrArg V3.z h
  have hsc : List.Forall₂ BallMirror [.mirror (TouchedBall.ball ⟨0, 0, 0⟩), .mirror (TouchedBall.ball ⟨0, 0, 10⟩)]
      [((⟨0, 0, 0⟩ : V3 ℝ), (1 : ℝ)), (⟨0, 0, 10⟩, 1)] :=
    .cons ⟨one_pos, _, _, _, _, _, _, _, hne, TouchedBall.ball_new _, rfl⟩
      (.cons ⟨one_pos, _, _, _, _, _, _, _, hne, TouchedBall.ball_new _, rfl⟩ .nil)
  refine C101_opaque_partial hsc ?_ _ _ hne _ _ _ ?_ _ _ _ _ hs ?_
  · rw [List.pairwise_pair, dist_toE_eq]
    show (1 : ℝ) + 1 + 1e-12 < Real.sqrt _
    rw [Real.lt_sqrt (by norm_num)]
    norm_num [dot]
  · intro b hb
    simp only [List.mem_cons, List.not_mem_nil, or_false] at hb
    rcases hb with rfl | rfl <;>
    · rw [dist_toE_eq]
      show (1 : ℝ) + 1e-12 < Real.sqrt _
      rw [Real.lt_sqrt (by norm_num)]
      norm_num [dot]
  · intro k t ht b hb htouch
    have hax : ∀ b ∈ [((⟨0, 0, 0⟩ : V3 ℝ), (1 : ℝ)), (⟨0, 0, 10⟩, 1)], b.2 = 1 ∧ b.1.x = 0 ∧ b.1.y = 0 := by
      intro b hb
      simp only [List.mem_cons, List.not_mem_nil, or_false] at hb
      rcases hb with rfl | rfl <;> simp
    obtain ⟨h1, h2, h3⟩ := axis_stays (balls := [((⟨0, 0, 0⟩ : V3 ℝ), (1 : ℝ)), (⟨0, 0, 10⟩, 1)]) (by
        intro o ho
        simp only [List.mem_cons, List.not_mem_nil, or_false] at ho
        rcases ho with rfl | rfl
        · exact ⟨_, List.mem_cons_self, ⟨one_pos, _, _, _, _, _, _, _, hne, TouchedBall.ball_new _, rfl⟩⟩
        · exact ⟨_, List.mem_cons_of_mem _ List.mem_cons_self,
            ⟨one_pos, _, _, _, _, _, _, _, hne, TouchedBall.ball_new _, rfl⟩⟩) (fun b hb => (hax b hb).2) ht
      (C01_unit_vector _ hne).1 ⟨rfl, rfl⟩ (by
        show (unitVector (⟨0, 0, 1⟩ : V3 ℝ)).x = 0 ∧ (unitVector (⟨0, 0, 1⟩ : V3 ℝ)).y = 0
        rw [TouchedBall.unit_z]; exact ⟨rfl, rfl⟩)
    exact absurd htouch.1 (axis_not_tangent (by rw [(hax b hb).1]; norm_num) (hax b hb).2 h1 h2 h3)

/-- C101 for a single ball: no exception is needed. -/
theorem C101_single_ball {o : Optic ℝ} {b : V3 ℝ × ℝ} (ho : BallMirror o b) (p d : V3 ℝ) (hd : d ≠ ⟨0, 0, 0⟩)
    (wavelength order : ℝ) (type : String) (hstart : b.2 + 1e-12 < dist p.toE b.1.toE) (md : ℝ)
    (mi : Option Int) (n : Nat) (s : RunState ℝ)
    (hs : Passes md [o] mi n (RunState.init (Ray.new p d wavelength order type) md) s) :
    PathOutside [b] s.ray.pointHistory := by
  refine C101_opaque_partial (.cons ho .nil) (List.pairwise_singleton _ _) p d hd wavelength order type ?_ md mi n s hs ?_
  · intro b' hb'; rw [List.mem_singleton.mp hb']; exact hstart
  · intro _ _ _ b' hb' _; rw [List.mem_singleton.mp hb']

/-- The exception in `C101_opaque_partial` is needed.  The line of this ray touches a ball 5 behind the ray; the code takes
that for a hit, moves the ray 5 forward, and there it is so close to a second ball that it passes through it. -/
theorem C101_touched_behind : ∃ (optics : List (Optic ℝ)) (balls : List (V3 ℝ × ℝ)) (p d : V3 ℝ) (n : Nat) (s : RunState ℝ),
    List.Forall₂ BallMirror optics balls ∧ (balls.Pairwise fun a b => a.2 + b.2 + 1e-12 < dist a.1.toE b.1.toE) ∧
    d ≠ ⟨0, 0, 0⟩ ∧ (∀ b ∈ balls, b.2 + 1e-12 < dist p.toE b.1.toE) ∧
    Passes 100 optics none n (RunState.init (Ray.new p d 532 0 "normal") 100) s ∧
    ∃ b ∈ balls, ∃ l p' q', s.ray.pointHistory = l ++ [p', q'] ∧ b.1.toE ∈ segment ℝ p'.toE q'.toE := by
  have hne : (⟨0, 0, 1⟩ : V3 ℝ) ≠ ⟨0, 0, 0⟩ := by intro h; simpa using congrArg V3.z h
  have hcont : ∀ s : RunState ℝ, 0 < s.remaining → s.ray.blocked = false → s.continues none = true := by
    intro s h1 h2
    have : s.remaining > 0.0 := by rw [lit0]; exact h1
    simp [RunState.continues, this, h2]
  have hdir : (Ray.new (⟨0, 0, 0⟩ : V3 ℝ) ⟨0, 0, 1⟩ 532 0 "normal").direction = ⟨0, 0, 1⟩ := TouchedBall.unit_z
  obtain ⟨s1, h1, p1, d1, r1, t1, b1, hist1⟩ := TouchedBall.pass0
    (RunState.init (Ray.new ⟨0, 0, 0⟩ ⟨0, 0, 1⟩ 532 0 "normal") 100) rfl hdir rfl rfl rfl
  obtain ⟨s2, h2, hist2⟩ := TouchedBall.pass1 s1 p1 d1 r1 t1
  refine ⟨[.mirror (TouchedBall.ball ⟨0, 1, -5⟩), .mirror (TouchedBall.ball TouchedBall.cB)],
    [(⟨0, 1, -5⟩, 1), (TouchedBall.cB, 1)], ⟨0, 0, 0⟩, ⟨0, 0, 1⟩, 2, s2, ?_, ?_, hne, ?_, ?_, ?_⟩
  · exact .cons ⟨one_pos, _, _, _, _, _, _, _, hne, TouchedBall.ball_new _, rfl⟩
      (.cons ⟨one_pos, _, _, _, _, _, _, _, hne, TouchedBall.ball_new _, rfl⟩ .nil)
  · rw [List.pairwise_pair, dist_toE_eq]
    show (1 : ℝ) + 1 + 1e-12 < Real.sqrt _
    rw [Real.lt_sqrt (by norm_num)]
    norm_num [dot, TouchedBall.cB]
  · intro b hb
    simp only [List.mem_cons, List.not_mem_nil, or_false] at hb
    rcases hb with rfl | rfl
    · rw [dist_toE_eq]
      show (1 : ℝ) + 1e-12 < Real.sqrt _
      rw [Real.lt_sqrt (by norm_num)]
      norm_num [dot]
    · rw [dist_toE_eq]
      show (1 : ℝ) + 1e-12 < Real.sqrt _
      rw [Real.lt_sqrt (by norm_num)]
      norm_num [dot, TouchedBall.cB]
  · refine .succ (.succ (.zero _) (hcont _ ?_ rfl) h1) (hcont _ (by rw [r1]; norm_num) b1) h2
    show (0 : ℝ) < 100
    norm_num
  · refine ⟨(TouchedBall.cB, 1), by simp, [⟨0, 0, 0⟩], ⟨0, 0, 5⟩, ⟨0, 0, 7 + 5 / 10 ^ 13⟩, ?_, ?_⟩
    · rw [hist2, hist1]; rfl
    · rw [segment_eq_image']
      refine ⟨(1 + 5 / 10 ^ 13) / (2 + 5 / 10 ^ 13), ⟨by norm_num, by norm_num⟩, ?_⟩
      show _ = TouchedBall.cB.toE
      beta_reduce
      rw [← toE_sub, ← toE_smul, ← toE_add]
      congr 1
      ext <;> norm_num [TouchedBall.cB]

/-- C101 is false with doubles, at the size of script_testConvexSphereMirror.py: a mirror ball of diameter 25 stands 400
away, the ray starts beside the axis at `(10.8, 0, 0)` and flies along z with `max_distance = 400`.  It is reflected twice
on the spot and ends inside the ball, still flying along z. -/
theorem C101_double (wavelength order : D64) :
    ∃ m : Mirror D64, Mirror.new ⟨0.0, 0.0, 400.0⟩ "circular_convex_spherical" none (some 25.0) none none none none "normal"
        (some ⟨0.0, 0.0, 1.0⟩) = .ok m ∧
      ∀ fuel, 4 ≤ fuel → ∃ (s : RunState D64) (P d : V3 ℝ),
        (Ray.new ⟨10.8, 0.0, 0.0⟩ ⟨0.0, 0.0, 1.0⟩ wavelength order "normal").run 400.0 [.mirror m] none fuel = .finished s ∧
        s.interactions = 2 ∧ s.ray.position = P.fl ∧ s.ray.direction = d.fl ∧
        dist P.toE (⟨0, 0, 400⟩ : V3 ℝ).toE < 11 ∧ dist d.toE (⟨0, 0, 1⟩ : V3 ℝ).toE < 1 / 10 ^ 12 := by
  refine ⟨LeakyBall.ball, LeakyBall.ball_new, fun fuel hf => ?_⟩
  obtain ⟨k, rfl⟩ : ∃ k, fuel = k + 4 := ⟨fuel - 4, by omega⟩
  obtain ⟨s1, h1, p1, d1, r1, t1, b1, i1⟩ := LeakyBall.pass0
    (RunState.init (Ray.new ⟨10.8, 0.0, 0.0⟩ ⟨0.0, 0.0, 1.0⟩ wavelength order "normal") 400.0) LeakyBall.start_position
    LeakyBall.start_direction LeakyBall.start_budget rfl rfl
  obtain ⟨s2, h2, p2, d2, r2, t2, b2, i2⟩ := LeakyBall.pass1 s1 p1 d1 r1 t1 b1
  obtain ⟨s3, h3, p3, d3, r3, i3⟩ := LeakyBall.pass2 s2 p2 d2 r2 t2 b2
  refine ⟨s3, ⟨_, _, _⟩, ⟨_, _, _⟩, ?_, ?_, p3, d3, ?_, ?_⟩
  · unfold Ray.run
    rw [runLoop, if_pos (LeakyBall.continues0 _ LeakyBall.start_budget rfl), h1]
    simp only
    rw [runLoop, if_pos (LeakyBall.continues1 _ r1 b1), h2]
    simp only
    rw [runLoop, if_pos (LeakyBall.continues2 _ r2 b2), h3]
    simp only
    rw [runLoop, if_neg (by rw [LeakyBall.stops _ r3]; decide)]
  · rw [i3, i2, i1]; rfl
  · rw [dist_toE_eq]
    show Real.sqrt _ < _
    rw [Real.sqrt_lt' (by norm_num)]
    norm_num [dot]
  · rw [dist_toE_eq]
    show Real.sqrt _ < _
    rw [Real.sqrt_lt' (by norm_num)]
    norm_num [dot]

end Optics
