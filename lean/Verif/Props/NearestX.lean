import Verif.Lemmas.NearestX
import Verif.Props.SoundnessCases

/-!
# C45 in numpy arithmetic
-/

namespace Optics
open V3

/-- C45 in numpy arithmetic: in each pass from a state of finite numbers, over a well-formed scene, either no optic reports a
point further than 1e-12 and within the remaining distance, and the ray flies freely; or an optic acts, at the point and with
the normal it reported, which is the nearest of these, and the first one in the list among equally near ones.  Tests that
report nan (cylinders along the ray) and optics that are skipped never count. -/
theorem C45_nearest_numpy {md : ℝ} {optics : List (Optic ℝ)} (hw : ∀ o ∈ optics, o.WellFormed) {r : Ray ℝ}
    (hd : ‖r.direction.toE‖ = 1) {ρ : ℝ} {s s' : RunState XR} {log : List (DetHit ℝ)} (h1 : s.ray = r.lift)
    (h2 : s.remaining = .fin ρ) (h3 : s.log = log.map DetHit.lift)
    (h : runStep (.fin md) (optics.map Optic.lift) s = .next s') :
    ((∀ o ∈ optics, ∀ d x n, ¬ o.InReach r ρ d x n) ∧ s'.ray = (r.movedTo (r.at ρ)).lift ∧ s'.remaining = .fin (ρ - md) ∧
      s'.log = s.log ∧ s'.interactions = s.interactions) ∨
    ∃ l1 o l2 d x n, optics = l1 ++ o :: l2 ∧ o.InReach r ρ d x n ∧
      (∀ o' ∈ l1, ∀ d' x' n', o'.InReach r ρ d' x' n' → d < d') ∧
      (∀ o' ∈ l2, ∀ d' x' n', o'.InReach r ρ d' x' n' → d ≤ d') ∧
      s'.remaining = .fin (ρ - d) ∧ s'.interactions = s.interactions + 1 ∧
      (r.type ≠ "faerie_fire" → ∃ sfo hits,
        o.lift.doIntersect (r.movedTo (r.at d)).lift x.lift (some n.lift) sfo = .ok (s'.ray, hits) ∧ s'.log = s.log ++ hits) ∧
      (r.type = "faerie_fire" → s'.log = s.log ∧ s'.ray = { r.movedTo (r.at d) with blocked := true }.lift) := by
  rw [norm_toE, norm_eq_one_iff] at hd
  exact step_nearest hw ⟨h1, h2, h3, hd⟩ h

/-- The theorem applies, with a pass that meets an optic: the mirror below the ray of the soundness example. -/
example : ∃ s', runStep (.fin 100) (mirrorAndDetector.map Optic.lift) (RunState.init downRay.lift (.fin 100)) = .next s' ∧
    s'.interactions = 1 := by
  obtain ⟨s, h, -, -, -, hi⟩ := down_pass
  exact ⟨s, h, hi⟩

theorem py_bind {β γ : Type} {x : Py β} {f : β → Py γ} {c : γ} (h : (x >>= f) = .ok c) : ∃ b, x = .ok b ∧ f b = .ok c := by
  cases x with
  | error e => cases h
  | ok b => exact ⟨b, rfl, h⟩

/-- A number that `<` can put below `np.inf`. -/
def BelowInf (m : Option XR) : Prop := ∀ d, m = some d → d ≠ .inf ∧ d ≠ .nan

theorem belowInf_of_ltMin {d : XR} {m : Option XR} (h : ltMin d m = true) : BelowInf (some d) := by
  rintro _ ⟨rfl⟩
  rcases m with _ | m
  · cases d <;> simp_all [ltMin, PyNum.ltInf]
  · have h' : d < m := of_decide_eq_true h
    change XR.lt d m at h'
    cases d <;> cases m <;> simp_all [XR.lt]

/-- C45 in numpy arithmetic, for hits that overflow: neither an infinite nor an undefined distance is ever recorded as the
least distance, by the loops over the surfaces of an optic. -/
theorem C45_overflow_surfaces {setNormal : Bool} {ray : Ray XR} {v v' : LoopVars XR} (hv : BelowInf v.minDistance) :
    (∀ surface, flatStep setNormal ray v surface = .ok v' → BelowInf v'.minDistance) ∧
      (∀ r, sphereUpdate ray v r = .ok v' → BelowInf v'.minDistance) := by
  constructor
  · intro surface h
    unfold flatStep at h
    obtain ⟨r, -, h⟩ := py_bind h
    obtain ⟨r3, -, h⟩ := py_bind h
    simp only [] at h
    split at h
    · obtain ⟨pt, -, h⟩ := py_bind h
      split at h
      · rename_i h1
        split at h
        · obtain ⟨n, -, h⟩ := py_bind h
          cases h; exact belowInf_of_ltMin h1
        · cases h; exact belowInf_of_ltMin h1
      · cases h; exact hv
    · cases h; exact hv
  · intro r h
    unfold sphereUpdate at h
    obtain ⟨p1, -, h⟩ := py_bind h
    simp only [] at h
    split at h
    · rename_i h2
      obtain ⟨n1, -, h⟩ := py_bind h
      obtain ⟨v1, e, h⟩ := py_bind h
      have hv1 : BelowInf v1.minDistance := by cases e; exact belowInf_of_ltMin h2
      split at h
      · cases h; exact hv1
      · split at h
        · rename_i h3
          obtain ⟨n2, -, h⟩ := py_bind h
          cases h; exact belowInf_of_ltMin h3
        · cases h; exact hv1
    · obtain ⟨v1, e, h⟩ := py_bind h
      have hv1 : BelowInf v1.minDistance := by cases e; exact hv
      split at h
      · cases h; exact hv1
      · split at h
        · rename_i h3
          obtain ⟨n2, -, h⟩ := py_bind h
          cases h; exact belowInf_of_ltMin h3
        · cases h; exact hv1

/-- C45 in numpy arithmetic, for hits that overflow: the same for the loop over the optics; and an optic is only selected
with a distance that is a number. -/
theorem C45_overflow_optics {ray : Ray XR} {remaining : XR} {v v' : ScanVars XR} {optic : Optic XR}
    (hv : BelowInf v.minDistance) (h : scanStep ray remaining v optic = .ok v') :
    BelowInf v'.minDistance ∧ (v'.selected ≠ v.selected → ∃ d, v'.minDistance = some d ∧ d ≠ .inf ∧ d ≠ .nan) := by
  unfold scanStep at h
  split_ifs at h
  · cases h; exact ⟨hv, fun h => absurd rfl h⟩
  obtain ⟨r, -, h⟩ := py_bind h
  simp only [] at h
  split_ifs at h
  · obtain ⟨pt, -, h⟩ := py_bind h
    split_ifs at h with h1 h2 h3
    · cases h; exact ⟨hv, fun h => absurd rfl h⟩
    · cases h
      exact ⟨belowInf_of_ltMin h3, fun _ => ⟨_, rfl, belowInf_of_ltMin h3 _ rfl⟩⟩
    · cases h; exact ⟨hv, fun h => absurd rfl h⟩
    · cases h; exact ⟨hv, fun h => absurd rfl h⟩
  · cases h; exact ⟨hv, fun h => absurd rfl h⟩

/-- Such hits occur: in numpy arithmetic the distance to a point at infinity is infinite, and a run with an infinite budget
does not discard it. -/
example : distanceBetween (⟨.fin 0, .fin 0, .fin 0⟩ : V3 XR) ⟨.inf, .fin 0, .fin 0⟩ = .inf ∧ ¬ (XR.inf > XR.inf) ∧
    ltMin XR.inf none = false := by
  refine ⟨?_, fun h => h, rfl⟩
  have e1 : (XR.fin 0 - XR.inf : XR) = .ninf := rfl
  have e2 : (XR.fin 0 - XR.fin 0 : XR) = .fin 0 := by rw [XR.fin_sub]; simp
  have e3 : (XR.ninf * XR.ninf : XR) = .inf := rfl
  have e4 : ∀ x, (XR.inf + XR.fin x : XR) = .inf := fun _ => rfl
  simp [distanceBetween, V3.norm, dot, e1, e2, e3, e4]
  rfl

end Optics
