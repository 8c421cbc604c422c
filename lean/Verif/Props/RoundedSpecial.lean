import Verif.Props.NearestX
import Verif.Model.Rounded

/-!
# C45 with rounded arithmetic: infinities and nan

An operation on doubles can overflow.  Whatever the rounding, a distance that has overflowed is never the nearest one, and a
ray whose direction is undefined meets no plane and no sphere.
-/

namespace Optics
open V3
variable {R : Rounding}

/-- A float that `<` can put below `np.inf`. -/
def FlBelowInf (m : Option (Fl R)) : Prop := ∀ d, m = some d → d.val ≠ .inf ∧ d.val ≠ .nan

theorem flBelowInf_of_ltMin {d : Fl R} {m : Option (Fl R)} (h : ltMin d m = true) : FlBelowInf (some d) := by
  rintro _ ⟨rfl⟩
  rcases m with _ | m
  · have h' : PyNum.ltInf d.val = true := h
    rcases hd : d.val with _ | _ | _ | x <;> simp_all [PyNum.ltInf]
  · have h' : d.val < m.val := of_decide_eq_true h
    change XR.lt d.val m.val at h'
    rcases hd : d.val with _ | _ | _ | x <;> rcases hm : m.val with _ | _ | _ | y <;> simp_all [XR.lt]

/-- C45 with rounded arithmetic, for hits that overflow: neither an infinite nor an undefined distance is ever recorded as the
least distance, by the loops over the surfaces of an optic. -/
theorem C45_overflow_surfaces_rounded {setNormal : Bool} {ray : Ray (Fl R)} {v v' : LoopVars (Fl R)}
    (hv : FlBelowInf v.minDistance) :
    (∀ surface, flatStep setNormal ray v surface = .ok v' → FlBelowInf v'.minDistance) ∧
      (∀ r, sphereUpdate ray v r = .ok v' → FlBelowInf v'.minDistance) := by
  constructor
  · intro surface h
    unfold flatStep at h
    obtain ⟨r, -, h⟩ := py_bind h
    obtain ⟨r3, -, h⟩ := py_bind h
    simp only [] at h
    split at h
    · obtain ⟨pt, -, h⟩ := py_bind h
      split at h
      · rename_i h1
        split at h
        · obtain ⟨n, -, h⟩ := py_bind h
          cases h; exact flBelowInf_of_ltMin h1
        · cases h; exact flBelowInf_of_ltMin h1
      · cases h; exact hv
    · cases h; exact hv
  · intro r h
    unfold sphereUpdate at h
    obtain ⟨p1, -, h⟩ := py_bind h
    simp only [] at h
    split at h
    · rename_i h2
      obtain ⟨n1, -, h⟩ := py_bind h
      obtain ⟨v1, e, h⟩ := py_bind h
      have hv1 : FlBelowInf v1.minDistance := by cases e; exact flBelowInf_of_ltMin h2
      split at h
      · cases h; exact hv1
      · split at h
        · rename_i h3
          obtain ⟨n2, -, h⟩ := py_bind h
          cases h; exact flBelowInf_of_ltMin h3
        · cases h; exact hv1
    · obtain ⟨v1, e, h⟩ := py_bind h
      have hv1 : FlBelowInf v1.minDistance := by cases e; exact hv
      split at h
      · cases h; exact hv1
      · split at h
        · rename_i h3
          obtain ⟨n2, -, h⟩ := py_bind h
          cases h; exact flBelowInf_of_ltMin h3
        · cases h; exact hv1

/-- C45 with rounded arithmetic, for hits that overflow: the same for the loop over the optics; and an optic is only selected
with a distance that is a number. -/
theorem C45_overflow_optics_rounded {ray : Ray (Fl R)} {remaining : Fl R} {v v' : ScanVars (Fl R)} {optic : Optic (Fl R)}
    (hv : FlBelowInf v.minDistance) (h : scanStep ray remaining v optic = .ok v') :
    FlBelowInf v'.minDistance ∧ (v'.selected ≠ v.selected → ∃ d, v'.minDistance = some d ∧ d.val ≠ .inf ∧ d.val ≠ .nan) := by
  unfold scanStep at h
  split_ifs at h
  · cases h; exact ⟨hv, fun h => absurd rfl h⟩
  obtain ⟨r, -, h⟩ := py_bind h
  simp only [] at h
  split_ifs at h
  · obtain ⟨pt, -, h⟩ := py_bind h
    split_ifs at h with h1 h2 h3
    · cases h; exact ⟨hv, fun h => absurd rfl h⟩
    · cases h
      exact ⟨flBelowInf_of_ltMin h3, fun _ => ⟨_, rfl, flBelowInf_of_ltMin h3 _ rfl⟩⟩
    · cases h; exact ⟨hv, fun h => absurd rfl h⟩
    · cases h; exact ⟨hv, fun h => absurd rfl h⟩
  · cases h; exact ⟨hv, fun h => absurd rfl h⟩

/-- The largest double is below infinity and can be recorded; infinity and nan are not. -/
example : ltMin (⟨.inf⟩ : Fl R) none = false ∧ ltMin (⟨.nan⟩ : Fl R) none = false ∧ ltMin (Fl.fin 3 : Fl R) none = true :=
  ⟨rfl, rfl, rfl⟩

/-! ## Undefined directions -/

theorem fl_nan_mul {a b : Fl R} (h : a.val = .nan) : (a * b).val = .nan := by
  show R.apply (a.val * b.val) = .nan
  rw [h, XR.nan_mul]; rfl

theorem fl_mul_nan {a b : Fl R} (h : b.val = .nan) : (a * b).val = .nan := by
  show R.apply (a.val * b.val) = .nan
  rw [h, XR.mul_nan]; rfl

theorem fl_nan_add {a b : Fl R} (h : a.val = .nan) : (a + b).val = .nan := by
  show R.apply (a.val + b.val) = .nan
  rw [h, XR.nan_add]; rfl

theorem fl_nan_sub {a b : Fl R} (h : a.val = .nan) : (a - b).val = .nan := by
  show R.apply (a.val - b.val) = .nan
  rw [h, XR.nan_sub]; rfl

theorem fl_nan_div {a b : Fl R} (h : a.val = .nan) : (a / b).val = .nan := by
  show R.apply (a.val / b.val) = .nan
  rw [h, show ∀ y : XR, (XR.nan / y : XR) = .nan from fun y => by simp]; rfl

theorem fl_dot_nan {v w : V3 (Fl R)} (h : v.x.val = .nan) : (dot v w).val = .nan :=
  fl_nan_add (fl_nan_add (fl_nan_mul h))

theorem fl_dot_nan' {v w : V3 (Fl R)} (h : w.x.val = .nan) : (dot v w).val = .nan :=
  fl_nan_add (fl_nan_add (fl_mul_nan h))

theorem fl_not_lt_nan {a b : Fl R} (h : b.val = .nan) : ¬ a < b := by
  show ¬ a.val < b.val
  rw [h]
  rcases a.val with _ | _ | _ | x <;> exact fun h => h

/-- C45 with rounded arithmetic, for a ray that a grating has left without a direction: once a coordinate of its direction is
`nan`, no plane, no rectangle and no sphere reports a hit. -/
theorem C45_nan_rounded {ray : Ray (Fl R)} (hd : ray.direction.x.val = .nan) :
    (∀ p : Plane (Fl R), p.testIntersect ray = Hit3.miss) ∧ (∀ r : Rectangle (Fl R), r.testIntersect ray = Hit3.miss) ∧
      ∀ s : Sphere (Fl R), s.testIntersect ray = Hit6.miss 0 := by
  have hp : ∀ p : Plane (Fl R), p.testIntersect ray = Hit3.miss := by
    intro p
    unfold Plane.testIntersect
    have e : (dot (unitVector p.normal) (unitVector ray.direction)).val = XR.nan := fl_dot_nan' (fl_nan_div hd)
    simp only []
    rw [if_neg]
    refine fl_not_lt_nan ?_
    show PyNum.abs (dot (unitVector p.normal) (unitVector ray.direction)).val = XR.nan
    rw [e]; rfl
  refine ⟨hp, ?_, ?_⟩
  · intro r
    unfold Rectangle.testIntersect
    simp only [hp]
    rfl
  · intro s
    unfold Sphere.testIntersect
    have e : ∀ q c : V3 (Fl R), ∀ z : Fl R, (dot ray.direction q * dot ray.direction q - z).val = XR.nan :=
      fun q c z => fl_nan_sub (fl_nan_mul (fl_dot_nan hd))
    simp only []
    rw [if_neg (fl_not_lt_nan (e _ s.center _)), if_neg]
    intro h
    have h' : PyNum.eqb (dot ray.direction (s.center - ray.position) * dot ray.direction (s.center - ray.position) -
      (dot (s.center - ray.position) (s.center - ray.position) - s.R * s.R)).val (0.0 : Fl R).val = true := h
    rw [e _ s.center] at h'
    exact Bool.false_ne_true h'

/-- Such a direction arises: `0/0`, the direction of a ray along the zero vector. -/
example : ((Fl.fin 0 : Fl R) / Fl.fin 0).val = .nan := by
  show R.apply (XR.fin 0 / XR.fin 0) = .nan
  have : (XR.fin 0 / XR.fin 0 : XR) = .nan := by
    show XR.div (.fin 0) (.fin 0) = .nan
    simp [XR.div, XR.infSign]
  rw [this]; rfl

end Optics
