import Verif.Model.XR
import Verif.Model.Vec

/-! # Finite numpy data: real vectors seen as numpy arrays -/

namespace Optics

/-- A real vector as a numpy array of finite floats. -/
def V3.lift (v : V3 ℝ) : V3 XR := ⟨.fin v.x, .fin v.y, .fin v.z⟩

/-- The numpy array `[nan, nan, nan]`. -/
def V3.nan : V3 XR := ⟨.nan, .nan, .nan⟩

/-- A finite numpy array. -/
def V3.IsFinite (v : V3 XR) : Prop := ∃ u : V3 ℝ, v = u.lift

theorem nan_not_finite : ¬ V3.nan.IsFinite := by
  rintro ⟨u, h⟩; simp [V3.nan, V3.lift] at h

end Optics
