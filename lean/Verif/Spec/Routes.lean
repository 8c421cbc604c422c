import Verif.Spec.LightPaths
import Verif.Spec.Grating
import Verif.Spec.Scene

/-!
# Specification: routes through flat optics

A route is a polyline through a scene of flat mirrors, micromirror arrays, ideal lenses, gratings and detectors.  At each
inner corner an optic of the scene turns the light by the law of its kind.
-/

namespace Optics

/-- The optic is flat, built with centre `c` and normal `n`. -/
inductive Optic.IsFlat (c n : V3 ℝ) : Optic ℝ → Prop
  | discMirror {D : ℝ} {t : Option (V3 ℝ)} {w h f : Option ℝ} {type : String} {dmd : V3 ℝ} {m : Mirror ℝ} (hD : D ≠ 0)
      (ht : NonZeroVec t) (hf : NonZero f) (hdmd : dmd ≠ ⟨0, 0, 0⟩)
      (hm : Mirror.new c "circular_flat" (some n) (some D) w h f t type (some dmd) = .ok m) : IsFlat c n (.mirror m)
  | rectangleMirror {t : V3 ℝ} {w h : ℝ} {D f : Option ℝ} {type : String} {dmd : V3 ℝ} {m : Mirror ℝ} (ht : t ≠ ⟨0, 0, 0⟩)
      (hw : 0 < w) (hh : 0 < h) (hD : NonZero D) (hf : NonZero f) (hdmd : dmd ≠ ⟨0, 0, 0⟩)
      (hm : Mirror.new c "rectangular_flat" (some n) D (some w) (some h) f (some t) type (some dmd) = .ok m) :
      IsFlat c n (.mirror m)
  | lens {D f index : ℝ} {w h : Option ℝ} {type : String} {l : Lens ℝ} (hD : D ≠ 0) (hf : f ≠ 0) (hi : 0 < index)
      (hl : Lens.new c (some n) "spherical_biconvex" (some D) w h (some f) type index = .ok l) : IsFlat c n (.lens l)
  | grating {t : V3 ℝ} {w h G : ℝ} {g : Grating ℝ} (ht : t ≠ ⟨0, 0, 0⟩) (hw : 0 < w) (hh : 0 < h)
      (hg : Grating.new c n t "rectangular_flat" (some w) (some h) (some G) = .ok g) : IsFlat c n (.grating g)
  | detector {id : Nat} {t : V3 ℝ} {w h : ℝ} {d : Detector ℝ} (ht : t ≠ ⟨0, 0, 0⟩) (hw : 0 < w) (hh : 0 < h)
      (hd : Detector.new id c n t "rectangular_flat" (some w) (some h) = .ok d) : IsFlat c n (.detector d)

/-- `a` is the unit vector along the line of `n`, to the side `d` points to. -/
structure AxisAlong (n d a : E3) : Prop where
  unit : ‖a‖ = 1
  along : ∃ k : ℝ, a = k • n
  side : 0 < inner ℝ d a

/-- The two directions agree up to the tolerance of the tracer, in each coordinate. -/
def WithinTolerance (d a : E3) : Prop := ∀ i, |d i - a i| ≤ 1e-8 + 1e-10 * |a i|

/-- An ideal lens of focal length `f` at `c` with axis `a` turns `d` into `d'` at the point `x` of its plane: both point
to the same side, and the slope against the axis changes by the offset of `x` over the focal length. -/
structure LensTurn (f : ℝ) (c a x d d' : E3) : Prop where
  unit : ‖d'‖ = 1
  side : 0 < inner ℝ d' a
  slope : (inner ℝ d' a : ℝ)⁻¹ • d' = (inner ℝ d a : ℝ)⁻¹ • d - f⁻¹ • (x - c)

/-- The law by which an optic with normal `n` turns the direction `d` of light of the wavelength and order into `d'`, at the
point `x` of its surface.  A detector turns no light. -/
inductive Turns (n : V3 ℝ) (wavelength order : ℝ) (x : V3 ℝ) (d d' : E3) : Optic ℝ → Prop
  | mirror {m : Mirror ℝ} (ht : m.type = "normal") (h : Reflected n.toE d d') : Turns n wavelength order x d d' (.mirror m)
  | micromirrors {m : Mirror ℝ} (ht : m.type = "dmd") (h : Reflected m.dmdNormal.toE d d') :
      Turns n wavelength order x d d' (.mirror m)
  | lens {l : Lens ℝ} {f : ℝ} {a : E3} (ht : l.type = "ideal") (hf : l.f = some f) (hpos : 0 < f) (ha : AxisAlong n.toE d a)
      (hs : 1e-8 < inner ℝ d a) (hclear : WithinTolerance d a → d = a) (h : LensTurn f l.position.toE a x.toE d d') :
      Turns n wavelength order x d d' (.lens l)
  | collimator {l : Lens ℝ} (ht : l.type = "ideal_collimate") (ha : AxisAlong n.toE d d') :
      Turns n wavelength order x d d' (.lens l)
  | focuser {l : Lens ℝ} {f s : ℝ} {a : E3} (ht : l.type = "ideal_focus") (hf : l.f = some f) (hpos : 0 < f)
      (ha : AxisAlong n.toE d a) (hu : ‖d'‖ = 1) (hs : 0 < s) (h : x.toE + s • d' = l.position.toE + f • a) :
      Turns n wavelength order x d d' (.lens l)
  | zeroOrder {g : Grating ℝ} (hm : order = 0) (h : Reflected n.toE d d') : Turns n wavelength order x d d' (.grating g)
  | grating {g : Grating ℝ} {e e' : V3 ℝ} {θ θ' G : ℝ} (he : d = e.toE) (he' : d' = e'.toE) (hm : order ≠ 0) (hG : g.G = some G)
      (hp : inner ℝ g.normal.toE g.tangent.toE = 0) (hu : ‖d'‖ = 1) (hgroove : inner ℝ d' g.tangent.toE = inner ℝ d g.tangent.toE)
      (hfront : inner ℝ d g.normal.toE < 0) (hside : 0 ≤ inner ℝ d (V3.cross g.tangent g.normal).toE)
      (hi : HasAngle g.normal g.tangent (-e) θ) (ho : HasAngle g.normal g.tangent e' θ') (hθ' : |θ'| ≤ Real.pi / 2)
      (heq : Real.sin (-θ) + Real.sin (-θ') = G / 1e6 * order * wavelength) : Turns n wavelength order x d d' (.grating g)

/-- An optic of the scene is met at `w`, coming from `v`, and not at grazing incidence. -/
structure Meets (optics : List (Optic ℝ)) (v w : Vertex) (o : Optic ℝ) (n : V3 ℝ) : Prop where
  mirror : w.mirror = some o
  mem : o ∈ optics
  flat : ∃ c, o.IsFlat c n
  hit : o.CanBeHit w.point
  steep : 1e-9 * ‖n.toE‖ < |inner ℝ n.toE (heading v w)|

/-- A route through a scene for light of the wavelength and order. -/
structure Route (optics : List (Optic ℝ)) (wavelength order : ℝ) (path : List Vertex) : Prop where
  leg : ∀ v w, [v, w] <:+: path → Leg optics v w
  turn : ∀ u v w, [u, v, w] <:+: path → ∃ o n, Meets optics u v o n ∧
    Turns n wavelength order v.point (heading u v) (heading v w) o

end Optics
