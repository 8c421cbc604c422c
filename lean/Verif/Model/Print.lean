import Verif.Model.Optics
import Verif.Model.General

/-!
# What is printed: `__repr__` and `print_trajectory=True`

`Verif.Model.Optics` models `Ray` with `print_trajectory=False`.  Here is the other branch of the eight `if
self.print_trajectory`, in numpy arithmetic (`XR`), where `to_precision` may raise.  A ray keeps the changes made
before the exception.  Not modelled: the text of a number in the line about gratings (`str.format` of a float, which
does not raise), and the two alerts of general_optics.py:515 and 606, printed whatever the flag.
-/

namespace Optics

/-- One printed line. -/
inductive Line where
  /-- `print(self)` of a ray -/
  | ray (text : List Char)
  /-- "--- run begin ---" -/
  | runBegin
  /-- "not intersected (messages TODO)" -/
  | notIntersected
  /-- "intersected (messages TODO)" -/
  | intersected
  /-- "light at wavelength {} turned {} by grating" -/
  | turned (wavelength angle : XR)
  /-- "--- run complete ---" -/
  | runComplete

/-- `"({}, {}, {})"` of the three components in five digits. -/
noncomputable def V3.text (v : V3 XR) : Py (List Char) := do
  let x ← toPrecision v.x 5
  let y ← toPrecision v.y 5
  let z ← toPrecision v.z 5
  return '(' :: x ++ [',', ' '] ++ y ++ [',', ' '] ++ z ++ [')']

/-- `"{} ({}, {}, {}),  ({}, {}, {})"`. -/
noncomputable def reprText (name : List Char) (p d : V3 XR) : Py (List Char) := do
  let p ← p.text
  let d ← d.text
  return name ++ [' '] ++ p ++ [',', ' ', ' '] ++ d

/-- optics3d.py:629-635 `Ray.__repr__`. -/
noncomputable def Ray.repr (ray : Ray XR) : Py (List Char) := reprText ['R', 'a', 'y'] ray.position ray.direction

/-- `__repr__` of the optics: optics3d.py:62-69 (base class and those that inherit it: `self.optic_type` does not
exist), 90-91, 176-182, 348-354, 488-494, 554-560.  A convex mirror has no attribute `normal`, the normal of a lens may be
`None`. -/
noncomputable def Optic.repr : Optic XR → Py (List Char)
  | .base | .annotation | .filter | .window | .block => .error .attributeError
  | .compound _ => .ok "Compound".toList
  | .mirror m => do
    let p ← m.position.text
    match m.normal with
    | none => .error .attributeError
    | some n =>
      let d ← n.text
      return "Mirror".toList ++ [' '] ++ p ++ [',', ' ', ' '] ++ d
  | .lens l => do
    let p ← l.position.text
    let n ← need l.normal
    let d ← n.text
    return "Lens".toList ++ [' '] ++ p ++ [',', ' ', ' '] ++ d
  | .grating g => reprText "Grating".toList g.position g.normal
  | .detector d => reprText "Detector".toList d.position d.normal

/-- A method called on a ray: the ray afterwards, the lines printed, and the exception, if any. -/
structure Act where
  ray : Ray XR
  out : List Line
  err : Option PyErr

/-- `print(self)`. -/
noncomputable def Ray.say (ray : Ray XR) : Act :=
  match ray.repr with
  | .ok t => ⟨ray, [.ray t], none⟩
  | .error e => ⟨ray, [], some e⟩

/-- optics3d.py:616-627 `Ray.__init__`. -/
noncomputable def Ray.newP (position direction : V3 XR) (wavelength order : XR) (type : String) : Act :=
  (Ray.new position direction wavelength order type).say

/-- optics3d.py:641-649 `Ray.fly`. -/
noncomputable def Ray.flyP (ray : Ray XR) (distance : Option XR) : Act :=
  match ray.fly distance with
  | .error e => ⟨ray, [], some e⟩
  | .ok r => r.say

/-- optics3d.py:651-776 `Ray.refract`. -/
noncomputable def Ray.refractP (ray : Ray XR) (refractType : String) (normal : Option (V3 XR))
    (optic : OpticAttrs XR) (intersectionPt : V3 XR) (eta1 eta2 : Option XR) : Act :=
  match ray.refract refractType normal optic intersectionPt eta1 eta2 with
  | .error e => ⟨ray, [], some e⟩
  | .ok r => r.say

/-- optics3d.py:787-809: `alpha + beta`. -/
noncomputable def gratingTurn (direction normal tangent : V3 XR) (G order wavelength : XR) : XR :=
  let normal := unitVector normal
  let incident := unitVector direction
  let n := unitVector (projectOntoPlane normal tangent)
  let i := unitVector (projectOntoPlane incident tangent)
  let alpha := angleBetween (-i) n (some tangent)
  let sgn : XR := if alpha < 0.0 then -1.0 else 1.0
  let beta := PyNum.arcsin (G / 1e6 * order * wavelength - PyNum.sin (sgn * alpha))
  alpha + beta

/-- optics3d.py:778-820 `Ray.reflect`. -/
noncomputable def Ray.reflectP (ray : Ray XR) (reflectType : String) (normal : Option (V3 XR))
    (optic : OpticAttrs XR) : Act :=
  match ray.reflect reflectType normal optic with
  | .error e => ⟨ray, [], some e⟩
  | .ok r =>
    if reflectType = "grating" then
      match normal, optic.tangent, optic.G with
      | some n, some t, some G => ⟨r, [.turned ray.wavelength (gratingTurn ray.direction n t G ray.order ray.wavelength)], none⟩
      | _, _, _ => ⟨r, [], none⟩
    else ⟨r, [], none⟩

/-- optics3d.py:102-130 `Compound.do_intersect`. -/
noncomputable def Compound.doIntersectP (c : Compound XR) (ray : Ray XR) (pt : V3 XR) (normal : Option (V3 XR)) : Act :=
  if c.surfaceBehavior = "reflect" then ray.reflectP "specular_flat" normal ⟨pt, none, none, none, none⟩
  else if c.surfaceBehavior = "refract" then
    match c.getIndexAtPointIfInside (pt + (1e-8 : XR) * ray.direction) with
    | .error e => ⟨ray, [], some e⟩
    | .ok (some _) =>
      ray.refractP "snells_law" normal ⟨pt, none, none, none, none⟩ pt (some indexOfTheWorld) (some c.index)
    | .ok none =>
      ray.refractP "snells_law" normal ⟨pt, none, none, none, none⟩ pt (some c.index) (some indexOfTheWorld)
  else ⟨ray, [], some .valueError⟩

/-- optics3d.py:247-255 `Mirror.do_intersect`. -/
noncomputable def Mirror.doIntersectP (m : Mirror XR) (ray : Ray XR) (pt : V3 XR) (normal : Option (V3 XR)) : Act :=
  if m.type = "normal" then ray.reflectP "specular_flat" normal ⟨pt, none, none, none, none⟩
  else if m.type = "dmd" then ray.reflectP "specular_flat" (some m.dmdNormal) ⟨pt, none, none, none, none⟩
  else ⟨ray, [], none⟩

/-- optics3d.py:409-441 `Lens.do_intersect`. -/
noncomputable def Lens.doIntersectP (l : Lens XR) (ray : Ray XR) (pt : V3 XR) (normal : Option (V3 XR)) (sfo : Sfo) : Act :=
  let attrs : OpticAttrs XR := ⟨l.position, l.normal, l.f, none, none⟩
  if l.type = "ideal" then ray.refractP "thin_lens" normal attrs pt none none
  else if l.type = "ideal_collimate" then ray.refractP "ideal_collimate" normal attrs pt none none
  else if l.type = "ideal_focus" then ray.refractP "ideal_focus" normal attrs pt none none
  else if sfo.truthy then ray.refractP "snells_law" normal attrs pt (some 1.0) (some l.index)
  else
    match normal with
    | none => ⟨ray, [], some .typeError⟩
    | some n => ray.refractP "snells_law" (some (-n)) attrs pt (some l.index) (some 1.0)

/-- optics3d.py:512-521 `Grating.do_intersect`. -/
noncomputable def Grating.doIntersectP (g : Grating XR) (ray : Ray XR) (pt : V3 XR) (normal : Option (V3 XR)) : Act :=
  if PyNum.eqb ray.order 0.0 then ray.reflectP "specular_flat" normal ⟨pt, none, none, none, none⟩
  else ray.reflectP "grating" normal ⟨g.position, some g.normal, none, some g.tangent, g.G⟩

/-- `optic.do_intersect(ray, pt, normal, sfo)`, with the rows appended to `hit_data`. -/
noncomputable def Optic.doIntersectP (o : Optic XR) (ray : Ray XR) (pt : V3 XR) (normal : Option (V3 XR)) (sfo : Sfo) :
    Act × List (DetHit XR) :=
  match o with
  | .compound c => (c.doIntersectP ray pt normal, [])
  | .mirror m => (m.doIntersectP ray pt normal, [])
  | .lens l => (l.doIntersectP ray pt normal sfo, [])
  | .grating g => (g.doIntersectP ray pt normal, [])
  | .detector d => (⟨{ ray with blocked := true }, [], none⟩, [⟨d.id, pt, ray.wavelength⟩])
  | .block => (⟨{ ray with blocked := true }, [], none⟩, [])
  | .base | .annotation | .filter | .window => (⟨ray, [], none⟩, [])

/-- optics3d.py:831-871: one pass of the `while` loop, and what it prints. -/
noncomputable def runStepP (maxDistance : XR) (optics : List (Optic XR)) (s : RunState XR) : List Line × StepResult XR :=
  match optics.foldlM (scanStep s.ray s.remaining) ⟨false, none, s.selected, s.sfo⟩ with
  | .error e => ([], .raised e s)
  | .ok v =>
    let s := { s with selected := v.selected, sfo := v.sfo }
    if !v.intersected then
      let a := s.ray.flyP (some s.remaining)
      (.notIntersected :: a.out,
        match a.err with
        | some e => .raised e { s with ray := a.ray }
        | none => .next { s with ray := a.ray, remaining := s.remaining - maxDistance })
    else
      match v.selected with
      | none => ([.intersected], .raised .unboundLocalError s)
      | some sel =>
        let d := distanceBetween s.ray.position sel.pt
        let a := s.ray.flyP (some d)
        match a.err with
        | some e => (.intersected :: a.out, .raised e { s with ray := a.ray })
        | none =>
          let s := { s with ray := a.ray, remaining := s.remaining - d, interactions := s.interactions + 1 }
          if a.ray.type = "faerie_fire" then
            (.intersected :: a.out, .next { s with ray := { a.ray with blocked := true } })
          else
            match v.sfo with
            | none => (.intersected :: a.out, .raised .unboundLocalError s)
            | some sfo =>
              let b := sel.optic.doIntersectP a.ray sel.pt sel.normal sfo
              (.intersected :: a.out ++ b.1.out,
                match b.1.err with
                | some e => .raised e { s with ray := b.1.ray }
                | none => .next { s with ray := b.1.ray, log := s.log ++ b.2 })

/-- optics3d.py:830-871: the `while` loop. -/
noncomputable def runLoopP (maxDistance : XR) (optics : List (Optic XR)) (maxInteractions : Option Int) :
    Nat → RunState XR → List Line × Outcome XR
  | 0, s => ([], .outOfFuel s)
  | fuel + 1, s =>
    if s.continues maxInteractions then
      match runStepP maxDistance optics s with
      | (out, .raised e s) => (out, .raised e s)
      | (out, .next s) =>
        let r := runLoopP maxDistance optics maxInteractions fuel s
        (out ++ r.1, r.2)
    else ([.runComplete], .finished s)

/-- optics3d.py:822-873 `Ray.run`. -/
noncomputable def Ray.runP (ray : Ray XR) (maxDistance : XR) (optics : List (Optic XR))
    (maxInteractions : Option Int) (fuel : Nat) : List Line × Outcome XR :=
  let r := runLoopP maxDistance optics maxInteractions fuel (RunState.init ray maxDistance)
  (.runBegin :: r.1, r.2)

end Optics
