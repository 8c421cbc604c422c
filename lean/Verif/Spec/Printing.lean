import Verif.Model.Print

/-!
# Vocabulary for what is printed
-/

namespace Optics

/-- An infinite component. -/
def V3.Infinite (v : V3 XR) : Prop :=
  (v.x = .inf ∨ v.x = .ninf) ∨ (v.y = .inf ∨ v.y = .ninf) ∨ (v.z = .inf ∨ v.z = .ninf)

def Ray.Infinite (r : Ray XR) : Prop := r.position.Infinite ∨ r.direction.Infinite

/-- The texts of the rays printed. -/
def rayLines : List Line → List (List Char)
  | [] => []
  | .ray t :: l => t :: rayLines l
  | _ :: l => rayLines l

/-- The rays whose `repr` was printed. -/
def Shown (out : List Line) (L : List (Ray XR)) : Prop := L.map Ray.repr = (rayLines out).map Except.ok

/-- How often "intersected (messages TODO)" was printed. -/
def hitLines : List Line → Nat
  | [] => 0
  | .intersected :: l => hitLines l + 1
  | _ :: l => hitLines l

/-- How often "not intersected (messages TODO)" was printed. -/
def freeLines : List Line → Nat
  | [] => 0
  | .notIntersected :: l => freeLines l + 1
  | _ :: l => freeLines l

/-- Optics that call `Ray.refract`. -/
def Optic.Refracts : Optic XR → Prop
  | .lens _ => True
  | .compound c => c.surfaceBehavior = "refract"
  | _ => False

/-- Optics that print the angle they turn the ray by: gratings, in an order other than zero. -/
def Optic.Turns (o : Optic XR) (order : XR) : Prop := (∃ g, o = .grating g) ∧ PyNum.eqb order 0.0 = false

/-- The ray `r` at the end of a pass, still in the direction it had before. -/
def Ray.arriving (r : Ray XR) (d : V3 XR) : Ray XR := { r with direction := d }

/-- What a pass from `s` to `t` is to print: a message, the ray on arrival, and what the optic has done to it. -/
inductive Tells (s t : RunState XR) : List Line → Prop
  /-- no optic is met -/
  | free {a} (hi : t.interactions = s.interactions) (ha : (t.ray.arriving s.ray.direction).repr = .ok a) :
      Tells s t [.notIntersected, .ray a]
  /-- a ray of faerie fire ends here -/
  | faerie {a} (hi : t.interactions = s.interactions + 1) (hf : s.ray.type = "faerie_fire")
      (ha : (t.ray.arriving s.ray.direction).repr = .ok a) : Tells s t [.intersected, .ray a]
  /-- a refracting optic: the ray is printed again -/
  | bent {a b sel} (hi : t.interactions = s.interactions + 1) (hf : s.ray.type ≠ "faerie_fire")
      (ha : (t.ray.arriving s.ray.direction).repr = .ok a) (hs : t.selected = some sel) (hr : sel.optic.Refracts)
      (hb : t.ray.repr = .ok b) : Tells s t [.intersected, .ray a, .ray b]
  /-- a grating, in an order other than zero -/
  | turned {a x sel} (hi : t.interactions = s.interactions + 1) (hf : s.ray.type ≠ "faerie_fire")
      (ha : (t.ray.arriving s.ray.direction).repr = .ok a) (hs : t.selected = some sel) (ho : sel.optic.Turns s.ray.order) :
      Tells s t [.intersected, .ray a, .turned s.ray.wavelength x]
  /-- anything else -/
  | plain {a sel} (hi : t.interactions = s.interactions + 1) (hf : s.ray.type ≠ "faerie_fire")
      (ha : (t.ray.arriving s.ray.direction).repr = .ok a) (hs : t.selected = some sel) (hr : ¬ sel.optic.Refracts)
      (ho : ¬ sel.optic.Turns s.ray.order) : Tells s t [.intersected, .ray a]

/-- What the passes from `s` to `t` are to print. -/
inductive Narrates (md : XR) (optics : List (Optic XR)) : RunState XR → RunState XR → List Line → Prop
  | done (s) : Narrates md optics s s []
  | pass {s t u l l'} (h : runStep md optics s = .next t) (ht : Tells s t l) (hu : Narrates md optics t u l') :
      Narrates md optics s u (l ++ l')

end Optics
