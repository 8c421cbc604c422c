import Verif.Model.Num

/-!
# numpy vectors and matrices

"we are representing vectors as 1d numpy arrays, i.e., R = np.array([x, y, z])" (optics3d.py:18).
The model fixes the length 3 (and 4 for the homogeneous vectors of `Shapes/shapes.py`).
-/

namespace Optics

/-- A length-3 numpy array. -/
@[ext] structure V3 (α : Type) where
  x : α
  y : α
  z : α
  deriving Repr

/-- A 3×3 numpy array, by rows. -/
@[ext] structure M3 (α : Type) where
  r0 : V3 α
  r1 : V3 α
  r2 : V3 α
  deriving Repr

/-- A length-4 numpy array (homogeneous coordinates). -/
@[ext] structure V4 (α : Type) where
  x : α
  y : α
  z : α
  w : α
  deriving Repr

/-- A 4×4 numpy array, by rows. -/
@[ext] structure M4 (α : Type) where
  r0 : V4 α
  r1 : V4 α
  r2 : V4 α
  r3 : V4 α
  deriving Repr

variable {α : Type} [PyNum α]

namespace V3
/-- numpy elementwise `u + v`. -/
instance : Add (V3 α) := ⟨fun u v => ⟨u.x + v.x, u.y + v.y, u.z + v.z⟩⟩
/-- numpy elementwise `u - v`. -/
instance : Sub (V3 α) := ⟨fun u v => ⟨u.x - v.x, u.y - v.y, u.z - v.z⟩⟩
/-- numpy elementwise `-u`. -/
instance : Neg (V3 α) := ⟨fun u => ⟨-u.x, -u.y, -u.z⟩⟩
/-- numpy scalar times vector `a * u`. -/
instance : HMul α (V3 α) (V3 α) := ⟨fun a u => ⟨a * u.x, a * u.y, a * u.z⟩⟩
/-- numpy vector over scalar `u / a`. -/
instance : HDiv (V3 α) α (V3 α) := ⟨fun u a => ⟨u.x / a, u.y / a, u.z / a⟩⟩

/-- `np.dot(u, v)` of two vectors. -/
def dot (u v : V3 α) : α := u.x * v.x + u.y * v.y + u.z * v.z
/-- `np.cross(u, v)`. -/
def cross (u v : V3 α) : V3 α :=
  ⟨u.y * v.z - u.z * v.y, u.z * v.x - u.x * v.z, u.x * v.y - u.y * v.x⟩
/-- `np.linalg.norm(u)`. -/
def norm (u : V3 α) : α := PyNum.sqrt (dot u u)

@[simp] theorem add_x (u v : V3 α) : (u + v).x = u.x + v.x := rfl
@[simp] theorem add_y (u v : V3 α) : (u + v).y = u.y + v.y := rfl
@[simp] theorem add_z (u v : V3 α) : (u + v).z = u.z + v.z := rfl
@[simp] theorem sub_x (u v : V3 α) : (u - v).x = u.x - v.x := rfl
@[simp] theorem sub_y (u v : V3 α) : (u - v).y = u.y - v.y := rfl
@[simp] theorem sub_z (u v : V3 α) : (u - v).z = u.z - v.z := rfl
@[simp] theorem neg_x (u : V3 α) : (-u).x = -u.x := rfl
@[simp] theorem neg_y (u : V3 α) : (-u).y = -u.y := rfl
@[simp] theorem neg_z (u : V3 α) : (-u).z = -u.z := rfl
@[simp] theorem smul_x (a : α) (u : V3 α) : (a * u).x = a * u.x := rfl
@[simp] theorem smul_y (a : α) (u : V3 α) : (a * u).y = a * u.y := rfl
@[simp] theorem smul_z (a : α) (u : V3 α) : (a * u).z = a * u.z := rfl
@[simp] theorem sdiv_x (a : α) (u : V3 α) : (u / a).x = u.x / a := rfl
@[simp] theorem sdiv_y (a : α) (u : V3 α) : (u / a).y = u.y / a := rfl
@[simp] theorem sdiv_z (a : α) (u : V3 α) : (u / a).z = u.z / a := rfl
end V3

namespace M3
/-- numpy elementwise `A + B`. -/
instance : Add (M3 α) := ⟨fun A B => ⟨A.r0 + B.r0, A.r1 + B.r1, A.r2 + B.r2⟩⟩
/-- numpy elementwise `A - B`. -/
instance : Sub (M3 α) := ⟨fun A B => ⟨A.r0 - B.r0, A.r1 - B.r1, A.r2 - B.r2⟩⟩
/-- numpy elementwise `-A`. -/
instance : Neg (M3 α) := ⟨fun A => ⟨-A.r0, -A.r1, -A.r2⟩⟩
/-- numpy scalar times matrix. -/
instance : HMul α (M3 α) (M3 α) := ⟨fun a A => ⟨a * A.r0, a * A.r1, a * A.r2⟩⟩
/-- numpy matrix over scalar. -/
instance : HDiv (M3 α) α (M3 α) := ⟨fun A a => ⟨A.r0 / a, A.r1 / a, A.r2 / a⟩⟩
/-- `np.eye(3)` / `np.identity(3)`. -/
def eye : M3 α := ⟨⟨1.0, 0.0, 0.0⟩, ⟨0.0, 1.0, 0.0⟩, ⟨0.0, 0.0, 1.0⟩⟩
/-- `np.outer(u, v)`. -/
def outer (u v : V3 α) : M3 α := ⟨u.x * v, u.y * v, u.z * v⟩
/-- `np.dot(A, v)` / `A.dot(v)`. -/
def mulVec (A : M3 α) (v : V3 α) : V3 α := ⟨V3.dot A.r0 v, V3.dot A.r1 v, V3.dot A.r2 v⟩
/-- columns, used only by `mul` -/
def col0 (A : M3 α) : V3 α := ⟨A.r0.x, A.r1.x, A.r2.x⟩
/-- columns, used only by `mul` -/
def col1 (A : M3 α) : V3 α := ⟨A.r0.y, A.r1.y, A.r2.y⟩
/-- columns, used only by `mul` -/
def col2 (A : M3 α) : V3 α := ⟨A.r0.z, A.r1.z, A.r2.z⟩
/-- `np.dot(A, B)` of two matrices. -/
def mul (A B : M3 α) : M3 α :=
  ⟨⟨V3.dot A.r0 B.col0, V3.dot A.r0 B.col1, V3.dot A.r0 B.col2⟩,
   ⟨V3.dot A.r1 B.col0, V3.dot A.r1 B.col1, V3.dot A.r1 B.col2⟩,
   ⟨V3.dot A.r2 B.col0, V3.dot A.r2 B.col1, V3.dot A.r2 B.col2⟩⟩

@[simp] theorem add_r0 (A B : M3 α) : (A + B).r0 = A.r0 + B.r0 := rfl
@[simp] theorem add_r1 (A B : M3 α) : (A + B).r1 = A.r1 + B.r1 := rfl
@[simp] theorem add_r2 (A B : M3 α) : (A + B).r2 = A.r2 + B.r2 := rfl
@[simp] theorem sub_r0 (A B : M3 α) : (A - B).r0 = A.r0 - B.r0 := rfl
@[simp] theorem sub_r1 (A B : M3 α) : (A - B).r1 = A.r1 - B.r1 := rfl
@[simp] theorem sub_r2 (A B : M3 α) : (A - B).r2 = A.r2 - B.r2 := rfl
@[simp] theorem neg_r0 (A : M3 α) : (-A).r0 = -A.r0 := rfl
@[simp] theorem neg_r1 (A : M3 α) : (-A).r1 = -A.r1 := rfl
@[simp] theorem neg_r2 (A : M3 α) : (-A).r2 = -A.r2 := rfl
@[simp] theorem smul_r0 (a : α) (A : M3 α) : (a * A).r0 = a * A.r0 := rfl
@[simp] theorem smul_r1 (a : α) (A : M3 α) : (a * A).r1 = a * A.r1 := rfl
@[simp] theorem smul_r2 (a : α) (A : M3 α) : (a * A).r2 = a * A.r2 := rfl
@[simp] theorem sdiv_r0 (a : α) (A : M3 α) : (A / a).r0 = A.r0 / a := rfl
@[simp] theorem sdiv_r1 (a : α) (A : M3 α) : (A / a).r1 = A.r1 / a := rfl
@[simp] theorem sdiv_r2 (a : α) (A : M3 α) : (A / a).r2 = A.r2 / a := rfl
end M3

/-- `np.dot(u, v)` of two length-4 vectors. -/
def V4.dot (u v : V4 α) : α := u.x * v.x + u.y * v.y + u.z * v.z + u.w * v.w
/-- `np.dot(A, v)`, 4×4 by 4. -/
def M4.mulVec (A : M4 α) (v : V4 α) : V4 α :=
  ⟨V4.dot A.r0 v, V4.dot A.r1 v, V4.dot A.r2 v, V4.dot A.r3 v⟩
/-- `np.eye(4)`. -/
def M4.eye : M4 α :=
  ⟨⟨1.0, 0.0, 0.0, 0.0⟩, ⟨0.0, 1.0, 0.0, 0.0⟩, ⟨0.0, 0.0, 1.0, 0.0⟩, ⟨0.0, 0.0, 0.0, 1.0⟩⟩
/-- `p4 = np.array([0,0,0,w]); p4[0:3] = p`. -/
def V3.hom (p : V3 α) (w : α) : V4 α := ⟨p.x, p.y, p.z, w⟩
/-- `v[0:3]`. -/
def V4.xyz (v : V4 α) : V3 α := ⟨v.x, v.y, v.z⟩

/-- `np.allclose(u, v, rtol, atol)` of two vectors: all components are close. -/
def allclose (u v : V3 α) (rtol atol : α) : Bool :=
  isclose u.x v.x rtol atol && isclose u.y v.y rtol atol && isclose u.z v.z rtol atol

end Optics
