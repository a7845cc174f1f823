import Verif.Model.Heap

/-!
# What can be observed of an object on the heap, and which objects it consists of

Nothing here depends on how a constructor works: only on the heap itself.
-/

namespace Openspace.Mem

/-- the value of an attribute as an observer sees it: numbers, flags, strings, and for an
object its class and the values of its attributes.  `cut` stands for what lies below the
depth of the observation (and for a reference to no object). -/
inductive Tree
  | num (x : ℝ)
  | flag (b : Bool)
  | str (s : String)
  | cut
  | node (cls : String) (fields : String → Option Tree)

/-- observation of a value to depth `n`, i.e. through attribute paths `a.f.g...` of length at
most `n` -/
def view (h : Heap) : ℕ → Val → Tree
  | _, .num x => .num x
  | _, .flag b => .flag b
  | _, .str s => .str s
  | 0, .ref _ => .cut
  | n + 1, .ref a =>
    match h[a]? with
    | none => .cut
    | some o => .node o.cls fun f => (o.fields f).map (view h n)

/-- `b` is the object `a` itself or can be got from it by reading attributes -/
inductive PartOf (h : Heap) (a : ℕ) : ℕ → Prop
  | self : PartOf h a a
  | attr {b c : ℕ} {o : Obj} {f : String} :
      PartOf h a b → h[b]? = some o → o.fields f = some (.ref c) → PartOf h a c

/-- every reference on the heap refers to an existing object (true of every Python heap) -/
def NoDangling (h : Heap) : Prop :=
  ∀ (i : ℕ) (o : Obj) (f : String) (b : ℕ),
    h[i]? = some o → o.fields f = some (.ref b) → b < h.length

/-- the calls the property is about: constructors, `copy()` and the accessors of a spacecraft -/
inductive Isolating : H ℕ → Prop
  | epoch (v : ℝ) : Isolating (epochNew v)
  | epochCopy (e : ℕ) : Isolating (epochCopy e)
  | vec3 (x y z : ℝ) : Isolating (vec3New x y z)
  | vec3Copy (a : ℕ) : Isolating (vec3Copy a)
  | vec6 (x y z vx vy vz : ℝ) : Isolating (vec6New x y z vx vy vz)
  | vec6Copy (a : ℕ) : Isolating (vec6Copy a)
  | vec6FromPosVel (r v : ℕ) : Isolating (vec6FromPosVel r v)
  | mat3 (r1 r2 r3 : ℕ) : Isolating (mat3New r1 r2 r3)
  | mat36 (r1 r2 r3 : ℕ) : Isolating (mat36New r1 r2 r3)
  | mat63 (r1 r2 r3 r4 r5 r6 : ℕ) : Isolating (mat63New r1 r2 r3 r4 r5 r6)
  | mat6 (r1 r2 r3 r4 r5 r6 : ℕ) : Isolating (mat6New r1 r2 r3 r4 r5 r6)
  | state (cls : String) (e r v : ℕ) : Isolating (plainStateNew cls e r v)
  | gcrf (e r v : ℕ) : Isolating (gcrfNew e r v)
  | stateCopy (s : ℕ) : Isolating (stateCopy s)
  | elements (ep : ℕ) (a e i raan w ma : ℝ) : Isolating (elementsNew ep a e i raan w ma)
  | spaceOb (s d : ℕ) (re ae : ℝ) : Isolating (spaceObNew s d re ae)
  | groundOb (s d : ℕ) (re ae : ℝ) : Isolating (groundObNew s d re ae)
  | rk4 (s : ℕ) : Isolating (rk4New s)
  | hill (s : ℕ) (sma : ℝ) : Isolating (hillNew s sma)
  | camera (pixels fov : ℝ) : Isolating (cameraNew pixels fov)
  | spacecraft (s : ℕ) : Isolating (spacecraftNew s)
  | currentState (s : ℕ) : Isolating (currentState s)
  | currentEpoch (s : ℕ) : Isolating (currentEpoch s)
  | position (s : ℕ) : Isolating (position s)
  | velocity (s : ℕ) : Isolating (velocity s)

/-- every modelled call which leaves existing objects alone: the ones above, the constructor
of the navigation filter and `Observation.epoch()` -/
inductive Call : H ℕ → Prop
  | isolating {m : H ℕ} : Isolating m → Call m
  | kalman (dcov dnoise e p : ℕ) : Call (kalmanNew dcov dnoise e p)
  | obEpoch (ob : ℕ) : Call (obEpoch ob)

/-- the heap after some more of the program: any interleaving of calls (returning or raising)
and of assignments `a.f = v` to objects outside `prot` -/
inductive Later (prot : ℕ → Prop) (h : Heap) : Heap → Prop
  | now : Later prot h h
  | call {h1 h2 : Heap} {m : H ℕ} {r : Except PyErr ℕ} :
      Later prot h h1 → Call m → m h1 = (r, h2) → Later prot h h2
  | assign {h1 h2 : Heap} {a : ℕ} {f : String} {v : Val} {r : Except PyErr Unit} :
      Later prot h h1 → ¬ prot a → setAttr a f v h1 = (r, h2) → Later prot h h2

/-! ## Objects which hold a value of the value-level model -/

/-- the object at `a` has class `cls` -/
def HasClass (h : Heap) (a : ℕ) (cls : String) : Prop := ∃ o, h[a]? = some o ∧ o.cls = cls

/-- the attribute `f` of the object at `a` holds `v` -/
def Has (h : Heap) (a : ℕ) (f : String) (v : Val) : Prop := ∃ o, h[a]? = some o ∧ o.fields f = some v

/-- the attribute `f` of the object at `a` is an object satisfying `P` -/
def HasObj (h : Heap) (a : ℕ) (f : String) (P : ℕ → Prop) : Prop := ∃ b, Has h a f (.ref b) ∧ P b

/-- the object at `a` is an `Epoch` equal to `e` -/
def IsEpoch (h : Heap) (e : Epoch) (a : ℕ) : Prop := Has h a "value" (.num e.value)

/-- the object at `a` is a `Vector3D` equal to `v` -/
def IsVec3 (h : Heap) (v : Vec3) (a : ℕ) : Prop :=
  Has h a "x" (.num v.x) ∧ Has h a "y" (.num v.y) ∧ Has h a "z" (.num v.z)

/-- the object at `a` is a `Vector6D` equal to `v` -/
def IsVec6 (h : Heap) (v : Vec6) (a : ℕ) : Prop :=
  Has h a "x" (.num v.x) ∧ Has h a "y" (.num v.y) ∧ Has h a "z" (.num v.z) ∧
    Has h a "vx" (.num v.vx) ∧ Has h a "vy" (.num v.vy) ∧ Has h a "vz" (.num v.vz)

/-- the object at `a` is a `Matrix3D` equal to `m` -/
def IsMat3 (h : Heap) (m : Mat3) (a : ℕ) : Prop :=
  HasObj h a "row1" (IsVec3 h m.row1) ∧ HasObj h a "row2" (IsVec3 h m.row2) ∧
    HasObj h a "row3" (IsVec3 h m.row3)

/-- the object at `a` is a `State` equal to `s` -/
def IsState (h : Heap) (s : State) (a : ℕ) : Prop :=
  HasObj h a "epoch" (IsEpoch h s.epoch) ∧ HasObj h a "position" (IsVec3 h s.position) ∧
    HasObj h a "velocity" (IsVec3 h s.velocity) ∧ HasObj h a "vector" (IsVec6 h s.vector)

end Openspace.Mem
