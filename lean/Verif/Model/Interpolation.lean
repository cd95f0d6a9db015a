import Verif.Model.Value

/-!
# Interpolation (`qlab_math::interpolation`)

Vectors are lists.  Indexing out of bounds is a panic.
-/

namespace Qlab

/-- `v[i]` on a `Vec` or slice: panics when out of bounds. -/
def Rust.index {α : Type} (l : List α) (i : Nat) : Rust α := Rust.unwrap l[i]?

/-- `V::from_i8(n).unwrap()`. -/
def fromI8 (V : Type) [FromInt V] (n : Int) : Rust V := Rust.unwrap (FromInt.fromInt (V := V) n)

/-! ## `core::slice::partition_point` -/

/-- Loop of `slice::binary_search_by` as called by `slice::partition_point` (Rust 1.52 to 1.81): the
comparison is `Less` where the predicate holds and `Greater` elsewhere.  `left < right ≤ l.len()`, so the
unchecked access of the source is in bounds. -/
def binarySearchLoop {α : Type} (pred : α → Bool) (l : List α) (left right : Nat) : Nat :=
  if left < right then
    let mid := left + (right - left) / 2
    if (l[mid]?.map pred).getD false then binarySearchLoop pred l (mid + 1) right
    else binarySearchLoop pred l left mid
  else left
termination_by right - left

/-- `slice::partition_point`. -/
def partitionPoint {α : Type} (pred : α → Bool) (l : List α) : Nat :=
  binarySearchLoop pred l 0 l.length

/-- Loop of the branchless `slice::binary_search_by` (Rust 1.82 on). -/
def branchlessLoop {α : Type} (pred : α → Bool) (l : List α) (base size : Nat) : Nat :=
  if 1 < size then
    let half := size / 2
    let mid := base + half
    let base' := if (l[mid]?.map pred).getD false then mid else base
    branchlessLoop pred l base' (size - half)
  else base
termination_by size

/-- `slice::partition_point` of Rust 1.82 on.  Used only to show that the choice of the standard library
version does not matter (`C34_std_versions_agree`). -/
def partitionPointBranchless {α : Type} (pred : α → Bool) (l : List α) : Nat :=
  if l.length = 0 then 0
  else
    let base := branchlessLoop pred l 0 l.length
    base + if (l[base]?.map pred).getD false then 1 else 0

/-! ## Points -/

/-- `Point2D` (`crates/qlab-math/src/interpolation.rs:12-15`). -/
structure Point2D (V : Type) where
  x : V
  y : V
  deriving DecidableEq, Repr

/-- `Point2DWithSlope` (`crates/qlab-math/src/interpolation.rs:17-20`). -/
structure Point2DWithSlope (V : Type) where
  coordinate : Point2D V
  dydx : V
  deriving DecidableEq, Repr

/-- `Point2DWithSlope::new` (`crates/qlab-math/src/interpolation.rs:22-29`). -/
def Point2DWithSlope.new {V : Type} (x y dydx : V) : Point2DWithSlope V := ⟨⟨x, y⟩, dydx⟩

/-- `trait X` (`crates/qlab-math/src/interpolation.rs:8-10`). -/
class HasX (P : Type) (V : outParam Type) where
  x : P → V

/-- `impl X<V> for Point2DWithSlope<V>` (`crates/qlab-math/src/interpolation.rs:31-35`). -/
instance {V : Type} : HasX (Point2DWithSlope V) V := ⟨fun p => p.coordinate.x⟩
/-- `impl X<V> for Point2D<V>` (`crates/qlab-math/src/interpolation.rs:37-41`). -/
instance {V : Type} : HasX (Point2D V) V := ⟨fun p => p.x⟩

/-- `find_index_at_left_boundary` (`crates/qlab-math/src/interpolation.rs:79-97`).  The `unwrap` of the
source is on the first element of a nonempty slice. -/
def findIndexAtLeftBoundary {V P : Type} [HasX P V] [LT V] [DecidableLT V] [LE V] [DecidableLE V]
    (points : List P) (x : V) : Except (InterpolationError V) Nat :=
  match points with
  | [] => .error (.insufficientPointsError 0)
  | first :: _ =>
    let pos := partitionPoint (fun p => decide (HasX.x p < x)) points
    if pos = 0 ∧ HasX.x first ≤ x then .ok 0
    else if pos = 0 then .error (.outOfLowerBound x)
    else if pos = points.length then .error (.outOfUpperBound x)
    else .ok (pos - 1)

/-! ## The trait -/

/-- An implementation of `trait Interpolator` (`crates/qlab-math/src/interpolation.rs:43-77`) at one value
type: the default value and the two required methods.  Either method may panic. -/
structure Interpolator (V : Type) where
  State : Type
  default : State
  tryFit : State → List (V × V) → Rust (Except (InterpolationError V) State)
  tryValue : State → V → Rust (Except (InterpolationError V) V)

/-! ## Linear -/

/-- `Linear` (`crates/qlab-math/src/interpolation/linear.rs:24-27`). -/
structure Linear (V : Type) where
  points : List (Point2D V)

namespace Linear
variable {V : Type}

/-- `Linear::default`, `Linear::new` (`crates/qlab-math/src/interpolation/linear.rs:24-46`). -/
def default : Linear V := ⟨[]⟩

/-- `Linear::try_fit` (`crates/qlab-math/src/interpolation/linear.rs:50-57`). -/
def tryFit (_self : Linear V) (rawPoints : List (V × V)) : Except (InterpolationError V) (Linear V) :=
  .ok ⟨rawPoints.map fun p => ⟨p.1, p.2⟩⟩

/-- `Linear::try_value` (`crates/qlab-math/src/interpolation/linear.rs:75-82`). -/
def tryValue [Add V] [Sub V] [Mul V] [Div V] [LT V] [DecidableLT V] [LE V] [DecidableLE V]
    (self : Linear V) (x : V) : Rust (Except (InterpolationError V) V) :=
  match findIndexAtLeftBoundary self.points x with
  | .error e => .ok (.error e)
  | .ok pos => do
    let p ← Rust.index self.points pos
    let q ← Rust.index self.points (pos + 1)
    return .ok (p.y + (q.y - p.y) / (q.x - p.x) * (x - p.x))

end Linear

/-- `impl Interpolator for Linear` (`crates/qlab-math/src/interpolation/linear.rs:48-83`). -/
def Interpolator.linear (V : Type) [Add V] [Sub V] [Mul V] [Div V] [LT V] [DecidableLT V] [LE V]
    [DecidableLE V] : Interpolator V where
  State := Linear V
  default := Linear.default
  tryFit s pts := .ok (s.tryFit pts)
  tryValue := Linear.tryValue

/-! ## nalgebra 4x4 products -/

/-- `nalgebra::Vector4`. -/
structure Vec4 (V : Type) where
  a : V
  b : V
  c : V
  d : V

/-- `nalgebra::Matrix4::new`, row by row. -/
structure Mat4 (V : Type) where
  r1 : Vec4 V
  r2 : Vec4 V
  r3 : Vec4 V
  r4 : Vec4 V

section
variable {V : Type} [Add V] [Mul V]

/-- One entry of a `nalgebra` product, terms accumulated from the first to the last (`gemv`). -/
def Vec4.dot (u v : Vec4 V) : V := u.d * v.d + (u.c * v.c + (u.b * v.b + u.a * v.a))

/-- `Matrix4 * Vector4`. -/
def Mat4.mulVec (m : Mat4 V) (v : Vec4 V) : Vec4 V := ⟨m.r1.dot v, m.r2.dot v, m.r3.dot v, m.r4.dot v⟩

/-- `Vector4::transpose() * Matrix4`. -/
def Vec4.mulMat (u : Vec4 V) (m : Mat4 V) : Vec4 V :=
  ⟨u.dot ⟨m.r1.a, m.r2.a, m.r3.a, m.r4.a⟩, u.dot ⟨m.r1.b, m.r2.b, m.r3.b, m.r4.b⟩,
   u.dot ⟨m.r1.c, m.r2.c, m.r3.c, m.r4.c⟩, u.dot ⟨m.r1.d, m.r2.d, m.r3.d, m.r4.d⟩⟩

end

/-! ## Hermite -/

/-- `Hermite` (`crates/qlab-math/src/interpolation/spline/hermite.rs:7-10`). -/
structure Hermite (V : Type) where
  points : List (Point2DWithSlope V)
  m : Mat4 V

namespace Hermite
variable {V : Type}

/-- Loop of `Hermite::try_new` (`crates/qlab-math/src/interpolation/spline/hermite.rs:36-44`): `temp` is the
previous abscissa. -/
def collect [LT V] [DecidableLT V] (temp : V) :
    List (V × V × V) → Except (InterpolationError V) (List (Point2DWithSlope V))
  | [] => .ok []
  | (x, y, dydx) :: rest =>
    if x < temp then .error .pointOrderError
    else
      match collect x rest with
      | .error e => .error e
      | .ok ps => .ok (Point2DWithSlope.new x y dydx :: ps)

/-- `Hermite::try_new` (`crates/qlab-math/src/interpolation/spline/hermite.rs:33-64`).  Indexing an empty
slice panics. -/
def tryNew [Zero V] [One V] [Neg V] [FromInt V] [LT V] [DecidableLT V]
    (rawPoints : List (V × V × V)) : Rust (Except (InterpolationError V) (Hermite V)) := do
  let first ← Rust.index rawPoints 0
  match collect first.1 rawPoints with
  | .error e => return .error e
  | .ok points =>
    let m11 ← fromI8 V 2
    let m12 ← fromI8 V (-2)
    let m21 ← fromI8 V (-3)
    let m22 ← fromI8 V 3
    let m23 ← fromI8 V (-2)
    return .ok ⟨points, ⟨⟨m11, m12, 1, 1⟩, ⟨m21, m22, m23, -1⟩, ⟨0, 0, 1, 0⟩, ⟨1, 0, 0, 0⟩⟩⟩

/-- `Hermite::try_value` (`crates/qlab-math/src/interpolation/spline/hermite.rs:84-101`). -/
def tryValue [One V] [Add V] [Sub V] [Mul V] [Div V] [LT V] [DecidableLT V] [LE V] [DecidableLE V]
    (self : Hermite V) (x : V) : Rust (Except (InterpolationError V) V) :=
  match findIndexAtLeftBoundary self.points x with
  | .error e => .ok (.error e)
  | .ok pos => do
    let point ← Rust.index self.points pos
    let nextPoint ← Rust.index self.points (pos + 1)
    let h := nextPoint.coordinate.x - point.coordinate.x
    let delta := (x - point.coordinate.x) / h
    let delta2 := delta * delta
    let delta3 := delta2 * delta
    let d : Vec4 V := ⟨delta3, delta2, delta, 1⟩
    let f : Vec4 V := ⟨point.coordinate.y, nextPoint.coordinate.y, point.dydx * h, nextPoint.dydx * h⟩
    return .ok ((d.mulMat self.m).dot f)

end Hermite

/-! ## Catmull-Rom -/

/-- `CatmullRom` (`crates/qlab-math/src/interpolation/spline/catmull_rom.rs:7-10`). -/
structure CatmullRom (V : Type) where
  points : List (Point2D V)

namespace CatmullRom
variable {V : Type}

/-- `CatmullRom::default`. -/
def default : CatmullRom V := ⟨[]⟩

/-- Loop of `CatmullRom::try_fit` (`crates/qlab-math/src/interpolation/spline/catmull_rom.rs:38-45`). -/
def collect [LT V] [DecidableLT V] (temp : V) :
    List (V × V) → Except (InterpolationError V) (List (Point2D V))
  | [] => .ok []
  | (x, y) :: rest =>
    if x < temp then .error .pointOrderError
    else
      match collect x rest with
      | .error e => .error e
      | .ok ps => .ok (⟨x, y⟩ :: ps)

/-- `CatmullRom::try_fit` (`crates/qlab-math/src/interpolation/spline/catmull_rom.rs:30-48`). -/
def tryFit [LT V] [DecidableLT V] (_self : CatmullRom V) (rawPoints : List (V × V)) :
    Rust (Except (InterpolationError V) (CatmullRom V)) :=
  if rawPoints.length < 3 then .ok (.error (.insufficientPointsError rawPoints.length))
  else do
    let first ← Rust.index rawPoints 0
    match collect first.1 rawPoints with
    | .error e => return .error e
    | .ok points => return .ok ⟨points⟩

/-- `CatmullRom::try_value` (`crates/qlab-math/src/interpolation/spline/catmull_rom.rs:68-163`). -/
def tryValue [Zero V] [One V] [Neg V] [Add V] [Sub V] [Mul V] [Div V] [FromInt V] [LT V] [DecidableLT V]
    [LE V] [DecidableLE V] (self : CatmullRom V) (x : V) : Rust (Except (InterpolationError V) V) :=
  match findIndexAtLeftBoundary self.points x with
  | .error e => .ok (.error e)
  | .ok pos => do
    let point ← Rust.index self.points pos
    let nextPoint ← Rust.index self.points (pos + 1)
    let h := nextPoint.x - point.x
    let delta := (x - point.x) / h
    let delta2 := delta * delta
    let delta3 := delta2 * delta
    let d : Vec4 V := ⟨delta3, delta2, delta, 1⟩
    if pos = 0 then do
      let nextNextPoint ← Rust.index self.points (pos + 2)
      let nextH := nextNextPoint.x - nextPoint.x
      let beta := h / (h + nextH)
      let m : Mat4 V := ⟨⟨0, 1 - beta, -1, beta⟩, ⟨0, -1 + beta, 1, -beta⟩, ⟨0, -1, 1, 0⟩, ⟨0, 1, 0, 0⟩⟩
      return .ok (d.dot (m.mulVec ⟨0, point.y, nextPoint.y, nextNextPoint.y⟩))
    else if pos + 2 = self.points.length then do
      let prevPoint ← Rust.index self.points (pos - 1)
      let prevH := nextPoint.x - prevPoint.x
      let alpha := h / (h + prevH)
      let two ← fromI8 V 2
      let negTwo ← fromI8 V (-2)
      let m : Mat4 V := ⟨⟨-alpha, 1, -1 * alpha, 0⟩, ⟨two * alpha, negTwo, two - two * alpha, 0⟩,
        ⟨-alpha, 0, alpha, 0⟩, ⟨0, 1, 0, 0⟩⟩
      return .ok (d.dot (m.mulVec ⟨prevPoint.y, point.y, nextPoint.y, 0⟩))
    else do
      let prevPoint ← Rust.index self.points (pos - 1)
      let prevH := nextPoint.x - prevPoint.x
      let alpha := h / (h + prevH)
      let nextNextPoint ← Rust.index self.points (pos + 2)
      let nextH := nextNextPoint.x - nextPoint.x
      let beta := h / (h + nextH)
      let two ← fromI8 V 2
      let negTwo ← fromI8 V (-2)
      let three ← fromI8 V 3
      let m : Mat4 V := ⟨⟨-alpha, two - beta, negTwo + alpha, beta⟩,
        ⟨two * alpha, beta - three, three - two * alpha, -beta⟩, ⟨-alpha, 0, alpha, 0⟩, ⟨0, 1, 0, 0⟩⟩
      return .ok (d.dot (m.mulVec ⟨prevPoint.y, point.y, nextPoint.y, nextNextPoint.y⟩))

end CatmullRom

/-- `impl Interpolator for CatmullRom` (`crates/qlab-math/src/interpolation/spline/catmull_rom.rs:12-164`). -/
def Interpolator.catmullRom (V : Type) [Zero V] [One V] [Neg V] [Add V] [Sub V] [Mul V] [Div V] [FromInt V]
    [LT V] [DecidableLT V] [LE V] [DecidableLE V] : Interpolator V where
  State := CatmullRom V
  default := CatmullRom.default
  tryFit := CatmullRom.tryFit
  tryValue := CatmullRom.tryValue

end Qlab
