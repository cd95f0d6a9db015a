import Verif.Model.Interpolation

/-!
# Tridiagonal systems and the natural cubic spline

`qlab_math::linear_algebra::tridiagonal_matrix` and `qlab_math::interpolation::spline::natural_cubic`.
-/

namespace Qlab

/-- `MatrixValidationError` (`crates/qlab-math/src/linear_algebra/tridiagonal_matrix.rs:4-7`). -/
inductive MatrixValidationError where
  | matrixShapeError
  deriving DecidableEq, Repr

/-- `TridiagonalMatrix` (`crates/qlab-math/src/linear_algebra/tridiagonal_matrix.rs:9-14`). -/
structure TridiagonalMatrix (V : Type) where
  upperDiagonal : List V
  diagonal : List V
  lowerDiagonal : List V
  size : Nat
  deriving DecidableEq, Repr

/-- `v[i] = a` on a vector: panics when out of bounds. -/
def Rust.setIndex {α : Type} (l : List α) (i : Nat) (a : α) : Rust (List α) :=
  if i < l.length then .ok (l.set i a) else .panic

/-- `for i in lo..hi { s = body(i, s) }`; a panic in the body stops the loop. -/
def Rust.forRange {S : Type} (lo hi : Nat) (body : Nat → S → Rust S) (s : S) : Rust S :=
  (List.range' lo (hi - lo)).foldlM (fun s i => body i s) s

/-- `for i in (lo..hi).rev() { s = body(i, s) }`. -/
def Rust.forRangeRev {S : Type} (lo hi : Nat) (body : Nat → S → Rust S) (s : S) : Rust S :=
  (List.range' lo (hi - lo)).reverse.foldlM (fun s i => body i s) s

namespace TridiagonalMatrix
variable {V : Type}

/-- `TridiagonalMatrix::try_new` (`crates/qlab-math/src/linear_algebra/tridiagonal_matrix.rs:17-33`). -/
def tryNew (upperDiagonal diagonal lowerDiagonal : List V) :
    Except MatrixValidationError (TridiagonalMatrix V) :=
  if ¬ (upperDiagonal.length = lowerDiagonal.length ∧ upperDiagonal.length + 1 = diagonal.length) then
    .error .matrixShapeError
  else .ok ⟨upperDiagonal, diagonal, lowerDiagonal, diagonal.length⟩

/-- Body of the forward sweep (`crates/qlab-math/src/linear_algebra/tridiagonal_matrix.rs:87-95`) on the
state `(scratch, x)`. -/
def forwardStep [Sub V] [Mul V] [Div V] (matrixSize : Nat) (lower diag upper : List V) (ix : Nat)
    (s : List V × List V) : Rust (List V × List V) := do
  let (scratch, x) := s
  let scratch ← if ix < matrixSize - 1 then do
      let u ← Rust.index upper ix
      let d ← Rust.index diag ix
      let l ← Rust.index lower (ix - 1)
      let c ← Rust.index scratch (ix - 1)
      pure (scratch ++ [u / (d - l * c)])
    else pure scratch
  let xi ← Rust.index x ix
  let l ← Rust.index lower (ix - 1)
  let xp ← Rust.index x (ix - 1)
  let d ← Rust.index diag ix
  let c ← Rust.index scratch (ix - 1)
  let x ← Rust.setIndex x ix ((xi - l * xp) / (d - l * c))
  return (scratch, x)

/-- Body of the backward sweep (`crates/qlab-math/src/linear_algebra/tridiagonal_matrix.rs:98-101`). -/
def backwardStep [Sub V] [Mul V] (scratch : List V) (ix : Nat) (x : List V) : Rust (List V) := do
  let c ← Rust.index scratch ix
  let xn ← Rust.index x (ix + 1)
  let xi ← Rust.index x ix
  Rust.setIndex x ix (xi - c * xn)

/-- `solve_with_thomas_algorithm_unchecked`
(`crates/qlab-math/src/linear_algebra/tridiagonal_matrix.rs:74-103`).  It is called with `matrix_size >= 2`
only, so `matrix_size - 2` does not wrap. -/
def thomas [Sub V] [Mul V] [Div V] (matrixSize : Nat) (lower diag upper b : List V) : Rust (List V) := do
  let u0 ← Rust.index upper 0
  let d0 ← Rust.index diag 0
  let b0 ← Rust.index b 0
  let x ← Rust.setIndex b 0 (b0 / d0)
  let (scratch, x) ← Rust.forRange 1 matrixSize (forwardStep matrixSize lower diag upper) ([u0 / d0], x)
  Rust.forRangeRev 0 (matrixSize - 2) (backwardStep scratch) x

/-- `TridiagonalMatrix::solve` (`crates/qlab-math/src/linear_algebra/tridiagonal_matrix.rs:36-48`). -/
def solve [Sub V] [Mul V] [Div V] (self : TridiagonalMatrix V) (b : List V) : Rust (List V) :=
  if self.size = 1 then do
    let b0 ← Rust.index b 0
    let d0 ← Rust.index self.diagonal 0
    return [b0 / d0]
  else thomas self.size self.lowerDiagonal self.diagonal self.upperDiagonal b

/-- Body of the product loop (`crates/qlab-math/src/linear_algebra/tridiagonal_matrix.rs:60-69`). -/
def mulStep [Add V] [Mul V] (self : TridiagonalMatrix V) (rhs : List V) (i : Nat) (ret : List V) :
    Rust (List V) := do
  let d ← Rust.index self.diagonal i
  let r ← Rust.index rhs i
  let temp := d * r
  let temp ← if i + 1 < self.size then do
      let u ← Rust.index self.upperDiagonal i
      let rn ← Rust.index rhs (i + 1)
      pure (temp + u * rn)
    else pure temp
  let temp ← if i > 0 then do
      let l ← Rust.index self.lowerDiagonal (i - 1)
      let rp ← Rust.index rhs (i - 1)
      pure (temp + l * rp)
    else pure temp
  return ret ++ [temp]

/-- `impl Mul<Vec<V>> for TridiagonalMatrix<V>`
(`crates/qlab-math/src/linear_algebra/tridiagonal_matrix.rs:51-72`). -/
def mul [Add V] [Mul V] (self : TridiagonalMatrix V) (rhs : List V) : Rust (Option (List V)) :=
  if rhs.length ≠ self.size then .ok none
  else do
    let ret ← Rust.forRange 0 self.size (self.mulStep rhs) []
    return some ret

end TridiagonalMatrix

/-- `NaturalCubic` (`crates/qlab-math/src/interpolation/spline/natural_cubic.rs:7-10`).  The field `dydx` of
a point holds the second derivative. -/
structure NaturalCubic (V : Type) where
  points : List (Point2DWithSlope V)

namespace NaturalCubic
variable {V : Type}

/-- `NaturalCubic::default`. -/
def default : NaturalCubic V := ⟨[]⟩

/-- The vectors filled by the loop of `try_fit`
(`crates/qlab-math/src/interpolation/spline/natural_cubic.rs:40-46`). -/
structure System (V : Type) where
  m : List V
  bUpper : List V
  bDiag : List V
  bLower : List V
  cUpper : List V
  cDiag : List V
  cLower : List V

/-- `x.recip()`: `1 / x` for `f32` and `f64`. -/
def recip [One V] [Div V] (x : V) : V := 1 / x

/-- Body of the loop (`crates/qlab-math/src/interpolation/spline/natural_cubic.rs:47-69`). -/
def systemStep [Zero V] [One V] [Neg V] [Add V] [Sub V] [Div V] [FromInt V] (rawPoints : List (V × V))
    (i : Nat) (s : System V) : Rust (System V) := do
  let p ← Rust.index rawPoints i
  let prev ← Rust.index rawPoints (i - 1)
  let h := p.1 - prev.1
  let next ← Rust.index rawPoints (i + 1)
  let hNext := next.1 - p.1
  let s ← if i ≠ 1 then do
      let six ← fromI8 V 6
      pure { s with bLower := s.bLower ++ [h / six], cLower := s.cLower ++ [recip h] }
    else pure s
  let s ← if i + 2 ≠ rawPoints.length then do
      let six ← fromI8 V 6
      pure { s with bUpper := s.bUpper ++ [hNext / six], cUpper := s.cUpper ++ [recip hNext] }
    else pure s
  let s :=
    if i = 1 then { s with m := s.m ++ [prev.2 / h] }
    else if i + 2 = rawPoints.length then { s with m := s.m ++ [next.2 / hNext] }
    else { s with m := s.m ++ [0] }
  let three ← fromI8 V 3
  return { s with bDiag := s.bDiag ++ [(h + hNext) / three], cDiag := s.cDiag ++ [-(recip h + recip hNext)] }

/-- The last loop of `try_fit` (`crates/qlab-math/src/interpolation/spline/natural_cubic.rs:86-94`) over the
points zipped with the second derivatives. -/
def collect [LT V] [DecidableLT V] (temp : V) :
    List ((V × V) × V) → Except (InterpolationError V) (List (Point2DWithSlope V))
  | [] => .ok []
  | ((x, y), dydx) :: rest =>
    if x < temp then .error .pointOrderError
    else
      match collect x rest with
      | .error e => .error e
      | .ok ps => .ok (Point2DWithSlope.new x y dydx :: ps)

/-- `Result::unwrap` on the result of `TridiagonalMatrix::try_new`. -/
def unwrapMatrix : Except MatrixValidationError (TridiagonalMatrix V) → Rust (TridiagonalMatrix V)
  | .ok m => .ok m
  | .error _ => .panic

/-- `DVector + DVector` (`nalgebra`): panics on different lengths. -/
def addVectors [Add V] (u v : List V) : Rust (List V) :=
  if u.length = v.length then .ok (List.zipWith (· + ·) u v) else .panic

/-- `NaturalCubic::try_fit` (`crates/qlab-math/src/interpolation/spline/natural_cubic.rs:34-98`).  The
capacities passed to `Vec::with_capacity` have no effect. -/
def tryFit [Zero V] [One V] [Neg V] [Add V] [Sub V] [Mul V] [Div V] [FromInt V] [LT V] [DecidableLT V]
    (_self : NaturalCubic V) (rawPoints : List (V × V)) :
    Rust (Except (InterpolationError V) (NaturalCubic V)) :=
  if rawPoints.length < 3 then .ok (.error (.insufficientPointsError rawPoints.length))
  else do
    let s ← Rust.forRange 1 (rawPoints.length - 1) (systemStep rawPoints) ⟨[], [], [], [], [], [], []⟩
    let b ← unwrapMatrix (TridiagonalMatrix.tryNew s.bUpper s.bDiag s.bLower)
    let c ← unwrapMatrix (TridiagonalMatrix.tryNew s.cUpper s.cDiag s.cLower)
    let y := ((rawPoints.take (rawPoints.length - 1)).drop 1).map Prod.snd
    let cy ← Rust.unwrap (← c.mul y)
    let rhs ← addVectors cy s.m
    let y2 ← b.solve rhs
    let derivatives := [0] ++ y2 ++ [0]
    let first ← Rust.index rawPoints 0
    match collect first.1 (rawPoints.zip derivatives) with
    | .error e => return .error e
    | .ok points => return .ok ⟨points⟩

/-- `NaturalCubic::try_value` (`crates/qlab-math/src/interpolation/spline/natural_cubic.rs:118-136`). -/
def tryValue [Add V] [Sub V] [Mul V] [Div V] [FromInt V] [LT V] [DecidableLT V] [LE V] [DecidableLE V]
    (self : NaturalCubic V) (x : V) : Rust (Except (InterpolationError V) V) :=
  match findIndexAtLeftBoundary self.points x with
  | .error e => .ok (.error e)
  | .ok pos => do
    let point ← Rust.index self.points pos
    let nextPoint ← Rust.index self.points (pos + 1)
    let h := nextPoint.coordinate.x - point.coordinate.x
    let six ← fromI8 V 6
    return .ok ((nextPoint.coordinate.x - x) * (nextPoint.coordinate.x - x) * (nextPoint.coordinate.x - x)
        / six / h * point.dydx
      + (x - point.coordinate.x) * (x - point.coordinate.x) * (x - point.coordinate.x)
        / six / h * nextPoint.dydx
      + (nextPoint.coordinate.x - x) * (point.coordinate.y / h - h / six * point.dydx)
      + (x - point.coordinate.x) * (nextPoint.coordinate.y / h - h / six * nextPoint.dydx))

end NaturalCubic

/-- `impl Interpolator for NaturalCubic`
(`crates/qlab-math/src/interpolation/spline/natural_cubic.rs:12-137`). -/
def Interpolator.naturalCubic (V : Type) [Zero V] [One V] [Neg V] [Add V] [Sub V] [Mul V] [Div V] [FromInt V]
    [LT V] [DecidableLT V] [LE V] [DecidableLE V] : Interpolator V where
  State := NaturalCubic V
  default := NaturalCubic.default
  tryFit := NaturalCubic.tryFit
  tryValue := NaturalCubic.tryValue

end Qlab
