import Verif.Model.Rust

/-! # Model of `/repo/src/dimensions/` and `/repo/src/error.rs` -/

namespace MortonRs

/-- `error.rs` 2-10: `enum Error`. -/
inductive Error where
  | DepthLimitedExceeded (max_depth : Nat)
  | CellIndexOutOfRange
  deriving DecidableEq, Repr

/-- `error.rs` 4, 8: `Display` of `Error` as written by `thiserror`; `{:?}` of a `usize` is its decimal representation. -/
def Error.display : Error → String
  | .DepthLimitedExceeded max_depth =>
    "Exceeded the depth limit of " ++ Nat.repr max_depth ++ " levels for this Morton index type"
  | .CellIndexOutOfRange => "Cell index is out of range"

/-- `dimensions/mod.rs` 8-31: `trait Dimension`, indexed by its `Cell` type. `toUsize` is the cell's
`Into<usize>`, `tryFromUsize` its `TryFrom<usize>`. -/
class Dimension (Cell : Type) where
  DIMENSIONALITY : Nat
  toUsize : Cell → Nat
  tryFromUsize : Nat → Except Error Cell

/-- `nalgebra::Vector2<usize>`; `dim_2d.rs` 2. -/
structure Vector2 (W : Nat) where
  x : BitVec W
  y : BitVec W
  deriving DecidableEq, Repr

/-- `nalgebra::Vector3<usize>`; `dim_3d.rs` 1. -/
structure Vector3 (W : Nat) where
  x : BitVec W
  y : BitVec W
  z : BitVec W
  deriving DecidableEq, Repr

/-! ## `dim_2d.rs` -/

/-- `dim_2d.rs` 46-55: `enum Quadrant`. -/
inductive Quadrant where
  | Zero | One | Two | Three
  deriving DecidableEq, Repr

/-- `dim_2d.rs` 63-72: `Into<usize> for Quadrant`; also `Quadrant::index` (58-60) and
`Into<usize> for &Quadrant` (74-78), which forward to it. -/
def Quadrant.toUsize : Quadrant → Nat
  | .Zero => 0
  | .One => 1
  | .Two => 2
  | .Three => 3

/-- `dim_2d.rs` 80-92: `TryFrom<usize> for Quadrant`. -/
def Quadrant.tryFromUsize (value : Nat) : Except Error Quadrant :=
  match value with
  | 0 => .ok .Zero
  | 1 => .ok .One
  | 2 => .ok .Two
  | 3 => .ok .Three
  | _ => .error .CellIndexOutOfRange

/-- `dim_2d.rs` 45: position of a variant in the declaration, the key of `derive(PartialOrd, Ord)`. -/
def Quadrant.variantIndex : Quadrant → Nat
  | .Zero => 0
  | .One => 1
  | .Two => 2
  | .Three => 3

/-- `dim_2d.rs` 45: `derive(Ord)` of `Quadrant`. -/
def Quadrant.cmp (a b : Quadrant) : Ordering := compare a.variantIndex b.variantIndex

/-- `dim_2d.rs` 45: `derive(PartialEq, PartialOrd, Ord, Hash)` of `Quadrant`. `Hash` of an enum feeds the discriminant to the hasher,
here the position of the variant. -/
instance : RustOrd Quadrant where
  cmp _ a b := .ok (a.cmp b)
  partialCmp _ a b := .ok (some (compare a.variantIndex b.variantIndex))
  eq a b := a.variantIndex == b.variantIndex
  hashInput a := [a.variantIndex]

/-- `dim_2d.rs` 7-16: `impl Dimension for Dim2D`. -/
instance : Dimension Quadrant where
  DIMENSIONALITY := 2
  toUsize := Quadrant.toUsize
  tryFromUsize := Quadrant.tryFromUsize

/-- `dim_2d.rs` 20-25: `enum QuadrantOrdering`. -/
inductive QuadrantOrdering where
  | XY | YX
  deriving DecidableEq, Repr

/-- `dim_2d.rs` 37-41: `Default for QuadrantOrdering`. -/
def QuadrantOrdering.default : QuadrantOrdering := .XY

/-- `dim_2d.rs` 28-34: `QuadrantOrdering::to_index`. -/
def QuadrantOrdering.toIndex (W : Nat) (self : QuadrantOrdering) (quadrant : Quadrant) : Vector2 W :=
  let quadrant_index := BitVec.ofNat W quadrant.toUsize
  match self with
  | .XY => ⟨quadrant_index &&& 1#W, (quadrant_index >>> 1) &&& 1#W⟩
  | .YX => ⟨(quadrant_index >>> 1) &&& 1#W, quadrant_index &&& 1#W⟩

/-! ## `dim_3d.rs` -/

/-- `dim_3d.rs` 97-106: `enum Octant`. -/
inductive Octant where
  | Zero | One | Two | Three | Four | Five | Six | Seven
  deriving DecidableEq, Repr

/-- `dim_3d.rs` 114-127: `Into<usize> for Octant`; also `Octant::index` (109-111) and
`Into<usize> for &Octant` (129-133), which forward to it. -/
def Octant.toUsize : Octant → Nat
  | .Zero => 0
  | .One => 1
  | .Two => 2
  | .Three => 3
  | .Four => 4
  | .Five => 5
  | .Six => 6
  | .Seven => 7

/-- `dim_3d.rs` 135-151: `TryFrom<usize> for Octant`. -/
def Octant.tryFromUsize (value : Nat) : Except Error Octant :=
  match value with
  | 0 => .ok .Zero
  | 1 => .ok .One
  | 2 => .ok .Two
  | 3 => .ok .Three
  | 4 => .ok .Four
  | 5 => .ok .Five
  | 6 => .ok .Six
  | 7 => .ok .Seven
  | _ => .error .CellIndexOutOfRange

/-- `dim_3d.rs` 96: position of a variant in the declaration, the key of `derive(PartialOrd, Ord)`. -/
def Octant.variantIndex : Octant → Nat
  | .Zero => 0
  | .One => 1
  | .Two => 2
  | .Three => 3
  | .Four => 4
  | .Five => 5
  | .Six => 6
  | .Seven => 7

/-- `dim_3d.rs` 96: `derive(Ord)` of `Octant`. -/
def Octant.cmp (a b : Octant) : Ordering := compare a.variantIndex b.variantIndex

/-- `dim_3d.rs` 96: `derive(PartialEq, PartialOrd, Ord, Hash)` of `Octant`. `Hash` of an enum feeds the discriminant to the hasher,
here the position of the variant. -/
instance : RustOrd Octant where
  cmp _ a b := .ok (a.cmp b)
  partialCmp _ a b := .ok (some (compare a.variantIndex b.variantIndex))
  eq a b := a.variantIndex == b.variantIndex
  hashInput a := [a.variantIndex]

/-- `dim_3d.rs` 8-14: `impl Dimension for Dim3D`. -/
instance : Dimension Octant where
  DIMENSIONALITY := 3
  toUsize := Octant.toUsize
  tryFromUsize := Octant.tryFromUsize

/-- `dim_3d.rs` 18-37: `enum OctantOrdering`. -/
inductive OctantOrdering where
  | XYZ | XZY | YXZ | YZX | ZXY | ZYX
  deriving DecidableEq, Repr

/-- `dim_3d.rs` 88-92: `Default for OctantOrdering`. -/
def OctantOrdering.default : OctantOrdering := .XYZ

/-- `dim_3d.rs` 40-74: `OctantOrdering::to_index`. -/
def OctantOrdering.toIndex (W : Nat) (self : OctantOrdering) (octant : Octant) : Vector3 W :=
  let octant_index := BitVec.ofNat W octant.toUsize
  match self with
  | .XYZ => ⟨(octant_index >>> 0) &&& 1#W, (octant_index >>> 1) &&& 1#W, (octant_index >>> 2) &&& 1#W⟩
  | .XZY => ⟨(octant_index >>> 0) &&& 1#W, (octant_index >>> 2) &&& 1#W, (octant_index >>> 1) &&& 1#W⟩
  | .YXZ => ⟨(octant_index >>> 1) &&& 1#W, (octant_index >>> 0) &&& 1#W, (octant_index >>> 2) &&& 1#W⟩
  | .YZX => ⟨(octant_index >>> 2) &&& 1#W, (octant_index >>> 0) &&& 1#W, (octant_index >>> 1) &&& 1#W⟩
  | .ZXY => ⟨(octant_index >>> 1) &&& 1#W, (octant_index >>> 2) &&& 1#W, (octant_index >>> 0) &&& 1#W⟩
  | .ZYX => ⟨(octant_index >>> 2) &&& 1#W, (octant_index >>> 1) &&& 1#W, (octant_index >>> 0) &&& 1#W⟩

/-- `dim_3d.rs` 76-85: `OctantOrdering::get_bit_shifts_for_xyz`. -/
def OctantOrdering.getBitShiftsForXyz (self : OctantOrdering) : Nat × Nat × Nat :=
  match self with
  | .XYZ => (0, 1, 2)
  | .XZY => (0, 2, 1)
  | .YXZ => (1, 0, 2)
  | .YZX => (2, 0, 1)
  | .ZXY => (1, 2, 0)
  | .ZYX => (2, 1, 0)

end MortonRs
