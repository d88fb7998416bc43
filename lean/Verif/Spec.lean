import Verif.Model.Index2D
import Verif.Model.Index3D

/-! # Specification vocabulary

What the properties talk about: paths (lists of cells), their order, and what an index shows through the
public accessors. Nothing here looks inside a storage. -/

namespace MortonRs

/-- The index shows the path `cs`: `depth()` is its length and `get_cell_at_level` returns its elements. -/
def Shows (c : Cfg) {M Cell : Type} [MortonIndex M Cell] (m : M) (cs : List Cell) : Prop :=
  MortonIndex.depth m = cs.length ∧
    ∀ l (h : l < cs.length), MortonIndex.getCellAtLevel c m l = .ok cs[l]

/-- Lexicographic order of paths by a numeric key of the cells, a proper prefix first (pre-order of
the tree). -/
def pathCmp {Cell : Type} (key : Cell → Nat) : List Cell → List Cell → Ordering
  | [], [] => .eq
  | [], _ :: _ => .lt
  | _ :: _, [] => .gt
  | a :: as, b :: bs =>
    if key a < key b then .lt else if key b < key a then .gt else pathCmp key as bs

/-- Number of a quadrant. -/
def quadrantKey : Quadrant → Nat
  | .Zero => 0 | .One => 1 | .Two => 2 | .Three => 3

/-- Number of an octant. -/
def octantKey : Octant → Nat
  | .Zero => 0 | .One => 1 | .Two => 2 | .Three => 3 | .Four => 4 | .Five => 5 | .Six => 6 | .Seven => 7

/-- The x (y) coordinate of a quadrant as documented in `dim_2d.rs` 20-25: quadrant 1 is `(X=1, Y=0)` under `XY`
and `(X=0, Y=1)` under `YX`; quadrant 2 is the other one, 3 both. -/
def quadrantX : QuadrantOrdering → Quadrant → Bool
  | .XY, q => q = .One ∨ q = .Three
  | .YX, q => q = .Two ∨ q = .Three
def quadrantY : QuadrantOrdering → Quadrant → Bool
  | .XY, q => q = .Two ∨ q = .Three
  | .YX, q => q = .One ∨ q = .Three

/-- The place of an axis in the octant number, as documented in `dim_3d.rs` 18-37: octants 1, 2 and 4 lie on
the first, second and third axis of the name of the ordering. -/
inductive Axis where
  | X | Y | Z
  deriving DecidableEq

def octantAxes : OctantOrdering → Axis × Axis × Axis
  | .XYZ => (.X, .Y, .Z)
  | .XZY => (.X, .Z, .Y)
  | .YXZ => (.Y, .X, .Z)
  | .YZX => (.Y, .Z, .X)
  | .ZXY => (.Z, .X, .Y)
  | .ZYX => (.Z, .Y, .X)

/-- The coordinate of an octant on an axis: the sum of its unit vectors. -/
def octantCoord (o : OctantOrdering) (a : Axis) (q : Octant) : Bool :=
  (a = (octantAxes o).1 ∧ octantKey q % 2 = 1) ∨
  (a = (octantAxes o).2.1 ∧ octantKey q / 2 % 2 = 1) ∨
  (a = (octantAxes o).2.2 ∧ octantKey q / 4 % 2 = 1)

def octantX (o : OctantOrdering) (q : Octant) : Bool := octantCoord o .X q
def octantY (o : OctantOrdering) (q : Octant) : Bool := octantCoord o .Y q
def octantZ (o : OctantOrdering) (q : Octant) : Bool := octantCoord o .Z q

/-- Number written by a list of binary digits, most significant first. -/
def binary (bits : List Bool) : Nat := bits.foldl (fun n b => 2 * n + b.toNat) 0

/-- The bits of a path from the first cell on, each cell as `k` bits from the highest to the lowest; `false` behind the
last cell. -/
def pathBit {Cell : Type} (k : Nat) (key : Cell → Nat) (cs : List Cell) (j : Nat) : Bool :=
  match cs[j / k]? with
  | none => false
  | some x => (key x).testBit (k - 1 - j % k)

/-- The bits of a path, filled up with zeros to whole bytes, are the same when the order of these bytes is reversed. -/
def ReversibleBytes {Cell : Type} (k : Nat) (key : Cell → Nat) (cs : List Cell) : Prop :=
  ∀ j, j < 8 * ((cs.length * k + 7) / 8) →
    pathBit k key cs j = pathBit k key cs (8 * ((cs.length * k + 7) / 8 - 1 - j / 8) + j % 8)

/-- A path of `bits` bits (depth times dimension) is addressable: its bit positions, with slack for
rounding to bytes, fit a `usize`. On 64-bit targets this is every path that fits into memory. -/
def Addressable (c : Cfg) (bits : Nat) : Prop := bits + 64 < 2 ^ c.ptrBits

/-- The unsigned integer types (`u8`, `u16`, `u32`, `u64`, `u128`, and `usize`, which is one of them). -/
def IntWidth (w : Nat) : Prop := w = 8 ∨ w = 16 ∨ w = 32 ∨ w = 64 ∨ w = 128

instance (w : Nat) : Decidable (IntWidth w) := by unfold IntWidth; infer_instance

/-- Targets on which writing a cell into a dynamic index works: little-endian ones (and 16-bit
big-endian ones). -/
def DynWrites (c : Cfg) : Prop := c.bigEndian = false ∨ c.ptrBits = 16

instance (c : Cfg) : Decidable (DynWrites c) := by unfold DynWrites; infer_instance

end MortonRs
