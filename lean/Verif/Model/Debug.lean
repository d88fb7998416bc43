import Verif.Model.Index2D
import Verif.Model.Index3D

/-! # Model of the derived `Debug` implementations

The texts `{:?}` and `{:#?}` print. -/

namespace MortonRs

/-- `std::fmt::Debug`, a supertrait of `MortonIndex` (`morton.rs` 28), as the string written to a formatter that never
fails. -/
class RustDebug (α : Type) where
  /-- `{:?}` -/
  debug : α → String
  /-- `{:#?}` -/
  pretty : α → String

/-- `core::fmt::DebugStruct`, which `derive(Debug)` of a struct with named fields calls; `morton_index_2d.rs` 39. -/
def debugStruct (name : String) (fields : List (String × String)) : String :=
  name ++ " { " ++ ", ".intercalate (fields.map fun f => f.1 ++ ": " ++ f.2) ++ " }"

/-- `core::fmt::builders::PadAdapter`, through which `{:#?}` writes the inside of a struct or list: four spaces at the
start of every line (`atStart`: the next character starts a line); `morton_index_2d.rs` 39. -/
def padAdapter (atStart : Bool) : List Char → List Char
  | [] => []
  | ch :: chs => (if atStart then [' ', ' ', ' ', ' '] else []) ++ ch :: padAdapter (ch == '\n') chs

/-- One field or element as `{:#?}` prints it: indented, followed by a comma and a line break; `morton_index_2d.rs` 39. -/
def prettyEntry (text : String) : String := String.ofList (padAdapter true (text ++ ",\n").toList)

/-- `core::fmt::DebugStruct` with the `#` flag; `morton_index_2d.rs` 39. -/
def prettyStruct (name : String) (fields : List (String × String)) : String :=
  name ++ " {\n" ++ String.join (fields.map fun f => prettyEntry (f.1 ++ ": " ++ f.2)) ++ "}"

/-- `Debug` of an unsigned integer: its decimal representation, also with the `#` flag; `morton_index_2d.rs` 369. -/
instance (w : Nat) : RustDebug (BitVec w) where
  debug x := Nat.repr x.toNat
  pretty x := Nat.repr x.toNat

/-- `Debug for Vec<T>` of `alloc`; `morton_index_2d.rs` 619. -/
instance {α : Type} [RustDebug α] : RustDebug (List α) where
  debug xs := "[" ++ ", ".intercalate (xs.map RustDebug.debug) ++ "]"
  pretty xs := if xs.isEmpty then "[]" else "[\n" ++ String.join (xs.map fun x => prettyEntry (RustDebug.pretty x)) ++ "]"

/-- `dim_2d.rs` 45: `derive(Debug)` of `Quadrant`. -/
instance : RustDebug Quadrant where
  debug
    | .Zero => "Zero"
    | .One => "One"
    | .Two => "Two"
    | .Three => "Three"
  pretty
    | .Zero => "Zero"
    | .One => "One"
    | .Two => "Two"
    | .Three => "Three"

/-- `dim_3d.rs` 96: `derive(Debug)` of `Octant`. -/
instance : RustDebug Octant where
  debug
    | .Zero => "Zero"
    | .One => "One"
    | .Two => "Two"
    | .Three => "Three"
    | .Four => "Four"
    | .Five => "Five"
    | .Six => "Six"
    | .Seven => "Seven"
  pretty
    | .Zero => "Zero"
    | .One => "One"
    | .Two => "Two"
    | .Three => "Three"
    | .Four => "Four"
    | .Five => "Five"
    | .Six => "Six"
    | .Seven => "Seven"

/-- `morton_index_2d.rs` 367: `derive(Debug)` of `FixedDepthStorage2D`. -/
instance (w : Nat) : RustDebug (FixedDepthStorage2D w) where
  debug s := debugStruct "FixedDepthStorage2D" [("bits", RustDebug.debug s.bits)]
  pretty s := prettyStruct "FixedDepthStorage2D" [("bits", RustDebug.pretty s.bits)]

/-- `morton_index_2d.rs` 449: `derive(Debug)` of `StaticStorage2D`. -/
instance (w : Nat) : RustDebug (StaticStorage2D w) where
  debug s := debugStruct "StaticStorage2D" [("bits", RustDebug.debug s.bits), ("depth", Nat.repr s.depth)]
  pretty s := prettyStruct "StaticStorage2D" [("bits", RustDebug.pretty s.bits), ("depth", Nat.repr s.depth)]

/-- `morton_index_2d.rs` 617: `derive(Debug)` of `DynamicStorage2D`. -/
instance : RustDebug DynamicStorage2D where
  debug s := debugStruct "DynamicStorage2D" [("bits", RustDebug.debug s.bits), ("depth", Nat.repr s.depth)]
  pretty s := prettyStruct "DynamicStorage2D" [("bits", RustDebug.pretty s.bits), ("depth", Nat.repr s.depth)]

/-- `morton_index_2d.rs` 39: `derive(Debug)` of `MortonIndex2D`. -/
instance {S : Type} [RustDebug S] : RustDebug (MortonIndex2D S) where
  debug m := debugStruct "MortonIndex2D" [("storage", RustDebug.debug m.storage)]
  pretty m := prettyStruct "MortonIndex2D" [("storage", RustDebug.pretty m.storage)]

/-- `morton_index_3d.rs` 441: `derive(Debug)` of `FixedDepthStorage3D`. -/
instance (w : Nat) : RustDebug (FixedDepthStorage3D w) where
  debug s := debugStruct "FixedDepthStorage3D" [("bits", RustDebug.debug s.bits)]
  pretty s := prettyStruct "FixedDepthStorage3D" [("bits", RustDebug.pretty s.bits)]

/-- `morton_index_3d.rs` 514: `derive(Debug)` of `StaticStorage3D`. -/
instance (w : Nat) : RustDebug (StaticStorage3D w) where
  debug s := debugStruct "StaticStorage3D" [("bits", RustDebug.debug s.bits), ("depth", Nat.repr s.depth)]
  pretty s := prettyStruct "StaticStorage3D" [("bits", RustDebug.pretty s.bits), ("depth", Nat.repr s.depth)]

/-- `morton_index_3d.rs` 683: `derive(Debug)` of `DynamicStorage3D`. -/
instance : RustDebug DynamicStorage3D where
  debug s := debugStruct "DynamicStorage3D" [("bits", RustDebug.debug s.bits), ("depth", Nat.repr s.depth)]
  pretty s := prettyStruct "DynamicStorage3D" [("bits", RustDebug.pretty s.bits), ("depth", Nat.repr s.depth)]

/-- `morton_index_3d.rs` 43: `derive(Debug)` of `MortonIndex3D`. -/
instance {S : Type} [RustDebug S] : RustDebug (MortonIndex3D S) where
  debug m := debugStruct "MortonIndex3D" [("storage", RustDebug.debug m.storage)]
  pretty m := prettyStruct "MortonIndex3D" [("storage", RustDebug.pretty m.storage)]

/-- `error.rs` 2: `derive(Debug)` of `Error`. -/
instance : RustDebug Error where
  debug
    | .DepthLimitedExceeded max_depth => debugStruct "DepthLimitedExceeded" [("max_depth", Nat.repr max_depth)]
    | .CellIndexOutOfRange => "CellIndexOutOfRange"
  pretty
    | .DepthLimitedExceeded max_depth => prettyStruct "DepthLimitedExceeded" [("max_depth", Nat.repr max_depth)]
    | .CellIndexOutOfRange => "CellIndexOutOfRange"

/-- `dim_2d.rs` 19: `derive(Debug)` of `QuadrantOrdering`. -/
instance : RustDebug QuadrantOrdering where
  debug
    | .XY => "XY"
    | .YX => "YX"
  pretty
    | .XY => "XY"
    | .YX => "YX"

/-- `dim_3d.rs` 17: `derive(Debug)` of `OctantOrdering`. -/
instance : RustDebug OctantOrdering where
  debug
    | .XYZ => "XYZ"
    | .XZY => "XZY"
    | .YXZ => "YXZ"
    | .YZX => "YZX"
    | .ZXY => "ZXY"
    | .ZYX => "ZYX"
  pretty
    | .XYZ => "XYZ"
    | .XZY => "XZY"
    | .YXZ => "YXZ"
    | .YZX => "YZX"
    | .ZXY => "ZXY"
    | .ZYX => "ZYX"

/-- `morton.rs` 6: `derive(Debug)` of `MortonIndexNaming`. -/
instance : RustDebug MortonIndexNaming where
  debug
    | .CellConcatenation => "CellConcatenation"
    | .CellConcatenationWithRoot => "CellConcatenationWithRoot"
    | .GridIndex => "GridIndex"
  pretty
    | .CellConcatenation => "CellConcatenation"
    | .CellConcatenationWithRoot => "CellConcatenationWithRoot"
    | .GridIndex => "GridIndex"

end MortonRs
