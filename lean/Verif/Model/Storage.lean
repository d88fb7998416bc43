import Verif.Model.Number
import Verif.Model.Dimensions

/-! # Model of `/repo/src/indices/storage.rs`, `/repo/src/indices/mod.rs` and `/repo/src/morton.rs` -/

namespace MortonRs

/-! ## `storage.rs` 94-208: the three `StorageType` implementations

Each is generic in the cell type (the dimension `D`) and in the bit container `T: Bits`. The type
parameter `B: FixedStorageType` enters only through `B::BITS`, here the explicit argument `BITS`. -/

/-- `storage.rs` 101: `FixedDepthStorage::MAX_LEVELS`. -/
def FixedDepthStorage.MAX_LEVELS (BITS : Nat) (Cell : Type) [Dimension Cell] : Nat :=
  BITS / Dimension.DIMENSIONALITY Cell

/-- `storage.rs` 105-107: `FixedDepthStorage::max_depth`. -/
def FixedDepthStorage.maxDepth (BITS : Nat) (Cell : Type) [Dimension Cell] : Option Nat :=
  some (FixedDepthStorage.MAX_LEVELS BITS Cell)

/-- `storage.rs` 109-119: `FixedDepthStorage::get_cell_at_level_unchecked`. -/
def FixedDepthStorage.getCellAtLevelUnchecked (c : Cfg) (BITS : Nat) {Cell T : Type} [Dimension Cell]
    [Bits T] (bits : T) (level : Nat) : Res Cell := do
  let start_bit ← usub c BITS (← umul c (← uadd c level 1) (Dimension.DIMENSIONALITY Cell))
  let end_bit ← uadd c start_bit (Dimension.DIMENSIONALITY Cell)
  let bits ← Bits.asU8 (← Bits.getBits c bits ⟨start_bit, end_bit⟩)
  unwrapResult (Dimension.tryFromUsize bits.toNat)

/-- `storage.rs` 121-130: `FixedDepthStorage::set_cell_at_level_unchecked`. -/
def FixedDepthStorage.setCellAtLevelUnchecked (c : Cfg) (BITS : Nat) {Cell T : Type} [Dimension Cell]
    [Bits T] (bits : T) (level : Nat) (cell : Cell) : Res T := do
  let cell_index := Dimension.toUsize cell
  let start_bit ← usub c BITS (← umul c (← uadd c level 1) (Dimension.DIMENSIONALITY Cell))
  let end_bit ← uadd c start_bit (Dimension.DIMENSIONALITY Cell)
  Bits.setBits c bits ⟨start_bit, end_bit⟩ (Bits.fromUN c (BitVec.ofNat 8 cell_index))

/-- `storage.rs` 140: `StaticStorage::MAX_LEVELS`. -/
def StaticStorage.MAX_LEVELS (BITS : Nat) (Cell : Type) [Dimension Cell] : Nat :=
  BITS / Dimension.DIMENSIONALITY Cell

/-- `storage.rs` 144-146: `StaticStorage::max_depth`. -/
def StaticStorage.maxDepth (BITS : Nat) (Cell : Type) [Dimension Cell] : Option Nat :=
  some (StaticStorage.MAX_LEVELS BITS Cell)

/-- `storage.rs` 148-156: `StaticStorage::get_cell_at_level_unchecked`. -/
def StaticStorage.getCellAtLevelUnchecked (c : Cfg) (BITS : Nat) {Cell T : Type} [Dimension Cell]
    [Bits T] (bits : T) (level : Nat) : Res Cell := do
  let start_bit ← usub c BITS (← umul c (← uadd c level 1) (Dimension.DIMENSIONALITY Cell))
  let end_bit ← uadd c start_bit (Dimension.DIMENSIONALITY Cell)
  let bits ← Bits.asU8 (← Bits.getBits c bits ⟨start_bit, end_bit⟩)
  unwrapResult (Dimension.tryFromUsize bits.toNat)

/-- `storage.rs` 158-167: `StaticStorage::set_cell_at_level_unchecked`. -/
def StaticStorage.setCellAtLevelUnchecked (c : Cfg) (BITS : Nat) {Cell T : Type} [Dimension Cell]
    [Bits T] (bits : T) (level : Nat) (cell : Cell) : Res T := do
  let cell_index := Dimension.toUsize cell
  let start_bit ← usub c BITS (← umul c (← uadd c level 1) (Dimension.DIMENSIONALITY Cell))
  let end_bit ← uadd c start_bit (Dimension.DIMENSIONALITY Cell)
  Bits.setBits c bits ⟨start_bit, end_bit⟩ (Bits.fromUN c (BitVec.ofNat 8 cell_index))

/-- `storage.rs` 177: `DynamicStorage::MAX_LEVELS`, which stands for "unlimited". -/
def DynamicStorage.MAX_LEVELS : Nat := 0

/-- `storage.rs` 181-183: `DynamicStorage::max_depth`. -/
def DynamicStorage.maxDepth : Option Nat := none

/-- `storage.rs` 185-195: `DynamicStorage::get_cell_at_level_unchecked`. -/
def DynamicStorage.getCellAtLevelUnchecked (c : Cfg) {Cell T : Type} [Dimension Cell]
    [Bits T] (bits : T) (level : Nat) : Res Cell := do
  let num_bytes := Bits.size bits
  let start_bit ← usub c (← umul c num_bytes 8)
    (← umul c (← uadd c level 1) (Dimension.DIMENSIONALITY Cell))
  let end_bit ← uadd c start_bit (Dimension.DIMENSIONALITY Cell)
  let cell_index ← Bits.getBitsAsUsize c bits ⟨start_bit, end_bit⟩
  unwrapResult (Dimension.tryFromUsize cell_index.toNat)

/-- `storage.rs` 197-207: `DynamicStorage::set_cell_at_level_unchecked`. -/
def DynamicStorage.setCellAtLevelUnchecked (c : Cfg) {Cell T : Type} [Dimension Cell]
    [Bits T] (bits : T) (level : Nat) (cell : Cell) : Res T := do
  let cell_index := Dimension.toUsize cell
  let num_bytes := Bits.size bits
  let start_bit ← usub c (← umul c num_bytes 8)
    (← umul c (← uadd c level 1) (Dimension.DIMENSIONALITY Cell))
  let end_bit ← uadd c start_bit (Dimension.DIMENSIONALITY Cell)
  Bits.setBitsFromUsize c bits ⟨start_bit, end_bit⟩ (BitVec.ofNat c.ptrBits cell_index)

/-- `storage.rs` 41-78: `trait Storage`. `bits`/`bits_mut` are folded into the two accessors, which
are what the provided methods (65-77) compute from them (`StorageBits.lean`, `C80_provided_methods`). -/
class Storage (S : Type) (Cell : outParam Type) where
  depth : S → Nat
  getCellAtLevelUnchecked : Cfg → S → Nat → Res Cell
  setCellAtLevelUnchecked : Cfg → S → Nat → Cell → Res S
  maxDepth : Option Nat

/-- `storage.rs` 81-92: `trait VariableDepthStorage`. -/
class VariableDepthStorage (S : Type) (Cell : outParam Type) extends Storage S Cell where
  ancestor : Cfg → S → NonZeroUsize → Res (Option S)
  descendant : Cfg → S → List Cell → Res (Option S)

/-- `TryFrom<&[Cell]>` and `TryFrom<[Cell; N]>` as bounds on a storage type (`morton_index_2d.rs` 273,
283; `morton_index_3d.rs` 84, 94). The array `[Cell; N]` is a list of length `N`. -/
class TryFromCells (S : Type) (Cell : outParam Type) where
  tryFromSlice : Cfg → List Cell → Res (Except Error S)
  tryFromArray : Cfg → List Cell → Res (Except Error S)

/-! ## `indices/mod.rs` 19-36: the cell iterator -/

/-- `indices/mod.rs` 19-23: `struct CellIter`. -/
structure CellIter (S : Type) where
  storage : S
  index : Nat

/-- `indices/mod.rs` 28-35: `CellIter::next`; returns the item and the advanced iterator. -/
def CellIter.next (c : Cfg) {S Cell : Type} [Storage S Cell] (self : CellIter S) :
    Res (Option Cell × CellIter S) :=
  if self.index = Storage.depth self.storage then .ok (none, self)
  else do
    let index := self.index
    let self := { self with index := ← uadd c self.index 1 }
    return (some (← Storage.getCellAtLevelUnchecked c self.storage index), self)

/-- `Iterator::collect::<Vec<_>>()` (`morton_index_2d.rs` 842): call `next` until it returns `None`, at most `fuel` times. -/
def CellIter.collect (c : Cfg) {S Cell : Type} [Storage S Cell] :
    (fuel : Nat) → CellIter S → Res (List Cell)
  | 0, _ => .error .nontermination
  | fuel + 1, it => do
    let (item, it) ← it.next c
    match item with
    | none => return []
    | some x => return x :: (← CellIter.collect c fuel it)

/-- `morton_index_2d.rs` 58-60, 430-441, 598-609, 773-784 and `morton_index_3d.rs` 62-64, 501-512,
664-675, 839-850: `cells()` / `into_iter()`. -/
def Storage.cells {S Cell : Type} [Storage S Cell] (s : S) : CellIter S := ⟨s, 0⟩

/-- `cells().collect::<Vec<_>>()` (`morton_index_2d.rs` 842). The fuel is one more than the number of cells; a run that would
need more is reported as `Fault.nontermination`. -/
def Storage.collectCells (c : Cfg) {S Cell : Type} [Storage S Cell] (s : S) : Res (List Cell) :=
  CellIter.collect c (Storage.depth s + 1) (Storage.cells s)

/-! ## `morton.rs` -/

/-- `morton.rs` 7-20: `enum MortonIndexNaming`. -/
inductive MortonIndexNaming where
  | CellConcatenation
  | CellConcatenationWithRoot
  | GridIndex
  deriving DecidableEq, Repr

/-- `morton.rs` 28-122: the required methods of `trait MortonIndex`, except `to_grid_index`, whose
type depends on the dimension (see `MortonIndex2D.toGridIndex`, `MortonIndex3D.toGridIndex`). -/
class MortonIndex (M : Type) (Cell : outParam Type) where
  getCellAtLevel : Cfg → M → Nat → Res Cell
  getCellAtLevelUnchecked : Cfg → M → Nat → Res Cell
  setCellAtLevel : Cfg → M → Nat → Cell → Res M
  setCellAtLevelUnchecked : Cfg → M → Nat → Cell → Res M
  depth : M → Nat
  toString : Cfg → M → MortonIndexNaming → Res String

/-- `morton.rs` 105-121: `MortonIndex::inverted`. -/
def MortonIndex.inverted (c : Cfg) {M Cell : Type} [MortonIndex M Cell] (self : M) : Res M :=
  let max_level := MortonIndex.depth self
  forRange 0 max_level self fun level ret => do
    let inverted_level ← usub c (← usub c max_level level) 1
    MortonIndex.setCellAtLevelUnchecked c ret inverted_level
      (← MortonIndex.getCellAtLevelUnchecked c self level)

/-- `morton.rs` 126-164: the required methods of `trait VariableDepthMortonIndex`. -/
class VariableDepthMortonIndex (M : Type) (Cell : outParam Type) extends MortonIndex M Cell where
  ancestor : Cfg → M → NonZeroUsize → Res (Option M)
  descendant : Cfg → M → List Cell → Res (Option M)

/-- `morton.rs` 133-135: `parent`. -/
def VariableDepthMortonIndex.parent (c : Cfg) {M Cell : Type} [VariableDepthMortonIndex M Cell]
    (self : M) : Res (Option M) := do
  VariableDepthMortonIndex.ancestor c self (← NonZeroUsize.newUnchecked 1)

/-- `morton.rs` 138-150: `with_depth`. -/
def VariableDepthMortonIndex.withDepth (c : Cfg) {M Cell : Type} [VariableDepthMortonIndex M Cell]
    (self : M) (new_depth : Nat) : Res (Option M) := do
  if new_depth > MortonIndex.depth self then return none
  else
    let generations ← usub c (MortonIndex.depth self) new_depth
    if generations = 0 then return some self
    else VariableDepthMortonIndex.ancestor c self (← NonZeroUsize.newUnchecked generations)

/-- `morton.rs` 161-163: `child`. -/
def VariableDepthMortonIndex.child (c : Cfg) {M Cell : Type} [VariableDepthMortonIndex M Cell]
    (self : M) (cell : Cell) : Res (Option M) :=
  VariableDepthMortonIndex.descendant c self [cell]

end MortonRs
