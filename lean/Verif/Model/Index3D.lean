import Verif.Model.Storage
import Verif.Model.Align

/-! # Model of `/repo/src/indices/morton_index_3d.rs`

A `B: FixedStorageType` is a width `w`: values are `BitVec w`, `B::BITS` is `w`, `B::default()` is
`0#w`. `&self`/`&mut self` methods return the new value. -/

namespace MortonRs

/-! ## Storage types -/

/-- `morton_index_3d.rs` 441-444: `struct FixedDepthStorage3D<B>`. -/
structure FixedDepthStorage3D (w : Nat) where
  bits : BitVec w
  deriving DecidableEq, Repr

/-- `morton_index_3d.rs` 514-518: `struct StaticStorage3D<B>`. `depth` is a `u8`. -/
structure StaticStorage3D (w : Nat) where
  bits : BitVec w
  depth : Nat
  deriving DecidableEq, Repr

/-- `morton_index_3d.rs` 684-687: `struct DynamicStorage3D`. -/
structure DynamicStorage3D where
  bits : List (BitVec 8)
  depth : Nat
  deriving DecidableEq, Repr

/-- `morton_index_3d.rs` 441: `derive(Default)` of `FixedDepthStorage3D`. -/
def FixedDepthStorage3D.default (w : Nat) : FixedDepthStorage3D w := ⟨0#w⟩

/-- `morton_index_3d.rs` 514: `derive(Default)` of `StaticStorage3D`. -/
def StaticStorage3D.default (w : Nat) : StaticStorage3D w := ⟨0#w, 0⟩

/-- `morton_index_3d.rs` 683: `derive(Default)` of `DynamicStorage3D`. -/
def DynamicStorage3D.default : DynamicStorage3D := ⟨[], 0⟩

/-- `morton_index_3d.rs` 446-461: `Storage for FixedDepthStorage3D` with
`StorageType = FixedDepthStorage` (accessors: `storage.rs` 65-77). -/
instance (w : Nat) : Storage (FixedDepthStorage3D w) Octant where
  depth _ := FixedDepthStorage.MAX_LEVELS w Octant
  getCellAtLevelUnchecked c s level := FixedDepthStorage.getCellAtLevelUnchecked c w s.bits level
  setCellAtLevelUnchecked c s level cell := do
    return { s with bits := ← FixedDepthStorage.setCellAtLevelUnchecked c w s.bits level cell }
  maxDepth := FixedDepthStorage.maxDepth w Octant

/-- `morton_index_3d.rs` 463-480: `TryFrom<&[Octant]> for FixedDepthStorage3D`. -/
def FixedDepthStorage3D.tryFromSlice (c : Cfg) (w : Nat) (octants : List Octant) :
    Res (Except Error (FixedDepthStorage3D w)) := do
  if octants.length > FixedDepthStorage.MAX_LEVELS w Octant then
    return .error (.DepthLimitedExceeded (FixedDepthStorage.MAX_LEVELS w Octant))
  else
    let ret ← forEnum octants (FixedDepthStorage3D.default w) fun level cell ret =>
      Storage.setCellAtLevelUnchecked c ret level cell
    return .ok ret

/-- `morton_index_3d.rs` 482-499: `TryFrom<[Octant; N]> for FixedDepthStorage3D`; `N` is the length
of the list. -/
def FixedDepthStorage3D.tryFromArray (c : Cfg) (w : Nat) (octants : List Octant) :
    Res (Except Error (FixedDepthStorage3D w)) := do
  if octants.length > FixedDepthStorage.MAX_LEVELS w Octant then
    return .error (.DepthLimitedExceeded (FixedDepthStorage.MAX_LEVELS w Octant))
  else
    let ret ← forEnum octants (FixedDepthStorage3D.default w) fun level cell ret =>
      Storage.setCellAtLevelUnchecked c ret level cell
    return .ok ret

/-- `morton_index_3d.rs` 441: derived `Ord`, `PartialOrd`, `PartialEq`, `Hash` of `FixedDepthStorage3D`. -/
instance (w : Nat) : RustOrd (FixedDepthStorage3D w) where
  cmp _ a b := .ok (compare a.bits.toNat b.bits.toNat)
  partialCmp _ a b := .ok (some (compare a.bits.toNat b.bits.toNat))
  eq a b := a.bits == b.bits
  hashInput a := [a.bits.toNat]

/-- `morton_index_3d.rs` 520-535: `Storage for StaticStorage3D` with `StorageType = StaticStorage`. -/
instance (w : Nat) : Storage (StaticStorage3D w) Octant where
  depth s := s.depth
  getCellAtLevelUnchecked c s level := StaticStorage.getCellAtLevelUnchecked c w s.bits level
  setCellAtLevelUnchecked c s level cell := do
    return { s with bits := ← StaticStorage.setCellAtLevelUnchecked c w s.bits level cell }
  maxDepth := StaticStorage.maxDepth w Octant

/-- `morton_index_3d.rs` 578-612: `Ord for StaticStorage3D`. -/
def StaticStorage3D.cmp (c : Cfg) {w : Nat} (self other : StaticStorage3D w) : Res Ordering := do
  let end_bit := w
  let self_start_bit ← usub c end_bit (← umul c self.depth 3)
  let other_start_bit ← usub c end_bit (← umul c other.depth 3)
  match compare self.depth other.depth with
  | .lt =>
    let self_bits ← intGetBits c self.bits ⟨self_start_bit, end_bit⟩
    let other_bits ← intGetBits c other.bits ⟨self_start_bit, end_bit⟩
    if self_bits.toNat > other_bits.toNat then return .gt else return .lt
  | .eq =>
    let self_bits ← intGetBits c self.bits ⟨self_start_bit, end_bit⟩
    let other_bits ← intGetBits c other.bits ⟨other_start_bit, end_bit⟩
    return compare self_bits.toNat other_bits.toNat
  | .gt =>
    let self_bits ← intGetBits c self.bits ⟨other_start_bit, end_bit⟩
    let other_bits ← intGetBits c other.bits ⟨other_start_bit, end_bit⟩
    if self_bits.toNat ≥ other_bits.toNat then return .gt else return .lt

/-- `morton_index_3d.rs` 614-620: `PartialEq for StaticStorage3D`. -/
def StaticStorage3D.eq {w : Nat} (self other : StaticStorage3D w) : Bool :=
  self.bits == other.bits && self.depth == other.depth

/-- `morton_index_3d.rs` 572-622 (`PartialOrd`, `Ord`, `PartialEq`) and 514 (derived `Hash`) of `StaticStorage3D`. -/
instance (w : Nat) : RustOrd (StaticStorage3D w) where
  cmp c a b := StaticStorage3D.cmp c a b
  partialCmp c a b := do return some (← StaticStorage3D.cmp c a b)
  eq := StaticStorage3D.eq
  hashInput a := [a.bits.toNat, a.depth]

/-- `morton_index_3d.rs` 538-553: `StaticStorage3D::ancestor`. -/
def StaticStorage3D.ancestor (c : Cfg) {w : Nat} (self : StaticStorage3D w)
    (generations : NonZeroUsize) : Res (Option (StaticStorage3D w)) := do
  if generations.val > self.depth then return none
  else
    let new_depth ← u8sub c self.depth (asU8 generations.val)
    let ret ← forRange new_depth self.depth self fun level ret =>
      Storage.setCellAtLevelUnchecked c ret level Octant.Zero
    return some { ret with depth := new_depth }

/-- `morton_index_3d.rs` 555-569: `StaticStorage3D::descendant`. -/
def StaticStorage3D.descendant (c : Cfg) {w : Nat} (self : StaticStorage3D w)
    (cells : List Octant) : Res (Option (StaticStorage3D w)) := do
  let new_depth ← uadd c self.depth cells.length
  if new_depth > StaticStorage.MAX_LEVELS w Octant then return none
  else
    let ret ← forEnum cells self fun offset cell ret => do
      Storage.setCellAtLevelUnchecked c ret (← uadd c self.depth offset) cell
    return some { ret with depth := asU8 new_depth }

/-- `morton_index_3d.rs` 537-570: `VariableDepthStorage for StaticStorage3D`. -/
instance (w : Nat) : VariableDepthStorage (StaticStorage3D w) Octant where
  ancestor c s g := s.ancestor c g
  descendant c s cells := s.descendant c cells

/-- `morton_index_3d.rs` 624-642: `TryFrom<&[Octant]> for StaticStorage3D`. -/
def StaticStorage3D.tryFromSlice (c : Cfg) (w : Nat) (octants : List Octant) :
    Res (Except Error (StaticStorage3D w)) := do
  if octants.length > StaticStorage.MAX_LEVELS w Octant then
    return .error (.DepthLimitedExceeded (StaticStorage.MAX_LEVELS w Octant))
  else
    let ret ← forEnum octants (StaticStorage3D.default w) fun level cell ret =>
      Storage.setCellAtLevelUnchecked c ret level cell
    return .ok { ret with depth := asU8 octants.length }

/-- `morton_index_3d.rs` 644-662: `TryFrom<[Octant; N]> for StaticStorage3D`. -/
def StaticStorage3D.tryFromArray (c : Cfg) (w : Nat) (octants : List Octant) :
    Res (Except Error (StaticStorage3D w)) := do
  if octants.length > StaticStorage.MAX_LEVELS w Octant then
    return .error (.DepthLimitedExceeded (StaticStorage.MAX_LEVELS w Octant))
  else
    let ret ← forEnum octants (StaticStorage3D.default w) fun level cell ret =>
      Storage.setCellAtLevelUnchecked c ret level cell
    return .ok { ret with depth := asU8 octants.length }

/-- `morton_index_3d.rs` 689-698: `DynamicStorage3D::zeroed`. -/
def DynamicStorage3D.zeroed (c : Cfg) (depth : Nat) : Res DynamicStorage3D := do
  let num_bytes := (← uadd c (← umul c depth 3) 7) / 8
  return ⟨List.replicate num_bytes 0#8, depth⟩

/-- `morton_index_3d.rs` 732-747: `Storage for DynamicStorage3D` with `StorageType = DynamicStorage`. -/
instance : Storage DynamicStorage3D Octant where
  depth s := s.depth
  getCellAtLevelUnchecked c s level := DynamicStorage.getCellAtLevelUnchecked c s.bits level
  setCellAtLevelUnchecked c s level cell := do
    return { s with bits := ← DynamicStorage.setCellAtLevelUnchecked c s.bits level cell }
  maxDepth := DynamicStorage.maxDepth

/-- `morton_index_3d.rs` 700-707: `DynamicStorage3D::get_cell_at_level_or_none`. -/
def DynamicStorage3D.getCellAtLevelOrNone (c : Cfg) (self : DynamicStorage3D) (level : Nat) :
    Res (Option Octant) :=
  if level ≥ self.depth then .ok none
  else do return some (← Storage.getCellAtLevelUnchecked c self level)

/-- `Option<Octant>::cmp`, used in `morton_index_3d.rs` 722: `None` is less than any `Some`. -/
def Octant.optionCmp : Option Octant → Option Octant → Ordering
  | none, none => .eq
  | none, some _ => .lt
  | some _, none => .gt
  | some a, some b => a.cmp b

/-- `morton_index_3d.rs` 719-728: the loop of `DynamicStorage3D::cmp` over the given levels. -/
def DynamicStorage3D.cmpLevels (c : Cfg) (self other : DynamicStorage3D) : List Nat → Res Ordering
  | [] => .ok .eq
  | level :: levels => do
    let self_cell ← self.getCellAtLevelOrNone c level
    let other_cell ← other.getCellAtLevelOrNone c level
    let cmp := Octant.optionCmp self_cell other_cell
    if cmp = .eq then DynamicStorage3D.cmpLevels c self other levels else return cmp

/-- `morton_index_3d.rs` 716-730: `Ord for DynamicStorage3D`. -/
def DynamicStorage3D.cmp (c : Cfg) (self other : DynamicStorage3D) : Res Ordering :=
  let max_level := max self.depth other.depth
  DynamicStorage3D.cmpLevels c self other (List.range' 0 max_level)

/-- `morton_index_3d.rs` 710-730 (`PartialOrd`, `Ord`) and 683 (derived `PartialEq`, `Hash`) of `DynamicStorage3D`.
`Vec<u8>::hash` writes the length and then the bytes. -/
instance : RustOrd DynamicStorage3D where
  cmp := DynamicStorage3D.cmp
  partialCmp c a b := do return some (← DynamicStorage3D.cmp c a b)
  eq a b := a.bits == b.bits && a.depth == b.depth
  hashInput a := a.bits.length :: a.bits.map BitVec.toNat ++ [a.depth]

/-- `morton_index_3d.rs` 750-779: `DynamicStorage3D::ancestor`. -/
def DynamicStorage3D.ancestor (c : Cfg) (self : DynamicStorage3D) (generations : NonZeroUsize) :
    Res (Option DynamicStorage3D) := do
  if generations.val > self.depth then return none
  else
    let new_depth ← usub c self.depth generations.val
    let current_num_bytes := (← uadd c (← umul c self.depth 3) 7) / 8
    let new_num_bytes := (← uadd c (← umul c new_depth 3) 7) / 8
    let bytes_to_skip ← usub c current_num_bytes new_num_bytes
    let new_bits := self.bits.drop bytes_to_skip
    let bits_in_first_byte := (← umul c new_depth 3) % 8
    let new_bits ←
      if new_num_bytes > 0 ∧ bits_in_first_byte > 0 then do
        let leftover_bits_in_last_byte ← usub c 8 bits_in_first_byte
        let mask := ~~~(← subN c (← shl c 1#8 leftover_bits_in_last_byte) 1#8)
        indexSet new_bits 0 ((← index new_bits 0) &&& mask)
      else pure new_bits
    return some ⟨new_bits, new_depth⟩

/-- `morton_index_3d.rs` 781-800: `DynamicStorage3D::descendant`. -/
def DynamicStorage3D.descendant (c : Cfg) (self : DynamicStorage3D) (cells : List Octant) :
    Res (Option DynamicStorage3D) := do
  let new_depth ← uadd c self.depth cells.length
  let current_num_bytes := (← uadd c (← umul c self.depth 3) 7) / 8
  let new_num_bytes := (← uadd c (← umul c new_depth 3) 7) / 8
  let bytes_to_add ← usub c new_num_bytes current_num_bytes
  let new_bits := List.replicate bytes_to_add 0#8 ++ self.bits
  let ret : DynamicStorage3D := ⟨new_bits, new_depth⟩
  let ret ← forEnum cells ret fun level_offset cell ret => do
    Storage.setCellAtLevelUnchecked c ret (← uadd c self.depth level_offset) cell
  return some ret

/-- `morton_index_3d.rs` 749-801: `VariableDepthStorage for DynamicStorage3D`. -/
instance : VariableDepthStorage DynamicStorage3D Octant where
  ancestor c s g := s.ancestor c g
  descendant c s cells := s.descendant c cells

/-- `morton_index_3d.rs` 803-819: `TryFrom<&[Octant]> for DynamicStorage3D`. -/
def DynamicStorage3D.tryFromSlice (c : Cfg) (octants : List Octant) :
    Res (Except Error DynamicStorage3D) := do
  let num_bytes := (← uadd c (← umul c octants.length 3) 7) / 8
  let storage : DynamicStorage3D := ⟨List.replicate num_bytes 0#8, octants.length⟩
  let storage ← forEnum octants storage fun level octant storage =>
    Storage.setCellAtLevelUnchecked c storage level octant
  return .ok storage

/-- `morton_index_3d.rs` 821-837: `TryFrom<[Octant; N]> for DynamicStorage3D`. -/
def DynamicStorage3D.tryFromArray (c : Cfg) (octants : List Octant) :
    Res (Except Error DynamicStorage3D) := do
  let num_bytes := (← uadd c (← umul c octants.length 3) 7) / 8
  let storage : DynamicStorage3D := ⟨List.replicate num_bytes 0#8, octants.length⟩
  let storage ← forEnum octants storage fun level octant storage =>
    Storage.setCellAtLevelUnchecked c storage level octant
  return .ok storage

/-! ## The index type -/

/-- `morton_index_3d.rs` 44-46: `struct MortonIndex3D<S>`. -/
structure MortonIndex3D (S : Type) where
  storage : S
  deriving DecidableEq, Repr

/-- `morton_index_3d.rs` 463-499: the two conversions from cells. -/
instance (w : Nat) : TryFromCells (FixedDepthStorage3D w) Octant :=
  ⟨fun c => FixedDepthStorage3D.tryFromSlice c w, fun c => FixedDepthStorage3D.tryFromArray c w⟩
/-- `morton_index_3d.rs` 624-662: the two conversions from cells. -/
instance (w : Nat) : TryFromCells (StaticStorage3D w) Octant :=
  ⟨fun c => StaticStorage3D.tryFromSlice c w, fun c => StaticStorage3D.tryFromArray c w⟩
/-- `morton_index_3d.rs` 803-837: the two conversions from cells. -/
instance : TryFromCells DynamicStorage3D Octant :=
  ⟨DynamicStorage3D.tryFromSlice, DynamicStorage3D.tryFromArray⟩

namespace MortonIndex3D

/-- `morton_index_3d.rs` 84-92: `TryFrom<&[Octant]> for MortonIndex3D<S>`. -/
def tryFromSlice (c : Cfg) {S : Type} [TryFromCells S Octant] (value : List Octant) :
    Res (Except Error (MortonIndex3D S)) := do
  return (← TryFromCells.tryFromSlice c value).map MortonIndex3D.mk

/-- `morton_index_3d.rs` 94-102: `TryFrom<[Octant; N]> for MortonIndex3D<S>`. -/
def tryFromArray (c : Cfg) {S : Type} [TryFromCells S Octant] (value : List Octant) :
    Res (Except Error (MortonIndex3D S)) := do
  return (← TryFromCells.tryFromArray c value).map MortonIndex3D.mk

/-- `morton_index_3d.rs` 62-64: `cells`. -/
def cells {S : Type} [Storage S Octant] (self : MortonIndex3D S) : CellIter S :=
  Storage.cells self.storage

/-- `morton_index_3d.rs` 107-112: `get_cell_at_level`. -/
def getCellAtLevel (c : Cfg) {S : Type} [Storage S Octant] (self : MortonIndex3D S) (level : Nat) :
    Res Octant :=
  if level ≥ Storage.depth self.storage then .error .panic
  else Storage.getCellAtLevelUnchecked c self.storage level

/-- `morton_index_3d.rs` 114-116: `get_cell_at_level_unchecked`. -/
def getCellAtLevelUnchecked (c : Cfg) {S : Type} [Storage S Octant] (self : MortonIndex3D S)
    (level : Nat) : Res Octant :=
  Storage.getCellAtLevelUnchecked c self.storage level

/-- `morton_index_3d.rs` 118-123: `set_cell_at_level`. -/
def setCellAtLevel (c : Cfg) {S : Type} [Storage S Octant] (self : MortonIndex3D S) (level : Nat)
    (cell : Octant) : Res (MortonIndex3D S) :=
  if level ≥ Storage.depth self.storage then .error .panic
  else do return ⟨← Storage.setCellAtLevelUnchecked c self.storage level cell⟩

/-- `morton_index_3d.rs` 125-127: `set_cell_at_level_unchecked`. -/
def setCellAtLevelUnchecked (c : Cfg) {S : Type} [Storage S Octant] (self : MortonIndex3D S)
    (level : Nat) (cell : Octant) : Res (MortonIndex3D S) := do
  return ⟨← Storage.setCellAtLevelUnchecked c self.storage level cell⟩

/-- `morton_index_3d.rs` 129-131: `depth`. -/
def depth {S : Type} [Storage S Octant] (self : MortonIndex3D S) : Nat := Storage.depth self.storage

/-- `morton_index_3d.rs` 158-169: `to_grid_index`. -/
def toGridIndex (c : Cfg) {S : Type} [Storage S Octant] (self : MortonIndex3D S)
    (ordering : OctantOrdering) : Res (Vector3 c.ptrBits) :=
  forRange 0 self.depth ⟨0#c.ptrBits, 0#c.ptrBits, 0#c.ptrBits⟩ fun level index => do
    let octant ← self.getCellAtLevelUnchecked c level
    let octant_index := ordering.toIndex c.ptrBits octant
    let shift ← usub c (← usub c self.depth level) 1
    let x := index.x ||| (← shl c octant_index.x shift)
    let y := index.y ||| (← shl c octant_index.y shift)
    let z := index.z ||| (← shl c octant_index.z shift)
    return ⟨x, y, z⟩

/-- `morton_index_3d.rs` 135-141: the `CellConcatenation` arm of `to_string`. -/
def cellConcatenation (c : Cfg) {S : Type} [Storage S Octant] (self : MortonIndex3D S) : Res String := do
  let chars ← (List.range' 0 self.depth).mapM fun level => do
    let cell ← self.getCellAtLevelUnchecked c level
    unwrapOption (fromDigit10 cell.toUsize)
  return String.ofList chars

/-- `morton_index_3d.rs` 133-156: `to_string`. `{}` of a `usize` is its decimal representation. -/
def toString (c : Cfg) {S : Type} [Storage S Octant] (self : MortonIndex3D S)
    (naming : MortonIndexNaming) : Res String :=
  match naming with
  | .CellConcatenation => self.cellConcatenation c
  | .CellConcatenationWithRoot => do return "r" ++ (← self.cellConcatenation c)
  | .GridIndex => do
    let grid_index ← self.toGridIndex c OctantOrdering.default
    return Nat.repr self.depth ++ "-" ++ Nat.repr grid_index.x.toNat ++ "-" ++ Nat.repr grid_index.y.toNat ++
      "-" ++ Nat.repr grid_index.z.toNat

/-- `morton_index_3d.rs` 104-170: `MortonIndex for MortonIndex3D<S>`. -/
instance {S : Type} [Storage S Octant] : MortonIndex (MortonIndex3D S) Octant where
  getCellAtLevel c := getCellAtLevel c
  getCellAtLevelUnchecked c := getCellAtLevelUnchecked c
  setCellAtLevel c := setCellAtLevel c
  setCellAtLevelUnchecked c := setCellAtLevelUnchecked c
  depth := depth
  toString c := toString c

/-- `morton_index_3d.rs` 67-82: `VariableDepthMortonIndex for MortonIndex3D<S>`. -/
instance {S : Type} [VariableDepthStorage S Octant] :
    VariableDepthMortonIndex (MortonIndex3D S) Octant where
  ancestor c self generations := do
    return (← VariableDepthStorage.ancestor c self.storage generations).map MortonIndex3D.mk
  descendant c self cells := do
    return (← VariableDepthStorage.descendant c self.storage cells).map MortonIndex3D.mk

/-- `morton_index_3d.rs` 43: derived `Ord`, `PartialOrd`, `PartialEq`, `Hash` of `MortonIndex3D`. -/
instance {S : Type} [RustOrd S] : RustOrd (MortonIndex3D S) where
  cmp c a b := RustOrd.cmp c a.storage b.storage
  partialCmp c a b := RustOrd.partialCmp c a.storage b.storage
  eq a b := RustOrd.eq a.storage b.storage
  hashInput a := RustOrd.hashInput a.storage

/-! ## Construction from grid indices and raw bits -/

/-- `morton_index_3d.rs` 174: `MAX_LEVELS` of the fixed-depth index. -/
def fixedMaxLevels (w : Nat) : Nat := w / Dimension.DIMENSIONALITY Octant

/-- `morton_index_3d.rs` 176: the constant `MAX_LEVELS_BITMASK`; an overflow in it is a compile error
in every function that mentions it. -/
def maxLevelsBitmask (c : Cfg) (w : Nat) : Res (BitVec c.ptrBits) :=
  if fixedMaxLevels w < c.ptrBits then
    let shifted := 1#c.ptrBits <<< fixedMaxLevels w
    if 1 ≤ shifted.toNat then .ok (shifted - 1#c.ptrBits) else .error .compileError
  else .error .compileError

/-- `morton_index_3d.rs` 184-233: `MortonIndex3D<FixedDepthStorage3D<B>>::from_grid_index`. -/
def fixedFromGridIndex (c : Cfg) (w : Nat) (grid_index : Vector3 c.ptrBits)
    (ordering : OctantOrdering) : Res (MortonIndex3D (FixedDepthStorage3D w)) := do
  let bitmask ← maxLevelsBitmask c w
  let fixed_depth := FixedDepthStorage.MAX_LEVELS w Octant
  if fixed_depth > c.ptrBits then .error .panic
  else
    let x_bits := grid_index.x &&& bitmask
    let y_bits := grid_index.y &&& bitmask
    let z_bits := grid_index.z &&& bitmask
    let (x_shift, y_shift, z_shift) := ordering.getBitShiftsForXyz
    let leftover_bits_at_end := w % Dimension.DIMENSIONALITY Octant
    let num_chunks := (← uadd c fixed_depth 20) / 21
    let bits ← forRange 0 num_chunks 0#w fun chunk_index bits => do
      let start_bit ← umul c chunk_index 21
      let end_bit ← uadd c start_bit 21
      let x_chunk := (← intGetBits c x_bits ⟨start_bit, end_bit⟩).setWidth 32
      let y_chunk := (← intGetBits c y_bits ⟨start_bit, end_bit⟩).setWidth 32
      let z_chunk := (← intGetBits c z_bits ⟨start_bit, end_bit⟩).setWidth 32
      let chunk := (← shl c (addTwoZeroesBeforeEveryBitU32 x_chunk) x_shift) |||
        (← shl c (addTwoZeroesBeforeEveryBitU32 y_chunk) y_shift) |||
        (← shl c (addTwoZeroesBeforeEveryBitU32 z_chunk) z_shift)
      let start_bit ← uadd c (← umul c chunk_index 63) leftover_bits_at_end
      let end_bit := min (← uadd c start_bit 63) w
      intSetBits c bits ⟨start_bit, end_bit⟩ (chunk.setWidth w)
    return ⟨⟨bits⟩⟩

/-- `morton_index_3d.rs` 236-240: `MortonIndex3D<FixedDepthStorage3D<B>>::from_raw_index`. -/
def fixedFromRawIndex {w : Nat} (index : BitVec w) : MortonIndex3D (FixedDepthStorage3D w) := ⟨⟨index⟩⟩

/-- `morton_index_3d.rs` 244-269: `MortonIndex3D<FixedDepthStorage3D<u64>>::from_grid_index_fast`. -/
def fixedFromGridIndexFast (c : Cfg) (grid_index : Vector3 c.ptrBits) (ordering : OctantOrdering) :
    Res (MortonIndex3D (FixedDepthStorage3D 64)) := do
  let bitmask ← maxLevelsBitmask c 64
  let fixed_depth := FixedDepthStorage.MAX_LEVELS 64 Octant
  if fixed_depth > c.ptrBits then .error .panic
  else
    let x_bits := grid_index.x &&& bitmask
    let y_bits := grid_index.y &&& bitmask
    let z_bits := grid_index.z &&& bitmask
    let (x_shift, y_shift, z_shift) := ordering.getBitShiftsForXyz
    let chunk := (← shl c (addTwoZeroesBeforeEveryBitU32 (x_bits.setWidth 32)) x_shift) |||
      (← shl c (addTwoZeroesBeforeEveryBitU32 (y_bits.setWidth 32)) y_shift) |||
      (← shl c (addTwoZeroesBeforeEveryBitU32 (z_bits.setWidth 32)) z_shift)
    return ⟨⟨← shl c chunk 1⟩⟩

/-- `morton_index_3d.rs` 274: `MAX_LEVELS` of the static index. -/
def staticMaxLevels (w : Nat) : Nat := w / Dimension.DIMENSIONALITY Octant

/-- `morton_index_3d.rs` 277-287: `MortonIndex3D<StaticStorage3D<B>>::zeroed`. -/
def staticZeroed (w : Nat) (depth : Nat) : Option (MortonIndex3D (StaticStorage3D w)) :=
  if depth > StaticStorage.MAX_LEVELS w Octant then none
  else some ⟨⟨0#w, depth⟩⟩

/-- `morton_index_3d.rs` 293-383: `MortonIndex3D<StaticStorage3D<B>>::from_grid_index`. -/
def staticFromGridIndex (c : Cfg) (w : Nat) (grid_index : Vector3 c.ptrBits) (grid_depth : Nat)
    (ordering : OctantOrdering) : Res (Except Error (MortonIndex3D (StaticStorage3D w))) := do
  if grid_depth > FixedDepthStorage.MAX_LEVELS w Octant then
    return .error (.DepthLimitedExceeded (FixedDepthStorage.MAX_LEVELS w Octant))
  else
    let shift_to_max_bits ← usub c (FixedDepthStorage.MAX_LEVELS w Octant) grid_depth
    let x_bits ← shl c (← intGetBits c grid_index.x ⟨0, grid_depth⟩) shift_to_max_bits
    let y_bits ← shl c (← intGetBits c grid_index.y ⟨0, grid_depth⟩) shift_to_max_bits
    let z_bits ← shl c (← intGetBits c grid_index.z ⟨0, grid_depth⟩) shift_to_max_bits
    let (x_shift, y_shift, z_shift) := ordering.getBitShiftsForXyz
    let leftover_bits_at_end := w % Dimension.DIMENSIONALITY Octant
    let num_chunks := (← uadd c grid_depth 7) / 8
    let max_chunks := (← uadd c (FixedDepthStorage.MAX_LEVELS w Octant) 7) / 8
    let chunk_start ← usub c max_chunks num_chunks
    let bits ← forRangeRev chunk_start max_chunks 0#w fun chunk_index bits => do
      let start_bit ← umul c chunk_index 8
      let end_bit ← uadd c start_bit 8
      let x_chunk := (← intGetBits c x_bits ⟨start_bit, end_bit⟩).setWidth 8
      let y_chunk := (← intGetBits c y_bits ⟨start_bit, end_bit⟩).setWidth 8
      let z_chunk := (← intGetBits c z_bits ⟨start_bit, end_bit⟩).setWidth 8
      let chunk := (← shl c (addTwoZeroesBeforeEveryBitU8 x_chunk) x_shift) |||
        (← shl c (addTwoZeroesBeforeEveryBitU8 y_chunk) y_shift) |||
        (← shl c (addTwoZeroesBeforeEveryBitU8 z_chunk) z_shift)
      let start_bit ← uadd c (← umul c chunk_index 24) leftover_bits_at_end
      let end_bit := min (← uadd c start_bit 24) w
      intSetBits c bits ⟨start_bit, end_bit⟩ (chunk.setWidth w)
    return .ok ⟨⟨bits, asU8 grid_depth⟩⟩

/-- `morton_index_3d.rs` 386-390: `MortonIndex3D<StaticStorage3D<B>>::from_raw_index`; `depth` is a
`u8`. -/
def staticFromRawIndex {w : Nat} (index : BitVec w) (depth : Nat) : MortonIndex3D (StaticStorage3D w) :=
  ⟨⟨index, depth⟩⟩

/-- `morton_index_3d.rs` 394-398: `MortonIndex3D<DynamicStorage3D>::zeroed`. -/
def dynamicZeroed (c : Cfg) (depth : Nat) : Res (MortonIndex3D DynamicStorage3D) := do
  return ⟨← DynamicStorage3D.zeroed c depth⟩

/-- `morton_index_3d.rs` 403-435: `MortonIndex3D<DynamicStorage3D>::from_grid_index`. -/
def dynamicFromGridIndex (c : Cfg) (grid_index : Vector3 c.ptrBits) (grid_depth : Nat)
    (ordering : OctantOrdering) : Res (MortonIndex3D DynamicStorage3D) := do
  let max_bits := c.ptrBits
  if grid_depth > max_bits / 2 then .error .panic
  else
    let x_bits ← intGetBits c grid_index.x ⟨0, grid_depth⟩
    let y_bits ← intGetBits c grid_index.y ⟨0, grid_depth⟩
    let z_bits ← intGetBits c grid_index.z ⟨0, grid_depth⟩
    let (x_shift, y_shift, z_shift) := ordering.getBitShiftsForXyz
    let ret ← DynamicStorage3D.zeroed c grid_depth
    let ret ← forRange 0 grid_depth ret fun level ret => do
      let shift ← usub c (← usub c grid_depth level) 1
      let x_bit ← shl c ((← shr c x_bits shift) &&& 1#c.ptrBits) x_shift
      let y_bit ← shl c ((← shr c y_bits shift) &&& 1#c.ptrBits) y_shift
      let z_bit ← shl c ((← shr c z_bits shift) &&& 1#c.ptrBits) z_shift
      let octant ← unwrapResult (Octant.tryFromUsize (x_bit ||| y_bit ||| z_bit).toNat)
      Storage.setCellAtLevelUnchecked c ret level octant
    return ⟨ret⟩

/-! ## Conversions between storage types -/

/-- `morton_index_3d.rs` 854-865: fixed depth to static. -/
def fixedToStatic {w : Nat} (fixed_index : MortonIndex3D (FixedDepthStorage3D w)) :
    MortonIndex3D (StaticStorage3D w) :=
  ⟨⟨fixed_index.storage.bits, asU8 (StaticStorage.MAX_LEVELS w Octant)⟩⟩

/-- `morton_index_3d.rs` 867-883: fixed depth to dynamic. -/
def fixedToDynamic (c : Cfg) {w : Nat} (fixed_index : MortonIndex3D (FixedDepthStorage3D w)) :
    MortonIndex3D DynamicStorage3D :=
  let native_bits := bytesOf c fixed_index.storage.bits
  let bits := if c.bigEndian then native_bits.reverse else native_bits
  ⟨⟨bits, FixedDepthStorage.MAX_LEVELS w Octant⟩⟩

/-- `morton_index_3d.rs` 885-895: static to fixed depth. -/
def staticToFixed {w : Nat} (static_index : MortonIndex3D (StaticStorage3D w)) :
    MortonIndex3D (FixedDepthStorage3D w) :=
  ⟨⟨static_index.storage.bits⟩⟩

/-- `morton_index_3d.rs` 897-921: static to dynamic. -/
def staticToDynamic (c : Cfg) {w : Nat} (fixed_index : MortonIndex3D (StaticStorage3D w)) :
    Res (MortonIndex3D DynamicStorage3D) := do
  let ret : MortonIndex3D DynamicStorage3D := ⟨DynamicStorage3D.default⟩
  let cells ← Storage.collectCells c fixed_index.storage
  unwrapOption (← VariableDepthMortonIndex.descendant c ret cells)

/-- `morton_index_3d.rs` 926-951: dynamic to fixed depth. -/
def dynamicToFixed (c : Cfg) (w : Nat) (value : MortonIndex3D DynamicStorage3D) :
    Except Error (MortonIndex3D (FixedDepthStorage3D w)) :=
  if value.depth > FixedDepthStorage.MAX_LEVELS w Octant then
    .error (.DepthLimitedExceeded (FixedDepthStorage.MAX_LEVELS w Octant))
  else
    let endianness := if c.bigEndian then Endianness.BigEndian else Endianness.LittleEndian
    let bytes := value.storage.bits
    .ok ⟨⟨Bits.fromU8Slice c bytes endianness⟩⟩

/-- `morton_index_3d.rs` 953-980: dynamic to static. -/
def dynamicToStatic (c : Cfg) (w : Nat) (value : MortonIndex3D DynamicStorage3D) :
    Res (Except Error (MortonIndex3D (StaticStorage3D w))) := do
  if value.depth > FixedDepthStorage.MAX_LEVELS w Octant then
    return .error (.DepthLimitedExceeded (FixedDepthStorage.MAX_LEVELS w Octant))
  else
    let ret : MortonIndex3D (StaticStorage3D w) := ⟨StaticStorage3D.default w⟩
    let ret ← forRange 0 value.depth ret fun level ret => do
      MortonIndex3D.setCellAtLevelUnchecked c ret level (← value.getCellAtLevelUnchecked c level)
    return .ok ⟨{ ret.storage with depth := asU8 value.depth }⟩

end MortonIndex3D

end MortonRs
