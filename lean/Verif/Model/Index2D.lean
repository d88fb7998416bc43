import Verif.Model.Storage
import Verif.Model.Align

/-! # Model of `/repo/src/indices/morton_index_2d.rs`

A `B: FixedStorageType` is a width `w`: values are `BitVec w`, `B::BITS` is `w`, `B::default()` is
`0#w`. `&self`/`&mut self` methods return the new value. -/

namespace MortonRs

/-! ## Storage types -/

/-- `morton_index_2d.rs` 367-370: `struct FixedDepthStorage2D<B>`. -/
structure FixedDepthStorage2D (w : Nat) where
  bits : BitVec w
  deriving DecidableEq, Repr

/-- `morton_index_2d.rs` 450-453: `struct StaticStorage2D<B>`. `depth` is a `u8`. -/
structure StaticStorage2D (w : Nat) where
  bits : BitVec w
  depth : Nat
  deriving DecidableEq, Repr

/-- `morton_index_2d.rs` 618-621: `struct DynamicStorage2D`. -/
structure DynamicStorage2D where
  bits : List (BitVec 8)
  depth : Nat
  deriving DecidableEq, Repr

/-- `morton_index_2d.rs` 367: `derive(Default)` of `FixedDepthStorage2D`. -/
def FixedDepthStorage2D.default (w : Nat) : FixedDepthStorage2D w := ⟨0#w⟩

/-- `morton_index_2d.rs` 449: `derive(Default)` of `StaticStorage2D`. -/
def StaticStorage2D.default (w : Nat) : StaticStorage2D w := ⟨0#w, 0⟩

/-- `morton_index_2d.rs` 617: `derive(Default)` of `DynamicStorage2D`. -/
def DynamicStorage2D.default : DynamicStorage2D := ⟨[], 0⟩

/-- `morton_index_2d.rs` 372-387: `Storage for FixedDepthStorage2D` with
`StorageType = FixedDepthStorage` (accessors: `storage.rs` 65-77). -/
instance (w : Nat) : Storage (FixedDepthStorage2D w) Quadrant where
  depth _ := FixedDepthStorage.MAX_LEVELS w Quadrant
  getCellAtLevelUnchecked c s level := FixedDepthStorage.getCellAtLevelUnchecked c w s.bits level
  setCellAtLevelUnchecked c s level cell := do
    return { s with bits := ← FixedDepthStorage.setCellAtLevelUnchecked c w s.bits level cell }
  maxDepth := FixedDepthStorage.maxDepth w Quadrant

/-- `morton_index_2d.rs` 389-406: `TryFrom<&[Quadrant]> for FixedDepthStorage2D`. -/
def FixedDepthStorage2D.tryFromSlice (c : Cfg) (w : Nat) (quadrants : List Quadrant) :
    Res (Except Error (FixedDepthStorage2D w)) := do
  if quadrants.length > FixedDepthStorage.MAX_LEVELS w Quadrant then
    return .error (.DepthLimitedExceeded (FixedDepthStorage.MAX_LEVELS w Quadrant))
  else
    let ret ← forEnum quadrants (FixedDepthStorage2D.default w) fun level cell ret =>
      Storage.setCellAtLevelUnchecked c ret level cell
    return .ok ret

/-- `morton_index_2d.rs` 411-428: `TryFrom<[Quadrant; N]> for FixedDepthStorage2D`; `N` is the length
of the list. -/
def FixedDepthStorage2D.tryFromArray (c : Cfg) (w : Nat) (quadrants : List Quadrant) :
    Res (Except Error (FixedDepthStorage2D w)) := do
  if quadrants.length > FixedDepthStorage.MAX_LEVELS w Quadrant then
    return .error (.DepthLimitedExceeded (FixedDepthStorage.MAX_LEVELS w Quadrant))
  else
    let ret ← forEnum quadrants (FixedDepthStorage2D.default w) fun level cell ret =>
      Storage.setCellAtLevelUnchecked c ret level cell
    return .ok ret

/-- `morton_index_2d.rs` 367: derived `Ord`, `PartialOrd`, `PartialEq`, `Hash` of `FixedDepthStorage2D`. -/
instance (w : Nat) : RustOrd (FixedDepthStorage2D w) where
  cmp _ a b := .ok (compare a.bits.toNat b.bits.toNat)
  partialCmp _ a b := .ok (some (compare a.bits.toNat b.bits.toNat))
  eq a b := a.bits == b.bits
  hashInput a := [a.bits.toNat]

/-- `morton_index_2d.rs` 455-470: `Storage for StaticStorage2D` with `StorageType = StaticStorage`. -/
instance (w : Nat) : Storage (StaticStorage2D w) Quadrant where
  depth s := s.depth
  getCellAtLevelUnchecked c s level := StaticStorage.getCellAtLevelUnchecked c w s.bits level
  setCellAtLevelUnchecked c s level cell := do
    return { s with bits := ← StaticStorage.setCellAtLevelUnchecked c w s.bits level cell }
  maxDepth := StaticStorage.maxDepth w Quadrant

/-- `morton_index_2d.rs` 478-512: `Ord for StaticStorage2D`. -/
def StaticStorage2D.cmp (c : Cfg) {w : Nat} (self other : StaticStorage2D w) : Res Ordering := do
  let end_bit := w
  let self_start_bit ← usub c end_bit (← umul c self.depth 2)
  let other_start_bit ← usub c end_bit (← umul c other.depth 2)
  match compare self.depth other.depth with
  | .lt =>
    let self_bits ← intGetBits c self.bits ⟨self_start_bit, end_bit⟩
    let other_bits ← intGetBits c other.bits ⟨self_start_bit, end_bit⟩
    if self_bits.toNat > other_bits.toNat then return .gt else return .lt
  | .eq =>
    let self_bits ← intGetBits c self.bits ⟨self_start_bit, end_bit⟩
    let other_bits ← intGetBits c other.bits ⟨other_start_bit, end_bit⟩
    return compare self_bits.toNat other_bits.toNat
  | .gt =>
    let self_bits ← intGetBits c self.bits ⟨other_start_bit, end_bit⟩
    let other_bits ← intGetBits c other.bits ⟨other_start_bit, end_bit⟩
    if self_bits.toNat ≥ other_bits.toNat then return .gt else return .lt

/-- `morton_index_2d.rs` 514-519: `PartialEq for StaticStorage2D`. -/
def StaticStorage2D.eq {w : Nat} (self other : StaticStorage2D w) : Bool :=
  self.bits == other.bits && self.depth == other.depth

/-- `morton_index_2d.rs` 472-521 (`PartialOrd`, `Ord`, `PartialEq`) and 449 (derived `Hash`) of `StaticStorage2D`. -/
instance (w : Nat) : RustOrd (StaticStorage2D w) where
  cmp c a b := StaticStorage2D.cmp c a b
  partialCmp c a b := do return some (← StaticStorage2D.cmp c a b)
  eq := StaticStorage2D.eq
  hashInput a := [a.bits.toNat, a.depth]

/-- `morton_index_2d.rs` 524-539: `StaticStorage2D::ancestor`. -/
def StaticStorage2D.ancestor (c : Cfg) {w : Nat} (self : StaticStorage2D w)
    (generations : NonZeroUsize) : Res (Option (StaticStorage2D w)) := do
  if generations.val > self.depth then return none
  else
    let new_depth ← u8sub c self.depth (asU8 generations.val)
    let ret ← forRange new_depth self.depth self fun level ret =>
      Storage.setCellAtLevelUnchecked c ret level Quadrant.Zero
    return some { ret with depth := new_depth }

/-- `morton_index_2d.rs` 541-555: `StaticStorage2D::descendant`. -/
def StaticStorage2D.descendant (c : Cfg) {w : Nat} (self : StaticStorage2D w)
    (cells : List Quadrant) : Res (Option (StaticStorage2D w)) := do
  let new_depth ← uadd c self.depth cells.length
  if new_depth > StaticStorage.MAX_LEVELS w Quadrant then return none
  else
    let ret ← forEnum cells self fun offset cell ret => do
      Storage.setCellAtLevelUnchecked c ret (← uadd c self.depth offset) cell
    return some { ret with depth := asU8 new_depth }

/-- `morton_index_2d.rs` 523-556: `VariableDepthStorage for StaticStorage2D`. -/
instance (w : Nat) : VariableDepthStorage (StaticStorage2D w) Quadrant where
  ancestor c s g := s.ancestor c g
  descendant c s cells := s.descendant c cells

/-- `morton_index_2d.rs` 558-576: `TryFrom<&[Quadrant]> for StaticStorage2D`. -/
def StaticStorage2D.tryFromSlice (c : Cfg) (w : Nat) (quadrants : List Quadrant) :
    Res (Except Error (StaticStorage2D w)) := do
  if quadrants.length > StaticStorage.MAX_LEVELS w Quadrant then
    return .error (.DepthLimitedExceeded (StaticStorage.MAX_LEVELS w Quadrant))
  else
    let ret ← forEnum quadrants (StaticStorage2D.default w) fun level cell ret =>
      Storage.setCellAtLevelUnchecked c ret level cell
    return .ok { ret with depth := asU8 quadrants.length }

/-- `morton_index_2d.rs` 578-596: `TryFrom<[Quadrant; N]> for StaticStorage2D`. -/
def StaticStorage2D.tryFromArray (c : Cfg) (w : Nat) (quadrants : List Quadrant) :
    Res (Except Error (StaticStorage2D w)) := do
  if quadrants.length > StaticStorage.MAX_LEVELS w Quadrant then
    return .error (.DepthLimitedExceeded (StaticStorage.MAX_LEVELS w Quadrant))
  else
    let ret ← forEnum quadrants (StaticStorage2D.default w) fun level cell ret =>
      Storage.setCellAtLevelUnchecked c ret level cell
    return .ok { ret with depth := asU8 quadrants.length }

/-- `morton_index_2d.rs` 624-629: `DynamicStorage2D::zeroed`. -/
def DynamicStorage2D.zeroed (depth : Nat) : DynamicStorage2D :=
  ⟨List.replicate (depth / 4 + 1) 0#8, depth⟩

/-- `morton_index_2d.rs` 663-678: `Storage for DynamicStorage2D` with `StorageType = DynamicStorage`. -/
instance : Storage DynamicStorage2D Quadrant where
  depth s := s.depth
  getCellAtLevelUnchecked c s level := DynamicStorage.getCellAtLevelUnchecked c s.bits level
  setCellAtLevelUnchecked c s level cell := do
    return { s with bits := ← DynamicStorage.setCellAtLevelUnchecked c s.bits level cell }
  maxDepth := DynamicStorage.maxDepth

/-- `morton_index_2d.rs` 631-638: `DynamicStorage2D::get_cell_at_level_or_none`. -/
def DynamicStorage2D.getCellAtLevelOrNone (c : Cfg) (self : DynamicStorage2D) (level : Nat) :
    Res (Option Quadrant) :=
  if level ≥ self.depth then .ok none
  else do return some (← Storage.getCellAtLevelUnchecked c self level)

/-- `Option<Quadrant>::cmp`, used in `morton_index_2d.rs` 653: `None` is less than any `Some`. -/
def Quadrant.optionCmp : Option Quadrant → Option Quadrant → Ordering
  | none, none => .eq
  | none, some _ => .lt
  | some _, none => .gt
  | some a, some b => a.cmp b

/-- `morton_index_2d.rs` 650-658: the loop of `DynamicStorage2D::cmp` over the given levels. -/
def DynamicStorage2D.cmpLevels (c : Cfg) (self other : DynamicStorage2D) : List Nat → Res Ordering
  | [] => .ok .eq
  | level :: levels => do
    let self_cell ← self.getCellAtLevelOrNone c level
    let other_cell ← other.getCellAtLevelOrNone c level
    let cmp := Quadrant.optionCmp self_cell other_cell
    if cmp = .eq then DynamicStorage2D.cmpLevels c self other levels else return cmp

/-- `morton_index_2d.rs` 647-661: `Ord for DynamicStorage2D`. -/
def DynamicStorage2D.cmp (c : Cfg) (self other : DynamicStorage2D) : Res Ordering :=
  let max_level := max self.depth other.depth
  DynamicStorage2D.cmpLevels c self other (List.range' 0 max_level)

/-- `morton_index_2d.rs` 641-661 (`PartialOrd`, `Ord`) and 617 (derived `PartialEq`, `Hash`) of `DynamicStorage2D`.
`Vec<u8>::hash` writes the length and then the bytes. -/
instance : RustOrd DynamicStorage2D where
  cmp := DynamicStorage2D.cmp
  partialCmp c a b := do return some (← DynamicStorage2D.cmp c a b)
  eq a b := a.bits == b.bits && a.depth == b.depth
  hashInput a := a.bits.length :: a.bits.map BitVec.toNat ++ [a.depth]

/-- `morton_index_2d.rs` 681-710: `DynamicStorage2D::ancestor`. -/
def DynamicStorage2D.ancestor (c : Cfg) (self : DynamicStorage2D) (generations : NonZeroUsize) :
    Res (Option DynamicStorage2D) := do
  if generations.val > self.depth then return none
  else
    let new_depth ← usub c self.depth generations.val
    let current_num_bytes := (← uadd c self.depth 3) / 4
    let new_num_bytes := (← uadd c new_depth 3) / 4
    let bytes_to_skip ← usub c current_num_bytes new_num_bytes
    let new_bits := self.bits.drop bytes_to_skip
    let bits_in_first_byte := new_depth % 4
    let new_bits ←
      if new_num_bytes > 0 ∧ bits_in_first_byte > 0 then do
        let leftover_bits_in_last_byte ← umul c (← usub c 4 bits_in_first_byte) 2
        let mask := ~~~(← subN c (← shl c 1#8 leftover_bits_in_last_byte) 1#8)
        indexSet new_bits 0 ((← index new_bits 0) &&& mask)
      else pure new_bits
    return some ⟨new_bits, new_depth⟩

/-- `morton_index_2d.rs` 712-734: `DynamicStorage2D::descendant`. -/
def DynamicStorage2D.descendant (c : Cfg) (self : DynamicStorage2D) (cells : List Quadrant) :
    Res (Option DynamicStorage2D) := do
  let new_depth ← uadd c self.depth cells.length
  let current_num_bytes := (← uadd c self.depth 3) / 4
  let new_num_bytes := (← uadd c new_depth 3) / 4
  let bytes_to_add ← usub c new_num_bytes current_num_bytes
  let new_bits := List.replicate bytes_to_add 0#8 ++ self.bits
  let ret : DynamicStorage2D := ⟨new_bits, new_depth⟩
  let ret ← forEnum cells ret fun level_offset cell ret => do
    Storage.setCellAtLevelUnchecked c ret (← uadd c self.depth level_offset) cell
  return some ret

/-- `morton_index_2d.rs` 680-735: `VariableDepthStorage for DynamicStorage2D`. -/
instance : VariableDepthStorage DynamicStorage2D Quadrant where
  ancestor c s g := s.ancestor c g
  descendant c s cells := s.descendant c cells

/-- `morton_index_2d.rs` 737-753: `TryFrom<&[Quadrant]> for DynamicStorage2D`. -/
def DynamicStorage2D.tryFromSlice (c : Cfg) (quadrants : List Quadrant) :
    Res (Except Error DynamicStorage2D) := do
  let num_bytes := (← uadd c quadrants.length 3) / 4
  let storage : DynamicStorage2D := ⟨List.replicate num_bytes 0#8, quadrants.length⟩
  let storage ← forEnum quadrants storage fun level quadrant storage =>
    Storage.setCellAtLevelUnchecked c storage level quadrant
  return .ok storage

/-- `morton_index_2d.rs` 755-771: `TryFrom<[Quadrant; N]> for DynamicStorage2D`. -/
def DynamicStorage2D.tryFromArray (c : Cfg) (quadrants : List Quadrant) :
    Res (Except Error DynamicStorage2D) := do
  let num_bytes := (← uadd c quadrants.length 3) / 4
  let storage : DynamicStorage2D := ⟨List.replicate num_bytes 0#8, quadrants.length⟩
  let storage ← forEnum quadrants storage fun level quadrant storage =>
    Storage.setCellAtLevelUnchecked c storage level quadrant
  return .ok storage

/-! ## The index type -/

/-- `morton_index_2d.rs` 40-42: `struct MortonIndex2D<S>`. -/
structure MortonIndex2D (S : Type) where
  storage : S
  deriving DecidableEq, Repr

/-- `morton_index_2d.rs` 389-428: the two conversions from cells. -/
instance (w : Nat) : TryFromCells (FixedDepthStorage2D w) Quadrant :=
  ⟨fun c => FixedDepthStorage2D.tryFromSlice c w, fun c => FixedDepthStorage2D.tryFromArray c w⟩
/-- `morton_index_2d.rs` 558-596: the two conversions from cells. -/
instance (w : Nat) : TryFromCells (StaticStorage2D w) Quadrant :=
  ⟨fun c => StaticStorage2D.tryFromSlice c w, fun c => StaticStorage2D.tryFromArray c w⟩
/-- `morton_index_2d.rs` 737-771: the two conversions from cells. -/
instance : TryFromCells DynamicStorage2D Quadrant :=
  ⟨DynamicStorage2D.tryFromSlice, DynamicStorage2D.tryFromArray⟩

namespace MortonIndex2D

/-- `morton_index_2d.rs` 273-281: `TryFrom<&[Quadrant]> for MortonIndex2D<S>`. -/
def tryFromSlice (c : Cfg) {S : Type} [TryFromCells S Quadrant] (value : List Quadrant) :
    Res (Except Error (MortonIndex2D S)) := do
  return (← TryFromCells.tryFromSlice c value).map MortonIndex2D.mk

/-- `morton_index_2d.rs` 283-291: `TryFrom<[Quadrant; N]> for MortonIndex2D<S>`. -/
def tryFromArray (c : Cfg) {S : Type} [TryFromCells S Quadrant] (value : List Quadrant) :
    Res (Except Error (MortonIndex2D S)) := do
  return (← TryFromCells.tryFromArray c value).map MortonIndex2D.mk

/-- `morton_index_2d.rs` 58-60: `cells`. -/
def cells {S : Type} [Storage S Quadrant] (self : MortonIndex2D S) : CellIter S :=
  Storage.cells self.storage

/-- `morton_index_2d.rs` 308-313: `get_cell_at_level`. -/
def getCellAtLevel (c : Cfg) {S : Type} [Storage S Quadrant] (self : MortonIndex2D S) (level : Nat) :
    Res Quadrant :=
  if level ≥ Storage.depth self.storage then .error .panic
  else Storage.getCellAtLevelUnchecked c self.storage level

/-- `morton_index_2d.rs` 315-317: `get_cell_at_level_unchecked`. -/
def getCellAtLevelUnchecked (c : Cfg) {S : Type} [Storage S Quadrant] (self : MortonIndex2D S)
    (level : Nat) : Res Quadrant :=
  Storage.getCellAtLevelUnchecked c self.storage level

/-- `morton_index_2d.rs` 319-324: `set_cell_at_level`. -/
def setCellAtLevel (c : Cfg) {S : Type} [Storage S Quadrant] (self : MortonIndex2D S) (level : Nat)
    (cell : Quadrant) : Res (MortonIndex2D S) :=
  if level ≥ Storage.depth self.storage then .error .panic
  else do return ⟨← Storage.setCellAtLevelUnchecked c self.storage level cell⟩

/-- `morton_index_2d.rs` 326-328: `set_cell_at_level_unchecked`. -/
def setCellAtLevelUnchecked (c : Cfg) {S : Type} [Storage S Quadrant] (self : MortonIndex2D S)
    (level : Nat) (cell : Quadrant) : Res (MortonIndex2D S) := do
  return ⟨← Storage.setCellAtLevelUnchecked c self.storage level cell⟩

/-- `morton_index_2d.rs` 330-332: `depth`. -/
def depth {S : Type} [Storage S Quadrant] (self : MortonIndex2D S) : Nat := Storage.depth self.storage

/-- `morton_index_2d.rs` 353-363: `to_grid_index`. -/
def toGridIndex (c : Cfg) {S : Type} [Storage S Quadrant] (self : MortonIndex2D S)
    (ordering : QuadrantOrdering) : Res (Vector2 c.ptrBits) :=
  forRange 0 self.depth ⟨0#c.ptrBits, 0#c.ptrBits⟩ fun level index => do
    let quadrant ← self.getCellAtLevelUnchecked c level
    let quadrant_index := ordering.toIndex c.ptrBits quadrant
    let shift ← usub c (← usub c self.depth level) 1
    let x := index.x ||| (← shl c quadrant_index.x shift)
    let y := index.y ||| (← shl c quadrant_index.y shift)
    return ⟨x, y⟩

/-- `morton_index_2d.rs` 336-342: the `CellConcatenation` arm of `to_string`. -/
def cellConcatenation (c : Cfg) {S : Type} [Storage S Quadrant] (self : MortonIndex2D S) : Res String := do
  let chars ← (List.range' 0 self.depth).mapM fun level => do
    let cell ← self.getCellAtLevelUnchecked c level
    unwrapOption (fromDigit10 cell.toUsize)
  return String.ofList chars

/-- `morton_index_2d.rs` 334-351: `to_string`. `{}` of a `usize` is its decimal representation. -/
def toString (c : Cfg) {S : Type} [Storage S Quadrant] (self : MortonIndex2D S)
    (naming : MortonIndexNaming) : Res String :=
  match naming with
  | .CellConcatenation => self.cellConcatenation c
  | .CellConcatenationWithRoot => do return "r" ++ (← self.cellConcatenation c)
  | .GridIndex => do
    let grid_index ← self.toGridIndex c QuadrantOrdering.default
    return Nat.repr self.depth ++ "-" ++ Nat.repr grid_index.x.toNat ++ "-" ++ Nat.repr grid_index.y.toNat

/-- `morton_index_2d.rs` 305-364: `MortonIndex for MortonIndex2D<S>`. -/
instance {S : Type} [Storage S Quadrant] : MortonIndex (MortonIndex2D S) Quadrant where
  getCellAtLevel c := getCellAtLevel c
  getCellAtLevelUnchecked c := getCellAtLevelUnchecked c
  setCellAtLevel c := setCellAtLevel c
  setCellAtLevelUnchecked c := setCellAtLevelUnchecked c
  depth := depth
  toString c := toString c

/-- `morton_index_2d.rs` 63-78: `VariableDepthMortonIndex for MortonIndex2D<S>`. -/
instance {S : Type} [VariableDepthStorage S Quadrant] :
    VariableDepthMortonIndex (MortonIndex2D S) Quadrant where
  ancestor c self generations := do
    return (← VariableDepthStorage.ancestor c self.storage generations).map MortonIndex2D.mk
  descendant c self cells := do
    return (← VariableDepthStorage.descendant c self.storage cells).map MortonIndex2D.mk

/-- `morton_index_2d.rs` 39: derived `Ord`, `PartialOrd`, `PartialEq`, `Hash` of `MortonIndex2D`. -/
instance {S : Type} [RustOrd S] : RustOrd (MortonIndex2D S) where
  cmp c a b := RustOrd.cmp c a.storage b.storage
  partialCmp c a b := RustOrd.partialCmp c a.storage b.storage
  eq a b := RustOrd.eq a.storage b.storage
  hashInput a := RustOrd.hashInput a.storage

/-! ## Construction from grid indices -/

/-- `morton_index_2d.rs` 104-107 (also 171-174, 232-235): pick the lower and higher bits. -/
def orderBits {W : Nat} (ordering : QuadrantOrdering) (x_bits y_bits : BitVec W) : BitVec W × BitVec W :=
  match ordering with
  | .XY => (x_bits, y_bits)
  | .YX => (y_bits, x_bits)

/-- `morton_index_2d.rs` 88-130: `MortonIndex2D<FixedDepthStorage2D<B>>::from_grid_index`. -/
def fixedFromGridIndex (c : Cfg) (w : Nat) (grid_index : Vector2 c.ptrBits)
    (ordering : QuadrantOrdering) : Res (MortonIndex2D (FixedDepthStorage2D w)) := do
  let fixed_depth := FixedDepthStorage.MAX_LEVELS w Quadrant
  if fixed_depth > c.ptrBits then .error .panic
  else
    let x_bits ← intGetBits c grid_index.x ⟨0, fixed_depth⟩
    let y_bits ← intGetBits c grid_index.y ⟨0, fixed_depth⟩
    let (lower_bits, higher_bits) := orderBits ordering x_bits y_bits
    let num_chunks := (← uadd c fixed_depth 3) / 4
    let bits ← forRange 0 num_chunks 0#w fun chunk_index bits => do
      let start_bit ← umul c chunk_index 4
      let end_bit ← uadd c start_bit 4
      let lower_chunk := (← intGetBits c lower_bits ⟨start_bit, end_bit⟩).setWidth 8
      let higher_chunk := (← intGetBits c higher_bits ⟨start_bit, end_bit⟩).setWidth 8
      let chunk := addZeroBeforeEveryBitU8 lower_chunk ||| addZeroBehindEveryBitU8 higher_chunk
      intSetBits c bits ⟨← umul c chunk_index 8, ← umul c (← uadd c chunk_index 1) 8⟩ (chunk.setWidth w)
    return ⟨⟨bits⟩⟩

/-- `morton_index_2d.rs` 136-146: `MortonIndex2D<StaticStorage2D<B>>::zeroed`. -/
def staticZeroed (w : Nat) (depth : Nat) : Option (MortonIndex2D (StaticStorage2D w)) :=
  if depth > StaticStorage.MAX_LEVELS w Quadrant then none
  else some ⟨⟨0#w, depth⟩⟩

/-- `morton_index_2d.rs` 152-203: `MortonIndex2D<StaticStorage2D<B>>::from_grid_index`. -/
def staticFromGridIndex (c : Cfg) (w : Nat) (grid_index : Vector2 c.ptrBits) (grid_depth : Nat)
    (ordering : QuadrantOrdering) : Res (Except Error (MortonIndex2D (StaticStorage2D w))) := do
  if grid_depth > w / 2 then return .error (.DepthLimitedExceeded (w / 2))
  else
    let shift_to_max_bits ← usub c (FixedDepthStorage.MAX_LEVELS w Quadrant) grid_depth
    let x_bits ← shl c (← intGetBits c grid_index.x ⟨0, grid_depth⟩) shift_to_max_bits
    let y_bits ← shl c (← intGetBits c grid_index.y ⟨0, grid_depth⟩) shift_to_max_bits
    let (lower_bits, higher_bits) := orderBits ordering x_bits y_bits
    let num_chunks := (← uadd c grid_depth 3) / 4
    let max_chunks := (← uadd c (FixedDepthStorage.MAX_LEVELS w Quadrant) 3) / 4
    let chunk_start ← usub c max_chunks num_chunks
    let bits ← forRangeRev chunk_start max_chunks 0#w fun chunk_index bits => do
      let start_bit ← umul c chunk_index 4
      let end_bit ← uadd c start_bit 4
      let lower_chunk := (← intGetBits c lower_bits ⟨start_bit, end_bit⟩).setWidth 8
      let higher_chunk := (← intGetBits c higher_bits ⟨start_bit, end_bit⟩).setWidth 8
      let chunk := addZeroBeforeEveryBitU8 lower_chunk ||| addZeroBehindEveryBitU8 higher_chunk
      let start_bit ← umul c chunk_index 8
      let end_bit ← uadd c start_bit 8
      intSetBits c bits ⟨start_bit, end_bit⟩ (chunk.setWidth w)
    return .ok ⟨⟨bits, asU8 grid_depth⟩⟩

/-- `morton_index_2d.rs` 207-211: `MortonIndex2D<DynamicStorage2D>::zeroed`. -/
def dynamicZeroed (depth : Nat) : MortonIndex2D DynamicStorage2D := ⟨DynamicStorage2D.zeroed depth⟩

/-- `morton_index_2d.rs` 216-270: `MortonIndex2D<DynamicStorage2D>::from_grid_index`.
`saturating_sub` is `Nat` subtraction. -/
def dynamicFromGridIndex (c : Cfg) (grid_index : Vector2 c.ptrBits) (grid_depth : Nat)
    (ordering : QuadrantOrdering) : Res (MortonIndex2D DynamicStorage2D) := do
  let max_bits := c.ptrBits
  if grid_depth > max_bits / 2 then .error .panic
  else
    let x_bits ← intGetBits c grid_index.x ⟨0, grid_depth⟩
    let y_bits ← intGetBits c grid_index.y ⟨0, grid_depth⟩
    let (lower_bits, higher_bits) := orderBits ordering x_bits y_bits
    let num_chunks := (← uadd c grid_depth 3) / 4
    let bits ← (List.range' 0 num_chunks).reverse.mapM fun chunk_index => do
      let end_bit ← usub c grid_depth (← umul c chunk_index 4)
      let start_bit := end_bit - 4
      let lower_chunk := (← intGetBits c lower_bits ⟨start_bit, end_bit⟩).setWidth 8
      let higher_chunk := (← intGetBits c higher_bits ⟨start_bit, end_bit⟩).setWidth 8
      let chunk := addZeroBeforeEveryBitU8 lower_chunk ||| addZeroBehindEveryBitU8 higher_chunk
      let bits_in_current_chunk ← usub c end_bit start_bit
      let end_bit_in_index := 8
      let start_bit_in_index ← usub c end_bit_in_index (← umul c 2 bits_in_current_chunk)
      intSetBits c 0#8 ⟨start_bit_in_index, end_bit_in_index⟩ chunk
    return ⟨⟨bits, grid_depth⟩⟩

/-! ## Conversions between storage types -/

/-- `morton_index_2d.rs` 794-805: fixed depth to static. -/
def fixedToStatic {w : Nat} (fixed_index : MortonIndex2D (FixedDepthStorage2D w)) :
    MortonIndex2D (StaticStorage2D w) :=
  ⟨⟨fixed_index.storage.bits, asU8 (StaticStorage.MAX_LEVELS w Quadrant)⟩⟩

/-- `morton_index_2d.rs` 807-823: fixed depth to dynamic. -/
def fixedToDynamic (c : Cfg) {w : Nat} (fixed_index : MortonIndex2D (FixedDepthStorage2D w)) :
    MortonIndex2D DynamicStorage2D :=
  let native_bits := bytesOf c fixed_index.storage.bits
  let bits := if c.bigEndian then native_bits.reverse else native_bits
  ⟨⟨bits, FixedDepthStorage.MAX_LEVELS w Quadrant⟩⟩

/-- `morton_index_2d.rs` 825-835: static to fixed depth. -/
def staticToFixed {w : Nat} (static_index : MortonIndex2D (StaticStorage2D w)) :
    MortonIndex2D (FixedDepthStorage2D w) :=
  ⟨⟨static_index.storage.bits⟩⟩

/-- `morton_index_2d.rs` 837-856: static to dynamic. -/
def staticToDynamic (c : Cfg) {w : Nat} (fixed_index : MortonIndex2D (StaticStorage2D w)) :
    Res (MortonIndex2D DynamicStorage2D) := do
  let ret : MortonIndex2D DynamicStorage2D := ⟨DynamicStorage2D.default⟩
  let cells ← Storage.collectCells c fixed_index.storage
  unwrapOption (← VariableDepthMortonIndex.descendant c ret cells)

/-- `morton_index_2d.rs` 861-886: dynamic to fixed depth. -/
def dynamicToFixed (c : Cfg) (w : Nat) (value : MortonIndex2D DynamicStorage2D) :
    Except Error (MortonIndex2D (FixedDepthStorage2D w)) :=
  if value.depth > FixedDepthStorage.MAX_LEVELS w Quadrant then
    .error (.DepthLimitedExceeded (FixedDepthStorage.MAX_LEVELS w Quadrant))
  else
    let endianness := if c.bigEndian then Endianness.BigEndian else Endianness.LittleEndian
    let bytes := value.storage.bits
    .ok ⟨⟨Bits.fromU8Slice c bytes endianness⟩⟩

/-- `morton_index_2d.rs` 888-915: dynamic to static. -/
def dynamicToStatic (c : Cfg) (w : Nat) (value : MortonIndex2D DynamicStorage2D) :
    Res (Except Error (MortonIndex2D (StaticStorage2D w))) := do
  if value.depth > FixedDepthStorage.MAX_LEVELS w Quadrant then
    return .error (.DepthLimitedExceeded (FixedDepthStorage.MAX_LEVELS w Quadrant))
  else
    let ret : MortonIndex2D (StaticStorage2D w) := ⟨StaticStorage2D.default w⟩
    let ret ← forRange 0 value.depth ret fun level ret => do
      MortonIndex2D.setCellAtLevelUnchecked c ret level (← value.getCellAtLevelUnchecked c level)
    return .ok ⟨{ ret.storage with depth := asU8 value.depth }⟩

end MortonIndex2D

end MortonRs
