import Verif.Model.Index2D

/-! # Model of `/repo/src/indices/morton_index_2d.rs`, generic in the container

`FixedDepthStorage2D<B>` and `StaticStorage2D<B>` take any `B: FixedStorageType`, also a type of another crate. `Index2D.lean`
models them for the integers of the crate; here are the same lines for an arbitrary `B`. `C84_native_2D` proves that both models
agree where they overlap. -/

namespace MortonRs

/-- `indices/mod.rs` 38-50: `trait FixedStorageType`. `Copy` and `Clone` are values in Lean; `Debug` is left out. -/
class FixedStorageType (B : Type) extends Bits B, RustOrd B where
  default : B

/-- `indices/mod.rs` 46-50, for the integers (`number.rs` 120-264) with their `Ord`, `Eq`, `Hash` and `Default` from `core`. -/
instance (w : Nat) : FixedStorageType (BitVec w) where
  cmp _ a b := .ok (compare a.toNat b.toNat)
  partialCmp _ a b := .ok (some (compare a.toNat b.toNat))
  eq a b := a == b
  hashInput a := [a.toNat]
  default := 0#w

/-- `morton_index_2d.rs` 367-370: `struct FixedDepthStorage2D<B>`. -/
structure FixedDepthStorage2DOf (B : Type) where
  bits : B

/-- `morton_index_2d.rs` 450-453: `struct StaticStorage2D<B>`. `depth` is a `u8`. -/
structure StaticStorage2DOf (B : Type) where
  bits : B
  depth : Nat

section
variable {B : Type} [FixedStorageType B]

/-- `morton_index_2d.rs` 367: `derive(Default)` of `FixedDepthStorage2D`. -/
def FixedDepthStorage2DOf.default (B : Type) [FixedStorageType B] : FixedDepthStorage2DOf B := ⟨FixedStorageType.default⟩

/-- `morton_index_2d.rs` 449: `derive(Default)` of `StaticStorage2D`. -/
def StaticStorage2DOf.default (B : Type) [FixedStorageType B] : StaticStorage2DOf B := ⟨FixedStorageType.default, 0⟩

/-- `morton_index_2d.rs` 372-387: `Storage for FixedDepthStorage2D` with
`StorageType = FixedDepthStorage` (accessors: `storage.rs` 65-77). -/
instance : Storage (FixedDepthStorage2DOf B) Quadrant where
  depth _ := FixedDepthStorage.MAX_LEVELS (Bits.BITS B) Quadrant
  getCellAtLevelUnchecked c s level := FixedDepthStorage.getCellAtLevelUnchecked c (Bits.BITS B) s.bits level
  setCellAtLevelUnchecked c s level cell := do
    return { s with bits := ← FixedDepthStorage.setCellAtLevelUnchecked c (Bits.BITS B) s.bits level cell }
  maxDepth := FixedDepthStorage.maxDepth (Bits.BITS B) Quadrant

/-- `morton_index_2d.rs` 389-406: `TryFrom<&[Quadrant]> for FixedDepthStorage2D`. -/
def FixedDepthStorage2DOf.tryFromSlice (c : Cfg) (quadrants : List Quadrant) :
    Res (Except Error (FixedDepthStorage2DOf B)) := do
  if quadrants.length > FixedDepthStorage.MAX_LEVELS (Bits.BITS B) Quadrant then
    return .error (.DepthLimitedExceeded (FixedDepthStorage.MAX_LEVELS (Bits.BITS B) Quadrant))
  else
    let ret ← forEnum quadrants (FixedDepthStorage2DOf.default B) fun level cell ret =>
      Storage.setCellAtLevelUnchecked c ret level cell
    return .ok ret

/-- `morton_index_2d.rs` 411-428: `TryFrom<[Quadrant; N]> for FixedDepthStorage2D`; `N` is the length
of the list. -/
def FixedDepthStorage2DOf.tryFromArray (c : Cfg) (quadrants : List Quadrant) :
    Res (Except Error (FixedDepthStorage2DOf B)) := do
  if quadrants.length > FixedDepthStorage.MAX_LEVELS (Bits.BITS B) Quadrant then
    return .error (.DepthLimitedExceeded (FixedDepthStorage.MAX_LEVELS (Bits.BITS B) Quadrant))
  else
    let ret ← forEnum quadrants (FixedDepthStorage2DOf.default B) fun level cell ret =>
      Storage.setCellAtLevelUnchecked c ret level cell
    return .ok ret

/-- `morton_index_2d.rs` 367: derived `Ord`, `PartialOrd`, `PartialEq`, `Hash` of `FixedDepthStorage2D`. -/
instance : RustOrd (FixedDepthStorage2DOf B) where
  cmp c a b := RustOrd.cmp c a.bits b.bits
  partialCmp c a b := RustOrd.partialCmp c a.bits b.bits
  eq a b := RustOrd.eq a.bits b.bits
  hashInput a := RustOrd.hashInput a.bits

/-- `morton_index_2d.rs` 455-470: `Storage for StaticStorage2D` with `StorageType = StaticStorage`. -/
instance : Storage (StaticStorage2DOf B) Quadrant where
  depth s := s.depth
  getCellAtLevelUnchecked c s level := StaticStorage.getCellAtLevelUnchecked c (Bits.BITS B) s.bits level
  setCellAtLevelUnchecked c s level cell := do
    return { s with bits := ← StaticStorage.setCellAtLevelUnchecked c (Bits.BITS B) s.bits level cell }
  maxDepth := StaticStorage.maxDepth (Bits.BITS B) Quadrant

/-- `morton_index_2d.rs` 478-512: `Ord for StaticStorage2D`. -/
def StaticStorage2DOf.cmp (c : Cfg) (self other : StaticStorage2DOf B) : Res Ordering := do
  let end_bit := Bits.BITS B
  let self_start_bit ← usub c end_bit (← umul c self.depth 2)
  let other_start_bit ← usub c end_bit (← umul c other.depth 2)
  match compare self.depth other.depth with
  | .lt =>
    let self_bits ← Bits.getBits c self.bits ⟨self_start_bit, end_bit⟩
    let other_bits ← Bits.getBits c other.bits ⟨self_start_bit, end_bit⟩
    if ← RustOrd.gt c self_bits other_bits then return .gt else return .lt
  | .eq =>
    let self_bits ← Bits.getBits c self.bits ⟨self_start_bit, end_bit⟩
    let other_bits ← Bits.getBits c other.bits ⟨other_start_bit, end_bit⟩
    RustOrd.cmp c self_bits other_bits
  | .gt =>
    let self_bits ← Bits.getBits c self.bits ⟨other_start_bit, end_bit⟩
    let other_bits ← Bits.getBits c other.bits ⟨other_start_bit, end_bit⟩
    if ← RustOrd.ge c self_bits other_bits then return .gt else return .lt

/-- `morton_index_2d.rs` 514-519: `PartialEq for StaticStorage2D`. -/
def StaticStorage2DOf.eq (self other : StaticStorage2DOf B) : Bool :=
  RustOrd.eq self.bits other.bits && self.depth == other.depth

/-- `morton_index_2d.rs` 472-521 (`PartialOrd`, `Ord`, `PartialEq`) and 449 (derived `Hash`) of `StaticStorage2D`. -/
instance : RustOrd (StaticStorage2DOf B) where
  cmp c a b := StaticStorage2DOf.cmp c a b
  partialCmp c a b := do return some (← StaticStorage2DOf.cmp c a b)
  eq := StaticStorage2DOf.eq
  hashInput a := RustOrd.hashInput a.bits ++ [a.depth]

/-- `morton_index_2d.rs` 524-539: `StaticStorage2D::ancestor`. -/
def StaticStorage2DOf.ancestor (c : Cfg) (self : StaticStorage2DOf B)
    (generations : NonZeroUsize) : Res (Option (StaticStorage2DOf B)) := do
  if generations.val > self.depth then return none
  else
    let new_depth ← u8sub c self.depth (asU8 generations.val)
    let ret ← forRange new_depth self.depth self fun level ret =>
      Storage.setCellAtLevelUnchecked c ret level Quadrant.Zero
    return some { ret with depth := new_depth }

/-- `morton_index_2d.rs` 541-555: `StaticStorage2D::descendant`. -/
def StaticStorage2DOf.descendant (c : Cfg) (self : StaticStorage2DOf B)
    (cells : List Quadrant) : Res (Option (StaticStorage2DOf B)) := do
  let new_depth ← uadd c self.depth cells.length
  if new_depth > StaticStorage.MAX_LEVELS (Bits.BITS B) Quadrant then return none
  else
    let ret ← forEnum cells self fun offset cell ret => do
      Storage.setCellAtLevelUnchecked c ret (← uadd c self.depth offset) cell
    return some { ret with depth := asU8 new_depth }

/-- `morton_index_2d.rs` 523-556: `VariableDepthStorage for StaticStorage2D`. -/
instance : VariableDepthStorage (StaticStorage2DOf B) Quadrant where
  ancestor c s g := s.ancestor c g
  descendant c s cells := s.descendant c cells

/-- `morton_index_2d.rs` 558-576: `TryFrom<&[Quadrant]> for StaticStorage2D`. -/
def StaticStorage2DOf.tryFromSlice (c : Cfg) (quadrants : List Quadrant) :
    Res (Except Error (StaticStorage2DOf B)) := do
  if quadrants.length > StaticStorage.MAX_LEVELS (Bits.BITS B) Quadrant then
    return .error (.DepthLimitedExceeded (StaticStorage.MAX_LEVELS (Bits.BITS B) Quadrant))
  else
    let ret ← forEnum quadrants (StaticStorage2DOf.default B) fun level cell ret =>
      Storage.setCellAtLevelUnchecked c ret level cell
    return .ok { ret with depth := asU8 quadrants.length }

/-- `morton_index_2d.rs` 578-596: `TryFrom<[Quadrant; N]> for StaticStorage2D`. -/
def StaticStorage2DOf.tryFromArray (c : Cfg) (quadrants : List Quadrant) :
    Res (Except Error (StaticStorage2DOf B)) := do
  if quadrants.length > StaticStorage.MAX_LEVELS (Bits.BITS B) Quadrant then
    return .error (.DepthLimitedExceeded (StaticStorage.MAX_LEVELS (Bits.BITS B) Quadrant))
  else
    let ret ← forEnum quadrants (StaticStorage2DOf.default B) fun level cell ret =>
      Storage.setCellAtLevelUnchecked c ret level cell
    return .ok { ret with depth := asU8 quadrants.length }

/-- `morton_index_2d.rs` 389-428: the two conversions from cells. -/
instance : TryFromCells (FixedDepthStorage2DOf B) Quadrant :=
  ⟨FixedDepthStorage2DOf.tryFromSlice, FixedDepthStorage2DOf.tryFromArray⟩
/-- `morton_index_2d.rs` 558-596: the two conversions from cells. -/
instance : TryFromCells (StaticStorage2DOf B) Quadrant :=
  ⟨StaticStorage2DOf.tryFromSlice, StaticStorage2DOf.tryFromArray⟩

namespace MortonIndex2D

/-- `morton_index_2d.rs` 88-130: `MortonIndex2D<FixedDepthStorage2D<B>>::from_grid_index`. -/
def fixedFromGridIndexOf (c : Cfg) (grid_index : Vector2 c.ptrBits)
    (ordering : QuadrantOrdering) : Res (MortonIndex2D (FixedDepthStorage2DOf B)) := do
  let fixed_depth := FixedDepthStorage.MAX_LEVELS (Bits.BITS B) Quadrant
  if fixed_depth > c.ptrBits then .error .panic
  else
    let x_bits ← intGetBits c grid_index.x ⟨0, fixed_depth⟩
    let y_bits ← intGetBits c grid_index.y ⟨0, fixed_depth⟩
    let (lower_bits, higher_bits) := orderBits ordering x_bits y_bits
    let num_chunks := (← uadd c fixed_depth 3) / 4
    let bits ← forRange 0 num_chunks (FixedStorageType.default : B) fun chunk_index bits => do
      let start_bit ← umul c chunk_index 4
      let end_bit ← uadd c start_bit 4
      let lower_chunk := (← intGetBits c lower_bits ⟨start_bit, end_bit⟩).setWidth 8
      let higher_chunk := (← intGetBits c higher_bits ⟨start_bit, end_bit⟩).setWidth 8
      let chunk := addZeroBeforeEveryBitU8 lower_chunk ||| addZeroBehindEveryBitU8 higher_chunk
      Bits.setBits c bits ⟨← umul c chunk_index 8, ← umul c (← uadd c chunk_index 1) 8⟩ (Bits.fromUN c chunk)
    return ⟨⟨bits⟩⟩

/-- `morton_index_2d.rs` 136-146: `MortonIndex2D<StaticStorage2D<B>>::zeroed`. -/
def staticZeroedOf (B : Type) [FixedStorageType B] (depth : Nat) : Option (MortonIndex2D (StaticStorage2DOf B)) :=
  if depth > StaticStorage.MAX_LEVELS (Bits.BITS B) Quadrant then none
  else some ⟨⟨FixedStorageType.default, depth⟩⟩

/-- `morton_index_2d.rs` 152-203: `MortonIndex2D<StaticStorage2D<B>>::from_grid_index`. -/
def staticFromGridIndexOf (c : Cfg) (grid_index : Vector2 c.ptrBits) (grid_depth : Nat)
    (ordering : QuadrantOrdering) : Res (Except Error (MortonIndex2D (StaticStorage2DOf B))) := do
  if grid_depth > Bits.BITS B / 2 then return .error (.DepthLimitedExceeded (Bits.BITS B / 2))
  else
    let shift_to_max_bits ← usub c (FixedDepthStorage.MAX_LEVELS (Bits.BITS B) Quadrant) grid_depth
    let x_bits ← shl c (← intGetBits c grid_index.x ⟨0, grid_depth⟩) shift_to_max_bits
    let y_bits ← shl c (← intGetBits c grid_index.y ⟨0, grid_depth⟩) shift_to_max_bits
    let (lower_bits, higher_bits) := orderBits ordering x_bits y_bits
    let num_chunks := (← uadd c grid_depth 3) / 4
    let max_chunks := (← uadd c (FixedDepthStorage.MAX_LEVELS (Bits.BITS B) Quadrant) 3) / 4
    let chunk_start ← usub c max_chunks num_chunks
    let bits ← forRangeRev chunk_start max_chunks (FixedStorageType.default : B) fun chunk_index bits => do
      let start_bit ← umul c chunk_index 4
      let end_bit ← uadd c start_bit 4
      let lower_chunk := (← intGetBits c lower_bits ⟨start_bit, end_bit⟩).setWidth 8
      let higher_chunk := (← intGetBits c higher_bits ⟨start_bit, end_bit⟩).setWidth 8
      let chunk := addZeroBeforeEveryBitU8 lower_chunk ||| addZeroBehindEveryBitU8 higher_chunk
      let start_bit ← umul c chunk_index 8
      let end_bit ← uadd c start_bit 8
      Bits.setBits c bits ⟨start_bit, end_bit⟩ (Bits.fromUN c chunk)
    return .ok ⟨⟨bits, asU8 grid_depth⟩⟩

/-- `morton_index_2d.rs` 794-805: fixed depth to static. -/
def fixedToStaticOf (fixed_index : MortonIndex2D (FixedDepthStorage2DOf B)) : MortonIndex2D (StaticStorage2DOf B) :=
  ⟨⟨fixed_index.storage.bits, asU8 (StaticStorage.MAX_LEVELS (Bits.BITS B) Quadrant)⟩⟩

/-- `morton_index_2d.rs` 807-823: fixed depth to dynamic. -/
def fixedToDynamicOf (c : Cfg) (fixed_index : MortonIndex2D (FixedDepthStorage2DOf B)) : MortonIndex2D DynamicStorage2D :=
  let native_bits := Bits.asU8Slice c fixed_index.storage.bits
  let bits := if c.bigEndian then native_bits.reverse else native_bits
  ⟨⟨bits, FixedDepthStorage.MAX_LEVELS (Bits.BITS B) Quadrant⟩⟩

/-- `morton_index_2d.rs` 825-835: static to fixed depth. -/
def staticToFixedOf (static_index : MortonIndex2D (StaticStorage2DOf B)) : MortonIndex2D (FixedDepthStorage2DOf B) :=
  ⟨⟨static_index.storage.bits⟩⟩

/-- `morton_index_2d.rs` 837-856: static to dynamic. -/
def staticToDynamicOf (c : Cfg) (fixed_index : MortonIndex2D (StaticStorage2DOf B)) :
    Res (MortonIndex2D DynamicStorage2D) := do
  let ret : MortonIndex2D DynamicStorage2D := ⟨DynamicStorage2D.default⟩
  let cells ← Storage.collectCells c fixed_index.storage
  unwrapOption (← VariableDepthMortonIndex.descendant c ret cells)

/-- `morton_index_2d.rs` 861-886: dynamic to fixed depth. -/
def dynamicToFixedOf (c : Cfg) (B : Type) [FixedStorageType B] (value : MortonIndex2D DynamicStorage2D) :
    Except Error (MortonIndex2D (FixedDepthStorage2DOf B)) :=
  if value.depth > FixedDepthStorage.MAX_LEVELS (Bits.BITS B) Quadrant then
    .error (.DepthLimitedExceeded (FixedDepthStorage.MAX_LEVELS (Bits.BITS B) Quadrant))
  else
    let endianness := if c.bigEndian then Endianness.BigEndian else Endianness.LittleEndian
    let bytes := value.storage.bits
    .ok ⟨⟨Bits.fromU8Slice c bytes endianness⟩⟩

/-- `morton_index_2d.rs` 888-915: dynamic to static. -/
def dynamicToStaticOf (c : Cfg) (B : Type) [FixedStorageType B] (value : MortonIndex2D DynamicStorage2D) :
    Res (Except Error (MortonIndex2D (StaticStorage2DOf B))) := do
  if value.depth > FixedDepthStorage.MAX_LEVELS (Bits.BITS B) Quadrant then
    return .error (.DepthLimitedExceeded (FixedDepthStorage.MAX_LEVELS (Bits.BITS B) Quadrant))
  else
    let ret : MortonIndex2D (StaticStorage2DOf B) := ⟨StaticStorage2DOf.default B⟩
    let ret ← forRange 0 value.depth ret fun level ret => do
      MortonIndex2D.setCellAtLevelUnchecked c ret level (← value.getCellAtLevelUnchecked c level)
    return .ok ⟨{ ret.storage with depth := asU8 value.depth }⟩

end MortonIndex2D
end

end MortonRs
