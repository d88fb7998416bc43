import Verif.Model.Index3D
import Verif.Model.Containers2D

/-! # Model of `/repo/src/indices/morton_index_3d.rs`, generic in the container

`FixedDepthStorage3D<B>` and `StaticStorage3D<B>` take any `B: FixedStorageType`, also a type of another crate. `Index3D.lean`
models them for the integers of the crate; here are the same lines for an arbitrary `B`. `C84_native_3D` proves that both models
agree where they overlap. -/

namespace MortonRs

/-- `morton_index_3d.rs` 441-444: `struct FixedDepthStorage3D<B>`. -/
structure FixedDepthStorage3DOf (B : Type) where
  bits : B

/-- `morton_index_3d.rs` 514-518: `struct StaticStorage3D<B>`. `depth` is a `u8`. -/
structure StaticStorage3DOf (B : Type) where
  bits : B
  depth : Nat

section
variable {B : Type} [FixedStorageType B]

/-- `morton_index_3d.rs` 441: `derive(Default)` of `FixedDepthStorage3D`. -/
def FixedDepthStorage3DOf.default (B : Type) [FixedStorageType B] : FixedDepthStorage3DOf B := ⟨FixedStorageType.default⟩

/-- `morton_index_3d.rs` 514: `derive(Default)` of `StaticStorage3D`. -/
def StaticStorage3DOf.default (B : Type) [FixedStorageType B] : StaticStorage3DOf B := ⟨FixedStorageType.default, 0⟩

/-- `morton_index_3d.rs` 446-461: `Storage for FixedDepthStorage3D` with
`StorageType = FixedDepthStorage` (accessors: `storage.rs` 65-77). -/
instance : Storage (FixedDepthStorage3DOf B) Octant where
  depth _ := FixedDepthStorage.MAX_LEVELS (Bits.BITS B) Octant
  getCellAtLevelUnchecked c s level := FixedDepthStorage.getCellAtLevelUnchecked c (Bits.BITS B) s.bits level
  setCellAtLevelUnchecked c s level cell := do
    return { s with bits := ← FixedDepthStorage.setCellAtLevelUnchecked c (Bits.BITS B) s.bits level cell }
  maxDepth := FixedDepthStorage.maxDepth (Bits.BITS B) Octant

/-- `morton_index_3d.rs` 463-480: `TryFrom<&[Octant]> for FixedDepthStorage3D`. -/
def FixedDepthStorage3DOf.tryFromSlice (c : Cfg) (octants : List Octant) :
    Res (Except Error (FixedDepthStorage3DOf B)) := do
  if octants.length > FixedDepthStorage.MAX_LEVELS (Bits.BITS B) Octant then
    return .error (.DepthLimitedExceeded (FixedDepthStorage.MAX_LEVELS (Bits.BITS B) Octant))
  else
    let ret ← forEnum octants (FixedDepthStorage3DOf.default B) fun level cell ret =>
      Storage.setCellAtLevelUnchecked c ret level cell
    return .ok ret

/-- `morton_index_3d.rs` 482-499: `TryFrom<[Octant; N]> for FixedDepthStorage3D`; `N` is the length
of the list. -/
def FixedDepthStorage3DOf.tryFromArray (c : Cfg) (octants : List Octant) :
    Res (Except Error (FixedDepthStorage3DOf B)) := do
  if octants.length > FixedDepthStorage.MAX_LEVELS (Bits.BITS B) Octant then
    return .error (.DepthLimitedExceeded (FixedDepthStorage.MAX_LEVELS (Bits.BITS B) Octant))
  else
    let ret ← forEnum octants (FixedDepthStorage3DOf.default B) fun level cell ret =>
      Storage.setCellAtLevelUnchecked c ret level cell
    return .ok ret

/-- `morton_index_3d.rs` 441: derived `Ord`, `PartialOrd`, `PartialEq`, `Hash` of `FixedDepthStorage3D`. -/
instance : RustOrd (FixedDepthStorage3DOf B) where
  cmp c a b := RustOrd.cmp c a.bits b.bits
  partialCmp c a b := RustOrd.partialCmp c a.bits b.bits
  eq a b := RustOrd.eq a.bits b.bits
  hashInput a := RustOrd.hashInput a.bits

/-- `morton_index_3d.rs` 520-535: `Storage for StaticStorage3D` with `StorageType = StaticStorage`. -/
instance : Storage (StaticStorage3DOf B) Octant where
  depth s := s.depth
  getCellAtLevelUnchecked c s level := StaticStorage.getCellAtLevelUnchecked c (Bits.BITS B) s.bits level
  setCellAtLevelUnchecked c s level cell := do
    return { s with bits := ← StaticStorage.setCellAtLevelUnchecked c (Bits.BITS B) s.bits level cell }
  maxDepth := StaticStorage.maxDepth (Bits.BITS B) Octant

/-- `morton_index_3d.rs` 578-612: `Ord for StaticStorage3D`. -/
def StaticStorage3DOf.cmp (c : Cfg) (self other : StaticStorage3DOf B) : Res Ordering := do
  let end_bit := Bits.BITS B
  let self_start_bit ← usub c end_bit (← umul c self.depth 3)
  let other_start_bit ← usub c end_bit (← umul c other.depth 3)
  match compare self.depth other.depth with
  | .lt =>
    let self_bits ← Bits.getBits c self.bits ⟨self_start_bit, end_bit⟩
    let other_bits ← Bits.getBits c other.bits ⟨self_start_bit, end_bit⟩
    if ← RustOrd.gt c self_bits other_bits then return .gt else return .lt
  | .eq =>
    let self_bits ← Bits.getBits c self.bits ⟨self_start_bit, end_bit⟩
    let other_bits ← Bits.getBits c other.bits ⟨other_start_bit, end_bit⟩
    RustOrd.cmp c self_bits other_bits
  | .gt =>
    let self_bits ← Bits.getBits c self.bits ⟨other_start_bit, end_bit⟩
    let other_bits ← Bits.getBits c other.bits ⟨other_start_bit, end_bit⟩
    if ← RustOrd.ge c self_bits other_bits then return .gt else return .lt

/-- `morton_index_3d.rs` 614-620: `PartialEq for StaticStorage3D`. -/
def StaticStorage3DOf.eq (self other : StaticStorage3DOf B) : Bool :=
  RustOrd.eq self.bits other.bits && self.depth == other.depth

/-- `morton_index_3d.rs` 572-622 (`PartialOrd`, `Ord`, `PartialEq`) and 514 (derived `Hash`) of `StaticStorage3D`. -/
instance : RustOrd (StaticStorage3DOf B) where
  cmp c a b := StaticStorage3DOf.cmp c a b
  partialCmp c a b := do return some (← StaticStorage3DOf.cmp c a b)
  eq := StaticStorage3DOf.eq
  hashInput a := RustOrd.hashInput a.bits ++ [a.depth]

/-- `morton_index_3d.rs` 538-553: `StaticStorage3D::ancestor`. -/
def StaticStorage3DOf.ancestor (c : Cfg) (self : StaticStorage3DOf B)
    (generations : NonZeroUsize) : Res (Option (StaticStorage3DOf B)) := do
  if generations.val > self.depth then return none
  else
    let new_depth ← u8sub c self.depth (asU8 generations.val)
    let ret ← forRange new_depth self.depth self fun level ret =>
      Storage.setCellAtLevelUnchecked c ret level Octant.Zero
    return some { ret with depth := new_depth }

/-- `morton_index_3d.rs` 555-569: `StaticStorage3D::descendant`. -/
def StaticStorage3DOf.descendant (c : Cfg) (self : StaticStorage3DOf B)
    (cells : List Octant) : Res (Option (StaticStorage3DOf B)) := do
  let new_depth ← uadd c self.depth cells.length
  if new_depth > StaticStorage.MAX_LEVELS (Bits.BITS B) Octant then return none
  else
    let ret ← forEnum cells self fun offset cell ret => do
      Storage.setCellAtLevelUnchecked c ret (← uadd c self.depth offset) cell
    return some { ret with depth := asU8 new_depth }

/-- `morton_index_3d.rs` 537-570: `VariableDepthStorage for StaticStorage3D`. -/
instance : VariableDepthStorage (StaticStorage3DOf B) Octant where
  ancestor c s g := s.ancestor c g
  descendant c s cells := s.descendant c cells

/-- `morton_index_3d.rs` 624-642: `TryFrom<&[Octant]> for StaticStorage3D`. -/
def StaticStorage3DOf.tryFromSlice (c : Cfg) (octants : List Octant) :
    Res (Except Error (StaticStorage3DOf B)) := do
  if octants.length > StaticStorage.MAX_LEVELS (Bits.BITS B) Octant then
    return .error (.DepthLimitedExceeded (StaticStorage.MAX_LEVELS (Bits.BITS B) Octant))
  else
    let ret ← forEnum octants (StaticStorage3DOf.default B) fun level cell ret =>
      Storage.setCellAtLevelUnchecked c ret level cell
    return .ok { ret with depth := asU8 octants.length }

/-- `morton_index_3d.rs` 644-662: `TryFrom<[Octant; N]> for StaticStorage3D`. -/
def StaticStorage3DOf.tryFromArray (c : Cfg) (octants : List Octant) :
    Res (Except Error (StaticStorage3DOf B)) := do
  if octants.length > StaticStorage.MAX_LEVELS (Bits.BITS B) Octant then
    return .error (.DepthLimitedExceeded (StaticStorage.MAX_LEVELS (Bits.BITS B) Octant))
  else
    let ret ← forEnum octants (StaticStorage3DOf.default B) fun level cell ret =>
      Storage.setCellAtLevelUnchecked c ret level cell
    return .ok { ret with depth := asU8 octants.length }

/-- `morton_index_3d.rs` 463-499: the two conversions from cells. -/
instance : TryFromCells (FixedDepthStorage3DOf B) Octant :=
  ⟨FixedDepthStorage3DOf.tryFromSlice, FixedDepthStorage3DOf.tryFromArray⟩
/-- `morton_index_3d.rs` 624-662: the two conversions from cells. -/
instance : TryFromCells (StaticStorage3DOf B) Octant :=
  ⟨StaticStorage3DOf.tryFromSlice, StaticStorage3DOf.tryFromArray⟩

namespace MortonIndex3D

/-- `morton_index_3d.rs` 184-233: `MortonIndex3D<FixedDepthStorage3D<B>>::from_grid_index`. -/
def fixedFromGridIndexOf (c : Cfg) (grid_index : Vector3 c.ptrBits)
    (ordering : OctantOrdering) : Res (MortonIndex3D (FixedDepthStorage3DOf B)) := do
  let bitmask ← maxLevelsBitmask c (Bits.BITS B)
  let fixed_depth := FixedDepthStorage.MAX_LEVELS (Bits.BITS B) Octant
  if fixed_depth > c.ptrBits then .error .panic
  else
    let x_bits := grid_index.x &&& bitmask
    let y_bits := grid_index.y &&& bitmask
    let z_bits := grid_index.z &&& bitmask
    let (x_shift, y_shift, z_shift) := ordering.getBitShiftsForXyz
    let leftover_bits_at_end := Bits.BITS B % Dimension.DIMENSIONALITY Octant
    let num_chunks := (← uadd c fixed_depth 20) / 21
    let bits ← forRange 0 num_chunks (FixedStorageType.default : B) fun chunk_index bits => do
      let start_bit ← umul c chunk_index 21
      let end_bit ← uadd c start_bit 21
      let x_chunk := (← intGetBits c x_bits ⟨start_bit, end_bit⟩).setWidth 32
      let y_chunk := (← intGetBits c y_bits ⟨start_bit, end_bit⟩).setWidth 32
      let z_chunk := (← intGetBits c z_bits ⟨start_bit, end_bit⟩).setWidth 32
      let chunk := (← shl c (addTwoZeroesBeforeEveryBitU32 x_chunk) x_shift) |||
        (← shl c (addTwoZeroesBeforeEveryBitU32 y_chunk) y_shift) |||
        (← shl c (addTwoZeroesBeforeEveryBitU32 z_chunk) z_shift)
      let start_bit ← uadd c (← umul c chunk_index 63) leftover_bits_at_end
      let end_bit := min (← uadd c start_bit 63) (Bits.BITS B)
      Bits.setBits c bits ⟨start_bit, end_bit⟩ (Bits.fromUN c chunk)
    return ⟨⟨bits⟩⟩

/-- `morton_index_3d.rs` 277-287: `MortonIndex3D<StaticStorage3D<B>>::zeroed`. -/
def staticZeroedOf (B : Type) [FixedStorageType B] (depth : Nat) : Option (MortonIndex3D (StaticStorage3DOf B)) :=
  if depth > StaticStorage.MAX_LEVELS (Bits.BITS B) Octant then none
  else some ⟨⟨FixedStorageType.default, depth⟩⟩

/-- `morton_index_3d.rs` 293-383: `MortonIndex3D<StaticStorage3D<B>>::from_grid_index`. -/
def staticFromGridIndexOf (c : Cfg) (grid_index : Vector3 c.ptrBits) (grid_depth : Nat)
    (ordering : OctantOrdering) : Res (Except Error (MortonIndex3D (StaticStorage3DOf B))) := do
  if grid_depth > FixedDepthStorage.MAX_LEVELS (Bits.BITS B) Octant then
    return .error (.DepthLimitedExceeded (FixedDepthStorage.MAX_LEVELS (Bits.BITS B) Octant))
  else
    let shift_to_max_bits ← usub c (FixedDepthStorage.MAX_LEVELS (Bits.BITS B) Octant) grid_depth
    let x_bits ← shl c (← intGetBits c grid_index.x ⟨0, grid_depth⟩) shift_to_max_bits
    let y_bits ← shl c (← intGetBits c grid_index.y ⟨0, grid_depth⟩) shift_to_max_bits
    let z_bits ← shl c (← intGetBits c grid_index.z ⟨0, grid_depth⟩) shift_to_max_bits
    let (x_shift, y_shift, z_shift) := ordering.getBitShiftsForXyz
    let leftover_bits_at_end := Bits.BITS B % Dimension.DIMENSIONALITY Octant
    let num_chunks := (← uadd c grid_depth 7) / 8
    let max_chunks := (← uadd c (FixedDepthStorage.MAX_LEVELS (Bits.BITS B) Octant) 7) / 8
    let chunk_start ← usub c max_chunks num_chunks
    let bits ← forRangeRev chunk_start max_chunks (FixedStorageType.default : B) fun chunk_index bits => do
      let start_bit ← umul c chunk_index 8
      let end_bit ← uadd c start_bit 8
      let x_chunk := (← intGetBits c x_bits ⟨start_bit, end_bit⟩).setWidth 8
      let y_chunk := (← intGetBits c y_bits ⟨start_bit, end_bit⟩).setWidth 8
      let z_chunk := (← intGetBits c z_bits ⟨start_bit, end_bit⟩).setWidth 8
      let chunk := (← shl c (addTwoZeroesBeforeEveryBitU8 x_chunk) x_shift) |||
        (← shl c (addTwoZeroesBeforeEveryBitU8 y_chunk) y_shift) |||
        (← shl c (addTwoZeroesBeforeEveryBitU8 z_chunk) z_shift)
      let start_bit ← uadd c (← umul c chunk_index 24) leftover_bits_at_end
      let end_bit := min (← uadd c start_bit 24) (Bits.BITS B)
      Bits.setBits c bits ⟨start_bit, end_bit⟩ (Bits.fromUN c chunk)
    return .ok ⟨⟨bits, asU8 grid_depth⟩⟩

/-- `morton_index_3d.rs` 236-240: `MortonIndex3D<FixedDepthStorage3D<B>>::from_raw_index`. -/
def fixedFromRawIndexOf (index : B) : MortonIndex3D (FixedDepthStorage3DOf B) := ⟨⟨index⟩⟩

/-- `morton_index_3d.rs` 386-390: `MortonIndex3D<StaticStorage3D<B>>::from_raw_index`; `depth` is a `u8`. -/
def staticFromRawIndexOf (index : B) (depth : Nat) : MortonIndex3D (StaticStorage3DOf B) := ⟨⟨index, depth⟩⟩

/-- `morton_index_3d.rs` 854-865: fixed depth to static. -/
def fixedToStaticOf (fixed_index : MortonIndex3D (FixedDepthStorage3DOf B)) : MortonIndex3D (StaticStorage3DOf B) :=
  ⟨⟨fixed_index.storage.bits, asU8 (StaticStorage.MAX_LEVELS (Bits.BITS B) Octant)⟩⟩

/-- `morton_index_3d.rs` 867-883: fixed depth to dynamic. -/
def fixedToDynamicOf (c : Cfg) (fixed_index : MortonIndex3D (FixedDepthStorage3DOf B)) : MortonIndex3D DynamicStorage3D :=
  let native_bits := Bits.asU8Slice c fixed_index.storage.bits
  let bits := if c.bigEndian then native_bits.reverse else native_bits
  ⟨⟨bits, FixedDepthStorage.MAX_LEVELS (Bits.BITS B) Octant⟩⟩

/-- `morton_index_3d.rs` 885-895: static to fixed depth. -/
def staticToFixedOf (static_index : MortonIndex3D (StaticStorage3DOf B)) : MortonIndex3D (FixedDepthStorage3DOf B) :=
  ⟨⟨static_index.storage.bits⟩⟩

/-- `morton_index_3d.rs` 897-921: static to dynamic. -/
def staticToDynamicOf (c : Cfg) (fixed_index : MortonIndex3D (StaticStorage3DOf B)) :
    Res (MortonIndex3D DynamicStorage3D) := do
  let ret : MortonIndex3D DynamicStorage3D := ⟨DynamicStorage3D.default⟩
  let cells ← Storage.collectCells c fixed_index.storage
  unwrapOption (← VariableDepthMortonIndex.descendant c ret cells)

/-- `morton_index_3d.rs` 926-951: dynamic to fixed depth. -/
def dynamicToFixedOf (c : Cfg) (B : Type) [FixedStorageType B] (value : MortonIndex3D DynamicStorage3D) :
    Except Error (MortonIndex3D (FixedDepthStorage3DOf B)) :=
  if value.depth > FixedDepthStorage.MAX_LEVELS (Bits.BITS B) Octant then
    .error (.DepthLimitedExceeded (FixedDepthStorage.MAX_LEVELS (Bits.BITS B) Octant))
  else
    let endianness := if c.bigEndian then Endianness.BigEndian else Endianness.LittleEndian
    let bytes := value.storage.bits
    .ok ⟨⟨Bits.fromU8Slice c bytes endianness⟩⟩

/-- `morton_index_3d.rs` 953-980: dynamic to static. -/
def dynamicToStaticOf (c : Cfg) (B : Type) [FixedStorageType B] (value : MortonIndex3D DynamicStorage3D) :
    Res (Except Error (MortonIndex3D (StaticStorage3DOf B))) := do
  if value.depth > FixedDepthStorage.MAX_LEVELS (Bits.BITS B) Octant then
    return .error (.DepthLimitedExceeded (FixedDepthStorage.MAX_LEVELS (Bits.BITS B) Octant))
  else
    let ret : MortonIndex3D (StaticStorage3DOf B) := ⟨StaticStorage3DOf.default B⟩
    let ret ← forRange 0 value.depth ret fun level ret => do
      MortonIndex3D.setCellAtLevelUnchecked c ret level (← value.getCellAtLevelUnchecked c level)
    return .ok ⟨{ ret.storage with depth := asU8 value.depth }⟩

end MortonIndex3D
end

end MortonRs
