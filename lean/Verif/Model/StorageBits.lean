import Verif.Model.Index2D
import Verif.Model.Index3D

/-! # Model of `bits` and `bits_mut` of the storages

`Storage.getCellAtLevelUnchecked` and `Storage.setCellAtLevelUnchecked` of `Verif/Model/Index2D.lean` and `Index3D.lean`
use the field behind these functions directly; `C80_provided_methods` proves that this is the same. -/

namespace MortonRs

/-- `storage.rs` 41-53: the part of `trait Storage` that exposes the bits, with the accessors of the associated
`StorageType` (22-33). `bits_mut` returns a mutable borrow; here the edit made through it is the argument. -/
class StorageBits (S : Type) (Cell T : outParam Type) where
  bits : S → T
  bitsMut : S → (T → T) → S
  typeGet : Cfg → T → Nat → Res Cell
  typeSet : Cfg → T → Nat → Cell → Res T

/-- `storage.rs` 65-69: the provided method `get_cell_at_level_unchecked`. -/
def StorageBits.getCellAtLevelUnchecked (c : Cfg) {S Cell T : Type} [StorageBits S Cell T] (s : S) (level : Nat) :
    Res Cell :=
  StorageBits.typeGet S c (StorageBits.bits s) level

/-- `storage.rs` 75-77: the provided method `set_cell_at_level_unchecked`. -/
def StorageBits.setCellAtLevelUnchecked (c : Cfg) {S Cell T : Type} [StorageBits S Cell T] (s : S) (level : Nat)
    (cell : Cell) : Res S := do
  let bits ← StorageBits.typeSet S c (StorageBits.bits s) level cell
  return StorageBits.bitsMut s fun _ => bits

/-- `storage.rs` 41-78: the `Storage` of an implementation that defines only the required methods. `max_depth` (56-58) is that
of the `StorageType`. -/
@[reducible] def StorageBits.storage {S Cell T : Type} [StorageBits S Cell T] (depth : S → Nat) (maxDepth : Option Nat) :
    Storage S Cell where
  depth := depth
  getCellAtLevelUnchecked c s level := StorageBits.getCellAtLevelUnchecked c s level
  setCellAtLevelUnchecked c s level cell := StorageBits.setCellAtLevelUnchecked c s level cell
  maxDepth := maxDepth

/-- `morton_index_2d.rs` 373-382: `StorageType`, `Bits`, `bits` and `bits_mut` of `FixedDepthStorage2D`. -/
instance (w : Nat) : StorageBits (FixedDepthStorage2D w) Quadrant (BitVec w) where
  bits s := s.bits
  bitsMut s f := { s with bits := f s.bits }
  typeGet c bits level := FixedDepthStorage.getCellAtLevelUnchecked c w bits level
  typeSet c bits level cell := FixedDepthStorage.setCellAtLevelUnchecked c w bits level cell

/-- `morton_index_2d.rs` 456-465: `StorageType`, `Bits`, `bits` and `bits_mut` of `StaticStorage2D`. -/
instance (w : Nat) : StorageBits (StaticStorage2D w) Quadrant (BitVec w) where
  bits s := s.bits
  bitsMut s f := { s with bits := f s.bits }
  typeGet c bits level := StaticStorage.getCellAtLevelUnchecked c w bits level
  typeSet c bits level cell := StaticStorage.setCellAtLevelUnchecked c w bits level cell

/-- `morton_index_2d.rs` 664-673: `StorageType`, `Bits`, `bits` and `bits_mut` of `DynamicStorage2D`. -/
instance : StorageBits DynamicStorage2D Quadrant (List (BitVec 8)) where
  bits s := s.bits
  bitsMut s f := { s with bits := f s.bits }
  typeGet c bits level := DynamicStorage.getCellAtLevelUnchecked c bits level
  typeSet c bits level cell := DynamicStorage.setCellAtLevelUnchecked c bits level cell

/-- `morton_index_3d.rs` 447-456: `StorageType`, `Bits`, `bits` and `bits_mut` of `FixedDepthStorage3D`. -/
instance (w : Nat) : StorageBits (FixedDepthStorage3D w) Octant (BitVec w) where
  bits s := s.bits
  bitsMut s f := { s with bits := f s.bits }
  typeGet c bits level := FixedDepthStorage.getCellAtLevelUnchecked c w bits level
  typeSet c bits level cell := FixedDepthStorage.setCellAtLevelUnchecked c w bits level cell

/-- `morton_index_3d.rs` 521-530: `StorageType`, `Bits`, `bits` and `bits_mut` of `StaticStorage3D`. -/
instance (w : Nat) : StorageBits (StaticStorage3D w) Octant (BitVec w) where
  bits s := s.bits
  bitsMut s f := { s with bits := f s.bits }
  typeGet c bits level := StaticStorage.getCellAtLevelUnchecked c w bits level
  typeSet c bits level cell := StaticStorage.setCellAtLevelUnchecked c w bits level cell

/-- `morton_index_3d.rs` 733-742: `StorageType`, `Bits`, `bits` and `bits_mut` of `DynamicStorage3D`. -/
instance : StorageBits DynamicStorage3D Octant (List (BitVec 8)) where
  bits s := s.bits
  bitsMut s f := { s with bits := f s.bits }
  typeGet c bits level := DynamicStorage.getCellAtLevelUnchecked c bits level
  typeSet c bits level cell := DynamicStorage.setCellAtLevelUnchecked c bits level cell

end MortonRs
