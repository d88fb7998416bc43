import Verif.Props.Examples
import Verif.Lemmas.Basic

/-! # The crate's own test vectors, run on the model

Every `example` evaluates the model on the literals of a `#[test]` function, of the README or of a file in
`/repo/examples`. They test the model, they prove no property. The tests of the crate that draw random
cells are not repeated: `Verif.Props.CrateTests` proves that they pass for all cells. -/

namespace MortonRs.Conformance

/-- The value of a computation that neither faults nor reports an error. -/
def val {α : Type} : Res (Except Error α) → Option α
  | .ok (.ok a) => some a
  | _ => none

/-- The cells of the index a computation returns. -/
def cellsOf {S Cell : Type} [Storage S Cell] (c : Cfg) : Option S → Option (List Cell)
  | some s => (Storage.collectCells c s).toOption
  | none => none

/-! ## `number.rs` 521-549: `set_bits_u8` -/

example : intSetBits x64 0#8 ⟨0, 2⟩ 0b11#8 = .ok 0b11#8 := by decide +kernel
example : intGetBits x64 0b11#8 ⟨0, 2⟩ = .ok 0b11#8 := by decide +kernel
example : intSetBits x64 0#8 ⟨2, 4⟩ 0b11#8 = .ok 0b1100#8 := by decide +kernel
example : intGetBits x64 0b1100#8 ⟨2, 4⟩ = .ok 0b11#8 := by decide +kernel
example : intSetBits x64 0#8 ⟨6, 8⟩ 0b11#8 = .ok 0b11000000#8 := by decide +kernel
example : intGetBits x64 0b11000000#8 ⟨6, 8⟩ = .ok 0b11#8 := by decide +kernel
example : intSetBits x64 0#8 ⟨0, 8⟩ 0b1#8 = .ok 0b1#8 := by decide +kernel
example : intGetBits x64 0b1#8 ⟨0, 8⟩ = .ok 0b1#8 := by decide +kernel
example : intSetBits x64 0#8 ⟨0, 8⟩ 0b11111111#8 = .ok 0b11111111#8 := by decide +kernel
example : intGetBits x64 0b11111111#8 ⟨0, 8⟩ = .ok 0b11111111#8 := by decide +kernel

/-! ## `number.rs` 551-591: `set_bits_u16` -/

example : intSetBits x64 0#16 ⟨0, 3⟩ 0b111#16 = .ok 0b111#16 := by decide +kernel
example : intGetBits x64 0b111#16 ⟨0, 3⟩ = .ok 0b111#16 := by decide +kernel
example : intSetBits x64 0#16 ⟨3, 6⟩ 0b111#16 = .ok 0b111000#16 := by decide +kernel
example : intGetBits x64 0b111000#16 ⟨3, 6⟩ = .ok 0b111#16 := by decide +kernel
example : intSetBits x64 0#16 ⟨8, 11⟩ 0b111#16 = .ok 0b11100000000#16 := by decide +kernel
example : intGetBits x64 0b11100000000#16 ⟨8, 11⟩ = .ok 0b111#16 := by decide +kernel
example : intSetBits x64 0#16 ⟨6, 9⟩ 0b111#16 = .ok 0b111000000#16 := by decide +kernel
example : intGetBits x64 0b111000000#16 ⟨6, 9⟩ = .ok 0b111#16 := by decide +kernel
example : intSetBits x64 0#16 ⟨0, 8⟩ 255#16 = .ok 255#16 := by decide +kernel
example : intGetBits x64 255#16 ⟨0, 8⟩ = .ok 255#16 := by decide +kernel
example : intSetBits x64 0#16 ⟨0, 16⟩ 65535#16 = .ok 65535#16 := by decide +kernel
example : intGetBits x64 65535#16 ⟨0, 16⟩ = .ok 65535#16 := by decide +kernel
example : (intSetBits x64 0#16 ⟨0, 2⟩ 0b11#16).bind (intSetBits x64 · ⟨9, 12⟩ 0b101#16) =
    .ok 0b101000000011#16 := by decide +kernel
example : intGetBits x64 0b101000000011#16 ⟨9, 12⟩ = .ok 0b101#16 := by decide +kernel
example : intGetBits x64 0b101000000011#16 ⟨0, 2⟩ = .ok 0b11#16 := by decide +kernel

/-! ## `number.rs` 593-606: `test_expand_u8_by_2` -/

example : addZeroBehindEveryBitU8 0#8 = 0#8 := by decide +kernel
example : addZeroBehindEveryBitU8 0b1111#8 = 0b10101010#8 := by decide +kernel
example : addZeroBehindEveryBitU8 0b0011#8 = 0b00001010#8 := by decide +kernel
example : addZeroBehindEveryBitU8 0b1001#8 = 0b10000010#8 := by decide +kernel
example : addZeroBehindEveryBitU8 0b1010#8 = 0b10001000#8 := by decide +kernel
example : addZeroBeforeEveryBitU8 0#8 = 0#8 := by decide +kernel
example : addZeroBeforeEveryBitU8 0b1111#8 = 0b01010101#8 := by decide +kernel
example : addZeroBeforeEveryBitU8 0b0011#8 = 0b00000101#8 := by decide +kernel
example : addZeroBeforeEveryBitU8 0b1001#8 = 0b01000001#8 := by decide +kernel
example : addZeroBeforeEveryBitU8 0b1010#8 = 0b01000100#8 := by decide +kernel

/-! ## `number.rs` 608-660: the two `add_two_zeroes_before_every_bit` tests -/

example : addTwoZeroesBeforeEveryBitU8 0b1#8 = 0b1#32 := by decide +kernel
example : addTwoZeroesBeforeEveryBitU8 0b11#8 = 0b1001#32 := by decide +kernel
example : addTwoZeroesBeforeEveryBitU8 0b10#8 = 0b1000#32 := by decide +kernel
example : addTwoZeroesBeforeEveryBitU8 0b111#8 = 0b1001001#32 := by decide +kernel
example : addTwoZeroesBeforeEveryBitU8 0b1111#8 = 0b1001001001#32 := by decide +kernel
example : addTwoZeroesBeforeEveryBitU8 0b11111#8 = 0b1001001001001#32 := by decide +kernel
example : addTwoZeroesBeforeEveryBitU8 0b111111#8 = 0b1001001001001001#32 := by decide +kernel
example : addTwoZeroesBeforeEveryBitU8 0b1111111#8 = 0b1001001001001001001#32 := by decide +kernel
example : addTwoZeroesBeforeEveryBitU8 0b11111111#8 = 0b1001001001001001001001#32 := by decide +kernel
example : addTwoZeroesBeforeEveryBitU32 0b1#32 = 0b1#64 := by decide +kernel
example : addTwoZeroesBeforeEveryBitU32 0b11#32 = 0b1001#64 := by decide +kernel
example : addTwoZeroesBeforeEveryBitU32 0b10#32 = 0b1000#64 := by decide +kernel
example : addTwoZeroesBeforeEveryBitU32 0b111#32 = 0b1001001#64 := by decide +kernel
example : addTwoZeroesBeforeEveryBitU32 0b1111#32 = 0b1001001001#64 := by decide +kernel
example : addTwoZeroesBeforeEveryBitU32 0b11111#32 = 0b1001001001001#64 := by decide +kernel
example : addTwoZeroesBeforeEveryBitU32 0b111111#32 = 0b1001001001001001#64 := by decide +kernel
example : addTwoZeroesBeforeEveryBitU32 0b1111111#32 = 0b1001001001001001001#64 := by decide +kernel
example : addTwoZeroesBeforeEveryBitU32 0b11111111#32 = 0b1001001001001001001001#64 := by decide +kernel
example : addTwoZeroesBeforeEveryBitU32 0b111111111#32 = 0b1001001001001001001001001#64 := by decide +kernel
example : addTwoZeroesBeforeEveryBitU32 0b1111111111#32 = 0b1001001001001001001001001001#64 := by decide +kernel
example : addTwoZeroesBeforeEveryBitU32 0b11111111111#32 = 0b1001001001001001001001001001001#64 := by decide +kernel
example : addTwoZeroesBeforeEveryBitU32 0b111111111111#32 = 0b1001001001001001001001001001001001#64 := by decide +kernel
example : addTwoZeroesBeforeEveryBitU32 0b1111111111111#32 = 0b1001001001001001001001001001001001001#64 := by decide +kernel
example : addTwoZeroesBeforeEveryBitU32 0b11111111111111#32 = 0b1001001001001001001001001001001001001001#64 := by decide +kernel
example : addTwoZeroesBeforeEveryBitU32 0b111111111111111#32 = 0b1001001001001001001001001001001001001001001#64 := by decide +kernel
example : addTwoZeroesBeforeEveryBitU32 0b1111111111111111#32 = 0b1001001001001001001001001001001001001001001001#64 := by decide +kernel
example : addTwoZeroesBeforeEveryBitU32 0b11111111111111111#32 = 0b1001001001001001001001001001001001001001001001001#64 := by decide +kernel
example : addTwoZeroesBeforeEveryBitU32 0b111111111111111111#32 = 0b1001001001001001001001001001001001001001001001001001#64 := by decide +kernel
example : addTwoZeroesBeforeEveryBitU32 0b1111111111111111111#32 = 0b1001001001001001001001001001001001001001001001001001001#64 := by decide +kernel
example : addTwoZeroesBeforeEveryBitU32 0b11111111111111111111#32 = 0b1001001001001001001001001001001001001001001001001001001001#64 := by decide +kernel
example : addTwoZeroesBeforeEveryBitU32 0b111111111111111111111#32 = 0b1001001001001001001001001001001001001001001001001001001001001#64 := by decide +kernel

/-! ## `number.rs` 662-724: `test_get_bits_vec_u8`, both byte orders -/

/-- `number.rs` 672: the vector of the test. -/
def vec : List (BitVec 8) := [0b10101010#8, 0b01101001#8, 0b00111010#8, 0b11101110#8]

example : vecGetBits x64 vec ⟨0, 8⟩ = .ok [170#8] := by decide +kernel
example : vecGetBits x64 vec ⟨2, 6⟩ = .ok [10#8] := by decide +kernel
example : vecGetBits x64 vec ⟨0, 12⟩ = .ok [170#8, 9#8] := by decide +kernel
example : vecGetBits x64 vec ⟨4, 12⟩ = .ok [154#8] := by decide +kernel
example : vecGetBits x64 vec ⟨12, 32⟩ = .ok [166#8, 227#8, 14#8] := by decide +kernel
example : vecGetBits x64 vec ⟨0, 32⟩ = .ok vec := by decide +kernel

/-! The code has no big-endian branch: on a big-endian target it does not return what the test expects
(finding F19 in `DESIGN.md`). -/

example : vecGetBits be64 vec ⟨0, 8⟩ ≠ .ok [238#8] := by decide +kernel
example : vecGetBits be64 vec ⟨2, 6⟩ ≠ .ok [11#8] := by decide +kernel
example : vecGetBits be64 vec ⟨0, 12⟩ ≠ .ok [10#8, 238#8] := by decide +kernel
example : vecGetBits be64 vec ⟨4, 12⟩ ≠ .ok [174#8] := by decide +kernel
example : vecGetBits be64 vec ⟨12, 32⟩ ≠ .ok [10#8, 166#8, 147#8] := by decide +kernel
example : vecGetBits be64 vec ⟨0, 32⟩ = .ok vec := by decide +kernel

/-! ## `number.rs` 726-766: `set_bits_vec_u8` -/

example : setVecU8Bits x64 [0#8, 0#8, 0#8, 0#8] ⟨0, 8⟩ [0b11000101#8] =
    .ok [0b11000101#8, 0#8, 0#8, 0#8] := by decide +kernel
example : setVecU8Bits x64 [0#8, 0#8, 0#8, 0#8] ⟨2, 6⟩ [0b1111#8] =
    .ok [0b00111100#8, 0#8, 0#8, 0#8] := by decide +kernel
example : setVecU8Bits x64 [0#8, 0#8, 0#8, 0#8] ⟨20, 24⟩ [0b1111#8] =
    .ok [0#8, 0#8, 0b11110000#8, 0#8] := by decide +kernel
example : setVecU8Bits x64 [0#8, 0#8, 0#8, 0#8] ⟨0, 12⟩ [0b11001010#8, 0b1001#8] =
    .ok [0b11001010#8, 0b00001001#8, 0#8, 0#8] := by decide +kernel
example : setVecU8Bits x64 [0#8, 0#8, 0#8, 0#8] ⟨4, 16⟩ [0b11001010#8, 0b1001#8] =
    .ok [0b10100000#8, 0b10011100#8, 0#8, 0#8] := by decide +kernel
example : setVecU8Bits x64 [0#8, 0#8, 0#8, 0#8] ⟨3, 23⟩ [0b11001010#8, 0b10010111#8, 0b1110#8] =
    .ok [0b01010000#8, 0b10111110#8, 0b01110100#8, 0#8] := by decide +kernel
example : setVecU8Bits x64 [0#8, 0#8, 0#8, 0#8] ⟨0, 32⟩ [0b10101010#8, 0b01101001#8, 0b00111010#8, 0b11101110#8] =
    .ok [0b10101010#8, 0b01101001#8, 0b00111010#8, 0b11101110#8] := by decide +kernel

/-! ## `number.rs` 768-784: `get_bits_as_usize_vec_u8` -/

example : (vecGetBitsAsUsize x64 vec ⟨0, 8⟩).map BitVec.toNat =
    (intGetBits x64 0xEE3A69AA#64 ⟨0, 8⟩).map BitVec.toNat := by decide +kernel
example : (vecGetBitsAsUsize x64 vec ⟨2, 6⟩).map BitVec.toNat =
    (intGetBits x64 0xEE3A69AA#64 ⟨2, 6⟩).map BitVec.toNat := by decide +kernel
example : (vecGetBitsAsUsize x64 vec ⟨20, 24⟩).map BitVec.toNat =
    (intGetBits x64 0xEE3A69AA#64 ⟨20, 24⟩).map BitVec.toNat := by decide +kernel
example : (vecGetBitsAsUsize x64 vec ⟨0, 12⟩).map BitVec.toNat =
    (intGetBits x64 0xEE3A69AA#64 ⟨0, 12⟩).map BitVec.toNat := by decide +kernel
example : (vecGetBitsAsUsize x64 vec ⟨1, 13⟩).map BitVec.toNat =
    (intGetBits x64 0xEE3A69AA#64 ⟨1, 13⟩).map BitVec.toNat := by decide +kernel
example : (vecGetBitsAsUsize x64 vec ⟨4, 24⟩).map BitVec.toNat =
    (intGetBits x64 0xEE3A69AA#64 ⟨4, 24⟩).map BitVec.toNat := by decide +kernel
example : (vecGetBitsAsUsize x64 vec ⟨3, 23⟩).map BitVec.toNat =
    (intGetBits x64 0xEE3A69AA#64 ⟨3, 23⟩).map BitVec.toNat := by decide +kernel
example : (vecGetBitsAsUsize x64 vec ⟨0, 32⟩).map BitVec.toNat =
    (intGetBits x64 0xEE3A69AA#64 ⟨0, 32⟩).map BitVec.toNat := by decide +kernel

/-! ## `number.rs` 786-826: `set_bits_from_usize_vec_u8` -/

example : vecSetBitsFromUsize x64 [0#8, 0#8, 0#8, 0#8] ⟨0, 8⟩ 0b11000101#64 =
    .ok [0b11000101#8, 0#8, 0#8, 0#8] := by decide +kernel
example : vecSetBitsFromUsize x64 [0#8, 0#8, 0#8, 0#8] ⟨2, 6⟩ 0b1111#64 =
    .ok [0b00111100#8, 0#8, 0#8, 0#8] := by decide +kernel
example : vecSetBitsFromUsize x64 [0#8, 0#8, 0#8, 0#8] ⟨20, 24⟩ 0b1111#64 =
    .ok [0#8, 0#8, 0b11110000#8, 0#8] := by decide +kernel
example : vecSetBitsFromUsize x64 [0#8, 0#8, 0#8, 0#8] ⟨0, 12⟩ 0b100111001010#64 =
    .ok [0b11001010#8, 0b00001001#8, 0#8, 0#8] := by decide +kernel
example : vecSetBitsFromUsize x64 [0#8, 0#8, 0#8, 0#8] ⟨4, 16⟩ 0b100111001010#64 =
    .ok [0b10100000#8, 0b10011100#8, 0#8, 0#8] := by decide +kernel
example : vecSetBitsFromUsize x64 [0#8, 0#8, 0#8, 0#8] ⟨3, 23⟩ 0b11101001011111001010#64 =
    .ok [0b01010000#8, 0b10111110#8, 0b01110100#8, 0#8] := by decide +kernel
example : vecSetBitsFromUsize x64 [0#8, 0#8, 0#8, 0#8] ⟨0, 32⟩ 0b11101110001110100110100110101010#64 =
    .ok [0b10101010#8, 0b01101001#8, 0b00111010#8, 0b11101110#8] := by decide +kernel

/-! ## `dim_2d.rs` 98-133: `quadrant_orderings` -/

example : QuadrantOrdering.toIndex 64 .XY .Zero = ⟨0#64, 0#64⟩ := by decide +kernel
example : QuadrantOrdering.toIndex 64 .XY .One = ⟨1#64, 0#64⟩ := by decide +kernel
example : QuadrantOrdering.toIndex 64 .XY .Two = ⟨0#64, 1#64⟩ := by decide +kernel
example : QuadrantOrdering.toIndex 64 .XY .Three = ⟨1#64, 1#64⟩ := by decide +kernel
example : QuadrantOrdering.toIndex 64 .YX .Zero = ⟨0#64, 0#64⟩ := by decide +kernel
example : QuadrantOrdering.toIndex 64 .YX .One = ⟨0#64, 1#64⟩ := by decide +kernel
example : QuadrantOrdering.toIndex 64 .YX .Two = ⟨1#64, 0#64⟩ := by decide +kernel
example : QuadrantOrdering.toIndex 64 .YX .Three = ⟨1#64, 1#64⟩ := by decide +kernel

/-! ## `dim_3d.rs` 157-179: `octant_orderings` -/

example : ∀ o ∈ [OctantOrdering.XYZ, .XZY, .YXZ, .YZX, .ZXY, .ZYX], ∀ i ∈ List.range 8,
    (Octant.tryFromUsize i).map (o.toIndex 64) =
      .ok ⟨(BitVec.ofNat 64 i >>> o.getBitShiftsForXyz.1) &&& 1#64,
        (BitVec.ofNat 64 i >>> o.getBitShiftsForXyz.2.1) &&& 1#64,
        (BitVec.ofNat 64 i >>> o.getBitShiftsForXyz.2.2) &&& 1#64⟩ := by decide +kernel

/-! ## `morton_index_2d.rs` 1876-2060: the three `from_grid_index` tests -/

example : cellsOf x64 ((MortonIndex2D.fixedFromGridIndex x64 16 ⟨0b11000101#64, 0b01101100#64⟩ .XY).toOption.map (·.storage)) =
    some [.One, .Three, .Two, .Zero, .Two, .Three, .Zero, .One] := by decide +kernel
example : cellsOf x64 ((val (MortonIndex2D.staticFromGridIndex x64 16 ⟨0b11000101#64, 0b01101100#64⟩ 8 .XY)).map (·.storage)) =
    some [.One, .Three, .Two, .Zero, .Two, .Three, .Zero, .One] := by decide +kernel
example : cellsOf x64 ((MortonIndex2D.dynamicFromGridIndex x64 ⟨0b11000101#64, 0b01101100#64⟩ 8 .XY).toOption.map (·.storage)) =
    some [.One, .Three, .Two, .Zero, .Two, .Three, .Zero, .One] := by decide +kernel
example : cellsOf x64 ((val (MortonIndex2D.staticFromGridIndex x64 16 ⟨0b11000101#64, 0b01101100#64⟩ 5 .XY)).map (·.storage)) =
    some [.Zero, .Two, .Three, .Zero, .One] := by decide +kernel
example : cellsOf x64 ((MortonIndex2D.dynamicFromGridIndex x64 ⟨0b11000101#64, 0b01101100#64⟩ 5 .XY).toOption.map (·.storage)) =
    some [.Zero, .Two, .Three, .Zero, .One] := by decide +kernel
example : cellsOf x64 ((MortonIndex2D.fixedFromGridIndex x64 16 ⟨0b11000101#64, 0b01101100#64⟩ .YX).toOption.map (·.storage)) =
    some [.Two, .Three, .One, .Zero, .One, .Three, .Zero, .Two] := by decide +kernel
example : cellsOf x64 ((val (MortonIndex2D.staticFromGridIndex x64 16 ⟨0b11000101#64, 0b01101100#64⟩ 8 .YX)).map (·.storage)) =
    some [.Two, .Three, .One, .Zero, .One, .Three, .Zero, .Two] := by decide +kernel
example : cellsOf x64 ((MortonIndex2D.dynamicFromGridIndex x64 ⟨0b11000101#64, 0b01101100#64⟩ 8 .YX).toOption.map (·.storage)) =
    some [.Two, .Three, .One, .Zero, .One, .Three, .Zero, .Two] := by decide +kernel
example : cellsOf x64 ((val (MortonIndex2D.staticFromGridIndex x64 16 ⟨0b11000101#64, 0b01101100#64⟩ 5 .YX)).map (·.storage)) =
    some [.Zero, .One, .Three, .Zero, .Two] := by decide +kernel
example : cellsOf x64 ((MortonIndex2D.dynamicFromGridIndex x64 ⟨0b11000101#64, 0b01101100#64⟩ 5 .YX).toOption.map (·.storage)) =
    some [.Zero, .One, .Three, .Zero, .Two] := by decide +kernel

/-! ## `README.md` and `examples/morton_2d.rs` -/

/-- `examples/morton_2d.rs` 13-18: the index of the example. -/
def readme : MortonIndex2D (FixedDepthStorage2D 8) := ⟨⟨0b00011011#8⟩⟩

/-- `examples/morton_2d.rs` 29: the index after `set_cell_at_level(0, Quadrant::Two)`. -/
def readmeSet : MortonIndex2D (FixedDepthStorage2D 8) := ⟨⟨0b10011011#8⟩⟩

example : (val (MortonIndex2D.tryFromArray x64 (S := FixedDepthStorage2D 8) [.Zero, .One, .Two, .Three])).map
    (·.storage.bits) = some readme.storage.bits := by decide +kernel
example : readme.depth = 4 := by decide +kernel
example : readme.getCellAtLevel x64 1 = .ok .One := by decide +kernel
example : (cellsOf x64 (some readme.storage)).bind (·.getLast?) = some .Three := by decide +kernel
example : (MortonIndex2D.fixedFromGridIndex x64 8 ⟨5#64, 3#64⟩ .XY).map (·.storage.bits) =
    .ok readme.storage.bits := by decide +kernel
example : (readme.setCellAtLevel x64 0 .Two).map (·.storage.bits) = .ok readmeSet.storage.bits := by decide +kernel
example : readmeSet.getCellAtLevel x64 0 = .ok .Two := by decide +kernel
example : readmeSet.toString x64 .CellConcatenation = .ok "2123" := by decide +kernel
example : readmeSet.toString x64 .CellConcatenationWithRoot = .ok "r2123" := by decide +kernel
example : readmeSet.toString x64 .GridIndex = .ok "4-5-11" := by decide +kernel
example : readmeSet.toGridIndex x64 .XY = .ok ⟨5#64, 11#64⟩ := by decide +kernel
example : (MortonIndex2D.fixedFromGridIndex x64 8 ⟨5#64, 11#64⟩ .XY).map (·.storage.bits) =
    .ok readmeSet.storage.bits := by decide +kernel

/-! ## `examples/morton_3d.rs` -/

/-- `examples/morton_3d.rs` 11-18: the index of the example. -/
def ex3d : MortonIndex3D (FixedDepthStorage3D 16) := ⟨⟨0b0000010100111000#16⟩⟩

/-- `examples/morton_3d.rs` 28: the index after `set_cell_at_level(0, Octant::Two)`. -/
def ex3dSet : MortonIndex3D (FixedDepthStorage3D 16) := ⟨⟨0b0100010100111000#16⟩⟩

example : (val (MortonIndex3D.tryFromArray x64 (S := FixedDepthStorage3D 16)
    [.Zero, .One, .Two, .Three, .Four])).map (·.storage.bits) = some ex3d.storage.bits := by decide +kernel
example : ex3d.depth = 5 := by decide +kernel
example : ex3d.getCellAtLevel x64 1 = .ok .One := by decide +kernel
example : (cellsOf x64 (some ex3d.storage)).bind (·.getLast?) = some .Four := by decide +kernel
example : (ex3d.setCellAtLevel x64 0 .Two).map (·.storage.bits) = .ok ex3dSet.storage.bits := by decide +kernel
example : ex3dSet.toString x64 .CellConcatenation = .ok "21234" := by decide +kernel
example : ex3dSet.toString x64 .CellConcatenationWithRoot = .ok "r21234" := by decide +kernel
example : ex3dSet.toString x64 .GridIndex = .ok "5-10-22-1" := by decide +kernel
example : ex3dSet.toGridIndex x64 .XYZ = .ok ⟨10#64, 22#64, 1#64⟩ := by decide +kernel
example : (MortonIndex3D.fixedFromGridIndex x64 16 ⟨10#64, 22#64, 1#64⟩ .XYZ).map (·.storage.bits) =
    .ok ex3dSet.storage.bits := by decide +kernel

/-! ## `examples/storage_types.rs` -/

example : Storage.maxDepth (FixedDepthStorage2D 8) = some 4 := by decide +kernel
example : Storage.maxDepth (FixedDepthStorage2D 16) = some 8 := by decide +kernel
example : Storage.maxDepth DynamicStorage2D = none := by decide +kernel
example : ((val (MortonIndex2D.tryFromArray x64 (S := FixedDepthStorage2D 8) [.One])).map (·.depth)) = some 4 := by
  decide +kernel
example : ((val (MortonIndex2D.tryFromArray x64 (S := StaticStorage2D 8) [.Three, .Two, .Zero, .One])).map
    (·.depth)) = some 4 := by decide +kernel

/-- `examples/storage_types.rs` 61: the index `static2`. -/
def static2 : MortonIndex2D (StaticStorage2D 8) := ⟨⟨0b11000000#8, 1⟩⟩

example : (val (MortonIndex2D.tryFromArray x64 (S := StaticStorage2D 8) [.Three])).map
    (fun m => (m.storage.bits, m.storage.depth)) = some (0b11000000#8, 1) := by decide +kernel
example : static2.depth = 1 := by decide +kernel
example : (VariableDepthMortonIndex.parent x64 static2).map
    (·.map (RustOrd.eq (⟨StaticStorage2D.default 8⟩ : MortonIndex2D (StaticStorage2D 8)))) = .ok (some true) := by
  decide +kernel
example : (VariableDepthMortonIndex.child x64 (⟨StaticStorage2D.default 8⟩ : MortonIndex2D (StaticStorage2D 8))
    .Three).map (·.map (RustOrd.eq static2)) = .ok (some true) := by decide +kernel
example : (val (MortonIndex2D.tryFromArray x64 (S := StaticStorage2D 8)
    [.Zero, .Zero, .Zero, .Zero, .Zero])).isNone = true := by decide +kernel
example : ((val (MortonIndex2D.tryFromArray x64 (S := DynamicStorage2D)
    [.Zero, .Zero, .Zero, .Zero, .Zero])).map (·.depth)) = some 5 := by decide +kernel

end MortonRs.Conformance
