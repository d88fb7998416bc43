import Verif.Model.Rust

/-! # Model of `/repo/src/number.rs` -/

namespace MortonRs

/-- `number.rs` 78-82: `enum Endianness`. -/
inductive Endianness where
  | BigEndian
  | LittleEndian
  deriving DecidableEq, Repr

/-- `number.rs` 86-118: `trait Bits`. The conversions `as_u16 .. as_usize` (99-103) are the one
operation `asUN n`, `from_u8 .. from_usize` (107-112) the one operation `fromUN n`. `as_u8_slice`
(104) is `asU8Slice`; `as_u8_slice_mut` (105) takes what the caller does with the borrowed bytes, a function that keeps
their number, and returns the container afterwards. -/
class Bits (T : Type) where
  BITS : Nat
  getBits : Cfg → T → Range → Res T
  getBitsAsUsize : (c : Cfg) → T → Range → Res (BitVec c.ptrBits)
  setBits : Cfg → T → Range → T → Res T
  setBitsFromUsize : (c : Cfg) → T → Range → BitVec c.ptrBits → Res T
  asU8 : T → Res (BitVec 8)
  asUN : Cfg → (n : Nat) → T → Res (BitVec n)
  asU8Slice : Cfg → T → List (BitVec 8)
  asU8SliceMut : Cfg → T → (List (BitVec 8) → List (BitVec 8)) → T
  fromUN : Cfg → {n : Nat} → BitVec n → T
  fromU8Slice : Cfg → List (BitVec 8) → Endianness → T
  size : T → Nat

/-! ## Integers: the `impl_bits!` macro, lines 3-76 -/

/-- `number.rs` 5-13: `get_bits` of an integer type. -/
def intGetBits (c : Cfg) {w : Nat} (self : BitVec w) (bit_range : Range) : Res (BitVec w) := do
  let shift := bit_range.start % 2 ^ w
  let shift_right ← usub c w bit_range.len
  let mask := (checkedShr (~~~(0#w)) (shift_right % 2 ^ 32)).getD 0#w
  return (checkedShr self (shift % 2 ^ 32)).getD 0#w &&& mask

/-- `number.rs` 14-16: `get_bits_as_usize` of an integer type. -/
def intGetBitsAsUsize (c : Cfg) {w : Nat} (self : BitVec w) (bit_range : Range) :
    Res (BitVec c.ptrBits) := do
  return (← intGetBits c self bit_range).setWidth c.ptrBits

/-- `number.rs` 17-23: `set_bits` of an integer type (returns the new `*self`). -/
def intSetBits (c : Cfg) {w : Nat} (self : BitVec w) (bit_range : Range) (new_value : BitVec w) :
    Res (BitVec w) := do
  let shift := bit_range.start % 2 ^ w
  let shift_right ← usub c w bit_range.len
  let mask := (checkedShr (~~~(0#w)) (shift_right % 2 ^ 32)).getD 0#w
  let clear_mask := ~~~(← shl c mask shift)
  return (self &&& clear_mask) ||| (← shl c new_value shift)

/-- `number.rs` 24-26: `set_bits_from_usize` of an integer type. -/
def intSetBitsFromUsize (c : Cfg) {w : Nat} (self : BitVec w) (bit_range : Range)
    (new_value : BitVec c.ptrBits) : Res (BitVec w) :=
  intSetBits c self bit_range (new_value.setWidth w)

/-- `number.rs` 139-155 (u16), 163-179 (u32), 187-205 (u64), 213-233 (u128), 241-254 (usize):
`from_u8_slice`. The four bodies differ only in the byte count. -/
def intFromU8Slice (w : Nat) (bytes : List (BitVec 8)) (endianness : Endianness) : BitVec w :=
  if bytes.length < w / 8 then
    let padded_bytes := bytes ++ List.replicate (w / 8 - bytes.length) 0#8
    match endianness with
    | .BigEndian => fromBeBytes w padded_bytes
    | .LittleEndian => fromLeBytes w padded_bytes
  else
    let trimmed_bytes := bytes.take (w / 8)
    match endianness with
    | .BigEndian => fromBeBytes w trimmed_bytes
    | .LittleEndian => fromLeBytes w trimmed_bytes

/-- `number.rs` 125-131: `u8::from_u8_slice`. -/
def u8FromU8Slice (bytes : List (BitVec 8)) (_endianness : Endianness) : BitVec 8 :=
  match bytes with
  | [] => 0#8
  | b :: _ => b

/-- `number.rs` 120-264: `impl Bits for u8/u16/u32/u64/u128/usize`, as `BitVec w` for the width `w`. -/
instance instBitsBitVec (w : Nat) : Bits (BitVec w) where
  BITS := w
  getBits c := intGetBits c
  getBitsAsUsize c := intGetBitsAsUsize c
  setBits c := intSetBits c
  setBitsFromUsize c := intSetBitsFromUsize c
  asU8 x := .ok (x.setWidth 8)
  asUN _ n x := .ok (x.setWidth n)
  asU8Slice c x := bytesOf c x
  asU8SliceMut c x write := fromNeBytes c w (write (bytesOf c x))
  fromUN _ {_} v := v.setWidth w
  fromU8Slice _ bytes e := if w = 8 then (u8FromU8Slice bytes e).setWidth w else intFromU8Slice w bytes e
  size _ := w / 8

/-! ## `Vec<u8>`, lines 266-454 -/

/-- `number.rs` 279-298: the part of the loop body of `set_vec_u8_bits` that computes `combined_byte`. -/
def combinedByte (c : Cfg) (new_value : List (BitVec 8)) (new_val_start_bit num_bits_in_chunk : Nat) :
    Res (BitVec 8) := do
  let new_val_end_bit ← uadd c new_val_start_bit num_bits_in_chunk
  let new_val_byte_idx := new_val_start_bit / 8
  let last ← usub c new_value.length 1
  if new_val_byte_idx = last then
    let dst_start_in_byte := new_val_start_bit % 8
    let dst_end_in_byte ← uadd c dst_start_in_byte num_bits_in_chunk
    intGetBits c (← index new_value new_val_byte_idx) ⟨dst_start_in_byte, dst_end_in_byte⟩
  else
    let two_bytes ← readU16 c new_value new_val_byte_idx
    let start_bit_in_two_bytes ← usub c new_val_start_bit (← umul c new_val_byte_idx 8)
    let end_bit_in_two_bytes ← usub c new_val_end_bit (← umul c new_val_byte_idx 8)
    return (← intGetBits c two_bytes ⟨start_bit_in_two_bytes, end_bit_in_two_bytes⟩).setWidth 8

/-- `number.rs` 266-307: `set_vec_u8_bits`. The loop state is
`(vec, self_start_bit, new_val_start_bit)`. -/
def setVecU8Bits (c : Cfg) (vec : List (BitVec 8)) (bit_range : Range) (new_value : List (BitVec 8)) :
    Res (List (BitVec 8)) := do
  let self_start_byte := bit_range.start / 8
  let self_end_byte := (← uadd c bit_range.stop 7) / 8
  let st ← forRange self_start_byte self_end_byte (vec, bit_range.start, 0)
    fun self_byte_idx (vec, self_start_bit, new_val_start_bit) => do
      let self_end_bit := min (← umul c (← uadd c self_byte_idx 1) 8) bit_range.stop
      let num_bits_in_chunk ← usub c self_end_bit self_start_bit
      let combined_byte ← combinedByte c new_value new_val_start_bit num_bits_in_chunk
      let byte ← index vec self_byte_idx
      let lo ← usub c self_start_bit (← umul c self_byte_idx 8)
      let hi ← usub c self_end_bit (← umul c self_byte_idx 8)
      let byte ← intSetBits c byte ⟨lo, hi⟩ combined_byte
      pure (vec.set self_byte_idx byte, self_end_bit, ← uadd c new_val_start_bit num_bits_in_chunk)
  return st.1

/-- `number.rs` 323-328, in the loop of `Vec<u8>::get_bits`: carry the low bits of byte `idx` into byte `idx - 1`. -/
def getBitsCarry (c : Cfg) (shift_within_byte idx : Nat) (bytes : List (BitVec 8)) : Res (List (BitVec 8)) :=
  if idx > 0 ∧ shift_within_byte > 0 then do
    let carry ← intGetBits c (← index bytes idx) ⟨0, shift_within_byte⟩
    let prev ← index bytes (idx - 1)
    let prev ← intSetBits c prev ⟨8 - shift_within_byte, 8⟩ carry
    indexSet bytes (idx - 1) prev
  else pure bytes

/-- `number.rs` 329-335, in the loop of `Vec<u8>::get_bits`: clear the bits of the last byte behind the range. -/
def getBitsMaskLast (c : Cfg) (end_byte stop idx : Nat) (bytes : List (BitVec 8)) : Res (List (BitVec 8)) :=
  if idx = bytes.length - 1 then do
    let excess_bits ← usub c (← umul c end_byte 8) stop
    let mask ← shr c 0xFF#8 excess_bits
    indexSet bytes idx ((← index bytes idx) &&& mask)
  else pure bytes

/-- `number.rs` 312-345: `Vec<u8>::get_bits`. The loop state is `bytes`; the two conditional parts of the loop body are
the functions above. -/
def vecGetBits (c : Cfg) (self : List (BitVec 8)) (bit_range : Range) : Res (List (BitVec 8)) := do
  let num_bits := bit_range.len
  let num_bytes := (← uadd c num_bits 7) / 8
  let start_byte := bit_range.start / 8
  let end_byte := (← uadd c bit_range.stop 7) / 8
  let shift_within_byte := bit_range.start % 8
  if ¬ (start_byte ≤ end_byte ∧ end_byte ≤ self.length) then .error .indexOutOfBounds
  else do
    let bytes := (self.drop start_byte).take (end_byte - start_byte)
    let bytes ← forRange 0 bytes.length bytes fun idx bytes => do
      let bytes ← getBitsCarry c shift_within_byte idx bytes
      let bytes ← getBitsMaskLast c end_byte bit_range.stop idx bytes
      let b ← shr c (← index bytes idx) shift_within_byte
      indexSet bytes idx b
    if end_byte - start_byte > num_bytes then return bytes.dropLast
    else return bytes

/-- `number.rs` 419-444: `Vec<u8>::get_bits_as_usize`. The loop state is
`(ret, current_start_bit, usize_start_bit)`. -/
def vecGetBitsAsUsize (c : Cfg) (self : List (BitVec 8)) (bit_range : Range) :
    Res (BitVec c.ptrBits) := do
  let start_byte := bit_range.start / 8
  let end_byte := (← uadd c bit_range.stop 7) / 8
  let st ← forRange start_byte end_byte (0#c.ptrBits, bit_range.start, 0)
    fun idx (ret, current_start_bit, usize_start_bit) => do
      let current_end_bit := min (← umul c (← uadd c idx 1) 8) bit_range.stop
      let bits_within_current_byte ← usub c current_end_bit current_start_bit
      let start_within_byte := current_start_bit % 8
      let end_within_byte ← uadd c start_within_byte bits_within_current_byte
      let byte ← intGetBits c (← index self idx) ⟨start_within_byte, end_within_byte⟩
      let usize_end_bit ← uadd c usize_start_bit bits_within_current_byte
      let ret ← intSetBits c ret ⟨usize_start_bit, usize_end_bit⟩ (byte.setWidth c.ptrBits)
      pure (ret, current_end_bit, ← uadd c usize_start_bit bits_within_current_byte)
  return st.1

/-- `number.rs` 446-449: `Vec<u8>::set_bits_from_usize`. -/
def vecSetBitsFromUsize (c : Cfg) (self : List (BitVec 8)) (bit_range : Range)
    (new_value : BitVec c.ptrBits) : Res (List (BitVec 8)) :=
  setVecU8Bits c self bit_range (bytesOf c new_value)

/-- `number.rs` 355-373: `Vec<u8>::as_u16 .. as_usize`. -/
def vecAsUN (c : Cfg) (n : Nat) (self : List (BitVec 8)) : Res (BitVec n) :=
  if self.length = n / 8 then .ok (fromNeBytes c n self) else .error .unwrap

/-- `number.rs` 407-417: `Vec<u8>::from_u8_slice`. -/
def vecFromU8Slice (c : Cfg) (bytes : List (BitVec 8)) (endianness : Endianness) : List (BitVec 8) :=
  if (endianness = .BigEndian) = (c.bigEndian = true) then bytes else bytes.reverse

/-- `number.rs` 309-454: `impl Bits for Vec<u8>`. -/
instance instBitsVec : Bits (List (BitVec 8)) where
  BITS := 0
  getBits := vecGetBits
  getBitsAsUsize := vecGetBitsAsUsize
  setBits c self r v := setVecU8Bits c self r v
  setBitsFromUsize := vecSetBitsFromUsize
  asU8 self := index self 0
  asUN := vecAsUN
  asU8Slice _ self := self
  asU8SliceMut _ self write := write self
  fromUN c {_} v := bytesOf c v
  fromU8Slice := vecFromU8Slice
  size self := self.length

/-! ## Bit spreading, lines 470-515 -/

/-- `number.rs` 478-483: `add_zero_before_every_bit_u8`. -/
def addZeroBeforeEveryBitU8 (val : BitVec 8) : BitVec 8 :=
  let ret := val
  let ret := (ret ||| (ret <<< 2)) &&& 0b00110011#8
  let ret := (ret ||| (ret <<< 1)) &&& 0b01010101#8
  ret

/-- `number.rs` 472-474: `add_zero_behind_every_bit_u8`. -/
def addZeroBehindEveryBitU8 (val : BitVec 8) : BitVec 8 :=
  addZeroBeforeEveryBitU8 val <<< 1

/-- `number.rs` 487-493: `add_zero_before_every_bit_u16`. -/
def addZeroBeforeEveryBitU16 (val : BitVec 16) : BitVec 16 :=
  let ret := val
  let ret := (ret ||| (ret <<< 4)) &&& 0b0000111100001111#16
  let ret := (ret ||| (ret <<< 2)) &&& 0b0011001100110011#16
  let ret := (ret ||| (ret <<< 1)) &&& 0b0101010101010101#16
  ret

/-- `number.rs` 497-503: `add_two_zeroes_before_every_bit_u8`. -/
def addTwoZeroesBeforeEveryBitU8 (val : BitVec 8) : BitVec 32 :=
  let val := val.setWidth 32
  let val := (val ||| (val <<< 8)) &&& 0x0F00F00F#32
  let val := (val ||| (val <<< 4)) &&& 0xC30C30C3#32
  let val := (val ||| (val <<< 2)) &&& 0x49249249#32
  val

/-- `number.rs` 506-515: `add_two_zeroes_before_every_bit_u32`. -/
def addTwoZeroesBeforeEveryBitU32 (val : BitVec 32) : BitVec 64 :=
  let val := val.setWidth 64
  let val := val &&& 0b111111111111111111111#64
  let val := (val ||| (val <<< 32)) &&& 0x00FF00000000FFFF#64
  let val := (val ||| (val <<< 16)) &&& 0x00FF0000FF0000FF#64
  let val := (val ||| (val <<< 8)) &&& 0xF00F00F00F00F00F#64
  let val := (val ||| (val <<< 4)) &&& 0x30C30C30C30C30C3#64
  let val := (val ||| (val <<< 2)) &&&
    0b0001001001001001001001001001001001001001001001001001001001001001#64
  val

end MortonRs
