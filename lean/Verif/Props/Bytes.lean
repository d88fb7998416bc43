import Verif.Props.Numbers
import Verif.Props.Examples

/-! # Numbers and bytes (C54)

The conversions of the trait `Bits` between integers and byte vectors. -/

namespace MortonRs

/-- The number a byte string stands for in the memory of the target. -/
def nativeNumber (c : Cfg) (bs : List (BitVec 8)) : Nat := if c.bigEndian then beNumber bs else leNumber bs

/-- The number a byte string stands for in the given byte order. -/
def numberIn (e : Endianness) (bs : List (BitVec 8)) : Nat :=
  match e with
  | .LittleEndian => leNumber bs
  | .BigEndian => beNumber bs

/-- The byte order of the target. -/
def Cfg.endianness (c : Cfg) : Endianness := if c.bigEndian then .BigEndian else .LittleEndian

theorem beNumber_reverse (bs : List (BitVec 8)) : beNumber bs.reverse = leNumber bs := by
  rw [beNumber_eq, List.reverse_reverse, leNumber_eq]

theorem leNumber_reverse (bs : List (BitVec 8)) : leNumber bs.reverse = beNumber bs := by
  rw [beNumber_eq, leNumber_eq]

theorem bytesOf_length (c : Cfg) {w : Nat} (x : BitVec w) : (bytesOf c x).length = w / 8 := by
  unfold bytesOf
  split
  · rw [List.length_reverse, leBytes_length]
  · exact leBytes_length x

theorem nativeNumber_bytesOf (c : Cfg) {w : Nat} (hw : w % 8 = 0) (x : BitVec w) :
    nativeNumber c (bytesOf c x) = x.toNat := by
  unfold nativeNumber bytesOf
  split
  · rw [beNumber_reverse, leNumber_eq, leValue_leBytes x hw]
  · rw [leNumber_eq, leValue_leBytes x hw]

theorem nativeNumber_lt (c : Cfg) (bs : List (BitVec 8)) : nativeNumber c bs < 2 ^ (8 * bs.length) := by
  unfold nativeNumber
  split
  · have := leValue_lt bs.reverse
    rwa [List.length_reverse, ← beNumber_eq] at this
  · rw [leNumber_eq]; exact leValue_lt bs

theorem fromNeBytes_toNat (c : Cfg) {n : Nat} {bs : List (BitVec 8)} (h : 8 * bs.length = n) :
    (fromNeBytes c n bs).toNat = nativeNumber c bs := by
  have := nativeNumber_lt c bs
  rw [h] at this
  unfold fromNeBytes nativeNumber at *
  split <;> simp_all only [if_true, fromBeBytes, fromLeBytes, BitVec.toNat_ofNat, ← leNumber_eq, leNumber_reverse]
  · exact Nat.mod_eq_of_lt this
  · exact Nat.mod_eq_of_lt this

/-- Integers: `as_uN` and `from_uN` are truncation or zero extension, `as_u8_slice` is the memory, and `from_u8_slice` in
the byte order of the target undoes it. -/
theorem C54_integer_conversions {w n : Nat} (hw : IntWidth w) (c : Cfg) (x : BitVec w) (v : BitVec n) :
    (∃ y, Bits.asUN c n x = .ok y ∧ y.toNat = x.toNat % 2 ^ n) ∧
    (∃ y, Bits.asU8 x = .ok y ∧ y.toNat = x.toNat % 2 ^ 8) ∧
    (Bits.fromUN c v : BitVec w).toNat = v.toNat % 2 ^ w ∧
    (Bits.asU8Slice c x).length = Bits.size x ∧ 8 * Bits.size x = w ∧ Bits.BITS (BitVec w) = w ∧
    nativeNumber c (Bits.asU8Slice c x) = x.toNat ∧
    (Bits.fromU8Slice c (Bits.asU8Slice c x) c.endianness : BitVec w) = x := by
  have hw8 := hw.mod8
  refine ⟨⟨_, rfl, BitVec.toNat_setWidth ..⟩, ⟨_, rfl, BitVec.toNat_setWidth ..⟩, BitVec.toNat_setWidth ..,
    bytesOf_length c x, show 8 * (w / 8) = w by omega, rfl, nativeNumber_bytesOf c hw8 x, ?_⟩
  apply BitVec.eq_of_toNat_eq
  obtain ⟨h1, h2⟩ := C42_from_u8_slice hw c (Bits.asU8Slice c x)
  have hl := bytesOf_length c x
  have hn := nativeNumber_bytesOf c hw8 x
  unfold Cfg.endianness
  unfold nativeNumber at hn
  change _ = leNumber ((bytesOf c x).take (w / 8)) at h1
  change _ = beNumber ((bytesOf c x ++ List.replicate (w / 8) 0#8).take (w / 8)) at h2
  rw [List.take_of_length_le (by omega)] at h1
  rw [List.take_append_of_le_length (by omega), List.take_of_length_le (by omega)] at h2
  split
  · rename_i hbe
    rw [if_pos hbe] at hn
    exact h2.trans hn
  · rename_i hbe
    rw [if_neg hbe] at hn
    exact h1.trans hn

example : Bits.asUN x64 8 0x1234#16 = .ok 0x34#8 ∧ (Bits.fromUN x64 0x1234#16 : BitVec 32) = 0x1234#32 ∧
    (Bits.fromU8Slice be64 (Bits.asU8Slice be64 0x1234#16) be64.endianness : BitVec 16) = 0x1234#16 :=
  ⟨rfl, rfl, (C54_integer_conversions (n := 8) (by decide) be64 0x1234#16 0#8).2.2.2.2.2.2.2⟩

/-- Byte vectors: `from_uN` is the memory of the number, `as_uN` undoes it, and `as_uN` panics on every other length. -/
theorem C54_vec_conversions {n : Nat} (hn : IntWidth n) (c : Cfg) (v : BitVec n) (bs : List (BitVec 8)) :
    (Bits.fromUN c v : List (BitVec 8)).length = n / 8 ∧ nativeNumber c (Bits.fromUN c v) = v.toNat ∧
    Bits.asUN c n (Bits.fromUN c v : List (BitVec 8)) = .ok v ∧
    (bs.length = n / 8 → ∃ y, Bits.asUN c n bs = .ok y ∧ y.toNat = nativeNumber c bs ∧ Bits.fromUN c y = bs) ∧
    (bs.length ≠ n / 8 → Bits.asUN c n bs = .error .unwrap) := by
  have h8 := hn.mod8
  have hv := nativeNumber_bytesOf c h8 v
  have hl := bytesOf_length c v
  have key : ∀ as : List (BitVec 8), as.length = n / 8 → ∃ y, Bits.asUN c n as = .ok y ∧ y.toNat = nativeNumber c as :=
    fun as h => ⟨_, if_pos h, fromNeBytes_toNat c (by omega)⟩
  refine ⟨hl, hv, ?_, fun h => ?_, fun h => if_neg h⟩
  · obtain ⟨y, h1, h2⟩ := key (bytesOf c v) hl
    change Bits.asUN c n (bytesOf c v) = _
    rw [h1, BitVec.eq_of_toNat_eq (h2.trans hv)]
  · obtain ⟨y, h1, h2⟩ := key bs h
    refine ⟨y, h1, h2, ?_⟩
    have e := (nativeNumber_bytesOf c h8 y).trans h2
    have hy := bytesOf_length c y
    change bytesOf c y = bs
    unfold nativeNumber at e
    split at e
    · rw [beNumber_eq, beNumber_eq] at e
      exact List.reverse_inj.mp (eq_of_leValue_eq (by rw [List.length_reverse, List.length_reverse]; omega) e)
    · rw [leNumber_eq, leNumber_eq] at e
      exact eq_of_leValue_eq (by omega) e

example (c : Cfg) : Bits.asUN c 32 (Bits.fromUN c 0x12345678#32 : List (BitVec 8)) = .ok 0x12345678#32 :=
  (C54_vec_conversions (by decide) c 0x12345678#32 []).2.2.1

example (c : Cfg) : Bits.asUN c 32 [0x12#8, 0x34#8] = .error .unwrap :=
  (C54_vec_conversions (n := 32) (by decide) c 0#32 _).2.2.2.2 (by decide)

/-- Byte vectors: `from_u8_slice` keeps the number when it changes the byte order to that of the target; `as_u8_slice`
and `size` are the bytes and their count; `as_u8` is the first byte and panics if there is none. -/
theorem C54_vec_from_u8_slice (c : Cfg) (bs : List (BitVec 8)) (e : Endianness) :
    (Bits.fromU8Slice c bs e : List (BitVec 8)).length = bs.length ∧
    nativeNumber c (Bits.fromU8Slice c bs e) = numberIn e bs ∧
    (Bits.fromU8Slice c (Bits.asU8Slice c bs) c.endianness : List (BitVec 8)) = bs ∧
    Bits.size bs = bs.length ∧ Bits.asU8Slice c bs = bs ∧
    (∀ b rest, bs = b :: rest → Bits.asU8 bs = .ok b) ∧ (bs = [] → Bits.asU8 bs = .error .indexOutOfBounds) := by
  refine ⟨?_, ?_, ?_, rfl, rfl, ?_, ?_⟩
  · change (vecFromU8Slice c bs e).length = _
    unfold vecFromU8Slice
    split
    · rfl
    · exact List.length_reverse
  · change nativeNumber c (vecFromU8Slice c bs e) = _
    unfold vecFromU8Slice nativeNumber numberIn
    obtain ⟨p, o, b⟩ := c
    cases b <;> cases e <;> simp [leNumber_reverse, beNumber_reverse]
  · change vecFromU8Slice c bs c.endianness = _
    obtain ⟨p, o, b⟩ := c
    cases b <;> simp [vecFromU8Slice, Cfg.endianness]
  · rintro b rest rfl
    rfl
  · rintro rfl
    rfl

example : (Bits.fromU8Slice x64 [0x12#8, 0x34#8] .BigEndian : List (BitVec 8)) = [0x34#8, 0x12#8] ∧
    nativeNumber x64 (Bits.fromU8Slice x64 [0x12#8, 0x34#8] .BigEndian) = 0x1234 :=
  ⟨by decide, (C54_vec_from_u8_slice x64 [0x12#8, 0x34#8] .BigEndian).2.1.trans (by decide)⟩

/-- Bytes written through `as_u8_slice_mut` are the bytes `as_u8_slice` shows afterwards. -/
theorem C54_write_bytes {w : Nat} (hw : IntWidth w) (c : Cfg) (x : BitVec w) (bs : List (BitVec 8))
    (write : List (BitVec 8) → List (BitVec 8)) :
    ((write (Bits.asU8Slice c x)).length = (Bits.asU8Slice c x).length →
      Bits.asU8Slice c (Bits.asU8SliceMut c x write) = write (Bits.asU8Slice c x)) ∧
    Bits.asU8Slice c (Bits.asU8SliceMut c bs write) = write (Bits.asU8Slice c bs) := by
  refine ⟨fun h => ?_, rfl⟩
  change (write (bytesOf c x)).length = (bytesOf c x).length at h
  rw [bytesOf_length] at h
  obtain ⟨y, h1, -, h3⟩ := (C54_vec_conversions hw c x (write (bytesOf c x))).2.2.2.1 h
  change vecAsUN c w _ = _ at h1
  unfold vecAsUN at h1
  rw [if_pos h] at h1
  cases h1
  exact h3

example (c : Cfg) : Bits.asU8Slice c (Bits.asU8SliceMut c 0x1234#16 (fun bs => bs.set 0 0xFF#8)) =
    (Bits.asU8Slice c 0x1234#16).set 0 0xFF#8 :=
  (C54_write_bytes (by decide) c 0x1234#16 [] _).1 List.length_set

example : Bits.asU8SliceMut ⟨64, true, false⟩ 0x1234#16 (fun bs => bs.set 0 0xFF#8) = 0x12FF#16 ∧
    Bits.asU8SliceMut ⟨64, true, true⟩ 0x1234#16 (fun bs => bs.set 0 0xFF#8) = 0xFF34#16 := by decide

example : Bits.asU8Slice ⟨64, true, true⟩ 0x1234#16 = [0x12#8, 0x34#8] ∧
    Bits.asU8Slice ⟨64, true, false⟩ 0x1234#16 = [0x34#8, 0x12#8] := by decide

end MortonRs
