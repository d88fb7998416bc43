import Verif.Lemmas.VecGet
import Verif.Lemmas.FromBytes
import Verif.Lemmas.Spread
import Verif.Model.Align

/-!
# Properties of the number helpers (`number.rs`, `align.rs`)

Bit ranges are stated with division and remainder of plain numbers; a byte vector stands for the number its bytes
denote, least significant byte first.
-/

namespace MortonRs

/-- The number whose base-256 digits are `bs`, least significant first. -/
def leNumber (bs : List (BitVec 8)) : Nat := bs.foldr (fun b n => b.toNat + 256 * n) 0

/-- The number whose base-256 digits are `bs`, most significant first. -/
def beNumber (bs : List (BitVec 8)) : Nat := bs.foldl (fun n b => 256 * n + b.toNat) 0

/-- Bits `s .. e` of a number, shifted down. -/
def bitsIn (s e x : Nat) : Nat := x / 2 ^ s % 2 ^ (e - s)

/-- `y` is `x` with the bits `s .. e` replaced by the low bits of `v`. -/
structure ReplacesBits (s e x v y : Nat) : Prop where
  below : y % 2 ^ s = x % 2 ^ s
  inside : bitsIn s e y = v % 2 ^ (e - s)
  above : y / 2 ^ e = x / 2 ^ e

theorem leNumber_eq (bs : List (BitVec 8)) : leNumber bs = leValue bs := by
  induction bs with
  | nil => rfl
  | cons b bs ih => simp only [leNumber, List.foldr_cons, leValue] at *; rw [ih]

theorem beNumber_eq (bs : List (BitVec 8)) : beNumber bs = leValue bs.reverse := by
  rw [← leNumber_eq, leNumber, List.foldr_reverse, beNumber]
  congr 1
  funext n b
  omega

theorem testBit_bitsIn (s e x i : Nat) : (bitsIn s e x).testBit i = (decide (i < e - s) && x.testBit (s + i)) := by
  rw [bitsIn, Nat.testBit_mod_two_pow, Nat.testBit_div_two_pow, Nat.add_comm]

theorem replacesBits_of_testBit {s e x v y : Nat} (hse : s ≤ e)
    (h : ∀ i, y.testBit i = if s ≤ i ∧ i < e then v.testBit (i - s) else x.testBit i) : ReplacesBits s e x v y := by
  constructor
  · apply Nat.eq_of_testBit_eq
    intro i
    rw [Nat.testBit_mod_two_pow, Nat.testBit_mod_two_pow, h]
    by_cases hi : i < s
    · rw [if_neg (by omega)]
    · rw [decide_eq_false hi, Bool.false_and, Bool.false_and]
  · apply Nat.eq_of_testBit_eq
    intro i
    rw [testBit_bitsIn, Nat.testBit_mod_two_pow, h]
    by_cases hi : i < e - s
    · rw [if_pos (by omega), Nat.add_sub_cancel_left]
    · rw [decide_eq_false hi, Bool.false_and, Bool.false_and]
  · apply Nat.eq_of_testBit_eq
    intro i
    rw [Nat.testBit_div_two_pow, Nat.testBit_div_two_pow, h, if_neg (by omega)]

theorem IntWidth.lt32 {w : Nat} (hw : IntWidth w) : w < 2 ^ 32 := by
  have := hw.le
  omega

theorem IntWidth.two_pow {w s : Nat} (hw : IntWidth w) (h : s ≤ w) : s < 2 ^ w ∧ s < 2 ^ 32 := by
  have h1 := hw.lt32
  exact ⟨Nat.lt_of_le_of_lt h Nat.lt_two_pow_self, by omega⟩

theorem toNat_eq_bitsIn {n : Nat} {s e x : Nat} {y : BitVec n}
    (h : ∀ i, y.getLsbD i = (decide (i < e - s) && x.testBit (s + i))) : y.toNat = bitsIn s e x := by
  apply Nat.eq_of_testBit_eq
  intro i
  rw [testBit_bitsIn, ← h i, BitVec.getLsbD]

/-! ## C35, C36: integers -/

/-- **C35**, reading: `get_bits` and `get_bits_as_usize` of every integer type return exactly the addressed bits, for
every range up to and including the full word, and never panic. -/
theorem C35_integer_get_bits {w : Nat} (hw : IntWidth w) (c : Cfg) (x : BitVec w) {s e : Nat} (hse : s ≤ e)
    (hew : e ≤ w) :
    (∃ y, Bits.getBits c x ⟨s, e⟩ = .ok y ∧ y.toNat = bitsIn s e x.toNat) ∧
    (e - s ≤ c.ptrBits → ∃ y, Bits.getBitsAsUsize c x ⟨s, e⟩ = .ok y ∧ y.toNat = bitsIn s e x.toNat) := by
  obtain ⟨h1, h2⟩ := hw.two_pow (show s ≤ w by omega)
  obtain ⟨y, e1, e2⟩ := intGetBits_ok (c := c) x s e hw.lt32 (by omega) h1 h2
  have e3 : y.toNat = bitsIn s e x.toNat := toNat_eq_bitsIn e2
  refine ⟨⟨y, e1, e3⟩, fun hp => ⟨y.setWidth c.ptrBits, ?_, ?_⟩⟩
  · change intGetBitsAsUsize c x ⟨s, e⟩ = _
    unfold intGetBitsAsUsize
    rw [e1]
    rfl
  · rw [BitVec.toNat_setWidth, e3]
    apply Nat.mod_eq_of_lt
    exact Nat.lt_of_lt_of_le (Nat.mod_lt _ (Nat.two_pow_pos _)) (Nat.pow_le_pow_right (by decide) hp)

example (c : Cfg) : ∃ y, Bits.getBits c 0xABCD#16 ⟨4, 12⟩ = .ok y ∧ y.toNat = 0xBC :=
  (C35_integer_get_bits (by decide) c 0xABCD#16 (s := 4) (e := 12) (by decide) (by decide)).1

theorem intSetBits_replaces {w : Nat} (hw : IntWidth w) (c : Cfg) (x : BitVec w) {s e : Nat} (hse : s ≤ e)
    (hsw : s < w) (hew : e ≤ w) (v : BitVec w) (hv : v.toNat < 2 ^ (e - s)) :
    ∃ y, intSetBits c x ⟨s, e⟩ v = .ok y ∧ ReplacesBits s e x.toNat v.toNat y.toNat := by
  obtain ⟨y, e1, e2⟩ := intSetBits_ok (c := c) x s e v hw.lt32 (by omega) hsw
  refine ⟨y, e1, replacesBits_of_testBit hse fun i => ?_⟩
  by_cases hi : i < w
  · change y.getLsbD i = _
    rw [e2 i hi]
    by_cases h1 : s ≤ i
    · by_cases h2 : i < e
      · rw [if_pos h1, if_pos (by omega), if_pos ⟨h1, h2⟩, BitVec.getLsbD]
      · rw [if_pos h1, if_neg (by omega), if_neg (by omega), BitVec.getLsbD, BitVec.getLsbD,
          Nat.testBit_lt_two_pow (Nat.lt_of_lt_of_le hv (Nat.pow_le_pow_right (by decide) (by omega))), Bool.or_false]
    · rw [if_neg h1, if_neg (by omega), BitVec.getLsbD]
  · rw [if_neg (by omega)]
    have := BitVec.getLsbD_of_ge y i (by omega)
    have := BitVec.getLsbD_of_ge x i (by omega)
    simp_all [BitVec.getLsbD]

/-- **C35**, writing: for a value that fits the range, `set_bits` and `set_bits_from_usize` replace exactly the bits of
the range, and reading the range again returns the value. -/
theorem C35_integer_set_bits {w : Nat} (hw : IntWidth w) (c : Cfg) (x : BitVec w) {s e : Nat} (hse : s ≤ e)
    (hsw : s < w) (hew : e ≤ w) :
    (∀ v : BitVec w, v.toNat < 2 ^ (e - s) →
      ∃ y, Bits.setBits c x ⟨s, e⟩ v = .ok y ∧ ReplacesBits s e x.toNat v.toNat y.toNat ∧
        Bits.getBits c y ⟨s, e⟩ = .ok v) ∧
    (∀ v : BitVec c.ptrBits, v.toNat < 2 ^ (e - s) →
      ∃ y, Bits.setBitsFromUsize c x ⟨s, e⟩ v = .ok y ∧ ReplacesBits s e x.toNat v.toNat y.toNat ∧
        Bits.getBitsAsUsize c y ⟨s, e⟩ = .ok v) := by
  constructor
  · intro v hv
    obtain ⟨y, e1, e2⟩ := intSetBits_replaces hw c x hse hsw hew v hv
    refine ⟨y, e1, e2, ?_⟩
    obtain ⟨z, f1, f2⟩ := (C35_integer_get_bits hw c y hse hew).1
    rw [f1]
    congr 1
    apply BitVec.eq_of_toNat_eq
    rw [f2, e2.inside, Nat.mod_eq_of_lt hv]
  · intro v hv
    have hw' : (v.setWidth w).toNat = v.toNat := by
      rw [BitVec.toNat_setWidth]
      exact Nat.mod_eq_of_lt (Nat.lt_of_lt_of_le hv (Nat.pow_le_pow_right (by decide) (by omega)))
    obtain ⟨y, e1, e2⟩ := intSetBits_replaces hw c x hse hsw hew (v.setWidth w) (by rw [hw']; exact hv)
    rw [hw'] at e2
    refine ⟨y, e1, e2, ?_⟩
    obtain ⟨z, f1, f2⟩ := (C35_integer_get_bits hw c y hse hew).1
    change intGetBitsAsUsize c y ⟨s, e⟩ = _
    unfold intGetBitsAsUsize
    rw [show intGetBits c y ⟨s, e⟩ = .ok z from f1]
    change Except.ok (z.setWidth c.ptrBits) = _
    congr 1
    apply BitVec.eq_of_toNat_eq
    rw [BitVec.toNat_setWidth, f2, e2.inside, Nat.mod_eq_of_lt hv, Nat.mod_eq_of_lt v.isLt]

example (c : Cfg) : ∃ y, Bits.setBits c 0b1010_1010#8 ⟨2, 5⟩ 0b101#8 = .ok y ∧
    ReplacesBits 2 5 0b1010_1010 0b101 y.toNat ∧ Bits.getBits c y ⟨2, 5⟩ = .ok 0b101#8 :=
  (C35_integer_set_bits (by decide) c 0b1010_1010#8 (s := 2) (e := 5) (by decide) (by decide) (by decide)).1 _ (by decide)

example (c : Cfg) : Bits.setBits c 0b1010_1010#8 ⟨2, 5⟩ 0b101#8 = .ok 0b1011_0110#8 := by
  obtain ⟨p, o, b⟩ := c
  cases o <;> rfl
example (c : Cfg) : Bits.getBits c 0xABCD#16 ⟨0, 16⟩ = .ok 0xABCD#16 := by
  obtain ⟨p, o, b⟩ := c
  cases o <;> rfl
example : IntWidth 16 ∧ (2 ≤ 5 ∧ 2 < 16 ∧ 5 ≤ 16) ∧ (0b101#16).toNat < 2 ^ (5 - 2) := by decide

/-- **C36**, what is true of it: whatever the value, the bits below the range are unchanged and the bits in the range are
the low bits of the value. The bits above the range are not protected: the excess bits of the value are or-ed into
them. (`C36_refuted`: so bits outside the range can change.) -/
theorem C36_set_bits_stays_in_range_partial {w : Nat} (hw : IntWidth w) (c : Cfg) (x : BitVec w) {s e : Nat}
    (hse : s ≤ e) (hsw : s < w) (hew : e ≤ w) (v : BitVec w) :
    ∃ y, Bits.setBits c x ⟨s, e⟩ v = .ok y ∧ y.toNat % 2 ^ s = x.toNat % 2 ^ s ∧
      bitsIn s e y.toNat = v.toNat % 2 ^ (e - s) ∧
      y.toNat / 2 ^ e = (x.toNat / 2 ^ e) ||| (bitsIn (e - s) (w - s) v.toNat) := by
  obtain ⟨y, e1, e2⟩ := intSetBits_ok (c := c) x s e v hw.lt32 (by omega) hsw
  have hb : ∀ i, y.toNat.testBit i = if i < w then (if s ≤ i then
      (if i < e then v.toNat.testBit (i - s) else (x.toNat.testBit i || v.toNat.testBit (i - s)))
      else x.toNat.testBit i) else false := by
    intro i
    by_cases hi : i < w
    · rw [if_pos hi]
      have := e2 i hi
      simp only [BitVec.getLsbD] at this
      rw [this]
      by_cases h1 : s ≤ i
      · rw [if_pos h1, if_pos h1]
        by_cases h2 : i < e
        · rw [if_pos (by omega), if_pos h2]
        · rw [if_neg (by omega), if_neg h2]
      · rw [if_neg h1, if_neg h1]
    · rw [if_neg hi]
      exact BitVec.getLsbD_of_ge y i (by omega)
  have hx : ∀ i, w ≤ i → x.toNat.testBit i = false := fun i hi => BitVec.getLsbD_of_ge x i hi
  refine ⟨y, e1, ?_, ?_, ?_⟩
  · apply Nat.eq_of_testBit_eq
    intro i
    rw [Nat.testBit_mod_two_pow, Nat.testBit_mod_two_pow, hb]
    by_cases hi : i < s
    · rw [if_pos (by omega), if_neg (by omega)]
    · rw [decide_eq_false hi, Bool.false_and, Bool.false_and]
  · apply Nat.eq_of_testBit_eq
    intro i
    rw [testBit_bitsIn, Nat.testBit_mod_two_pow, hb]
    by_cases hi : i < e - s
    · rw [if_pos (by omega), if_pos (by omega), if_pos (by omega), Nat.add_sub_cancel_left]
    · rw [decide_eq_false hi, Bool.false_and, Bool.false_and]
  · apply Nat.eq_of_testBit_eq
    intro i
    rw [Nat.testBit_div_two_pow, Nat.testBit_or, Nat.testBit_div_two_pow, testBit_bitsIn, hb]
    by_cases hi : i + e < w
    · rw [if_pos hi, if_pos (by omega), if_neg (by omega), decide_eq_true (by omega), Bool.true_and,
        show i + e - s = e - s + i by omega]
    · rw [if_neg hi, hx _ (by omega), decide_eq_false (by omega), Bool.false_and, Bool.or_false]

example (c : Cfg) : ∃ y, Bits.setBits c 0x00#8 ⟨2, 4⟩ 0b110#8 = .ok y ∧ bitsIn 2 4 y.toNat = 0b10 ∧
    y.toNat / 2 ^ 4 = 1 := by
  obtain ⟨y, h1, -, h2, h3⟩ :=
    C36_set_bits_stays_in_range_partial (by decide) c 0#8 (s := 2) (e := 4) (by decide) (by decide) (by decide) 0b110#8
  exact ⟨y, h1, h2, h3⟩

/-- **C36** is false on every target: `0u8.set_bits(0..1, 2)` sets bit 1, which is outside the range `0..1`. -/
theorem C36_refuted (c : Cfg) :
    ¬ ∀ (x v : BitVec 8) (s e : Nat), s ≤ e → s < 8 → e ≤ 8 →
      ∃ y, Bits.setBits c x ⟨s, e⟩ v = .ok y ∧ y.toNat / 2 ^ e = x.toNat / 2 ^ e := by
  intro h
  obtain ⟨y, e1, e2⟩ := h 0#8 2#8 0 1 (by decide) (by decide) (by decide)
  have : Bits.setBits c 0#8 ⟨0, 1⟩ 2#8 = .ok 2#8 := by
    obtain ⟨p, o, b⟩ := c
    cases o <;> rfl
  rw [this] at e1
  cases e1
  revert e2
  decide

/-! ## C37, C38: byte vectors -/

/-- **C37**, writing: on little-endian targets `set_bits` replaces exactly the addressed bits, whatever the excess bits of
the new value are, and keeps the length. -/
theorem C37_vec_set_bits {c : Cfg} (hle : c.bigEndian = false) (bs new : List (BitVec 8)) {s e : Nat} (hse : s ≤ e)
    (hstop : e ≤ 8 * bs.length) (hfit : e + 7 < 2 ^ c.ptrBits) (hnew : 0 < new.length) (hlen : e - s ≤ 8 * new.length) :
    ∃ bs', Bits.setBits c bs ⟨s, e⟩ new = .ok bs' ∧ bs'.length = bs.length ∧
      ReplacesBits s e (leNumber bs) (leNumber new) (leNumber bs') := by
  obtain ⟨bs', e1, e2, e3⟩ := setVecU8Bits_ok bs s e new hle hse hstop hfit hnew hlen
  refine ⟨bs', e1, e2, ?_⟩
  rw [leNumber_eq, leNumber_eq, leNumber_eq]
  exact replacesBits_of_testBit hse fun i => by simp only [testBit_leValue, e3]

example : ∃ bs', Bits.setBits ⟨64, true, false⟩ [0xFF#8, 0x00#8, 0xFF#8] ⟨5, 18⟩ [0x21#8, 0xE3#8] = .ok bs' ∧
    bs'.length = 3 ∧ ReplacesBits 5 18 0xFF00FF 0xE321 (leNumber bs') :=
  C37_vec_set_bits rfl [0xFF#8, 0x00#8, 0xFF#8] [0x21#8, 0xE3#8] (by decide) (by decide) (by decide) (by decide)
    (by decide)

/-- **C37**, writing a `usize`: on little-endian targets `set_bits_from_usize` replaces exactly the addressed bits. -/
theorem C37_vec_set_bits_from_usize {c : Cfg} (hc : c.Supported) (hle : c.bigEndian = false) (bs : List (BitVec 8))
    (new : BitVec c.ptrBits) {s e : Nat} (hse : s ≤ e) (hstop : e ≤ 8 * bs.length) (hfit : e + 7 < 2 ^ c.ptrBits)
    (hlen : e - s ≤ c.ptrBits) :
    ∃ bs', Bits.setBitsFromUsize c bs ⟨s, e⟩ new = .ok bs' ∧ bs'.length = bs.length ∧
      ReplacesBits s e (leNumber bs) new.toNat (leNumber bs') := by
  have hw8 : c.ptrBits % 8 = 0 ∧ 0 < c.ptrBits := by rcases hc with h | h | h <;> omega
  have hbytes : bytesOf c new = leBytes new := by simp [bytesOf, hle]
  have hl : (leBytes new).length = c.ptrBits / 8 := leBytes_length new
  obtain ⟨bs', e1, e2, e3⟩ := C37_vec_set_bits hle bs (leBytes new) hse hstop hfit (by omega) (by omega)
  refine ⟨bs', ?_, e2, ?_⟩
  · change setVecU8Bits c bs ⟨s, e⟩ (bytesOf c new) = _
    rw [hbytes]
    exact e1
  · rw [leNumber_eq (leBytes new), leValue_leBytes _ hw8.1] at e3
    exact e3

example : ∃ bs', Bits.setBitsFromUsize ⟨32, false, false⟩ [0xFF#8, 0x00#8, 0xFF#8] ⟨5, 18⟩ 0xE321#32 = .ok bs' ∧
    bs'.length = 3 ∧ ReplacesBits 5 18 0xFF00FF 0xE321 (leNumber bs') :=
  C37_vec_set_bits_from_usize (c := ⟨32, false, false⟩) (by decide) rfl [0xFF#8, 0x00#8, 0xFF#8] 0xE321#32 (by decide)
    (by decide) (by decide) (by decide)

/-- **C37**, reading: on every target `get_bits_as_usize` returns exactly the addressed bits of a range that fits a
`usize`. -/
theorem C37_vec_get_bits_as_usize {c : Cfg} (hc : c.Supported) (bs : List (BitVec 8)) {s e : Nat} (hse : s ≤ e)
    (hstop : e ≤ 8 * bs.length) (hfit : e + 7 < 2 ^ c.ptrBits) (hlen : e - s ≤ c.ptrBits) :
    ∃ y, Bits.getBitsAsUsize c bs ⟨s, e⟩ = .ok y ∧ y.toNat = bitsIn s e (leNumber bs) := by
  have hp : c.ptrBits < 2 ^ 32 ∧ 0 < c.ptrBits := by rcases hc with h | h | h <;> omega
  obtain ⟨y, e1, e2⟩ := vecGetBitsAsUsize_ok bs s e hp.1 hse hstop hfit hlen hp.2
  refine ⟨y, e1, toNat_eq_bitsIn fun i => ?_⟩
  rw [e2, leNumber_eq, testBit_leValue]

example : ∃ y, Bits.getBitsAsUsize ⟨32, false, true⟩ [0x3F#8, 0x64#8, 0xFC#8] ⟨5, 18⟩ = .ok y ∧ y.toNat = 0x0321 :=
  C37_vec_get_bits_as_usize (c := ⟨32, false, true⟩) (by decide) [0x3F#8, 0x64#8, 0xFC#8] (by decide) (by decide)
    (by decide) (by decide)

example : Bits.setBits ⟨64, true, false⟩ [0xFF#8, 0x00#8, 0xFF#8] ⟨5, 18⟩ [0x21#8, 0xE3#8] =
    .ok [0x3F#8, 0x64#8, 0xFC#8] := by decide +kernel
example : Bits.setBitsFromUsize ⟨64, true, false⟩ [0xFF#8, 0x00#8, 0xFF#8] ⟨5, 18⟩ 0xE321#64 =
    .ok [0x3F#8, 0x64#8, 0xFC#8] := by decide +kernel
example : Bits.getBitsAsUsize ⟨64, true, false⟩ [0x3F#8, 0x64#8, 0xFC#8] ⟨5, 18⟩ = .ok 0x0321#64 := by decide +kernel

/-- **C38**, what is true of it: the length is always right, and the bits are exactly the addressed ones, zero-padded,
except when the range ends inside a byte at a lower bit position than it starts at. In that case the bits that follow
the range leak into the unused high bits of the last byte. (`C38_refuted` is a witness.) -/
theorem C38_vec_get_bits_partial {c : Cfg} (bs : List (BitVec 8)) {s e : Nat} (hse : s ≤ e) (hstop : e ≤ 8 * bs.length)
    (hfit : e + 7 < 2 ^ c.ptrBits) :
    ∃ r, Bits.getBits c bs ⟨s, e⟩ = .ok r ∧ r.length = (e - s + 7) / 8 ∧
      (¬ (0 < e % 8 ∧ e % 8 < s % 8) → leNumber r = bitsIn s e (leNumber bs)) ∧
      (0 < e % 8 ∧ e % 8 < s % 8 → leNumber r = bitsIn s (s + 8 * ((e - s + 7) / 8)) (leNumber bs)) := by
  obtain ⟨r, e1, e2, e3⟩ := vecGetBits_ok bs s e hse hstop hfit
  refine ⟨r, e1, e2, fun h => ?_, fun h => ?_⟩
  · apply Nat.eq_of_testBit_eq
    intro i
    rw [testBit_bitsIn, leNumber_eq, leNumber_eq, testBit_leValue, testBit_leValue]
    by_cases hi : i < 8 * r.length
    · rw [e3 i hi]
      congr 1
      apply decide_eq_decide.mpr
      omega
    · rw [bitOf_of_ge (by omega), decide_eq_false (by omega), Bool.false_and]
  · apply Nat.eq_of_testBit_eq
    intro i
    rw [testBit_bitsIn, leNumber_eq, leNumber_eq, testBit_leValue, testBit_leValue]
    by_cases hi : i < 8 * r.length
    · rw [e3 i hi, decide_eq_true (Or.inr h), decide_eq_true (by omega)]
    · rw [bitOf_of_ge (by omega), decide_eq_false (by omega), Bool.false_and]

example : ∃ r, Bits.getBits ⟨64, true, false⟩ [0x3F#8, 0x64#8, 0xFC#8] ⟨3, 22⟩ = .ok r ∧ leNumber r = 0x78C87 := by
  obtain ⟨r, h1, -, h2, -⟩ := C38_vec_get_bits_partial (c := ⟨64, true, false⟩) [0x3F#8, 0x64#8, 0xFC#8] (s := 3)
    (e := 22) (by decide) (by decide) (by decide)
  exact ⟨r, h1, h2 (by decide)⟩

/-- **C38** is false: bits `4..9` of `[0xF0, 0xFF]` are `0x1F`, but `get_bits` returns `0xFF`. -/
theorem C38_refuted :
    ¬ ∀ (bs : List (BitVec 8)) (s e : Nat), s ≤ e → e ≤ 8 * bs.length → e + 7 < 2 ^ 64 →
      ∃ r, Bits.getBits ⟨64, true, false⟩ bs ⟨s, e⟩ = .ok r ∧ leNumber r = bitsIn s e (leNumber bs) := by
  intro h
  obtain ⟨r, e1, e2⟩ := h [0xF0#8, 0xFF#8] 4 9 (by decide) (by decide) (by decide)
  have : Bits.getBits ⟨64, true, false⟩ [0xF0#8, 0xFF#8] ⟨4, 9⟩ = .ok [0xFF#8] := by decide +kernel
  rw [this] at e1
  cases e1
  revert e2
  decide

example : Bits.getBits ⟨64, true, false⟩ [0x3F#8, 0x64#8, 0xFC#8] ⟨3, 22⟩ = .ok [0x87#8, 0x8C#8, 0x07#8] ∧
    ¬ (0 < 22 % 8 ∧ 22 % 8 < 3 % 8) := by decide +kernel

/-! ## C39: spreading bits -/

/-- **C39** for the helpers of the 2D index: within the documented number of input bits, input bit `i` goes to bit `2i`
(`2i + 1` for the `behind` variant), all other bits are zero. Missing: the documentation says that higher input bits are
ignored, which is false (`C39_refuted`). -/
theorem C39_spread_by_two_partial :
    (∀ v : BitVec 8, v.toNat < 16 → ∀ i, i < 8 →
      (addZeroBeforeEveryBitU8 v).toNat.testBit i = (decide (i % 2 = 0) && v.toNat.testBit (i / 2))) ∧
    (∀ v : BitVec 8, v.toNat < 16 → ∀ i, i < 8 →
      (addZeroBehindEveryBitU8 v).toNat.testBit i = (decide (i % 2 = 1) && v.toNat.testBit (i / 2))) ∧
    (∀ v : BitVec 16, v.toNat < 256 → ∀ i, i < 16 →
      (addZeroBeforeEveryBitU16 v).toNat.testBit i = (decide (i % 2 = 0) && v.toNat.testBit (i / 2))) :=
  ⟨fun v hv i hi => before_u8_bit v hv i hi, fun v hv i hi => behind_u8_bit v hv i hi,
    fun v hv i hi => before_u16_bit v hv i hi⟩

example : (addZeroBeforeEveryBitU8 0b1101#8).toNat.testBit 4 = true ∧
    (addZeroBehindEveryBitU8 0b1101#8).toNat.testBit 4 = false :=
  ⟨C39_spread_by_two_partial.1 0b1101#8 (by decide) 4 (by decide),
    C39_spread_by_two_partial.2.1 0b1101#8 (by decide) 4 (by decide)⟩

/-- **C39** for the helpers of the 3D index: input bit `i` goes to bit `3i`, all other bits are zero; the 32-bit variant
ignores the input bits above the lowest 21, as documented. -/
theorem C39_spread_by_three :
    (∀ (v : BitVec 8) i, i < 32 →
      (addTwoZeroesBeforeEveryBitU8 v).toNat.testBit i = (decide (i % 3 = 0) && v.toNat.testBit (i / 3))) ∧
    (∀ (v : BitVec 32) i, i < 64 →
      (addTwoZeroesBeforeEveryBitU32 v).toNat.testBit i =
        (decide (i % 3 = 0) && (v.toNat % 2 ^ 21).testBit (i / 3))) := by
  refine ⟨fun v i hi => two_u8_bit v i hi, fun v i hi => ?_⟩
  rw [Nat.testBit_mod_two_pow]
  exact two_u32_bit v i hi

example : (addTwoZeroesBeforeEveryBitU32 0xFFF00001#32).toNat.testBit 60 = true ∧
    (addTwoZeroesBeforeEveryBitU32 0xFFF00001#32).toNat.testBit 63 = false :=
  ⟨C39_spread_by_three.2 0xFFF00001#32 60 (by decide), C39_spread_by_three.2 0xFFF00001#32 63 (by decide)⟩

/-- **C39**, the exact result for every input: input bits 4 and 5 (8 to 11 for the 16-bit helper) are added to the place
of the bits 2 (4) below them, the bits above are ignored. -/
theorem C39_exact_by_two :
    (∀ v : BitVec 8, ∀ i, i < 8 → (addZeroBeforeEveryBitU8 v).toNat.testBit i =
      (decide (i % 2 = 0) && (v.toNat.testBit (i / 2) || (decide (2 ≤ i / 2) && v.toNat.testBit (i / 2 + 2))))) ∧
    (∀ v : BitVec 8, ∀ i, i < 8 → (addZeroBehindEveryBitU8 v).toNat.testBit i =
      (decide (i % 2 = 1) && (v.toNat.testBit (i / 2) || (decide (2 ≤ i / 2) && v.toNat.testBit (i / 2 + 2))))) ∧
    (∀ v : BitVec 16, ∀ i, i < 16 → (addZeroBeforeEveryBitU16 v).toNat.testBit i =
      (decide (i % 2 = 0) && (v.toNat.testBit (i / 2) || (decide (4 ≤ i / 2) && v.toNat.testBit (i / 2 + 4))))) :=
  ⟨fun v i hi => before_u8_all v i hi, fun v i hi => behind_u8_all v i hi, fun v i hi => before_u16_all v i hi⟩

example : (addZeroBeforeEveryBitU8 0b10_0000#8).toNat.testBit 6 = true := C39_exact_by_two.1 _ 6 (by decide)

example : addZeroBeforeEveryBitU8 0b11_10_0001#8 = 0b01_00_00_01#8 ∧
    addZeroBehindEveryBitU8 0b0001_0001#8 = 0b00_10_00_10#8 ∧
    addZeroBeforeEveryBitU16 0xF300#16 = 0b00_00_01_01_00_00_00_00#16 := by decide

/-- **C39** is false for inputs above the documented number of bits, which the documentation says are cut off: bit 4 of
the input of the 8-bit helpers and bit 8 of the input of the 16-bit helper show up in the result. -/
theorem C39_refuted :
    addZeroBeforeEveryBitU8 0x10#8 ≠ addZeroBeforeEveryBitU8 0x00#8 ∧
    addZeroBehindEveryBitU8 0x10#8 ≠ addZeroBehindEveryBitU8 0x00#8 ∧
    addZeroBeforeEveryBitU16 0x100#16 ≠ addZeroBeforeEveryBitU16 0x000#16 := by decide

example : addZeroBeforeEveryBitU8 0b1101#8 = 0b01010001#8 ∧ addZeroBehindEveryBitU8 0b1101#8 = 0b10100010#8 ∧
    addZeroBeforeEveryBitU16 0b11010011#16 = 0b0101000100000101#16 := by decide
example : addTwoZeroesBeforeEveryBitU8 0b01101101#8 = 0b000001001000001001000001#32 ∧
    addTwoZeroesBeforeEveryBitU32 0xFFF00001#32 = 0x1000000000000001#64 := by decide

/-! ## C40: rounding up -/

/-- `r` is the least multiple of `a` that is at least `x`. -/
def IsRoundedUp (x a r : Nat) : Prop := x ≤ r ∧ r % a = 0 ∧ ∀ k, k % a = 0 → x ≤ k → r ≤ k

theorem isRoundedUp_div {x a : Nat} (ha : 0 < a) : IsRoundedUp x a ((x + a - 1) / a * a) := by
  have h1 := Nat.div_add_mod (x + a - 1) a
  have h2 := Nat.mod_lt (x + a - 1) ha
  rw [Nat.mul_comm] at h1
  refine ⟨by omega, Nat.mul_mod_left _ _, fun k hk hx => ?_⟩
  obtain ⟨q, rfl⟩ := Nat.dvd_of_mod_eq_zero hk
  rw [Nat.mul_comm]
  apply Nat.mul_le_mul_left
  apply Nat.le_of_lt_succ
  rw [Nat.div_lt_iff_lt_mul ha, Nat.succ_mul, Nat.mul_comm]
  omega

/-- **C40**, what is true of it: `align_to` rounds up to the next multiple if the intermediate sum `x + a` (with overflow
checks) or `x + a - 1` (without) is representable, and `align_to(0)` is the identity. Outside that domain, even if the
rounded value is representable, the call panics with overflow checks and returns a number below `x` without. -/
theorem C40_align_to_partial {w : Nat} (hw : 0 < w) (c : Cfg) (x a : BitVec w) :
    alignTo c x 0#w = .ok x ∧
    (0 < a.toNat → x.toNat + a.toNat - (if c.overflowChecks then 0 else 1) < 2 ^ w →
      ∃ r, alignTo c x a = .ok r ∧ IsRoundedUp x.toNat a.toNat r.toNat) ∧
    (0 < a.toNat → 2 ^ w ≤ x.toNat + a.toNat → c.overflowChecks = true → alignTo c x a = .error .overflow) ∧
    (0 < a.toNat → 2 ^ w ≤ x.toNat + a.toNat - 1 → c.overflowChecks = false →
      ∃ r, alignTo c x a = .ok r ∧ r.toNat < x.toNat) := by
  have hx := x.isLt
  have ha' := a.isLt
  have h1w : (1#w).toNat = 1 := by
    rw [BitVec.toNat_ofNat]
    exact Nat.mod_eq_of_lt (Nat.one_lt_two_pow (by omega))
  have hne : 0 < a.toNat → a ≠ 0#w := by
    intro h he
    rw [he] at h
    simp at h
  -- the last step, once the sum is known
  have last : ∀ s : BitVec w, s.toNat = (x.toNat + a.toNat - 1) % 2 ^ w → 0 < a.toNat →
      mulN c (s / a) a = .ok (s / a * a) ∧ (s / a * a).toNat = (x.toNat + a.toNat - 1) % 2 ^ w / a.toNat * a.toNat := by
    intro s hs ha
    have hlt : (s / a).toNat * a.toNat < 2 ^ w := by
      rw [BitVec.toNat_udiv]
      exact Nat.lt_of_le_of_lt (Nat.div_mul_le_self _ _) s.isLt
    refine ⟨by rw [mulN, if_pos hlt], ?_⟩
    rw [BitVec.toNat_mul, Nat.mod_eq_of_lt hlt, BitVec.toNat_udiv, hs]
  have mid : ∀ t : BitVec w, t = x + a → (t.toNat = 0 → c.overflowChecks = false) → 0 < a.toNat →
      ∃ s : BitVec w, subN c t 1#w = .ok s ∧ s.toNat = (x.toNat + a.toNat - 1) % 2 ^ w := by
    intro t ht hz ha
    refine ⟨t - 1#w, ?_, ?_⟩
    · unfold subN
      rw [h1w]
      by_cases h : 1 ≤ t.toNat
      · rw [if_pos h]
      · rw [if_neg h, hz (by omega)]
        rfl
    · rw [BitVec.toNat_sub, h1w, ht, BitVec.toNat_add]
      rw [Nat.add_mod_mod, show 2 ^ w - 1 + (x.toNat + a.toNat) = x.toNat + a.toNat - 1 + 2 ^ w by
        have := Nat.two_pow_pos w; omega, Nat.add_mod_right]
  refine ⟨by simp [alignTo], fun ha hfit => ?_, fun ha hov hc => ?_, fun ha hov hc => ?_⟩
  · unfold alignTo
    rw [if_neg (hne ha)]
    have hsum : addN c x a = .ok (x + a) := by
      unfold addN
      by_cases h : x.toNat + a.toNat < 2 ^ w
      · rw [if_pos h]
      · rw [if_neg h]
        cases hc : c.overflowChecks
        · rfl
        · rw [hc] at hfit; simp at hfit; omega
    have hz : (x + a).toNat = 0 → c.overflowChecks = false := by
      intro h
      cases hc : c.overflowChecks
      · rfl
      · rw [hc] at hfit
        simp only [if_true, Nat.sub_zero] at hfit
        rw [BitVec.toNat_add, Nat.mod_eq_of_lt hfit] at h
        omega
    obtain ⟨s, e1, e2⟩ := mid _ rfl hz ha
    obtain ⟨f1, f2⟩ := last s e2 ha
    refine ⟨s / a * a, ?_, ?_⟩
    · rw [hsum]
      simp only [ok_bind]
      rw [e1]
      simp only [ok_bind]
      exact f1
    · rw [f2, Nat.mod_eq_of_lt (by split at hfit <;> omega)]
      exact isRoundedUp_div ha
  · unfold alignTo
    rw [if_neg (hne ha), addN, if_neg (by omega), hc]
    rfl
  · unfold alignTo
    have hsum : addN c x a = .ok (x + a) := by
      unfold addN
      rw [hc]
      split <;> rfl
    obtain ⟨s, e1, e2⟩ := mid _ rfl (fun _ => hc) ha
    obtain ⟨f1, f2⟩ := last s e2 ha
    refine ⟨s / a * a, ?_, ?_⟩
    · rw [if_neg (hne ha), hsum]
      simp only [ok_bind]
      rw [e1]
      simp only [ok_bind]
      exact f1
    · rw [f2, Nat.mod_eq_sub_mod hov, Nat.mod_eq_of_lt (by omega)]
      exact Nat.lt_of_le_of_lt (Nat.div_mul_le_self _ _) (by omega)

example : (∃ r, alignTo ⟨64, true, false⟩ 13#8 8#8 = .ok r ∧ IsRoundedUp 13 8 r.toNat) ∧
    alignTo ⟨64, true, false⟩ 250#8 8#8 = .error .overflow :=
  ⟨(C40_align_to_partial (by decide) ⟨64, true, false⟩ 13#8 8#8).2.1 (by decide) (by decide),
    (C40_align_to_partial (by decide) ⟨64, true, false⟩ 250#8 8#8).2.2.1 (by decide) (by decide) rfl⟩

/-- **C40** is false: 255 is a multiple of 1, yet `255u8.align_to(1)` panics with overflow checks; 252 is a multiple
of 126, yet `251u8.align_to(126)` is 0 without overflow checks. -/
theorem C40_refuted :
    (alignTo ⟨64, true, false⟩ 255#8 1#8 = .error .overflow ∧ IsRoundedUp 255 1 255) ∧
    (alignTo ⟨64, false, false⟩ 251#8 126#8 = .ok 0#8 ∧ IsRoundedUp 251 126 252) := by
  refine ⟨⟨by decide, by omega, by omega, fun k _ h => h⟩, by decide, by omega, by omega, fun k h1 h2 => by omega⟩

example : alignTo ⟨64, true, false⟩ 13#8 8#8 = .ok 16#8 ∧ 13 + 8 - 0 < 2 ^ 8 := by decide

/-! ## C42: integers from bytes -/

/-- **C42**: `from_u8_slice` of every integer type reads as many leading bytes as the type has, missing bytes being zero,
in the requested byte order. -/
theorem C42_from_u8_slice {w : Nat} (hw : IntWidth w) (c : Cfg) (bs : List (BitVec 8)) :
    (Bits.fromU8Slice c bs .LittleEndian : BitVec w).toNat = leNumber (bs.take (w / 8)) ∧
    (Bits.fromU8Slice c bs .BigEndian : BitVec w).toNat =
      beNumber ((bs ++ List.replicate (w / 8) 0#8).take (w / 8)) := by
  have hw8 := hw.mod8
  constructor
  · apply Nat.eq_of_testBit_eq
    intro i
    rw [leNumber_eq, testBit_leValue, bitOf_take_all, ← BitVec.getLsbD, fromU8Slice_le hw,
      show 8 * (w / 8) = w by omega]
  · have hl : ((bs ++ List.replicate (w / 8) 0#8).take (w / 8)).length = w / 8 := by simp
    apply Nat.eq_of_testBit_eq
    intro i
    rw [beNumber_eq, testBit_leValue, ← BitVec.getLsbD, fromU8Slice_be hw]
    by_cases hi : i < w
    · rw [bitOf_reverse _ _ (by omega), hl, bitOf_take_all, bitOf_append_zeros, decide_eq_true hi,
        decide_eq_true (by omega)]
    · rw [decide_eq_false hi, Bool.false_and, bitOf_of_ge (by rw [List.length_reverse, hl]; omega)]

example (c : Cfg) : (Bits.fromU8Slice c [0x12#8, 0x34#8, 0x56#8] .BigEndian : BitVec 32).toNat = 0x12345600 :=
  (C42_from_u8_slice (by decide) c [0x12#8, 0x34#8, 0x56#8]).2

example (c : Cfg) : (Bits.fromU8Slice c [0x12#8, 0x34#8, 0x56#8] .LittleEndian : BitVec 32) = 0x563412#32 ∧
    (Bits.fromU8Slice c [0x12#8, 0x34#8, 0x56#8] .BigEndian : BitVec 32) = 0x12345600#32 ∧
    (Bits.fromU8Slice c [0x12#8, 0x34#8, 0x56#8] .BigEndian : BitVec 16) = 0x1234#16 := by
  refine ⟨?_, ?_, ?_⟩ <;> rfl

end MortonRs
