import Verif.Props.OtherDimensions
import Verif.Props.OutOfRange

/-! # C86: the integer storage types on byte vectors, in any dimension

The fixed-depth and static storage types accept every container, so also a byte vector. They move a cell through one byte:
`as_u8` of what `get_bits` returns, and a new value of one byte for `set_bits`. -/

namespace MortonRs

/-- Where the second byte of a cell that starts at bit `s` begins for `set_bits`: at the first byte boundary of the container
that lies at least eight bits behind `s`. -/
def secondByte (s : Nat) : Nat := if s % 8 = 0 then 8 else 16 - s % 8

section generic
variable {c : Cfg}

theorem bytesOf_byte (c : Cfg) (n : Nat) : bytesOf c (BitVec.ofNat 8 n) = [BitVec.ofNat 8 n] := by
  unfold bytesOf
  have : leBytes (BitVec.ofNat 8 n) = [BitVec.ofNat 8 n] := by
    apply List.ext_getElem
    · rw [leBytes_length]; rfl
    · intro i hi1 hi2
      have : i = 0 := by simpa using hi2
      subst this
      simp [leBytes]
  split <;> rw [this] <;> rfl

/-- The chunk of a one-byte value that starts in it: the bits behind the byte are zeros. -/
theorem combinedByte_one (n us k : Nat) (hk : k ≤ 8) (hus : us < 8) (hfit : us + k < 2 ^ c.ptrBits) :
    ∃ byte, combinedByte c [BitVec.ofNat 8 n] us k = .ok byte ∧
      ∀ j, byte.getLsbD j = (decide (j < k) && (n % 256).testBit (us + j)) := by
  have b2 : us / 8 = 0 := by omega
  have b3 : us % 8 = us := by omega
  obtain ⟨y, f1, f2⟩ := intGetBits_ok (c := c) (BitVec.ofNat 8 n) us (us + k) (by decide) (by omega) (by omega) (by omega)
  refine ⟨y, ?_, fun j => ?_⟩
  · unfold combinedByte
    simp only [uadd_ok hfit, ok_bind, List.length_singleton, usub_ok (Nat.le_refl 1), b2, b3, Nat.sub_self, if_true]
    exact f1
  · rw [f2, Nat.add_sub_cancel_left, BitVec.getLsbD_ofNat, show 256 = 2 ^ 8 from rfl, Nat.testBit_mod_two_pow]

/-- The chunk of a one-byte value that starts behind it: two bytes are read from outside the value. -/
theorem combinedByte_behind (b : BitVec 8) (us k : Nat) (hus : 8 ≤ us) (hfit : us + k < 2 ^ c.ptrBits) :
    combinedByte c [b] us k = .error .undefinedBehaviour := by
  have b2 : ¬ us / 8 = 0 := by omega
  have b3 : [b][us / 8]? = none := List.getElem?_eq_none (by simp; omega)
  unfold combinedByte
  simp only [uadd_ok hfit, ok_bind, List.length_singleton, usub_ok (Nat.le_refl 1), Nat.sub_self, b2, if_false, readU16, b3]
  rfl

/-- Writing a one-byte value to a range that ends before its second byte would begin. -/
theorem setOneByte_ok (x : List (BitVec 8)) (s e n : Nat) (hle : s ≤ e) (hstop : e ≤ 8 * x.length)
    (hfit : e + 7 < 2 ^ c.ptrBits) (hsec : e ≤ s + secondByte s) :
    ∃ y, setVecU8Bits c x ⟨s, e⟩ [BitVec.ofNat 8 n] = .ok y ∧ y.length = x.length ∧
      ∀ i, bitOf y i = if s ≤ i ∧ i < e then (n % 256).testBit (i - s) else bitOf x i := by
  refine setVecU8Bits_chunks x s e _ (fun j => (n % 256).testBit j) hle hstop hfit fun us k g1 g2 g3 g4 => ?_
  refine combinedByte_one n us k g1 ?_ (by omega)
  unfold secondByte at hsec
  split at hsec <;> omega

/-- Writing a one-byte value to a longer range reads behind the value. -/
theorem setOneByte_faults (x : List (BitVec 8)) (s e n : Nat) (hstop : e ≤ 8 * x.length)
    (hfit : e + 7 < 2 ^ c.ptrBits) (hsec : s + secondByte s < e) :
    setVecU8Bits c x ⟨s, e⟩ [BitVec.ofNat 8 n] = .error .undefinedBehaviour := by
  have hsb : 8 ≤ secondByte s ∧ secondByte s < 16 ∧ (s + secondByte s) % 8 = 0 ∧
      (0 < s % 8 → secondByte s + s % 8 = 16) ∧ (s % 8 = 0 → secondByte s = 8) := by
    unfold secondByte; split <;> omega
  unfold setVecU8Bits
  rw [uadd_ok hfit]
  simp only [ok_bind]
  let P : Nat → List (BitVec 8) × Nat × Nat → Prop := fun k st =>
    st.2.1 = max s (8 * k) ∧ st.2.2 = st.2.1 - s ∧ st.1.length = x.length
  rw [forRange_faults P (k := (s + secondByte s) / 8) (f := .undefinedBehaviour) (by omega) (by omega)
    ⟨by simp; omega, by simp, rfl⟩ ?_ ?_]
  · rfl
  · rintro idx ⟨vec, cs, us⟩ hi1 hi2 ⟨h1, h2, h3⟩
    simp only at h1 h2 h3
    have a0 : min ((idx + 1) * 8) e = (idx + 1) * 8 := by omega
    have a1 : idx + 1 < 2 ^ c.ptrBits := by omega
    have a2 : (idx + 1) * 8 < 2 ^ c.ptrBits := by omega
    have a3 : cs ≤ (idx + 1) * 8 := by omega
    have a4 : idx < vec.length := by omega
    have a6 : us + ((idx + 1) * 8 - cs) < 2 ^ c.ptrBits := by omega
    have a11 : idx * 8 < 2 ^ c.ptrBits := by omega
    have a12 : idx * 8 ≤ cs := by omega
    have a13 : idx * 8 ≤ (idx + 1) * 8 := by omega
    obtain ⟨byte, hb1, -⟩ := combinedByte_one (c := c) n us ((idx + 1) * 8 - cs) (by omega) (by omega) a6
    obtain ⟨nb, hn1, -⟩ := intSetBits_ok (c := c) vec[idx] (cs - idx * 8) ((idx + 1) * 8 - idx * 8) byte
      (by decide) (by omega) (by omega)
    refine ⟨(vec.set idx nb, (idx + 1) * 8, us + ((idx + 1) * 8 - cs)), ?_, ?_⟩
    · simp only [uadd_ok a1, umul_ok a2, ok_bind, a0, usub_ok a3, uadd_ok a6, hb1,
        index_ok a4, umul_ok a11, usub_ok a12, usub_ok a13, hn1, pure_eq_ok]
    · exact ⟨by simp only; omega, by simp only; omega, by simpa using h3⟩
  · rintro ⟨vec, cs, us⟩ ⟨h1, h2, h3⟩
    simp only at h1 h2 h3
    generalize hk : (s + secondByte s) / 8 = idx at *
    have a1 : idx + 1 < 2 ^ c.ptrBits := by omega
    have a2 : (idx + 1) * 8 < 2 ^ c.ptrBits := by omega
    have a3 : cs ≤ min ((idx + 1) * 8) e := by omega
    simp only [uadd_ok a1, umul_ok a2, ok_bind, usub_ok a3]
    rw [combinedByte_behind _ _ _ (by omega) (by omega)]
    rfl

end generic

section theorems
variable {c : Cfg} {Cell : Type} [Dimension Cell]

local notation "D" => Dimension.DIMENSIONALITY Cell

/-- C86. Reading a cell from a byte vector: the cell consists of the lowest eight bits of the level, and where `get_bits` leaks
(C38) also of the bits that follow the level; `try_from` may then refuse it, which panics. -/
theorem C86_vectors_reads (hc : c.Supported) (h : DimensionContract Cell) {B l s : Nat} (x : List (BitVec 8))
    (h1 : Addressable c (8 * x.length)) (hB : B ≤ 8 * x.length) (hl : (l + 1) * D ≤ B) (hs : s = B - (l + 1) * D) :
    (FixedDepthStorage.getCellAtLevelUnchecked c B x l : Res Cell) = unwrapResult (Dimension.tryFromUsize
      (if 0 < (s + D) % 8 ∧ (s + D) % 8 < s % 8 then bitsIn s (s + 8) (leNumber x)
       else bitsIn s (s + D) (leNumber x) % 256)) ∧
    (StaticStorage.getCellAtLevelUnchecked c B x l : Res Cell) = FixedDepthStorage.getCellAtLevelUnchecked c B x l := by
  refine ⟨?_, rfl⟩
  unfold Addressable at h1
  have hp := hc.le
  have hD := h.pos
  have hDl : D ≤ (l + 1) * D := Nat.le_mul_of_pos_left _ (by omega)
  obtain ⟨r, e1, e2, e3, e4⟩ := C38_vec_get_bits_partial (c := c) x (s := s) (e := s + D) (by omega) (by omega) (by omega)
  cases r with
  | nil => simp at e2; omega
  | cons b t =>
    have hb : leNumber (b :: t) % 256 = b.toNat := by
      have := b.isLt
      simp only [leNumber, List.foldr_cons]
      omega
    rw [anyTypeGet h x hl (by omega), ← hs, e1]
    change unwrapResult (Dimension.tryFromUsize b.toNat) = _
    congr 2
    rw [← hb]
    split
    · next hh =>
      rw [e4 hh]
      apply Nat.eq_of_testBit_eq
      intro i
      rw [show 256 = 2 ^ 8 from rfl, Nat.testBit_mod_two_pow, testBit_bitsIn, testBit_bitsIn]
      by_cases hi : i < 8
      · rw [decide_eq_true hi, Bool.true_and, decide_eq_true (by omega), decide_eq_true (by omega)]
      · rw [decide_eq_false hi, decide_eq_false (show ¬ i < s + 8 - s by omega), Bool.false_and, Bool.false_and]
    · next hh => rw [e3 hh]

/-- C86. Writing a cell to a byte vector: up to eight dimensions the bits of the level are replaced by those of the cell;
beyond, the lowest eight bits of the cell are written with zeros above them if the level ends before the second byte of the new
value would be needed, and otherwise `set_bits` reads memory behind the new value. -/
theorem C86_vectors_writes (hc : c.Supported) (h : DimensionContract Cell) {B l s : Nat} (x : List (BitVec 8))
    (h1 : Addressable c (8 * x.length)) (hB : B ≤ 8 * x.length) (hl : (l + 1) * D ≤ B) (hs : s = B - (l + 1) * D) (v : Cell) :
    (D ≤ secondByte s → ∃ y, FixedDepthStorage.setCellAtLevelUnchecked c B x l v = .ok y ∧ y.length = x.length ∧
      ReplacesBits s (s + D) (leNumber x) (Dimension.toUsize v % 256) (leNumber y)) ∧
    (secondByte s < D → FixedDepthStorage.setCellAtLevelUnchecked c B x l v = .error .undefinedBehaviour) ∧
    StaticStorage.setCellAtLevelUnchecked c B x l v = FixedDepthStorage.setCellAtLevelUnchecked c B x l v := by
  unfold Addressable at h1
  have hp := hc.le
  have hD := h.pos
  have hDl : D ≤ (l + 1) * D := Nat.le_mul_of_pos_left _ (by omega)
  have e0 : FixedDepthStorage.setCellAtLevelUnchecked c B x l v =
      setVecU8Bits c x ⟨s, s + D⟩ [BitVec.ofNat 8 (Dimension.toUsize v)] := by
    rw [anyTypeSet h x v hl (by omega), ← hs]
    change setVecU8Bits c x _ (bytesOf c (BitVec.ofNat 8 (Dimension.toUsize v))) = _
    rw [bytesOf_byte]
  refine ⟨fun hsec => ?_, fun hsec => ?_, rfl⟩
  · obtain ⟨y, e1, e2, e3⟩ := setOneByte_ok (c := c) x s (s + D) (Dimension.toUsize v) (by omega) (by omega) (by omega)
      (by omega)
    refine ⟨y, by rw [e0, e1], e2, ?_⟩
    rw [leNumber_eq, leNumber_eq]
    refine replacesBits_of_testBit (by omega) fun i => ?_
    rw [testBit_leValue, testBit_leValue, e3]
  · rw [e0]
    exact setOneByte_faults x s (s + D) _ (by omega) (by omega) (by omega)

/-- C86. The integer storage types therefore work on byte vectors in one, two, four and eight dimensions, for a whole number of
bytes. -/
theorem C86_vectors (hc : c.Supported) (h : DimensionContract Cell) {B : Nat} (hB : B % 8 = 0)
    (hD : D = 1 ∨ D = 2 ∨ D = 4 ∨ D = 8) :
    CellsAreBits D (Dimension.toUsize (Cell := Cell)) (FixedDepthStorage.getCellAtLevelUnchecked c B)
      (FixedDepthStorage.setCellAtLevelUnchecked c B) leNumber List.length (fun _ => B)
      (fun bs => Addressable c (8 * bs.length) ∧ B ≤ 8 * bs.length) ∧
    CellsAreBits D (Dimension.toUsize (Cell := Cell)) (StaticStorage.getCellAtLevelUnchecked c B)
      (StaticStorage.setCellAtLevelUnchecked c B) leNumber List.length (fun _ => B)
      (fun bs => Addressable c (8 * bs.length) ∧ B ≤ 8 * bs.length) := by
  refine (and_self_iff (a := _)).mpr fun x l ⟨hx, hBx⟩ hl => ?_
  have hp8 : 2 ^ D ≤ 256 := two_pow_small (k := 8) (by omega)
  have hno : ¬ (0 < (B - (l + 1) * D + D) % 8 ∧ (B - (l + 1) * D + D) % 8 < (B - (l + 1) * D) % 8) := by
    rcases hD with g | g | g | g <;> rw [g] at hl ⊢ <;> omega
  refine ⟨?_, fun v => ?_⟩
  · have e1 := (C86_vectors_reads hc h x hx hBx hl rfl).1
    have hlt := bitsIn_lt (B - (l + 1) * D) D (leNumber x)
    rw [if_neg hno, Nat.mod_eq_of_lt (by omega)] at e1
    obtain ⟨v, f1, f2⟩ := h.unwrap hlt
    exact ⟨v, by rw [e1, f1], f2⟩
  · obtain ⟨y, e1, e2, e3⟩ := (C86_vectors_writes hc h x hx hBx hl rfl v).1 (by unfold secondByte; split <;> omega)
    have hlt := h.lt v
    rw [Nat.mod_eq_of_lt (by omega)] at e3
    exact ⟨y, e1, e2, e3⟩

end theorems

example : CellsAreBits 4 (fun v : Fin (2 ^ 4) => v.val) (StaticStorage.getCellAtLevelUnchecked x64 24)
    (StaticStorage.setCellAtLevelUnchecked x64 24) leNumber List.length (fun _ => 24)
    (fun bs => Addressable x64 (8 * bs.length) ∧ 24 ≤ 8 * bs.length) :=
  (C86_vectors (Cell := Fin (2 ^ 4)) x64_supported (fin_contract (by decide)) (by decide) (by decide)).2
example : StaticStorage.getCellAtLevelUnchecked x64 24 [0x12#8, 0x34#8, 0x56#8] 1 = .ok (0x6 : Fin (2 ^ 4)) := by
  decide +kernel

/-- Five dimensions, level 1 of 16 bits: the bits 6..11, and `get_bits` returns the bits 6..14. -/
example : (FixedDepthStorage.getCellAtLevelUnchecked x64 16 [0x40#8, 0x00#8] 1 : Res (Fin (2 ^ 5))) = .ok 1 := by
  rw [(C86_vectors_reads (Cell := Fin (2 ^ 5)) (s := 6) x64_supported (fin_contract (by decide)) [0x40#8, 0x00#8]
    (by unfold Addressable; decide) (by decide) (by decide) (by decide)).1]
  decide +kernel
example : (FixedDepthStorage.getCellAtLevelUnchecked x64 16 [0x40#8, 0x08#8] 1 : Res (Fin (2 ^ 5))) = .error .unwrap := by
  rw [(C86_vectors_reads (Cell := Fin (2 ^ 5)) (s := 6) x64_supported (fin_contract (by decide)) [0x40#8, 0x08#8]
    (by unfold Addressable; decide) (by decide) (by decide) (by decide)).1]
  decide +kernel

/-- Nine dimensions: level 0 of 16 bits starts at bit 7 and is written without its highest bit, level 0 of 17 bits starts at a
byte boundary and cannot be written. -/
example : ∃ y, FixedDepthStorage.setCellAtLevelUnchecked x64 16 [0#8, 0xFF#8] 0 (0x1AB : Fin (2 ^ 9)) = .ok y ∧
    y.length = 2 ∧ ReplacesBits 7 16 0xFF00 0xAB (leNumber y) :=
  (C86_vectors_writes (Cell := Fin (2 ^ 9)) (s := 7) x64_supported (fin_contract (by decide)) [0#8, 0xFF#8]
    (by unfold Addressable; decide) (by decide) (by decide) (by decide) 0x1AB).1 (by decide)
example : FixedDepthStorage.setCellAtLevelUnchecked x64 17 [0#8, 0xFF#8, 0#8] 0 (0x1AB : Fin (2 ^ 9)) =
    .error .undefinedBehaviour :=
  (C86_vectors_writes (Cell := Fin (2 ^ 9)) (s := 8) x64_supported (fin_contract (by decide)) [0#8, 0xFF#8, 0#8]
    (by unfold Addressable; decide) (by decide) (by decide) (by decide) 0x1AB).2.1 (by decide)

end MortonRs
