import Verif.Lemmas.Conv2D
import Verif.Lemmas.Conv3D

/-! # `from_u8_slice`, and the conversion of dynamic to fixed-depth indices -/

namespace MortonRs

open BitStorage

theorem getLsbD_fromLeBytes (w : Nat) (bs : List (BitVec 8)) (i : Nat) :
    (fromLeBytes w bs).getLsbD i = (decide (i < w) && bitOf bs i) := by
  rw [fromLeBytes, BitVec.getLsbD_ofNat, testBit_leValue]

theorem bitOf_append_zeros (bs : List (BitVec 8)) (n i : Nat) :
    bitOf (bs ++ List.replicate n 0#8) i = bitOf bs i := by
  unfold bitOf
  congr 1
  rw [List.getD_eq_getElem?_getD, List.getD_eq_getElem?_getD, List.getElem?_append]
  split
  · rfl
  · rename_i h
    rw [List.getElem?_replicate, List.getElem?_eq_none (by omega)]
    split <;> rfl

theorem bitOf_take (bs : List (BitVec 8)) (n i : Nat) (hi : i < 8 * n) : bitOf (bs.take n) i = bitOf bs i := by
  unfold bitOf
  congr 1
  rw [List.getD_eq_getElem?_getD, List.getD_eq_getElem?_getD, List.getElem?_take, if_pos (by omega)]

theorem bitOf_reverse (bs : List (BitVec 8)) (i : Nat) (hi : i < 8 * bs.length) :
    bitOf bs.reverse i = bitOf bs (8 * (bs.length - 1 - i / 8) + i % 8) := by
  unfold bitOf
  rw [show (8 * (bs.length - 1 - i / 8) + i % 8) / 8 = bs.length - 1 - i / 8 by omega,
    show (8 * (bs.length - 1 - i / 8) + i % 8) % 8 = i % 8 by omega]
  congr 1
  rw [List.getD_eq_getElem?_getD, List.getD_eq_getElem?_getD, List.getElem?_reverse (by omega)]

/-- `from_u8_slice(_, LittleEndian)` of the integer types: byte `k` is bits `8k .. 8k + 8`; missing bytes
are zero, excess bytes ignored. -/
theorem fromU8Slice_le {w : Nat} (hw : IntWidth w) (c : Cfg) (bs : List (BitVec 8)) (i : Nat) :
    (Bits.fromU8Slice c bs .LittleEndian : BitVec w).getLsbD i = (decide (i < w) && bitOf bs i) := by
  have hw8 := hw.mod8
  change (if w = 8 then (u8FromU8Slice bs .LittleEndian).setWidth w else intFromU8Slice w bs .LittleEndian).getLsbD i = _
  by_cases h8 : w = 8
  · subst h8
    rw [if_pos rfl, BitVec.getLsbD_setWidth]
    by_cases hi : i < 8
    · cases bs with
      | nil => simp [u8FromU8Slice, bitOf]
      | cons b bs =>
        have : i / 8 = 0 := by omega
        have h2 : i % 8 = i := by omega
        simp [u8FromU8Slice, bitOf, this, h2]
    · simp [hi]
  · rw [if_neg h8]
    unfold intFromU8Slice
    split
    · rw [getLsbD_fromLeBytes, bitOf_append_zeros]
    · simp only
      rw [getLsbD_fromLeBytes]
      by_cases hi : i < w
      · rw [bitOf_take _ _ _ (by omega)]
      · simp [hi]

/-- `from_u8_slice(_, BigEndian)`: byte `k` is the `k`-th byte from the top. -/
theorem fromU8Slice_be {w : Nat} (hw : IntWidth w) (c : Cfg) (bs : List (BitVec 8)) (i : Nat) :
    (Bits.fromU8Slice c bs .BigEndian : BitVec w).getLsbD i =
      (decide (i < w) && bitOf bs (8 * (w / 8 - 1 - i / 8) + i % 8)) := by
  have hw8 := hw.mod8
  change (if w = 8 then (u8FromU8Slice bs .BigEndian).setWidth w else intFromU8Slice w bs .BigEndian).getLsbD i = _
  by_cases h8 : w = 8
  · subst h8
    rw [if_pos rfl, BitVec.getLsbD_setWidth]
    by_cases hi : i < 8
    · have e : 8 * (8 / 8 - 1 - i / 8) + i % 8 = i := by omega
      rw [e]
      cases bs with
      | nil => simp [u8FromU8Slice, bitOf]
      | cons b bs =>
        have : i / 8 = 0 := by omega
        have h2 : i % 8 = i := by omega
        simp [u8FromU8Slice, bitOf, this, h2]
    · simp [hi]
  · rw [if_neg h8]
    unfold intFromU8Slice
    split
    · simp only
      rw [fromBeBytes, getLsbD_fromLeBytes]
      by_cases hi : i < w
      · rw [bitOf_reverse _ _ (by rw [List.length_append, List.length_replicate]; omega), bitOf_append_zeros,
          List.length_append, List.length_replicate]
        congr 3
        congr 2
        omega
      · simp [hi]
    · simp only
      rw [fromBeBytes, getLsbD_fromLeBytes]
      by_cases hi : i < w
      · have hl : (bs.take (w / 8)).length = w / 8 := by rw [List.length_take]; omega
        rw [bitOf_reverse _ _ (by omega), hl, bitOf_take _ _ _ (by omega)]
      · simp [hi]

section

variable {S T Cell : Type} [LawfulDim Cell] [Storage S Cell] [Storage T Cell] [BitStorage S Cell] [BitStorage T Cell]

/-- A storage `f` that holds the same number as the canonical storage `s` but is wider shows a different
path, unless all cells are the zero cell. -/
theorem keeps_iff {s : S} {f : T} (hs : Storage.depth s * dim Cell ≤ width s) (hz : TailZero s)
    (hv : value f = value s) (hvs : value s < 2 ^ width s) (hw : width s = width f ∨ width s + 8 ≤ width f)
    (hf : Storage.depth f * dim Cell ≤ width f) (hf' : width f < Storage.depth f * dim Cell + 3)
    (hd : Storage.depth s ≤ Storage.depth f) :
    path f = path s ++ List.replicate (Storage.depth f - Storage.depth s) (LawfulDim.ofNat 0) ↔
      width s = width f ∨ ∀ x ∈ path s, x = LawfulDim.ofNat 0 := by
  have hD := dim_pos Cell
  have hlen : (path s ++ List.replicate (Storage.depth f - Storage.depth s) (LawfulDim.ofNat 0 : Cell)).length =
      Storage.depth f := by
    rw [List.length_append, path_length, List.length_replicate]; omega
  -- all cells zero means the number is zero
  have hzero : (∀ x ∈ path s, x = LawfulDim.ofNat 0) → value s = 0 := by
    intro h
    have hb := bits_zero_of_slots (s := s) (a := 0) hs (fun k _ hk => h _ (by
      have : k < (path s).length := by rw [path_length]; exact hk
      rw [← path_getElem s k this]
      exact List.getElem_mem _)) hz
    apply Nat.eq_of_testBit_eq
    intro i
    rw [Nat.zero_testBit]
    by_cases hi : i < width s
    · exact hb i (by omega)
    · exact Nat.testBit_lt_two_pow (Nat.lt_of_lt_of_le hvs (Nat.pow_le_pow_right (by decide) (by omega)))
  constructor
  · intro h
    rcases hw with hw | hw
    · exact Or.inl hw
    · right
      -- the digits of the two numbers
      have hdig : ∀ l, l < Storage.depth f → ∀ j, j < dim Cell →
          (value s).testBit (width f - (l + 1) * dim Cell + j) =
          (value s * 2 ^ (width f - width s)).testBit (width f - (l + 1) * dim Cell + j) := by
        intro l hl j hj
        have hlf : (l + 1) * dim Cell ≤ Storage.depth f * dim Cell := Nat.mul_le_mul_right _ hl
        have e1 : (Dimension.toUsize (slot f l)).testBit j = (value s).testBit (width f - (l + 1) * dim Cell + j) := by
          rw [slot_ofNat, testBit_digit, hv, decide_eq_true hj, Bool.true_and]
        have hlp : l < (path f).length := by rw [path_length]; exact hl
        have e2 : slot f l = (path s ++ List.replicate (Storage.depth f - Storage.depth s) (LawfulDim.ofNat 0 : Cell))[l]'(by
            rw [hlen]; exact hl) := by
          rw [← path_getElem f l hlp]
          simp only [h]
        rw [← e1, e2, Nat.testBit_mul_two_pow]
        by_cases hls : l < Storage.depth s
        · have hls' : (l + 1) * dim Cell ≤ Storage.depth s * dim Cell := Nat.mul_le_mul_right _ hls
          rw [List.getElem_append_left (by rw [path_length]; exact hls), path_getElem, slot_ofNat, testBit_digit,
            decide_eq_true hj, Bool.true_and, decide_eq_true (by omega), Bool.true_and]
          congr 1
          omega
        · have hls' : Storage.depth s * dim Cell ≤ l * dim Cell := Nat.mul_le_mul_right _ (by omega)
          have e3 : (l + 1) * dim Cell = l * dim Cell + dim Cell := Nat.succ_mul _ _
          rw [List.getElem_append_right (by rw [path_length]; omega), List.getElem_replicate, toUsize_zeroCell,
            Nat.zero_testBit]
          by_cases hge : width f - width s ≤ width f - (l + 1) * dim Cell + j
          · rw [decide_eq_true hge, Bool.true_and]
            exact (hz _ (by omega)).symm
          · rw [decide_eq_false hge, Bool.false_and]
      have htop : value s / 2 ^ (width f - Storage.depth f * dim Cell) =
          value s * 2 ^ (width f - width s) / 2 ^ (width f - Storage.depth f * dim Cell) := by
        apply Nat.eq_of_testBit_eq
        intro i
        rw [← Nat.shiftRight_eq_div_pow, ← Nat.shiftRight_eq_div_pow, Nat.testBit_shiftRight, Nat.testBit_shiftRight]
        by_cases hi : width f - Storage.depth f * dim Cell + i < width f
        · obtain ⟨k, j, -, h2, h3, h4⟩ := exists_level (a := 0) hD hf
            (i := width f - Storage.depth f * dim Cell + i) (by omega) (by omega)
          rw [h4]
          exact hdig k h2 j h3
        · have b1 : value s < 2 ^ (width f - Storage.depth f * dim Cell + i) :=
            Nat.lt_of_lt_of_le hvs (Nat.pow_le_pow_right (by decide) (by omega))
          have b2 : value s * 2 ^ (width f - width s) < 2 ^ (width f - Storage.depth f * dim Cell + i) := by
            have : value s * 2 ^ (width f - width s) < 2 ^ width s * 2 ^ (width f - width s) :=
              Nat.mul_lt_mul_of_pos_right hvs (Nat.two_pow_pos _)
            rw [← Nat.pow_add] at this
            exact Nat.lt_of_lt_of_le this (Nat.pow_le_pow_right (by decide) (by omega))
          rw [Nat.testBit_lt_two_pow b1, Nat.testBit_lt_two_pow b2]
      have hval : value s = 0 := by
        have e : 2 ^ (width f - width s) = 2 ^ (width f - width s - (width f - Storage.depth f * dim Cell) - 1) * 2 *
            2 ^ (width f - Storage.depth f * dim Cell) := by
          rw [← Nat.pow_succ, ← Nat.pow_add]
          congr 1
          omega
        rw [e, ← Nat.mul_assoc, Nat.mul_div_cancel _ (Nat.two_pow_pos _)] at htop
        have h1 : value s / 2 ^ (width f - Storage.depth f * dim Cell) ≤ value s := Nat.div_le_self _ _
        have h2 : value s * 2 ≤ value s * (2 ^ (width f - width s - (width f - Storage.depth f * dim Cell) - 1) * 2) :=
          Nat.mul_le_mul_left _ (Nat.le_mul_of_pos_left _ (Nat.two_pow_pos _))
        omega
      intro x hx
      obtain ⟨k, hk, rfl⟩ := List.getElem_of_mem hx
      rw [path_getElem]
      apply toUsize_inj
      rw [slot_ofNat, toUsize_zeroCell, hval, digit, Nat.zero_div, Nat.zero_mod]
  · intro h
    apply path_of_slots hlen.symm
    intro k hk
    rw [hlen] at hk
    have hkf : (k + 1) * dim Cell ≤ Storage.depth f * dim Cell := Nat.mul_le_mul_right _ hk
    have e3 : (k + 1) * dim Cell = k * dim Cell + dim Cell := Nat.succ_mul _ _
    rcases h with h | h
    · by_cases hks : k < Storage.depth s
      · rw [List.getElem_append_left (by rw [path_length]; exact hks), path_getElem, slot, slot, hv, h]
      · have hls' : Storage.depth s * dim Cell ≤ k * dim Cell := Nat.mul_le_mul_right _ (by omega)
        rw [List.getElem_append_right (by rw [path_length]; omega), List.getElem_replicate]
        exact slot_zero_of_bits (n := width f - Storage.depth s * dim Cell) (by omega) (by omega) (fun i hi => by
          rw [hv]; exact hz i (by omega))
    · have hval := hzero h
      have hk0 : slot f k = LawfulDim.ofNat 0 := by
        apply toUsize_inj
        rw [slot_ofNat, toUsize_zeroCell, hv, hval, digit, Nat.zero_div, Nat.zero_mod]
      rw [hk0]
      by_cases hks : k < Storage.depth s
      · rw [List.getElem_append_left (by rw [path_length]; exact hks)]
        exact (h _ (List.getElem_mem _)).symm
      · rw [List.getElem_append_right (by rw [path_length]; omega), List.getElem_replicate]

end

namespace MortonIndex2D

variable {c : Cfg} {w : Nat}

/-- What the conversion does to the bits on a little-endian target: the bytes become the low bytes of
the integer. -/
theorem dynamicToFixed_value (hw : IntWidth w) (hle : c.bigEndian = false) {m : MortonIndex2D DynamicStorage2D}
    (h : DynamicStorage2D.Canon c m.storage) (hd : m.storage.depth ≤ w / dim Quadrant) :
    ∃ f, dynamicToFixed c w m = .ok f ∧ value f.storage = value m.storage := by
  have hw8 := hw.mod8
  have hnot : ¬ m.depth > FixedDepthStorage.MAX_LEVELS w Quadrant := by
    change ¬ m.storage.depth > w / dim Quadrant; omega
  have hlen := h.len
  have hwid : 8 * m.storage.bits.length ≤ w := by
    rw [hlen, DynamicStorage2D.numBytes]
    have := Nat.mul_le_mul_right (dim Quadrant) hd
    have := Nat.div_mul_le_self w (dim Quadrant)
    omega
  refine ⟨⟨⟨Bits.fromU8Slice c m.storage.bits .LittleEndian⟩⟩, by simp [dynamicToFixed, hnot, hle], ?_⟩
  apply Nat.eq_of_testBit_eq
  intro i
  rw [DynamicStorage2D.value_testBit]
  refine (fromU8Slice_le hw c m.storage.bits i).trans ?_
  by_cases hi : i < w
  · rw [decide_eq_true hi, Bool.true_and]
  · rw [decide_eq_false hi, Bool.false_and, bitOf_of_ge (by omega)]

theorem dynamicToFixed_wf (hw : IntWidth w) {m : MortonIndex2D DynamicStorage2D}
    {f : MortonIndex2D (FixedDepthStorage2D w)} (_ : dynamicToFixed c w m = .ok f) : WF c f.storage :=
  ⟨hw, Nat.div_mul_le_self w (dim Quadrant)⟩

/-- On little-endian targets, the exact condition for the conversion to keep the cells. -/
theorem dynamicToFixed_keeps (hw : IntWidth w) (hle : c.bigEndian = false) {m : MortonIndex2D DynamicStorage2D}
    (h : DynamicStorage2D.Canon c m.storage) (hd : m.storage.depth ≤ w / dim Quadrant) :
    ∃ f, dynamicToFixed c w m = .ok f ∧
      (path f.storage = path m.storage ++ List.replicate (w / dim Quadrant - m.storage.depth) .Zero ↔
        DynamicStorage2D.numBytes m.storage.depth = w / 8 ∨ ∀ x ∈ path m.storage, x = .Zero) := by
  have hw8 := hw.mod8
  obtain ⟨f, h1, h2⟩ := dynamicToFixed_value hw hle h hd
  have hlen := h.len
  have hwid : 8 * m.storage.bits.length ≤ w := by
    rw [hlen, DynamicStorage2D.numBytes]
    have := Nat.mul_le_mul_right (dim Quadrant) hd
    have := Nat.div_mul_le_self w (dim Quadrant)
    omega
  have hmod : w < w / dim Quadrant * dim Quadrant + 3 := by rw [dim_Quadrant]; omega
  refine ⟨f, h1, ?_⟩
  have key := keeps_iff (s := m.storage) (f := f.storage) h.inv.wf.depth_le h.tail h2
    (leValue_lt m.storage.bits) (by change 8 * m.storage.bits.length = w ∨ 8 * m.storage.bits.length + 8 ≤ w; omega)
    (Nat.div_mul_le_self w (dim Quadrant)) hmod hd
  refine key.trans ?_
  change (8 * m.storage.bits.length = w ∨ _) ↔ _
  rw [hlen]
  constructor
  · rintro (h | h)
    · left; omega
    · exact Or.inr h
  · rintro (h | h)
    · left; omega
    · exact Or.inr h

end MortonIndex2D

namespace MortonIndex3D

variable {c : Cfg} {w : Nat}

/-- What the conversion does to the bits on a little-endian target: the bytes become the low bytes of
the integer. -/
theorem dynamicToFixed_value (hw : IntWidth w) (hle : c.bigEndian = false) {m : MortonIndex3D DynamicStorage3D}
    (h : DynamicStorage3D.Canon c m.storage) (hd : m.storage.depth ≤ w / dim Octant) :
    ∃ f, dynamicToFixed c w m = .ok f ∧ value f.storage = value m.storage := by
  have hw8 := hw.mod8
  have hnot : ¬ m.depth > FixedDepthStorage.MAX_LEVELS w Octant := by
    change ¬ m.storage.depth > w / dim Octant; omega
  have hlen := h.len
  have hwid : 8 * m.storage.bits.length ≤ w := by
    rw [hlen, DynamicStorage3D.numBytes]
    have := Nat.mul_le_mul_right (dim Octant) hd
    have := Nat.div_mul_le_self w (dim Octant)
    omega
  refine ⟨⟨⟨Bits.fromU8Slice c m.storage.bits .LittleEndian⟩⟩, by simp [dynamicToFixed, hnot, hle], ?_⟩
  apply Nat.eq_of_testBit_eq
  intro i
  rw [DynamicStorage3D.value_testBit]
  refine (fromU8Slice_le hw c m.storage.bits i).trans ?_
  by_cases hi : i < w
  · rw [decide_eq_true hi, Bool.true_and]
  · rw [decide_eq_false hi, Bool.false_and, bitOf_of_ge (by omega)]

theorem dynamicToFixed_wf (hw : IntWidth w) {m : MortonIndex3D DynamicStorage3D}
    {f : MortonIndex3D (FixedDepthStorage3D w)} (_ : dynamicToFixed c w m = .ok f) : WF c f.storage :=
  ⟨hw, Nat.div_mul_le_self w (dim Octant)⟩

/-- On little-endian targets, the exact condition for the conversion to keep the cells. -/
theorem dynamicToFixed_keeps (hw : IntWidth w) (hle : c.bigEndian = false) {m : MortonIndex3D DynamicStorage3D}
    (h : DynamicStorage3D.Canon c m.storage) (hd : m.storage.depth ≤ w / dim Octant) :
    ∃ f, dynamicToFixed c w m = .ok f ∧
      (path f.storage = path m.storage ++ List.replicate (w / dim Octant - m.storage.depth) .Zero ↔
        DynamicStorage3D.numBytes m.storage.depth = w / 8 ∨ ∀ x ∈ path m.storage, x = .Zero) := by
  have hw8 := hw.mod8
  obtain ⟨f, h1, h2⟩ := dynamicToFixed_value hw hle h hd
  have hlen := h.len
  have hwid : 8 * m.storage.bits.length ≤ w := by
    rw [hlen, DynamicStorage3D.numBytes]
    have := Nat.mul_le_mul_right (dim Octant) hd
    have := Nat.div_mul_le_self w (dim Octant)
    omega
  have hmod : w < w / dim Octant * dim Octant + 3 := by rw [dim_Octant]; omega
  refine ⟨f, h1, ?_⟩
  have key := keeps_iff (s := m.storage) (f := f.storage) h.inv.wf.depth_le h.tail h2
    (leValue_lt m.storage.bits) (by change 8 * m.storage.bits.length = w ∨ 8 * m.storage.bits.length + 8 ≤ w; omega)
    (Nat.div_mul_le_self w (dim Octant)) hmod hd
  refine key.trans ?_
  change (8 * m.storage.bits.length = w ∨ _) ↔ _
  rw [hlen]
  constructor
  · rintro (h | h)
    · left; omega
    · exact Or.inr h
  · rintro (h | h)
    · left; omega
    · exact Or.inr h

end MortonIndex3D

end MortonRs
