import Verif.Lemmas.FromBytes

/-! # A path as a sequence of bits -/

namespace MortonRs

open BitStorage

section

variable {S Cell : Type} [LawfulDim Cell] [Storage S Cell] [BitStorage S Cell]

theorem pathBit_path {s : S} (hs : Storage.depth s * dim Cell ≤ width s) (j : Nat) :
    pathBit (dim Cell) Dimension.toUsize (path s) j =
      (decide (j < Storage.depth s * dim Cell) && (value s).testBit (width s - 1 - j)) := by
  have hD := dim_pos Cell
  unfold pathBit
  have hj := Nat.div_add_mod j (dim Cell)
  have hm := Nat.mod_lt j hD
  have e : dim Cell * (j / dim Cell) = j / dim Cell * dim Cell := Nat.mul_comm _ _
  by_cases h : j < Storage.depth s * dim Cell
  · have hl : j / dim Cell < Storage.depth s := Nat.div_lt_of_lt_mul (by rw [Nat.mul_comm]; exact h)
    have hl' : j / dim Cell < (path s).length := by rw [path_length]; exact hl
    have h1 : (j / dim Cell + 1) * dim Cell ≤ Storage.depth s * dim Cell := Nat.mul_le_mul_right _ hl
    have h2 : (j / dim Cell + 1) * dim Cell = j / dim Cell * dim Cell + dim Cell := Nat.succ_mul _ _
    rw [List.getElem?_eq_getElem hl', path_getElem]
    simp only
    rw [slot_ofNat, testBit_digit, decide_eq_true (by omega), decide_eq_true h, Bool.true_and, Bool.true_and]
    congr 1
    omega
  · have hl : ¬ j / dim Cell < Storage.depth s := by
      intro hc
      have h1 : (j / dim Cell + 1) * dim Cell ≤ Storage.depth s * dim Cell := Nat.mul_le_mul_right _ hc
      have h2 : (j / dim Cell + 1) * dim Cell = j / dim Cell * dim Cell + dim Cell := Nat.succ_mul _ _
      omega
    rw [List.getElem?_eq_none (by rw [path_length]; omega), decide_eq_false h, Bool.false_and]

/-- Without stray bits the path gives all bits of the number. -/
theorem pathBit_tail {s : S} (hs : Storage.depth s * dim Cell ≤ width s) (hz : TailZero s) {j : Nat} (hj : j < width s) :
    pathBit (dim Cell) Dimension.toUsize (path s) j = (value s).testBit (width s - 1 - j) := by
  rw [pathBit_path hs]
  by_cases h : j < Storage.depth s * dim Cell
  · rw [decide_eq_true h, Bool.true_and]
  · rw [decide_eq_false h, Bool.false_and, hz _ (by omega)]

end

namespace MortonIndex2D

variable {c : Cfg} {w : Nat}

theorem dynamicToFixed_be_value (hw : IntWidth w) (hbe : c.bigEndian = true) {m : MortonIndex2D DynamicStorage2D}
    (hd : m.storage.depth ≤ w / dim Quadrant) :
    ∃ f, dynamicToFixed c w m = .ok f ∧ ∀ i, (value f.storage).testBit i =
      (decide (i < w) && (value m.storage).testBit (8 * (w / 8 - 1 - i / 8) + i % 8)) := by
  have hnot : ¬ m.depth > FixedDepthStorage.MAX_LEVELS w Quadrant := by
    change ¬ m.storage.depth > w / dim Quadrant; omega
  refine ⟨⟨⟨Bits.fromU8Slice c m.storage.bits .BigEndian⟩⟩, by simp [dynamicToFixed, hnot, hbe], fun i => ?_⟩
  rw [DynamicStorage2D.value_testBit]
  exact fromU8Slice_be hw c m.storage.bits i

/-- Where each bit of the path goes. -/
theorem dynamicToFixed_bits (hw : IntWidth w) {m : MortonIndex2D DynamicStorage2D}
    (h : DynamicStorage2D.Canon c m.storage) (hd : m.storage.depth ≤ w / dim Quadrant) :
    ∃ f, dynamicToFixed c w m = .ok f ∧ ∀ j, j < w / dim Quadrant * dim Quadrant →
      pathBit (dim Quadrant) Dimension.toUsize (path f.storage) j =
        if c.bigEndian then
          decide (j / 8 < DynamicStorage2D.numBytes m.storage.depth) && pathBit (dim Quadrant) Dimension.toUsize
            (path m.storage) (8 * (DynamicStorage2D.numBytes m.storage.depth - 1 - j / 8) + j % 8)
        else decide (w - 8 * DynamicStorage2D.numBytes m.storage.depth ≤ j) && pathBit (dim Quadrant) Dimension.toUsize
            (path m.storage) (j - (w - 8 * DynamicStorage2D.numBytes m.storage.depth)) := by
  have hw8 := hw.mod8
  have hwpos : 8 ≤ w := by rcases hw with h | h | h | h | h <;> omega
  have hlen := h.len
  have hwid : 8 * m.storage.bits.length ≤ w := by
    rw [hlen, DynamicStorage2D.numBytes]
    have := Nat.mul_le_mul_right (dim Quadrant) hd
    have := Nat.div_mul_le_self w (dim Quadrant)
    omega
  have hwm : width m.storage = 8 * m.storage.bits.length := rfl
  have hlt : value m.storage < 2 ^ (8 * m.storage.bits.length) := value_lt m.storage
  have hs := h.inv.wf.depth_le
  rw [← hlen]
  cases hbe : c.bigEndian
  · obtain ⟨f, h1, h2⟩ := dynamicToFixed_value hw hbe h hd
    refine ⟨f, h1, fun j hj => ?_⟩
    have hwf : width f.storage = w := rfl
    have hjw := Nat.div_mul_le_self w (dim Quadrant)
    rw [pathBit_path (Nat.div_mul_le_self w (dim Quadrant)), h2, hwf]
    have e : decide (j < Storage.depth f.storage * dim Quadrant) = true := decide_eq_true hj
    rw [e, Bool.true_and]
    simp only [Bool.false_eq_true, if_false]
    by_cases hj2 : w - 8 * m.storage.bits.length ≤ j
    · rw [decide_eq_true hj2, Bool.true_and, pathBit_tail hs h.tail (by rw [hwm]; omega), hwm]
      congr 1
      omega
    · rw [decide_eq_false hj2, Bool.false_and]
      exact Nat.testBit_lt_two_pow (Nat.lt_of_lt_of_le hlt (Nat.pow_le_pow_right (by decide) (by omega)))
  · obtain ⟨f, h1, h2⟩ := dynamicToFixed_be_value hw hbe hd
    refine ⟨f, h1, fun j hj => ?_⟩
    have hwf : width f.storage = w := rfl
    have hjw := Nat.div_mul_le_self w (dim Quadrant)
    rw [pathBit_path (Nat.div_mul_le_self w (dim Quadrant)), h2, hwf]
    have e : decide (j < Storage.depth f.storage * dim Quadrant) = true := decide_eq_true hj
    rw [e, Bool.true_and, decide_eq_true (by omega), Bool.true_and]
    simp only [if_true]
    by_cases hj2 : j / 8 < m.storage.bits.length
    · rw [decide_eq_true hj2, Bool.true_and, pathBit_tail hs h.tail (by rw [hwm]; omega), hwm]
      congr 1
      omega
    · rw [decide_eq_false hj2, Bool.false_and]
      exact Nat.testBit_lt_two_pow (Nat.lt_of_lt_of_le hlt (Nat.pow_le_pow_right (by decide) (by omega)))

/-- On little-endian targets the cells come out behind the `Zero` cells of the missing bytes. -/
theorem dynamicToFixed_path (hw : IntWidth w) (hle : c.bigEndian = false) {m : MortonIndex2D DynamicStorage2D}
    (h : DynamicStorage2D.Canon c m.storage) (hd : m.storage.depth ≤ w / dim Quadrant) :
    ∃ f, dynamicToFixed c w m = .ok f ∧ path f.storage =
      List.replicate (w / 2 - 4 * DynamicStorage2D.numBytes m.storage.depth) .Zero ++ path m.storage ++
        List.replicate (4 * DynamicStorage2D.numBytes m.storage.depth - m.storage.depth) .Zero := by
  have hw8 := hw.mod8
  obtain ⟨f, h1, h2⟩ := dynamicToFixed_value hw hle h hd
  have hlen := h.len
  have hnb : DynamicStorage2D.numBytes m.storage.depth = (m.storage.depth * 2 + 7) / 8 := rfl
  have hd2 : m.storage.depth ≤ w / 2 := hd
  have hwm : width m.storage = 8 * m.storage.bits.length := rfl
  have hwf : width f.storage = w := rfl
  have hlt : value m.storage < 2 ^ (8 * m.storage.bits.length) := value_lt m.storage
  have hdm : Storage.depth m.storage = m.storage.depth := rfl
  refine ⟨f, h1, path_of_slots ?_ ?_⟩
  · change w / 2 = _
    simp only [List.length_append, List.length_replicate, path_length, hdm]
    omega
  · intro k hk
    simp only [List.length_append, List.length_replicate, path_length, hdm] at hk
    by_cases hk1 : k < w / 2 - 4 * DynamicStorage2D.numBytes m.storage.depth
    · rw [List.getElem_append_left (by simp; omega), List.getElem_append_left (by simp; omega), List.getElem_replicate]
      apply toUsize_inj
      rw [slot_ofNat, digit, h2, hwf, dim_Quadrant, Nat.div_eq_of_lt (Nat.lt_of_lt_of_le hlt
        (Nat.pow_le_pow_right (by decide) (by omega)))]
      rfl
    · by_cases hk2 : k - (w / 2 - 4 * DynamicStorage2D.numBytes m.storage.depth) < m.storage.depth
      · rw [List.getElem_append_left (by simp [hdm]; omega), List.getElem_append_right (by simp; omega), path_getElem]
        apply toUsize_inj
        rw [slot_ofNat, slot_ofNat]
        simp only [List.length_replicate, digit, h2, hwf, hwm, dim_Quadrant]
        congr 3
        omega
      · rw [List.getElem_append_right (by simp [hdm]; omega), List.getElem_replicate]
        apply toUsize_inj
        apply Nat.eq_of_testBit_eq
        intro j
        rw [slot_ofNat, testBit_digit, h2, hwf, dim_Quadrant]
        by_cases hj : j < 2
        · rw [h.tail _ (by rw [hwm, hdm, dim_Quadrant]; omega)]
          simp [Dimension.toUsize, Quadrant.toUsize]
        · simp [hj, Dimension.toUsize, Quadrant.toUsize]

end MortonIndex2D

namespace MortonIndex3D

variable {c : Cfg} {w : Nat}

theorem dynamicToFixed_be_value (hw : IntWidth w) (hbe : c.bigEndian = true) {m : MortonIndex3D DynamicStorage3D}
    (hd : m.storage.depth ≤ w / dim Octant) :
    ∃ f, dynamicToFixed c w m = .ok f ∧ ∀ i, (value f.storage).testBit i =
      (decide (i < w) && (value m.storage).testBit (8 * (w / 8 - 1 - i / 8) + i % 8)) := by
  have hnot : ¬ m.depth > FixedDepthStorage.MAX_LEVELS w Octant := by
    change ¬ m.storage.depth > w / dim Octant; omega
  refine ⟨⟨⟨Bits.fromU8Slice c m.storage.bits .BigEndian⟩⟩, by simp [dynamicToFixed, hnot, hbe], fun i => ?_⟩
  rw [DynamicStorage3D.value_testBit]
  exact fromU8Slice_be hw c m.storage.bits i

/-- Where each bit of the path goes. -/
theorem dynamicToFixed_bits (hw : IntWidth w) {m : MortonIndex3D DynamicStorage3D}
    (h : DynamicStorage3D.Canon c m.storage) (hd : m.storage.depth ≤ w / dim Octant) :
    ∃ f, dynamicToFixed c w m = .ok f ∧ ∀ j, j < w / dim Octant * dim Octant →
      pathBit (dim Octant) Dimension.toUsize (path f.storage) j =
        if c.bigEndian then
          decide (j / 8 < DynamicStorage3D.numBytes m.storage.depth) && pathBit (dim Octant) Dimension.toUsize
            (path m.storage) (8 * (DynamicStorage3D.numBytes m.storage.depth - 1 - j / 8) + j % 8)
        else decide (w - 8 * DynamicStorage3D.numBytes m.storage.depth ≤ j) && pathBit (dim Octant) Dimension.toUsize
            (path m.storage) (j - (w - 8 * DynamicStorage3D.numBytes m.storage.depth)) := by
  have hw8 := hw.mod8
  have hwpos : 8 ≤ w := by rcases hw with h | h | h | h | h <;> omega
  have hlen := h.len
  have hwid : 8 * m.storage.bits.length ≤ w := by
    rw [hlen, DynamicStorage3D.numBytes]
    have := Nat.mul_le_mul_right (dim Octant) hd
    have := Nat.div_mul_le_self w (dim Octant)
    omega
  have hwm : width m.storage = 8 * m.storage.bits.length := rfl
  have hlt : value m.storage < 2 ^ (8 * m.storage.bits.length) := value_lt m.storage
  have hs := h.inv.wf.depth_le
  rw [← hlen]
  cases hbe : c.bigEndian
  · obtain ⟨f, h1, h2⟩ := dynamicToFixed_value hw hbe h hd
    refine ⟨f, h1, fun j hj => ?_⟩
    have hwf : width f.storage = w := rfl
    have hjw := Nat.div_mul_le_self w (dim Octant)
    rw [pathBit_path (Nat.div_mul_le_self w (dim Octant)), h2, hwf]
    have e : decide (j < Storage.depth f.storage * dim Octant) = true := decide_eq_true hj
    rw [e, Bool.true_and]
    simp only [Bool.false_eq_true, if_false]
    by_cases hj2 : w - 8 * m.storage.bits.length ≤ j
    · rw [decide_eq_true hj2, Bool.true_and, pathBit_tail hs h.tail (by rw [hwm]; omega), hwm]
      congr 1
      omega
    · rw [decide_eq_false hj2, Bool.false_and]
      exact Nat.testBit_lt_two_pow (Nat.lt_of_lt_of_le hlt (Nat.pow_le_pow_right (by decide) (by omega)))
  · obtain ⟨f, h1, h2⟩ := dynamicToFixed_be_value hw hbe hd
    refine ⟨f, h1, fun j hj => ?_⟩
    have hwf : width f.storage = w := rfl
    have hjw := Nat.div_mul_le_self w (dim Octant)
    rw [pathBit_path (Nat.div_mul_le_self w (dim Octant)), h2, hwf]
    have e : decide (j < Storage.depth f.storage * dim Octant) = true := decide_eq_true hj
    rw [e, Bool.true_and, decide_eq_true (by omega), Bool.true_and]
    simp only [if_true]
    by_cases hj2 : j / 8 < m.storage.bits.length
    · rw [decide_eq_true hj2, Bool.true_and, pathBit_tail hs h.tail (by rw [hwm]; omega), hwm]
      congr 1
      omega
    · rw [decide_eq_false hj2, Bool.false_and]
      exact Nat.testBit_lt_two_pow (Nat.lt_of_lt_of_le hlt (Nat.pow_le_pow_right (by decide) (by omega)))

end MortonIndex3D

end MortonRs
