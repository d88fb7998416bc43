import Verif.Lemmas.ContainersConv2D
import Verif.Lemmas.ContainersConv3D

/-! # Dynamic to fixed-depth conversion on big-endian targets -/

namespace MortonRs

open BitStorage LawfulContainer

section lists

variable {Cell : Type} {k : Nat} {key : Cell → Nat}

theorem pathBit_end (hk : 0 < k) {cs : List Cell} {j : Nat} (h : cs.length * k ≤ j) : pathBit k key cs j = false := by
  unfold pathBit
  rw [List.getElem?_eq_none ((Nat.le_div_iff_mul_le hk).mpr h)]

theorem pathBit_zeros (cs : List Cell) (n : Nat) {z : Cell} (hz : key z = 0) (j : Nat) :
    pathBit k key (cs ++ List.replicate n z) j = pathBit k key cs j := by
  unfold pathBit
  rw [List.getElem?_append]
  by_cases h : j / k < cs.length
  · rw [if_pos h]
  · rw [if_neg h, List.getElem?_replicate, List.getElem?_eq_none (l := cs) (by omega)]
    by_cases h2 : j / k - cs.length < n
    · simp [h2, hz]
    · simp [h2]

theorem pathBit_ext (hk : 0 < k) (hlt : ∀ x : Cell, key x < 2 ^ k) (hinj : Function.Injective key) {ds es : List Cell}
    (hl : ds.length = es.length) (h : ∀ j, j < ds.length * k → pathBit k key ds j = pathBit k key es j) : ds = es := by
  apply List.ext_getElem hl
  intro l h1 h2
  apply hinj
  apply Nat.eq_of_testBit_eq
  intro i
  by_cases hi : i < k
  · have hj : l * k + (k - 1 - i) < ds.length * k := by
      have := Nat.mul_le_mul_right k (show l + 1 ≤ ds.length from h1)
      rw [Nat.succ_mul] at this
      omega
    have e1 : (l * k + (k - 1 - i)) / k = l := by
      rw [Nat.mul_comm l k, Nat.mul_add_div hk, Nat.div_eq_of_lt (by omega), Nat.add_zero]
    have e2 : (l * k + (k - 1 - i)) % k = k - 1 - i := by
      rw [Nat.mul_comm l k, Nat.mul_add_mod, Nat.mod_eq_of_lt (by omega)]
    have := h _ hj
    unfold pathBit at this
    rw [e1, e2, List.getElem?_eq_getElem h1, List.getElem?_eq_getElem h2] at this
    simp only [show k - 1 - (k - 1 - i) = i by omega] at this
    exact this
  · have hp : 2 ^ k ≤ 2 ^ i := Nat.pow_le_pow_right (by decide) (by omega)
    rw [Nat.testBit_lt_two_pow (Nat.lt_of_lt_of_le (hlt _) hp), Nat.testBit_lt_two_pow (Nat.lt_of_lt_of_le (hlt _) hp)]

theorem keeps_be_iff (hk : 0 < k) (hlt : ∀ x : Cell, key x < 2 ^ k) (hinj : Function.Injective key) {z : Cell}
    (hz : key z = 0) {w : Nat} (hw8 : w % 8 = 0) (hmod : w < w / k * k + 3) {cs ds : List Cell} (hds : ds.length = w / k)
    (hcs : cs.length ≤ w / k)
    (h : ∀ j, j < w / k * k → pathBit k key ds j = (decide (j / 8 < (cs.length * k + 7) / 8) &&
      pathBit k key cs (8 * ((cs.length * k + 7) / 8 - 1 - j / 8) + j % 8))) :
    ds = cs ++ List.replicate (w / k - cs.length) z ↔ ReversibleBytes k key cs := by
  have hck : cs.length * k ≤ w / k * k := Nat.mul_le_mul_right _ hcs
  have hwk := Nat.div_mul_le_self w k
  unfold ReversibleBytes
  generalize hn : (cs.length * k + 7) / 8 = n at *
  constructor
  · intro e j hj
    have hb : ∀ i, i < w / k * k → i < 8 * n → pathBit k key cs i = pathBit k key cs (8 * (n - 1 - i / 8) + i % 8) := by
      intro i h1 h2
      have := h i h1
      rwa [e, pathBit_zeros _ _ hz, decide_eq_true (by omega), Bool.true_and] at this
    by_cases hj2 : j < w / k * k
    · exact hb j hj2 hj
    · by_cases h1 : n = 1
      · congr 1; omega
      · have e2 : 8 * (n - 1 - (8 * (n - 1 - j / 8) + j % 8) / 8) + (8 * (n - 1 - j / 8) + j % 8) % 8 = j := by omega
        have := hb (8 * (n - 1 - j / 8) + j % 8) (by omega) (by omega)
        rw [e2] at this
        exact this.symm
  · intro hr
    apply pathBit_ext hk hlt hinj
    · rw [List.length_append, List.length_replicate]; omega
    · intro j hj
      rw [hds] at hj
      rw [h j hj, pathBit_zeros _ _ hz]
      by_cases hj2 : j / 8 < n
      · rw [decide_eq_true hj2, Bool.true_and, hr j (by omega)]
      · rw [decide_eq_false hj2, Bool.false_and, pathBit_end hk (by omega)]

end lists

section bytes

variable {B : Type} [FixedStorageType B] [LawfulBytes B] {c : Cfg}

theorem fromSlice_be_testBit (hf : on B c) {bs : List (BitVec 8)} (hl : bs.length ≤ Bits.BITS B / 8) {i : Nat}
    (hi : i < Bits.BITS B) :
    (val (Bits.fromU8Slice c bs .BigEndian : B)).testBit i = bitOf bs (8 * (Bits.BITS B / 8 - 1 - i / 8) + i % 8) := by
  have hw8 := LawfulBytes.mod8 (B := B)
  have hl2 : (bs ++ List.replicate (Bits.BITS B / 8 - bs.length) 0#8).length = Bits.BITS B / 8 := by
    rw [List.length_append, List.length_replicate]; omega
  rw [(LawfulBytes.fromSlice hf bs hl).2, testBit_leValue, bitOf_reverse _ _ (by rw [hl2]; omega), bitOf_append_zeros, hl2]

namespace MortonIndex2D

theorem dynamicToFixedOf_be_bits (hw : on B c) (hbe : c.bigEndian = true) {m : MortonIndex2D DynamicStorage2D}
    (h : DynamicStorage2D.Canon c m.storage) (hd : m.storage.depth ≤ Bits.BITS B / dim Quadrant) :
    ∃ f, dynamicToFixedOf c B m = .ok f ∧ ∀ j, j < Bits.BITS B / dim Quadrant * dim Quadrant →
      pathBit (dim Quadrant) Dimension.toUsize (path f.storage) j =
        (decide (j / 8 < DynamicStorage2D.numBytes m.storage.depth) && pathBit (dim Quadrant) Dimension.toUsize
            (path m.storage) (8 * (DynamicStorage2D.numBytes m.storage.depth - 1 - j / 8) + j % 8)) := by
  have hw8 := LawfulBytes.mod8 (B := B)
  have hlen := h.len
  have hnot : ¬ m.depth > FixedDepthStorage.MAX_LEVELS (Bits.BITS B) Quadrant := by
    change ¬ m.storage.depth > Bits.BITS B / dim Quadrant; omega
  have hwid : m.storage.bits.length ≤ Bits.BITS B / 8 := by
    rw [hlen, DynamicStorage2D.numBytes]
    have := Nat.mul_le_mul_right (dim Quadrant) hd
    have := Nat.div_mul_le_self (Bits.BITS B) (dim Quadrant)
    omega
  have hwm : width m.storage = 8 * m.storage.bits.length := rfl
  have hlt : value m.storage < 2 ^ (8 * m.storage.bits.length) := value_lt m.storage
  have hs := h.inv.wf.depth_le
  rw [← hlen]
  let f : MortonIndex2D (FixedDepthStorage2DOf B) := ⟨⟨Bits.fromU8Slice c m.storage.bits .BigEndian⟩⟩
  refine ⟨f, by simp [dynamicToFixedOf, hnot, hbe, f], fun j hj => ?_⟩
  have hwf : width f.storage = Bits.BITS B := rfl
  have hjw := Nat.div_mul_le_self (Bits.BITS B) (dim Quadrant)
  have e : decide (j < Storage.depth f.storage * dim Quadrant) = true := decide_eq_true hj
  have hv : (value f.storage).testBit (Bits.BITS B - 1 - j) = (value m.storage).testBit
      (8 * (Bits.BITS B / 8 - 1 - (Bits.BITS B - 1 - j) / 8) + (Bits.BITS B - 1 - j) % 8) := by
    rw [DynamicStorage2D.value_testBit]
    exact fromSlice_be_testBit hw hwid (by omega)
  rw [pathBit_path (Nat.div_mul_le_self (Bits.BITS B) (dim Quadrant)), e, Bool.true_and, hwf, hv]
  by_cases hj2 : j / 8 < m.storage.bits.length
  · rw [decide_eq_true hj2, Bool.true_and, pathBit_tail hs h.tail (by rw [hwm]; omega), hwm]
    congr 1
    omega
  · rw [decide_eq_false hj2, Bool.false_and]
    exact Nat.testBit_lt_two_pow (Nat.lt_of_lt_of_le hlt (Nat.pow_le_pow_right (by decide) (by omega)))

end MortonIndex2D

namespace MortonIndex3D

theorem dynamicToFixedOf_be_bits (hw : on B c) (hbe : c.bigEndian = true) {m : MortonIndex3D DynamicStorage3D}
    (h : DynamicStorage3D.Canon c m.storage) (hd : m.storage.depth ≤ Bits.BITS B / dim Octant) :
    ∃ f, dynamicToFixedOf c B m = .ok f ∧ ∀ j, j < Bits.BITS B / dim Octant * dim Octant →
      pathBit (dim Octant) Dimension.toUsize (path f.storage) j =
        (decide (j / 8 < DynamicStorage3D.numBytes m.storage.depth) && pathBit (dim Octant) Dimension.toUsize
            (path m.storage) (8 * (DynamicStorage3D.numBytes m.storage.depth - 1 - j / 8) + j % 8)) := by
  have hw8 := LawfulBytes.mod8 (B := B)
  have hlen := h.len
  have hnot : ¬ m.depth > FixedDepthStorage.MAX_LEVELS (Bits.BITS B) Octant := by
    change ¬ m.storage.depth > Bits.BITS B / dim Octant; omega
  have hwid : m.storage.bits.length ≤ Bits.BITS B / 8 := by
    rw [hlen, DynamicStorage3D.numBytes]
    have := Nat.mul_le_mul_right (dim Octant) hd
    have := Nat.div_mul_le_self (Bits.BITS B) (dim Octant)
    omega
  have hwm : width m.storage = 8 * m.storage.bits.length := rfl
  have hlt : value m.storage < 2 ^ (8 * m.storage.bits.length) := value_lt m.storage
  have hs := h.inv.wf.depth_le
  rw [← hlen]
  let f : MortonIndex3D (FixedDepthStorage3DOf B) := ⟨⟨Bits.fromU8Slice c m.storage.bits .BigEndian⟩⟩
  refine ⟨f, by simp [dynamicToFixedOf, hnot, hbe, f], fun j hj => ?_⟩
  have hwf : width f.storage = Bits.BITS B := rfl
  have hjw := Nat.div_mul_le_self (Bits.BITS B) (dim Octant)
  have e : decide (j < Storage.depth f.storage * dim Octant) = true := decide_eq_true hj
  have hv : (value f.storage).testBit (Bits.BITS B - 1 - j) = (value m.storage).testBit
      (8 * (Bits.BITS B / 8 - 1 - (Bits.BITS B - 1 - j) / 8) + (Bits.BITS B - 1 - j) % 8) := by
    rw [DynamicStorage3D.value_testBit]
    exact fromSlice_be_testBit hw hwid (by omega)
  rw [pathBit_path (Nat.div_mul_le_self (Bits.BITS B) (dim Octant)), e, Bool.true_and, hwf, hv]
  by_cases hj2 : j / 8 < m.storage.bits.length
  · rw [decide_eq_true hj2, Bool.true_and, pathBit_tail hs h.tail (by rw [hwm]; omega), hwm]
    congr 1
    omega
  · rw [decide_eq_false hj2, Bool.false_and]
    exact Nat.testBit_lt_two_pow (Nat.lt_of_lt_of_le hlt (Nat.pow_le_pow_right (by decide) (by omega)))

end MortonIndex3D

end bytes

end MortonRs
