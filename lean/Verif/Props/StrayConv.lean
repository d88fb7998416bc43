import Verif.Props.BigEndianConv
import Verif.Props.StorageBits

/-! # Dynamic to fixed-depth conversion, with any bits behind the last cell (C33)

Some calls leave bits or a whole byte behind the path of a dynamic index (2D `zeroed(4)` has two bytes; a fixed-depth 3D index
from `from_raw_index` passes its unused bits on). The conversion copies the bytes as they are, so these bits take part. -/

namespace MortonRs

open BitStorage MortonIndex

/-- When the bits of a number `V` of `W` bits, whose first bits are the path `cs`, show this path followed by `z` in an integer
of `w` bits. -/
theorem keeps_stray_iff {Cell : Type} {k : Nat} {key : Cell → Nat} (hk : 0 < k) (hlt : ∀ x : Cell, key x < 2 ^ k)
    (hinj : Function.Injective key) {z : Cell} (hz : key z = 0) {w W V : Nat} (hW : W ≤ w) (hV : V < 2 ^ W)
    {cs ds : List Cell} (hds : ds.length = w / k) (hcs : cs.length ≤ w / k) (hroom : cs.length * k ≤ W)
    (hd : ∀ j, j < w / k * k → pathBit k key ds j = V.testBit (w - 1 - j))
    (hc : ∀ j, j < cs.length * k → pathBit k key cs j = V.testBit (W - 1 - j)) :
    ds = cs ++ List.replicate (w / k - cs.length) z ↔
      (W = w ∨ ∀ x ∈ cs, x = z) ∧ ∀ i, w % k ≤ i → i < W - cs.length * k → V.testBit i = false := by
  have hck : cs.length * k ≤ w / k * k := Nat.mul_le_mul_right _ hcs
  have hwk : w / k * k + w % k = w := by rw [Nat.mul_comm]; exact Nat.div_add_mod w k
  have hbig : ∀ i, W ≤ i → V.testBit i = false := fun i hi =>
    Nat.testBit_lt_two_pow (Nat.lt_of_lt_of_le hV (Nat.pow_le_pow_right (by decide) hi))
  have hrep : ∀ n j, pathBit k key (List.replicate n z) j = false := fun n j => by
    have := pathBit_zeros (k := k) (key := key) [] n hz j
    rw [List.nil_append] at this
    rw [this]
    simp [pathBit]
  constructor
  · intro e
    have hp : ∀ j, j < w / k * k → V.testBit (w - 1 - j) = pathBit k key cs j := fun j hj => by
      rw [← hd j hj, e, pathBit_zeros _ _ hz]
    refine ⟨?_, fun i hi1 hi2 => ?_⟩
    · by_cases hWw : W = w
      · exact .inl hWw
      right
      have hall : ∀ j, pathBit k key cs j = false := by
        intro j
        induction j using Nat.strongRecOn with
        | _ j ih =>
          by_cases hj : cs.length * k ≤ j
          · exact pathBit_end hk hj
          · rw [← hp j (by omega)]
            by_cases hj2 : j < w - W
            · exact hbig _ (by omega)
            · have := ih (j - (w - W)) (by omega)
              rw [hc _ (by omega)] at this
              rwa [show w - 1 - j = W - 1 - (j - (w - W)) by omega]
      have : cs = List.replicate cs.length z := pathBit_ext hk hlt hinj (by simp) (fun j _ => by rw [hall, hrep])
      intro x hx
      rw [this] at hx
      exact List.eq_of_mem_replicate hx
    · have := hp (w - 1 - i) (by omega)
      rw [pathBit_end hk (by omega), show w - 1 - (w - 1 - i) = i by omega] at this
      exact this
  · rintro ⟨h1, h2⟩
    apply pathBit_ext hk hlt hinj
    · rw [List.length_append, List.length_replicate]; omega
    · intro j hj
      rw [hds] at hj
      rw [hd j hj, pathBit_zeros _ _ hz]
      rcases h1 with h1 | h1
      · subst h1
        by_cases hj2 : j < cs.length * k
        · exact (hc j hj2).symm
        · rw [pathBit_end hk (by omega)]
          exact h2 _ (by omega) (by omega)
      · have hall : ∀ j, pathBit k key cs j = false := fun j => by
          rw [List.eq_replicate_iff.mpr ⟨rfl, h1⟩, hrep]
        rw [hall]
        by_cases hi : W ≤ w - 1 - j
        · exact hbig _ hi
        · by_cases hi2 : w - 1 - j < W - cs.length * k
          · exact h2 _ (by omega) hi2
          · have := hc (W - 1 - (w - 1 - j)) (by omega)
            rw [hall, show W - 1 - (W - 1 - (w - 1 - j)) = w - 1 - j by omega] at this
            exact this.symm

/-- **C33** for every dynamic index, also with bits behind its last cell: every bit of the result, and on little-endian targets when
the cells are kept. `bs` are the bytes that `bits()` returns. They must not be more than the integer has; this leaves out indices
from `zeroed` with an extra byte at the depth limit (`C33_refuted_zeroed_2D`). -/
theorem C33_any_bits_2D {c : Cfg} (hc : c.Supported) (w : Nat) (hw : IntWidth w) (m : MortonIndex2D DynamicStorage2D)
    {sc : Scope} (hm : Reach2D c sc (.dynamic m)) (hd : depth m ≤ w / 2) (bs : List (BitVec 8))
    (hbs : StorageBits.bits m.storage = bs) :
    ∃ cs ds f, Shows c m cs ∧ MortonIndex2D.dynamicToFixed c w m = .ok f ∧ Shows c f ds ∧
      (∀ j, j < w / 2 * 2 → pathBit 2 quadrantKey ds j =
        if c.bigEndian then (leNumber bs).testBit (8 * (j / 8) + (7 - j % 8)) else (leNumber bs).testBit (w - 1 - j)) ∧
      (c.bigEndian = false → bs.length ≤ w / 8 →
        (ds = cs ++ List.replicate (w / 2 - cs.length) .Zero ↔
          (bs.length = w / 8 ∨ ∀ x ∈ cs, x = .Zero) ∧
            ∀ i, i < 8 * bs.length - 2 * cs.length → (leNumber bs).testBit i = false)) := by
  subst hbs
  have hk : quadrantKey = Dimension.toUsize := by funext x; cases x <;> rfl
  have hw8 := hw.mod8
  have hwf := dynamic_wf2 hc m hm
  have hnot : ¬ m.depth > FixedDepthStorage.MAX_LEVELS w Quadrant := by
    change ¬ m.storage.depth > w / 2; exact Nat.not_lt.mpr hd
  have hV : value m.storage = leNumber (StorageBits.bits m.storage) := by
    apply Nat.eq_of_testBit_eq
    intro i
    rw [DynamicStorage2D.value_testBit, leNumber_eq, testBit_leValue]
    rfl
  obtain ⟨f, h1, h2⟩ : ∃ f, MortonIndex2D.dynamicToFixed c w m = .ok f ∧ ∀ i, i < w → (value f.storage).testBit i =
      if c.bigEndian then (value m.storage).testBit (8 * (w / 8 - 1 - i / 8) + i % 8) else (value m.storage).testBit i := by
    cases hbe : c.bigEndian
    · refine ⟨⟨⟨Bits.fromU8Slice c m.storage.bits .LittleEndian⟩⟩, by simp [MortonIndex2D.dynamicToFixed, hnot, hbe], ?_⟩
      intro i hi
      rw [if_neg (by decide), DynamicStorage2D.value_testBit]
      refine (fromU8Slice_le hw c m.storage.bits i).trans ?_
      rw [decide_eq_true hi, Bool.true_and]
    · obtain ⟨f, h1, h2⟩ := MortonIndex2D.dynamicToFixed_be_value hw hbe hd
      exact ⟨f, h1, fun i hi => by rw [h2, decide_eq_true hi, Bool.true_and, if_pos rfl]⟩
  have hbits : ∀ j, j < w / 2 * 2 → pathBit 2 quadrantKey (path f.storage) j =
      if c.bigEndian then (leNumber (StorageBits.bits m.storage)).testBit (8 * (j / 8) + (7 - j % 8))
        else (leNumber (StorageBits.bits m.storage)).testBit (w - 1 - j) := by
    intro j hj
    have e := pathBit_path (s := f.storage) (Nat.div_mul_le_self w (dim Quadrant)) j
    have e0 : decide (j < Storage.depth f.storage * dim Quadrant) = true := decide_eq_true hj
    have e1 : width f.storage = w := rfl
    rw [e0, Bool.true_and, e1, h2 _ (by omega), hV] at e
    rw [hk]
    refine e.trans ?_
    congr 2
    omega
  refine ⟨path m.storage, path f.storage, f, MortonIndex2D.shows_path hc hwf, h1,
    MortonIndex2D.shows_path hc (FixedDepthStorage2D.wf hw _), hbits, fun hle hl => ?_⟩
  have hwm : width m.storage = 8 * (StorageBits.bits m.storage).length := rfl
  have hlt := value_lt m.storage
  have hdm : Storage.depth m.storage = m.storage.depth := rfl
  have hroom : m.storage.depth * 2 ≤ 8 * (StorageBits.bits m.storage).length := hwf.depth_le
  have hl2 : (path m.storage).length = m.storage.depth := path_length _
  rw [hV, hwm] at hlt
  have := keeps_stray_iff (k := 2) (z := Quadrant.Zero) (w := w) (by decide) (by intro x; cases x <;> decide) quadrantKey_inj rfl
    (show 8 * (StorageBits.bits m.storage).length ≤ w by omega) hlt (path_length f.storage)
    (by rw [hl2]; exact hd) (by rw [hl2]; exact hroom) (fun j hj => by rw [hbits j hj, hle]; rfl) (fun j hj => by
      have e := pathBit_path (s := m.storage) hwf.depth_le j
      rw [hl2] at hj
      have e0 : decide (j < Storage.depth m.storage * dim Quadrant) = true := decide_eq_true hj
      rw [e0, Bool.true_and, hV, hwm] at e
      rw [hk]
      exact e)
  rw [this]
  have e2 : 8 * (StorageBits.bits m.storage).length = w ↔ (StorageBits.bits m.storage).length = w / 8 := by omega
  rw [e2]
  refine and_congr_right fun _ => ⟨fun h i hi => h i (by omega) (by omega), fun h i _ hi => h i (by omega)⟩

/-- **C33** in 3D. The lowest `w % 3` bits of the integer belong to no cell. -/
theorem C33_any_bits_3D {c : Cfg} (hc : c.Supported) (w : Nat) (hw : IntWidth w) (m : MortonIndex3D DynamicStorage3D)
    {sc : Scope} (hm : Reach3D c sc (.dynamic m)) (hd : depth m ≤ w / 3) (bs : List (BitVec 8))
    (hbs : StorageBits.bits m.storage = bs) :
    ∃ cs ds f, Shows c m cs ∧ MortonIndex3D.dynamicToFixed c w m = .ok f ∧ Shows c f ds ∧
      (∀ j, j < w / 3 * 3 → pathBit 3 octantKey ds j =
        if c.bigEndian then (leNumber bs).testBit (8 * (j / 8) + (7 - j % 8)) else (leNumber bs).testBit (w - 1 - j)) ∧
      (c.bigEndian = false → bs.length ≤ w / 8 →
        (ds = cs ++ List.replicate (w / 3 - cs.length) .Zero ↔
          (bs.length = w / 8 ∨ ∀ x ∈ cs, x = .Zero) ∧
            ∀ i, w % 3 ≤ i → i < 8 * bs.length - 3 * cs.length → (leNumber bs).testBit i = false)) := by
  subst hbs
  have hk : octantKey = Dimension.toUsize := by funext x; cases x <;> rfl
  have hw8 := hw.mod8
  have hwf := dynamic_wf3 hc m hm
  have hnot : ¬ m.depth > FixedDepthStorage.MAX_LEVELS w Octant := by
    change ¬ m.storage.depth > w / 3; exact Nat.not_lt.mpr hd
  have hV : value m.storage = leNumber (StorageBits.bits m.storage) := by
    apply Nat.eq_of_testBit_eq
    intro i
    rw [DynamicStorage3D.value_testBit, leNumber_eq, testBit_leValue]
    rfl
  obtain ⟨f, h1, h2⟩ : ∃ f, MortonIndex3D.dynamicToFixed c w m = .ok f ∧ ∀ i, i < w → (value f.storage).testBit i =
      if c.bigEndian then (value m.storage).testBit (8 * (w / 8 - 1 - i / 8) + i % 8) else (value m.storage).testBit i := by
    cases hbe : c.bigEndian
    · refine ⟨⟨⟨Bits.fromU8Slice c m.storage.bits .LittleEndian⟩⟩, by simp [MortonIndex3D.dynamicToFixed, hnot, hbe], ?_⟩
      intro i hi
      rw [if_neg (by decide), DynamicStorage3D.value_testBit]
      refine (fromU8Slice_le hw c m.storage.bits i).trans ?_
      rw [decide_eq_true hi, Bool.true_and]
    · obtain ⟨f, h1, h2⟩ := MortonIndex3D.dynamicToFixed_be_value hw hbe hd
      exact ⟨f, h1, fun i hi => by rw [h2, decide_eq_true hi, Bool.true_and, if_pos rfl]⟩
  have hbits : ∀ j, j < w / 3 * 3 → pathBit 3 octantKey (path f.storage) j =
      if c.bigEndian then (leNumber (StorageBits.bits m.storage)).testBit (8 * (j / 8) + (7 - j % 8))
        else (leNumber (StorageBits.bits m.storage)).testBit (w - 1 - j) := by
    intro j hj
    have e := pathBit_path (s := f.storage) (Nat.div_mul_le_self w (dim Octant)) j
    have e0 : decide (j < Storage.depth f.storage * dim Octant) = true := decide_eq_true hj
    have e1 : width f.storage = w := rfl
    rw [e0, Bool.true_and, e1, h2 _ (by omega), hV] at e
    rw [hk]
    refine e.trans ?_
    congr 2
    omega
  refine ⟨path m.storage, path f.storage, f, MortonIndex3D.shows_path hc hwf, h1,
    MortonIndex3D.shows_path hc (FixedDepthStorage3D.wf hw _), hbits, fun hle hl => ?_⟩
  have hwm : width m.storage = 8 * (StorageBits.bits m.storage).length := rfl
  have hlt := value_lt m.storage
  have hdm : Storage.depth m.storage = m.storage.depth := rfl
  have hroom : m.storage.depth * 3 ≤ 8 * (StorageBits.bits m.storage).length := hwf.depth_le
  have hl2 : (path m.storage).length = m.storage.depth := path_length _
  rw [hV, hwm] at hlt
  have := keeps_stray_iff (k := 3) (z := Octant.Zero) (w := w) (by decide) (by intro x; cases x <;> decide) octantKey_inj rfl
    (show 8 * (StorageBits.bits m.storage).length ≤ w by omega) hlt (path_length f.storage)
    (by rw [hl2]; exact hd) (by rw [hl2]; exact hroom) (fun j hj => by rw [hbits j hj, hle]; rfl) (fun j hj => by
      have e := pathBit_path (s := m.storage) hwf.depth_le j
      rw [hl2] at hj
      have e0 : decide (j < Storage.depth m.storage * dim Octant) = true := decide_eq_true hj
      rw [e0, Bool.true_and, hV, hwm] at e
      rw [hk]
      exact e)
  rw [this]
  have e2 : 8 * (StorageBits.bits m.storage).length = w ↔ (StorageBits.bits m.storage).length = w / 8 := by omega
  rw [e2]
  refine and_congr_right fun _ => ⟨fun h i h0 hi => h i h0 (by omega), fun h i h0 hi => h i h0 (by omega)⟩

/-- The bits of some bytes from the first byte on, each from the highest bit to the lowest; `false` behind the last byte. -/
def byteBit (bs : List (BitVec 8)) (j : Nat) : Bool := (bs[j / 8]?.getD 0).getLsbD (7 - j % 8)

/-- The bytes that a fixed-depth index of `n` bytes shows from its first cell on, if it is made from a dynamic index with the
bytes `bs`: in the same order on big-endian targets, from the last byte on little-endian ones. Missing bytes are zero and come
last or first; of too many bytes the first `n` are used. -/
def arrivingBytes (bigEndian : Bool) (n : Nat) (bs : List (BitVec 8)) : List (BitVec 8) :=
  if bigEndian then bs.take n else (bs.take n ++ List.replicate (n - bs.length) 0).reverse

theorem byteBit_arriving {bigEndian : Bool} {w : Nat} (h8 : w % 8 = 0) (bs : List (BitVec 8)) {j : Nat} (hj : j < w) :
    byteBit (arrivingBytes bigEndian (w / 8) bs) j =
      if bigEndian then (leNumber bs).testBit (8 * (j / 8) + (7 - j % 8)) else (leNumber bs).testBit (w - 1 - j) := by
  have hb : ∀ i, (leNumber bs).testBit i = (bs[i / 8]?.getD 0).getLsbD (i % 8) := fun i => by
    rw [leNumber_eq, testBit_leValue]
    unfold bitOf
    cases h : bs[i / 8]? <;> simp [h]
  unfold byteBit arrivingBytes
  cases bigEndian
  · rw [if_neg (by decide), if_neg (by decide), hb]
    have e1 : (w - 1 - j) % 8 = 7 - j % 8 := by omega
    have e2 : (w - 1 - j) / 8 = w / 8 - 1 - j / 8 := by omega
    rw [e1, e2]
    congr 1
    have hl : (bs.take (w / 8) ++ List.replicate (w / 8 - bs.length) (0 : BitVec 8)).length = w / 8 := by
      rw [List.length_append, List.length_take, List.length_replicate]; omega
    rw [List.getElem?_reverse (by rw [hl]; omega), hl, List.getElem?_append]
    by_cases h : w / 8 - 1 - j / 8 < bs.length
    · rw [if_pos (by rw [List.length_take]; omega), List.getElem?_take, if_pos (by omega)]
    · rw [if_neg (by rw [List.length_take]; omega), List.getElem?_replicate, if_pos (by rw [List.length_take]; omega),
        List.getElem?_eq_none (l := bs) (by omega)]
      rfl
  · rw [if_pos rfl, if_pos rfl, hb]
    have e1 : (8 * (j / 8) + (7 - j % 8)) % 8 = 7 - j % 8 := by omega
    have e2 : (8 * (j / 8) + (7 - j % 8)) / 8 = j / 8 := by omega
    rw [e1, e2, List.getElem?_take, if_pos (by omega)]

/-- **C33**, exactly when the cells are kept: every dynamic index, every target. The bytes that arrive must spell out the
path, filled up with zeros. -/
theorem C33_kept_iff_2D {c : Cfg} (hc : c.Supported) (w : Nat) (hw : IntWidth w) (m : MortonIndex2D DynamicStorage2D)
    {sc : Scope} (hm : Reach2D c sc (.dynamic m)) (hd : depth m ≤ w / 2) :
    ∃ cs ds f, Shows c m cs ∧ MortonIndex2D.dynamicToFixed c w m = .ok f ∧ Shows c f ds ∧
      (ds = cs ++ List.replicate (w / 2 - cs.length) .Zero ↔
        ∀ j, j < w → byteBit (arrivingBytes c.bigEndian (w / 8) (StorageBits.bits m.storage)) j = pathBit 2 quadrantKey cs j) := by
  obtain ⟨cs, ds, f, h1, h2, h3, h4, -⟩ := C33_any_bits_2D hc w hw m hm hd _ rfl
  have h8 := hw.mod8
  have hl1 : cs.length = depth m := h1.1.symm
  have hl2 : ds.length = w / 2 := h3.1.symm
  refine ⟨cs, ds, f, h1, h2, h3, fun e j hj => ?_, fun h => ?_⟩
  · rw [byteBit_arriving h8 _ hj, ← h4 j (by omega), e, pathBit_zeros (key := quadrantKey) (z := .Zero) cs _ rfl]
  · refine pathBit_ext (k := 2) (key := quadrantKey) (by decide) (by intro x; cases x <;> decide) quadrantKey_inj
      (by rw [List.length_append, List.length_replicate]; omega) fun j hj => ?_
    rw [hl2] at hj
    rw [h4 j hj, pathBit_zeros (key := quadrantKey) (z := .Zero) cs _ rfl, ← h j (by omega), byteBit_arriving h8 _ (by omega)]

/-- **C33** in 3D, exactly when the cells are kept. The last `w % 3` bits belong to no cell. -/
theorem C33_kept_iff_3D {c : Cfg} (hc : c.Supported) (w : Nat) (hw : IntWidth w) (m : MortonIndex3D DynamicStorage3D)
    {sc : Scope} (hm : Reach3D c sc (.dynamic m)) (hd : depth m ≤ w / 3) :
    ∃ cs ds f, Shows c m cs ∧ MortonIndex3D.dynamicToFixed c w m = .ok f ∧ Shows c f ds ∧
      (ds = cs ++ List.replicate (w / 3 - cs.length) .Zero ↔
        ∀ j, j < w - w % 3 →
          byteBit (arrivingBytes c.bigEndian (w / 8) (StorageBits.bits m.storage)) j = pathBit 3 octantKey cs j) := by
  obtain ⟨cs, ds, f, h1, h2, h3, h4, -⟩ := C33_any_bits_3D hc w hw m hm hd _ rfl
  have h8 := hw.mod8
  have hl1 : cs.length = depth m := h1.1.symm
  have hl2 : ds.length = w / 3 := h3.1.symm
  refine ⟨cs, ds, f, h1, h2, h3, fun e j hj => ?_, fun h => ?_⟩
  · rw [byteBit_arriving h8 _ (by omega), ← h4 j (by omega), e, pathBit_zeros (key := octantKey) (z := .Zero) cs _ rfl]
  · refine pathBit_ext (k := 3) (key := octantKey) (by decide) (by intro x; cases x <;> decide) octantKey_inj
      (by rw [List.length_append, List.length_replicate]; omega) fun j hj => ?_
    rw [hl2] at hj
    rw [h4 j hj, pathBit_zeros (key := octantKey) (z := .Zero) cs _ rfl, ← h j (by omega), byteBit_arriving h8 _ (by omega)]

/-! ## Examples -/

/-- `zeroed(4)` with `Three` at level 0. -/
def wideD2 : MortonIndex2D DynamicStorage2D := ⟨⟨[0x00#8, 0xC0#8], 4⟩⟩

theorem wideD2_reach : Reach2D x64 .all (.dynamic wideD2) :=
  .dynamicSet (l := 0) (v := .Three) (.dynamicZeroed (d := 4) (by unfold Addressable; decide) (.inl rfl)) (by decide +kernel)

/-- Its two bytes fit a 16-bit integer: the cells are kept. Without the extra byte they would not be. -/
example : ∃ f, MortonIndex2D.dynamicToFixed x64 16 wideD2 = .ok f ∧
    Shows x64 f [.Three, .Zero, .Zero, .Zero, .Zero, .Zero, .Zero, .Zero] := by
  obtain ⟨cs, ds, f, h1, h2, h3, -, h5⟩ := C33_any_bits_2D x64_supported 16 (by decide) wideD2 wideD2_reach (by decide) _ rfl
  have hcs : cs = [.Three, .Zero, .Zero, .Zero] := shows_unique h1 (by unfold Shows; decide +kernel)
  subst hcs
  have hds := (h5 rfl (by decide)).mpr ⟨.inl rfl, by decide⟩
  subst hds
  exact ⟨f, h2, h3⟩

/-- **C33** is also false at the depth limit after `zeroed`: the integer takes the first byte, which holds no cell. -/
theorem C33_refuted_zeroed_2D : ∃ (m : MortonIndex2D DynamicStorage2D) (f : MortonIndex2D (FixedDepthStorage2D 8)),
    Reach2D x64 .all (.dynamic m) ∧ Shows x64 m [.Three, .Zero, .Zero, .Zero] ∧ MortonIndex2D.dynamicToFixed x64 8 m = .ok f ∧
      Shows x64 f [.Zero, .Zero, .Zero, .Zero] :=
  ⟨wideD2, ⟨⟨0⟩⟩, wideD2_reach, by unfold Shows; decide +kernel, by decide +kernel, by unfold Shows; decide +kernel⟩

/-- 3D: a fixed-depth index with its two unused bits set, as a dynamic index. In 8 bits the conversion back keeps the cells,
because the stray bits come to lie on the unused bits. -/
def strayD3 : MortonIndex3D DynamicStorage3D := ⟨⟨[0xA3#8], 2⟩⟩

theorem strayD3_reach : Reach3D x64 .all (.dynamic strayD3) :=
  .fixedToDynamic (w := 8) (m := MortonIndex3D.fixedFromRawIndex 0xA3#8) (.fixedFromRaw (by decide) (.inl rfl))

example : ∃ f, MortonIndex3D.dynamicToFixed x64 8 strayD3 = .ok f ∧ Shows x64 f [.Five, .Zero] := by
  obtain ⟨cs, ds, f, h1, h2, h3, -, h5⟩ := C33_any_bits_3D x64_supported 8 (by decide) strayD3 strayD3_reach (by decide) _ rfl
  have hcs : cs = [.Five, .Zero] := shows_unique h1 (by unfold Shows; decide +kernel)
  subst hcs
  have hds := (h5 rfl (by decide)).mpr ⟨.inl rfl, fun i h1 h2 => absurd h1 (Nat.not_le.mpr h2)⟩
  subst hds
  exact ⟨f, h2, h3⟩

/-- In 16 bits they become visible. -/
example : ∃ f, MortonIndex3D.dynamicToFixed x64 16 strayD3 = .ok f ∧ ¬ Shows x64 f [.Five, .Zero, .Zero, .Zero, .Zero] := by
  obtain ⟨cs, ds, f, h1, h2, h3, -, h5⟩ := C33_any_bits_3D x64_supported 16 (by decide) strayD3 strayD3_reach (by decide) _ rfl
  have hcs : cs = [.Five, .Zero] := shows_unique h1 (by unfold Shows; decide +kernel)
  subst hcs
  refine ⟨f, h2, fun h => ?_⟩
  have := ((h5 rfl (by decide)).mp (shows_unique h3 h)).1
  revert this
  decide

/-- At the depth limit of 8 bits the extra byte of `zeroed(4)` arrives instead of the cells, which are kept only if all are
`Zero`. -/
example : ∃ cs ds f, Shows x64 wideD2 cs ∧ MortonIndex2D.dynamicToFixed x64 8 wideD2 = .ok f ∧ Shows x64 f ds ∧
    (ds = cs ++ List.replicate (8 / 2 - cs.length) .Zero ↔
      ∀ j, j < 8 → byteBit [0x00#8] j = pathBit 2 quadrantKey cs j) :=
  C33_kept_iff_2D x64_supported 8 (by decide) wideD2 wideD2_reach (by decide)

/-- On a big-endian target the bytes arrive in their order: the path `[Three]`, which has one byte, is kept in 16 bits. -/
example : byteBit (arrivingBytes be64.bigEndian (16 / 8) [0xC0#8]) = fun j => pathBit 2 quadrantKey [.Three] j := by
  funext j
  by_cases h : j < 8
  · exact (by decide +kernel : ∀ j, j < 8 → byteBit (arrivingBytes be64.bigEndian (16 / 8) [0xC0#8]) j =
      pathBit 2 quadrantKey [.Three] j) j h
  · rw [pathBit_end (by decide) (by simp; omega)]
    unfold byteBit arrivingBytes be64
    rw [if_pos rfl, List.getElem?_eq_none (by simp; omega)]
    simp

end MortonRs
