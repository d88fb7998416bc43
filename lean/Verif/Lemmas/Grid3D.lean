import Verif.Lemmas.Conv3D
import Verif.Lemmas.Grid2D

/-! # Construction of 3D indices from grid positions -/

namespace MortonRs

open BitStorage

/-- Which bit of the octant number holds the x (y, z) coordinate. -/
def OctantOrdering.xPos (o : OctantOrdering) : Nat := o.getBitShiftsForXyz.1
def OctantOrdering.yPos (o : OctantOrdering) : Nat := o.getBitShiftsForXyz.2.1
def OctantOrdering.zPos (o : OctantOrdering) : Nat := o.getBitShiftsForXyz.2.2

theorem OctantOrdering.xPos_lt (o : OctantOrdering) : o.xPos < 3 := by cases o <;> decide
theorem OctantOrdering.yPos_lt (o : OctantOrdering) : o.yPos < 3 := by cases o <;> decide
theorem OctantOrdering.zPos_lt (o : OctantOrdering) : o.zPos < 3 := by cases o <;> decide

/-- The coordinate that goes to bit `r` of the octant number. -/
def OctantOrdering.pick {α : Type} (o : OctantOrdering) (r : Nat) (x y z : α) : α :=
  if r = o.xPos then x else if r = o.yPos then y else z

theorem OctantOrdering.pick_x {α : Type} (o : OctantOrdering) (x y z : α) : o.pick o.xPos x y z = x := by
  cases o <;> rfl
theorem OctantOrdering.pick_y {α : Type} (o : OctantOrdering) (x y z : α) : o.pick o.yPos x y z = y := by
  cases o <;> rfl
theorem OctantOrdering.pick_z {α : Type} (o : OctantOrdering) (x y z : α) : o.pick o.zPos x y z = z := by
  cases o <;> rfl

theorem OctantOrdering.toIndex_getLsbD {W : Nat} (hW : 3 ≤ W) (o : OctantOrdering) (q : Octant) :
    (o.toIndex W q).x.getLsbD 0 = (Dimension.toUsize q).testBit o.xPos ∧
    (o.toIndex W q).y.getLsbD 0 = (Dimension.toUsize q).testBit o.yPos ∧
    (o.toIndex W q).z.getLsbD 0 = (Dimension.toUsize q).testBit o.zPos := by
  have k0 := bit_of_shift (W := W) (n := Dimension.toUsize q) (p := 0) (by omega)
  have k1 := bit_of_shift (W := W) (n := Dimension.toUsize q) (p := 1) (by omega)
  have k2 := bit_of_shift (W := W) (n := Dimension.toUsize q) (p := 2) (by omega)
  cases o
  · exact ⟨k0, k1, k2⟩
  · exact ⟨k0, k2, k1⟩
  · exact ⟨k1, k0, k2⟩
  · exact ⟨k2, k0, k1⟩
  · exact ⟨k1, k2, k0⟩
  · exact ⟨k2, k1, k0⟩

/-- The octant is the bit `i` of the three coordinates. -/
def GridCell3 {W : Nat} (o : OctantOrdering) (g : Vector3 W) (i : Nat) (q : Octant) : Prop :=
  (o.toIndex W q).x.getLsbD 0 = g.x.getLsbD i ∧ (o.toIndex W q).y.getLsbD 0 = g.y.getLsbD i ∧
    (o.toIndex W q).z.getLsbD 0 = g.z.getLsbD i

/-- The cells of the first `n` levels are the bits `n - 1, ..., 0` of the grid position. -/
def GridPath3 {W : Nat} {S : Type} [Storage S Octant] [BitStorage S Octant] (o : OctantOrdering)
    (g : Vector3 W) (n : Nat) (s : S) : Prop :=
  ∀ l, l < n → GridCell3 o g (n - 1 - l) (slot s l)

theorem gridCell3_of_bits {W : Nat} {S : Type} [Storage S Octant] [BitStorage S Octant] (hW : 3 ≤ W)
    {o : OctantOrdering} {g : Vector3 W} {l i : Nat} {s : S}
    (h : ∀ r, r < 3 → (value s).testBit (width s - (l + 1) * dim Octant + r) =
      o.pick r (g.x.getLsbD i) (g.y.getLsbD i) (g.z.getLsbD i)) :
    GridCell3 o g i (slot s l) := by
  obtain ⟨e1, e2, e3⟩ := o.toIndex_getLsbD hW (slot s l)
  have b : ∀ r, r < 3 → (Dimension.toUsize (slot s l)).testBit r =
      o.pick r (g.x.getLsbD i) (g.y.getLsbD i) (g.z.getLsbD i) := by
    intro r hr
    rw [slot_ofNat, testBit_digit, dim_Octant, decide_eq_true hr, Bool.true_and]
    exact h r hr
  refine ⟨?_, ?_, ?_⟩
  · rw [e1, b _ o.xPos_lt, OctantOrdering.pick_x]
  · rw [e2, b _ o.yPos_lt, OctantOrdering.pick_y]
  · rw [e3, b _ o.zPos_lt, OctantOrdering.pick_z]

/-- Three spread coordinates combined. -/
theorem pick_or {n : Nat} (o : OctantOrdering) (A B C : BitVec n) (i : Nat) (x y z : Bool)
    (hA : A.getLsbD i = (decide (i % 3 = o.xPos) && x)) (hB : B.getLsbD i = (decide (i % 3 = o.yPos) && y))
    (hC : C.getLsbD i = (decide (i % 3 = o.zPos) && z)) :
    (A ||| B ||| C).getLsbD i = o.pick (i % 3) x y z := by
  rw [BitVec.getLsbD_or, BitVec.getLsbD_or, hA, hB, hC]
  have h3 : i % 3 = 0 ∨ i % 3 = 1 ∨ i % 3 = 2 := by omega
  rcases h3 with h | h | h <;> rw [h] <;> cases o <;>
    simp [OctantOrdering.pick, OctantOrdering.xPos, OctantOrdering.yPos, OctantOrdering.zPos,
      OctantOrdering.getBitShiftsForXyz]

theorem spread8_shl (v : BitVec 8) (s : Nat) (hs : s < 3) (i : Nat) (hi : i < 32) :
    (addTwoZeroesBeforeEveryBitU8 v <<< s).getLsbD i = (decide (i % 3 = s) && v.getLsbD (i / 3)) := by
  rw [BitVec.getLsbD_shiftLeft, decide_eq_true hi, Bool.true_and]
  by_cases h : i < s
  · have : i % 3 ≠ s := by omega
    simp [h, this]
  · rw [two_u8_bit _ _ (by omega), decide_eq_false h]
    by_cases h2 : i % 3 = s
    · have e1 : (i - s) % 3 = 0 := by omega
      have e2 : (i - s) / 3 = i / 3 := by omega
      simp [h2, e1, e2]
    · have e1 : (i - s) % 3 ≠ 0 := by omega
      simp [h2, e1]

theorem spread32_shl (v : BitVec 32) (s : Nat) (hs : s < 3) (i : Nat) (hi : i < 64) :
    (addTwoZeroesBeforeEveryBitU32 v <<< s).getLsbD i =
      (decide (i % 3 = s) && (decide (i / 3 < 21) && v.getLsbD (i / 3))) := by
  rw [BitVec.getLsbD_shiftLeft, decide_eq_true hi, Bool.true_and]
  by_cases h : i < s
  · have : i % 3 ≠ s := by omega
    simp [h, this]
  · rw [two_u32_bit _ _ (by omega), decide_eq_false h]
    by_cases h2 : i % 3 = s
    · have e1 : (i - s) % 3 = 0 := by omega
      have e2 : (i - s) / 3 = i / 3 := by omega
      simp [h2, e1, e2]
    · have e1 : (i - s) % 3 ≠ 0 := by omega
      simp [h2, e1]

/-- A chunk of a word, truncated to `n` bits. -/
theorem piece_ok {c : Cfg} {W : Nat} (hW : IntWidth W) (x : BitVec W) (s e n : Nat) (hs : s < 2 ^ 32) (hsW : s < 2 ^ W)
    (hlen : e - s ≤ n) (hlW : e - s ≤ W) :
    ∃ y, intGetBits c x ⟨s, e⟩ = .ok y ∧
      ∀ i, (y.setWidth n).getLsbD i = (decide (i < e - s) && x.getLsbD (s + i)) := by
  have hWl := hW.le
  obtain ⟨y, h1, h2⟩ := intGetBits_ok (c := c) x s e (by omega) (by omega) hsW (by omega)
  refine ⟨y, h1, ?_⟩
  intro i
  rw [BitVec.getLsbD_setWidth, h2]
  by_cases hi : i < e - s
  · have : i < n := by omega
    simp [hi, this]
  · simp [hi]

namespace MortonIndex3D

variable {c : Cfg} {w : Nat}

theorem maxLevelsBitmask_ok (hfit : w / dim Octant < c.ptrBits) :
    ∃ b, maxLevelsBitmask c w = .ok b ∧ ∀ i, b.getLsbD i = decide (i < w / dim Octant) := by
  have h : fixedMaxLevels w < c.ptrBits := hfit
  have e1 : (1#c.ptrBits).toNat = 1 := by
    rw [BitVec.toNat_ofNat]
    exact Nat.mod_eq_of_lt (Nat.one_lt_two_pow (by omega))
  have e2 : (1#c.ptrBits <<< fixedMaxLevels w).toNat = 2 ^ fixedMaxLevels w := by
    rw [BitVec.toNat_shiftLeft, e1, Nat.one_shiftLeft]
    exact Nat.mod_eq_of_lt (Nat.pow_lt_pow_right (by decide) h)
  have hpos : 1 ≤ 2 ^ fixedMaxLevels w := Nat.two_pow_pos _
  refine ⟨1#c.ptrBits <<< fixedMaxLevels w - 1#c.ptrBits, ?_, ?_⟩
  · simp only [maxLevelsBitmask, h, if_true, e2, hpos]
  · intro i
    rw [getLsbD_eq_testBit, BitVec.toNat_sub_of_le (by rw [BitVec.le_def, e1, e2]; exact hpos), e1, e2,
      Nat.testBit_two_pow_sub_one]
    rfl

theorem maxLevelsBitmask_error (hfit : c.ptrBits ≤ w / dim Octant) :
    maxLevelsBitmask c w = .error .compileError := by
  have h : ¬ fixedMaxLevels w < c.ptrBits := by unfold fixedMaxLevels; change c.ptrBits ≤ w / 3 at hfit; change ¬ w / 3 < _; omega
  simp only [maxLevelsBitmask, h, if_false]

/-- One chunk of the fixed-depth loop. -/
theorem fixed_chunk_step (hc : c.Supported) (hw : IntWidth w) (hW21 : 21 ≤ c.ptrBits) (o : OctantOrdering)
    (x y z : BitVec c.ptrBits)
    (k : Nat)
    (hk : k < (w / 3 + 20) / 21) (bits : BitVec w) :
    ∃ bits', (do
      let start_bit ← umul c k 21
      let end_bit ← uadd c start_bit 21
      let x_chunk := (← intGetBits c x ⟨start_bit, end_bit⟩).setWidth 32
      let y_chunk := (← intGetBits c y ⟨start_bit, end_bit⟩).setWidth 32
      let z_chunk := (← intGetBits c z ⟨start_bit, end_bit⟩).setWidth 32
      let chunk := (← shl c (addTwoZeroesBeforeEveryBitU32 x_chunk) o.xPos) |||
        (← shl c (addTwoZeroesBeforeEveryBitU32 y_chunk) o.yPos) |||
        (← shl c (addTwoZeroesBeforeEveryBitU32 z_chunk) o.zPos)
      let start_bit ← uadd c (← umul c k 63) (w % 3)
      let end_bit := min (← uadd c start_bit 63) w
      intSetBits c bits ⟨start_bit, end_bit⟩ (chunk.setWidth w)) = .ok bits' ∧
      ∀ i, i < w → bits'.getLsbD i =
        if w % 3 ≤ i ∧ (i - w % 3) / 63 = k then
          o.pick ((i - w % 3) % 3) (x.getLsbD ((i - w % 3) / 3)) (y.getLsbD ((i - w % 3) / 3)) (z.getLsbD ((i - w % 3) / 3))
        else bits.getLsbD i := by
  have hp := hc.le
  have hwl := hw.le
  have hwp := hw.pos
  have hW := hc.intWidth
  have hWp : 16 ≤ c.ptrBits := by rcases hc with h | h | h <;> omega
  have hpow : 2 ^ 16 ≤ 2 ^ c.ptrBits := Nat.pow_le_pow_right (by decide) hWp
  have a1 : k * 21 < 2 ^ c.ptrBits := by omega
  have a2 : k * 21 + 21 < 2 ^ c.ptrBits := by omega
  have a3 : k * 63 < 2 ^ c.ptrBits := by omega
  have a4 : k * 63 + w % 3 < 2 ^ c.ptrBits := by omega
  have a5 : k * 63 + w % 3 + 63 < 2 ^ c.ptrBits := by omega
  obtain ⟨y1, g1, e1⟩ := piece_ok (c := c) hW x (k * 21) (k * 21 + 21) 32 (by omega) (by omega) (by omega) (by omega)
  obtain ⟨y2, g2, e2⟩ := piece_ok (c := c) hW y (k * 21) (k * 21 + 21) 32 (by omega) (by omega) (by omega) (by omega)
  obtain ⟨y3, g3, e3⟩ := piece_ok (c := c) hW z (k * 21) (k * 21 + 21) 32 (by omega) (by omega) (by omega) (by omega)
  have px := o.xPos_lt
  have py := o.yPos_lt
  have pz := o.zPos_lt
  have s1 : o.xPos < 64 := by omega
  have s2 : o.yPos < 64 := by omega
  have s3 : o.zPos < 64 := by omega
  let chunk := (addTwoZeroesBeforeEveryBitU32 (y1.setWidth 32) <<< o.xPos) |||
        (addTwoZeroesBeforeEveryBitU32 (y2.setWidth 32) <<< o.yPos) |||
        (addTwoZeroesBeforeEveryBitU32 (y3.setWidth 32) <<< o.zPos)
  have hchunk : ∀ i, i < 64 → chunk.getLsbD i = o.pick (i % 3)
      (decide (i / 3 < 21) && x.getLsbD (k * 21 + i / 3)) (decide (i / 3 < 21) && y.getLsbD (k * 21 + i / 3))
      (decide (i / 3 < 21) && z.getLsbD (k * 21 + i / 3)) := by
    intro i hi
    apply pick_or
    · rw [spread32_shl _ _ px i hi, e1, Nat.add_sub_cancel_left, ← Bool.and_assoc, ← Bool.and_assoc, ← Bool.and_assoc,
        Bool.and_assoc (decide _) (decide _) (decide _), Bool.and_self]
    · rw [spread32_shl _ _ py i hi, e2, Nat.add_sub_cancel_left, ← Bool.and_assoc, ← Bool.and_assoc, ← Bool.and_assoc,
        Bool.and_assoc (decide _) (decide _) (decide _), Bool.and_self]
    · rw [spread32_shl _ _ pz i hi, e3, Nat.add_sub_cancel_left, ← Bool.and_assoc, ← Bool.and_assoc, ← Bool.and_assoc,
        Bool.and_assoc (decide _) (decide _) (decide _), Bool.and_self]
  obtain ⟨bits', g4, e4⟩ := intSetBits_ok (c := c) bits (k * 63 + w % 3) (min (k * 63 + w % 3 + 63) w) (chunk.setWidth w)
    (by omega) (by omega) (by omega)
  refine ⟨bits', ?_, ?_⟩
  · simp only [umul_ok a1, uadd_ok a2, g1, g2, g3, ok_bind, umul_ok a3, uadd_ok a4, uadd_ok a5, shl_ok s1, shl_ok s2, shl_ok s3]
    exact g4
  · intro i hi'
    rw [e4 i hi']
    by_cases h1 : w % 3 ≤ i ∧ (i - w % 3) / 63 = k
    · have q1 : k * 63 + w % 3 ≤ i := by omega
      have q2 : i < k * 63 + w % 3 + (min (k * 63 + w % 3 + 63) w - (k * 63 + w % 3)) := by omega
      have q3 : i - (k * 63 + w % 3) < w := by omega
      have q4 : (i - (k * 63 + w % 3)) % 3 = (i - w % 3) % 3 := by omega
      have q5 : (i - (k * 63 + w % 3)) / 3 < 21 := by omega
      have q6 : k * 21 + (i - (k * 63 + w % 3)) / 3 = (i - w % 3) / 3 := by omega
      rw [if_pos q1, if_pos q2, if_pos h1, BitVec.getLsbD_setWidth, hchunk _ (by omega), q4, q6, decide_eq_true q3,
        decide_eq_true q5]
      simp only [Bool.true_and]
    · rw [if_neg h1]
      by_cases q1 : k * 63 + w % 3 ≤ i
      · have q2 : ¬ i < k * 63 + w % 3 + (min (k * 63 + w % 3 + 63) w - (k * 63 + w % 3)) := by omega
        have q3 : chunk.getLsbD (i - (k * 63 + w % 3)) = false := by
          by_cases q4 : i - (k * 63 + w % 3) < 64
          · have q5 : ¬ (i - (k * 63 + w % 3)) / 3 < 21 := by omega
            rw [hchunk _ q4, decide_eq_false q5]
            simp only [Bool.false_and, OctantOrdering.pick, ite_self]
          · exact BitVec.getLsbD_of_ge _ _ (by omega)
        rw [if_pos q1, if_neg q2, BitVec.getLsbD_setWidth, q3]
        simp
      · rw [if_neg q1]

/-- The position of a bit of level `l`. -/
theorem level_pos {w l r : Nat} (hl : l < w / 3) :
    w - (l + 1) * 3 + r = w % 3 + 3 * (w / 3 - 1 - l) + r := by omega

/-- Fixed depth. -/
theorem fixedFromGridIndex_bits (hc : c.Supported) (hw : IntWidth w) (hW21 : 21 ≤ c.ptrBits)
    (hfit : w / dim Octant < c.ptrBits) (g : Vector3 c.ptrBits) (o : OctantOrdering) :
    ∃ m, fixedFromGridIndex c w g o = .ok m ∧ ∀ i, i < w → m.storage.bits.getLsbD i =
      (decide (w % 3 ≤ i) && o.pick ((i - w % 3) % 3) (g.x.getLsbD ((i - w % 3) / 3)) (g.y.getLsbD ((i - w % 3) / 3))
        (g.z.getLsbD ((i - w % 3) / 3))) := by
  have hp := hc.le
  have hwl := hw.le
  have hwp := hw.pos
  have hW := hc.intWidth
  have hWl := hW.le
  obtain ⟨mask, gm, em⟩ := maxLevelsBitmask_ok hfit
  rw [dim_Octant] at *
  have hM : FixedDepthStorage.MAX_LEVELS w Octant = w / 3 := rfl
  have hD : Dimension.DIMENSIONALITY Octant = 3 := rfl
  have hnot : ¬ w / 3 > c.ptrBits := by omega
  have a1 : w / 3 + 20 < 2 ^ c.ptrBits := by omega
  have mk : ∀ v : BitVec c.ptrBits, ∀ i, (v &&& mask).getLsbD i = (v.getLsbD i && decide (i < w / 3)) := by
    intro v i
    rw [BitVec.getLsbD_and, em]
  let P : Nat → BitVec w → Prop := fun k bits => ∀ i, i < w → bits.getLsbD i =
    (decide (w % 3 ≤ i) && decide ((i - w % 3) / 63 < k) && o.pick ((i - w % 3) % 3) ((g.x &&& mask).getLsbD ((i - w % 3) / 3))
      ((g.y &&& mask).getLsbD ((i - w % 3) / 3)) ((g.z &&& mask).getLsbD ((i - w % 3) / 3)))
  obtain ⟨bits, h1, h2⟩ := forRange_invariant (a := 0) (b := (w / 3 + 20) / 21) (init := 0#w)
    (body := fun chunk_index bits => do
      let start_bit ← umul c chunk_index 21
      let end_bit ← uadd c start_bit 21
      let x_chunk := (← intGetBits c (g.x &&& mask) ⟨start_bit, end_bit⟩).setWidth 32
      let y_chunk := (← intGetBits c (g.y &&& mask) ⟨start_bit, end_bit⟩).setWidth 32
      let z_chunk := (← intGetBits c (g.z &&& mask) ⟨start_bit, end_bit⟩).setWidth 32
      let chunk := (← shl c (addTwoZeroesBeforeEveryBitU32 x_chunk) o.xPos) |||
        (← shl c (addTwoZeroesBeforeEveryBitU32 y_chunk) o.yPos) |||
        (← shl c (addTwoZeroesBeforeEveryBitU32 z_chunk) o.zPos)
      let start_bit ← uadd c (← umul c chunk_index 63) (w % 3)
      let end_bit := min (← uadd c start_bit 63) w
      intSetBits c bits ⟨start_bit, end_bit⟩ (chunk.setWidth w))
    P (by omega) (by intro i _; simp) (by
      intro k bits _ hk hP
      obtain ⟨bits', e1, e2⟩ := fixed_chunk_step hc hw hW21 o (g.x &&& mask) (g.y &&& mask) (g.z &&& mask) k hk bits
      refine ⟨bits', e1, ?_⟩
      intro i hi
      rw [e2 i hi]
      by_cases h0 : w % 3 ≤ i
      · by_cases h : (i - w % 3) / 63 = k
        · rw [if_pos ⟨h0, h⟩, decide_eq_true h0, decide_eq_true (by omega), Bool.true_and, Bool.true_and]
        · rw [if_neg (fun hh => h hh.2), hP i hi,
            show decide ((i - w % 3) / 63 < k + 1) = decide ((i - w % 3) / 63 < k) by rw [decide_eq_decide]; omega]
      · rw [if_neg (fun hh => h0 hh.1), hP i hi, decide_eq_false h0]
        simp)
  refine ⟨⟨⟨bits⟩⟩, ?_, ?_⟩
  · unfold fixedFromGridIndex
    simp only [gm, hM, hD, hnot, if_false, ok_bind, uadd_ok a1, pure_eq_ok]
    change (forRange 0 ((w / 3 + 20) / 21) (0#w) _ >>= _) = _
    erw [h1]
    rfl
  · intro i hi
    change bits.getLsbD i = _
    rw [h2 i hi, mk, mk, mk]
    by_cases h0 : w % 3 ≤ i
    · have q1 : (i - w % 3) / 63 < (w / 3 + 20) / 21 := by omega
      have q2 : (i - w % 3) / 3 < w / 3 := by omega
      simp only [decide_eq_true q1, decide_eq_true q2, Bool.and_true]
    · rw [decide_eq_false h0]
      simp

theorem fixedFromGridIndex_ok (hc : c.Supported) (hw : IntWidth w) (hW21 : 21 ≤ c.ptrBits)
    (hfit : w / dim Octant < c.ptrBits) (g : Vector3 c.ptrBits) (o : OctantOrdering) :
    ∃ m, fixedFromGridIndex c w g o = .ok m ∧ TailZero m.storage ∧
      GridPath3 o g (w / dim Octant) m.storage := by
  obtain ⟨m, h1, h2⟩ := fixedFromGridIndex_bits hc hw hW21 hfit g o
  refine ⟨m, h1, ?_, ?_⟩
  · intro i hi
    change i < w - w / 3 * 3 at hi
    change m.storage.bits.getLsbD i = false
    rw [h2 i (by omega), decide_eq_false (by omega), Bool.false_and]
  · intro l hl
    rw [dim_Octant] at hl
    apply gridCell3_of_bits (by omega)
    intro r hr
    change m.storage.bits.getLsbD (w - (l + 1) * 3 + r) = _
    rw [level_pos hl, h2 _ (by omega), decide_eq_true (by omega), Bool.true_and]
    have e1 : (w % 3 + 3 * (w / 3 - 1 - l) + r - w % 3) % 3 = r := by omega
    have e2 : (w % 3 + 3 * (w / 3 - 1 - l) + r - w % 3) / 3 = w / 3 - 1 - l := by omega
    rw [e1, e2]
    rfl

theorem fixedFromGridIndex_error (hfit : c.ptrBits ≤ w / dim Octant) (g : Vector3 c.ptrBits) (o : OctantOrdering) :
    fixedFromGridIndex c w g o = .error .compileError := by
  unfold fixedFromGridIndex
  rw [maxLevelsBitmask_error hfit]
  rfl

/-- The specialised `u64` constructor computes the same as the generic one. -/
theorem fixedFromGridIndexFast_eq (hc : c.Supported) (hW21 : 21 < c.ptrBits) (g : Vector3 c.ptrBits) (o : OctantOrdering) :
    fixedFromGridIndexFast c g o = fixedFromGridIndex c 64 g o := by
  have hWp : 16 ≤ c.ptrBits := by rcases hc with h | h | h <;> omega
  have hfit : 64 / dim Octant < c.ptrBits := hW21
  obtain ⟨m, h1, h2⟩ := fixedFromGridIndex_bits hc (w := 64) (by decide) (by omega) hfit g o
  obtain ⟨mask, gm, em⟩ := maxLevelsBitmask_ok (w := 64) hfit
  have hnot : ¬ FixedDepthStorage.MAX_LEVELS 64 Octant > c.ptrBits := by change ¬ 64 / 3 > c.ptrBits; omega
  have px := o.xPos_lt
  have py := o.yPos_lt
  have pz := o.zPos_lt
  have s1 : o.xPos < 64 := by omega
  have s2 : o.yPos < 64 := by omega
  have s3 : o.zPos < 64 := by omega
  have s4 : (1 : Nat) < 64 := by omega
  rw [h1]
  unfold fixedFromGridIndexFast
  simp only [gm, ok_bind, hnot, if_false, pure_eq_ok]
  change (shl c _ o.xPos >>= fun a => shl c _ o.yPos >>= fun b => shl c _ o.zPos >>= fun d => _) = _
  simp only [shl_ok s1, shl_ok s2, shl_ok s3, shl_ok s4, ok_bind]
  congr 1
  obtain ⟨⟨mb⟩⟩ := m
  congr 2
  apply BitVec.eq_of_getLsbD_eq
  intro i hi
  rw [show mb.getLsbD i = _ from h2 i hi]
  have mk : ∀ v : BitVec c.ptrBits, ∀ i, ((v &&& mask).setWidth 32).getLsbD i = (decide (i < 21) && v.getLsbD i) := by
    intro v i
    rw [BitVec.getLsbD_setWidth, BitVec.getLsbD_and, em, show 64 / dim Octant = 21 from rfl]
    by_cases h : i < 21
    · have : i < 32 := by omega
      simp [h, this]
    · simp [h]
  rw [BitVec.getLsbD_shiftLeft, decide_eq_true hi, Bool.true_and]
  by_cases h0 : i < 1
  · have : ¬ 64 % 3 ≤ i := by omega
    rw [decide_eq_true h0, decide_eq_false this]
    simp
  · have h0' : 64 % 3 ≤ i := by omega
    rw [decide_eq_false h0, decide_eq_true h0']
    simp only [Bool.not_false, Bool.true_and]
    have q : (i - 1) / 3 < 21 := by omega
    apply pick_or
    · rw [spread32_shl _ _ px _ (by omega), mk, decide_eq_true q, Bool.true_and, Bool.true_and]
    · rw [spread32_shl _ _ py _ (by omega), mk, decide_eq_true q, Bool.true_and, Bool.true_and]
    · rw [spread32_shl _ _ pz _ (by omega), mk, decide_eq_true q, Bool.true_and, Bool.true_and]

/-- One chunk of the static loop. -/
theorem static_chunk_step (hc : c.Supported) (hw : IntWidth w) (o : OctantOrdering)
    (x y z : BitVec c.ptrBits) (k : Nat) (hk : k < (w / 3 + 7) / 8) (bits : BitVec w) :
    ∃ bits', (do
      let start_bit ← umul c k 8
      let end_bit ← uadd c start_bit 8
      let x_chunk := (← intGetBits c x ⟨start_bit, end_bit⟩).setWidth 8
      let y_chunk := (← intGetBits c y ⟨start_bit, end_bit⟩).setWidth 8
      let z_chunk := (← intGetBits c z ⟨start_bit, end_bit⟩).setWidth 8
      let chunk := (← shl c (addTwoZeroesBeforeEveryBitU8 x_chunk) o.xPos) |||
        (← shl c (addTwoZeroesBeforeEveryBitU8 y_chunk) o.yPos) |||
        (← shl c (addTwoZeroesBeforeEveryBitU8 z_chunk) o.zPos)
      let start_bit ← uadd c (← umul c k 24) (w % 3)
      let end_bit := min (← uadd c start_bit 24) w
      intSetBits c bits ⟨start_bit, end_bit⟩ (chunk.setWidth w)) = .ok bits' ∧
      ∀ i, i < w → bits'.getLsbD i =
        if w % 3 ≤ i ∧ (i - w % 3) / 24 = k then
          o.pick ((i - w % 3) % 3) (x.getLsbD ((i - w % 3) / 3)) (y.getLsbD ((i - w % 3) / 3)) (z.getLsbD ((i - w % 3) / 3))
        else bits.getLsbD i := by
  have hp := hc.le
  have hwl := hw.le
  have hwp := hw.pos
  have hW := hc.intWidth
  have hWp : 16 ≤ c.ptrBits := by rcases hc with h | h | h <;> omega
  have hpow : 2 ^ 16 ≤ 2 ^ c.ptrBits := Nat.pow_le_pow_right (by decide) hWp
  have a1 : k * 8 < 2 ^ c.ptrBits := by omega
  have a2 : k * 8 + 8 < 2 ^ c.ptrBits := by omega
  have a3 : k * 24 < 2 ^ c.ptrBits := by omega
  have a4 : k * 24 + w % 3 < 2 ^ c.ptrBits := by omega
  have a5 : k * 24 + w % 3 + 24 < 2 ^ c.ptrBits := by omega
  obtain ⟨y1, g1, e1⟩ := piece_ok (c := c) hW x (k * 8) (k * 8 + 8) 8 (by omega) (by omega) (by omega) (by omega)
  obtain ⟨y2, g2, e2⟩ := piece_ok (c := c) hW y (k * 8) (k * 8 + 8) 8 (by omega) (by omega) (by omega) (by omega)
  obtain ⟨y3, g3, e3⟩ := piece_ok (c := c) hW z (k * 8) (k * 8 + 8) 8 (by omega) (by omega) (by omega) (by omega)
  have px := o.xPos_lt
  have py := o.yPos_lt
  have pz := o.zPos_lt
  have s1 : o.xPos < 32 := by omega
  have s2 : o.yPos < 32 := by omega
  have s3 : o.zPos < 32 := by omega
  let chunk := (addTwoZeroesBeforeEveryBitU8 (y1.setWidth 8) <<< o.xPos) |||
        (addTwoZeroesBeforeEveryBitU8 (y2.setWidth 8) <<< o.yPos) |||
        (addTwoZeroesBeforeEveryBitU8 (y3.setWidth 8) <<< o.zPos)
  have hchunk : ∀ i, i < 32 → chunk.getLsbD i = o.pick (i % 3)
      (decide (i / 3 < 8) && x.getLsbD (k * 8 + i / 3)) (decide (i / 3 < 8) && y.getLsbD (k * 8 + i / 3))
      (decide (i / 3 < 8) && z.getLsbD (k * 8 + i / 3)) := by
    intro i hi
    apply pick_or
    · rw [spread8_shl _ _ px i hi, e1, Nat.add_sub_cancel_left]
    · rw [spread8_shl _ _ py i hi, e2, Nat.add_sub_cancel_left]
    · rw [spread8_shl _ _ pz i hi, e3, Nat.add_sub_cancel_left]
  obtain ⟨bits', g4, e4⟩ := intSetBits_ok (c := c) bits (k * 24 + w % 3) (min (k * 24 + w % 3 + 24) w) (chunk.setWidth w)
    (by omega) (by omega) (by omega)
  refine ⟨bits', ?_, ?_⟩
  · simp only [umul_ok a1, uadd_ok a2, g1, g2, g3, ok_bind, umul_ok a3, uadd_ok a4, uadd_ok a5, shl_ok s1, shl_ok s2, shl_ok s3]
    exact g4
  · intro i hi'
    rw [e4 i hi']
    by_cases h1 : w % 3 ≤ i ∧ (i - w % 3) / 24 = k
    · have q1 : k * 24 + w % 3 ≤ i := by omega
      have q2 : i < k * 24 + w % 3 + (min (k * 24 + w % 3 + 24) w - (k * 24 + w % 3)) := by omega
      have q3 : i - (k * 24 + w % 3) < w := by omega
      have q4 : (i - (k * 24 + w % 3)) % 3 = (i - w % 3) % 3 := by omega
      have q5 : (i - (k * 24 + w % 3)) / 3 < 8 := by omega
      have q6 : k * 8 + (i - (k * 24 + w % 3)) / 3 = (i - w % 3) / 3 := by omega
      rw [if_pos q1, if_pos q2, if_pos h1, BitVec.getLsbD_setWidth, hchunk _ (by omega), q4, q6, decide_eq_true q3,
        decide_eq_true q5]
      simp only [Bool.true_and]
    · rw [if_neg h1]
      by_cases q1 : k * 24 + w % 3 ≤ i
      · have q2 : ¬ i < k * 24 + w % 3 + (min (k * 24 + w % 3 + 24) w - (k * 24 + w % 3)) := by omega
        have q3 : chunk.getLsbD (i - (k * 24 + w % 3)) = false := by
          by_cases q4 : i - (k * 24 + w % 3) < 32
          · have q5 : ¬ (i - (k * 24 + w % 3)) / 3 < 8 := by omega
            rw [hchunk _ q4, decide_eq_false q5]
            simp only [Bool.false_and, OctantOrdering.pick, ite_self]
          · exact BitVec.getLsbD_of_ge _ _ (by omega)
        rw [if_pos q1, if_neg q2, BitVec.getLsbD_setWidth, q3]
        simp
      · rw [if_neg q1]

/-- The levels `static from_grid_index` gets right: those whose bit lies in a chunk the loop visits. -/
def staticVisited (w gd l : Nat) : Prop := 8 * ((w / 3 + 7) / 8 - (gd + 7) / 8) ≤ w / 3 - 1 - l

instance (w gd l : Nat) : Decidable (staticVisited w gd l) := by unfold staticVisited; infer_instance

/-- Static: the loop, once the coordinates have been shifted. -/
theorem staticFromGridIndex_bits (hc : c.Supported) (hw : IntWidth w)
    (g : Vector3 c.ptrBits) (gd : Nat) (hgd : gd ≤ w / 3) (o : OctantOrdering) {x0 x y0 y z0 z : BitVec c.ptrBits}
    (gx0 : intGetBits c g.x ⟨0, gd⟩ = .ok x0) (gx : shl c x0 (w / 3 - gd) = .ok x)
    (gy0 : intGetBits c g.y ⟨0, gd⟩ = .ok y0) (gy : shl c y0 (w / 3 - gd) = .ok y)
    (gz0 : intGetBits c g.z ⟨0, gd⟩ = .ok z0) (gz : shl c z0 (w / 3 - gd) = .ok z) :
    ∃ bits : BitVec w, staticFromGridIndex c w g gd o = .ok (.ok ⟨⟨bits, gd⟩⟩) ∧ ∀ i, i < w → bits.getLsbD i =
      (decide (w % 3 ≤ i) && decide ((w / 3 + 7) / 8 - (gd + 7) / 8 ≤ (i - w % 3) / 24) &&
        o.pick ((i - w % 3) % 3) (x.getLsbD ((i - w % 3) / 3)) (y.getLsbD ((i - w % 3) / 3))
          (z.getLsbD ((i - w % 3) / 3))) := by
  have hp := hc.le
  have hwl := hw.le
  have hwp := hw.pos
  have hWl := hc.intWidth.le
  have hWp : 16 ≤ c.ptrBits := by rcases hc with h | h | h <;> omega
  have hsmall : asU8 gd = gd := Nat.mod_eq_of_lt (StaticStorage3D.depth_small hw hgd)
  have hM : FixedDepthStorage.MAX_LEVELS w Octant = w / 3 := rfl
  have hD : Dimension.DIMENSIONALITY Octant = 3 := rfl
  have hnot : ¬ gd > w / 3 := by omega
  have a1 : gd + 7 < 2 ^ c.ptrBits := by omega
  have a2 : w / 3 + 7 < 2 ^ c.ptrBits := by omega
  have a4 : (gd + 7) / 8 ≤ (w / 3 + 7) / 8 := by omega
  have a5 : gd ≤ w / 3 := hgd
  let P : Nat → BitVec w → Prop := fun k bits => ∀ i, i < w → bits.getLsbD i =
    (decide (w % 3 ≤ i) && decide (k ≤ (i - w % 3) / 24) && o.pick ((i - w % 3) % 3) (x.getLsbD ((i - w % 3) / 3))
      (y.getLsbD ((i - w % 3) / 3)) (z.getLsbD ((i - w % 3) / 3)))
  obtain ⟨bits, h1, h2⟩ := forRangeRev_invariant (a := (w / 3 + 7) / 8 - (gd + 7) / 8) (b := (w / 3 + 7) / 8) (init := 0#w)
    (body := fun chunk_index bits => do
      let start_bit ← umul c chunk_index 8
      let end_bit ← uadd c start_bit 8
      let x_chunk := (← intGetBits c x ⟨start_bit, end_bit⟩).setWidth 8
      let y_chunk := (← intGetBits c y ⟨start_bit, end_bit⟩).setWidth 8
      let z_chunk := (← intGetBits c z ⟨start_bit, end_bit⟩).setWidth 8
      let chunk := (← shl c (addTwoZeroesBeforeEveryBitU8 x_chunk) o.xPos) |||
        (← shl c (addTwoZeroesBeforeEveryBitU8 y_chunk) o.yPos) |||
        (← shl c (addTwoZeroesBeforeEveryBitU8 z_chunk) o.zPos)
      let start_bit ← uadd c (← umul c chunk_index 24) (w % 3)
      let end_bit := min (← uadd c start_bit 24) w
      intSetBits c bits ⟨start_bit, end_bit⟩ (chunk.setWidth w))
    P (by omega) (by
      intro i hi
      have : ¬ (w / 3 + 7) / 8 ≤ (i - w % 3) / 24 := by omega
      rw [decide_eq_false this]
      simp) (by
      intro k bits hk0 hk hP
      obtain ⟨bits', e1, e2⟩ := static_chunk_step hc hw o x y z k hk bits
      refine ⟨bits', e1, ?_⟩
      intro i hi
      rw [e2 i hi]
      by_cases h0 : w % 3 ≤ i
      · by_cases h : (i - w % 3) / 24 = k
        · rw [if_pos ⟨h0, h⟩, decide_eq_true h0, decide_eq_true (by omega), Bool.true_and, Bool.true_and]
        · rw [if_neg (fun hh => h hh.2), hP i hi,
            show decide (k + 1 ≤ (i - w % 3) / 24) = decide (k ≤ (i - w % 3) / 24) by rw [decide_eq_decide]; omega]
      · rw [if_neg (fun hh => h0 hh.1), hP i hi, decide_eq_false h0]
        simp)
  refine ⟨bits, ?_, h2⟩
  unfold staticFromGridIndex
  simp only [hM, hD, hnot, if_false, usub_ok a5, gx0, gx, gy0, gy, gz0, gz, ok_bind, uadd_ok a1, uadd_ok a2, usub_ok a4,
    pure_eq_ok, hsmall]
  change (forRangeRev _ _ (0#w) _ >>= _) = _
  erw [h1]
  rfl

/-- Static: exactly which cells come out. -/
theorem staticFromGridIndex_ok (hc : c.Supported) (hw : IntWidth w) (hfit : w / dim Octant ≤ c.ptrBits)
    (g : Vector3 c.ptrBits) (gd : Nat) (hgd : gd ≤ w / dim Octant)
    (hs : w / dim Octant - gd < c.ptrBits ∨ c.overflowChecks = false) (o : OctantOrdering) :
    ∃ m, staticFromGridIndex c w g gd o = .ok (.ok m) ∧ m.storage.depth = gd ∧ TailZero m.storage ∧
      ∀ l, l < gd → if staticVisited w gd l then GridCell3 o g (gd - 1 - l) (slot m.storage l)
        else slot m.storage l = .Zero := by
  have hp := hc.le
  have hwl := hw.le
  have hwp := hw.pos
  have hW := hc.intWidth
  have hWl := hW.le
  have hWp : 16 ≤ c.ptrBits := by rcases hc with h | h | h <;> omega
  rw [dim_Octant] at *
  obtain ⟨x0, x, gx0, gx, ex⟩ := MortonIndex2D.shifted_ok hW g.x hgd hfit hs
  obtain ⟨y0, y, gy0, gy, ey⟩ := MortonIndex2D.shifted_ok hW g.y hgd hfit hs
  obtain ⟨z0, z, gz0, gz, ez⟩ := MortonIndex2D.shifted_ok hW g.z hgd hfit hs
  obtain ⟨bits, h1, h2⟩ := staticFromGridIndex_bits hc hw g gd hgd o gx0 gx gy0 gy gz0 gz
  have zero : ∀ i, i < w / 3 - gd → ∀ r, o.pick r (x.getLsbD i) (y.getLsbD i) (z.getLsbD i) = false := by
    intro i hi r
    rw [ex, ey, ez, decide_eq_false (by omega)]
    simp [OctantOrdering.pick]
  refine ⟨⟨⟨bits, gd⟩⟩, ?_, rfl, ?_, ?_⟩
  · exact h1
  · intro i hi
    change i < w - gd * 3 at hi
    change bits.getLsbD i = false
    rw [h2 i (by omega)]
    by_cases h0 : w % 3 ≤ i
    · rw [zero _ (by omega), Bool.and_false]
    · rw [decide_eq_false h0]; simp
  · intro l hl
    have key : ∀ r, r < 3 → bits.toNat.testBit (w - (l + 1) * 3 + r) =
        (decide (staticVisited w gd l) && o.pick r (x.getLsbD (w / 3 - 1 - l)) (y.getLsbD (w / 3 - 1 - l))
          (z.getLsbD (w / 3 - 1 - l))) := by
      intro r hr
      rw [← getLsbD_eq_testBit, level_pos (by omega), h2 _ (by omega), decide_eq_true (by omega), Bool.true_and]
      have e1 : (w % 3 + 3 * (w / 3 - 1 - l) + r - w % 3) % 3 = r := by omega
      have e2 : (w % 3 + 3 * (w / 3 - 1 - l) + r - w % 3) / 3 = w / 3 - 1 - l := by omega
      rw [e1, e2]
      congr 1
      rw [decide_eq_decide]
      unfold staticVisited
      omega
    by_cases hv : staticVisited w gd l
    · rw [if_pos hv]
      apply gridCell3_of_bits (by omega)
      intro r hr
      change bits.toNat.testBit (w - (l + 1) * 3 + r) = _
      rw [key r hr, decide_eq_true hv, Bool.true_and, ex, ey, ez, decide_eq_true (by omega), decide_eq_true (by omega),
        show w / 3 - 1 - l - (w / 3 - gd) = gd - 1 - l by omega]
      simp only [Bool.true_and]
    · rw [if_neg hv]
      apply toUsize_inj
      rw [slot_ofNat]
      apply Nat.eq_of_testBit_eq
      intro j
      rw [testBit_digit, dim_Octant]
      change (decide (j < 3) && bits.toNat.testBit (w - (l + 1) * 3 + j)) = (0 : Nat).testBit j
      rw [Nat.zero_testBit]
      by_cases hj : j < 3
      · rw [key j hj, decide_eq_false hv]; simp
      · simp [hj]

theorem staticFromGridIndex_error (g : Vector3 c.ptrBits) (gd : Nat) (hgd : gd > w / dim Octant)
    (o : OctantOrdering) :
    staticFromGridIndex c w g gd o = .ok (.error (.DepthLimitedExceeded (w / dim Octant))) := by
  have : gd > FixedDepthStorage.MAX_LEVELS w Octant := hgd
  simp only [staticFromGridIndex, this, if_true, pure_eq_ok]
  rfl

/-- The depth of whatever `from_grid_index` returns, on any target. -/
theorem staticFromGridIndex_depth (hw : IntWidth w) {g : Vector3 c.ptrBits} {gd : Nat} {o : OctantOrdering}
    {m : MortonIndex3D (StaticStorage3D w)} (h : staticFromGridIndex c w g gd o = .ok (.ok m)) :
    m.storage.depth = gd ∧ gd ≤ w / dim Octant := by
  by_cases hgd : gd > w / dim Octant
  · rw [staticFromGridIndex_error g gd hgd o] at h
    simp at h
  · have hgd' : ¬ gd > FixedDepthStorage.MAX_LEVELS w Octant := hgd
    have hsmall : asU8 gd = gd := Nat.mod_eq_of_lt (StaticStorage3D.depth_small hw (by omega))
    refine ⟨?_, by omega⟩
    unfold staticFromGridIndex at h
    simp only [hgd', if_false, hsmall] at h
    iterate 11 obtain ⟨_, -, h⟩ := bind_eq_ok h
    simp only [pure_eq_ok, Except.ok.injEq] at h
    rw [← h]

/-- The octant built from one bit per coordinate. -/
theorem octant_of_bits {W : Nat} (hW : 16 ≤ W) (o : OctantOrdering) (x y z : BitVec W) (i : Nat) (hi : i < W) :
    ∃ a b d q, (shl c ((x >>> i) &&& 1#W) o.xPos = .ok a) ∧ (shl c ((y >>> i) &&& 1#W) o.yPos = .ok b) ∧
      (shl c ((z >>> i) &&& 1#W) o.zPos = .ok d) ∧ Octant.tryFromUsize (a ||| b ||| d).toNat = .ok q ∧
      (o.toIndex W q).x.getLsbD 0 = x.getLsbD i ∧ (o.toIndex W q).y.getLsbD 0 = y.getLsbD i ∧
      (o.toIndex W q).z.getLsbD 0 = z.getLsbD i := by
  have s1 : o.xPos < W := by have := o.xPos_lt; omega
  have s2 : o.yPos < W := by have := o.yPos_lt; omega
  have s3 : o.zPos < W := by have := o.zPos_lt; omega
  have one : ∀ (v : BitVec W) (s : Nat), s < 3 → ∀ j, (((v >>> i) &&& 1#W) <<< s).getLsbD j = (decide (j = s) && v.getLsbD i) := by
    intro v s hs j
    rw [BitVec.getLsbD_shiftLeft, BitVec.getLsbD_and, BitVec.getLsbD_ushiftRight, BitVec.getLsbD_one]
    by_cases h : j = s
    · subst h
      have h2 : j < W := by omega
      have h3 : 0 < W := by omega
      simp [h2, h3]
    · by_cases h1 : j < s
      · simp [h, h1]
      · have : j - s ≠ 0 := by omega
        simp [h, this]
  let n := (((x >>> i) &&& 1#W) <<< o.xPos ||| ((y >>> i) &&& 1#W) <<< o.yPos ||| ((z >>> i) &&& 1#W) <<< o.zPos).toNat
  have hn : ∀ j, n.testBit j = ((decide (j = o.xPos) && x.getLsbD i) || (decide (j = o.yPos) && y.getLsbD i) ||
      (decide (j = o.zPos) && z.getLsbD i)) := by
    intro j
    change BitVec.getLsbD _ j = _
    rw [BitVec.getLsbD_or, BitVec.getLsbD_or, one _ _ o.xPos_lt, one _ _ o.yPos_lt, one _ _ o.zPos_lt]
  have hlt : n < 8 := by
    apply Nat.lt_pow_two_of_testBit (n := 3)
    intro j hj
    have h1 := o.xPos_lt
    have h2 := o.yPos_lt
    have h3 := o.zPos_lt
    rw [hn, decide_eq_false (by omega), decide_eq_false (by omega), decide_eq_false (by omega)]
    rfl
  have hq : Octant.tryFromUsize n = .ok (octantOfNat n) ∧ Dimension.toUsize (octantOfNat n) = n := by
    clear_value n
    revert n
    intro n _ hlt
    match n, hlt with
    | 0, _ | 1, _ | 2, _ | 3, _ | 4, _ | 5, _ | 6, _ | 7, _ => exact ⟨rfl, rfl⟩
    | n + 8, h => omega
  obtain ⟨e1, e2, e3⟩ := o.toIndex_getLsbD (W := W) (by omega) (octantOfNat n)
  refine ⟨_, _, _, octantOfNat n, shl_ok s1, shl_ok s2, shl_ok s3, hq.1, ?_, ?_, ?_⟩
  · rw [e1, hq.2, hn]
    cases o <;> simp [OctantOrdering.xPos, OctantOrdering.yPos, OctantOrdering.zPos, OctantOrdering.getBitShiftsForXyz]
  · rw [e2, hq.2, hn]
    cases o <;> simp [OctantOrdering.xPos, OctantOrdering.yPos, OctantOrdering.zPos, OctantOrdering.getBitShiftsForXyz]
  · rw [e3, hq.2, hn]
    cases o <;> simp [OctantOrdering.xPos, OctantOrdering.yPos, OctantOrdering.zPos, OctantOrdering.getBitShiftsForXyz]

/-- `DynamicStorage3D::zeroed`. -/
theorem dynamic_zeroed_ok (d : Nat) (ha : Addressable c (d * dim Octant)) :
    DynamicStorage3D.zeroed c d = .ok ⟨List.replicate (DynamicStorage3D.numBytes d) 0#8, d⟩ ∧
      DynamicStorage3D.Canon c ⟨List.replicate (DynamicStorage3D.numBytes d) 0#8, d⟩ := by
  have ha' := ha
  unfold Addressable at ha'
  rw [dim_Octant] at ha'
  have a1 : d * 3 < 2 ^ c.ptrBits := by omega
  have a2 : d * 3 + 7 < 2 ^ c.ptrBits := by omega
  refine ⟨?_, ha, by simp, fun i _ => DynamicStorage3D.zero_bits _ _ i⟩
  simp only [DynamicStorage3D.zeroed, umul_ok a1, uadd_ok a2, ok_bind, pure_eq_ok]
  rfl

/-- Dynamic. -/
theorem dynamicFromGridIndex_ok (hc : c.Supported) (g : Vector3 c.ptrBits) (gd : Nat) (hgd : gd ≤ c.ptrBits / 2)
    (o : OctantOrdering) :
    ∃ m, dynamicFromGridIndex c g gd o = .ok m ∧ m.storage.depth = gd ∧ DynamicStorage3D.Canon c m.storage ∧
      (DynWrites c → GridPath3 o g gd m.storage) := by
  have hp := hc.le
  have hW := hc.intWidth
  have hWl := hW.le
  have hWp : 16 ≤ c.ptrBits := by rcases hc with h | h | h <;> omega
  have hnot : ¬ gd > c.ptrBits / 2 := by omega
  have ha : Addressable c (gd * dim Octant) := addressable_of_le hc (by rw [dim_Octant]; omega)
  obtain ⟨hz, hcan⟩ := dynamic_zeroed_ok (c := c) gd ha
  obtain ⟨x, gx, ex⟩ := intGetBits_ok (c := c) g.x 0 gd (by omega) (by omega) (Nat.two_pow_pos _) (by omega)
  obtain ⟨y, gy, ey⟩ := intGetBits_ok (c := c) g.y 0 gd (by omega) (by omega) (Nat.two_pow_pos _) (by omega)
  obtain ⟨z, gz, ez⟩ := intGetBits_ok (c := c) g.z 0 gd (by omega) (by omega) (Nat.two_pow_pos _) (by omega)
  have step : ∀ i, i < c.ptrBits → ∃ q : Octant, (∃ a b d, shl c ((x >>> i) &&& 1#c.ptrBits) o.xPos = .ok a ∧
      shl c ((y >>> i) &&& 1#c.ptrBits) o.yPos = .ok b ∧ shl c ((z >>> i) &&& 1#c.ptrBits) o.zPos = .ok d ∧
      Octant.tryFromUsize (a ||| b ||| d).toNat = .ok q) ∧
      (o.toIndex c.ptrBits q).x.getLsbD 0 = x.getLsbD i ∧ (o.toIndex c.ptrBits q).y.getLsbD 0 = y.getLsbD i ∧
      (o.toIndex c.ptrBits q).z.getLsbD 0 = z.getLsbD i := by
    intro i hi
    obtain ⟨a, b, d, q, h1, h2, h3, h4, h5⟩ := octant_of_bits (c := c) hWp o x y z i hi
    exact ⟨q, ⟨a, b, d, h1, h2, h3, h4⟩, h5⟩
  have hex : ∀ l, ∃ q : Octant, l < gd → ((∃ a b d, shl c ((x >>> (gd - l - 1)) &&& 1#c.ptrBits) o.xPos = .ok a ∧
      shl c ((y >>> (gd - l - 1)) &&& 1#c.ptrBits) o.yPos = .ok b ∧ shl c ((z >>> (gd - l - 1)) &&& 1#c.ptrBits) o.zPos = .ok d ∧
      Octant.tryFromUsize (a ||| b ||| d).toNat = .ok q) ∧
      (o.toIndex c.ptrBits q).x.getLsbD 0 = x.getLsbD (gd - l - 1) ∧ (o.toIndex c.ptrBits q).y.getLsbD 0 = y.getLsbD (gd - l - 1) ∧
      (o.toIndex c.ptrBits q).z.getLsbD 0 = z.getLsbD (gd - l - 1)) := by
    intro l
    by_cases hl : l < gd
    · obtain ⟨q, h⟩ := step (gd - l - 1) (by omega)
      exact ⟨q, fun _ => h⟩
    · exact ⟨.Zero, fun h => absurd h hl⟩
  obtain ⟨f, hf⟩ := Classical.axiomOfChoice hex
  obtain ⟨s, h1, h2, h3, h4, h5, h6, h7⟩ := set_range (c := c) hc 0 gd f (Nat.zero_le _)
    (⟨List.replicate (DynamicStorage3D.numBytes gd) 0#8, gd⟩ : DynamicStorage3D) hcan.inv.wf.fit hcan.inv.wf.depth_le
    (fun level ret => do
      let shift ← usub c (← usub c gd level) 1
      let x_bit ← shl c ((← shr c x shift) &&& 1#c.ptrBits) o.xPos
      let y_bit ← shl c ((← shr c y shift) &&& 1#c.ptrBits) o.yPos
      let z_bit ← shl c ((← shr c z shift) &&& 1#c.ptrBits) o.zPos
      let octant ← unwrapResult (Octant.tryFromUsize (x_bit ||| y_bit ||| z_bit).toNat)
      Storage.setCellAtLevelUnchecked c ret level octant) (by
      intro l t _ hl _
      obtain ⟨⟨a, b, d, k1, k2, k3, k4⟩, -⟩ := hf l hl
      have b1 : l ≤ gd := by omega
      have b2 : 1 ≤ gd - l := by omega
      have b3 : gd - l - 1 < c.ptrBits := by omega
      simp only [usub_ok b1, usub_ok b2, shr_ok b3, ok_bind, k1, k2, k3, k4, unwrapResult])
  have hd : s.depth = gd := h4
  refine ⟨⟨s⟩, ?_, hd, ⟨?_, ?_, ?_⟩, ?_⟩
  · unfold dynamicFromGridIndex
    simp only [hnot, if_false, gx, gy, gz, ok_bind, hz]
    change (forRange 0 gd _ _ >>= _) = _
    erw [h1]
    rfl
  · change Addressable c (s.depth * _); rw [hd]; exact ha
  · have : 8 * s.bits.length = 8 * (List.replicate (DynamicStorage3D.numBytes gd) 0#8).length := h3
    rw [List.length_replicate] at this
    change s.bits.length = DynamicStorage3D.numBytes s.depth
    rw [hd]
    omega
  · intro i hi
    have e := h7 i (by rw [← h3, ← hd]; exact hi)
    change (value s).testBit i = false
    rw [e, DynamicStorage3D.zero_bits]
  · intro hwr l hl
    have hs : slot s l = f l := by rw [h5 l (Nat.zero_le _) hl]; simp [written, dynWritten, hwr]
    obtain ⟨-, k1, k2, k3⟩ := hf l hl
    have hi : gd - l - 1 < gd := by omega
    rw [ex, decide_eq_true (by omega), Bool.true_and, Nat.zero_add] at k1
    rw [ey, decide_eq_true (by omega), Bool.true_and, Nat.zero_add] at k2
    rw [ez, decide_eq_true (by omega), Bool.true_and, Nat.zero_add] at k3
    change GridCell3 o g (gd - 1 - l) (slot s l)
    rw [hs, show gd - 1 - l = gd - l - 1 by omega]
    exact ⟨k1, k2, k3⟩

theorem dynamicFromGridIndex_panic (g : Vector3 c.ptrBits) (gd : Nat) (hgd : gd > c.ptrBits / 2)
    (o : OctantOrdering) : dynamicFromGridIndex c g gd o = .error .panic := by
  simp [dynamicFromGridIndex, hgd]

/-! ## Round trips -/

section

variable {S : Type} [Storage S Octant] [BitStorage S Octant]

/-- Reading the grid position of an index built from one: the coordinates modulo `2 ^ depth`. -/
theorem toGridIndex_of_gridPath (hc : c.Supported) {m : MortonIndex3D S} (h : WF c m.storage)
    {o : OctantOrdering} {g : Vector3 c.ptrBits} (hd : Storage.depth m.storage ≤ c.ptrBits)
    (hg : GridPath3 o g (Storage.depth m.storage) m.storage) :
    ∃ v, m.toGridIndex c o = .ok v ∧ v.x.toNat = g.x.toNat % 2 ^ Storage.depth m.storage ∧
      v.y.toNat = g.y.toNat % 2 ^ Storage.depth m.storage ∧
      v.z.toNat = g.z.toNat % 2 ^ Storage.depth m.storage := by
  obtain ⟨v, h1, hx, hy, hz⟩ := toGridIndex_ok hc h hd o
  refine ⟨v, h1, ?_, ?_, ?_⟩
  · apply Nat.eq_of_testBit_eq
    intro i
    rw [Nat.testBit_mod_two_pow, ← getLsbD_eq_testBit, ← getLsbD_eq_testBit, hx]
    by_cases hi : i < Storage.depth m.storage
    · rw [(hg _ (by omega)).1]
      congr 2
      omega
    · simp [hi]
  · apply Nat.eq_of_testBit_eq
    intro i
    rw [Nat.testBit_mod_two_pow, ← getLsbD_eq_testBit, ← getLsbD_eq_testBit, hy]
    by_cases hi : i < Storage.depth m.storage
    · rw [(hg _ (by omega)).2.1]
      congr 2
      omega
    · simp [hi]
  · apply Nat.eq_of_testBit_eq
    intro i
    rw [Nat.testBit_mod_two_pow, ← getLsbD_eq_testBit, ← getLsbD_eq_testBit, hz]
    by_cases hi : i < Storage.depth m.storage
    · rw [(hg _ (by omega)).2.2]
      congr 2
      omega
    · simp [hi]

theorem toIndex_inj {W : Nat} (hW : 3 ≤ W) (o : OctantOrdering) {p q : Octant}
    (hx : (o.toIndex W p).x.getLsbD 0 = (o.toIndex W q).x.getLsbD 0)
    (hy : (o.toIndex W p).y.getLsbD 0 = (o.toIndex W q).y.getLsbD 0)
    (hz : (o.toIndex W p).z.getLsbD 0 = (o.toIndex W q).z.getLsbD 0) : p = q := by
  obtain ⟨e1, e2, e3⟩ := o.toIndex_getLsbD hW p
  obtain ⟨f1, f2, f3⟩ := o.toIndex_getLsbD hW q
  rw [e1, f1] at hx
  rw [e2, f2] at hy
  rw [e3, f3] at hz
  revert hx hy hz
  cases o <;> cases p <;> cases q <;> decide

/-- The grid position determines the path. -/
theorem path_of_toGridIndex {S' : Type} [Storage S' Octant] [BitStorage S' Octant]
    (hc : c.Supported) {m : MortonIndex3D S} (h : WF c m.storage)
    (hd : Storage.depth m.storage ≤ c.ptrBits) {o : OctantOrdering} {g : Vector3 c.ptrBits}
    (hg : m.toGridIndex c o = .ok g) {s : S'} (hds : Storage.depth s = Storage.depth m.storage)
    (hp : GridPath3 o g (Storage.depth s) s) : path s = path m.storage := by
  have hWp : 16 ≤ c.ptrBits := by rcases hc with h | h | h <;> omega
  obtain ⟨v, h1, hx, hy, hz⟩ := toGridIndex_ok hc h hd o
  rw [hg] at h1
  obtain rfl : g = v := Except.ok.inj h1
  apply path_of_slots
  · rw [path_length, hds]
  · intro k hk
    rw [path_length] at hk
    rw [path_getElem]
    have hk' : k < Storage.depth s := by omega
    obtain ⟨p1, p2, p3⟩ := hp k hk'
    have hi : Storage.depth s - 1 - k < Storage.depth m.storage := by omega
    have e : Storage.depth m.storage - 1 - (Storage.depth s - 1 - k) = k := by omega
    rw [hx, decide_eq_true hi, Bool.true_and, e] at p1
    rw [hy, decide_eq_true hi, Bool.true_and, e] at p2
    rw [hz, decide_eq_true hi, Bool.true_and, e] at p3
    exact toIndex_inj (by omega) o p1 p2 p3

end

end MortonIndex3D

end MortonRs
