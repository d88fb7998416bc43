import Verif.Lemmas.Conv2D
import Verif.Lemmas.Spread

/-! # Construction of 2D indices from grid positions -/

namespace MortonRs

open BitStorage

/-- Which bit of the quadrant number holds the x (y) coordinate. -/
def QuadrantOrdering.xPos : QuadrantOrdering → Nat
  | .XY => 0 | .YX => 1
def QuadrantOrdering.yPos : QuadrantOrdering → Nat
  | .XY => 1 | .YX => 0

theorem QuadrantOrdering.toIndex_getLsbD {W : Nat} (hW : 2 ≤ W) (o : QuadrantOrdering) (q : Quadrant) :
    (o.toIndex W q).x.getLsbD 0 = (Dimension.toUsize q).testBit o.xPos ∧
    (o.toIndex W q).y.getLsbD 0 = (Dimension.toUsize q).testBit o.yPos := by
  have k0 := bit_of_shift (W := W) (n := Dimension.toUsize q) (p := 0) (by omega)
  have k1 := bit_of_shift (W := W) (n := Dimension.toUsize q) (p := 1) (by omega)
  rw [BitVec.ushiftRight_zero] at k0
  cases o
  · exact ⟨k0, k1⟩
  · exact ⟨k1, k0⟩

/-- The cells of the first `n` levels are the bits `n - 1, ..., 0` of the grid position. -/
def GridPath2 {W : Nat} {S : Type} [Storage S Quadrant] [BitStorage S Quadrant] (o : QuadrantOrdering)
    (g : Vector2 W) (n : Nat) (s : S) : Prop :=
  ∀ l, l < n → (o.toIndex W (slot s l)).x.getLsbD 0 = g.x.getLsbD (n - 1 - l) ∧
    (o.toIndex W (slot s l)).y.getLsbD 0 = g.y.getLsbD (n - 1 - l)

theorem gridPath2_of_bits {W : Nat} {S : Type} [Storage S Quadrant] [BitStorage S Quadrant] (hW : 2 ≤ W)
    {o : QuadrantOrdering} {g : Vector2 W} {n : Nat} {s : S}
    (hx : ∀ l, l < n → (value s).testBit (width s - (l + 1) * dim Quadrant + o.xPos) = g.x.getLsbD (n - 1 - l))
    (hy : ∀ l, l < n → (value s).testBit (width s - (l + 1) * dim Quadrant + o.yPos) = g.y.getLsbD (n - 1 - l)) :
    GridPath2 o g n s := by
  intro l hl
  have px : o.xPos < dim Quadrant := by cases o <;> decide
  have py : o.yPos < dim Quadrant := by cases o <;> decide
  obtain ⟨e1, e2⟩ := o.toIndex_getLsbD hW (slot s l)
  rw [e1, e2, slot_ofNat, testBit_digit, testBit_digit, decide_eq_true px, decide_eq_true py, ← hx l hl, ← hy l hl]
  simp

/-- Interleaving of two coordinates: the number whose even bits are `lo` and odd bits `hi`. -/
theorem chunk2_bit (a b : BitVec 8) (ha : a.toNat < 16) (hb : b.toNat < 16) (i : Nat) (hi : i < 8) :
    (addZeroBeforeEveryBitU8 a ||| addZeroBehindEveryBitU8 b).getLsbD i =
      if i % 2 = 0 then a.getLsbD (i / 2) else b.getLsbD (i / 2) := by
  rw [BitVec.getLsbD_or, before_u8_bit a ha i hi, behind_u8_bit b hb i hi]
  by_cases h : i % 2 = 0
  · have : i % 2 ≠ 1 := by omega
    simp [h]
  · have : i % 2 = 1 := by omega
    simp [this]

/-- A four bit chunk of a word, as a byte. -/
theorem nibble_ok {c : Cfg} {W : Nat} (hW : IntWidth W) (x : BitVec W) (s e : Nat) (hs : s < 2 ^ 32) (hsW : s < 2 ^ W)
    (hlen : e - s ≤ 4) :
    ∃ y, intGetBits c x ⟨s, e⟩ = .ok y ∧ (y.setWidth 8).toNat < 16 ∧
      ∀ i, (y.setWidth 8).getLsbD i = (decide (i < e - s) && x.getLsbD (s + i)) := by
  have hWl := hW.le
  have hWp := hW.pos
  obtain ⟨y, h1, h2⟩ := intGetBits_ok (c := c) x s e (by omega) (by omega) hsW (by omega)
  have hb : ∀ i, (y.setWidth 8).getLsbD i = (decide (i < e - s) && x.getLsbD (s + i)) := by
    intro i
    rw [BitVec.getLsbD_setWidth, h2]
    by_cases hi : i < e - s
    · have : i < 8 := by omega
      simp [hi, this]
    · simp [hi]
  refine ⟨y, h1, ?_, hb⟩
  apply Nat.lt_pow_two_of_testBit (n := 4)
  intro i hi
  have := hb i
  rw [BitVec.getLsbD] at this
  rw [this, decide_eq_false (by omega)]
  rfl

namespace MortonIndex2D

variable {c : Cfg} {w : Nat}

/-- One chunk of the interleaving loops (`fixed` and `static`). -/
theorem chunk_step (hc : c.Supported) (hw : IntWidth w) (lo hi : BitVec c.ptrBits) (k : Nat)
    (hk : k < w / 8) (bits : BitVec w) :
    ∃ bits', (do
      let start_bit ← umul c k 4
      let end_bit ← uadd c start_bit 4
      let lower_chunk := (← intGetBits c lo ⟨start_bit, end_bit⟩).setWidth 8
      let higher_chunk := (← intGetBits c hi ⟨start_bit, end_bit⟩).setWidth 8
      let chunk := addZeroBeforeEveryBitU8 lower_chunk ||| addZeroBehindEveryBitU8 higher_chunk
      intSetBits c bits ⟨← umul c k 8, ← umul c (← uadd c k 1) 8⟩ (chunk.setWidth w)) = .ok bits' ∧
      ∀ i, i < w → bits'.getLsbD i =
        if i / 8 = k then (if i % 2 = 0 then lo.getLsbD (i / 2) else hi.getLsbD (i / 2))
        else bits.getLsbD i := by
  have hp := hc.le
  have hwl := hw.le
  have hwp := hw.pos
  have hw8 := hw.mod8
  have hW := hc.intWidth
  have hWp : 16 ≤ c.ptrBits := by rcases hc with h | h | h <;> omega
  have hpow : 2 ^ 16 ≤ 2 ^ c.ptrBits := Nat.pow_le_pow_right (by decide) hWp
  have a1 : k * 4 < 2 ^ c.ptrBits := by omega
  have a2 : k * 4 + 4 < 2 ^ c.ptrBits := by omega
  have a3 : k * 8 < 2 ^ c.ptrBits := by omega
  have a4 : k + 1 < 2 ^ c.ptrBits := by omega
  have a5 : (k + 1) * 8 < 2 ^ c.ptrBits := by omega
  obtain ⟨y1, g1, b1, e1⟩ := nibble_ok (c := c) hW lo (k * 4) (k * 4 + 4) (by omega) (by omega) (by omega)
  obtain ⟨y2, g2, b2, e2⟩ := nibble_ok (c := c) hW hi (k * 4) (k * 4 + 4) (by omega) (by omega) (by omega)
  let chunk := addZeroBeforeEveryBitU8 (y1.setWidth 8) ||| addZeroBehindEveryBitU8 (y2.setWidth 8)
  obtain ⟨bits', g3, e3⟩ := intSetBits_ok (c := c) bits (k * 8) ((k + 1) * 8) (chunk.setWidth w) (by omega)
    (by omega) (by omega)
  refine ⟨bits', ?_, ?_⟩
  · simp only [umul_ok a1, uadd_ok a2, g1, g2, ok_bind, umul_ok a3, uadd_ok a4, umul_ok a5]
    exact g3
  · intro i hi'
    rw [e3 i hi']
    by_cases h1 : i / 8 = k
    · have q1 : k * 8 ≤ i := by omega
      have q2 : i < k * 8 + ((k + 1) * 8 - k * 8) := by omega
      rw [if_pos q1, if_pos q2, if_pos h1, BitVec.getLsbD_setWidth, show chunk.getLsbD _ = _ from chunk2_bit _ _ b1 b2 _ (by omega), e1, e2]
      have q3 : i - k * 8 < w := by omega
      have q4 : (i - k * 8) % 2 = i % 2 := by omega
      have q5 : (i - k * 8) / 2 < k * 4 + 4 - k * 4 := by omega
      have q6 : k * 4 + (i - k * 8) / 2 = i / 2 := by omega
      rw [q4, q6, decide_eq_true q3, decide_eq_true q5]
      simp
    · rw [if_neg h1]
      by_cases q1 : k * 8 ≤ i
      · have q2 : ¬ i < k * 8 + ((k + 1) * 8 - k * 8) := by omega
        rw [if_pos q1, if_neg q2, BitVec.getLsbD_setWidth, BitVec.getLsbD_of_ge chunk (i - k * 8) (by omega)]
        simp
      · rw [if_neg q1]

theorem orderBits_x {W : Nat} (o : QuadrantOrdering) (x y : BitVec W) (i : Nat) :
    (if (2 * i + o.xPos) % 2 = 0 then (orderBits o x y).1.getLsbD ((2 * i + o.xPos) / 2)
      else (orderBits o x y).2.getLsbD ((2 * i + o.xPos) / 2)) = x.getLsbD i := by
  cases o
  · have e1 : (2 * i + 0) % 2 = 0 := by omega
    have e2 : (2 * i + 0) / 2 = i := by omega
    simp only [QuadrantOrdering.xPos, orderBits, e1, e2, if_true]
  · have e1 : (2 * i + 1) % 2 ≠ 0 := by omega
    have e2 : (2 * i + 1) / 2 = i := by omega
    simp only [QuadrantOrdering.xPos, orderBits, e1, e2, if_false]

theorem orderBits_y {W : Nat} (o : QuadrantOrdering) (x y : BitVec W) (i : Nat) :
    (if (2 * i + o.yPos) % 2 = 0 then (orderBits o x y).1.getLsbD ((2 * i + o.yPos) / 2)
      else (orderBits o x y).2.getLsbD ((2 * i + o.yPos) / 2)) = y.getLsbD i := by
  cases o
  · have e1 : (2 * i + 1) % 2 ≠ 0 := by omega
    have e2 : (2 * i + 1) / 2 = i := by omega
    simp only [QuadrantOrdering.yPos, orderBits, e1, e2, if_false]
  · have e1 : (2 * i + 0) % 2 = 0 := by omega
    have e2 : (2 * i + 0) / 2 = i := by omega
    simp only [QuadrantOrdering.yPos, orderBits, e1, e2, if_true]

/-- Fixed depth. -/
theorem fixedFromGridIndex_ok (hc : c.Supported) (hw : IntWidth w) (hfit : w / dim Quadrant ≤ c.ptrBits)
    (g : Vector2 c.ptrBits) (o : QuadrantOrdering) :
    ∃ m, fixedFromGridIndex c w g o = .ok m ∧ TailZero m.storage ∧
      GridPath2 o g (w / dim Quadrant) m.storage := by
  have hp := hc.le
  have hwl := hw.le
  have hwp := hw.pos
  have hw8 := hw.mod8
  have hW := hc.intWidth
  have hWl := hW.le
  have hWp : 16 ≤ c.ptrBits := by rcases hc with h | h | h <;> omega
  rw [dim_Quadrant] at *
  have hM : FixedDepthStorage.MAX_LEVELS w Quadrant = w / 2 := rfl
  have hnot : ¬ w / 2 > c.ptrBits := by omega
  obtain ⟨x, gx, ex⟩ := intGetBits_ok (c := c) g.x 0 (w / 2) (by omega) (by omega) (Nat.two_pow_pos _) (by omega)
  obtain ⟨y, gy, ey⟩ := intGetBits_ok (c := c) g.y 0 (w / 2) (by omega) (by omega) (Nat.two_pow_pos _) (by omega)
  have a1 : w / 2 + 3 < 2 ^ c.ptrBits := by omega
  have a2 : (w / 2 + 3) / 4 = w / 8 := by omega
  let P : Nat → BitVec w → Prop := fun k bits => ∀ i, i < w → bits.getLsbD i =
    (decide (i / 8 < k) && (if i % 2 = 0 then (orderBits o x y).1.getLsbD (i / 2)
      else (orderBits o x y).2.getLsbD (i / 2)))
  obtain ⟨bits, h1, h2⟩ := forRange_invariant (a := 0) (b := w / 8) (init := 0#w)
    (body := fun chunk_index bits => do
      let start_bit ← umul c chunk_index 4
      let end_bit ← uadd c start_bit 4
      let lower_chunk := (← intGetBits c (orderBits o x y).1 ⟨start_bit, end_bit⟩).setWidth 8
      let higher_chunk := (← intGetBits c (orderBits o x y).2 ⟨start_bit, end_bit⟩).setWidth 8
      let chunk := addZeroBeforeEveryBitU8 lower_chunk ||| addZeroBehindEveryBitU8 higher_chunk
      intSetBits c bits ⟨← umul c chunk_index 8, ← umul c (← uadd c chunk_index 1) 8⟩ (chunk.setWidth w))
    P (by omega) (by intro i _; simp) (by
      intro k bits _ hk hP
      obtain ⟨bits', e1, e2⟩ := chunk_step hc hw (orderBits o x y).1 (orderBits o x y).2 k hk bits
      refine ⟨bits', e1, ?_⟩
      intro i hi
      rw [e2 i hi]
      by_cases h : i / 8 = k
      · rw [if_pos h, decide_eq_true (by omega), Bool.true_and]
      · rw [if_neg h, hP i hi, show decide (i / 8 < k + 1) = decide (i / 8 < k) by rw [decide_eq_decide]; omega])
  refine ⟨⟨⟨bits⟩⟩, ?_, ?_, ?_⟩
  · unfold fixedFromGridIndex
    simp only [hM, hnot, if_false, gx, gy, ok_bind, uadd_ok a1, a2, pure_eq_ok]
    rw [h1]
    rfl
  · intro i hi
    change i < w - w / 2 * 2 at hi
    omega
  · have key : ∀ l, l < w / 2 → ∀ p, p < 2 → bits.toNat.testBit (w - (l + 1) * 2 + p) =
        (if (2 * (w / 2 - 1 - l) + p) % 2 = 0 then (orderBits o x y).1.getLsbD ((2 * (w / 2 - 1 - l) + p) / 2)
          else (orderBits o x y).2.getLsbD ((2 * (w / 2 - 1 - l) + p) / 2)) := by
      intro l hl p hp
      have e : w - (l + 1) * 2 + p = 2 * (w / 2 - 1 - l) + p := by omega
      rw [← getLsbD_eq_testBit, e, h2 _ (by omega), decide_eq_true (by omega), Bool.true_and]
    apply gridPath2_of_bits (by omega)
    · intro l hl
      change bits.toNat.testBit (w - (l + 1) * 2 + o.xPos) = _
      rw [key l hl o.xPos (by cases o <;> decide), orderBits_x, ex, decide_eq_true (by omega)]
      simp
    · intro l hl
      change bits.toNat.testBit (w - (l + 1) * 2 + o.yPos) = _
      rw [key l hl o.yPos (by cases o <;> decide), orderBits_y, ey, decide_eq_true (by omega)]
      simp

theorem fixedFromGridIndex_panic (hfit : w / dim Quadrant > c.ptrBits)
    (g : Vector2 c.ptrBits) (o : QuadrantOrdering) : fixedFromGridIndex c w g o = .error .panic := by
  have : FixedDepthStorage.MAX_LEVELS w Quadrant > c.ptrBits := hfit
  simp [fixedFromGridIndex, this]

/-- The grid coordinate shifted up to the maximum depth. -/
theorem shifted_ok {W : Nat} (hW : IntWidth W) (x : BitVec W) {gd M : Nat} (hgd : gd ≤ M) (hM : M ≤ W)
    (hs : M - gd < W ∨ c.overflowChecks = false) :
    ∃ y z, intGetBits c x ⟨0, gd⟩ = .ok y ∧ shl c y (M - gd) = .ok z ∧
      ∀ i, z.getLsbD i = (decide (M - gd ≤ i) && (decide (i < M) && x.getLsbD (i - (M - gd)))) := by
  have hWl := hW.le
  have hWp := hW.pos
  obtain ⟨y, g, e⟩ := intGetBits_ok (c := c) x 0 gd (by omega) (by omega) (Nat.two_pow_pos _) (by omega)
  by_cases hlt : M - gd < W
  · refine ⟨y, _, g, shl_ok hlt, ?_⟩
    intro i
    rw [BitVec.getLsbD_shiftLeft, e]
    by_cases h1 : M - gd ≤ i
    · have h2 : ¬ i < M - gd := by omega
      by_cases h3 : i < M
      · have h4 : i < W := by omega
        have h5 : i - (M - gd) < gd := by omega
        simp [h1, h2, h3, h4, h5]
      · have h5 : ¬ i - (M - gd) < gd := by omega
        simp [h3, h5]
    · have h2 : i < M - gd := by omega
      simp [h1, h2]
  · have ho : c.overflowChecks = false := by rcases hs with h | h; exact absurd h hlt; exact h
    have hgd0 : gd = 0 := by omega
    have hMW : M = W := by omega
    subst hgd0 hMW
    refine ⟨y, y <<< ((M - 0) % M), g, by simp [shl, ho], ?_⟩
    intro i
    rw [BitVec.getLsbD_shiftLeft, e]
    by_cases h1 : M ≤ i
    · have : ¬ i < M := by omega
      simp [this]
    · simp [h1]

/-- Static: the loop, once the coordinates have been shifted. -/
theorem staticFromGridIndex_bits (hc : c.Supported) (hw : IntWidth w)
    (g : Vector2 c.ptrBits) (gd : Nat) (hgd : gd ≤ w / 2) (o : QuadrantOrdering) {x0 x y0 y : BitVec c.ptrBits}
    (gx0 : intGetBits c g.x ⟨0, gd⟩ = .ok x0) (gx : shl c x0 (w / 2 - gd) = .ok x)
    (gy0 : intGetBits c g.y ⟨0, gd⟩ = .ok y0) (gy : shl c y0 (w / 2 - gd) = .ok y) :
    ∃ bits : BitVec w, staticFromGridIndex c w g gd o = .ok (.ok ⟨⟨bits, gd⟩⟩) ∧ ∀ i, i < w → bits.getLsbD i =
      (decide (w / 8 - (gd + 3) / 4 ≤ i / 8) && (if i % 2 = 0 then (orderBits o x y).1.getLsbD (i / 2)
        else (orderBits o x y).2.getLsbD (i / 2))) := by
  have hp := hc.le
  have hwl := hw.le
  have hwp := hw.pos
  have hw8 := hw.mod8
  have hWl := hc.intWidth.le
  have hWp : 16 ≤ c.ptrBits := by rcases hc with h | h | h <;> omega
  have hsmall : asU8 gd = gd := Nat.mod_eq_of_lt (StaticStorage2D.depth_small hw hgd)
  have hM : FixedDepthStorage.MAX_LEVELS w Quadrant = w / 2 := rfl
  have hnot : ¬ gd > w / 2 := by omega
  have a1 : gd + 3 < 2 ^ c.ptrBits := by omega
  have a2 : w / 2 + 3 < 2 ^ c.ptrBits := by omega
  have a3 : (w / 2 + 3) / 4 = w / 8 := by omega
  have a4 : (gd + 3) / 4 ≤ w / 8 := by omega
  have a5 : gd ≤ w / 2 := hgd
  let P : Nat → BitVec w → Prop := fun k bits => ∀ i, i < w → bits.getLsbD i =
    (decide (k ≤ i / 8) && (if i % 2 = 0 then (orderBits o x y).1.getLsbD (i / 2)
      else (orderBits o x y).2.getLsbD (i / 2)))
  obtain ⟨bits, h1, h2⟩ := forRangeRev_invariant (a := w / 8 - (gd + 3) / 4) (b := w / 8) (init := 0#w)
    (body := fun chunk_index bits => do
      let start_bit ← umul c chunk_index 4
      let end_bit ← uadd c start_bit 4
      let lower_chunk := (← intGetBits c (orderBits o x y).1 ⟨start_bit, end_bit⟩).setWidth 8
      let higher_chunk := (← intGetBits c (orderBits o x y).2 ⟨start_bit, end_bit⟩).setWidth 8
      let chunk := addZeroBeforeEveryBitU8 lower_chunk ||| addZeroBehindEveryBitU8 higher_chunk
      let start_bit ← umul c chunk_index 8
      let end_bit ← uadd c start_bit 8
      intSetBits c bits ⟨start_bit, end_bit⟩ (chunk.setWidth w))
    P (by omega) (by
      intro i hi
      rw [decide_eq_false (by omega)]
      simp) (by
      intro k bits hk0 hk hP
      obtain ⟨bits', e1, e2⟩ := chunk_step hc hw (orderBits o x y).1 (orderBits o x y).2 k hk bits
      refine ⟨bits', ?_, ?_⟩
      · have b1 : k * 8 + 8 < 2 ^ c.ptrBits := by omega
        have b2 : k * 8 < 2 ^ c.ptrBits := by omega
        have b3 : k + 1 < 2 ^ c.ptrBits := by omega
        have b4 : (k + 1) * 8 < 2 ^ c.ptrBits := by omega
        rw [← e1]
        simp only [umul_ok b2, uadd_ok b1, uadd_ok b3, umul_ok b4, ok_bind, Nat.add_mul, Nat.one_mul]
      · intro i hi
        rw [e2 i hi]
        by_cases h : i / 8 = k
        · rw [if_pos h, decide_eq_true (by omega), Bool.true_and]
        · rw [if_neg h, hP i hi, show decide (k + 1 ≤ i / 8) = decide (k ≤ i / 8) by rw [decide_eq_decide]; omega])
  refine ⟨bits, ?_, h2⟩
  unfold staticFromGridIndex
  simp only [hM, hnot, if_false, usub_ok a5, gx0, gx, gy0, gy, ok_bind, uadd_ok a1, uadd_ok a2, a3, usub_ok a4,
    pure_eq_ok, hsmall]
  rw [h1]
  rfl

/-- Static. -/
theorem staticFromGridIndex_ok (hc : c.Supported) (hw : IntWidth w) (hfit : w / dim Quadrant ≤ c.ptrBits)
    (g : Vector2 c.ptrBits) (gd : Nat) (hgd : gd ≤ w / dim Quadrant)
    (hs : w / dim Quadrant - gd < c.ptrBits ∨ c.overflowChecks = false) (o : QuadrantOrdering) :
    ∃ m, staticFromGridIndex c w g gd o = .ok (.ok m) ∧ m.storage.depth = gd ∧ TailZero m.storage ∧
      GridPath2 o g gd m.storage := by
  have hp := hc.le
  have hwl := hw.le
  have hwp := hw.pos
  have hw8 := hw.mod8
  have hW := hc.intWidth
  have hWl := hW.le
  have hWp : 16 ≤ c.ptrBits := by rcases hc with h | h | h <;> omega
  rw [dim_Quadrant] at *
  obtain ⟨x0, x, gx0, gx, ex⟩ := shifted_ok hW g.x hgd hfit hs
  obtain ⟨y0, y, gy0, gy, ey⟩ := shifted_ok hW g.y hgd hfit hs
  obtain ⟨bits, h1, h2⟩ := staticFromGridIndex_bits hc hw g gd hgd o gx0 gx gy0 gy
  -- every position, including the chunks the loop skips
  have hall : ∀ i, i < w → bits.getLsbD i =
      (if i % 2 = 0 then (orderBits o x y).1.getLsbD (i / 2) else (orderBits o x y).2.getLsbD (i / 2)) := by
    intro i hi
    rw [h2 i hi]
    by_cases h : w / 8 - (gd + 3) / 4 ≤ i / 8
    · rw [decide_eq_true h, Bool.true_and]
    · have z : ∀ v : BitVec c.ptrBits, v = x ∨ v = y → v.getLsbD (i / 2) = false := by
        rintro v (rfl | rfl)
        · rw [ex, decide_eq_false (by omega)]; rfl
        · rw [ey, decide_eq_false (by omega)]; rfl
      rw [decide_eq_false h, Bool.false_and]
      have p1 : (orderBits o x y).1 = x ∨ (orderBits o x y).1 = y := by cases o <;> simp [orderBits]
      have p2 : (orderBits o x y).2 = x ∨ (orderBits o x y).2 = y := by cases o <;> simp [orderBits]
      rw [z _ p1, z _ p2]
      simp
  refine ⟨⟨⟨bits, gd⟩⟩, ?_, rfl, ?_, ?_⟩
  · exact h1
  · intro i hi
    change i < w - gd * 2 at hi
    change bits.getLsbD i = false
    rw [hall i (by omega)]
    have z : ∀ v : BitVec c.ptrBits, v = x ∨ v = y → v.getLsbD (i / 2) = false := by
      rintro v (rfl | rfl)
      · rw [ex, decide_eq_false (by omega)]; rfl
      · rw [ey, decide_eq_false (by omega)]; rfl
    have p1 : (orderBits o x y).1 = x ∨ (orderBits o x y).1 = y := by cases o <;> simp [orderBits]
    have p2 : (orderBits o x y).2 = x ∨ (orderBits o x y).2 = y := by cases o <;> simp [orderBits]
    rw [z _ p1, z _ p2]
    simp
  · have key : ∀ l, l < gd → ∀ p, p < 2 → bits.toNat.testBit (w - (l + 1) * 2 + p) =
        (if (2 * (w / 2 - 1 - l) + p) % 2 = 0 then (orderBits o x y).1.getLsbD ((2 * (w / 2 - 1 - l) + p) / 2)
          else (orderBits o x y).2.getLsbD ((2 * (w / 2 - 1 - l) + p) / 2)) := by
      intro l hl p hp
      have e : w - (l + 1) * 2 + p = 2 * (w / 2 - 1 - l) + p := by omega
      rw [← getLsbD_eq_testBit, e, hall _ (by omega)]
    apply gridPath2_of_bits (by omega)
    · intro l hl
      change bits.toNat.testBit (w - (l + 1) * 2 + o.xPos) = _
      rw [key l hl o.xPos (by cases o <;> decide), orderBits_x, ex, decide_eq_true (by omega),
        decide_eq_true (by omega), show w / 2 - 1 - l - (w / 2 - gd) = gd - 1 - l by omega]
      simp
    · intro l hl
      change bits.toNat.testBit (w - (l + 1) * 2 + o.yPos) = _
      rw [key l hl o.yPos (by cases o <;> decide), orderBits_y, ey, decide_eq_true (by omega),
        decide_eq_true (by omega), show w / 2 - 1 - l - (w / 2 - gd) = gd - 1 - l by omega]
      simp

theorem staticFromGridIndex_error (g : Vector2 c.ptrBits) (gd : Nat) (hgd : gd > w / dim Quadrant)
    (o : QuadrantOrdering) :
    staticFromGridIndex c w g gd o = .ok (.error (.DepthLimitedExceeded (w / dim Quadrant))) := by
  have : gd > w / 2 := hgd
  simp only [staticFromGridIndex, this, if_true, pure_eq_ok]
  rfl

/-- The depth of whatever `from_grid_index` returns, on any target. -/
theorem staticFromGridIndex_depth (hw : IntWidth w) {g : Vector2 c.ptrBits} {gd : Nat} {o : QuadrantOrdering}
    {m : MortonIndex2D (StaticStorage2D w)} (h : staticFromGridIndex c w g gd o = .ok (.ok m)) :
    m.storage.depth = gd ∧ gd ≤ w / dim Quadrant := by
  by_cases hgd : gd > w / dim Quadrant
  · rw [staticFromGridIndex_error g gd hgd o] at h
    simp at h
  · have hgd' : ¬ gd > w / 2 := hgd
    have hsmall : asU8 gd = gd := Nat.mod_eq_of_lt (StaticStorage2D.depth_small hw (by omega))
    refine ⟨?_, by omega⟩
    unfold staticFromGridIndex at h
    simp only [hgd', if_false, hsmall] at h
    iterate 8 obtain ⟨_, -, h⟩ := bind_eq_ok h
    obtain ⟨_, -, h⟩ := bind_eq_ok h
    simp only [pure_eq_ok, Except.ok.injEq] at h
    rw [← h]

/-- One byte of the dynamic constructor: chunk `k` from the top. -/
theorem dynamic_chunk (hc : c.Supported) (lo hi : BitVec c.ptrBits) {gd : Nat} (hgd : gd ≤ c.ptrBits) {k : Nat}
    (hk : k < (gd + 3) / 4) :
    ∃ b, (do
      let end_bit ← usub c gd (← umul c k 4)
      let start_bit := end_bit - 4
      let lower_chunk := (← intGetBits c lo ⟨start_bit, end_bit⟩).setWidth 8
      let higher_chunk := (← intGetBits c hi ⟨start_bit, end_bit⟩).setWidth 8
      let chunk := addZeroBeforeEveryBitU8 lower_chunk ||| addZeroBehindEveryBitU8 higher_chunk
      let bits_in_current_chunk ← usub c end_bit start_bit
      let end_bit_in_index := 8
      let start_bit_in_index ← usub c end_bit_in_index (← umul c 2 bits_in_current_chunk)
      intSetBits c 0#8 ⟨start_bit_in_index, end_bit_in_index⟩ chunk) = .ok b ∧
      ∀ r, r < 4 → ∀ p, p < 2 → b.getLsbD (8 - 2 * (r + 1) + p) =
        (decide (4 * k + r < gd) && (if p = 0 then lo.getLsbD (gd - 1 - (4 * k + r)) else hi.getLsbD (gd - 1 - (4 * k + r)))) := by
  have hp := hc.le
  have hW := hc.intWidth
  have hWl := hW.le
  have hWp : 16 ≤ c.ptrBits := by rcases hc with h | h | h <;> omega
  have hpow : 2 ^ 16 ≤ 2 ^ c.ptrBits := Nat.pow_le_pow_right (by decide) hWp
  have a1 : k * 4 < 2 ^ c.ptrBits := by omega
  have a2 : k * 4 ≤ gd := by omega
  have a3 : gd - k * 4 - 4 ≤ gd - k * 4 := by omega
  have a4 : 2 * (gd - k * 4 - (gd - k * 4 - 4)) < 2 ^ c.ptrBits := by omega
  have a5 : 2 * (gd - k * 4 - (gd - k * 4 - 4)) ≤ 8 := by omega
  obtain ⟨y1, g1, b1, e1⟩ := nibble_ok (c := c) hW lo (gd - k * 4 - 4) (gd - k * 4) (by omega) (by omega) (by omega)
  obtain ⟨y2, g2, b2, e2⟩ := nibble_ok (c := c) hW hi (gd - k * 4 - 4) (gd - k * 4) (by omega) (by omega) (by omega)
  let chunk := addZeroBeforeEveryBitU8 (y1.setWidth 8) ||| addZeroBehindEveryBitU8 (y2.setWidth 8)
  obtain ⟨b, g3, e3⟩ := intSetBits_ok (c := c) 0#8 (8 - 2 * (gd - k * 4 - (gd - k * 4 - 4))) 8 chunk (by omega)
    (by omega) (by omega)
  refine ⟨b, ?_, ?_⟩
  · simp only [umul_ok a1, usub_ok a2, usub_ok a3, umul_ok a4, usub_ok a5, g1, g2, ok_bind]
    exact g3
  · intro r hr p hp2
    rw [e3 _ (by omega)]
    by_cases h : 4 * k + r < gd
    · rw [if_pos (by omega), if_pos (by omega), show chunk.getLsbD _ = _ from chunk2_bit _ _ b1 b2 _ (by omega), e1, e2,
        decide_eq_true h, Bool.true_and]
      have q1 : (8 - 2 * (r + 1) + p - (8 - 2 * (gd - k * 4 - (gd - k * 4 - 4)))) / 2 < gd - k * 4 - (gd - k * 4 - 4) := by omega
      have q2 : gd - k * 4 - 4 + (8 - 2 * (r + 1) + p - (8 - 2 * (gd - k * 4 - (gd - k * 4 - 4)))) / 2 = gd - 1 - (4 * k + r) := by
        omega
      have q3 : (8 - 2 * (r + 1) + p - (8 - 2 * (gd - k * 4 - (gd - k * 4 - 4)))) % 2 = p := by omega
      rw [q2, q3, decide_eq_true q1, Bool.true_and, Bool.true_and]
    · rw [if_neg (by omega), decide_eq_false h]
      simp

/-- Dynamic. -/
theorem dynamicFromGridIndex_ok (hc : c.Supported) (g : Vector2 c.ptrBits) (gd : Nat) (hgd : gd ≤ c.ptrBits / 2)
    (o : QuadrantOrdering) :
    ∃ m, dynamicFromGridIndex c g gd o = .ok m ∧ m.storage.depth = gd ∧ DynamicStorage2D.Canon c m.storage ∧
      GridPath2 o g gd m.storage := by
  have hp := hc.le
  have hW := hc.intWidth
  have hWl := hW.le
  have hWp : 16 ≤ c.ptrBits := by rcases hc with h | h | h <;> omega
  have hnot : ¬ gd > c.ptrBits / 2 := by omega
  obtain ⟨x, gx, ex⟩ := intGetBits_ok (c := c) g.x 0 gd (by omega) (by omega) (Nat.two_pow_pos _) (by omega)
  obtain ⟨y, gy, ey⟩ := intGetBits_ok (c := c) g.y 0 gd (by omega) (by omega) (Nat.two_pow_pos _) (by omega)
  have a1 : gd + 3 < 2 ^ c.ptrBits := by omega
  obtain ⟨bs, h1, h2, h3⟩ := mapM_ok
    (xs := (List.range' 0 ((gd + 3) / 4)).reverse)
    (f := fun chunk_index => do
      let end_bit ← usub c gd (← umul c chunk_index 4)
      let start_bit := end_bit - 4
      let lower_chunk := (← intGetBits c (orderBits o x y).1 ⟨start_bit, end_bit⟩).setWidth 8
      let higher_chunk := (← intGetBits c (orderBits o x y).2 ⟨start_bit, end_bit⟩).setWidth 8
      let chunk := addZeroBeforeEveryBitU8 lower_chunk ||| addZeroBehindEveryBitU8 higher_chunk
      let bits_in_current_chunk ← usub c end_bit start_bit
      let end_bit_in_index := 8
      let start_bit_in_index ← usub c end_bit_in_index (← umul c 2 bits_in_current_chunk)
      intSetBits c 0#8 ⟨start_bit_in_index, end_bit_in_index⟩ chunk)
    (fun k b => ∀ r, r < 4 → ∀ p, p < 2 → b.getLsbD (8 - 2 * (r + 1) + p) =
        (decide (4 * k + r < gd) && (if p = 0 then (orderBits o x y).1.getLsbD (gd - 1 - (4 * k + r))
          else (orderBits o x y).2.getLsbD (gd - 1 - (4 * k + r))))) (by
      intro k hk
      rw [List.mem_reverse, List.mem_range'_1] at hk
      exact dynamic_chunk hc _ _ (by omega) (by omega))
  have hlen : bs.length = (gd + 3) / 4 := by rw [h2]; simp
  have hbit : ∀ l, l < 4 * ((gd + 3) / 4) → ∀ p, p < 2 → bitOf bs (8 * bs.length - 2 * (l + 1) + p) =
      (decide (l < gd) && (if p = 0 then (orderBits o x y).1.getLsbD (gd - 1 - l)
          else (orderBits o x y).2.getLsbD (gd - 1 - l))) := by
    intro l hl p hp
    have hidx : bs.length - 1 - l / 4 < bs.length := by omega
    have := h3 (bs.length - 1 - l / 4) hidx (l % 4) (by omega) p hp
    have e0 : ((List.range' 0 ((gd + 3) / 4)).reverse[bs.length - 1 - l / 4]'(by rw [← h2]; exact hidx)) = l / 4 := by
      simp only [List.getElem_reverse, List.getElem_range', List.length_range']
      omega
    rw [e0, show 4 * (l / 4) + l % 4 = l by omega] at this
    rw [← this, ← bitOf_eq_getElem hidx (by omega)]
    congr 1
    omega
  refine ⟨⟨⟨bs, gd⟩⟩, ?_, rfl, ?_, ?_⟩
  · unfold dynamicFromGridIndex
    simp only [hnot, if_false, gx, gy, ok_bind, uadd_ok a1, pure_eq_ok]
    rw [h1]
    rfl
  · refine ⟨addressable_of_le hc (by rw [dim_Quadrant]; change gd * 2 ≤ 1024; omega), ?_, ?_⟩
    · change bs.length = DynamicStorage2D.numBytes gd; rw [hlen, DynamicStorage2D.numBytes, dim_Quadrant]; omega
    · intro i hi
      change i < 8 * bs.length - gd * 2 at hi
      rw [DynamicStorage2D.value_testBit]
      change bitOf bs i = false
      have := hbit ((8 * bs.length - 1 - i) / 2) (by omega) (i % 2) (by omega)
      rw [show 8 * bs.length - 2 * ((8 * bs.length - 1 - i) / 2 + 1) + i % 2 = i by omega,
        decide_eq_false (by omega), Bool.false_and] at this
      exact this
  · have key : ∀ l, l < gd → ∀ p, p < 2 → (value (⟨bs, gd⟩ : DynamicStorage2D)).testBit (8 * bs.length - (l + 1) * 2 + p) =
        (if (2 * (gd - 1 - l) + p) % 2 = 0 then (orderBits o x y).1.getLsbD ((2 * (gd - 1 - l) + p) / 2)
          else (orderBits o x y).2.getLsbD ((2 * (gd - 1 - l) + p) / 2)) := by
      intro l hl p hp
      rw [DynamicStorage2D.value_testBit, Nat.mul_comm (l + 1) 2]
      change bitOf bs _ = _
      rw [hbit l (by omega) p hp, decide_eq_true hl, Bool.true_and]
      have e1 : (2 * (gd - 1 - l) + p) % 2 = p := by omega
      have e2 : (2 * (gd - 1 - l) + p) / 2 = gd - 1 - l := by omega
      rw [e1, e2]
    apply gridPath2_of_bits (by omega)
    · intro l hl
      change (value (⟨bs, gd⟩ : DynamicStorage2D)).testBit (8 * bs.length - (l + 1) * 2 + o.xPos) = _
      rw [key l hl o.xPos (by cases o <;> decide), orderBits_x, ex, decide_eq_true (by omega)]
      simp
    · intro l hl
      change (value (⟨bs, gd⟩ : DynamicStorage2D)).testBit (8 * bs.length - (l + 1) * 2 + o.yPos) = _
      rw [key l hl o.yPos (by cases o <;> decide), orderBits_y, ey, decide_eq_true (by omega)]
      simp

theorem dynamicFromGridIndex_panic (g : Vector2 c.ptrBits) (gd : Nat) (hgd : gd > c.ptrBits / 2)
    (o : QuadrantOrdering) : dynamicFromGridIndex c g gd o = .error .panic := by
  simp [dynamicFromGridIndex, hgd]

/-! ## Round trips -/

section

variable {S : Type} [Storage S Quadrant] [BitStorage S Quadrant]

/-- Reading the grid position of an index built from one: the coordinates modulo `2 ^ depth`. -/
theorem toGridIndex_of_gridPath (hc : c.Supported) {m : MortonIndex2D S} (h : WF c m.storage)
    {o : QuadrantOrdering} {g : Vector2 c.ptrBits} (hd : Storage.depth m.storage ≤ c.ptrBits)
    (hg : GridPath2 o g (Storage.depth m.storage) m.storage) :
    ∃ v, m.toGridIndex c o = .ok v ∧ v.x.toNat = g.x.toNat % 2 ^ Storage.depth m.storage ∧
      v.y.toNat = g.y.toNat % 2 ^ Storage.depth m.storage := by
  obtain ⟨v, h1, hx, hy⟩ := toGridIndex_ok hc h hd o
  refine ⟨v, h1, ?_, ?_⟩
  · apply Nat.eq_of_testBit_eq
    intro i
    rw [Nat.testBit_mod_two_pow, ← getLsbD_eq_testBit, ← getLsbD_eq_testBit, hx]
    by_cases hi : i < Storage.depth m.storage
    · rw [(hg _ (by omega)).1]
      congr 2
      omega
    · simp [hi]
  · apply Nat.eq_of_testBit_eq
    intro i
    rw [Nat.testBit_mod_two_pow, ← getLsbD_eq_testBit, ← getLsbD_eq_testBit, hy]
    by_cases hi : i < Storage.depth m.storage
    · rw [(hg _ (by omega)).2]
      congr 2
      omega
    · simp [hi]

theorem toIndex_inj {W : Nat} (hW : 2 ≤ W) (o : QuadrantOrdering) {p q : Quadrant}
    (hx : (o.toIndex W p).x.getLsbD 0 = (o.toIndex W q).x.getLsbD 0)
    (hy : (o.toIndex W p).y.getLsbD 0 = (o.toIndex W q).y.getLsbD 0) : p = q := by
  obtain ⟨e1, e2⟩ := o.toIndex_getLsbD hW p
  obtain ⟨e3, e4⟩ := o.toIndex_getLsbD hW q
  rw [e1, e3] at hx
  rw [e2, e4] at hy
  revert hx hy
  cases o <;> cases p <;> cases q <;> decide

/-- The grid position determines the path. -/
theorem path_of_toGridIndex {S' : Type} [Storage S' Quadrant] [BitStorage S' Quadrant]
    (hc : c.Supported) {m : MortonIndex2D S} (h : WF c m.storage)
    (hd : Storage.depth m.storage ≤ c.ptrBits) {o : QuadrantOrdering} {g : Vector2 c.ptrBits}
    (hg : m.toGridIndex c o = .ok g) {s : S'} (hds : Storage.depth s = Storage.depth m.storage)
    (hp : GridPath2 o g (Storage.depth s) s) : path s = path m.storage := by
  have hWp : 16 ≤ c.ptrBits := by rcases hc with h | h | h <;> omega
  obtain ⟨v, h1, hx, hy⟩ := toGridIndex_ok hc h hd o
  rw [hg] at h1
  obtain rfl : g = v := Except.ok.inj h1
  apply path_of_slots
  · rw [path_length, hds]
  · intro k hk
    rw [path_length] at hk
    rw [path_getElem]
    have hk' : k < Storage.depth s := by omega
    obtain ⟨p1, p2⟩ := hp k hk'
    have hi : Storage.depth s - 1 - k < Storage.depth m.storage := by omega
    have e : Storage.depth m.storage - 1 - (Storage.depth s - 1 - k) = k := by omega
    rw [hx, decide_eq_true hi, Bool.true_and, e] at p1
    rw [hy, decide_eq_true hi, Bool.true_and, e] at p2
    exact toIndex_inj (by omega) o p1 p2

end

end MortonIndex2D

end MortonRs
