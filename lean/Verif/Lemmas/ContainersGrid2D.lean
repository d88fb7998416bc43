import Verif.Lemmas.ContainersConv2D
import Verif.Lemmas.Grid2D

/-! # The 2D storages over any lawful container: construction from grid positions -/

namespace MortonRs

open BitStorage LawfulContainer

set_option linter.unusedSectionVars false

variable {B : Type} [FixedStorageType B] [LawfulContainer B]

namespace MortonIndex2D

variable {c : Cfg}

/-- One chunk of the interleaving loops (`fixed` and `static`). -/
theorem chunk_stepOf (hc : c.Supported) (hl : Bits.BITS B ≤ 2 ^ 32) (h8 : Bits.BITS B % 8 = 0) (hw : on B c) (lo hi : BitVec c.ptrBits) (k : Nat)
    (hk : k < Bits.BITS B / 8) (bits : B) :
    ∃ bits', (do
      let start_bit ← umul c k 4
      let end_bit ← uadd c start_bit 4
      let lower_chunk := (← intGetBits c lo ⟨start_bit, end_bit⟩).setWidth 8
      let higher_chunk := (← intGetBits c hi ⟨start_bit, end_bit⟩).setWidth 8
      let chunk := addZeroBeforeEveryBitU8 lower_chunk ||| addZeroBehindEveryBitU8 higher_chunk
      Bits.setBits c bits ⟨← umul c k 8, ← umul c (← uadd c k 1) 8⟩ (Bits.fromUN c chunk)) = .ok bits' ∧
      ∀ i, i < Bits.BITS B → (val bits').testBit i =
        if i / 8 = k then (if i % 2 = 0 then lo.getLsbD (i / 2) else hi.getLsbD (i / 2))
        else (val bits).testBit i := by
  have hp := hc.le
  have hw8 := h8
  have hW := hc.intWidth
  have hWp : 16 ≤ c.ptrBits := by rcases hc with h | h | h <;> omega
  have hpow : 2 ^ 16 ≤ 2 ^ c.ptrBits := Nat.pow_le_pow_right (by decide) hWp
  have hu := usize hw
  have a1 : k * 4 < 2 ^ c.ptrBits := by omega
  have a2 : k * 4 + 4 < 2 ^ c.ptrBits := by omega
  have a3 : k * 8 < 2 ^ c.ptrBits := by omega
  have a4 : k + 1 < 2 ^ c.ptrBits := by omega
  have a5 : (k + 1) * 8 < 2 ^ c.ptrBits := by omega
  obtain ⟨y1, g1, b1, e1⟩ := nibble_ok (c := c) hW lo (k * 4) (k * 4 + 4) (by omega) (by omega) (by omega)
  obtain ⟨y2, g2, b2, e2⟩ := nibble_ok (c := c) hW hi (k * 4) (k * 4 + 4) (by omega) (by omega) (by omega)
  let chunk := addZeroBeforeEveryBitU8 (y1.setWidth 8) ||| addZeroBehindEveryBitU8 (y2.setWidth 8)
  have hc8 : chunk.toNat < 2 ^ 8 := chunk.isLt
  have hpw : 2 ^ 8 ≤ 2 ^ Bits.BITS B := Nat.pow_le_pow_right (by decide) (by omega)
  have hv : val (Bits.fromUN c chunk : B) = chunk.toNat := LawfulContainer.fromUN hw _ (by omega)
  obtain ⟨bits', g3, e3⟩ := LawfulContainer.set hw bits (Bits.fromUN c chunk) (k * 8) ((k + 1) * 8) (by omega)
    (by omega) (by rw [hv, show (k + 1) * 8 - k * 8 = 8 by omega]; exact hc8)
  refine ⟨bits', ?_, ?_⟩
  · simp only [umul_ok a1, uadd_ok a2, g1, g2, ok_bind, umul_ok a3, uadd_ok a4, umul_ok a5]
    exact g3
  · intro i hi'
    rw [e3 i]
    by_cases h1 : i / 8 = k
    · have q1 : k * 8 ≤ i ∧ i < (k + 1) * 8 := by omega
      rw [if_pos q1, if_pos h1, hv, ← getLsbD_eq_testBit,
        show chunk.getLsbD _ = _ from chunk2_bit _ _ b1 b2 _ (by omega), e1, e2]
      have q4 : (i - k * 8) % 2 = i % 2 := by omega
      have q5 : (i - k * 8) / 2 < k * 4 + 4 - k * 4 := by omega
      have q6 : k * 4 + (i - k * 8) / 2 = i / 2 := by omega
      rw [q4, q6, decide_eq_true q5]
      simp
    · rw [if_neg h1, if_neg (by omega)]

/-- Fixed depth. -/
theorem fixedFromGridIndexOf_ok (hc : c.Supported) (h8 : Bits.BITS B % 8 = 0) (hw : on B c) (hfit : Bits.BITS B / dim Quadrant ≤ c.ptrBits)
    (g : Vector2 c.ptrBits) (o : QuadrantOrdering) :
    ∃ m : MortonIndex2D (FixedDepthStorage2DOf B), fixedFromGridIndexOf c g o = .ok m ∧ TailZero m.storage ∧
      GridPath2 o g (Bits.BITS B / dim Quadrant) m.storage := by
  have hp := hc.le
  have hw8 := h8
  have hW := hc.intWidth
  have hWl := hW.le
  have hWp : 16 ≤ c.ptrBits := by rcases hc with h | h | h <;> omega
  have hW64 : c.ptrBits ≤ 64 := by rcases hc with h | h | h <;> omega
  rw [dim_Quadrant] at *
  have hl : Bits.BITS B ≤ 512 := by omega
  have hM : FixedDepthStorage.MAX_LEVELS (Bits.BITS B) Quadrant = Bits.BITS B / 2 := rfl
  have hnot : ¬ Bits.BITS B / 2 > c.ptrBits := by omega
  obtain ⟨x, gx, ex⟩ := intGetBits_ok (c := c) g.x 0 (Bits.BITS B / 2) (by omega) (by omega) (Nat.two_pow_pos _) (by omega)
  obtain ⟨y, gy, ey⟩ := intGetBits_ok (c := c) g.y 0 (Bits.BITS B / 2) (by omega) (by omega) (Nat.two_pow_pos _) (by omega)
  have a1 : Bits.BITS B / 2 + 3 < 2 ^ c.ptrBits := by omega
  have a2 : (Bits.BITS B / 2 + 3) / 4 = Bits.BITS B / 8 := by omega
  let P : Nat → B → Prop := fun k bits => ∀ i, i < Bits.BITS B → (val bits).testBit i =
    (decide (i / 8 < k) && (if i % 2 = 0 then (orderBits o x y).1.getLsbD (i / 2)
      else (orderBits o x y).2.getLsbD (i / 2)))
  obtain ⟨bits, h1, h2⟩ := forRange_invariant (a := 0) (b := Bits.BITS B / 8) (init := (FixedStorageType.default : B))
    (body := fun chunk_index bits => do
      let start_bit ← umul c chunk_index 4
      let end_bit ← uadd c start_bit 4
      let lower_chunk := (← intGetBits c (orderBits o x y).1 ⟨start_bit, end_bit⟩).setWidth 8
      let higher_chunk := (← intGetBits c (orderBits o x y).2 ⟨start_bit, end_bit⟩).setWidth 8
      let chunk := addZeroBeforeEveryBitU8 lower_chunk ||| addZeroBehindEveryBitU8 higher_chunk
      Bits.setBits c bits ⟨← umul c chunk_index 8, ← umul c (← uadd c chunk_index 1) 8⟩ (Bits.fromUN c chunk))
    P (by omega) (by intro i _; rw [LawfulContainer.default, Nat.zero_testBit]; simp) (by
      intro k bits _ hk hP
      obtain ⟨bits', e1, e2⟩ := chunk_stepOf hc (by omega) h8 hw (orderBits o x y).1 (orderBits o x y).2 k hk bits
      refine ⟨bits', e1, ?_⟩
      intro i hi
      rw [e2 i hi]
      by_cases h : i / 8 = k
      · rw [if_pos h, decide_eq_true (by omega), Bool.true_and]
      · rw [if_neg h, hP i hi, show decide (i / 8 < k + 1) = decide (i / 8 < k) by rw [decide_eq_decide]; omega])
  refine ⟨⟨⟨bits⟩⟩, ?_, ?_, ?_⟩
  · unfold fixedFromGridIndexOf
    simp only [hM, hnot, if_false, gx, gy, ok_bind, uadd_ok a1, a2, pure_eq_ok]
    rw [h1]
    rfl
  · intro i hi
    change i < Bits.BITS B - Bits.BITS B / 2 * 2 at hi
    omega
  · have key : ∀ l, l < Bits.BITS B / 2 → ∀ p, p < 2 → (val bits).testBit (Bits.BITS B - (l + 1) * 2 + p) =
        (if (2 * (Bits.BITS B / 2 - 1 - l) + p) % 2 = 0 then (orderBits o x y).1.getLsbD ((2 * (Bits.BITS B / 2 - 1 - l) + p) / 2)
          else (orderBits o x y).2.getLsbD ((2 * (Bits.BITS B / 2 - 1 - l) + p) / 2)) := by
      intro l hl p hp
      have e : Bits.BITS B - (l + 1) * 2 + p = 2 * (Bits.BITS B / 2 - 1 - l) + p := by omega
      rw [e, h2 _ (by omega), decide_eq_true (by omega), Bool.true_and]
    apply gridPath2_of_bits (by omega)
    · intro l hl
      change (val bits).testBit (Bits.BITS B - (l + 1) * 2 + o.xPos) = _
      rw [key l hl o.xPos (by cases o <;> decide), orderBits_x, ex, decide_eq_true (by omega)]
      simp
    · intro l hl
      change (val bits).testBit (Bits.BITS B - (l + 1) * 2 + o.yPos) = _
      rw [key l hl o.yPos (by cases o <;> decide), orderBits_y, ey, decide_eq_true (by omega)]
      simp

theorem fixedFromGridIndexOf_panic (hfit : Bits.BITS B / dim Quadrant > c.ptrBits)
    (g : Vector2 c.ptrBits) (o : QuadrantOrdering) : (fixedFromGridIndexOf c g o : Res (MortonIndex2D (FixedDepthStorage2DOf B))) = .error .panic := by
  have : FixedDepthStorage.MAX_LEVELS (Bits.BITS B) Quadrant > c.ptrBits := hfit
  simp [fixedFromGridIndexOf, this]

/-- Static: the loop, once the coordinates have been shifted. -/
theorem staticFromGridIndexOf_bits' (hc : c.Supported) (hl : Bits.BITS B ≤ 2 ^ 32) (hp8 : Bits.BITS B + 8 < 2 ^ c.ptrBits) (h8 : Bits.BITS B % 8 = 0) (hw : on B c)
    (g : Vector2 c.ptrBits) (gd : Nat) (hgd : gd ≤ Bits.BITS B / 2) (o : QuadrantOrdering) {x0 x y0 y : BitVec c.ptrBits}
    (gx0 : intGetBits c g.x ⟨0, gd⟩ = .ok x0) (gx : shl c x0 (Bits.BITS B / 2 - gd) = .ok x)
    (gy0 : intGetBits c g.y ⟨0, gd⟩ = .ok y0) (gy : shl c y0 (Bits.BITS B / 2 - gd) = .ok y) :
    ∃ bits : B, staticFromGridIndexOf c g gd o = .ok (.ok ⟨⟨bits, asU8 gd⟩⟩) ∧ ∀ i, i < Bits.BITS B → (val bits).testBit i =
      (decide (Bits.BITS B / 8 - (gd + 3) / 4 ≤ i / 8) && (if i % 2 = 0 then (orderBits o x y).1.getLsbD (i / 2)
        else (orderBits o x y).2.getLsbD (i / 2))) := by
  have hp := hc.le
  have hw8 := h8
  have hWl := hc.intWidth.le
  have hWp : 16 ≤ c.ptrBits := by rcases hc with h | h | h <;> omega
  have hM : FixedDepthStorage.MAX_LEVELS (Bits.BITS B) Quadrant = Bits.BITS B / 2 := rfl
  have hnot : ¬ gd > Bits.BITS B / 2 := by omega
  have a1 : gd + 3 < 2 ^ c.ptrBits := by omega
  have a2 : Bits.BITS B / 2 + 3 < 2 ^ c.ptrBits := by omega
  have a3 : (Bits.BITS B / 2 + 3) / 4 = Bits.BITS B / 8 := by omega
  have a4 : (gd + 3) / 4 ≤ Bits.BITS B / 8 := by omega
  have a5 : gd ≤ Bits.BITS B / 2 := hgd
  let P : Nat → B → Prop := fun k bits => ∀ i, i < Bits.BITS B → (val bits).testBit i =
    (decide (k ≤ i / 8) && (if i % 2 = 0 then (orderBits o x y).1.getLsbD (i / 2)
      else (orderBits o x y).2.getLsbD (i / 2)))
  obtain ⟨bits, h1, h2⟩ := forRangeRev_invariant (a := Bits.BITS B / 8 - (gd + 3) / 4) (b := Bits.BITS B / 8) (init := (FixedStorageType.default : B))
    (body := fun chunk_index bits => do
      let start_bit ← umul c chunk_index 4
      let end_bit ← uadd c start_bit 4
      let lower_chunk := (← intGetBits c (orderBits o x y).1 ⟨start_bit, end_bit⟩).setWidth 8
      let higher_chunk := (← intGetBits c (orderBits o x y).2 ⟨start_bit, end_bit⟩).setWidth 8
      let chunk := addZeroBeforeEveryBitU8 lower_chunk ||| addZeroBehindEveryBitU8 higher_chunk
      let start_bit ← umul c chunk_index 8
      let end_bit ← uadd c start_bit 8
      Bits.setBits c bits ⟨start_bit, end_bit⟩ (Bits.fromUN c chunk))
    P (by omega) (by
      intro i hi
      rw [decide_eq_false (by omega), LawfulContainer.default, Nat.zero_testBit]
      simp) (by
      intro k bits hk0 hk hP
      obtain ⟨bits', e1, e2⟩ := chunk_stepOf hc (by omega) h8 hw (orderBits o x y).1 (orderBits o x y).2 k hk bits
      refine ⟨bits', ?_, ?_⟩
      · have b1 : k * 8 + 8 < 2 ^ c.ptrBits := by omega
        have b2 : k * 8 < 2 ^ c.ptrBits := by omega
        have b3 : k + 1 < 2 ^ c.ptrBits := by omega
        have b4 : (k + 1) * 8 < 2 ^ c.ptrBits := by omega
        rw [← e1]
        simp only [umul_ok b2, uadd_ok b1, uadd_ok b3, umul_ok b4, ok_bind, Nat.add_mul, Nat.one_mul]
      · intro i hi
        rw [e2 i hi]
        by_cases h : i / 8 = k
        · rw [if_pos h, decide_eq_true (by omega), Bool.true_and]
        · rw [if_neg h, hP i hi, show decide (k + 1 ≤ i / 8) = decide (k ≤ i / 8) by rw [decide_eq_decide]; omega])
  refine ⟨bits, ?_, h2⟩
  unfold staticFromGridIndexOf
  simp only [hM, hnot, if_false, usub_ok a5, gx0, gx, gy0, gy, ok_bind, uadd_ok a1, uadd_ok a2, a3, usub_ok a4,
    pure_eq_ok]
  rw [h1]
  rfl

/-- The same where the depth fits its byte. -/
theorem staticFromGridIndexOf_bits (hc : c.Supported) (hB : StaticStorage2DOf.Small B) (h8 : Bits.BITS B % 8 = 0) (hw : on B c)
    (g : Vector2 c.ptrBits) (gd : Nat) (hgd : gd ≤ Bits.BITS B / 2) (o : QuadrantOrdering) {x0 x y0 y : BitVec c.ptrBits}
    (gx0 : intGetBits c g.x ⟨0, gd⟩ = .ok x0) (gx : shl c x0 (Bits.BITS B / 2 - gd) = .ok x)
    (gy0 : intGetBits c g.y ⟨0, gd⟩ = .ok y0) (gy : shl c y0 (Bits.BITS B / 2 - gd) = .ok y) :
    ∃ bits : B, staticFromGridIndexOf c g gd o = .ok (.ok ⟨⟨bits, gd⟩⟩) ∧ ∀ i, i < Bits.BITS B → (val bits).testBit i =
      (decide (Bits.BITS B / 8 - (gd + 3) / 4 ≤ i / 8) && (if i % 2 = 0 then (orderBits o x y).1.getLsbD (i / 2)
        else (orderBits o x y).2.getLsbD (i / 2))) := by
  have hWp : 16 ≤ c.ptrBits := by rcases hc with h | h | h <;> omega
  have hpow : 2 ^ 16 ≤ 2 ^ c.ptrBits := Nat.pow_le_pow_right (by decide) hWp
  have hl : Bits.BITS B ≤ 512 := by
    unfold StaticStorage2DOf.Small at hB
    rw [dim_Quadrant] at hB
    omega
  have hsmall : asU8 gd = gd := Nat.mod_eq_of_lt (Nat.lt_of_le_of_lt hgd hB)
  have := staticFromGridIndexOf_bits' hc (by omega) (by omega) h8 hw g gd hgd o gx0 gx gy0 gy
  rwa [hsmall] at this

/-- Static. -/
theorem staticFromGridIndexOf_ok (hc : c.Supported) (h8 : Bits.BITS B % 8 = 0) (hw : on B c) (hfit : Bits.BITS B / dim Quadrant ≤ c.ptrBits)
    (g : Vector2 c.ptrBits) (gd : Nat) (hgd : gd ≤ Bits.BITS B / dim Quadrant)
    (hs : Bits.BITS B / dim Quadrant - gd < c.ptrBits ∨ c.overflowChecks = false) (o : QuadrantOrdering) :
    ∃ m : MortonIndex2D (StaticStorage2DOf B), staticFromGridIndexOf c g gd o = .ok (.ok m) ∧ m.storage.depth = gd ∧ TailZero m.storage ∧
      GridPath2 o g gd m.storage := by
  have hp := hc.le
  have hw8 := h8
  have hW := hc.intWidth
  have hWl := hW.le
  have hWp : 16 ≤ c.ptrBits := by rcases hc with h | h | h <;> omega
  have hW64 : c.ptrBits ≤ 64 := by rcases hc with h | h | h <;> omega
  rw [dim_Quadrant] at *
  have hl : Bits.BITS B ≤ 512 := by omega
  obtain ⟨x0, x, gx0, gx, ex⟩ := shifted_ok hW g.x hgd hfit hs
  obtain ⟨y0, y, gy0, gy, ey⟩ := shifted_ok hW g.y hgd hfit hs
  obtain ⟨bits, h1, h2⟩ := staticFromGridIndexOf_bits hc (by unfold StaticStorage2DOf.Small; rw [dim_Quadrant]; omega) h8 hw g gd hgd o gx0 gx gy0 gy
  -- every position, including the chunks the loop skips
  have hall : ∀ i, i < Bits.BITS B → (val bits).testBit i =
      (if i % 2 = 0 then (orderBits o x y).1.getLsbD (i / 2) else (orderBits o x y).2.getLsbD (i / 2)) := by
    intro i hi
    rw [h2 i hi]
    by_cases h : Bits.BITS B / 8 - (gd + 3) / 4 ≤ i / 8
    · rw [decide_eq_true h, Bool.true_and]
    · have z : ∀ v : BitVec c.ptrBits, v = x ∨ v = y → v.getLsbD (i / 2) = false := by
        rintro v (rfl | rfl)
        · rw [ex, decide_eq_false (by omega)]; rfl
        · rw [ey, decide_eq_false (by omega)]; rfl
      rw [decide_eq_false h, Bool.false_and]
      have p1 : (orderBits o x y).1 = x ∨ (orderBits o x y).1 = y := by cases o <;> simp [orderBits]
      have p2 : (orderBits o x y).2 = x ∨ (orderBits o x y).2 = y := by cases o <;> simp [orderBits]
      rw [z _ p1, z _ p2]
      simp
  refine ⟨⟨⟨bits, gd⟩⟩, ?_, rfl, ?_, ?_⟩
  · exact h1
  · intro i hi
    change i < Bits.BITS B - gd * 2 at hi
    change (val bits).testBit i = false
    rw [hall i (by omega)]
    have z : ∀ v : BitVec c.ptrBits, v = x ∨ v = y → v.getLsbD (i / 2) = false := by
      rintro v (rfl | rfl)
      · rw [ex, decide_eq_false (by omega)]; rfl
      · rw [ey, decide_eq_false (by omega)]; rfl
    have p1 : (orderBits o x y).1 = x ∨ (orderBits o x y).1 = y := by cases o <;> simp [orderBits]
    have p2 : (orderBits o x y).2 = x ∨ (orderBits o x y).2 = y := by cases o <;> simp [orderBits]
    rw [z _ p1, z _ p2]
    simp
  · have key : ∀ l, l < gd → ∀ p, p < 2 → (val bits).testBit (Bits.BITS B - (l + 1) * 2 + p) =
        (if (2 * (Bits.BITS B / 2 - 1 - l) + p) % 2 = 0 then (orderBits o x y).1.getLsbD ((2 * (Bits.BITS B / 2 - 1 - l) + p) / 2)
          else (orderBits o x y).2.getLsbD ((2 * (Bits.BITS B / 2 - 1 - l) + p) / 2)) := by
      intro l hl p hp
      have e : Bits.BITS B - (l + 1) * 2 + p = 2 * (Bits.BITS B / 2 - 1 - l) + p := by omega
      rw [e, hall _ (by omega)]
    apply gridPath2_of_bits (by omega)
    · intro l hl
      change (val bits).testBit (Bits.BITS B - (l + 1) * 2 + o.xPos) = _
      rw [key l hl o.xPos (by cases o <;> decide), orderBits_x, ex, decide_eq_true (by omega),
        decide_eq_true (by omega), show Bits.BITS B / 2 - 1 - l - (Bits.BITS B / 2 - gd) = gd - 1 - l by omega]
      simp
    · intro l hl
      change (val bits).testBit (Bits.BITS B - (l + 1) * 2 + o.yPos) = _
      rw [key l hl o.yPos (by cases o <;> decide), orderBits_y, ey, decide_eq_true (by omega),
        decide_eq_true (by omega), show Bits.BITS B / 2 - 1 - l - (Bits.BITS B / 2 - gd) = gd - 1 - l by omega]
      simp

theorem staticFromGridIndexOf_error (g : Vector2 c.ptrBits) (gd : Nat) (hgd : gd > Bits.BITS B / dim Quadrant)
    (o : QuadrantOrdering) :
    (staticFromGridIndexOf c g gd o : Res (Except Error (MortonIndex2D (StaticStorage2DOf B)))) = .ok (.error (.DepthLimitedExceeded (Bits.BITS B / dim Quadrant))) := by
  have : gd > Bits.BITS B / 2 := hgd
  simp only [staticFromGridIndexOf, this, if_true, pure_eq_ok]
  rfl

end MortonIndex2D

end MortonRs
