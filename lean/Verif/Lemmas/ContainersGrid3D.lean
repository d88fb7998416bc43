import Verif.Lemmas.ContainersConv3D
import Verif.Lemmas.Grid3D

/-! # The 3D storages over any lawful container: construction from grid positions -/

namespace MortonRs

open BitStorage LawfulContainer

set_option linter.unusedSectionVars false

variable {B : Type} [FixedStorageType B] [LawfulContainer B]

namespace MortonIndex3D

variable {c : Cfg}

/-- One chunk of the fixed-depth loop. -/
theorem fixed_chunk_stepOf (hc : c.Supported) (hl : Bits.BITS B ≤ 767) (hw : on B c) (hW21 : 21 ≤ c.ptrBits) (o : OctantOrdering)
    (x y z : BitVec c.ptrBits)
    (k : Nat)
    (hk : k < (Bits.BITS B / 3 + 20) / 21) (bits : B)
    (hx : ∀ i, Bits.BITS B / 3 ≤ i → x.getLsbD i = false) (hy : ∀ i, Bits.BITS B / 3 ≤ i → y.getLsbD i = false)
    (hz : ∀ i, Bits.BITS B / 3 ≤ i → z.getLsbD i = false) :
    ∃ bits', (do
      let start_bit ← umul c k 21
      let end_bit ← uadd c start_bit 21
      let x_chunk := (← intGetBits c x ⟨start_bit, end_bit⟩).setWidth 32
      let y_chunk := (← intGetBits c y ⟨start_bit, end_bit⟩).setWidth 32
      let z_chunk := (← intGetBits c z ⟨start_bit, end_bit⟩).setWidth 32
      let chunk := (← shl c (addTwoZeroesBeforeEveryBitU32 x_chunk) o.xPos) |||
        (← shl c (addTwoZeroesBeforeEveryBitU32 y_chunk) o.yPos) |||
        (← shl c (addTwoZeroesBeforeEveryBitU32 z_chunk) o.zPos)
      let start_bit ← uadd c (← umul c k 63) (Bits.BITS B % 3)
      let end_bit := min (← uadd c start_bit 63) (Bits.BITS B)
      Bits.setBits c bits ⟨start_bit, end_bit⟩ (Bits.fromUN c chunk)) = .ok bits' ∧
      ∀ i, i < Bits.BITS B → (val bits').testBit i =
        if (Bits.BITS B) % 3 ≤ i ∧ (i - Bits.BITS B % 3) / 63 = k then
          o.pick ((i - Bits.BITS B % 3) % 3) (x.getLsbD ((i - Bits.BITS B % 3) / 3)) (y.getLsbD ((i - Bits.BITS B % 3) / 3)) (z.getLsbD ((i - Bits.BITS B % 3) / 3))
        else (val bits).testBit i := by
  have hp := hc.le
  have hW := hc.intWidth
  have hWp : 16 ≤ c.ptrBits := by rcases hc with h | h | h <;> omega
  have hpow : 2 ^ 16 ≤ 2 ^ c.ptrBits := Nat.pow_le_pow_right (by decide) hWp
  have a1 : k * 21 < 2 ^ c.ptrBits := by omega
  have a2 : k * 21 + 21 < 2 ^ c.ptrBits := by omega
  have a3 : k * 63 < 2 ^ c.ptrBits := by omega
  have a4 : k * 63 + Bits.BITS B % 3 < 2 ^ c.ptrBits := by omega
  have a5 : k * 63 + Bits.BITS B % 3 + 63 < 2 ^ c.ptrBits := by omega
  obtain ⟨y1, g1, e1⟩ := piece_ok (c := c) hW x (k * 21) (k * 21 + 21) 32 (by omega) (by omega) (by omega) (by omega)
  obtain ⟨y2, g2, e2⟩ := piece_ok (c := c) hW y (k * 21) (k * 21 + 21) 32 (by omega) (by omega) (by omega) (by omega)
  obtain ⟨y3, g3, e3⟩ := piece_ok (c := c) hW z (k * 21) (k * 21 + 21) 32 (by omega) (by omega) (by omega) (by omega)
  have px := o.xPos_lt
  have py := o.yPos_lt
  have pz := o.zPos_lt
  have s1 : o.xPos < 64 := by omega
  have s2 : o.yPos < 64 := by omega
  have s3 : o.zPos < 64 := by omega
  let chunk := (addTwoZeroesBeforeEveryBitU32 (y1.setWidth 32) <<< o.xPos) |||
        (addTwoZeroesBeforeEveryBitU32 (y2.setWidth 32) <<< o.yPos) |||
        (addTwoZeroesBeforeEveryBitU32 (y3.setWidth 32) <<< o.zPos)
  have hchunk : ∀ i, i < 64 → chunk.getLsbD i = o.pick (i % 3)
      (decide (i / 3 < 21) && x.getLsbD (k * 21 + i / 3)) (decide (i / 3 < 21) && y.getLsbD (k * 21 + i / 3))
      (decide (i / 3 < 21) && z.getLsbD (k * 21 + i / 3)) := by
    intro i hi
    apply pick_or
    · rw [spread32_shl _ _ px i hi, e1, Nat.add_sub_cancel_left, ← Bool.and_assoc, ← Bool.and_assoc, ← Bool.and_assoc,
        Bool.and_assoc (decide _) (decide _) (decide _), Bool.and_self]
    · rw [spread32_shl _ _ py i hi, e2, Nat.add_sub_cancel_left, ← Bool.and_assoc, ← Bool.and_assoc, ← Bool.and_assoc,
        Bool.and_assoc (decide _) (decide _) (decide _), Bool.and_self]
    · rw [spread32_shl _ _ pz i hi, e3, Nat.add_sub_cancel_left, ← Bool.and_assoc, ← Bool.and_assoc, ← Bool.and_assoc,
        Bool.and_assoc (decide _) (decide _) (decide _), Bool.and_self]
  have hlt : chunk.toNat < 2 ^ (min (k * 63 + Bits.BITS B % 3 + 63) (Bits.BITS B) - (k * 63 + Bits.BITS B % 3)) := by
    apply Nat.lt_pow_two_of_testBit
    intro j hj
    rw [← getLsbD_eq_testBit]
    by_cases q4 : j < 64
    · rw [hchunk _ q4]
      by_cases q5 : j / 3 < 21
      · rw [hx _ (by omega), hy _ (by omega), hz _ (by omega)]
        simp only [Bool.and_false, OctantOrdering.pick, ite_self]
      · rw [decide_eq_false q5]
        simp only [Bool.false_and, OctantOrdering.pick, ite_self]
    · exact BitVec.getLsbD_of_ge _ _ (by omega)
  have hpw : 2 ^ (min (k * 63 + Bits.BITS B % 3 + 63) (Bits.BITS B) - (k * 63 + Bits.BITS B % 3)) ≤ 2 ^ Bits.BITS B :=
    Nat.pow_le_pow_right (by decide) (by omega)
  have hv : val (Bits.fromUN c chunk : B) = chunk.toNat := LawfulContainer.fromUN hw _ (by omega)
  obtain ⟨bits', g4, e4⟩ := LawfulContainer.set hw bits (Bits.fromUN c chunk) (k * 63 + Bits.BITS B % 3)
    (min (k * 63 + Bits.BITS B % 3 + 63) (Bits.BITS B)) (by omega) (by omega) (by rw [hv]; exact hlt)
  refine ⟨bits', ?_, ?_⟩
  · simp only [umul_ok a1, uadd_ok a2, g1, g2, g3, ok_bind, umul_ok a3, uadd_ok a4, uadd_ok a5, shl_ok s1, shl_ok s2, shl_ok s3]
    exact g4
  · intro i hi'
    rw [e4 i]
    by_cases h1 : Bits.BITS B % 3 ≤ i ∧ (i - Bits.BITS B % 3) / 63 = k
    · have q1 : k * 63 + Bits.BITS B % 3 ≤ i ∧ i < min (k * 63 + Bits.BITS B % 3 + 63) (Bits.BITS B) := by omega
      have q4 : (i - (k * 63 + Bits.BITS B % 3)) % 3 = (i - Bits.BITS B % 3) % 3 := by omega
      have q5 : (i - (k * 63 + Bits.BITS B % 3)) / 3 < 21 := by omega
      have q6 : k * 21 + (i - (k * 63 + Bits.BITS B % 3)) / 3 = (i - Bits.BITS B % 3) / 3 := by omega
      rw [if_pos q1, if_pos h1, hv, ← getLsbD_eq_testBit, hchunk _ (by omega), q4, q6, decide_eq_true q5]
      simp only [Bool.true_and]
    · rw [if_neg h1, if_neg (by omega)]

/-- Fixed depth. -/
theorem fixedFromGridIndexOf_bits (hc : c.Supported) (hw : on B c) (hW21 : 21 ≤ c.ptrBits)
    (hfit : Bits.BITS B / dim Octant < c.ptrBits) (g : Vector3 c.ptrBits) (o : OctantOrdering) :
    ∃ m : MortonIndex3D (FixedDepthStorage3DOf B), fixedFromGridIndexOf c g o = .ok m ∧ ∀ i, i < Bits.BITS B → (val m.storage.bits).testBit i =
      (decide (Bits.BITS B % 3 ≤ i) && o.pick ((i - Bits.BITS B % 3) % 3) (g.x.getLsbD ((i - Bits.BITS B % 3) / 3)) (g.y.getLsbD ((i - Bits.BITS B % 3) / 3))
        (g.z.getLsbD ((i - Bits.BITS B % 3) / 3))) := by
  have hp := hc.le
  have hW := hc.intWidth
  have hWl := hW.le
  have hWp : 16 ≤ c.ptrBits := by rcases hc with h | h | h <;> omega
  have hW64 : c.ptrBits ≤ 64 := by rcases hc with h | h | h <;> omega
  obtain ⟨mask, gm, em⟩ := maxLevelsBitmask_ok hfit
  rw [dim_Octant] at *
  have hl : Bits.BITS B ≤ 767 := by omega
  have hM : FixedDepthStorage.MAX_LEVELS (Bits.BITS B) Octant = Bits.BITS B / 3 := rfl
  have hD : Dimension.DIMENSIONALITY Octant = 3 := rfl
  have hnot : ¬ Bits.BITS B / 3 > c.ptrBits := by omega
  have a1 : Bits.BITS B / 3 + 20 < 2 ^ c.ptrBits := by omega
  have mk : ∀ v : BitVec c.ptrBits, ∀ i, (v &&& mask).getLsbD i = (v.getLsbD i && decide (i < Bits.BITS B / 3)) := by
    intro v i
    rw [BitVec.getLsbD_and, em]
  have mz : ∀ v : BitVec c.ptrBits, ∀ i, Bits.BITS B / 3 ≤ i → (v &&& mask).getLsbD i = false := by
    intro v i hi
    rw [mk, decide_eq_false (by omega), Bool.and_false]
  let P : Nat → B → Prop := fun k bits => ∀ i, i < Bits.BITS B → (val bits).testBit i =
    (decide (Bits.BITS B % 3 ≤ i) && decide ((i - Bits.BITS B % 3) / 63 < k) && o.pick ((i - Bits.BITS B % 3) % 3) ((g.x &&& mask).getLsbD ((i - Bits.BITS B % 3) / 3))
      ((g.y &&& mask).getLsbD ((i - Bits.BITS B % 3) / 3)) ((g.z &&& mask).getLsbD ((i - Bits.BITS B % 3) / 3)))
  obtain ⟨bits, h1, h2⟩ := forRange_invariant (a := 0) (b := (Bits.BITS B / 3 + 20) / 21) (init := (FixedStorageType.default : B))
    (body := fun chunk_index bits => do
      let start_bit ← umul c chunk_index 21
      let end_bit ← uadd c start_bit 21
      let x_chunk := (← intGetBits c (g.x &&& mask) ⟨start_bit, end_bit⟩).setWidth 32
      let y_chunk := (← intGetBits c (g.y &&& mask) ⟨start_bit, end_bit⟩).setWidth 32
      let z_chunk := (← intGetBits c (g.z &&& mask) ⟨start_bit, end_bit⟩).setWidth 32
      let chunk := (← shl c (addTwoZeroesBeforeEveryBitU32 x_chunk) o.xPos) |||
        (← shl c (addTwoZeroesBeforeEveryBitU32 y_chunk) o.yPos) |||
        (← shl c (addTwoZeroesBeforeEveryBitU32 z_chunk) o.zPos)
      let start_bit ← uadd c (← umul c chunk_index 63) (Bits.BITS B % 3)
      let end_bit := min (← uadd c start_bit 63) (Bits.BITS B)
      Bits.setBits c bits ⟨start_bit, end_bit⟩ (Bits.fromUN c chunk))
    P (by omega) (by intro i _; rw [LawfulContainer.default, Nat.zero_testBit]; simp) (by
      intro k bits _ hk hP
      obtain ⟨bits', e1, e2⟩ := fixed_chunk_stepOf hc hl hw hW21 o (g.x &&& mask) (g.y &&& mask) (g.z &&& mask) k hk bits
        (mz g.x) (mz g.y) (mz g.z)
      refine ⟨bits', e1, ?_⟩
      intro i hi
      rw [e2 i hi]
      by_cases h0 : Bits.BITS B % 3 ≤ i
      · by_cases h : (i - Bits.BITS B % 3) / 63 = k
        · rw [if_pos ⟨h0, h⟩, decide_eq_true h0, decide_eq_true (by omega), Bool.true_and, Bool.true_and]
        · rw [if_neg (fun hh => h hh.2), hP i hi,
            show decide ((i - Bits.BITS B % 3) / 63 < k + 1) = decide ((i - Bits.BITS B % 3) / 63 < k) by rw [decide_eq_decide]; omega]
      · rw [if_neg (fun hh => h0 hh.1), hP i hi, decide_eq_false h0]
        simp)
  refine ⟨⟨⟨bits⟩⟩, ?_, ?_⟩
  · unfold fixedFromGridIndexOf
    simp only [show o.getBitShiftsForXyz = (o.xPos, o.yPos, o.zPos) by cases o <;> rfl, gm, hM, hD, hnot, if_false, ok_bind, uadd_ok a1, pure_eq_ok]
    change (forRange 0 ((Bits.BITS B / 3 + 20) / 21) ((FixedStorageType.default : B)) _ >>= _) = _
    dsimp only at h1
    rw [h1]
    rfl
  · intro i hi
    change (val bits).testBit i = _
    rw [h2 i hi, mk, mk, mk]
    by_cases h0 : Bits.BITS B % 3 ≤ i
    · have q1 : (i - Bits.BITS B % 3) / 63 < (Bits.BITS B / 3 + 20) / 21 := by omega
      have q2 : (i - Bits.BITS B % 3) / 3 < Bits.BITS B / 3 := by omega
      simp only [decide_eq_true q1, decide_eq_true q2, Bool.and_true]
    · rw [decide_eq_false h0]
      simp

theorem fixedFromGridIndexOf_ok (hc : c.Supported) (hw : on B c) (hW21 : 21 ≤ c.ptrBits)
    (hfit : Bits.BITS B / dim Octant < c.ptrBits) (g : Vector3 c.ptrBits) (o : OctantOrdering) :
    ∃ m : MortonIndex3D (FixedDepthStorage3DOf B), fixedFromGridIndexOf c g o = .ok m ∧ TailZero m.storage ∧
      GridPath3 o g (Bits.BITS B / dim Octant) m.storage := by
  obtain ⟨m, h1, h2⟩ := fixedFromGridIndexOf_bits hc hw hW21 hfit g o
  refine ⟨m, h1, ?_, ?_⟩
  · intro i hi
    change i < Bits.BITS B - Bits.BITS B / 3 * 3 at hi
    change (val m.storage.bits).testBit i = false
    rw [h2 i (by omega), decide_eq_false (by omega), Bool.false_and]
  · intro l hl
    rw [dim_Octant] at hl
    apply gridCell3_of_bits (by omega)
    intro r hr
    change (val m.storage.bits).testBit (Bits.BITS B - (l + 1) * 3 + r) = _
    rw [level_pos hl, h2 _ (by omega), decide_eq_true (by omega), Bool.true_and]
    have e1 : (Bits.BITS B % 3 + 3 * (Bits.BITS B / 3 - 1 - l) + r - Bits.BITS B % 3) % 3 = r := by omega
    have e2 : (Bits.BITS B % 3 + 3 * (Bits.BITS B / 3 - 1 - l) + r - Bits.BITS B % 3) / 3 = Bits.BITS B / 3 - 1 - l := by omega
    rw [e1, e2]
    rfl

theorem fixedFromGridIndexOf_error (hfit : c.ptrBits ≤ Bits.BITS B / dim Octant) (g : Vector3 c.ptrBits) (o : OctantOrdering) :
    (fixedFromGridIndexOf c g o : Res (MortonIndex3D (FixedDepthStorage3DOf B))) = .error .compileError := by
  unfold fixedFromGridIndexOf
  rw [maxLevelsBitmask_error hfit]
  rfl

/-- One chunk of the static loop. -/
theorem static_chunk_stepOf (hc : c.Supported) (hl : Bits.BITS B ≤ 2 ^ 32) (hp32 : Bits.BITS B + 32 < 2 ^ c.ptrBits) (hw : on B c) (o : OctantOrdering)
    (x y z : BitVec c.ptrBits) (k : Nat) (hk : k < (Bits.BITS B / 3 + 7) / 8) (bits : B)
    (hx : ∀ i, Bits.BITS B / 3 ≤ i → x.getLsbD i = false) (hy : ∀ i, Bits.BITS B / 3 ≤ i → y.getLsbD i = false)
    (hz : ∀ i, Bits.BITS B / 3 ≤ i → z.getLsbD i = false) :
    ∃ bits', (do
      let start_bit ← umul c k 8
      let end_bit ← uadd c start_bit 8
      let x_chunk := (← intGetBits c x ⟨start_bit, end_bit⟩).setWidth 8
      let y_chunk := (← intGetBits c y ⟨start_bit, end_bit⟩).setWidth 8
      let z_chunk := (← intGetBits c z ⟨start_bit, end_bit⟩).setWidth 8
      let chunk := (← shl c (addTwoZeroesBeforeEveryBitU8 x_chunk) o.xPos) |||
        (← shl c (addTwoZeroesBeforeEveryBitU8 y_chunk) o.yPos) |||
        (← shl c (addTwoZeroesBeforeEveryBitU8 z_chunk) o.zPos)
      let start_bit ← uadd c (← umul c k 24) (Bits.BITS B % 3)
      let end_bit := min (← uadd c start_bit 24) (Bits.BITS B)
      Bits.setBits c bits ⟨start_bit, end_bit⟩ (Bits.fromUN c chunk)) = .ok bits' ∧
      ∀ i, i < Bits.BITS B → (val bits').testBit i =
        if (Bits.BITS B) % 3 ≤ i ∧ (i - Bits.BITS B % 3) / 24 = k then
          o.pick ((i - Bits.BITS B % 3) % 3) (x.getLsbD ((i - Bits.BITS B % 3) / 3)) (y.getLsbD ((i - Bits.BITS B % 3) / 3)) (z.getLsbD ((i - Bits.BITS B % 3) / 3))
        else (val bits).testBit i := by
  have hp := hc.le
  have hW := hc.intWidth
  have hWp : 16 ≤ c.ptrBits := by rcases hc with h | h | h <;> omega
  have hpow : 2 ^ 16 ≤ 2 ^ c.ptrBits := Nat.pow_le_pow_right (by decide) hWp
  have a1 : k * 8 < 2 ^ c.ptrBits := by omega
  have a2 : k * 8 + 8 < 2 ^ c.ptrBits := by omega
  have a3 : k * 24 < 2 ^ c.ptrBits := by omega
  have a4 : k * 24 + Bits.BITS B % 3 < 2 ^ c.ptrBits := by omega
  have a5 : k * 24 + Bits.BITS B % 3 + 24 < 2 ^ c.ptrBits := by omega
  obtain ⟨y1, g1, e1⟩ := piece_ok (c := c) hW x (k * 8) (k * 8 + 8) 8 (by omega) (by omega) (by omega) (by omega)
  obtain ⟨y2, g2, e2⟩ := piece_ok (c := c) hW y (k * 8) (k * 8 + 8) 8 (by omega) (by omega) (by omega) (by omega)
  obtain ⟨y3, g3, e3⟩ := piece_ok (c := c) hW z (k * 8) (k * 8 + 8) 8 (by omega) (by omega) (by omega) (by omega)
  have px := o.xPos_lt
  have py := o.yPos_lt
  have pz := o.zPos_lt
  have s1 : o.xPos < 32 := by omega
  have s2 : o.yPos < 32 := by omega
  have s3 : o.zPos < 32 := by omega
  let chunk := (addTwoZeroesBeforeEveryBitU8 (y1.setWidth 8) <<< o.xPos) |||
        (addTwoZeroesBeforeEveryBitU8 (y2.setWidth 8) <<< o.yPos) |||
        (addTwoZeroesBeforeEveryBitU8 (y3.setWidth 8) <<< o.zPos)
  have hchunk : ∀ i, i < 32 → chunk.getLsbD i = o.pick (i % 3)
      (decide (i / 3 < 8) && x.getLsbD (k * 8 + i / 3)) (decide (i / 3 < 8) && y.getLsbD (k * 8 + i / 3))
      (decide (i / 3 < 8) && z.getLsbD (k * 8 + i / 3)) := by
    intro i hi
    apply pick_or
    · rw [spread8_shl _ _ px i hi, e1, Nat.add_sub_cancel_left]
    · rw [spread8_shl _ _ py i hi, e2, Nat.add_sub_cancel_left]
    · rw [spread8_shl _ _ pz i hi, e3, Nat.add_sub_cancel_left]
  have hlt : chunk.toNat < 2 ^ (min (k * 24 + Bits.BITS B % 3 + 24) (Bits.BITS B) - (k * 24 + Bits.BITS B % 3)) := by
    apply Nat.lt_pow_two_of_testBit
    intro j hj
    rw [← getLsbD_eq_testBit]
    by_cases q4 : j < 32
    · rw [hchunk _ q4]
      by_cases q5 : j / 3 < 8
      · rw [hx _ (by omega), hy _ (by omega), hz _ (by omega)]
        simp only [Bool.and_false, OctantOrdering.pick, ite_self]
      · rw [decide_eq_false q5]
        simp only [Bool.false_and, OctantOrdering.pick, ite_self]
    · exact BitVec.getLsbD_of_ge _ _ (by omega)
  have hpw : 2 ^ (min (k * 24 + Bits.BITS B % 3 + 24) (Bits.BITS B) - (k * 24 + Bits.BITS B % 3)) ≤ 2 ^ Bits.BITS B :=
    Nat.pow_le_pow_right (by decide) (by omega)
  have hv : val (Bits.fromUN c chunk : B) = chunk.toNat := LawfulContainer.fromUN hw _ (by omega)
  obtain ⟨bits', g4, e4⟩ := LawfulContainer.set hw bits (Bits.fromUN c chunk) (k * 24 + Bits.BITS B % 3)
    (min (k * 24 + Bits.BITS B % 3 + 24) (Bits.BITS B)) (by omega) (by omega) (by rw [hv]; exact hlt)
  refine ⟨bits', ?_, ?_⟩
  · simp only [umul_ok a1, uadd_ok a2, g1, g2, g3, ok_bind, umul_ok a3, uadd_ok a4, uadd_ok a5, shl_ok s1, shl_ok s2, shl_ok s3]
    exact g4
  · intro i hi'
    rw [e4 i]
    by_cases h1 : Bits.BITS B % 3 ≤ i ∧ (i - Bits.BITS B % 3) / 24 = k
    · have q1 : k * 24 + Bits.BITS B % 3 ≤ i ∧ i < min (k * 24 + Bits.BITS B % 3 + 24) (Bits.BITS B) := by omega
      have q4 : (i - (k * 24 + Bits.BITS B % 3)) % 3 = (i - Bits.BITS B % 3) % 3 := by omega
      have q5 : (i - (k * 24 + Bits.BITS B % 3)) / 3 < 8 := by omega
      have q6 : k * 8 + (i - (k * 24 + Bits.BITS B % 3)) / 3 = (i - Bits.BITS B % 3) / 3 := by omega
      rw [if_pos q1, if_pos h1, hv, ← getLsbD_eq_testBit, hchunk _ (by omega), q4, q6, decide_eq_true q5]
      simp only [Bool.true_and]
    · rw [if_neg h1, if_neg (by omega)]

/-- Static: the loop, once the coordinates have been shifted. -/
theorem staticFromGridIndexOf_bits' (hc : c.Supported) (hl : Bits.BITS B ≤ 2 ^ 32) (hp32 : Bits.BITS B + 32 < 2 ^ c.ptrBits) (hw : on B c)
    (g : Vector3 c.ptrBits) (gd : Nat) (hgd : gd ≤ Bits.BITS B / 3) (o : OctantOrdering) {x0 x y0 y z0 z : BitVec c.ptrBits}
    (gx0 : intGetBits c g.x ⟨0, gd⟩ = .ok x0) (gx : shl c x0 (Bits.BITS B / 3 - gd) = .ok x)
    (gy0 : intGetBits c g.y ⟨0, gd⟩ = .ok y0) (gy : shl c y0 (Bits.BITS B / 3 - gd) = .ok y)
    (gz0 : intGetBits c g.z ⟨0, gd⟩ = .ok z0) (gz : shl c z0 (Bits.BITS B / 3 - gd) = .ok z)
    (hx : ∀ i, Bits.BITS B / 3 ≤ i → x.getLsbD i = false) (hy : ∀ i, Bits.BITS B / 3 ≤ i → y.getLsbD i = false)
    (hz : ∀ i, Bits.BITS B / 3 ≤ i → z.getLsbD i = false) :
    ∃ bits : B, staticFromGridIndexOf c g gd o = .ok (.ok ⟨⟨bits, asU8 gd⟩⟩) ∧ ∀ i, i < Bits.BITS B → (val bits).testBit i =
      (decide (Bits.BITS B % 3 ≤ i) && decide ((Bits.BITS B / 3 + 7) / 8 - (gd + 7) / 8 ≤ (i - Bits.BITS B % 3) / 24) &&
        o.pick ((i - Bits.BITS B % 3) % 3) (x.getLsbD ((i - Bits.BITS B % 3) / 3)) (y.getLsbD ((i - Bits.BITS B % 3) / 3))
          (z.getLsbD ((i - Bits.BITS B % 3) / 3))) := by
  have hp := hc.le
  have hWl := hc.intWidth.le
  have hWp : 16 ≤ c.ptrBits := by rcases hc with h | h | h <;> omega
  have hM : FixedDepthStorage.MAX_LEVELS (Bits.BITS B) Octant = Bits.BITS B / 3 := rfl
  have hD : Dimension.DIMENSIONALITY Octant = 3 := rfl
  have hnot : ¬ gd > Bits.BITS B / 3 := by omega
  have a1 : gd + 7 < 2 ^ c.ptrBits := by omega
  have a2 : Bits.BITS B / 3 + 7 < 2 ^ c.ptrBits := by omega
  have a4 : (gd + 7) / 8 ≤ (Bits.BITS B / 3 + 7) / 8 := by omega
  have a5 : gd ≤ Bits.BITS B / 3 := hgd
  let P : Nat → B → Prop := fun k bits => ∀ i, i < Bits.BITS B → (val bits).testBit i =
    (decide (Bits.BITS B % 3 ≤ i) && decide (k ≤ (i - Bits.BITS B % 3) / 24) && o.pick ((i - Bits.BITS B % 3) % 3) (x.getLsbD ((i - Bits.BITS B % 3) / 3))
      (y.getLsbD ((i - Bits.BITS B % 3) / 3)) (z.getLsbD ((i - Bits.BITS B % 3) / 3)))
  obtain ⟨bits, h1, h2⟩ := forRangeRev_invariant (a := (Bits.BITS B / 3 + 7) / 8 - (gd + 7) / 8) (b := (Bits.BITS B / 3 + 7) / 8) (init := (FixedStorageType.default : B))
    (body := fun chunk_index bits => do
      let start_bit ← umul c chunk_index 8
      let end_bit ← uadd c start_bit 8
      let x_chunk := (← intGetBits c x ⟨start_bit, end_bit⟩).setWidth 8
      let y_chunk := (← intGetBits c y ⟨start_bit, end_bit⟩).setWidth 8
      let z_chunk := (← intGetBits c z ⟨start_bit, end_bit⟩).setWidth 8
      let chunk := (← shl c (addTwoZeroesBeforeEveryBitU8 x_chunk) o.xPos) |||
        (← shl c (addTwoZeroesBeforeEveryBitU8 y_chunk) o.yPos) |||
        (← shl c (addTwoZeroesBeforeEveryBitU8 z_chunk) o.zPos)
      let start_bit ← uadd c (← umul c chunk_index 24) (Bits.BITS B % 3)
      let end_bit := min (← uadd c start_bit 24) (Bits.BITS B)
      Bits.setBits c bits ⟨start_bit, end_bit⟩ (Bits.fromUN c chunk))
    P (by omega) (by
      intro i hi
      rw [LawfulContainer.default, Nat.zero_testBit]
      by_cases h0 : Bits.BITS B % 3 ≤ i
      · have : ¬ (Bits.BITS B / 3 + 7) / 8 ≤ (i - Bits.BITS B % 3) / 24 := by omega
        rw [decide_eq_false this]
        simp
      · rw [decide_eq_false h0]
        simp) (by
      intro k bits hk0 hk hP
      obtain ⟨bits', e1, e2⟩ := static_chunk_stepOf hc hl hp32 hw o x y z k hk bits hx hy hz
      refine ⟨bits', e1, ?_⟩
      intro i hi
      rw [e2 i hi]
      by_cases h0 : Bits.BITS B % 3 ≤ i
      · by_cases h : (i - Bits.BITS B % 3) / 24 = k
        · rw [if_pos ⟨h0, h⟩, decide_eq_true h0, decide_eq_true (by omega), Bool.true_and, Bool.true_and]
        · rw [if_neg (fun hh => h hh.2), hP i hi,
            show decide (k + 1 ≤ (i - Bits.BITS B % 3) / 24) = decide (k ≤ (i - Bits.BITS B % 3) / 24) by rw [decide_eq_decide]; omega]
      · rw [if_neg (fun hh => h0 hh.1), hP i hi, decide_eq_false h0]
        simp)
  refine ⟨bits, ?_, h2⟩
  unfold staticFromGridIndexOf
  simp only [show o.getBitShiftsForXyz = (o.xPos, o.yPos, o.zPos) by cases o <;> rfl, hM, hD, hnot, if_false, usub_ok a5, gx0, gx, gy0, gy, gz0, gz, ok_bind, uadd_ok a1, uadd_ok a2, usub_ok a4,
    pure_eq_ok]
  change (forRangeRev _ _ ((FixedStorageType.default : B)) _ >>= _) = _
  dsimp only at h1
  rw [h1]
  rfl

/-- The same where the depth fits its byte. -/
theorem staticFromGridIndexOf_bits (hc : c.Supported) (hB : StaticStorage3DOf.Small B) (hw : on B c)
    (g : Vector3 c.ptrBits) (gd : Nat) (hgd : gd ≤ Bits.BITS B / 3) (o : OctantOrdering) {x0 x y0 y z0 z : BitVec c.ptrBits}
    (gx0 : intGetBits c g.x ⟨0, gd⟩ = .ok x0) (gx : shl c x0 (Bits.BITS B / 3 - gd) = .ok x)
    (gy0 : intGetBits c g.y ⟨0, gd⟩ = .ok y0) (gy : shl c y0 (Bits.BITS B / 3 - gd) = .ok y)
    (gz0 : intGetBits c g.z ⟨0, gd⟩ = .ok z0) (gz : shl c z0 (Bits.BITS B / 3 - gd) = .ok z)
    (hx : ∀ i, Bits.BITS B / 3 ≤ i → x.getLsbD i = false) (hy : ∀ i, Bits.BITS B / 3 ≤ i → y.getLsbD i = false)
    (hz : ∀ i, Bits.BITS B / 3 ≤ i → z.getLsbD i = false) :
    ∃ bits : B, staticFromGridIndexOf c g gd o = .ok (.ok ⟨⟨bits, gd⟩⟩) ∧ ∀ i, i < Bits.BITS B → (val bits).testBit i =
      (decide (Bits.BITS B % 3 ≤ i) && decide ((Bits.BITS B / 3 + 7) / 8 - (gd + 7) / 8 ≤ (i - Bits.BITS B % 3) / 24) &&
        o.pick ((i - Bits.BITS B % 3) % 3) (x.getLsbD ((i - Bits.BITS B % 3) / 3)) (y.getLsbD ((i - Bits.BITS B % 3) / 3))
          (z.getLsbD ((i - Bits.BITS B % 3) / 3))) := by
  have hWp : 16 ≤ c.ptrBits := by rcases hc with h | h | h <;> omega
  have hpow : 2 ^ 16 ≤ 2 ^ c.ptrBits := Nat.pow_le_pow_right (by decide) hWp
  have hl : Bits.BITS B ≤ 767 := by
    unfold StaticStorage3DOf.Small at hB
    rw [dim_Octant] at hB
    omega
  have hsmall : asU8 gd = gd := Nat.mod_eq_of_lt (Nat.lt_of_le_of_lt hgd hB)
  have := staticFromGridIndexOf_bits' hc (by omega) (by omega) hw g gd hgd o gx0 gx gy0 gy gz0 gz hx hy hz
  rwa [hsmall] at this

/-- Static: exactly which cells come out. -/
theorem staticFromGridIndexOf_ok (hc : c.Supported) (hw : on B c) (hfit : Bits.BITS B / dim Octant ≤ c.ptrBits)
    (g : Vector3 c.ptrBits) (gd : Nat) (hgd : gd ≤ Bits.BITS B / dim Octant)
    (hs : Bits.BITS B / dim Octant - gd < c.ptrBits ∨ c.overflowChecks = false) (o : OctantOrdering) :
    ∃ m : MortonIndex3D (StaticStorage3DOf B), staticFromGridIndexOf c g gd o = .ok (.ok m) ∧ m.storage.depth = gd ∧ TailZero m.storage ∧
      ∀ l, l < gd → if staticVisited (Bits.BITS B) gd l then GridCell3 o g (gd - 1 - l) (slot m.storage l)
        else slot m.storage l = .Zero := by
  have hp := hc.le
  have hW := hc.intWidth
  have hWl := hW.le
  have hWp : 16 ≤ c.ptrBits := by rcases hc with h | h | h <;> omega
  have hW64 : c.ptrBits ≤ 64 := by rcases hc with h | h | h <;> omega
  rw [dim_Octant] at *
  obtain ⟨x0, x, gx0, gx, ex⟩ := MortonIndex2D.shifted_ok hW g.x hgd hfit hs
  obtain ⟨y0, y, gy0, gy, ey⟩ := MortonIndex2D.shifted_ok hW g.y hgd hfit hs
  obtain ⟨z0, z, gz0, gz, ez⟩ := MortonIndex2D.shifted_ok hW g.z hgd hfit hs
  obtain ⟨bits, h1, h2⟩ := staticFromGridIndexOf_bits (B := B) hc (by unfold StaticStorage3DOf.Small; rw [dim_Octant]; omega) hw g gd hgd o
    gx0 gx gy0 gy gz0 gz (fun i hi => by rw [ex, decide_eq_false (p := i < _) (by omega)]; simp)
    (fun i hi => by rw [ey, decide_eq_false (p := i < _) (by omega)]; simp)
    (fun i hi => by rw [ez, decide_eq_false (p := i < _) (by omega)]; simp)
  have zero : ∀ i, i < Bits.BITS B / 3 - gd → ∀ r, o.pick r (x.getLsbD i) (y.getLsbD i) (z.getLsbD i) = false := by
    intro i hi r
    rw [ex, ey, ez, decide_eq_false (by omega)]
    simp [OctantOrdering.pick]
  refine ⟨⟨⟨bits, gd⟩⟩, ?_, rfl, ?_, ?_⟩
  · exact h1
  · intro i hi
    change i < Bits.BITS B - gd * 3 at hi
    change (val bits).testBit i = false
    rw [h2 i (by omega)]
    by_cases h0 : Bits.BITS B % 3 ≤ i
    · rw [zero _ (by omega), Bool.and_false]
    · rw [decide_eq_false h0]; simp
  · intro l hl
    have key : ∀ r, r < 3 → (val bits).testBit (Bits.BITS B - (l + 1) * 3 + r) =
        (decide (staticVisited (Bits.BITS B) gd l) && o.pick r (x.getLsbD (Bits.BITS B / 3 - 1 - l)) (y.getLsbD (Bits.BITS B / 3 - 1 - l))
          (z.getLsbD (Bits.BITS B / 3 - 1 - l))) := by
      intro r hr
      rw [level_pos (by omega), h2 _ (by omega), decide_eq_true (by omega), Bool.true_and]
      have e1 : (Bits.BITS B % 3 + 3 * (Bits.BITS B / 3 - 1 - l) + r - Bits.BITS B % 3) % 3 = r := by omega
      have e2 : (Bits.BITS B % 3 + 3 * (Bits.BITS B / 3 - 1 - l) + r - Bits.BITS B % 3) / 3 = Bits.BITS B / 3 - 1 - l := by omega
      rw [e1, e2]
      congr 1
      rw [decide_eq_decide]
      unfold staticVisited
      omega
    by_cases hv : staticVisited (Bits.BITS B) gd l
    · rw [if_pos hv]
      apply gridCell3_of_bits (by omega)
      intro r hr
      change (val bits).testBit (Bits.BITS B - (l + 1) * 3 + r) = _
      rw [key r hr, decide_eq_true hv, Bool.true_and, ex, ey, ez, decide_eq_true (by omega), decide_eq_true (by omega),
        show Bits.BITS B / 3 - 1 - l - (Bits.BITS B / 3 - gd) = gd - 1 - l by omega]
      simp only [Bool.true_and]
    · rw [if_neg hv]
      apply toUsize_inj
      rw [slot_ofNat]
      apply Nat.eq_of_testBit_eq
      intro j
      rw [testBit_digit, dim_Octant]
      change (decide (j < 3) && (val bits).testBit (Bits.BITS B - (l + 1) * 3 + j)) = (0 : Nat).testBit j
      rw [Nat.zero_testBit]
      by_cases hj : j < 3
      · rw [key j hj, decide_eq_false hv]; simp
      · simp [hj]

theorem staticFromGridIndexOf_error (g : Vector3 c.ptrBits) (gd : Nat) (hgd : gd > Bits.BITS B / dim Octant)
    (o : OctantOrdering) :
    (staticFromGridIndexOf c g gd o : Res (Except Error (MortonIndex3D (StaticStorage3DOf B)))) = .ok (.error (.DepthLimitedExceeded (Bits.BITS B / dim Octant))) := by
  have : gd > FixedDepthStorage.MAX_LEVELS (Bits.BITS B) Octant := hgd
  simp only [staticFromGridIndexOf, this, if_true, pure_eq_ok]
  rfl

end MortonIndex3D

end MortonRs
