import Verif.Lemmas.GridNarrow
import Verif.Lemmas.ContainersGrid2D
import Verif.Lemmas.ContainersGrid3D

/-! # Static `from_grid_index` over any container, every depth -/

namespace MortonRs

open BitStorage LawfulContainer

variable {c : Cfg} {B : Type} [FixedStorageType B]

namespace MortonIndex2D

theorem staticFromGridIndexOf_overflow (ho : c.overflowChecks = true) (g : Vector2 c.ptrBits) {gd : Nat}
    (hgd : gd ≤ Bits.BITS B / 2) (h : c.ptrBits < gd ∨ c.ptrBits ≤ Bits.BITS B / 2 - gd) (o : QuadrantOrdering) :
    (staticFromGridIndexOf c g gd o : Res (Except Error (MortonIndex2D (StaticStorage2DOf B)))) = .error .overflow := by
  have hM : FixedDepthStorage.MAX_LEVELS (Bits.BITS B) Quadrant = Bits.BITS B / 2 := rfl
  have hnot : ¬ gd > Bits.BITS B / 2 := by omega
  unfold staticFromGridIndexOf
  simp only [hM, hnot, if_false, usub_ok hgd, ok_bind]
  rcases shifted_overflow ho h g.x with h | ⟨y, h, h'⟩
  · rw [h]; rfl
  · rw [h]; simp only [ok_bind]; rw [h']; rfl

variable [LawfulContainer B]

/-- The position that survives: the topmost levels are lost if the shift moves them out of a `usize`. -/
def lowPart (c : Cfg) (k : Nat) (x : BitVec c.ptrBits) : BitVec c.ptrBits := BitVec.ofNat c.ptrBits (x.toNat % 2 ^ k)

theorem lowPart_getLsbD (k : Nat) (x : BitVec c.ptrBits) (i : Nat) : (lowPart c k x).getLsbD i = (decide (i < k) && x.getLsbD i) := by
  unfold lowPart
  rw [BitVec.getLsbD_ofNat, Nat.testBit_mod_two_pow, getLsbD_eq_testBit]
  by_cases hi : i < c.ptrBits
  · rw [decide_eq_true hi, Bool.true_and]
  · have := BitVec.getLsbD_of_ge x i (by omega)
    rw [getLsbD_eq_testBit] at this
    rw [this]
    simp

theorem lowPart_toNat (k : Nat) (x : BitVec c.ptrBits) : (lowPart c k x).toNat = x.toNat % 2 ^ k := by
  unfold lowPart
  rw [BitVec.toNat_ofNat]
  exact Nat.mod_eq_of_lt (Nat.lt_of_le_of_lt (Nat.mod_le _ _) x.isLt)

/-- Static: exactly which index comes out, on any target. -/
theorem staticFromGridIndexOf_all (hc : c.Supported) (hB : StaticStorage2DOf.Small B) (h8 : Bits.BITS B % 8 = 0) (hw : on B c)
    (g : Vector2 c.ptrBits) {gd : Nat} (hgd : gd ≤ Bits.BITS B / 2)
    (hs : c.overflowChecks = false ∨ (gd ≤ c.ptrBits ∧ Bits.BITS B / 2 - gd < c.ptrBits)) (o : QuadrantOrdering) :
    ∃ m : MortonIndex2D (StaticStorage2DOf B), staticFromGridIndexOf c g gd o = .ok (.ok m) ∧ m.storage.depth = gd ∧
      TailZero m.storage ∧
      ((gd ≤ c.ptrBits ∧ Bits.BITS B / 2 - gd < c.ptrBits) →
        GridPath2 o ⟨lowPart c (c.ptrBits - (Bits.BITS B / 2 - gd)) g.x, lowPart c (c.ptrBits - (Bits.BITS B / 2 - gd)) g.y⟩ gd
          m.storage) ∧
      (¬ (gd ≤ c.ptrBits ∧ Bits.BITS B / 2 - gd < c.ptrBits) → ∀ i, (val m.storage.bits).testBit i = false) := by
  have hB' : Bits.BITS B / 2 < 256 := hB
  have hWp : 16 ≤ c.ptrBits := by rcases hc with h | h | h <;> omega
  have hpow : 2 ^ 16 ≤ 2 ^ c.ptrBits := Nat.pow_le_pow_right (by decide) hWp
  have hfacts : c.ptrBits ≤ Bits.BITS B / 2 - gd → c.ptrBits ≤ 4 * (Bits.BITS B / 8 - (gd + 3) / 4) := by
    rcases hc with h | h | h <;> rw [h] <;> omega
  obtain ⟨x0, x, gx0, gx, zx, ex⟩ := shifted_all hc hgd (by omega) (by omega) hs g.x
  obtain ⟨y0, y, gy0, gy, zy, ey⟩ := shifted_all hc hgd (by omega) (by omega) hs g.y
  obtain ⟨bits, h1, h2⟩ := staticFromGridIndexOf_bits hc hB h8 hw g gd hgd o gx0 gx gy0 gy
  have p1 : (orderBits o x y).1 = x ∨ (orderBits o x y).1 = y := by cases o <;> simp [orderBits]
  have p2 : (orderBits o x y).2 = x ∨ (orderBits o x y).2 = y := by cases o <;> simp [orderBits]
  have zero : ∀ i, 4 * (Bits.BITS B / 8 - (gd + 3) / 4) ≤ i →
      ¬ ((gd ≤ c.ptrBits ∧ Bits.BITS B / 2 - gd < c.ptrBits) ∧ Bits.BITS B / 2 - gd ≤ i) →
      x.getLsbD i = false ∧ y.getLsbD i = false := by
    intro i hi hn
    by_cases q1 : gd ≤ c.ptrBits
    · by_cases q2 : Bits.BITS B / 2 - gd < c.ptrBits
      · rw [ex q1 q2, ey q1 q2, decide_eq_false (p := Bits.BITS B / 2 - gd ≤ i) (by omega)]
        simp
      · have : c.ptrBits ≤ i := by have := hfacts (by omega); omega
        rw [BitVec.getLsbD_of_ge _ _ this, BitVec.getLsbD_of_ge _ _ this]
        simp
    · rw [zx (by omega), zy (by omega)]
      simp
  have zbit : ∀ i, i < Bits.BITS B → ¬ ((gd ≤ c.ptrBits ∧ Bits.BITS B / 2 - gd < c.ptrBits) ∧ Bits.BITS B / 2 - gd ≤ i / 2) →
      (val bits).testBit i = false := by
    intro i hi hn
    rw [h2 i hi]
    by_cases h : Bits.BITS B / 8 - (gd + 3) / 4 ≤ i / 8
    · obtain ⟨z1, z2⟩ := zero (i / 2) (by omega) hn
      have z : ∀ v : BitVec c.ptrBits, v = x ∨ v = y → v.getLsbD (i / 2) = false := by
        rintro v (rfl | rfl) <;> assumption
      rw [z _ p1, z _ p2]
      simp
    · rw [decide_eq_false h, Bool.false_and]
  refine ⟨⟨⟨bits, gd⟩⟩, h1, rfl, ?_, fun hq => ?_, fun hq i => ?_⟩
  · intro i hi
    change i < Bits.BITS B - gd * 2 at hi
    exact zbit i (by omega) (by omega)
  · obtain ⟨q1, q2⟩ := hq
    have key : ∀ l, l < gd → ∀ p, p < 2 → (val bits).testBit (Bits.BITS B - (l + 1) * 2 + p) =
        (if (2 * (Bits.BITS B / 2 - 1 - l) + p) % 2 = 0 then (orderBits o x y).1.getLsbD ((2 * (Bits.BITS B / 2 - 1 - l) + p) / 2)
          else (orderBits o x y).2.getLsbD ((2 * (Bits.BITS B / 2 - 1 - l) + p) / 2)) := by
      intro l hl p hp
      have e : Bits.BITS B - (l + 1) * 2 + p = 2 * (Bits.BITS B / 2 - 1 - l) + p := by omega
      rw [e, h2 _ (by omega), decide_eq_true (by omega), Bool.true_and]
    apply gridPath2_of_bits (by omega)
    · intro l hl
      change (val bits).testBit (Bits.BITS B - (l + 1) * 2 + o.xPos) = _
      rw [key l hl o.xPos (by cases o <;> decide), orderBits_x, ex q1 q2, decide_eq_true (p := _ ≤ _) (by omega),
        decide_eq_true (p := _ < Bits.BITS B / 2) (by omega), show Bits.BITS B / 2 - 1 - l - (Bits.BITS B / 2 - gd) = gd - 1 - l by omega,
        lowPart_getLsbD]
      simp only [Bool.true_and]
      congr 1
      rw [decide_eq_decide]
      omega
    · intro l hl
      change (val bits).testBit (Bits.BITS B - (l + 1) * 2 + o.yPos) = _
      rw [key l hl o.yPos (by cases o <;> decide), orderBits_y, ey q1 q2, decide_eq_true (p := _ ≤ _) (by omega),
        decide_eq_true (p := _ < Bits.BITS B / 2) (by omega), show Bits.BITS B / 2 - 1 - l - (Bits.BITS B / 2 - gd) = gd - 1 - l by omega,
        lowPart_getLsbD]
      simp only [Bool.true_and]
      congr 1
      rw [decide_eq_decide]
      omega
  · change (val bits).testBit i = false
    by_cases hi : i < Bits.BITS B
    · exact zbit i hi (fun h => hq h.1)
    · exact Nat.testBit_lt_two_pow (Nat.lt_of_lt_of_le (val_lt bits) (Nat.pow_le_pow_right (by decide) (by omega)))

end MortonIndex2D

namespace MortonIndex3D

theorem staticFromGridIndexOf_overflow (ho : c.overflowChecks = true) (g : Vector3 c.ptrBits) {gd : Nat}
    (hgd : gd ≤ Bits.BITS B / 3) (h : c.ptrBits < gd ∨ c.ptrBits ≤ Bits.BITS B / 3 - gd) (o : OctantOrdering) :
    (staticFromGridIndexOf c g gd o : Res (Except Error (MortonIndex3D (StaticStorage3DOf B)))) = .error .overflow := by
  have hM : FixedDepthStorage.MAX_LEVELS (Bits.BITS B) Octant = Bits.BITS B / 3 := rfl
  have hnot : ¬ gd > Bits.BITS B / 3 := by omega
  unfold staticFromGridIndexOf
  simp only [hM, hnot, if_false, usub_ok hgd, ok_bind]
  rcases shifted_overflow ho h g.x with h | ⟨y, h, h'⟩
  · rw [h]; rfl
  · rw [h]; simp only [ok_bind]; rw [h']; rfl

variable [LawfulContainer B]

/-- Static: exactly which cells come out, on any target. -/
theorem staticFromGridIndexOf_all (hc : c.Supported) (hB : StaticStorage3DOf.Small B) (hw : on B c)
    (g : Vector3 c.ptrBits) {gd : Nat} (hgd : gd ≤ Bits.BITS B / 3)
    (hs : c.overflowChecks = false ∨ (gd ≤ c.ptrBits ∧ Bits.BITS B / 3 - gd < c.ptrBits)) (o : OctantOrdering) :
    ∃ m : MortonIndex3D (StaticStorage3DOf B), staticFromGridIndexOf c g gd o = .ok (.ok m) ∧ m.storage.depth = gd ∧ TailZero m.storage ∧
      ∀ l, l < gd → if staticKept c (Bits.BITS B) gd l then GridCell3 o g (gd - 1 - l) (slot m.storage l)
        else slot m.storage l = .Zero := by
  have hB' : Bits.BITS B / 3 < 256 := hB
  have hWp : 16 ≤ c.ptrBits := by rcases hc with h | h | h <;> omega
  have hpow : 2 ^ 16 ≤ 2 ^ c.ptrBits := Nat.pow_le_pow_right (by decide) hWp
  have hfacts : gd ≤ c.ptrBits → c.ptrBits ≤ Bits.BITS B / 3 - gd → gd = 0 ∨
      c.ptrBits ≤ 8 * ((Bits.BITS B / 3 + 7) / 8 - (gd + 7) / 8) := by
    rcases hc with h | h | h <;> rw [h] <;> omega
  obtain ⟨x0, x, gx0, gx, zx, ex⟩ := shifted_all hc hgd (by omega) (by omega) hs g.x
  obtain ⟨y0, y, gy0, gy, zy, ey⟩ := shifted_all hc hgd (by omega) (by omega) hs g.y
  obtain ⟨z0, z, gz0, gz, zz, ez⟩ := shifted_all hc hgd (by omega) (by omega) hs g.z
  have top : ∀ x g : BitVec c.ptrBits, (c.ptrBits < gd → x = 0#c.ptrBits) →
      (gd ≤ c.ptrBits → Bits.BITS B / 3 - gd < c.ptrBits → ∀ i, x.getLsbD i = (decide (Bits.BITS B / 3 - gd ≤ i) &&
        (decide (i < Bits.BITS B / 3) && (decide (i < c.ptrBits) && g.getLsbD (i - (Bits.BITS B / 3 - gd)))))) →
      ∀ i, Bits.BITS B / 3 ≤ i → x.getLsbD i = false := by
    intro x g zx ex i hi
    by_cases q1 : gd ≤ c.ptrBits
    · by_cases q2 : Bits.BITS B / 3 - gd < c.ptrBits
      · rw [ex q1 q2, decide_eq_false (p := i < Bits.BITS B / 3) (by omega)]
        simp
      · exact BitVec.getLsbD_of_ge _ _ (by omega)
    · rw [zx (by omega), BitVec.getLsbD_zero]
  obtain ⟨bits, h1, h2⟩ := staticFromGridIndexOf_bits hc hB hw g gd hgd o gx0 gx gy0 gy gz0 gz (top x g.x zx ex) (top y g.y zy ey)
    (top z g.z zz ez)
  have pf : ∀ r, o.pick r false false false = false := by intro r; simp [OctantOrdering.pick]
  -- nothing is read unless the coordinates survive
  have zero : ∀ i, 8 * ((Bits.BITS B / 3 + 7) / 8 - (gd + 7) / 8) ≤ i → i < Bits.BITS B / 3 →
      ¬ ((gd ≤ c.ptrBits ∧ Bits.BITS B / 3 - gd < c.ptrBits) ∧ Bits.BITS B / 3 - gd ≤ i ∧ i < c.ptrBits) →
      ∀ r, o.pick r (x.getLsbD i) (y.getLsbD i) (z.getLsbD i) = false := by
    intro i hi hi2 hn r
    by_cases q1 : gd ≤ c.ptrBits
    · by_cases q2 : Bits.BITS B / 3 - gd < c.ptrBits
      · rw [ex q1 q2, ey q1 q2, ez q1 q2]
        by_cases q3 : Bits.BITS B / 3 - gd ≤ i
        · rw [decide_eq_false (p := i < c.ptrBits) (by omega)]; simp [pf]
        · rw [decide_eq_false q3]; simp [pf]
      · have : c.ptrBits ≤ i := by
          rcases hfacts q1 (by omega) with h | h
          · subst h; omega
          · omega
        rw [BitVec.getLsbD_of_ge _ _ this, BitVec.getLsbD_of_ge _ _ this, BitVec.getLsbD_of_ge _ _ this, pf]
    · rw [zx (by omega), zy (by omega), zz (by omega), BitVec.getLsbD_zero, pf]
  refine ⟨⟨⟨bits, gd⟩⟩, h1, rfl, ?_, ?_⟩
  · intro i hi
    change i < Bits.BITS B - gd * 3 at hi
    change (val bits).testBit i = false
    rw [h2 i (by omega)]
    by_cases h0 : Bits.BITS B % 3 ≤ i
    · by_cases hv : (Bits.BITS B / 3 + 7) / 8 - (gd + 7) / 8 ≤ (i - Bits.BITS B % 3) / 24
      · rw [zero _ (by omega) (by omega) (by omega), Bool.and_false]
      · rw [decide_eq_false hv]; simp
    · rw [decide_eq_false h0]; simp
  · intro l hl
    have key : ∀ r, r < 3 → (val bits).testBit (Bits.BITS B - (l + 1) * 3 + r) =
        (decide (staticVisited (Bits.BITS B) gd l) && o.pick r (x.getLsbD (Bits.BITS B / 3 - 1 - l)) (y.getLsbD (Bits.BITS B / 3 - 1 - l))
          (z.getLsbD (Bits.BITS B / 3 - 1 - l))) := by
      intro r hr
      rw [level_pos (by omega), h2 _ (by omega), decide_eq_true (by omega), Bool.true_and]
      have e1 : (Bits.BITS B % 3 + 3 * (Bits.BITS B / 3 - 1 - l) + r - Bits.BITS B % 3) % 3 = r := by omega
      have e2 : (Bits.BITS B % 3 + 3 * (Bits.BITS B / 3 - 1 - l) + r - Bits.BITS B % 3) / 3 = Bits.BITS B / 3 - 1 - l := by omega
      rw [e1, e2]
      congr 1
      rw [decide_eq_decide]
      unfold staticVisited
      omega
    by_cases hk : staticKept c (Bits.BITS B) gd l
    · obtain ⟨⟨q1, q2⟩, hv, hp⟩ := hk
      rw [if_pos ⟨⟨q1, q2⟩, hv, hp⟩]
      apply gridCell3_of_bits (by omega)
      intro r hr
      change (val bits).testBit (Bits.BITS B - (l + 1) * 3 + r) = _
      rw [key r hr, decide_eq_true hv, Bool.true_and, ex q1 q2, ey q1 q2, ez q1 q2,
        decide_eq_true (p := Bits.BITS B / 3 - gd ≤ Bits.BITS B / 3 - 1 - l) (by omega),
        decide_eq_true (p := Bits.BITS B / 3 - 1 - l < Bits.BITS B / 3) (by omega), decide_eq_true hp,
        show Bits.BITS B / 3 - 1 - l - (Bits.BITS B / 3 - gd) = gd - 1 - l by omega]
      simp only [Bool.true_and]
    · rw [if_neg hk]
      apply toUsize_inj
      rw [slot_ofNat]
      apply Nat.eq_of_testBit_eq
      intro j
      rw [testBit_digit, dim_Octant]
      change (decide (j < 3) && (val bits).testBit (Bits.BITS B - (l + 1) * 3 + j)) = (0 : Nat).testBit j
      rw [Nat.zero_testBit]
      by_cases hj : j < 3
      · rw [key j hj]
        by_cases hv : staticVisited (Bits.BITS B) gd l
        · rw [zero _ hv (by omega) (fun h => hk ⟨h.1, hv, h.2.2⟩), Bool.and_false, Bool.and_false]
        · rw [decide_eq_false hv]; simp
      · simp [hj]


end MortonIndex3D

end MortonRs
