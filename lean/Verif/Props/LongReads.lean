import Verif.Props.OutOfRange

/-! # C76: `usize` reads of more bits than a `usize` has

`Vec<u8>::get_bits_as_usize` collects the range byte by byte in a `usize`. Nothing compares the length of the range with the
width of the `usize`: once the chunks pass its last bit a debug build panics, and a release build goes on with the shift
modulo the width. -/

namespace MortonRs

/-- A write of at most `w` bits that starts behind the last bit: release builds go on, debug builds panic. -/
theorem intSetBits_behind {c : Cfg} {w : Nat} (x v : BitVec w) {s e : Nat} (hlen : e - s ≤ w) (hs : w ≤ s)
    (hs2 : s < 2 ^ w) :
    (c.overflowChecks = true → intSetBits c x ⟨s, e⟩ v = .error .overflow) ∧
    (c.overflowChecks = false → ∃ y, intSetBits c x ⟨s, e⟩ v = .ok y) := by
  refine ⟨fun ho => ?_, fun ho => ?_⟩
  · unfold intSetBits
    simp only [Range.len, usub_ok hlen, ok_bind, Nat.mod_eq_of_lt hs2]
    have : ∀ z : BitVec w, shl c z s = .error .overflow := fun z => by
      unfold shl; rw [if_neg (by omega), if_pos ho]
    rw [this]; rfl
  · unfold intSetBits
    simp only [Range.len, usub_ok hlen, ok_bind, shl_mod_release ho, pure_eq_ok]
    exact ⟨_, rfl⟩

/-- The body of the loop of `get_bits_as_usize` (`number.rs` 425-441), to name it in the proofs below. -/
private theorem read_step {c : Cfg} (hc : c.Supported) (bs : List (BitVec 8)) {s e : Nat} (hse : s < e)
    (hfit : e + 7 < 2 ^ c.ptrBits) (st : BitVec c.ptrBits × Nat × Nat) (idx : Nat)
    (hi2 : idx < (e + 7) / 8) (h1 : st.2.1 = max s (min (8 * idx) e)) (h2 : st.2.2 = st.2.1 - s) (hi1 : s / 8 ≤ idx) :
    let body : Nat → BitVec c.ptrBits × Nat × Nat → Res (BitVec c.ptrBits × Nat × Nat) :=
      fun idx (ret, current_start_bit, usize_start_bit) => do
        let current_end_bit := min (← umul c (← uadd c idx 1) 8) e
        let bits_within_current_byte ← usub c current_end_bit current_start_bit
        let start_within_byte := current_start_bit % 8
        let end_within_byte ← uadd c start_within_byte bits_within_current_byte
        let byte ← intGetBits c (← index bs idx) ⟨start_within_byte, end_within_byte⟩
        let usize_end_bit ← uadd c usize_start_bit bits_within_current_byte
        let ret ← intSetBits c ret ⟨usize_start_bit, usize_end_bit⟩ (byte.setWidth c.ptrBits)
        pure (ret, current_end_bit, ← uadd c usize_start_bit bits_within_current_byte)
    (bs.length ≤ idx → body idx st = .error .indexOutOfBounds) ∧
    (idx < bs.length → c.overflowChecks = true → c.ptrBits ≤ st.2.2 → body idx st = .error .overflow) ∧
    (idx < bs.length → (c.overflowChecks = false ∨ st.2.2 < c.ptrBits) →
      ∃ st', body idx st = .ok st' ∧ st'.2.1 = max s (min (8 * (idx + 1)) e) ∧ st'.2.2 = st'.2.1 - s) := by
  have hp : c.ptrBits < 2 ^ 32 ∧ 8 ≤ c.ptrBits := by rcases hc with h | h | h <;> omega
  obtain ⟨ret, cs, us⟩ := st
  simp only at h1 h2
  have a1 : idx + 1 < 2 ^ c.ptrBits := by omega
  have a2 : (idx + 1) * 8 < 2 ^ c.ptrBits := by omega
  have a3 : cs ≤ min ((idx + 1) * 8) e := by omega
  generalize hce : min ((idx + 1) * 8) e = ce at *
  have a5 : cs % 8 + (ce - cs) < 2 ^ c.ptrBits := by omega
  have a6 : us + (ce - cs) < 2 ^ c.ptrBits := by omega
  refine ⟨fun hi => ?_, fun hi ho hus => ?_, fun hi hok => ?_⟩
  · simp only [uadd_ok a1, umul_ok a2, ok_bind, hce, usub_ok a3, uadd_ok a5, index_oob hi]
    rfl
  all_goals
    obtain ⟨byte, hb1, -⟩ := intGetBits_ok (c := c) bs[idx] (cs % 8) (cs % 8 + (ce - cs)) (by decide)
      (by omega) (by omega) (by omega)
  · simp only at hus
    simp only [uadd_ok a1, umul_ok a2, ok_bind, hce, usub_ok a3, uadd_ok a5, index_ok hi, hb1, uadd_ok a6,
      (intSetBits_behind (c := c) ret (byte.setWidth c.ptrBits) (s := us) (e := us + (ce - cs)) (by omega) hus
        (by omega)).1 ho]
    rfl
  · have : ∃ r, intSetBits c ret ⟨us, us + (ce - cs)⟩ (byte.setWidth c.ptrBits) = .ok r := by
      by_cases hus : us < c.ptrBits
      · obtain ⟨r, hr, -⟩ := intSetBits_ok (c := c) ret us (us + (ce - cs)) (byte.setWidth c.ptrBits) hp.1
          (by omega) hus
        exact ⟨r, hr⟩
      · exact (intSetBits_behind (c := c) ret _ (by omega) (by omega) (by omega)).2
          (hok.resolve_right (by simpa using hus))
    obtain ⟨r, hr⟩ := this
    refine ⟨(r, ce, us + (ce - cs)), ?_, by simp only; omega, by simp only; omega⟩
    simp only [uadd_ok a1, umul_ok a2, ok_bind, hce, usub_ok a3, uadd_ok a5, index_ok hi, hb1, uadd_ok a6, hr,
      pure_eq_ok]

/-- **C76**, `usize` reads of vectors, ranges of any length. Behind the end of the vector the read panics in debug and
release builds; the fault is the index, unless the build checks for overflow and the collected bits have passed the width of
a `usize` before the end of the vector is reached. Inside the vector the read of a range that is too long for a `usize`
panics in builds with overflow checks as soon as a byte of it starts behind the last bit of the `usize`, and is not
reported in any other case. -/
theorem C76_vec_usize_reads {c : Cfg} (hc : c.Supported) (bs : List (BitVec 8)) {s e : Nat} (hse : s < e)
    (hfit : e + 7 < 2 ^ c.ptrBits) :
    (8 * bs.length < e → Bits.getBitsAsUsize c bs ⟨s, e⟩ =
      .error (if c.overflowChecks = true ∧ s + c.ptrBits ≤ 8 * (bs.length - 1) then .overflow
        else .indexOutOfBounds)) ∧
    (e ≤ 8 * bs.length → c.overflowChecks = true → s + c.ptrBits ≤ 8 * ((e - 1) / 8) →
      Bits.getBitsAsUsize c bs ⟨s, e⟩ = .error .overflow) ∧
    (e ≤ 8 * bs.length → (c.overflowChecks = false ∨ 8 * ((e - 1) / 8) < s + c.ptrBits) →
      ∃ y, Bits.getBitsAsUsize c bs ⟨s, e⟩ = .ok y) := by
  have hp : c.ptrBits < 2 ^ 32 ∧ 8 ≤ c.ptrBits := by rcases hc with h | h | h <;> omega
  let P : Nat → BitVec c.ptrBits × Nat × Nat → Prop := fun k st =>
    st.2.1 = max s (min (8 * k) e) ∧ st.2.2 = st.2.1 - s
  have h0 : P (s / 8) (0#c.ptrBits, s, 0) := ⟨by simp only; omega, by simp only; omega⟩
  have hunf : Bits.getBitsAsUsize c bs ⟨s, e⟩ = vecGetBitsAsUsize c bs ⟨s, e⟩ := rfl
  rw [hunf]
  unfold vecGetBitsAsUsize
  rw [uadd_ok hfit]
  simp only [ok_bind]
  -- the byte at which the collected bits pass the width of a `usize`
  generalize hk : (s + c.ptrBits + 7) / 8 = k
  refine ⟨fun hend => ?_, fun hin ho hlong => ?_, fun hin hok => ?_⟩
  · by_cases hov : c.overflowChecks = true ∧ s + c.ptrBits ≤ 8 * (bs.length - 1)
    · rw [if_pos hov]
      rw [forRange_faults P (k := k) (f := .overflow) (by omega) (by omega) h0]
      · rfl
      · rintro idx st hi1 hi2 ⟨h1, h2⟩
        exact (read_step hc bs hse hfit st idx (by omega) h1 h2 hi1).2.2 (by omega) (.inr (by omega))
      · rintro st ⟨h1, h2⟩
        exact (read_step hc bs hse hfit st k (by omega) h1 h2 (by omega)).2.1 (by omega) hov.1 (by omega)
    · rw [if_neg hov]
      rw [forRange_faults P (k := max (s / 8) bs.length) (f := .indexOutOfBounds) (by omega) (by omega) h0]
      · rfl
      · rintro idx st hi1 hi2 ⟨h1, h2⟩
        refine (read_step hc bs hse hfit st idx (by omega) h1 h2 hi1).2.2 (by omega) ?_
        by_cases ho : c.overflowChecks = true
        · exact .inr (by have : ¬ s + c.ptrBits ≤ 8 * (bs.length - 1) := fun h => hov ⟨ho, h⟩
                         omega)
        · exact .inl (by simpa using ho)
      · rintro st ⟨h1, h2⟩
        exact (read_step hc bs hse hfit st _ (by omega) h1 h2 (by omega)).1 (by omega)
  · rw [forRange_faults P (k := k) (f := .overflow) (by omega) (by omega) h0]
    · rfl
    · rintro idx st hi1 hi2 ⟨h1, h2⟩
      exact (read_step hc bs hse hfit st idx (by omega) h1 h2 hi1).2.2 (by omega) (.inr (by omega))
    · rintro st ⟨h1, h2⟩
      exact (read_step hc bs hse hfit st k (by omega) h1 h2 (by omega)).2.1 (by omega) ho (by omega)
  · obtain ⟨st, hst, -⟩ := forRange_invariant P (b := (e + 7) / 8) (by omega) h0 (fun idx st hi1 hi2 hP => by
      obtain ⟨h1, h2⟩ := hP
      refine (read_step hc bs hse hfit st idx hi2 h1 h2 hi1).2.2 (by omega) ?_
      rcases hok with h | h
      · exact .inl h
      · exact .inr (by omega))
    exact ⟨st.1, by rw [hst]; rfl⟩

/-- A read of 20 bits into a `usize` of 16 bits that leaves the vector: the index is the fault, because no byte in the vector
starts behind bit 16. -/
example : Bits.getBitsAsUsize ⟨16, true, false⟩ [0xFF#8, 0x00#8, 0x12#8] ⟨5, 25⟩ = .error .indexOutOfBounds :=
  (C76_vec_usize_reads (c := ⟨16, true, false⟩) (by decide) _ (by decide) (by decide)).1 (by decide)
/-- One byte more, and the overflow comes first; without overflow checks it is the index again. -/
example : Bits.getBitsAsUsize ⟨16, true, false⟩ [0xFF#8, 0x00#8, 0x12#8, 0x34#8] ⟨5, 40⟩ = .error .overflow :=
  (C76_vec_usize_reads (c := ⟨16, true, false⟩) (by decide) _ (by decide) (by decide)).1 (by decide)
example : Bits.getBitsAsUsize ⟨16, false, false⟩ [0xFF#8, 0x00#8, 0x12#8, 0x34#8] ⟨5, 40⟩ = .error .indexOutOfBounds :=
  (C76_vec_usize_reads (c := ⟨16, false, false⟩) (by decide) _ (by decide) (by decide)).1 (by decide)
/-- Inside the vector: a debug build panics, a release build delivers the bits of two chunks on top of each other. -/
example : Bits.getBitsAsUsize ⟨16, true, false⟩ [0x01#8, 0x02#8, 0x34#8] ⟨0, 24⟩ = .error .overflow :=
  (C76_vec_usize_reads (c := ⟨16, true, false⟩) (by decide) _ (by decide) (by decide)).2.1 (by decide) rfl (by decide)
example : Bits.getBitsAsUsize ⟨16, false, false⟩ [0x01#8, 0x02#8, 0x34#8] ⟨0, 24⟩ = .ok 0x0234#16 := by
  decide +kernel

/-- Bit `i` of a range that starts at bit `s` is stored in the collected word of `W` bits. The bits come in chunks, one for
each byte of the vector; a chunk that reaches the end of the word is cut off there. -/
def Arrives (W s i : Nat) : Prop := i / W = (8 * ((s + i) / 8) - s) / W

/-- The word in which the first `n` bits of the range from `s` on have been collected: bit `j` is the last one of those that
belong there. -/
def Collected (W s n : Nat) (source word : Nat → Bool) : Prop :=
  ∀ j, j < W →
    (∀ i, i < n → Arrives W s i → i % W = j → (∀ k, k < n → Arrives W s k → k % W = j → k ≤ i) → word j = source (s + i)) ∧
    ((∀ i, i < n → Arrives W s i → i % W ≠ j) → word j = false)

/-- One more chunk. -/
private theorem collected_chunk {W s us len : Nat} (hW : 8 ≤ W) (hlen : len ≤ 8) {source word word' : Nat → Bool}
    (hchunk : ∀ i, us ≤ i → i < us + len → 8 * ((s + i) / 8) - s = us) (h : Collected W s us source word)
    (hw : ∀ j, j < W → word' j =
      if us % W ≤ j ∧ j < us % W + len then source (s + us + (j - us % W)) else word j) :
    Collected W s (us + len) source word' := by
  have hdm := Nat.div_add_mod us W
  have hum := Nat.mod_lt us (show 0 < W by omega)
  intro j hj
  rw [hw j hj]
  by_cases hin : us % W ≤ j ∧ j < us % W + len
  · rw [if_pos hin]
    have hi0 : us + (j - us % W) = W * (us / W) + j := by omega
    have hdiv : (us + (j - us % W)) / W = us / W := by
      rw [hi0, Nat.mul_add_div (by omega), Nat.div_eq_of_lt hj, Nat.add_zero]
    have hmod : (us + (j - us % W)) % W = j := by
      rw [hi0, Nat.mul_add_mod, Nat.mod_eq_of_lt hj]
    have harr : Arrives W s (us + (j - us % W)) := by
      unfold Arrives; rw [hchunk _ (by omega) (by omega), hdiv]
    refine ⟨fun i hi ha hij hmax => ?_, fun hnone => absurd hmod (hnone _ (by omega) harr)⟩
    have hge := hmax _ (by omega) harr hmod
    have hai : i / W = us / W := by
      have := ha
      unfold Arrives at this
      rwa [hchunk i (by omega) hi] at this
    have hdi := Nat.div_add_mod i W
    rw [hai, hij] at hdi
    have : us + (j - us % W) = i := by omega
    rw [Nat.add_assoc, this]
  · rw [if_neg hin]
    have hno : ∀ i, us ≤ i → i < us + len → Arrives W s i → i % W ≠ j := by
      intro i h1 h2 ha hij
      have hai : i / W = us / W := by
        have := ha
        unfold Arrives at this
        rwa [hchunk i h1 h2] at this
      have hdi := Nat.div_add_mod i W
      rw [hai, hij] at hdi
      exact hin (by omega)
    refine ⟨fun i hi ha hij hmax => ?_, fun hnone => (h j hj).2 fun i hi => hnone i (by omega)⟩
    have hius : i < us := by
      by_cases hge : us ≤ i
      · exact absurd hij (hno i hge hi ha)
      · omega
    exact (h j hj).1 i hius ha hij fun k hk => hmax k (by omega)

/-- **C76**, the value of a `usize` read of a range of any length inside the vector, wherever it does not panic. Bit `j` of the
result is the last bit of the range that arrives there: the bits wrap around at the width of the `usize`, later ones replace
earlier ones, and bits of a byte that begins before the end of the `usize` and reaches beyond it are lost. -/
theorem C76_vec_usize_value {c : Cfg} (hc : c.Supported) (bs : List (BitVec 8)) {s e : Nat} (hse : s < e)
    (hfit : e + 7 < 2 ^ c.ptrBits) (hend : e ≤ 8 * bs.length)
    (hok : c.overflowChecks = false ∨ 8 * ((e - 1) / 8) < s + c.ptrBits) :
    ∃ y, Bits.getBitsAsUsize c bs ⟨s, e⟩ = .ok y ∧
      Collected c.ptrBits s (e - s) (leNumber bs).testBit y.toNat.testBit := by
  have hp : c.ptrBits < 2 ^ 32 ∧ 8 ≤ c.ptrBits := by rcases hc with h | h | h <;> omega
  have hunf : Bits.getBitsAsUsize c bs ⟨s, e⟩ = vecGetBitsAsUsize c bs ⟨s, e⟩ := rfl
  rw [hunf]
  unfold vecGetBitsAsUsize
  rw [uadd_ok hfit]
  simp only [ok_bind]
  let P : Nat → BitVec c.ptrBits × Nat × Nat → Prop := fun k st =>
    st.2.1 = max s (min (8 * k) e) ∧ st.2.2 = st.2.1 - s ∧
      Collected c.ptrBits s st.2.2 (leNumber bs).testBit st.1.toNat.testBit
  refine exists_bind (P ((e + 7) / 8)) (forRange_invariant P (by omega)
    ⟨by simp; omega, by simp, fun j _ => ⟨fun i hi => absurd hi (Nat.not_lt_zero i), fun _ => by simp⟩⟩ ?_) ?_
  · rintro idx ⟨ret, cs, us⟩ hi1 hi2 ⟨h1, h2, h3⟩
    simp only at h1 h2 h3
    have a1 : idx + 1 < 2 ^ c.ptrBits := by omega
    have a2 : (idx + 1) * 8 < 2 ^ c.ptrBits := by omega
    have a3 : cs ≤ min ((idx + 1) * 8) e := by omega
    have a4 : idx < bs.length := by omega
    generalize hce : min ((idx + 1) * 8) e = ce at *
    have a5 : cs % 8 + (ce - cs) < 2 ^ c.ptrBits := by omega
    have a6 : us + (ce - cs) < 2 ^ c.ptrBits := by omega
    have a7 : cs % 8 + (ce - cs) ≤ 8 := by omega
    obtain ⟨byte, hb1, hb2⟩ := intGetBits_ok (c := c) bs[idx] (cs % 8) (cs % 8 + (ce - cs)) (by decide)
      (by omega) (by omega) (by omega)
    have hum := Nat.mod_lt us (show 0 < c.ptrBits by omega)
    obtain ⟨ret', hr1, hr2⟩ := intSetBits_ok (c := c) ret (us % c.ptrBits) (us % c.ptrBits + (ce - cs))
      (byte.setWidth c.ptrBits) hp.1 (by omega) hum
    have hr : intSetBits c ret ⟨us, us + (ce - cs)⟩ (byte.setWidth c.ptrBits) = .ok ret' := by
      by_cases hus : us < c.ptrBits
      · rw [Nat.mod_eq_of_lt hus] at hr1; exact hr1
      · rw [← hr1]
        have ho := hok.resolve_right (by omega)
        have := (C76_release_builds hc.intWidth hc ho ret (byte.setWidth c.ptrBits) us (us + (ce - cs))).1 (by omega)
        rw [Nat.add_sub_cancel_left] at this
        exact this
    refine ⟨(ret', ce, us + (ce - cs)), ?_, by simp only; omega, by simp only; omega, ?_⟩
    · simp only [uadd_ok a1, umul_ok a2, ok_bind, hce, usub_ok a3, uadd_ok a5, index_ok a4, hb1,
        uadd_ok a6, hr, pure_eq_ok]
    · refine collected_chunk hp.2 (by omega) (fun i g1 g2 => by omega) h3 fun j hj => ?_
      have hj' := hr2 j hj
      change ret'.getLsbD j = _
      rw [hj']
      simp only [BitVec.getLsbD_setWidth, hb2, Nat.add_sub_cancel_left]
      by_cases g1 : us % c.ptrBits ≤ j
      · by_cases g2 : j < us % c.ptrBits + (ce - cs)
        · rw [if_pos g1, if_pos g2, if_pos ⟨g1, g2⟩, leNumber_eq, testBit_leValue, decide_eq_true (by omega),
            decide_eq_true (by omega), Bool.true_and, Bool.true_and, ← bitOf_eq_getElem a4 (by omega)]
          congr 1
          omega
        · rw [if_pos g1, if_neg g2, if_neg (fun h => g2 h.2), decide_eq_false (p := j - us % c.ptrBits < ce - cs) (by omega),
            Bool.false_and, Bool.and_false, Bool.or_false]
          rfl
      · rw [if_neg g1, if_neg (fun h => g1 h.1)]
        rfl
  · rintro st ⟨h2, h3, h4⟩
    have e1 : st.2.2 = e - s := by rw [h3, h2]; omega
    exact ⟨st.1, rfl, by rw [← e1]; exact h4⟩

/-- In a range that starts at a byte every bit arrives; of the bits from 4 on, bit 16 shares a byte with bit 12 of the range and is
lost. -/
example : Arrives 16 0 20 ∧ ¬ Arrives 16 4 16 ∧ Arrives 16 4 21 := by unfold Arrives; decide

/-- Bits `4..44` of six bytes in a `usize` of 16 bits: bit 0 comes from bit 4 of the vector, since bits 20 and 36 are lost. -/
example : ∃ y, Bits.getBitsAsUsize ⟨16, false, false⟩ [0x10#8, 0x00#8, 0x00#8, 0x00#8, 0x00#8, 0x0F#8] ⟨4, 44⟩ = .ok y ∧
    Collected 16 4 40 (leNumber [0x10#8, 0x00#8, 0x00#8, 0x00#8, 0x00#8, 0x0F#8]).testBit y.toNat.testBit :=
  C76_vec_usize_value (c := ⟨16, false, false⟩) (by decide) _ (by decide) (by decide) (by decide) (.inl rfl)
example : Bits.getBitsAsUsize ⟨16, false, false⟩ [0x10#8, 0x00#8, 0x00#8, 0x00#8, 0x00#8, 0x0F#8] ⟨4, 44⟩ = .ok 0x00F1#16 := by
  decide +kernel

end MortonRs
