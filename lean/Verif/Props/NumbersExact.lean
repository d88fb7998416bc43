import Verif.Props.Examples
import Verif.Props.Numbers

/-! # Exactly when the bit functions keep to their range (C36, C38) -/

namespace MortonRs

/-- **C36**, exactly when it holds of a call: no bit outside the range changes if and only if every bit of the new value that
would land above the range is already set there. -/
theorem C36_kept_iff {w : Nat} (hw : IntWidth w) (c : Cfg) (x : BitVec w) {s e : Nat} (hse : s ≤ e) (hsw : s < w) (hew : e ≤ w)
    (v : BitVec w) :
    ∃ y, Bits.setBits c x ⟨s, e⟩ v = .ok y ∧
      ((∀ i, ¬ (s ≤ i ∧ i < e) → y.getLsbD i = x.getLsbD i) ↔
        ∀ i, e ≤ i → i < w → v.getLsbD (i - s) = true → x.getLsbD i = true) := by
  obtain ⟨y, h1, h2, -, h3⟩ := C36_set_bits_stays_in_range_partial hw c x hse hsw hew v
  have hlow : ∀ i, i < s → y.getLsbD i = x.getLsbD i := fun i hi => by
    have := congrArg (·.testBit i) h2
    simpa [Nat.testBit_mod_two_pow, hi, BitVec.testBit_toNat] using this
  have hhigh : ∀ i, e ≤ i → i < w → y.getLsbD i = (x.getLsbD i || v.getLsbD (i - s)) := fun i hi hiw => by
    have := congrArg (·.testBit (i - e)) h3
    simp only [Nat.testBit_or, Nat.testBit_div_two_pow, bitsIn, Nat.testBit_mod_two_pow, BitVec.testBit_toNat] at this
    rw [show i - e + e = i by omega, show i - e + (e - s) = i - s by omega,
      decide_eq_true (show i - e < w - s - (e - s) by omega), Bool.true_and] at this
    exact this
  refine ⟨y, h1, fun h i hi hiw hv => ?_, fun h i hi => ?_⟩
  · have := h i (by omega)
    rw [hhigh i hi hiw, hv, Bool.or_true] at this
    exact this.symm
  · by_cases hs : i < s
    · exact hlow i hs
    · by_cases hiw : i < w
      · rw [hhigh i (by omega) hiw]
        cases hv : v.getLsbD (i - s)
        · exact Bool.or_false _
        · rw [h i (by omega) hiw hv]; rfl
      · rw [BitVec.getLsbD_of_ge _ _ (by omega), BitVec.getLsbD_of_ge _ _ (by omega)]

/-- **C38**, exactly when it holds of a call: unless the range ends inside a byte at a lower bit position than it starts at and
a set bit follows it in the bytes that are returned. -/
theorem C38_exact_iff {c : Cfg} (bs : List (BitVec 8)) {s e : Nat} (hse : s ≤ e) (hstop : e ≤ 8 * bs.length)
    (hfit : e + 7 < 2 ^ c.ptrBits) :
    ∃ r, Bits.getBits c bs ⟨s, e⟩ = .ok r ∧ r.length = (e - s + 7) / 8 ∧
      (leNumber r = bitsIn s e (leNumber bs) ↔
        ¬ (0 < e % 8 ∧ e % 8 < s % 8 ∧
          ∃ i, e ≤ i ∧ i < s + 8 * ((e - s + 7) / 8) ∧ (leNumber bs).testBit i = true)) := by
  obtain ⟨r, h1, h2, h3, h4⟩ := C38_vec_get_bits_partial bs hse hstop hfit
  refine ⟨r, h1, h2, ?_⟩
  by_cases hl : 0 < e % 8 ∧ e % 8 < s % 8
  · rw [h4 hl]
    constructor
    · rintro h ⟨-, -, i, hi1, hi2, hi3⟩
      have := congrArg (·.testBit (i - s)) h
      simp only [bitsIn, Nat.testBit_mod_two_pow, Nat.testBit_div_two_pow] at this
      rw [show i - s + s = i by omega, decide_eq_true (show i - s < s + 8 * ((e - s + 7) / 8) - s by omega),
        decide_eq_false (show ¬ i - s < e - s by omega), hi3] at this
      exact absurd this (by decide)
    · intro h
      apply Nat.eq_of_testBit_eq
      intro j
      simp only [bitsIn, Nat.testBit_mod_two_pow, Nat.testBit_div_two_pow]
      by_cases hj : j < e - s
      · rw [decide_eq_true hj, decide_eq_true (by omega)]
      · rw [decide_eq_false hj]
        by_cases hj2 : j < s + 8 * ((e - s + 7) / 8) - s
        · rw [decide_eq_true hj2, Bool.true_and, Bool.false_and]
          cases hb : (leNumber bs).testBit (j + s)
          · rfl
          · exact absurd ⟨hl.1, hl.2, j + s, by omega, by omega, hb⟩ h
        · rw [decide_eq_false hj2]
  · exact ⟨fun _ h => hl ⟨h.1, h.2.1⟩, fun _ => h3 hl⟩

/-! ## Examples -/

/-- Bit 1 of the new value would land on bit 1 of `0b10`, which is set already: nothing changes outside the range `0..1`. -/
example : ∃ y, Bits.setBits x64 0b10#8 ⟨0, 1⟩ 0b11#8 = .ok y ∧ ∀ i, ¬ (0 ≤ i ∧ i < 1) → y.getLsbD i = (0b10#8).getLsbD i := by
  obtain ⟨y, h1, h2⟩ := C36_kept_iff (w := 8) (by decide) x64 0b10#8 (s := 0) (e := 1) (by decide) (by decide) (by decide) 0b11#8
  exact ⟨y, h1, h2.mpr fun i hi hiw => (by decide : ∀ i, i < 8 → 1 ≤ i → (0b11#8).getLsbD (i - 0) = true →
    (0b10#8).getLsbD i = true) i hiw hi⟩

/-- With `0` instead it does. -/
example : ∃ y, Bits.setBits x64 0#8 ⟨0, 1⟩ 0b11#8 = .ok y ∧ ¬ ∀ i, ¬ (0 ≤ i ∧ i < 1) → y.getLsbD i = (0#8).getLsbD i := by
  obtain ⟨y, h1, h2⟩ := C36_kept_iff (w := 8) (by decide) x64 0#8 (s := 0) (e := 1) (by decide) (by decide) (by decide) 0b11#8
  exact ⟨y, h1, fun h => absurd (h2.mp h 1 (by decide) (by decide) (by decide)) (by decide)⟩

/-- Bits `4..9` of `[0xF0, 0x01]`: no set bit follows in bits `9..12`, the result is right. -/
example : ∃ r, Bits.getBits x64 [0xF0#8, 0x01#8] ⟨4, 9⟩ = .ok r ∧ leNumber r = 0x1F := by
  obtain ⟨r, h1, -, h2⟩ := C38_exact_iff (c := x64) [0xF0#8, 0x01#8] (s := 4) (e := 9) (by decide) (by decide) (by decide)
  refine ⟨r, h1, h2.mpr ?_⟩
  rintro ⟨-, -, i, hi1, hi2, hi3⟩
  exact absurd hi3 ((by decide : ∀ i, i < 12 → 9 ≤ i → ¬ (leNumber [0xF0#8, 0x01#8]).testBit i = true) i hi2 hi1)

end MortonRs
