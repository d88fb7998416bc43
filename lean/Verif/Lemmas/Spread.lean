import Verif.Lemmas.Basic

/-! # The bit spreading helpers of `number.rs`

All five are or-linear in their argument, so they are determined by their values on single bits. -/

namespace MortonRs

/-- `f` commutes with bitwise or. -/
structure OrLinear {n m : Nat} (f : BitVec n → BitVec m) : Prop where
  zero : f 0#n = 0#m
  or : ∀ a b, f (a ||| b) = f a ||| f b

theorem OrLinear.round {n m : Nat} {f : BitVec n → BitVec m} (h : OrLinear f) (k : Nat) (mask : BitVec m) :
    OrLinear fun v => (f v ||| (f v <<< k)) &&& mask := by
  constructor
  · simp [h.zero]
  · intro a b
    apply BitVec.eq_of_getLsbD_eq
    intro i _
    simp only [h.or, BitVec.getLsbD_or, BitVec.getLsbD_and, BitVec.getLsbD_shiftLeft]
    cases (f a).getLsbD i <;> cases (f b).getLsbD i <;> cases mask.getLsbD i <;> cases decide (i < m) <;>
      cases decide (i < k) <;> cases (f a).getLsbD (i - k) <;> cases (f b).getLsbD (i - k) <;> rfl

theorem OrLinear.mask {n m : Nat} {f : BitVec n → BitVec m} (h : OrLinear f) (mask : BitVec m) :
    OrLinear fun v => f v &&& mask := by
  constructor
  · simp [h.zero]
  · intro a b
    apply BitVec.eq_of_getLsbD_eq
    intro i _
    simp only [h.or, BitVec.getLsbD_or, BitVec.getLsbD_and]
    cases (f a).getLsbD i <;> cases (f b).getLsbD i <;> cases mask.getLsbD i <;> rfl

theorem OrLinear.setWidth (n m : Nat) : OrLinear fun v : BitVec n => v.setWidth m := by
  constructor
  · simp
  · intro a b
    apply BitVec.eq_of_getLsbD_eq
    intro i hi
    simp [hi]

theorem OrLinear.id (n : Nat) : OrLinear fun v : BitVec n => v := ⟨rfl, fun _ _ => rfl⟩

/-- The low `k` bits of `v`, as an or of single bits. -/
def orBits {n : Nat} (v : BitVec n) : Nat → BitVec n
  | 0 => 0#n
  | k + 1 => orBits v k ||| (if v.getLsbD k then BitVec.twoPow n k else 0#n)

theorem orBits_getLsbD {n : Nat} (v : BitVec n) (k i : Nat) :
    (orBits v k).getLsbD i = (decide (i < k) && v.getLsbD i) := by
  induction k with
  | zero => simp [orBits]
  | succ k ih =>
    rw [orBits, BitVec.getLsbD_or, ih]
    by_cases h : v.getLsbD k
    · have hk : k < n := BitVec.lt_of_getLsbD h
      simp only [h, if_true, BitVec.getLsbD_twoPow]
      by_cases hi : i = k
      · subst hi; simp [h, hk]
      · have h1 : decide (k = i) = false := by simp; omega
        have h2 : decide (i < k + 1) = decide (i < k) := by
          rw [decide_eq_decide]; omega
        simp [h1, h2]
    · simp only [h, Bool.false_eq_true, if_false, BitVec.getLsbD_zero, Bool.or_false]
      by_cases hi : i = k
      · subst hi; simp [h]
      · have h2 : decide (i < k + 1) = decide (i < k) := by
          rw [decide_eq_decide]; omega
        rw [h2]

theorem orBits_eq {n : Nat} (v : BitVec n) : orBits v n = v := by
  apply BitVec.eq_of_getLsbD_eq
  intro i hi
  rw [orBits_getLsbD, decide_eq_true hi, Bool.true_and]

/-- An or-linear function is determined by its values on single bits. -/
theorem OrLinear.getLsbD {n m : Nat} {f : BitVec n → BitVec m} (h : OrLinear f) (v : BitVec n) (i : Nat) :
    (f v).getLsbD i = (List.range n).any fun j => v.getLsbD j && (f (BitVec.twoPow n j)).getLsbD i := by
  have key : ∀ k, (f (orBits v k)).getLsbD i =
      (List.range k).any fun j => v.getLsbD j && (f (BitVec.twoPow n j)).getLsbD i := by
    intro k
    induction k with
    | zero => simp [orBits, h.zero]
    | succ k ih =>
      rw [orBits, h.or, BitVec.getLsbD_or, ih, List.range_succ, List.any_append]
      congr 1
      cases hv : v.getLsbD k <;> simp [h.zero, hv]
  have := key n
  rwa [orBits_eq] at this

/-- If bit `j` goes to position `p j` (when `ok j`), injectively, the result at a position is the bit that
goes there. -/
theorem OrLinear.spread {n m : Nat} {f : BitVec n → BitVec m} (h : OrLinear f) (s q : Nat)
    (tab : ∀ j, j < n → ∀ i, i < m →
      (f (BitVec.twoPow n j)).getLsbD i = decide (i = s * j + q))
    (hs : 0 < s) (hq : q < s) (v : BitVec n) (i : Nat) (hi : i < m) :
    (f v).getLsbD i = (decide (i % s = q) && v.getLsbD (i / s)) := by
  rw [h.getLsbD]
  by_cases hm : i % s = q
  · have e : i = s * (i / s) + q := by have := Nat.div_add_mod i s; omega
    simp only [hm, decide_true, Bool.true_and]
    rw [Bool.eq_iff_iff, List.any_eq_true]
    constructor
    · rintro ⟨j, hj, h2⟩
      rw [List.mem_range] at hj
      rw [tab j hj i hi, Bool.and_eq_true, decide_eq_true_eq] at h2
      have : j = i / s := by
        have : s * j = s * (i / s) := by omega
        exact Nat.eq_of_mul_eq_mul_left hs this
      rw [← this]; exact h2.1
    · intro hv
      have hj : i / s < n := BitVec.lt_of_getLsbD hv
      refine ⟨i / s, List.mem_range.mpr hj, ?_⟩
      rw [tab _ hj i hi, hv, decide_eq_true e]; rfl
  · simp only [hm, decide_false, Bool.false_and]
    rw [List.any_eq_false]
    intro j hj
    rw [List.mem_range] at hj
    rw [tab j hj i hi]
    have : ¬ i = s * j + q := by
      rintro rfl
      rw [Nat.mul_add_mod, Nat.mod_eq_of_lt hq] at hm
      exact hm rfl
    simp [this]

theorem orLinear_before_u8 : OrLinear addZeroBeforeEveryBitU8 :=
  ((OrLinear.id 8).round 2 _).round 1 _

theorem orLinear_before_u16 : OrLinear addZeroBeforeEveryBitU16 :=
  (((OrLinear.id 16).round 4 _).round 2 _).round 1 _

theorem orLinear_two_u8 : OrLinear addTwoZeroesBeforeEveryBitU8 :=
  (((OrLinear.setWidth 8 32).round 8 _).round 4 _).round 2 _

theorem orLinear_two_u32 : OrLinear addTwoZeroesBeforeEveryBitU32 :=
  ((((((OrLinear.setWidth 32 64).mask _).round 32 _).round 16 _).round 8 _).round 4 _).round 2 _

theorem orLinear_trunc {n m k : Nat} {f : BitVec n → BitVec m} (h : OrLinear f) :
    OrLinear fun v : BitVec k => f (v.setWidth n) := by
  constructor
  · simp [h.zero]
  · intro a b
    rw [← h.or]
    congr 1
    exact (OrLinear.setWidth k n).or a b

/-- `add_zero_before_every_bit_u8` on the low nibble. -/
theorem before_u8_bit (v : BitVec 8) (hv : v.toNat < 16) (i : Nat) (hi : i < 8) :
    (addZeroBeforeEveryBitU8 v).getLsbD i = (decide (i % 2 = 0) && v.getLsbD (i / 2)) := by
  have e : v = (v.setWidth 4).setWidth 8 := by
    apply BitVec.eq_of_toNat_eq; simp; omega
  have := (orLinear_trunc (k := 4) orLinear_before_u8).spread 2 0
    (by decide +kernel) (by decide) (by decide) (v.setWidth 4) i hi
  rw [← e] at this
  rw [this, BitVec.getLsbD_setWidth]
  have : i / 2 < 4 := by omega
  simp [this]

/-- `add_zero_behind_every_bit_u8` on the low nibble. -/
theorem behind_u8_bit (v : BitVec 8) (hv : v.toNat < 16) (i : Nat) (hi : i < 8) :
    (addZeroBehindEveryBitU8 v).getLsbD i = (decide (i % 2 = 1) && v.getLsbD (i / 2)) := by
  unfold addZeroBehindEveryBitU8
  rw [BitVec.getLsbD_shiftLeft]
  by_cases h0 : i = 0
  · subst h0; simp
  · rw [before_u8_bit v hv (i - 1) (by omega)]
    by_cases h1 : i % 2 = 1
    · have e1 : (i - 1) % 2 = 0 := by omega
      have e2 : (i - 1) / 2 = i / 2 := by omega
      have e3 : ¬ i < 1 := by omega
      simp [h1, e1, e2, e3, hi]
    · have e1 : (i - 1) % 2 ≠ 0 := by omega
      simp [h1, e1]

/-- `add_zero_before_every_bit_u16` on the low byte. -/
theorem before_u16_bit (v : BitVec 16) (hv : v.toNat < 256) (i : Nat) (hi : i < 16) :
    (addZeroBeforeEveryBitU16 v).getLsbD i = (decide (i % 2 = 0) && v.getLsbD (i / 2)) := by
  have e : v = (v.setWidth 8).setWidth 16 := by
    apply BitVec.eq_of_toNat_eq; simp; omega
  have := (orLinear_trunc (k := 8) orLinear_before_u16).spread 2 0
    (by decide +kernel) (by decide) (by decide) (v.setWidth 8) i hi
  rw [← e] at this
  rw [this, BitVec.getLsbD_setWidth]
  have : i / 2 < 8 := by omega
  simp [this]

/-- `add_zero_before_every_bit_u8` on every byte: bits 4 and 5 of the input end up on the bits of 2 and 3. -/
theorem before_u8_all (v : BitVec 8) (i : Nat) (hi : i < 8) :
    (addZeroBeforeEveryBitU8 v).getLsbD i =
      (decide (i % 2 = 0) && (v.getLsbD (i / 2) || (decide (2 ≤ i / 2) && v.getLsbD (i / 2 + 2)))) := by
  have h : i = 0 ∨ i = 1 ∨ i = 2 ∨ i = 3 ∨ i = 4 ∨ i = 5 ∨ i = 6 ∨ i = 7 := by omega
  rcases h with h | h | h | h | h | h | h | h <;> subst h <;>
    simp [addZeroBeforeEveryBitU8, Bool.or_comm, -BitVec.getLsbD_eq_getElem]

/-- `add_zero_before_every_bit_u16` on every input: bits 8 to 11 end up on the bits of 4 to 7. -/
theorem before_u16_all (v : BitVec 16) (i : Nat) (hi : i < 16) :
    (addZeroBeforeEveryBitU16 v).getLsbD i =
      (decide (i % 2 = 0) && (v.getLsbD (i / 2) || (decide (4 ≤ i / 2) && v.getLsbD (i / 2 + 4)))) := by
  have h : i = 0 ∨ i = 1 ∨ i = 2 ∨ i = 3 ∨ i = 4 ∨ i = 5 ∨ i = 6 ∨ i = 7 ∨ i = 8 ∨ i = 9 ∨ i = 10 ∨ i = 11 ∨
      i = 12 ∨ i = 13 ∨ i = 14 ∨ i = 15 := by omega
  rcases h with h | h | h | h | h | h | h | h | h | h | h | h | h | h | h | h <;> subst h <;>
    simp [addZeroBeforeEveryBitU16, Bool.or_comm, -BitVec.getLsbD_eq_getElem]
/-- `add_zero_behind_every_bit_u8` on every byte. -/
theorem behind_u8_all (v : BitVec 8) (i : Nat) (hi : i < 8) :
    (addZeroBehindEveryBitU8 v).getLsbD i =
      (decide (i % 2 = 1) && (v.getLsbD (i / 2) || (decide (2 ≤ i / 2) && v.getLsbD (i / 2 + 2)))) := by
  unfold addZeroBehindEveryBitU8
  rw [BitVec.getLsbD_shiftLeft]
  by_cases h0 : i = 0
  · subst h0; simp
  · rw [before_u8_all v (i - 1) (by omega)]
    by_cases h1 : i % 2 = 1
    · have e1 : (i - 1) % 2 = 0 := by omega
      have e2 : (i - 1) / 2 = i / 2 := by omega
      have e3 : ¬ i < 1 := by omega
      simp [h1, e1, e2, e3, hi]
    · have e1 : (i - 1) % 2 ≠ 0 := by omega
      simp [h1, e1]

/-- `add_two_zeroes_before_every_bit_u8`. -/
theorem two_u8_bit (v : BitVec 8) (i : Nat) (hi : i < 32) :
    (addTwoZeroesBeforeEveryBitU8 v).getLsbD i = (decide (i % 3 = 0) && v.getLsbD (i / 3)) :=
  orLinear_two_u8.spread 3 0 (by decide +kernel) (by decide) (by decide) v i hi

/-- `add_two_zeroes_before_every_bit_u32`: the low 21 bits are spread, the others ignored. -/
theorem two_u32_bit (v : BitVec 32) (i : Nat) (hi : i < 64) :
    (addTwoZeroesBeforeEveryBitU32 v).getLsbD i =
      (decide (i % 3 = 0) && (decide (i / 3 < 21) && v.getLsbD (i / 3))) := by
  have e : addTwoZeroesBeforeEveryBitU32 v =
      addTwoZeroesBeforeEveryBitU32 ((v.setWidth 21).setWidth 32) := by
    unfold addTwoZeroesBeforeEveryBitU32
    have : v.setWidth 64 &&& 0b111111111111111111111#64 =
        ((v.setWidth 21).setWidth 32).setWidth 64 &&& 0b111111111111111111111#64 := by
      apply BitVec.eq_of_getLsbD_eq
      intro j hj
      have hmask : ∀ j, j < 64 → (0b111111111111111111111#64).getLsbD j = decide (j < 21) := by decide +kernel
      rw [BitVec.getLsbD_and, BitVec.getLsbD_and, hmask j hj]
      simp only [BitVec.getLsbD_setWidth]
      by_cases hj2 : j < 21
      · have : j < 32 := by omega
        simp [hj2, this]
      · simp [hj2]
    simp only [this]
  rw [e]
  have := (orLinear_trunc (k := 21) orLinear_two_u32).spread 3 0
    (by decide +kernel) (by decide) (by decide) (v.setWidth 21) i hi
  rw [this, BitVec.getLsbD_setWidth]

end MortonRs
