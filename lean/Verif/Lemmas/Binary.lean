import Verif.Spec

/-! # Numbers written by binary digits -/

namespace MortonRs

theorem snocInduction {α : Type} {motive : List α → Prop} (nil : motive [])
    (append_singleton : ∀ bs b, motive bs → motive (bs ++ [b])) (bs : List α) : motive bs := by
  have : ∀ xs : List α, motive xs.reverse := by
    intro xs
    induction xs with
    | nil => exact nil
    | cons x xs ih => rw [List.reverse_cons]; exact append_singleton _ _ ih
  have h := this bs.reverse
  rwa [List.reverse_reverse] at h

theorem binary_append (bs : List Bool) (b : Bool) : binary (bs ++ [b]) = 2 * binary bs + b.toNat := by
  simp [binary, List.foldl_append]

theorem binary_append_list (as bs : List Bool) : binary (as ++ bs) = 2 ^ bs.length * binary as + binary bs := by
  induction bs using snocInduction with
  | nil => simp [binary]
  | append_singleton bs b ih =>
    rw [← List.append_assoc, binary_append, ih, binary_append, List.length_append, List.length_singleton,
      Nat.pow_succ, Nat.mul_add, ← Nat.mul_assoc]
    rw [Nat.mul_comm 2 (2 ^ bs.length)]
    omega

theorem binary_lt (bs : List Bool) : binary bs < 2 ^ bs.length := by
  induction bs using snocInduction with
  | nil => simp [binary]
  | append_singleton bs b ih =>
    rw [binary_append, List.length_append, List.length_singleton, Nat.pow_succ]
    have : b.toNat ≤ 1 := Bool.toNat_le b
    omega

theorem binary_testBit (bs : List Bool) (i : Nat) :
    (binary bs).testBit i = (decide (i < bs.length) && bs.getD (bs.length - 1 - i) false) := by
  induction bs using snocInduction generalizing i with
  | nil => simp [binary]
  | append_singleton bs b ih =>
    rw [binary_append]
    cases i with
    | zero =>
      rw [Nat.testBit_zero]
      cases b <;> simp [List.getD]
    | succ i =>
      rw [Nat.testBit_succ, show (2 * binary bs + b.toNat) / 2 = binary bs by
        have : b.toNat ≤ 1 := Bool.toNat_le b
        omega, ih]
      simp only [List.length_append, List.length_singleton, Nat.add_lt_add_iff_right]
      by_cases h : i < bs.length
      · simp only [h, decide_true, Bool.true_and, List.getD]
        rw [List.getElem?_append_left (by omega)]
        congr 2
        omega
      · simp [h]

theorem binary_take {bs : List Bool} {n : Nat} (_ : n ≤ bs.length) :
    binary (bs.take n) = binary bs / 2 ^ (bs.length - n) := by
  have e := binary_append_list (bs.take n) (bs.drop n)
  rw [List.take_append_drop, List.length_drop] at e
  rw [e, Nat.add_comm, Nat.add_mul_div_left _ _ (Nat.two_pow_pos _)]
  have := binary_lt (bs.drop n)
  rw [List.length_drop] at this
  rw [Nat.div_eq_of_lt this, Nat.zero_add]

theorem binary_inj {as bs : List Bool} (hl : as.length = bs.length) (h : binary as = binary bs) : as = bs := by
  apply List.ext_getElem hl
  intro k h1 h2
  have e : (binary as).testBit (as.length - 1 - k) = (binary bs).testBit (as.length - 1 - k) := by rw [h]
  rw [binary_testBit, binary_testBit, hl] at e
  have h3 : bs.length - 1 - k < bs.length := by omega
  have h4 : bs.length - 1 - (bs.length - 1 - k) = k := by omega
  simp only [h3, decide_true, Bool.true_and, h4, List.getD, List.getElem?_eq_getElem h1,
    List.getElem?_eq_getElem h2, Option.getD_some] at e
  exact e

end MortonRs
