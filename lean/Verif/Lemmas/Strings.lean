import Verif.Lemmas.GridRead2D
import Verif.Lemmas.GridRead3D

/-! # `to_string` -/

namespace MortonRs

/-! ## Decimal numbers separated by dashes -/

theorem split_at_dash {xs xs' ys ys' : List Char} (h1 : '-' ∉ xs) (h2 : '-' ∉ xs')
    (h : xs ++ '-' :: ys = xs' ++ '-' :: ys') : xs = xs' ∧ ys = ys' := by
  induction xs generalizing xs' with
  | nil =>
    cases xs' with
    | nil => simpa using h
    | cons a as => simp at h h2; exact absurd h.1 h2.1
  | cons b bs ih =>
    cases xs' with
    | nil => simp at h h1; exact absurd h.1.symm h1.1
    | cons a as =>
      simp at h h1 h2
      obtain ⟨e1, e2⟩ := ih (by simpa using h1.2) (by simpa using h2.2) h.2
      exact ⟨by rw [h.1, e1], e2⟩

theorem dash_not_mem_repr (n : Nat) : '-' ∉ n.repr.toList := by
  rw [Nat.toList_repr]
  intro h
  have := Nat.isDigit_of_mem_toDigits (by decide) (by decide) h
  revert this
  decide

theorem repr_inj {a b : Nat} (h : a.repr.toList = b.repr.toList) : a = b := by
  rw [Nat.toList_repr, Nat.toList_repr] at h
  rw [← Nat.ofDigitChars_ten_toDigits (n := a), h, Nat.ofDigitChars_ten_toDigits]

theorem dashed3_inj {a b d a' b' d' : Nat}
    (h : a.repr ++ "-" ++ b.repr ++ "-" ++ d.repr = a'.repr ++ "-" ++ b'.repr ++ "-" ++ d'.repr) :
    a = a' ∧ b = b' ∧ d = d' := by
  have h' := congrArg String.toList h
  simp only [String.toList_append, List.append_assoc, show "-".toList = ['-'] from rfl, List.cons_append,
    List.nil_append] at h'
  obtain ⟨e1, h'⟩ := split_at_dash (dash_not_mem_repr _) (dash_not_mem_repr _) h'
  obtain ⟨e2, e3⟩ := split_at_dash (dash_not_mem_repr _) (dash_not_mem_repr _) h'
  exact ⟨repr_inj e1, repr_inj e2, repr_inj e3⟩

theorem dashed4_inj {a b d e a' b' d' e' : Nat}
    (h : a.repr ++ "-" ++ b.repr ++ "-" ++ d.repr ++ "-" ++ e.repr =
      a'.repr ++ "-" ++ b'.repr ++ "-" ++ d'.repr ++ "-" ++ e'.repr) :
    a = a' ∧ b = b' ∧ d = d' ∧ e = e' := by
  have h' := congrArg String.toList h
  simp only [String.toList_append, List.append_assoc, show "-".toList = ['-'] from rfl, List.cons_append,
    List.nil_append] at h'
  obtain ⟨e1, h'⟩ := split_at_dash (dash_not_mem_repr _) (dash_not_mem_repr _) h'
  obtain ⟨e2, h'⟩ := split_at_dash (dash_not_mem_repr _) (dash_not_mem_repr _) h'
  obtain ⟨e3, e4⟩ := split_at_dash (dash_not_mem_repr _) (dash_not_mem_repr _) h'
  exact ⟨repr_inj e1, repr_inj e2, repr_inj e3, repr_inj e4⟩

/-! ## Reading all cells -/

theorem mapM_range'_ok {α : Type} {f : Nat → Res α} {g : Nat → α} (n k : Nat)
    (h : ∀ l, k ≤ l → l < k + n → f l = .ok (g l)) :
    (List.range' k n).mapM f = .ok ((List.range' k n).map g) := by
  induction n generalizing k with
  | zero => rfl
  | succ n ih =>
    rw [List.range'_succ, List.mapM_cons, h k (by omega) (by omega), ih (k + 1) (fun l h1 h2 => h l (by omega) (by omega))]
    rfl

end MortonRs
