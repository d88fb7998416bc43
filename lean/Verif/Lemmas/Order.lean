import Verif.Lemmas.Store

/-! # Comparison of numbers and of paths -/

namespace MortonRs

open BitStorage

section PathCmp

variable {Cell : Type} (key : Cell → Nat)

theorem pathCmp_append {as bs : List Cell} (h : as.length = bs.length) (xs ys : List Cell) :
    pathCmp key (as ++ xs) (bs ++ ys) = (pathCmp key as bs).then (pathCmp key xs ys) := by
  induction as generalizing bs with
  | nil =>
    cases bs with
    | nil => simp [pathCmp, Ordering.then]
    | cons => simp at h
  | cons a as ih =>
    cases bs with
    | nil => simp at h
    | cons b bs =>
      simp only [List.cons_append, pathCmp]
      split
      · rfl
      · split
        · rfl
        · exact ih (by simpa using h)

theorem pathCmp_nil_left (ys : List Cell) : pathCmp key [] ys = if ys = [] then .eq else .lt := by
  cases ys <;> simp [pathCmp]

theorem pathCmp_nil_right (xs : List Cell) : pathCmp key xs [] = if xs = [] then .eq else .gt := by
  cases xs <;> simp [pathCmp]

theorem pathCmp_single (a b : Cell) : pathCmp key [a] [b] = compare (key a) (key b) := by
  simp only [pathCmp, Nat.compare_eq_ite_lt]

theorem pathCmp_refl (xs : List Cell) : pathCmp key xs xs = .eq := by
  induction xs with
  | nil => rfl
  | cons x xs ih => simp [pathCmp, ih]

theorem pathCmp_swap (xs ys : List Cell) : (pathCmp key xs ys).swap = pathCmp key ys xs := by
  induction xs generalizing ys with
  | nil => cases ys <;> rfl
  | cons x xs ih =>
    cases ys with
    | nil => rfl
    | cons y ys =>
      simp only [pathCmp]
      rcases Nat.lt_trichotomy (key x) (key y) with h | h | h
      · simp [h, Nat.lt_asymm h]
      · simp [h, ih]
      · simp [h, Nat.lt_asymm h]

theorem pathCmp_eq_iff (hk : Function.Injective key) (xs ys : List Cell) :
    pathCmp key xs ys = .eq ↔ xs = ys := by
  induction xs generalizing ys with
  | nil => cases ys <;> simp [pathCmp]
  | cons x xs ih =>
    cases ys with
    | nil => simp [pathCmp]
    | cons y ys =>
      simp only [pathCmp, List.cons.injEq]
      rcases Nat.lt_trichotomy (key x) (key y) with h | h | h
      · have : x ≠ y := by rintro rfl; omega
        simp [h, this]
      · simp [hk h, ih]
      · have : x ≠ y := by rintro rfl; omega
        simp [h, Nat.lt_asymm h, this]

/-- `≤` (that is, not greater) is transitive. -/
theorem pathCmp_trans {xs ys zs : List Cell} (h1 : pathCmp key xs ys ≠ .gt) (h2 : pathCmp key ys zs ≠ .gt) :
    pathCmp key xs zs ≠ .gt := by
  induction xs generalizing ys zs with
  | nil => cases zs <;> simp [pathCmp]
  | cons x xs ih =>
    cases ys with
    | nil => simp [pathCmp] at h1
    | cons y ys =>
      cases zs with
      | nil => simp [pathCmp] at h2
      | cons z zs =>
        simp only [pathCmp] at h1 h2 ⊢
        rcases Nat.lt_trichotomy (key x) (key y) with h | h | h
        · rcases Nat.lt_trichotomy (key y) (key z) with g | g | g
          · simp [Nat.lt_trans h g]
          · simp [← g, h]
          · simp [g, Nat.lt_asymm g] at h2
        · rw [h] at h1 ⊢
          rcases Nat.lt_trichotomy (key y) (key z) with g | g | g
          · simp [g]
          · simp only [g, Nat.lt_irrefl, if_false] at h1 h2 ⊢
            exact ih h1 h2
          · simp [g, Nat.lt_asymm g] at h2
        · simp [h, Nat.lt_asymm h] at h1

end PathCmp

section Digits

variable {S Cell : Type} [LawfulDim Cell] [Storage S Cell] [BitStorage S Cell]

/-- Comparing the top `k` digits as numbers is comparing them as a path. -/
theorem compare_top (s t : S) (hw : width s = width t) (k : Nat) (hk : k * dim Cell ≤ width s) :
    compare (value s / 2 ^ (width s - k * dim Cell)) (value t / 2 ^ (width t - k * dim Cell)) =
      pathCmp (Dimension.toUsize (Cell := Cell)) ((List.range k).map (slot s)) ((List.range k).map (slot t)) := by
  induction k with
  | zero =>
    have h1 : value s / 2 ^ (width s - 0 * dim Cell) = 0 := Nat.div_eq_of_lt (by simpa using value_lt s)
    have h2 : value t / 2 ^ (width t - 0 * dim Cell) = 0 := Nat.div_eq_of_lt (by simpa using value_lt t)
    rw [h1, h2]
    rfl
  | succ k ih =>
    have hk' : k * dim Cell ≤ width s := Nat.le_trans (Nat.mul_le_mul_right _ (by omega)) hk
    specialize ih hk'
    rw [List.range_succ, List.map_append, List.map_append, pathCmp_append _ (by simp), ← ih,
      List.map_singleton, List.map_singleton, pathCmp_single, slot_ofNat, slot_ofNat,
      top_succ hk, top_succ (by rw [← hw]; exact hk)]
    have d1 := digit_lt (dim Cell) (value s) (width s) k
    have d2 := digit_lt (dim Cell) (value t) (width t) k
    generalize value s / 2 ^ (width s - k * dim Cell) = a
    generalize value t / 2 ^ (width t - k * dim Cell) = b
    generalize digit (dim Cell) (value s) (width s) k = x at *
    generalize digit (dim Cell) (value t) (width t) k = y at *
    rcases Nat.lt_trichotomy a b with h | h | h
    · have h1 : a * 2 ^ dim Cell + x < b * 2 ^ dim Cell + y := by
        have : (a + 1) * 2 ^ dim Cell ≤ b * 2 ^ dim Cell := Nat.mul_le_mul_right _ h
        rw [Nat.add_mul] at this
        omega
      rw [Nat.compare_eq_lt.mpr h1, Nat.compare_eq_lt.mpr h]; rfl
    · subst h
      rw [Nat.compare_eq_eq.mpr (rfl : a = a)]
      simp only [Ordering.then]
      rcases Nat.lt_trichotomy x y with g | g | g
      · rw [Nat.compare_eq_lt.mpr g, Nat.compare_eq_lt.mpr (by omega)]
      · subst g; rw [Nat.compare_eq_eq.mpr rfl, Nat.compare_eq_eq.mpr rfl]
      · rw [Nat.compare_eq_gt.mpr g, Nat.compare_eq_gt.mpr (by omega)]
    · have h1 : b * 2 ^ dim Cell + y < a * 2 ^ dim Cell + x := by
        have : (b + 1) * 2 ^ dim Cell ≤ a * 2 ^ dim Cell := Nat.mul_le_mul_right _ h
        rw [Nat.add_mul] at this
        omega
      rw [Nat.compare_eq_gt.mpr h1, Nat.compare_eq_gt.mpr h]; rfl

theorem range_map_append (s : S) {k n : Nat} (h : k ≤ n) :
    (List.range n).map (slot s) =
      (List.range k).map (slot s) ++ (List.range' k (n - k)).map (slot s) := by
  rw [← List.map_append]
  congr 1
  rw [List.range_eq_range', List.range_eq_range']
  have := List.range'_append (s := 0) (m := k) (n := n - k) (step := 1)
  simp only [Nat.zero_add, Nat.one_mul] at this
  rw [this]
  congr 1
  omega

theorem pathCmp_lt (s t : S) (h : Storage.depth s < Storage.depth t) :
    pathCmp (Dimension.toUsize (Cell := Cell)) (path s) (path t) =
      (pathCmp Dimension.toUsize (path s) ((List.range (Storage.depth s)).map (slot t))).then .lt := by
  rw [path, path, range_map_append t (Nat.le_of_lt h)]
  have := pathCmp_append (Dimension.toUsize (Cell := Cell))
    (as := (List.range (Storage.depth s)).map (slot s)) (bs := (List.range (Storage.depth s)).map (slot t))
    (by simp) [] ((List.range' (Storage.depth s) (Storage.depth t - Storage.depth s)).map (slot t))
  rw [List.append_nil] at this
  rw [this, pathCmp_nil_left, if_neg]
  simp; omega

theorem pathCmp_gt (s t : S) (h : Storage.depth t < Storage.depth s) :
    pathCmp (Dimension.toUsize (Cell := Cell)) (path s) (path t) =
      (pathCmp Dimension.toUsize ((List.range (Storage.depth t)).map (slot s)) (path t)).then .gt := by
  rw [path, path, range_map_append s (Nat.le_of_lt h)]
  have := pathCmp_append (Dimension.toUsize (Cell := Cell))
    (as := (List.range (Storage.depth t)).map (slot s)) (bs := (List.range (Storage.depth t)).map (slot t))
    (by simp) ((List.range' (Storage.depth t) (Storage.depth s - Storage.depth t)).map (slot s)) []
  rw [List.append_nil] at this
  rw [this, pathCmp_nil_right, if_neg]
  simp; omega

end Digits

/-- The bits above `s`, as a number. -/
theorem intGetBits_top {c : Cfg} {w : Nat} (hw : IntWidth w) (x : BitVec w) {s : Nat} (hs : s ≤ w) :
    ∃ y, intGetBits c x ⟨s, w⟩ = .ok y ∧ y.toNat = x.toNat / 2 ^ s := by
  have h1 := hw.le
  obtain ⟨y, e1, e2⟩ := intGetBits_ok (c := c) x s w (by omega) (by omega)
    (Nat.lt_of_le_of_lt hs Nat.lt_two_pow_self) (by omega)
  refine ⟨y, e1, ?_⟩
  apply Nat.eq_of_testBit_eq
  intro i
  rw [← Nat.shiftRight_eq_div_pow, Nat.testBit_shiftRight]
  have := e2 i
  rw [BitVec.getLsbD, BitVec.getLsbD] at this
  rw [this]
  by_cases hi : i < w - s
  · simp [hi]
  · rw [Nat.testBit_lt_two_pow (Nat.lt_of_lt_of_le x.isLt (Nat.pow_le_pow_right (by decide) (by omega)))]
    simp

end MortonRs
