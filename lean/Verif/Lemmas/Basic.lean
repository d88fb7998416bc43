import Verif.Model.Number
import Verif.Spec

/-! # Evaluation lemmas for the Rust fragment -/

namespace MortonRs

/-- Equality of call results is decidable; used to evaluate concrete cases. -/
instance {ε α : Type} [DecidableEq ε] [DecidableEq α] : DecidableEq (Except ε α)
  | .ok a, .ok b => if h : a = b then isTrue (by rw [h]) else isFalse (by simpa using h)
  | .error a, .error b => if h : a = b then isTrue (by rw [h]) else isFalse (by simpa using h)
  | .ok _, .error _ => isFalse (by simp)
  | .error _, .ok _ => isFalse (by simp)

theorem IntWidth.pos {w : Nat} (h : IntWidth w) : 8 ≤ w := by
  rcases h with h | h | h | h | h <;> omega

theorem IntWidth.le {w : Nat} (h : IntWidth w) : w ≤ 128 := by
  rcases h with h | h | h | h | h <;> omega

theorem IntWidth.mod8 {w : Nat} (h : IntWidth w) : w % 8 = 0 := by
  rcases h with h | h | h | h | h <;> omega

theorem Cfg.Supported.le {c : Cfg} (h : c.Supported) : 65536 ≤ 2 ^ c.ptrBits := by
  rcases h with h | h | h <;> rw [h] <;> decide

theorem Cfg.Supported.intWidth {c : Cfg} (h : c.Supported) : IntWidth c.ptrBits := by
  unfold Cfg.Supported at h; unfold IntWidth; omega

theorem uadd_ok {c : Cfg} {a b : Nat} (h : a + b < 2 ^ c.ptrBits) : uadd c a b = .ok (a + b) := by
  simp [uadd, h]

theorem usub_ok {c : Cfg} {a b : Nat} (h : b ≤ a) : usub c a b = .ok (a - b) := by
  simp [usub, h]

theorem umul_ok {c : Cfg} {a b : Nat} (h : a * b < 2 ^ c.ptrBits) : umul c a b = .ok (a * b) := by
  simp [umul, h]

theorem shl_ok {c : Cfg} {w : Nat} {x : BitVec w} {s : Nat} (h : s < w) : shl c x s = .ok (x <<< s) := by
  simp [shl, h]

theorem shr_ok {c : Cfg} {w : Nat} {x : BitVec w} {s : Nat} (h : s < w) : shr c x s = .ok (x >>> s) := by
  simp [shr, h]

theorem u8sub_ok {c : Cfg} {a b : Nat} (h : b ≤ a) : u8sub c a b = .ok (a - b) := by
  simp [u8sub, h]

@[simp] theorem ok_bind {α β : Type} (a : α) (f : α → Res β) :
    (Except.ok a >>= f : Res β) = f a := rfl

@[simp] theorem error_bind {α β : Type} (e : Fault) (f : α → Res β) :
    ((Except.error e : Res α) >>= f : Res β) = .error e := rfl

@[simp] theorem pure_eq_ok {α : Type} (a : α) : (pure a : Res α) = .ok a := rfl

/-- Sequencing: run `x`, then `f`. -/
theorem exists_bind {α β : Type} {x : Res α} {f : α → Res β} {Q : β → Prop} (P : α → Prop)
    (hx : ∃ a, x = .ok a ∧ P a) (hf : ∀ a, P a → ∃ b, f a = .ok b ∧ Q b) :
    ∃ b, (x >>= f) = .ok b ∧ Q b := by
  obtain ⟨a, rfl, ha⟩ := hx
  exact hf a ha

theorem bind_eq_ok {α β : Type} {x : Res α} {f : α → Res β} {r : β} (h : (x >>= f) = .ok r) :
    ∃ a, x = .ok a ∧ f a = .ok r := by
  cases x with
  | ok a => exact ⟨a, rfl, h⟩
  | error e => cases h

/-- `iter.map(f).collect()` when every call succeeds. -/
theorem mapM_ok {α β : Type} {f : α → Res β} (Q : α → β → Prop) {xs : List α}
    (h : ∀ x ∈ xs, ∃ b, f x = .ok b ∧ Q x b) :
    ∃ bs, xs.mapM f = .ok bs ∧ ∃ hl : bs.length = xs.length, ∀ i (hi : i < bs.length), Q (xs[i]'(hl ▸ hi)) bs[i] := by
  induction xs with
  | nil => exact ⟨[], rfl, rfl, fun i hi => absurd hi (by simp)⟩
  | cons x xs ih =>
    obtain ⟨b, hb, hQ⟩ := h x (List.mem_cons_self ..)
    obtain ⟨bs, h1, h2, h3⟩ := ih (fun y hy => h y (List.mem_cons_of_mem _ hy))
    refine ⟨b :: bs, ?_, by simp [h2], ?_⟩
    · rw [List.mapM_cons, hb, h1]; rfl
    · intro i hi
      cases i with
      | zero => exact hQ
      | succ i => exact h3 i (by simpa using hi)

/-- Bit `p` of a number, as `(n >> p) & 1`. -/
theorem bit_of_shift {W n p : Nat} (hp : p < W) :
    ((BitVec.ofNat W n >>> p) &&& 1#W).getLsbD 0 = n.testBit p := by
  have h0 : 0 < W := by omega
  rw [BitVec.getLsbD_and, BitVec.getLsbD_ushiftRight, BitVec.getLsbD_ofNat, BitVec.getLsbD_one]
  simp [hp, h0]

/-- Loop rule: an invariant that every iteration preserves (and that excludes faults) holds at the
end. -/
theorem forRange_invariant {σ : Type} (P : Nat → σ → Prop) {a b : Nat} (hab : a ≤ b) {init : σ}
    {body : Nat → σ → Res σ} (h0 : P a init)
    (hstep : ∀ i s, a ≤ i → i < b → P i s → ∃ s', body i s = .ok s' ∧ P (i + 1) s') :
    ∃ s', forRange a b init body = .ok s' ∧ P b s' := by
  unfold forRange
  obtain ⟨n, rfl⟩ : ∃ n, b = a + n := ⟨b - a, by omega⟩
  simp only [Nat.add_sub_cancel_left]
  clear hab
  induction n generalizing a init with
  | zero => exact ⟨init, by simp, by simpa using h0⟩
  | succ n ih =>
    obtain ⟨s', hs', hP⟩ := hstep a init (Nat.le_refl _) (by omega) h0
    obtain ⟨s'', h1, h2⟩ := ih hP (fun i s hi hi' => hstep i s (by omega) (by omega))
    refine ⟨s'', ?_, by rw [show a + (n + 1) = a + 1 + n by omega]; exact h2⟩
    rw [List.range'_succ]
    simp [hs', h1]

/-- Loop rule for the reversed range. -/
theorem forRangeRev_invariant {σ : Type} (P : Nat → σ → Prop) {a b : Nat} (hab : a ≤ b) {init : σ}
    {body : Nat → σ → Res σ} (h0 : P b init)
    (hstep : ∀ i s, a ≤ i → i < b → P (i + 1) s → ∃ s', body i s = .ok s' ∧ P i s') :
    ∃ s', forRangeRev a b init body = .ok s' ∧ P a s' := by
  unfold forRangeRev
  obtain ⟨n, rfl⟩ : ∃ n, b = a + n := ⟨b - a, by omega⟩
  simp only [Nat.add_sub_cancel_left]
  clear hab
  induction n generalizing init with
  | zero => exact ⟨init, by simp, by simpa using h0⟩
  | succ n ih =>
    obtain ⟨s', hs', hP⟩ := hstep (a + n) init (by omega) (by omega) h0
    obtain ⟨s'', h1, h2⟩ := ih hP (fun i s hi hi' => hstep i s hi (by omega))
    refine ⟨s'', ?_, h2⟩
    rw [List.range'_concat]
    simp [-List.foldlM_reverse, hs', h1]

/-- Loop rule for `for (i, x) in xs.iter().enumerate()`. -/
theorem forEnumFrom_invariant {α σ : Type} (P : Nat → σ → Prop) {xs : List α} {k : Nat} {init : σ}
    {body : Nat → α → σ → Res σ} (h0 : P k init)
    (hstep : ∀ i (h : i < xs.length) s, P (k + i) s →
      ∃ s', body (k + i) xs[i] s = .ok s' ∧ P (k + i + 1) s') :
    ∃ s', forEnumFrom k xs init body = .ok s' ∧ P (k + xs.length) s' := by
  induction xs generalizing k init with
  | nil => exact ⟨init, rfl, by simpa using h0⟩
  | cons x xs ih =>
    obtain ⟨s', hs', hP⟩ := hstep 0 (by simp) init (by simpa using h0)
    obtain ⟨s'', h1, h2⟩ := ih (k := k + 1) (init := s') (by simpa using hP) (fun i h s hs => by
      have := hstep (i + 1) (by simpa using h) s (by rw [show k + (i + 1) = k + 1 + i by omega]; exact hs)
      rw [show k + (i + 1) = k + 1 + i by omega] at this
      simpa using this)
    refine ⟨s'', ?_, by rw [show k + (x :: xs).length = k + 1 + xs.length by simp; omega]; exact h2⟩
    have hs0 : body k x init = .ok s' := by simpa using hs'
    simp [forEnumFrom, hs0, h1]

theorem forEnum_invariant {α σ : Type} (P : Nat → σ → Prop) {xs : List α} {init : σ}
    {body : Nat → α → σ → Res σ} (h0 : P 0 init)
    (hstep : ∀ i (h : i < xs.length) s, P i s → ∃ s', body i xs[i] s = .ok s' ∧ P (i + 1) s') :
    ∃ s', forEnum xs init body = .ok s' ∧ P xs.length s' := by
  have := forEnumFrom_invariant P (xs := xs) (k := 0) (init := init) (body := body) h0
    (fun i h s hs => by
      have := hstep i h s (by simpa using hs)
      simpa using this)
  simpa [forEnum] using this

/-! ## Integer bit ranges -/

theorem checkedShr_getD {w : Nat} (x : BitVec w) (s : Nat) : (checkedShr x s).getD 0#w = x >>> s := by
  unfold checkedShr
  split
  · rfl
  · apply BitVec.eq_of_getLsbD_eq
    intro i hi
    simp only [Option.getD_none, BitVec.getLsbD_zero, BitVec.getLsbD_ushiftRight]
    rw [BitVec.getLsbD_of_ge]
    omega

theorem allOnes_ushiftRight_getLsbD {w : Nat} (n i : Nat) :
    ((~~~(0#w)) >>> (w - n)).getLsbD i = (decide (i < n) && decide (i < w)) := by
  rw [BitVec.getLsbD_ushiftRight]
  by_cases h : w - n + i < w
  · simp [h]; omega
  · simp [h]; omega

/-- What `get_bits` returns: bit `i` of the result is bit `start + i` of `self` inside the range,
zero otherwise. -/
theorem intGetBits_ok {c : Cfg} {w : Nat} (x : BitVec w) (s e : Nat) (hw : w < 2 ^ 32)
    (hlen : e - s ≤ w) (hstart : s < 2 ^ w) (hstart' : s < 2 ^ 32) :
    ∃ y, intGetBits c x ⟨s, e⟩ = .ok y ∧
      ∀ i, y.getLsbD i = (decide (i < e - s) && x.getLsbD (s + i)) := by
  refine ⟨_, by simp only [intGetBits, Range.len, usub_ok hlen, ok_bind, pure_eq_ok]; rfl, ?_⟩
  intro i
  rw [Nat.mod_eq_of_lt hstart, Nat.mod_eq_of_lt hstart', Nat.mod_eq_of_lt (by omega : w - (e - s) < 2 ^ 32),
    checkedShr_getD, checkedShr_getD, BitVec.getLsbD_and, allOnes_ushiftRight_getLsbD,
    BitVec.getLsbD_ushiftRight]
  by_cases h1 : i < e - s
  · have h2 : i < w := by omega
    simp [h1, h2]
  · simp [h1]

/-- What `set_bits` writes. Bits of `new_value` beyond the range are or-ed into the bits above it. -/
theorem intSetBits_ok {c : Cfg} {w : Nat} (x : BitVec w) (s e : Nat) (v : BitVec w) (hw : w < 2 ^ 32)
    (hlen : e - s ≤ w) (hstart : s < w) :
    ∃ y, intSetBits c x ⟨s, e⟩ v = .ok y ∧
      ∀ i, i < w → y.getLsbD i =
        (if s ≤ i then
          (if i < s + (e - s) then v.getLsbD (i - s) else (x.getLsbD i || v.getLsbD (i - s)))
         else x.getLsbD i) := by
  have hs : s % 2 ^ w = s := Nat.mod_eq_of_lt (Nat.lt_trans hstart Nat.lt_two_pow_self)
  refine ⟨_, by
    simp only [intSetBits, Range.len, usub_ok hlen, ok_bind, pure_eq_ok, hs, shl_ok hstart]; rfl, ?_⟩
  intro i hi
  rw [Nat.mod_eq_of_lt (by omega : w - (e - s) < 2 ^ 32), checkedShr_getD, BitVec.getLsbD_or,
    BitVec.getLsbD_and, BitVec.getLsbD_not, BitVec.getLsbD_shiftLeft, BitVec.getLsbD_shiftLeft,
    allOnes_ushiftRight_getLsbD]
  by_cases h1 : s ≤ i
  · have : ¬ i < s := by omega
    have h2 : i - s < w := by omega
    by_cases h3 : i < s + (e - s)
    · have h4 : i - s < e - s := by omega
      simp [hi, h1, h2, h3, h4, this]
    · have h4 : ¬ i - s < e - s := by omega
      simp [hi, h1, h2, h3, h4, this]
  · have : i < s := by omega
    simp [hi, h1, this]

/-- One step of the loop of `to_grid_index` on one coordinate: bit `n - 1 - k` is filled in. -/
theorem or_shift_bit {W n k : Nat} {z q : BitVec W} (hk : k < n) (hs : n - k - 1 < W) (f : Nat → Bool)
    (hz : ∀ i, z.getLsbD i = (decide (i < n ∧ n - k ≤ i) && f (n - 1 - i)))
    (hq : ∀ i, q.getLsbD i = (decide (i = 0) && f k)) (i : Nat) :
    (z ||| (q <<< (n - k - 1))).getLsbD i = (decide (i < n ∧ n - (k + 1) ≤ i) && f (n - 1 - i)) := by
  rw [BitVec.getLsbD_or, BitVec.getLsbD_shiftLeft, hz i, hq]
  by_cases hi : i = n - k - 1
  · subst hi
    have e1 : ¬ (n - k - 1 < n ∧ n - k ≤ n - k - 1) := by omega
    have e2 : n - k - 1 < n ∧ n - (k + 1) ≤ n - k - 1 := by omega
    have e3 : n - 1 - (n - k - 1) = k := by omega
    rw [decide_eq_false e1, decide_eq_true e2, e3]
    simp [hs]
  · by_cases hi2 : i < n ∧ n - k ≤ i
    · have e2 : i < n ∧ n - (k + 1) ≤ i := by omega
      have e3 : i - (n - k - 1) ≠ 0 := by omega
      simp [hi2, e2, e3]
    · have e2 : ¬ (i < n ∧ n - (k + 1) ≤ i) := by omega
      simp only [hi2, e2, decide_false, Bool.false_and, Bool.false_or]
      by_cases hi3 : i < n - k - 1
      · simp [hi3]
      · have e3 : i - (n - k - 1) ≠ 0 := by omega
        simp [e3]

end MortonRs