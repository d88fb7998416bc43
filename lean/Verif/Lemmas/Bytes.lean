import Verif.Lemmas.Basic

/-! # Bits of a byte vector -/

namespace MortonRs

theorem getD_of_lt {α : Type} {l : List α} {d : α} {n : Nat} (h : n < l.length) :
    l.getD n d = l[n] := by
  simp [List.getD_eq_getElem?_getD, h]

/-- Bit `i` of a byte vector, least significant bit of the first byte first; zero beyond the end. -/
def bitOf (bs : List (BitVec 8)) (i : Nat) : Bool := (bs.getD (i / 8) 0#8).getLsbD (i % 8)

theorem leValue_lt (bs : List (BitVec 8)) : leValue bs < 2 ^ (8 * bs.length) := by
  induction bs with
  | nil => simp [leValue]
  | cons b bs ih =>
    have hb := b.isLt
    simp only [leValue, List.length_cons]
    rw [show 8 * (bs.length + 1) = 8 * bs.length + 8 by omega, Nat.pow_add]
    omega

theorem testBit_leValue (bs : List (BitVec 8)) (i : Nat) : (leValue bs).testBit i = bitOf bs i := by
  induction bs generalizing i with
  | nil => simp [leValue, bitOf]
  | cons b bs ih =>
    have hb := b.isLt
    simp only [leValue]
    rw [show b.toNat + 256 * leValue bs = 2 ^ 8 * leValue bs + b.toNat by omega,
      Nat.testBit_two_pow_mul_add _ (by simpa using hb)]
    by_cases h : i < 8
    · have h0 : i / 8 = 0 := by omega
      have h1 : i % 8 = i := by omega
      simp [h, bitOf, h0, h1, BitVec.getLsbD]
    · have h0 : i / 8 = (i - 8) / 8 + 1 := by omega
      have h1 : i % 8 = (i - 8) % 8 := by omega
      simp [h, ih, bitOf, h0, h1]

theorem bitOf_of_ge {bs : List (BitVec 8)} {i : Nat} (h : 8 * bs.length ≤ i) : bitOf bs i = false := by
  have : bs.length ≤ i / 8 := by omega
  simp [bitOf, List.getD_eq_getElem?_getD, this]

theorem eq_of_leValue_eq {as bs : List (BitVec 8)} (hl : as.length = bs.length)
    (h : leValue as = leValue bs) : as = bs := by
  induction as generalizing bs with
  | nil => cases bs with
    | nil => rfl
    | cons => simp at hl
  | cons a as ih => cases bs with
    | nil => simp at hl
    | cons b bs =>
      have ha := a.isLt
      have hb := b.isLt
      simp only [leValue] at h
      have h1 : a.toNat = b.toNat := by omega
      have h2 : leValue as = leValue bs := by omega
      rw [BitVec.eq_of_toNat_eq h1, ih (by simpa using hl) h2]

theorem leBytes_length {w : Nat} (x : BitVec w) : (leBytes x).length = w / 8 := by
  simp [leBytes]

theorem bitOf_leBytes {w : Nat} (x : BitVec w) (i : Nat) (hw : w % 8 = 0) :
    bitOf (leBytes x) i = x.getLsbD i := by
  by_cases h : i / 8 < w / 8
  · rw [bitOf, getD_of_lt (by simpa [leBytes] using h)]
    simp only [leBytes, List.getElem_map, List.getElem_range, BitVec.getLsbD_setWidth,
      BitVec.getLsbD_ushiftRight]
    have : i % 8 < 8 := by omega
    rw [show 8 * (i / 8) + i % 8 = i by omega]
    simp [this]
  · rw [bitOf_of_ge (by rw [leBytes_length]; omega), BitVec.getLsbD_of_ge _ _ (by omega)]

theorem leValue_leBytes {w : Nat} (x : BitVec w) (hw : w % 8 = 0) : leValue (leBytes x) = x.toNat := by
  apply Nat.eq_of_testBit_eq
  intro i
  rw [testBit_leValue, bitOf_leBytes x i hw, BitVec.getLsbD]

theorem bitOf_set {bs : List (BitVec 8)} {k : Nat} (b : BitVec 8) (i : Nat) (hk : k < bs.length) :
    bitOf (bs.set k b) i = if i / 8 = k then b.getLsbD (i % 8) else bitOf bs i := by
  unfold bitOf
  by_cases h : i / 8 = k
  · rw [getD_of_lt (by simp; omega)]
    simp [h]
  · rw [List.getD_eq_getElem?_getD, List.getD_eq_getElem?_getD, List.getElem?_set_ne (by omega)]
    simp [h]

theorem index_ok {α : Type} {xs : List α} {i : Nat} (h : i < xs.length) : index xs i = .ok xs[i] := by
  simp [index, h]

theorem bitOf_eq_getElem {bs : List (BitVec 8)} {k j : Nat} (hk : k < bs.length) (hj : j < 8) :
    bitOf bs (8 * k + j) = bs[k].getLsbD j := by
  unfold bitOf
  rw [show (8 * k + j) / 8 = k by omega, show (8 * k + j) % 8 = j by omega,
    getD_of_lt hk]

/-- `Vec<u8>::get_bits_as_usize` returns exactly the bits of the range. -/
theorem vecGetBitsAsUsize_ok {c : Cfg} (bs : List (BitVec 8)) (s e : Nat)
    (hW : c.ptrBits < 2 ^ 32) (hle : s ≤ e) (hstop : e ≤ 8 * bs.length)
    (hfit : e + 7 < 2 ^ c.ptrBits) (hlen : (e - s) ≤ c.ptrBits) (hW0 : 0 < c.ptrBits) :
    ∃ y, vecGetBitsAsUsize c bs ⟨s, e⟩ = .ok y ∧
      ∀ i, y.getLsbD i = (decide (i < (e - s)) && bitOf bs (s + i)) := by
  unfold vecGetBitsAsUsize
  rw [uadd_ok hfit]
  simp only [ok_bind]
  let P : Nat → BitVec c.ptrBits × Nat × Nat → Prop := fun k st =>
    st.2.1 = max s (min (8 * k) e) ∧ st.2.2 = st.2.1 - s ∧
      ∀ i, st.1.getLsbD i = (decide (i < st.2.2) && bitOf bs (s + i))
  refine exists_bind (P ((e + 7) / 8)) (forRange_invariant P (by omega)
    ⟨by simp; omega, by simp, by simp⟩ ?_) ?_
  · rintro idx ⟨ret, cs, us⟩ hi1 hi2 ⟨h1, h2, h3⟩
    simp only at h1 h2 h3
    have a1 : idx + 1 < 2 ^ c.ptrBits := by omega
    have a2 : (idx + 1) * 8 < 2 ^ c.ptrBits := by omega
    have a3 : cs ≤ min ((idx + 1) * 8) e := by omega
    have a4 : idx < bs.length := by omega
    generalize hce : min ((idx + 1) * 8) e = ce at *
    have a5 : cs % 8 + (ce - cs) < 2 ^ c.ptrBits := by omega
    have a6 : us + (ce - cs) < 2 ^ c.ptrBits := by omega
    have a7 : cs % 8 + (ce - cs) ≤ 8 := by omega
    obtain ⟨byte, hb1, hb2⟩ := intGetBits_ok (c := c) bs[idx] (cs % 8) (cs % 8 + (ce - cs)) (by decide)
      (by omega) (by omega) (by omega)
    have a8 : us < c.ptrBits := by omega
    obtain ⟨ret', hr1, hr2⟩ := intSetBits_ok (c := c) ret us (us + (ce - cs))
      (byte.setWidth c.ptrBits) hW (by omega) a8
    refine ⟨(ret', ce, us + (ce - cs)), ?_, ?_⟩
    · simp only [uadd_ok a1, umul_ok a2, ok_bind, hce, usub_ok a3, uadd_ok a5, index_ok a4, hb1,
        uadd_ok a6, hr1, pure_eq_ok]
    · refine ⟨by simp only; omega, by simp only; omega, ?_⟩
      intro i
      simp only
      by_cases hiW : i < c.ptrBits
      · rw [hr2 i hiW]
        simp only [BitVec.getLsbD_setWidth, hb2]
        by_cases g1 : us ≤ i
        · have g4 : i - us < c.ptrBits := by omega
          by_cases g2 : i < us + (ce - cs)
          · have g3 : i - us < cs % 8 + (ce - cs) - cs % 8 := by omega
            have g5 : us + (us + (ce - cs) - us) = us + (ce - cs) := by omega
            rw [if_pos g1, if_pos (by omega)]
            simp only [g2, g3, g4, decide_true, Bool.true_and]
            rw [← bitOf_eq_getElem a4 (by omega)]
            congr 1
            omega
          · have g3 : ¬ i - us < cs % 8 + (ce - cs) - cs % 8 := by omega
            rw [if_pos g1, if_neg (by omega), h3]
            have g6 : ¬ i < us := by omega
            simp only [g2, g3, g6, decide_false, Bool.false_and, Bool.and_false, Bool.or_false]
        · rw [if_neg g1, h3]
          have : i < us := by omega
          have g2 : i < us + (ce - cs) := by omega
          simp [this, g2]
      · rw [BitVec.getLsbD_of_ge _ _ (by omega)]
        have : ¬ i < us + (ce - cs) := by omega
        simp [this]
  · rintro st ⟨h2, h3, h4⟩
    have e1 : st.2.2 = e - s := by rw [h3, h2]; omega
    exact ⟨st.1, rfl, fun i => by rw [h4 i, e1]⟩

theorem readU16_ok {c : Cfg} {bs : List (BitVec 8)} {k : Nat} (hc : c.bigEndian = false)
    (hk : k + 1 < bs.length) :
    ∃ y, readU16 c bs k = .ok y ∧ ∀ i, i < 16 → y.getLsbD i = bitOf bs (8 * k + i) := by
  have h0 : k < bs.length := by omega
  refine ⟨fromLeBytes 16 [bs[k], bs[k + 1]], by simp [readU16, h0, hk, fromNeBytes, hc], ?_⟩
  intro i hi
  rw [fromLeBytes, BitVec.getLsbD_ofNat, testBit_leValue]
  simp only [hi, decide_true, Bool.true_and]
  by_cases h8 : i < 8
  · rw [bitOf_eq_getElem h0 h8]
    have h1 : i / 8 = 0 := by omega
    have h2 : i % 8 = i := by omega
    simp [bitOf, h1, h2]
  · rw [show 8 * k + i = 8 * (k + 1) + (i - 8) by omega, bitOf_eq_getElem hk (by omega)]
    have h1 : i / 8 = 1 := by omega
    have h2 : i % 8 = i - 8 := by omega
    simp [bitOf, h1, h2]

theorem combinedByte_ok {c : Cfg} (new : List (BitVec 8)) (us n : Nat) (hc : c.bigEndian = false)
    (hnew : 0 < new.length) (hn : n ≤ 8) (hlen : us + n ≤ 8 * new.length ∧ us < 8 * new.length)
    (hfit : us + n < 2 ^ c.ptrBits) :
    ∃ byte, combinedByte c new us n = .ok byte ∧
      ∀ j, byte.getLsbD j = (decide (j < n) && bitOf new (us + j)) := by
  have a5 : us % 8 + n < 2 ^ c.ptrBits := by omega
  have a8 : us / 8 * 8 < 2 ^ c.ptrBits := by omega
  have a9 : us / 8 * 8 ≤ us := by omega
  have a10 : us / 8 * 8 ≤ us + n := by omega
  have a14 : us / 8 < new.length := by omega
  have a15 : 1 ≤ new.length := hnew
  unfold combinedByte
  simp only [uadd_ok hfit, ok_bind, usub_ok a15]
  by_cases hlast : us / 8 = new.length - 1
  · obtain ⟨byte, hb1, hb2⟩ := intGetBits_ok (c := c) new[us / 8] (us % 8) (us % 8 + n)
      (by decide) (by omega) (by omega) (by omega)
    refine ⟨byte, by rw [if_pos hlast, uadd_ok a5, ok_bind, index_ok a14, ok_bind, hb1], ?_⟩
    intro j
    rw [hb2 j, show us % 8 + n - us % 8 = n by omega]
    by_cases hj : j < n
    · simp only [hj, decide_true, Bool.true_and]
      rw [← bitOf_eq_getElem a14 (by omega)]
      congr 1
      omega
    · simp [hj]
  · obtain ⟨two, ht1, ht2⟩ := readU16_ok (c := c) (bs := new) (k := us / 8) hc (by omega)
    obtain ⟨b, hb1, hb2⟩ := intGetBits_ok (c := c) two (us - us / 8 * 8) (us + n - us / 8 * 8)
      (by decide) (by omega) (by omega) (by omega)
    refine ⟨b.setWidth 8, by
      simp only [hlast, if_false, ht1, ok_bind, umul_ok a8, usub_ok a9, usub_ok a10, hb1, pure_eq_ok], ?_⟩
    intro j
    rw [BitVec.getLsbD_setWidth, hb2 j, show us + n - us / 8 * 8 - (us - us / 8 * 8) = n by omega]
    by_cases hj : j < n
    · have hj8 : j < 8 := by omega
      simp only [hj, hj8, decide_true, Bool.true_and]
      rw [ht2 _ (by omega)]
      congr 1
      omega
    · simp [hj]

/-- `set_vec_u8_bits` writes the bits `combinedByte` delivers into the range and nothing else. -/
theorem setVecU8Bits_chunks {c : Cfg} (bs : List (BitVec 8)) (s e : Nat) (new : List (BitVec 8))
    (f : Nat → Bool) (hle : s ≤ e) (hstop : e ≤ 8 * bs.length) (hfit : e + 7 < 2 ^ c.ptrBits)
    (hcomb : ∀ us n, n ≤ 8 → us + n ≤ e - s → (n = 0 → us = 0) → us = 0 ∨ (s + us) % 8 = 0 →
      ∃ byte, combinedByte c new us n = .ok byte ∧
        ∀ j, byte.getLsbD j = (decide (j < n) && f (us + j))) :
    ∃ bs', setVecU8Bits c bs ⟨s, e⟩ new = .ok bs' ∧ bs'.length = bs.length ∧
      ∀ i, bitOf bs' i =
        if s ≤ i ∧ i < e then f (i - s) else bitOf bs i := by
  unfold setVecU8Bits
  rw [uadd_ok hfit]
  simp only [ok_bind]
  let P : Nat → List (BitVec 8) × Nat × Nat → Prop := fun k st =>
    st.2.1 = max s (min (8 * k) e) ∧ st.2.2 = st.2.1 - s ∧
      st.1.length = bs.length ∧
      ∀ i, bitOf st.1 i =
        if s ≤ i ∧ i < st.2.1 then f (i - s) else bitOf bs i
  refine exists_bind (P ((e + 7) / 8)) (forRange_invariant P (by omega)
    ⟨by simp; omega, by simp, rfl, fun i => by rw [if_neg (by simp only; omega)]⟩ ?_) ?_
  · rintro idx ⟨vec, cs, us⟩ hi1 hi2 ⟨h1, h2, h3, h4⟩
    simp only at h1 h2 h3 h4
    have a1 : idx + 1 < 2 ^ c.ptrBits := by omega
    have a2 : (idx + 1) * 8 < 2 ^ c.ptrBits := by omega
    have a3 : cs ≤ min ((idx + 1) * 8) e := by omega
    have a4 : idx < vec.length := by omega
    generalize hce : min ((idx + 1) * 8) e = ce at *
    have a5 : us % 8 + (ce - cs) < 2 ^ c.ptrBits := by omega
    have a6 : us + (ce - cs) < 2 ^ c.ptrBits := by omega
    have a7 : ce - cs ≤ 8 := by omega
    have a8 : us / 8 * 8 < 2 ^ c.ptrBits := by omega
    have a9 : us / 8 * 8 ≤ us := by omega
    have a10 : us / 8 * 8 ≤ us + (ce - cs) := by omega
    have a11 : idx * 8 < 2 ^ c.ptrBits := by omega
    have a12 : idx * 8 ≤ cs := by omega
    have a13 : idx * 8 ≤ ce := by omega
    obtain ⟨byte, hb1, hb2⟩ := hcomb us (ce - cs) (by omega) (by omega) (by omega) (by omega)
    obtain ⟨nb, hn1, hn2⟩ := intSetBits_ok (c := c) vec[idx] (cs - idx * 8) (ce - idx * 8) byte
      (by decide) (by omega) (by omega)
    refine ⟨(vec.set idx nb, ce, us + (ce - cs)), ?_, ?_⟩
    · simp only [uadd_ok a1, umul_ok a2, ok_bind, hce, usub_ok a3, uadd_ok a6, hb1,
        index_ok a4, umul_ok a11, usub_ok a12, usub_ok a13, hn1, pure_eq_ok]
    · refine ⟨by simp only; omega, by simp only; omega, by simpa using h3, ?_⟩
      intro i
      simp only
      rw [bitOf_set nb i a4]
      by_cases hi : i / 8 = idx
      · rw [if_pos hi, hn2 _ (by omega)]
        simp only [hb2]
        have hv : vec[idx].getLsbD (i % 8) = bitOf vec i := by
          rw [← bitOf_eq_getElem a4 (by omega)]; congr 1; omega
        rw [hv, h4 i]
        by_cases g1 : cs ≤ i
        · by_cases g2 : i < ce
          · rw [if_pos (by omega), if_pos (by omega), if_pos (by omega)]
            have : i % 8 - (cs - idx * 8) < ce - cs := by omega
            simp only [this, decide_true, Bool.true_and]
            congr 1
            omega
          · have : ¬ i % 8 - (cs - idx * 8) < ce - cs := by omega
            rw [if_pos (by omega), if_neg (by omega), if_neg (by omega), if_neg (by omega)]
            simp [this]
        · rw [if_neg (by omega)]
          by_cases g2 : s ≤ i
          · rw [if_pos (by omega), if_pos (by omega)]
          · rw [if_neg (by omega), if_neg (by omega)]
      · rw [if_neg hi, h4 i]
        by_cases g1 : s ≤ i ∧ i < cs
        · rw [if_pos g1, if_pos (by omega)]
        · rw [if_neg g1, if_neg (by omega)]
  · rintro st ⟨h1, h2, h3, h4⟩
    refine ⟨st.1, rfl, h3, fun i => ?_⟩
    rw [h4 i]
    have : st.2.1 = e := by rw [h1]; omega
    rw [this]

theorem setVecU8Bits_gen {c : Cfg} (bs : List (BitVec 8)) (s e : Nat) (new : List (BitVec 8))
    (f : Nat → Bool) (hle : s ≤ e) (hstop : e ≤ 8 * bs.length) (hfit : e + 7 < 2 ^ c.ptrBits)
    (hcomb : ∀ us n, n ≤ 8 → us + n ≤ e - s → (n = 0 → us = 0) →
      ∃ byte, combinedByte c new us n = .ok byte ∧
        ∀ j, byte.getLsbD j = (decide (j < n) && f (us + j))) :
    ∃ bs', setVecU8Bits c bs ⟨s, e⟩ new = .ok bs' ∧ bs'.length = bs.length ∧
      ∀ i, bitOf bs' i =
        if s ≤ i ∧ i < e then f (i - s) else bitOf bs i :=
  setVecU8Bits_chunks bs s e new f hle hstop hfit fun us n h1 h2 h3 _ => hcomb us n h1 h2 h3

/-- `set_vec_u8_bits` writes the low bits of `new_value` into the range and nothing else. -/
theorem setVecU8Bits_ok {c : Cfg} (bs : List (BitVec 8)) (s e : Nat) (new : List (BitVec 8))
    (hc : c.bigEndian = false) (hle : s ≤ e) (hstop : e ≤ 8 * bs.length)
    (hfit : e + 7 < 2 ^ c.ptrBits) (hnew : 0 < new.length) (hlen : (e - s) ≤ 8 * new.length) :
    ∃ bs', setVecU8Bits c bs ⟨s, e⟩ new = .ok bs' ∧ bs'.length = bs.length ∧
      ∀ i, bitOf bs' i =
        if s ≤ i ∧ i < e then bitOf new (i - s) else bitOf bs i :=
  setVecU8Bits_gen bs s e new (bitOf new) hle hstop hfit fun us n h1 h2 h3 =>
    combinedByte_ok new us n hc hnew h1 (by omega) (by omega)

/-! ## Adding and removing bytes at the low end -/

theorem bitOf_drop (bs : List (BitVec 8)) (n i : Nat) : bitOf (bs.drop n) i = bitOf bs (i + 8 * n) := by
  have h1 : (i + 8 * n) / 8 = n + i / 8 := by omega
  have h2 : (i + 8 * n) % 8 = i % 8 := by omega
  simp [bitOf, List.getD_eq_getElem?_getD, h1, h2]

theorem bitOf_replicate (n i : Nat) : bitOf (List.replicate n 0#8) i = false := by
  simp only [bitOf, List.getD_eq_getElem?_getD, List.getElem?_replicate]
  split <;> simp

theorem bitOf_pad (bs : List (BitVec 8)) (n i : Nat) :
    bitOf (List.replicate n 0#8 ++ bs) i = if i < 8 * n then false else bitOf bs (i - 8 * n) := by
  by_cases h : i < 8 * n
  · have h1 : i / 8 < n := by omega
    simp [bitOf, List.getD_eq_getElem?_getD, h, List.getElem?_append, h1]
  · have h1 : ¬ i / 8 < n := by omega
    have h2 : (i - 8 * n) / 8 = i / 8 - n := by omega
    have h3 : (i - 8 * n) % 8 = i % 8 := by omega
    simp [bitOf, List.getD_eq_getElem?_getD, h, List.getElem?_append, h1, h2, h3]

/-- The mask `!((1 << k) - 1)` on a byte keeps the bits from `k` on. -/
theorem highMask_getLsbD : ∀ k, k < 8 → ∀ j, j < 8 →
    (~~~((1#8 <<< k) - 1#8)).getLsbD j = decide (k ≤ j) := by
  decide +kernel

/-! ## Big-endian targets -/

/-- On a big-endian target the two leading bytes of a `usize` below 8 are its value for a 16-bit
`usize` and zero otherwise. -/
theorem readU16_be {c : Cfg} (hc : c.Supported) (hbe : c.bigEndian = true) {v : Nat} (hv : v < 8) :
    readU16 c (bytesOf c (BitVec.ofNat c.ptrBits v)) 0 =
      .ok (if c.ptrBits = 16 then BitVec.ofNat 16 v else 0#16) := by
  obtain ⟨p, o, b⟩ := c
  simp only at hbe
  subst hbe
  rcases hc with h | h | h <;> simp only at h <;> subst h
  all_goals
    rcases o with _ | _ <;>
    (match v, hv with
    | 0, _ | 1, _ | 2, _ | 3, _ | 4, _ | 5, _ | 6, _ | 7, _ => decide +kernel)

/-- On a big-endian target `set_vec_u8_bits` with a small `usize` writes the value only if `usize` has
16 bits; otherwise it writes zero. -/
theorem combinedByte_be {c : Cfg} (hc : c.Supported) (hbe : c.bigEndian = true) {v : Nat} (hv : v < 8)
    (us n : Nat) (h : us + n ≤ 3) :
    ∃ byte, combinedByte c (bytesOf c (BitVec.ofNat c.ptrBits v)) us n = .ok byte ∧
      ∀ j, byte.getLsbD j = (decide (j < n) && (decide (c.ptrBits = 16) && v.testBit (us + j))) := by
  have hp := hc.le
  have hlen : (bytesOf c (BitVec.ofNat c.ptrBits v)).length = c.ptrBits / 8 := by
    simp [bytesOf, hbe, leBytes_length]
  have hW : 16 ≤ c.ptrBits := by rcases hc with h | h | h <;> omega
  have a1 : us + n < 2 ^ c.ptrBits := by omega
  have a2 : 1 ≤ (bytesOf c (BitVec.ofNat c.ptrBits v)).length := by omega
  have a3 : us / 8 = 0 := by omega
  have a4 : 0 ≠ (bytesOf c (BitVec.ofNat c.ptrBits v)).length - 1 := by omega
  have a5 : 0 * 8 < 2 ^ c.ptrBits := by omega
  have a6 : 0 * 8 ≤ us := by omega
  have a7 : 0 * 8 ≤ us + n := by omega
  obtain ⟨b, hb1, hb2⟩ := intGetBits_ok (c := c)
    (if c.ptrBits = 16 then BitVec.ofNat 16 v else 0#16) (us - 0 * 8) (us + n - 0 * 8)
    (by decide) (by omega) (by omega) (by omega)
  refine ⟨b.setWidth 8, ?_, ?_⟩
  · unfold combinedByte
    simp only [uadd_ok a1, ok_bind, usub_ok a2, a3, a4, if_false, readU16_be hc hbe hv, umul_ok a5,
      usub_ok a6, usub_ok a7, hb1, pure_eq_ok]
  · intro j
    rw [BitVec.getLsbD_setWidth, hb2 j]
    by_cases hj : j < n
    · have e1 : j < us + n - 0 * 8 - (us - 0 * 8) := by omega
      have e2 : j < 8 := by omega
      simp only [e1, e2, hj, decide_true, Bool.true_and]
      by_cases h16 : c.ptrBits = 16
      · rw [if_pos h16, BitVec.getLsbD_ofNat]
        have e3 : us + j < 16 := by omega
        simp [h16, e3]
      · simp [h16]
    · simp [hj]

end MortonRs
