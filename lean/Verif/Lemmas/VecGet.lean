import Verif.Lemmas.Bytes

/-! # `Vec<u8>::get_bits` -/

namespace MortonRs

variable {c : Cfg}

theorem indexSet_ok {α : Type} {xs : List α} {i : Nat} {v : α} (h : i < xs.length) :
    indexSet xs i v = .ok (xs.set i v) := by
  simp [indexSet, h]

theorem lowMask_getLsbD : ∀ k, k < 8 → ∀ j, j < 8 → (0xFF#8 >>> k).getLsbD j = decide (j + k < 8) := by
  decide +kernel

/-- Every bit of a byte vector through its bytes. -/
theorem bitOf_split {bs : List (BitVec 8)} {i : Nat} (h : i / 8 < bs.length) : bitOf bs i = bs[i / 8].getLsbD (i % 8) := by
  rw [bitOf, getD_of_lt h]

theorem bitOf_take_all (bs : List (BitVec 8)) (n i : Nat) : bitOf (bs.take n) i = (decide (i < 8 * n) && bitOf bs i) := by
  unfold bitOf
  by_cases h : i < 8 * n
  · have h1 : i / 8 < n := by omega
    simp [List.getD_eq_getElem?_getD, h, h1]
  · have h1 : ¬ i / 8 < n := by omega
    simp [List.getD_eq_getElem?_getD, List.getElem?_take, h, h1]

/-- State of the copied bytes before step `k`: bytes below `k - 1` are final, byte `k - 1` is shifted but lacks the bits
of byte `k`, the others are untouched. `sh` is the shift, `m` the number of bits kept of the last byte. -/
def GetState (B : List (BitVec 8)) (sh m k : Nat) (bytes : List (BitVec 8)) : Prop :=
  bytes.length = B.length ∧ ∀ i, i < 8 * B.length → bitOf bytes i =
    if k ≤ i / 8 then bitOf B i
    else if i / 8 + 1 = k then
      (decide (i % 8 + sh < 8 ∧ (k = B.length → i % 8 + sh < m)) && bitOf B (i + sh))
    else bitOf B (i + sh)

theorem getState_step {B bytes : List (BitVec 8)} {sh m k : Nat} (hsh : sh < 8) (hm : 0 < m) (hm8 : m ≤ 8)
    (hk : k < B.length) (h : GetState B sh m k bytes) {eb stop : Nat} (hov : eb * 8 < 2 ^ c.ptrBits) (hst : stop ≤ eb * 8)
    (hex : eb * 8 - stop = 8 - m) :
    ∃ bytes', (do
      let bytes ← getBitsCarry c sh k bytes
      let bytes ← getBitsMaskLast c eb stop k bytes
      let b ← shr c (← index bytes k) sh
      indexSet bytes k b : Res (List (BitVec 8))) = .ok bytes' ∧ GetState B sh m (k + 1) bytes' := by
  obtain ⟨hl, hb⟩ := h
  -- the carry into the previous byte
  apply exists_bind (fun b1 : List (BitVec 8) => b1.length = B.length ∧ ∀ i, i < 8 * B.length → bitOf b1 i =
      if k ≤ i / 8 then bitOf B i else bitOf B (i + sh))
  · unfold getBitsCarry
    by_cases hc : k > 0 ∧ sh > 0
    · rw [if_pos hc]
      obtain ⟨hk0, hs0⟩ := hc
      obtain ⟨carry, e1, e2⟩ := intGetBits_ok (c := c) (bytes[k]'(by omega)) 0 sh (by decide) (by omega) (by decide)
        (by decide)
      obtain ⟨prev, f1, f2⟩ := intSetBits_ok (c := c) (bytes[k - 1]'(by omega)) (8 - sh) 8 carry (by decide) (by omega)
        (by omega)
      refine ⟨bytes.set (k - 1) prev, ?_, by simp [hl], fun i hi => ?_⟩
      · rw [index_ok (show k < bytes.length by omega)]
        simp only [ok_bind]
        rw [e1]
        simp only [ok_bind]
        rw [index_ok (show k - 1 < bytes.length by omega)]
        simp only [ok_bind]
        rw [f1]
        simp only [ok_bind]
        exact indexSet_ok (by omega)
      · rw [bitOf_set _ _ (by omega)]
        by_cases hik : i / 8 = k - 1
        · have n1 : ¬ k ≤ i / 8 := by omega
          rw [if_pos hik, if_neg n1, f2 _ (by omega)]
          by_cases hlow : 8 - sh ≤ i % 8
          · rw [if_pos hlow, if_pos (by omega), e2, decide_eq_true (by omega), Bool.true_and]
            have hbk := hb (8 * k + (i % 8 - (8 - sh))) (by omega)
            rw [if_pos (by omega)] at hbk
            rw [Nat.zero_add, ← bitOf_eq_getElem (show k < bytes.length by omega) (by omega), hbk]
            congr 1
            omega
          · rw [if_neg hlow]
            have hbi := hb i hi
            rw [if_neg n1, if_pos (by omega), decide_eq_true (by omega), Bool.true_and] at hbi
            rw [← hbi, bitOf_split (by omega)]
            simp only [hik]
        · rw [if_neg hik, hb i hi]
          by_cases n1 : k ≤ i / 8
          · rw [if_pos n1, if_pos n1]
          · rw [if_neg n1, if_neg n1, if_neg (by omega)]
    · rw [if_neg hc]
      refine ⟨bytes, rfl, hl, fun i hi => ?_⟩
      rw [hb i hi]
      by_cases n1 : k ≤ i / 8
      · rw [if_pos n1, if_pos n1]
      · rw [if_neg n1, if_neg n1]
        have hs0 : sh = 0 := by omega
        subst hs0
        split
        · rw [decide_eq_true (by omega), Bool.true_and]
        · rfl
  · -- masking and shifting byte `k`
    rintro b1 ⟨hl1, hb1⟩
    have hlen : k < b1.length := by omega
    have hbyte : ∀ j, j < 8 → b1[k].getLsbD j = bitOf B (8 * k + j) := by
      intro j hj
      rw [← bitOf_eq_getElem hlen hj, hb1 _ (by omega), if_pos (by omega)]
    apply exists_bind (fun b2 : List (BitVec 8) => b2.length = B.length ∧ ∀ i, i < 8 * B.length → bitOf b2 i =
        if i / 8 = k then (decide (k + 1 = B.length → i % 8 < m) && bitOf B i) else bitOf b1 i)
    · unfold getBitsMaskLast
      by_cases hlast : k = b1.length - 1
      · rw [if_pos hlast, umul_ok hov]
        simp only [ok_bind]
        rw [usub_ok hst, hex]
        refine ⟨b1.set k (b1[k] &&& (0xFF#8 >>> (8 - m))), ?_, by simp [hl1], fun i hi => ?_⟩
        · simp only [ok_bind]
          rw [shr_ok (by omega)]
          simp only [ok_bind]
          rw [index_ok hlen]
          simp only [ok_bind]
          exact indexSet_ok hlen
        · rw [bitOf_set _ _ hlen]
          by_cases hik : i / 8 = k
          · rw [if_pos hik, if_pos hik, BitVec.getLsbD_and, lowMask_getLsbD _ (by omega) _ (by omega), hbyte _ (by omega),
              show 8 * k + i % 8 = i by omega, Bool.and_comm]
            congr 1
            apply decide_eq_decide.mpr
            omega
          · rw [if_neg hik, if_neg hik]
      · rw [if_neg hlast]
        refine ⟨b1, rfl, hl1, fun i hi => ?_⟩
        by_cases hik : i / 8 = k
        · rw [if_pos hik, hb1 i hi, if_pos (by omega), decide_eq_true (by omega), Bool.true_and]
        · rw [if_neg hik]
    · rintro b2 ⟨hl2, hb2⟩
      have hlen2 : k < b2.length := by omega
      refine ⟨b2.set k (b2[k] >>> sh), ?_, by simp [hl2], fun i hi => ?_⟩
      · rw [index_ok hlen2]
        simp only [ok_bind]
        rw [shr_ok (by omega)]
        simp only [ok_bind]
        exact indexSet_ok hlen2
      · rw [bitOf_set _ _ hlen2]
        by_cases hik : i / 8 = k
        · rw [if_pos hik, if_neg (by omega), if_pos (by omega), BitVec.getLsbD_ushiftRight]
          by_cases hj : sh + i % 8 < 8
          · rw [← bitOf_eq_getElem hlen2 hj, hb2 _ (by omega), if_pos (by omega),
              show 8 * k + (sh + i % 8) = i + sh by omega]
            congr 1
            apply decide_eq_decide.mpr
            omega
          · rw [BitVec.getLsbD_of_ge _ _ (by omega), decide_eq_false (by omega), Bool.false_and]
        · rw [if_neg hik, hb2 i hi, if_neg hik, hb1 i hi]
          by_cases n1 : k ≤ i / 8
          · rw [if_pos n1, if_pos (by omega)]
          · rw [if_neg n1, if_neg (by omega), if_neg (by omega)]

/-- Exactly what `get_bits` returns: the bits of the range, and, when the range ends within a byte before the bit
position at which it starts, also the bits behind it that share the last byte of the result. -/
theorem vecGetBits_ok (bs : List (BitVec 8)) (s e : Nat) (hle : s ≤ e) (hstop : e ≤ 8 * bs.length)
    (hfit : e + 7 < 2 ^ c.ptrBits) :
    ∃ r, vecGetBits c bs ⟨s, e⟩ = .ok r ∧ r.length = (e - s + 7) / 8 ∧
      ∀ i, i < 8 * r.length → bitOf r i =
        (decide (i < e - s ∨ (0 < e % 8 ∧ e % 8 < s % 8)) && bitOf bs (s + i)) := by
  have hlen : ¬ ¬ (s / 8 ≤ (e + 7) / 8 ∧ (e + 7) / 8 ≤ bs.length) := by omega
  have a1 : e - s + 7 < 2 ^ c.ptrBits := by omega
  obtain ⟨B, hBdef⟩ : ∃ B, B = (bs.drop (s / 8)).take ((e + 7) / 8 - s / 8) := ⟨_, rfl⟩
  have hBl : B.length = (e + 7) / 8 - s / 8 := by
    simp only [hBdef, List.length_take, List.length_drop]
    omega
  have hB : ∀ i, i < 8 * B.length → bitOf B i = bitOf bs (i + 8 * (s / 8)) := by
    intro i hi
    rw [hBdef, bitOf_take_all, decide_eq_true (by omega), Bool.true_and, bitOf_drop]
  have hm : ∃ m, 0 < m ∧ m ≤ 8 ∧ (e + 7) / 8 * 8 - e = 8 - m ∧ e + 8 = (e + 7) / 8 * 8 + m ∧
      (e % 8 = 0 ∧ m = 8 ∨ e % 8 = m) := by
    by_cases h : e % 8 = 0
    · exact ⟨8, by omega, by omega, by omega, by omega, by omega⟩
    · exact ⟨e % 8, by omega, by omega, by omega, by omega, by omega⟩
  obtain ⟨m, m1, m2, m3, m4, m5⟩ := hm
  unfold vecGetBits
  simp only [Range.len, uadd_ok a1, uadd_ok hfit, ok_bind, hlen, if_false, ← hBdef]
  apply exists_bind (fun r => GetState B (s % 8) m B.length r)
  · apply forRange_invariant (GetState B (s % 8) m) (Nat.zero_le _)
    · exact ⟨rfl, fun i _ => by rw [if_pos (Nat.zero_le _)]⟩
    · intro k bytes _ hk hst
      have hk' : k < B.length := hk
      refine getState_step (Nat.mod_lt _ (by decide)) m1 m2 hk' hst (by omega) (by omega) m3
  · rintro r ⟨hl, hr⟩
    have hfin : ∀ i, i < 8 * B.length → bitOf r i =
        (decide (i / 8 + 1 = B.length → i % 8 + s % 8 < m) && bitOf B (i + s % 8)) := by
      intro i hi
      rw [hr i hi, if_neg (by omega)]
      by_cases h : i / 8 + 1 = B.length
      · rw [if_pos h]
        congr 1
        apply decide_eq_decide.mpr
        omega
      · rw [if_neg h, decide_eq_true (fun h' => absurd h' h), Bool.true_and]
    by_cases hpop : (e + 7) / 8 - s / 8 > (e - s + 7) / 8
    · rw [if_pos hpop]
      refine ⟨_, rfl, by simp only [List.length_dropLast]; omega, fun i hi => ?_⟩
      have hi' : i < 8 * (r.length - 1) := by simpa using hi
      rw [List.dropLast_eq_take, bitOf_take_all, decide_eq_true (by simpa using hi), Bool.true_and, hfin i (by omega),
        decide_eq_true (by omega), Bool.true_and]
      rw [hB _ (by omega), decide_eq_true (by omega), Bool.true_and]
      congr 1
      omega
    · rw [if_neg hpop]
      refine ⟨r, rfl, by omega, fun i hi => ?_⟩
      rw [hfin i (by omega)]
      by_cases hend : i < e - s
      · rw [decide_eq_true (by omega), decide_eq_true (Or.inl hend), Bool.true_and, Bool.true_and, hB _ (by omega)]
        congr 1
        omega
      · rw [decide_eq_false (by omega), decide_eq_false (by omega), Bool.false_and, Bool.false_and]

end MortonRs
