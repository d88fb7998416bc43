import Verif.Props.Numbers
import Verif.Lemmas.NoUB

/-! # C76: bit ranges that reach beyond the container

`get_bits` and `set_bits` are `unsafe`: the caller answers for the range. What a wrong range does is still something a
user depends on when looking for the mistake: a byte vector panics before it touches memory behind its end, an
integer reads zeros and drops what does not fit, and debug builds report a range that is too long or a write that starts
behind the last bit. Release builds do not report it and damage other bits, so the claim of C76 that there is no silent
damage is false (`C76_refuted`). -/

namespace MortonRs

/-- A loop whose body works up to the index `k` and faults there faults. -/
theorem forRange_faults {σ : Type} (P : Nat → σ → Prop) {a b k : Nat} {f : Fault} {init : σ} {body : Nat → σ → Res σ}
    (hak : a ≤ k) (hkb : k < b) (h0 : P a init)
    (hstep : ∀ i s, a ≤ i → i < k → P i s → ∃ s', body i s = .ok s' ∧ P (i + 1) s')
    (hlast : ∀ s, P k s → body k s = .error f) : forRange a b init body = .error f := by
  obtain ⟨s', h1, h2⟩ := forRange_invariant P (b := k) hak h0 hstep
  unfold forRange at h1 ⊢
  have hr : List.range' a (b - a) = List.range' a (k - a) ++ (k :: List.range' (k + 1) (b - k - 1)) := by
    rw [show b - a = (k - a) + (b - k - 1 + 1) by omega, ← List.range'_append_1, List.range'_succ,
      show a + (k - a) = k by omega]
  rw [hr, List.foldlM_append]
  rw [h1, ok_bind, List.foldlM_cons, hlast s' h2]
  rfl

/-- On every target `combinedByte` delivers something as long as the chunk starts in the new value. -/
theorem combinedByte_total {c : Cfg} (new : List (BitVec 8)) (us n : Nat) (hn : n ≤ 8)
    (hus : us < 8 * new.length) (hfit : us + n < 2 ^ c.ptrBits) : ∃ byte, combinedByte c new us n = .ok byte := by
  have a5 : us % 8 + n < 2 ^ c.ptrBits := by omega
  have a8 : us / 8 * 8 < 2 ^ c.ptrBits := by omega
  have a9 : us / 8 * 8 ≤ us := by omega
  have a10 : us / 8 * 8 ≤ us + n := by omega
  have a14 : us / 8 < new.length := by omega
  have a15 : 1 ≤ new.length := by omega
  unfold combinedByte
  simp only [uadd_ok hfit, ok_bind, usub_ok a15]
  by_cases hlast : us / 8 = new.length - 1
  · obtain ⟨byte, hb1, -⟩ := intGetBits_ok (c := c) new[us / 8] (us % 8) (us % 8 + n)
      (by decide) (by omega) (by omega) (by omega)
    exact ⟨byte, by rw [if_pos hlast, uadd_ok a5, ok_bind, index_ok a14, ok_bind, hb1]⟩
  · have h1 : us / 8 + 1 < new.length := by omega
    obtain ⟨b, hb1, -⟩ := intGetBits_ok (c := c) (fromNeBytes c 16 [new[us / 8], new[us / 8 + 1]]) (us - us / 8 * 8)
      (us + n - us / 8 * 8) (by decide) (by omega) (by omega) (by omega)
    have ht : readU16 c new (us / 8) = .ok (fromNeBytes c 16 [new[us / 8], new[us / 8 + 1]]) := by
      simp [readU16, a14, h1]
    exact ⟨b.setWidth 8, by simp only [hlast, if_false, ht, ok_bind, umul_ok a8, usub_ok a9, usub_ok a10, hb1, pure_eq_ok]⟩

theorem index_oob {α : Type} {xs : List α} {i : Nat} (h : xs.length ≤ i) : index xs i = .error .indexOutOfBounds := by
  simp [index, Nat.not_lt.mpr h]

/-- **C76**, byte vectors: a read or a write whose range ends behind the last byte panics with an index out of bounds, on
every target and in debug and release builds alike. Missing here: `usize` reads of more bits than a `usize` has
(`C76_vec_usize_reads`: in debug builds the fault can be the overflow), and values with fewer bits than the range
(`C76_vec_first_fault`: these can be undefined behaviour instead). -/
theorem C76_vec_panics_partial {c : Cfg} (hc : c.Supported) (bs : List (BitVec 8)) {s e : Nat} (hse : s < e)
    (hend : 8 * bs.length < e) (hfit : e + 7 < 2 ^ c.ptrBits) :
    Bits.getBits c bs ⟨s, e⟩ = .error .indexOutOfBounds ∧
    (e - s ≤ c.ptrBits → Bits.getBitsAsUsize c bs ⟨s, e⟩ = .error .indexOutOfBounds) ∧
    (∀ new : List (BitVec 8), e - s ≤ 8 * new.length → Bits.setBits c bs ⟨s, e⟩ new = .error .indexOutOfBounds) ∧
    (e - s ≤ c.ptrBits → ∀ v : BitVec c.ptrBits, Bits.setBitsFromUsize c bs ⟨s, e⟩ v = .error .indexOutOfBounds) := by
  have hp : c.ptrBits < 2 ^ 32 ∧ 0 < c.ptrBits ∧ c.ptrBits % 8 = 0 := by rcases hc with h | h | h <;> omega
  have hset : ∀ new : List (BitVec 8), e - s ≤ 8 * new.length →
      setVecU8Bits c bs ⟨s, e⟩ new = .error .indexOutOfBounds := by
    intro new hlen
    unfold setVecU8Bits
    rw [uadd_ok hfit]
    simp only [ok_bind]
    let P : Nat → List (BitVec 8) × Nat × Nat → Prop := fun k st =>
      st.2.1 = max s (min (8 * k) e) ∧ st.2.2 = st.2.1 - s ∧ st.1.length = bs.length
    have hbody : ∀ idx cs us, s / 8 ≤ idx → idx < (e + 7) / 8 → cs = max s (min (8 * idx) e) → us = cs - s →
        ∃ byte, combinedByte c new us (min ((idx + 1) * 8) e - cs) = .ok byte := fun idx cs us h1 h2 h3 h4 =>
      combinedByte_total new us _ (by omega) (by omega) (by omega)
    rw [forRange_faults P (k := max (s / 8) bs.length) (f := .indexOutOfBounds) (by omega) (by omega)
      ⟨by simp only; omega, by simp only; omega, rfl⟩]
    · rfl
    · rintro idx ⟨vec, cs, us⟩ hi1 hi2 ⟨h1, h2, h3⟩
      simp only at h1 h2 h3
      have a1 : idx + 1 < 2 ^ c.ptrBits := by omega
      have a2 : (idx + 1) * 8 < 2 ^ c.ptrBits := by omega
      have a3 : cs ≤ min ((idx + 1) * 8) e := by omega
      have a4 : idx < vec.length := by omega
      obtain ⟨byte, hb⟩ := hbody idx cs us (by omega) (by omega) h1 h2
      generalize hce : min ((idx + 1) * 8) e = ce at *
      have a6 : us + (ce - cs) < 2 ^ c.ptrBits := by omega
      have a11 : idx * 8 < 2 ^ c.ptrBits := by omega
      have a12 : idx * 8 ≤ cs := by omega
      have a13 : idx * 8 ≤ ce := by omega
      obtain ⟨nb, hn1, -⟩ := intSetBits_ok (c := c) vec[idx] (cs - idx * 8) (ce - idx * 8) byte
        (by decide) (by omega) (by omega)
      refine ⟨(vec.set idx nb, ce, us + (ce - cs)), ?_, ?_⟩
      · simp only [uadd_ok a1, umul_ok a2, ok_bind, hce, usub_ok a3, uadd_ok a6, hb,
          index_ok a4, umul_ok a11, usub_ok a12, usub_ok a13, hn1, pure_eq_ok]
      · exact ⟨by simp only; omega, by simp only; omega, by simpa using h3⟩
    · rintro ⟨vec, cs, us⟩ ⟨h1, h2, h3⟩
      simp only at h1 h2 h3
      generalize hidx : max (s / 8) bs.length = idx at *
      have a1 : idx + 1 < 2 ^ c.ptrBits := by omega
      have a2 : (idx + 1) * 8 < 2 ^ c.ptrBits := by omega
      have a3 : cs ≤ min ((idx + 1) * 8) e := by omega
      obtain ⟨byte, hb⟩ := hbody idx cs us (by omega) (by omega) h1 h2
      simp only [uadd_ok a1, umul_ok a2, ok_bind, usub_ok a3, hb, index_oob (show vec.length ≤ idx by omega)]
      rfl
  refine ⟨?_, fun hlen => ?_, hset, fun hlen v => hset _ (by
    have : (bytesOf c v).length = c.ptrBits / 8 := by
      unfold bytesOf; split <;> simp [leBytes_length]
    omega)⟩
  · change vecGetBits c bs ⟨s, e⟩ = _
    unfold vecGetBits
    simp only [Range.len]
    rw [uadd_ok (show e - s + 7 < 2 ^ c.ptrBits by omega), ok_bind, uadd_ok hfit, ok_bind, if_pos (by omega)]
  · change vecGetBitsAsUsize c bs ⟨s, e⟩ = _
    unfold vecGetBitsAsUsize
    rw [uadd_ok hfit]
    simp only [ok_bind]
    let P : Nat → BitVec c.ptrBits × Nat × Nat → Prop := fun k st =>
      st.2.1 = max s (min (8 * k) e) ∧ st.2.2 = st.2.1 - s
    rw [forRange_faults P (k := max (s / 8) bs.length) (f := .indexOutOfBounds) (by omega) (by omega)
      ⟨by simp only; omega, by simp only; omega⟩]
    · rfl
    · rintro idx ⟨ret, cs, us⟩ hi1 hi2 ⟨h1, h2⟩
      simp only at h1 h2
      have a1 : idx + 1 < 2 ^ c.ptrBits := by omega
      have a2 : (idx + 1) * 8 < 2 ^ c.ptrBits := by omega
      have a3 : cs ≤ min ((idx + 1) * 8) e := by omega
      have a4 : idx < bs.length := by omega
      generalize hce : min ((idx + 1) * 8) e = ce at *
      have a5 : cs % 8 + (ce - cs) < 2 ^ c.ptrBits := by omega
      have a6 : us + (ce - cs) < 2 ^ c.ptrBits := by omega
      obtain ⟨byte, hb1, -⟩ := intGetBits_ok (c := c) bs[idx] (cs % 8) (cs % 8 + (ce - cs)) (by decide)
        (by omega) (by omega) (by omega)
      obtain ⟨ret', hr1, -⟩ := intSetBits_ok (c := c) ret us (us + (ce - cs))
        (byte.setWidth c.ptrBits) hp.1 (by omega) (by omega)
      refine ⟨(ret', ce, us + (ce - cs)), ?_, by simp only; omega, by simp only; omega⟩
      simp only [uadd_ok a1, umul_ok a2, ok_bind, hce, usub_ok a3, uadd_ok a5, index_ok a4, hb1,
        uadd_ok a6, hr1, pure_eq_ok]
    · rintro ⟨ret, cs, us⟩ ⟨h1, h2⟩
      simp only at h1 h2
      generalize hidx : max (s / 8) bs.length = idx at *
      have a1 : idx + 1 < 2 ^ c.ptrBits := by omega
      have a2 : (idx + 1) * 8 < 2 ^ c.ptrBits := by omega
      have a3 : cs ≤ min ((idx + 1) * 8) e := by omega
      generalize hce : min ((idx + 1) * 8) e = ce at *
      have a5 : cs % 8 + (ce - cs) < 2 ^ c.ptrBits := by omega
      simp only [uadd_ok a1, umul_ok a2, ok_bind, hce, usub_ok a3, uadd_ok a5, index_oob (show bs.length ≤ idx by omega)]
      rfl

/-- A write of 13 bits into the last three bits of a vector. -/
example : Bits.setBits ⟨64, false, false⟩ [0xFF#8, 0x00#8] ⟨13, 26⟩ [0x21#8, 0xE3#8] = .error .indexOutOfBounds :=
  (C76_vec_panics_partial (c := ⟨64, false, false⟩) (by decide) _ (by decide) (by decide) (by decide)).2.2.1 _ (by decide)
example : Bits.getBitsAsUsize ⟨32, true, true⟩ [0xFF#8, 0x00#8] ⟨13, 17⟩ = .error .indexOutOfBounds :=
  (C76_vec_panics_partial (c := ⟨32, true, true⟩) (by decide) _ (by decide) (by decide) (by decide)).2.1 (by decide)

/-- `combinedByte` behind the end of the new value reads memory it does not own. -/
theorem combinedByte_beyond {c : Cfg} (new : List (BitVec 8)) (us n : Nat) (h0 : 0 < new.length)
    (hus : 8 * new.length ≤ us) (hfit : us + n < 2 ^ c.ptrBits) :
    combinedByte c new us n = .error .undefinedBehaviour := by
  have h1 : ¬ us / 8 = new.length - 1 := by omega
  have h2 : readU16 c new (us / 8) = .error .undefinedBehaviour := by
    unfold readU16
    rw [List.getElem?_eq_none (by omega)]
  unfold combinedByte
  simp only [uadd_ok hfit, ok_bind, usub_ok (show 1 ≤ new.length by omega), if_neg h1, h2]
  rfl

/-- **C76**, the obligation of the caller of the `unsafe` write: for a range inside the vector the write is defined exactly
when the bits for the last byte start inside the new value. A new value with as many bits as the range always
qualifies. -/
theorem C76_vec_short_value {c : Cfg} (bs new : List (BitVec 8)) {s e : Nat} (hse : s < e)
    (hend : e ≤ 8 * bs.length) (hfit : e + 7 < 2 ^ c.ptrBits) (h0 : 0 < new.length) :
    ((e - 1) / 8 * 8 - s < 8 * new.length → ∃ bs', Bits.setBits c bs ⟨s, e⟩ new = .ok bs') ∧
    (8 * new.length ≤ (e - 1) / 8 * 8 - s → Bits.setBits c bs ⟨s, e⟩ new = .error .undefinedBehaviour) := by
  let P : Nat → List (BitVec 8) × Nat × Nat → Prop := fun k st =>
    st.2.1 = max s (min (8 * k) e) ∧ st.2.2 = st.2.1 - s ∧ st.1.length = bs.length
  let body : Nat → List (BitVec 8) × Nat × Nat → Res (List (BitVec 8) × Nat × Nat) :=
    fun self_byte_idx (vec, self_start_bit, new_val_start_bit) => do
      let self_end_bit := min (← umul c (← uadd c self_byte_idx 1) 8) e
      let num_bits_in_chunk ← usub c self_end_bit self_start_bit
      let combined_byte ← combinedByte c new new_val_start_bit num_bits_in_chunk
      let byte ← index vec self_byte_idx
      let lo ← usub c self_start_bit (← umul c self_byte_idx 8)
      let hi ← usub c self_end_bit (← umul c self_byte_idx 8)
      let byte ← intSetBits c byte ⟨lo, hi⟩ combined_byte
      pure (vec.set self_byte_idx byte, self_end_bit, ← uadd c new_val_start_bit num_bits_in_chunk)
  have hunf : Bits.setBits c bs ⟨s, e⟩ new =
      (forRange (s / 8) ((e + 7) / 8) (bs, s, 0) body >>= fun st => .ok st.1) := by
    change setVecU8Bits c bs ⟨s, e⟩ new = _
    unfold setVecU8Bits
    rw [uadd_ok hfit]
    rfl
  have hinit : P (s / 8) (bs, s, 0) := ⟨by simp only; omega, by simp only; omega, rfl⟩
  have hstep : ∀ idx st, s / 8 ≤ idx → idx < (e + 7) / 8 → idx * 8 - s < 8 * new.length → P idx st →
      ∃ st', body idx st = .ok st' ∧ P (idx + 1) st' := by
    rintro idx ⟨vec, cs, us⟩ hi1 hi2 hi3 ⟨h1, h2, h3⟩
    simp only at h1 h2 h3
    have a1 : idx + 1 < 2 ^ c.ptrBits := by omega
    have a2 : (idx + 1) * 8 < 2 ^ c.ptrBits := by omega
    have a3 : cs ≤ min ((idx + 1) * 8) e := by omega
    have a4 : idx < vec.length := by omega
    obtain ⟨byte, hb⟩ := combinedByte_total (c := c) new us (min ((idx + 1) * 8) e - cs) (by omega) (by omega) (by omega)
    generalize hce : min ((idx + 1) * 8) e = ce at *
    have a6 : us + (ce - cs) < 2 ^ c.ptrBits := by omega
    have a11 : idx * 8 < 2 ^ c.ptrBits := by omega
    have a12 : idx * 8 ≤ cs := by omega
    have a13 : idx * 8 ≤ ce := by omega
    obtain ⟨nb, hn1, -⟩ := intSetBits_ok (c := c) vec[idx] (cs - idx * 8) (ce - idx * 8) byte
      (by decide) (by omega) (by omega)
    refine ⟨(vec.set idx nb, ce, us + (ce - cs)), ?_, by simp only; omega, by simp only; omega, by simpa using h3⟩
    simp only [body, uadd_ok a1, umul_ok a2, ok_bind, hce, usub_ok a3, uadd_ok a6, hb,
      index_ok a4, umul_ok a11, usub_ok a12, usub_ok a13, hn1, pure_eq_ok]
  constructor
  · intro hshort
    obtain ⟨st, h1, -⟩ := forRange_invariant P (a := s / 8) (b := (e + 7) / 8) (by omega) hinit
      (fun i st h1 h2 hP => hstep i st h1 h2 (by omega) hP)
    exact ⟨st.1, by rw [hunf, h1]; rfl⟩
  · intro hlong
    rw [hunf, forRange_faults P (k := new.length + (s + 7) / 8) (f := .undefinedBehaviour) (by omega) (by omega) hinit
      (fun i st h1 h2 hP => hstep i st h1 (by omega) (by omega) hP)]
    · rfl
    · rintro ⟨vec, cs, us⟩ ⟨h1, h2, h3⟩
      simp only at h1 h2 h3
      generalize hidx : new.length + (s + 7) / 8 = idx at *
      have a1 : idx + 1 < 2 ^ c.ptrBits := by omega
      have a2 : (idx + 1) * 8 < 2 ^ c.ptrBits := by omega
      have a3 : cs ≤ min ((idx + 1) * 8) e := by omega
      simp only [body, uadd_ok a1, umul_ok a2, ok_bind, usub_ok a3,
        combinedByte_beyond (c := c) new us (min ((idx + 1) * 8) e - cs) h0 (by omega) (by omega)]
      rfl

/-- **C76**, a write behind the end of the vector with a value of any length but zero: it panics if the end of the vector is
reached before the end of the value, and is undefined behaviour otherwise. -/
theorem C76_vec_first_fault {c : Cfg} (bs new : List (BitVec 8)) {s e : Nat} (hse : s < e)
    (hend : 8 * bs.length < e) (hfit : e + 7 < 2 ^ c.ptrBits) (h0 : 0 < new.length) :
    (max (s / 8) bs.length < new.length + (s + 7) / 8 → Bits.setBits c bs ⟨s, e⟩ new = .error .indexOutOfBounds) ∧
    (new.length + (s + 7) / 8 ≤ max (s / 8) bs.length → Bits.setBits c bs ⟨s, e⟩ new = .error .undefinedBehaviour) := by
  let P : Nat → List (BitVec 8) × Nat × Nat → Prop := fun k st =>
    st.2.1 = max s (min (8 * k) e) ∧ st.2.2 = st.2.1 - s ∧ st.1.length = bs.length
  let body : Nat → List (BitVec 8) × Nat × Nat → Res (List (BitVec 8) × Nat × Nat) :=
    fun self_byte_idx (vec, self_start_bit, new_val_start_bit) => do
      let self_end_bit := min (← umul c (← uadd c self_byte_idx 1) 8) e
      let num_bits_in_chunk ← usub c self_end_bit self_start_bit
      let combined_byte ← combinedByte c new new_val_start_bit num_bits_in_chunk
      let byte ← index vec self_byte_idx
      let lo ← usub c self_start_bit (← umul c self_byte_idx 8)
      let hi ← usub c self_end_bit (← umul c self_byte_idx 8)
      let byte ← intSetBits c byte ⟨lo, hi⟩ combined_byte
      pure (vec.set self_byte_idx byte, self_end_bit, ← uadd c new_val_start_bit num_bits_in_chunk)
  have hunf : Bits.setBits c bs ⟨s, e⟩ new =
      (forRange (s / 8) ((e + 7) / 8) (bs, s, 0) body >>= fun st => .ok st.1) := by
    change setVecU8Bits c bs ⟨s, e⟩ new = _
    unfold setVecU8Bits
    rw [uadd_ok hfit]
    rfl
  have hinit : P (s / 8) (bs, s, 0) := ⟨by simp only; omega, by simp only; omega, rfl⟩
  have hstep : ∀ idx st, s / 8 ≤ idx → idx < bs.length → idx * 8 - s < 8 * new.length → P idx st →
      ∃ st', body idx st = .ok st' ∧ P (idx + 1) st' := by
    rintro idx ⟨vec, cs, us⟩ hi1 hi2 hi3 ⟨h1, h2, h3⟩
    simp only at h1 h2 h3
    have a1 : idx + 1 < 2 ^ c.ptrBits := by omega
    have a2 : (idx + 1) * 8 < 2 ^ c.ptrBits := by omega
    have a3 : cs ≤ min ((idx + 1) * 8) e := by omega
    have a4 : idx < vec.length := by omega
    obtain ⟨byte, hb⟩ := combinedByte_total (c := c) new us (min ((idx + 1) * 8) e - cs) (by omega) (by omega) (by omega)
    generalize hce : min ((idx + 1) * 8) e = ce at *
    have a6 : us + (ce - cs) < 2 ^ c.ptrBits := by omega
    have a11 : idx * 8 < 2 ^ c.ptrBits := by omega
    have a12 : idx * 8 ≤ cs := by omega
    have a13 : idx * 8 ≤ ce := by omega
    obtain ⟨nb, hn1, -⟩ := intSetBits_ok (c := c) vec[idx] (cs - idx * 8) (ce - idx * 8) byte
      (by decide) (by omega) (by omega)
    refine ⟨(vec.set idx nb, ce, us + (ce - cs)), ?_, by simp only; omega, by simp only; omega, by simpa using h3⟩
    simp only [body, uadd_ok a1, umul_ok a2, ok_bind, hce, usub_ok a3, uadd_ok a6, hb,
      index_ok a4, umul_ok a11, usub_ok a12, usub_ok a13, hn1, pure_eq_ok]
  constructor
  · intro hshort
    rw [hunf, forRange_faults P (k := max (s / 8) bs.length) (f := .indexOutOfBounds) (by omega) (by omega) hinit
      (fun i st h1 h2 hP => hstep i st h1 (by omega) (by omega) hP)]
    · rfl
    · rintro ⟨vec, cs, us⟩ ⟨h1, h2, h3⟩
      simp only at h1 h2 h3
      generalize hidx : max (s / 8) bs.length = idx at *
      have a1 : idx + 1 < 2 ^ c.ptrBits := by omega
      have a2 : (idx + 1) * 8 < 2 ^ c.ptrBits := by omega
      have a3 : cs ≤ min ((idx + 1) * 8) e := by omega
      obtain ⟨byte, hb⟩ := combinedByte_total (c := c) new us (min ((idx + 1) * 8) e - cs) (by omega) (by omega) (by omega)
      simp only [body, uadd_ok a1, umul_ok a2, ok_bind, usub_ok a3, hb, index_oob (show vec.length ≤ idx by omega)]
      rfl
  · intro hlong
    rw [hunf, forRange_faults P (k := new.length + (s + 7) / 8) (f := .undefinedBehaviour) (by omega) (by omega) hinit
      (fun i st h1 h2 hP => hstep i st h1 (by omega) (by omega) hP)]
    · rfl
    · rintro ⟨vec, cs, us⟩ ⟨h1, h2, h3⟩
      simp only at h1 h2 h3
      generalize hidx : new.length + (s + 7) / 8 = idx at *
      have a1 : idx + 1 < 2 ^ c.ptrBits := by omega
      have a2 : (idx + 1) * 8 < 2 ^ c.ptrBits := by omega
      have a3 : cs ≤ min ((idx + 1) * 8) e := by omega
      simp only [body, uadd_ok a1, umul_ok a2, ok_bind, usub_ok a3,
        combinedByte_beyond (c := c) new us (min ((idx + 1) * 8) e - cs) h0 (by omega) (by omega)]
      rfl

example : Bits.setBits ⟨64, false, false⟩ [0#8, 0#8, 0#8] ⟨0, 40⟩ [0xFF#8] = .error .undefinedBehaviour :=
  (C76_vec_first_fault (c := ⟨64, false, false⟩) _ _ (by decide) (by decide) (by decide) (by decide)).2 (by decide)
example : Bits.setBits ⟨64, false, false⟩ [0#8] ⟨4, 40⟩ [0xFF#8] = .error .indexOutOfBounds :=
  (C76_vec_first_fault (c := ⟨64, false, false⟩) _ _ (by decide) (by decide) (by decide) (by decide)).1 (by decide)

/-- Eleven bits from one byte: the first byte takes three, the second five and zeros, so nothing is read behind the
byte; nineteen bits are too many. -/
example : ∃ bs', Bits.setBits ⟨64, true, false⟩ [0#8, 0#8, 0#8] ⟨5, 16⟩ [0xFF#8] = .ok bs' :=
  (C76_vec_short_value (c := ⟨64, true, false⟩) _ _ (by decide) (by decide) (by decide) (by decide)).1 (by decide)
example : Bits.setBits ⟨64, true, false⟩ [0#8, 0#8, 0#8] ⟨5, 24⟩ [0xFF#8] = .error .undefinedBehaviour :=
  (C76_vec_short_value (c := ⟨64, true, false⟩) _ _ (by decide) (by decide) (by decide) (by decide)).2 (by decide)

/-- **C76**, reading integers: bits behind the last one read as zero; a range longer than the word panics in debug
builds. Missing: longer ranges in release builds, which read zero even inside the word (`C76_release_builds`), and starts of
`2 ^ w` or more (`C76_start_wraps`). -/
theorem C76_integer_reads_partial {w : Nat} (hw : IntWidth w) (c : Cfg) (x : BitVec w) {s e : Nat} (hsw : s < 2 ^ w)
    (hs32 : s < 2 ^ 32) :
    (e - s ≤ w → (∃ y, Bits.getBits c x ⟨s, e⟩ = .ok y ∧ y.toNat = bitsIn s e x.toNat) ∧
      (w ≤ s → Bits.getBits c x ⟨s, e⟩ = .ok 0#w)) ∧
    (w < e - s → c.overflowChecks = true → Bits.getBits c x ⟨s, e⟩ = .error .overflow) := by
  constructor
  · intro hlen
    obtain ⟨y, e1, e2⟩ := intGetBits_ok (c := c) x s e hw.lt32 hlen hsw hs32
    have h0 : w ≤ s → y = 0#w := fun hws => by
      apply BitVec.eq_of_getLsbD_eq
      intro i hi
      rw [e2, BitVec.getLsbD_of_ge x _ (by omega), Bool.and_false, BitVec.getLsbD_zero]
    exact ⟨⟨y, e1, toNat_eq_bitsIn e2⟩, fun hws => by rw [← h0 hws]; exact e1⟩
  · intro hlen ho
    change intGetBits c x ⟨s, e⟩ = _
    unfold intGetBits
    simp only [usub, Range.len, ho, if_neg (show ¬ e - s ≤ w by omega), if_true]
    rfl

/-- **C76**, writing integers: what does not fit is dropped and nothing else changes; a write that starts behind the last bit
or a range longer than the word panics in debug builds. Missing: release builds in these two cases, where other bits are
overwritten (`C76_release_builds`). -/
theorem C76_integer_writes_partial {w : Nat} (hw : IntWidth w) (c : Cfg) (x v : BitVec w) {s e : Nat} :
    (s < w → w ≤ e → e - s ≤ w → ∃ y, Bits.setBits c x ⟨s, e⟩ v = .ok y ∧ y.toNat % 2 ^ s = x.toNat % 2 ^ s ∧
      y.toNat / 2 ^ s = v.toNat % 2 ^ (w - s)) ∧
    (c.overflowChecks = true → w ≤ s → s < 2 ^ w → Bits.setBits c x ⟨s, e⟩ v = .error .overflow) ∧
    (c.overflowChecks = true → w < e - s → Bits.setBits c x ⟨s, e⟩ v = .error .overflow) := by
  refine ⟨fun hs he hlen => ?_, fun ho hs hsw => ?_, fun ho hlen => ?_⟩
  · obtain ⟨y, e1, e2⟩ := intSetBits_ok (c := c) x s e v hw.lt32 hlen hs
    have e3 : ∀ i, y.toNat.testBit i = if i < w then (if s ≤ i then v.toNat.testBit (i - s) else x.toNat.testBit i)
        else false := by
      intro i
      change y.getLsbD i = _
      by_cases hi : i < w
      · rw [if_pos hi, e2 i hi]
        by_cases h1 : s ≤ i
        · rw [if_pos h1, if_pos h1, if_pos (by omega)]; rfl
        · rw [if_neg h1, if_neg h1]; rfl
      · rw [if_neg hi, BitVec.getLsbD_of_ge y i (by omega)]
    refine ⟨y, e1, ?_, ?_⟩
    · apply Nat.eq_of_testBit_eq
      intro i
      rw [Nat.testBit_mod_two_pow, Nat.testBit_mod_two_pow, e3]
      by_cases hi : i < s
      · rw [if_pos (by omega), if_neg (by omega)]
      · rw [decide_eq_false hi, Bool.false_and, Bool.false_and]
    · apply Nat.eq_of_testBit_eq
      intro i
      rw [Nat.testBit_mod_two_pow, Nat.testBit_div_two_pow, e3]
      by_cases hi : i < w - s
      · rw [if_pos (by omega), if_pos (by omega), decide_eq_true hi, Bool.true_and, Nat.add_sub_cancel]
      · rw [if_neg (by omega), decide_eq_false hi, Bool.false_and]
  · change intSetBits c x ⟨s, e⟩ v = _
    unfold intSetBits
    by_cases hlen : e - s ≤ w
    · simp only [usub, Range.len, if_pos hlen, ok_bind, Nat.mod_eq_of_lt hsw, shl, if_neg (show ¬ s < w by omega), ho,
        if_true]
      rfl
    · simp only [usub, Range.len, if_neg hlen, ho, if_true]
      rfl
  · change intSetBits c x ⟨s, e⟩ v = _
    unfold intSetBits
    simp only [usub, Range.len, ho, if_neg (show ¬ e - s ≤ w by omega), if_true]
    rfl

example (c : Cfg) : ∃ y, Bits.getBits c 0xA5#8 ⟨6, 11⟩ = .ok y ∧ y.toNat = 2 :=
  ((C76_integer_reads_partial (w := 8) (by decide) c 0xA5#8 (s := 6) (e := 11) (by decide) (by decide)).1 (by decide)).1
example (c : Cfg) : Bits.getBits c 0xA5#8 ⟨9, 11⟩ = .ok 0#8 :=
  ((C76_integer_reads_partial (w := 8) (by decide) c 0xA5#8 (s := 9) (e := 11) (by decide) (by decide)).1 (by decide)).2 (by decide)
example (c : Cfg) : ∃ y, Bits.setBits c 0x05#8 ⟨6, 11⟩ 0x1E#8 = .ok y ∧ y.toNat % 64 = 5 ∧ y.toNat / 64 = 2 :=
  (C76_integer_writes_partial (w := 8) (by decide) c 0x05#8 0x1E#8 (s := 6) (e := 11)).1 (by decide) (by decide) (by decide)

/-- In release builds the shift is taken modulo the width. -/
theorem shl_mod_release {c : Cfg} (ho : c.overflowChecks = false) {w : Nat} (x : BitVec w) (s : Nat) :
    shl c x s = .ok (x <<< (s % w)) := by
  unfold shl
  by_cases h : s < w
  · rw [if_pos h, Nat.mod_eq_of_lt h]
  · simp only [if_neg h, ho]; rfl

theorem IntWidth.dvd_pow {w : Nat} (hw : IntWidth w) : w ∣ 2 ^ w := by
  rcases hw with rfl | rfl | rfl | rfl | rfl <;> decide

/-- **C76**, release builds: a write that starts behind the last bit of an integer goes to the bits at the start modulo the
width; with a range longer than the word nothing is cleared (the value is or-ed in) and reads give zero. -/
theorem C76_release_builds {w : Nat} (hw : IntWidth w) {c : Cfg} (hc : c.Supported) (ho : c.overflowChecks = false)
    (x v : BitVec w) (s e : Nat) :
    (e - s ≤ w → Bits.setBits c x ⟨s, e⟩ v = Bits.setBits c x ⟨s % w, s % w + (e - s)⟩ v) ∧
    (w < e - s → e - s ≤ 2 ^ 32 → e < 2 ^ c.ptrBits →
      Bits.setBits c x ⟨s, e⟩ v = .ok (x ||| (v <<< (s % w))) ∧ Bits.getBits c x ⟨s, e⟩ = .ok 0#w) := by
  have hwp := hw.pos
  have hsh : ∀ t, t % 2 ^ w % w = t % w := fun t => Nat.mod_mod_of_dvd t hw.dvd_pow
  constructor
  · intro hlen
    change intSetBits c x ⟨s, e⟩ v = intSetBits c x ⟨s % w, s % w + (e - s)⟩ v
    unfold intSetBits
    simp only [Range.len, Nat.add_sub_cancel_left, shl_mod_release ho, hsh, Nat.mod_mod]
  · intro hlen h32 he
    have hw128 := hw.le
    have hk : usub c w (e - s) = .ok (2 ^ c.ptrBits + w - (e - s)) := by
      unfold usub
      rw [if_neg (by omega), ho, Nat.mod_eq_of_lt (by omega)]
      rfl
    have hmask : checkedShr (~~~(0#w)) ((2 ^ c.ptrBits + w - (e - s)) % 2 ^ 32) = none := by
      unfold checkedShr
      rw [if_neg]
      rcases hc with h | h | h <;> rw [h] at he ⊢ <;> omega
    constructor
    · change intSetBits c x ⟨s, e⟩ v = _
      unfold intSetBits
      simp only [Range.len, hk, ok_bind, hmask, Option.getD_none, shl_mod_release ho, hsh, pure_eq_ok, BitVec.zero_shiftLeft]
      congr 1
      simp
    · change intGetBits c x ⟨s, e⟩ = _
      unfold intGetBits
      simp only [Range.len, hk, ok_bind, hmask, Option.getD_none, pure_eq_ok, BitVec.and_zero]

/-- Bits 0 and 1 are overwritten by a write to bits 8 and 9 of a byte. -/
example : Bits.setBits ⟨64, false, false⟩ 0xFF#8 ⟨8, 10⟩ 0#8 = Bits.setBits ⟨64, false, false⟩ 0xFF#8 ⟨0, 2⟩ 0#8 :=
  (C76_release_builds (w := 8) (c := ⟨64, false, false⟩) (by decide) (by decide) rfl _ _ 8 10).1 (by decide)
example : Bits.getBits ⟨64, false, false⟩ 0xF0#8 ⟨0, 20⟩ = .ok 0#8 :=
  ((C76_release_builds (w := 8) (c := ⟨64, false, false⟩) (by decide) (by decide) rfl _ 0#8 0 20).2 (by decide) (by decide)
    (by decide)).2

/-- **C76** is false in release builds on every target: `0xFFu8.set_bits(8..10, 0)` clears bits 0 and 1, which are not in the
range, and `0xF0u8.get_bits(0..20)` is zero. -/
theorem C76_refuted {c : Cfg} (hc : c.Supported) (ho : c.overflowChecks = false) :
    (¬ ∀ (x v : BitVec 8) (s e : Nat), 8 ≤ s → s < e → ∀ y, Bits.setBits c x ⟨s, e⟩ v = .ok y → y = x) ∧
    (¬ ∀ (x : BitVec 8) (s e : Nat), s < e → ∀ y, Bits.getBits c x ⟨s, e⟩ = .ok y → ∀ i, s + i < e → i < 8 →
      y.getLsbD i = x.getLsbD (s + i)) := by
  constructor
  · intro h
    obtain ⟨y, h1, h2, h3⟩ := C36_set_bits_stays_in_range_partial (w := 8) (by decide) c 0xFF#8 (s := 0) (e := 2) (by decide)
      (by decide) (by decide) 0#8
    have h4 := (C76_release_builds (w := 8) (by decide) hc ho 0xFF#8 0#8 8 10).1 (by decide)
    have h5 : y = 0xFF#8 := h 0xFF#8 0#8 8 10 (by decide) (by decide) y (h4.trans h1)
    rw [h5] at h3
    exact absurd h3.1 (by decide)
  · intro h
    have h4 := ((C76_release_builds (w := 8) (by decide) hc ho 0xF0#8 0#8 0 20).2 (by decide) (by decide)
      (by rcases hc with h | h | h <;> rw [h] <;> decide)).2
    exact absurd (h 0xF0#8 0 20 (by decide) _ h4 4 (by decide) (by decide)) (by decide)

/-- The limit `s < 2 ^ w` of `C76_integer_reads_partial` is needed: the start of the range is cast to the integer type, so bit 256 of a
`u8` is read as bit 0 instead of zero. -/
theorem C76_start_wraps (c : Cfg) : Bits.getBits c 1#8 ⟨256, 257⟩ = .ok 1#8 := by
  obtain ⟨p, o, b⟩ := c
  cases o <;> rfl

end MortonRs
