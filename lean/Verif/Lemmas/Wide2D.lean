import Verif.Lemmas.Ops2D

/-! # Dynamic 2D storages with any number of bytes

`Inv` bounds the number of bytes by what the index operations produce; edits through `bits_mut` do not. -/

namespace MortonRs

open BitStorage

namespace DynamicStorage2D

/-- Enough bytes, and an addressable number of them. -/
structure Wide (c : Cfg) (s : DynamicStorage2D) : Prop where
  addr : Addressable c (8 * s.bits.length)
  lo : numBytes s.depth ≤ s.bits.length

theorem Wide.wf {c : Cfg} {s : DynamicStorage2D} (h : Wide c s) : WF c s := by
  obtain ⟨h1, h2⟩ := h
  unfold Addressable at h1
  unfold numBytes at h2
  refine ⟨?_, ?_⟩
  · change 8 * s.bits.length + 15 < _
    omega
  · change s.depth * dim Quadrant ≤ 8 * s.bits.length
    omega

theorem Wide.depth_lt {c : Cfg} {s : DynamicStorage2D} (h : Wide c s) : s.depth + 64 < 2 ^ c.ptrBits := by
  have h1 := h.addr
  have h2 := h.lo
  unfold Addressable at h1
  unfold numBytes at h2
  rw [dim_Quadrant] at h2
  omega

/-- What `ancestor` computes on the bits. -/
theorem wide_ancestor_bits {c : Cfg} {s : DynamicStorage2D} (h : Wide c s)
    (g : NonZeroUsize) (hg : g.val ≤ s.depth) :
    ∃ a, s.ancestor c g = .ok (some a) ∧ a.depth = s.depth - g.val ∧
      a.bits.length + (numBytes s.depth - numBytes a.depth) = s.bits.length ∧
      ∀ i, bitOf a.bits i = (bitOf s.bits (i + 8 * (numBytes s.depth - numBytes a.depth)) &&
        decide (8 * numBytes a.depth - a.depth * dim Quadrant ≤ i)) := by
  have hdl := h.depth_lt
  have hlo := h.lo
  have hnot : ¬ g.val > s.depth := by omega
  have a1 : s.depth + 3 < 2 ^ c.ptrBits := by omega
  have a2 : s.depth - g.val + 3 < 2 ^ c.ptrBits := by omega
  have e1 : (s.depth + 3) / 4 = numBytes s.depth := by unfold numBytes; rw [dim_Quadrant]; omega
  have e2 : (s.depth - g.val + 3) / 4 = numBytes (s.depth - g.val) := by
    unfold numBytes; rw [dim_Quadrant]; omega
  have hmono : numBytes (s.depth - g.val) ≤ numBytes s.depth := by
    unfold numBytes; rw [dim_Quadrant]; omega
  have hlen : (s.bits.drop (numBytes s.depth - numBytes (s.depth - g.val))).length +
      (numBytes s.depth - numBytes (s.depth - g.val)) = s.bits.length := by
    rw [List.length_drop]; omega
  by_cases hm : numBytes (s.depth - g.val) > 0 ∧ (s.depth - g.val) % 4 > 0
  · have a3 : (s.depth - g.val) % 4 ≤ 4 := by omega
    have a4 : (4 - (s.depth - g.val) % 4) * 2 < 2 ^ c.ptrBits := by omega
    have a5 : (4 - (s.depth - g.val) % 4) * 2 < 8 := by omega
    have a6 : 0 < (s.bits.drop (numBytes s.depth - numBytes (s.depth - g.val))).length := by omega
    obtain ⟨b0, nb, m1, m2, m3, m4, m6, m5⟩ := maskFirst_ok (c := c) _ _ a5 a6
    refine ⟨⟨nb, s.depth - g.val⟩, ?_, rfl, by simp only [m6]; exact hlen, ?_⟩
    · simp only [ancestor, hnot, if_false, usub_ok hg, uadd_ok a1, uadd_ok a2, ok_bind, e1, e2, usub_ok hmono,
        hm, and_self, if_true, usub_ok a3, umul_ok a4, m1, m2, m3, m4, pure_eq_ok]
    · intro i
      rw [m5, bitOf_drop]
      congr 2
      have : 8 * numBytes (s.depth - g.val) - (s.depth - g.val) * dim Quadrant =
          (4 - (s.depth - g.val) % 4) * 2 := by
        unfold numBytes; rw [dim_Quadrant]; omega
      simp only [this]
  · refine ⟨⟨s.bits.drop (numBytes s.depth - numBytes (s.depth - g.val)), s.depth - g.val⟩, ?_, rfl,
      hlen, ?_⟩
    · simp only [ancestor, hnot, if_false, usub_ok hg, uadd_ok a1, uadd_ok a2, ok_bind, e1, e2, usub_ok hmono,
        hm, pure_eq_ok]
    · intro i
      rw [bitOf_drop]
      have : 8 * numBytes (s.depth - g.val) - (s.depth - g.val) * dim Quadrant = 0 := by
        unfold numBytes at *; rw [dim_Quadrant] at *; omega
      simp [this]

theorem wide_ancestor {c : Cfg} {s : DynamicStorage2D} (h : Wide c s)
    (g : NonZeroUsize) (hg : g.val ≤ s.depth) :
    ∃ a, s.ancestor c g = .ok (some a) ∧ Wide c a ∧
      path a = (path s).take (s.depth - g.val) := by
  obtain ⟨a, h1, h2, h3, h4⟩ := wide_ancestor_bits h g hg
  have hmul : a.depth * dim Quadrant ≤ s.depth * dim Quadrant := Nat.mul_le_mul_right _ (by omega)
  have hadr := h.addr
  have hlo := h.lo
  have hmono : numBytes a.depth ≤ numBytes s.depth := by unfold numBytes; omega
  have hinv : Wide c a := ⟨by unfold Addressable at *; omega, by omega⟩
  refine ⟨a, h1, hinv, ?_⟩
  · apply path_of_slots
    · rw [List.length_take, path_length]
      change a.depth = min (s.depth - g.val) s.depth
      omega
    · intro k hk
      rw [List.length_take, path_length] at hk
      have hk' : k < a.depth := by omega
      rw [List.getElem_take, path_getElem]
      refine slot_shift (n := 8 * (numBytes s.depth - numBytes a.depth)) ?_ (level_le hinv.wf hk') ?_
      · change 8 * a.bits.length + _ = 8 * s.bits.length
        omega
      · intro i hi
        have hle := level_le hinv.wf hk'
        have hi' : 8 * a.bits.length - (k + 1) * dim Quadrant ≤ i := hi
        have hka : (k + 1) * dim Quadrant ≤ a.depth * dim Quadrant := Nat.mul_le_mul_right _ hk'
        rw [value_testBit, value_testBit, h4 i]
        have : 8 * numBytes a.depth - a.depth * dim Quadrant ≤ i := by omega
        simp [this]

theorem wide_descendant {c : Cfg} (hc : c.Supported) {s : DynamicStorage2D} (h : Wide c s)
    (cs : List Quadrant) (ha : Addressable c (8 * (numBytes (s.depth + cs.length) - numBytes s.depth + s.bits.length))) :
    ∃ a, s.descendant c cs = .ok (some a) ∧ Wide c a ∧
      a.depth = s.depth + cs.length ∧ (DynWrites c → path a = path s ++ cs) := by
  have hlo := h.lo
  have a0 : s.depth + cs.length + 64 < 2 ^ c.ptrBits := by
    unfold Addressable at ha
    unfold numBytes at ha hlo
    rw [dim_Quadrant] at ha hlo
    omega
  have a1 : s.depth + cs.length < 2 ^ c.ptrBits := by omega
  have a2 : s.depth + 3 < 2 ^ c.ptrBits := by omega
  have a3 : s.depth + cs.length + 3 < 2 ^ c.ptrBits := by omega
  have e1 : (s.depth + 3) / 4 = numBytes s.depth := by unfold numBytes; rw [dim_Quadrant]; omega
  have e2 : (s.depth + cs.length + 3) / 4 = numBytes (s.depth + cs.length) := by
    unfold numBytes; rw [dim_Quadrant]; omega
  have hmono : numBytes s.depth ≤ numBytes (s.depth + cs.length) := by
    unfold numBytes; rw [dim_Quadrant]; omega
  let r : DynamicStorage2D :=
    ⟨List.replicate (numBytes (s.depth + cs.length) - numBytes s.depth) 0#8 ++ s.bits, s.depth + cs.length⟩
  have hrlen : r.bits.length = numBytes (s.depth + cs.length) - numBytes s.depth + s.bits.length := by
    simp [r]
  have hr : Wide c r := ⟨by rw [hrlen]; exact ha,
    by rw [hrlen]; change numBytes (s.depth + cs.length) ≤ _; omega⟩
  have hrslot : ∀ k, k < s.depth → slot r k = slot s k := by
    intro k hk
    have hk1 := level_le h.wf (show k < Storage.depth s from hk)
    have hk2 : (k + 1) * dim Quadrant ≤ 8 * s.bits.length := hk1
    refine (slot_shift (n := 8 * (numBytes (s.depth + cs.length) - numBytes s.depth)) ?_ hk1 ?_).symm
    · change 8 * s.bits.length + _ = 8 * r.bits.length
      omega
    · intro i _
      rw [value_testBit, value_testBit, bitOf_pad, if_neg (by omega), Nat.add_sub_cancel]
  have hbody : ∀ i x (t : DynamicStorage2D), i < cs.length →
      (do Storage.setCellAtLevelUnchecked c t (← uadd c s.depth i) x) =
        Storage.setCellAtLevelUnchecked c t (s.depth + i) x := by
    intro i x t hi
    have : s.depth + i < 2 ^ c.ptrBits := by omega
    simp only [uadd_ok this, ok_bind]
  obtain ⟨t, h1, h2, h3, h4, h7⟩ := set_many_total (c := c) hc s.depth cs r hr.wf.fit hr.wf.depth_le
    (fun offset cell ret => do
      Storage.setCellAtLevelUnchecked c ret (← uadd c s.depth offset) cell) hbody
  have hd : t.depth = s.depth + cs.length := h4
  have hlen : t.bits.length = r.bits.length := by
    have : 8 * t.bits.length = 8 * r.bits.length := h3
    omega
  have hrl := hr.lo
  change numBytes (s.depth + cs.length) ≤ _ at hrl
  refine ⟨t, ?_, ⟨by rw [hlen, hrlen]; exact ha, by rw [hd, hlen]; exact hrl⟩, hd, ?_⟩
  · simp only [descendant, uadd_ok a1, uadd_ok a2, uadd_ok a3, ok_bind, e1, e2, usub_ok hmono, pure_eq_ok]
    have h1' := h1
    simp only [r] at h1'
    rw [h1']; rfl
  · intro hwr
    obtain ⟨t', g1, g2, g3, g4, g5, g6, g7⟩ := set_many (c := c) hc
      (fun v => by simp [written, dynWritten, hwr]) s.depth cs r hr.wf.fit hr.wf.depth_le
      (fun offset cell ret => do
        Storage.setCellAtLevelUnchecked c ret (← uadd c s.depth offset) cell) hbody
    have : t' = t := by rw [g1] at h1; exact Except.ok.inj h1
    subst this
    apply path_of_slots
    · rw [List.length_append, path_length]; exact hd
    · intro k hk
      rw [List.length_append, path_length] at hk
      have hk' : k < s.depth + cs.length := hk
      by_cases hks : k < s.depth
      · rw [List.getElem_append_left (by rw [path_length]; exact hks), path_getElem, ← hrslot k hks]
        exact g6 k (level_le hr.wf (by exact hk')) (Or.inl hks)
      · have hle : (path s).length ≤ k := by rw [path_length]; change s.depth ≤ k; omega
        rw [List.getElem_append_right hle]
        have e := g5 (k - s.depth) (by omega)
        rw [show s.depth + (k - s.depth) = k by omega] at e
        simp only [path_length]
        exact e

end DynamicStorage2D

end MortonRs
