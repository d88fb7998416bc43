import Verif.Lemmas.Reach2D
import Verif.Lemmas.Reach3D

/-! # What navigation does to the bits behind the last cell -/

namespace MortonRs

open BitStorage

section generic
variable {S Cell : Type} [LawfulDim Cell] [Storage S Cell] [BitStorage S Cell]

/-- Same slots at the levels `a..b` and same bits below them: same bits below level `a`. -/
theorem sameBelow_of_slots {s t : S} (hw : width s = width t) {a b : Nat} (hb : b * dim Cell ≤ width s)
    (h : ∀ l, a ≤ l → l < b → slot s l = slot t l) (h0 : SameBelow (width s - b * dim Cell) s t) :
    SameBelow (width s - a * dim Cell) s t := by
  intro i hi
  by_cases h1 : i < width s - b * dim Cell
  · exact h0 i h1
  · obtain ⟨k, j, h2, h3, h4, h5⟩ := exists_level (dim_pos Cell) hb (by omega) hi
    have e := digit_eq_iff.mp (slot_eq_iff.mp (h k h2 h3)) j h4
    rw [← hw, ← h5] at e
    exact e

theorem value_eq_of_sameBelow {s t : S} (hw : width s = width t) (h : SameBelow (width s) s t) : value s = value t := by
  apply Nat.eq_of_testBit_eq
  intro i
  by_cases hi : i < width s
  · exact h i hi
  · rw [Nat.testBit_lt_two_pow (Nat.lt_of_lt_of_le (value_lt s) (Nat.pow_le_pow_right (by decide) (by omega))),
      Nat.testBit_lt_two_pow (Nat.lt_of_lt_of_le (value_lt t) (Nat.pow_le_pow_right (by decide) (by omega)))]

/-- Two storages of the same width hold the same number exactly if they have the same cell at every level up to their capacity
and the same remaining bits. -/
theorem value_eq_iff_slots {s t : S} (hw : width s = width t) :
    value s = value t ↔ (∀ l, l < width s / dim Cell → slot s l = slot t l) ∧
      value s % 2 ^ (width s % dim Cell) = value t % 2 ^ (width s % dim Cell) := by
  constructor
  · intro h
    exact ⟨fun l _ => by rw [slot, slot, h, hw], by rw [h]⟩
  · rintro ⟨h1, h2⟩
    apply value_eq_of_sameBelow hw
    have hd := Nat.div_add_mod (width s) (dim Cell)
    rw [Nat.mul_comm] at hd
    have := sameBelow_of_slots (a := 0) (b := width s / dim Cell) hw (Nat.div_mul_le_self _ _) (fun l _ hl => h1 l hl)
      (fun i hi => by
        have e := congrArg (fun n => n.testBit i) h2
        simp only [Nat.testBit_mod_two_pow, decide_eq_true (show i < width s % dim Cell by omega), Bool.true_and] at e
        exact e)
    rwa [Nat.zero_mul, Nat.sub_zero] at this

end generic

/-! ## Static, 3D -/

namespace StaticStorage3D
variable {w : Nat}

theorem ancestor_slots {c : Cfg} (hc : c.Supported) {s a : StaticStorage3D w} (h : WF c s) {g : NonZeroUsize}
    (e : s.ancestor c g = .ok (some a)) :
    g.val ≤ s.depth ∧ a.depth = s.depth - g.val ∧ (∀ k, s.depth - g.val ≤ k → k < s.depth → slot a k = .Zero) ∧
      (∀ k, (k + 1) * 3 ≤ w → (k < s.depth - g.val ∨ s.depth ≤ k) → slot a k = slot s k) ∧
      SameBelow (w - s.depth * 3) a s := by
  by_cases hg : g.val ≤ s.depth
  · have hw : IntWidth w := h.fit
    have hdep := (wf_iff hw s).mp h
    have h256 := depth_small hw hdep
    have hnot : ¬ g.val > s.depth := by omega
    have h8 : asU8 g.val = g.val := Nat.mod_eq_of_lt (by omega)
    obtain ⟨t, h1, h2, h3, h4, h5, h6, h7⟩ := set_range (c := c) hc (s.depth - g.val) s.depth
      (fun _ => Octant.Zero) (by omega) s hw h.depth_le
      (fun level ret => Storage.setCellAtLevelUnchecked c ret level Octant.Zero) (fun _ _ _ _ _ => rfl)
    have : s.ancestor c g = .ok (some ⟨t.bits, s.depth - g.val⟩) := by
      simp only [ancestor, hnot, if_false, h8, u8sub_ok hg, ok_bind, h1, pure_eq_ok]
    rw [e] at this
    cases this
    exact ⟨hg, rfl, h5, h6, h7⟩
  · rw [ancestor_none s g (by omega)] at e
    cases e

theorem descendant_slots {c : Cfg} (hc : c.Supported) {s a : StaticStorage3D w} (h : WF c s) {cs : List Octant}
    (hn : s.depth + cs.length ≤ w / dim Octant) (e : s.descendant c cs = .ok (some a)) :
    a.depth = s.depth + cs.length ∧ (∀ k (hk : k < cs.length), slot a (s.depth + k) = cs[k]) ∧
      (∀ k, (k + 1) * 3 ≤ w → (k < s.depth ∨ s.depth + cs.length ≤ k) → slot a k = slot s k) ∧
      SameBelow (w - (s.depth + cs.length) * 3) a s := by
  have hw : IntWidth w := h.fit
  have hp := hc.le
  have h256 := depth_small hw hn
  have hwd := Nat.div_mul_le_self w (dim Octant)
  have hnot : ¬ s.depth + cs.length > StaticStorage.MAX_LEVELS w Octant := by
    change ¬ s.depth + cs.length > w / dim Octant; omega
  have h8 : asU8 (s.depth + cs.length) = s.depth + cs.length := Nat.mod_eq_of_lt (by omega)
  have hmul : (s.depth + cs.length) * dim Octant ≤ w / dim Octant * dim Octant :=
    Nat.mul_le_mul_right _ hn
  obtain ⟨t, h1, h2, h3, h4, h5, h6, h7⟩ := set_many (c := c) hc (fun _ => rfl) s.depth cs
    s hw (Nat.le_trans hmul hwd)
    (fun offset cell ret => do
      Storage.setCellAtLevelUnchecked c ret (← uadd c s.depth offset) cell)
    (fun i x t hi => by
      have : s.depth + i < 2 ^ c.ptrBits := by omega
      simp only [uadd_ok this, ok_bind])
  have a1 : s.depth + cs.length < 2 ^ c.ptrBits := by omega
  have : s.descendant c cs = .ok (some ⟨t.bits, s.depth + cs.length⟩) := by
    simp only [descendant, uadd_ok a1, hnot, if_false, ok_bind, h1, pure_eq_ok, h8]
  rw [e] at this
  cases this
  exact ⟨rfl, h5, h6, h7⟩

end StaticStorage3D

/-! ## Dynamic -/

namespace DynamicStorage3D

/-- An ancestor of a storage without a spare byte has zero bits behind its last cell. -/
theorem ancestor_canon {c : Cfg} {s a : DynamicStorage3D} (h : Inv c s) (hl : s.bits.length = numBytes s.depth)
    {g : NonZeroUsize} (e : s.ancestor c g = .ok (some a)) : Canon c a := by
  by_cases hg : g.val ≤ s.depth
  · obtain ⟨b, h1, h2, h3, h4⟩ := ancestor_bits h g hg
    rw [e] at h1
    cases h1
    have hmul : a.depth * dim Octant ≤ s.depth * dim Octant := Nat.mul_le_mul_right _ (by omega)
    have hmono : numBytes a.depth ≤ numBytes s.depth := by unfold numBytes; omega
    have hadr := h.addr
    have hlen : a.bits.length = numBytes a.depth := by omega
    refine ⟨by unfold Addressable at *; omega, hlen, fun i hi => ?_⟩
    have hi' : i < 8 * a.bits.length - a.depth * dim Octant := hi
    have : ¬ 8 * numBytes a.depth - a.depth * dim Octant ≤ i := by omega
    rw [value_testBit, h4 i]
    simp [this]
  · rw [ancestor_none s g (by omega)] at e
    cases e

/-- A descendant of a storage without a spare byte has none either. -/
theorem descendant_len {c : Cfg} (hc : c.Supported) {s a : DynamicStorage3D} (h : Inv c s) (hl : s.bits.length = numBytes s.depth)
    {cs : List Octant} (ha : Addressable c ((s.depth + cs.length) * 3)) (e : s.descendant c cs = .ok (some a)) :
    a.bits.length = numBytes a.depth := by
  obtain ⟨a', g1, -, -, gd, -⟩ := descendant_some hc h cs ha
  rw [e] at g1
  cases g1
  rw [gd]
  have a0 : (s.depth + cs.length) * 3 + 64 < 2 ^ c.ptrBits := ha
  have a1 : s.depth + cs.length < 2 ^ c.ptrBits := by omega
  have a2' : s.depth * 3 < 2 ^ c.ptrBits := by omega
  have a3' : (s.depth + cs.length) * 3 < 2 ^ c.ptrBits := by omega
  have a2 : s.depth * 3 + 7 < 2 ^ c.ptrBits := by omega
  have a3 : (s.depth + cs.length) * 3 + 7 < 2 ^ c.ptrBits := by omega
  have e1 : (s.depth * 3 + 7) / 8 = numBytes s.depth := rfl
  have e2 : ((s.depth + cs.length) * 3 + 7) / 8 = numBytes (s.depth + cs.length) := rfl
  have hmono : numBytes s.depth ≤ numBytes (s.depth + cs.length) := by
    unfold numBytes; rw [dim_Octant]; omega
  let r : DynamicStorage3D :=
    ⟨List.replicate (numBytes (s.depth + cs.length) - numBytes s.depth) 0#8 ++ s.bits, s.depth + cs.length⟩
  have hrlen : r.bits.length = numBytes (s.depth + cs.length) := by
    simp [r]
    omega
  have hr : Inv c r := ⟨ha, Nat.le_of_eq hrlen.symm, by rw [hrlen]; exact Nat.le_succ _⟩
  have hbody : ∀ i x (t : DynamicStorage3D), i < cs.length →
      (do Storage.setCellAtLevelUnchecked c t (← uadd c s.depth i) x) =
        Storage.setCellAtLevelUnchecked c t (s.depth + i) x := by
    intro i x t hi
    have : s.depth + i < 2 ^ c.ptrBits := by omega
    simp only [uadd_ok this, ok_bind]
  obtain ⟨t, h1, h2, h3, h4, h7⟩ := set_many_total (c := c) hc s.depth cs r hr.wf.fit hr.wf.depth_le
    (fun offset cell ret => do
      Storage.setCellAtLevelUnchecked c ret (← uadd c s.depth offset) cell) hbody
  have hlen : t.bits.length = r.bits.length := by
    have : 8 * t.bits.length = 8 * r.bits.length := h3
    omega
  have : s.descendant c cs = .ok (some t) := by
    simp only [descendant, uadd_ok a1, umul_ok a2', umul_ok a3', uadd_ok a2, uadd_ok a3, ok_bind, e1, e2, usub_ok hmono, pure_eq_ok]
    have h1' := h1
    simp only [r] at h1'
    rw [h1']; rfl
  rw [e] at this
  cases this
  rw [hlen, hrlen]

end DynamicStorage3D

section reach
open MortonIndex VariableDepthMortonIndex
variable {c : Cfg} {sc : Scope}

theorem storage_ancestor3 {S : Type} [VariableDepthStorage S Octant] {m a : MortonIndex3D S} {g : NonZeroUsize}
    (e : ancestor c m g = .ok (some a)) : VariableDepthStorage.ancestor c m.storage g = .ok (some a.storage) := by
  change (VariableDepthStorage.ancestor c m.storage g >>= fun r => pure (r.map MortonIndex3D.mk)) = _ at e
  cases h : VariableDepthStorage.ancestor c m.storage g with
  | error x => rw [h] at e; cases e
  | ok r =>
    rw [h] at e
    cases r with
    | none => cases e
    | some t => cases e; rfl

theorem storage_descendant3 {S : Type} [VariableDepthStorage S Octant] {m a : MortonIndex3D S} {cs : List Octant}
    (e : descendant c m cs = .ok (some a)) : VariableDepthStorage.descendant c m.storage cs = .ok (some a.storage) := by
  change (VariableDepthStorage.descendant c m.storage cs >>= fun r => pure (r.map MortonIndex3D.mk)) = _ at e
  cases h : VariableDepthStorage.descendant c m.storage cs with
  | error x => rw [h] at e; cases e
  | ok r =>
    rw [h] at e
    cases r with
    | none => cases e
    | some t => cases e; rfl

theorem storage_ancestor2 {S : Type} [VariableDepthStorage S Quadrant] {m a : MortonIndex2D S} {g : NonZeroUsize}
    (e : ancestor c m g = .ok (some a)) : VariableDepthStorage.ancestor c m.storage g = .ok (some a.storage) := by
  change (VariableDepthStorage.ancestor c m.storage g >>= fun r => pure (r.map MortonIndex2D.mk)) = _ at e
  cases h : VariableDepthStorage.ancestor c m.storage g with
  | error x => rw [h] at e; cases e
  | ok r =>
    rw [h] at e
    cases r with
    | none => cases e
    | some t => cases e; rfl

theorem storage_descendant2 {S : Type} [VariableDepthStorage S Quadrant] {m a : MortonIndex2D S} {cs : List Quadrant}
    (e : descendant c m cs = .ok (some a)) : VariableDepthStorage.descendant c m.storage cs = .ok (some a.storage) := by
  change (VariableDepthStorage.descendant c m.storage cs >>= fun r => pure (r.map MortonIndex2D.mk)) = _ at e
  cases h : VariableDepthStorage.descendant c m.storage cs with
  | error x => rw [h] at e; cases e
  | ok r =>
    rw [h] at e
    cases r with
    | none => cases e
    | some t => cases e; rfl

/-- A dynamic 3D index never has a spare byte. -/
def NoSpare3 : AnyIndex3D → Prop
  | .dynamic m => m.storage.bits.length = DynamicStorage3D.numBytes m.storage.depth
  | _ => True

theorem NoSpare3.same {m m' : MortonIndex3D DynamicStorage3D} (h : NoSpare3 (.dynamic m)) (hw : width m'.storage = width m.storage)
    (hd : Storage.depth m'.storage = Storage.depth m.storage) : NoSpare3 (.dynamic m') := by
  have h1 : 8 * m'.storage.bits.length = 8 * m.storage.bits.length := hw
  have h2 : m'.storage.depth = m.storage.depth := hd
  change m'.storage.bits.length = DynamicStorage3D.numBytes m'.storage.depth
  rw [h2, ← h]
  omega

theorem reach3D_noSpare (hc : c.Supported) {i : AnyIndex3D} (h : Reach3D c sc i) : NoSpare3 i := by
  induction h with
  | dynamicDefault => rfl
  | dynamicTryFromSlice ha e =>
    obtain ⟨_, h1, -, -, h2, -⟩ := MortonIndex3D.dynamic_tryFrom hc ha
    rw [e] at h1; cases h1
    exact h2.len
  | dynamicTryFromArray ha e =>
    obtain ⟨_, -, h1, -, h2, -⟩ := MortonIndex3D.dynamic_tryFrom hc ha
    rw [e] at h1; cases h1
    exact h2.len
  | @dynamicFromGrid g d o m e =>
    by_cases hd : d ≤ c.ptrBits / 2
    · obtain ⟨_, h1, -, h2, -⟩ := MortonIndex3D.dynamicFromGridIndex_ok hc g d hd o
      rw [e] at h1; cases h1
      exact h2.len
    · rw [MortonIndex3D.dynamicFromGridIndex_panic _ _ (by omega)] at e; simp at e
  | dynamicZeroed ha e =>
    obtain ⟨h1, h2⟩ := MortonIndex3D.dynamic_zeroed_ok (c := c) _ ha
    unfold MortonIndex3D.dynamicZeroed at e
    rw [h1] at e
    cases e
    exact h2.len
  | @dynamicSet m l v m' hm e ih =>
    by_cases hl : l < Storage.depth m.storage
    · obtain ⟨_, h1, -, h3, h4, -, -⟩ := MortonIndex3D.set_lt hc (reach3D_good hc hm).1.wf hl v
      rw [e] at h1; cases h1
      exact ih.same h3 h4
    · rw [MortonIndex3D.set_ge (by omega)] at e; simp at e
  | dynamicInverted hm e ih =>
    obtain ⟨_, h1, -, h3, h4, -, -⟩ := MortonIndex3D.inverted_ok hc (reach3D_good hc hm).1.wf
    rw [e] at h1; cases h1
    exact ih.same h3 h4
  | dynamicAncestor hm e ih => exact (DynamicStorage3D.ancestor_canon (reach3D_good hc hm).1 ih (storage_ancestor3 e)).len
  | dynamicParent hm e ih =>
    rw [parent_eq] at e
    exact (DynamicStorage3D.ancestor_canon (reach3D_good hc hm).1 ih (storage_ancestor3 e)).len
  | dynamicWithDepth hm e ih =>
    rcases withDepth_some e with rfl | ⟨g, e'⟩
    · exact ih
    · exact (DynamicStorage3D.ancestor_canon (reach3D_good hc hm).1 ih (storage_ancestor3 e')).len
  | dynamicDescendant hm ha e ih =>
    exact DynamicStorage3D.descendant_len hc (reach3D_good hc hm).1 ih ha (storage_descendant3 e)
  | @dynamicChild m v m' hm ha e ih =>
    exact DynamicStorage3D.descendant_len (cs := [v]) hc (reach3D_good hc hm).1 ih ha (storage_descendant3 e)
  | @fixedToDynamic w m hm _ =>
    have hw : IntWidth w := (reach3D_good hc hm).1
    have hlen : ((if c.bigEndian then (bytesOf c m.storage.bits).reverse else bytesOf c m.storage.bits)).length = w / 8 := by
      cases c.bigEndian <;> simp [bytesOf, leBytes] <;> split <;> simp
    change (if c.bigEndian then (bytesOf c m.storage.bits).reverse else bytesOf c m.storage.bits).length =
      DynamicStorage3D.numBytes (w / 3)
    rw [hlen]
    unfold DynamicStorage3D.numBytes
    rw [dim_Octant]
    rcases hw with rfl | rfl | rfl | rfl | rfl <;> rfl
  | staticToDynamic hm e _ =>
    obtain ⟨_, h1, h2, -⟩ := MortonIndex3D.staticToDynamic_ok hc (reach3D_good hc hm).1
    rw [e] at h1; cases h1
    exact h2.len
  | _ => trivial

end reach

namespace DynamicStorage2D

/-- The bytes of a dynamic storage beyond those its depth calls for. -/
def spare (s : DynamicStorage2D) : Nat := s.bits.length - numBytes s.depth

/-- The slots of an ancestor: only those of the spare byte keep something behind the last cell. -/
theorem ancestor_slots {c : Cfg} {s a : DynamicStorage2D} (h : Inv c s) {g : NonZeroUsize}
    (e : s.ancestor c g = .ok (some a)) :
    g.val ≤ s.depth ∧ a.depth = s.depth - g.val ∧ spare a = spare s ∧ a.bits.length = numBytes a.depth + spare s ∧
      ∀ l, l < 4 * a.bits.length → slot a l = if l < a.depth + 4 * spare s then slot s l else .Zero := by
  by_cases hg : g.val ≤ s.depth
  · obtain ⟨b, h1, h2, h3, h4⟩ := ancestor_bits h g hg
    rw [e] at h1
    cases h1
    have hlo := h.lo
    have hmul : a.depth * dim Quadrant ≤ s.depth * dim Quadrant := Nat.mul_le_mul_right _ (by omega)
    have hmono : numBytes a.depth ≤ numBytes s.depth := by unfold numBytes; omega
    have hlen : a.bits.length = numBytes a.depth + spare s := by unfold spare; omega
    refine ⟨hg, h2, by rw [spare, hlen]; omega, hlen, fun l hl => ?_⟩
    have hla : (l + 1) * dim Quadrant ≤ 8 * a.bits.length := by rw [dim_Quadrant]; omega
    have hpad : 8 * numBytes a.depth - a.depth * dim Quadrant + a.depth * dim Quadrant = 8 * numBytes a.depth := by
      unfold numBytes; rw [dim_Quadrant]; omega
    split
    · next hlt =>
      refine slot_shift (n := 8 * (numBytes s.depth - numBytes a.depth)) ?_ hla ?_
      · change 8 * a.bits.length + _ = 8 * s.bits.length
        omega
      · intro i hi
        have hi' : 8 * a.bits.length - (l + 1) * dim Quadrant ≤ i := hi
        rw [value_testBit, value_testBit, h4 i]
        have : 8 * numBytes a.depth - a.depth * dim Quadrant ≤ i := by
          rw [dim_Quadrant] at *; omega
        simp [this]
    · next hlt =>
      refine slot_zero_of_bits (n := 8 * a.bits.length - l * dim Quadrant) hla (Nat.le_refl _) fun i hi => ?_
      rw [value_testBit, h4 i]
      have : ¬ 8 * numBytes a.depth - a.depth * dim Quadrant ≤ i := by
        rw [dim_Quadrant] at *; omega
      simp [this]
  · rw [ancestor_none s g (by omega)] at e
    cases e

theorem descendant_slots {c : Cfg} (hc : c.Supported) (hwr : DynWrites c) {s a : DynamicStorage2D} (h : Inv c s)
    {cs : List Quadrant} (ha : Addressable c ((s.depth + cs.length) * 2)) (e : s.descendant c cs = .ok (some a)) :
    Inv c a ∧ a.depth = s.depth + cs.length ∧ spare a = spare s ∧
      (∀ k (hk : k < cs.length), slot a (s.depth + k) = cs[k]) ∧
      ∀ l, l < 4 * a.bits.length → (l < s.depth ∨ s.depth + cs.length ≤ l) →
        slot a l = if l < 4 * s.bits.length then slot s l else .Zero := by
  obtain ⟨a', g1, gI, -, gd, -⟩ := descendant_some hc h cs ha
  rw [e] at g1
  cases g1
  have hlo := h.lo
  have hhi := h.hi
  have a0 : s.depth + cs.length + 64 < 2 ^ c.ptrBits := by
    unfold Addressable at ha; omega
  have a1 : s.depth + cs.length < 2 ^ c.ptrBits := by omega
  have a2 : s.depth + 3 < 2 ^ c.ptrBits := by omega
  have a3 : s.depth + cs.length + 3 < 2 ^ c.ptrBits := by omega
  have e1 : (s.depth + 3) / 4 = numBytes s.depth := by unfold numBytes; rw [dim_Quadrant]; omega
  have e2 : (s.depth + cs.length + 3) / 4 = numBytes (s.depth + cs.length) := by
    unfold numBytes; rw [dim_Quadrant]; omega
  have hmono : numBytes s.depth ≤ numBytes (s.depth + cs.length) := by
    unfold numBytes; rw [dim_Quadrant]; omega
  let r : DynamicStorage2D :=
    ⟨List.replicate (numBytes (s.depth + cs.length) - numBytes s.depth) 0#8 ++ s.bits, s.depth + cs.length⟩
  have hrlen : r.bits.length = numBytes (s.depth + cs.length) - numBytes s.depth + s.bits.length := by
    simp [r]
  have hr : Inv c r := ⟨ha, by rw [hrlen]; change numBytes (s.depth + cs.length) ≤ _; omega,
    by rw [hrlen]; change _ ≤ numBytes (s.depth + cs.length) + 1; omega⟩
  have hbits : ∀ i, (value r).testBit i = if i < 8 * (numBytes (s.depth + cs.length) - numBytes s.depth) then false
      else (value s).testBit (i - 8 * (numBytes (s.depth + cs.length) - numBytes s.depth)) := by
    intro i
    rw [value_testBit, value_testBit, bitOf_pad]
  have hrslot : ∀ l, l < 4 * r.bits.length → slot r l = if l < 4 * s.bits.length then slot s l else .Zero := by
    intro l hl
    split
    · next hk =>
      refine (slot_shift (n := 8 * (numBytes (s.depth + cs.length) - numBytes s.depth)) ?_ ?_ ?_).symm
      · change 8 * s.bits.length + _ = 8 * r.bits.length
        omega
      · change (l + 1) * dim Quadrant ≤ 8 * s.bits.length
        rw [dim_Quadrant]; omega
      · intro i _
        rw [hbits, if_neg (by omega), Nat.add_sub_cancel]
    · refine slot_zero_of_bits (n := 8 * r.bits.length - l * dim Quadrant) ?_ (Nat.le_refl _) fun i hi => ?_
      · change (l + 1) * dim Quadrant ≤ 8 * r.bits.length
        rw [dim_Quadrant]; omega
      · rw [dim_Quadrant] at hi
        rw [hbits, if_pos (by omega)]
  have hbody : ∀ i x (t : DynamicStorage2D), i < cs.length →
      (do Storage.setCellAtLevelUnchecked c t (← uadd c s.depth i) x) =
        Storage.setCellAtLevelUnchecked c t (s.depth + i) x := by
    intro i x t hi
    have : s.depth + i < 2 ^ c.ptrBits := by omega
    simp only [uadd_ok this, ok_bind]
  obtain ⟨t, h1, h2, h3, h4, h5, h6, h7⟩ := set_many (c := c) hc
    (fun v => by simp [written, dynWritten, hwr]) s.depth cs r hr.wf.fit hr.wf.depth_le
    (fun offset cell ret => do
      Storage.setCellAtLevelUnchecked c ret (← uadd c s.depth offset) cell) hbody
  have hlen : t.bits.length = r.bits.length := by
    have : 8 * t.bits.length = 8 * r.bits.length := h3
    omega
  have : s.descendant c cs = .ok (some t) := by
    simp only [descendant, uadd_ok a1, uadd_ok a2, uadd_ok a3, ok_bind, e1, e2, usub_ok hmono, pure_eq_ok]
    have h1' := h1
    simp only [r] at h1'
    rw [h1']; rfl
  rw [e] at this
  cases this
  refine ⟨gI, gd, ?_, h5, fun l hl hl2 => ?_⟩
  · unfold spare
    rw [hlen, hrlen, gd]
    omega
  · rw [hlen] at hl
    rw [h6 l (by change (l + 1) * dim Quadrant ≤ 8 * r.bits.length; rw [dim_Quadrant]; omega) hl2]
    exact hrslot l hl

end DynamicStorage2D

end MortonRs
