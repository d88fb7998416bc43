import Verif.Lemmas.Containers2D
import Verif.Lemmas.PathBits

/-! # The 2D storages over any lawful container: conversions -/

namespace MortonRs

open BitStorage LawfulContainer

set_option linter.unusedSectionVars false

variable {B : Type} [FixedStorageType B] [LawfulContainer B]

namespace MortonIndex2D

variable {c : Cfg}

theorem asU8_maxLevelsOf (hB : StaticStorage2DOf.Small B) :
    asU8 (StaticStorage.MAX_LEVELS (Bits.BITS B) Quadrant) = Bits.BITS B / dim Quadrant := Nat.mod_eq_of_lt hB

theorem fixedToStaticOf_ok (hB : StaticStorage2DOf.Small B) (hw : on B c) (m : MortonIndex2D (FixedDepthStorage2DOf B)) :
    WF c (fixedToStaticOf m).storage ∧ path (fixedToStaticOf m).storage = path m.storage ∧
      (TailZero m.storage → TailZero (fixedToStaticOf m).storage) := by
  have hd : Storage.depth (fixedToStaticOf m).storage = Storage.depth m.storage := asU8_maxLevelsOf hB
  refine ⟨(StaticStorage2DOf.wf_iff hw _).mpr (Nat.le_of_eq (asU8_maxLevelsOf hB)), ?_, ?_⟩
  · rw [path, path, hd]; rfl
  · intro h i hi
    rw [hd] at hi
    exact h i hi

theorem staticToFixedOf_ok (hw : on B c) {m : MortonIndex2D (StaticStorage2DOf B)} (h : WF c m.storage) :
    path m.storage = (path (staticToFixedOf m).storage).take (Storage.depth m.storage) ∧
    (TailZero m.storage → TailZero (staticToFixedOf m).storage ∧
      path (staticToFixedOf m).storage =
        path m.storage ++ List.replicate (Bits.BITS B / dim Quadrant - Storage.depth m.storage) .Zero) := by
  have hd : m.storage.depth ≤ Bits.BITS B / dim Quadrant := (StaticStorage2DOf.wf_iff hw _).mp h
  have hle : Bits.BITS B / dim Quadrant * dim Quadrant ≤ Bits.BITS B := Nat.div_mul_le_self _ _
  have hmul : m.storage.depth * dim Quadrant ≤ Bits.BITS B / dim Quadrant * dim Quadrant := Nat.mul_le_mul_right _ hd
  have hs : ∀ l, slot (staticToFixedOf m).storage l = slot m.storage l := fun l => rfl
  refine ⟨?_, ?_⟩
  · rw [path, path, List.take_eq_take_min, ← List.map_take, List.take_range]
    change _ = (List.range (min (min m.storage.depth _) (Bits.BITS B / dim Quadrant))).map _
    simp only [List.length_map, List.length_range]
    change (List.range m.storage.depth).map _ =
      (List.range (min (min m.storage.depth (Bits.BITS B / dim Quadrant)) (Bits.BITS B / dim Quadrant))).map _
    congr 2
    omega
  · intro hz
    refine ⟨fun i hi => hz i (Nat.lt_of_lt_of_le hi ?_), ?_⟩
    · change Bits.BITS B - Bits.BITS B / dim Quadrant * dim Quadrant ≤ Bits.BITS B - m.storage.depth * dim Quadrant
      omega
    · apply path_of_slots
      · simp only [List.length_append, path_length, List.length_replicate]
        change Bits.BITS B / dim Quadrant = m.storage.depth + (Bits.BITS B / dim Quadrant - m.storage.depth)
        omega
      · intro k hk
        rw [List.getElem_append, hs]
        split
        · rw [path_getElem]
        · rename_i hk'
          rw [List.getElem_replicate]
          simp only [List.length_append, path_length, List.length_replicate] at hk hk'
          change k < m.storage.depth + (Bits.BITS B / dim Quadrant - m.storage.depth) at hk
          change ¬ k < m.storage.depth at hk'
          have hk1 : (k + 1) * dim Quadrant ≤ Bits.BITS B / dim Quadrant * dim Quadrant :=
            Nat.mul_le_mul_right _ (by omega)
          have hk2 : m.storage.depth * dim Quadrant ≤ k * dim Quadrant := Nat.mul_le_mul_right _ (by omega)
          exact slot_zero_of_bits (s := m.storage) (l := k) (n := Bits.BITS B - m.storage.depth * dim Quadrant)
            (Nat.le_trans hk1 hle) (by change Bits.BITS B - _ ≤ _; omega) hz

theorem staticToDynamicOf_ok' (hc : c.Supported) {m : MortonIndex2D (StaticStorage2DOf B)} (h : WF c m.storage) (hlt : m.storage.depth < 256) :
    ∃ m', staticToDynamicOf c m = .ok m' ∧ DynamicStorage2D.Canon c m'.storage ∧
      m'.storage.depth = m.storage.depth ∧ (DynWrites c → path m'.storage = path m.storage) := by
  have hw : on B c := h.fit
  have hd : m.storage.depth ≤ Bits.BITS B / dim Quadrant := (StaticStorage2DOf.wf_iff hw _).mp h
  have hp := hc.le
  have hdef : DynamicStorage2D.Canon c DynamicStorage2D.default :=
    ⟨addressable_of_le hc (by decide), rfl, fun i _ => by
      change (leValue []).testBit i = false
      rw [leValue, Nat.zero_testBit]⟩
  obtain ⟨a, h1, -, h2, h3, h4⟩ := DynamicStorage2D.descendant_some hc hdef.inv (path m.storage)
    (addressable_of_le hc (by
      rw [path_length]
      change (0 + m.storage.depth) * 2 ≤ 1024 <;> omega))
  refine ⟨⟨a⟩, ?_, h2 hdef, ?_, ?_⟩
  · unfold staticToDynamicOf
    rw [collectCells_ok hc h (by change m.storage.depth < _; omega)]
    simp only [ok_bind, VariableDepthMortonIndex.descendant, VariableDepthStorage.descendant, h1, pure_eq_ok,
      Option.map_some, unwrapOption]
  · rw [h3, path_length]
    change 0 + m.storage.depth = _
    omega
  · intro hw
    rw [h4 hw]
    rfl

theorem staticToDynamicOf_ok (hc : c.Supported) (hB : StaticStorage2DOf.Small B)
    {m : MortonIndex2D (StaticStorage2DOf B)} (h : WF c m.storage) :
    ∃ m', staticToDynamicOf c m = .ok m' ∧ DynamicStorage2D.Canon c m'.storage ∧
      m'.storage.depth = m.storage.depth ∧ (DynWrites c → path m'.storage = path m.storage) :=
  staticToDynamicOf_ok' hc h (Nat.lt_of_le_of_lt ((StaticStorage2DOf.wf_iff h.fit _).mp h) hB)

theorem dynamicToStaticOf_error {m : MortonIndex2D DynamicStorage2D} (h : m.storage.depth > Bits.BITS B / dim Quadrant) :
    dynamicToStaticOf c B m = .ok (.error (.DepthLimitedExceeded (Bits.BITS B / dim Quadrant))) := by
  have : m.depth > FixedDepthStorage.MAX_LEVELS (Bits.BITS B) Quadrant := h
  simp only [dynamicToStaticOf, this, if_true, pure_eq_ok]
  rfl

theorem dynamicToStaticOf_ok (hc : c.Supported) (hB : StaticStorage2DOf.Small B) (hw : on B c) {m : MortonIndex2D DynamicStorage2D}
    (h : WF c m.storage) (hd : m.storage.depth ≤ Bits.BITS B / dim Quadrant) :
    ∃ m', dynamicToStaticOf c B m = .ok (.ok m') ∧ WF c m'.storage ∧ TailZero m'.storage ∧
      path m'.storage = path m.storage := by
  have hle : Bits.BITS B / dim Quadrant * dim Quadrant ≤ Bits.BITS B := Nat.div_mul_le_self _ _
  have hmul : m.storage.depth * dim Quadrant ≤ Bits.BITS B / dim Quadrant * dim Quadrant := Nat.mul_le_mul_right _ hd
  have hsmall := Nat.lt_of_le_of_lt hd hB
  obtain ⟨s', h1, h2, h3, h4, h5, h6, h7⟩ := set_range hc 0 m.storage.depth (slot m.storage) (Nat.zero_le _)
    (StaticStorage2DOf.default B) hw (show m.storage.depth * dim Quadrant ≤ Bits.BITS B by omega)
    (fun level ret => Storage.setCellAtLevelUnchecked c ret level (slot m.storage level))
    (fun _ _ _ _ _ => rfl)
  have hnot : ¬ m.depth > FixedDepthStorage.MAX_LEVELS (Bits.BITS B) Quadrant := by
    change ¬ m.storage.depth > Bits.BITS B / dim Quadrant; omega
  have hloop : forRange 0 m.depth (⟨StaticStorage2DOf.default B⟩ : MortonIndex2D (StaticStorage2DOf B))
      (fun level ret => do
        MortonIndex2D.setCellAtLevelUnchecked c ret level (← m.getCellAtLevelUnchecked c level)) =
      .ok ⟨s'⟩ := by
    have key : ∀ (xs : List Nat) (t : StaticStorage2DOf B), (∀ x ∈ xs, x < m.storage.depth) →
        xs.foldlM (fun (ret : MortonIndex2D (StaticStorage2DOf B)) level => do
          MortonIndex2D.setCellAtLevelUnchecked c ret level (← m.getCellAtLevelUnchecked c level)) ⟨t⟩ =
        (xs.foldlM (fun ret level => Storage.setCellAtLevelUnchecked c ret level (slot m.storage level)) t >>=
          fun s => .ok ⟨s⟩) := by
      intro xs
      induction xs with
      | nil => intro t _; rfl
      | cons x xs ih =>
        intro t hx
        have hx1 := hx x (List.mem_cons_self ..)
        rw [List.foldlM_cons, List.foldlM_cons]
        simp only [getCellAtLevelUnchecked, get_slot hc h (show x < Storage.depth m.storage from hx1), ok_bind,
          setCellAtLevelUnchecked]
        cases hset : Storage.setCellAtLevelUnchecked c t x (slot m.storage x) with
        | error e => rfl
        | ok t' => exact ih t' (fun y hy => hx y (List.mem_cons_of_mem _ hy))
    unfold forRange at h1 ⊢
    have := key (List.range' 0 (m.depth - 0)) (StaticStorage2DOf.default B) (by
      intro x hx
      rw [List.mem_range'_1] at hx
      have : m.depth = m.storage.depth := rfl
      omega)
    rw [this]
    change (List.foldlM _ _ (List.range' 0 (m.storage.depth - 0)) >>= _) = _
    rw [h1]; rfl
  refine ⟨⟨{ s' with depth := asU8 m.depth }⟩, ?_, ?_, ?_, ?_⟩
  · unfold dynamicToStaticOf
    simp only [hnot, if_false, hloop, ok_bind, pure_eq_ok]
  · rw [StaticStorage2DOf.wf_iff hw]
    change m.storage.depth % 256 ≤ _
    omega
  · intro i hi
    have hi' : i < Bits.BITS B - m.storage.depth * dim Quadrant := by
      have : i < Bits.BITS B - m.storage.depth % 256 * dim Quadrant := hi
      rw [Nat.mod_eq_of_lt hsmall] at this
      exact this
    have := h7 i hi'
    rw [StaticStorage2DOf.default, StaticStorage2DOf.default_bits] at this
    exact this
  · apply path_of_slots
    · rw [path_length]
      exact Nat.mod_eq_of_lt hsmall
    · intro k hk
      rw [path_getElem]
      rw [path_length] at hk
      exact h5 k (Nat.zero_le _) hk

theorem dynamicToFixedOf_error {m : MortonIndex2D DynamicStorage2D} (h : m.storage.depth > Bits.BITS B / dim Quadrant) :
    dynamicToFixedOf c B m = .error (.DepthLimitedExceeded (Bits.BITS B / dim Quadrant)) := by
  have : m.depth > FixedDepthStorage.MAX_LEVELS (Bits.BITS B) Quadrant := h
  simp only [dynamicToFixedOf, this, if_true]
  rfl

end MortonIndex2D

/-! ## With the contract about bytes -/

section bytes
variable {B : Type} [FixedStorageType B] [LawfulBytes B]

namespace MortonIndex2D

variable {c : Cfg}

theorem fixedToDynamicOf_bits (hw : on B c) (m : MortonIndex2D (FixedDepthStorage2DOf B)) :
    (fixedToDynamicOf c m).storage =
      ⟨leBytes (BitVec.ofNat (Bits.BITS B) (val m.storage.bits)), Bits.BITS B / dim Quadrant⟩ := by
  unfold fixedToDynamicOf
  simp only [LawfulBytes.asSlice hw]
  unfold bytesOf
  cases c.bigEndian <;> simp <;> rfl

theorem fixedToDynamicOf_ok (ha : Addressable c (Bits.BITS B)) (hw : on B c) (m : MortonIndex2D (FixedDepthStorage2DOf B)) :
    DynamicStorage2D.Inv c (fixedToDynamicOf c m).storage ∧
      path (fixedToDynamicOf c m).storage = path m.storage ∧
      (TailZero m.storage → DynamicStorage2D.Canon c (fixedToDynamicOf c m).storage) := by
  have hw8 := LawfulBytes.mod8 (B := B)
  have hD := Nat.div_mul_le_self (Bits.BITS B) (dim Quadrant)
  have e := fixedToDynamicOf_bits hw m
  have hwid : 8 * (Bits.BITS B / 8) = Bits.BITS B := by omega
  have haddr : Addressable c (Bits.BITS B / dim Quadrant * dim Quadrant) := by unfold Addressable at *; omega
  have hnum : DynamicStorage2D.numBytes (Bits.BITS B / dim Quadrant) = Bits.BITS B / 8 := by
    rw [DynamicStorage2D.numBytes, dim_Quadrant]
    omega
  have hdepth : Storage.depth (fixedToDynamicOf c m).storage = Bits.BITS B / dim Quadrant := by rw [e]; rfl
  have hval : value (fixedToDynamicOf c m).storage = value m.storage := by
    rw [e]
    refine (leValue_leBytes _ hw8).trans ?_
    rw [BitVec.toNat_ofNat]
    exact Nat.mod_eq_of_lt (val_lt _)
  have hwidth : width (fixedToDynamicOf c m).storage = Bits.BITS B := by
    rw [e]; change 8 * (leBytes (BitVec.ofNat (Bits.BITS B) (val m.storage.bits))).length = Bits.BITS B; rw [leBytes_length, hwid]
  have hlen : (fixedToDynamicOf c m).storage.bits.length = Bits.BITS B / 8 := by rw [e]; exact leBytes_length _
  have hdep' : (fixedToDynamicOf c m).storage.depth = Bits.BITS B / dim Quadrant := hdepth
  refine ⟨⟨by rw [hdep']; exact haddr, by rw [hdep', hlen, hnum]; omega, by rw [hdep', hlen, hnum]; omega⟩, ?_, ?_⟩
  · rw [path, path, hdepth]
    change _ = (List.range (Bits.BITS B / dim Quadrant)).map (slot m.storage)
    congr 1
    funext l
    rw [slot, slot, hval, hwidth]
    rfl
  · intro h
    refine ⟨by rw [hdep']; exact haddr, by rw [hdep', hlen, hnum], ?_⟩
    intro i hi
    rw [hval]
    rw [hwidth, hdepth] at hi
    exact h i hi

/-- The bytes become the low bytes of the number on a little-endian target. -/
theorem dynamicToFixedOf_value (hw : on B c) (hle : c.bigEndian = false) {m : MortonIndex2D DynamicStorage2D}
    (h : DynamicStorage2D.Canon c m.storage) (hd : m.storage.depth ≤ Bits.BITS B / dim Quadrant) :
    ∃ f, dynamicToFixedOf c B m = .ok f ∧ value f.storage = value m.storage := by
  have hw8 := LawfulBytes.mod8 (B := B)
  have hnot : ¬ m.depth > FixedDepthStorage.MAX_LEVELS (Bits.BITS B) Quadrant := by
    change ¬ m.storage.depth > Bits.BITS B / dim Quadrant; omega
  have hlen := h.len
  have hwid : m.storage.bits.length ≤ Bits.BITS B / 8 := by
    rw [hlen, DynamicStorage2D.numBytes]
    have := Nat.mul_le_mul_right (dim Quadrant) hd
    have := Nat.div_mul_le_self (Bits.BITS B) (dim Quadrant)
    omega
  exact ⟨⟨⟨Bits.fromU8Slice c m.storage.bits .LittleEndian⟩⟩, by simp [dynamicToFixedOf, hnot, hle],
    (LawfulBytes.fromSlice hw m.storage.bits hwid).1⟩

/-- On little-endian targets, the exact condition for the conversion to keep the cells. -/
theorem dynamicToFixedOf_keeps (hw : on B c) (hle : c.bigEndian = false) {m : MortonIndex2D DynamicStorage2D}
    (h : DynamicStorage2D.Canon c m.storage) (hd : m.storage.depth ≤ Bits.BITS B / dim Quadrant) :
    ∃ f, dynamicToFixedOf c B m = .ok f ∧
      (path f.storage = path m.storage ++ List.replicate (Bits.BITS B / dim Quadrant - m.storage.depth) .Zero ↔
        DynamicStorage2D.numBytes m.storage.depth = Bits.BITS B / 8 ∨ ∀ x ∈ path m.storage, x = .Zero) := by
  have hw8 := LawfulBytes.mod8 (B := B)
  obtain ⟨f, h1, h2⟩ := dynamicToFixedOf_value hw hle h hd
  have hlen := h.len
  have hwid : 8 * m.storage.bits.length ≤ Bits.BITS B := by
    rw [hlen, DynamicStorage2D.numBytes]
    have := Nat.mul_le_mul_right (dim Quadrant) hd
    have := Nat.div_mul_le_self (Bits.BITS B) (dim Quadrant)
    omega
  have hmod : Bits.BITS B < Bits.BITS B / dim Quadrant * dim Quadrant + 3 := by rw [dim_Quadrant]; omega
  refine ⟨f, h1, ?_⟩
  have key := keeps_iff (s := m.storage) (f := f.storage) h.inv.wf.depth_le h.tail h2
    (leValue_lt m.storage.bits) (by change 8 * m.storage.bits.length = Bits.BITS B ∨ 8 * m.storage.bits.length + 8 ≤ Bits.BITS B; omega)
    (Nat.div_mul_le_self (Bits.BITS B) (dim Quadrant)) hmod hd
  refine key.trans ?_
  change (8 * m.storage.bits.length = Bits.BITS B ∨ _) ↔ _
  rw [hlen]
  constructor
  · rintro (h | h)
    · left; omega
    · exact Or.inr h
  · rintro (h | h)
    · left; omega
    · exact Or.inr h

end MortonIndex2D

end bytes

end MortonRs
