import Verif.Lemmas.Index3D

/-! # Conversions between the 3D storages -/

namespace MortonRs

open BitStorage

namespace MortonIndex3D

variable {w : Nat} {c : Cfg}

theorem asU8_maxLevels (hw : IntWidth w) : asU8 (StaticStorage.MAX_LEVELS w Octant) = w / dim Octant := by
  have := StaticStorage3D.depth_small hw (Nat.le_refl (w / dim Octant))
  exact Nat.mod_eq_of_lt this

theorem fixedToStatic_ok (hw : IntWidth w) (m : MortonIndex3D (FixedDepthStorage3D w)) :
    WF c (fixedToStatic m).storage ∧ path (fixedToStatic m).storage = path m.storage ∧
      (TailZero m.storage → TailZero (fixedToStatic m).storage) := by
  have hd : Storage.depth (fixedToStatic m).storage = Storage.depth m.storage := asU8_maxLevels hw
  refine ⟨(StaticStorage3D.wf_iff hw _).mpr (Nat.le_of_eq (asU8_maxLevels hw)), ?_, ?_⟩
  · rw [path, path, hd]; rfl
  · intro h i hi
    rw [hd] at hi
    exact h i hi

theorem fixedToDynamic_bits (m : MortonIndex3D (FixedDepthStorage3D w)) :
    (fixedToDynamic c m).storage = ⟨leBytes m.storage.bits, w / dim Octant⟩ := by
  unfold fixedToDynamic bytesOf
  cases c.bigEndian <;> simp <;> rfl

theorem addressable_of_le (hc : c.Supported) {n : Nat} (h : n ≤ 1024) : Addressable c n := by
  have := hc.le
  unfold Addressable
  omega

theorem fixedToDynamic_ok (hc : c.Supported) (hw : IntWidth w) (m : MortonIndex3D (FixedDepthStorage3D w)) :
    DynamicStorage3D.Inv c (fixedToDynamic c m).storage ∧
      path (fixedToDynamic c m).storage = path m.storage ∧
      (TailZero m.storage → DynamicStorage3D.Canon c (fixedToDynamic c m).storage) := by
  have hw8 := hw.mod8
  have hwl := hw.le
  have hD := Nat.div_mul_le_self w (dim Octant)
  have e := fixedToDynamic_bits (c := c) m
  have hwid : 8 * (w / 8) = w := by omega
  have haddr : Addressable c (w / dim Octant * dim Octant) := addressable_of_le hc (by omega)
  have hnum : DynamicStorage3D.numBytes (w / dim Octant) = w / 8 := by
    unfold DynamicStorage3D.numBytes
    rcases hw with h | h | h | h | h <;> subst h <;> rfl
  have hdepth : Storage.depth (fixedToDynamic c m).storage = w / dim Octant := by rw [e]; rfl
  have hval : value (fixedToDynamic c m).storage = value m.storage := by
    rw [e]; exact leValue_leBytes _ hw8
  have hwidth : width (fixedToDynamic c m).storage = w := by
    rw [e]; change 8 * (leBytes m.storage.bits).length = w; rw [leBytes_length, hwid]
  have hlen : (fixedToDynamic c m).storage.bits.length = w / 8 := by rw [e]; exact leBytes_length _
  have hdep' : (fixedToDynamic c m).storage.depth = w / dim Octant := hdepth
  refine ⟨⟨by rw [hdep']; exact haddr, by rw [hdep', hlen, hnum]; omega, by rw [hdep', hlen, hnum]; omega⟩, ?_, ?_⟩
  · rw [path, path, hdepth]
    change _ = (List.range (w / dim Octant)).map (slot m.storage)
    congr 1
    funext l
    rw [slot, slot, hval, hwidth]
    rfl
  · intro h
    refine ⟨by rw [hdep']; exact haddr, by rw [hdep', hlen, hnum], ?_⟩
    intro i hi
    rw [hval]
    rw [hwidth, hdepth] at hi
    exact h i hi

theorem staticToFixed_ok (hw : IntWidth w) {m : MortonIndex3D (StaticStorage3D w)} (h : WF c m.storage) :
    path m.storage = (path (staticToFixed m).storage).take (Storage.depth m.storage) ∧
    (TailZero m.storage → TailZero (staticToFixed m).storage ∧
      path (staticToFixed m).storage =
        path m.storage ++ List.replicate (w / dim Octant - Storage.depth m.storage) .Zero) := by
  have hd : m.storage.depth ≤ w / dim Octant := (StaticStorage3D.wf_iff hw _).mp h
  have hle : w / dim Octant * dim Octant ≤ w := Nat.div_mul_le_self _ _
  have hmul : m.storage.depth * dim Octant ≤ w / dim Octant * dim Octant := Nat.mul_le_mul_right _ hd
  have hs : ∀ l, slot (staticToFixed m).storage l = slot m.storage l := fun l => rfl
  refine ⟨?_, ?_⟩
  · rw [path, path, List.take_eq_take_min, ← List.map_take, List.take_range]
    change _ = (List.range (min (min m.storage.depth _) (w / dim Octant))).map _
    simp only [List.length_map, List.length_range]
    change (List.range m.storage.depth).map _ =
      (List.range (min (min m.storage.depth (w / dim Octant)) (w / dim Octant))).map _
    congr 2
    omega
  · intro hz
    refine ⟨fun i hi => hz i (Nat.lt_of_lt_of_le hi ?_), ?_⟩
    · change w - w / dim Octant * dim Octant ≤ w - m.storage.depth * dim Octant
      omega
    · apply path_of_slots
      · simp only [List.length_append, path_length, List.length_replicate]
        change w / dim Octant = m.storage.depth + (w / dim Octant - m.storage.depth)
        omega
      · intro k hk
        rw [List.getElem_append, hs]
        split
        · rw [path_getElem]
        · rename_i hk'
          rw [List.getElem_replicate]
          simp only [List.length_append, path_length, List.length_replicate] at hk hk'
          change k < m.storage.depth + (w / dim Octant - m.storage.depth) at hk
          change ¬ k < m.storage.depth at hk'
          have hk1 : (k + 1) * dim Octant ≤ w / dim Octant * dim Octant :=
            Nat.mul_le_mul_right _ (by omega)
          have hk2 : m.storage.depth * dim Octant ≤ k * dim Octant := Nat.mul_le_mul_right _ (by omega)
          exact slot_zero_of_bits (s := m.storage) (l := k) (n := w - m.storage.depth * dim Octant)
            (Nat.le_trans hk1 hle) (by change w - _ ≤ _; omega) hz

theorem staticToDynamic_ok (hc : c.Supported) {m : MortonIndex3D (StaticStorage3D w)} (h : WF c m.storage) :
    ∃ m', staticToDynamic c m = .ok m' ∧ DynamicStorage3D.Canon c m'.storage ∧
      m'.storage.depth = m.storage.depth ∧ (DynWrites c → path m'.storage = path m.storage) := by
  have hw : IntWidth w := h.fit
  have hd : m.storage.depth ≤ w / dim Octant := (StaticStorage3D.wf_iff hw _).mp h
  have hlt := StaticStorage3D.depth_small hw hd
  have hp := hc.le
  have hdef : DynamicStorage3D.Canon c DynamicStorage3D.default :=
    ⟨addressable_of_le hc (by decide), rfl, fun i _ => by
      change (leValue []).testBit i = false
      rw [leValue, Nat.zero_testBit]⟩
  obtain ⟨a, h1, -, h2, h3, h4⟩ := DynamicStorage3D.descendant_some hc hdef.inv (path m.storage)
    (addressable_of_le hc (by
      rw [path_length]
      change (0 + m.storage.depth) * 3 ≤ 1024 <;> omega))
  refine ⟨⟨a⟩, ?_, h2 hdef, ?_, ?_⟩
  · unfold staticToDynamic
    rw [collectCells_ok hc h (by change m.storage.depth < _; omega)]
    simp only [ok_bind, VariableDepthMortonIndex.descendant, VariableDepthStorage.descendant, h1, pure_eq_ok,
      Option.map_some, unwrapOption]
  · rw [h3, path_length]
    change 0 + m.storage.depth = _
    omega
  · intro hw
    rw [h4 hw]
    rfl

theorem dynamicToStatic_error {m : MortonIndex3D DynamicStorage3D} (h : m.storage.depth > w / dim Octant) :
    dynamicToStatic c w m = .ok (.error (.DepthLimitedExceeded (w / dim Octant))) := by
  have : m.depth > FixedDepthStorage.MAX_LEVELS w Octant := h
  simp only [dynamicToStatic, this, if_true, pure_eq_ok]
  rfl

theorem dynamicToStatic_ok (hc : c.Supported) (hw : IntWidth w) {m : MortonIndex3D DynamicStorage3D}
    (h : WF c m.storage) (hd : m.storage.depth ≤ w / dim Octant) :
    ∃ m', dynamicToStatic c w m = .ok (.ok m') ∧ WF c m'.storage ∧ TailZero m'.storage ∧
      path m'.storage = path m.storage := by
  have hle : w / dim Octant * dim Octant ≤ w := Nat.div_mul_le_self _ _
  have hmul : m.storage.depth * dim Octant ≤ w / dim Octant * dim Octant := Nat.mul_le_mul_right _ hd
  have hsmall := StaticStorage3D.depth_small hw hd
  obtain ⟨s', h1, h2, h3, h4, h5, h6, h7⟩ := set_range hc 0 m.storage.depth (slot m.storage) (Nat.zero_le _)
    (StaticStorage3D.default w) hw (show m.storage.depth * dim Octant ≤ w by omega)
    (fun level ret => Storage.setCellAtLevelUnchecked c ret level (slot m.storage level))
    (fun _ _ _ _ _ => rfl)
  have hnot : ¬ m.depth > FixedDepthStorage.MAX_LEVELS w Octant := by
    change ¬ m.storage.depth > w / dim Octant; omega
  have hloop : forRange 0 m.depth (⟨StaticStorage3D.default w⟩ : MortonIndex3D (StaticStorage3D w))
      (fun level ret => do
        MortonIndex3D.setCellAtLevelUnchecked c ret level (← m.getCellAtLevelUnchecked c level)) =
      .ok ⟨s'⟩ := by
    have key : ∀ (xs : List Nat) (t : StaticStorage3D w), (∀ x ∈ xs, x < m.storage.depth) →
        xs.foldlM (fun (ret : MortonIndex3D (StaticStorage3D w)) level => do
          MortonIndex3D.setCellAtLevelUnchecked c ret level (← m.getCellAtLevelUnchecked c level)) ⟨t⟩ =
        (xs.foldlM (fun ret level => Storage.setCellAtLevelUnchecked c ret level (slot m.storage level)) t >>=
          fun s => .ok ⟨s⟩) := by
      intro xs
      induction xs with
      | nil => intro t _; rfl
      | cons x xs ih =>
        intro t hx
        have hx1 := hx x (List.mem_cons_self ..)
        rw [List.foldlM_cons, List.foldlM_cons]
        simp only [getCellAtLevelUnchecked, get_slot hc h (show x < Storage.depth m.storage from hx1), ok_bind,
          setCellAtLevelUnchecked]
        cases hset : Storage.setCellAtLevelUnchecked c t x (slot m.storage x) with
        | error e => rfl
        | ok t' => exact ih t' (fun y hy => hx y (List.mem_cons_of_mem _ hy))
    unfold forRange at h1 ⊢
    have := key (List.range' 0 (m.depth - 0)) (StaticStorage3D.default w) (by
      intro x hx
      rw [List.mem_range'_1] at hx
      have : m.depth = m.storage.depth := rfl
      omega)
    rw [this]
    change (List.foldlM _ _ (List.range' 0 (m.storage.depth - 0)) >>= _) = _
    rw [h1]; rfl
  refine ⟨⟨{ s' with depth := asU8 m.depth }⟩, ?_, ?_, ?_, ?_⟩
  · unfold dynamicToStatic
    simp only [hnot, if_false, hloop, ok_bind, pure_eq_ok]
  · rw [StaticStorage3D.wf_iff hw]
    change m.storage.depth % 256 ≤ _
    omega
  · intro i hi
    have hi' : i < w - m.storage.depth * dim Octant := by
      have : i < w - m.storage.depth % 256 * dim Octant := hi
      rw [Nat.mod_eq_of_lt hsmall] at this
      exact this
    have := h7 i hi'
    rw [StaticStorage3D.default, StaticStorage3D.default_bits] at this
    exact this
  · apply path_of_slots
    · rw [path_length]
      exact Nat.mod_eq_of_lt hsmall
    · intro k hk
      rw [path_getElem]
      rw [path_length] at hk
      exact h5 k (Nat.zero_le _) hk

theorem dynamicToFixed_error {m : MortonIndex3D DynamicStorage3D} (h : m.storage.depth > w / dim Octant) :
    dynamicToFixed c w m = .error (.DepthLimitedExceeded (w / dim Octant)) := by
  have : m.depth > FixedDepthStorage.MAX_LEVELS w Octant := h
  simp only [dynamicToFixed, this, if_true]
  rfl

end MortonIndex3D

end MortonRs
