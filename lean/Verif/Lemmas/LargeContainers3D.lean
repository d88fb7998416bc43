import Verif.Lemmas.ContainersConv3D

/-! # Static 3D storages over a container of any size: the depth is taken modulo 256 -/

namespace MortonRs

open BitStorage LawfulContainer

variable {B : Type} [FixedStorageType B] [LawfulContainer B] {c : Cfg}

namespace StaticStorage3DOf

theorem take_path {d n : Nat} {bits : B} (h : d ≤ n) :
    path (⟨bits, d⟩ : StaticStorage3DOf B) = (path (⟨bits, n⟩ : StaticStorage3DOf B)).take d := by
  apply path_of_slots
  · rw [List.length_take, path_length]
    exact (Nat.min_eq_left h).symm
  · intro k hk
    rw [List.getElem_take, path_getElem]
    rfl

theorem tryFrom_wrap (hc : c.Supported) (hw : on B c) (cs : List Octant) (hlen : cs.length ≤ Bits.BITS B / dim Octant) :
    ∃ bits : B, tryFromSlice c cs = .ok (.ok ⟨bits, cs.length % 256⟩) ∧ tryFromArray c cs = .ok (.ok ⟨bits, cs.length % 256⟩) ∧
      TailZero (⟨bits, cs.length⟩ : StaticStorage3DOf B) ∧ path (⟨bits, cs.length⟩ : StaticStorage3DOf B) = cs := by
  have hwd := Nat.div_mul_le_self (Bits.BITS B) (dim Octant)
  have hmul : (0 + cs.length) * dim Octant ≤ Bits.BITS B / dim Octant * dim Octant :=
    Nat.mul_le_mul_right _ (by omega)
  obtain ⟨s, h1, h2, h3, h4, h5, h6, h7⟩ := set_many (c := c) hc (fun _ => rfl) 0 cs
    (StaticStorage3DOf.default B) hw (Nat.le_trans hmul hwd)
    (fun level cell ret => Storage.setCellAtLevelUnchecked c ret level cell)
    (fun i x t _ => by rw [Nat.zero_add])
  have hnot : ¬ cs.length > StaticStorage.MAX_LEVELS (Bits.BITS B) Octant := by
    change ¬ cs.length > Bits.BITS B / dim Octant; omega
  refine ⟨s.bits, ?_, ?_, ?_, ?_⟩
  · simp only [tryFromSlice, hnot, if_false, h1, ok_bind, pure_eq_ok]; rfl
  · simp only [tryFromArray, hnot, if_false, h1, ok_bind, pure_eq_ok]; rfl
  · intro i hi
    have hi' : i < Bits.BITS B - cs.length * dim Octant := hi
    have := h7 i (by change i < Bits.BITS B - _; rw [Nat.zero_add]; exact hi')
    rw [StaticStorage3DOf.default, default_bits] at this
    exact this
  · apply path_of_slots rfl
    intro k hk
    have := h5 k hk
    rw [Nat.zero_add] at this
    exact this

theorem ancestor_wrap (hc : c.Supported) {s : StaticStorage3DOf B} (h256 : s.depth < 256) (h : WF c s)
    (g : NonZeroUsize) (hg : g.val ≤ s.depth) :
    ∃ a, s.ancestor c g = .ok (some a) ∧ a.depth = s.depth - g.val ∧ WF c a ∧ (TailZero s → TailZero a) ∧
      path a = (path s).take (s.depth - g.val) := by
  have hw : on B c := h.fit
  have hdep := (wf_iff hw s).mp h
  have hnot : ¬ g.val > s.depth := by omega
  have h8 : asU8 g.val = g.val := Nat.mod_eq_of_lt (by omega)
  obtain ⟨t, h1, h2, h3, h4, h5, h6, h7⟩ := set_range (c := c) hc (s.depth - g.val) s.depth
    (fun _ => Octant.Zero) (by omega) s hw h.depth_le
    (fun level ret => Storage.setCellAtLevelUnchecked c ret level Octant.Zero) (fun _ _ _ _ _ => rfl)
  refine ⟨⟨t.bits, s.depth - g.val⟩, ?_, rfl, (wf_iff hw _).mpr (by simp only; omega), ?_, ?_⟩
  · simp only [ancestor, hnot, if_false, h8, u8sub_ok hg, ok_bind, h1, pure_eq_ok]
  · intro hz
    exact bits_zero_of_slots (s := t) (a := s.depth - g.val) (d := s.depth) h.depth_le
      (fun k hk1 hk2 => h5 k hk1 hk2) (fun i hi => by rw [h7 i hi]; exact hz i hi)
  · apply path_of_slots
    · simp only [Storage.depth, List.length_take, path_length]; omega
    · intro k hk
      rw [List.length_take, path_length] at hk
      have hk' : k < s.depth - g.val := by omega
      rw [List.getElem_take, path_getElem]
      exact h6 k (level_le h (by change k < s.depth; omega)) (Or.inl hk')

theorem descendant_wrap (hc : c.Supported) {s : StaticStorage3DOf B} (h : WF c s)
    (cs : List Octant) (hn : s.depth + cs.length ≤ Bits.BITS B / dim Octant) :
    ∃ bits : B, s.descendant c cs = .ok (some ⟨bits, (s.depth + cs.length) % 256⟩) ∧
      (TailZero s → TailZero (⟨bits, s.depth + cs.length⟩ : StaticStorage3DOf B)) ∧
      path (⟨bits, s.depth + cs.length⟩ : StaticStorage3DOf B) = path s ++ cs := by
  have hw : on B c := h.fit
  have hu := usize hw
  have hwd := Nat.div_mul_le_self (Bits.BITS B) (dim Octant)
  have hsize : s.depth + cs.length < 2 ^ c.ptrBits :=
    Nat.lt_of_le_of_lt (Nat.le_trans hn (Nat.div_le_self _ _)) (by omega)
  have hnot : ¬ s.depth + cs.length > StaticStorage.MAX_LEVELS (Bits.BITS B) Octant := by
    change ¬ s.depth + cs.length > Bits.BITS B / dim Octant; omega
  have hmul : (s.depth + cs.length) * dim Octant ≤ Bits.BITS B / dim Octant * dim Octant :=
    Nat.mul_le_mul_right _ hn
  obtain ⟨t, h1, h2, h3, h4, h5, h6, h7⟩ := set_many (c := c) hc (fun _ => rfl) s.depth cs
    s hw (Nat.le_trans hmul hwd)
    (fun offset cell ret => do
      Storage.setCellAtLevelUnchecked c ret (← uadd c s.depth offset) cell)
    (fun i x t hi => by
      have : s.depth + i < 2 ^ c.ptrBits := by omega
      simp only [uadd_ok this, ok_bind])
  refine ⟨t.bits, ?_, ?_, ?_⟩
  · simp only [descendant, uadd_ok hsize, hnot, if_false, ok_bind, h1, pure_eq_ok]; rfl
  · intro hz i hi
    have hi' : i < Bits.BITS B - (s.depth + cs.length) * dim Octant := hi
    have : s.depth * dim Octant ≤ (s.depth + cs.length) * dim Octant :=
      Nat.mul_le_mul_right _ (by omega)
    have e := h7 i hi'
    rw [hz i (by change i < Bits.BITS B - s.depth * dim Octant; omega)] at e
    exact e
  · apply path_of_slots
    · simp [Storage.depth]
    · intro k hk
      rw [List.length_append, path_length] at hk
      have hk' : k < s.depth + cs.length := hk
      by_cases hks : k < s.depth
      · rw [List.getElem_append_left (by rw [path_length]; exact hks), path_getElem]
        exact h6 k (level_le h hks) (Or.inl hks)
      · have hle : (path s).length ≤ k := by rw [path_length]; change s.depth ≤ k; omega
        rw [List.getElem_append_right hle]
        have e := h5 (k - s.depth) (by omega)
        rw [show s.depth + (k - s.depth) = k by omega] at e
        simp only [path_length]
        exact e

end StaticStorage3DOf

namespace MortonIndex3D

theorem fixedToStaticOf_wrap (m : MortonIndex3D (FixedDepthStorage3DOf B)) :
    (fixedToStaticOf m).storage.depth = Bits.BITS B / dim Octant % 256 ∧
      path (fixedToStaticOf m).storage = (path m.storage).take (Bits.BITS B / dim Octant % 256) := by
  refine ⟨rfl, ?_⟩
  apply path_of_slots
  · rw [List.length_take, path_length]
    exact (Nat.min_eq_left (Nat.mod_le _ _)).symm
  · intro k hk
    rw [List.getElem_take, path_getElem]
    rfl

theorem dynamicToStaticOf_wrap (hc : c.Supported) (hw : on B c) {m : MortonIndex3D DynamicStorage3D}
    (h : WF c m.storage) (hd : m.storage.depth ≤ Bits.BITS B / dim Octant) :
    ∃ bits : B, dynamicToStaticOf c B m = .ok (.ok ⟨⟨bits, m.storage.depth % 256⟩⟩) ∧
      TailZero (⟨bits, m.storage.depth⟩ : StaticStorage3DOf B) ∧
      path (⟨bits, m.storage.depth⟩ : StaticStorage3DOf B) = path m.storage := by
  have hle : Bits.BITS B / dim Octant * dim Octant ≤ Bits.BITS B := Nat.div_mul_le_self _ _
  have hmul : m.storage.depth * dim Octant ≤ Bits.BITS B / dim Octant * dim Octant := Nat.mul_le_mul_right _ hd
  obtain ⟨s', h1, h2, h3, h4, h5, h6, h7⟩ := set_range hc 0 m.storage.depth (slot m.storage) (Nat.zero_le _)
    (StaticStorage3DOf.default B) hw (show m.storage.depth * dim Octant ≤ Bits.BITS B by omega)
    (fun level ret => Storage.setCellAtLevelUnchecked c ret level (slot m.storage level))
    (fun _ _ _ _ _ => rfl)
  have hnot : ¬ m.depth > FixedDepthStorage.MAX_LEVELS (Bits.BITS B) Octant := by
    change ¬ m.storage.depth > Bits.BITS B / dim Octant; omega
  have hloop : forRange 0 m.depth (⟨StaticStorage3DOf.default B⟩ : MortonIndex3D (StaticStorage3DOf B))
      (fun level ret => do
        MortonIndex3D.setCellAtLevelUnchecked c ret level (← m.getCellAtLevelUnchecked c level)) =
      .ok ⟨s'⟩ := by
    have key : ∀ (xs : List Nat) (t : StaticStorage3DOf B), (∀ x ∈ xs, x < m.storage.depth) →
        xs.foldlM (fun (ret : MortonIndex3D (StaticStorage3DOf B)) level => do
          MortonIndex3D.setCellAtLevelUnchecked c ret level (← m.getCellAtLevelUnchecked c level)) ⟨t⟩ =
        (xs.foldlM (fun ret level => Storage.setCellAtLevelUnchecked c ret level (slot m.storage level)) t >>=
          fun s => .ok ⟨s⟩) := by
      intro xs
      induction xs with
      | nil => intro t _; rfl
      | cons x xs ih =>
        intro t hx
        have hx1 := hx x (List.mem_cons_self ..)
        rw [List.foldlM_cons, List.foldlM_cons]
        simp only [getCellAtLevelUnchecked, get_slot hc h (show x < Storage.depth m.storage from hx1), ok_bind,
          setCellAtLevelUnchecked]
        cases hset : Storage.setCellAtLevelUnchecked c t x (slot m.storage x) with
        | error e => rfl
        | ok t' => exact ih t' (fun y hy => hx y (List.mem_cons_of_mem _ hy))
    unfold forRange at h1 ⊢
    have := key (List.range' 0 (m.depth - 0)) (StaticStorage3DOf.default B) (by
      intro x hx
      rw [List.mem_range'_1] at hx
      have : m.depth = m.storage.depth := rfl
      omega)
    rw [this]
    change (List.foldlM _ _ (List.range' 0 (m.storage.depth - 0)) >>= _) = _
    rw [h1]; rfl
  refine ⟨s'.bits, ?_, ?_, ?_⟩
  · unfold dynamicToStaticOf
    simp only [hnot, if_false, hloop, ok_bind, pure_eq_ok]
    rfl
  · intro i hi
    have := h7 i hi
    rw [StaticStorage3DOf.default, StaticStorage3DOf.default_bits] at this
    exact this
  · apply path_of_slots
    · rw [path_length]; rfl
    · intro k hk
      rw [path_getElem]
      rw [path_length] at hk
      exact h5 k (Nat.zero_le _) hk

end MortonIndex3D

end MortonRs
