import Verif.Lemmas.Store
import Verif.Model.Index2D

/-! # The 2D storages are `BitStorage`s; what their operations do to the stored path -/

namespace MortonRs

open BitStorage

theorem dim_Quadrant : dim Quadrant = 2 := rfl

theorem zeroCell_Quadrant : (LawfulDim.ofNat 0 : Quadrant) = .Zero := rfl

instance (w : Nat) : BitStorage (FixedDepthStorage2D w) Quadrant where
  value s := s.bits.toNat
  width _ := w
  fit _ _ := IntWidth w
  written _ v := v
  value_lt s := s.bits.isLt
  get_ok hc hf hl := intGet_ok hc hf _ _ hl
  set_ok {c s l} v hc hf hl := by
    obtain ⟨y, h1, h2⟩ := intSet_ok hc hf s.bits l v hl
    refine ⟨⟨y⟩, ?_, hf, rfl, rfl, h2⟩
    simp only [Storage.setCellAtLevelUnchecked]
    rw [h1]; rfl

instance (w : Nat) : BitStorage (StaticStorage2D w) Quadrant where
  value s := s.bits.toNat
  width _ := w
  fit _ _ := IntWidth w
  written _ v := v
  value_lt s := s.bits.isLt
  get_ok hc hf hl := intGet_ok hc hf _ _ hl
  set_ok {c s l} v hc hf hl := by
    obtain ⟨y, h1, h2⟩ := intSet_ok hc hf s.bits l v hl
    refine ⟨⟨y, s.depth⟩, ?_, hf, rfl, rfl, h2⟩
    simp only [Storage.setCellAtLevelUnchecked]
    have h1' : StaticStorage.setCellAtLevelUnchecked c w s.bits l v = .ok y := h1
    rw [h1']; rfl

instance : BitStorage DynamicStorage2D Quadrant where
  value s := leValue s.bits
  width s := 8 * s.bits.length
  fit c s := Fits c (8 * s.bits.length)
  written c v := dynWritten c v
  value_lt s := leValue_lt s.bits
  get_ok hc hf hl := vecGet_ok hc _ _ hf hl
  set_ok {c s l} v hc hf hl := by
    obtain ⟨y, h1, h2, h3⟩ := vecSet_ok hc s.bits l v hf hl
    refine ⟨⟨y, s.depth⟩, ?_, by simpa [h2] using hf, by simp [h2], rfl, h3⟩
    simp only [Storage.setCellAtLevelUnchecked]
    rw [h1]; rfl

/-! ## Fixed depth -/

namespace FixedDepthStorage2D

variable {w : Nat}

theorem depth_eq (s : FixedDepthStorage2D w) : Storage.depth s = w / dim Quadrant := rfl

theorem wf {c : Cfg} (hw : IntWidth w) (s : FixedDepthStorage2D w) : WF c s :=
  ⟨hw, Nat.div_mul_le_self w (dim Quadrant)⟩

theorem ext_value {s t : FixedDepthStorage2D w} (h : value s = value t) : s = t := by
  obtain ⟨a⟩ := s
  obtain ⟨b⟩ := t
  congr
  exact BitVec.eq_of_toNat_eq h

theorem default_bits (i : Nat) : (value (FixedDepthStorage2D.default w)).testBit i = false := by
  simp [value, FixedDepthStorage2D.default]

theorem default_slot (l : Nat) (hl : (l + 1) * dim Quadrant ≤ w) :
    slot (FixedDepthStorage2D.default w) l = .Zero :=
  slot_zero_of_bits hl (Nat.le_refl _) fun i _ => default_bits i

theorem tailZero_default : TailZero (FixedDepthStorage2D.default w) := fun i _ => default_bits i

theorem tryFrom_ok {c : Cfg} (hc : c.Supported) (hw : IntWidth w) (cs : List Quadrant)
    (hlen : cs.length ≤ w / dim Quadrant) :
    ∃ s, tryFromSlice c w cs = .ok (.ok s) ∧ tryFromArray c w cs = .ok (.ok s) ∧ TailZero s ∧
      path s = cs ++ List.replicate (w / dim Quadrant - cs.length) .Zero := by
  have hwd := Nat.div_mul_le_self w (dim Quadrant)
  have hmul : (0 + cs.length) * dim Quadrant ≤ w / dim Quadrant * dim Quadrant :=
    Nat.mul_le_mul_right _ (by omega)
  obtain ⟨s, h1, h2, h3, h4, h5, h6, h7⟩ := set_many (c := c) hc (fun _ => rfl) 0 cs
    (FixedDepthStorage2D.default w) hw (Nat.le_trans hmul hwd)
    (fun level cell ret => Storage.setCellAtLevelUnchecked c ret level cell)
    (fun i x t _ => by rw [Nat.zero_add])
  have hnot : ¬ cs.length > FixedDepthStorage.MAX_LEVELS w Quadrant := by
    change ¬ cs.length > w / dim Quadrant; omega
  refine ⟨s, ?_, ?_, ?_, ?_⟩
  · simp only [tryFromSlice, hnot, if_false, h1, ok_bind, pure_eq_ok]
  · simp only [tryFromArray, hnot, if_false, h1, ok_bind, pure_eq_ok]
  · intro i hi
    have hi' : i < w - w / dim Quadrant * dim Quadrant := hi
    have := h7 i (by change i < w - _; omega)
    rw [this, default_bits]
  · apply path_of_slots
    · rw [depth_eq]; simp; omega
    · intro k hk
      have hk' : k < w / dim Quadrant := by simp at hk; omega
      by_cases h : k < cs.length
      · rw [List.getElem_append_left h, ← h5 k h, Nat.zero_add]
      · have hkw : (k + 1) * dim Quadrant ≤ w := Nat.le_trans (Nat.mul_le_mul_right _ hk') hwd
        rw [List.getElem_append_right (by omega), List.getElem_replicate, h6 k hkw (by omega),
          default_slot k hkw]

theorem tryFrom_error {c : Cfg} (cs : List Quadrant) (hlen : cs.length > w / dim Quadrant) :
    tryFromSlice c w cs = .ok (.error (.DepthLimitedExceeded (w / dim Quadrant))) ∧
      tryFromArray c w cs = .ok (.error (.DepthLimitedExceeded (w / dim Quadrant))) := by
  have h : cs.length > FixedDepthStorage.MAX_LEVELS w Quadrant := hlen
  constructor
  · simp only [tryFromSlice, h, if_true, pure_eq_ok]; rfl
  · simp only [tryFromArray, h, if_true, pure_eq_ok]; rfl

end FixedDepthStorage2D

/-! ## Static -/

namespace StaticStorage2D

variable {w : Nat}

theorem wf_iff {c : Cfg} (hw : IntWidth w) (s : StaticStorage2D w) : WF c s ↔ s.depth ≤ w / dim Quadrant := by
  rw [Nat.le_div_iff_mul_le (dim_pos Quadrant)]
  exact ⟨fun h => h.depth_le, fun h => ⟨hw, h⟩⟩

theorem depth_small (hw : IntWidth w) {d : Nat} (h : d ≤ w / dim Quadrant) : d < 256 := by
  have := hw.le
  have := Nat.div_le_self w (dim Quadrant)
  omega

theorem ext_value {s t : StaticStorage2D w} (h : value s = value t) (hd : Storage.depth s = Storage.depth t) :
    s = t := by
  obtain ⟨a, d⟩ := s
  obtain ⟨b, e⟩ := t
  have h1 : a = b := BitVec.eq_of_toNat_eq h
  have h2 : d = e := hd
  rw [h1, h2]

theorem default_bits (i d : Nat) : (value (⟨0#w, d⟩ : StaticStorage2D w)).testBit i = false := by
  simp [value]

theorem zero_slot (d l : Nat) (hl : (l + 1) * dim Quadrant ≤ w) :
    slot (⟨0#w, d⟩ : StaticStorage2D w) l = .Zero :=
  slot_zero_of_bits hl (Nat.le_refl _) fun i _ => default_bits i d

theorem zero_path (d : Nat) (hd : d ≤ w / dim Quadrant) :
    path (⟨0#w, d⟩ : StaticStorage2D w) = List.replicate d .Zero := by
  have hwd := Nat.div_mul_le_self w (dim Quadrant)
  apply path_of_slots
  · simp [Storage.depth]
  · intro k hk
    rw [List.getElem_replicate]
    rw [List.length_replicate] at hk
    exact zero_slot d k (Nat.le_trans (Nat.mul_le_mul_right _ (by omega)) hwd)

theorem tryFrom_ok {c : Cfg} (hc : c.Supported) (hw : IntWidth w) (cs : List Quadrant)
    (hlen : cs.length ≤ w / dim Quadrant) :
    ∃ s, tryFromSlice c w cs = .ok (.ok s) ∧ tryFromArray c w cs = .ok (.ok s) ∧ WF c s ∧ TailZero s ∧
      path s = cs := by
  have hwd := Nat.div_mul_le_self w (dim Quadrant)
  have hmul : (0 + cs.length) * dim Quadrant ≤ w / dim Quadrant * dim Quadrant :=
    Nat.mul_le_mul_right _ (by omega)
  obtain ⟨s, h1, h2, h3, h4, h5, h6, h7⟩ := set_many (c := c) hc (fun _ => rfl) 0 cs
    (StaticStorage2D.default w) hw (Nat.le_trans hmul hwd)
    (fun level cell ret => Storage.setCellAtLevelUnchecked c ret level cell)
    (fun i x t _ => by rw [Nat.zero_add])
  have hnot : ¬ cs.length > StaticStorage.MAX_LEVELS w Quadrant := by
    change ¬ cs.length > w / dim Quadrant; omega
  have h8 : asU8 cs.length = cs.length := Nat.mod_eq_of_lt (depth_small hw hlen)
  refine ⟨⟨s.bits, cs.length⟩, ?_, ?_, (wf_iff hw _).mpr hlen, ?_, ?_⟩
  · simp only [tryFromSlice, hnot, if_false, h1, ok_bind, pure_eq_ok, h8]
  · simp only [tryFromArray, hnot, if_false, h1, ok_bind, pure_eq_ok, h8]
  · intro i hi
    have hi' : i < w - cs.length * dim Quadrant := hi
    have := h7 i (by change i < w - _; rw [Nat.zero_add]; exact hi')
    rw [StaticStorage2D.default, default_bits] at this
    exact this
  · apply path_of_slots rfl
    intro k hk
    have := h5 k hk
    rw [Nat.zero_add] at this
    exact this

theorem tryFrom_error {c : Cfg} (cs : List Quadrant) (hlen : cs.length > w / dim Quadrant) :
    tryFromSlice c w cs = .ok (.error (.DepthLimitedExceeded (w / dim Quadrant))) ∧
      tryFromArray c w cs = .ok (.error (.DepthLimitedExceeded (w / dim Quadrant))) := by
  have h : cs.length > StaticStorage.MAX_LEVELS w Quadrant := hlen
  constructor
  · simp only [tryFromSlice, h, if_true, pure_eq_ok]; rfl
  · simp only [tryFromArray, h, if_true, pure_eq_ok]; rfl

theorem ancestor_none {c : Cfg} (s : StaticStorage2D w) (g : NonZeroUsize) (hg : g.val > s.depth) :
    s.ancestor c g = .ok none := by
  simp only [ancestor, hg, if_true, pure_eq_ok]

theorem ancestor_some {c : Cfg} (hc : c.Supported) {s : StaticStorage2D w} (h : WF c s)
    (g : NonZeroUsize) (hg : g.val ≤ s.depth) :
    ∃ a, s.ancestor c g = .ok (some a) ∧ WF c a ∧ (TailZero s → TailZero a) ∧
      path a = (path s).take (s.depth - g.val) := by
  have hw : IntWidth w := h.fit
  have hdep := (wf_iff hw s).mp h
  have h256 := depth_small hw hdep
  have hnot : ¬ g.val > s.depth := by omega
  have h8 : asU8 g.val = g.val := Nat.mod_eq_of_lt (by omega)
  obtain ⟨t, h1, h2, h3, h4, h5, h6, h7⟩ := set_range (c := c) hc (s.depth - g.val) s.depth
    (fun _ => Quadrant.Zero) (by omega) s hw h.depth_le
    (fun level ret => Storage.setCellAtLevelUnchecked c ret level Quadrant.Zero) (fun _ _ _ _ _ => rfl)
  refine ⟨⟨t.bits, s.depth - g.val⟩, ?_, (wf_iff hw _).mpr (by simp only; omega), ?_, ?_⟩
  · simp only [ancestor, hnot, if_false, h8, u8sub_ok hg, ok_bind, h1, pure_eq_ok]
  · intro hz
    exact bits_zero_of_slots (s := t) (a := s.depth - g.val) (d := s.depth) h.depth_le
      (fun k hk1 hk2 => h5 k hk1 hk2) (fun i hi => by rw [h7 i hi]; exact hz i hi)
  · apply path_of_slots
    · simp only [Storage.depth, List.length_take, path_length]; omega
    · intro k hk
      rw [List.length_take, path_length] at hk
      have hk' : k < s.depth - g.val := by omega
      rw [List.getElem_take, path_getElem]
      exact h6 k (level_le h (by change k < s.depth; omega)) (Or.inl hk')

theorem descendant_none {c : Cfg} (s : StaticStorage2D w)
    (cs : List Quadrant) (hlen : s.depth + cs.length < 2 ^ c.ptrBits)
    (hn : s.depth + cs.length > w / dim Quadrant) :
    s.descendant c cs = .ok none := by
  have h : s.depth + cs.length > StaticStorage.MAX_LEVELS w Quadrant := hn
  simp only [descendant, uadd_ok hlen, ok_bind, h, if_true, pure_eq_ok]

theorem descendant_some {c : Cfg} (hc : c.Supported) {s : StaticStorage2D w} (h : WF c s)
    (cs : List Quadrant) (hn : s.depth + cs.length ≤ w / dim Quadrant) :
    ∃ a, s.descendant c cs = .ok (some a) ∧ WF c a ∧ (TailZero s → TailZero a) ∧
      path a = path s ++ cs := by
  have hw : IntWidth w := h.fit
  have hp := hc.le
  have h256 := depth_small hw hn
  have hwd := Nat.div_mul_le_self w (dim Quadrant)
  have hnot : ¬ s.depth + cs.length > StaticStorage.MAX_LEVELS w Quadrant := by
    change ¬ s.depth + cs.length > w / dim Quadrant; omega
  have h8 : asU8 (s.depth + cs.length) = s.depth + cs.length := Nat.mod_eq_of_lt (by omega)
  have hmul : (s.depth + cs.length) * dim Quadrant ≤ w / dim Quadrant * dim Quadrant :=
    Nat.mul_le_mul_right _ hn
  obtain ⟨t, h1, h2, h3, h4, h5, h6, h7⟩ := set_many (c := c) hc (fun _ => rfl) s.depth cs
    s hw (Nat.le_trans hmul hwd)
    (fun offset cell ret => do
      Storage.setCellAtLevelUnchecked c ret (← uadd c s.depth offset) cell)
    (fun i x t hi => by
      have : s.depth + i < 2 ^ c.ptrBits := by omega
      simp only [uadd_ok this, ok_bind])
  refine ⟨⟨t.bits, s.depth + cs.length⟩, ?_, (wf_iff hw _).mpr hn, ?_, ?_⟩
  · have a1 : s.depth + cs.length < 2 ^ c.ptrBits := by omega
    simp only [descendant, uadd_ok a1, hnot, if_false, ok_bind, h1, pure_eq_ok, h8]
  · intro hz i hi
    have hi' : i < w - (s.depth + cs.length) * dim Quadrant := hi
    have : s.depth * dim Quadrant ≤ (s.depth + cs.length) * dim Quadrant :=
      Nat.mul_le_mul_right _ (by omega)
    have e := h7 i hi'
    rw [hz i (by change i < w - s.depth * dim Quadrant; omega)] at e
    exact e
  · apply path_of_slots
    · simp [Storage.depth]
    · intro k hk
      rw [List.length_append, path_length] at hk
      have hk' : k < s.depth + cs.length := hk
      by_cases hks : k < s.depth
      · rw [List.getElem_append_left (by rw [path_length]; exact hks), path_getElem]
        exact h6 k (level_le h hks) (Or.inl hks)
      · have hle : (path s).length ≤ k := by rw [path_length]; change s.depth ≤ k; omega
        rw [List.getElem_append_right hle]
        have e := h5 (k - s.depth) (by omega)
        rw [show s.depth + (k - s.depth) = k by omega] at e
        simp only [path_length]
        exact e

end StaticStorage2D

/-! ## Dynamic -/

namespace DynamicStorage2D

/-- Number of bytes for a depth. -/
def numBytes (n : Nat) : Nat := (n * dim Quadrant + 7) / 8

/-- What holds of every dynamic storage: its depth is addressable and it has the number of bytes its
depth calls for, or one more (`zeroed`). -/
structure Inv (c : Cfg) (s : DynamicStorage2D) : Prop where
  addr : Addressable c (s.depth * dim Quadrant)
  lo : numBytes s.depth ≤ s.bits.length
  hi : s.bits.length ≤ numBytes s.depth + 1

/-- Canonical: the exact number of bytes and zero bits behind the last cell. -/
structure Canon (c : Cfg) (s : DynamicStorage2D) : Prop where
  addr : Addressable c (s.depth * dim Quadrant)
  len : s.bits.length = numBytes s.depth
  tail : TailZero s

theorem Canon.inv {c : Cfg} {s : DynamicStorage2D} (h : Canon c s) : Inv c s :=
  ⟨h.addr, by rw [h.len]; omega, by rw [h.len]; omega⟩

theorem Inv.wf {c : Cfg} {s : DynamicStorage2D} (h : Inv c s) : WF c s := by
  obtain ⟨h1, h2, h3⟩ := h
  unfold Addressable at h1
  unfold numBytes at h2 h3
  refine ⟨?_, ?_⟩
  · change 8 * s.bits.length + 15 < _
    omega
  · change s.depth * dim Quadrant ≤ 8 * s.bits.length
    omega

theorem Inv.depth_lt {c : Cfg} {s : DynamicStorage2D} (h : Inv c s) : s.depth + 64 < 2 ^ c.ptrBits := by
  have := h.addr
  unfold Addressable at this
  rw [dim_Quadrant] at this
  omega

theorem Canon.depth_lt {c : Cfg} {s : DynamicStorage2D} (h : Canon c s) : s.depth + 64 < 2 ^ c.ptrBits :=
  h.inv.depth_lt

theorem ext_value {s t : DynamicStorage2D} (h : value s = value t)
    (hw : s.bits.length = t.bits.length) (hd : Storage.depth s = Storage.depth t) : s = t := by
  obtain ⟨a, d⟩ := s
  obtain ⟨b, e⟩ := t
  have h1 : a = b := eq_of_leValue_eq hw h
  have h2 : d = e := hd
  rw [h1, h2]

theorem value_testBit (s : DynamicStorage2D) (i : Nat) : (value s).testBit i = bitOf s.bits i :=
  testBit_leValue s.bits i

theorem zero_bits (n d i : Nat) : (value (⟨List.replicate n 0#8, d⟩ : DynamicStorage2D)).testBit i = false := by
  rw [value_testBit, bitOf_replicate]

theorem zero_slot (n d l : Nat) (hl : (l + 1) * dim Quadrant ≤ 8 * n) :
    slot (⟨List.replicate n 0#8, d⟩ : DynamicStorage2D) l = .Zero :=
  slot_zero_of_bits (by change _ ≤ 8 * (List.replicate n 0#8).length; simpa using hl)
    (Nat.le_refl _) fun i _ => zero_bits n d i

theorem zero_path (n d : Nat) (hd : numBytes d ≤ n) :
    path (⟨List.replicate n 0#8, d⟩ : DynamicStorage2D) = List.replicate d .Zero := by
  apply path_of_slots
  · simp [Storage.depth]
  · intro k hk
    rw [List.getElem_replicate]
    rw [List.length_replicate] at hk
    have h1 : (k + 1) * dim Quadrant ≤ d * dim Quadrant := Nat.mul_le_mul_right _ hk
    unfold numBytes at hd
    exact zero_slot n d k (by omega)

/-- The construction loop shared by the constructors. -/
theorem build_ok {c : Cfg} (hc : c.Supported) (cs : List Quadrant)
    (ha : Addressable c (cs.length * dim Quadrant)) :
    ∃ s, forEnum cs (⟨List.replicate (numBytes cs.length) 0#8, cs.length⟩ : DynamicStorage2D)
      (fun level cell ret => Storage.setCellAtLevelUnchecked c ret level cell) = .ok s ∧
      s.depth = cs.length ∧ Canon c s ∧ (DynWrites c → path s = cs) := by
  have hI : Inv c (⟨List.replicate (numBytes cs.length) 0#8, cs.length⟩ : DynamicStorage2D) :=
    ⟨ha, by simp, by simp⟩
  have hdl := hI.wf.depth_le
  obtain ⟨s, h1, h2, h3, h4, h7⟩ := set_many_total (c := c) hc 0 cs _ hI.wf.fit
    (by rw [Nat.zero_add]; exact hdl)
    (fun level cell ret => Storage.setCellAtLevelUnchecked c ret level cell)
    (fun i x t _ => by rw [Nat.zero_add])
  have hd : s.depth = cs.length := h4
  have hlen : s.bits.length = numBytes cs.length := by
    have : 8 * s.bits.length = 8 * (List.replicate (numBytes cs.length) 0#8).length := h3
    rw [List.length_replicate] at this
    omega
  refine ⟨s, h1, hd, ⟨by rw [hd]; exact ha, by rw [hlen, hd], ?_⟩, ?_⟩
  · intro i hi
    have e := h7 i (by rw [Nat.zero_add, ← h3, ← hd]; exact hi)
    rw [e, zero_bits]
  · intro hwr
    obtain ⟨s', g1, g2, g3, g4, g5, g6, g7⟩ := set_many (c := c) hc
      (fun v => by simp [written, dynWritten, hwr]) 0 cs _ hI.wf.fit
      (by rw [Nat.zero_add]; exact hdl)
      (fun level cell ret => Storage.setCellAtLevelUnchecked c ret level cell)
      (fun i x t _ => by rw [Nat.zero_add])
    have : s' = s := by rw [g1] at h1; exact Except.ok.inj h1
    subst this
    apply path_of_slots hd
    intro k hk
    have := g5 k hk
    rw [Nat.zero_add] at this
    exact this

theorem tryFrom_ok {c : Cfg} (hc : c.Supported) (cs : List Quadrant)
    (ha : Addressable c (cs.length * dim Quadrant)) :
    ∃ s, tryFromSlice c cs = .ok (.ok s) ∧ tryFromArray c cs = .ok (.ok s) ∧ s.depth = cs.length ∧
      Canon c s ∧ (DynWrites c → path s = cs) := by
  obtain ⟨s, h1, h2, h3, h4⟩ := build_ok hc cs ha
  have a1 : cs.length + 3 < 2 ^ c.ptrBits := by
    unfold Addressable at ha; rw [dim_Quadrant] at ha; omega
  have a2 : (cs.length + 3) / 4 = numBytes cs.length := by unfold numBytes; rw [dim_Quadrant]; omega
  refine ⟨s, ?_, ?_, h2, h3, h4⟩
  · simp only [tryFromSlice, uadd_ok a1, ok_bind, a2, h1, pure_eq_ok]
  · simp only [tryFromArray, uadd_ok a1, ok_bind, a2, h1, pure_eq_ok]

theorem ancestor_none {c : Cfg} (s : DynamicStorage2D) (g : NonZeroUsize) (hg : g.val > s.depth) :
    s.ancestor c g = .ok none := by
  simp only [ancestor, hg, if_true, pure_eq_ok]

/-- What `ancestor` computes on the bits. -/
theorem ancestor_bits {c : Cfg} {s : DynamicStorage2D} (h : Inv c s)
    (g : NonZeroUsize) (hg : g.val ≤ s.depth) :
    ∃ a, s.ancestor c g = .ok (some a) ∧ a.depth = s.depth - g.val ∧
      a.bits.length + (numBytes s.depth - numBytes a.depth) = s.bits.length ∧
      ∀ i, bitOf a.bits i = (bitOf s.bits (i + 8 * (numBytes s.depth - numBytes a.depth)) &&
        decide (8 * numBytes a.depth - a.depth * dim Quadrant ≤ i)) := by
  have hdl := h.depth_lt
  have hlo := h.lo
  have hnot : ¬ g.val > s.depth := by omega
  have a1 : s.depth + 3 < 2 ^ c.ptrBits := by omega
  have a2 : s.depth - g.val + 3 < 2 ^ c.ptrBits := by omega
  have e1 : (s.depth + 3) / 4 = numBytes s.depth := by unfold numBytes; rw [dim_Quadrant]; omega
  have e2 : (s.depth - g.val + 3) / 4 = numBytes (s.depth - g.val) := by
    unfold numBytes; rw [dim_Quadrant]; omega
  have hmono : numBytes (s.depth - g.val) ≤ numBytes s.depth := by
    unfold numBytes; rw [dim_Quadrant]; omega
  have hlen : (s.bits.drop (numBytes s.depth - numBytes (s.depth - g.val))).length +
      (numBytes s.depth - numBytes (s.depth - g.val)) = s.bits.length := by
    rw [List.length_drop]; omega
  by_cases hm : numBytes (s.depth - g.val) > 0 ∧ (s.depth - g.val) % 4 > 0
  · have a3 : (s.depth - g.val) % 4 ≤ 4 := by omega
    have a4 : (4 - (s.depth - g.val) % 4) * 2 < 2 ^ c.ptrBits := by omega
    have a5 : (4 - (s.depth - g.val) % 4) * 2 < 8 := by omega
    have a6 : 0 < (s.bits.drop (numBytes s.depth - numBytes (s.depth - g.val))).length := by omega
    obtain ⟨b0, nb, m1, m2, m3, m4, m6, m5⟩ := maskFirst_ok (c := c) _ _ a5 a6
    refine ⟨⟨nb, s.depth - g.val⟩, ?_, rfl, by simp only [m6]; exact hlen, ?_⟩
    · simp only [ancestor, hnot, if_false, usub_ok hg, uadd_ok a1, uadd_ok a2, ok_bind, e1, e2, usub_ok hmono,
        hm, and_self, if_true, usub_ok a3, umul_ok a4, m1, m2, m3, m4, pure_eq_ok]
    · intro i
      rw [m5, bitOf_drop]
      congr 2
      have : 8 * numBytes (s.depth - g.val) - (s.depth - g.val) * dim Quadrant =
          (4 - (s.depth - g.val) % 4) * 2 := by
        unfold numBytes; rw [dim_Quadrant]; omega
      simp only [this]
  · refine ⟨⟨s.bits.drop (numBytes s.depth - numBytes (s.depth - g.val)), s.depth - g.val⟩, ?_, rfl,
      hlen, ?_⟩
    · simp only [ancestor, hnot, if_false, usub_ok hg, uadd_ok a1, uadd_ok a2, ok_bind, e1, e2, usub_ok hmono,
        hm, pure_eq_ok]
    · intro i
      rw [bitOf_drop]
      have : 8 * numBytes (s.depth - g.val) - (s.depth - g.val) * dim Quadrant = 0 := by
        unfold numBytes at *; rw [dim_Quadrant] at *; omega
      simp [this]

theorem ancestor_some {c : Cfg} {s : DynamicStorage2D} (h : Inv c s)
    (g : NonZeroUsize) (hg : g.val ≤ s.depth) :
    ∃ a, s.ancestor c g = .ok (some a) ∧ Inv c a ∧ (Canon c s → Canon c a) ∧
      path a = (path s).take (s.depth - g.val) := by
  obtain ⟨a, h1, h2, h3, h4⟩ := ancestor_bits h g hg
  have hmul : a.depth * dim Quadrant ≤ s.depth * dim Quadrant := Nat.mul_le_mul_right _ (by omega)
  have hadr := h.addr
  have hlo := h.lo
  have hhi := h.hi
  have haddr : Addressable c (a.depth * dim Quadrant) := by unfold Addressable at *; omega
  have hmono : numBytes a.depth ≤ numBytes s.depth := by unfold numBytes; omega
  have hinv : Inv c a := ⟨haddr, by omega, by omega⟩
  refine ⟨a, h1, hinv, fun hcn => ⟨haddr, by rw [hcn.len] at h3; omega, ?_⟩, ?_⟩
  · intro i hi
    have hi' : i < 8 * a.bits.length - a.depth * dim Quadrant := hi
    rw [hcn.len] at h3
    have : ¬ 8 * numBytes a.depth - a.depth * dim Quadrant ≤ i := by omega
    rw [value_testBit, h4 i]
    simp [this]
  · apply path_of_slots
    · rw [List.length_take, path_length]
      change a.depth = min (s.depth - g.val) s.depth
      omega
    · intro k hk
      rw [List.length_take, path_length] at hk
      have hk' : k < a.depth := by omega
      rw [List.getElem_take, path_getElem]
      refine slot_shift (n := 8 * (numBytes s.depth - numBytes a.depth)) ?_ (level_le hinv.wf hk') ?_
      · change 8 * a.bits.length + _ = 8 * s.bits.length
        omega
      · intro i hi
        have hle := level_le hinv.wf hk'
        have hi' : 8 * a.bits.length - (k + 1) * dim Quadrant ≤ i := hi
        have hka : (k + 1) * dim Quadrant ≤ a.depth * dim Quadrant := Nat.mul_le_mul_right _ hk'
        rw [value_testBit, value_testBit, h4 i]
        have : 8 * numBytes a.depth - a.depth * dim Quadrant ≤ i := by omega
        simp [this]

theorem descendant_some {c : Cfg} (hc : c.Supported) {s : DynamicStorage2D} (h : Inv c s)
    (cs : List Quadrant) (ha : Addressable c ((s.depth + cs.length) * dim Quadrant)) :
    ∃ a, s.descendant c cs = .ok (some a) ∧ Inv c a ∧ (Canon c s → Canon c a) ∧
      a.depth = s.depth + cs.length ∧ (DynWrites c → path a = path s ++ cs) := by
  have hlo := h.lo
  have hhi := h.hi
  have a0 : s.depth + cs.length + 64 < 2 ^ c.ptrBits := by
    unfold Addressable at ha; rw [dim_Quadrant] at ha; omega
  have a1 : s.depth + cs.length < 2 ^ c.ptrBits := by omega
  have a2 : s.depth + 3 < 2 ^ c.ptrBits := by omega
  have a3 : s.depth + cs.length + 3 < 2 ^ c.ptrBits := by omega
  have e1 : (s.depth + 3) / 4 = numBytes s.depth := by unfold numBytes; rw [dim_Quadrant]; omega
  have e2 : (s.depth + cs.length + 3) / 4 = numBytes (s.depth + cs.length) := by
    unfold numBytes; rw [dim_Quadrant]; omega
  have hmono : numBytes s.depth ≤ numBytes (s.depth + cs.length) := by
    unfold numBytes; rw [dim_Quadrant]; omega
  let r : DynamicStorage2D :=
    ⟨List.replicate (numBytes (s.depth + cs.length) - numBytes s.depth) 0#8 ++ s.bits, s.depth + cs.length⟩
  have hrlen : r.bits.length = numBytes (s.depth + cs.length) - numBytes s.depth + s.bits.length := by
    simp [r]
  have hr : Inv c r := ⟨ha, by rw [hrlen]; change numBytes (s.depth + cs.length) ≤ _; omega,
    by rw [hrlen]; change _ ≤ numBytes (s.depth + cs.length) + 1; omega⟩
  have hrslot : ∀ k, k < s.depth → slot r k = slot s k := by
    intro k hk
    have hk1 := level_le h.wf (show k < Storage.depth s from hk)
    have hk2 : (k + 1) * dim Quadrant ≤ 8 * s.bits.length := hk1
    refine (slot_shift (n := 8 * (numBytes (s.depth + cs.length) - numBytes s.depth)) ?_ hk1 ?_).symm
    · change 8 * s.bits.length + _ = 8 * r.bits.length
      omega
    · intro i _
      rw [value_testBit, value_testBit, bitOf_pad, if_neg (by omega), Nat.add_sub_cancel]
  have hbody : ∀ i x (t : DynamicStorage2D), i < cs.length →
      (do Storage.setCellAtLevelUnchecked c t (← uadd c s.depth i) x) =
        Storage.setCellAtLevelUnchecked c t (s.depth + i) x := by
    intro i x t hi
    have : s.depth + i < 2 ^ c.ptrBits := by omega
    simp only [uadd_ok this, ok_bind]
  obtain ⟨t, h1, h2, h3, h4, h7⟩ := set_many_total (c := c) hc s.depth cs r hr.wf.fit hr.wf.depth_le
    (fun offset cell ret => do
      Storage.setCellAtLevelUnchecked c ret (← uadd c s.depth offset) cell) hbody
  have hd : t.depth = s.depth + cs.length := h4
  have hlen : t.bits.length = r.bits.length := by
    have : 8 * t.bits.length = 8 * r.bits.length := h3
    omega
  have hrl := hr.lo
  have hrh := hr.hi
  change numBytes (s.depth + cs.length) ≤ _ at hrl
  change _ ≤ numBytes (s.depth + cs.length) + 1 at hrh
  refine ⟨t, ?_, ⟨by rw [hd]; exact ha, by rw [hd, hlen]; exact hrl, by rw [hd, hlen]; exact hrh⟩, ?_, hd, ?_⟩
  · simp only [descendant, uadd_ok a1, uadd_ok a2, uadd_ok a3, ok_bind, e1, e2, usub_ok hmono, pure_eq_ok]
    have h1' := h1
    simp only [r] at h1'
    rw [h1']; rfl
  · intro hcn
    have hcl := hcn.len
    refine ⟨by rw [hd]; exact ha, by rw [hd, hlen, hrlen]; omega, ?_⟩
    intro i hi
    have hi' : i < 8 * t.bits.length - t.depth * dim Quadrant := hi
    rw [hd] at hi'
    have hmul : s.depth * dim Quadrant ≤ (s.depth + cs.length) * dim Quadrant :=
      Nat.mul_le_mul_right _ (by omega)
    rw [h7 i (by change i < 8 * r.bits.length - _; omega), value_testBit, bitOf_pad]
    split
    · rfl
    · rw [← value_testBit]
      apply hcn.tail
      change _ < 8 * s.bits.length - s.depth * dim Quadrant
      omega
  · intro hwr
    obtain ⟨t', g1, g2, g3, g4, g5, g6, g7⟩ := set_many (c := c) hc
      (fun v => by simp [written, dynWritten, hwr]) s.depth cs r hr.wf.fit hr.wf.depth_le
      (fun offset cell ret => do
        Storage.setCellAtLevelUnchecked c ret (← uadd c s.depth offset) cell) hbody
    have : t' = t := by rw [g1] at h1; exact Except.ok.inj h1
    subst this
    apply path_of_slots
    · rw [List.length_append, path_length]; exact hd
    · intro k hk
      rw [List.length_append, path_length] at hk
      have hk' : k < s.depth + cs.length := hk
      by_cases hks : k < s.depth
      · rw [List.getElem_append_left (by rw [path_length]; exact hks), path_getElem, ← hrslot k hks]
        exact g6 k (level_le hr.wf (by exact hk')) (Or.inl hks)
      · have hle : (path s).length ≤ k := by rw [path_length]; change s.depth ≤ k; omega
        rw [List.getElem_append_right hle]
        have e := g5 (k - s.depth) (by omega)
        rw [show s.depth + (k - s.depth) = k by omega] at e
        simp only [path_length]
        exact e

end DynamicStorage2D

end MortonRs
