import Verif.Lemmas.Containers
import Verif.Lemmas.Cmp3D

/-! # The 3D storages over any lawful container: operations and order -/

namespace MortonRs

open BitStorage LawfulContainer

set_option linter.unusedSectionVars false

variable {B : Type} [FixedStorageType B] [LawfulContainer B]

instance : BitStorage (FixedDepthStorage3DOf B) Octant where
  value s := (val s.bits)
  width _ := Bits.BITS B
  fit c _ := on B c
  written _ v := v
  value_lt s := val_lt s.bits
  get_ok hc hf hl := containerGet_ok hf _ _ hl
  set_ok {c s l} v hc hf hl := by
    obtain ⟨y, h1, h2⟩ := containerSet_ok hf s.bits l v hl
    refine ⟨⟨y⟩, ?_, hf, rfl, rfl, h2⟩
    simp only [Storage.setCellAtLevelUnchecked]
    rw [h1]; rfl

instance : BitStorage (StaticStorage3DOf B) Octant where
  value s := (val s.bits)
  width _ := Bits.BITS B
  fit c _ := on B c
  written _ v := v
  value_lt s := val_lt s.bits
  get_ok hc hf hl := containerGet_ok hf _ _ hl
  set_ok {c s l} v hc hf hl := by
    obtain ⟨y, h1, h2⟩ := containerSet_ok hf s.bits l v hl
    refine ⟨⟨y, s.depth⟩, ?_, hf, rfl, rfl, h2⟩
    simp only [Storage.setCellAtLevelUnchecked]
    have h1' : StaticStorage.setCellAtLevelUnchecked c (Bits.BITS B) s.bits l v = .ok y := h1
    rw [h1']; rfl

/-! ## Fixed depth -/

namespace FixedDepthStorage3DOf


theorem depth_eq (s : FixedDepthStorage3DOf B) : Storage.depth s = Bits.BITS B / dim Octant := rfl

theorem wf {c : Cfg} (hw : on B c) (s : FixedDepthStorage3DOf B) : WF c s :=
  ⟨hw, Nat.div_mul_le_self (Bits.BITS B) (dim Octant)⟩

theorem default_bits (i : Nat) : (value (FixedDepthStorage3DOf.default B)).testBit i = false := by
  change (val (FixedStorageType.default : B)).testBit i = false
  rw [LawfulContainer.default, Nat.zero_testBit]

theorem default_slot (l : Nat) (hl : (l + 1) * dim Octant ≤ Bits.BITS B) :
    slot (FixedDepthStorage3DOf.default B) l = .Zero :=
  slot_zero_of_bits hl (Nat.le_refl _) fun i _ => default_bits i

theorem tailZero_default : TailZero (FixedDepthStorage3DOf.default B) := fun i _ => default_bits i

theorem tryFrom_ok {c : Cfg} (hc : c.Supported) (hw : on B c) (cs : List Octant)
    (hlen : cs.length ≤ Bits.BITS B / dim Octant) :
    ∃ s : FixedDepthStorage3DOf B, tryFromSlice c cs = .ok (.ok s) ∧ tryFromArray c cs = .ok (.ok s) ∧ TailZero s ∧
      path s = cs ++ List.replicate (Bits.BITS B / dim Octant - cs.length) .Zero := by
  have hwd := Nat.div_mul_le_self (Bits.BITS B) (dim Octant)
  have hmul : (0 + cs.length) * dim Octant ≤ Bits.BITS B / dim Octant * dim Octant :=
    Nat.mul_le_mul_right _ (by omega)
  obtain ⟨s, h1, h2, h3, h4, h5, h6, h7⟩ := set_many (c := c) hc (fun _ => rfl) 0 cs
    (FixedDepthStorage3DOf.default B) hw (Nat.le_trans hmul hwd)
    (fun level cell ret => Storage.setCellAtLevelUnchecked c ret level cell)
    (fun i x t _ => by rw [Nat.zero_add])
  have hnot : ¬ cs.length > FixedDepthStorage.MAX_LEVELS (Bits.BITS B) Octant := by
    change ¬ cs.length > Bits.BITS B / dim Octant; omega
  refine ⟨s, ?_, ?_, ?_, ?_⟩
  · simp only [tryFromSlice, hnot, if_false, h1, ok_bind, pure_eq_ok]
  · simp only [tryFromArray, hnot, if_false, h1, ok_bind, pure_eq_ok]
  · intro i hi
    have hi' : i < Bits.BITS B - Bits.BITS B / dim Octant * dim Octant := hi
    have := h7 i (by change i < Bits.BITS B - _; omega)
    rw [this, default_bits]
  · apply path_of_slots
    · rw [depth_eq]; simp; omega
    · intro k hk
      have hk' : k < Bits.BITS B / dim Octant := by simp at hk; omega
      by_cases h : k < cs.length
      · rw [List.getElem_append_left h, ← h5 k h, Nat.zero_add]
      · have hkw : (k + 1) * dim Octant ≤ Bits.BITS B := Nat.le_trans (Nat.mul_le_mul_right _ hk') hwd
        rw [List.getElem_append_right (by omega), List.getElem_replicate, h6 k hkw (by omega),
          default_slot k hkw]

theorem tryFrom_error {c : Cfg} (cs : List Octant) (hlen : cs.length > Bits.BITS B / dim Octant) :
    (tryFromSlice c cs : Res (Except Error (FixedDepthStorage3DOf B))) = .ok (.error (.DepthLimitedExceeded (Bits.BITS B / dim Octant))) ∧
      (tryFromArray c cs : Res (Except Error (FixedDepthStorage3DOf B))) = .ok (.error (.DepthLimitedExceeded (Bits.BITS B / dim Octant))) := by
  have h : cs.length > FixedDepthStorage.MAX_LEVELS (Bits.BITS B) Octant := hlen
  constructor
  · simp only [tryFromSlice, h, if_true, pure_eq_ok]; rfl
  · simp only [tryFromArray, h, if_true, pure_eq_ok]; rfl

end FixedDepthStorage3DOf

/-! ## Static -/

namespace StaticStorage3DOf


theorem wf_iff {c : Cfg} (hw : on B c) (s : StaticStorage3DOf B) : WF c s ↔ s.depth ≤ Bits.BITS B / dim Octant := by
  rw [Nat.le_div_iff_mul_le (dim_pos Octant)]
  exact ⟨fun h => h.depth_le, fun h => ⟨hw, h⟩⟩

/-- The depth is a `u8`: the container has at most 255 levels. -/
def Small (B : Type) [FixedStorageType B] : Prop := Bits.BITS B / dim Octant < 256

theorem default_bits (i d : Nat) : (value (⟨(FixedStorageType.default : B), d⟩ : StaticStorage3DOf B)).testBit i = false := by
  change (val (FixedStorageType.default : B)).testBit i = false
  rw [LawfulContainer.default, Nat.zero_testBit]

theorem zero_slot (d l : Nat) (hl : (l + 1) * dim Octant ≤ Bits.BITS B) :
    slot (⟨(FixedStorageType.default : B), d⟩ : StaticStorage3DOf B) l = .Zero :=
  slot_zero_of_bits hl (Nat.le_refl _) fun i _ => default_bits i d

theorem zero_path (d : Nat) (hd : d ≤ Bits.BITS B / dim Octant) :
    path (⟨(FixedStorageType.default : B), d⟩ : StaticStorage3DOf B) = List.replicate d .Zero := by
  have hwd := Nat.div_mul_le_self (Bits.BITS B) (dim Octant)
  apply path_of_slots
  · simp [Storage.depth]
  · intro k hk
    rw [List.getElem_replicate]
    rw [List.length_replicate] at hk
    exact zero_slot d k (Nat.le_trans (Nat.mul_le_mul_right _ (by omega)) hwd)

theorem tryFrom_ok {c : Cfg} (hc : c.Supported) (hB : Small B) (hw : on B c) (cs : List Octant)
    (hlen : cs.length ≤ Bits.BITS B / dim Octant) :
    ∃ s : StaticStorage3DOf B, tryFromSlice c cs = .ok (.ok s) ∧ tryFromArray c cs = .ok (.ok s) ∧ WF c s ∧ TailZero s ∧
      path s = cs := by
  have hwd := Nat.div_mul_le_self (Bits.BITS B) (dim Octant)
  have hmul : (0 + cs.length) * dim Octant ≤ Bits.BITS B / dim Octant * dim Octant :=
    Nat.mul_le_mul_right _ (by omega)
  obtain ⟨s, h1, h2, h3, h4, h5, h6, h7⟩ := set_many (c := c) hc (fun _ => rfl) 0 cs
    (StaticStorage3DOf.default B) hw (Nat.le_trans hmul hwd)
    (fun level cell ret => Storage.setCellAtLevelUnchecked c ret level cell)
    (fun i x t _ => by rw [Nat.zero_add])
  have hnot : ¬ cs.length > StaticStorage.MAX_LEVELS (Bits.BITS B) Octant := by
    change ¬ cs.length > Bits.BITS B / dim Octant; omega
  have h8 : asU8 cs.length = cs.length := Nat.mod_eq_of_lt (Nat.lt_of_le_of_lt hlen hB)
  refine ⟨⟨s.bits, cs.length⟩, ?_, ?_, (wf_iff hw _).mpr hlen, ?_, ?_⟩
  · simp only [tryFromSlice, hnot, if_false, h1, ok_bind, pure_eq_ok, h8]
  · simp only [tryFromArray, hnot, if_false, h1, ok_bind, pure_eq_ok, h8]
  · intro i hi
    have hi' : i < Bits.BITS B - cs.length * dim Octant := hi
    have := h7 i (by change i < Bits.BITS B - _; rw [Nat.zero_add]; exact hi')
    rw [StaticStorage3DOf.default, default_bits] at this
    exact this
  · apply path_of_slots rfl
    intro k hk
    have := h5 k hk
    rw [Nat.zero_add] at this
    exact this

theorem tryFrom_error {c : Cfg} (cs : List Octant) (hlen : cs.length > Bits.BITS B / dim Octant) :
    (tryFromSlice c cs : Res (Except Error (StaticStorage3DOf B))) = .ok (.error (.DepthLimitedExceeded (Bits.BITS B / dim Octant))) ∧
      (tryFromArray c cs : Res (Except Error (StaticStorage3DOf B))) = .ok (.error (.DepthLimitedExceeded (Bits.BITS B / dim Octant))) := by
  have h : cs.length > StaticStorage.MAX_LEVELS (Bits.BITS B) Octant := hlen
  constructor
  · simp only [tryFromSlice, h, if_true, pure_eq_ok]; rfl
  · simp only [tryFromArray, h, if_true, pure_eq_ok]; rfl

theorem ancestor_none {c : Cfg} (s : StaticStorage3DOf B) (g : NonZeroUsize) (hg : g.val > s.depth) :
    s.ancestor c g = .ok none := by
  simp only [ancestor, hg, if_true, pure_eq_ok]

theorem ancestor_some {c : Cfg} (hc : c.Supported) (hB : Small B) {s : StaticStorage3DOf B} (h : WF c s)
    (g : NonZeroUsize) (hg : g.val ≤ s.depth) :
    ∃ a, s.ancestor c g = .ok (some a) ∧ WF c a ∧ (TailZero s → TailZero a) ∧
      path a = (path s).take (s.depth - g.val) := by
  have hw : on B c := h.fit
  have hdep := (wf_iff hw s).mp h
  have h256 : s.depth < 256 := Nat.lt_of_le_of_lt hdep hB
  have hnot : ¬ g.val > s.depth := by omega
  have h8 : asU8 g.val = g.val := Nat.mod_eq_of_lt (by omega)
  obtain ⟨t, h1, h2, h3, h4, h5, h6, h7⟩ := set_range (c := c) hc (s.depth - g.val) s.depth
    (fun _ => Octant.Zero) (by omega) s hw h.depth_le
    (fun level ret => Storage.setCellAtLevelUnchecked c ret level Octant.Zero) (fun _ _ _ _ _ => rfl)
  refine ⟨⟨t.bits, s.depth - g.val⟩, ?_, (wf_iff hw _).mpr (by simp only; omega), ?_, ?_⟩
  · simp only [ancestor, hnot, if_false, h8, u8sub_ok hg, ok_bind, h1, pure_eq_ok]
  · intro hz
    exact bits_zero_of_slots (s := t) (a := s.depth - g.val) (d := s.depth) h.depth_le
      (fun k hk1 hk2 => h5 k hk1 hk2) (fun i hi => by rw [h7 i hi]; exact hz i hi)
  · apply path_of_slots
    · simp only [Storage.depth, List.length_take, path_length]; omega
    · intro k hk
      rw [List.length_take, path_length] at hk
      have hk' : k < s.depth - g.val := by omega
      rw [List.getElem_take, path_getElem]
      exact h6 k (level_le h (by change k < s.depth; omega)) (Or.inl hk')

theorem descendant_none {c : Cfg} (s : StaticStorage3DOf B)
    (cs : List Octant) (hlen : s.depth + cs.length < 2 ^ c.ptrBits)
    (hn : s.depth + cs.length > Bits.BITS B / dim Octant) :
    s.descendant c cs = .ok none := by
  have h : s.depth + cs.length > StaticStorage.MAX_LEVELS (Bits.BITS B) Octant := hn
  simp only [descendant, uadd_ok hlen, ok_bind, h, if_true, pure_eq_ok]

theorem descendant_some {c : Cfg} (hc : c.Supported) (hB : Small B) {s : StaticStorage3DOf B} (h : WF c s)
    (cs : List Octant) (hn : s.depth + cs.length ≤ Bits.BITS B / dim Octant) :
    ∃ a, s.descendant c cs = .ok (some a) ∧ WF c a ∧ (TailZero s → TailZero a) ∧
      path a = path s ++ cs := by
  have hw : on B c := h.fit
  have hp := hc.le
  have h256 : s.depth + cs.length < 256 := Nat.lt_of_le_of_lt hn hB
  have hwd := Nat.div_mul_le_self (Bits.BITS B) (dim Octant)
  have hnot : ¬ s.depth + cs.length > StaticStorage.MAX_LEVELS (Bits.BITS B) Octant := by
    change ¬ s.depth + cs.length > Bits.BITS B / dim Octant; omega
  have h8 : asU8 (s.depth + cs.length) = s.depth + cs.length := Nat.mod_eq_of_lt (by omega)
  have hmul : (s.depth + cs.length) * dim Octant ≤ Bits.BITS B / dim Octant * dim Octant :=
    Nat.mul_le_mul_right _ hn
  obtain ⟨t, h1, h2, h3, h4, h5, h6, h7⟩ := set_many (c := c) hc (fun _ => rfl) s.depth cs
    s hw (Nat.le_trans hmul hwd)
    (fun offset cell ret => do
      Storage.setCellAtLevelUnchecked c ret (← uadd c s.depth offset) cell)
    (fun i x t hi => by
      have : s.depth + i < 2 ^ c.ptrBits := by omega
      simp only [uadd_ok this, ok_bind])
  refine ⟨⟨t.bits, s.depth + cs.length⟩, ?_, (wf_iff hw _).mpr hn, ?_, ?_⟩
  · have a1 : s.depth + cs.length < 2 ^ c.ptrBits := by omega
    simp only [descendant, uadd_ok a1, hnot, if_false, ok_bind, h1, pure_eq_ok, h8]
  · intro hz i hi
    have hi' : i < Bits.BITS B - (s.depth + cs.length) * dim Octant := hi
    have : s.depth * dim Octant ≤ (s.depth + cs.length) * dim Octant :=
      Nat.mul_le_mul_right _ (by omega)
    have e := h7 i hi'
    rw [hz i (by change i < Bits.BITS B - s.depth * dim Octant; omega)] at e
    exact e
  · apply path_of_slots
    · simp [Storage.depth]
    · intro k hk
      rw [List.length_append, path_length] at hk
      have hk' : k < s.depth + cs.length := hk
      by_cases hks : k < s.depth
      · rw [List.getElem_append_left (by rw [path_length]; exact hks), path_getElem]
        exact h6 k (level_le h hks) (Or.inl hks)
      · have hle : (path s).length ≤ k := by rw [path_length]; change s.depth ≤ k; omega
        rw [List.getElem_append_right hle]
        have e := h5 (k - s.depth) (by omega)
        rw [show s.depth + (k - s.depth) = k by omega] at e
        simp only [path_length]
        exact e

end StaticStorage3DOf

namespace FixedDepthStorage3DOf

variable {c : Cfg}

theorem cmp_ok (hf : on B c) {a b : FixedDepthStorage3DOf B} (ha : TailZero a) (hb : TailZero b) :
    RustOrd.cmp c a b = .ok (pathCmp octantKey (path a) (path b)) := by
  have hk : Bits.BITS B / dim Octant * dim Octant ≤ Bits.BITS B := Nat.div_mul_le_self _ _
  rw [octantKey_fun, path, path, show Storage.depth b = Storage.depth a from rfl,
    ← compare_top a b rfl (Storage.depth a) hk]
  change RustOrd.cmp c a.bits b.bits = _
  rw [LawfulContainer.cmp hf]
  change Except.ok (compare (value a) (value b)) = _
  have e : ∀ s : FixedDepthStorage3DOf B, TailZero s →
      value s = value s / 2 ^ (Bits.BITS B - Storage.depth s * dim Octant) * 2 ^ (Bits.BITS B - Storage.depth s * dim Octant) := by
    intro s hs
    have h0 : value s % 2 ^ (Bits.BITS B - Storage.depth s * dim Octant) = 0 := by
      apply Nat.eq_of_testBit_eq
      intro i
      rw [Nat.testBit_mod_two_pow, Nat.zero_testBit]
      by_cases hi : i < Bits.BITS B - Storage.depth s * dim Octant
      · rw [hs i hi]; simp
      · simp [hi]
    have := Nat.div_add_mod (value s) (2 ^ (Bits.BITS B - Storage.depth s * dim Octant))
    rw [h0, Nat.add_zero, Nat.mul_comm] at this
    exact this.symm
  congr 1
  have hp : 0 < 2 ^ (Bits.BITS B - Storage.depth a * dim Octant) := Nat.two_pow_pos _
  have e' : compare (value a) (value b) =
      compare (value a / 2 ^ (Bits.BITS B - Storage.depth a * dim Octant) * 2 ^ (Bits.BITS B - Storage.depth a * dim Octant))
        (value b / 2 ^ (Bits.BITS B - Storage.depth a * dim Octant) * 2 ^ (Bits.BITS B - Storage.depth a * dim Octant)) :=
    congr (congrArg compare (e a ha)) (e b hb)
  rw [e']
  change compare (value a / 2 ^ (Bits.BITS B - Storage.depth a * dim Octant) * 2 ^ (Bits.BITS B - Storage.depth a * dim Octant))
    (value b / 2 ^ (Bits.BITS B - Storage.depth a * dim Octant) * 2 ^ (Bits.BITS B - Storage.depth a * dim Octant)) =
    compare (value a / 2 ^ (Bits.BITS B - Storage.depth a * dim Octant)) (value b / 2 ^ (Bits.BITS B - Storage.depth a * dim Octant))
  generalize value a / 2 ^ (Bits.BITS B - Storage.depth a * dim Octant) = x
  generalize value b / 2 ^ (Bits.BITS B - Storage.depth a * dim Octant) = y
  rw [Nat.compare_eq_ite_lt, Nat.compare_eq_ite_lt]
  simp only [Nat.mul_lt_mul_right hp]

theorem path_congr {a b : FixedDepthStorage3DOf B} (h : value a = value b) : path a = path b := by
  rw [path, path]
  change (List.range (Bits.BITS B / dim Octant)).map _ = (List.range (Bits.BITS B / dim Octant)).map _
  congr 1
  funext l
  rw [slot, slot, h]
  rfl

theorem eq_iff {a b : FixedDepthStorage3DOf B} (ha : TailZero a) (hb : TailZero b) :
    RustOrd.eq a b = true ↔ path a = path b := by
  have hk : Bits.BITS B / dim Octant * dim Octant ≤ Bits.BITS B := Nat.div_mul_le_self _ _
  have e : RustOrd.eq a b = true ↔ value a = value b := LawfulContainer.eq a.bits b.bits
  rw [e]
  exact ⟨path_congr, fun h => value_eq_of_path hk rfl ha hb h⟩

end FixedDepthStorage3DOf

namespace StaticStorage3DOf

variable {c : Cfg}

theorem cmp_ok {a b : StaticStorage3DOf B} (ha : WF c a) (hb : WF c b) :
    RustOrd.cmp c a b = .ok (pathCmp octantKey (path a) (path b)) := by
  have hw : on B c := ha.fit
  have hu := usize hw
  have hda : a.depth * dim Octant ≤ Bits.BITS B := ha.depth_le
  have hdb : b.depth * dim Octant ≤ Bits.BITS B := hb.depth_le
  rw [dim_Octant] at hda hdb
  have a1 : a.depth * 3 < 2 ^ c.ptrBits := by omega
  have a2 : b.depth * 3 < 2 ^ c.ptrBits := by omega
  change StaticStorage3DOf.cmp c a b = _
  unfold StaticStorage3DOf.cmp
  simp only [umul_ok a1, umul_ok a2, ok_bind, usub_ok hda, usub_ok hdb]
  have sa : Bits.BITS B - a.depth * 3 ≤ Bits.BITS B := by omega
  have sb : Bits.BITS B - b.depth * 3 ≤ Bits.BITS B := by omega
  obtain ⟨x1, g1, h1⟩ := containerGet_top hw a.bits sa
  obtain ⟨x2, g2, h2⟩ := containerGet_top hw b.bits sa
  obtain ⟨x3, g3, h3⟩ := containerGet_top hw a.bits sb
  obtain ⟨x4, g4, h4⟩ := containerGet_top hw b.bits sb
  rw [octantKey_fun]
  rcases Nat.lt_trichotomy a.depth b.depth with h | h | h
  · rw [Nat.compare_eq_lt.mpr h]
    simp only [g1, g2, container_gt hw, ok_bind, decide_eq_true_eq]
    rw [pathCmp_lt a b h]
    have key := compare_top a b rfl a.depth ha.depth_le
    change _ = pathCmp _ (path a) _ at key
    change _ = Except.ok (Ordering.then (pathCmp _ (path a) ((List.range a.depth).map (slot b))) _)
    rw [← key]
    change _ = Except.ok ((compare (val a.bits / 2 ^ (Bits.BITS B - a.depth * 3)) (val b.bits / 2 ^ (Bits.BITS B - a.depth * 3))).then .lt)
    rw [← h1, ← h2]
    rcases Nat.lt_trichotomy (val x1) (val x2) with g | g | g
    · rw [if_neg (by omega), Nat.compare_eq_lt.mpr g]; rfl
    · rw [if_neg (by omega), Nat.compare_eq_eq.mpr g]; rfl
    · rw [if_pos g, Nat.compare_eq_gt.mpr g]; rfl
  · rw [Nat.compare_eq_eq.mpr h]
    simp only [g1, g4, LawfulContainer.cmp hw, ok_bind]
    have key := compare_top a b rfl a.depth ha.depth_le
    change _ = pathCmp _ (path a) _ at key
    rw [h] at key
    change _ = pathCmp _ (path a) (path b) at key
    rw [← key, h1, h4, h]
    rfl
  · rw [Nat.compare_eq_gt.mpr h]
    simp only [g3, g4, container_ge hw, ok_bind, decide_eq_true_eq]
    rw [pathCmp_gt a b h]
    have key := compare_top a b rfl b.depth hb.depth_le
    change _ = pathCmp _ _ (path b) at key
    change _ = Except.ok (Ordering.then (pathCmp _ ((List.range b.depth).map (slot a)) (path b)) _)
    rw [← key]
    change _ = Except.ok ((compare (val a.bits / 2 ^ (Bits.BITS B - b.depth * 3)) (val b.bits / 2 ^ (Bits.BITS B - b.depth * 3))).then .gt)
    rw [← h3, ← h4]
    rcases Nat.lt_trichotomy (val x3) (val x4) with g | g | g
    · rw [if_neg (by omega), Nat.compare_eq_lt.mpr g]; rfl
    · rw [if_pos (by omega), Nat.compare_eq_eq.mpr g]; rfl
    · rw [if_pos (by omega), Nat.compare_eq_gt.mpr g]; rfl

theorem path_congr {a b : StaticStorage3DOf B} (h : value a = value b) (hd : a.depth = b.depth) : path a = path b := by
  rw [path, path]
  change (List.range a.depth).map _ = (List.range b.depth).map _
  rw [hd]
  congr 1
  funext l
  rw [slot, slot, h]
  rfl

theorem eq_iff {a b : StaticStorage3DOf B} (ha : WF c a) (ta : TailZero a) (tb : TailZero b) :
    RustOrd.eq a b = true ↔ path a = path b := by
  have e : RustOrd.eq a b = true ↔ value a = value b ∧ a.depth = b.depth := by
    change (RustOrd.eq a.bits b.bits && a.depth == b.depth) = true ↔ _
    rw [Bool.and_eq_true, LawfulContainer.eq, beq_iff_eq]
    rfl
  rw [e]
  refine ⟨fun h => path_congr h.1 h.2, fun h => ?_⟩
  have hd : Storage.depth a = Storage.depth b := by rw [← path_length a, ← path_length b, h]
  exact ⟨value_eq_of_path ha.depth_le rfl ta tb h, hd⟩

end StaticStorage3DOf


end MortonRs
