import Verif.Props.Safety
import Verif.Lemmas.Restore2D
import Verif.Lemmas.Restore3D

/-! # C79: the unchecked accessors at levels beyond the depth

`get_cell_at_level_unchecked` and `set_cell_at_level_unchecked` are `unsafe fn` and document that a level beyond the depth
is undefined behaviour. These theorems say what such a call does in fact. -/

namespace MortonRs

open BitStorage MortonIndex

section statements
variable {M Cell : Type} [MortonIndex M Cell]

/-- On every value of the type and for every level, no undefined behaviour, and a write that returns keeps the depth. -/
def UncheckedSafe (c : Cfg) (M : Type) {Cell : Type} [MortonIndex M Cell] : Prop :=
  ∀ (m : M) (l : Nat), Safe (getCellAtLevelUnchecked c m l) ∧
    ∀ v : Cell, Safe (setCellAtLevelUnchecked c m l v) ∧
      ∀ m', setCellAtLevelUnchecked c m l v = .ok m' → depth m' = depth m

/-- With overflow checks, levels at or beyond the capacity panic, on every value of the type. -/
def UncheckedOverflows (c : Cfg) (cap : M → Nat) : Prop :=
  c.overflowChecks = true → ∀ (m : M) (l : Nat), cap m ≤ l → getCellAtLevelUnchecked c m l = .error .overflow ∧
    ∀ v : Cell, setCellAtLevelUnchecked c m l v = .error .overflow

/-- Between depth and capacity a write is invisible to the checked reads and to the order, but not to `==`. -/
def WritesBeyondDepth (c : Cfg) [RustOrd M] (cap : M → Nat) (ok : M → Prop) : Prop :=
  ∀ m, ok m → ∀ l, depth m ≤ l → l < cap m → ∃ old : Cell, getCellAtLevelUnchecked c m l = .ok old ∧
    ∀ v : Cell, ∃ m', setCellAtLevelUnchecked c m l v = .ok m' ∧ depth m' = depth m ∧
      getCellAtLevelUnchecked c m' l = .ok v ∧ (∀ k, getCellAtLevel c m' k = getCellAtLevel c m k) ∧
      (∀ b, ok b → RustOrd.cmp c m' b = RustOrd.cmp c m b ∧ RustOrd.cmp c b m' = RustOrd.cmp c b m) ∧
      (RustOrd.eq m' m = true ↔ v = old)

/-- Between depth and capacity there are only zero cells. -/
def ZeroBeyondDepth (c : Cfg) (zero : Cell) (cap : M → Nat) (ok : M → Prop) : Prop :=
  ∀ m, ok m → ∀ l, depth m ≤ l → l < cap m → getCellAtLevelUnchecked c m l = .ok zero

end statements

variable {c : Cfg}

section bits
variable {S Cell : Type} [LawfulDim Cell] [Storage S Cell] [BitStorage S Cell]

theorem wf_of_same {s t : S} (h : WF c s) (hf : fit c t) (hw : width t = width s)
    (hd : Storage.depth t = Storage.depth s) : WF c t := ⟨hf, by rw [hw, hd]; exact h.depth_le⟩

/-- Writing a cell beyond the depth changes no cell of the path; it changes the number exactly if it changes the slot. -/
theorem set_beyond (hc : c.Supported) {s : S} (h : WF c s) {l : Nat} (h1 : Storage.depth s ≤ l)
    (h2 : (l + 1) * dim Cell ≤ width s) (v : Cell) :
    ∃ s' : S, Storage.setCellAtLevelUnchecked c s l v = .ok s' ∧ WF c s' ∧ width s' = width s ∧
      Storage.depth s' = Storage.depth s ∧ slot s' l = written S c v ∧ path s' = path s ∧
      (written S c v = slot s l → value s' = value s) := by
  obtain ⟨s', e1, e2, e3, e4, e5, e6, -⟩ := set_slot hc h.fit v h2
  refine ⟨s', e1, wf_of_same h e2 e3 e4, e3, e4, e5, ?_, fun hv => ?_⟩
  · rw [path_eq_iff e4]
    intro k hk
    rw [e4] at hk
    exact e6 k (level_le h hk) (by omega)
  · obtain ⟨t, f1, -, -, -, f5⟩ := set_ok v hc h.fit h2
    rw [e1] at f1
    cases f1
    apply Nat.eq_of_testBit_eq
    intro i
    rw [f5]
    split
    · next hi =>
      rw [hv, slot_ofNat, testBit_digit, decide_eq_true (by omega), Bool.true_and]
      congr 1
      omega
    · rfl

end bits

theorem usub_error (hov : c.overflowChecks = true) {a b : Nat} (h : a < b) : usub c a b = .error .overflow := by
  unfold usub
  simp [hov, Nat.not_le.mpr h]

/-- The address arithmetic with overflow checks on a level that does not fit. -/
theorem address_error (hov : c.overflowChecks = true) {α : Type} {w l d : Nat} (h : w < (l + 1) * d) (f : Nat → Res α) :
    (do let start ← usub c w (← umul c (← uadd c l 1) d); f start) = .error .overflow := by
  unfold uadd umul
  rw [hov]
  by_cases h1 : l + 1 < 2 ^ c.ptrBits
  · rw [if_pos h1, ok_bind]
    by_cases h2 : (l + 1) * d < 2 ^ c.ptrBits
    · rw [if_pos h2, ok_bind, usub_error hov h]
      rfl
    · rw [if_neg h2]
      rfl
  · rw [if_neg h1]
    rfl

/-- The same for byte vectors, whose number of bits is computed first. -/
theorem address_error' (hov : c.overflowChecks = true) {α : Type} {n l d : Nat} (h : n * 8 < (l + 1) * d) (f : Nat → Res α) :
    (do let start ← usub c (← umul c n 8) (← umul c (← uadd c l 1) d); f start) = .error .overflow := by
  by_cases h1 : n * 8 < 2 ^ c.ptrBits
  · rw [show umul c n 8 = .ok (n * 8) from if_pos h1, ok_bind]
    exact address_error hov h f
  · rw [show umul c n 8 = .error .overflow by rw [umul, if_neg h1, hov]; rfl]
    rfl

/-! ## 2D -/

theorem uncheckedSafe2 {S : Type} [Storage S Quadrant] (h : SafeStorage c S)
    (hd : ∀ (s s' : S) l v, Storage.setCellAtLevelUnchecked c s l v = .ok s' → Storage.depth s' = Storage.depth s) :
    UncheckedSafe c (MortonIndex2D S) := fun m l =>
  ⟨safe_unchecked_get2 h m l, fun v => ⟨safe_unchecked_set2 h m l v, fun m' e => by
    change MortonIndex2D.setCellAtLevelUnchecked c m l v = .ok m' at e
    unfold MortonIndex2D.setCellAtLevelUnchecked at e
    obtain ⟨s', e1, e2⟩ := bind_eq_ok e
    cases e2
    exact hd _ _ _ _ e1⟩⟩

theorem writesBeyond2 {S : Type} [Storage S Quadrant] [BitStorage S Quadrant] [RustOrd S] (hc : c.Supported)
    {ok : MortonIndex2D S → Prop} {cap : MortonIndex2D S → Nat}
    (hwf : ∀ m, ok m → WF c m.storage) (hcap : ∀ m, ok m → cap m * 2 ≤ width m.storage) (hwr : written S c = id)
    (hcmp : ∀ a b : S, WF c a → WF c b → RustOrd.cmp c a b = .ok (pathCmp quadrantKey (path a) (path b)))
    (hext : ∀ s t : S, width s = width t → Storage.depth s = Storage.depth t → value s = value t →
      RustOrd.eq s t = true)
    (hsound : ∀ s t : S, RustOrd.eq s t = true → s = t) : WritesBeyondDepth c cap ok := by
  intro m hm l h1 h2
  have hl : (l + 1) * dim Quadrant ≤ width m.storage := Nat.le_trans (Nat.mul_le_mul_right 2 (by omega)) (hcap m hm)
  refine ⟨slot m.storage l, get_ok hc (hwf m hm).fit hl, fun v => ?_⟩
  obtain ⟨s', e1, e2, e3, e4, e5, e6, e7⟩ := set_beyond hc (hwf m hm) h1 hl v
  rw [hwr] at e5 e7
  have hslot : Storage.getCellAtLevelUnchecked c s' l = .ok (slot s' l) := get_ok hc e2.fit (by rw [e3]; exact hl)
  refine ⟨⟨s'⟩, ?_, e4, ?_, fun k => ?_, fun b hb => ⟨?_, ?_⟩, fun he => ?_, fun hv => ?_⟩
  · change MortonIndex2D.setCellAtLevelUnchecked c m l v = _
    unfold MortonIndex2D.setCellAtLevelUnchecked
    rw [e1]
    rfl
  · exact hslot.trans (by rw [e5]; rfl)
  · by_cases hk : k < Storage.depth m.storage
    · have hk' : k < Storage.depth s' := by rw [e4]; exact hk
      have := (path_eq_iff e4).mp e6 k hk'
      exact (MortonIndex2D.get_lt (m := ⟨s'⟩) hc e2 hk').trans
        (((MortonIndex2D.get_lt hc (hwf m hm) hk).trans (by rw [this])).symm)
    · exact (MortonIndex2D.get_ge (m := ⟨s'⟩) (by rw [e4]; omega)).trans (MortonIndex2D.get_ge (by omega)).symm
  · change RustOrd.cmp c s' b.storage = RustOrd.cmp c m.storage b.storage
    rw [hcmp _ _ e2 (hwf b hb), hcmp _ _ (hwf m hm) (hwf b hb), e6]
  · change RustOrd.cmp c b.storage s' = RustOrd.cmp c b.storage m.storage
    rw [hcmp _ _ (hwf b hb) e2, hcmp _ _ (hwf b hb) (hwf m hm), e6]
  · have : s' = m.storage := hsound _ _ he
    rw [this] at e5
    exact e5.symm
  · exact hext _ _ e3 e4 (e7 hv)

theorem zeroBeyond2 {S : Type} [Storage S Quadrant] [BitStorage S Quadrant] (hc : c.Supported)
    {ok : MortonIndex2D S → Prop} {cap : MortonIndex2D S → Nat}
    (hwf : ∀ m, ok m → WF c m.storage) (hcap : ∀ m, ok m → cap m * 2 ≤ width m.storage)
    (htail : ∀ m, ok m → TailZero m.storage) : ZeroBeyondDepth c .Zero cap ok := by
  intro m hm l h1 h2
  have hl : (l + 1) * dim Quadrant ≤ width m.storage := Nat.le_trans (Nat.mul_le_mul_right 2 (by omega)) (hcap m hm)
  refine (get_ok hc (hwf m hm).fit hl).trans (congrArg Except.ok ?_)
  refine (slot_zero_of_bits (n := width m.storage - Storage.depth m.storage * dim Quadrant) hl ?_ (htail m hm)).trans rfl
  have : Storage.depth m.storage * dim Quadrant ≤ l * dim Quadrant := Nat.mul_le_mul_right _ h1
  omega

/-- The number of levels the bytes of a dynamic index of this depth have room for. -/
def byteCapacity2 (depth : Nat) : Nat := (depth * 2 + 7) / 8 * 8 / 2

/-- **C79** for two-dimensional indices. A static index never has anything but zeros behind its last cell, unless an unchecked
write put it there. -/
theorem C79_unchecked_beyond_depth_2D (hc : c.Supported) :
    (∀ w, IntWidth w →
      (UncheckedSafe c (MortonIndex2D (FixedDepthStorage2D w)) ∧
        UncheckedOverflows c (fun _ : MortonIndex2D (FixedDepthStorage2D w) => w / 2)) ∧
      (UncheckedSafe c (MortonIndex2D (StaticStorage2D w)) ∧
        UncheckedOverflows c (fun _ : MortonIndex2D (StaticStorage2D w) => w / 2) ∧
        WritesBeyondDepth c (fun _ => w / 2) (fun m => Reach2D c .all (.static w m)) ∧
        ZeroBeyondDepth c .Zero (fun _ => w / 2) (fun m => Reach2D c .all (.static w m)))) ∧
    UncheckedSafe c (MortonIndex2D DynamicStorage2D) ∧
      UncheckedOverflows c (fun m : MortonIndex2D DynamicStorage2D => 8 * m.storage.bits.length / 2) ∧
      (DynWrites c → WritesBeyondDepth c (fun m => byteCapacity2 (depth m)) (fun m => Reach2D c .all (.dynamic m))) ∧
      ZeroBeyondDepth c .Zero (fun m => byteCapacity2 (depth m)) (fun m => Reach2D c .canonical (.dynamic m)) := by
  have h16 : 16 ≤ c.ptrBits := by rcases hc with h | h | h <;> omega
  have hdyn : ∀ m : MortonIndex2D DynamicStorage2D, WF c m.storage → byteCapacity2 (depth m) * 2 ≤ width m.storage := by
    intro m h
    have h1 := h.depth_le
    change m.storage.depth * 2 ≤ 8 * m.storage.bits.length at h1
    change (m.storage.depth * 2 + 7) / 8 * 8 / 2 * 2 ≤ 8 * m.storage.bits.length
    have h2 : (m.storage.depth * 2 + 7) / 8 ≤ m.storage.bits.length := by omega
    omega
  refine ⟨fun w hw => ⟨⟨?_, ?_⟩, ?_, ?_, ?_, ?_⟩, ?_, ?_, fun hdw => ?_, ?_⟩
  · refine uncheckedSafe2 (safe_fixed2 w) fun s s' l v e => ?_
    obtain ⟨b, -, e2⟩ := bind_eq_ok e
    cases e2
    rfl
  · intro hov m l hl
    have : w < (l + 1) * 2 := by change w / 2 ≤ l at hl; omega
    refine ⟨address_error hov this _, fun v => ?_⟩
    have : (Storage.setCellAtLevelUnchecked c m.storage l v) = .error .overflow := by
      have := address_error hov (d := 2) this (fun start_bit => do
        let end_bit ← uadd c start_bit 2
        Bits.setBits c m.storage.bits ⟨start_bit, end_bit⟩ (Bits.fromUN c (BitVec.ofNat 8 (Dimension.toUsize v))))
      change (do let bits ← FixedDepthStorage.setCellAtLevelUnchecked c w m.storage.bits l v; pure _) = _
      rw [show FixedDepthStorage.setCellAtLevelUnchecked c w m.storage.bits l v = _ from this]
      rfl
    change (do let s ← Storage.setCellAtLevelUnchecked c m.storage l v; pure _) = _
    rw [this]
    rfl
  · refine uncheckedSafe2 (safe_static2 w) fun s s' l v e => ?_
    obtain ⟨b, -, e2⟩ := bind_eq_ok e
    cases e2
    rfl
  · intro hov m l hl
    have : w < (l + 1) * 2 := by change w / 2 ≤ l at hl; omega
    refine ⟨address_error hov this _, fun v => ?_⟩
    have : (Storage.setCellAtLevelUnchecked c m.storage l v) = .error .overflow := by
      have := address_error hov (d := 2) this (fun start_bit => do
        let end_bit ← uadd c start_bit 2
        Bits.setBits c m.storage.bits ⟨start_bit, end_bit⟩ (Bits.fromUN c (BitVec.ofNat 8 (Dimension.toUsize v))))
      change (do let bits ← StaticStorage.setCellAtLevelUnchecked c w m.storage.bits l v; pure _) = _
      rw [show StaticStorage.setCellAtLevelUnchecked c w m.storage.bits l v = _ from this]
      rfl
    change (do let s ← Storage.setCellAtLevelUnchecked c m.storage l v; pure _) = _
    rw [this]
    rfl
  · exact writesBeyond2 hc (static_wf2 hc) (fun m _ => Nat.div_mul_le_self w 2) written_static2
      (fun a b ha hb => StaticStorage2D.cmp_ok hc ha hb) static_ext2 (fun s t => StaticStorage2D.eq_iff_eq.mp)
  · exact zeroBeyond2 hc (static_wf2 hc) (fun m _ => Nat.div_mul_le_self w 2) (fun m hm => (reach2D_good hc hm).2)
  · refine uncheckedSafe2 (safe_dynamic2 h16) fun s s' l v e => ?_
    obtain ⟨b, -, e2⟩ := bind_eq_ok e
    cases e2
    rfl
  · intro hov m l hl
    have h1 : 8 * m.storage.bits.length < (l + 1) * 2 := by
      change 8 * m.storage.bits.length / 2 ≤ l at hl
      omega
    rw [Nat.mul_comm 8] at h1
    refine ⟨address_error' hov h1 _, fun v => ?_⟩
    have : (Storage.setCellAtLevelUnchecked c m.storage l v) = .error .overflow := by
      have := address_error' hov (d := 2) h1 (fun start_bit => do
        let end_bit ← uadd c start_bit 2
        Bits.setBitsFromUsize c m.storage.bits ⟨start_bit, end_bit⟩ (BitVec.ofNat c.ptrBits (Dimension.toUsize v)))
      change (do let bits ← DynamicStorage.setCellAtLevelUnchecked c m.storage.bits l v; pure _) = _
      rw [show DynamicStorage.setCellAtLevelUnchecked c m.storage.bits l v = _ from this]
      rfl
    change (do let s ← Storage.setCellAtLevelUnchecked c m.storage l v; pure _) = _
    rw [this]
    rfl
  · exact writesBeyond2 hc (dynamic_wf2 hc) (fun m hm => hdyn m (dynamic_wf2 hc m hm)) (written_dynamic2 hdw)
      (fun a b ha hb => DynamicStorage2D.cmp_ok hc ha hb) dynamic_ext2 (fun s t => DynamicStorage2D.eq_iff_eq.mp)
  · exact zeroBeyond2 hc (dynamic_wf2 hc) (fun m hm => hdyn m (dynamic_wf2 hc m hm))
      (fun m hm => ((reach2D_good hc hm).2 rfl).tail)

/-! ## 3D -/

theorem uncheckedSafe3 {S : Type} [Storage S Octant] (h : SafeStorage c S)
    (hd : ∀ (s s' : S) l v, Storage.setCellAtLevelUnchecked c s l v = .ok s' → Storage.depth s' = Storage.depth s) :
    UncheckedSafe c (MortonIndex3D S) := fun m l =>
  ⟨safe_unchecked_get3 h m l, fun v => ⟨safe_unchecked_set3 h m l v, fun m' e => by
    change MortonIndex3D.setCellAtLevelUnchecked c m l v = .ok m' at e
    unfold MortonIndex3D.setCellAtLevelUnchecked at e
    obtain ⟨s', e1, e2⟩ := bind_eq_ok e
    cases e2
    exact hd _ _ _ _ e1⟩⟩

theorem writesBeyond3 {S : Type} [Storage S Octant] [BitStorage S Octant] [RustOrd S] (hc : c.Supported)
    {ok : MortonIndex3D S → Prop} {cap : MortonIndex3D S → Nat}
    (hwf : ∀ m, ok m → WF c m.storage) (hcap : ∀ m, ok m → cap m * 3 ≤ width m.storage) (hwr : written S c = id)
    (hcmp : ∀ a b : S, WF c a → WF c b → RustOrd.cmp c a b = .ok (pathCmp octantKey (path a) (path b)))
    (hext : ∀ s t : S, width s = width t → Storage.depth s = Storage.depth t → value s = value t →
      RustOrd.eq s t = true)
    (hsound : ∀ s t : S, RustOrd.eq s t = true → s = t) : WritesBeyondDepth c cap ok := by
  intro m hm l h1 h2
  have hl : (l + 1) * dim Octant ≤ width m.storage := Nat.le_trans (Nat.mul_le_mul_right 3 (by omega)) (hcap m hm)
  refine ⟨slot m.storage l, get_ok hc (hwf m hm).fit hl, fun v => ?_⟩
  obtain ⟨s', e1, e2, e3, e4, e5, e6, e7⟩ := set_beyond hc (hwf m hm) h1 hl v
  rw [hwr] at e5 e7
  have hslot : Storage.getCellAtLevelUnchecked c s' l = .ok (slot s' l) := get_ok hc e2.fit (by rw [e3]; exact hl)
  refine ⟨⟨s'⟩, ?_, e4, ?_, fun k => ?_, fun b hb => ⟨?_, ?_⟩, fun he => ?_, fun hv => ?_⟩
  · change MortonIndex3D.setCellAtLevelUnchecked c m l v = _
    unfold MortonIndex3D.setCellAtLevelUnchecked
    rw [e1]
    rfl
  · exact hslot.trans (by rw [e5]; rfl)
  · by_cases hk : k < Storage.depth m.storage
    · have hk' : k < Storage.depth s' := by rw [e4]; exact hk
      have := (path_eq_iff e4).mp e6 k hk'
      exact (MortonIndex3D.get_lt (m := ⟨s'⟩) hc e2 hk').trans
        (((MortonIndex3D.get_lt hc (hwf m hm) hk).trans (by rw [this])).symm)
    · exact (MortonIndex3D.get_ge (m := ⟨s'⟩) (by rw [e4]; omega)).trans (MortonIndex3D.get_ge (by omega)).symm
  · change RustOrd.cmp c s' b.storage = RustOrd.cmp c m.storage b.storage
    rw [hcmp _ _ e2 (hwf b hb), hcmp _ _ (hwf m hm) (hwf b hb), e6]
  · change RustOrd.cmp c b.storage s' = RustOrd.cmp c b.storage m.storage
    rw [hcmp _ _ (hwf b hb) e2, hcmp _ _ (hwf b hb) (hwf m hm), e6]
  · have : s' = m.storage := hsound _ _ he
    rw [this] at e5
    exact e5.symm
  · exact hext _ _ e3 e4 (e7 hv)

theorem zeroBeyond3 {S : Type} [Storage S Octant] [BitStorage S Octant] (hc : c.Supported)
    {ok : MortonIndex3D S → Prop} {cap : MortonIndex3D S → Nat}
    (hwf : ∀ m, ok m → WF c m.storage) (hcap : ∀ m, ok m → cap m * 3 ≤ width m.storage)
    (htail : ∀ m, ok m → TailZero m.storage) : ZeroBeyondDepth c .Zero cap ok := by
  intro m hm l h1 h2
  have hl : (l + 1) * dim Octant ≤ width m.storage := Nat.le_trans (Nat.mul_le_mul_right 3 (by omega)) (hcap m hm)
  refine (get_ok hc (hwf m hm).fit hl).trans (congrArg Except.ok ?_)
  refine (slot_zero_of_bits (n := width m.storage - Storage.depth m.storage * dim Octant) hl ?_ (htail m hm)).trans rfl
  have : Storage.depth m.storage * dim Octant ≤ l * dim Octant := Nat.mul_le_mul_right _ h1
  omega

/-- The number of levels the bytes of a dynamic index of this depth have room for. -/
def byteCapacity3 (depth : Nat) : Nat := (depth * 3 + 7) / 8 * 8 / 3

/-- **C79** for three-dimensional indices. -/
theorem C79_unchecked_beyond_depth_3D (hc : c.Supported) :
    (∀ w, IntWidth w →
      (UncheckedSafe c (MortonIndex3D (FixedDepthStorage3D w)) ∧
        UncheckedOverflows c (fun _ : MortonIndex3D (FixedDepthStorage3D w) => w / 3)) ∧
      (UncheckedSafe c (MortonIndex3D (StaticStorage3D w)) ∧
        UncheckedOverflows c (fun _ : MortonIndex3D (StaticStorage3D w) => w / 3) ∧
        WritesBeyondDepth c (fun _ => w / 3) (fun m => Reach3D c .all (.static w m)) ∧
        ZeroBeyondDepth c .Zero (fun _ => w / 3) (fun m => Reach3D c .canonical (.static w m)))) ∧
    UncheckedSafe c (MortonIndex3D DynamicStorage3D) ∧
      UncheckedOverflows c (fun m : MortonIndex3D DynamicStorage3D => 8 * m.storage.bits.length / 3) ∧
      (DynWrites c → WritesBeyondDepth c (fun m => byteCapacity3 (depth m)) (fun m => Reach3D c .all (.dynamic m))) ∧
      ZeroBeyondDepth c .Zero (fun m => byteCapacity3 (depth m)) (fun m => Reach3D c .canonical (.dynamic m)) := by
  have h16 : 16 ≤ c.ptrBits := by rcases hc with h | h | h <;> omega
  have hdyn : ∀ m : MortonIndex3D DynamicStorage3D, WF c m.storage → byteCapacity3 (depth m) * 3 ≤ width m.storage := by
    intro m h
    have h1 := h.depth_le
    change m.storage.depth * 3 ≤ 8 * m.storage.bits.length at h1
    change (m.storage.depth * 3 + 7) / 8 * 8 / 3 * 3 ≤ 8 * m.storage.bits.length
    have h2 : (m.storage.depth * 3 + 7) / 8 ≤ m.storage.bits.length := by omega
    omega
  refine ⟨fun w hw => ⟨⟨?_, ?_⟩, ?_, ?_, ?_, ?_⟩, ?_, ?_, fun hdw => ?_, ?_⟩
  · refine uncheckedSafe3 (safe_fixed3 w) fun s s' l v e => ?_
    obtain ⟨b, -, e2⟩ := bind_eq_ok e
    cases e2
    rfl
  · intro hov m l hl
    have : w < (l + 1) * 3 := by change w / 3 ≤ l at hl; omega
    refine ⟨address_error hov this _, fun v => ?_⟩
    have : (Storage.setCellAtLevelUnchecked c m.storage l v) = .error .overflow := by
      have := address_error hov (d := 3) this (fun start_bit => do
        let end_bit ← uadd c start_bit 3
        Bits.setBits c m.storage.bits ⟨start_bit, end_bit⟩ (Bits.fromUN c (BitVec.ofNat 8 (Dimension.toUsize v))))
      change (do let bits ← FixedDepthStorage.setCellAtLevelUnchecked c w m.storage.bits l v; pure _) = _
      rw [show FixedDepthStorage.setCellAtLevelUnchecked c w m.storage.bits l v = _ from this]
      rfl
    change (do let s ← Storage.setCellAtLevelUnchecked c m.storage l v; pure _) = _
    rw [this]
    rfl
  · refine uncheckedSafe3 (safe_static3 w) fun s s' l v e => ?_
    obtain ⟨b, -, e2⟩ := bind_eq_ok e
    cases e2
    rfl
  · intro hov m l hl
    have : w < (l + 1) * 3 := by change w / 3 ≤ l at hl; omega
    refine ⟨address_error hov this _, fun v => ?_⟩
    have : (Storage.setCellAtLevelUnchecked c m.storage l v) = .error .overflow := by
      have := address_error hov (d := 3) this (fun start_bit => do
        let end_bit ← uadd c start_bit 3
        Bits.setBits c m.storage.bits ⟨start_bit, end_bit⟩ (Bits.fromUN c (BitVec.ofNat 8 (Dimension.toUsize v))))
      change (do let bits ← StaticStorage.setCellAtLevelUnchecked c w m.storage.bits l v; pure _) = _
      rw [show StaticStorage.setCellAtLevelUnchecked c w m.storage.bits l v = _ from this]
      rfl
    change (do let s ← Storage.setCellAtLevelUnchecked c m.storage l v; pure _) = _
    rw [this]
    rfl
  · exact writesBeyond3 hc (static_wf3 hc) (fun m _ => Nat.div_mul_le_self w 3) written_static3
      (fun a b ha hb => StaticStorage3D.cmp_ok hc ha hb) static_ext3 (fun s t => StaticStorage3D.eq_iff_eq.mp)
  · exact zeroBeyond3 hc (static_wf3 hc) (fun m _ => Nat.div_mul_le_self w 3) (fun m hm => (reach3D_good hc hm).2 rfl)
  · refine uncheckedSafe3 (safe_dynamic3 h16) fun s s' l v e => ?_
    obtain ⟨b, -, e2⟩ := bind_eq_ok e
    cases e2
    rfl
  · intro hov m l hl
    have h1 : 8 * m.storage.bits.length < (l + 1) * 3 := by
      change 8 * m.storage.bits.length / 3 ≤ l at hl
      omega
    rw [Nat.mul_comm 8] at h1
    refine ⟨address_error' hov h1 _, fun v => ?_⟩
    have : (Storage.setCellAtLevelUnchecked c m.storage l v) = .error .overflow := by
      have := address_error' hov (d := 3) h1 (fun start_bit => do
        let end_bit ← uadd c start_bit 3
        Bits.setBitsFromUsize c m.storage.bits ⟨start_bit, end_bit⟩ (BitVec.ofNat c.ptrBits (Dimension.toUsize v)))
      change (do let bits ← DynamicStorage.setCellAtLevelUnchecked c m.storage.bits l v; pure _) = _
      rw [show DynamicStorage.setCellAtLevelUnchecked c m.storage.bits l v = _ from this]
      rfl
    change (do let s ← Storage.setCellAtLevelUnchecked c m.storage l v; pure _) = _
    rw [this]
    rfl
  · exact writesBeyond3 hc (dynamic_wf3 hc) (fun m hm => hdyn m (dynamic_wf3 hc m hm)) (written_dynamic3 hdw)
      (fun a b ha hb => DynamicStorage3D.cmp_ok hc ha hb) dynamic_ext3 (fun s t => DynamicStorage3D.eq_iff_eq.mp)
  · exact zeroBeyond3 hc (dynamic_wf3 hc) (fun m hm => hdyn m (dynamic_wf3 hc m hm))
      (fun m hm => ((reach3D_good hc hm).2 rfl).tail)

/-- A write behind the last cell of `[Three, One, Two]`: the order does not see it, `==` does. -/
example : ∃ m', setCellAtLevelUnchecked x64 exS2 5 .Two = .ok m' ∧ RustOrd.cmp x64 m' exS2 = .ok .eq ∧
    RustOrd.eq m' exS2 = false := by
  obtain ⟨old, h1, h2⟩ := ((C79_unchecked_beyond_depth_2D x64_supported).1 16 (by decide)).2.2.2.1 exS2 (exS2_reach _) 5
    (by decide) (by decide)
  obtain ⟨m', g1, -, -, -, g5, g6⟩ := h2 .Two
  refine ⟨m', g1, ((g5 exS2 (exS2_reach _)).1).trans (by decide +kernel), ?_⟩
  have h0 := ((C79_unchecked_beyond_depth_2D x64_supported).1 16 (by decide)).2.2.2.2 exS2 (exS2_reach _) 5
    (by decide) (by decide)
  rw [h0] at h1
  cases h1
  cases e : RustOrd.eq m' exS2
  · rfl
  · exact absurd (g6.mp e) (by decide)

example : setCellAtLevelUnchecked x64 exS2 5 .Two = .ok ⟨⟨0xD820#16, 3⟩⟩ := by rfl

/-- The bytes of a 3D dynamic index of three levels have room for five; the sixth panics with overflow checks. -/
example : getCellAtLevelUnchecked x64 exD3 4 = .ok .Zero ∧ getCellAtLevelUnchecked x64 exD3 5 = .error .overflow :=
  ⟨(C79_unchecked_beyond_depth_3D x64_supported).2.2.2.2 exD3 (exD3_reach _) 4 (by decide) (by decide),
    ((C79_unchecked_beyond_depth_3D x64_supported).2.2.1 rfl exD3 5 (by decide)).1⟩

end MortonRs
