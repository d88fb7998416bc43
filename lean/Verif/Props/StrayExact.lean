import Verif.Lemmas.Hidden
import Verif.Props.Rebuild
import Verif.Props.Stray
import Verif.Props.StorageBits

/-! # Exactly when `==` and the round trips see bits outside the cells (C109)

C11, C15, C16 and C48 are false of indices that hold something outside their cells: bits of an octree integer behind the last cell,
or a spare byte of a dynamic quadtree index. Here is what such indices look like from outside, and for every history exactly when a
round trip or the way to the root gives an equal index. -/

namespace MortonRs

open BitStorage MortonIndex VariableDepthMortonIndex

variable {M Cell : Type} {c : Cfg}

/-! ## Statements -/

/-- Client code: `m == M::try_from(m.cells().collect::<Vec<_>>().as_slice()).unwrap()`. -/
def Unspoiled (c : Cfg) {S : Type} [Storage S Cell] [MortonIndex M Cell] [RustOrd M] (iter : M → CellIter S)
    (tf : List Cell → Res (Except Error M)) (m : M) : Prop :=
  ∃ r, rebuild c iter tf m = .ok (.ok r) ∧ RustOrd.eq m r = true

def Unspoiled2D (c : Cfg) {S : Type} [Storage S Quadrant] [TryFromCells S Quadrant] [RustOrd S] (m : MortonIndex2D S) : Prop :=
  Unspoiled c MortonIndex2D.cells (MortonIndex2D.tryFromSlice c) m

def Unspoiled3D (c : Cfg) {S : Type} [Storage S Octant] [TryFromCells S Octant] [RustOrd S] (m : MortonIndex3D S) : Prop :=
  Unspoiled c MortonIndex3D.cells (MortonIndex3D.tryFromSlice c) m

/-- C109: the indices equal to what `try_from` makes of their cells are exactly those of the histories `okC` without calls that leave
stray bits, and equality with such an index is equality of the cells together with being one. -/
def UnspoiledMeans (c : Cfg) [MortonIndex M Cell] [RustOrd M] (ok okC unspoiled : M → Prop) : Prop :=
  (∀ m, okC m ↔ ok m ∧ unspoiled m) ∧
  ∀ a b, ok a → ok b → unspoiled a → (RustOrd.eq a b = true ↔ SameCells c a b ∧ unspoiled b)

/-- C109: `==` compares the depth, the cells stored at all `levels` of the capacity (also those behind the depth) and the `rest` of the
bits. -/
def EqExact (c : Cfg) [MortonIndex M Cell] [RustOrd M] (ok : M → Prop) (levels rest : M → Nat) : Prop :=
  ∀ a b, ok a → ok b → (RustOrd.eq a b = true ↔ depth a = depth b ∧ levels a = levels b ∧
    (∀ l, l < levels a → getCellAtLevelUnchecked c a l = getCellAtLevelUnchecked c b l) ∧ rest a = rest b)

section
variable [VariableDepthMortonIndex M Cell] [RustOrd M]

/-- C109: down and up again gives an equal index exactly if `cond`. -/
def DownUpExact (c : Cfg) (ok : M → Prop) (room : M → Nat → Prop) (cond : M → List Cell → Prop) : Prop :=
  ∀ m, ok m → ∀ (cs : List Cell) (h : 0 < cs.length), room m cs.length → ∀ k, descendant c m cs = .ok (some k) →
    ∃ q, ancestor c k ⟨cs.length, h⟩ = .ok (some q) ∧ (RustOrd.eq q m = true ↔ cond m cs)

/-- C109: up and down again along the last cell gives an equal index exactly if `cond`. -/
def UpChildExact (c : Cfg) (ok : M → Prop) (cond : M → Prop) : Prop :=
  ∀ m, ok m → ∀ q, parent c m = .ok (some q) → ∃ v, getCellAtLevel c m (depth m - 1) = .ok v ∧
    ∃ k, child c q v = .ok (some k) ∧ (RustOrd.eq k m = true ↔ cond m)

/-- C109: the ancestor at depth zero is the default index exactly if `cond`. -/
def RootExact (c : Cfg) (ok : M → Prop) (default : M) (cond : M → Prop) : Prop :=
  ∀ m, ok m → ∀ g : NonZeroUsize, g.val = depth m → ∃ a, ancestor c m g = .ok (some a) ∧
    (RustOrd.eq a default = true ↔ cond m)

end

/-- The bytes a dynamic quadtree index has beyond those its depth calls for. -/
def spareBytes (m : MortonIndex2D DynamicStorage2D) : Nat := (StorageBits.bits m.storage).length - (depth m + 3) / 4

/-! ## Unspoiled indices -/

theorem sameCells_iff_path {ok : M → Prop} {p : M → List Cell} {wr : Cell → Cell} [MortonIndex M Cell] (h : ListLike c ok p wr)
    {a b : M} (ha : ok a) (hb : ok b) : SameCells c a b ↔ p a = p b := by
  rw [← h.sameCells_iff ha hb]
  refine ⟨fun ⟨g1, g2⟩ => ⟨g1, fun l _ => g2 l⟩, fun ⟨g1, g2⟩ => ⟨g1, fun l => ?_⟩⟩
  by_cases hl : l < depth a
  · exact g2 l hl
  · rw [h.get_ge a ha l (by rw [← h.depth_eq a ha]; omega), h.get_ge b hb l (by rw [← h.depth_eq b hb]; omega)]

theorem unspoiledMeans_of {S : Type} [Storage S Cell] [MortonIndex M Cell] [RustOrd M] {iter : M → CellIter S}
    {tf : List Cell → Res (Except Error M)} {ok okC : M → Prop} {p : M → List Cell} {wr : Cell → Cell} (hA : ListLike c ok p wr)
    (hiA : IteratesCells c iter ok) (hC : ListLike c okC p wr) (hiC : IteratesCells c iter okC) (hE : EqLike okC p)
    (heq : ∀ a b : M, RustOrd.eq a b = true ↔ a = b)
    (htf : ∀ m, ok m ∨ okC m → ∃ r, tf (p m) = .ok (.ok r) ∧ ok r ∧ okC r ∧ p r = p m) :
    UnspoiledMeans c ok okC (Unspoiled c iter tf) := by
  have h1 : ∀ m, okC m ↔ ok m ∧ Unspoiled c iter tf m := by
    intro m
    constructor
    · intro hm
      obtain ⟨r, e1, e2, e3, e4⟩ := htf m (.inr hm)
      have e := (hE m r hm e3).mpr e4.symm
      refine ⟨(heq m r).mp e ▸ e2, r, ?_, e⟩
      rw [rebuild, collect_of hC hiC hm]
      exact e1
    · rintro ⟨hm, r, e1, e2⟩
      obtain ⟨r', f1, -, f3, -⟩ := htf m (.inl hm)
      rw [rebuild, collect_of hA hiA hm] at e1
      simp only [ok_bind] at e1
      rw [f1] at e1
      cases e1
      exact (heq _ _).mp e2 ▸ f3
  refine ⟨h1, fun a b ha hb hu => ?_⟩
  have hca := (h1 a).mpr ⟨ha, hu⟩
  rw [sameCells_iff_path hA ha hb]
  constructor
  · intro e
    cases (heq a b).mp e
    exact ⟨rfl, hu⟩
  · rintro ⟨e, hub⟩
    exact (hE a b hca ((h1 b).mpr ⟨hb, hub⟩)).mpr e

/-- C109. Which indices are unspoiled, 2D. Fixed-depth and static quadtree indices always are. -/
theorem C109_unspoiled_2D (hc : c.Supported) :
    (∀ w, (∀ m : MortonIndex2D (FixedDepthStorage2D w), Reach2D c .all (.fixed w m) → Unspoiled2D c m) ∧
      ∀ m : MortonIndex2D (StaticStorage2D w), Reach2D c .all (.static w m) → Unspoiled2D c m) ∧
    (DynWrites c → UnspoiledMeans c (fun m : MortonIndex2D DynamicStorage2D => Reach2D c .all (.dynamic m))
      (fun m => Reach2D c .canonical (.dynamic m)) (Unspoiled2D c)) := by
  refine ⟨fun w => ⟨fun m hm => ?_, fun m hm => ?_⟩, fun hw => ?_⟩
  · refine ((unspoiledMeans_of (fixed_list2 (sc := .all) hc) (iterates_of2 hc (fixed_wf2 hc) (fixed_depth_lt2 hc)) (fixed_list2 hc)
      (iterates_of2 hc (fixed_wf2 hc) (fixed_depth_lt2 hc)) (fixed_eq2 (sc := .all) hc) fixed_eq_self2 fun m hm => ?_).1 m).mp hm |>.2
    have hm : Reach2D c .all (.fixed w m) := hm.elim id id
    have hl := (fixed_list2 hc).depth_eq m hm
    have hf : (cells2 m).length = w / 2 := hl.symm
    obtain ⟨r, h1, -, -, h2⟩ := MortonIndex2D.fixed_tryFrom hc (fixed_wf2 hc m hm).fit (cs := cells2 m) (Nat.le_of_eq hf)
    have e : w / dim Quadrant - (cells2 m).length = 0 := by
      change w / 2 - _ = 0
      omega
    rw [e, List.replicate_zero, List.append_nil] at h2
    exact ⟨r, h1, .fixedTryFromSlice (fixed_wf2 hc m hm).fit h1, .fixedTryFromSlice (fixed_wf2 hc m hm).fit h1, h2⟩
  · refine ((unspoiledMeans_of (static_list2 (sc := .all) hc) (iterates_of2 hc (static_wf2 hc) (static_depth_lt2 hc)) (static_list2 hc)
      (iterates_of2 hc (static_wf2 hc) (static_depth_lt2 hc)) (static_eq2 (sc := .all) hc) static_eq_self2 fun m hm => ?_).1 m).mp hm |>.2
    have hm : Reach2D c .all (.static w m) := hm.elim id id
    obtain ⟨r, h1, -, -, -, h2⟩ := MortonIndex2D.static_tryFrom hc (static_wf2 hc m hm).fit (cs := cells2 m) (static_depth_le2 hc m hm)
    exact ⟨r, h1, .staticTryFromSlice (static_wf2 hc m hm).fit h1, .staticTryFromSlice (static_wf2 hc m hm).fit h1, h2⟩
  · refine unspoiledMeans_of (dynamic_list2 hc hw) (iterates_of2 hc (dynamic_wf2 hc) (dynamic_depth_lt2 hc)) (dynamic_list2 hc hw)
      (iterates_of2 hc (dynamic_wf2 hc) (dynamic_depth_lt2 hc)) (dynamic_eq2 hc) dynamic_eq_self2 fun m hm => ?_
    have hf : Addressable c ((cells2 m).length * 2) := hm.elim (dynamic_addr2 hc m) (dynamic_addr2 hc m)
    obtain ⟨r, h1, -, -, -, h2⟩ := MortonIndex2D.dynamic_tryFrom hc (cs := cells2 m) hf
    exact ⟨r, h1, .dynamicTryFromSlice hf h1, .dynamicTryFromSlice hf h1, h2 hw⟩

/-- C109. Which indices are unspoiled, 3D. -/
theorem C109_unspoiled_3D (hc : c.Supported) :
    (∀ w, UnspoiledMeans c (fun m : MortonIndex3D (FixedDepthStorage3D w) => Reach3D c .all (.fixed w m))
        (fun m => Reach3D c .canonical (.fixed w m)) (Unspoiled3D c) ∧
      UnspoiledMeans c (fun m : MortonIndex3D (StaticStorage3D w) => Reach3D c .all (.static w m))
        (fun m => Reach3D c .canonical (.static w m)) (Unspoiled3D c)) ∧
    (DynWrites c → UnspoiledMeans c (fun m : MortonIndex3D DynamicStorage3D => Reach3D c .all (.dynamic m))
      (fun m => Reach3D c .canonical (.dynamic m)) (Unspoiled3D c)) := by
  refine ⟨fun w => ⟨?_, ?_⟩, fun hw => ?_⟩
  · refine unspoiledMeans_of (fixed_list3 hc) (iterates_of3 hc (fixed_wf3 hc) (fixed_depth_lt3 hc)) (fixed_list3 hc)
      (iterates_of3 hc (fixed_wf3 hc) (fixed_depth_lt3 hc)) (fixed_eq3 hc) fixed_eq_self3 fun m hm => ?_
    have hw : IntWidth w := hm.elim (fun h => (fixed_wf3 hc m h).fit) (fun h => (fixed_wf3 hc m h).fit)
    have hf : (cells3 m).length = w / 3 :=
      (hm.elim (fun h => (fixed_list3 hc).depth_eq m h) (fun h => (fixed_list3 hc).depth_eq m h)).symm
    obtain ⟨r, h1, -, -, h2⟩ := MortonIndex3D.fixed_tryFrom hc hw (cs := cells3 m) (Nat.le_of_eq hf)
    have e : w / dim Octant - (cells3 m).length = 0 := by
      change w / 3 - _ = 0
      omega
    rw [e, List.replicate_zero, List.append_nil] at h2
    exact ⟨r, h1, .fixedTryFromSlice hw h1, .fixedTryFromSlice hw h1, h2⟩
  · refine unspoiledMeans_of (static_list3 hc) (iterates_of3 hc (static_wf3 hc) (static_depth_lt3 hc)) (static_list3 hc)
      (iterates_of3 hc (static_wf3 hc) (static_depth_lt3 hc)) (static_eq3 hc) static_eq_self3 fun m hm => ?_
    have hw : IntWidth w := hm.elim (fun h => (static_wf3 hc m h).fit) (fun h => (static_wf3 hc m h).fit)
    obtain ⟨r, h1, -, -, -, h2⟩ := MortonIndex3D.static_tryFrom hc hw (cs := cells3 m)
      (hm.elim (static_depth_le3 hc m) (static_depth_le3 hc m))
    exact ⟨r, h1, .staticTryFromSlice hw h1, .staticTryFromSlice hw h1, h2⟩
  · refine unspoiledMeans_of (dynamic_list3 hc hw) (iterates_of3 hc (dynamic_wf3 hc) (dynamic_depth_lt3 hc)) (dynamic_list3 hc hw)
      (iterates_of3 hc (dynamic_wf3 hc) (dynamic_depth_lt3 hc)) (dynamic_eq3 hc) dynamic_eq_self3 fun m hm => ?_
    have hf : Addressable c ((cells3 m).length * 3) := hm.elim (dynamic_addr3 hc m) (dynamic_addr3 hc m)
    obtain ⟨r, h1, -, -, -, h2⟩ := MortonIndex3D.dynamic_tryFrom hc (cs := cells3 m) hf
    exact ⟨r, h1, .dynamicTryFromSlice hf h1, .dynamicTryFromSlice hf h1, h2 hw⟩

/-! ## What `==` compares -/

theorem unchecked_slot2 {S : Type} [Storage S Quadrant] [BitStorage S Quadrant] (hc : c.Supported) {m : MortonIndex2D S}
    (h : WF c m.storage) {l : Nat} (hl : (l + 1) * 2 ≤ width m.storage) :
    getCellAtLevelUnchecked c m l = .ok (slot m.storage l) := get_ok hc h.fit hl

theorem unchecked_slot3 {S : Type} [Storage S Octant] [BitStorage S Octant] (hc : c.Supported) {m : MortonIndex3D S}
    (h : WF c m.storage) {l : Nat} (hl : (l + 1) * 3 ≤ width m.storage) :
    getCellAtLevelUnchecked c m l = .ok (slot m.storage l) := get_ok hc h.fit hl

theorem ok_slot_iff {S : Type} {Cell : Type} [LawfulDim Cell] [Storage S Cell] [BitStorage S Cell] {s : S} {l : Nat} {v : Cell} :
    (Except.ok (slot s l) : Res Cell) = .ok v ↔ slot s l = v :=
  ⟨fun h => Except.ok.inj h, fun h => by rw [h]⟩

theorem eqExact3 {S : Type} [Storage S Octant] [BitStorage S Octant] [RustOrd S] (hc : c.Supported) {ok : MortonIndex3D S → Prop}
    {levels rest : MortonIndex3D S → Nat} (hwf : ∀ m, ok m → WF c m.storage) (hl : ∀ m, ok m → levels m = width m.storage / 3)
    (hr : ∀ m, ok m → rest m = value m.storage % 2 ^ (width m.storage % 3))
    (heq : ∀ a b : MortonIndex3D S, RustOrd.eq a b = true ↔ a = b)
    (hw : ∀ a b, ok a → ok b → levels a = levels b → width a.storage = width b.storage)
    (hext : ∀ s t : S, width s = width t → Storage.depth s = Storage.depth t → value s = value t → s = t) :
    EqExact c ok levels rest := by
  intro a b ha hb
  rw [heq]
  constructor
  · rintro rfl
    exact ⟨rfl, rfl, fun _ _ => rfl, rfl⟩
  · rintro ⟨h1, h2, h3, h4⟩
    have hw' := hw a b ha hb h2
    rw [hr a ha, hr b hb, ← hw'] at h4
    have : a.storage = b.storage := hext _ _ hw' h1 ((value_eq_iff_slots hw').mpr ⟨fun l hl' => by
      have hl2 : l < width a.storage / 3 := hl'
      have e := h3 l (by rw [hl a ha]; exact hl2)
      rw [unchecked_slot3 hc (hwf a ha) (by omega), unchecked_slot3 hc (hwf b hb) (by omega)] at e
      exact Except.ok.inj e, h4⟩)
    cases a; cases b
    rw [MortonIndex3D.mk.injEq]
    exact this

/-- C109. What `==` of octree indices compares, for every history. -/
theorem C109_equality_3D (hc : c.Supported) :
    (∀ w, EqExact c (fun m : MortonIndex3D (FixedDepthStorage3D w) => Reach3D c .all (.fixed w m)) (fun _ => w / 3)
        (fun m => (StorageBits.bits m.storage).toNat % 2 ^ (w % 3)) ∧
      EqExact c (fun m : MortonIndex3D (StaticStorage3D w) => Reach3D c .all (.static w m)) (fun _ => w / 3)
        (fun m => (StorageBits.bits m.storage).toNat % 2 ^ (w % 3))) ∧
    EqExact c (fun m : MortonIndex3D DynamicStorage3D => Reach3D c .all (.dynamic m))
      (fun m => 8 * (StorageBits.bits m.storage).length / 3)
      (fun m => leNumber (StorageBits.bits m.storage) % 2 ^ (8 * (StorageBits.bits m.storage).length % 3)) := by
  refine ⟨fun w => ⟨?_, ?_⟩, ?_⟩
  · exact eqExact3 hc (fixed_wf3 hc) (fun _ _ => rfl) (fun _ _ => rfl) fixed_eq_self3 (fun _ _ _ _ _ => rfl)
      fun s t _ _ h => FixedDepthStorage3D.ext_value h
  · exact eqExact3 hc (static_wf3 hc) (fun _ _ => rfl) (fun _ _ => rfl) static_eq_self3 (fun _ _ _ _ _ => rfl)
      fun s t _ h1 h2 => StaticStorage3D.ext_value h2 h1
  · refine eqExact3 hc (dynamic_wf3 hc) (fun _ _ => rfl) (fun m _ => ?_) dynamic_eq_self3 (fun a b _ _ h => ?_)
      fun s t hw h1 h2 => DynamicStorage3D.ext_value h2 ?_ h1
    · rw [leNumber_eq]; rfl
    · change 8 * a.storage.bits.length / 3 = 8 * b.storage.bits.length / 3 at h
      change 8 * a.storage.bits.length = 8 * b.storage.bits.length
      omega
    · have : 8 * s.bits.length = 8 * t.bits.length := hw
      omega

theorem dynamic_ext_slots2 {s t : DynamicStorage2D} (hl : s.bits.length = t.bits.length) (hd : s.depth = t.depth) :
    s = t ↔ ∀ l, l < 4 * s.bits.length → slot s l = slot t l := by
  have hw : width s = width t := by change 8 * s.bits.length = 8 * t.bits.length; rw [hl]
  have hww : width s = 8 * s.bits.length := rfl
  constructor
  · rintro rfl
    exact fun _ _ => rfl
  · intro h
    refine DynamicStorage2D.ext_value ((value_eq_iff_slots hw).mpr ⟨fun l hl => h l ?_, ?_⟩) hl hd
    · change l < width s / 2 at hl
      rw [hww] at hl
      omega
    · have : width s % dim Quadrant = 0 := by
        rw [hww, dim_Quadrant]
        omega
      rw [this]
      simp [Nat.mod_one]

/-- C109. What `==` of dynamic quadtree indices compares, for every history. (For the other quadtree indices it is the cells alone,
C16.) -/
theorem C109_equality_2D (hc : c.Supported) :
    EqExact c (fun m : MortonIndex2D DynamicStorage2D => Reach2D c .all (.dynamic m))
      (fun m => 4 * (StorageBits.bits m.storage).length) (fun _ => 0) := by
  intro a b ha hb
  rw [dynamic_eq_self2]
  constructor
  · rintro rfl
    exact ⟨rfl, rfl, fun _ _ => rfl, rfl⟩
  · rintro ⟨h1, h2, h3, -⟩
    have h2 : 4 * a.storage.bits.length = 4 * b.storage.bits.length := h2
    have hl : a.storage.bits.length = b.storage.bits.length := by omega
    have : a.storage = b.storage := (dynamic_ext_slots2 hl h1).mpr fun l hlt => by
      have e := h3 l hlt
      rw [unchecked_slot2 hc (dynamic_wf2 hc a ha) (by change _ ≤ 8 * a.storage.bits.length; omega),
        unchecked_slot2 hc (dynamic_wf2 hc b hb) (by change _ ≤ 8 * b.storage.bits.length; omega)] at e
      exact Except.ok.inj e
    cases a; cases b
    rw [MortonIndex2D.mk.injEq]
    exact this

/-! ## Round trips of octree indices -/

theorem static3_eq_of {w : Nat} {a b : MortonIndex3D (StaticStorage3D w)} (hw : WF c b.storage) (hp : path a.storage = path b.storage)
    (hb : SameBelow (w - b.storage.depth * 3) a.storage b.storage) : a = b := by
  have hd : Storage.depth a.storage = Storage.depth b.storage := by rw [← path_length a.storage, ← path_length b.storage, hp]
  have : a.storage = b.storage := StaticStorage3D.ext_value
    (value_eq_of_path_tail (by rw [hd]; exact hw.depth_le) rfl (by rw [hd]; exact hb) hp) hd
  cases a; cases b
  rw [MortonIndex3D.mk.injEq]
  exact this

/-- An unspoiled static octree index is one with zero bits behind its last cell. -/
theorem static_unspoiled_iff3 (hc : c.Supported) {w : Nat} {m : MortonIndex3D (StaticStorage3D w)} (hm : Reach3D c .all (.static w m)) :
    Unspoiled3D c m ↔ TailZero m.storage := by
  constructor
  · intro h
    exact (reach3D_good hc ((((C109_unspoiled_3D hc).1 w).2.1 m).mpr ⟨hm, h⟩)).2 rfl
  · intro hz
    have hwf := static_wf3 hc m hm
    obtain ⟨r, h1, -, h2, h3, h4⟩ := MortonIndex3D.static_tryFrom hc hwf.fit (cs := cells3 m) (static_depth_le3 hc m hm)
    refine ⟨r, ?_, (StaticStorage3D.eq_iff hwf hz h3).mpr h4.symm⟩
    rw [rebuild, collect_of (static_list3 hc) (iterates_of3 hc (static_wf3 hc) (static_depth_lt3 hc)) hm]
    exact h1

theorem dynamic_unspoiled_iff3 (hc : c.Supported) (hw : DynWrites c) {m : MortonIndex3D DynamicStorage3D}
    (hm : Reach3D c .all (.dynamic m)) : Unspoiled3D c m ↔ DynamicStorage3D.Canon c m.storage := by
  constructor
  · intro h
    exact (reach3D_good hc ((((C109_unspoiled_3D hc).2 hw).1 m).mpr ⟨hm, h⟩)).2 rfl
  · intro hz
    obtain ⟨r, h1, -, -, h3, h4⟩ := MortonIndex3D.dynamic_tryFrom hc (cs := cells3 m) (dynamic_addr3 hc m hm)
    refine ⟨r, ?_, (DynamicStorage3D.eq_iff hz h3).mpr (h4 hw).symm⟩
    rw [rebuild, collect_of (dynamic_list3 hc hw) (iterates_of3 hc (dynamic_wf3 hc) (dynamic_depth_lt3 hc)) hm]
    exact h1

/-- An index with the cells of `m` that is free of stray bits equals `m` exactly if `m` is too. -/
theorem dynamic_eq_canon_iff3 {a m : MortonIndex3D DynamicStorage3D} (ha : DynamicStorage3D.Canon c a.storage)
    (hp : path a.storage = path m.storage) : RustOrd.eq a m = true ↔ DynamicStorage3D.Canon c m.storage := by
  constructor
  · intro e
    exact (dynamic_eq_self3 a m).mp e ▸ ha
  · intro hm
    exact (DynamicStorage3D.eq_iff ha hm).mpr hp

/-- C109. The round trips of octree indices, for every history: static indices come back equal from below exactly if the levels that
were passed held `Zero`, and always from above; dynamic indices exactly if they are unspoiled. -/
theorem C109_round_trips_3D (hc : c.Supported) :
    (∀ w, DownUpExact c (fun m : MortonIndex3D (StaticStorage3D w) => Reach3D c .all (.static w m)) (fun _ n => n < 2 ^ (c.ptrBits - 1))
        (fun m cs => ∀ l, depth m ≤ l → l < depth m + cs.length → getCellAtLevelUnchecked c m l = .ok .Zero) ∧
      ParentChild c (fun m : MortonIndex3D (StaticStorage3D w) => Reach3D c .all (.static w m))) ∧
    (DynWrites c →
      DownUpExact c (fun m : MortonIndex3D DynamicStorage3D => Reach3D c .all (.dynamic m))
        (fun m n => Addressable c ((depth m + n) * 3)) (fun m _ => Unspoiled3D c m) ∧
      UpChildExact c (fun m : MortonIndex3D DynamicStorage3D => Reach3D c .all (.dynamic m)) (Unspoiled3D c)) := by
  refine ⟨fun w => ⟨?_, ?_⟩, fun hw => ⟨?_, ?_⟩⟩
  · intro m hm cs h0 hr k hk
    have hwf := static_wf3 hc m hm
    obtain ⟨rk, pk⟩ := (static_desc3 hc).of_some hm hr hk
    obtain ⟨q, e1, e2, e3⟩ := (static_anc3 hc).yes k rk ⟨cs.length, h0⟩ (by rw [pk, List.length_append]; exact Nat.le_add_left ..)
    rw [pk, List.length_append, Nat.add_sub_cancel, List.take_left] at e3
    refine ⟨q, e1, ?_⟩
    have hn : m.storage.depth + cs.length ≤ w / dim Octant := by
      have := static_depth_le3 hc k rk
      rw [pk, List.length_append, cells3, path_length] at this
      exact this
    obtain ⟨kd, ks, ko, kb⟩ := StaticStorage3D.descendant_slots hc hwf hn (storage_descendant3 hk)
    obtain ⟨-, qd, qs, qo, qb⟩ := StaticStorage3D.ancestor_slots hc (static_wf3 hc k rk) (storage_ancestor3 e1)
    rw [kd, Nat.add_sub_cancel] at qd
    rw [kd] at qs qo qb
    rw [Nat.add_sub_cancel] at qs qo
    have hw3 : ∀ l, l < m.storage.depth + cs.length → (l + 1) * 3 ≤ w := fun l hl => by
      change _ ≤ w / 3 at hn
      omega
    have hslot : ∀ l, l < m.storage.depth + cs.length → getCellAtLevelUnchecked c m l = .ok (slot m.storage l) := fun l hl =>
      unchecked_slot3 hc hwf (hw3 l hl)
    rw [static_eq_self3]
    constructor
    · rintro rfl l h1 h2
      rw [hslot l h2, qs l h1 h2]
    · intro hz
      refine static3_eq_of hwf e3 (sameBelow_of_slots (s := q.storage) (t := m.storage) (b := m.storage.depth + cs.length) rfl ?_ (fun l h1 h2 => ?_) ?_)
      · change _ ≤ w / 3 at hn
        change (m.storage.depth + cs.length) * 3 ≤ w
        omega
      · have e := hz l h1 h2
        rw [hslot l h2] at e
        rw [qs l h1 h2, Except.ok.inj e]
      · exact fun i hi => (qb i hi).trans (kb i hi)
  · intro m hm q hq
    have hwf := static_wf3 hc m hm
    rw [parent_eq] at hq
    by_cases h0 : 0 < (cells3 m).length
    · obtain ⟨a, h1, rq, pq⟩ := (static_anc3 hc).yes m hm ⟨1, by decide⟩ h0
      rw [hq] at h1
      cases h1
      obtain ⟨-, qd, qs, qo, qb⟩ := StaticStorage3D.ancestor_slots hc hwf (storage_ancestor3 hq)
      have hd0 : 0 < m.storage.depth := by rw [cells3, path_length] at h0; exact h0
      obtain ⟨v, g1, k, g2, g3⟩ := ((C63_round_trips_3D hc).1 w).2.2 m hm q (by rw [parent_eq]; exact hq)
      refine ⟨v, g1, k, g2, (static_eq_self3 k m).mpr ?_⟩
      have rk : Reach3D c .all (.static w k) := .staticChild rq g2
      have hqd : q.storage.depth + [v].length = m.storage.depth := by
        rw [qd]
        change m.storage.depth - 1 + 1 = m.storage.depth
        omega
      have hn : q.storage.depth + [v].length ≤ w / dim Octant := by
        rw [hqd]
        exact (StaticStorage3D.wf_iff hwf.fit _).mp hwf
      obtain ⟨kd, ks, ko, kb⟩ := StaticStorage3D.descendant_slots hc (static_wf3 hc q rq) hn (storage_descendant3 g2)
      rw [hqd] at kb
      refine static3_eq_of hwf ?_ fun i hi => (kb i hi).trans (qb i hi)
      have := (sameCells_iff_path (static_list3 hc) rk hm).mp ⟨g3.1, g3.2.1⟩
      exact this
    · rw [(static_anc3 hc).no m hm _ (by change 1 > _; omega)] at hq
      simp at hq
  · intro m hm cs h0 hr k hk
    obtain ⟨rk, pk⟩ := (dynamic_desc3 hc hw).of_some hm hr hk
    obtain ⟨q, e1, e2, e3⟩ := (dynamic_anc3 hc).yes k rk ⟨cs.length, h0⟩ (by rw [pk, List.length_append]; exact Nat.le_add_left ..)
    rw [pk, List.length_append, Nat.add_sub_cancel, List.take_left] at e3
    refine ⟨q, e1, ?_⟩
    dsimp only
    rw [dynamic_unspoiled_iff3 hc hw hm]
    exact dynamic_eq_canon_iff3 (DynamicStorage3D.ancestor_canon (reach3D_good hc rk).1 (reach3D_noSpare hc rk)
      (storage_ancestor3 e1)) e3
  · intro m hm q hq
    obtain ⟨v, g1, k, g2, g3⟩ := ((C63_round_trips_3D hc).2 hw).2.2 m hm q hq
    refine ⟨v, g1, k, g2, ?_⟩
    rw [parent_eq] at hq
    have rq : Reach3D c .all (.dynamic q) := .dynamicAncestor hm hq
    have hcq := DynamicStorage3D.ancestor_canon (reach3D_good hc hm).1 (reach3D_noSpare hc hm) (storage_ancestor3 hq)
    have hd : depth q + 1 = depth m := by
      have h2 := g3.1
      have h3 : Addressable c ((q.storage.depth + [v].length) * 3) := by
        have ha := dynamic_addr3 hc m hm
        by_cases h0 : 0 < (cells3 m).length
        · obtain ⟨a, h1, -, pq⟩ := (dynamic_anc3 (sc := .all) hc).yes m hm ⟨1, by decide⟩ h0
          rw [hq] at h1
          cases h1
          have := congrArg List.length pq
          rw [List.length_take, cells3, path_length, cells3, path_length] at this
          change q.storage.depth = min (m.storage.depth - 1) m.storage.depth at this
          rw [cells3, path_length] at h0
          change 0 < m.storage.depth at h0
          rw [cells3, path_length] at ha
          change Addressable c (m.storage.depth * 3) at ha
          rw [this, List.length_singleton, show min (m.storage.depth - 1) m.storage.depth + 1 = m.storage.depth by omega]
          exact ha
        · rw [(dynamic_anc3 (sc := .all) hc).no m hm _ (by change 1 > _; omega)] at hq
          simp at hq
      obtain ⟨k', f1, -, -, f4, -⟩ := MortonIndex3D.dynamic_descendant (cs := [v]) hc hcq.inv h3
      rw [show descendant c q [v] = .ok (some k) from g2] at f1
      cases f1
      exact f4.symm.trans h2
    have ha : Addressable c ((q.storage.depth + [v].length) * 3) := by
      have ha := dynamic_addr3 hc m hm
      rw [cells3, path_length] at ha
      change Addressable c (m.storage.depth * 3) at ha
      change q.storage.depth + 1 = m.storage.depth at hd
      rw [List.length_singleton, hd]
      exact ha
    obtain ⟨k', f1, -, f3, -, -⟩ := MortonIndex3D.dynamic_descendant (cs := [v]) hc hcq.inv ha
    rw [show descendant c q [v] = .ok (some k) from g2] at f1
    cases f1
    have rk : Reach3D c .all (.dynamic k) := .dynamicChild rq ha g2
    rw [dynamic_unspoiled_iff3 hc hw hm]
    exact dynamic_eq_canon_iff3 (f3 hcq) ((sameCells_iff_path (dynamic_list3 hc hw) rk hm).mp ⟨g3.1, g3.2.1⟩)

/-- C109. The root of an octree index, for every history: of a static index the default exactly if the index is unspoiled, of a dynamic
index always. -/
theorem C109_root_3D (hc : c.Supported) :
    (∀ w, RootExact c (fun m : MortonIndex3D (StaticStorage3D w) => Reach3D c .all (.static w m)) ⟨StaticStorage3D.default w⟩
      (Unspoiled3D c)) ∧
    RootExact c (fun m : MortonIndex3D DynamicStorage3D => Reach3D c .all (.dynamic m)) ⟨DynamicStorage3D.default⟩ (fun _ => True) := by
  refine ⟨fun w m hm g hg => ?_, fun m hm g hg => ?_⟩
  · have hwf := static_wf3 hc m hm
    obtain ⟨a, h1, h2, h3⟩ := (static_anc3 hc).yes m hm g (by rw [hg, (static_list3 hc).depth_eq m hm]; exact Nat.le_refl _)
    refine ⟨a, h1, ?_⟩
    obtain ⟨-, ad, -, -, ab⟩ := StaticStorage3D.ancestor_slots hc hwf (storage_ancestor3 h1)
    have had : a.storage.depth = 0 := by
      rw [ad, hg]
      change m.storage.depth - m.storage.depth = 0
      omega
    rw [static_unspoiled_iff3 hc hm]
    constructor
    · intro e i hi
      cases (static_eq_self3 a _).mp e
      rw [← ab i hi]
      exact StaticStorage3D.default_bits i 0
    · intro hz
      have hza : TailZero a.storage := by
        obtain ⟨a', f1, -, f3, -⟩ := MortonIndex3D.static_ancestor hc hwf (m := m) (g := g) (Nat.le_of_eq hg)
        rw [h1] at f1
        cases f1
        exact f3 hz
      refine (StaticStorage3D.eq_iff (static_wf3 hc a h2) hza fun i _ => StaticStorage3D.default_bits i 0).mpr ?_
      apply List.eq_nil_of_length_eq_zero
      rw [path_length]
      exact had
  · obtain ⟨a, h1, h2, h3⟩ := (dynamic_anc3 hc).yes m hm g (by rw [hg, (dynamic_list3' hc).depth_eq m hm]; exact Nat.le_refl _)
    refine ⟨a, h1, iff_of_true ?_ trivial⟩
    have hcan := DynamicStorage3D.ancestor_canon (reach3D_good hc hm).1 (reach3D_noSpare hc hm) (storage_ancestor3 h1)
    refine (DynamicStorage3D.eq_iff hcan (DynamicStorage3D.default_canon hc)).mpr ?_
    have h3 : path a.storage = (cells3 m).take ((cells3 m).length - g.val) := h3
    have hl := (dynamic_list3' hc).depth_eq m hm
    rw [h3, hg, hl, Nat.sub_self, List.take_zero]
    rfl

/-! ## Round trips of dynamic quadtree indices -/

theorem spareBytes_eq (m : MortonIndex2D DynamicStorage2D) : spareBytes m = DynamicStorage2D.spare m.storage := by
  have : DynamicStorage2D.numBytes m.storage.depth = (m.storage.depth + 3) / 4 := by
    unfold DynamicStorage2D.numBytes
    rw [dim_Quadrant]
    omega
  unfold DynamicStorage2D.spare
  rw [this]
  rfl

theorem dynamic_len2 {s : DynamicStorage2D} (h : DynamicStorage2D.Inv c s) :
    s.bits.length = DynamicStorage2D.numBytes s.depth + DynamicStorage2D.spare s ∧
      s.depth + 4 * DynamicStorage2D.spare s ≤ 4 * s.bits.length := by
  have := h.lo
  unfold DynamicStorage2D.spare
  unfold DynamicStorage2D.numBytes at *
  rw [dim_Quadrant] at *
  omega

theorem dynamic_hidden2 (hc : c.Supported) {m : MortonIndex2D DynamicStorage2D} (hm : Reach2D c .all (.dynamic m)) {l : Nat}
    (hl : l < 4 * m.storage.bits.length) : getCellAtLevelUnchecked c m l = .ok (slot m.storage l) :=
  unchecked_slot2 hc (dynamic_wf2 hc m hm) (by change _ ≤ 8 * m.storage.bits.length; omega)

theorem dynamic_eq_iff_slots2 {a m : MortonIndex2D DynamicStorage2D} (hl : a.storage.bits.length = m.storage.bits.length)
    (hd : a.storage.depth = m.storage.depth) :
    RustOrd.eq a m = true ↔ ∀ l, l < 4 * m.storage.bits.length → slot a.storage l = slot m.storage l := by
  rw [dynamic_eq_self2, ← hl, ← dynamic_ext_slots2 hl hd]
  cases a; cases m
  rw [MortonIndex2D.mk.injEq]

/-- C109. The round trips of dynamic quadtree indices, for every history. With a spare byte (which holds four levels) the way down
writes into it, and the way up keeps it. -/
theorem C109_round_trips_2D (hc : c.Supported) (hw : DynWrites c) :
    DownUpExact c (fun m : MortonIndex2D DynamicStorage2D => Reach2D c .all (.dynamic m))
      (fun m n => Addressable c ((depth m + n) * 2))
      (fun m cs =>
        (∀ i (h : i < cs.length), i < 4 * spareBytes m → getCellAtLevelUnchecked c m (depth m + i) = .ok cs[i]) ∧
        ∀ l, depth m + 4 * spareBytes m ≤ l → l < 4 * (StorageBits.bits m.storage).length →
          getCellAtLevelUnchecked c m l = .ok .Zero) ∧
    UpChildExact c (fun m : MortonIndex2D DynamicStorage2D => Reach2D c .all (.dynamic m))
      (fun m => ∀ l, depth m + 3 * spareBytes m ≤ l → l < 4 * (StorageBits.bits m.storage).length →
        getCellAtLevelUnchecked c m l = .ok .Zero) ∧
    ∀ m, Reach2D c .all (.dynamic m) → spareBytes m ≤ 1 := by
  refine ⟨?_, ?_, fun m hm => ?_⟩
  · intro m hm cs h0 hr k hk
    obtain ⟨rk, pk⟩ := (dynamic_desc2 hc hw).of_some hm hr hk
    obtain ⟨q, e1, e2, e3⟩ := (dynamic_anc2 hc).yes k rk ⟨cs.length, h0⟩ (by rw [pk, List.length_append]; exact Nat.le_add_left ..)
    refine ⟨q, e1, ?_⟩
    have hI := (reach2D_good hc hm).1
    obtain ⟨kI, kd, kp, ks, ko⟩ := DynamicStorage2D.descendant_slots hc hw hI hr (storage_descendant2 hk)
    obtain ⟨-, qd, qp, ql, qs⟩ := DynamicStorage2D.ancestor_slots kI (storage_ancestor2 e1)
    rw [kd, Nat.add_sub_cancel] at qd
    rw [kp] at qp ql qs
    obtain ⟨ml, mle⟩ := dynamic_len2 hI
    have kl := (dynamic_len2 kI).1
    rw [kd, kp] at kl
    have hmono : DynamicStorage2D.numBytes m.storage.depth ≤ DynamicStorage2D.numBytes (m.storage.depth + cs.length) := by
      unfold DynamicStorage2D.numBytes
      rw [dim_Quadrant]
      omega
    have hlen : q.storage.bits.length = m.storage.bits.length := by rw [ql, qd, ← ml]
    rw [dynamic_eq_iff_slots2 hlen qd]
    have hq : ∀ l, l < 4 * m.storage.bits.length → slot q.storage l =
        if l < m.storage.depth + 4 * DynamicStorage2D.spare m.storage then slot k.storage l else .Zero := fun l hl => by
      have := qs l (by rw [hlen]; exact hl)
      rw [qd] at this
      exact this
    have hk' : ∀ l, l < 4 * m.storage.bits.length → (l < m.storage.depth ∨ m.storage.depth + cs.length ≤ l) →
        slot k.storage l = slot m.storage l := fun l hl h => by
      rw [ko l (by omega) h, if_pos hl]
    dsimp only
    rw [spareBytes_eq]
    change _ ↔ (∀ i (h : i < cs.length), i < 4 * DynamicStorage2D.spare m.storage →
        getCellAtLevelUnchecked c m (m.storage.depth + i) = .ok cs[i]) ∧
      ∀ l, m.storage.depth + 4 * DynamicStorage2D.spare m.storage ≤ l → l < 4 * m.storage.bits.length →
        getCellAtLevelUnchecked c m l = .ok .Zero
    constructor
    · intro h
      refine ⟨fun i hi h4 => ?_, fun l h1 h2 => ?_⟩
      · have hl : m.storage.depth + i < 4 * m.storage.bits.length := by omega
        rw [dynamic_hidden2 hc hm hl, ← h _ hl, hq _ hl, if_pos (by omega), ks i hi]
      · rw [dynamic_hidden2 hc hm h2, ← h l h2, hq l h2, if_neg (by omega)]
    · rintro ⟨h1, h2⟩ l hl
      rw [hq l hl]
      split
      · next h4 =>
        by_cases hin : l < m.storage.depth ∨ m.storage.depth + cs.length ≤ l
        · exact hk' l hl hin
        · obtain ⟨i, rfl⟩ : ∃ i, l = m.storage.depth + i := ⟨l - m.storage.depth, by omega⟩
          have e := h1 i (by omega) (by omega)
          rw [dynamic_hidden2 hc hm hl] at e
          rw [ks i (by omega), Except.ok.inj e]
      · next h4 =>
        have e := h2 l (by omega) hl
        rw [dynamic_hidden2 hc hm hl] at e
        exact (Except.ok.inj e).symm
  · intro m hm q hq
    obtain ⟨v, g1, k, g2, g3⟩ := ((C63_round_trips_2D hc).2 hw).2.2 m hm q hq
    refine ⟨v, g1, k, g2, ?_⟩
    rw [parent_eq] at hq
    have rq : Reach2D c .all (.dynamic q) := .dynamicAncestor hm hq
    have hI := (reach2D_good hc hm).1
    have hIq := (reach2D_good hc rq).1
    obtain ⟨h1, qd, qp, ql, qs⟩ := DynamicStorage2D.ancestor_slots hI (storage_ancestor2 hq)
    change 1 ≤ m.storage.depth at h1
    change q.storage.depth = m.storage.depth - 1 at qd
    have ha : Addressable c ((q.storage.depth + [v].length) * 2) := by
      have := hI.addr
      rw [List.length_singleton, show q.storage.depth + 1 = m.storage.depth by omega]
      exact this
    obtain ⟨kI, kd, kp, ks, ko⟩ := DynamicStorage2D.descendant_slots hc hw hIq ha (storage_descendant2 g2)
    rw [List.length_singleton] at kd ko
    have kd' : k.storage.depth = m.storage.depth := by omega
    obtain ⟨ml, mle⟩ := dynamic_len2 hI
    have kl := (dynamic_len2 kI).1
    rw [kd', kp, qp, ← ml] at kl
    have rk : Reach2D c .all (.dynamic k) := .dynamicChild rq ha g2
    have hpath : path k.storage = path m.storage := (sameCells_iff_path (dynamic_list2 hc hw) rk hm).mp ⟨g3.1, g3.2.1⟩
    have hcell : ∀ l, l < m.storage.depth → slot k.storage l = slot m.storage l := fun l hl =>
      (path_eq_iff (s := k.storage) (t := m.storage) kd').mp hpath l (by change l < k.storage.depth; omega)
    have hhi := hI.hi
    have hsp : DynamicStorage2D.spare m.storage ≤ 1 := by
      unfold DynamicStorage2D.spare
      omega
    have hql : q.storage.depth + 4 * DynamicStorage2D.spare m.storage ≤ 4 * q.storage.bits.length := by
      rw [← qp]
      exact (dynamic_len2 hIq).2
    have hk' : ∀ l, l < 4 * m.storage.bits.length → m.storage.depth ≤ l → slot k.storage l =
        if l < m.storage.depth + 3 * DynamicStorage2D.spare m.storage then slot m.storage l else .Zero := by
      intro l hl hd
      rw [ko l (by omega) (by omega)]
      have hcond : l < m.storage.depth + 3 * DynamicStorage2D.spare m.storage ↔
          l < q.storage.depth + 4 * DynamicStorage2D.spare m.storage := by omega
      split
      · next h => rw [qs l h]; simp only [hcond]
      · next h => rw [if_neg (by omega)]
    rw [dynamic_eq_iff_slots2 kl kd']
    dsimp only
    rw [spareBytes_eq]
    change _ ↔ ∀ l, m.storage.depth + 3 * DynamicStorage2D.spare m.storage ≤ l → l < 4 * m.storage.bits.length →
        getCellAtLevelUnchecked c m l = .ok .Zero
    constructor
    · intro h l h1 h2
      rw [dynamic_hidden2 hc hm h2, ← h l h2, hk' l h2 (by omega), if_neg (by omega)]
    · intro h l hl
      by_cases hd : l < m.storage.depth
      · exact hcell l hd
      · rw [hk' l hl (by omega)]
        split
        · rfl
        · next hn =>
          have e := h l (by omega) hl
          rw [dynamic_hidden2 hc hm hl] at e
          exact (Except.ok.inj e).symm
  · have := (reach2D_good hc hm).1.hi
    rw [spareBytes_eq]
    unfold DynamicStorage2D.spare
    omega

/-- C109. The root of a dynamic quadtree index is the default index exactly if there is no spare byte. (Static: always, C48.) -/
theorem C109_root_2D (hc : c.Supported) :
    RootExact c (fun m : MortonIndex2D DynamicStorage2D => Reach2D c .all (.dynamic m)) ⟨DynamicStorage2D.default⟩
      (fun m => spareBytes m = 0) := by
  intro m hm g hg
  obtain ⟨a, h1, h2, h3⟩ := (dynamic_anc2 hc).yes m hm g (by rw [hg, (dynamic_list2' hc).depth_eq m hm]; exact Nat.le_refl _)
  refine ⟨a, h1, ?_⟩
  obtain ⟨-, ad, ap, al, -⟩ := DynamicStorage2D.ancestor_slots (reach2D_good hc hm).1 (storage_ancestor2 h1)
  have had : a.storage.depth = 0 := by
    rw [ad, hg]
    change m.storage.depth - m.storage.depth = 0
    omega
  rw [had] at al
  have al : a.storage.bits.length = DynamicStorage2D.spare m.storage := by
    rw [al]
    exact Nat.zero_add _
  dsimp only
  rw [spareBytes_eq, dynamic_eq_self2, ← al]
  obtain ⟨⟨bs, d⟩⟩ := a
  have had : d = 0 := had
  subst had
  rw [MortonIndex2D.mk.injEq]
  change (⟨bs, 0⟩ : DynamicStorage2D) = ⟨[], 0⟩ ↔ bs.length = 0
  rw [DynamicStorage2D.mk.injEq]
  simp

/-! ## Cases -/

/-- `from_raw_index` at depth one with a `Four` at the level behind it. -/
def exStrayS3 : MortonIndex3D (StaticStorage3D 32) := ⟨⟨0x90000000#32, 1⟩⟩

theorem exStrayS3_reach : Reach3D x64 .all (.static 32 exStrayS3) := .staticFromRaw (d := 1) (by decide) (by decide) (.inl rfl)

/-- The fixed-depth index of the integer `0x95` (two cells and two unused bits `01`), converted. -/
def exStrayD3 : MortonIndex3D DynamicStorage3D := ⟨⟨[0x95#8], 2⟩⟩

theorem exStrayD3_reach : Reach3D x64 .all (.dynamic exStrayD3) := by
  have : MortonIndex3D.fixedToDynamic x64 (MortonIndex3D.fixedFromRawIndex 0x95#8) = exStrayD3 := by decide +kernel
  rw [← this]
  exact .fixedToDynamic (.fixedFromRaw (by decide) (.inl rfl))

/-- `zeroed(4)`: one byte too many. -/
def exSpareD2 : MortonIndex2D DynamicStorage2D := MortonIndex2D.dynamicZeroed 4

theorem exSpareD2_reach : Reach2D x64 .all (.dynamic exSpareD2) := .dynamicZeroed (by unfold Addressable; decide) (.inl rfl)

example : Unspoiled2D x64 exD2 ∧ ¬ Unspoiled2D x64 exSpareD2 := by
  have h := ((C109_unspoiled_2D x64_supported).2 x64_writes).1
  refine ⟨((h exD2).mp (exD2_reach _)).2, ?_⟩
  rintro ⟨r, h1, h2⟩
  rw [show rebuild x64 MortonIndex2D.cells (MortonIndex2D.tryFromSlice x64) exSpareD2 = .ok (.ok ⟨⟨[0x00#8], 4⟩⟩) from by rfl] at h1
  cases h1
  exact absurd h2 (by decide)

example : Unspoiled2D x64 exF2 ∧ Unspoiled2D x64 exS2 :=
  ⟨((C109_unspoiled_2D x64_supported).1 16).1 exF2 (exF2_reach _), ((C109_unspoiled_2D x64_supported).1 16).2 exS2 (exS2_reach _)⟩

/-- Spoiled octree indices: `try_from` of their cells gives other indices. -/
example : Unspoiled3D x64 exS3 ∧ ¬ Unspoiled3D x64 exStrayS3 ∧ ¬ Unspoiled3D x64 exStrayD3 := by
  refine ⟨((((C109_unspoiled_3D x64_supported).1 32).2.1 exS3).mp (exS3_reach _)).2, ?_, ?_⟩
  · rw [static_unspoiled_iff3 x64_supported exStrayS3_reach]
    exact fun h => absurd (h 28 (by decide)) (by decide)
  · rintro ⟨r, h1, h2⟩
    rw [show rebuild x64 MortonIndex3D.cells (MortonIndex3D.tryFromSlice x64) exStrayD3 = .ok (.ok ⟨⟨[0x94#8], 2⟩⟩) from by rfl] at h1
    cases h1
    exact absurd h2 (by decide)

/-- The two indices differ at level one, behind their depth. -/
example : RustOrd.eq exStrayS3 (⟨⟨0x80000000#32, 1⟩⟩ : MortonIndex3D (StaticStorage3D 32)) ≠ true := by
  intro h
  have := ((C109_equality_3D x64_supported).1 32).2 exStrayS3 ⟨⟨0x80000000#32, 1⟩⟩ exStrayS3_reach
    (.staticFromRaw (d := 1) (by decide) (by decide) (.inl rfl))
  exact absurd ((this.mp h).2.2.1 1 (by decide)) (by decide +kernel)

/-- The two indices differ in their capacity only. -/
example : RustOrd.eq exSpareD2 (⟨⟨[0x00#8], 4⟩⟩ : MortonIndex2D DynamicStorage2D) ≠ true := by
  intro h
  have := C109_equality_2D x64_supported exSpareD2 ⟨⟨[0x00#8], 4⟩⟩ exSpareD2_reach
    (.dynamicTryFromSlice (cs := [.Zero, .Zero, .Zero, .Zero]) (by unfold Addressable; decide) (by rfl))
  exact absurd (this.mp h).2.1 (by decide)

/-- Down and up again wipes the stray cell of the static index. -/
example : ∃ q, ancestor x64 (⟨⟨0x94000000#32, 2⟩⟩ : MortonIndex3D (StaticStorage3D 32)) ⟨1, by decide⟩ = .ok (some q) ∧
    RustOrd.eq q exStrayS3 ≠ true := by
  obtain ⟨q, h1, h2⟩ := ((C109_round_trips_3D x64_supported).1 32).1 exStrayS3 exStrayS3_reach [.Five] (by decide) (by decide)
    ⟨⟨0x94000000#32, 2⟩⟩ (by rfl)
  exact ⟨q, h1, fun h => absurd (h2.mp h 1 (by decide) (by decide)) (by decide +kernel)⟩

/-- Behind level one everything is zero: a stray bit further down is left alone. -/
example : ∃ q, ancestor x64 (⟨⟨0x94000001#32, 2⟩⟩ : MortonIndex3D (StaticStorage3D 32)) ⟨1, by decide⟩ = .ok (some q) ∧
    RustOrd.eq q (⟨⟨0x80000001#32, 1⟩⟩ : MortonIndex3D (StaticStorage3D 32)) = true := by
  obtain ⟨q, h1, h2⟩ := ((C109_round_trips_3D x64_supported).1 32).1 ⟨⟨0x80000001#32, 1⟩⟩
    (.staticFromRaw (d := 1) (by decide) (by decide) (.inl rfl)) [.Five] (by decide) (by decide) ⟨⟨0x94000001#32, 2⟩⟩ (by rfl)
  refine ⟨q, h1, h2.mpr fun l g1 g2 => ?_⟩
  have g1 : 1 ≤ l := g1
  have g2 : l < 1 + 1 := g2
  have : l = 1 := by omega
  subst this
  rfl

/-- Up and down again keeps the stray cell of the static index. -/
example : ∃ v, getCellAtLevel x64 exStrayS3 0 = .ok v ∧
    ∃ k, child x64 (⟨⟨0x10000000#32, 0⟩⟩ : MortonIndex3D (StaticStorage3D 32)) v = .ok (some k) ∧ RustOrd.eq k exStrayS3 = true :=
  ((C109_round_trips_3D x64_supported).1 32).2 exStrayS3 exStrayS3_reach _ (by rfl)

example : ∃ q, ancestor x64 (⟨⟨[0x80#8, 0x96#8], 3⟩⟩ : MortonIndex3D DynamicStorage3D) ⟨1, by decide⟩ = .ok (some q) ∧
    (RustOrd.eq q exStrayD3 = true ↔ Unspoiled3D x64 exStrayD3) :=
  ((C109_round_trips_3D x64_supported).2 x64_writes).1 exStrayD3 exStrayD3_reach [.Five] (by decide)
    (by unfold Addressable; decide) _ (by rfl)

example : ∃ v, getCellAtLevel x64 exD3 2 = .ok v ∧
    ∃ k, child x64 (⟨⟨[0xA4#8], 2⟩⟩ : MortonIndex3D DynamicStorage3D) v = .ok (some k) ∧ RustOrd.eq k exD3 = true := by
  obtain ⟨v, h1, k, h2, h3⟩ := ((C109_round_trips_3D x64_supported).2 x64_writes).2 exD3 (exD3_reach _) _ (by rfl)
  exact ⟨v, h1, k, h2, h3.mpr ((((C109_unspoiled_3D x64_supported).2 x64_writes).1 exD3).mp (exD3_reach _)).2⟩

example : ∃ a, ancestor x64 exS3 ⟨3, by decide⟩ = .ok (some a) ∧
    RustOrd.eq a (⟨StaticStorage3D.default 32⟩ : MortonIndex3D (StaticStorage3D 32)) = true := by
  obtain ⟨a, h1, h2⟩ := (C109_root_3D x64_supported).1 32 exS3 (exS3_reach _) ⟨3, by decide⟩ rfl
  exact ⟨a, h1, h2.mpr ((((C109_unspoiled_3D x64_supported).1 32).2.1 exS3).mp (exS3_reach _)).2⟩

/-- Also the root of a spoiled dynamic octree index is the default. -/
example : ∃ a, ancestor x64 exStrayD3 ⟨2, by decide⟩ = .ok (some a) ∧
    RustOrd.eq a (⟨DynamicStorage3D.default⟩ : MortonIndex3D DynamicStorage3D) = true := by
  obtain ⟨a, h1, h2⟩ := (C109_root_3D x64_supported).2 exStrayD3 exStrayD3_reach ⟨2, by decide⟩ rfl
  exact ⟨a, h1, h2.mpr trivial⟩

/-- `zeroed(4)` down by `Three` and up again is another index, down by `Zero` and up again the same. -/
example : (∃ q, ancestor x64 (⟨⟨[0x00#8, 0xC0#8, 0x00#8], 5⟩⟩ : MortonIndex2D DynamicStorage2D) ⟨1, by decide⟩ = .ok (some q) ∧
      RustOrd.eq q exSpareD2 ≠ true) ∧
    ∃ q, ancestor x64 (⟨⟨[0x00#8, 0x00#8, 0x00#8], 5⟩⟩ : MortonIndex2D DynamicStorage2D) ⟨1, by decide⟩ = .ok (some q) ∧
      RustOrd.eq q exSpareD2 = true := by
  constructor
  · obtain ⟨q, h1, h2⟩ := (C109_round_trips_2D x64_supported x64_writes).1 exSpareD2 exSpareD2_reach [.Three] (by decide)
      (by unfold Addressable; decide) ⟨⟨[0x00#8, 0xC0#8, 0x00#8], 5⟩⟩ (by decide +kernel)
    exact ⟨q, h1, fun h => absurd ((h2.mp h).1 0 (by decide) (by decide)) (by decide +kernel)⟩
  · obtain ⟨q, h1, h2⟩ := (C109_round_trips_2D x64_supported x64_writes).1 exSpareD2 exSpareD2_reach [.Zero] (by decide)
      (by unfold Addressable; decide) ⟨⟨[0x00#8, 0x00#8, 0x00#8], 5⟩⟩ (by decide +kernel)
    refine ⟨q, h1, h2.mpr ⟨fun i hi _ => ?_, fun l g1 g2 => ?_⟩⟩
    · have : i = 0 := Nat.lt_one_iff.mp hi
      subst this
      rfl
    · have g1 : 8 ≤ l := g1
      have g2 : l < 8 := g2
      omega

/-- Up and down again keeps `zeroed(4)`. -/
example : ∃ q k, parent x64 exSpareD2 = .ok (some q) ∧ child x64 q .Zero = .ok (some k) ∧ RustOrd.eq k exSpareD2 = true := by
  obtain ⟨v, h1, k, h2, h3⟩ := (C109_round_trips_2D x64_supported x64_writes).2.1 exSpareD2 exSpareD2_reach
    ⟨⟨[0x00#8, 0x00#8], 3⟩⟩ (by decide +kernel)
  rw [show getCellAtLevel x64 exSpareD2 (depth exSpareD2 - 1) = .ok .Zero from by decide +kernel] at h1
  cases h1
  refine ⟨_, k, by decide +kernel, h2, h3.mpr fun l g1 g2 => ?_⟩
  have g1 : 7 ≤ l := g1
  have g2 : l < 8 := g2
  have : l = 7 := by omega
  subst this
  decide +kernel

example : ∃ a, ancestor x64 exSpareD2 ⟨4, by decide⟩ = .ok (some a) ∧
    RustOrd.eq a (⟨DynamicStorage2D.default⟩ : MortonIndex2D DynamicStorage2D) ≠ true := by
  obtain ⟨a, h1, h2⟩ := C109_root_2D x64_supported exSpareD2 exSpareD2_reach ⟨4, by decide⟩ rfl
  exact ⟨a, h1, fun h => absurd (h2.mp h) (by decide)⟩

example : ∃ a, ancestor x64 exD2 ⟨3, by decide⟩ = .ok (some a) ∧
    RustOrd.eq a (⟨DynamicStorage2D.default⟩ : MortonIndex2D DynamicStorage2D) = true := by
  obtain ⟨a, h1, h2⟩ := C109_root_2D x64_supported exD2 (exD2_reach _) ⟨3, by decide⟩ rfl
  exact ⟨a, h1, h2.mpr rfl⟩

end MortonRs
