import Verif.Props.StrayExact
import Verif.Props.Conv3D

/-! # Conversions of indices that hold something outside their cells (C109)

C32 and C34 leave out the indices with stray bits wherever a conversion or `==` sees them. Here the conversions are followed for every
history. -/

namespace MortonRs

open BitStorage MortonIndex

variable {c : Cfg}

/-! ## Statements -/

/-- C109: `g` takes the result of `f` back to an index that equals the original exactly if `cond` holds of it. -/
def ConvertsBackExactly {M N : Type} [RustOrd M] (ok : M → Prop) (f : M → Res N) (g : N → Res M) (cond : M → Prop) : Prop :=
  ∀ m, ok m → ∃ n m', f m = .ok n ∧ g n = .ok m' ∧ (RustOrd.eq m' m = true ↔ cond m)

/-- C109: what `f` returns is unspoiled and so equal for two indices exactly if their cells are. -/
def ConversionCleans (c : Cfg) {M N Cell : Type} [MortonIndex M Cell] [RustOrd N] (ok : M → Prop) (f : M → Res N)
    (unspoiled : N → Prop) : Prop :=
  ∀ a b, ok a → ok b → ∃ a' b', f a = .ok a' ∧ f b = .ok b' ∧ unspoiled a' ∧
    (RustOrd.eq a' b' = true ↔ SameCells c a b)

/-- C109: what `f` returns is unspoiled exactly if the original is, and equal for two indices exactly if they are. -/
def ConversionKeepsAll {M N : Type} [RustOrd M] [RustOrd N] (ok : M → Prop) (f : M → Res N) (before : M → Prop)
    (after : N → Prop) : Prop :=
  ∀ a b, ok a → ok b → ∃ a' b', f a = .ok a' ∧ f b = .ok b' ∧ (after a' ↔ before a) ∧ RustOrd.eq a' b' = RustOrd.eq a b

/-- C109: what `f` returns shows at each of its levels the cell that `get_cell_at_level_unchecked` reads in the original there, also
behind the depth of the original. -/
def ConversionShowsHidden (c : Cfg) {M N Cell : Type} [MortonIndex M Cell] [MortonIndex N Cell] (ok : M → Prop) (f : M → N) : Prop :=
  ∀ m, ok m → ∃ ds, Shows c (f m) ds ∧
    ∀ l v, l < ds.length → (ds[l]? = some v ↔ getCellAtLevelUnchecked c m l = .ok v)

/-! ## 3D -/

theorem fixed_unspoiled_iff3 (hc : c.Supported) {w : Nat} {m : MortonIndex3D (FixedDepthStorage3D w)} (hm : Reach3D c .all (.fixed w m)) :
    Unspoiled3D c m ↔ TailZero m.storage := by
  constructor
  · intro h
    exact (reach3D_good hc ((((C109_unspoiled_3D hc).1 w).1.1 m).mpr ⟨hm, h⟩)).2 rfl
  · intro hz
    have hwf := fixed_wf3 hc m hm
    obtain ⟨r, h1, h2, h3, h4⟩ := MortonIndex3D.fixed_tryFrom hc hwf.fit (cs := cells3 m) (Nat.le_of_eq ((fixed_list3 hc).depth_eq m hm).symm)
    have e : w / dim Octant - (cells3 m).length = 0 := by
      have : (cells3 m).length = w / 3 := ((fixed_list3 hc).depth_eq m hm).symm
      change w / 3 - _ = 0
      omega
    rw [e, List.replicate_zero, List.append_nil] at h4
    refine ⟨r, ?_, (FixedDepthStorage3D.eq_iff hz h3).mpr h4.symm⟩
    rw [rebuild, collect_of (fixed_list3 hc) (iterates_of3 hc (fixed_wf3 hc) (fixed_depth_lt3 hc)) hm]
    exact h1

theorem tailZero_fixedToStatic3 {w : Nat} (hw : IntWidth w) (m : MortonIndex3D (FixedDepthStorage3D w)) :
    TailZero (MortonIndex3D.fixedToStatic m).storage ↔ TailZero m.storage := by
  have hd : Storage.depth (MortonIndex3D.fixedToStatic m).storage = Storage.depth m.storage := MortonIndex3D.asU8_maxLevels hw
  unfold TailZero
  rw [hd]
  exact Iff.rfl

theorem canon_fixedToDynamic3 (hc : c.Supported) {w : Nat} (hw : IntWidth w) (m : MortonIndex3D (FixedDepthStorage3D w)) :
    DynamicStorage3D.Canon c (MortonIndex3D.fixedToDynamic c m).storage ↔ TailZero m.storage := by
  refine ⟨fun h => ?_, (MortonIndex3D.fixedToDynamic_ok hc hw m).2.2⟩
  have e := MortonIndex3D.fixedToDynamic_bits (c := c) m
  have hval : value (MortonIndex3D.fixedToDynamic c m).storage = value m.storage := by
    rw [e]; exact leValue_leBytes _ hw.mod8
  have hwidth : width (MortonIndex3D.fixedToDynamic c m).storage = w := by
    rw [e]
    change 8 * (leBytes m.storage.bits).length = w
    have := hw.mod8
    rw [leBytes_length]
    omega
  have hdepth : Storage.depth (MortonIndex3D.fixedToDynamic c m).storage = w / dim Octant := by rw [e]; rfl
  have hz := h.tail
  unfold TailZero at hz
  rw [hval, hwidth, hdepth] at hz
  exact hz

/-- C109. The conversions of octree indices, for every history. From a static index to a dynamic one and the other way round only the
cells are taken over; from a fixed-depth index to the other two everything is. -/
theorem C109_conversions_3D (hc : c.Supported) (w : Nat) (hw : IntWidth w) :
    ConversionKeepsAll (fun m : MortonIndex3D (FixedDepthStorage3D w) => Reach3D c .all (.fixed w m))
      (fun m => .ok (MortonIndex3D.fixedToStatic m)) (Unspoiled3D c) (Unspoiled3D c) ∧
    ConversionShowsHidden c (fun m : MortonIndex3D (StaticStorage3D w) => Reach3D c .all (.static w m)) MortonIndex3D.staticToFixed ∧
    ConversionCleans c (fun m : MortonIndex3D DynamicStorage3D => Reach3D c .all (.dynamic m) ∧ depth m ≤ w / 3)
      (fun m => okOf (MortonIndex3D.dynamicToStatic c w m)) (Unspoiled3D c) ∧
    (DynWrites c →
      ConversionKeepsAll (fun m : MortonIndex3D (FixedDepthStorage3D w) => Reach3D c .all (.fixed w m))
        (fun m => .ok (MortonIndex3D.fixedToDynamic c m)) (Unspoiled3D c) (Unspoiled3D c) ∧
      ConversionCleans c (fun m : MortonIndex3D (StaticStorage3D w) => Reach3D c .all (.static w m))
        (MortonIndex3D.staticToDynamic c) (Unspoiled3D c) ∧
      ConvertsBackExactly (fun m : MortonIndex3D (StaticStorage3D w) => Reach3D c .all (.static w m))
        (MortonIndex3D.staticToDynamic c) (fun m => okOf (MortonIndex3D.dynamicToStatic c w m)) (Unspoiled3D c) ∧
      ConvertsBackExactly (fun m : MortonIndex3D DynamicStorage3D => Reach3D c .all (.dynamic m) ∧ depth m ≤ w / 3)
        (fun m => okOf (MortonIndex3D.dynamicToStatic c w m)) (MortonIndex3D.staticToDynamic c) (Unspoiled3D c)) := by
  refine ⟨fun a b ha hb => ⟨_, _, rfl, rfl, ?_, ?_⟩, fun m hm => ?_, fun a b ha hb => ?_, fun hdw =>
    ⟨fun a b ha hb => ⟨_, _, rfl, rfl, ?_, ?_⟩, fun a b ha hb => ?_, fun m hm => ?_, fun m hm => ?_⟩⟩
  · rw [static_unspoiled_iff3 hc (.fixedToStatic ha), fixed_unspoiled_iff3 hc ha, tailZero_fixedToStatic3 hw]
  · rw [Bool.eq_iff_iff, static_eq_self3, fixed_eq_self3]
    cases a with | mk a => cases b with | mk b => cases a; cases b; simp [MortonIndex3D.fixedToStatic]
  · refine ⟨_, MortonIndex3D.shows_path hc (m := MortonIndex3D.staticToFixed m) (FixedDepthStorage3D.wf hw _), fun l v hl => ?_⟩
    rw [path_length] at hl
    have hl3 : (l + 1) * 3 ≤ w := by
      have : l < w / 3 := hl
      omega
    rw [unchecked_slot3 hc (static_wf3 hc m hm) hl3, ok_slot_iff, List.getElem?_eq_getElem (by rw [path_length]; exact hl), path_getElem,
      Option.some.injEq]
    exact Iff.rfl
  · obtain ⟨a', h1, h2, h3, h4⟩ := MortonIndex3D.dynamicToStatic_ok hc hw (dynamic_wf3 hc a ha.1) ha.2
    obtain ⟨b', g1, g2, g3, g4⟩ := MortonIndex3D.dynamicToStatic_ok hc hw (dynamic_wf3 hc b hb.1) hb.2
    refine ⟨a', b', congrArg okOf h1, congrArg okOf g1, (static_unspoiled_iff3 hc (.dynamicToStatic hw ha.1 h1)).mpr h3, ?_⟩
    rw [sameCells_iff_path (dynamic_list3' hc) ha.1 hb.1]
    exact (StaticStorage3D.eq_iff h2 h3 g3).trans (by rw [h4, g4]; exact Iff.rfl)
  · rw [dynamic_unspoiled_iff3 hc hdw (.fixedToDynamic ha), fixed_unspoiled_iff3 hc ha, canon_fixedToDynamic3 hc hw]
  · rw [Bool.eq_iff_iff, dynamic_eq_self3, fixed_eq_self3]
    refine ⟨fun e => ?_, fun e => by rw [e]⟩
    have e' := congrArg (fun m : MortonIndex3D DynamicStorage3D => leValue m.storage.bits) e
    simp only [MortonIndex3D.fixedToDynamic_bits, leValue_leBytes _ hw.mod8] at e'
    cases a with | mk a => cases b with | mk b =>
    cases a; cases b
    rw [MortonIndex3D.mk.injEq, FixedDepthStorage3D.mk.injEq]
    exact BitVec.eq_of_toNat_eq e'
  · obtain ⟨a', h1, h2, h3, h4⟩ := MortonIndex3D.staticToDynamic_ok hc (static_wf3 hc a ha)
    obtain ⟨b', g1, g2, g3, g4⟩ := MortonIndex3D.staticToDynamic_ok hc (static_wf3 hc b hb)
    refine ⟨a', b', h1, g1, (dynamic_unspoiled_iff3 hc hdw (.staticToDynamic ha h1)).mpr h2, ?_⟩
    rw [sameCells_iff_path (static_list3 hc) ha hb]
    exact (DynamicStorage3D.eq_iff h2 g2).trans (by rw [h4 hdw, g4 hdw]; exact Iff.rfl)
  · have hwf := static_wf3 hc m hm
    obtain ⟨n, h1, h2, h3, h4⟩ := MortonIndex3D.staticToDynamic_ok hc hwf
    obtain ⟨m', g1, g2, g3, g4⟩ := MortonIndex3D.dynamicToStatic_ok hc hw h2.inv.wf
      (by rw [h3]; exact (StaticStorage3D.wf_iff hw _).mp hwf)
    refine ⟨n, m', h1, congrArg okOf g1, ?_⟩
    rw [static_unspoiled_iff3 hc hm]
    refine ⟨fun e => (static_eq_self3 m' m).mp e ▸ g3, fun hz => ?_⟩
    exact (StaticStorage3D.eq_iff g2 g3 hz).mpr (g4.trans (h4 hdw))
  · have hwf := dynamic_wf3 hc m hm.1
    obtain ⟨n, h1, h2, h3, h4⟩ := MortonIndex3D.dynamicToStatic_ok hc hw hwf hm.2
    obtain ⟨m', g1, g2, g3, g4⟩ := MortonIndex3D.staticToDynamic_ok hc h2
    refine ⟨n, m', congrArg okOf h1, g1, ?_⟩
    rw [dynamic_unspoiled_iff3 hc hdw hm.1]
    exact dynamic_eq_canon_iff3 g2 ((g4 hdw).trans h4)

/-! ## 2D -/

theorem dynamic_unspoiled_iff2 (hc : c.Supported) (hw : DynWrites c) {m : MortonIndex2D DynamicStorage2D}
    (hm : Reach2D c .all (.dynamic m)) : Unspoiled2D c m ↔ DynamicStorage2D.Canon c m.storage := by
  constructor
  · intro h
    exact (reach2D_good hc ((((C109_unspoiled_2D hc).2 hw).1 m).mpr ⟨hm, h⟩)).2 rfl
  · intro hz
    obtain ⟨r, h1, -, -, h3, h4⟩ := MortonIndex2D.dynamic_tryFrom hc (cs := cells2 m) (dynamic_addr2 hc m hm)
    refine ⟨r, ?_, (DynamicStorage2D.eq_iff hz h3).mpr (h4 hw).symm⟩
    rw [rebuild, collect_of (dynamic_list2 hc hw) (iterates_of2 hc (dynamic_wf2 hc) (dynamic_depth_lt2 hc)) hm]
    exact h1

/-- C109. The conversions of dynamic quadtree indices, for every history (fixed-depth and static ones are always unspoiled). -/
theorem C109_conversions_2D (hc : c.Supported) (w : Nat) (hw : IntWidth w) :
    ConversionCleans c (fun m : MortonIndex2D DynamicStorage2D => Reach2D c .all (.dynamic m) ∧ depth m ≤ w / 2)
      (fun m => okOf (MortonIndex2D.dynamicToStatic c w m)) (Unspoiled2D c) ∧
    (DynWrites c →
      (∀ m : MortonIndex2D (FixedDepthStorage2D w), Reach2D c .all (.fixed w m) → Unspoiled2D c (MortonIndex2D.fixedToDynamic c m)) ∧
      ConversionCleans c (fun m : MortonIndex2D (StaticStorage2D w) => Reach2D c .all (.static w m))
        (MortonIndex2D.staticToDynamic c) (Unspoiled2D c) ∧
      ConvertsBackExactly (fun m : MortonIndex2D DynamicStorage2D => Reach2D c .all (.dynamic m) ∧ depth m ≤ w / 2)
        (fun m => okOf (MortonIndex2D.dynamicToStatic c w m)) (MortonIndex2D.staticToDynamic c) (Unspoiled2D c)) := by
  refine ⟨fun a b ha hb => ?_, fun hdw => ⟨fun m hm => ?_, fun a b ha hb => ?_, fun m hm => ?_⟩⟩
  · obtain ⟨a', h1, h2, h3, h4⟩ := MortonIndex2D.dynamicToStatic_ok hc hw (dynamic_wf2 hc a ha.1) ha.2
    obtain ⟨b', g1, g2, g3, g4⟩ := MortonIndex2D.dynamicToStatic_ok hc hw (dynamic_wf2 hc b hb.1) hb.2
    refine ⟨a', b', congrArg okOf h1, congrArg okOf g1, ((C109_unspoiled_2D hc).1 w).2 a' (.dynamicToStatic hw ha.1 h1), ?_⟩
    rw [sameCells_iff_path (dynamic_list2' hc) ha.1 hb.1]
    exact (StaticStorage2D.eq_iff h2 h3 g3).trans (by rw [h4, g4]; exact Iff.rfl)
  · have h := fixed_scope2 (sc' := .canonical) hc hm
    exact ((((C109_unspoiled_2D hc).2 hdw).1 _).mp (.fixedToDynamic h)).2
  · obtain ⟨a', h1, h2, h3, h4⟩ := MortonIndex2D.staticToDynamic_ok hc (static_wf2 hc a ha)
    obtain ⟨b', g1, g2, g3, g4⟩ := MortonIndex2D.staticToDynamic_ok hc (static_wf2 hc b hb)
    refine ⟨a', b', h1, g1, (dynamic_unspoiled_iff2 hc hdw (.staticToDynamic ha h1)).mpr h2, ?_⟩
    rw [sameCells_iff_path (static_list2 hc) ha hb]
    exact (DynamicStorage2D.eq_iff h2 g2).trans (by rw [h4 hdw, g4 hdw]; exact Iff.rfl)
  · have hwf := dynamic_wf2 hc m hm.1
    obtain ⟨n, h1, h2, h3, h4⟩ := MortonIndex2D.dynamicToStatic_ok hc hw hwf hm.2
    obtain ⟨m', g1, g2, g3, g4⟩ := MortonIndex2D.staticToDynamic_ok hc h2
    refine ⟨n, m', congrArg okOf h1, g1, ?_⟩
    rw [dynamic_unspoiled_iff2 hc hdw hm.1]
    refine ⟨fun e => (dynamic_eq_self2 m' m).mp e ▸ g2, fun hz => ?_⟩
    exact (DynamicStorage2D.eq_iff g2 hz).mpr ((g4 hdw).trans h4)

/-! ## Examples -/

/-- The stray bits of `exStrayS3` get lost on the way to a dynamic index, so that it does not come back equal. -/
example : ∃ n m', MortonIndex3D.staticToDynamic x64 exStrayS3 = .ok n ∧ okOf (MortonIndex3D.dynamicToStatic x64 32 n) = .ok m' ∧
    (RustOrd.eq m' exStrayS3 = true ↔ Unspoiled3D x64 exStrayS3) :=
  ((C109_conversions_3D x64_supported 32 (by decide)).2.2.2 x64_writes).2.2.1 exStrayS3 exStrayS3_reach

/-- `[Four]` with and without stray bits: unequal as static indices, equal as dynamic ones. -/
example : RustOrd.eq exStrayS3 (⟨⟨0x80000000#32, 1⟩⟩ : MortonIndex3D (StaticStorage3D 32)) = false ∧
    ∃ a b, MortonIndex3D.staticToDynamic x64 exStrayS3 = .ok a ∧
      MortonIndex3D.staticToDynamic x64 (⟨⟨0x80000000#32, 1⟩⟩ : MortonIndex3D (StaticStorage3D 32)) = .ok b ∧ RustOrd.eq a b = true := by
  have hb : Reach3D x64 .all (.static 32 (⟨⟨0x80000000#32, 1⟩⟩ : MortonIndex3D (StaticStorage3D 32))) :=
    .staticTryFromSlice (cs := [.Four]) (by decide) (by rfl)
  obtain ⟨a, b, h1, h2, -, h3⟩ := ((C109_conversions_3D x64_supported 32 (by decide)).2.2.2 x64_writes).2.1 exStrayS3 _ exStrayS3_reach hb
  refine ⟨by decide, a, b, h1, h2, h3.mpr ?_⟩
  exact (sameCells_iff_path (static_list3 x64_supported) exStrayS3_reach hb).mpr (by decide +kernel)

/-- The cell behind the depth comes to light in the fixed-depth index. -/
example : Shows x64 (MortonIndex3D.staticToFixed exStrayS3)
    [.Four, .Four, .Zero, .Zero, .Zero, .Zero, .Zero, .Zero, .Zero, .Zero] := by
  obtain ⟨ds, h1, -⟩ := (C109_conversions_3D x64_supported 32 (by decide)).2.1 exStrayS3 exStrayS3_reach
  have e : ds = [.Four, .Four, .Zero, .Zero, .Zero, .Zero, .Zero, .Zero, .Zero, .Zero] := by
    rw [← (MortonIndex3D.shows_iff x64_supported (FixedDepthStorage3D.wf (by decide) _)).mp h1]
    decide +kernel
  exact e ▸ h1

/-- The spare byte of `exSpareD2` gets lost on the way to a static index. -/
example : ∃ n m', okOf (MortonIndex2D.dynamicToStatic x64 16 exSpareD2) = .ok n ∧ MortonIndex2D.staticToDynamic x64 n = .ok m' ∧
    RustOrd.eq m' exSpareD2 = false := by
  obtain ⟨n, m', h1, h2, h3⟩ := ((C109_conversions_2D x64_supported 16 (by decide)).2 x64_writes).2.2 exSpareD2 ⟨exSpareD2_reach, by decide⟩
  refine ⟨n, m', h1, h2, ?_⟩
  rw [Bool.eq_false_iff, ne_eq, h3, dynamic_unspoiled_iff2 x64_supported x64_writes exSpareD2_reach]
  exact fun h => absurd h.len (by decide)

/-- A fixed-depth index keeps its stray bits on the way to a static one. -/
example : ¬ Unspoiled3D x64 (MortonIndex3D.fixedToStatic (⟨⟨0x40000001#32⟩⟩ : MortonIndex3D (FixedDepthStorage3D 32))) := by
  have h : Reach3D x64 .all (.fixed 32 ⟨⟨0x40000001#32⟩⟩) := .fixedFromRaw (by decide) (.inl rfl)
  obtain ⟨a, -, h1, -, h2, -⟩ := (C109_conversions_3D x64_supported 32 (by decide)).1 _ _ h h
  cases h1
  rw [h2, fixed_unspoiled_iff3 x64_supported h]
  exact fun h => absurd (h 0 (by decide)) (by decide)

end MortonRs
