import Verif.Lemmas.Restore2D
import Verif.Props.Examples

/-! # Constructing, reading and writing 2D indices (C01-C07, C17, C46, C48, C50)

The indices are those any history of safe API calls produces (`Reach2D c .all`). Where the contents of
dynamic indices matter, targets on which dynamic writes work are assumed (`DynWrites`: all little-endian
ones); C47 is about the others. -/

namespace MortonRs

open MortonIndex VariableDepthMortonIndex

variable {c : Cfg}

/-! ## C01 -/

theorem C01_set_get_2D (hc : c.Supported) :
    (∀ w, SetGet c (fun m => Reach2D c .all (.fixed w m))) ∧
    (∀ w, SetGet c (fun m => Reach2D c .all (.static w m))) ∧
    (DynWrites c → SetGet c (fun m => Reach2D c .all (.dynamic m))) :=
  ⟨fun _ => (fixed_list2 hc).setGet, fun _ => (static_list2 hc).setGet, fun hw => (dynamic_list2 hc hw).setGet⟩

example : ∃ m', setCellAtLevel x64 exS2 1 .Two = .ok m' ∧ depth m' = 3 ∧ getCellAtLevel x64 m' 1 = .ok .Two ∧
    ∀ k, k ≠ 1 → getCellAtLevel x64 m' k = getCellAtLevel x64 exS2 k :=
  (C01_set_get_2D x64_supported).2.1 16 exS2 (exS2_reach _) 1 .Two (by decide)

example : ∃ m', setCellAtLevel x64 exD2 2 .Zero = .ok m' ∧ depth m' = 3 ∧ getCellAtLevel x64 m' 2 = .ok .Zero ∧
    ∀ k, k ≠ 2 → getCellAtLevel x64 m' k = getCellAtLevel x64 exD2 k :=
  (C01_set_get_2D x64_supported).2.2 x64_writes exD2 (exD2_reach _) 2 .Zero (by decide)

/-! ## C02 -/

theorem C02_panics_exactly_out_of_range_2D (hc : c.Supported) :
    (∀ w, PanicsExactlyOutOfRange c (fun m => Reach2D c .all (.fixed w m))) ∧
    (∀ w, PanicsExactlyOutOfRange c (fun m => Reach2D c .all (.static w m))) ∧
    PanicsExactlyOutOfRange c (fun m => Reach2D c .all (.dynamic m)) :=
  ⟨fun _ => (fixed_list2 hc).panics, fun _ => (static_list2 hc).panics, (dynamic_list2' hc).panics⟩

example : getCellAtLevel x64 exF2 8 = .error .panic ∧ ∀ v, setCellAtLevel x64 exF2 8 v = .error .panic :=
  ((C02_panics_exactly_out_of_range_2D x64_supported).1 16 exF2 (exF2_reach _) 8).2 (by decide)

/-! ## C03 -/

theorem C03_try_from_lossless_2D (hc : c.Supported) :
    (∀ w, IntWidth w → ∀ cs : List Quadrant, cs.length ≤ w / 2 →
      ∃ m : MortonIndex2D (StaticStorage2D w), MortonIndex2D.tryFromSlice c cs = .ok (.ok m) ∧
        MortonIndex2D.tryFromArray c cs = .ok (.ok m) ∧ Shows c m cs ∧ Yields c m.cells cs) ∧
    (DynWrites c → ∀ cs : List Quadrant, Addressable c (cs.length * 2) →
      ∃ m : MortonIndex2D DynamicStorage2D, MortonIndex2D.tryFromSlice c cs = .ok (.ok m) ∧
        MortonIndex2D.tryFromArray c cs = .ok (.ok m) ∧ Shows c m cs ∧ Yields c m.cells cs) := by
  refine ⟨fun w hw cs hcs => ?_, fun hw cs hcs => ?_⟩
  · obtain ⟨m, h1, h2, -, -, h5⟩ := MortonIndex2D.static_tryFrom hc hw hcs
    have hr : Reach2D c .all (.static w m) := .staticTryFromSlice hw h1
    have hs : Shows c m cs := h5 ▸ (static_list2 hc).shows hr
    exact ⟨m, h1, h2, hs, yields_of_shows (iterates_of2 hc (static_wf2 hc) (static_depth_lt2 hc)) hr hs⟩
  · obtain ⟨m, h1, h2, -, -, h5⟩ := MortonIndex2D.dynamic_tryFrom hc hcs
    have hr : Reach2D c .all (.dynamic m) := .dynamicTryFromSlice hcs h1
    have hs : Shows c m cs := h5 hw ▸ (dynamic_list2 hc hw).shows hr
    exact ⟨m, h1, h2, hs, yields_of_shows (iterates_of2 hc (dynamic_wf2 hc) (dynamic_depth_lt2 hc)) hr hs⟩

example : ∃ m : MortonIndex2D (StaticStorage2D 8),
    MortonIndex2D.tryFromSlice x64 [.Three, .One, .Two, .Zero] = .ok (.ok m) ∧
    MortonIndex2D.tryFromArray x64 [.Three, .One, .Two, .Zero] = .ok (.ok m) ∧
    Shows x64 m [.Three, .One, .Two, .Zero] ∧ Yields x64 m.cells [.Three, .One, .Two, .Zero] :=
  (C03_try_from_lossless_2D x64_supported).1 8 (by decide) _ (by decide)

/-! ## C04 -/

theorem C04_fixed_pads_zero_2D (hc : c.Supported) (w : Nat) (hw : IntWidth w) (cs : List Quadrant)
    (hcs : cs.length ≤ w / 2) :
    ∃ m : MortonIndex2D (FixedDepthStorage2D w), MortonIndex2D.tryFromSlice c cs = .ok (.ok m) ∧
      MortonIndex2D.tryFromArray c cs = .ok (.ok m) ∧ depth m = w / 2 ∧
      Shows c m (cs ++ List.replicate (w / 2 - cs.length) .Zero) ∧
      Yields c m.cells (cs ++ List.replicate (w / 2 - cs.length) .Zero) := by
  obtain ⟨m, h1, h2, -, h5⟩ := MortonIndex2D.fixed_tryFrom hc hw hcs
  have hr : Reach2D c .all (.fixed w m) := .fixedTryFromSlice hw h1
  have hs : Shows c m (cs ++ List.replicate (w / 2 - cs.length) .Zero) := by
    have := (fixed_list2 hc).shows hr
    rwa [cells2, h5] at this
  exact ⟨m, h1, h2, rfl, hs, yields_of_shows (iterates_of2 hc (fixed_wf2 hc) (fixed_depth_lt2 hc)) hr hs⟩

example : ∃ m : MortonIndex2D (FixedDepthStorage2D 8),
    MortonIndex2D.tryFromSlice x64 [.Three, .One] = .ok (.ok m) ∧
    MortonIndex2D.tryFromArray x64 [.Three, .One] = .ok (.ok m) ∧ depth m = 4 ∧
    Shows x64 m [.Three, .One, .Zero, .Zero] ∧ Yields x64 m.cells [.Three, .One, .Zero, .Zero] :=
  C04_fixed_pads_zero_2D x64_supported 8 (by decide) [.Three, .One] (by decide)

/-! ## C05 -/

theorem C05_too_many_cells_2D (hc : c.Supported) (cs : List Quadrant) :
    (∀ w, IntWidth w →
      (cs.length > w / 2 →
        (MortonIndex2D.tryFromSlice c cs : Res (Except Error (MortonIndex2D (FixedDepthStorage2D w)))) =
          .ok (.error (.DepthLimitedExceeded (w / 2))) ∧
        (MortonIndex2D.tryFromArray c cs : Res (Except Error (MortonIndex2D (FixedDepthStorage2D w)))) =
          .ok (.error (.DepthLimitedExceeded (w / 2))) ∧
        (MortonIndex2D.tryFromSlice c cs : Res (Except Error (MortonIndex2D (StaticStorage2D w)))) =
          .ok (.error (.DepthLimitedExceeded (w / 2))) ∧
        (MortonIndex2D.tryFromArray c cs : Res (Except Error (MortonIndex2D (StaticStorage2D w)))) =
          .ok (.error (.DepthLimitedExceeded (w / 2)))) ∧
      (cs.length ≤ w / 2 →
        (∃ m : MortonIndex2D (FixedDepthStorage2D w), MortonIndex2D.tryFromSlice c cs = .ok (.ok m) ∧
          MortonIndex2D.tryFromArray c cs = .ok (.ok m)) ∧
        (∃ m : MortonIndex2D (StaticStorage2D w), MortonIndex2D.tryFromSlice c cs = .ok (.ok m) ∧
          MortonIndex2D.tryFromArray c cs = .ok (.ok m)))) ∧
    (Addressable c (cs.length * 2) →
      ∃ m : MortonIndex2D DynamicStorage2D, MortonIndex2D.tryFromSlice c cs = .ok (.ok m) ∧
        MortonIndex2D.tryFromArray c cs = .ok (.ok m)) := by
  refine ⟨fun w hw => ⟨fun h => ?_, fun h => ⟨?_, ?_⟩⟩, fun h => ?_⟩
  · exact ⟨(MortonIndex2D.fixed_tryFrom_error h).1, (MortonIndex2D.fixed_tryFrom_error h).2,
      (MortonIndex2D.static_tryFrom_error h).1, (MortonIndex2D.static_tryFrom_error h).2⟩
  · obtain ⟨m, h1, h2, -⟩ := MortonIndex2D.fixed_tryFrom hc hw h
    exact ⟨m, h1, h2⟩
  · obtain ⟨m, h1, h2, -⟩ := MortonIndex2D.static_tryFrom hc hw h
    exact ⟨m, h1, h2⟩
  · obtain ⟨m, h1, h2, -⟩ := MortonIndex2D.dynamic_tryFrom hc h
    exact ⟨m, h1, h2⟩

example : (MortonIndex2D.tryFromSlice x64 (List.replicate 5 .Three) :
    Res (Except Error (MortonIndex2D (StaticStorage2D 8)))) = .ok (.error (.DepthLimitedExceeded 4)) :=
  (((C05_too_many_cells_2D x64_supported (List.replicate 5 .Three)).1 8 (by decide)).1 (by decide)).2.2.1

/-! ## C06 -/

theorem C06_iterator_2D (hc : c.Supported) :
    (∀ w, IteratesCells c (fun m : MortonIndex2D (FixedDepthStorage2D w) => m.cells)
      (fun m => Reach2D c .all (.fixed w m))) ∧
    (∀ w, IteratesCells c (fun m : MortonIndex2D (StaticStorage2D w) => m.cells)
      (fun m => Reach2D c .all (.static w m))) ∧
    IteratesCells c (fun m : MortonIndex2D DynamicStorage2D => m.cells) (fun m => Reach2D c .all (.dynamic m)) :=
  ⟨fun _ => iterates_of2 hc (fixed_wf2 hc) (fixed_depth_lt2 hc),
    fun _ => iterates_of2 hc (static_wf2 hc) (static_depth_lt2 hc),
    iterates_of2 hc (dynamic_wf2 hc) (dynamic_depth_lt2 hc)⟩

example : ∃ items, nexts x64 5 exS2.cells = .ok items ∧ items.length = 5 ∧ ∀ k (h : k < items.length),
    (k < 3 → ∃ v, getCellAtLevel x64 exS2 k = .ok v ∧ items[k] = some v) ∧ (3 ≤ k → items[k] = none) :=
  (C06_iterator_2D x64_supported).2.1 16 exS2 (exS2_reach _) 5

/-! ## C07 -/

theorem C07_inverted_2D (hc : c.Supported) :
    (∀ w, InvertedReverses c (fun m => Reach2D c .all (.fixed w m)) ∧
      InvertedInvolutive c (fun m => Reach2D c .all (.fixed w m))) ∧
    (∀ w, InvertedReverses c (fun m => Reach2D c .all (.static w m)) ∧
      InvertedInvolutive c (fun m => Reach2D c .all (.static w m))) ∧
    (DynWrites c → InvertedReverses c (fun m => Reach2D c .all (.dynamic m)) ∧
      InvertedInvolutive c (fun m => Reach2D c .all (.dynamic m))) :=
  ⟨fun _ => ⟨(fixed_list2 hc).invertedReverses, fixed_involutive2 hc⟩,
    fun _ => ⟨(static_list2 hc).invertedReverses, static_involutive2 hc⟩,
    fun hw => ⟨(dynamic_list2 hc hw).invertedReverses, dynamic_involutive2 hc hw⟩⟩

example : ∃ r, inverted x64 exD2 = .ok r ∧ depth r = 3 ∧
    ∀ l, l < 3 → getCellAtLevel x64 r l = getCellAtLevel x64 exD2 (3 - 1 - l) :=
  ((C07_inverted_2D x64_supported).2.2 x64_writes).1 exD2 (exD2_reach _)

/-! ## C50 -/

theorem C50_write_back_restores_2D (hc : c.Supported) :
    (∀ w, SetRestores c (fun m => Reach2D c .all (.fixed w m))) ∧
    (∀ w, SetRestores c (fun m => Reach2D c .all (.static w m))) ∧
    (DynWrites c → SetRestores c (fun m => Reach2D c .all (.dynamic m))) :=
  ⟨fun _ => fixed_restores2 hc, fun _ => static_restores2 hc, fun hw => dynamic_restores2 hc hw⟩

example : ∃ m' m'', setCellAtLevel x64 exF2 1 .Three = .ok m' ∧ setCellAtLevel x64 m' 1 .One = .ok m'' ∧
    RustOrd.eq m'' exF2 = true :=
  (C50_write_back_restores_2D x64_supported).1 16 exF2 (exF2_reach _) 1 .Three .One (by rfl)

/-! ## C17 -/

theorem C17_equal_indices_hash_equally_2D :
    (∀ w, EqHashesEqual (MortonIndex2D (FixedDepthStorage2D w))) ∧
    (∀ w, EqHashesEqual (MortonIndex2D (StaticStorage2D w))) ∧
    EqHashesEqual (MortonIndex2D DynamicStorage2D) := by
  refine ⟨fun w a b h => ?_, fun w a b h => ?_, fun a b h => ?_⟩
  · have : a.storage = b.storage := FixedDepthStorage2D.eq_iff_eq.mp h
    cases a; cases b; cases this; rfl
  · have : a.storage = b.storage := StaticStorage2D.eq_iff_eq.mp h
    cases a; cases b; cases this; rfl
  · have : a.storage = b.storage := DynamicStorage2D.eq_iff_eq.mp h
    cases a; cases b; cases this; rfl

example : RustOrd.hashInput exS2 = RustOrd.hashInput (⟨⟨0xD800#16, 3⟩⟩ : MortonIndex2D (StaticStorage2D 16)) :=
  C17_equal_indices_hash_equally_2D.2.1 16 _ _ (by decide)

/-! ## C46 -/

theorem C46_static_zeroed_2D (hc : c.Supported) (w : Nat) (hw : IntWidth w) (d : Nat) :
    (d > w / 2 → MortonIndex2D.staticZeroed w d = none) ∧
    (d ≤ w / 2 → ∃ m t, MortonIndex2D.staticZeroed w d = some m ∧
      Shows c m (List.replicate d .Zero) ∧
      MortonIndex2D.tryFromSlice c (List.replicate d .Zero) = .ok (.ok t) ∧ RustOrd.eq m t = true) := by
  constructor
  · intro h
    have : d > StaticStorage.MAX_LEVELS w Quadrant := h
    simp [MortonIndex2D.staticZeroed, this]
  · intro h
    have h' : ¬ d > StaticStorage.MAX_LEVELS w Quadrant := by change ¬ d > w / 2; omega
    have e : MortonIndex2D.staticZeroed w d = some ⟨⟨0#w, d⟩⟩ := by simp [MortonIndex2D.staticZeroed, h']
    obtain ⟨t, h1, -, -, -, h5⟩ := MortonIndex2D.static_tryFrom (cs := List.replicate d .Zero) hc hw
      (by rw [List.length_replicate]; exact h)
    have hr : Reach2D c .canonical (.static w ⟨⟨0#w, d⟩⟩) := .staticZeroed hw e
    have ht : Reach2D c .canonical (.static w t) := .staticTryFromSlice hw h1
    have hp : cells2 (⟨⟨0#w, d⟩⟩ : MortonIndex2D (StaticStorage2D w)) = List.replicate d .Zero :=
      StaticStorage2D.zero_path d h
    refine ⟨_, t, e, hp ▸ (static_list2 hc).shows hr, h1, ?_⟩
    rw [static_eq2 hc _ _ hr ht, hp]
    exact h5.symm

example : ∃ m t, MortonIndex2D.staticZeroed 8 4 = some m ∧ Shows x64 m [.Zero, .Zero, .Zero, .Zero] ∧
    MortonIndex2D.tryFromSlice x64 [.Zero, .Zero, .Zero, .Zero] = .ok (.ok t) ∧ RustOrd.eq m t = true :=
  (C46_static_zeroed_2D x64_supported 8 (by decide) 4).2 (by decide)

/-- Missing from C46: `==` when the depth is a multiple of four, which does not hold (`C46_refuted`). -/
theorem C46_dynamic_zeroed_2D_partial (hc : c.Supported) (hwr : DynWrites c) (d : Nat)
    (hd : Addressable c (d * 2)) :
    Shows c (MortonIndex2D.dynamicZeroed d) (List.replicate d .Zero) ∧
    ∃ t : MortonIndex2D DynamicStorage2D, MortonIndex2D.tryFromSlice c (List.replicate d .Zero) = .ok (.ok t) ∧
      RustOrd.cmp c (MortonIndex2D.dynamicZeroed d) t = .ok .eq ∧
      (RustOrd.eq (MortonIndex2D.dynamicZeroed d) t = true ↔ d % 4 ≠ 0) := by
  have hr : Reach2D c .all (.dynamic (MortonIndex2D.dynamicZeroed d)) := .dynamicZeroed hd (.inl rfl)
  have hp : cells2 (MortonIndex2D.dynamicZeroed d) = List.replicate d .Zero :=
    DynamicStorage2D.zero_path _ _ (by rw [DynamicStorage2D.numBytes, dim_Quadrant]; omega)
  have hd' : Addressable c ((List.replicate d Quadrant.Zero).length * 2) := by
    rw [List.length_replicate]; exact hd
  obtain ⟨t, h1, -, h3, h4, h5⟩ := MortonIndex2D.dynamic_tryFrom (cs := List.replicate d .Zero) hc hd'
  have ht : ∀ sc, Reach2D c sc (.dynamic t) := fun sc => .dynamicTryFromSlice hd' h1
  have hpt : cells2 t = List.replicate d .Zero := h5 hwr
  refine ⟨hp ▸ (dynamic_list2' hc).shows hr, t, h1, ?_, ?_, ?_⟩
  · rw [(dynamic_cmp2 hc _ _ hr (ht .all)).1, hp, hpt, pathCmp_refl]
  · intro e
    have e' : DynamicStorage2D.zeroed d = t.storage := DynamicStorage2D.eq_iff_eq.mp e
    have hl := h4.len
    rw [← e', DynamicStorage2D.numBytes, dim_Quadrant] at hl
    change (List.replicate (d / 4 + 1) 0#8).length = (d * 2 + 7) / 8 at hl
    rw [List.length_replicate] at hl
    omega
  · intro h
    rw [dynamic_eq2 hc _ _ (.dynamicZeroed hd (.inr h)) (ht .canonical), hp, hpt]

example : Shows x64 (MortonIndex2D.dynamicZeroed 5) (List.replicate 5 .Zero) :=
  (C46_dynamic_zeroed_2D_partial x64_supported x64_writes 5 (by unfold Addressable; decide)).1

/-! ## C48 -/

theorem C48_defaults_2D (hc : c.Supported) :
    (∀ w, IntWidth w →
      Shows c (⟨FixedDepthStorage2D.default w⟩ : MortonIndex2D _) (List.replicate (w / 2) .Zero)) ∧
    (∀ w, IntWidth w → Shows c (⟨StaticStorage2D.default w⟩ : MortonIndex2D _) [] ∧
      ∃ t : MortonIndex2D (StaticStorage2D w), MortonIndex2D.tryFromSlice c [] = .ok (.ok t) ∧
        RustOrd.eq (⟨StaticStorage2D.default w⟩ : MortonIndex2D _) t = true) ∧
    Shows c (⟨DynamicStorage2D.default⟩ : MortonIndex2D _) [] ∧
    ∃ t : MortonIndex2D DynamicStorage2D, MortonIndex2D.tryFromSlice c [] = .ok (.ok t) ∧
      RustOrd.eq (⟨DynamicStorage2D.default⟩ : MortonIndex2D _) t = true := by
  refine ⟨fun w hw => ?_, fun w hw => ⟨?_, ?_⟩, ?_, ?_⟩
  · have hr : Reach2D c .all (.fixed w ⟨FixedDepthStorage2D.default w⟩) := .fixedDefault w hw
    have hp : cells2 (⟨FixedDepthStorage2D.default w⟩ : MortonIndex2D _) = List.replicate (w / 2) .Zero := by
      have hwd := Nat.div_mul_le_self w (dim Quadrant)
      apply path_of_slots
      · rw [List.length_replicate]; rfl
      · intro k hk
        rw [List.getElem_replicate]
        rw [List.length_replicate] at hk
        have hk' : k < w / dim Quadrant := hk
        exact FixedDepthStorage2D.default_slot k (Nat.le_trans (Nat.mul_le_mul_right _ hk') hwd)
    exact hp ▸ (fixed_list2 hc).shows hr
  · exact (static_list2 hc).shows (.staticDefault (sc := .all) w hw)
  · obtain ⟨t, h1, -, -, -, h5⟩ := MortonIndex2D.static_tryFrom (c := c) (cs := []) hc hw (by simp)
    refine ⟨t, h1, ?_⟩
    rw [static_eq2 (sc := .all) hc _ _ (.staticDefault w hw) (.staticTryFromSlice hw h1)]
    exact h5.symm
  · exact (dynamic_list2' hc).shows (.dynamicDefault (sc := .all))
  · have ha : Addressable c (([] : List Quadrant).length * 2) := by
      have := hc.le; unfold Addressable; simp; omega
    obtain ⟨t, h1, -, h3, h4, -⟩ := MortonIndex2D.dynamic_tryFrom (cs := []) hc ha
    refine ⟨t, h1, ?_⟩
    rw [dynamic_eq2 hc _ _ .dynamicDefault (.dynamicTryFromSlice ha h1)]
    symm
    apply List.eq_nil_of_length_eq_zero
    rw [cells2, path_length]
    exact h3

example : Shows x64 (⟨FixedDepthStorage2D.default 8⟩ : MortonIndex2D _) [.Zero, .Zero, .Zero, .Zero] :=
  (C48_defaults_2D x64_supported).1 8 (by decide)

/-- The default index is the ancestor of every index at `generations = depth()`. In general the ancestor has
the depth and `cmp` of the default index. Missing: `==` for dynamic indices with stray bits, which does not hold
(`C48_refuted`). -/
theorem C48_root_2D_partial (hc : c.Supported) :
    (∀ sc w (m : MortonIndex2D (StaticStorage2D w)), Reach2D c sc (.static w m) → ∀ g : NonZeroUsize,
      g.val = depth m → ∃ a, ancestor c m g = .ok (some a) ∧ depth a = 0 ∧
        RustOrd.cmp c a ⟨StaticStorage2D.default w⟩ = .ok .eq ∧
        RustOrd.eq a ⟨StaticStorage2D.default w⟩ = true) ∧
    (∀ sc (m : MortonIndex2D DynamicStorage2D), Reach2D c sc (.dynamic m) → ∀ g : NonZeroUsize,
      g.val = depth m → ∃ a, ancestor c m g = .ok (some a) ∧ depth a = 0 ∧
        RustOrd.cmp c a ⟨DynamicStorage2D.default⟩ = .ok .eq ∧
        (sc = .canonical → RustOrd.eq a ⟨DynamicStorage2D.default⟩ = true)) := by
  refine ⟨fun sc w m hm g hg => ?_, fun sc m hm g hg => ?_⟩
  · obtain ⟨a, h1, h2, h3⟩ := (static_anc2 hc).yes m hm g (by rw [← (static_list2 hc).depth_eq m hm]; omega)
    have hw : IntWidth w := (static_wf2 hc m hm).fit
    rw [← (static_list2 hc).depth_eq m hm, hg, Nat.sub_self, List.take_zero] at h3
    refine ⟨a, h1, by rw [(static_list2 hc).depth_eq a h2, h3]; rfl, ?_, ?_⟩
    · rw [(static_cmp2 hc _ _ h2 (.staticDefault w hw)).1, h3]; rfl
    · rw [static_eq2 hc _ _ h2 (.staticDefault w hw), h3]
      rfl
  · obtain ⟨a, h1, h2, h3⟩ := (dynamic_anc2 hc).yes m hm g (by rw [← (dynamic_list2' hc).depth_eq m hm]; omega)
    rw [← (dynamic_list2' hc).depth_eq m hm, hg, Nat.sub_self, List.take_zero] at h3
    refine ⟨a, h1, by rw [(dynamic_list2' hc).depth_eq a h2, h3]; rfl, ?_, ?_⟩
    · rw [(dynamic_cmp2 hc _ _ h2 .dynamicDefault).1, h3]; rfl
    · rintro rfl
      rw [dynamic_eq2 hc _ _ h2 .dynamicDefault, h3]
      rfl

example : ∃ a, ancestor x64 exD2 ⟨3, by decide⟩ = .ok (some a) ∧ depth a = 0 ∧
    RustOrd.cmp x64 a ⟨DynamicStorage2D.default⟩ = .ok .eq ∧
    (Scope.canonical = .canonical → RustOrd.eq a ⟨DynamicStorage2D.default⟩ = true) :=
  (C48_root_2D_partial x64_supported).2 .canonical exD2 (exD2_reach _) ⟨3, by decide⟩ rfl

end MortonRs
