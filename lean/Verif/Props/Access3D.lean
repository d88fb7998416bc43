import Verif.Lemmas.Restore3D
import Verif.Props.Examples

/-! # Constructing, reading and writing 3D indices (C01-C07, C17, C46, C48, C50)

The indices are those any history of safe API calls produces (`Reach3D c .all`). Where the contents of
dynamic indices matter, targets on which dynamic writes work are assumed (`DynWrites`: all little-endian
ones); C47 is about the others. -/

namespace MortonRs

open MortonIndex VariableDepthMortonIndex

variable {c : Cfg}

/-! ## C01 -/

theorem C01_set_get_3D (hc : c.Supported) :
    (∀ w, SetGet c (fun m => Reach3D c .all (.fixed w m))) ∧
    (∀ w, SetGet c (fun m => Reach3D c .all (.static w m))) ∧
    (DynWrites c → SetGet c (fun m => Reach3D c .all (.dynamic m))) :=
  ⟨fun _ => (fixed_list3 hc).setGet, fun _ => (static_list3 hc).setGet, fun hw => (dynamic_list3 hc hw).setGet⟩

example : ∃ m', setCellAtLevel x64 exS3 1 .Two = .ok m' ∧ depth m' = 3 ∧ getCellAtLevel x64 m' 1 = .ok .Two ∧
    ∀ k, k ≠ 1 → getCellAtLevel x64 m' k = getCellAtLevel x64 exS3 k :=
  (C01_set_get_3D x64_supported).2.1 32 exS3 (exS3_reach _) 1 .Two (by decide)

example : ∃ m', setCellAtLevel x64 exD3 2 .Zero = .ok m' ∧ depth m' = 3 ∧ getCellAtLevel x64 m' 2 = .ok .Zero ∧
    ∀ k, k ≠ 2 → getCellAtLevel x64 m' k = getCellAtLevel x64 exD3 k :=
  (C01_set_get_3D x64_supported).2.2 x64_writes exD3 (exD3_reach _) 2 .Zero (by decide)

/-! ## C02 -/

theorem C02_panics_exactly_out_of_range_3D (hc : c.Supported) :
    (∀ w, PanicsExactlyOutOfRange c (fun m => Reach3D c .all (.fixed w m))) ∧
    (∀ w, PanicsExactlyOutOfRange c (fun m => Reach3D c .all (.static w m))) ∧
    PanicsExactlyOutOfRange c (fun m => Reach3D c .all (.dynamic m)) :=
  ⟨fun _ => (fixed_list3 hc).panics, fun _ => (static_list3 hc).panics, (dynamic_list3' hc).panics⟩

example : getCellAtLevel x64 exF3 10 = .error .panic ∧ ∀ v, setCellAtLevel x64 exF3 10 v = .error .panic :=
  ((C02_panics_exactly_out_of_range_3D x64_supported).1 32 exF3 (exF3_reach _) 10).2 (by decide)

/-! ## C03 -/

theorem C03_try_from_lossless_3D (hc : c.Supported) :
    (∀ w, IntWidth w → ∀ cs : List Octant, cs.length ≤ w / 3 →
      ∃ m : MortonIndex3D (StaticStorage3D w), MortonIndex3D.tryFromSlice c cs = .ok (.ok m) ∧
        MortonIndex3D.tryFromArray c cs = .ok (.ok m) ∧ Shows c m cs ∧ Yields c m.cells cs) ∧
    (DynWrites c → ∀ cs : List Octant, Addressable c (cs.length * 3) →
      ∃ m : MortonIndex3D DynamicStorage3D, MortonIndex3D.tryFromSlice c cs = .ok (.ok m) ∧
        MortonIndex3D.tryFromArray c cs = .ok (.ok m) ∧ Shows c m cs ∧ Yields c m.cells cs) := by
  refine ⟨fun w hw cs hcs => ?_, fun hw cs hcs => ?_⟩
  · obtain ⟨m, h1, h2, -, -, h5⟩ := MortonIndex3D.static_tryFrom hc hw hcs
    have hr : Reach3D c .all (.static w m) := .staticTryFromSlice hw h1
    have hs : Shows c m cs := h5 ▸ (static_list3 hc).shows hr
    exact ⟨m, h1, h2, hs, yields_of_shows (iterates_of3 hc (static_wf3 hc) (static_depth_lt3 hc)) hr hs⟩
  · obtain ⟨m, h1, h2, -, -, h5⟩ := MortonIndex3D.dynamic_tryFrom hc hcs
    have hr : Reach3D c .all (.dynamic m) := .dynamicTryFromSlice hcs h1
    have hs : Shows c m cs := h5 hw ▸ (dynamic_list3 hc hw).shows hr
    exact ⟨m, h1, h2, hs, yields_of_shows (iterates_of3 hc (dynamic_wf3 hc) (dynamic_depth_lt3 hc)) hr hs⟩

example : ∃ m : MortonIndex3D (StaticStorage3D 16),
    MortonIndex3D.tryFromSlice x64 [.Seven, .One, .Four, .Zero] = .ok (.ok m) ∧
    MortonIndex3D.tryFromArray x64 [.Seven, .One, .Four, .Zero] = .ok (.ok m) ∧
    Shows x64 m [.Seven, .One, .Four, .Zero] ∧ Yields x64 m.cells [.Seven, .One, .Four, .Zero] :=
  (C03_try_from_lossless_3D x64_supported).1 16 (by decide) _ (by decide)

/-! ## C04 -/

theorem C04_fixed_pads_zero_3D (hc : c.Supported) (w : Nat) (hw : IntWidth w) (cs : List Octant)
    (hcs : cs.length ≤ w / 3) :
    ∃ m : MortonIndex3D (FixedDepthStorage3D w), MortonIndex3D.tryFromSlice c cs = .ok (.ok m) ∧
      MortonIndex3D.tryFromArray c cs = .ok (.ok m) ∧ depth m = w / 3 ∧
      Shows c m (cs ++ List.replicate (w / 3 - cs.length) .Zero) ∧
      Yields c m.cells (cs ++ List.replicate (w / 3 - cs.length) .Zero) := by
  obtain ⟨m, h1, h2, -, h5⟩ := MortonIndex3D.fixed_tryFrom hc hw hcs
  have hr : Reach3D c .all (.fixed w m) := .fixedTryFromSlice hw h1
  have hs : Shows c m (cs ++ List.replicate (w / 3 - cs.length) .Zero) := by
    have := (fixed_list3 hc).shows hr
    rwa [cells3, h5] at this
  exact ⟨m, h1, h2, rfl, hs, yields_of_shows (iterates_of3 hc (fixed_wf3 hc) (fixed_depth_lt3 hc)) hr hs⟩

example : ∃ m : MortonIndex3D (FixedDepthStorage3D 16),
    MortonIndex3D.tryFromSlice x64 [.Three, .One] = .ok (.ok m) ∧
    MortonIndex3D.tryFromArray x64 [.Three, .One] = .ok (.ok m) ∧ depth m = 5 ∧
    Shows x64 m [.Three, .One, .Zero, .Zero, .Zero] ∧ Yields x64 m.cells [.Three, .One, .Zero, .Zero, .Zero] :=
  C04_fixed_pads_zero_3D x64_supported 16 (by decide) [.Three, .One] (by decide)

/-! ## C05 -/

theorem C05_too_many_cells_3D (hc : c.Supported) (cs : List Octant) :
    (∀ w, IntWidth w →
      (cs.length > w / 3 →
        (MortonIndex3D.tryFromSlice c cs : Res (Except Error (MortonIndex3D (FixedDepthStorage3D w)))) =
          .ok (.error (.DepthLimitedExceeded (w / 3))) ∧
        (MortonIndex3D.tryFromArray c cs : Res (Except Error (MortonIndex3D (FixedDepthStorage3D w)))) =
          .ok (.error (.DepthLimitedExceeded (w / 3))) ∧
        (MortonIndex3D.tryFromSlice c cs : Res (Except Error (MortonIndex3D (StaticStorage3D w)))) =
          .ok (.error (.DepthLimitedExceeded (w / 3))) ∧
        (MortonIndex3D.tryFromArray c cs : Res (Except Error (MortonIndex3D (StaticStorage3D w)))) =
          .ok (.error (.DepthLimitedExceeded (w / 3)))) ∧
      (cs.length ≤ w / 3 →
        (∃ m : MortonIndex3D (FixedDepthStorage3D w), MortonIndex3D.tryFromSlice c cs = .ok (.ok m) ∧
          MortonIndex3D.tryFromArray c cs = .ok (.ok m)) ∧
        (∃ m : MortonIndex3D (StaticStorage3D w), MortonIndex3D.tryFromSlice c cs = .ok (.ok m) ∧
          MortonIndex3D.tryFromArray c cs = .ok (.ok m)))) ∧
    (Addressable c (cs.length * 3) →
      ∃ m : MortonIndex3D DynamicStorage3D, MortonIndex3D.tryFromSlice c cs = .ok (.ok m) ∧
        MortonIndex3D.tryFromArray c cs = .ok (.ok m)) := by
  refine ⟨fun w hw => ⟨fun h => ?_, fun h => ⟨?_, ?_⟩⟩, fun h => ?_⟩
  · exact ⟨(MortonIndex3D.fixed_tryFrom_error h).1, (MortonIndex3D.fixed_tryFrom_error h).2,
      (MortonIndex3D.static_tryFrom_error h).1, (MortonIndex3D.static_tryFrom_error h).2⟩
  · obtain ⟨m, h1, h2, -⟩ := MortonIndex3D.fixed_tryFrom hc hw h
    exact ⟨m, h1, h2⟩
  · obtain ⟨m, h1, h2, -⟩ := MortonIndex3D.static_tryFrom hc hw h
    exact ⟨m, h1, h2⟩
  · obtain ⟨m, h1, h2, -⟩ := MortonIndex3D.dynamic_tryFrom hc h
    exact ⟨m, h1, h2⟩

example : (MortonIndex3D.tryFromSlice x64 (List.replicate 6 .Three) :
    Res (Except Error (MortonIndex3D (StaticStorage3D 16)))) = .ok (.error (.DepthLimitedExceeded 5)) :=
  (((C05_too_many_cells_3D x64_supported (List.replicate 6 .Three)).1 16 (by decide)).1 (by decide)).2.2.1

/-! ## C06 -/

theorem C06_iterator_3D (hc : c.Supported) :
    (∀ w, IteratesCells c (fun m : MortonIndex3D (FixedDepthStorage3D w) => m.cells)
      (fun m => Reach3D c .all (.fixed w m))) ∧
    (∀ w, IteratesCells c (fun m : MortonIndex3D (StaticStorage3D w) => m.cells)
      (fun m => Reach3D c .all (.static w m))) ∧
    IteratesCells c (fun m : MortonIndex3D DynamicStorage3D => m.cells) (fun m => Reach3D c .all (.dynamic m)) :=
  ⟨fun _ => iterates_of3 hc (fixed_wf3 hc) (fixed_depth_lt3 hc),
    fun _ => iterates_of3 hc (static_wf3 hc) (static_depth_lt3 hc),
    iterates_of3 hc (dynamic_wf3 hc) (dynamic_depth_lt3 hc)⟩

example : ∃ items, nexts x64 5 exS3.cells = .ok items ∧ items.length = 5 ∧ ∀ k (h : k < items.length),
    (k < 3 → ∃ v, getCellAtLevel x64 exS3 k = .ok v ∧ items[k] = some v) ∧ (3 ≤ k → items[k] = none) :=
  (C06_iterator_3D x64_supported).2.1 32 exS3 (exS3_reach _) 5

/-! ## C07 -/

theorem C07_inverted_3D (hc : c.Supported) :
    (∀ w, InvertedReverses c (fun m => Reach3D c .all (.fixed w m)) ∧
      InvertedInvolutive c (fun m => Reach3D c .all (.fixed w m))) ∧
    (∀ w, InvertedReverses c (fun m => Reach3D c .all (.static w m)) ∧
      InvertedInvolutive c (fun m => Reach3D c .all (.static w m))) ∧
    (DynWrites c → InvertedReverses c (fun m => Reach3D c .all (.dynamic m)) ∧
      InvertedInvolutive c (fun m => Reach3D c .all (.dynamic m))) :=
  ⟨fun _ => ⟨(fixed_list3 hc).invertedReverses, fixed_involutive3 hc⟩,
    fun _ => ⟨(static_list3 hc).invertedReverses, static_involutive3 hc⟩,
    fun hw => ⟨(dynamic_list3 hc hw).invertedReverses, dynamic_involutive3 hc hw⟩⟩

example : ∃ r, inverted x64 exD3 = .ok r ∧ depth r = 3 ∧
    ∀ l, l < 3 → getCellAtLevel x64 r l = getCellAtLevel x64 exD3 (3 - 1 - l) :=
  ((C07_inverted_3D x64_supported).2.2 x64_writes).1 exD3 (exD3_reach _)

/-! ## C50 -/

theorem C50_write_back_restores_3D (hc : c.Supported) :
    (∀ w, SetRestores c (fun m => Reach3D c .all (.fixed w m))) ∧
    (∀ w, SetRestores c (fun m => Reach3D c .all (.static w m))) ∧
    (DynWrites c → SetRestores c (fun m => Reach3D c .all (.dynamic m))) :=
  ⟨fun _ => fixed_restores3 hc, fun _ => static_restores3 hc, fun hw => dynamic_restores3 hc hw⟩

example : ∃ m' m'', setCellAtLevel x64 exF3 1 .Three = .ok m' ∧ setCellAtLevel x64 m' 1 .One = .ok m'' ∧
    RustOrd.eq m'' exF3 = true :=
  (C50_write_back_restores_3D x64_supported).1 32 exF3 (exF3_reach _) 1 .Three .One (by rfl)

/-! ## C17 -/

theorem C17_equal_indices_hash_equally_3D :
    (∀ w, EqHashesEqual (MortonIndex3D (FixedDepthStorage3D w))) ∧
    (∀ w, EqHashesEqual (MortonIndex3D (StaticStorage3D w))) ∧
    EqHashesEqual (MortonIndex3D DynamicStorage3D) := by
  refine ⟨fun w a b h => ?_, fun w a b h => ?_, fun a b h => ?_⟩
  · have : a.storage = b.storage := FixedDepthStorage3D.eq_iff_eq.mp h
    cases a; cases b; cases this; rfl
  · have : a.storage = b.storage := StaticStorage3D.eq_iff_eq.mp h
    cases a; cases b; cases this; rfl
  · have : a.storage = b.storage := DynamicStorage3D.eq_iff_eq.mp h
    cases a; cases b; cases this; rfl

example : RustOrd.hashInput exS3 = RustOrd.hashInput (⟨⟨0xA7000000#32, 3⟩⟩ : MortonIndex3D (StaticStorage3D 32)) :=
  C17_equal_indices_hash_equally_3D.2.1 32 _ _ (by decide)

/-! ## C46 -/

theorem C46_static_zeroed_3D (hc : c.Supported) (w : Nat) (hw : IntWidth w) (d : Nat) :
    (d > w / 3 → MortonIndex3D.staticZeroed w d = none) ∧
    (d ≤ w / 3 → ∃ m t, MortonIndex3D.staticZeroed w d = some m ∧
      Shows c m (List.replicate d .Zero) ∧
      MortonIndex3D.tryFromSlice c (List.replicate d .Zero) = .ok (.ok t) ∧ RustOrd.eq m t = true) := by
  constructor
  · intro h
    have : d > StaticStorage.MAX_LEVELS w Octant := h
    simp [MortonIndex3D.staticZeroed, this]
  · intro h
    have h' : ¬ d > StaticStorage.MAX_LEVELS w Octant := by change ¬ d > w / 3; omega
    have e : MortonIndex3D.staticZeroed w d = some ⟨⟨0#w, d⟩⟩ := by simp [MortonIndex3D.staticZeroed, h']
    obtain ⟨t, h1, -, -, -, h5⟩ := MortonIndex3D.static_tryFrom (cs := List.replicate d .Zero) hc hw
      (by rw [List.length_replicate]; exact h)
    have hr : Reach3D c .canonical (.static w ⟨⟨0#w, d⟩⟩) := .staticZeroed hw e
    have ht : Reach3D c .canonical (.static w t) := .staticTryFromSlice hw h1
    have hp : cells3 (⟨⟨0#w, d⟩⟩ : MortonIndex3D (StaticStorage3D w)) = List.replicate d .Zero :=
      StaticStorage3D.zero_path d h
    refine ⟨_, t, e, hp ▸ (static_list3 hc).shows hr, h1, ?_⟩
    rw [static_eq3 hc _ _ hr ht, hp]
    exact h5.symm

example : ∃ m t, MortonIndex3D.staticZeroed 16 4 = some m ∧ Shows x64 m [.Zero, .Zero, .Zero, .Zero] ∧
    MortonIndex3D.tryFromSlice x64 [.Zero, .Zero, .Zero, .Zero] = .ok (.ok t) ∧ RustOrd.eq m t = true :=
  (C46_static_zeroed_3D x64_supported 16 (by decide) 4).2 (by decide)

theorem C46_dynamic_zeroed_3D (hc : c.Supported) (hwr : DynWrites c) (d : Nat) (hd : Addressable c (d * 3)) :
    ∃ m t : MortonIndex3D DynamicStorage3D, MortonIndex3D.dynamicZeroed c d = .ok m ∧
      Shows c m (List.replicate d .Zero) ∧
      MortonIndex3D.tryFromSlice c (List.replicate d .Zero) = .ok (.ok t) ∧ RustOrd.eq m t = true := by
  obtain ⟨e, -⟩ := MortonIndex3D.dynamic_zeroed_ok (c := c) d hd
  have e' : MortonIndex3D.dynamicZeroed c d = .ok ⟨⟨List.replicate (DynamicStorage3D.numBytes d) 0#8, d⟩⟩ := by
    rw [MortonIndex3D.dynamicZeroed, e]; rfl
  have hr : ∀ sc, Reach3D c sc (.dynamic ⟨⟨List.replicate (DynamicStorage3D.numBytes d) 0#8, d⟩⟩) :=
    fun sc => .dynamicZeroed hd e'
  have hp : cells3 (⟨⟨List.replicate (DynamicStorage3D.numBytes d) 0#8, d⟩⟩ : MortonIndex3D DynamicStorage3D) =
      List.replicate d .Zero := DynamicStorage3D.zero_path _ _ (Nat.le_refl _)
  have hd' : Addressable c ((List.replicate d Octant.Zero).length * 3) := by
    rw [List.length_replicate]; exact hd
  obtain ⟨t, h1, -, h3, h4, h5⟩ := MortonIndex3D.dynamic_tryFrom (cs := List.replicate d .Zero) hc hd'
  refine ⟨_, t, e', hp ▸ (dynamic_list3' hc).shows (hr .all), h1, ?_⟩
  rw [dynamic_eq3 hc _ _ (hr .canonical) (.dynamicTryFromSlice hd' h1), hp]
  exact (h5 hwr).symm

example : ∃ m t : MortonIndex3D DynamicStorage3D, MortonIndex3D.dynamicZeroed x64 8 = .ok m ∧
    Shows x64 m (List.replicate 8 .Zero) ∧
    MortonIndex3D.tryFromSlice x64 (List.replicate 8 .Zero) = .ok (.ok t) ∧ RustOrd.eq m t = true :=
  C46_dynamic_zeroed_3D x64_supported x64_writes 8 (by unfold Addressable; decide)

/-! ## C48 -/

theorem C48_defaults_3D (hc : c.Supported) :
    (∀ w, IntWidth w →
      Shows c (⟨FixedDepthStorage3D.default w⟩ : MortonIndex3D _) (List.replicate (w / 3) .Zero)) ∧
    (∀ w, IntWidth w → Shows c (⟨StaticStorage3D.default w⟩ : MortonIndex3D _) [] ∧
      ∃ t : MortonIndex3D (StaticStorage3D w), MortonIndex3D.tryFromSlice c [] = .ok (.ok t) ∧
        RustOrd.eq (⟨StaticStorage3D.default w⟩ : MortonIndex3D _) t = true) ∧
    Shows c (⟨DynamicStorage3D.default⟩ : MortonIndex3D _) [] ∧
    ∃ t : MortonIndex3D DynamicStorage3D, MortonIndex3D.tryFromSlice c [] = .ok (.ok t) ∧
      RustOrd.eq (⟨DynamicStorage3D.default⟩ : MortonIndex3D _) t = true := by
  refine ⟨fun w hw => ?_, fun w hw => ⟨?_, ?_⟩, ?_, ?_⟩
  · have hr : Reach3D c .all (.fixed w ⟨FixedDepthStorage3D.default w⟩) := .fixedDefault w hw
    have hp : cells3 (⟨FixedDepthStorage3D.default w⟩ : MortonIndex3D _) = List.replicate (w / 3) .Zero := by
      have hwd := Nat.div_mul_le_self w (dim Octant)
      apply path_of_slots
      · rw [List.length_replicate]; rfl
      · intro k hk
        rw [List.getElem_replicate]
        rw [List.length_replicate] at hk
        have hk' : k < w / dim Octant := hk
        exact FixedDepthStorage3D.default_slot k (Nat.le_trans (Nat.mul_le_mul_right _ hk') hwd)
    exact hp ▸ (fixed_list3 hc).shows hr
  · exact (static_list3 hc).shows (.staticDefault (sc := .all) w hw)
  · obtain ⟨t, h1, -, -, -, h5⟩ := MortonIndex3D.static_tryFrom (c := c) (cs := []) hc hw (by simp)
    refine ⟨t, h1, ?_⟩
    rw [static_eq3 hc _ _ (.staticDefault w hw) (.staticTryFromSlice hw h1)]
    exact h5.symm
  · exact (dynamic_list3' hc).shows (.dynamicDefault (sc := .all))
  · have ha : Addressable c (([] : List Octant).length * 3) := by
      have := hc.le; unfold Addressable; simp; omega
    obtain ⟨t, h1, -, h3, h4, -⟩ := MortonIndex3D.dynamic_tryFrom (cs := []) hc ha
    refine ⟨t, h1, ?_⟩
    rw [dynamic_eq3 hc _ _ .dynamicDefault (.dynamicTryFromSlice ha h1)]
    symm
    apply List.eq_nil_of_length_eq_zero
    rw [cells3, path_length]
    exact h3

example : Shows x64 (⟨FixedDepthStorage3D.default 8⟩ : MortonIndex3D _) [.Zero, .Zero] :=
  (C48_defaults_3D x64_supported).1 8 (by decide)

/-- The default index is the ancestor of every index at `generations = depth()`. In general the ancestor has
the depth and `cmp` of the default index. Missing: `==` on all histories, which does not hold
(`C48_refuted`); here it is for the histories without stray bits. -/
theorem C48_root_3D_partial (hc : c.Supported) :
    (∀ sc w (m : MortonIndex3D (StaticStorage3D w)), Reach3D c sc (.static w m) → ∀ g : NonZeroUsize,
      g.val = depth m → ∃ a, ancestor c m g = .ok (some a) ∧ depth a = 0 ∧
        RustOrd.cmp c a ⟨StaticStorage3D.default w⟩ = .ok .eq ∧
        (sc = .canonical → RustOrd.eq a ⟨StaticStorage3D.default w⟩ = true)) ∧
    (∀ sc (m : MortonIndex3D DynamicStorage3D), Reach3D c sc (.dynamic m) → ∀ g : NonZeroUsize,
      g.val = depth m → ∃ a, ancestor c m g = .ok (some a) ∧ depth a = 0 ∧
        RustOrd.cmp c a ⟨DynamicStorage3D.default⟩ = .ok .eq ∧
        (sc = .canonical → RustOrd.eq a ⟨DynamicStorage3D.default⟩ = true)) := by
  refine ⟨fun sc w m hm g hg => ?_, fun sc m hm g hg => ?_⟩
  · obtain ⟨a, h1, h2, h3⟩ := (static_anc3 hc).yes m hm g (by rw [← (static_list3 hc).depth_eq m hm]; omega)
    have hw : IntWidth w := (static_wf3 hc m hm).fit
    rw [← (static_list3 hc).depth_eq m hm, hg, Nat.sub_self, List.take_zero] at h3
    refine ⟨a, h1, by rw [(static_list3 hc).depth_eq a h2, h3]; rfl, ?_, ?_⟩
    · rw [(static_cmp3 hc _ _ h2 (.staticDefault w hw)).1, h3]; rfl
    · rintro rfl
      rw [static_eq3 hc _ _ h2 (.staticDefault w hw), h3]
      rfl
  · obtain ⟨a, h1, h2, h3⟩ := (dynamic_anc3 hc).yes m hm g (by rw [← (dynamic_list3' hc).depth_eq m hm]; omega)
    rw [← (dynamic_list3' hc).depth_eq m hm, hg, Nat.sub_self, List.take_zero] at h3
    refine ⟨a, h1, by rw [(dynamic_list3' hc).depth_eq a h2, h3]; rfl, ?_, ?_⟩
    · rw [(dynamic_cmp3 hc _ _ h2 .dynamicDefault).1, h3]; rfl
    · rintro rfl
      rw [dynamic_eq3 hc _ _ h2 .dynamicDefault, h3]
      rfl

example : ∃ a, ancestor x64 exD3 ⟨3, by decide⟩ = .ok (some a) ∧ depth a = 0 ∧
    RustOrd.cmp x64 a ⟨DynamicStorage3D.default⟩ = .ok .eq ∧
    (Scope.canonical = .canonical → RustOrd.eq a ⟨DynamicStorage3D.default⟩ = true) :=
  (C48_root_3D_partial x64_supported).2 .canonical exD3 (exD3_reach _) ⟨3, by decide⟩ rfl

end MortonRs
