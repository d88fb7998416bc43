import Verif.Props.Conv3D
import Verif.Props.Nav3D
import Verif.Props.Grid3D
import Verif.Props.Laws
import Verif.Lemmas.GridRead3D

/-! # Laws relating the operations, 3D (C52, C53, C55-C59) -/

namespace MortonRs

open BitStorage MortonIndex VariableDepthMortonIndex

variable {c : Cfg}

/-! ## C52 -/

theorem uncheckedAgrees_of3 {S : Type} [Storage S Octant] {ok : MortonIndex3D S → Prop}
    (h : PanicsExactlyOutOfRange c ok) : UncheckedAgrees c ok := by
  intro m hm l hl
  obtain ⟨⟨v, h1⟩, h2⟩ := (h m hm l).1 hl
  have hn : ¬ l ≥ Storage.depth m.storage := Nat.not_le.mpr hl
  refine ⟨⟨v, ?_, h1⟩, fun v => ?_⟩
  · change MortonIndex3D.getCellAtLevel c m l = _ at h1
    rw [MortonIndex3D.getCellAtLevel, if_neg hn] at h1
    exact h1
  · obtain ⟨m', h3⟩ := h2 v
    refine ⟨m', ?_, h3⟩
    change MortonIndex3D.setCellAtLevel c m l v = _ at h3
    rw [MortonIndex3D.setCellAtLevel, if_neg hn] at h3
    exact h3

theorem C52_unchecked_accessors_3D (hc : c.Supported) :
    (∀ w, UncheckedAgrees c (fun m => Reach3D c .all (.fixed w m))) ∧
    (∀ w, UncheckedAgrees c (fun m => Reach3D c .all (.static w m))) ∧
    UncheckedAgrees c (fun m => Reach3D c .all (.dynamic m)) :=
  ⟨fun _ => uncheckedAgrees_of3 (fixed_list3 hc).panics, fun _ => uncheckedAgrees_of3 (static_list3 hc).panics,
    uncheckedAgrees_of3 (dynamic_list3' hc).panics⟩

example : ∃ v, getCellAtLevelUnchecked x64 exD3 2 = .ok v ∧ getCellAtLevel x64 exD3 2 = .ok v :=
  ((C52_unchecked_accessors_3D x64_supported).2.2 exD3 (exD3_reach _) 2 (by decide)).1

/-! ## C53 -/

theorem C53_max_depth_3D (hc : c.Supported) :
    (∀ w, IntWidth w → ∃ d,
      Storage.maxDepth (FixedDepthStorage3D w) = some d ∧ Storage.maxDepth (StaticStorage3D w) = some d ∧
      FixedDepthStorage.MAX_LEVELS w Octant = d ∧ StaticStorage.MAX_LEVELS w Octant = d ∧
      MortonIndex3D.fixedMaxLevels w = d ∧ MortonIndex3D.staticMaxLevels w = d ∧
      (∀ cs : List Octant, (cs.length ≤ d →
          (∃ m : MortonIndex3D (FixedDepthStorage3D w), MortonIndex3D.tryFromSlice c cs = .ok (.ok m) ∧ depth m = d) ∧
          (∃ m : MortonIndex3D (StaticStorage3D w), MortonIndex3D.tryFromSlice c cs = .ok (.ok m) ∧
            depth m = cs.length)) ∧
        (cs.length > d →
          (MortonIndex3D.tryFromSlice c cs : Res (Except Error (MortonIndex3D (FixedDepthStorage3D w)))) =
            .ok (.error (.DepthLimitedExceeded d)) ∧
          (MortonIndex3D.tryFromSlice c cs : Res (Except Error (MortonIndex3D (StaticStorage3D w)))) =
            .ok (.error (.DepthLimitedExceeded d)))) ∧
      (∀ m, Reach3D c .all (.fixed w m) → depth m = d) ∧
      (∀ m, Reach3D c .all (.static w m) → depth m ≤ d)) ∧
    Storage.maxDepth DynamicStorage3D = none ∧ DynamicStorage.MAX_LEVELS = 0 ∧
    (∀ cs : List Octant, Addressable c (cs.length * 3) →
      ∃ m : MortonIndex3D DynamicStorage3D, MortonIndex3D.tryFromSlice c cs = .ok (.ok m) ∧ depth m = cs.length) := by
  refine ⟨fun w hw => ⟨w / 3, rfl, rfl, rfl, rfl, rfl, rfl, fun cs => ⟨fun h => ⟨?_, ?_⟩, fun h => ?_⟩, fun m hm => rfl, fun m hm => ?_⟩,
    rfl, rfl, fun cs h => ?_⟩
  · obtain ⟨m, h1, -⟩ := MortonIndex3D.fixed_tryFrom hc hw h
    exact ⟨m, h1, rfl⟩
  · obtain ⟨m, h1, -, -, -, h3⟩ := MortonIndex3D.static_tryFrom hc hw h
    exact ⟨m, h1, by rw [← h3]; exact (path_length m.storage).symm⟩
  · exact ⟨(MortonIndex3D.fixed_tryFrom_error h).1, (MortonIndex3D.static_tryFrom_error h).1⟩
  · have := static_depth_le3 hc m hm
    rwa [← (static_list3 hc).depth_eq m hm] at this
  · obtain ⟨m, h1, -, h3, -⟩ := MortonIndex3D.dynamic_tryFrom hc h
    exact ⟨m, h1, h3⟩

/-- One cell more than declared is rejected, on every supported target. -/
example (hc : c.Supported) : (MortonIndex3D.tryFromSlice c (List.replicate 22 .Three) :
    Res (Except Error (MortonIndex3D (StaticStorage3D 64)))) = .ok (.error (.DepthLimitedExceeded 21)) := by
  obtain ⟨d, h, -, -, -, -, -, h', -⟩ := (C53_max_depth_3D hc).1 64 (by decide)
  cases h
  exact ((h' _).2 (by decide)).2

example : Storage.maxDepth (FixedDepthStorage3D 64) = some 21 ∧ Storage.maxDepth (StaticStorage3D 8) = some 2 :=
  ⟨rfl, rfl⟩

/-- The bitmask has the lowest `MAX_LEVELS` bits set; where a `usize` cannot hold it, it does not compile. -/
theorem C53_bitmask_3D (w : Nat) :
    (w / 3 < c.ptrBits → ∃ b, MortonIndex3D.maxLevelsBitmask c w = .ok b ∧ b.toNat = 2 ^ (w / 3) - 1) ∧
    (c.ptrBits ≤ w / 3 → MortonIndex3D.maxLevelsBitmask c w = .error .compileError) := by
  refine ⟨fun h => ?_, fun h => MortonIndex3D.maxLevelsBitmask_error h⟩
  obtain ⟨b, h1, h2⟩ := MortonIndex3D.maxLevelsBitmask_ok (c := c) (w := w) h
  refine ⟨b, h1, Nat.eq_of_testBit_eq fun i => ?_⟩
  rw [← getLsbD_eq_testBit, h2, Nat.testBit_two_pow_sub_one]
  rfl

example : ∃ b, MortonIndex3D.maxLevelsBitmask x64 64 = .ok b ∧ b.toNat = 0x1FFFFF := (C53_bitmask_3D 64).1 (by decide)

/-! ## C55 -/

theorem C55_children_ordered_3D (hc : c.Supported) :
    (∀ w, ChildrenOrdered c octantKey (fun m => Reach3D c .all (.static w m)) (fun _ _ => True)) ∧
    (DynWrites c → ChildrenOrdered c octantKey (fun m : MortonIndex3D DynamicStorage3D => Reach3D c .all (.dynamic m))
      (fun m n => Addressable c ((depth m + n) * 3))) := by
  refine ⟨fun w m hm _ v => ?_, fun hw => ?_⟩
  · exact (static_desc3 hc).childrenOrdered (static_cmp3 hc)
      (fun a b e => by cases a; cases b; exact congrArg _ (StaticStorage3D.eq_iff_eq.mp e)) m hm
      (one_lt_isize hc (x := v)) v
  · exact (dynamic_desc3 hc hw).childrenOrdered (dynamic_cmp3 hc)
      (fun a b e => by cases a; cases b; exact congrArg _ (DynamicStorage3D.eq_iff_eq.mp e))

theorem C55_set_monotone_3D (hc : c.Supported) :
    (∀ w, SetMonotone c octantKey (fun m => Reach3D c .canonical (.fixed w m))) ∧
    (∀ w, SetMonotone c octantKey (fun m => Reach3D c .all (.static w m))) ∧
    (DynWrites c → SetMonotone c octantKey (fun m => Reach3D c .all (.dynamic m))) :=
  ⟨fun _ => (fixed_list3 hc).setMonotone (fixed_cmp3 hc), fun _ => (static_list3 hc).setMonotone (static_cmp3 hc),
    fun hw => (dynamic_list3 hc hw).setMonotone (dynamic_cmp3 hc)⟩

example : RustOrd.cmp x64 (⟨⟨0xA7100000#32, 4⟩⟩ : MortonIndex3D (StaticStorage3D 32)) ⟨⟨0xA7200000#32, 4⟩⟩ = .ok .lt :=
  ((C55_children_ordered_3D x64_supported).1 32 exS3 (exS3_reach _) trivial .One .Two _ _ (by rfl) (by rfl)).1

example : RustOrd.cmp x64 (⟨⟨0xAF000000#32⟩⟩ : MortonIndex3D (FixedDepthStorage3D 32)) ⟨⟨0xAB000000#32⟩⟩ = .ok .gt :=
  (C55_set_monotone_3D x64_supported).1 32 exF3 (exF3_reach _) 1 .Three .Two _ _ (by rfl) (by rfl)

/-! ## C56 -/

theorem C56_ancestors_compose_3D (hc : c.Supported) :
    (∀ w, AncestorsCompose c (fun m => Reach3D c .all (.static w m))) ∧
    AncestorsCompose c (fun m => Reach3D c .all (.dynamic m)) :=
  ⟨fun _ => (static_anc3 hc).compose (static_cmp3 hc), (dynamic_anc3 hc).compose (dynamic_cmp3 hc)⟩

theorem C56_descendants_compose_3D (hc : c.Supported) :
    (∀ w, DescendantsCompose c (fun m => Reach3D c .all (.static w m)) (fun _ n => n < 2 ^ (c.ptrBits - 1))) ∧
    (DynWrites c → DescendantsCompose c (fun m : MortonIndex3D DynamicStorage3D => Reach3D c .all (.dynamic m))
      (fun m n => Addressable c ((depth m + n) * 3))) := by
  refine ⟨fun w => ?_, fun hw => ?_⟩
  · refine (static_desc3 hc).compose (static_cmp3 hc) ?_ ?_
    · intro m xs ys h
      rw [List.length_append] at h
      change _ < _ at h ⊢
      omega
    · intro m a xs ys _ _ _ h
      rw [List.length_append] at h
      change _ < _ at h ⊢
      omega
  · refine (dynamic_desc3 hc hw).compose (dynamic_cmp3 hc) ?_ ?_
    · intro m xs ys h
      rw [List.length_append] at h
      change (_ + _) * 3 + 64 < _ at h ⊢
      omega
    · intro m a xs ys hm ha e h
      rw [List.length_append] at h
      have e1 := (dynamic_list3 hc hw).depth_eq a ha
      have e2 := (dynamic_list3 hc hw).depth_eq m hm
      rw [e, List.length_append, ← e2] at e1
      change (depth m + (_ + _)) * 3 + 64 < _ at h
      change (depth a + _) * 3 + 64 < _
      omega

example : (descendant x64 (⟨⟨0xA0000000#32, 1⟩⟩ : MortonIndex3D (StaticStorage3D 32)) [.One, .Six] = .ok none ∧
      descendant x64 (⟨⟨0xA0000000#32, 1⟩⟩ : MortonIndex3D (StaticStorage3D 32)) [.One, .Six, .One, .Zero] = .ok none) ∨
    ∃ a, descendant x64 (⟨⟨0xA0000000#32, 1⟩⟩ : MortonIndex3D (StaticStorage3D 32)) [.One, .Six] = .ok (some a) ∧
      ((descendant x64 a [.One, .Zero] = .ok none ∧
        descendant x64 (⟨⟨0xA0000000#32, 1⟩⟩ : MortonIndex3D (StaticStorage3D 32)) [.One, .Six, .One, .Zero] = .ok none) ∨
      ∃ p q, descendant x64 a [.One, .Zero] = .ok (some p) ∧
        descendant x64 (⟨⟨0xA0000000#32, 1⟩⟩ : MortonIndex3D (StaticStorage3D 32)) [.One, .Six, .One, .Zero] = .ok (some q) ∧
        RustOrd.cmp x64 p q = .ok .eq) :=
  (C56_descendants_compose_3D x64_supported).1 32 ⟨⟨0xA0000000#32, 1⟩⟩
    (.staticTryFromSlice (cs := [.Five]) (by decide) (by rfl)) [.One, .Six] [.One, .Zero] (by decide)

/-- Going up two and then two more levels from depth three. -/
example : ∃ a, ancestor x64 exS3 ⟨2, by decide⟩ = .ok (some a) ∧ ancestor x64 a ⟨2, by decide⟩ = .ok none ∧
    ancestor x64 exS3 ⟨4, by decide⟩ = .ok none := by
  rcases (C56_ancestors_compose_3D x64_supported).1 32 exS3 (exS3_reach _) ⟨2, by decide⟩ ⟨2, by decide⟩ ⟨4, by decide⟩ rfl with
    ⟨h, -⟩ | ⟨a, h1, h2 | ⟨p, q, -, h2, -⟩⟩
  · exact absurd h (by decide +kernel)
  · exact ⟨a, h1, h2.1, h2.2⟩
  · rw [show ancestor x64 exS3 ⟨4, by decide⟩ = .ok none from by decide +kernel] at h2
    cases h2

theorem C56_ancestor_descendant_3D (hc : c.Supported) :
    (∀ w, IntWidth w → AncestorDescendant c (fun m => Reach3D c .all (.static w m))) ∧
    (DynWrites c → AncestorDescendant c (fun m => Reach3D c .all (.dynamic m))) := by
  refine ⟨fun w hiw => ?_, fun hw => ?_⟩
  · refine (static_anc3 hc).ancestorDescendant (static_list3 hc) (static_desc3 hc) (static_cmp3 hc) ?_
      (fun m hm => Nat.not_lt.mpr (static_depth_le3 hc m hm))
    intro q m hm _ n e
    have := static_depth_le3 hc m hm
    have := hiw.le
    have : 32768 ≤ 2 ^ (c.ptrBits - 1) := by rcases hc with h | h | h <;> rw [h] <;> decide
    change n < 2 ^ (c.ptrBits - 1)
    omega
  · refine (dynamic_anc3 hc).ancestorDescendant (dynamic_list3 hc hw) (dynamic_desc3 hc hw) (dynamic_cmp3 hc) ?_
      (fun _ _ h => h)
    intro q m hm hq n e
    have := dynamic_addr3 hc m hm
    rw [← e, ← (dynamic_list3 hc hw).depth_eq q hq] at this
    exact this

example : ∃ cs q, cs.length = 2 ∧
    (∀ k (h : k < cs.length), getCellAtLevel x64 exS3 (1 + k) = .ok cs[k]) ∧
    descendant x64 (⟨⟨0xA0000000#32, 1⟩⟩ : MortonIndex3D (StaticStorage3D 32)) cs = .ok (some q) ∧
    RustOrd.cmp x64 q exS3 = .ok .eq :=
  (C56_ancestor_descendant_3D x64_supported).1 32 (by decide) exS3 (exS3_reach _) ⟨2, by decide⟩ _ (by rfl)

/-! ## C57 -/

theorem C57_to_fixed_monotone_3D (hc : c.Supported) (w : Nat) (hw : IntWidth w) :
    ConversionMonotone c (fun m => Reach3D c .canonical (.static w m)) MortonIndex3D.staticToFixed := by
  refine monotone_of (key := octantKey) (z := .Zero) rfl (w / 3) (static_cmp3 hc)
    (fixed_cmp3 hc) (static_depth_le3 hc) (fun m hm => ⟨.staticToFixed hm, ?_⟩)
  have hwf := static_wf3 hc m hm
  have := ((MortonIndex3D.staticToFixed_ok hw hwf).2 ((reach3D_good hc hm).2 rfl)).2
  rw [cells3, cells3, this, path_length]
  rfl

/-- Two paths that differ: the deeper one does not sink below the other. -/
example : RustOrd.le x64 (MortonIndex3D.staticToFixed (⟨⟨0xA0000000#32, 1⟩⟩ : MortonIndex3D (StaticStorage3D 32)))
    (MortonIndex3D.staticToFixed exS3) = .ok true :=
  C57_to_fixed_monotone_3D x64_supported 32 (by decide) _ _
    (.staticTryFromSlice (cs := [.Five]) (by decide) (by rfl)) (exS3_reach _) (by rfl)

/-! ## C58 -/

theorem C58_conversions_commute_3D (hc : c.Supported) (hdw : DynWrites c) (w : Nat) (hw : IntWidth w) :
    ConversionCommutes c (fun m => Reach3D c .all (.static w m)) (MortonIndex3D.staticToDynamic c) ∧
    ConversionCommutes c (fun m : MortonIndex3D DynamicStorage3D => Reach3D c .all (.dynamic m) ∧ depth m ≤ w / 3)
      (fun m => okOf (MortonIndex3D.dynamicToStatic c w m)) := by
  constructor
  · refine commutes_of (static_list3 hc) (dynamic_list3 (sc := .all) hc hdw) (static_anc3 hc) (dynamic_anc3 hc)
      (dynamic_cmp3 hc) (fun _ h => h) (fun _ _ _ h _ => h) (fun m hm => ?_)
    obtain ⟨n, h1, -, -, h4⟩ := MortonIndex3D.staticToDynamic_ok hc (static_wf3 hc m hm)
    exact ⟨n, h1, .staticToDynamic hm h1, h4 hdw⟩
  · refine commutes_of (dynamic_list3 hc hdw) (static_list3 (sc := .all) (w := w) hc) (dynamic_anc3 hc) (static_anc3 hc)
      (static_cmp3 hc) (fun _ h => h.1) (fun a m h1 h2 h3 => ⟨h2, ?_⟩) (fun m hm => ?_)
    · rw [← (dynamic_list3 hc hdw).depth_eq a h2, ← (dynamic_list3 hc hdw).depth_eq m h1.1] at h3
      exact Nat.le_trans h3 h1.2
    · obtain ⟨n, h1, -, -, h4⟩ := MortonIndex3D.dynamicToStatic_ok hc hw (dynamic_wf3 hc m hm.1) hm.2
      exact ⟨n, congrArg okOf h1, .dynamicToStatic hw hm.1 h1, h4⟩

example : ∃ n, MortonIndex3D.staticToDynamic x64 exS3 = .ok n ∧ ancestor x64 n ⟨4, by decide⟩ = .ok none := by
  obtain ⟨n, h1, -, -, -, h5⟩ := (C58_conversions_commute_3D x64_supported x64_writes 32 (by decide)).1 exS3 (exS3_reach _)
  exact ⟨n, h1, h5 _ (by rfl)⟩

/-! ## C59 -/

/-- The path `xs` is the one of the grid position `g`. -/
def GridList3 {W : Nat} (o : OctantOrdering) (g : Vector3 W) (xs : List Octant) : Prop :=
  ∀ l (h : l < xs.length), GridCell3 o g (xs.length - 1 - l) xs[l]

theorem gridList_of3 {W : Nat} {S : Type} [Storage S Octant] [BitStorage S Octant] {o : OctantOrdering}
    {g : Vector3 W} {s : S} {n : Nat} (hn : Storage.depth s = n) (h : GridPath3 o g n s) : GridList3 o g (path s) := by
  subst hn
  intro l hl
  rw [path_length] at hl
  rw [path_getElem, path_length]
  exact h l hl

theorem gridList_unique3 {W : Nat} (hW : 3 ≤ W) {o : OctantOrdering} {g : Vector3 W} {xs ys : List Octant}
    (hx : GridList3 o g xs) (hy : GridList3 o g ys) (hl : xs.length = ys.length) : xs = ys := by
  apply List.ext_getElem hl
  intro l h1 h2
  obtain ⟨x1, x2, x3⟩ := hx l h1
  obtain ⟨y1, y2, y3⟩ := hy l h2
  apply MortonIndex3D.toIndex_inj hW o
  · rw [x1, y1, hl]
  · rw [x2, y2, hl]
  · rw [x3, y3, hl]

theorem gridList_take3 {W : Nat} {o : OctantOrdering} {g : Vector3 W} {xs : List Octant} {k : Nat}
    (hx : GridList3 o g xs) (hk : k ≤ xs.length) :
    GridList3 o ⟨g.x >>> k, g.y >>> k, g.z >>> k⟩ (xs.take (xs.length - k)) := by
  intro l hl
  rw [List.length_take] at hl
  have hl' : l < xs.length - k := by omega
  have e : k + (min (xs.length - k) xs.length - 1 - l) = xs.length - 1 - l := by omega
  obtain ⟨h1, h2, h3⟩ := hx l (by omega)
  rw [List.getElem_take]
  simp only [GridCell3, List.length_take, BitVec.getLsbD_ushiftRight, e]
  exact ⟨h1, h2, h3⟩

/-- Missing: the depths at which the static constructor loses levels (`StaticGridExact`, see C25). -/
theorem C59_grid_constructors_agree_3D_partial (hc : c.Supported) (w : Nat) (hw : IntWidth w) (hfit : w / 3 < c.ptrBits)
    (g : Vector3 c.ptrBits) (o : OctantOrdering) :
    (32 ≤ c.ptrBits → ∃ m s, MortonIndex3D.fixedFromGridIndex c w g o = .ok m ∧
      MortonIndex3D.staticFromGridIndex c w g (w / 3) o = .ok (.ok s) ∧
      RustOrd.eq (MortonIndex3D.fixedToStatic m) s = true) ∧
    (DynWrites c → ∀ d, d ≤ w / 3 → d ≤ c.ptrBits / 2 → d = 0 ∨ StaticGridExact w d →
      ∃ m s t, MortonIndex3D.dynamicFromGridIndex c g d o = .ok m ∧
        MortonIndex3D.staticFromGridIndex c w g d o = .ok (.ok s) ∧
        MortonIndex3D.dynamicToStatic c w m = .ok (.ok t) ∧ RustOrd.eq t s = true) ∧
    (∀ d (k : NonZeroUsize), d + k.val ≤ w / 3 → d = 0 ∨ StaticGridExact w d → StaticGridExact w (d + k.val) →
      ∃ m s a, MortonIndex3D.staticFromGridIndex c w g (d + k.val) o = .ok (.ok m) ∧
        MortonIndex3D.staticFromGridIndex c w ⟨g.x >>> k.val, g.y >>> k.val, g.z >>> k.val⟩ d o = .ok (.ok s) ∧
        ancestor c m k = .ok (some a) ∧ RustOrd.eq a s = true) := by
  have hW : 3 ≤ c.ptrBits := by rcases hc with h | h | h <;> omega
  have hp : 0 < c.ptrBits := by omega
  have hfit' : w / 3 ≤ c.ptrBits := Nat.le_of_lt hfit
  refine ⟨fun h32 => ?_, fun hdw d hd hdp he => ?_, fun d k hd he he' => ?_⟩
  · obtain ⟨m, h1, h2, h3⟩ := MortonIndex3D.fixedFromGridIndex_ok hc hw (by omega) hfit g o
    obtain ⟨s, g1, g2, g3, g4⟩ := MortonIndex3D.staticFromGridIndex_ok hc hw hfit' g (w / 3) (Nat.le_refl _)
      (.inl (by change w / 3 - w / 3 < _; omega)) o
    have g5 := gridPath3_of_exact (Nat.le_refl _) (.inr (staticGridExact_max w)) g4
    refine ⟨m, s, h1, g1, ?_⟩
    have hr : Reach3D c .canonical (.static w (MortonIndex3D.fixedToStatic m)) :=
      .fixedToStatic (.fixedFromGrid hw h1)
    rw [static_eq3 hc _ _ hr (.staticFromGrid hw g1), cells3,
      (MortonIndex3D.fixedToStatic_ok (c := c) hw m).2.1]
    exact gridList_unique3 hW (gridList_of3 rfl h3) (gridList_of3 g2 g5) (by rw [cells3, path_length, path_length]; exact g2.symm)
  · obtain ⟨m, h1, h2, h3, h4⟩ := MortonIndex3D.dynamicFromGridIndex_ok hc g d hdp o
    obtain ⟨s, g1, g2, g3, g4⟩ := MortonIndex3D.staticFromGridIndex_ok hc hw hfit' g d hd
      (.inl (by change w / 3 - d < _; omega)) o
    have g5 := gridPath3_of_exact hd he g4
    obtain ⟨t, t1, t2, t3, t4⟩ := MortonIndex3D.dynamicToStatic_ok hc hw h3.inv.wf (by rw [h2]; exact hd)
    refine ⟨m, s, t, h1, g1, t1, ?_⟩
    have hr : Reach3D c .canonical (.static w t) := .dynamicToStatic hw (.dynamicFromGrid h1) t1
    rw [static_eq3 hc _ _ hr (.staticFromGrid hw g1), cells3, t4]
    exact gridList_unique3 hW (gridList_of3 h2 (h4 hdw)) (gridList_of3 g2 g5)
      (by rw [cells3, path_length, path_length]; exact h2.trans g2.symm)
  · obtain ⟨m, h1, h2, h3, h4⟩ := MortonIndex3D.staticFromGridIndex_ok hc hw hfit' g (d + k.val) hd
      (.inl (by change w / 3 - _ < _; omega)) o
    have h5 := gridPath3_of_exact hd (.inr he') h4
    obtain ⟨s, g1, g2, g3, g4⟩ := MortonIndex3D.staticFromGridIndex_ok hc hw hfit'
      ⟨g.x >>> k.val, g.y >>> k.val, g.z >>> k.val⟩ d (by change d ≤ w / 3; omega) (.inl (by change w / 3 - d < _; omega)) o
    have g5 := gridPath3_of_exact (by omega) he g4
    have hr : Reach3D c .canonical (.static w m) := .staticFromGrid hw h1
    have hlen : (cells3 m).length = d + k.val := by rw [cells3, path_length]; exact h2
    obtain ⟨a, a1, a2, a3⟩ := (static_anc3 hc).yes m hr k (by omega)
    refine ⟨m, s, a, h1, g1, a1, ?_⟩
    rw [static_eq3 hc _ _ a2 (.staticFromGrid hw g1), a3]
    refine gridList_unique3 hW (gridList_take3 (gridList_of3 h2 h5) (by change k.val ≤ (cells3 m).length; omega))
      (gridList_of3 g2 g5) ?_
    rw [List.length_take, hlen, cells3, path_length]
    have : Storage.depth s.storage = d := g2
    omega

example : ∃ m s, MortonIndex3D.fixedFromGridIndex x64 32 ⟨300#64, 77#64, 1023#64⟩ .XYZ = .ok m ∧
    MortonIndex3D.staticFromGridIndex x64 32 ⟨300#64, 77#64, 1023#64⟩ 10 .XYZ = .ok (.ok s) ∧
    RustOrd.eq (MortonIndex3D.fixedToStatic m) s = true :=
  (C59_grid_constructors_agree_3D_partial x64_supported 32 (by decide) (by decide) _ _).1 (by decide)

example : ∃ m s a, MortonIndex3D.staticFromGridIndex x64 16 ⟨300#64, 77#64, 9#64⟩ 5 .ZYX = .ok (.ok m) ∧
    MortonIndex3D.staticFromGridIndex x64 16 ⟨75#64, 19#64, 2#64⟩ 3 .ZYX = .ok (.ok s) ∧
    ancestor x64 m ⟨2, by decide⟩ = .ok (some a) ∧ RustOrd.eq a s = true :=
  (C59_grid_constructors_agree_3D_partial x64_supported 16 (by decide) (by decide) _ _).2.2 3 ⟨2, by decide⟩ (by decide)
    (by decide) (by decide)

end MortonRs
