import Verif.Props.Conv2D
import Verif.Props.Nav2D
import Verif.Props.Laws
import Verif.Lemmas.GridRead2D

/-! # Laws relating the operations, 2D (C52, C53, C55-C59) -/

namespace MortonRs

open BitStorage MortonIndex VariableDepthMortonIndex

variable {c : Cfg}

/-! ## C52 -/

theorem uncheckedAgrees_of2 {S : Type} [Storage S Quadrant] {ok : MortonIndex2D S → Prop}
    (h : PanicsExactlyOutOfRange c ok) : UncheckedAgrees c ok := by
  intro m hm l hl
  obtain ⟨⟨v, h1⟩, h2⟩ := (h m hm l).1 hl
  have hn : ¬ l ≥ Storage.depth m.storage := Nat.not_le.mpr hl
  refine ⟨⟨v, ?_, h1⟩, fun v => ?_⟩
  · change MortonIndex2D.getCellAtLevel c m l = _ at h1
    rw [MortonIndex2D.getCellAtLevel, if_neg hn] at h1
    exact h1
  · obtain ⟨m', h3⟩ := h2 v
    refine ⟨m', ?_, h3⟩
    change MortonIndex2D.setCellAtLevel c m l v = _ at h3
    rw [MortonIndex2D.setCellAtLevel, if_neg hn] at h3
    exact h3

theorem C52_unchecked_accessors_2D (hc : c.Supported) :
    (∀ w, UncheckedAgrees c (fun m => Reach2D c .all (.fixed w m))) ∧
    (∀ w, UncheckedAgrees c (fun m => Reach2D c .all (.static w m))) ∧
    UncheckedAgrees c (fun m => Reach2D c .all (.dynamic m)) :=
  ⟨fun _ => uncheckedAgrees_of2 (fixed_list2 hc).panics, fun _ => uncheckedAgrees_of2 (static_list2 hc).panics,
    uncheckedAgrees_of2 (dynamic_list2' hc).panics⟩

example : ∃ v, getCellAtLevelUnchecked x64 exD2 2 = .ok v ∧ getCellAtLevel x64 exD2 2 = .ok v :=
  ((C52_unchecked_accessors_2D x64_supported).2.2 exD2 (exD2_reach _) 2 (by decide)).1

/-! ## C53 -/

theorem C53_max_depth_2D (hc : c.Supported) :
    (∀ w, IntWidth w → ∃ d,
      Storage.maxDepth (FixedDepthStorage2D w) = some d ∧ Storage.maxDepth (StaticStorage2D w) = some d ∧
      FixedDepthStorage.MAX_LEVELS w Quadrant = d ∧ StaticStorage.MAX_LEVELS w Quadrant = d ∧
      (∀ cs : List Quadrant, (cs.length ≤ d →
          (∃ m : MortonIndex2D (FixedDepthStorage2D w), MortonIndex2D.tryFromSlice c cs = .ok (.ok m) ∧ depth m = d) ∧
          (∃ m : MortonIndex2D (StaticStorage2D w), MortonIndex2D.tryFromSlice c cs = .ok (.ok m) ∧
            depth m = cs.length)) ∧
        (cs.length > d →
          (MortonIndex2D.tryFromSlice c cs : Res (Except Error (MortonIndex2D (FixedDepthStorage2D w)))) =
            .ok (.error (.DepthLimitedExceeded d)) ∧
          (MortonIndex2D.tryFromSlice c cs : Res (Except Error (MortonIndex2D (StaticStorage2D w)))) =
            .ok (.error (.DepthLimitedExceeded d)))) ∧
      (∀ m, Reach2D c .all (.fixed w m) → depth m = d) ∧
      (∀ m, Reach2D c .all (.static w m) → depth m ≤ d)) ∧
    Storage.maxDepth DynamicStorage2D = none ∧ DynamicStorage.MAX_LEVELS = 0 ∧
    (∀ cs : List Quadrant, Addressable c (cs.length * 2) →
      ∃ m : MortonIndex2D DynamicStorage2D, MortonIndex2D.tryFromSlice c cs = .ok (.ok m) ∧ depth m = cs.length) := by
  refine ⟨fun w hw => ⟨w / 2, rfl, rfl, rfl, rfl, fun cs => ⟨fun h => ⟨?_, ?_⟩, fun h => ?_⟩, fun m hm => rfl, fun m hm => ?_⟩,
    rfl, rfl, fun cs h => ?_⟩
  · obtain ⟨m, h1, -⟩ := MortonIndex2D.fixed_tryFrom hc hw h
    exact ⟨m, h1, rfl⟩
  · obtain ⟨m, h1, -, -, -, h3⟩ := MortonIndex2D.static_tryFrom hc hw h
    exact ⟨m, h1, by rw [← h3]; exact (path_length m.storage).symm⟩
  · exact ⟨(MortonIndex2D.fixed_tryFrom_error h).1, (MortonIndex2D.static_tryFrom_error h).1⟩
  · have := static_depth_le2 hc m hm
    rwa [← (static_list2 hc).depth_eq m hm] at this
  · obtain ⟨m, h1, -, h3, -⟩ := MortonIndex2D.dynamic_tryFrom hc h
    exact ⟨m, h1, h3⟩

/-- One cell more than declared is rejected, on every supported target. -/
example (hc : c.Supported) : (MortonIndex2D.tryFromSlice c (List.replicate 33 .Three) :
    Res (Except Error (MortonIndex2D (StaticStorage2D 64)))) = .ok (.error (.DepthLimitedExceeded 32)) := by
  obtain ⟨d, h, -, -, -, h', -⟩ := (C53_max_depth_2D hc).1 64 (by decide)
  cases h
  exact ((h' _).2 (by decide)).2

example : Storage.maxDepth (FixedDepthStorage2D 64) = some 32 ∧ Storage.maxDepth (StaticStorage2D 8) = some 4 :=
  ⟨rfl, rfl⟩

/-! ## C55 -/

theorem C55_children_ordered_2D (hc : c.Supported) :
    (∀ w, ChildrenOrdered c quadrantKey (fun m => Reach2D c .all (.static w m)) (fun _ _ => True)) ∧
    (DynWrites c → ChildrenOrdered c quadrantKey (fun m : MortonIndex2D DynamicStorage2D => Reach2D c .all (.dynamic m))
      (fun m n => Addressable c ((depth m + n) * 2))) := by
  refine ⟨fun w m hm _ v => ?_, fun hw => ?_⟩
  · exact (static_desc2 hc).childrenOrdered (static_cmp2 hc)
      (fun a b e => by cases a; cases b; exact congrArg _ (StaticStorage2D.eq_iff_eq.mp e)) m hm
      (one_lt_isize hc (x := v)) v
  · exact (dynamic_desc2 hc hw).childrenOrdered (dynamic_cmp2 hc)
      (fun a b e => by cases a; cases b; exact congrArg _ (DynamicStorage2D.eq_iff_eq.mp e))

theorem C55_set_monotone_2D (hc : c.Supported) :
    (∀ w, SetMonotone c quadrantKey (fun m => Reach2D c .all (.fixed w m))) ∧
    (∀ w, SetMonotone c quadrantKey (fun m => Reach2D c .all (.static w m))) ∧
    (DynWrites c → SetMonotone c quadrantKey (fun m => Reach2D c .all (.dynamic m))) :=
  ⟨fun _ => (fixed_list2 hc).setMonotone (fixed_cmp2 hc), fun _ => (static_list2 hc).setMonotone (static_cmp2 hc),
    fun hw => (dynamic_list2 hc hw).setMonotone (dynamic_cmp2 hc)⟩

example : RustOrd.cmp x64 (⟨⟨0xD900#16, 4⟩⟩ : MortonIndex2D (StaticStorage2D 16)) ⟨⟨0xDA00#16, 4⟩⟩ = .ok .lt :=
  ((C55_children_ordered_2D x64_supported).1 16 exS2 (exS2_reach _) trivial .One .Two _ _ (by rfl) (by rfl)).1

example : RustOrd.cmp x64 (⟨⟨0xF800#16⟩⟩ : MortonIndex2D (FixedDepthStorage2D 16)) ⟨⟨0xE800#16⟩⟩ = .ok .gt :=
  (C55_set_monotone_2D x64_supported).1 16 exF2 (exF2_reach _) 1 .Three .Two _ _ (by rfl) (by rfl)

/-! ## C56 -/

theorem C56_ancestors_compose_2D (hc : c.Supported) :
    (∀ w, AncestorsCompose c (fun m => Reach2D c .all (.static w m))) ∧
    AncestorsCompose c (fun m => Reach2D c .all (.dynamic m)) :=
  ⟨fun _ => (static_anc2 hc).compose (static_cmp2 hc), (dynamic_anc2 hc).compose (dynamic_cmp2 hc)⟩

theorem C56_descendants_compose_2D (hc : c.Supported) :
    (∀ w, DescendantsCompose c (fun m => Reach2D c .all (.static w m)) (fun _ n => n < 2 ^ (c.ptrBits - 1))) ∧
    (DynWrites c → DescendantsCompose c (fun m : MortonIndex2D DynamicStorage2D => Reach2D c .all (.dynamic m))
      (fun m n => Addressable c ((depth m + n) * 2))) := by
  refine ⟨fun w => ?_, fun hw => ?_⟩
  · refine (static_desc2 hc).compose (static_cmp2 hc) ?_ ?_
    · intro m xs ys h
      rw [List.length_append] at h
      change _ < _ at h ⊢
      omega
    · intro m a xs ys _ _ _ h
      rw [List.length_append] at h
      change _ < _ at h ⊢
      omega
  · refine (dynamic_desc2 hc hw).compose (dynamic_cmp2 hc) ?_ ?_
    · intro m xs ys h
      rw [List.length_append] at h
      change (_ + _) * 2 + 64 < _ at h ⊢
      omega
    · intro m a xs ys hm ha e h
      rw [List.length_append] at h
      have e1 := (dynamic_list2 hc hw).depth_eq a ha
      have e2 := (dynamic_list2 hc hw).depth_eq m hm
      rw [e, List.length_append, ← e2] at e1
      change (depth m + (_ + _)) * 2 + 64 < _ at h
      change (depth a + _) * 2 + 64 < _
      omega

example : (descendant x64 (⟨⟨0xC000#16, 1⟩⟩ : MortonIndex2D (StaticStorage2D 16)) [.One, .Two] = .ok none ∧
      descendant x64 (⟨⟨0xC000#16, 1⟩⟩ : MortonIndex2D (StaticStorage2D 16)) [.One, .Two, .One, .Zero] = .ok none) ∨
    ∃ a, descendant x64 (⟨⟨0xC000#16, 1⟩⟩ : MortonIndex2D (StaticStorage2D 16)) [.One, .Two] = .ok (some a) ∧
      ((descendant x64 a [.One, .Zero] = .ok none ∧
        descendant x64 (⟨⟨0xC000#16, 1⟩⟩ : MortonIndex2D (StaticStorage2D 16)) [.One, .Two, .One, .Zero] = .ok none) ∨
      ∃ p q, descendant x64 a [.One, .Zero] = .ok (some p) ∧
        descendant x64 (⟨⟨0xC000#16, 1⟩⟩ : MortonIndex2D (StaticStorage2D 16)) [.One, .Two, .One, .Zero] = .ok (some q) ∧
        RustOrd.cmp x64 p q = .ok .eq) :=
  (C56_descendants_compose_2D x64_supported).1 16 ⟨⟨0xC000#16, 1⟩⟩
    (.staticTryFromSlice (cs := [.Three]) (by decide) (by rfl)) [.One, .Two] [.One, .Zero] (by decide)

/-- Going up two and then two more levels from depth three. -/
example : ∃ a, ancestor x64 exS2 ⟨2, by decide⟩ = .ok (some a) ∧ ancestor x64 a ⟨2, by decide⟩ = .ok none ∧
    ancestor x64 exS2 ⟨4, by decide⟩ = .ok none := by
  rcases (C56_ancestors_compose_2D x64_supported).1 16 exS2 (exS2_reach _) ⟨2, by decide⟩ ⟨2, by decide⟩ ⟨4, by decide⟩ rfl with
    ⟨h, -⟩ | ⟨a, h1, h2 | ⟨p, q, -, h2, -⟩⟩
  · exact absurd h (by decide +kernel)
  · exact ⟨a, h1, h2.1, h2.2⟩
  · rw [show ancestor x64 exS2 ⟨4, by decide⟩ = .ok none from by decide +kernel] at h2
    cases h2

theorem C56_ancestor_descendant_2D (hc : c.Supported) :
    (∀ w, IntWidth w → AncestorDescendant c (fun m => Reach2D c .all (.static w m))) ∧
    (DynWrites c → AncestorDescendant c (fun m => Reach2D c .all (.dynamic m))) := by
  refine ⟨fun w hiw => ?_, fun hw => ?_⟩
  · refine (static_anc2 hc).ancestorDescendant (static_list2 hc) (static_desc2 hc) (static_cmp2 hc) ?_
      (fun m hm => Nat.not_lt.mpr (static_depth_le2 hc m hm))
    intro q m hm _ n e
    have := static_depth_le2 hc m hm
    have := hiw.le
    have : 32768 ≤ 2 ^ (c.ptrBits - 1) := by rcases hc with h | h | h <;> rw [h] <;> decide
    change n < 2 ^ (c.ptrBits - 1)
    omega
  · refine (dynamic_anc2 hc).ancestorDescendant (dynamic_list2 hc hw) (dynamic_desc2 hc hw) (dynamic_cmp2 hc) ?_
      (fun _ _ h => h)
    intro q m hm hq n e
    have := dynamic_addr2 hc m hm
    rw [← e, ← (dynamic_list2 hc hw).depth_eq q hq] at this
    exact this

example : ∃ cs q, cs.length = 2 ∧
    (∀ k (h : k < cs.length), getCellAtLevel x64 exS2 (1 + k) = .ok cs[k]) ∧
    descendant x64 (⟨⟨0xC000#16, 1⟩⟩ : MortonIndex2D (StaticStorage2D 16)) cs = .ok (some q) ∧
    RustOrd.cmp x64 q exS2 = .ok .eq :=
  (C56_ancestor_descendant_2D x64_supported).1 16 (by decide) exS2 (exS2_reach _) ⟨2, by decide⟩ _ (by rfl)

/-! ## C57 -/

theorem C57_to_fixed_monotone_2D (hc : c.Supported) (w : Nat) (hw : IntWidth w) :
    ConversionMonotone c (fun m => Reach2D c .all (.static w m)) MortonIndex2D.staticToFixed := by
  refine monotone_of (key := quadrantKey) (z := .Zero) rfl (w / 2) (static_cmp2 hc)
    (fixed_cmp2 (sc := .all) hc) (static_depth_le2 hc) (fun m hm => ⟨.staticToFixed hm, ?_⟩)
  have hwf := static_wf2 hc m hm
  have := ((MortonIndex2D.staticToFixed_ok hw hwf).2 (reach2D_good hc hm).2).2
  rw [cells2, cells2, this, path_length]
  rfl

/-- Two paths that differ: the deeper one does not sink below the other. -/
example : RustOrd.le x64 (MortonIndex2D.staticToFixed (⟨⟨0xC000#16, 1⟩⟩ : MortonIndex2D (StaticStorage2D 16)))
    (MortonIndex2D.staticToFixed exS2) = .ok true :=
  C57_to_fixed_monotone_2D x64_supported 16 (by decide) _ _
    (.staticTryFromSlice (cs := [.Three]) (by decide) (by rfl)) (exS2_reach _) (by rfl)

/-! ## C58 -/

theorem C58_conversions_commute_2D (hc : c.Supported) (hdw : DynWrites c) (w : Nat) (hw : IntWidth w) :
    ConversionCommutes c (fun m => Reach2D c .all (.static w m)) (MortonIndex2D.staticToDynamic c) ∧
    ConversionCommutes c (fun m : MortonIndex2D DynamicStorage2D => Reach2D c .all (.dynamic m) ∧ depth m ≤ w / 2)
      (fun m => okOf (MortonIndex2D.dynamicToStatic c w m)) := by
  constructor
  · refine commutes_of (static_list2 hc) (dynamic_list2 (sc := .all) hc hdw) (static_anc2 hc) (dynamic_anc2 hc)
      (dynamic_cmp2 hc) (fun _ h => h) (fun _ _ _ h _ => h) (fun m hm => ?_)
    obtain ⟨n, h1, -, -, h4⟩ := MortonIndex2D.staticToDynamic_ok hc (static_wf2 hc m hm)
    exact ⟨n, h1, .staticToDynamic hm h1, h4 hdw⟩
  · refine commutes_of (dynamic_list2 hc hdw) (static_list2 (sc := .all) (w := w) hc) (dynamic_anc2 hc) (static_anc2 hc)
      (static_cmp2 hc) (fun _ h => h.1) (fun a m h1 h2 h3 => ⟨h2, ?_⟩) (fun m hm => ?_)
    · rw [← (dynamic_list2 hc hdw).depth_eq a h2, ← (dynamic_list2 hc hdw).depth_eq m h1.1] at h3
      exact Nat.le_trans h3 h1.2
    · obtain ⟨n, h1, -, -, h4⟩ := MortonIndex2D.dynamicToStatic_ok hc hw (dynamic_wf2 hc m hm.1) hm.2
      exact ⟨n, congrArg okOf h1, .dynamicToStatic hw hm.1 h1, h4⟩

example : ∃ n, MortonIndex2D.staticToDynamic x64 exS2 = .ok n ∧ ancestor x64 n ⟨4, by decide⟩ = .ok none := by
  obtain ⟨n, h1, -, -, -, h5⟩ := (C58_conversions_commute_2D x64_supported x64_writes 16 (by decide)).1 exS2 (exS2_reach _)
  exact ⟨n, h1, h5 _ (by rfl)⟩

/-! ## C59 -/

/-- The path `xs` is the one of the grid position `g`. -/
def GridList2 {W : Nat} (o : QuadrantOrdering) (g : Vector2 W) (xs : List Quadrant) : Prop :=
  ∀ l (h : l < xs.length), (o.toIndex W xs[l]).x.getLsbD 0 = g.x.getLsbD (xs.length - 1 - l) ∧
    (o.toIndex W xs[l]).y.getLsbD 0 = g.y.getLsbD (xs.length - 1 - l)

theorem gridList_of2 {W : Nat} {S : Type} [Storage S Quadrant] [BitStorage S Quadrant] {o : QuadrantOrdering}
    {g : Vector2 W} {s : S} {n : Nat} (hn : Storage.depth s = n) (h : GridPath2 o g n s) : GridList2 o g (path s) := by
  subst hn
  intro l hl
  rw [path_length] at hl
  rw [path_getElem, path_length]
  exact h l hl

theorem gridList_unique2 {W : Nat} (hW : 2 ≤ W) {o : QuadrantOrdering} {g : Vector2 W} {xs ys : List Quadrant}
    (hx : GridList2 o g xs) (hy : GridList2 o g ys) (hl : xs.length = ys.length) : xs = ys := by
  apply List.ext_getElem hl
  intro l h1 h2
  apply MortonIndex2D.toIndex_inj hW o
  · rw [(hx l h1).1, (hy l h2).1, hl]
  · rw [(hx l h1).2, (hy l h2).2, hl]

theorem gridList_take2 {W : Nat} {o : QuadrantOrdering} {g : Vector2 W} {xs : List Quadrant} {k : Nat}
    (hx : GridList2 o g xs) (hk : k ≤ xs.length) : GridList2 o ⟨g.x >>> k, g.y >>> k⟩ (xs.take (xs.length - k)) := by
  intro l hl
  rw [List.length_take] at hl
  have hl' : l < xs.length - k := by omega
  have e : k + (min (xs.length - k) xs.length - 1 - l) = xs.length - 1 - l := by omega
  obtain ⟨h1, h2⟩ := hx l (by omega)
  rw [List.getElem_take]
  simp only [List.length_take, BitVec.getLsbD_ushiftRight, e]
  exact ⟨h1, h2⟩

theorem C59_grid_constructors_agree_2D (hc : c.Supported) (w : Nat) (hw : IntWidth w) (hfit : w / 2 ≤ c.ptrBits)
    (g : Vector2 c.ptrBits) (o : QuadrantOrdering) :
    (∃ m s, MortonIndex2D.fixedFromGridIndex c w g o = .ok m ∧
      MortonIndex2D.staticFromGridIndex c w g (w / 2) o = .ok (.ok s) ∧
      RustOrd.eq (MortonIndex2D.fixedToStatic m) s = true) ∧
    (∀ d, d ≤ w / 2 → d ≤ c.ptrBits / 2 → w / 2 - d < c.ptrBits ∨ c.overflowChecks = false →
      ∃ m s t, MortonIndex2D.dynamicFromGridIndex c g d o = .ok m ∧
        MortonIndex2D.staticFromGridIndex c w g d o = .ok (.ok s) ∧
        MortonIndex2D.dynamicToStatic c w m = .ok (.ok t) ∧ RustOrd.eq t s = true) ∧
    (∀ d (k : NonZeroUsize), d + k.val ≤ w / 2 → w / 2 - d < c.ptrBits ∨ c.overflowChecks = false →
      ∃ m s a, MortonIndex2D.staticFromGridIndex c w g (d + k.val) o = .ok (.ok m) ∧
        MortonIndex2D.staticFromGridIndex c w ⟨g.x >>> k.val, g.y >>> k.val⟩ d o = .ok (.ok s) ∧
        ancestor c m k = .ok (some a) ∧ RustOrd.eq a s = true) := by
  have hW : 2 ≤ c.ptrBits := by rcases hc with h | h | h <;> omega
  have hp : 0 < c.ptrBits := by omega
  refine ⟨?_, fun d hd hdp hs => ?_, fun d k hd hs => ?_⟩
  · obtain ⟨m, h1, h2, h3⟩ := MortonIndex2D.fixedFromGridIndex_ok hc hw hfit g o
    obtain ⟨s, g1, g2, g3, g4⟩ := MortonIndex2D.staticFromGridIndex_ok hc hw hfit g (w / 2) (Nat.le_refl _)
      (.inl (by change w / 2 - w / 2 < _; omega)) o
    refine ⟨m, s, h1, g1, ?_⟩
    have hr : Reach2D c .canonical (.static w (MortonIndex2D.fixedToStatic m)) := .fixedToStatic (.fixedFromGrid hw h1)
    rw [static_eq2 hc _ _ hr (.staticFromGrid hw g1), cells2,
      (MortonIndex2D.fixedToStatic_ok (c := c) hw m).2.1]
    exact gridList_unique2 hW (gridList_of2 rfl h3) (gridList_of2 g2 g4) (by rw [cells2, path_length, path_length]; exact g2.symm)
  · obtain ⟨m, h1, h2, h3, h4⟩ := MortonIndex2D.dynamicFromGridIndex_ok hc g d hdp o
    obtain ⟨s, g1, g2, g3, g4⟩ := MortonIndex2D.staticFromGridIndex_ok hc hw hfit g d hd hs o
    obtain ⟨t, t1, t2, t3, t4⟩ := MortonIndex2D.dynamicToStatic_ok hc hw h3.inv.wf (by rw [h2]; exact hd)
    refine ⟨m, s, t, h1, g1, t1, ?_⟩
    have hr : Reach2D c .canonical (.static w t) := .dynamicToStatic hw (.dynamicFromGrid h1) t1
    rw [static_eq2 hc _ _ hr (.staticFromGrid hw g1), cells2, t4]
    exact gridList_unique2 hW (gridList_of2 h2 h4) (gridList_of2 g2 g4)
      (by rw [cells2, path_length, path_length]; exact h2.trans g2.symm)
  · obtain ⟨m, h1, h2, h3, h4⟩ := MortonIndex2D.staticFromGridIndex_ok hc hw hfit g (d + k.val) hd
      (by rcases hs with h | h
          · exact .inl (by change w / 2 - _ < _; omega)
          · exact .inr h) o
    obtain ⟨s, g1, g2, g3, g4⟩ := MortonIndex2D.staticFromGridIndex_ok hc hw hfit ⟨g.x >>> k.val, g.y >>> k.val⟩ d
      (by change d ≤ w / 2; omega) hs o
    have hr : Reach2D c .all (.static w m) := .staticFromGrid hw h1
    have hlen : (cells2 m).length = d + k.val := by rw [cells2, path_length]; exact h2
    obtain ⟨a, a1, a2, a3⟩ := (static_anc2 hc).yes m hr k (by omega)
    refine ⟨m, s, a, h1, g1, a1, ?_⟩
    rw [static_eq2 hc _ _ a2 (.staticFromGrid hw g1), a3]
    refine gridList_unique2 hW (gridList_take2 (gridList_of2 h2 h4) (by change k.val ≤ (cells2 m).length; omega)) (gridList_of2 g2 g4) ?_
    rw [List.length_take, hlen, cells2, path_length]
    have : Storage.depth s.storage = d := g2
    omega

example : ∃ m s, MortonIndex2D.fixedFromGridIndex x64 16 ⟨300#64, 77#64⟩ .XY = .ok m ∧
    MortonIndex2D.staticFromGridIndex x64 16 ⟨300#64, 77#64⟩ 8 .XY = .ok (.ok s) ∧
    RustOrd.eq (MortonIndex2D.fixedToStatic m) s = true :=
  (C59_grid_constructors_agree_2D x64_supported 16 (by decide) (by decide) _ _).1

example : ∃ m s a, MortonIndex2D.staticFromGridIndex x64 16 ⟨300#64, 77#64⟩ 5 .YX = .ok (.ok m) ∧
    MortonIndex2D.staticFromGridIndex x64 16 ⟨75#64, 19#64⟩ 3 .YX = .ok (.ok s) ∧
    ancestor x64 m ⟨2, by decide⟩ = .ok (some a) ∧ RustOrd.eq a s = true :=
  (C59_grid_constructors_agree_2D x64_supported 16 (by decide) (by decide) _ _).2.2 3 ⟨2, by decide⟩ (by decide)
    (.inl (by decide))

end MortonRs
