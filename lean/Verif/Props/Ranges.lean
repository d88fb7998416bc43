import Verif.Props.Sorted
import Verif.Props.Stray

/-! # Subtrees as ranges of the order (C74, C75) -/

namespace MortonRs

open BitStorage MortonIndex VariableDepthMortonIndex

variable {M Cell : Type} {c : Cfg}

/-! ## Statements -/

/-- C74: a subtree down to some level is the range from its root to its last node on that level; its nodes on that
level are the range from the first to the last of them. `lo` and `hi` are made with `descendant`. -/
def SubtreeIsRange [VariableDepthMortonIndex M Cell] [RustOrd M] (c : Cfg) (first last : Cell) (ok : M → Prop)
    (room : M → Nat → Prop) : Prop :=
  ∀ m, ok m → ∀ k, room m k → ∀ lo hi, descendant c m (List.replicate k first) = .ok (some lo) →
    descendant c m (List.replicate k last) = .ok (some hi) → ∀ x, ok x →
    (depth x ≤ depth m + k →
      (InSubtree c m x ↔ RustOrd.le c m x = .ok true ∧ RustOrd.le c x hi = .ok true)) ∧
    (depth x = depth m + k →
      (InSubtree c m x ↔ RustOrd.le c lo x = .ok true ∧ RustOrd.le c x hi = .ok true))

/-- C75: the same for fixed-depth indices, where the subtree below the cells `cs` consists of the indices that start
with `cs`. `lo` is made from `cs`, `hi` from `cs` followed by copies of the last cell. -/
def PrefixIsRange [MortonIndex M Cell] [RustOrd M] (c : Cfg) (last : Cell)
    (tryFrom : List Cell → Res (Except Error M)) (limit : Nat) (ok : M → Prop) : Prop :=
  ∀ cs : List Cell, cs.length ≤ limit → ∃ lo hi, tryFrom cs = .ok (.ok lo) ∧
    tryFrom (cs ++ List.replicate (limit - cs.length) last) = .ok (.ok hi) ∧
    ∀ x, ok x → ((∀ l, (h : l < cs.length) → getCellAtLevel c x l = .ok cs[l]) ↔
      RustOrd.le c lo x = .ok true ∧ RustOrd.le c x hi = .ok true)

/-! ## Lists -/

theorem pathCmp_last (key : Cell → Nat) {last : Cell} (hl : ∀ v, key v ≤ key last) :
    ∀ (k : Nat) (t : List Cell), t.length ≤ k → pathCmp key t (List.replicate k last) ≠ .gt
  | 0, [], _ => by simp [pathCmp]
  | k + 1, [], _ => by simp [pathCmp, List.replicate_succ]
  | k + 1, v :: t, h => by
    have := hl v
    rw [List.replicate_succ, pathCmp]
    split
    · simp
    · rw [if_neg (by omega)]
      exact pathCmp_last key hl k t (by simpa using h)

theorem pathCmp_first (key : Cell → Nat) {first : Cell} (hf : ∀ v, key first ≤ key v) :
    ∀ (k : Nat) (t : List Cell), t.length = k → pathCmp key (List.replicate k first) t ≠ .gt
  | 0, [], _ => by simp [pathCmp]
  | k + 1, v :: t, h => by
    have := hf v
    rw [List.replicate_succ, pathCmp]
    split
    · simp
    · rw [if_neg (by omega)]
      exact pathCmp_first key hf k t (by simpa using h)

theorem prefix_iff_range {key : Cell → Nat} (hk : Function.Injective key) {last : Cell} (hl : ∀ v, key v ≤ key last)
    {cs xs lo : List Cell} {k : Nat} (hlo : cs <+: lo) (hlow : cs <+: xs → pathCmp key lo xs ≠ .gt)
    (hx : xs.length ≤ cs.length + k) :
    cs <+: xs ↔ pathCmp key lo xs ≠ .gt ∧ pathCmp key xs (cs ++ List.replicate k last) ≠ .gt := by
  constructor
  · intro h
    refine ⟨hlow h, ?_⟩
    obtain ⟨t, rfl⟩ := h
    rw [pathCmp_append_same]
    rw [List.length_append] at hx
    exact pathCmp_last key hl k t (by omega)
  · rintro ⟨h1, h2⟩
    exact pathCmp_between hk hlo (List.prefix_append ..) h1 h2

theorem first_le {key : Cell → Nat} {first : Cell} (hf : ∀ v, key first ≤ key v) {cs xs : List Cell} {k : Nat}
    (hx : xs.length = cs.length + k) (h : cs <+: xs) : pathCmp key (cs ++ List.replicate k first) xs ≠ .gt := by
  obtain ⟨t, rfl⟩ := h
  rw [pathCmp_append_same]
  rw [List.length_append] at hx
  exact pathCmp_first key hf k t (by omega)

/-! ## Proofs -/

theorem subtreeIsRange_of [VariableDepthMortonIndex M Cell] [RustOrd M] {ok : M → Prop} {p : M → List Cell}
    {wr : Cell → Cell} {key : Cell → Nat} {room : M → Nat → Prop} {limit : Option Nat} {first last : Cell}
    (hk : Function.Injective key) (hf : ∀ v, key first ≤ key v) (hl : ∀ v, key v ≤ key last)
    (h : ListLike c ok p wr) (hA : AncLike c ok p) (hD : DescLike c ok p room limit) (hC : CmpLike c key ok p) :
    SubtreeIsRange c first last ok room := by
  intro m hm k hr lo hi h1 h2 x hx
  obtain ⟨l1, l2⟩ := hD.of_some hm (by rwa [List.length_replicate]) h1
  obtain ⟨r1, r2⟩ := hD.of_some hm (by rwa [List.length_replicate]) h2
  rw [h.depth_eq m hm, h.depth_eq x hx, inSubtree_iff hk h hA hC hm hx, le_iff_path hC hm hx, le_iff_path hC hx r1,
    le_iff_path hC l1 hx, l2, r2]
  exact ⟨fun hd => prefix_iff_range hk hl List.prefix_rfl pathCmp_prefix hd,
    fun hd => prefix_iff_range hk hl (List.prefix_append ..) (first_le hf hd) (Nat.le_of_eq hd)⟩

theorem prefix_iff_getElem {cs xs : List Cell} (hn : cs.length ≤ xs.length) :
    cs <+: xs ↔ ∀ l, (h : l < cs.length) → xs[l] = cs[l] := by
  constructor
  · rintro ⟨t, rfl⟩ l h
    rw [List.getElem_append_left h]
  · intro h
    rw [List.prefix_iff_eq_take]
    apply List.ext_getElem
    · rw [List.length_take]; omega
    · intro l h1 h2
      rw [List.getElem_take, h l h1]

theorem prefixIsRange_of [MortonIndex M Cell] [RustOrd M] {ok : M → Prop} {p : M → List Cell} {wr : Cell → Cell}
    {key : Cell → Nat} {tryFrom : List Cell → Res (Except Error M)} {limit : Nat} {first last : Cell}
    (hk : Function.Injective key) (hf : ∀ v, key first ≤ key v) (hl : ∀ v, key v ≤ key last)
    (h : ListLike c ok p wr) (hC : CmpLike c key ok p) (hlen : ∀ x, ok x → (p x).length = limit)
    (ht : ∀ cs : List Cell, cs.length ≤ limit → ∃ m, tryFrom cs = .ok (.ok m) ∧ ok m ∧
      p m = cs ++ List.replicate (limit - cs.length) first) : PrefixIsRange c last tryFrom limit ok := by
  intro cs hcs
  obtain ⟨lo, l1, l2, l3⟩ := ht cs hcs
  have e : (cs ++ List.replicate (limit - cs.length) last).length = limit := by
    rw [List.length_append, List.length_replicate]; omega
  obtain ⟨hi, r1, r2, r3⟩ := ht _ (Nat.le_of_eq e)
  rw [e, Nat.sub_self, List.replicate_zero, List.append_nil] at r3
  refine ⟨lo, hi, l1, r1, fun x hx => ?_⟩
  have hn := hlen x hx
  have hxl : (p x).length = cs.length + (limit - cs.length) := by omega
  rw [le_iff_path hC l2 hx, le_iff_path hC hx r2, l3, r3,
    ← prefix_iff_range hk hl (List.prefix_append ..) (first_le hf hxl) (Nat.le_of_eq hxl),
    prefix_iff_getElem (by omega)]
  refine forall_congr' fun l => forall_congr' fun hlt => ?_
  rw [h.get x hx l (by omega)]
  exact ⟨fun e => Except.ok.inj e, fun e => congrArg _ e⟩

/-! ## C74 -/

theorem C74_subtree_range_2D (hc : c.Supported) :
    (∀ w, SubtreeIsRange c Quadrant.Zero .Three (fun m => Reach2D c .all (.static w m)) (sliceRoom c)) ∧
    (DynWrites c → SubtreeIsRange c Quadrant.Zero .Three (fun m => Reach2D c .all (.dynamic m))
      (fun m k => Addressable c ((depth m + k) * 2))) := by
  refine ⟨fun w => ?_, fun hw => ?_⟩
  · exact subtreeIsRange_of quadrantKey_inj (fun v => by cases v <;> decide) (fun v => by cases v <;> decide)
      (static_list2 hc) (static_anc2 hc) (static_desc2 hc) (static_cmp2 hc)
  · exact subtreeIsRange_of quadrantKey_inj (fun v => by cases v <;> decide) (fun v => by cases v <;> decide)
      (dynamic_list2 hc hw) (dynamic_anc2 hc) (dynamic_desc2 hc hw) (dynamic_cmp2 hc)

theorem C74_subtree_range_3D (hc : c.Supported) :
    (∀ w, SubtreeIsRange c Octant.Zero .Seven (fun m => Reach3D c .all (.static w m)) (sliceRoom c)) ∧
    (DynWrites c → SubtreeIsRange c Octant.Zero .Seven (fun m => Reach3D c .all (.dynamic m))
      (fun m k => Addressable c ((depth m + k) * 3))) := by
  refine ⟨fun w => ?_, fun hw => ?_⟩
  · exact subtreeIsRange_of octantKey_inj (fun v => by cases v <;> decide) (fun v => by cases v <;> decide)
      (static_list3 hc) (static_anc3 hc) (static_desc3 hc) (static_cmp3 hc)
  · exact subtreeIsRange_of octantKey_inj (fun v => by cases v <;> decide) (fun v => by cases v <;> decide)
      (dynamic_list3 hc hw) (dynamic_anc3 hc) (dynamic_desc3 hc hw) (dynamic_cmp3 hc)

/-- `[Three]` two levels down ends with `[Three, Three, Three]`; `[Three, One, Two]` is in between. -/
example : InSubtree x64 (⟨⟨0xC000#16, 1⟩⟩ : MortonIndex2D (StaticStorage2D 16)) exS2 ↔
    RustOrd.le x64 (⟨⟨0xC000#16, 1⟩⟩ : MortonIndex2D (StaticStorage2D 16)) exS2 = .ok true ∧
    RustOrd.le x64 exS2 ⟨⟨0xFC00#16, 3⟩⟩ = .ok true :=
  ((C74_subtree_range_2D x64_supported).1 16 ⟨⟨0xC000#16, 1⟩⟩
    (.staticTryFromSlice (cs := [.Three]) (by decide) (by rfl)) 2 (by unfold sliceRoom; decide) ⟨⟨0xC000#16, 3⟩⟩
    ⟨⟨0xFC00#16, 3⟩⟩ (by rfl) (by rfl) exS2 (exS2_reach _)).1 (by decide)

example : RustOrd.le x64 exS2 (⟨⟨0xFC00#16, 3⟩⟩ : MortonIndex2D (StaticStorage2D 16)) = .ok true := by rfl

example : ∀ hi lo, descendant x64 exD3 [Octant.Zero] = .ok (some lo) → descendant x64 exD3 [Octant.Seven] = .ok (some hi) →
    (InSubtree x64 exD3 hi ↔ RustOrd.le x64 lo hi = .ok true ∧ RustOrd.le x64 hi hi = .ok true) := by
  intro hi lo h1 h2
  have hr : Addressable x64 ((depth exD3 + 1) * 3) := by unfold Addressable; decide
  have hx : Reach3D x64 .all (.dynamic hi) := .dynamicDescendant (cs := [Octant.Seven]) (exD3_reach _) hr h2
  refine (((C74_subtree_range_3D x64_supported).2 x64_writes) exD3 (exD3_reach _) 1 hr lo hi h1 h2 hi hx).2 ?_
  have := ((dynamic_desc3 (sc := .all) x64_supported x64_writes).of_some (cs := [Octant.Seven]) (exD3_reach _) hr h2).2
  rw [(dynamic_list3' x64_supported).depth_eq hi hx, this]
  rfl

/-! ## C75 -/

theorem C75_prefix_range_2D (hc : c.Supported) (w : Nat) (hw : IntWidth w) :
    PrefixIsRange c Quadrant.Three
      (fun cs => (MortonIndex2D.tryFromSlice c cs : Res (Except Error (MortonIndex2D (FixedDepthStorage2D w))))) (w / 2)
      (fun m => Reach2D c .all (.fixed w m)) := by
  refine prefixIsRange_of (first := .Zero) quadrantKey_inj (fun v => by cases v <;> decide)
    (fun v => by cases v <;> decide) (fixed_list2 hc) (fixed_cmp2 hc) (fun x _ => path_length x.storage) fun cs h => ?_
  obtain ⟨m, h1, -, -, h4⟩ := MortonIndex2D.fixed_tryFrom hc hw h
  exact ⟨m, h1, .fixedTryFromSlice hw h1, h4⟩

/-- 3D: without stray bits; see `C14_refuted`. -/
theorem C75_prefix_range_3D (hc : c.Supported) (w : Nat) (hw : IntWidth w) :
    PrefixIsRange c Octant.Seven
      (fun cs => (MortonIndex3D.tryFromSlice c cs : Res (Except Error (MortonIndex3D (FixedDepthStorage3D w))))) (w / 3)
      (fun m => Reach3D c .canonical (.fixed w m)) := by
  refine prefixIsRange_of (first := .Zero) octantKey_inj (fun v => by cases v <;> decide)
    (fun v => by cases v <;> decide) (fixed_list3 hc) (fixed_cmp3 hc) (fun x _ => path_length x.storage) fun cs h => ?_
  obtain ⟨m, h1, -, -, h4⟩ := MortonIndex3D.fixed_tryFrom hc hw h
  exact ⟨m, h1, .fixedTryFromSlice hw h1, h4⟩

/-- `<=` of two fixed-depth 3D indices with any bits. -/
theorem fixed_le_iff3 (hc : c.Supported) {w : Nat} (hw : IntWidth w) (a b : MortonIndex3D (FixedDepthStorage3D w)) :
    RustOrd.le c a b = .ok true ↔ pathCmp octantKey (cells3 a) (cells3 b) = .lt ∨
      (cells3 a = cells3 b ∧ a.storage.bits.toNat % 2 ^ (w % 3) ≤ b.storage.bits.toNat % 2 ^ (w % 3)) := by
  obtain ⟨as, bs, h1, h2, h3, h4, -⟩ := C64_fixed_order_all_bits_3D hc hw a.storage.bits b.storage.bits
  have e1 : as = cells3 a := shows_unique h1 ((fixed_list3 hc).shows (.fixedFromRaw hw (.inl rfl) : Reach3D c .all (.fixed w a)))
  have e2 : bs = cells3 b := shows_unique h2 ((fixed_list3 hc).shows (.fixedFromRaw hw (.inl rfl) : Reach3D c .all (.fixed w b)))
  subst e1 e2
  have hp : RustOrd.le c a b = (do return (← RustOrd.cmp c a b) != .gt) := by
    have hpc : RustOrd.partialCmp c a b = (do return some (← RustOrd.cmp c a b)) := rfl
    rw [RustOrd.le, hpc]
    cases RustOrd.cmp c a b with
    | error => rfl
    | ok o => cases o <;> rfl
  by_cases e : cells3 a = cells3 b
  · have h4 : RustOrd.cmp c a b = _ := h4 e
    rw [hp, h4, e, pathCmp_refl]
    simp only [ok_bind, pure_eq_ok, Except.ok.injEq, bne_iff_ne, ne_eq, true_and, reduceCtorEq, false_or,
      Nat.compare_eq_gt, Nat.not_lt]
  · have h3 : RustOrd.cmp c a b = _ := (h3 e).1
    rw [hp, h3]
    have := mt (pathCmp_eq_iff octantKey octantKey_inj (cells3 a) (cells3 b)).mp e
    simp only [e, false_and, or_false]
    cases hq : pathCmp octantKey (cells3 a) (cells3 b) with
    | eq => exact absurd hq this
    | lt => decide
    | gt => decide

/-- 3D with any bits in the unused places: every index with the cells `cs` in front is at or above `lo`, and it is at or
below `hi` or has the cells of `hi`. The second case is real: see the example below. -/
theorem C75_prefix_range_any_bits_3D (hc : c.Supported) (w : Nat) (hw : IntWidth w) (cs : List Octant)
    (h : cs.length ≤ w / 3) :
    ∃ lo hi : MortonIndex3D (FixedDepthStorage3D w), MortonIndex3D.tryFromSlice c cs = .ok (.ok lo) ∧
      MortonIndex3D.tryFromSlice c (cs ++ List.replicate (w / 3 - cs.length) .Seven) = .ok (.ok hi) ∧
      ∀ bits : BitVec w, let x : MortonIndex3D (FixedDepthStorage3D w) := MortonIndex3D.fixedFromRawIndex bits
        (∀ l, (h : l < cs.length) → getCellAtLevel c x l = .ok cs[l]) ↔
          RustOrd.le c lo x = .ok true ∧
            (RustOrd.le c x hi = .ok true ∨ ∀ l, l < w / 3 → getCellAtLevel c x l = getCellAtLevel c hi l) := by
  have e : (cs ++ List.replicate (w / 3 - cs.length) Octant.Seven).length = w / 3 := by
    rw [List.length_append, List.length_replicate]; omega
  obtain ⟨lo, l1, -, l3, l4⟩ := MortonIndex3D.fixed_tryFrom hc hw (cs := cs) h
  obtain ⟨hi, r1, -, -, r4⟩ := MortonIndex3D.fixed_tryFrom hc hw (Nat.le_of_eq e)
  have r4 : cells3 hi = cs ++ List.replicate (w / 3 - cs.length) Octant.Seven := by
    show path hi.storage = _
    rw [r4, e, show w / dim Octant - w / 3 = 0 from Nat.sub_self _, List.replicate_zero, List.append_nil]
  refine ⟨lo, hi, l1, r1, fun bits => ?_⟩
  intro x
  have hx : Reach3D c .all (.fixed w x) := .fixedFromRaw hw (.inl rfl)
  have hh : Reach3D c .all (.fixed w hi) := .fixedFromRaw hw (.inl rfl)
  have hxl : (cells3 x).length = cs.length + (w / 3 - cs.length) := by
    have : (cells3 x).length = w / 3 := path_length x.storage
    omega
  have hlo : lo.storage.bits.toNat % 2 ^ (w % 3) = 0 := by
    apply Nat.eq_of_testBit_eq
    intro i
    rw [Nat.testBit_mod_two_pow, Nat.zero_testBit, Bool.and_eq_false_imp]
    intro hi
    refine l3 i ?_
    have hi := of_decide_eq_true hi
    show i < w - w / 3 * 3
    omega
  have hle : RustOrd.le c lo x = .ok true ↔ pathCmp octantKey (cells3 lo) (cells3 x) ≠ .gt := by
    rw [fixed_le_iff3 hc hw, hlo]
    cases hq : pathCmp octantKey (cells3 lo) (cells3 x) with
    | eq => simp [(pathCmp_eq_iff octantKey octantKey_inj _ _).mp hq]
    | lt => simp
    | gt =>
      have : cells3 lo ≠ cells3 x := fun e => by rw [e, pathCmp_refl] at hq; exact absurd hq (by decide)
      simp [this]
  have hge : (RustOrd.le c x hi = .ok true ∨ ∀ l, l < w / 3 → getCellAtLevel c x l = getCellAtLevel c hi l) ↔
      pathCmp octantKey (cells3 x) (cells3 hi) ≠ .gt := by
    have hsame : (∀ l, l < w / 3 → getCellAtLevel c x l = getCellAtLevel c hi l) ↔ cells3 x = cells3 hi := by
      have e1 : (cells3 x).length = w / 3 := path_length x.storage
      have e2 : (cells3 hi).length = w / 3 := path_length hi.storage
      constructor
      · intro hg
        refine List.ext_getElem (by omega) fun l p q => ?_
        have := hg l (by omega)
        rw [(fixed_list3 hc).get x hx l p, (fixed_list3 hc).get hi hh l q] at this
        exact Except.ok.inj this
      · intro he l hl
        rw [(fixed_list3 hc).get x hx l (by omega), (fixed_list3 hc).get hi hh l (by omega)]
        simp only [he]
    rw [fixed_le_iff3 hc hw, hsame]
    cases hq : pathCmp octantKey (cells3 x) (cells3 hi) with
    | eq => simp [(pathCmp_eq_iff octantKey octantKey_inj _ _).mp hq]
    | lt => simp
    | gt =>
      have : cells3 x ≠ cells3 hi := fun e => by rw [e, pathCmp_refl] at hq; exact absurd hq (by decide)
      simp [this]
  have l4 : cells3 lo = cs ++ List.replicate (w / 3 - cs.length) Octant.Zero := l4
  rw [hle, hge, l4, r4, ← prefix_iff_range octantKey_inj (fun v => by cases v <;> decide) (List.prefix_append ..)
    (first_le (fun v => by cases v <;> decide) hxl) (Nat.le_of_eq hxl), prefix_iff_getElem (by omega)]
  refine forall_congr' fun l => forall_congr' fun hlt => ?_
  rw [(fixed_list3 hc).get x hx l (by omega)]
  exact ⟨fun e => Except.ok.inj e, fun e => congrArg _ e⟩

/-- `0xBF` holds the cells `[Five, Seven]`, as `hi` does, and a set bit in an unused place that puts it above `hi`. -/
example : ∃ lo hi : MortonIndex3D (FixedDepthStorage3D 8), MortonIndex3D.tryFromSlice x64 [.Five] = .ok (.ok lo) ∧
    MortonIndex3D.tryFromSlice x64 [.Five, .Seven] = .ok (.ok hi) ∧
    ∀ bits : BitVec 8, (∀ l, (h : l < 1) →
        getCellAtLevel x64 (MortonIndex3D.fixedFromRawIndex bits : MortonIndex3D _) l = .ok [Octant.Five][l]) ↔
      RustOrd.le x64 lo (MortonIndex3D.fixedFromRawIndex bits) = .ok true ∧
        (RustOrd.le x64 (MortonIndex3D.fixedFromRawIndex bits) hi = .ok true ∨
          ∀ l, l < 2 → getCellAtLevel x64 (MortonIndex3D.fixedFromRawIndex bits : MortonIndex3D _) l = getCellAtLevel x64 hi l) :=
  C75_prefix_range_any_bits_3D x64_supported 8 (by decide) [.Five] (by decide)

example : RustOrd.le x64 (MortonIndex3D.fixedFromRawIndex 0xBF#8 : MortonIndex3D _)
    (MortonIndex3D.fixedFromRawIndex 0xBC#8) = .ok false := by rfl

/-- The indices of depth 4 that start with `[Three, One]` are those from `[Three, One, Zero, Zero]` to
`[Three, One, Three, Three]`. -/
example : ∃ lo hi, MortonIndex2D.tryFromSlice x64 [Quadrant.Three, .One] = .ok (.ok lo) ∧
    MortonIndex2D.tryFromSlice x64 [Quadrant.Three, .One, .Three, .Three] = .ok (.ok hi) ∧
    ∀ x : MortonIndex2D (FixedDepthStorage2D 8), Reach2D x64 .all (.fixed 8 x) →
      ((∀ l, (h : l < 2) → getCellAtLevel x64 x l = .ok [Quadrant.Three, .One][l]) ↔
        RustOrd.le x64 lo x = .ok true ∧ RustOrd.le x64 x hi = .ok true) :=
  C75_prefix_range_2D x64_supported 8 (by decide) [.Three, .One] (by decide)

example : ∃ lo hi, MortonIndex3D.tryFromSlice x64 [Octant.Five] = .ok (.ok lo) ∧
    MortonIndex3D.tryFromSlice x64 [Octant.Five, .Seven] = .ok (.ok hi) ∧
    ∀ x : MortonIndex3D (FixedDepthStorage3D 8), Reach3D x64 .canonical (.fixed 8 x) →
      ((∀ l, (h : l < 1) → getCellAtLevel x64 x l = .ok [Octant.Five][l]) ↔
        RustOrd.le x64 lo x = .ok true ∧ RustOrd.le x64 x hi = .ok true) :=
  C75_prefix_range_3D x64_supported 8 (by decide) [.Five] (by decide)

end MortonRs
