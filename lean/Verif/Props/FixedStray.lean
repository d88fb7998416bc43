import Verif.Props.Corners
import Verif.Props.Ranges
import Verif.Props.StorageBits
import Verif.Props.Laws3D
import Verif.Props.StringOrder
import Verif.Props.Encode

/-! # The order of 3D fixed-depth indices with stray bits (C55, C66, C90)

C66 and C90 are about 3D fixed-depth indices without stray bits. The order of the others is decided by the grid positions in the same
way, and between equal positions by the one or two bits that belong to no cell. -/

namespace MortonRs

open BitStorage MortonIndex

variable {c : Cfg} {w : Nat}

/-! ## Statements -/

/-- The bits of a 3D fixed-depth index that belong to no cell. -/
def restOf (m : MortonIndex3D (FixedDepthStorage3D w)) : Nat := (StorageBits.bits m.storage).toNat % 2 ^ (w % 3)

/-- C90 in 3D for fixed-depth indices with any bits: by the lowest corner in the grid of depth `n`, then by the rest. -/
def OrderByCornerAndRest3D (c : Cfg) (ok : MortonIndex3D (FixedDepthStorage3D w) → Prop) : Prop :=
  ∀ a b, ok a → ok b → w / 3 ≤ c.ptrBits → ∀ o n, w / 3 ≤ n → ∃ ga gb,
    a.toGridIndex c o = .ok ga ∧ b.toGridIndex c o = .ok gb ∧
    let pa := fun ax => lowest n (w / 3) (axisOf ga ax)
    let pb := fun ax => lowest n (w / 3) (axisOf gb ax)
    (RustOrd.cmp c a b = .ok .lt ↔
      ZLess n (zDigitOf3D o pa) (zDigitOf3D o pb) ∨ (∀ ax, pa ax = pb ax) ∧ restOf a < restOf b) ∧
    (RustOrd.cmp c a b = .ok .gt ↔
      ZLess n (zDigitOf3D o pb) (zDigitOf3D o pa) ∨ (∀ ax, pa ax = pb ax) ∧ restOf b < restOf a) ∧
    (RustOrd.cmp c a b = .ok .eq ↔ (∀ ax, pa ax = pb ax) ∧ restOf a = restOf b) ∧
    ((∀ ax, pa ax ≤ pb ax) → RustOrd.le c a b = .ok true ∨ (∀ ax, pa ax = pb ax) ∧ restOf b < restOf a)

/-- C66 in 3D for fixed-depth indices with any bits. -/
def OrderIsZOrderAndRest3D (c : Cfg) (ok : MortonIndex3D (FixedDepthStorage3D w) → Prop) : Prop :=
  ∀ a b, ok a → ok b → w / 3 ≤ c.ptrBits → ∀ o, ∃ ga gb,
    a.toGridIndex c o = .ok ga ∧ b.toGridIndex c o = .ok gb ∧
    (RustOrd.cmp c a b = .ok .lt ↔
      ZLess (w / 3) (zDigit3D o ga) (zDigit3D o gb) ∨ (ga.x = gb.x ∧ ga.y = gb.y ∧ ga.z = gb.z) ∧ restOf a < restOf b) ∧
    (RustOrd.cmp c a b = .ok .gt ↔
      ZLess (w / 3) (zDigit3D o gb) (zDigit3D o ga) ∨ (ga.x = gb.x ∧ ga.y = gb.y ∧ ga.z = gb.z) ∧ restOf b < restOf a) ∧
    (RustOrd.cmp c a b = .ok .eq ↔ (ga.x = gb.x ∧ ga.y = gb.y ∧ ga.z = gb.z) ∧ restOf a = restOf b)

/-- C92 in 3D for fixed-depth indices with any bits: sorting the strings is sorting the indices, except that indices with the same
string are sorted by the rest. -/
def StringsSortAndRest3D (c : Cfg) (ok : MortonIndex3D (FixedDepthStorage3D w) → Prop) : Prop :=
  ∀ a b, ok a → ok b → ∀ naming, naming = .CellConcatenation ∨ naming = .CellConcatenationWithRoot → ∃ s t,
    MortonIndex.toString c a naming = .ok s ∧ MortonIndex.toString c b naming = .ok t ∧
    let r := if s = t then compare (restOf a) (restOf b) else strCmp s t
    RustOrd.cmp c a b = .ok r ∧ RustOrd.partialCmp c a b = .ok (some r)

/-- C101 in 3D for fixed-depth indices with any bits: by the Morton codes, then by the rest. -/
def SortsByCodeAndRest3D (c : Cfg) (ok : MortonIndex3D (FixedDepthStorage3D w) → Prop) : Prop :=
  ∀ a b, ok a → ok b → w / 3 ≤ c.ptrBits → ∀ o ga gb na nb, a.toGridIndex c o = .ok ga → b.toGridIndex c o = .ok gb →
    IsMortonCode3D na (axisOf ga (octantAxes o).1).toNat (axisOf ga (octantAxes o).2.1).toNat (axisOf ga (octantAxes o).2.2).toNat →
    IsMortonCode3D nb (axisOf gb (octantAxes o).1).toNat (axisOf gb (octantAxes o).2.1).toNat (axisOf gb (octantAxes o).2.2).toNat →
    RustOrd.cmp c a b = .ok (if na = nb then compare (restOf a) (restOf b) else compare na nb)

/-! ## Proofs -/

/-- The comparison: by the cells, then by the rest. -/
theorem fixed_cmp_all3 (hc : c.Supported) (hw : IntWidth w) (a b : MortonIndex3D (FixedDepthStorage3D w)) :
    RustOrd.cmp c a b = .ok (match pathCmp octantKey (cells3 a) (cells3 b) with
      | .eq => compare (restOf a) (restOf b)
      | o => o) := by
  obtain ⟨as, bs, h1, h2, h3, h4, -⟩ := C64_fixed_order_all_bits_3D hc hw a.storage.bits b.storage.bits
  have e1 : as = cells3 a := shows_unique h1 ((fixed_list3 hc).shows (.fixedFromRaw hw (.inl rfl) : Reach3D c .all (.fixed w a)))
  have e2 : bs = cells3 b := shows_unique h2 ((fixed_list3 hc).shows (.fixedFromRaw hw (.inl rfl) : Reach3D c .all (.fixed w b)))
  subst e1 e2
  by_cases e : cells3 a = cells3 b
  · rw [e, pathCmp_refl]
    exact h4 e
  · have := mt (pathCmp_eq_iff octantKey octantKey_inj (cells3 a) (cells3 b)).mp e
    refine (h3 e).1.trans ?_
    cases hq : pathCmp octantKey (cells3 a) (cells3 b) with
    | eq => exact absurd hq this
    | lt => rfl
    | gt => rfl

/-- An index without stray bits that has the same cells. -/
theorem fixed_twin3 (hc : c.Supported) {m : MortonIndex3D (FixedDepthStorage3D w)} (hm : Reach3D c .all (.fixed w m)) :
    ∃ r : MortonIndex3D (FixedDepthStorage3D w), Reach3D c .canonical (.fixed w r) ∧ cells3 r = cells3 m := by
  have hw : IntWidth w := (fixed_wf3 hc m hm).fit
  have hl : (cells3 m).length = w / 3 := ((fixed_list3 hc).depth_eq m hm).symm
  obtain ⟨r, h1, -, -, h4⟩ := MortonIndex3D.fixed_tryFrom hc hw (cs := cells3 m) (Nat.le_of_eq hl)
  have e : w / dim Octant - (cells3 m).length = 0 := by
    change w / 3 - _ = 0
    omega
  rw [e, List.replicate_zero, List.append_nil] at h4
  exact ⟨r, .fixedTryFromSlice hw h1, h4⟩

theorem toGridIndex_of_path3 {S T : Type} [Storage S Octant] [BitStorage S Octant] [Storage T Octant] [BitStorage T Octant]
    (hc : c.Supported) {a : MortonIndex3D S} {b : MortonIndex3D T} (ha : WF c a.storage) (hb : WF c b.storage)
    (hd : depth a ≤ c.ptrBits) (h : cells3 a = cells3 b) (o : OctantOrdering) : a.toGridIndex c o = b.toGridIndex c o := by
  have hd' : depth b = depth a := by
    have := congrArg List.length h
    unfold cells3 at this
    rw [path_length, path_length] at this
    exact this.symm
  obtain ⟨ga, e1, e2, e3, e4⟩ := toGridIndex_binary3 hc ha hd o
  obtain ⟨gb, f1, f2, f3, f4⟩ := toGridIndex_binary3 hc hb (by rw [show Storage.depth b.storage = depth a from hd']; exact hd) o
  have h : path a.storage = path b.storage := h
  rw [e1, f1, Except.ok.injEq]
  rw [h] at e2 e3 e4
  cases ga; cases gb
  rw [Vector3.mk.injEq]
  exact ⟨BitVec.eq_of_toNat_eq (e2.trans f2.symm), BitVec.eq_of_toNat_eq (e3.trans f3.symm), BitVec.eq_of_toNat_eq (e4.trans f4.symm)⟩

/-- How the comparison with the rest follows from the one by the cells alone. -/
theorem cmp_rest_iff (hc : c.Supported) (hw : IntWidth w) (a b : MortonIndex3D (FixedDepthStorage3D w)) {r : Ordering} {L G E : Prop}
    (hr : r = pathCmp octantKey (cells3 a) (cells3 b)) (h1 : r = .lt ↔ L) (h2 : r = .gt ↔ G) (h3 : r = .eq ↔ E) :
    (RustOrd.cmp c a b = .ok .lt ↔ L ∨ E ∧ restOf a < restOf b) ∧ (RustOrd.cmp c a b = .ok .gt ↔ G ∨ E ∧ restOf b < restOf a) ∧
    (RustOrd.cmp c a b = .ok .eq ↔ E ∧ restOf a = restOf b) := by
  rw [fixed_cmp_all3 hc hw, ← hr, ← h1, ← h2, ← h3]
  cases r with
  | eq => simp [Nat.compare_eq_lt, Nat.compare_eq_gt]
  | lt => simp
  | gt => simp

/-- **C90** for 3D fixed-depth indices with any bits in the places that belong to no cell. -/
theorem C90_order_any_bits_3D (hc : c.Supported) (w : Nat) :
    OrderByCornerAndRest3D c (fun m : MortonIndex3D (FixedDepthStorage3D w) => Reach3D c .all (.fixed w m)) := by
  intro a b ha hb hp o n hn
  have hw : IntWidth w := (fixed_wf3 hc a ha).fit
  obtain ⟨a', ha', ea⟩ := fixed_twin3 hc ha
  obtain ⟨b', hb', eb⟩ := fixed_twin3 hc hb
  obtain ⟨ga, gb, h1, h2, h3, h4, h5, h6⟩ := (C90_order_by_corner_3D_partial hc).1 w a' b' ha' hb' hp hp o n hn hn
  rw [← toGridIndex_of_path3 hc (fixed_wf3 hc a ha) (fixed_wf3 hc a' ha') hp ea.symm o] at h1
  rw [← toGridIndex_of_path3 hc (fixed_wf3 hc b hb) (fixed_wf3 hc b' hb') hp eb.symm o] at h2
  refine ⟨ga, gb, h1, h2, ?_⟩
  have hcmp := (fixed_cmp3 hc a' b' ha' hb').1
  have hd : depth a' = depth b' := rfl
  rw [ea, eb] at hcmp
  rw [hcmp, Except.ok.injEq] at h3 h4 h5
  simp only [hd, Nat.lt_irrefl, and_false, or_false, and_true] at h3 h4 h5 h6
  obtain ⟨k1, k2, k3⟩ := cmp_rest_iff hc hw a b rfl h3 h4 h5
  refine ⟨k1, k2, k3, fun hle => ?_⟩
  have hpc : RustOrd.partialCmp c a b = (do return some (← RustOrd.cmp c a b)) := rfl
  have hle' := h6 hle
  rw [(fixed_cmp3 hc).le_iff ha' hb', ea, eb] at hle'
  rw [RustOrd.le, hpc]
  cases hq : RustOrd.cmp c a b with
  | error e => rw [fixed_cmp_all3 hc hw] at hq; cases hq
  | ok r =>
    cases r with
    | lt => exact .inl rfl
    | eq => exact .inl rfl
    | gt => exact .inr ((k2.mp hq).resolve_left fun h => hle' (h4.mpr h))

/-- **C66** for 3D fixed-depth indices with any bits in the places that belong to no cell. -/
theorem C66_order_any_bits_3D (hc : c.Supported) (w : Nat) :
    OrderIsZOrderAndRest3D c (fun m : MortonIndex3D (FixedDepthStorage3D w) => Reach3D c .all (.fixed w m)) := by
  intro a b ha hb hp o
  have hw : IntWidth w := (fixed_wf3 hc a ha).fit
  obtain ⟨a', ha', ea⟩ := fixed_twin3 hc ha
  obtain ⟨b', hb', eb⟩ := fixed_twin3 hc hb
  obtain ⟨ga, gb, h1, h2, h3, h4, h5, -⟩ := (C66_order_is_z_order_3D hc).1 w a' b' ha' hb' rfl hp o
  rw [← toGridIndex_of_path3 hc (fixed_wf3 hc a ha) (fixed_wf3 hc a' ha') hp ea.symm o] at h1
  rw [← toGridIndex_of_path3 hc (fixed_wf3 hc b hb) (fixed_wf3 hc b' hb') hp eb.symm o] at h2
  refine ⟨ga, gb, h1, h2, ?_⟩
  have hcmp := (fixed_cmp3 hc a' b' ha' hb').1
  rw [ea, eb] at hcmp
  rw [hcmp, Except.ok.injEq] at h3 h4 h5
  exact cmp_rest_iff hc hw a b rfl h3 h4 h5

/-- **C92** for 3D fixed-depth indices with any bits. -/
theorem C92_string_order_any_bits_3D (hc : c.Supported) (w : Nat) :
    StringsSortAndRest3D c (fun m : MortonIndex3D (FixedDepthStorage3D w) => Reach3D c .all (.fixed w m)) := by
  intro a b ha hb naming hn
  have hw : IntWidth w := (fixed_wf3 hc a ha).fit
  have hN : NameLike c (fun m : MortonIndex3D (FixedDepthStorage3D w) => Reach3D c .all (.fixed w m)) cells3 octantDigit :=
    nameLike_of3 hc (fixed_wf3 hc)
  obtain ⟨a', ha', ea⟩ := fixed_twin3 hc ha
  obtain ⟨b', hb', eb⟩ := fixed_twin3 hc hb
  have hN' : NameLike c (fun m : MortonIndex3D (FixedDepthStorage3D w) => Reach3D c .canonical (.fixed w m)) cells3 octantDigit :=
    nameLike_of3 hc (fixed_wf3 hc)
  have hs : ∀ x y : MortonIndex3D (FixedDepthStorage3D w), Reach3D c .all (.fixed w x) → Reach3D c .canonical (.fixed w y) →
      cells3 y = cells3 x → MortonIndex.toString c x naming = MortonIndex.toString c y naming := by
    intro x y hx hy e
    rcases hn with rfl | rfl
    · rw [(hN x hx).1, (hN' y hy).1, e]
    · rw [(hN x hx).2, (hN' y hy).2, e]
  obtain ⟨s, t, h1, h2, h3, -⟩ := (C92_string_order_3D hc).1 w a' b' ha' hb' naming hn
  refine ⟨s, t, (hs a a' ha ha' ea).trans h1, (hs b b' hb hb' eb).trans h2, ?_⟩
  have hcmp := (fixed_cmp3 hc a' b' ha' hb').1
  rw [hcmp, Except.ok.injEq, ea, eb] at h3
  have hst : s = t ↔ cells3 a = cells3 b := by
    constructor
    · intro e
      rw [← pathCmp_eq_iff octantKey octantKey_inj, h3, e, strCmp, pathCmp_refl]
    · intro e
      have : MortonIndex.toString c a' naming = MortonIndex.toString c b' naming := by
        rw [← hs a a' ha ha' ea, hs a b' ha hb' (eb.trans e.symm)]
      rw [h1, h2, Except.ok.injEq] at this
      exact this
  have hr : RustOrd.cmp c a b = .ok (if s = t then compare (restOf a) (restOf b) else strCmp s t) := by
    rw [fixed_cmp_all3 hc hw, ← h3]
    by_cases e : s = t
    · rw [if_pos e, hst.mp e, pathCmp_refl]
    · rw [if_neg e]
      have := mt (pathCmp_eq_iff octantKey octantKey_inj (cells3 a) (cells3 b)).mp (mt hst.mpr e)
      cases hq : pathCmp octantKey (cells3 a) (cells3 b) with
      | eq => exact absurd hq this
      | lt => rfl
      | gt => rfl
  refine ⟨hr, ?_⟩
  have hp : RustOrd.partialCmp c a b = (RustOrd.cmp c a b).map some := rfl
  rw [hp, hr]
  rfl

/-- **C101** for 3D fixed-depth indices with any bits. -/
theorem C101_sorts_by_code_any_bits_3D (hc : c.Supported) (w : Nat) :
    SortsByCodeAndRest3D c (fun m : MortonIndex3D (FixedDepthStorage3D w) => Reach3D c .all (.fixed w m)) := by
  intro a b ha hb hp o ga gb na nb e1 e2 h1 h2
  have hw : IntWidth w := (fixed_wf3 hc a ha).fit
  obtain ⟨a', ha', ea⟩ := fixed_twin3 hc ha
  obtain ⟨b', hb', eb⟩ := fixed_twin3 hc hb
  rw [toGridIndex_of_path3 hc (fixed_wf3 hc a ha) (fixed_wf3 hc a' ha') hp ea.symm o] at e1
  rw [toGridIndex_of_path3 hc (fixed_wf3 hc b hb) (fixed_wf3 hc b' hb') hp eb.symm o] at e2
  have h := (C101_sorts_by_code_3D hc).1 w a' b' ha' hb' rfl o ga gb na nb e1 e2 hp h1 h2
  rw [(fixed_cmp3 hc a' b' ha' hb').1, ea, eb, Except.ok.injEq] at h
  rw [fixed_cmp_all3 hc hw, h]
  by_cases e : na = nb
  · rw [if_pos e, e, Nat.compare_eq_eq.mpr rfl]
  · rw [if_neg e]
    cases hq : compare na nb with
    | eq => exact absurd (Nat.compare_eq_eq.mp hq) e
    | lt => rfl
    | gt => rfl

/-- **C55** for 3D fixed-depth indices with any bits: replacing a cell moves an index like the cell. -/
theorem C55_set_monotone_any_bits_3D (hc : c.Supported) (w : Nat) :
    SetMonotone c octantKey (fun m : MortonIndex3D (FixedDepthStorage3D w) => Reach3D c .all (.fixed w m)) := by
  intro m hm l v u a b ha hb
  have hwf := fixed_wf3 hc m hm
  have hw : IntWidth w := hwf.fit
  by_cases hl : l < depth m
  · obtain ⟨a', a1, -, -, -, a2, a3⟩ := MortonIndex3D.set_full hc hwf hl v
    obtain ⟨b', b1, -, -, -, b2, b3⟩ := MortonIndex3D.set_full hc hwf hl u
    rw [ha] at a1; cases a1
    rw [hb] at b1; cases b1
    have hr : ∀ x : MortonIndex3D (FixedDepthStorage3D w), SameBelow (width m.storage - Storage.depth m.storage * dim Octant) x.storage m.storage →
        restOf x = restOf m := by
      intro x hx
      refine Nat.eq_of_testBit_eq fun i => ?_
      unfold restOf
      rw [Nat.testBit_mod_two_pow, Nat.testBit_mod_two_pow]
      by_cases hi : i < w % 3
      · have := hx i (by change i < w - w / 3 * 3; omega)
        rw [show (StorageBits.bits x.storage).toNat.testBit i = (value x.storage).testBit i from rfl, this]
        rfl
      · simp [hi]
    rw [fixed_cmp_all3 hc hw, hr a a3, hr b b3]
    have hp : pathCmp octantKey (cells3 a) (cells3 b) = compare (octantKey v) (octantKey u) := by
      unfold cells3
      rw [a2, b2]
      exact pathCmp_set octantKey _ l (by rw [path_length]; exact hl) v u
    rw [hp]
    cases hq : compare (octantKey v) (octantKey u) with
    | eq => simp
    | lt => rfl
    | gt => rfl
  · rw [(fixed_list3 hc).set_ge m hm l v (by rw [← (fixed_list3 hc).depth_eq m hm]; omega)] at ha
    cases ha

/-! ## Examples -/

/-- Two indices of the same position whose unused bits differ. -/
example : ∃ ga gb, (⟨⟨0xA7000001#32⟩⟩ : MortonIndex3D (FixedDepthStorage3D 32)).toGridIndex x64 .XYZ = .ok ga ∧
    (⟨⟨0xA7000002#32⟩⟩ : MortonIndex3D (FixedDepthStorage3D 32)).toGridIndex x64 .XYZ = .ok gb ∧
    (ga.x = gb.x ∧ ga.y = gb.y ∧ ga.z = gb.z) ∧ RustOrd.cmp x64 (⟨⟨0xA7000001#32⟩⟩ : MortonIndex3D (FixedDepthStorage3D 32))
      ⟨⟨0xA7000002#32⟩⟩ = .ok .lt := by
  have hr : ∀ x : BitVec 32, Reach3D x64 .all (.fixed 32 ⟨⟨x⟩⟩) := fun x => .fixedFromRaw (by decide) (.inl rfl)
  obtain ⟨ga, gb, h1, h2, h3, -⟩ := C66_order_any_bits_3D x64_supported 32 _ _ (hr 0xA7000001#32) (hr 0xA7000002#32) (by decide) .XYZ
  have e : (⟨⟨0xA7000001#32⟩⟩ : MortonIndex3D (FixedDepthStorage3D 32)).toGridIndex x64 .XYZ =
    (⟨⟨0xA7000002#32⟩⟩ : MortonIndex3D (FixedDepthStorage3D 32)).toGridIndex x64 .XYZ := by decide +kernel
  rw [h1, h2] at e
  cases e
  exact ⟨ga, ga, h1, h2, ⟨rfl, rfl, rfl⟩, h3.mpr (.inr ⟨⟨rfl, rfl, rfl⟩, by decide⟩)⟩

/-- The same in the grid of depth 12. -/
example : ∃ ga gb, (⟨⟨0xA7000001#32⟩⟩ : MortonIndex3D (FixedDepthStorage3D 32)).toGridIndex x64 .XYZ = .ok ga ∧
    (⟨⟨0xA7000002#32⟩⟩ : MortonIndex3D (FixedDepthStorage3D 32)).toGridIndex x64 .XYZ = .ok gb ∧
    (RustOrd.cmp x64 (⟨⟨0xA7000001#32⟩⟩ : MortonIndex3D (FixedDepthStorage3D 32)) ⟨⟨0xA7000002#32⟩⟩ = .ok .eq ↔
      (∀ ax, lowest 12 10 (axisOf ga ax) = lowest 12 10 (axisOf gb ax)) ∧ 1 = 2) := by
  have hr : ∀ x : BitVec 32, Reach3D x64 .all (.fixed 32 ⟨⟨x⟩⟩) := fun x => .fixedFromRaw (by decide) (.inl rfl)
  obtain ⟨ga, gb, h1, h2, -, -, h5, -⟩ := C90_order_any_bits_3D x64_supported 32 _ _ (hr 0xA7000001#32) (hr 0xA7000002#32) (by decide)
    .XYZ 12 (by decide)
  exact ⟨ga, gb, h1, h2, h5⟩

/-- Writing `Three` or `Two` at level 1 of an index whose unused bits are set. -/
example : RustOrd.cmp x64 (⟨⟨0xAF000003#32⟩⟩ : MortonIndex3D (FixedDepthStorage3D 32)) ⟨⟨0xAB000003#32⟩⟩ = .ok .gt :=
  C55_set_monotone_any_bits_3D x64_supported 32 ⟨⟨0xA7000003#32⟩⟩ (.fixedFromRaw (by decide) (.inl rfl)) 1 .Three .Two _ _ (by rfl) (by rfl)

/-- Two indices with the string `"5160000000"`, sorted by the bits behind the cells. -/
example : ∃ s, MortonIndex.toString x64 (⟨⟨0xA7000001#32⟩⟩ : MortonIndex3D (FixedDepthStorage3D 32)) .CellConcatenation = .ok s ∧
    MortonIndex.toString x64 (⟨⟨0xA7000002#32⟩⟩ : MortonIndex3D (FixedDepthStorage3D 32)) .CellConcatenation = .ok s ∧
    RustOrd.cmp x64 (⟨⟨0xA7000001#32⟩⟩ : MortonIndex3D (FixedDepthStorage3D 32)) ⟨⟨0xA7000002#32⟩⟩ = .ok .lt := by
  have hr : ∀ x : BitVec 32, Reach3D x64 .all (.fixed 32 ⟨⟨x⟩⟩) := fun x => .fixedFromRaw (by decide) (.inl rfl)
  obtain ⟨s, t, h1, h2, h3, -⟩ := C92_string_order_any_bits_3D x64_supported 32 _ _ (hr 0xA7000001#32) (hr 0xA7000002#32)
    .CellConcatenation (.inl rfl)
  have e : MortonIndex.toString x64 (⟨⟨0xA7000001#32⟩⟩ : MortonIndex3D (FixedDepthStorage3D 32)) .CellConcatenation =
    MortonIndex.toString x64 (⟨⟨0xA7000002#32⟩⟩ : MortonIndex3D (FixedDepthStorage3D 32)) .CellConcatenation := by decide +kernel
  rw [h1, h2, Except.ok.injEq] at e
  subst e
  exact ⟨s, h1, h2, by rw [h3, if_pos rfl]; decide⟩

/-- Both have the Morton code `0o5160000000`. -/
example : RustOrd.cmp x64 (⟨⟨0xA7000001#32⟩⟩ : MortonIndex3D (FixedDepthStorage3D 32)) ⟨⟨0xA7000002#32⟩⟩ =
    .ok (compare 1 2) := by
  have hr : ∀ x : BitVec 32, Reach3D x64 .all (.fixed 32 ⟨⟨x⟩⟩) := fun x => .fixedFromRaw (by decide) (.inl rfl)
  obtain ⟨cs, g, h1, h2, h3⟩ := (C99_morton_code_3D x64_supported).1 32 _ (hr 0xA7000001#32) (by decide) .XYZ
  obtain ⟨ds, g', h4, h5, h6⟩ := (C99_morton_code_3D x64_supported).1 32 _ (hr 0xA7000002#32) (by decide) .XYZ
  have e : cs = ds := shows_unique h1 (by
    have := h4
    unfold Shows at this ⊢
    exact ⟨this.1, fun l hl => by
      rw [← this.2 l hl]
      exact (by decide +kernel : ∀ l, l < 10 → getCellAtLevel x64 (⟨⟨0xA7000001#32⟩⟩ : MortonIndex3D (FixedDepthStorage3D 32)) l =
        getCellAtLevel x64 (⟨⟨0xA7000002#32⟩⟩ : MortonIndex3D (FixedDepthStorage3D 32)) l) l (by rw [← this.1] at hl; exact hl)⟩)
  subst e
  exact (C101_sorts_by_code_any_bits_3D x64_supported 32 _ _ (hr _) (hr _) (by decide) .XYZ _ _ _ _ h2 h5 h3 h6).trans
    (by rw [if_pos rfl]; decide)

end MortonRs
