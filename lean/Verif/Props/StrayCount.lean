import Verif.Props.FixedStray
import Verif.Props.Counting
import Verif.Props.Window
import Verif.Props.Points

/-! # Counting, windows, points and conversions with stray bits in 3D (C57, C97, C98, C102)

The theorems in `Props/Counting`, `Props/Window`, `Props/Points` and `Props/Laws3D` leave out 3D fixed-depth indices with stray bits. Writes
keep the stray bits, so that indices that have the same ones are ordered by the cells alone. -/

namespace MortonRs

open BitStorage MortonIndex

variable {c : Cfg} {w : Nat}

/-! ## Statements -/

/-- C97 in 3D for fixed-depth indices with any bits: where the rests are in the same order, too. -/
def CornersEncloseAndRest3D (c : Cfg) (ok : MortonIndex3D (FixedDepthStorage3D w) → Prop) : Prop :=
  ∀ a m b, ok a → ok m → ok b → w / 3 ≤ c.ptrBits → ∀ o ga gm gb,
    a.toGridIndex c o = .ok ga → m.toGridIndex c o = .ok gm → b.toGridIndex c o = .ok gb →
    (∀ ax, (axisOf ga ax).toNat ≤ (axisOf gm ax).toNat ∧ (axisOf gm ax).toNat ≤ (axisOf gb ax).toNat) →
    (restOf a ≤ restOf m → RustOrd.le c a m = .ok true) ∧ (restOf m ≤ restOf b → RustOrd.le c m b = .ok true) ∧
    (RustOrd.le c a m = .ok true ∨ ga = gm ∧ restOf m < restOf a) ∧ (RustOrd.le c m b = .ok true ∨ gm = gb ∧ restOf b < restOf m)

/-- C102 in 3D for fixed-depth indices with any bits: the box of an index holds the point exactly when its cells are those of `m`. -/
def FixedNodeOfPointAnyBits3D (c : Cfg) (w : Nat) (o : OctantOrdering) (px py pz sx sy sz : Nat)
    (m : MortonIndex3D (FixedDepthStorage3D w)) : Prop :=
  ∀ n : MortonIndex3D (FixedDepthStorage3D w), ∃ g, n.toGridIndex c o = .ok g ∧
    ((∃ cs, Shows c n cs ∧ Shows c m cs) ↔
      InInterval px sx (depth n) g.x.toNat ∧ InInterval py sy (depth n) g.y.toNat ∧ InInterval pz sz (depth n) g.z.toNat)

/-! ## Indices with the same rest -/

theorem restOf_same {a b : MortonIndex3D (FixedDepthStorage3D w)}
    (h : SameBelow (width b.storage - Storage.depth b.storage * dim Octant) a.storage b.storage) : restOf a = restOf b := by
  refine Nat.eq_of_testBit_eq fun i => ?_
  unfold restOf
  rw [Nat.testBit_mod_two_pow, Nat.testBit_mod_two_pow]
  by_cases hi : i < w % 3
  · have := h i (by change i < w - w / 3 * 3; omega)
    rw [show (StorageBits.bits a.storage).toNat.testBit i = (value a.storage).testBit i from rfl, this]
    rfl
  · simp [hi]

theorem fixed_list_rest3 (hc : c.Supported) (r : Nat) :
    ListLike c (fun m : MortonIndex3D (FixedDepthStorage3D w) => Reach3D c .all (.fixed w m) ∧ restOf m = r) cells3 id where
  depth_eq m hm := (fixed_list3 hc).depth_eq m hm.1
  get m hm := (fixed_list3 hc).get m hm.1
  get_ge m hm := (fixed_list3 hc).get_ge m hm.1
  set m hm l v hl := by
    obtain ⟨m', h1, h2, h3⟩ := (fixed_list3 hc).set m hm.1 l v hl
    obtain ⟨m'', k1, -, -, -, -, k2⟩ := MortonIndex3D.set_full hc (fixed_wf3 hc m hm.1)
      (by rwa [cells3, path_length] at hl) v
    rw [h1] at k1
    cases k1
    exact ⟨m', h1, ⟨h2, (restOf_same k2).trans hm.2⟩, h3⟩
  set_ge m hm := (fixed_list3 hc).set_ge m hm.1
  inv m hm := by
    obtain ⟨m', h1, h2, h3⟩ := (fixed_list3 hc).inv m hm.1
    obtain ⟨m'', k1, -, -, -, -, k2⟩ := MortonIndex3D.inverted_full hc (fixed_wf3 hc m hm.1)
    rw [h1] at k1
    cases k1
    exact ⟨m', h1, ⟨h2, (restOf_same k2).trans hm.2⟩, h3⟩

theorem fixed_cmp_rest3 (hc : c.Supported) (r : Nat) :
    CmpLike c octantKey (fun m : MortonIndex3D (FixedDepthStorage3D w) => Reach3D c .all (.fixed w m) ∧ restOf m = r) cells3 := by
  intro a b ha hb
  have h : RustOrd.cmp c a b = .ok (pathCmp octantKey (cells3 a) (cells3 b)) := by
    rw [fixed_cmp_all3 hc (fixed_wf3 hc a ha.1).fit, ha.2, hb.2, Nat.compare_eq_eq.mpr rfl]
    cases pathCmp octantKey (cells3 a) (cells3 b) <;> rfl
  refine ⟨h, ?_⟩
  have hp : RustOrd.partialCmp c a b = (RustOrd.cmp c a b).map some := rfl
  rw [hp, h]
  rfl

/-! ## Theorems -/

/-- **C98** for 3D fixed-depth indices with any bits in the places that belong to no cell: counting keeps these bits and visits in order
the indices that have the same ones. -/
theorem C98_counting_any_bits_3D (hc : c.Supported) (w r : Nat) :
    CountsUp c 8 octantKey .Zero (fun m : MortonIndex3D (FixedDepthStorage3D w) => Reach3D c .all (.fixed w m) ∧ restOf m = r) ∧
    EnumeratesDepth c 8 octantKey .Zero (fun m : MortonIndex3D (FixedDepthStorage3D w) => Reach3D c .all (.fixed w m) ∧ restOf m = r) :=
  ⟨countsUp_of octant_digits (fixed_list_rest3 hc r) (fixed_cmp_rest3 hc r),
    enumeratesDepth_of octant_digits (fixed_list_rest3 hc r) (fixed_cmp_rest3 hc r)⟩

theorem le_of_not_gt_rest (hc : c.Supported) (hw : IntWidth w) {a b : MortonIndex3D (FixedDepthStorage3D w)}
    (h : pathCmp octantKey (cells3 a) (cells3 b) ≠ .gt) :
    RustOrd.le c a b = .ok true ∨ cells3 a = cells3 b ∧ restOf b < restOf a := by
  have hp : RustOrd.partialCmp c a b = (RustOrd.cmp c a b).map some := rfl
  rw [RustOrd.le, hp, fixed_cmp_all3 hc hw]
  cases hq : pathCmp octantKey (cells3 a) (cells3 b) with
  | gt => exact absurd hq h
  | lt => exact .inl rfl
  | eq =>
    have e := (pathCmp_eq_iff octantKey octantKey_inj _ _).mp hq
    rcases Nat.lt_trichotomy (restOf a) (restOf b) with g | g | g
    · left
      simp only [Nat.compare_eq_lt.mpr g]
      rfl
    · left
      simp only [Nat.compare_eq_eq.mpr g]
      rfl
    · exact .inr ⟨e, g⟩

/-- **C97** for 3D fixed-depth indices with any bits. -/
theorem C97_window_corners_any_bits_3D (hc : c.Supported) (w : Nat) :
    CornersEncloseAndRest3D c (fun m : MortonIndex3D (FixedDepthStorage3D w) => Reach3D c .all (.fixed w m)) := by
  intro a m b ha hm hb hp o ga gm gb h1 h2 h3 hx
  have hw : IntWidth w := (fixed_wf3 hc a ha).fit
  obtain ⟨a', ha', ea⟩ := fixed_twin3 hc ha
  obtain ⟨m', hm', em⟩ := fixed_twin3 hc hm
  obtain ⟨b', hb', eb⟩ := fixed_twin3 hc hb
  have e1 := toGridIndex_of_path3 hc (fixed_wf3 hc a ha) (fixed_wf3 hc a' ha') hp ea.symm o
  have e2 := toGridIndex_of_path3 hc (fixed_wf3 hc m hm) (fixed_wf3 hc m' hm') hp em.symm o
  have e3 := toGridIndex_of_path3 hc (fixed_wf3 hc b hb) (fixed_wf3 hc b' hb') hp eb.symm o
  obtain ⟨k1, k2⟩ := (C97_window_corners_3D hc).1 w a' m' b' ha' hm' hb' rfl rfl hp o ga gm gb (e1.symm.trans h1) (e2.symm.trans h2)
    (e3.symm.trans h3) hx
  rw [(fixed_cmp3 hc).le_iff ha' hm', ea, em] at k1
  rw [(fixed_cmp3 hc).le_iff hm' hb', em, eb] at k2
  have g1 := le_of_not_gt_rest hc hw k1
  have g2 := le_of_not_gt_rest hc hw k2
  refine ⟨fun h => g1.resolve_right fun g => by omega, fun h => g2.resolve_right fun g => by omega, ?_, ?_⟩
  · refine g1.imp_right fun g => ⟨?_, g.2⟩
    have := toGridIndex_of_path3 hc (fixed_wf3 hc a ha) (fixed_wf3 hc m hm) hp g.1 o
    rw [h1, h2] at this
    exact Except.ok.inj this
  · refine g2.imp_right fun g => ⟨?_, g.2⟩
    have := toGridIndex_of_path3 hc (fixed_wf3 hc m hm) (fixed_wf3 hc b hb) hp g.1 o
    rw [h2, h3] at this
    exact Except.ok.inj this

theorem fixedNodeOfPoint_any_bits (hc : c.Supported) (hw : IntWidth w) (hp : w / 3 ≤ c.ptrBits) {o : OctantOrdering}
    {px py pz sx sy sz : Nat} {m : MortonIndex3D (FixedDepthStorage3D w)}
    (h : FixedNodeOfPoint3D c (fun m => Reach3D c .canonical (.fixed w m)) o px py pz sx sy sz m) :
    FixedNodeOfPointAnyBits3D c w o px py pz sx sy sz m := by
  intro n
  have hn : Reach3D c .all (.fixed w n) := .fixedFromRaw hw (.inl rfl)
  obtain ⟨n', hn', en⟩ := fixed_twin3 hc hn
  obtain ⟨g, g1, g2⟩ := h.2 n' hn'
  refine ⟨g, (toGridIndex_of_path3 hc (fixed_wf3 hc n hn) (fixed_wf3 hc n' hn') hp en.symm o).trans g1, ?_⟩
  change _ ↔ InInterval px sx (depth n') g.x.toNat ∧ InInterval py sy (depth n') g.y.toNat ∧ InInterval pz sz (depth n') g.z.toNat
  rw [← g2, (fixed_cmp3 hc n' m hn' h.1).1, Except.ok.injEq, pathCmp_eq_iff octantKey octantKey_inj, en]
  constructor
  · rintro ⟨cs, s1, s2⟩
    rw [(fixed_list3 hc).eq_of_shows hn s1, (fixed_list3 hc).eq_of_shows h.1 s2]
  · intro e
    exact ⟨cells3 n, (fixed_list3 hc).shows hn, e ▸ (fixed_list3 hc).shows h.1⟩

/-- **C102** for 3D fixed-depth indices with any bits: of all of them, those whose box holds the point have the cells of the index
`from_grid_index` makes. -/
theorem C102_points_any_bits_3D (hc : c.Supported) (h32 : 32 ≤ c.ptrBits) (w : Nat) (hw : IntWidth w) (hp : w / 3 < c.ptrBits)
    (o : OctantOrdering) (px py pz sx sy sz : Nat) (hx : px < sx) (hy : py < sy) (hz : pz < sz) :
    ∃ m, MortonIndex3D.fixedFromGridIndex c w (gridOfPoint3D c.ptrBits px py pz sx sy sz (w / 3)) o = .ok m ∧
      FixedNodeOfPointAnyBits3D c w o px py pz sx sy sz m := by
  obtain ⟨m, h1, h2⟩ := (C102_points_3D hc o px py pz sx sy sz hx hy hz).1 h32 w hw hp
  exact ⟨m, h1, fixedNodeOfPoint_any_bits hc hw (Nat.le_of_lt hp) h2⟩

/-- Where two paths part, what comes behind them does not matter. -/
theorem pathCmp_apart {Cell : Type} {key : Cell → Nat} (hk : Function.Injective key) : ∀ {as bs : List Cell} (xs ys : List Cell),
    pathCmp key as bs ≠ .gt → ¬ as <+: bs → pathCmp key (as ++ xs) (bs ++ ys) = .lt
  | [], bs, _, _, _, h => absurd List.nil_prefix h
  | a :: as, [], _, _, h, _ => absurd rfl h
  | a :: as, b :: bs, xs, ys, h, hn => by
    simp only [List.cons_append, pathCmp] at h ⊢
    by_cases h1 : key a < key b
    · rw [if_pos h1]
    · rw [if_neg h1] at h ⊢
      by_cases h2 : key b < key a
      · rw [if_pos h2] at h
        exact absurd rfl h
      · rw [if_neg h2] at h ⊢
        have e : a = b := hk (by omega)
        subst e
        exact pathCmp_apart hk xs ys h fun g => hn (by simpa using g)

/-- **C57** for 3D static indices with any bits: only between an index and its descendants can the conversion to a fixed-depth index
reverse the order. -/
theorem C57_to_fixed_any_bits_3D (hc : c.Supported) (w : Nat) (a b : MortonIndex3D (StaticStorage3D w))
    (ha : Reach3D c .all (.static w a)) (hb : Reach3D c .all (.static w b)) (hle : RustOrd.le c a b = .ok true) :
    RustOrd.le c (MortonIndex3D.staticToFixed a) (MortonIndex3D.staticToFixed b) = .ok true ∨ InSubtree c a b := by
  have hwa := static_wf3 hc a ha
  have hwb := static_wf3 hc b hb
  rw [inSubtree_iff octantKey_inj (static_list3 hc) (static_anc3 hc) (static_cmp3 hc) ha hb]
  rw [(static_cmp3 hc).le_iff ha hb] at hle
  by_cases hp : cells3 a <+: cells3 b
  · exact .inr hp
  · left
    have e : ∀ {m : MortonIndex3D (StaticStorage3D w)}, WF c m.storage → ∃ xs, cells3 (MortonIndex3D.staticToFixed m) = cells3 m ++ xs := by
      intro m hm
      refine ⟨(path (MortonIndex3D.staticToFixed m).storage).drop (Storage.depth m.storage), ?_⟩
      have h1 := (MortonIndex3D.staticToFixed_ok hwa.fit hm).1
      rw [cells3, cells3, h1, List.take_append_drop]
    obtain ⟨xs, e1⟩ := e hwa
    obtain ⟨ys, e2⟩ := e hwb
    have h := pathCmp_apart octantKey_inj xs ys hle hp
    rw [← e1, ← e2] at h
    refine (le_of_not_gt_rest hc hwa.fit (by rw [h]; decide)).resolve_right fun g => ?_
    rw [g.1, pathCmp_refl] at h
    cases h

/-! ## Examples -/

/-- The next index behind `0xA700001D`, whose last bit belongs to no cell. -/
example : nextNode x64 Octant.Zero 10 (⟨⟨0xA700001D#32⟩⟩ : MortonIndex3D (FixedDepthStorage3D 32)) = .ok (some ⟨⟨0xA7000021#32⟩⟩) := by
  decide +kernel

example : ∃ m' cs', nextNode x64 Octant.Zero 10 (⟨⟨0xA700001D#32⟩⟩ : MortonIndex3D (FixedDepthStorage3D 32)) = .ok (some m') ∧
    Shows x64 m' cs' ∧ restOf m' = 1 := by
  obtain ⟨cs, h1, -, -, h2⟩ := (C98_counting_any_bits_3D x64_supported 32 1).1 ⟨⟨0xA700001D#32⟩⟩ ⟨.fixedFromRaw (by decide) (.inl rfl), by decide⟩
  obtain ⟨m', cs', g1, g2, -, g3, -⟩ := h2 (by
    have : Shows x64 (⟨⟨0xA700001D#32⟩⟩ : MortonIndex3D (FixedDepthStorage3D 32))
      [.Five, .One, .Six, .Zero, .Zero, .Zero, .Zero, .Zero, .Zero, .Seven] := by unfold Shows; decide +kernel
    rw [shows_unique h1 this]
    decide)
  exact ⟨m', cs', g1, g3, g2.2⟩

/-- Corners of a window; the rests are 1, 2 and 2. -/
example : RustOrd.le x64 (⟨⟨0xA7000001#32⟩⟩ : MortonIndex3D (FixedDepthStorage3D 32)) ⟨⟨0xA700001E#32⟩⟩ = .ok true :=
  have hr : ∀ x : BitVec 32, Reach3D x64 .all (.fixed 32 ⟨⟨x⟩⟩) := fun x => .fixedFromRaw (by decide) (.inl rfl)
  ((C97_window_corners_any_bits_3D x64_supported 32) ⟨⟨0xA7000001#32⟩⟩ ⟨⟨0xA700001E#32⟩⟩ ⟨⟨0xA700001E#32⟩⟩ (hr _) (hr _) (hr _)
    (by decide) .XYZ ⟨0x300#64, 0x080#64, 0x280#64⟩ ⟨0x301#64, 0x081#64, 0x281#64⟩ ⟨0x301#64, 0x081#64, 0x281#64⟩ (by decide +kernel)
    (by decide +kernel) (by decide +kernel) (by intro ax; cases ax <;> decide)).1 (by decide)

/-- The point (3, 5, 2) in a box of 8 × 8 × 8 units. -/
example : ∃ m, MortonIndex3D.fixedFromGridIndex x64 32 (gridOfPoint3D 64 3 5 2 8 8 8 10) .XYZ = .ok m ∧
    FixedNodeOfPointAnyBits3D x64 32 .XYZ 3 5 2 8 8 8 m :=
  C102_points_any_bits_3D x64_supported (by decide) 32 (by decide) (by decide) .XYZ 3 5 2 8 8 8 (by decide) (by decide) (by decide)

/-- Two static indices that part at the second cell. -/
example : RustOrd.le x64 (MortonIndex3D.staticToFixed (⟨⟨0xA3FFFFFF#32, 2⟩⟩ : MortonIndex3D (StaticStorage3D 32)))
    (MortonIndex3D.staticToFixed ⟨⟨0xA7000001#32, 3⟩⟩) = .ok true ∨ InSubtree x64 (⟨⟨0xA3FFFFFF#32, 2⟩⟩ : MortonIndex3D (StaticStorage3D 32))
      ⟨⟨0xA7000001#32, 3⟩⟩ :=
  C57_to_fixed_any_bits_3D x64_supported 32 _ _ (.staticFromRaw (by decide) (by decide) (.inl rfl))
    (.staticFromRaw (by decide) (by decide) (.inl rfl)) (by decide +kernel)

/-- The exception occurs: these static indices compare as equal, and the fixed-depth indices of the same bits do not. -/
example : RustOrd.cmp x64 (⟨⟨0xA7000001#32, 3⟩⟩ : MortonIndex3D (StaticStorage3D 32)) ⟨⟨0xA7000000#32, 3⟩⟩ = .ok .eq ∧
    RustOrd.le x64 (MortonIndex3D.staticToFixed (⟨⟨0xA7000001#32, 3⟩⟩ : MortonIndex3D (StaticStorage3D 32)))
      (MortonIndex3D.staticToFixed ⟨⟨0xA7000000#32, 3⟩⟩) = .ok false := by decide +kernel

end MortonRs
