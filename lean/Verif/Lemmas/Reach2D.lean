import Verif.History
import Verif.Lemmas.Conv2D
import Verif.Lemmas.GridNarrow
import Verif.Lemmas.FromBytes
import Verif.Lemmas.Nav

/-! # Invariants of every 2D history -/

namespace MortonRs

open BitStorage

/-- What holds of every index a history produces. -/
def Good2D (c : Cfg) (sc : Scope) : AnyIndex2D → Prop
  | .fixed w m => IntWidth w ∧ (sc = .canonical → TailZero m.storage)
  | .static _ m => WF c m.storage ∧ TailZero m.storage
  | .dynamic m => DynamicStorage2D.Inv c m.storage ∧ (sc = .canonical → DynamicStorage2D.Canon c m.storage)

namespace DynamicStorage2D

theorem Inv.same {c : Cfg} {s t : DynamicStorage2D} (h : Inv c s) (hw : width t = width s)
    (hd : Storage.depth t = Storage.depth s) : Inv c t := by
  have h1 : 8 * t.bits.length = 8 * s.bits.length := hw
  have h2 : t.depth = s.depth := hd
  have h3 : t.bits.length = s.bits.length := by omega
  exact ⟨by rw [h2]; exact h.addr, by rw [h2, h3]; exact h.lo, by rw [h2, h3]; exact h.hi⟩

theorem Canon.same {c : Cfg} {s t : DynamicStorage2D} (h : Canon c s) (hw : width t = width s)
    (hd : Storage.depth t = Storage.depth s) (hz : TailZero s → TailZero t) : Canon c t := by
  have h1 : 8 * t.bits.length = 8 * s.bits.length := hw
  have h2 : t.depth = s.depth := hd
  have h3 : t.bits.length = s.bits.length := by omega
  exact ⟨by rw [h2]; exact h.addr, by rw [h2, h3]; exact h.len, hz h.tail⟩

theorem default_canon {c : Cfg} (hc : c.Supported) : Canon c DynamicStorage2D.default :=
  ⟨MortonIndex2D.addressable_of_le hc (by decide), rfl, fun i _ => by
      change (leValue []).testBit i = false
      rw [leValue, Nat.zero_testBit]⟩

theorem zeroed_inv {c : Cfg} {d : Nat} (h : Addressable c (d * 2)) : Inv c (zeroed d) := by
  refine ⟨h, ?_, ?_⟩
  · change numBytes d ≤ (List.replicate (d / 4 + 1) 0#8).length
    rw [List.length_replicate, numBytes, dim_Quadrant]; omega
  · change (List.replicate (d / 4 + 1) 0#8).length ≤ numBytes d + 1
    rw [List.length_replicate, numBytes, dim_Quadrant]; omega

theorem zeroed_canon {c : Cfg} {d : Nat} (h : Addressable c (d * 2)) (hd : d % 4 ≠ 0) : Canon c (zeroed d) := by
  refine ⟨h, ?_, fun i _ => zero_bits _ _ i⟩
  change (List.replicate (d / 4 + 1) 0#8).length = numBytes d
  rw [List.length_replicate, numBytes, dim_Quadrant]; omega

end DynamicStorage2D

namespace MortonIndex2D

variable {c : Cfg} {w : Nat}

theorem fixed_tryFrom (hc : c.Supported) (hw : IntWidth w) {cs : List Quadrant}
    (h : cs.length ≤ w / dim Quadrant) :
    ∃ m : MortonIndex2D (FixedDepthStorage2D w), tryFromSlice c cs = .ok (.ok m) ∧
      tryFromArray c cs = .ok (.ok m) ∧ TailZero m.storage ∧
      path m.storage = cs ++ List.replicate (w / dim Quadrant - cs.length) .Zero := by
  obtain ⟨s, h1, h2, h3, h4⟩ := FixedDepthStorage2D.tryFrom_ok hc hw cs h
  refine ⟨⟨s⟩, ?_, ?_, h3, h4⟩
  · simp only [tryFromSlice, TryFromCells.tryFromSlice, h1, ok_bind, pure_eq_ok, Except.map]
  · simp only [tryFromArray, TryFromCells.tryFromArray, h2, ok_bind, pure_eq_ok, Except.map]

theorem fixed_tryFrom_error {cs : List Quadrant} (h : cs.length > w / dim Quadrant) :
    (tryFromSlice c cs : Res (Except Error (MortonIndex2D (FixedDepthStorage2D w)))) =
        .ok (.error (.DepthLimitedExceeded (w / dim Quadrant))) ∧
      (tryFromArray c cs : Res (Except Error (MortonIndex2D (FixedDepthStorage2D w)))) =
        .ok (.error (.DepthLimitedExceeded (w / dim Quadrant))) := by
  obtain ⟨h1, h2⟩ := FixedDepthStorage2D.tryFrom_error (c := c) cs h
  constructor
  · simp only [tryFromSlice, TryFromCells.tryFromSlice, h1, ok_bind, pure_eq_ok, Except.map]
  · simp only [tryFromArray, TryFromCells.tryFromArray, h2, ok_bind, pure_eq_ok, Except.map]

theorem static_tryFrom (hc : c.Supported) (hw : IntWidth w) {cs : List Quadrant}
    (h : cs.length ≤ w / dim Quadrant) :
    ∃ m : MortonIndex2D (StaticStorage2D w), tryFromSlice c cs = .ok (.ok m) ∧
      tryFromArray c cs = .ok (.ok m) ∧ WF c m.storage ∧ TailZero m.storage ∧ path m.storage = cs := by
  obtain ⟨s, h1, h2, h3, h4, h5⟩ := StaticStorage2D.tryFrom_ok hc hw cs h
  refine ⟨⟨s⟩, ?_, ?_, h3, h4, h5⟩
  · simp only [tryFromSlice, TryFromCells.tryFromSlice, h1, ok_bind, pure_eq_ok, Except.map]
  · simp only [tryFromArray, TryFromCells.tryFromArray, h2, ok_bind, pure_eq_ok, Except.map]

theorem static_tryFrom_error {cs : List Quadrant} (h : cs.length > w / dim Quadrant) :
    (tryFromSlice c cs : Res (Except Error (MortonIndex2D (StaticStorage2D w)))) =
        .ok (.error (.DepthLimitedExceeded (w / dim Quadrant))) ∧
      (tryFromArray c cs : Res (Except Error (MortonIndex2D (StaticStorage2D w)))) =
        .ok (.error (.DepthLimitedExceeded (w / dim Quadrant))) := by
  obtain ⟨h1, h2⟩ := StaticStorage2D.tryFrom_error (c := c) cs h
  constructor
  · simp only [tryFromSlice, TryFromCells.tryFromSlice, h1, ok_bind, pure_eq_ok, Except.map]
  · simp only [tryFromArray, TryFromCells.tryFromArray, h2, ok_bind, pure_eq_ok, Except.map]

theorem dynamic_tryFrom (hc : c.Supported) {cs : List Quadrant} (h : Addressable c (cs.length * 2)) :
    ∃ m : MortonIndex2D DynamicStorage2D, tryFromSlice c cs = .ok (.ok m) ∧
      tryFromArray c cs = .ok (.ok m) ∧ m.storage.depth = cs.length ∧ DynamicStorage2D.Canon c m.storage ∧
      (DynWrites c → path m.storage = cs) := by
  obtain ⟨s, h1, h2, h3, h4, h5⟩ := DynamicStorage2D.tryFrom_ok hc cs h
  refine ⟨⟨s⟩, ?_, ?_, h3, h4, h5⟩
  · simp only [tryFromSlice, TryFromCells.tryFromSlice, h1, ok_bind, pure_eq_ok, Except.map]
  · simp only [tryFromArray, TryFromCells.tryFromArray, h2, ok_bind, pure_eq_ok, Except.map]

theorem static_ancestor_none {m : MortonIndex2D (StaticStorage2D w)} {g : NonZeroUsize}
    (hg : g.val > m.storage.depth) : VariableDepthMortonIndex.ancestor c m g = .ok none := by
  simp only [VariableDepthMortonIndex.ancestor, VariableDepthStorage.ancestor,
    StaticStorage2D.ancestor_none m.storage g hg, ok_bind, pure_eq_ok, Option.map_none]

theorem static_ancestor (hc : c.Supported) {m : MortonIndex2D (StaticStorage2D w)} (h : WF c m.storage)
    {g : NonZeroUsize} (hg : g.val ≤ m.storage.depth) :
    ∃ a : MortonIndex2D (StaticStorage2D w), VariableDepthMortonIndex.ancestor c m g = .ok (some a) ∧
      WF c a.storage ∧ (TailZero m.storage → TailZero a.storage) ∧
      path a.storage = (path m.storage).take (m.storage.depth - g.val) := by
  obtain ⟨a, h1, h2⟩ := StaticStorage2D.ancestor_some hc h g hg
  refine ⟨⟨a⟩, ?_, h2⟩
  simp only [VariableDepthMortonIndex.ancestor, VariableDepthStorage.ancestor, h1, ok_bind, pure_eq_ok,
    Option.map_some]

theorem static_descendant_none (hc : c.Supported) {m : MortonIndex2D (StaticStorage2D w)} (h : WF c m.storage)
    {cs : List Quadrant} (hs : cs.length < 2 ^ (c.ptrBits - 1))
    (hn : m.storage.depth + cs.length > w / dim Quadrant) :
    VariableDepthMortonIndex.descendant c m cs = .ok none := by
  have h1 := StaticStorage2D.depth_small h.fit ((StaticStorage2D.wf_iff h.fit m.storage).mp h)
  have h2 : m.storage.depth + cs.length < 2 ^ c.ptrBits := by
    rcases hc with e | e | e <;> rw [e] at hs ⊢ <;> omega
  simp only [VariableDepthMortonIndex.descendant, VariableDepthStorage.descendant,
    StaticStorage2D.descendant_none m.storage cs h2 hn, ok_bind, pure_eq_ok, Option.map_none]

theorem static_descendant (hc : c.Supported) {m : MortonIndex2D (StaticStorage2D w)} (h : WF c m.storage)
    {cs : List Quadrant} (hn : m.storage.depth + cs.length ≤ w / dim Quadrant) :
    ∃ a : MortonIndex2D (StaticStorage2D w), VariableDepthMortonIndex.descendant c m cs = .ok (some a) ∧
      WF c a.storage ∧ (TailZero m.storage → TailZero a.storage) ∧ path a.storage = path m.storage ++ cs := by
  obtain ⟨a, h1, h2⟩ := StaticStorage2D.descendant_some hc h cs hn
  refine ⟨⟨a⟩, ?_, h2⟩
  simp only [VariableDepthMortonIndex.descendant, VariableDepthStorage.descendant, h1, ok_bind, pure_eq_ok,
    Option.map_some]

theorem dynamic_ancestor_none {m : MortonIndex2D DynamicStorage2D} {g : NonZeroUsize}
    (hg : g.val > m.storage.depth) : VariableDepthMortonIndex.ancestor c m g = .ok none := by
  simp only [VariableDepthMortonIndex.ancestor, VariableDepthStorage.ancestor,
    DynamicStorage2D.ancestor_none m.storage g hg, ok_bind, pure_eq_ok, Option.map_none]

theorem dynamic_ancestor {m : MortonIndex2D DynamicStorage2D} (h : DynamicStorage2D.Inv c m.storage)
    {g : NonZeroUsize} (hg : g.val ≤ m.storage.depth) :
    ∃ a : MortonIndex2D DynamicStorage2D, VariableDepthMortonIndex.ancestor c m g = .ok (some a) ∧
      DynamicStorage2D.Inv c a.storage ∧
      (DynamicStorage2D.Canon c m.storage → DynamicStorage2D.Canon c a.storage) ∧
      path a.storage = (path m.storage).take (m.storage.depth - g.val) := by
  obtain ⟨a, h1, h2⟩ := DynamicStorage2D.ancestor_some h g hg
  refine ⟨⟨a⟩, ?_, h2⟩
  simp only [VariableDepthMortonIndex.ancestor, VariableDepthStorage.ancestor, h1, ok_bind, pure_eq_ok,
    Option.map_some]

theorem dynamic_descendant (hc : c.Supported) {m : MortonIndex2D DynamicStorage2D}
    (h : DynamicStorage2D.Inv c m.storage) {cs : List Quadrant}
    (ha : Addressable c ((m.storage.depth + cs.length) * 2)) :
    ∃ a : MortonIndex2D DynamicStorage2D, VariableDepthMortonIndex.descendant c m cs = .ok (some a) ∧
      DynamicStorage2D.Inv c a.storage ∧
      (DynamicStorage2D.Canon c m.storage → DynamicStorage2D.Canon c a.storage) ∧
      a.storage.depth = m.storage.depth + cs.length ∧
      (DynWrites c → path a.storage = path m.storage ++ cs) := by
  obtain ⟨a, h1, h2⟩ := DynamicStorage2D.descendant_some hc h cs ha
  refine ⟨⟨a⟩, ?_, h2⟩
  simp only [VariableDepthMortonIndex.descendant, VariableDepthStorage.descendant, h1, ok_bind, pure_eq_ok,
    Option.map_some]

end MortonIndex2D

/-! ## One lemma per kind of call -/

section steps

open MortonIndex VariableDepthMortonIndex

variable {c : Cfg} {sc : Scope} {w : Nat}

theorem good_fixed_set2 (hc : c.Supported) {m m' l v} (h : Good2D c sc (.fixed w m))
    (e : setCellAtLevel c m l v = .ok m') : Good2D c sc (.fixed w m') := by
  by_cases hl : l < Storage.depth m.storage
  · obtain ⟨_, h1, -, -, -, -, h6⟩ := MortonIndex2D.set_lt hc (FixedDepthStorage2D.wf h.1 m.storage) hl v
    rw [e] at h1; cases h1
    exact ⟨h.1, fun hs => h6 (h.2 hs)⟩
  · rw [MortonIndex2D.set_ge (by omega)] at e; simp at e

theorem good_fixed_inverted2 (hc : c.Supported) {m m'} (h : Good2D c sc (.fixed w m))
    (e : inverted c m = .ok m') : Good2D c sc (.fixed w m') := by
  obtain ⟨_, h1, -, -, -, -, h6⟩ := MortonIndex2D.inverted_ok hc (FixedDepthStorage2D.wf h.1 m.storage)
  rw [e] at h1; cases h1
  exact ⟨h.1, fun hs => h6 (h.2 hs)⟩

theorem good_static_set2 (hc : c.Supported) {m m' l v} (h : Good2D c sc (.static w m))
    (e : setCellAtLevel c m l v = .ok m') : Good2D c sc (.static w m') := by
  by_cases hl : l < Storage.depth m.storage
  · obtain ⟨_, h1, h2, -, -, -, h6⟩ := MortonIndex2D.set_lt hc h.1 hl v
    rw [e] at h1; cases h1
    exact ⟨h2, h6 h.2⟩
  · rw [MortonIndex2D.set_ge (by omega)] at e; simp at e

theorem good_static_inverted2 (hc : c.Supported) {m m'} (h : Good2D c sc (.static w m))
    (e : inverted c m = .ok m') : Good2D c sc (.static w m') := by
  obtain ⟨_, h1, h2, -, -, -, h6⟩ := MortonIndex2D.inverted_ok hc h.1
  rw [e] at h1; cases h1
  exact ⟨h2, h6 h.2⟩

theorem good_static_ancestor2 (hc : c.Supported) {m m'} {g : NonZeroUsize} (h : Good2D c sc (.static w m))
    (e : ancestor c m g = .ok (some m')) : Good2D c sc (.static w m') := by
  by_cases hg : g.val ≤ m.storage.depth
  · obtain ⟨_, h1, h2, h3, -⟩ := MortonIndex2D.static_ancestor hc h.1 hg
    rw [e] at h1; cases h1
    exact ⟨h2, h3 h.2⟩
  · rw [MortonIndex2D.static_ancestor_none (by omega)] at e; simp at e

theorem good_static_descendant2 (hc : c.Supported) {m m'} {cs : List Quadrant} (h : Good2D c sc (.static w m))
    (hlen : cs.length < 2 ^ (c.ptrBits - 1))
    (e : descendant c m cs = .ok (some m')) : Good2D c sc (.static w m') := by
  by_cases hg : m.storage.depth + cs.length ≤ w / dim Quadrant
  · obtain ⟨_, h1, h2, h3, -⟩ := MortonIndex2D.static_descendant hc h.1 hg
    rw [e] at h1; cases h1
    exact ⟨h2, h3 h.2⟩
  · rw [MortonIndex2D.static_descendant_none hc h.1 hlen (by omega)] at e; simp at e

theorem good_dynamic_set2 (hc : c.Supported) {m m' l v} (h : Good2D c sc (.dynamic m))
    (e : setCellAtLevel c m l v = .ok m') : Good2D c sc (.dynamic m') := by
  by_cases hl : l < Storage.depth m.storage
  · obtain ⟨_, h1, h2, h3, h4, -, h6⟩ := MortonIndex2D.set_lt hc h.1.wf hl v
    rw [e] at h1; cases h1
    exact ⟨h.1.same h3 h4, fun hs => (h.2 hs).same h3 h4 h6⟩
  · rw [MortonIndex2D.set_ge (by omega)] at e; simp at e

theorem good_dynamic_inverted2 (hc : c.Supported) {m m'} (h : Good2D c sc (.dynamic m))
    (e : inverted c m = .ok m') : Good2D c sc (.dynamic m') := by
  obtain ⟨_, h1, h2, h3, h4, -, h6⟩ := MortonIndex2D.inverted_ok hc h.1.wf
  rw [e] at h1; cases h1
  exact ⟨h.1.same h3 h4, fun hs => (h.2 hs).same h3 h4 h6⟩

theorem good_dynamic_ancestor2 {m m'} {g : NonZeroUsize} (h : Good2D c sc (.dynamic m))
    (e : ancestor c m g = .ok (some m')) : Good2D c sc (.dynamic m') := by
  by_cases hg : g.val ≤ m.storage.depth
  · obtain ⟨_, h1, h2, h3, -⟩ := MortonIndex2D.dynamic_ancestor h.1 hg
    rw [e] at h1; cases h1
    exact ⟨h2, fun hs => h3 (h.2 hs)⟩
  · rw [MortonIndex2D.dynamic_ancestor_none (by omega)] at e; simp at e

theorem good_dynamic_descendant2 (hc : c.Supported) {m m'} {cs : List Quadrant} (h : Good2D c sc (.dynamic m))
    (ha : Addressable c ((depth m + cs.length) * 2))
    (e : descendant c m cs = .ok (some m')) : Good2D c sc (.dynamic m') := by
  obtain ⟨_, h1, h2, h3, -⟩ := MortonIndex2D.dynamic_descendant hc h.1 ha
  rw [e] at h1; cases h1
  exact ⟨h2, fun hs => h3 (h.2 hs)⟩

end steps

theorem reach2D_good {c : Cfg} (hc : c.Supported) {sc : Scope} {i : AnyIndex2D} (h : Reach2D c sc i) :
    Good2D c sc i := by
  induction h with
  | fixedDefault w hw => exact ⟨hw, fun _ => FixedDepthStorage2D.tailZero_default⟩
  | @fixedTryFromSlice w cs m hw e =>
    by_cases hl : cs.length ≤ w / dim Quadrant
    · obtain ⟨m', h1, -, h3, -⟩ := MortonIndex2D.fixed_tryFrom hc hw hl
      rw [e] at h1; cases h1
      exact ⟨hw, fun _ => h3⟩
    · rw [(MortonIndex2D.fixed_tryFrom_error (by omega)).1] at e; simp at e
  | @fixedTryFromArray w cs m hw e =>
    by_cases hl : cs.length ≤ w / dim Quadrant
    · obtain ⟨m', -, h1, h3, -⟩ := MortonIndex2D.fixed_tryFrom hc hw hl
      rw [e] at h1; cases h1
      exact ⟨hw, fun _ => h3⟩
    · rw [(MortonIndex2D.fixed_tryFrom_error (by omega)).2] at e; simp at e
  | @fixedFromGrid w g o m hw e =>
    by_cases hl : w / dim Quadrant ≤ c.ptrBits
    · obtain ⟨m', h1, h2, -⟩ := MortonIndex2D.fixedFromGridIndex_ok hc hw hl g o
      rw [e] at h1; cases h1
      exact ⟨hw, fun _ => h2⟩
    · rw [MortonIndex2D.fixedFromGridIndex_panic (by omega)] at e; simp at e
  | fixedSet _ e ih => exact good_fixed_set2 hc ih e
  | fixedInverted _ e ih => exact good_fixed_inverted2 hc ih e
  | staticDefault w hw =>
    exact ⟨(StaticStorage2D.wf_iff hw _).mpr (Nat.zero_le _), fun i _ => StaticStorage2D.default_bits i 0⟩
  | @staticTryFromSlice w cs m hw e =>
    by_cases hl : cs.length ≤ w / dim Quadrant
    · obtain ⟨m', h1, -, h2, h3, -⟩ := MortonIndex2D.static_tryFrom hc hw hl
      rw [e] at h1; cases h1
      exact ⟨h2, h3⟩
    · rw [(MortonIndex2D.static_tryFrom_error (by omega)).1] at e; simp at e
  | @staticTryFromArray w cs m hw e =>
    by_cases hl : cs.length ≤ w / dim Quadrant
    · obtain ⟨m', -, h1, h2, h3, -⟩ := MortonIndex2D.static_tryFrom hc hw hl
      rw [e] at h1; cases h1
      exact ⟨h2, h3⟩
    · rw [(MortonIndex2D.static_tryFrom_error (by omega)).2] at e; simp at e
  | @staticFromGrid w g d o m hw e =>
    obtain ⟨h1, h2⟩ := MortonIndex2D.staticFromGridIndex_depth hw e
    exact ⟨(StaticStorage2D.wf_iff hw _).mpr (by rw [h1]; exact h2), 
      MortonIndex2D.staticFromGridIndex_tail hc hw e⟩
  | @staticZeroed w d m hw e =>
    unfold MortonIndex2D.staticZeroed at e
    split at e
    · simp at e
    · rename_i hd
      obtain rfl := Option.some.inj e
      exact ⟨(StaticStorage2D.wf_iff hw _).mpr (Nat.le_of_not_gt hd), fun i _ => StaticStorage2D.default_bits i d⟩
  | staticSet _ e ih => exact good_static_set2 hc ih e
  | staticInverted _ e ih => exact good_static_inverted2 hc ih e
  | staticAncestor _ e ih => exact good_static_ancestor2 hc ih e
  | staticParent _ e ih => rw [parent_eq] at e; exact good_static_ancestor2 hc ih e
  | staticWithDepth _ e ih =>
    rcases withDepth_some e with rfl | ⟨g, e'⟩
    · exact ih
    · exact good_static_ancestor2 hc ih e'
  | staticDescendant _ hl e ih => exact good_static_descendant2 hc ih hl e
  | staticChild _ e ih => exact good_static_descendant2 hc ih (one_lt_isize hc) e
  | dynamicDefault =>
    have := DynamicStorage2D.default_canon hc
    exact ⟨this.inv, fun _ => this⟩
  | dynamicTryFromSlice ha e =>
    obtain ⟨_, h1, -, -, h2, -⟩ := MortonIndex2D.dynamic_tryFrom hc ha
    rw [e] at h1; cases h1
    exact ⟨h2.inv, fun _ => h2⟩
  | dynamicTryFromArray ha e =>
    obtain ⟨_, -, h1, -, h2, -⟩ := MortonIndex2D.dynamic_tryFrom hc ha
    rw [e] at h1; cases h1
    exact ⟨h2.inv, fun _ => h2⟩
  | @dynamicFromGrid g d o m e =>
    by_cases hd : d ≤ c.ptrBits / 2
    · obtain ⟨_, h1, -, h2, -⟩ := MortonIndex2D.dynamicFromGridIndex_ok hc g d hd o
      rw [e] at h1; cases h1
      exact ⟨h2.inv, fun _ => h2⟩
    · rw [MortonIndex2D.dynamicFromGridIndex_panic _ _ (by omega)] at e; simp at e
  | dynamicZeroed ha hs =>
    refine ⟨DynamicStorage2D.zeroed_inv ha, fun hcan => ?_⟩
    rcases hs with hs | hs
    · rw [hcan] at hs; cases hs
    · exact DynamicStorage2D.zeroed_canon ha hs
  | dynamicSet _ e ih => exact good_dynamic_set2 hc ih e
  | dynamicInverted _ e ih => exact good_dynamic_inverted2 hc ih e
  | dynamicAncestor _ e ih => exact good_dynamic_ancestor2 ih e
  | dynamicParent _ e ih => rw [parent_eq] at e; exact good_dynamic_ancestor2 ih e
  | dynamicWithDepth _ e ih =>
    rcases withDepth_some e with rfl | ⟨g, e'⟩
    · exact ih
    · exact good_dynamic_ancestor2 ih e'
  | dynamicDescendant _ ha e ih => exact good_dynamic_descendant2 hc ih ha e
  | @dynamicChild m v m' _ ha e ih => exact good_dynamic_descendant2 (cs := [v]) hc ih ha e
  | @fixedToStatic w m _ ih =>
    obtain ⟨h1, -, h3⟩ := MortonIndex2D.fixedToStatic_ok (c := c) ih.1 m
    refine ⟨h1, h3 fun i hi => ?_⟩
    have hw8 := ih.1.mod8
    change i < w - w / 2 * 2 at hi
    omega
  | @fixedToDynamic w m _ ih =>
    obtain ⟨h1, -, h3⟩ := MortonIndex2D.fixedToDynamic_ok hc ih.1 m
    exact ⟨h1, fun hs => h3 (ih.2 hs)⟩
  | @staticToFixed w m _ ih =>
    obtain ⟨-, h3⟩ := MortonIndex2D.staticToFixed_ok ih.1.fit ih.1
    exact ⟨ih.1.fit, fun _ => (h3 ih.2).1⟩
  | staticToDynamic _ e ih =>
    obtain ⟨_, h1, h2, -⟩ := MortonIndex2D.staticToDynamic_ok hc ih.1
    rw [e] at h1; cases h1
    exact ⟨h2.inv, fun _ => h2⟩
  | @dynamicToFixed w m m' hw _ e ih =>
    refine ⟨hw, fun _ i hi => ?_⟩
    have hw8 := hw.mod8
    change i < w - w / 2 * 2 at hi
    omega
  | @dynamicToStatic w m m' hw _ e ih =>
    by_cases hd : m.storage.depth ≤ w / dim Quadrant
    · obtain ⟨_, h1, h2, h3, -⟩ := MortonIndex2D.dynamicToStatic_ok hc hw ih.1.wf hd
      rw [e] at h1; cases h1
      exact ⟨h2, h3⟩
    · rw [MortonIndex2D.dynamicToStatic_error (by omega)] at e; simp at e

end MortonRs
