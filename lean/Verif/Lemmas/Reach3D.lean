import Verif.History
import Verif.Lemmas.Conv3D
import Verif.Lemmas.GridNarrow
import Verif.Lemmas.FromBytes
import Verif.Lemmas.Nav

/-! # Invariants of every 3D history -/

namespace MortonRs

open BitStorage

/-- What holds of every index a history produces. -/
def Good3D (c : Cfg) (sc : Scope) : AnyIndex3D → Prop
  | .fixed w m => IntWidth w ∧ (sc = .canonical → TailZero m.storage)
  | .static _ m => WF c m.storage ∧ (sc = .canonical → TailZero m.storage)
  | .dynamic m => DynamicStorage3D.Inv c m.storage ∧ (sc = .canonical → DynamicStorage3D.Canon c m.storage)

namespace DynamicStorage3D

theorem Inv.same {c : Cfg} {s t : DynamicStorage3D} (h : Inv c s) (hw : width t = width s)
    (hd : Storage.depth t = Storage.depth s) : Inv c t := by
  have h1 : 8 * t.bits.length = 8 * s.bits.length := hw
  have h2 : t.depth = s.depth := hd
  have h3 : t.bits.length = s.bits.length := by omega
  exact ⟨by rw [h2]; exact h.addr, by rw [h2, h3]; exact h.lo, by rw [h2, h3]; exact h.hi⟩

theorem Canon.same {c : Cfg} {s t : DynamicStorage3D} (h : Canon c s) (hw : width t = width s)
    (hd : Storage.depth t = Storage.depth s) (hz : TailZero s → TailZero t) : Canon c t := by
  have h1 : 8 * t.bits.length = 8 * s.bits.length := hw
  have h2 : t.depth = s.depth := hd
  have h3 : t.bits.length = s.bits.length := by omega
  exact ⟨by rw [h2]; exact h.addr, by rw [h2, h3]; exact h.len, hz h.tail⟩

theorem default_canon {c : Cfg} (hc : c.Supported) : Canon c DynamicStorage3D.default :=
  ⟨MortonIndex3D.addressable_of_le hc (by decide), rfl, fun i _ => by
      change (leValue []).testBit i = false
      rw [leValue, Nat.zero_testBit]⟩

end DynamicStorage3D

namespace MortonIndex3D

variable {c : Cfg} {w : Nat}

theorem fixed_tryFrom (hc : c.Supported) (hw : IntWidth w) {cs : List Octant}
    (h : cs.length ≤ w / dim Octant) :
    ∃ m : MortonIndex3D (FixedDepthStorage3D w), tryFromSlice c cs = .ok (.ok m) ∧
      tryFromArray c cs = .ok (.ok m) ∧ TailZero m.storage ∧
      path m.storage = cs ++ List.replicate (w / dim Octant - cs.length) .Zero := by
  obtain ⟨s, h1, h2, h3, h4⟩ := FixedDepthStorage3D.tryFrom_ok hc hw cs h
  refine ⟨⟨s⟩, ?_, ?_, h3, h4⟩
  · simp only [tryFromSlice, TryFromCells.tryFromSlice, h1, ok_bind, pure_eq_ok, Except.map]
  · simp only [tryFromArray, TryFromCells.tryFromArray, h2, ok_bind, pure_eq_ok, Except.map]

theorem fixed_tryFrom_error {cs : List Octant} (h : cs.length > w / dim Octant) :
    (tryFromSlice c cs : Res (Except Error (MortonIndex3D (FixedDepthStorage3D w)))) =
        .ok (.error (.DepthLimitedExceeded (w / dim Octant))) ∧
      (tryFromArray c cs : Res (Except Error (MortonIndex3D (FixedDepthStorage3D w)))) =
        .ok (.error (.DepthLimitedExceeded (w / dim Octant))) := by
  obtain ⟨h1, h2⟩ := FixedDepthStorage3D.tryFrom_error (c := c) cs h
  constructor
  · simp only [tryFromSlice, TryFromCells.tryFromSlice, h1, ok_bind, pure_eq_ok, Except.map]
  · simp only [tryFromArray, TryFromCells.tryFromArray, h2, ok_bind, pure_eq_ok, Except.map]

theorem static_tryFrom (hc : c.Supported) (hw : IntWidth w) {cs : List Octant}
    (h : cs.length ≤ w / dim Octant) :
    ∃ m : MortonIndex3D (StaticStorage3D w), tryFromSlice c cs = .ok (.ok m) ∧
      tryFromArray c cs = .ok (.ok m) ∧ WF c m.storage ∧ TailZero m.storage ∧ path m.storage = cs := by
  obtain ⟨s, h1, h2, h3, h4, h5⟩ := StaticStorage3D.tryFrom_ok hc hw cs h
  refine ⟨⟨s⟩, ?_, ?_, h3, h4, h5⟩
  · simp only [tryFromSlice, TryFromCells.tryFromSlice, h1, ok_bind, pure_eq_ok, Except.map]
  · simp only [tryFromArray, TryFromCells.tryFromArray, h2, ok_bind, pure_eq_ok, Except.map]

theorem static_tryFrom_error {cs : List Octant} (h : cs.length > w / dim Octant) :
    (tryFromSlice c cs : Res (Except Error (MortonIndex3D (StaticStorage3D w)))) =
        .ok (.error (.DepthLimitedExceeded (w / dim Octant))) ∧
      (tryFromArray c cs : Res (Except Error (MortonIndex3D (StaticStorage3D w)))) =
        .ok (.error (.DepthLimitedExceeded (w / dim Octant))) := by
  obtain ⟨h1, h2⟩ := StaticStorage3D.tryFrom_error (c := c) cs h
  constructor
  · simp only [tryFromSlice, TryFromCells.tryFromSlice, h1, ok_bind, pure_eq_ok, Except.map]
  · simp only [tryFromArray, TryFromCells.tryFromArray, h2, ok_bind, pure_eq_ok, Except.map]

theorem dynamic_tryFrom (hc : c.Supported) {cs : List Octant} (h : Addressable c (cs.length * 3)) :
    ∃ m : MortonIndex3D DynamicStorage3D, tryFromSlice c cs = .ok (.ok m) ∧
      tryFromArray c cs = .ok (.ok m) ∧ m.storage.depth = cs.length ∧ DynamicStorage3D.Canon c m.storage ∧
      (DynWrites c → path m.storage = cs) := by
  obtain ⟨s, h1, h2, h3, h4, h5⟩ := DynamicStorage3D.tryFrom_ok hc cs h
  refine ⟨⟨s⟩, ?_, ?_, h3, h4, h5⟩
  · simp only [tryFromSlice, TryFromCells.tryFromSlice, h1, ok_bind, pure_eq_ok, Except.map]
  · simp only [tryFromArray, TryFromCells.tryFromArray, h2, ok_bind, pure_eq_ok, Except.map]

theorem static_ancestor_none {m : MortonIndex3D (StaticStorage3D w)} {g : NonZeroUsize}
    (hg : g.val > m.storage.depth) : VariableDepthMortonIndex.ancestor c m g = .ok none := by
  simp only [VariableDepthMortonIndex.ancestor, VariableDepthStorage.ancestor,
    StaticStorage3D.ancestor_none m.storage g hg, ok_bind, pure_eq_ok, Option.map_none]

theorem static_ancestor (hc : c.Supported) {m : MortonIndex3D (StaticStorage3D w)} (h : WF c m.storage)
    {g : NonZeroUsize} (hg : g.val ≤ m.storage.depth) :
    ∃ a : MortonIndex3D (StaticStorage3D w), VariableDepthMortonIndex.ancestor c m g = .ok (some a) ∧
      WF c a.storage ∧ (TailZero m.storage → TailZero a.storage) ∧
      path a.storage = (path m.storage).take (m.storage.depth - g.val) := by
  obtain ⟨a, h1, h2⟩ := StaticStorage3D.ancestor_some hc h g hg
  refine ⟨⟨a⟩, ?_, h2⟩
  simp only [VariableDepthMortonIndex.ancestor, VariableDepthStorage.ancestor, h1, ok_bind, pure_eq_ok,
    Option.map_some]

theorem static_descendant_none (hc : c.Supported) {m : MortonIndex3D (StaticStorage3D w)} (h : WF c m.storage)
    {cs : List Octant} (hs : cs.length < 2 ^ (c.ptrBits - 1))
    (hn : m.storage.depth + cs.length > w / dim Octant) :
    VariableDepthMortonIndex.descendant c m cs = .ok none := by
  have h1 := StaticStorage3D.depth_small h.fit ((StaticStorage3D.wf_iff h.fit m.storage).mp h)
  have h2 : m.storage.depth + cs.length < 2 ^ c.ptrBits := by
    rcases hc with e | e | e <;> rw [e] at hs ⊢ <;> omega
  simp only [VariableDepthMortonIndex.descendant, VariableDepthStorage.descendant,
    StaticStorage3D.descendant_none m.storage cs h2 hn, ok_bind, pure_eq_ok, Option.map_none]

theorem static_descendant (hc : c.Supported) {m : MortonIndex3D (StaticStorage3D w)} (h : WF c m.storage)
    {cs : List Octant} (hn : m.storage.depth + cs.length ≤ w / dim Octant) :
    ∃ a : MortonIndex3D (StaticStorage3D w), VariableDepthMortonIndex.descendant c m cs = .ok (some a) ∧
      WF c a.storage ∧ (TailZero m.storage → TailZero a.storage) ∧ path a.storage = path m.storage ++ cs := by
  obtain ⟨a, h1, h2⟩ := StaticStorage3D.descendant_some hc h cs hn
  refine ⟨⟨a⟩, ?_, h2⟩
  simp only [VariableDepthMortonIndex.descendant, VariableDepthStorage.descendant, h1, ok_bind, pure_eq_ok,
    Option.map_some]

theorem dynamic_ancestor_none {m : MortonIndex3D DynamicStorage3D} {g : NonZeroUsize}
    (hg : g.val > m.storage.depth) : VariableDepthMortonIndex.ancestor c m g = .ok none := by
  simp only [VariableDepthMortonIndex.ancestor, VariableDepthStorage.ancestor,
    DynamicStorage3D.ancestor_none m.storage g hg, ok_bind, pure_eq_ok, Option.map_none]

theorem dynamic_ancestor {m : MortonIndex3D DynamicStorage3D} (h : DynamicStorage3D.Inv c m.storage)
    {g : NonZeroUsize} (hg : g.val ≤ m.storage.depth) :
    ∃ a : MortonIndex3D DynamicStorage3D, VariableDepthMortonIndex.ancestor c m g = .ok (some a) ∧
      DynamicStorage3D.Inv c a.storage ∧
      (DynamicStorage3D.Canon c m.storage → DynamicStorage3D.Canon c a.storage) ∧
      path a.storage = (path m.storage).take (m.storage.depth - g.val) := by
  obtain ⟨a, h1, h2⟩ := DynamicStorage3D.ancestor_some h g hg
  refine ⟨⟨a⟩, ?_, h2⟩
  simp only [VariableDepthMortonIndex.ancestor, VariableDepthStorage.ancestor, h1, ok_bind, pure_eq_ok,
    Option.map_some]

theorem dynamic_descendant (hc : c.Supported) {m : MortonIndex3D DynamicStorage3D}
    (h : DynamicStorage3D.Inv c m.storage) {cs : List Octant}
    (ha : Addressable c ((m.storage.depth + cs.length) * 3)) :
    ∃ a : MortonIndex3D DynamicStorage3D, VariableDepthMortonIndex.descendant c m cs = .ok (some a) ∧
      DynamicStorage3D.Inv c a.storage ∧
      (DynamicStorage3D.Canon c m.storage → DynamicStorage3D.Canon c a.storage) ∧
      a.storage.depth = m.storage.depth + cs.length ∧
      (DynWrites c → path a.storage = path m.storage ++ cs) := by
  obtain ⟨a, h1, h2⟩ := DynamicStorage3D.descendant_some hc h cs ha
  refine ⟨⟨a⟩, ?_, h2⟩
  simp only [VariableDepthMortonIndex.descendant, VariableDepthStorage.descendant, h1, ok_bind, pure_eq_ok,
    Option.map_some]

end MortonIndex3D

/-! ## One lemma per kind of call -/

section steps

open MortonIndex VariableDepthMortonIndex

variable {c : Cfg} {sc : Scope} {w : Nat}

theorem good_fixed_set3 (hc : c.Supported) {m m' l v} (h : Good3D c sc (.fixed w m))
    (e : setCellAtLevel c m l v = .ok m') : Good3D c sc (.fixed w m') := by
  by_cases hl : l < Storage.depth m.storage
  · obtain ⟨_, h1, -, -, -, -, h6⟩ := MortonIndex3D.set_lt hc (FixedDepthStorage3D.wf h.1 m.storage) hl v
    rw [e] at h1; cases h1
    exact ⟨h.1, fun hs => h6 (h.2 hs)⟩
  · rw [MortonIndex3D.set_ge (by omega)] at e; simp at e

theorem good_fixed_inverted3 (hc : c.Supported) {m m'} (h : Good3D c sc (.fixed w m))
    (e : inverted c m = .ok m') : Good3D c sc (.fixed w m') := by
  obtain ⟨_, h1, -, -, -, -, h6⟩ := MortonIndex3D.inverted_ok hc (FixedDepthStorage3D.wf h.1 m.storage)
  rw [e] at h1; cases h1
  exact ⟨h.1, fun hs => h6 (h.2 hs)⟩

theorem good_static_set3 (hc : c.Supported) {m m' l v} (h : Good3D c sc (.static w m))
    (e : setCellAtLevel c m l v = .ok m') : Good3D c sc (.static w m') := by
  by_cases hl : l < Storage.depth m.storage
  · obtain ⟨_, h1, h2, -, -, -, h6⟩ := MortonIndex3D.set_lt hc h.1 hl v
    rw [e] at h1; cases h1
    exact ⟨h2, fun hs => h6 (h.2 hs)⟩
  · rw [MortonIndex3D.set_ge (by omega)] at e; simp at e

theorem good_static_inverted3 (hc : c.Supported) {m m'} (h : Good3D c sc (.static w m))
    (e : inverted c m = .ok m') : Good3D c sc (.static w m') := by
  obtain ⟨_, h1, h2, -, -, -, h6⟩ := MortonIndex3D.inverted_ok hc h.1
  rw [e] at h1; cases h1
  exact ⟨h2, fun hs => h6 (h.2 hs)⟩

theorem good_static_ancestor3 (hc : c.Supported) {m m'} {g : NonZeroUsize} (h : Good3D c sc (.static w m))
    (e : ancestor c m g = .ok (some m')) : Good3D c sc (.static w m') := by
  by_cases hg : g.val ≤ m.storage.depth
  · obtain ⟨_, h1, h2, h3, -⟩ := MortonIndex3D.static_ancestor hc h.1 hg
    rw [e] at h1; cases h1
    exact ⟨h2, fun hs => h3 (h.2 hs)⟩
  · rw [MortonIndex3D.static_ancestor_none (by omega)] at e; simp at e

theorem good_static_descendant3 (hc : c.Supported) {m m'} {cs : List Octant} (h : Good3D c sc (.static w m))
    (hlen : cs.length < 2 ^ (c.ptrBits - 1))
    (e : descendant c m cs = .ok (some m')) : Good3D c sc (.static w m') := by
  by_cases hg : m.storage.depth + cs.length ≤ w / dim Octant
  · obtain ⟨_, h1, h2, h3, -⟩ := MortonIndex3D.static_descendant hc h.1 hg
    rw [e] at h1; cases h1
    exact ⟨h2, fun hs => h3 (h.2 hs)⟩
  · rw [MortonIndex3D.static_descendant_none hc h.1 hlen (by omega)] at e; simp at e

theorem good_dynamic_set3 (hc : c.Supported) {m m' l v} (h : Good3D c sc (.dynamic m))
    (e : setCellAtLevel c m l v = .ok m') : Good3D c sc (.dynamic m') := by
  by_cases hl : l < Storage.depth m.storage
  · obtain ⟨_, h1, h2, h3, h4, -, h6⟩ := MortonIndex3D.set_lt hc h.1.wf hl v
    rw [e] at h1; cases h1
    exact ⟨h.1.same h3 h4, fun hs => (h.2 hs).same h3 h4 h6⟩
  · rw [MortonIndex3D.set_ge (by omega)] at e; simp at e

theorem good_dynamic_inverted3 (hc : c.Supported) {m m'} (h : Good3D c sc (.dynamic m))
    (e : inverted c m = .ok m') : Good3D c sc (.dynamic m') := by
  obtain ⟨_, h1, h2, h3, h4, -, h6⟩ := MortonIndex3D.inverted_ok hc h.1.wf
  rw [e] at h1; cases h1
  exact ⟨h.1.same h3 h4, fun hs => (h.2 hs).same h3 h4 h6⟩

theorem good_dynamic_ancestor3 {m m'} {g : NonZeroUsize} (h : Good3D c sc (.dynamic m))
    (e : ancestor c m g = .ok (some m')) : Good3D c sc (.dynamic m') := by
  by_cases hg : g.val ≤ m.storage.depth
  · obtain ⟨_, h1, h2, h3, -⟩ := MortonIndex3D.dynamic_ancestor h.1 hg
    rw [e] at h1; cases h1
    exact ⟨h2, fun hs => h3 (h.2 hs)⟩
  · rw [MortonIndex3D.dynamic_ancestor_none (by omega)] at e; simp at e

theorem good_dynamic_descendant3 (hc : c.Supported) {m m'} {cs : List Octant} (h : Good3D c sc (.dynamic m))
    (ha : Addressable c ((depth m + cs.length) * 3))
    (e : descendant c m cs = .ok (some m')) : Good3D c sc (.dynamic m') := by
  obtain ⟨_, h1, h2, h3, -⟩ := MortonIndex3D.dynamic_descendant hc h.1 ha
  rw [e] at h1; cases h1
  exact ⟨h2, fun hs => h3 (h.2 hs)⟩

end steps

theorem testBit_of_mod_eq_zero {n k i : Nat} (h : n % 2 ^ k = 0) (hi : i < k) : n.testBit i = false := by
  have := Nat.testBit_mod_two_pow n k i
  rw [h, Nat.zero_testBit, decide_eq_true hi, Bool.true_and] at this
  exact this.symm

theorem reach3D_good {c : Cfg} (hc : c.Supported) {sc : Scope} {i : AnyIndex3D} (h : Reach3D c sc i) :
    Good3D c sc i := by
  induction h with
  | fixedDefault w hw => exact ⟨hw, fun _ => FixedDepthStorage3D.tailZero_default⟩
  | @fixedTryFromSlice w cs m hw e =>
    by_cases hl : cs.length ≤ w / dim Octant
    · obtain ⟨m', h1, -, h3, -⟩ := MortonIndex3D.fixed_tryFrom hc hw hl
      rw [e] at h1; cases h1
      exact ⟨hw, fun _ => h3⟩
    · rw [(MortonIndex3D.fixed_tryFrom_error (by omega)).1] at e; simp at e
  | @fixedTryFromArray w cs m hw e =>
    by_cases hl : cs.length ≤ w / dim Octant
    · obtain ⟨m', -, h1, h3, -⟩ := MortonIndex3D.fixed_tryFrom hc hw hl
      rw [e] at h1; cases h1
      exact ⟨hw, fun _ => h3⟩
    · rw [(MortonIndex3D.fixed_tryFrom_error (by omega)).2] at e; simp at e
  | fixedFromGrid hw e => exact ⟨hw, fun _ => MortonIndex3D.fixedFromGridIndex_tail hc hw e⟩
  | fixedFromGridFast e => exact ⟨by decide, fun _ => MortonIndex3D.fixedFromGridIndexFast_tail hc e⟩
  | @fixedFromRaw w b hw hs =>
    refine ⟨hw, fun hcan => ?_⟩
    rcases hs with hs | hs
    · rw [hcan] at hs; cases hs
    · intro i hi
      have hi' : i < w - w / 3 * 3 := hi
      exact testBit_of_mod_eq_zero hs (by omega)
  | fixedSet _ e ih => exact good_fixed_set3 hc ih e
  | fixedInverted _ e ih => exact good_fixed_inverted3 hc ih e
  | staticDefault w hw =>
    exact ⟨(StaticStorage3D.wf_iff hw _).mpr (Nat.zero_le _), fun _ i _ => StaticStorage3D.default_bits i 0⟩
  | @staticTryFromSlice w cs m hw e =>
    by_cases hl : cs.length ≤ w / dim Octant
    · obtain ⟨m', h1, -, h2, h3, -⟩ := MortonIndex3D.static_tryFrom hc hw hl
      rw [e] at h1; cases h1
      exact ⟨h2, fun _ => h3⟩
    · rw [(MortonIndex3D.static_tryFrom_error (by omega)).1] at e; simp at e
  | @staticTryFromArray w cs m hw e =>
    by_cases hl : cs.length ≤ w / dim Octant
    · obtain ⟨m', -, h1, h2, h3, -⟩ := MortonIndex3D.static_tryFrom hc hw hl
      rw [e] at h1; cases h1
      exact ⟨h2, fun _ => h3⟩
    · rw [(MortonIndex3D.static_tryFrom_error (by omega)).2] at e; simp at e
  | @staticFromGrid w g d o m hw e =>
    obtain ⟨h1, h2⟩ := MortonIndex3D.staticFromGridIndex_depth hw e
    exact ⟨(StaticStorage3D.wf_iff hw _).mpr (by rw [h1]; exact h2), fun _ =>
      MortonIndex3D.staticFromGridIndex_tail hc hw e⟩
  | @staticFromRaw w b d hw hd hs =>
    refine ⟨(StaticStorage3D.wf_iff hw _).mpr hd, fun hcan => ?_⟩
    rcases hs with hs | hs
    · rw [hcan] at hs; cases hs
    · intro i hi
      have hi' : i < w - d * 3 := hi
      exact testBit_of_mod_eq_zero hs (by omega)
  | @staticZeroed w d m hw e =>
    unfold MortonIndex3D.staticZeroed at e
    split at e
    · simp at e
    · rename_i hd
      obtain rfl := Option.some.inj e
      exact ⟨(StaticStorage3D.wf_iff hw _).mpr (Nat.le_of_not_gt hd), fun _ i _ => StaticStorage3D.default_bits i d⟩
  | staticSet _ e ih => exact good_static_set3 hc ih e
  | staticInverted _ e ih => exact good_static_inverted3 hc ih e
  | staticAncestor _ e ih => exact good_static_ancestor3 hc ih e
  | staticParent _ e ih => rw [parent_eq] at e; exact good_static_ancestor3 hc ih e
  | staticWithDepth _ e ih =>
    rcases withDepth_some e with rfl | ⟨g, e'⟩
    · exact ih
    · exact good_static_ancestor3 hc ih e'
  | staticDescendant _ hl e ih => exact good_static_descendant3 hc ih hl e
  | staticChild _ e ih => exact good_static_descendant3 hc ih (one_lt_isize hc) e
  | dynamicDefault =>
    have := DynamicStorage3D.default_canon hc
    exact ⟨this.inv, fun _ => this⟩
  | dynamicTryFromSlice ha e =>
    obtain ⟨_, h1, -, -, h2, -⟩ := MortonIndex3D.dynamic_tryFrom hc ha
    rw [e] at h1; cases h1
    exact ⟨h2.inv, fun _ => h2⟩
  | dynamicTryFromArray ha e =>
    obtain ⟨_, -, h1, -, h2, -⟩ := MortonIndex3D.dynamic_tryFrom hc ha
    rw [e] at h1; cases h1
    exact ⟨h2.inv, fun _ => h2⟩
  | @dynamicFromGrid g d o m e =>
    by_cases hd : d ≤ c.ptrBits / 2
    · obtain ⟨_, h1, -, h2, -⟩ := MortonIndex3D.dynamicFromGridIndex_ok hc g d hd o
      rw [e] at h1; cases h1
      exact ⟨h2.inv, fun _ => h2⟩
    · rw [MortonIndex3D.dynamicFromGridIndex_panic _ _ (by omega)] at e; simp at e
  | dynamicZeroed ha e =>
    obtain ⟨h1, h2⟩ := MortonIndex3D.dynamic_zeroed_ok (c := c) _ ha
    unfold MortonIndex3D.dynamicZeroed at e
    rw [h1] at e
    cases e
    exact ⟨h2.inv, fun _ => h2⟩
  | dynamicSet _ e ih => exact good_dynamic_set3 hc ih e
  | dynamicInverted _ e ih => exact good_dynamic_inverted3 hc ih e
  | dynamicAncestor _ e ih => exact good_dynamic_ancestor3 ih e
  | dynamicParent _ e ih => rw [parent_eq] at e; exact good_dynamic_ancestor3 ih e
  | dynamicWithDepth _ e ih =>
    rcases withDepth_some e with rfl | ⟨g, e'⟩
    · exact ih
    · exact good_dynamic_ancestor3 ih e'
  | dynamicDescendant _ ha e ih => exact good_dynamic_descendant3 hc ih ha e
  | @dynamicChild m v m' _ ha e ih => exact good_dynamic_descendant3 (cs := [v]) hc ih ha e
  | @fixedToStatic w m _ ih =>
    obtain ⟨h1, -, h3⟩ := MortonIndex3D.fixedToStatic_ok (c := c) ih.1 m
    exact ⟨h1, fun hs => h3 (ih.2 hs)⟩
  | @fixedToDynamic w m _ ih =>
    obtain ⟨h1, -, h3⟩ := MortonIndex3D.fixedToDynamic_ok hc ih.1 m
    exact ⟨h1, fun hs => h3 (ih.2 hs)⟩
  | @staticToFixed w m _ ih =>
    obtain ⟨-, h3⟩ := MortonIndex3D.staticToFixed_ok ih.1.fit ih.1
    exact ⟨ih.1.fit, fun hs => (h3 (ih.2 hs)).1⟩
  | staticToDynamic _ e ih =>
    obtain ⟨_, h1, h2, -⟩ := MortonIndex3D.staticToDynamic_ok hc ih.1
    rw [e] at h1; cases h1
    exact ⟨h2.inv, fun _ => h2⟩
  | @dynamicToFixed w m m' hw _ hs e ih =>
    refine ⟨hw, fun hcan i hi => ?_⟩
    rcases hs with hs | ⟨hle, hs⟩
    · rw [hcan] at hs; cases hs
    · have hcn := ih.2 hcan
      by_cases hd : m.storage.depth ≤ w / dim Octant
      · obtain ⟨_, h1, h2⟩ := MortonIndex3D.dynamicToFixed_value hw hle hcn hd
        rw [e] at h1; cases h1
        rw [h2]
        apply hcn.tail
        have hi' : i < w - w / 3 * 3 := hi
        change i < 8 * m.storage.bits.length - m.storage.depth * 3
        change w % 3 ≤ (8 - m.storage.depth * 3 % 8) % 8 at hs
        rw [hcn.len, DynamicStorage3D.numBytes, dim_Octant]
        omega
      · rw [MortonIndex3D.dynamicToFixed_error (by omega)] at e; simp at e
  | @dynamicToStatic w m m' hw _ e ih =>
    by_cases hd : m.storage.depth ≤ w / dim Octant
    · obtain ⟨_, h1, h2, h3, -⟩ := MortonIndex3D.dynamicToStatic_ok hc hw ih.1.wf hd
      rw [e] at h1; cases h1
      exact ⟨h2, fun _ => h3⟩
    · rw [MortonIndex3D.dynamicToStatic_error (by omega)] at e; simp at e

end MortonRs
