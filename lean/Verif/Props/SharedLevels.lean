import Verif.Props.FixedStray
import Verif.Props.Sorted

/-! # What the indices of a sorted list have in common (C118)

The number of levels that two indices share, counted cell by cell. In a sorted list the numbers for neighbours decide all others
(radix trees are built from them), and a list that is cut in two, for two processes say, has only few nodes in both parts. -/

namespace MortonRs

open MortonIndex VariableDepthMortonIndex

variable {M Cell : Type}

/-! ## Statement -/

/-- Client code: the loop of `sharedLevels`; `l` levels are the same, `k` are left. -/
def sharedFrom [MortonIndex M Cell] [DecidableEq Cell] (c : Cfg) (a b : M) : Nat → Nat → Res Nat
  | l, 0 => .ok l
  | l, k + 1 => do
    if (← getCellAtLevel c a l) = (← getCellAtLevel c b l) then sharedFrom c a b (l + 1) k else return l

/-- Client code: the number of levels, from the root, on which the cells of `a` and `b` are the same. -/
def sharedLevels [MortonIndex M Cell] [DecidableEq Cell] (c : Cfg) (a b : M) : Res Nat :=
  sharedFrom c a b 0 (min (depth a) (depth b))

/-- Client code: `ms.windows(2).map(|w| shared_levels(w[0], w[1]))`. -/
def neighbourLevels [MortonIndex M Cell] [DecidableEq Cell] (c : Cfg) : List M → Res (List Nat)
  | a :: b :: ms => do
    let n ← sharedLevels c a b
    return n :: (← neighbourLevels c (b :: ms))
  | _ => .ok []

/-- C118, one pair: the cells are the same on all levels up to the number, and there is no further one on which they are. -/
def CountsShared [MortonIndex M Cell] [DecidableEq Cell] (c : Cfg) (ok : M → Prop) : Prop :=
  ∀ a b, ok a → ok b → ∃ n, sharedLevels c a b = .ok n ∧ n ≤ depth a ∧ n ≤ depth b ∧
    (∀ l, l < n → getCellAtLevel c a l = getCellAtLevel c b l) ∧
    (n < depth a → n < depth b → getCellAtLevel c a n ≠ getCellAtLevel c b n)

/-- C118, sorted lists: the number for any two indices of the list is the smallest one of those for the neighbours between them. -/
def NeighboursDecide [MortonIndex M Cell] [RustOrd M] [DecidableEq Cell] (c : Cfg) (ok : M → Prop) : Prop :=
  ∀ ms : List M, (∀ m ∈ ms, ok m) → ms.Pairwise (fun a b => RustOrd.le c a b = .ok true) →
    ∃ ns, neighbourLevels c ms = .ok ns ∧ ns.length = ms.length - 1 ∧
      ∀ (i j : Nat) a b, i < j → ms[i]? = some a → ms[j]? = some b → ∃ n, sharedLevels c a b = .ok n ∧
        (∀ k, i ≤ k → k < j → ∃ e, ns[k]? = some e ∧ n ≤ e) ∧ ∃ k, i ≤ k ∧ k < j ∧ ns[k]? = some n

/-- C118, cuts: if a sorted list is cut between `a` and `b`, the nodes with indices of both parts below them are exactly those above
`a` that are not deeper than what `a` and `b` share, one for each depth. -/
def CutsShareFew [VariableDepthMortonIndex M Cell] [RustOrd M] [DecidableEq Cell] (c : Cfg) (ok : M → Prop) : Prop :=
  ∀ (xs ys : List M) (a b : M), (∀ m ∈ xs ++ a :: b :: ys, ok m) →
    (xs ++ a :: b :: ys).Pairwise (fun a b => RustOrd.le c a b = .ok true) →
    ∃ n, sharedLevels c a b = .ok n ∧ ∀ x, ok x →
      (((∃ u ∈ xs ++ [a], InSubtree c x u) ∧ ∃ v ∈ b :: ys, InSubtree c x v) ↔ InSubtree c x a ∧ depth x ≤ n)

/-! ## Proof -/

section paths
variable [DecidableEq Cell] {key : Cell → Nat}

/-- Length of the longest common prefix. -/
def common : List Cell → List Cell → Nat
  | x :: xs, y :: ys => if x = y then common xs ys + 1 else 0
  | _, _ => 0

theorem le_common_iff {xs ys : List Cell} {n : Nat} :
    n ≤ common xs ys ↔ n ≤ xs.length ∧ n ≤ ys.length ∧ xs.take n = ys.take n := by
  induction xs generalizing ys n with
  | nil => cases n <;> simp [common]
  | cons x xs ih =>
    cases ys with
    | nil => cases n <;> simp [common]
    | cons y ys =>
      cases n with
      | zero => simp
      | succ n =>
        rw [common]
        by_cases h : x = y
        · rw [if_pos h, Nat.add_le_add_iff_right, ih]
          simp [h]
        · rw [if_neg h]
          simp [h]

theorem common_min (hk : Function.Injective key) {xs ys zs : List Cell} (h1 : pathCmp key xs ys ≠ .gt)
    (h2 : pathCmp key ys zs ≠ .gt) : common xs zs = min (common xs ys) (common ys zs) := by
  refine Nat.le_antisymm ?_ ?_
  · obtain ⟨a1, a2, a3⟩ := le_common_iff.mp (Nat.le_refl (common xs zs))
    have hp : xs.take (common xs zs) <+: ys :=
      pathCmp_between hk (List.take_prefix _ _) (a3 ▸ List.take_prefix _ _) h1 h2
    have hl := hp.length_le
    rw [List.length_take, Nat.min_eq_left a1] at hl
    have e := List.prefix_iff_eq_take.mp hp
    rw [List.length_take, Nat.min_eq_left a1] at e
    exact Nat.le_min.mpr ⟨le_common_iff.mpr ⟨a1, hl, e⟩, le_common_iff.mpr ⟨hl, a2, e ▸ a3⟩⟩
  · obtain ⟨a1, a2, a3⟩ := le_common_iff.mp (Nat.min_le_left (common xs ys) (common ys zs))
    obtain ⟨b1, b2, b3⟩ := le_common_iff.mp (Nat.min_le_right (common xs ys) (common ys zs))
    exact le_common_iff.mpr ⟨a1, b2, a3.trans b3⟩

end paths

section generic
variable [DecidableEq Cell] {c : Cfg} {ok : M → Prop} {p : M → List Cell} {wr : Cell → Cell} {key : Cell → Nat}

theorem sharedFrom_common [MortonIndex M Cell] (h : ListLike c ok p wr) {a b : M} (ha : ok a) (hb : ok b) (k l : Nat)
    (hk : l + k = min (p a).length (p b).length) :
    sharedFrom c a b l k = .ok (l + common ((p a).drop l) ((p b).drop l)) := by
  induction k generalizing l with
  | zero =>
    have : common ((p a).drop l) ((p b).drop l) = 0 := by
      rcases Nat.le_total (p a).length (p b).length with hl | hl
      · rw [List.drop_of_length_le (i := l) (by omega)]
        rfl
      · rw [List.drop_of_length_le (i := l) (l := p b) (by omega)]
        cases (p a).drop l <;> rfl
    rw [this]
    rfl
  | succ k ih =>
    have la : l < (p a).length := by omega
    have lb : l < (p b).length := by omega
    rw [sharedFrom, h.get a ha l la, h.get b hb l lb, ok_bind, ok_bind, List.drop_eq_getElem_cons la, List.drop_eq_getElem_cons lb,
      common]
    by_cases e : (p a)[l] = (p b)[l]
    · rw [if_pos e, if_pos e, ih (l + 1) (by omega)]
      congr 1
      omega
    · rw [if_neg e, if_neg e]
      rfl

theorem sharedLevels_common [MortonIndex M Cell] (h : ListLike c ok p wr) {a b : M} (ha : ok a) (hb : ok b) :
    sharedLevels c a b = .ok (common (p a) (p b)) := by
  rw [sharedLevels, h.depth_eq a ha, h.depth_eq b hb, sharedFrom_common h ha hb _ 0 (by omega)]
  simp

theorem countsShared_of [MortonIndex M Cell] (h : ListLike c ok p wr) : CountsShared c ok := by
  intro a b ha hb
  obtain ⟨h1, h2, h3⟩ := le_common_iff.mp (Nat.le_refl (common (p a) (p b)))
  rw [h.depth_eq a ha, h.depth_eq b hb]
  refine ⟨_, sharedLevels_common h ha hb, h1, h2, fun l hl => ?_, fun la lb e => ?_⟩
  · rw [h.get_eq ha, h.get_eq hb, ← List.getElem?_take_of_lt hl, h3, List.getElem?_take_of_lt hl]
  · rw [h.get a ha _ la, h.get b hb _ lb] at e
    have e := Except.ok.inj e
    have : common (p a) (p b) + 1 ≤ common (p a) (p b) := le_common_iff.mpr ⟨la, lb, by
      rw [List.take_succ_eq_append_getElem la, List.take_succ_eq_append_getElem lb, h3, e]⟩
    omega

theorem neighbourLevels_get [MortonIndex M Cell] (h : ListLike c ok p wr) (ms : List M) (hok : ∀ m ∈ ms, ok m) :
    ∃ ns, neighbourLevels c ms = .ok ns ∧ ns.length = ms.length - 1 ∧
      ∀ k a b, ms[k]? = some a → ms[k + 1]? = some b → ns[k]? = some (common (p a) (p b)) := by
  induction ms with
  | nil => exact ⟨[], rfl, rfl, fun k a b e => by simp at e⟩
  | cons a ms ih =>
    cases ms with
    | nil => exact ⟨[], rfl, rfl, fun k a b _ e => by simp at e⟩
    | cons b ms =>
      obtain ⟨ns, n1, n2, n3⟩ := ih fun m hm => hok m (List.mem_cons_of_mem _ hm)
      refine ⟨common (p a) (p b) :: ns, ?_, by simp [n2], fun k x y hx hy => ?_⟩
      · rw [neighbourLevels, sharedLevels_common h (hok a (by simp)) (hok b (by simp)), ok_bind, n1]
        rfl
      · cases k with
        | zero =>
          simp at hx hy
          simp [hx, hy]
        | succ k => simpa using n3 k x y (by simpa using hx) (by simpa using hy)

theorem neighboursDecide_of [MortonIndex M Cell] [RustOrd M] (hk : Function.Injective key) (h : ListLike c ok p wr)
    (hle : ∀ a b, ok a → ok b → RustOrd.le c a b = .ok true → pathCmp key (p a) (p b) ≠ .gt) : NeighboursDecide c ok := by
  intro ms hok hs
  obtain ⟨ns, n1, n2, n3⟩ := neighbourLevels_get h ms hok
  refine ⟨ns, n1, n2, fun i j a b hij hi hj => ?_⟩
  have mem : ∀ {k x}, ms[k]? = some x → ok x := fun e => hok _ (List.mem_of_getElem? e)
  have hp : ∀ {i j : Nat} {a b}, i < j → ms[i]? = some a → ms[j]? = some b → pathCmp key (p a) (p b) ≠ .gt := by
    intro i j a b hij hi hj
    obtain ⟨li, ei⟩ := List.getElem?_eq_some_iff.mp hi
    obtain ⟨lj, ej⟩ := List.getElem?_eq_some_iff.mp hj
    have := List.pairwise_iff_getElem.mp hs i j li lj hij
    rw [ei, ej] at this
    exact hle a b (mem hi) (mem hj) this
  refine ⟨_, sharedLevels_common h (mem hi) (mem hj), ?_⟩
  obtain ⟨d, rfl⟩ : ∃ d, j = i + 1 + d := ⟨j - (i + 1), by omega⟩
  clear hij
  induction d generalizing b with
  | zero =>
    have := n3 i a b hi hj
    exact ⟨fun k k1 k2 => ⟨_, by rw [show k = i by omega]; exact this, Nat.le_refl _⟩, i, Nat.le_refl _, by omega, this⟩
  | succ d ih =>
    obtain ⟨lj, -⟩ := List.getElem?_eq_some_iff.mp hj
    obtain ⟨x, hx⟩ : ∃ x, ms[i + 1 + d]? = some x := ⟨_, List.getElem?_eq_getElem (by omega)⟩
    obtain ⟨h1, k, k1, k2, k3⟩ := ih x hx
    have e := common_min hk (hp (by omega) hi hx) (hp (i := i + 1 + d) (by omega) hx hj)
    have hl := n3 (i + 1 + d) x b hx hj
    rw [e]
    refine ⟨fun l l1 l2 => ?_, ?_⟩
    · by_cases hd : l < i + 1 + d
      · obtain ⟨v, v1, v2⟩ := h1 l l1 hd
        exact ⟨v, v1, Nat.le_trans (Nat.min_le_left _ _) v2⟩
      · obtain rfl : l = i + 1 + d := by omega
        exact ⟨_, hl, Nat.min_le_right _ _⟩
    · rcases Nat.le_total (common (p a) (p x)) (common (p x) (p b)) with hm | hm
      · rw [Nat.min_eq_left hm]
        exact ⟨k, k1, by omega, k3⟩
      · rw [Nat.min_eq_right hm]
        exact ⟨i + 1 + d, by omega, by omega, hl⟩

theorem cutsShareFew_of [VariableDepthMortonIndex M Cell] [RustOrd M] (hk : Function.Injective key) (h : ListLike c ok p wr)
    (hA : AncLike c ok p) (hC : CmpLike c key ok p) : CutsShareFew c ok := by
  intro xs ys a b hok hs
  have ha : ok a := hok a (by simp)
  have hb : ok b := hok b (by simp)
  refine ⟨_, sharedLevels_common h ha hb, fun x hx => ?_⟩
  have hcut : InSubtree c x a ∧ depth x ≤ common (p a) (p b) ↔ p x <+: p a ∧ p x <+: p b := by
    rw [inSubtree_iff hk h hA hC hx ha, h.depth_eq x hx, le_common_iff]
    refine and_congr_right fun h1 => ⟨fun ⟨_, _, e⟩ => ?_, fun h2 => ⟨h1.length_le, h2.length_le, ?_⟩⟩
    · rw [List.prefix_iff_eq_take.mp h1, e]
      exact List.take_prefix _ _
    · rw [← List.prefix_iff_eq_take.mp h1, ← List.prefix_iff_eq_take.mp h2]
  rw [hcut]
  rw [List.pairwise_append] at hs
  obtain ⟨-, s2, s3⟩ := hs
  obtain ⟨s4, s5⟩ := List.pairwise_cons.mp s2
  obtain ⟨s6, -⟩ := List.pairwise_cons.mp s5
  have hab : pathCmp key (p a) (p b) ≠ .gt := (le_iff_path hC ha hb).mp (s4 b (by simp))
  constructor
  · rintro ⟨⟨u, hu, u1⟩, v, hv, v1⟩
    have hou : ok u := hok u (by
      rcases List.mem_append.mp hu with hu | hu
      · exact List.mem_append_left _ hu
      · exact List.mem_append_right _ (by simp [List.mem_singleton.mp hu]))
    have hov : ok v := hok v (List.mem_append_right _ (List.mem_cons_of_mem _ hv))
    rw [inSubtree_iff hk h hA hC hx hou] at u1
    rw [inSubtree_iff hk h hA hC hx hov] at v1
    have hua : pathCmp key (p u) (p a) ≠ .gt := by
      rcases List.mem_append.mp hu with hu | hu
      · exact (le_iff_path hC hou ha).mp (s3 u hu a (by simp))
      · rw [List.mem_singleton.mp hu, pathCmp_refl]
        decide
    have hbv : pathCmp key (p b) (p v) ≠ .gt := by
      rcases List.mem_cons.mp hv with rfl | hv
      · rw [pathCmp_refl]
        decide
      · exact (le_iff_path hC hb hov).mp (s6 v hv)
    exact ⟨pathCmp_between hk u1 v1 hua (pathCmp_trans key hab hbv), pathCmp_between hk u1 v1 (pathCmp_trans key hua hab) hbv⟩
  · rintro ⟨h1, h2⟩
    exact ⟨⟨a, by simp, (inSubtree_iff hk h hA hC hx ha).mpr h1⟩, b, by simp, (inSubtree_iff hk h hA hC hx hb).mpr h2⟩

end generic

/-! ## C118 -/

variable {c : Cfg}

theorem C118_shared_levels_2D (hc : c.Supported) :
    (∀ w, CountsShared c (fun m : MortonIndex2D (FixedDepthStorage2D w) => Reach2D c .all (.fixed w m)) ∧
      NeighboursDecide c (fun m : MortonIndex2D (FixedDepthStorage2D w) => Reach2D c .all (.fixed w m))) ∧
    (∀ w, CountsShared c (fun m : MortonIndex2D (StaticStorage2D w) => Reach2D c .all (.static w m)) ∧
      NeighboursDecide c (fun m : MortonIndex2D (StaticStorage2D w) => Reach2D c .all (.static w m)) ∧
      CutsShareFew c (fun m : MortonIndex2D (StaticStorage2D w) => Reach2D c .all (.static w m))) ∧
    (CountsShared c (fun m : MortonIndex2D DynamicStorage2D => Reach2D c .all (.dynamic m)) ∧
      NeighboursDecide c (fun m : MortonIndex2D DynamicStorage2D => Reach2D c .all (.dynamic m)) ∧
      CutsShareFew c (fun m : MortonIndex2D DynamicStorage2D => Reach2D c .all (.dynamic m))) :=
  ⟨fun _ => ⟨countsShared_of (fixed_list2 hc),
      neighboursDecide_of quadrantKey_inj (fixed_list2 hc) fun _ _ ha hb => (le_iff_path (fixed_cmp2 hc) ha hb).mp⟩,
    fun _ => ⟨countsShared_of (static_list2 hc),
      neighboursDecide_of quadrantKey_inj (static_list2 hc) fun _ _ ha hb => (le_iff_path (static_cmp2 hc) ha hb).mp,
      cutsShareFew_of quadrantKey_inj (static_list2 hc) (static_anc2 hc) (static_cmp2 hc)⟩,
    countsShared_of (dynamic_list2' hc),
    neighboursDecide_of quadrantKey_inj (dynamic_list2' hc) fun _ _ ha hb => (le_iff_path (dynamic_cmp2 hc) ha hb).mp,
    cutsShareFew_of quadrantKey_inj (dynamic_list2' hc) (dynamic_anc2 hc) (dynamic_cmp2 hc)⟩

/-- In 3D, with any bits in the places of fixed-depth indices that belong to no cell. -/
theorem C118_shared_levels_3D (hc : c.Supported) :
    (∀ w, CountsShared c (fun m : MortonIndex3D (FixedDepthStorage3D w) => Reach3D c .all (.fixed w m)) ∧
      NeighboursDecide c (fun m : MortonIndex3D (FixedDepthStorage3D w) => Reach3D c .all (.fixed w m))) ∧
    (∀ w, CountsShared c (fun m : MortonIndex3D (StaticStorage3D w) => Reach3D c .all (.static w m)) ∧
      NeighboursDecide c (fun m : MortonIndex3D (StaticStorage3D w) => Reach3D c .all (.static w m)) ∧
      CutsShareFew c (fun m : MortonIndex3D (StaticStorage3D w) => Reach3D c .all (.static w m))) ∧
    (CountsShared c (fun m : MortonIndex3D DynamicStorage3D => Reach3D c .all (.dynamic m)) ∧
      NeighboursDecide c (fun m : MortonIndex3D DynamicStorage3D => Reach3D c .all (.dynamic m)) ∧
      CutsShareFew c (fun m : MortonIndex3D DynamicStorage3D => Reach3D c .all (.dynamic m))) :=
  ⟨fun _ => ⟨countsShared_of (fixed_list3 hc), neighboursDecide_of octantKey_inj (fixed_list3 hc) fun a b ha _ e hgt => by
      have hp : RustOrd.partialCmp c a b = (RustOrd.cmp c a b).map some := rfl
      rw [RustOrd.le, hp, fixed_cmp_all3 hc (fixed_wf3 hc a ha).fit, hgt] at e
      exact absurd e (by simp [Except.map, ok_bind])⟩,
    fun _ => ⟨countsShared_of (static_list3 hc),
      neighboursDecide_of octantKey_inj (static_list3 hc) fun _ _ ha hb => (le_iff_path (static_cmp3 hc) ha hb).mp,
      cutsShareFew_of octantKey_inj (static_list3 hc) (static_anc3 hc) (static_cmp3 hc)⟩,
    countsShared_of (dynamic_list3' hc),
    neighboursDecide_of octantKey_inj (dynamic_list3' hc) fun _ _ ha hb => (le_iff_path (dynamic_cmp3 hc) ha hb).mp,
    cutsShareFew_of octantKey_inj (dynamic_list3' hc) (dynamic_anc3 hc) (dynamic_cmp3 hc)⟩

/-! ## Examples -/

/-- `[Zero, Two]`, `[Three, One]`, `[Three, One, Two]`, `[Three, Two]`. -/
def exSortedS : List (MortonIndex2D (StaticStorage2D 16)) := [⟨⟨0x2000#16, 2⟩⟩, ⟨⟨0xD000#16, 2⟩⟩, exS2, ⟨⟨0xE000#16, 2⟩⟩]

example : neighbourLevels x64 exSortedS = .ok [0, 2, 1] := by decide +kernel

theorem exSortedS_ok : (∀ m ∈ exSortedS, Reach2D x64 .all (.static 16 m)) ∧
    exSortedS.Pairwise (fun a b => RustOrd.le x64 a b = .ok true) := by
  refine ⟨fun m hm => ?_, by decide +kernel⟩
  simp only [exSortedS, List.mem_cons, List.not_mem_nil, or_false] at hm
  rcases hm with rfl | rfl | rfl | rfl
  · exact .staticTryFromSlice (cs := [.Zero, .Two]) (by decide) (by rfl)
  · exact .staticTryFromSlice (cs := [.Three, .One]) (by decide) (by rfl)
  · exact exS2_reach _
  · exact .staticTryFromSlice (cs := [.Three, .Two]) (by decide) (by rfl)

/-- The second and the fourth one share what the third and the fourth one share. -/
example : ∃ n, sharedLevels x64 (⟨⟨0xD000#16, 2⟩⟩ : MortonIndex2D (StaticStorage2D 16)) ⟨⟨0xE000#16, 2⟩⟩ = .ok n := by
  obtain ⟨ns, -, -, h⟩ := ((C118_shared_levels_2D x64_supported).2.1 16).2.1 exSortedS exSortedS_ok.1 exSortedS_ok.2
  obtain ⟨n, h, -⟩ := h 1 3 _ _ (by decide) rfl rfl
  exact ⟨n, h⟩

/-- Cut between `[Three, One]` and `[Three, One, Two]`: `[Three]` has indices of both parts below it. -/
example : ∃ n, sharedLevels x64 (⟨⟨0xD000#16, 2⟩⟩ : MortonIndex2D (StaticStorage2D 16)) exS2 = .ok n ∧
    1 ≤ n := by
  obtain ⟨n, h1, h2⟩ := ((C118_shared_levels_2D x64_supported).2.1 16).2.2 [⟨⟨0x2000#16, 2⟩⟩] [⟨⟨0xE000#16, 2⟩⟩] ⟨⟨0xD000#16, 2⟩⟩ exS2
    exSortedS_ok.1 exSortedS_ok.2
  exact ⟨n, h1, ((h2 ⟨⟨0xC000#16, 1⟩⟩ (.staticTryFromSlice (cs := [.Three]) (by decide) (by rfl))).mp
    ⟨⟨⟨⟨0xD000#16, 2⟩⟩, by decide, _, rfl, rfl⟩, ⟨⟨0xE000#16, 2⟩⟩, by decide, _, rfl, rfl⟩).2⟩

example : sharedLevels x64 exF3 ⟨⟨0xA4000000#32⟩⟩ = .ok 2 ∧ sharedLevels x64 exD3 exD3 = .ok 3 := by decide +kernel

end MortonRs
