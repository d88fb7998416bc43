import Verif.Props.Sorted

/-! # Common ancestors (C77)

Two nodes of the tree share their ancestors down to some depth and none below. The API has no function for the lowest
common ancestor; a user searches for it with `with_depth` and a comparison, and the search may be a binary one only if the
answers are "same" up to that depth and "different" from there on. -/

namespace MortonRs

open MortonIndex VariableDepthMortonIndex

variable {M Cell : Type} {c : Cfg}

/-- C77: there is a depth `n` such that cutting both indices down to `d` levels gives the same node exactly for
`d ≤ n`. Below it the paths differ, the first different cell decides the order, and every index between the two has
the same first `n` cells. -/
def CommonAncestors [VariableDepthMortonIndex M Cell] [RustOrd M] (c : Cfg) (key : Cell → Nat) (ok : M → Prop) : Prop :=
  ∀ a b, ok a → ok b → ∃ n, n ≤ depth a ∧ n ≤ depth b ∧
    (∀ d, d ≤ depth a → d ≤ depth b → ∃ x y, withDepth c a d = .ok (some x) ∧ withDepth c b d = .ok (some y) ∧
      (RustOrd.cmp c x y = .ok .eq ↔ d ≤ n)) ∧
    (n < depth a → n < depth b → ∃ u v, getCellAtLevel c a n = .ok u ∧ getCellAtLevel c b n = .ok v ∧ u ≠ v ∧
      (RustOrd.lt c a b = .ok true ↔ key u < key v)) ∧
    (n = depth a → RustOrd.le c a b = .ok true) ∧
    ∀ m, ok m → RustOrd.le c a m = .ok true → RustOrd.le c m b = .ok true →
      n ≤ depth m ∧ ∀ l, l < n → getCellAtLevel c m l = getCellAtLevel c a l

/-- Two lists have a longest common prefix. -/
theorem exists_common_prefix [DecidableEq Cell] (as bs : List Cell) :
    ∃ xs as' bs', as = xs ++ as' ∧ bs = xs ++ bs' ∧
      (as' = [] ∨ bs' = [] ∨ ∃ u s v t, as' = u :: s ∧ bs' = v :: t ∧ u ≠ v) := by
  induction as generalizing bs with
  | nil => exact ⟨[], [], bs, rfl, rfl, .inl rfl⟩
  | cons a as ih =>
    cases bs with
    | nil => exact ⟨[], a :: as, [], rfl, rfl, .inr (.inl rfl)⟩
    | cons b bs =>
      by_cases h : a = b
      · obtain ⟨xs, as', bs', h1, h2, h3⟩ := ih bs
        exact ⟨a :: xs, as', bs', by rw [h1]; rfl, by rw [h2, h]; rfl, h3⟩
      · exact ⟨[], a :: as, b :: bs, rfl, rfl, .inr (.inr ⟨a, as, b, bs, rfl, rfl, h⟩)⟩

/-- Up to the common prefix the two lists agree, and not further. -/
theorem take_eq_iff_common {xs as bs : List Cell} {d : Nat}
    (hne : as = [] ∨ bs = [] ∨ ∃ u s v t, as = u :: s ∧ bs = v :: t ∧ u ≠ v)
    (ha : d ≤ (xs ++ as).length) (hb : d ≤ (xs ++ bs).length) :
    (xs ++ as).take d = (xs ++ bs).take d ↔ d ≤ xs.length := by
  constructor
  · intro h
    rcases hne with h0 | h0 | ⟨u, s, v, t, rfl, rfl, huv⟩
    · subst h0; simpa using ha
    · subst h0; simpa using hb
    · refine Nat.le_of_not_lt fun hlt => huv ?_
      have := congrArg (fun l => l[xs.length]?) h
      simpa [List.getElem?_take, hlt] using this
  · intro h
    rw [List.take_append_of_le_length h, List.take_append_of_le_length h]

theorem commonAncestors_of [VariableDepthMortonIndex M Cell] [RustOrd M] [DecidableEq Cell] {ok : M → Prop}
    {p : M → List Cell} {wr : Cell → Cell} {key : Cell → Nat} (hk : Function.Injective key)
    (h : ListLike c ok p wr) (hA : AncLike c ok p) (hC : CmpLike c key ok p) : CommonAncestors c key ok := by
  intro a b ha hb
  obtain ⟨xs, as', bs', e1, e2, e3⟩ := exists_common_prefix (p a) (p b)
  rw [h.depth_eq a ha, h.depth_eq b hb]
  refine ⟨xs.length, by simp [e1], by simp [e2], fun d h1 h2 => ?_, fun h1 h2 => ?_, fun h1 => ?_, fun m hm h1 h2 => ?_⟩
  · obtain ⟨x, x1, x2, x3⟩ := hA.withDepth_take h ha h1
    obtain ⟨y, y1, y2, y3⟩ := hA.withDepth_take h hb h2
    refine ⟨x, y, x1, y1, ?_⟩
    rw [(hC x y x2 y2).1, x3, y3, ← take_eq_iff_common (xs := xs) e3 (by rw [← e1]; exact h1) (by rw [← e2]; exact h2),
      ← e1, ← e2, ← pathCmp_eq_iff key hk]
    exact ⟨fun e => Except.ok.inj e, fun e => congrArg _ e⟩
  · obtain ⟨u, s, v, t, rfl, rfl, huv⟩ : ∃ u s v t, as' = u :: s ∧ bs' = v :: t ∧ u ≠ v := by
      rcases e3 with h0 | h0 | h0
      · simp [e1, h0] at h1
      · simp [e2, h0] at h2
      · exact h0
    refine ⟨u, v, ?_, ?_, huv, ?_⟩
    · rw [h.get a ha _ h1]; simp [e1]
    · rw [h.get b hb _ h2]; simp [e2]
    · have hne : key u ≠ key v := fun e => huv (hk e)
      rw [RustOrd.lt, (hC a b ha hb).2, e1, e2, pathCmp_append_same, pathCmp]
      by_cases hlt : key u < key v
      · simp [hlt]
      · rw [if_neg hlt, if_pos (by omega)]
        simp [hlt]
  · rw [le_iff_path hC ha hb, e1, e2]
    have : as' = [] := by
      rw [e1, List.length_append] at h1
      exact List.eq_nil_of_length_eq_zero (by omega)
    rw [this, List.append_nil]
    exact pathCmp_prefix (List.prefix_append ..)
  · rw [le_iff_path hC ha hm] at h1
    rw [le_iff_path hC hm hb] at h2
    obtain ⟨t, ht⟩ := pathCmp_between hk (e1 ▸ List.prefix_append ..) (e2 ▸ List.prefix_append ..) h1 h2
    rw [h.depth_eq m hm]
    refine ⟨by simp [← ht], fun l hl => ?_⟩
    rw [h.get_eq hm, h.get_eq ha, ← ht, e1, List.getElem?_append_left hl, List.getElem?_append_left hl]

theorem C77_common_ancestors_2D (hc : c.Supported) :
    (∀ w, CommonAncestors c quadrantKey (fun m : MortonIndex2D (StaticStorage2D w) => Reach2D c .all (.static w m))) ∧
    CommonAncestors c quadrantKey (fun m : MortonIndex2D DynamicStorage2D => Reach2D c .all (.dynamic m)) :=
  ⟨fun _ => commonAncestors_of quadrantKey_inj (static_list2 hc) (static_anc2 hc) (static_cmp2 hc),
    commonAncestors_of quadrantKey_inj (dynamic_list2' hc) (dynamic_anc2 hc) (dynamic_cmp2 hc)⟩

theorem C77_common_ancestors_3D (hc : c.Supported) :
    (∀ w, CommonAncestors c octantKey (fun m : MortonIndex3D (StaticStorage3D w) => Reach3D c .all (.static w m))) ∧
    CommonAncestors c octantKey (fun m : MortonIndex3D DynamicStorage3D => Reach3D c .all (.dynamic m)) :=
  ⟨fun _ => commonAncestors_of octantKey_inj (static_list3 hc) (static_anc3 hc) (static_cmp3 hc),
    commonAncestors_of octantKey_inj (dynamic_list3' hc) (dynamic_anc3 hc) (dynamic_cmp3 hc)⟩

/-- `[Three, One, Two]` and `[Three, Two]` share `[Three]` and nothing deeper. -/
example : ∃ n, n ≤ 3 ∧ n ≤ 2 ∧ ∀ d, d ≤ 3 → d ≤ 2 → ∃ x y, withDepth x64 exS2 d = .ok (some x) ∧
    withDepth x64 (⟨⟨0xE000#16, 2⟩⟩ : MortonIndex2D (StaticStorage2D 16)) d = .ok (some y) ∧
    (RustOrd.cmp x64 x y = .ok .eq ↔ d ≤ n) :=
  let ⟨n, h1, h2, h3, _⟩ := (C77_common_ancestors_2D x64_supported).1 16 exS2 ⟨⟨0xE000#16, 2⟩⟩ (exS2_reach _)
    (.staticTryFromSlice (cs := [.Three, .Two]) (by decide) (by rfl))
  ⟨n, h1, h2, h3⟩

example : (do
    let x ← withDepth x64 exS2 1
    let y ← withDepth x64 (⟨⟨0xE000#16, 2⟩⟩ : MortonIndex2D (StaticStorage2D 16)) 1
    return (x, y)) = .ok (some ⟨⟨0xC000#16, 1⟩⟩, some ⟨⟨0xC000#16, 1⟩⟩) ∧
    RustOrd.lt x64 exS2 (⟨⟨0xE000#16, 2⟩⟩ : MortonIndex2D (StaticStorage2D 16)) = .ok true := ⟨rfl, rfl⟩

example : ∃ n, n ≤ 3 ∧ n ≤ 3 ∧ (n = 3 → RustOrd.le x64 exD3 exD3 = .ok true) :=
  let ⟨n, h1, h2, _, _, h5, _⟩ := (C77_common_ancestors_3D x64_supported).2 exD3 exD3 (exD3_reach _) (exD3_reach _)
  ⟨n, h1, h2, h5⟩

end MortonRs
