import Verif.Props.Traverse

/-! # Sorting indices makes a tree (C69) -/

namespace MortonRs

open MortonIndex VariableDepthMortonIndex

variable {M Cell : Type}

/-! ## Statement -/

/-- Each element is `<=` every later one. -/
def Sorted [RustOrd M] (c : Cfg) (ms : List M) : Prop := ms.Pairwise (fun a b => RustOrd.le c a b = .ok true)

/-- C69, README: "Sort a bunch of 2D Morton indices and you have a quadtree". Every list of indices can be sorted, and
in a sorted list the nodes of every subtree form one block: what precedes the block is smaller than the root of the
subtree, what follows it is greater than every node of the subtree, and inside the block the root precedes the nodes
below it, and those are grouped by child in cell order. -/
def SortedIsTree [VariableDepthMortonIndex M Cell] [RustOrd M] (c : Cfg) (key : Cell → Nat) (ok : M → Prop) : Prop :=
  (∀ ms : List M, (∀ a ∈ ms, ok a) → ∃ ms', ms'.Perm ms ∧ Sorted c ms') ∧
  (∀ ms : List M, (∀ a ∈ ms, ok a) → Sorted c ms → ∀ x, ok x → ∃ before block after,
    ms = before ++ block ++ after ∧
    (∀ a ∈ before, ¬ InSubtree c x a ∧ RustOrd.lt c a x = .ok true) ∧
    (∀ a ∈ block, InSubtree c x a) ∧
    (∀ a ∈ after, ¬ InSubtree c x a ∧ ∀ y, ok y → InSubtree c x y → RustOrd.lt c y a = .ok true)) ∧
  (∀ x a b, ok x → ok a → ok b → InSubtree c x a → InSubtree c x b → depth x < depth b →
    (depth a = depth x → RustOrd.lt c a b = .ok true) ∧
    (depth x < depth a → ∃ v w, getCellAtLevel c a (depth x) = .ok v ∧ getCellAtLevel c b (depth x) = .ok w ∧
      (key v < key w → RustOrd.lt c a b = .ok true)))

/-! ## Proof -/

theorem pathCmp_after (key : Cell → Nat) (hk : Function.Injective key) {xs ys as : List Cell}
    (h : pathCmp key xs as = .lt) (hn : ¬ xs <+: as) (hy : xs <+: ys) : pathCmp key ys as = .lt := by
  induction xs generalizing as ys with
  | nil => exact absurd List.nil_prefix hn
  | cons x xs ih =>
    obtain ⟨t, rfl⟩ := hy
    cases as with
    | nil => simp [pathCmp] at h
    | cons a as =>
      simp only [List.cons_append, pathCmp] at h ⊢
      split at h
      · next he => simp [he]
      · next he =>
        have hxa : x = a := by
          apply hk
          by_cases h' : key a < key x
          · simp [h'] at h
          · omega
        subst hxa
        simp only [Nat.lt_irrefl, if_false] at h ⊢
        exact ih h (fun hp => hn (List.cons_prefix_cons.mpr ⟨rfl, hp⟩)) ⟨t, rfl⟩

variable [VariableDepthMortonIndex M Cell] [RustOrd M] {c : Cfg} {ok : M → Prop} {p : M → List Cell} {wr : Cell → Cell}
  {key : Cell → Nat}

omit [VariableDepthMortonIndex M Cell] in
theorem le_iff_path (hC : CmpLike c key ok p) {a b : M} (ha : ok a) (hb : ok b) :
    RustOrd.le c a b = .ok true ↔ pathCmp key (p a) (p b) ≠ .gt := by
  rw [RustOrd.le, (hC a b ha hb).2]
  cases pathCmp key (p a) (p b) <;> decide

omit [VariableDepthMortonIndex M Cell] in
theorem lt_iff_path (hC : CmpLike c key ok p) {a b : M} (ha : ok a) (hb : ok b) :
    RustOrd.lt c a b = .ok true ↔ pathCmp key (p a) (p b) = .lt := by
  rw [RustOrd.lt, (hC a b ha hb).2]
  cases pathCmp key (p a) (p b) <;> decide

omit [VariableDepthMortonIndex M Cell] in
theorem can_sort (hC : CmpLike c key ok p) (ms : List M) (h : ∀ a ∈ ms, ok a) :
    ∃ ms', ms'.Perm ms ∧ Sorted c ms' := by
  let le := fun a b : M => pathCmp key (p a) (p b) != .gt
  have hp : (ms.mergeSort le).Perm ms := List.mergeSort_perm ms le
  refine ⟨ms.mergeSort le, hp, ?_⟩
  have hs : (ms.mergeSort le).Pairwise (fun a b => le a b = true) := by
    apply List.pairwise_mergeSort
    · intro a b d h1 h2
      simp only [le, bne_iff_ne] at *
      exact pathCmp_trans key h1 h2
    · intro a b
      simp only [le, Bool.or_eq_true, bne_iff_ne]
      rw [← pathCmp_swap key (p a) (p b)]
      cases pathCmp key (p a) (p b) <;> decide
  refine List.Pairwise.imp_of_mem ?_ hs
  intro a b ha hb hab
  rw [le_iff_path hC (h a (hp.mem_iff.mp ha)) (h b (hp.mem_iff.mp hb))]
  simpa [le] using hab

theorem blocks (hk : Function.Injective key) (h : ListLike c ok p wr) (hA : AncLike c ok p) (hC : CmpLike c key ok p)
    {x : M} (hx : ok x) (ms : List M) (hms : ∀ a ∈ ms, ok a) (hs : Sorted c ms) : ∃ before block after,
    ms = before ++ block ++ after ∧
    (∀ a ∈ before, ¬ InSubtree c x a ∧ RustOrd.lt c a x = .ok true) ∧
    (∀ a ∈ block, InSubtree c x a) ∧
    (∀ a ∈ after, ¬ InSubtree c x a ∧ ∀ y, ok y → InSubtree c x y → RustOrd.lt c y a = .ok true) := by
  induction ms with
  | nil => exact ⟨[], [], [], rfl, by simp, by simp, by simp⟩
  | cons m ms ih =>
    have hm := hms m List.mem_cons_self
    have hms' : ∀ a ∈ ms, ok a := fun a ha => hms a (List.mem_cons_of_mem _ ha)
    have hs' := List.pairwise_cons.mp hs
    have hle : ∀ a ∈ ms, pathCmp key (p m) (p a) ≠ .gt := fun a ha =>
      (le_iff_path hC hm (hms' a ha)).mp (hs'.1 a ha)
    obtain ⟨bf, bl, af, e, i1, i2, i3⟩ := ih hms' hs'.2
    have outside : ∀ a, ok a → pathCmp key (p x) (p a) = .lt → ¬ p x <+: p a →
        ¬ InSubtree c x a ∧ ∀ y, ok y → InSubtree c x y → RustOrd.lt c y a = .ok true := by
      intro a ha h1 h2
      refine ⟨fun h3 => h2 ((inSubtree_iff hk h hA hC hx ha).mp h3), fun y hy h3 => ?_⟩
      rw [lt_iff_path hC hy ha]
      exact pathCmp_after key hk h1 h2 ((inSubtree_iff hk h hA hC hx hy).mp h3)
    by_cases hin : p x <+: p m
    · -- the root of the block or inside it: nothing later is smaller than `x`
      have hbf : bf = [] := by
        cases bf with
        | nil => rfl
        | cons a bf =>
          have ha : a ∈ ms := by rw [e]; simp
          have h1 := (lt_iff_path hC (hms' a ha) hx).mp (i1 a List.mem_cons_self).2
          have h2 := pathCmp_trans key (pathCmp_prefix hin) (hle a ha)
          rw [← pathCmp_swap key (p a), h1] at h2
          exact absurd rfl h2
      subst hbf
      refine ⟨[], m :: bl, af, by rw [e]; rfl, by simp, ?_, i3⟩
      intro a ha
      rw [List.mem_cons] at ha
      rcases ha with rfl | ha
      · exact (inSubtree_iff hk h hA hC hx hm).mpr hin
      · exact i2 a ha
    · cases hcmp : pathCmp key (p m) (p x) with
      | lt =>
        refine ⟨m :: bf, bl, af, by rw [e]; rfl, ?_, i2, i3⟩
        intro a ha
        rw [List.mem_cons] at ha
        rcases ha with rfl | ha
        · exact ⟨fun h3 => hin ((inSubtree_iff hk h hA hC hx hm).mp h3), (lt_iff_path hC hm hx).mpr hcmp⟩
        · exact i1 a ha
      | eq =>
        rw [pathCmp_eq_iff key hk] at hcmp
        rw [hcmp] at hin
        exact absurd List.prefix_rfl hin
      | gt =>
        have hgt : pathCmp key (p x) (p m) = .lt := by rw [← pathCmp_swap key (p m), hcmp]; rfl
        refine ⟨[], [], m :: ms, rfl, by simp, by simp, ?_⟩
        intro a ha
        rw [List.mem_cons] at ha
        rcases ha with rfl | ha
        · exact outside a hm hgt hin
        · have h1 : pathCmp key (p x) (p a) ≠ .gt := pathCmp_trans key (by rw [hgt]; decide) (hle a ha)
          have h2 : ¬ p x <+: p a := fun h3 => by
            have := pathCmp_between hk (xs := p x) (as := p x) List.prefix_rfl h3 (by rw [hgt]; decide) (hle a ha)
            exact hin this
          refine outside a (hms' a ha) ?_ h2
          cases h3 : pathCmp key (p x) (p a) with
          | lt => rfl
          | gt => exact absurd h3 h1
          | eq => rw [pathCmp_eq_iff key hk] at h3; rw [h3] at h2; exact absurd List.prefix_rfl h2

theorem sortedIsTree_of (hk : Function.Injective key) (h : ListLike c ok p wr) (hA : AncLike c ok p)
    (hC : CmpLike c key ok p) : SortedIsTree c key ok := by
  refine ⟨fun ms hms => can_sort hC ms hms, fun ms hms hs x hx => blocks hk h hA hC hx ms hms hs, ?_⟩
  intro x a b hx ha hb hxa hxb hd
  rw [inSubtree_iff hk h hA hC hx ha] at hxa
  rw [inSubtree_iff hk h hA hC hx hb] at hxb
  rw [h.depth_eq x hx, h.depth_eq b hb] at hd
  rw [h.depth_eq x hx, h.depth_eq a ha]
  obtain ⟨s, hs⟩ := hxa
  obtain ⟨t, ht⟩ := hxb
  have hlt : 0 < t.length := by rw [← ht, List.length_append] at hd; omega
  cases t with
  | nil => simp at hlt
  | cons w t =>
    refine ⟨fun hda => ?_, fun hda => ?_⟩
    · have : s = [] := List.eq_nil_of_length_eq_zero (by rw [← hs, List.length_append] at hda; omega)
      subst this
      rw [lt_iff_path hC ha hb, ← hs, ← ht, List.append_nil]
      exact pathCmp_longer key _ _ _
    · cases s with
      | nil => rw [List.append_nil] at hs; rw [hs] at hda; omega
      | cons v s =>
        refine ⟨v, w, ?_, ?_, fun hvw => ?_⟩
        · rw [h.get a ha _ hda]
          congr 1
          simp [← hs]
        · rw [h.get b hb _ hd]
          congr 1
          simp [← ht]
        · rw [lt_iff_path hC ha hb, ← hs, ← ht]
          exact pathCmp_branch key hvw _ _ _

/-! ## C69 -/

theorem C69_sorted_is_tree_2D {c : Cfg} (hc : c.Supported) :
    (∀ w, SortedIsTree c quadrantKey (fun m => Reach2D c .all (.static w m))) ∧
    SortedIsTree c quadrantKey (fun m => Reach2D c .all (.dynamic m)) :=
  ⟨fun _ => sortedIsTree_of quadrantKey_inj (static_list2 hc) (static_anc2 hc) (static_cmp2 hc),
    sortedIsTree_of quadrantKey_inj (dynamic_list2' hc) (dynamic_anc2 hc) (dynamic_cmp2 hc)⟩

theorem C69_sorted_is_tree_3D {c : Cfg} (hc : c.Supported) :
    (∀ w, SortedIsTree c octantKey (fun m => Reach3D c .all (.static w m))) ∧
    SortedIsTree c octantKey (fun m => Reach3D c .all (.dynamic m)) :=
  ⟨fun _ => sortedIsTree_of octantKey_inj (static_list3 hc) (static_anc3 hc) (static_cmp3 hc),
    sortedIsTree_of octantKey_inj (dynamic_list3' hc) (dynamic_anc3 hc) (dynamic_cmp3 hc)⟩

theorem exSorted : Sorted x64 [(⟨⟨0#16, 0⟩⟩ : MortonIndex2D (StaticStorage2D 16)), exS2, ⟨⟨0xE000#16, 2⟩⟩] := by
  unfold Sorted
  decide +kernel

/-- The root, `[Three, One, Two]`, `[Three, Two]`: the block of `[Three]` is the last two. -/
example : ∃ before block after, [(⟨⟨0#16, 0⟩⟩ : MortonIndex2D (StaticStorage2D 16)), exS2, ⟨⟨0xE000#16, 2⟩⟩] =
      before ++ block ++ after ∧
    (∀ a ∈ before, ¬ InSubtree x64 (⟨⟨0xC000#16, 1⟩⟩ : MortonIndex2D (StaticStorage2D 16)) a ∧
      RustOrd.lt x64 a ⟨⟨0xC000#16, 1⟩⟩ = .ok true) ∧
    (∀ a ∈ block, InSubtree x64 ⟨⟨0xC000#16, 1⟩⟩ a) := by
  have h1 : Reach2D x64 .all (.static 16 ⟨⟨0xC000#16, 1⟩⟩) := .staticTryFromSlice (cs := [.Three]) (by decide) (by rfl)
  have h2 : Reach2D x64 .all (.static 16 ⟨⟨0xE000#16, 2⟩⟩) :=
    .staticTryFromSlice (cs := [.Three, .Two]) (by decide) (by rfl)
  obtain ⟨bf, bl, af, e, e1, e2, -⟩ := ((C69_sorted_is_tree_2D x64_supported).1 16).2.1
    [⟨⟨0#16, 0⟩⟩, exS2, ⟨⟨0xE000#16, 2⟩⟩]
    (by
      intro a ha
      simp only [List.mem_cons, List.not_mem_nil, or_false] at ha
      rcases ha with rfl | rfl | rfl
      · exact .staticDefault 16 (by decide)
      · exact exS2_reach _
      · exact h2)
    exSorted _ h1
  exact ⟨bf, bl, af, e, e1, e2⟩

/-- Dynamic 3D indices in any order can be sorted. -/
example : ∃ ms, ms.Perm [exD3, ⟨DynamicStorage3D.default⟩] ∧ Sorted x64 ms :=
  (C69_sorted_is_tree_3D x64_supported).2.1 _ (by
    intro a ha
    simp only [List.mem_cons, List.not_mem_nil, or_false] at ha
    rcases ha with rfl | rfl
    · exact exD3_reach _
    · exact .dynamicDefault)

end MortonRs
