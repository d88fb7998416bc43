import Verif.Lemmas.Kinds2D
import Verif.Props.Examples

/-! # Moving in the tree, 2D (C08-C11, C18) -/

namespace MortonRs

open MortonIndex VariableDepthMortonIndex

variable {c : Cfg}

/-! ## C08 -/

theorem C08_ancestor_2D (hc : c.Supported) :
    (∀ w, AncestorSpec c (fun m => Reach2D c .all (.static w m))) ∧
    AncestorSpec c (fun m => Reach2D c .all (.dynamic m)) :=
  ⟨fun _ => (static_anc2 hc).spec (static_list2 hc), (dynamic_anc2 hc).spec (dynamic_list2' hc)⟩

example : ∃ a, ancestor x64 exD2 ⟨2, by decide⟩ = .ok (some a) ∧ IsPrefix x64 exD2 a 1 :=
  ((C08_ancestor_2D x64_supported).2 exD2 (exD2_reach _) ⟨2, by decide⟩).2 (by decide)

example : ancestor x64 exS2 ⟨4, by decide⟩ = .ok none :=
  ((C08_ancestor_2D x64_supported).1 16 exS2 (exS2_reach _) ⟨4, by decide⟩).1 (by decide)

/-! ## C09 -/

theorem C09_parent_and_with_depth_2D (hc : c.Supported) :
    (∀ w, ParentSpec c (fun m => Reach2D c .all (.static w m)) ∧
      WithDepthSpec c (fun m => Reach2D c .all (.static w m))) ∧
    ParentSpec c (fun m => Reach2D c .all (.dynamic m)) ∧
    WithDepthSpec c (fun m => Reach2D c .all (.dynamic m)) :=
  ⟨fun _ => ⟨(static_anc2 hc).parentSpec (static_list2 hc),
      (static_anc2 hc).withDepthSpec (static_list2 hc) static_refl2⟩,
    (dynamic_anc2 hc).parentSpec (dynamic_list2' hc),
    (dynamic_anc2 hc).withDepthSpec (dynamic_list2' hc) dynamic_refl2⟩

example : ∃ a, withDepth x64 exS2 2 = .ok (some a) ∧ IsPrefix x64 exS2 a 2 :=
  (((C09_parent_and_with_depth_2D x64_supported).1 16).2 exS2 (exS2_reach _) 2).2.1 (by decide)

example : parent x64 (⟨DynamicStorage2D.default⟩ : MortonIndex2D _) = .ok none :=
  ((C09_parent_and_with_depth_2D x64_supported).2.1 _ .dynamicDefault).1 rfl

/-! ## C10 -/

theorem C10_descendant_and_child_2D (hc : c.Supported) :
    (∀ w, DescendantSpec c (fun m => Reach2D c .all (.static w m)) (fun _ n => n < 2 ^ (c.ptrBits - 1)) (some (w / 2)) ∧
      ChildSpec c (fun m => Reach2D c .all (.static w m)) (fun _ _ => True) (some (w / 2))) ∧
    (DynWrites c →
      DescendantSpec c (fun m : MortonIndex2D DynamicStorage2D => Reach2D c .all (.dynamic m))
        (fun m n => Addressable c ((depth m + n) * 2)) none ∧
      ChildSpec c (fun m : MortonIndex2D DynamicStorage2D => Reach2D c .all (.dynamic m))
        (fun m n => Addressable c ((depth m + n) * 2)) none) :=
  ⟨fun _ => ⟨(static_desc2 hc).spec (static_list2 hc),
      fun m hm v _ => (static_desc2 hc).childSpec (static_list2 hc) m hm v (one_lt_isize hc (x := v))⟩,
    fun hw => ⟨(dynamic_desc2 hc hw).spec (dynamic_list2 hc hw), (dynamic_desc2 hc hw).childSpec (dynamic_list2 hc hw)⟩⟩

example : Extends x64 exS2 [.One, .Three] (descendant x64 exS2 [.One, .Three]) :=
  (((C10_descendant_and_child_2D x64_supported).1 16).1 exS2 (exS2_reach _) [.One, .Three] (by decide)).2
    (by unfold Exceeds; decide)

example : descendant x64 exS2 (List.replicate 6 .One) = .ok none :=
  (((C10_descendant_and_child_2D x64_supported).1 16).1 exS2 (exS2_reach _) (List.replicate 6 .One) (by decide)).1
    (by unfold Exceeds; decide)

/-! ## C11 -/

/-- The round trips. Missing: dynamic indices that go back to `zeroed(d)` with `d` a multiple of four, where they
fail (`C11_refuted`). -/
theorem C11_round_trips_2D_partial (hc : c.Supported) :
    (∀ w, DescendantAncestor c (fun m => Reach2D c .all (.static w m)) (fun _ n => n < 2 ^ (c.ptrBits - 1)) ∧
      ChildParent c (fun m => Reach2D c .all (.static w m)) (fun _ _ => True) ∧
      ParentChild c (fun m => Reach2D c .all (.static w m))) ∧
    (DynWrites c →
      DescendantAncestor c (fun m : MortonIndex2D DynamicStorage2D => Reach2D c .canonical (.dynamic m))
        (fun m n => Addressable c ((depth m + n) * 2)) ∧
      ChildParent c (fun m : MortonIndex2D DynamicStorage2D => Reach2D c .canonical (.dynamic m))
        (fun m n => Addressable c ((depth m + n) * 2)) ∧
      ParentChild c (fun m => Reach2D c .canonical (.dynamic m))) := by
  refine ⟨fun w => ⟨?_, ?_, ?_⟩, fun hw => ⟨?_, ?_, ?_⟩⟩
  · exact (static_desc2 hc).descendantAncestor (static_anc2 hc) (static_eq2 hc)
  · exact fun m hm v _ => (static_desc2 hc).childParent (static_anc2 hc) (static_eq2 hc) m hm v (one_lt_isize hc (x := v))
  · exact (static_desc2 hc).parentChild (static_list2 hc) (static_anc2 hc) (static_eq2 hc)
      (fun _ _ _ _ _ => one_lt_isize hc (x := Quadrant.Zero)) (fun m hm => Nat.not_lt.mpr (static_depth_le2 hc m hm))
  · exact (dynamic_desc2 hc hw).descendantAncestor (dynamic_anc2 hc) (dynamic_eq2 hc)
  · exact (dynamic_desc2 hc hw).childParent (dynamic_anc2 hc) (dynamic_eq2 hc)
  · refine (dynamic_desc2 hc hw).parentChild (dynamic_list2 hc hw) (dynamic_anc2 hc) (dynamic_eq2 hc)
      (fun q m hm hq e => ?_) (fun _ _ h => h)
    have := dynamic_addr2 hc m hm
    rw [← e, ← (dynamic_list2 hc hw).depth_eq q hq] at this
    exact this

example : ∃ q, parent x64 (⟨⟨0xDA00#16, 4⟩⟩ : MortonIndex2D (StaticStorage2D 16)) = .ok (some q) ∧
    RustOrd.eq q exS2 = true :=
  ((C11_round_trips_2D_partial x64_supported).1 16).2.1 exS2 (exS2_reach _) .Two trivial _ (by rfl)

/-! ## C18 -/

theorem C18_subtree_contiguous_2D (hc : c.Supported) :
    (∀ w, SubtreeContiguous c (fun m => Reach2D c .all (.static w m))) ∧
    SubtreeContiguous c (fun m => Reach2D c .all (.dynamic m)) :=
  ⟨fun _ => subtreeContiguous quadrantKey_inj (static_list2 hc) (static_anc2 hc) (static_cmp2 hc),
    subtreeContiguous quadrantKey_inj (dynamic_list2' hc) (dynamic_anc2 hc) (dynamic_cmp2 hc)⟩

example : RustOrd.le x64 (⟨⟨0xC000#16, 1⟩⟩ : MortonIndex2D (StaticStorage2D 16)) exS2 = .ok true :=
  ((C18_subtree_contiguous_2D x64_supported).1 16).1 _ exS2
    (.staticTryFromSlice (cs := [.Three]) (by decide) (by rfl)) (exS2_reach _) ⟨_, by rfl, by rfl⟩

end MortonRs
