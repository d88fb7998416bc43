import Verif.Lemmas.Kinds3D
import Verif.Props.Examples

/-! # Moving in the tree, 3D (C08-C11, C18) -/

namespace MortonRs

open MortonIndex VariableDepthMortonIndex

variable {c : Cfg}

/-! ## C08 -/

theorem C08_ancestor_3D (hc : c.Supported) :
    (∀ w, AncestorSpec c (fun m => Reach3D c .all (.static w m))) ∧
    AncestorSpec c (fun m => Reach3D c .all (.dynamic m)) :=
  ⟨fun _ => (static_anc3 hc).spec (static_list3 hc), (dynamic_anc3 hc).spec (dynamic_list3' hc)⟩

example : ∃ a, ancestor x64 exD3 ⟨2, by decide⟩ = .ok (some a) ∧ IsPrefix x64 exD3 a 1 :=
  ((C08_ancestor_3D x64_supported).2 exD3 (exD3_reach _) ⟨2, by decide⟩).2 (by decide)

example : ancestor x64 exS3 ⟨4, by decide⟩ = .ok none :=
  ((C08_ancestor_3D x64_supported).1 32 exS3 (exS3_reach _) ⟨4, by decide⟩).1 (by decide)

/-! ## C09 -/

theorem C09_parent_and_with_depth_3D (hc : c.Supported) :
    (∀ w, ParentSpec c (fun m => Reach3D c .all (.static w m)) ∧
      WithDepthSpec c (fun m => Reach3D c .all (.static w m))) ∧
    ParentSpec c (fun m => Reach3D c .all (.dynamic m)) ∧
    WithDepthSpec c (fun m => Reach3D c .all (.dynamic m)) :=
  ⟨fun _ => ⟨(static_anc3 hc).parentSpec (static_list3 hc),
      (static_anc3 hc).withDepthSpec (static_list3 hc) static_refl3⟩,
    (dynamic_anc3 hc).parentSpec (dynamic_list3' hc),
    (dynamic_anc3 hc).withDepthSpec (dynamic_list3' hc) dynamic_refl3⟩

example : ∃ a, withDepth x64 exS3 2 = .ok (some a) ∧ IsPrefix x64 exS3 a 2 :=
  (((C09_parent_and_with_depth_3D x64_supported).1 32).2 exS3 (exS3_reach _) 2).2.1 (by decide)

example : parent x64 (⟨DynamicStorage3D.default⟩ : MortonIndex3D _) = .ok none :=
  ((C09_parent_and_with_depth_3D x64_supported).2.1 _ .dynamicDefault).1 rfl

/-! ## C10 -/

theorem C10_descendant_and_child_3D (hc : c.Supported) :
    (∀ w, DescendantSpec c (fun m => Reach3D c .all (.static w m)) (fun _ n => n < 2 ^ (c.ptrBits - 1)) (some (w / 3)) ∧
      ChildSpec c (fun m => Reach3D c .all (.static w m)) (fun _ _ => True) (some (w / 3))) ∧
    (DynWrites c →
      DescendantSpec c (fun m : MortonIndex3D DynamicStorage3D => Reach3D c .all (.dynamic m))
        (fun m n => Addressable c ((depth m + n) * 3)) none ∧
      ChildSpec c (fun m : MortonIndex3D DynamicStorage3D => Reach3D c .all (.dynamic m))
        (fun m n => Addressable c ((depth m + n) * 3)) none) :=
  ⟨fun _ => ⟨(static_desc3 hc).spec (static_list3 hc),
      fun m hm v _ => (static_desc3 hc).childSpec (static_list3 hc) m hm v (one_lt_isize hc (x := v))⟩,
    fun hw => ⟨(dynamic_desc3 hc hw).spec (dynamic_list3 hc hw), (dynamic_desc3 hc hw).childSpec (dynamic_list3 hc hw)⟩⟩

example : Extends x64 exS3 [.One, .Three] (descendant x64 exS3 [.One, .Three]) :=
  (((C10_descendant_and_child_3D x64_supported).1 32).1 exS3 (exS3_reach _) [.One, .Three] (by decide)).2
    (by unfold Exceeds; decide)

example : descendant x64 exS3 (List.replicate 8 .One) = .ok none :=
  (((C10_descendant_and_child_3D x64_supported).1 32).1 exS3 (exS3_reach _) (List.replicate 8 .One) (by decide)).1
    (by unfold Exceeds; decide)

/-! ## C11 -/

/-- The round trips on the histories without stray bits. Missing: static indices with stray bits (from
`from_raw_index`, or `from_grid_index` on targets whose pointers are narrower than `MAX_LEVELS`), where they
fail (`C11_refuted_raw_3D`), and dynamic indices converted from such. -/
theorem C11_round_trips_3D_partial (hc : c.Supported) :
    (∀ w, DescendantAncestor c (fun m => Reach3D c .canonical (.static w m)) (fun _ n => n < 2 ^ (c.ptrBits - 1)) ∧
      ChildParent c (fun m => Reach3D c .canonical (.static w m)) (fun _ _ => True) ∧
      ParentChild c (fun m => Reach3D c .canonical (.static w m))) ∧
    (DynWrites c →
      DescendantAncestor c (fun m : MortonIndex3D DynamicStorage3D => Reach3D c .canonical (.dynamic m))
        (fun m n => Addressable c ((depth m + n) * 3)) ∧
      ChildParent c (fun m : MortonIndex3D DynamicStorage3D => Reach3D c .canonical (.dynamic m))
        (fun m n => Addressable c ((depth m + n) * 3)) ∧
      ParentChild c (fun m => Reach3D c .canonical (.dynamic m))) := by
  refine ⟨fun w => ⟨?_, ?_, ?_⟩, fun hw => ⟨?_, ?_, ?_⟩⟩
  · exact (static_desc3 hc).descendantAncestor (static_anc3 hc) (static_eq3 hc)
  · exact fun m hm v _ => (static_desc3 hc).childParent (static_anc3 hc) (static_eq3 hc) m hm v (one_lt_isize hc (x := v))
  · exact (static_desc3 hc).parentChild (static_list3 hc) (static_anc3 hc) (static_eq3 hc)
      (fun _ _ _ _ _ => one_lt_isize hc (x := Octant.Zero)) (fun m hm => Nat.not_lt.mpr (static_depth_le3 hc m hm))
  · exact (dynamic_desc3 hc hw).descendantAncestor (dynamic_anc3 hc) (dynamic_eq3 hc)
  · exact (dynamic_desc3 hc hw).childParent (dynamic_anc3 hc) (dynamic_eq3 hc)
  · refine (dynamic_desc3 hc hw).parentChild (dynamic_list3 hc hw) (dynamic_anc3 hc) (dynamic_eq3 hc)
      (fun q m hm hq e => ?_) (fun _ _ h => h)
    have := dynamic_addr3 hc m hm
    rw [← e, ← (dynamic_list3 hc hw).depth_eq q hq] at this
    exact this

example : ∃ q, parent x64 (⟨⟨0xA7200000#32, 4⟩⟩ : MortonIndex3D (StaticStorage3D 32)) = .ok (some q) ∧
    RustOrd.eq q exS3 = true :=
  ((C11_round_trips_3D_partial x64_supported).1 32).2.1 exS3 (exS3_reach _) .Two trivial _ (by rfl)

/-! ## C18 -/

theorem C18_subtree_contiguous_3D (hc : c.Supported) :
    (∀ w, SubtreeContiguous c (fun m => Reach3D c .all (.static w m))) ∧
    SubtreeContiguous c (fun m => Reach3D c .all (.dynamic m)) :=
  ⟨fun _ => subtreeContiguous octantKey_inj (static_list3 hc) (static_anc3 hc) (static_cmp3 hc),
    subtreeContiguous octantKey_inj (dynamic_list3' hc) (dynamic_anc3 hc) (dynamic_cmp3 hc)⟩

example : RustOrd.le x64 (⟨⟨0xA0000000#32, 1⟩⟩ : MortonIndex3D (StaticStorage3D 32)) exS3 = .ok true :=
  ((C18_subtree_contiguous_3D x64_supported).1 32).1 _ exS3
    (.staticTryFromSlice (cs := [.Five]) (by decide) (by rfl)) (exS3_reach _) ⟨_, by rfl, by rfl⟩

end MortonRs
