import Verif.Lemmas.Kinds2D
import Verif.Props.Examples

/-! # Order and equality of 2D indices (C12-C16) -/

namespace MortonRs

open BitStorage MortonIndex

variable {c : Cfg}

/-! ## C12, C13, C14 -/

theorem C12_static_order_2D (hc : c.Supported) (w : Nat) :
    ComparesPaths c quadrantKey (fun m => Reach2D c .all (.static w m)) :=
  (static_list2 hc).comparesPaths (static_cmp2 hc)

example : ∃ as bs, Shows x64 exS2 as ∧ Shows x64 (⟨⟨0#16, 7⟩⟩ : MortonIndex2D (StaticStorage2D 16)) bs ∧
    RustOrd.cmp x64 exS2 ⟨⟨0#16, 7⟩⟩ = .ok (pathCmp quadrantKey as bs) := by
  obtain ⟨as, bs, h1, h2, h3, -⟩ := C12_static_order_2D x64_supported 16 exS2 ⟨⟨0#16, 7⟩⟩ (exS2_reach _)
    (.staticZeroed (d := 7) (by decide) (by rfl))
  exact ⟨as, bs, h1, h2, h3⟩

theorem C13_dynamic_order_2D (hc : c.Supported) :
    ComparesPaths c quadrantKey (fun m => Reach2D c .all (.dynamic m)) :=
  (dynamic_list2' hc).comparesPaths (dynamic_cmp2 hc)

example : ∃ as bs, Shows x64 exD2 as ∧ Shows x64 (MortonIndex2D.dynamicZeroed 8) bs ∧
    RustOrd.cmp x64 exD2 (MortonIndex2D.dynamicZeroed 8) = .ok (pathCmp quadrantKey as bs) := by
  obtain ⟨as, bs, h1, h2, h3, -⟩ := C13_dynamic_order_2D x64_supported exD2 (MortonIndex2D.dynamicZeroed 8)
    (exD2_reach _) (.dynamicZeroed (by unfold Addressable; decide) (.inl rfl))
  exact ⟨as, bs, h1, h2, h3⟩

theorem C14_fixed_order_2D (hc : c.Supported) (w : Nat) :
    ComparesPaths c quadrantKey (fun m => Reach2D c .all (.fixed w m)) :=
  (fixed_list2 hc).comparesPaths (fixed_cmp2 hc)

example : ∃ as bs, Shows x64 exF2 as ∧ Shows x64 (⟨⟨0#16⟩⟩ : MortonIndex2D (FixedDepthStorage2D 16)) bs ∧
    RustOrd.cmp x64 exF2 ⟨⟨0#16⟩⟩ = .ok (pathCmp quadrantKey as bs) := by
  obtain ⟨as, bs, h1, h2, h3, -⟩ := C14_fixed_order_2D x64_supported 16 exF2 ⟨⟨0#16⟩⟩ (exF2_reach _)
    (.fixedDefault 16 (by decide))
  exact ⟨as, bs, h1, h2, h3⟩

/-! ## C15 -/

/-- Fixed-depth indices compare like the numbers they store, for all values. -/
theorem fixed_number_order2 {w : Nat} : CmpLike c id (fun _ : MortonIndex2D (FixedDepthStorage2D w) => True)
    (fun m => [m.storage.bits.toNat]) := by
  intro a b _ _
  have : pathCmp id [a.storage.bits.toNat] [b.storage.bits.toNat] =
      compare a.storage.bits.toNat b.storage.bits.toNat := by
    simp only [pathCmp, id, Nat.compare_eq_ite_lt]
  exact ⟨by rw [this]; rfl, by rw [this]; rfl⟩

theorem fixed_number_eq2 {w : Nat} : EqLike (fun _ : MortonIndex2D (FixedDepthStorage2D w) => True)
    (fun m => [m.storage.bits.toNat]) := by
  intro a b _ _
  change RustOrd.eq a.storage b.storage = true ↔ _
  rw [FixedDepthStorage2D.eq_iff_eq]
  constructor
  · intro h; simp only [h]
  · intro h
    exact FixedDepthStorage2D.ext_value (List.cons.inj h).1

theorem C15_total_order_2D (hc : c.Supported) :
    (∀ w, TotalOrder c (fun _ : MortonIndex2D (FixedDepthStorage2D w) => True) ∧
      CmpAgreesWithEq c (fun _ : MortonIndex2D (FixedDepthStorage2D w) => True)) ∧
    (∀ w, TotalOrder c (fun m => Reach2D c .all (.static w m))) ∧
    TotalOrder c (fun m => Reach2D c .all (.dynamic m)) :=
  ⟨fun _ => ⟨fixed_number_order2.totalOrder Function.injective_id,
      fixed_number_order2.agreesWithEq Function.injective_id fixed_number_eq2⟩,
    fun _ => (static_cmp2 hc).totalOrder quadrantKey_inj, (dynamic_cmp2 hc).totalOrder quadrantKey_inj⟩

example : RustOrd.cmp x64 exD2 exD2 = .ok .eq := (C15_total_order_2D x64_supported).2.2.1 exD2 (exD2_reach _)

/-- Agreement of `cmp` with `==`. Missing: dynamic indices with stray bits, where it fails (`C15_refuted`). -/
theorem C15_cmp_agrees_with_eq_2D_partial (hc : c.Supported) :
    (∀ w, CmpAgreesWithEq c (fun m => Reach2D c .all (.static w m))) ∧
    CmpAgreesWithEq c (fun m => Reach2D c .canonical (.dynamic m)) :=
  ⟨fun _ => (static_cmp2 hc).agreesWithEq quadrantKey_inj (static_eq2 hc),
    (dynamic_cmp2 hc).agreesWithEq quadrantKey_inj (dynamic_eq2 hc)⟩

example : RustOrd.cmp x64 exD2 (MortonIndex2D.dynamicZeroed 5) = .ok .eq ↔
    RustOrd.eq exD2 (MortonIndex2D.dynamicZeroed 5) = true :=
  (C15_cmp_agrees_with_eq_2D_partial x64_supported).2 _ _ (exD2_reach _)
    (.dynamicZeroed (by unfold Addressable; decide) (.inr (by decide)))

/-! ## C16 -/

theorem C16_fixed_eq_2D (hc : c.Supported) (w : Nat) : EqMeansSameCells c (fun m => Reach2D c .all (.fixed w m)) :=
  (fixed_list2 hc).eqMeansSameCells (fixed_eq2 hc)

example : RustOrd.eq exF2 ⟨⟨0#16⟩⟩ = true ↔ depth exF2 = 8 ∧ ∀ l, l < 8 →
    getCellAtLevel x64 exF2 l = getCellAtLevel x64 (⟨⟨0#16⟩⟩ : MortonIndex2D (FixedDepthStorage2D 16)) l :=
  C16_fixed_eq_2D x64_supported 16 exF2 ⟨⟨0#16⟩⟩ (exF2_reach _) (.fixedDefault 16 (by decide))

/-- `==` of static and dynamic indices. Missing: dynamic indices with stray bits, where it fails (`C16_refuted`). -/
theorem C16_eq_2D_partial (hc : c.Supported) :
    (∀ w, EqMeansSameCells c (fun m => Reach2D c .all (.static w m))) ∧
    EqMeansSameCells c (fun m => Reach2D c .canonical (.dynamic m)) :=
  ⟨fun _ => (static_list2 hc).eqMeansSameCells (static_eq2 hc), (dynamic_list2' hc).eqMeansSameCells (dynamic_eq2 hc)⟩

example : RustOrd.eq exS2 ⟨⟨0#16, 3⟩⟩ = true ↔ depth exS2 = 3 ∧ ∀ l, l < 3 →
    getCellAtLevel x64 exS2 l = getCellAtLevel x64 (⟨⟨0#16, 3⟩⟩ : MortonIndex2D (StaticStorage2D 16)) l :=
  (C16_eq_2D_partial x64_supported).1 16 exS2 ⟨⟨0#16, 3⟩⟩ (exS2_reach _) (.staticZeroed (d := 3) (by decide) (by rfl))

end MortonRs
