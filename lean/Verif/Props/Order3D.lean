import Verif.Lemmas.Kinds3D
import Verif.Props.Examples

/-! # Order and equality of 3D indices (C12-C16) -/

namespace MortonRs

open BitStorage MortonIndex

variable {c : Cfg}

/-! ## C12, C13, C14 -/

theorem C12_static_order_3D (hc : c.Supported) (w : Nat) :
    ComparesPaths c octantKey (fun m => Reach3D c .all (.static w m)) :=
  (static_list3 hc).comparesPaths (static_cmp3 hc)

example : ∃ as bs, Shows x64 exS3 as ∧ Shows x64 (⟨⟨0#32, 7⟩⟩ : MortonIndex3D (StaticStorage3D 32)) bs ∧
    RustOrd.cmp x64 exS3 ⟨⟨0#32, 7⟩⟩ = .ok (pathCmp octantKey as bs) := by
  obtain ⟨as, bs, h1, h2, h3, -⟩ := C12_static_order_3D x64_supported 32 exS3 ⟨⟨0#32, 7⟩⟩ (exS3_reach _)
    (.staticZeroed (d := 7) (by decide) (by rfl))
  exact ⟨as, bs, h1, h2, h3⟩

theorem C13_dynamic_order_3D (hc : c.Supported) :
    ComparesPaths c octantKey (fun m => Reach3D c .all (.dynamic m)) :=
  (dynamic_list3' hc).comparesPaths (dynamic_cmp3 hc)

example : ∃ as bs, Shows x64 exD3 as ∧ Shows x64 (⟨⟨[0#8, 0#8, 0#8], 8⟩⟩ : MortonIndex3D DynamicStorage3D) bs ∧
    RustOrd.cmp x64 exD3 ⟨⟨[0#8, 0#8, 0#8], 8⟩⟩ = .ok (pathCmp octantKey as bs) := by
  obtain ⟨as, bs, h1, h2, h3, -⟩ := C13_dynamic_order_3D x64_supported exD3 ⟨⟨[0#8, 0#8, 0#8], 8⟩⟩
    (exD3_reach _) (.dynamicZeroed (d := 8) (by unfold Addressable; decide) (by rfl))
  exact ⟨as, bs, h1, h2, h3⟩

/-- The order on the histories without stray bits. Missing: fixed-depth indices with non-zero unused bits, which
raw bits and some conversions from dynamic indices produce and where it fails (`C14_refuted`). -/
theorem C14_fixed_order_3D_partial (hc : c.Supported) (w : Nat) :
    ComparesPaths c octantKey (fun m => Reach3D c .canonical (.fixed w m)) :=
  (fixed_list3 hc).comparesPaths (fixed_cmp3 hc)

example : ∃ as bs, Shows x64 exF3 as ∧ Shows x64 (⟨⟨0#32⟩⟩ : MortonIndex3D (FixedDepthStorage3D 32)) bs ∧
    RustOrd.cmp x64 exF3 ⟨⟨0#32⟩⟩ = .ok (pathCmp octantKey as bs) := by
  obtain ⟨as, bs, h1, h2, h3, -⟩ := C14_fixed_order_3D_partial x64_supported 32 exF3 ⟨⟨0#32⟩⟩ (exF3_reach _)
    (.fixedDefault 32 (by decide))
  exact ⟨as, bs, h1, h2, h3⟩

/-! ## C15 -/

/-- Fixed-depth indices compare like the numbers they store, for all values. -/
theorem fixed_number_order3 {w : Nat} : CmpLike c id (fun _ : MortonIndex3D (FixedDepthStorage3D w) => True)
    (fun m => [m.storage.bits.toNat]) := by
  intro a b _ _
  have : pathCmp id [a.storage.bits.toNat] [b.storage.bits.toNat] =
      compare a.storage.bits.toNat b.storage.bits.toNat := by
    simp only [pathCmp, id, Nat.compare_eq_ite_lt]
  exact ⟨by rw [this]; rfl, by rw [this]; rfl⟩

theorem fixed_number_eq3 {w : Nat} : EqLike (fun _ : MortonIndex3D (FixedDepthStorage3D w) => True)
    (fun m => [m.storage.bits.toNat]) := by
  intro a b _ _
  change RustOrd.eq a.storage b.storage = true ↔ _
  rw [FixedDepthStorage3D.eq_iff_eq]
  constructor
  · intro h; simp only [h]
  · intro h
    exact FixedDepthStorage3D.ext_value (List.cons.inj h).1

theorem C15_total_order_3D (hc : c.Supported) :
    (∀ w, TotalOrder c (fun _ : MortonIndex3D (FixedDepthStorage3D w) => True) ∧
      CmpAgreesWithEq c (fun _ : MortonIndex3D (FixedDepthStorage3D w) => True)) ∧
    (∀ w, TotalOrder c (fun m => Reach3D c .all (.static w m))) ∧
    TotalOrder c (fun m => Reach3D c .all (.dynamic m)) :=
  ⟨fun _ => ⟨fixed_number_order3.totalOrder Function.injective_id,
      fixed_number_order3.agreesWithEq Function.injective_id fixed_number_eq3⟩,
    fun _ => (static_cmp3 hc).totalOrder octantKey_inj, (dynamic_cmp3 hc).totalOrder octantKey_inj⟩

example : RustOrd.cmp x64 exD3 exD3 = .ok .eq := (C15_total_order_3D x64_supported).2.2.1 exD3 (exD3_reach _)

/-- Agreement of `cmp` with `==` on the histories without stray bits. Missing: the other histories, where it
fails (`C15_refuted`). -/
theorem C15_cmp_agrees_with_eq_3D_partial (hc : c.Supported) :
    (∀ w, CmpAgreesWithEq c (fun m => Reach3D c .canonical (.static w m))) ∧
    CmpAgreesWithEq c (fun m => Reach3D c .canonical (.dynamic m)) :=
  ⟨fun _ => (static_cmp3 hc).agreesWithEq octantKey_inj (static_eq3 hc),
    (dynamic_cmp3 hc).agreesWithEq octantKey_inj (dynamic_eq3 hc)⟩

example : RustOrd.cmp x64 exD3 ⟨⟨[0#8, 0#8], 5⟩⟩ = .ok .eq ↔ RustOrd.eq exD3 ⟨⟨[0#8, 0#8], 5⟩⟩ = true :=
  (C15_cmp_agrees_with_eq_3D_partial x64_supported).2 _ _ (exD3_reach _)
    (.dynamicZeroed (d := 5) (by unfold Addressable; decide) (by rfl))

/-! ## C16 -/

/-- `==` on the histories without stray bits. Missing: the other histories, where it fails
(`C16_refuted`). -/
theorem C16_eq_3D_partial (hc : c.Supported) :
    (∀ w, EqMeansSameCells c (fun m => Reach3D c .canonical (.fixed w m))) ∧
    (∀ w, EqMeansSameCells c (fun m => Reach3D c .canonical (.static w m))) ∧
    EqMeansSameCells c (fun m => Reach3D c .canonical (.dynamic m)) :=
  ⟨fun _ => (fixed_list3 hc).eqMeansSameCells (fixed_eq3 hc),
    fun _ => (static_list3 hc).eqMeansSameCells (static_eq3 hc), (dynamic_list3' hc).eqMeansSameCells (dynamic_eq3 hc)⟩

example : RustOrd.eq exS3 ⟨⟨0#32, 3⟩⟩ = true ↔ depth exS3 = 3 ∧ ∀ l, l < 3 →
    getCellAtLevel x64 exS3 l = getCellAtLevel x64 (⟨⟨0#32, 3⟩⟩ : MortonIndex3D (StaticStorage3D 32)) l :=
  (C16_eq_3D_partial x64_supported).2.1 32 exS3 ⟨⟨0#32, 3⟩⟩ (exS3_reach _) (.staticZeroed (d := 3) (by decide) (by rfl))

end MortonRs
