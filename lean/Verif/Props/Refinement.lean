import Verif.Lemmas.Refines2D
import Verif.Lemmas.Refines3D
import Verif.Props.Examples
import Verif.Lemmas.Basic

/-! # C60: builds with and without overflow checks agree

A debug build and a release build of the same call on the same target: the debug build either panics with an arithmetic
overflow, or does exactly what the release build does - the same value or the same panic. Like C44 the statements
quantify over *arbitrary* states and arguments. -/

namespace MortonRs

/-- Every operation of the `MortonIndex` trait, on every value of the index type. -/
def OperationsRefine (c : Cfg) (M : Type) {Cell : Type} [MortonIndex M Cell] : Prop :=
  ∀ m : M, (∀ level, Refines (MortonIndex.getCellAtLevelUnchecked c m level)
      (MortonIndex.getCellAtLevelUnchecked c.release m level)) ∧
    (∀ level cell, Refines (MortonIndex.setCellAtLevelUnchecked c m level cell)
      (MortonIndex.setCellAtLevelUnchecked c.release m level cell)) ∧
    (∀ level, Refines (MortonIndex.getCellAtLevel c m level) (MortonIndex.getCellAtLevel c.release m level)) ∧
    (∀ level cell, Refines (MortonIndex.setCellAtLevel c m level cell)
      (MortonIndex.setCellAtLevel c.release m level cell)) ∧
    (∀ naming, Refines (MortonIndex.toString c m naming) (MortonIndex.toString c.release m naming)) ∧
    Refines (MortonIndex.inverted c m) (MortonIndex.inverted c.release m)

/-- Every operation of the `VariableDepthMortonIndex` trait. -/
def NavigationRefine (c : Cfg) (M : Type) {Cell : Type} [VariableDepthMortonIndex M Cell] : Prop :=
  ∀ m : M, (∀ generations, Refines (VariableDepthMortonIndex.ancestor c m generations)
      (VariableDepthMortonIndex.ancestor c.release m generations)) ∧
    Refines (VariableDepthMortonIndex.parent c m) (VariableDepthMortonIndex.parent c.release m) ∧
    (∀ depth, Refines (VariableDepthMortonIndex.withDepth c m depth)
      (VariableDepthMortonIndex.withDepth c.release m depth)) ∧
    (∀ cells, Refines (VariableDepthMortonIndex.descendant c m cells)
      (VariableDepthMortonIndex.descendant c.release m cells)) ∧
    ∀ cell, Refines (VariableDepthMortonIndex.child c m cell) (VariableDepthMortonIndex.child c.release m cell)

/-- Every comparison. -/
def ComparisonsRefine (c : Cfg) (M : Type) [RustOrd M] : Prop :=
  ∀ a b : M, Refines (RustOrd.cmp c a b) (RustOrd.cmp c.release a b) ∧
    Refines (RustOrd.partialCmp c a b) (RustOrd.partialCmp c.release a b) ∧
    Refines (RustOrd.lt c a b) (RustOrd.lt c.release a b) ∧
    Refines (RustOrd.le c a b) (RustOrd.le c.release a b) ∧
    Refines (RustOrd.gt c a b) (RustOrd.gt c.release a b) ∧
    Refines (RustOrd.ge c a b) (RustOrd.ge c.release a b)

/-- Every step of a cell iterator in any state, and walking over all cells of an index. -/
def IterationRefine (c : Cfg) (S : Type) {Cell : Type} [Storage S Cell] : Prop :=
  (∀ it : CellIter S, Refines (it.next c) (it.next c.release)) ∧
    ∀ s : S, Refines (Storage.collectCells c s) (Storage.collectCells c.release s)

/-- Printing and comparing a displayable slice. -/
def SlicesRefine (c : Cfg) (M : Type) {Cell : Type} [MortonIndex M Cell] [RustOrd M] : Prop :=
  ∀ a b : DisplayableMortonIndexSlice M, Refines (a.fmt c) (a.fmt c.release) ∧
    Refines (a.cmp c b) (a.cmp c.release b) ∧
    Refines (a.partialCmp c b) (a.partialCmp c.release b)

/-- The two ways to build an index from a sequence of cells. -/
def TryFromRefine2D (c : Cfg) (S : Type) [TryFromCells S Quadrant] : Prop :=
  ∀ cells, Refines (MortonIndex2D.tryFromSlice c cells : Res (Except Error (MortonIndex2D S)))
      (MortonIndex2D.tryFromSlice c.release cells : Res (Except Error (MortonIndex2D S))) ∧
    Refines (MortonIndex2D.tryFromArray c cells : Res (Except Error (MortonIndex2D S)))
      (MortonIndex2D.tryFromArray c.release cells : Res (Except Error (MortonIndex2D S)))

/-- The two ways to build an index from a sequence of cells. -/
def TryFromRefine3D (c : Cfg) (S : Type) [TryFromCells S Octant] : Prop :=
  ∀ cells, Refines (MortonIndex3D.tryFromSlice c cells : Res (Except Error (MortonIndex3D S)))
      (MortonIndex3D.tryFromSlice c.release cells : Res (Except Error (MortonIndex3D S))) ∧
    Refines (MortonIndex3D.tryFromArray c cells : Res (Except Error (MortonIndex3D S)))
      (MortonIndex3D.tryFromArray c.release cells : Res (Except Error (MortonIndex3D S)))

section
variable {c : Cfg}

theorem operationsRefine2 {S : Type} [Storage S Quadrant] (h : RefinesStorage c S) : OperationsRefine c (MortonIndex2D S) := fun m =>
  ⟨fun l => refines_unchecked_get2 h m l, fun l v => refines_unchecked_set2 h m l v, fun l => refines_get2 h m l, fun l v => refines_set2 h m l v, fun n => refines_string2 h m n, refines_inverted2 h m⟩

theorem operationsRefine3 {S : Type} [Storage S Octant] (h : RefinesStorage c S) : OperationsRefine c (MortonIndex3D S) := fun m =>
  ⟨fun l => refines_unchecked_get3 h m l, fun l v => refines_unchecked_set3 h m l v, fun l => refines_get3 h m l, fun l v => refines_set3 h m l v, fun n => refines_string3 h m n, refines_inverted3 h m⟩

theorem navigationRefine2 {S : Type} [VariableDepthStorage S Quadrant] (h : RefinesVariable c S) : NavigationRefine c (MortonIndex2D S) := fun m =>
  ⟨fun g => refines_ancestor2 h m g, refines_parent2 h m, fun d => refines_withDepth2 h m d, fun l => refines_descendant2 h m l,
    fun v => refines_descendant2 h m [v]⟩

theorem navigationRefine3 {S : Type} [VariableDepthStorage S Octant] (h : RefinesVariable c S) : NavigationRefine c (MortonIndex3D S) := fun m =>
  ⟨fun g => refines_ancestor3 h m g, refines_parent3 h m, fun d => refines_withDepth3 h m d, fun l => refines_descendant3 h m l,
    fun v => refines_descendant3 h m [v]⟩

theorem iterationRefine {S Cell : Type} [Storage S Cell] (h : RefinesStorage c S) : IterationRefine c S :=
  ⟨refines_next h, refines_collectCells h⟩

theorem comparisonsRefine {M : Type} [RustOrd M] (h : ∀ a b : M, Refines (RustOrd.cmp c a b)
      (RustOrd.cmp c.release a b))
    (h' : ∀ a b : M, Refines (RustOrd.partialCmp c a b)
      (RustOrd.partialCmp c.release a b)) : ComparisonsRefine c M := fun a b =>
  ⟨h a b, h' a b, refines_bind (h' a b) fun _ => refines_pure _, refines_bind (h' a b) fun _ => refines_pure _,
    refines_bind (h' a b) fun _ => refines_pure _, refines_bind (h' a b) fun _ => refines_pure _⟩

theorem slicesRefine {M Cell : Type} [MortonIndex M Cell] [RustOrd M] (ho : OperationsRefine c M) (hc : ComparisonsRefine c M) :
    SlicesRefine c M := fun a b => by
  refine ⟨?_, ?_, ?_⟩
  · unfold DisplayableMortonIndexSlice.fmt
    repeat (first | exact (ho _).2.2.2.2.1 _ | refines_step)
  · unfold DisplayableMortonIndexSlice.cmp
    generalize b.morton_indices = bs
    induction a.morton_indices generalizing bs with
    | nil => cases bs <;> exact refines_ok _
    | cons x xs ih =>
      cases bs with
      | nil => exact refines_ok _
      | cons y ys =>
        unfold sliceCmp
        refine refines_bind (hc x y).1 fun o => ?_
        cases o
        · exact refines_pure _
        · exact ih ys
        · exact refines_pure _
  · unfold DisplayableMortonIndexSlice.partialCmp
    generalize b.morton_indices = bs
    induction a.morton_indices generalizing bs with
    | nil => cases bs <;> exact refines_ok _
    | cons x xs ih =>
      cases bs with
      | nil => exact refines_ok _
      | cons y ys =>
        unfold slicePartialCmp
        refine refines_bind (hc x y).2.1 fun o => ?_
        rcases o with _ | (_ | _ | _)
        · exact refines_pure _
        · exact refines_pure _
        · exact ih ys
        · exact refines_pure _

end

/-- **C60** for two-dimensional indices. -/
theorem C60_debug_release_2D (c : Cfg) (w : Nat) :
    (OperationsRefine c (MortonIndex2D (FixedDepthStorage2D w)) ∧ ComparisonsRefine c (MortonIndex2D (FixedDepthStorage2D w)) ∧
      IterationRefine c (FixedDepthStorage2D w) ∧ SlicesRefine c (MortonIndex2D (FixedDepthStorage2D w)) ∧
      TryFromRefine2D c (FixedDepthStorage2D w) ∧
      (∀ (m : MortonIndex2D (FixedDepthStorage2D w)) o, Refines (m.toGridIndex c o) (m.toGridIndex c.release o)) ∧
      ∀ g o, Refines (MortonIndex2D.fixedFromGridIndex c w g o) (MortonIndex2D.fixedFromGridIndex c.release w g o)) ∧
    (OperationsRefine c (MortonIndex2D (StaticStorage2D w)) ∧ NavigationRefine c (MortonIndex2D (StaticStorage2D w)) ∧
      ComparisonsRefine c (MortonIndex2D (StaticStorage2D w)) ∧ IterationRefine c (StaticStorage2D w) ∧
      SlicesRefine c (MortonIndex2D (StaticStorage2D w)) ∧ TryFromRefine2D c (StaticStorage2D w) ∧
      (∀ (m : MortonIndex2D (StaticStorage2D w)) o, Refines (m.toGridIndex c o) (m.toGridIndex c.release o)) ∧
      (∀ g d o, Refines (MortonIndex2D.staticFromGridIndex c w g d o)
      (MortonIndex2D.staticFromGridIndex c.release w g d o)) ∧
      ∀ m : MortonIndex2D (StaticStorage2D w), Refines (MortonIndex2D.staticToDynamic c m)
      (MortonIndex2D.staticToDynamic c.release m)) ∧
    (OperationsRefine c (MortonIndex2D DynamicStorage2D) ∧ NavigationRefine c (MortonIndex2D DynamicStorage2D) ∧
      ComparisonsRefine c (MortonIndex2D DynamicStorage2D) ∧ IterationRefine c DynamicStorage2D ∧
      SlicesRefine c (MortonIndex2D DynamicStorage2D) ∧ TryFromRefine2D c DynamicStorage2D ∧
      (∀ (m : MortonIndex2D DynamicStorage2D) o, Refines (m.toGridIndex c o) (m.toGridIndex c.release o)) ∧
      (∀ g d o, Refines (MortonIndex2D.dynamicFromGridIndex c g d o)
      (MortonIndex2D.dynamicFromGridIndex c.release g d o)) ∧
      (∀ m, Refines (MortonIndex2D.dynamicToStatic c w m) (MortonIndex2D.dynamicToStatic c.release w m)) ∧
      (∀ m : MortonIndex2D (FixedDepthStorage2D w), MortonIndex2D.fixedToDynamic c m = MortonIndex2D.fixedToDynamic c.release m) ∧
      ∀ m, MortonIndex2D.dynamicToFixed c w m = MortonIndex2D.dynamicToFixed c.release w m) := by
  have cf : ComparisonsRefine c (MortonIndex2D (FixedDepthStorage2D w)) := comparisonsRefine (fun _ _ => refines_ok _) (fun _ _ => refines_ok _)
  have cs : ComparisonsRefine c (MortonIndex2D (StaticStorage2D w)) :=
    comparisonsRefine (fun a b => refines_static_cmp2 a.storage b.storage)
      (fun a b => refines_bind (refines_static_cmp2 a.storage b.storage) fun _ => refines_pure _)
  have cd : ComparisonsRefine c (MortonIndex2D DynamicStorage2D) :=
    comparisonsRefine (fun a b => refines_dynamic_cmp2 a.storage b.storage)
      (fun a b => refines_bind (refines_dynamic_cmp2 a.storage b.storage) fun _ => refines_pure _)
  have of := operationsRefine2 (refines_fixed2 (c := c) w)
  have os := operationsRefine2 (refines_static2 (c := c) w)
  have od := operationsRefine2 (c := c) refines_dynamic2
  refine ⟨⟨of, cf, iterationRefine (refines_fixed2 w), slicesRefine of cf, fun l => ⟨?_, ?_⟩, refines_to_grid2 (refines_fixed2 w),
      refines_fixed_grid2 w⟩,
    ⟨os, navigationRefine2 (refines_static_variable2 w), cs, iterationRefine (refines_static2 w), slicesRefine os cs, fun l => ⟨?_, ?_⟩,
      refines_to_grid2 (refines_static2 w), refines_static_grid2 w, fun m => refines_static_to_dynamic2 m⟩,
    ⟨od, navigationRefine2 refines_dynamic_variable2, cd, iterationRefine refines_dynamic2, slicesRefine od cd, fun l => ⟨?_, ?_⟩,
      refines_to_grid2 refines_dynamic2, refines_dynamic_grid2, refines_dynamic_to_static2 w, fun _ => rfl, fun _ => rfl⟩⟩
  · exact refines_bind (refines_fixed_slice2 w l) fun _ => refines_pure _
  · exact refines_bind (refines_fixed_array2 w l) fun _ => refines_pure _
  · exact refines_bind (refines_static_slice2 w l) fun _ => refines_pure _
  · exact refines_bind (refines_static_array2 w l) fun _ => refines_pure _
  · exact refines_bind (refines_dynamic_slice2 l) fun _ => refines_pure _
  · exact refines_bind (refines_dynamic_array2 l) fun _ => refines_pure _

/-- **C60** for three-dimensional indices. -/
theorem C60_debug_release_3D (c : Cfg) (w : Nat) :
    (OperationsRefine c (MortonIndex3D (FixedDepthStorage3D w)) ∧ ComparisonsRefine c (MortonIndex3D (FixedDepthStorage3D w)) ∧
      IterationRefine c (FixedDepthStorage3D w) ∧ SlicesRefine c (MortonIndex3D (FixedDepthStorage3D w)) ∧
      TryFromRefine3D c (FixedDepthStorage3D w) ∧
      (∀ (m : MortonIndex3D (FixedDepthStorage3D w)) o, Refines (m.toGridIndex c o) (m.toGridIndex c.release o)) ∧
      (∀ g o, Refines (MortonIndex3D.fixedFromGridIndex c w g o) (MortonIndex3D.fixedFromGridIndex c.release w g o)) ∧
    ∀ g o, Refines (MortonIndex3D.fixedFromGridIndexFast c g o) (MortonIndex3D.fixedFromGridIndexFast c.release g o)) ∧
    (OperationsRefine c (MortonIndex3D (StaticStorage3D w)) ∧ NavigationRefine c (MortonIndex3D (StaticStorage3D w)) ∧
      ComparisonsRefine c (MortonIndex3D (StaticStorage3D w)) ∧ IterationRefine c (StaticStorage3D w) ∧
      SlicesRefine c (MortonIndex3D (StaticStorage3D w)) ∧ TryFromRefine3D c (StaticStorage3D w) ∧
      (∀ (m : MortonIndex3D (StaticStorage3D w)) o, Refines (m.toGridIndex c o) (m.toGridIndex c.release o)) ∧
      (∀ g d o, Refines (MortonIndex3D.staticFromGridIndex c w g d o)
      (MortonIndex3D.staticFromGridIndex c.release w g d o)) ∧
      ∀ m : MortonIndex3D (StaticStorage3D w), Refines (MortonIndex3D.staticToDynamic c m)
      (MortonIndex3D.staticToDynamic c.release m)) ∧
    (OperationsRefine c (MortonIndex3D DynamicStorage3D) ∧ NavigationRefine c (MortonIndex3D DynamicStorage3D) ∧
      ComparisonsRefine c (MortonIndex3D DynamicStorage3D) ∧ IterationRefine c DynamicStorage3D ∧
      SlicesRefine c (MortonIndex3D DynamicStorage3D) ∧ TryFromRefine3D c DynamicStorage3D ∧
      (∀ (m : MortonIndex3D DynamicStorage3D) o, Refines (m.toGridIndex c o) (m.toGridIndex c.release o)) ∧
      (∀ d, Refines (MortonIndex3D.dynamicZeroed c d) (MortonIndex3D.dynamicZeroed c.release d)) ∧
    (∀ g d o, Refines (MortonIndex3D.dynamicFromGridIndex c g d o) (MortonIndex3D.dynamicFromGridIndex c.release g d o)) ∧
      (∀ m, Refines (MortonIndex3D.dynamicToStatic c w m) (MortonIndex3D.dynamicToStatic c.release w m)) ∧
      (∀ m : MortonIndex3D (FixedDepthStorage3D w), MortonIndex3D.fixedToDynamic c m = MortonIndex3D.fixedToDynamic c.release m) ∧
      ∀ m, MortonIndex3D.dynamicToFixed c w m = MortonIndex3D.dynamicToFixed c.release w m) := by
  have cf : ComparisonsRefine c (MortonIndex3D (FixedDepthStorage3D w)) := comparisonsRefine (fun _ _ => refines_ok _) (fun _ _ => refines_ok _)
  have cs : ComparisonsRefine c (MortonIndex3D (StaticStorage3D w)) :=
    comparisonsRefine (fun a b => refines_static_cmp3 a.storage b.storage)
      (fun a b => refines_bind (refines_static_cmp3 a.storage b.storage) fun _ => refines_pure _)
  have cd : ComparisonsRefine c (MortonIndex3D DynamicStorage3D) :=
    comparisonsRefine (fun a b => refines_dynamic_cmp3 a.storage b.storage)
      (fun a b => refines_bind (refines_dynamic_cmp3 a.storage b.storage) fun _ => refines_pure _)
  have of := operationsRefine3 (refines_fixed3 (c := c) w)
  have os := operationsRefine3 (refines_static3 (c := c) w)
  have od := operationsRefine3 (c := c) refines_dynamic3
  refine ⟨⟨of, cf, iterationRefine (refines_fixed3 w), slicesRefine of cf, fun l => ⟨?_, ?_⟩, refines_to_grid3 (refines_fixed3 w),
      refines_fixed_grid3 w, refines_fast_grid3⟩,
    ⟨os, navigationRefine3 (refines_static_variable3 w), cs, iterationRefine (refines_static3 w), slicesRefine os cs, fun l => ⟨?_, ?_⟩,
      refines_to_grid3 (refines_static3 w), refines_static_grid3 w, fun m => refines_static_to_dynamic3 m⟩,
    ⟨od, navigationRefine3 refines_dynamic_variable3, cd, iterationRefine refines_dynamic3, slicesRefine od cd, fun l => ⟨?_, ?_⟩,
      refines_to_grid3 refines_dynamic3, refines_dynamic_zeroed3, refines_dynamic_grid3, refines_dynamic_to_static3 w, fun _ => rfl, fun _ => rfl⟩⟩
  · exact refines_bind (refines_fixed_slice3 w l) fun _ => refines_pure _
  · exact refines_bind (refines_fixed_array3 w l) fun _ => refines_pure _
  · exact refines_bind (refines_static_slice3 w l) fun _ => refines_pure _
  · exact refines_bind (refines_static_array3 w l) fun _ => refines_pure _
  · exact refines_bind (refines_dynamic_slice3 l) fun _ => refines_pure _
  · exact refines_bind (refines_dynamic_array3 l) fun _ => refines_pure _

example : MortonIndex3D.toGridIndex x64.release exD3 .ZYX = MortonIndex3D.toGridIndex x64 exD3 .ZYX := by
  rcases (C60_debug_release_3D x64 16).2.2.2.2.2.2.2.2.1 exD3 .ZYX with h | h
  · exact absurd h (by decide +kernel)
  · exact h.symm

/-- **C60** for the bit containers and alignment. -/
theorem C60_debug_release_bits (c : Cfg) {w : Nat} (x v a : BitVec w) (xs vs : List (BitVec 8)) (r : Range) (n : Nat)
    (u : BitVec c.ptrBits) :
    (Refines (Bits.getBits c x r) (Bits.getBits c.release x r) ∧
      Refines (Bits.getBitsAsUsize c x r) (Bits.getBitsAsUsize c.release x r) ∧
      Refines (Bits.setBits c x r v) (Bits.setBits c.release x r v) ∧
      Refines (Bits.setBitsFromUsize c x r u) (Bits.setBitsFromUsize c.release x r u) ∧
      Refines (alignTo c x a) (alignTo c.release x a)) ∧
    Refines (Bits.getBits c xs r) (Bits.getBits c.release xs r) ∧
      Refines (Bits.getBitsAsUsize c xs r) (Bits.getBitsAsUsize c.release xs r) ∧
      Refines (Bits.setBits c xs r vs) (Bits.setBits c.release xs r vs) ∧
      Refines (Bits.setBitsFromUsize c xs r u) (Bits.setBitsFromUsize c.release xs r u) ∧
      Bits.asUN c n xs = Bits.asUN c.release n xs := by
  refine ⟨⟨refines_intGetBits x r, refines_bind (refines_intGetBits x r) fun _ => refines_pure _, refines_intSetBits x v r,
    refines_intSetBits x _ r, ?_⟩, ?_, refines_vecGetBitsAsUsize xs r, refines_setVecU8Bits xs vs r,
    refines_setVecU8Bits xs _ r, rfl⟩
  · unfold alignTo
    repeat (first | apply refines_addN | apply refines_mulN | refines_step)
  · exact refines_vecGetBits xs r

example : alignTo x64.release 13#8 8#8 = alignTo x64 13#8 8#8 := by
  rcases (C60_debug_release_bits x64 13#8 0#8 8#8 [] [] ⟨0, 1⟩ 8 0#64).1.2.2.2.2 with h | h
  · exact absurd h (by decide +kernel)
  · exact h.symm

/-! ## Cases

An overflow in the checked build where the release build answers; a call that panics alike in both; a call with the same
answer in both. -/

example : Bits.setBits x64 0#8 ⟨8, 8⟩ 1#8 = .error .overflow ∧ Bits.setBits x64.release 0#8 ⟨8, 8⟩ 1#8 = .ok 1#8 := by
  decide +kernel
example : MortonIndex.getCellAtLevel x64.release exS2 3 = .error .panic := by
  rcases ((C60_debug_release_2D x64 16).2.1.1 exS2).2.2.1 3 with h | h
  · exact absurd h (by decide +kernel)
  · rw [← h]; decide +kernel
example : MortonIndex2D.toGridIndex x64.release exD2 .XY = MortonIndex2D.toGridIndex x64 exD2 .XY := by
  rcases (C60_debug_release_2D x64 16).2.2.2.2.2.2.2.2.1 exD2 .XY with h | h
  · exact absurd h (by decide +kernel)
  · exact h.symm

end MortonRs
