import Verif.Lemmas.Safe2D
import Verif.Lemmas.Safe3D
import Verif.Props.Examples
import Verif.Lemmas.Basic

/-! # C44: no safe call reaches undefined behaviour

The statements quantify over *arbitrary* states - any bits, any depth - and so cover every history of calls, including
those that start from the raw-bits constructors, and every argument, including the ones that panic. -/

namespace MortonRs

/-- Every operation of the `MortonIndex` trait, on every value of the index type. -/
def OperationsSafe (c : Cfg) (M : Type) {Cell : Type} [MortonIndex M Cell] : Prop :=
  ∀ m : M, (∀ level, Safe (MortonIndex.getCellAtLevel c m level)) ∧
    (∀ level cell, Safe (MortonIndex.setCellAtLevel c m level cell)) ∧
    (∀ naming, Safe (MortonIndex.toString c m naming)) ∧ Safe (MortonIndex.inverted c m)

/-- Every operation of the `VariableDepthMortonIndex` trait. -/
def NavigationSafe (c : Cfg) (M : Type) {Cell : Type} [VariableDepthMortonIndex M Cell] : Prop :=
  ∀ m : M, (∀ generations, Safe (VariableDepthMortonIndex.ancestor c m generations)) ∧
    Safe (VariableDepthMortonIndex.parent c m) ∧ (∀ depth, Safe (VariableDepthMortonIndex.withDepth c m depth)) ∧
    (∀ cells, Safe (VariableDepthMortonIndex.descendant c m cells)) ∧ ∀ cell, Safe (VariableDepthMortonIndex.child c m cell)

/-- Every comparison. -/
def ComparisonsSafe (c : Cfg) (M : Type) [RustOrd M] : Prop :=
  ∀ a b : M, Safe (RustOrd.cmp c a b) ∧ Safe (RustOrd.partialCmp c a b) ∧ Safe (RustOrd.lt c a b) ∧ Safe (RustOrd.le c a b) ∧
    Safe (RustOrd.gt c a b) ∧ Safe (RustOrd.ge c a b)

/-- Every step of a cell iterator in any state, and walking over all cells of an index whose depth fits its type. -/
def IterationSafe (c : Cfg) (S : Type) {Cell : Type} [Storage S Cell] : Prop :=
  (∀ it : CellIter S, Safe (it.next c)) ∧ ∀ s : S, Storage.depth s < 2 ^ c.ptrBits → Safe (Storage.collectCells c s)

/-- Printing and comparing a displayable slice. -/
def SlicesSafe (c : Cfg) (M : Type) {Cell : Type} [MortonIndex M Cell] [RustOrd M] : Prop :=
  ∀ a b : DisplayableMortonIndexSlice M, Safe (a.fmt c) ∧ Safe (a.cmp c b) ∧ Safe (a.partialCmp c b)

/-- The two ways to build an index from a sequence of cells. -/
def TryFromSafe2D (c : Cfg) (S : Type) [TryFromCells S Quadrant] : Prop :=
  ∀ cells, Safe (MortonIndex2D.tryFromSlice c cells : Res (Except Error (MortonIndex2D S))) ∧
    Safe (MortonIndex2D.tryFromArray c cells : Res (Except Error (MortonIndex2D S)))

/-- The two ways to build an index from a sequence of cells. -/
def TryFromSafe3D (c : Cfg) (S : Type) [TryFromCells S Octant] : Prop :=
  ∀ cells, Safe (MortonIndex3D.tryFromSlice c cells : Res (Except Error (MortonIndex3D S))) ∧
    Safe (MortonIndex3D.tryFromArray c cells : Res (Except Error (MortonIndex3D S)))

section
variable {c : Cfg}

theorem operationsSafe2 {S : Type} [Storage S Quadrant] (h : SafeStorage c S) : OperationsSafe c (MortonIndex2D S) := fun m =>
  ⟨fun l => safe_get2 h m l, fun l v => safe_set2 h m l v, fun n => safe_string2 h m n, safe_inverted2 h m⟩

theorem operationsSafe3 {S : Type} [Storage S Octant] (h : SafeStorage c S) : OperationsSafe c (MortonIndex3D S) := fun m =>
  ⟨fun l => safe_get3 h m l, fun l v => safe_set3 h m l v, fun n => safe_string3 h m n, safe_inverted3 h m⟩

theorem navigationSafe2 {S : Type} [VariableDepthStorage S Quadrant] (h : SafeVariable c S) : NavigationSafe c (MortonIndex2D S) := fun m =>
  ⟨fun g => safe_ancestor2 h m g, safe_parent2 h m, fun d => safe_withDepth2 h m d, fun l => safe_descendant2 h m l,
    fun v => safe_descendant2 h m [v]⟩

theorem navigationSafe3 {S : Type} [VariableDepthStorage S Octant] (h : SafeVariable c S) : NavigationSafe c (MortonIndex3D S) := fun m =>
  ⟨fun g => safe_ancestor3 h m g, safe_parent3 h m, fun d => safe_withDepth3 h m d, fun l => safe_descendant3 h m l,
    fun v => safe_descendant3 h m [v]⟩

theorem iterationSafe {S Cell : Type} [Storage S Cell] (h : SafeStorage c S) : IterationSafe c S :=
  ⟨safe_next h, safe_collectCells h⟩

theorem comparisonsSafe {M : Type} [RustOrd M] (h : ∀ a b : M, Safe (RustOrd.cmp c a b))
    (h' : ∀ a b : M, Safe (RustOrd.partialCmp c a b)) : ComparisonsSafe c M := fun a b =>
  ⟨h a b, h' a b, safe_bind (h' a b) fun _ => safe_pure _, safe_bind (h' a b) fun _ => safe_pure _,
    safe_bind (h' a b) fun _ => safe_pure _, safe_bind (h' a b) fun _ => safe_pure _⟩

theorem slicesSafe {M Cell : Type} [MortonIndex M Cell] [RustOrd M] (ho : OperationsSafe c M) (hc : ComparisonsSafe c M) :
    SlicesSafe c M := fun a b => by
  refine ⟨?_, ?_, ?_⟩
  · unfold DisplayableMortonIndexSlice.fmt
    repeat (first | exact (ho _).2.2.1 _ | safe_step)
  · unfold DisplayableMortonIndexSlice.cmp
    generalize b.morton_indices = bs
    induction a.morton_indices generalizing bs with
    | nil => cases bs <;> exact safe_ok _
    | cons x xs ih =>
      cases bs with
      | nil => exact safe_ok _
      | cons y ys =>
        unfold sliceCmp
        refine safe_bind (hc x y).1 fun o => ?_
        cases o
        · exact safe_pure _
        · exact ih ys
        · exact safe_pure _
  · unfold DisplayableMortonIndexSlice.partialCmp
    generalize b.morton_indices = bs
    induction a.morton_indices generalizing bs with
    | nil => cases bs <;> exact safe_ok _
    | cons x xs ih =>
      cases bs with
      | nil => exact safe_ok _
      | cons y ys =>
        unfold slicePartialCmp
        refine safe_bind (hc x y).2.1 fun o => ?_
        rcases o with _ | (_ | _ | _)
        · exact safe_pure _
        · exact safe_pure _
        · exact ih ys
        · exact safe_pure _

end

/-- **C44** for two-dimensional indices. -/
theorem C44_no_undefined_behaviour_2D (c : Cfg) (hc : c.Supported) (w : Nat) :
    (OperationsSafe c (MortonIndex2D (FixedDepthStorage2D w)) ∧ ComparisonsSafe c (MortonIndex2D (FixedDepthStorage2D w)) ∧
      IterationSafe c (FixedDepthStorage2D w) ∧ SlicesSafe c (MortonIndex2D (FixedDepthStorage2D w)) ∧
      TryFromSafe2D c (FixedDepthStorage2D w) ∧
      (∀ (m : MortonIndex2D (FixedDepthStorage2D w)) o, Safe (m.toGridIndex c o)) ∧
      ∀ g o, Safe (MortonIndex2D.fixedFromGridIndex c w g o)) ∧
    (OperationsSafe c (MortonIndex2D (StaticStorage2D w)) ∧ NavigationSafe c (MortonIndex2D (StaticStorage2D w)) ∧
      ComparisonsSafe c (MortonIndex2D (StaticStorage2D w)) ∧ IterationSafe c (StaticStorage2D w) ∧
      SlicesSafe c (MortonIndex2D (StaticStorage2D w)) ∧ TryFromSafe2D c (StaticStorage2D w) ∧
      (∀ (m : MortonIndex2D (StaticStorage2D w)) o, Safe (m.toGridIndex c o)) ∧
      (∀ g d o, Safe (MortonIndex2D.staticFromGridIndex c w g d o)) ∧
      ∀ m : MortonIndex2D (StaticStorage2D w), m.storage.depth < 2 ^ 8 → Safe (MortonIndex2D.staticToDynamic c m)) ∧
    (OperationsSafe c (MortonIndex2D DynamicStorage2D) ∧ NavigationSafe c (MortonIndex2D DynamicStorage2D) ∧
      ComparisonsSafe c (MortonIndex2D DynamicStorage2D) ∧ IterationSafe c DynamicStorage2D ∧
      SlicesSafe c (MortonIndex2D DynamicStorage2D) ∧ TryFromSafe2D c DynamicStorage2D ∧
      (∀ (m : MortonIndex2D DynamicStorage2D) o, Safe (m.toGridIndex c o)) ∧
      (∀ g d o, Safe (MortonIndex2D.dynamicFromGridIndex c g d o)) ∧
      ∀ m, Safe (MortonIndex2D.dynamicToStatic c w m)) := by
  have h16 : 16 ≤ c.ptrBits := by rcases hc with h | h | h <;> omega
  have hpow : 2 ^ 16 ≤ 2 ^ c.ptrBits := Nat.pow_le_pow_right (by decide) h16
  have cf : ComparisonsSafe c (MortonIndex2D (FixedDepthStorage2D w)) := comparisonsSafe (fun _ _ => safe_ok _) (fun _ _ => safe_ok _)
  have cs : ComparisonsSafe c (MortonIndex2D (StaticStorage2D w)) :=
    comparisonsSafe (fun a b => safe_static_cmp2 a.storage b.storage)
      (fun a b => safe_bind (safe_static_cmp2 a.storage b.storage) fun _ => safe_pure _)
  have cd : ComparisonsSafe c (MortonIndex2D DynamicStorage2D) :=
    comparisonsSafe (fun a b => safe_dynamic_cmp2 a.storage b.storage)
      (fun a b => safe_bind (safe_dynamic_cmp2 a.storage b.storage) fun _ => safe_pure _)
  have of := operationsSafe2 (safe_fixed2 (c := c) w)
  have os := operationsSafe2 (safe_static2 (c := c) w)
  have od := operationsSafe2 (safe_dynamic2 h16)
  refine ⟨⟨of, cf, iterationSafe (safe_fixed2 w), slicesSafe of cf, fun l => ⟨?_, ?_⟩, safe_to_grid2 (safe_fixed2 w),
      safe_fixed_grid2 w⟩,
    ⟨os, navigationSafe2 (safe_static_variable2 w), cs, iterationSafe (safe_static2 w), slicesSafe os cs, fun l => ⟨?_, ?_⟩,
      safe_to_grid2 (safe_static2 w), safe_static_grid2 w, fun m hm => safe_static_to_dynamic2 h16 m (by omega)⟩,
    ⟨od, navigationSafe2 (safe_dynamic_variable2 h16), cd, iterationSafe (safe_dynamic2 h16), slicesSafe od cd, fun l => ⟨?_, ?_⟩,
      safe_to_grid2 (safe_dynamic2 h16), safe_dynamic_grid2, safe_dynamic_to_static2 w⟩⟩
  · exact safe_bind (safe_fixed_slice2 w l) fun _ => safe_pure _
  · exact safe_bind (safe_fixed_array2 w l) fun _ => safe_pure _
  · exact safe_bind (safe_static_slice2 w l) fun _ => safe_pure _
  · exact safe_bind (safe_static_array2 w l) fun _ => safe_pure _
  · exact safe_bind (safe_dynamic_slice2 h16 l) fun _ => safe_pure _
  · exact safe_bind (safe_dynamic_array2 h16 l) fun _ => safe_pure _

/-- **C44** for three-dimensional indices. -/
theorem C44_no_undefined_behaviour_3D (c : Cfg) (hc : c.Supported) (w : Nat) :
    (OperationsSafe c (MortonIndex3D (FixedDepthStorage3D w)) ∧ ComparisonsSafe c (MortonIndex3D (FixedDepthStorage3D w)) ∧
      IterationSafe c (FixedDepthStorage3D w) ∧ SlicesSafe c (MortonIndex3D (FixedDepthStorage3D w)) ∧
      TryFromSafe3D c (FixedDepthStorage3D w) ∧
      (∀ (m : MortonIndex3D (FixedDepthStorage3D w)) o, Safe (m.toGridIndex c o)) ∧
      (∀ g o, Safe (MortonIndex3D.fixedFromGridIndex c w g o)) ∧ ∀ g o, Safe (MortonIndex3D.fixedFromGridIndexFast c g o)) ∧
    (OperationsSafe c (MortonIndex3D (StaticStorage3D w)) ∧ NavigationSafe c (MortonIndex3D (StaticStorage3D w)) ∧
      ComparisonsSafe c (MortonIndex3D (StaticStorage3D w)) ∧ IterationSafe c (StaticStorage3D w) ∧
      SlicesSafe c (MortonIndex3D (StaticStorage3D w)) ∧ TryFromSafe3D c (StaticStorage3D w) ∧
      (∀ (m : MortonIndex3D (StaticStorage3D w)) o, Safe (m.toGridIndex c o)) ∧
      (∀ g d o, Safe (MortonIndex3D.staticFromGridIndex c w g d o)) ∧
      ∀ m : MortonIndex3D (StaticStorage3D w), m.storage.depth < 2 ^ 8 → Safe (MortonIndex3D.staticToDynamic c m)) ∧
    (OperationsSafe c (MortonIndex3D DynamicStorage3D) ∧ NavigationSafe c (MortonIndex3D DynamicStorage3D) ∧
      ComparisonsSafe c (MortonIndex3D DynamicStorage3D) ∧ IterationSafe c DynamicStorage3D ∧
      SlicesSafe c (MortonIndex3D DynamicStorage3D) ∧ TryFromSafe3D c DynamicStorage3D ∧
      (∀ (m : MortonIndex3D DynamicStorage3D) o, Safe (m.toGridIndex c o)) ∧
      (∀ d, Safe (MortonIndex3D.dynamicZeroed c d)) ∧ (∀ g d o, Safe (MortonIndex3D.dynamicFromGridIndex c g d o)) ∧
      ∀ m, Safe (MortonIndex3D.dynamicToStatic c w m)) := by
  have h16 : 16 ≤ c.ptrBits := by rcases hc with h | h | h <;> omega
  have hpow : 2 ^ 16 ≤ 2 ^ c.ptrBits := Nat.pow_le_pow_right (by decide) h16
  have cf : ComparisonsSafe c (MortonIndex3D (FixedDepthStorage3D w)) := comparisonsSafe (fun _ _ => safe_ok _) (fun _ _ => safe_ok _)
  have cs : ComparisonsSafe c (MortonIndex3D (StaticStorage3D w)) :=
    comparisonsSafe (fun a b => safe_static_cmp3 a.storage b.storage)
      (fun a b => safe_bind (safe_static_cmp3 a.storage b.storage) fun _ => safe_pure _)
  have cd : ComparisonsSafe c (MortonIndex3D DynamicStorage3D) :=
    comparisonsSafe (fun a b => safe_dynamic_cmp3 a.storage b.storage)
      (fun a b => safe_bind (safe_dynamic_cmp3 a.storage b.storage) fun _ => safe_pure _)
  have of := operationsSafe3 (safe_fixed3 (c := c) w)
  have os := operationsSafe3 (safe_static3 (c := c) w)
  have od := operationsSafe3 (safe_dynamic3 h16)
  refine ⟨⟨of, cf, iterationSafe (safe_fixed3 w), slicesSafe of cf, fun l => ⟨?_, ?_⟩, safe_to_grid3 (safe_fixed3 w),
      safe_fixed_grid3 w, safe_fast_grid3⟩,
    ⟨os, navigationSafe3 (safe_static_variable3 w), cs, iterationSafe (safe_static3 w), slicesSafe os cs, fun l => ⟨?_, ?_⟩,
      safe_to_grid3 (safe_static3 w), safe_static_grid3 w, fun m hm => safe_static_to_dynamic3 h16 m (by omega)⟩,
    ⟨od, navigationSafe3 (safe_dynamic_variable3 h16), cd, iterationSafe (safe_dynamic3 h16), slicesSafe od cd, fun l => ⟨?_, ?_⟩,
      safe_to_grid3 (safe_dynamic3 h16), safe_dynamic_zeroed3, safe_dynamic_grid3 h16, safe_dynamic_to_static3 w⟩⟩
  · exact safe_bind (safe_fixed_slice3 w l) fun _ => safe_pure _
  · exact safe_bind (safe_fixed_array3 w l) fun _ => safe_pure _
  · exact safe_bind (safe_static_slice3 w l) fun _ => safe_pure _
  · exact safe_bind (safe_static_array3 w l) fun _ => safe_pure _
  · exact safe_bind (safe_dynamic_slice3 h16 l) fun _ => safe_pure _
  · exact safe_bind (safe_dynamic_array3 h16 l) fun _ => safe_pure _

/-! ## Cases

A raw-bits index with a depth far beyond its width panics or answers, but stays defined; the `unsafe` vector writer on its
own does not, which shows what the theorems exclude. -/

example : MortonIndex.getCellAtLevel x64 (MortonIndex3D.staticFromRawIndex 0x80#8 200) 199 = .error .overflow := by decide +kernel
example : Safe (MortonIndex.getCellAtLevel x64 (MortonIndex3D.staticFromRawIndex 0x80#8 200) 199) :=
  ((C44_no_undefined_behaviour_3D x64 (by decide) 8).2.1.1 _).1 199
example : Safe (MortonIndex.setCellAtLevel x32r (⟨⟨[], 5⟩⟩ : MortonIndex2D DynamicStorage2D) 3 .Two) :=
  ((C44_no_undefined_behaviour_2D x32r (by decide) 8).2.2.1 _).2.1 3 .Two
example : setVecU8Bits x64 [0#8, 0#8] ⟨0, 16⟩ [1#8] = .error .undefinedBehaviour := by decide +kernel
example : ¬ Safe (setVecU8Bits x64 [0#8, 0#8] ⟨0, 16⟩ [1#8]) := fun h => h.1 (by decide +kernel)
example : ¬ Safe (NonZeroUsize.newUnchecked 0) := fun h => h.1 rfl

end MortonRs
