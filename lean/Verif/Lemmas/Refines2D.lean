import Verif.Lemmas.RefinesStorage

/-! # Builds with and without overflow checks: the two-dimensional index types -/

namespace MortonRs

variable {c : Cfg} {S : Type}

theorem refines_fixed2 (w : Nat) : RefinesStorage c (FixedDepthStorage2D w) where
  get s l := refines_unsizedGet w s.bits l
  set s l v := refines_bind (refines_fixedSet w s.bits l v) fun _ => refines_pure _

theorem refines_static2 (w : Nat) : RefinesStorage c (StaticStorage2D w) where
  get s l := refines_staticGet w s.bits l
  set s l v := refines_bind (refines_staticSet w s.bits l v) fun _ => refines_pure _

theorem refines_dynamic2 : RefinesStorage c DynamicStorage2D where
  get s l := refines_dynamicGet s.bits l
  set s l v := refines_bind (refines_dynamicSet s.bits l v) fun _ => refines_pure _

theorem refines_static_variable2 (w : Nat) : RefinesVariable c (StaticStorage2D w) where
  ancestor s g := by
    change Refines (StaticStorage2D.ancestor c s g) (StaticStorage2D.ancestor c.release s g)
    unfold StaticStorage2D.ancestor
    repeat (first | apply (refines_static2 w).set | refines_step)
  descendant s cells := by
    change Refines (StaticStorage2D.descendant c s cells) (StaticStorage2D.descendant c.release s cells)
    unfold StaticStorage2D.descendant
    repeat (first | apply (refines_static2 w).set | refines_step)

theorem refines_dynamic_variable2 : RefinesVariable c DynamicStorage2D where
  ancestor s g := by
    change Refines (DynamicStorage2D.ancestor c s g) (DynamicStorage2D.ancestor c.release s g)
    unfold DynamicStorage2D.ancestor
    repeat refines_step
  descendant s cells := by
    change Refines (DynamicStorage2D.descendant c s cells) (DynamicStorage2D.descendant c.release s cells)
    unfold DynamicStorage2D.descendant
    repeat (first | apply refines_dynamic2.set | refines_step)

theorem refines_static_cmp2 {w : Nat} (a b : StaticStorage2D w) : Refines (StaticStorage2D.cmp c a b)
    (StaticStorage2D.cmp c.release a b) := by
  unfold StaticStorage2D.cmp
  repeat (first | apply refines_intGetBits | refines_step)

theorem refines_dynamic_cmp2 (a b : DynamicStorage2D) : Refines (DynamicStorage2D.cmp c a b)
    (DynamicStorage2D.cmp c.release a b) := by
  unfold DynamicStorage2D.cmp
  have hget : ∀ (s : DynamicStorage2D) l, Refines (s.getCellAtLevelOrNone c l)
      (s.getCellAtLevelOrNone c.release l) := fun s l => by
    unfold DynamicStorage2D.getCellAtLevelOrNone
    exact refines_ite (fun _ => refines_ok _) fun _ => refines_bind (refines_dynamicGet s.bits l) fun _ => refines_pure _
  dsimp only
  generalize List.range' 0 (max a.depth b.depth) = ls
  induction ls with
  | nil => exact refines_ok _
  | cons l ls ih =>
    unfold DynamicStorage2D.cmpLevels
    exact refines_bind (hget _ _) fun x => refines_bind (hget _ _) fun y => refines_ite (fun _ => ih) fun _ => refines_pure _

/-! ## Constructors -/

theorem refines_fixed_slice2 (w : Nat) (cells : List Quadrant) : Refines (FixedDepthStorage2D.tryFromSlice c w cells)
    (FixedDepthStorage2D.tryFromSlice c.release w cells) := by
  unfold FixedDepthStorage2D.tryFromSlice
  repeat (first | apply (refines_fixed2 w).set | refines_step)

theorem refines_fixed_array2 (w : Nat) (cells : List Quadrant) : Refines (FixedDepthStorage2D.tryFromArray c w cells)
    (FixedDepthStorage2D.tryFromArray c.release w cells) := by
  unfold FixedDepthStorage2D.tryFromArray
  repeat (first | apply (refines_fixed2 w).set | refines_step)

theorem refines_static_slice2 (w : Nat) (cells : List Quadrant) : Refines (StaticStorage2D.tryFromSlice c w cells)
    (StaticStorage2D.tryFromSlice c.release w cells) := by
  unfold StaticStorage2D.tryFromSlice
  repeat (first | apply (refines_static2 w).set | refines_step)

theorem refines_static_array2 (w : Nat) (cells : List Quadrant) : Refines (StaticStorage2D.tryFromArray c w cells)
    (StaticStorage2D.tryFromArray c.release w cells) := by
  unfold StaticStorage2D.tryFromArray
  repeat (first | apply (refines_static2 w).set | refines_step)

theorem refines_dynamic_slice2 (cells : List Quadrant) : Refines (DynamicStorage2D.tryFromSlice c cells)
    (DynamicStorage2D.tryFromSlice c.release cells) := by
  unfold DynamicStorage2D.tryFromSlice
  repeat (first | apply refines_dynamic2.set | refines_step)

theorem refines_dynamic_array2 (cells : List Quadrant) : Refines (DynamicStorage2D.tryFromArray c cells)
    (DynamicStorage2D.tryFromArray c.release cells) := by
  unfold DynamicStorage2D.tryFromArray
  repeat (first | apply refines_dynamic2.set | refines_step)

theorem refines_fixed_grid2 (w : Nat) (g : Vector2 c.ptrBits) (o : QuadrantOrdering) : Refines (MortonIndex2D.fixedFromGridIndex c w g o)
    (MortonIndex2D.fixedFromGridIndex c.release w g o) := by
  unfold MortonIndex2D.fixedFromGridIndex
  repeat (first | apply refines_intGetBits | apply refines_intSetBits | refines_step)

theorem refines_static_grid2 (w : Nat) (g : Vector2 c.ptrBits) (d : Nat) (o : QuadrantOrdering) :
    Refines (MortonIndex2D.staticFromGridIndex c w g d o) (MortonIndex2D.staticFromGridIndex c.release w g d o) := by
  unfold MortonIndex2D.staticFromGridIndex
  repeat (first | apply refines_intGetBits | apply refines_intSetBits | refines_step)

theorem refines_dynamic_grid2 (g : Vector2 c.ptrBits) (d : Nat) (o : QuadrantOrdering) :
    Refines (MortonIndex2D.dynamicFromGridIndex c g d o) (MortonIndex2D.dynamicFromGridIndex c.release g d o) := by
  unfold MortonIndex2D.dynamicFromGridIndex
  repeat (first | apply refines_intGetBits | apply refines_intSetBits | refines_step)

theorem refines_static_to_dynamic2 {w : Nat} (m : MortonIndex2D (StaticStorage2D w)) :
    Refines (MortonIndex2D.staticToDynamic c m) (MortonIndex2D.staticToDynamic c.release m) := by
  unfold MortonIndex2D.staticToDynamic
  refine refines_bind (refines_collectCells (refines_static2 w) m.storage) fun cells => refines_bind ?_ fun _ => refines_refl _
  exact refines_bind (refines_dynamic_variable2.descendant _ _) fun _ => refines_pure _

theorem refines_dynamic_to_static2 (w : Nat) (m : MortonIndex2D DynamicStorage2D) : Refines (MortonIndex2D.dynamicToStatic c w m)
    (MortonIndex2D.dynamicToStatic c.release w m) := by
  unfold MortonIndex2D.dynamicToStatic MortonIndex2D.setCellAtLevelUnchecked MortonIndex2D.getCellAtLevelUnchecked
  repeat (first | apply (refines_static2 w).set | exact refines_dynamicGet _ _ | refines_step)

/-! ## The operations of the index type -/

theorem refines_unchecked_get2 [Storage S Quadrant] (h : RefinesStorage c S) (m : MortonIndex2D S) (l : Nat) :
    Refines (m.getCellAtLevelUnchecked c l) (m.getCellAtLevelUnchecked c.release l) := h.get _ _

theorem refines_unchecked_set2 [Storage S Quadrant] (h : RefinesStorage c S) (m : MortonIndex2D S) (l : Nat) (v : Quadrant) :
    Refines (m.setCellAtLevelUnchecked c l v)
        (m.setCellAtLevelUnchecked c.release l v) := refines_bind (h.set _ _ _) fun _ => refines_pure _

theorem refines_get2 [Storage S Quadrant] (h : RefinesStorage c S) (m : MortonIndex2D S) (l : Nat) : Refines (m.getCellAtLevel c l)
    (m.getCellAtLevel c.release l) :=
  refines_ite (fun _ => refines_error _) fun _ => h.get _ _

theorem refines_set2 [Storage S Quadrant] (h : RefinesStorage c S) (m : MortonIndex2D S) (l : Nat) (v : Quadrant) :
    Refines (m.setCellAtLevel c l v) (m.setCellAtLevel c.release l v) :=
  refines_ite (fun _ => refines_error _) fun _ => refines_bind (h.set _ _ _) fun _ => refines_pure _

theorem refines_to_grid2 [Storage S Quadrant] (h : RefinesStorage c S) (m : MortonIndex2D S) (o : QuadrantOrdering) :
    Refines (m.toGridIndex c o) (m.toGridIndex c.release o) := by
  unfold MortonIndex2D.toGridIndex
  repeat (first | apply refines_unchecked_get2 h | refines_step)

theorem refines_concat2 [Storage S Quadrant] (h : RefinesStorage c S) (m : MortonIndex2D S) : Refines (m.cellConcatenation c)
    (m.cellConcatenation c.release) := by
  unfold MortonIndex2D.cellConcatenation
  repeat (first | apply refines_unchecked_get2 h | refines_step)

theorem refines_string2 [Storage S Quadrant] (h : RefinesStorage c S) (m : MortonIndex2D S) (n : MortonIndexNaming) : Refines (m.toString c n)
    (m.toString c.release n) := by
  cases n
  · exact refines_concat2 h m
  · exact refines_bind (refines_concat2 h m) fun _ => refines_pure _
  · exact refines_bind (refines_to_grid2 h m _) fun _ => refines_pure _

theorem refines_inverted2 [Storage S Quadrant] (h : RefinesStorage c S) (m : MortonIndex2D S) : Refines (MortonIndex.inverted c m)
    (MortonIndex.inverted c.release m) := by
  unfold MortonIndex.inverted
  repeat (first | exact refines_unchecked_get2 h _ _ | exact refines_unchecked_set2 h _ _ _ | refines_step)

theorem refines_ancestor2 [VariableDepthStorage S Quadrant] (h : RefinesVariable c S) (m : MortonIndex2D S) (g : NonZeroUsize) :
    Refines (VariableDepthMortonIndex.ancestor c m g)
        (VariableDepthMortonIndex.ancestor c.release m g) := refines_bind (h.ancestor _ _) fun _ => refines_pure _

theorem refines_descendant2 [VariableDepthStorage S Quadrant] (h : RefinesVariable c S) (m : MortonIndex2D S) (cells : List Quadrant) :
    Refines (VariableDepthMortonIndex.descendant c m cells)
        (VariableDepthMortonIndex.descendant c.release m cells) := refines_bind (h.descendant _ _) fun _ => refines_pure _

theorem refines_parent2 [VariableDepthStorage S Quadrant] (h : RefinesVariable c S) (m : MortonIndex2D S) :
    Refines (VariableDepthMortonIndex.parent c m)
        (VariableDepthMortonIndex.parent c.release m) := refines_bind (refines_refl _) fun g => refines_ancestor2 h m g

theorem refines_withDepth2 [VariableDepthStorage S Quadrant] (h : RefinesVariable c S) (m : MortonIndex2D S) (d : Nat) :
    Refines (VariableDepthMortonIndex.withDepth c m d) (VariableDepthMortonIndex.withDepth c.release m d) := by
  unfold VariableDepthMortonIndex.withDepth
  refine refines_ite (fun _ => refines_pure _) fun _ => refines_bind (refines_usub _ _) fun n => refines_ite (fun _ => refines_pure _) fun _ => ?_
  exact refines_bind (refines_refl _) fun g => refines_ancestor2 h m g

end MortonRs
