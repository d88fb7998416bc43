import Verif.Lemmas.RefinesStorage

/-! # Builds with and without overflow checks: the three-dimensional index types -/

namespace MortonRs

variable {c : Cfg} {S : Type}

theorem refines_fixed3 (w : Nat) : RefinesStorage c (FixedDepthStorage3D w) where
  get s l := refines_unsizedGet w s.bits l
  set s l v := refines_bind (refines_fixedSet w s.bits l v) fun _ => refines_pure _

theorem refines_static3 (w : Nat) : RefinesStorage c (StaticStorage3D w) where
  get s l := refines_staticGet w s.bits l
  set s l v := refines_bind (refines_staticSet w s.bits l v) fun _ => refines_pure _

theorem refines_dynamic3 : RefinesStorage c DynamicStorage3D where
  get s l := refines_dynamicGet s.bits l
  set s l v := refines_bind (refines_dynamicSet s.bits l v) fun _ => refines_pure _

theorem refines_static_variable3 (w : Nat) : RefinesVariable c (StaticStorage3D w) where
  ancestor s g := by
    change Refines (StaticStorage3D.ancestor c s g) (StaticStorage3D.ancestor c.release s g)
    unfold StaticStorage3D.ancestor
    repeat (first | apply (refines_static3 w).set | refines_step)
  descendant s cells := by
    change Refines (StaticStorage3D.descendant c s cells) (StaticStorage3D.descendant c.release s cells)
    unfold StaticStorage3D.descendant
    repeat (first | apply (refines_static3 w).set | refines_step)

theorem refines_dynamic_variable3 : RefinesVariable c DynamicStorage3D where
  ancestor s g := by
    change Refines (DynamicStorage3D.ancestor c s g) (DynamicStorage3D.ancestor c.release s g)
    unfold DynamicStorage3D.ancestor
    repeat refines_step
  descendant s cells := by
    change Refines (DynamicStorage3D.descendant c s cells) (DynamicStorage3D.descendant c.release s cells)
    unfold DynamicStorage3D.descendant
    repeat (first | apply refines_dynamic3.set | refines_step)

theorem refines_static_cmp3 {w : Nat} (a b : StaticStorage3D w) : Refines (StaticStorage3D.cmp c a b)
    (StaticStorage3D.cmp c.release a b) := by
  unfold StaticStorage3D.cmp
  repeat (first | apply refines_intGetBits | refines_step)

theorem refines_dynamic_cmp3 (a b : DynamicStorage3D) : Refines (DynamicStorage3D.cmp c a b)
    (DynamicStorage3D.cmp c.release a b) := by
  unfold DynamicStorage3D.cmp
  have hget : ∀ (s : DynamicStorage3D) l, Refines (s.getCellAtLevelOrNone c l)
      (s.getCellAtLevelOrNone c.release l) := fun s l => by
    unfold DynamicStorage3D.getCellAtLevelOrNone
    exact refines_ite (fun _ => refines_ok _) fun _ => refines_bind (refines_dynamicGet s.bits l) fun _ => refines_pure _
  dsimp only
  generalize List.range' 0 (max a.depth b.depth) = ls
  induction ls with
  | nil => exact refines_ok _
  | cons l ls ih =>
    unfold DynamicStorage3D.cmpLevels
    exact refines_bind (hget _ _) fun x => refines_bind (hget _ _) fun y => refines_ite (fun _ => ih) fun _ => refines_pure _

/-! ## Constructors -/

theorem refines_fixed_slice3 (w : Nat) (cells : List Octant) : Refines (FixedDepthStorage3D.tryFromSlice c w cells)
    (FixedDepthStorage3D.tryFromSlice c.release w cells) := by
  unfold FixedDepthStorage3D.tryFromSlice
  repeat (first | apply (refines_fixed3 w).set | refines_step)

theorem refines_fixed_array3 (w : Nat) (cells : List Octant) : Refines (FixedDepthStorage3D.tryFromArray c w cells)
    (FixedDepthStorage3D.tryFromArray c.release w cells) := by
  unfold FixedDepthStorage3D.tryFromArray
  repeat (first | apply (refines_fixed3 w).set | refines_step)

theorem refines_static_slice3 (w : Nat) (cells : List Octant) : Refines (StaticStorage3D.tryFromSlice c w cells)
    (StaticStorage3D.tryFromSlice c.release w cells) := by
  unfold StaticStorage3D.tryFromSlice
  repeat (first | apply (refines_static3 w).set | refines_step)

theorem refines_static_array3 (w : Nat) (cells : List Octant) : Refines (StaticStorage3D.tryFromArray c w cells)
    (StaticStorage3D.tryFromArray c.release w cells) := by
  unfold StaticStorage3D.tryFromArray
  repeat (first | apply (refines_static3 w).set | refines_step)

theorem refines_dynamic_slice3 (cells : List Octant) : Refines (DynamicStorage3D.tryFromSlice c cells)
    (DynamicStorage3D.tryFromSlice c.release cells) := by
  unfold DynamicStorage3D.tryFromSlice
  repeat (first | apply refines_dynamic3.set | refines_step)

theorem refines_dynamic_array3 (cells : List Octant) : Refines (DynamicStorage3D.tryFromArray c cells)
    (DynamicStorage3D.tryFromArray c.release cells) := by
  unfold DynamicStorage3D.tryFromArray
  repeat (first | apply refines_dynamic3.set | refines_step)

theorem refines_bitmask3 (w : Nat) : Refines (MortonIndex3D.maxLevelsBitmask c w)
    (MortonIndex3D.maxLevelsBitmask c.release w) := by
  unfold MortonIndex3D.maxLevelsBitmask
  repeat refines_step

theorem refines_fixed_grid3 (w : Nat) (g : Vector3 c.ptrBits) (o : OctantOrdering) : Refines (MortonIndex3D.fixedFromGridIndex c w g o)
    (MortonIndex3D.fixedFromGridIndex c.release w g o) := by
  unfold MortonIndex3D.fixedFromGridIndex
  repeat (first | apply refines_bitmask3 | apply refines_intGetBits | apply refines_intSetBits | refines_step)

theorem refines_static_grid3 (w : Nat) (g : Vector3 c.ptrBits) (d : Nat) (o : OctantOrdering) :
    Refines (MortonIndex3D.staticFromGridIndex c w g d o) (MortonIndex3D.staticFromGridIndex c.release w g d o) := by
  unfold MortonIndex3D.staticFromGridIndex
  repeat (first | apply refines_intGetBits | apply refines_intSetBits | refines_step)

theorem refines_fast_grid3 (g : Vector3 c.ptrBits) (o : OctantOrdering) : Refines (MortonIndex3D.fixedFromGridIndexFast c g o)
    (MortonIndex3D.fixedFromGridIndexFast c.release g o) := by
  unfold MortonIndex3D.fixedFromGridIndexFast
  repeat (first | apply refines_bitmask3 | refines_step)

theorem refines_zeroed3 (d : Nat) : Refines (DynamicStorage3D.zeroed c d) (DynamicStorage3D.zeroed c.release d) := by
  unfold DynamicStorage3D.zeroed
  repeat refines_step

theorem refines_dynamic_zeroed3 (d : Nat) : Refines (MortonIndex3D.dynamicZeroed c d)
    (MortonIndex3D.dynamicZeroed c.release d) := refines_bind (refines_zeroed3 d) fun _ => refines_pure _

theorem refines_dynamic_grid3 (g : Vector3 c.ptrBits) (d : Nat) (o : OctantOrdering) :
    Refines (MortonIndex3D.dynamicFromGridIndex c g d o) (MortonIndex3D.dynamicFromGridIndex c.release g d o) := by
  unfold MortonIndex3D.dynamicFromGridIndex
  repeat (first | apply refines_intGetBits | apply refines_zeroed3 | apply refines_dynamic3.set | refines_step)

theorem refines_static_to_dynamic3 {w : Nat} (m : MortonIndex3D (StaticStorage3D w)) :
    Refines (MortonIndex3D.staticToDynamic c m) (MortonIndex3D.staticToDynamic c.release m) := by
  unfold MortonIndex3D.staticToDynamic
  refine refines_bind (refines_collectCells (refines_static3 w) m.storage) fun cells => refines_bind ?_ fun _ => refines_refl _
  exact refines_bind (refines_dynamic_variable3.descendant _ _) fun _ => refines_pure _

theorem refines_dynamic_to_static3 (w : Nat) (m : MortonIndex3D DynamicStorage3D) : Refines (MortonIndex3D.dynamicToStatic c w m)
    (MortonIndex3D.dynamicToStatic c.release w m) := by
  unfold MortonIndex3D.dynamicToStatic MortonIndex3D.setCellAtLevelUnchecked MortonIndex3D.getCellAtLevelUnchecked
  repeat (first | apply (refines_static3 w).set | exact refines_dynamicGet _ _ | refines_step)

/-! ## The operations of the index type -/

theorem refines_unchecked_get3 [Storage S Octant] (h : RefinesStorage c S) (m : MortonIndex3D S) (l : Nat) :
    Refines (m.getCellAtLevelUnchecked c l) (m.getCellAtLevelUnchecked c.release l) := h.get _ _

theorem refines_unchecked_set3 [Storage S Octant] (h : RefinesStorage c S) (m : MortonIndex3D S) (l : Nat) (v : Octant) :
    Refines (m.setCellAtLevelUnchecked c l v)
        (m.setCellAtLevelUnchecked c.release l v) := refines_bind (h.set _ _ _) fun _ => refines_pure _

theorem refines_get3 [Storage S Octant] (h : RefinesStorage c S) (m : MortonIndex3D S) (l : Nat) : Refines (m.getCellAtLevel c l)
    (m.getCellAtLevel c.release l) :=
  refines_ite (fun _ => refines_error _) fun _ => h.get _ _

theorem refines_set3 [Storage S Octant] (h : RefinesStorage c S) (m : MortonIndex3D S) (l : Nat) (v : Octant) :
    Refines (m.setCellAtLevel c l v) (m.setCellAtLevel c.release l v) :=
  refines_ite (fun _ => refines_error _) fun _ => refines_bind (h.set _ _ _) fun _ => refines_pure _

theorem refines_to_grid3 [Storage S Octant] (h : RefinesStorage c S) (m : MortonIndex3D S) (o : OctantOrdering) :
    Refines (m.toGridIndex c o) (m.toGridIndex c.release o) := by
  unfold MortonIndex3D.toGridIndex
  repeat (first | apply refines_unchecked_get3 h | refines_step)

theorem refines_concat3 [Storage S Octant] (h : RefinesStorage c S) (m : MortonIndex3D S) : Refines (m.cellConcatenation c)
    (m.cellConcatenation c.release) := by
  unfold MortonIndex3D.cellConcatenation
  repeat (first | apply refines_unchecked_get3 h | refines_step)

theorem refines_string3 [Storage S Octant] (h : RefinesStorage c S) (m : MortonIndex3D S) (n : MortonIndexNaming) : Refines (m.toString c n)
    (m.toString c.release n) := by
  cases n
  · exact refines_concat3 h m
  · exact refines_bind (refines_concat3 h m) fun _ => refines_pure _
  · exact refines_bind (refines_to_grid3 h m _) fun _ => refines_pure _

theorem refines_inverted3 [Storage S Octant] (h : RefinesStorage c S) (m : MortonIndex3D S) : Refines (MortonIndex.inverted c m)
    (MortonIndex.inverted c.release m) := by
  unfold MortonIndex.inverted
  repeat (first | exact refines_unchecked_get3 h _ _ | exact refines_unchecked_set3 h _ _ _ | refines_step)

theorem refines_ancestor3 [VariableDepthStorage S Octant] (h : RefinesVariable c S) (m : MortonIndex3D S) (g : NonZeroUsize) :
    Refines (VariableDepthMortonIndex.ancestor c m g)
        (VariableDepthMortonIndex.ancestor c.release m g) := refines_bind (h.ancestor _ _) fun _ => refines_pure _

theorem refines_descendant3 [VariableDepthStorage S Octant] (h : RefinesVariable c S) (m : MortonIndex3D S) (cells : List Octant) :
    Refines (VariableDepthMortonIndex.descendant c m cells)
        (VariableDepthMortonIndex.descendant c.release m cells) := refines_bind (h.descendant _ _) fun _ => refines_pure _

theorem refines_parent3 [VariableDepthStorage S Octant] (h : RefinesVariable c S) (m : MortonIndex3D S) :
    Refines (VariableDepthMortonIndex.parent c m)
        (VariableDepthMortonIndex.parent c.release m) := refines_bind (refines_refl _) fun g => refines_ancestor3 h m g

theorem refines_withDepth3 [VariableDepthStorage S Octant] (h : RefinesVariable c S) (m : MortonIndex3D S) (d : Nat) :
    Refines (VariableDepthMortonIndex.withDepth c m d) (VariableDepthMortonIndex.withDepth c.release m d) := by
  unfold VariableDepthMortonIndex.withDepth
  refine refines_ite (fun _ => refines_pure _) fun _ => refines_bind (refines_usub _ _) fun n => refines_ite (fun _ => refines_pure _) fun _ => ?_
  exact refines_bind (refines_refl _) fun g => refines_ancestor3 h m g

end MortonRs
