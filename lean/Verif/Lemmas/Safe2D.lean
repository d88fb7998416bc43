import Verif.Lemmas.SafeStorage

/-! # No undefined behaviour in the two-dimensional index types -/

namespace MortonRs

variable {c : Cfg} {S : Type}

theorem safe_fixed2 (w : Nat) : SafeStorage c (FixedDepthStorage2D w) where
  get s l := safe_unsizedGet w s.bits l
  set s l v := safe_bind (safe_fixedSet w s.bits l v) fun _ => safe_pure _

theorem safe_static2 (w : Nat) : SafeStorage c (StaticStorage2D w) where
  get s l := safe_staticGet w s.bits l
  set s l v := safe_bind (safe_staticSet w s.bits l v) fun _ => safe_pure _

theorem safe_dynamic2 (hc : 16 ≤ c.ptrBits) : SafeStorage c DynamicStorage2D where
  get s l := safe_dynamicGet s.bits l
  set s l v := safe_bind (safe_dynamicSet hc (by decide) s.bits l v) fun _ => safe_pure _

theorem safe_static_variable2 (w : Nat) : SafeVariable c (StaticStorage2D w) where
  ancestor s g := by
    change Safe (StaticStorage2D.ancestor c s g)
    unfold StaticStorage2D.ancestor
    repeat (first | apply (safe_static2 w).set | safe_step)
  descendant s cells := by
    change Safe (StaticStorage2D.descendant c s cells)
    unfold StaticStorage2D.descendant
    repeat (first | apply (safe_static2 w).set | safe_step)

theorem safe_dynamic_variable2 (hc : 16 ≤ c.ptrBits) : SafeVariable c DynamicStorage2D where
  ancestor s g := by
    change Safe (DynamicStorage2D.ancestor c s g)
    unfold DynamicStorage2D.ancestor
    repeat safe_step
  descendant s cells := by
    change Safe (DynamicStorage2D.descendant c s cells)
    unfold DynamicStorage2D.descendant
    repeat (first | apply (safe_dynamic2 hc).set | safe_step)

theorem safe_static_cmp2 {w : Nat} (a b : StaticStorage2D w) : Safe (StaticStorage2D.cmp c a b) := by
  unfold StaticStorage2D.cmp
  repeat (first | apply safe_intGetBits | safe_step)

theorem safe_dynamic_cmp2 (a b : DynamicStorage2D) : Safe (DynamicStorage2D.cmp c a b) := by
  unfold DynamicStorage2D.cmp
  have hget : ∀ (s : DynamicStorage2D) l, Safe (s.getCellAtLevelOrNone c l) := fun s l => by
    unfold DynamicStorage2D.getCellAtLevelOrNone
    exact safe_ite (fun _ => safe_ok _) fun _ => safe_bind (safe_dynamicGet s.bits l) fun _ => safe_pure _
  dsimp only
  generalize List.range' 0 (max a.depth b.depth) = ls
  induction ls with
  | nil => exact safe_ok _
  | cons l ls ih =>
    unfold DynamicStorage2D.cmpLevels
    exact safe_bind (hget _ _) fun x => safe_bind (hget _ _) fun y => safe_ite (fun _ => ih) fun _ => safe_pure _

/-! ## Constructors -/

theorem safe_fixed_slice2 (w : Nat) (cells : List Quadrant) : Safe (FixedDepthStorage2D.tryFromSlice c w cells) := by
  unfold FixedDepthStorage2D.tryFromSlice
  repeat (first | apply (safe_fixed2 w).set | safe_step)

theorem safe_fixed_array2 (w : Nat) (cells : List Quadrant) : Safe (FixedDepthStorage2D.tryFromArray c w cells) := by
  unfold FixedDepthStorage2D.tryFromArray
  repeat (first | apply (safe_fixed2 w).set | safe_step)

theorem safe_static_slice2 (w : Nat) (cells : List Quadrant) : Safe (StaticStorage2D.tryFromSlice c w cells) := by
  unfold StaticStorage2D.tryFromSlice
  repeat (first | apply (safe_static2 w).set | safe_step)

theorem safe_static_array2 (w : Nat) (cells : List Quadrant) : Safe (StaticStorage2D.tryFromArray c w cells) := by
  unfold StaticStorage2D.tryFromArray
  repeat (first | apply (safe_static2 w).set | safe_step)

theorem safe_dynamic_slice2 (hc : 16 ≤ c.ptrBits) (cells : List Quadrant) : Safe (DynamicStorage2D.tryFromSlice c cells) := by
  unfold DynamicStorage2D.tryFromSlice
  repeat (first | apply (safe_dynamic2 hc).set | safe_step)

theorem safe_dynamic_array2 (hc : 16 ≤ c.ptrBits) (cells : List Quadrant) : Safe (DynamicStorage2D.tryFromArray c cells) := by
  unfold DynamicStorage2D.tryFromArray
  repeat (first | apply (safe_dynamic2 hc).set | safe_step)

theorem safe_fixed_grid2 (w : Nat) (g : Vector2 c.ptrBits) (o : QuadrantOrdering) : Safe (MortonIndex2D.fixedFromGridIndex c w g o) := by
  unfold MortonIndex2D.fixedFromGridIndex
  repeat (first | apply safe_intGetBits | apply safe_intSetBits | safe_step)

theorem safe_static_grid2 (w : Nat) (g : Vector2 c.ptrBits) (d : Nat) (o : QuadrantOrdering) :
    Safe (MortonIndex2D.staticFromGridIndex c w g d o) := by
  unfold MortonIndex2D.staticFromGridIndex
  repeat (first | apply safe_intGetBits | apply safe_intSetBits | safe_step)

theorem safe_dynamic_grid2 (g : Vector2 c.ptrBits) (d : Nat) (o : QuadrantOrdering) :
    Safe (MortonIndex2D.dynamicFromGridIndex c g d o) := by
  unfold MortonIndex2D.dynamicFromGridIndex
  repeat (first | apply safe_intGetBits | apply safe_intSetBits | safe_step)

theorem safe_static_to_dynamic2 {w : Nat} (hc : 16 ≤ c.ptrBits) (m : MortonIndex2D (StaticStorage2D w)) (hd : m.storage.depth < 2 ^ c.ptrBits) :
    Safe (MortonIndex2D.staticToDynamic c m) := by
  unfold MortonIndex2D.staticToDynamic
  refine safe_bind (safe_collectCells (safe_static2 w) m.storage hd) fun cells => safe_bind ?_ fun _ => safe_unwrapOption _
  exact safe_bind ((safe_dynamic_variable2 hc).descendant _ _) fun _ => safe_pure _

theorem safe_dynamic_to_static2 (w : Nat) (m : MortonIndex2D DynamicStorage2D) : Safe (MortonIndex2D.dynamicToStatic c w m) := by
  unfold MortonIndex2D.dynamicToStatic MortonIndex2D.setCellAtLevelUnchecked MortonIndex2D.getCellAtLevelUnchecked
  repeat (first | apply (safe_static2 w).set | exact safe_dynamicGet _ _ | safe_step)

/-! ## The operations of the index type -/

theorem safe_unchecked_get2 [Storage S Quadrant] (h : SafeStorage c S) (m : MortonIndex2D S) (l : Nat) :
    Safe (m.getCellAtLevelUnchecked c l) := h.get _ _

theorem safe_unchecked_set2 [Storage S Quadrant] (h : SafeStorage c S) (m : MortonIndex2D S) (l : Nat) (v : Quadrant) :
    Safe (m.setCellAtLevelUnchecked c l v) := safe_bind (h.set _ _ _) fun _ => safe_pure _

theorem safe_get2 [Storage S Quadrant] (h : SafeStorage c S) (m : MortonIndex2D S) (l : Nat) : Safe (m.getCellAtLevel c l) :=
  safe_ite (fun _ => safe_error nofun nofun) fun _ => h.get _ _

theorem safe_set2 [Storage S Quadrant] (h : SafeStorage c S) (m : MortonIndex2D S) (l : Nat) (v : Quadrant) :
    Safe (m.setCellAtLevel c l v) :=
  safe_ite (fun _ => safe_error nofun nofun) fun _ => safe_bind (h.set _ _ _) fun _ => safe_pure _

theorem safe_to_grid2 [Storage S Quadrant] (h : SafeStorage c S) (m : MortonIndex2D S) (o : QuadrantOrdering) :
    Safe (m.toGridIndex c o) := by
  unfold MortonIndex2D.toGridIndex
  repeat (first | apply safe_unchecked_get2 h | safe_step)

theorem safe_concat2 [Storage S Quadrant] (h : SafeStorage c S) (m : MortonIndex2D S) : Safe (m.cellConcatenation c) := by
  unfold MortonIndex2D.cellConcatenation
  repeat (first | apply safe_unchecked_get2 h | safe_step)

theorem safe_string2 [Storage S Quadrant] (h : SafeStorage c S) (m : MortonIndex2D S) (n : MortonIndexNaming) : Safe (m.toString c n) := by
  cases n
  · exact safe_concat2 h m
  · exact safe_bind (safe_concat2 h m) fun _ => safe_pure _
  · exact safe_bind (safe_to_grid2 h m _) fun _ => safe_pure _

theorem safe_inverted2 [Storage S Quadrant] (h : SafeStorage c S) (m : MortonIndex2D S) : Safe (MortonIndex.inverted c m) := by
  unfold MortonIndex.inverted
  repeat (first | exact safe_unchecked_get2 h _ _ | exact safe_unchecked_set2 h _ _ _ | safe_step)

theorem safe_ancestor2 [VariableDepthStorage S Quadrant] (h : SafeVariable c S) (m : MortonIndex2D S) (g : NonZeroUsize) :
    Safe (VariableDepthMortonIndex.ancestor c m g) := safe_bind (h.ancestor _ _) fun _ => safe_pure _

theorem safe_descendant2 [VariableDepthStorage S Quadrant] (h : SafeVariable c S) (m : MortonIndex2D S) (cells : List Quadrant) :
    Safe (VariableDepthMortonIndex.descendant c m cells) := safe_bind (h.descendant _ _) fun _ => safe_pure _

theorem safe_parent2 [VariableDepthStorage S Quadrant] (h : SafeVariable c S) (m : MortonIndex2D S) :
    Safe (VariableDepthMortonIndex.parent c m) := safe_bind (safe_newUnchecked Nat.zero_lt_one) fun g => safe_ancestor2 h m g

theorem safe_withDepth2 [VariableDepthStorage S Quadrant] (h : SafeVariable c S) (m : MortonIndex2D S) (d : Nat) :
    Safe (VariableDepthMortonIndex.withDepth c m d) := by
  unfold VariableDepthMortonIndex.withDepth
  refine safe_ite (fun _ => safe_pure _) fun _ => safe_bind (safe_usub _ _) fun n => safe_ite (fun _ => safe_pure _) fun hn => ?_
  exact safe_bind (safe_newUnchecked (Nat.pos_of_ne_zero hn)) fun g => safe_ancestor2 h m g

end MortonRs
