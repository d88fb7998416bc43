import Verif.Lemmas.SafeStorage

/-! # No undefined behaviour in the three-dimensional index types -/

namespace MortonRs

variable {c : Cfg} {S : Type}

theorem safe_fixed3 (w : Nat) : SafeStorage c (FixedDepthStorage3D w) where
  get s l := safe_unsizedGet w s.bits l
  set s l v := safe_bind (safe_fixedSet w s.bits l v) fun _ => safe_pure _

theorem safe_static3 (w : Nat) : SafeStorage c (StaticStorage3D w) where
  get s l := safe_staticGet w s.bits l
  set s l v := safe_bind (safe_staticSet w s.bits l v) fun _ => safe_pure _

theorem safe_dynamic3 (hc : 16 ≤ c.ptrBits) : SafeStorage c DynamicStorage3D where
  get s l := safe_dynamicGet s.bits l
  set s l v := safe_bind (safe_dynamicSet hc (by decide) s.bits l v) fun _ => safe_pure _

theorem safe_static_variable3 (w : Nat) : SafeVariable c (StaticStorage3D w) where
  ancestor s g := by
    change Safe (StaticStorage3D.ancestor c s g)
    unfold StaticStorage3D.ancestor
    repeat (first | apply (safe_static3 w).set | safe_step)
  descendant s cells := by
    change Safe (StaticStorage3D.descendant c s cells)
    unfold StaticStorage3D.descendant
    repeat (first | apply (safe_static3 w).set | safe_step)

theorem safe_dynamic_variable3 (hc : 16 ≤ c.ptrBits) : SafeVariable c DynamicStorage3D where
  ancestor s g := by
    change Safe (DynamicStorage3D.ancestor c s g)
    unfold DynamicStorage3D.ancestor
    repeat safe_step
  descendant s cells := by
    change Safe (DynamicStorage3D.descendant c s cells)
    unfold DynamicStorage3D.descendant
    repeat (first | apply (safe_dynamic3 hc).set | safe_step)

theorem safe_static_cmp3 {w : Nat} (a b : StaticStorage3D w) : Safe (StaticStorage3D.cmp c a b) := by
  unfold StaticStorage3D.cmp
  repeat (first | apply safe_intGetBits | safe_step)

theorem safe_dynamic_cmp3 (a b : DynamicStorage3D) : Safe (DynamicStorage3D.cmp c a b) := by
  unfold DynamicStorage3D.cmp
  have hget : ∀ (s : DynamicStorage3D) l, Safe (s.getCellAtLevelOrNone c l) := fun s l => by
    unfold DynamicStorage3D.getCellAtLevelOrNone
    exact safe_ite (fun _ => safe_ok _) fun _ => safe_bind (safe_dynamicGet s.bits l) fun _ => safe_pure _
  dsimp only
  generalize List.range' 0 (max a.depth b.depth) = ls
  induction ls with
  | nil => exact safe_ok _
  | cons l ls ih =>
    unfold DynamicStorage3D.cmpLevels
    exact safe_bind (hget _ _) fun x => safe_bind (hget _ _) fun y => safe_ite (fun _ => ih) fun _ => safe_pure _

/-! ## Constructors -/

theorem safe_fixed_slice3 (w : Nat) (cells : List Octant) : Safe (FixedDepthStorage3D.tryFromSlice c w cells) := by
  unfold FixedDepthStorage3D.tryFromSlice
  repeat (first | apply (safe_fixed3 w).set | safe_step)

theorem safe_fixed_array3 (w : Nat) (cells : List Octant) : Safe (FixedDepthStorage3D.tryFromArray c w cells) := by
  unfold FixedDepthStorage3D.tryFromArray
  repeat (first | apply (safe_fixed3 w).set | safe_step)

theorem safe_static_slice3 (w : Nat) (cells : List Octant) : Safe (StaticStorage3D.tryFromSlice c w cells) := by
  unfold StaticStorage3D.tryFromSlice
  repeat (first | apply (safe_static3 w).set | safe_step)

theorem safe_static_array3 (w : Nat) (cells : List Octant) : Safe (StaticStorage3D.tryFromArray c w cells) := by
  unfold StaticStorage3D.tryFromArray
  repeat (first | apply (safe_static3 w).set | safe_step)

theorem safe_dynamic_slice3 (hc : 16 ≤ c.ptrBits) (cells : List Octant) : Safe (DynamicStorage3D.tryFromSlice c cells) := by
  unfold DynamicStorage3D.tryFromSlice
  repeat (first | apply (safe_dynamic3 hc).set | safe_step)

theorem safe_dynamic_array3 (hc : 16 ≤ c.ptrBits) (cells : List Octant) : Safe (DynamicStorage3D.tryFromArray c cells) := by
  unfold DynamicStorage3D.tryFromArray
  repeat (first | apply (safe_dynamic3 hc).set | safe_step)

theorem safe_bitmask3 (w : Nat) : Safe (MortonIndex3D.maxLevelsBitmask c w) := by
  unfold MortonIndex3D.maxLevelsBitmask
  repeat safe_step

theorem safe_fixed_grid3 (w : Nat) (g : Vector3 c.ptrBits) (o : OctantOrdering) : Safe (MortonIndex3D.fixedFromGridIndex c w g o) := by
  unfold MortonIndex3D.fixedFromGridIndex
  repeat (first | apply safe_bitmask3 | apply safe_intGetBits | apply safe_intSetBits | safe_step)

theorem safe_static_grid3 (w : Nat) (g : Vector3 c.ptrBits) (d : Nat) (o : OctantOrdering) :
    Safe (MortonIndex3D.staticFromGridIndex c w g d o) := by
  unfold MortonIndex3D.staticFromGridIndex
  repeat (first | apply safe_intGetBits | apply safe_intSetBits | safe_step)

theorem safe_fast_grid3 (g : Vector3 c.ptrBits) (o : OctantOrdering) : Safe (MortonIndex3D.fixedFromGridIndexFast c g o) := by
  unfold MortonIndex3D.fixedFromGridIndexFast
  repeat (first | apply safe_bitmask3 | safe_step)

theorem safe_zeroed3 (d : Nat) : Safe (DynamicStorage3D.zeroed c d) := by
  unfold DynamicStorage3D.zeroed
  repeat safe_step

theorem safe_dynamic_zeroed3 (d : Nat) : Safe (MortonIndex3D.dynamicZeroed c d) := safe_bind (safe_zeroed3 d) fun _ => safe_pure _

theorem safe_dynamic_grid3 (hc : 16 ≤ c.ptrBits) (g : Vector3 c.ptrBits) (d : Nat) (o : OctantOrdering) :
    Safe (MortonIndex3D.dynamicFromGridIndex c g d o) := by
  unfold MortonIndex3D.dynamicFromGridIndex
  repeat (first | apply safe_intGetBits | apply safe_zeroed3 | apply (safe_dynamic3 hc).set | safe_step)

theorem safe_static_to_dynamic3 {w : Nat} (hc : 16 ≤ c.ptrBits) (m : MortonIndex3D (StaticStorage3D w)) (hd : m.storage.depth < 2 ^ c.ptrBits) :
    Safe (MortonIndex3D.staticToDynamic c m) := by
  unfold MortonIndex3D.staticToDynamic
  refine safe_bind (safe_collectCells (safe_static3 w) m.storage hd) fun cells => safe_bind ?_ fun _ => safe_unwrapOption _
  exact safe_bind ((safe_dynamic_variable3 hc).descendant _ _) fun _ => safe_pure _

theorem safe_dynamic_to_static3 (w : Nat) (m : MortonIndex3D DynamicStorage3D) : Safe (MortonIndex3D.dynamicToStatic c w m) := by
  unfold MortonIndex3D.dynamicToStatic MortonIndex3D.setCellAtLevelUnchecked MortonIndex3D.getCellAtLevelUnchecked
  repeat (first | apply (safe_static3 w).set | exact safe_dynamicGet _ _ | safe_step)

/-! ## The operations of the index type -/

theorem safe_unchecked_get3 [Storage S Octant] (h : SafeStorage c S) (m : MortonIndex3D S) (l : Nat) :
    Safe (m.getCellAtLevelUnchecked c l) := h.get _ _

theorem safe_unchecked_set3 [Storage S Octant] (h : SafeStorage c S) (m : MortonIndex3D S) (l : Nat) (v : Octant) :
    Safe (m.setCellAtLevelUnchecked c l v) := safe_bind (h.set _ _ _) fun _ => safe_pure _

theorem safe_get3 [Storage S Octant] (h : SafeStorage c S) (m : MortonIndex3D S) (l : Nat) : Safe (m.getCellAtLevel c l) :=
  safe_ite (fun _ => safe_error nofun nofun) fun _ => h.get _ _

theorem safe_set3 [Storage S Octant] (h : SafeStorage c S) (m : MortonIndex3D S) (l : Nat) (v : Octant) :
    Safe (m.setCellAtLevel c l v) :=
  safe_ite (fun _ => safe_error nofun nofun) fun _ => safe_bind (h.set _ _ _) fun _ => safe_pure _

theorem safe_to_grid3 [Storage S Octant] (h : SafeStorage c S) (m : MortonIndex3D S) (o : OctantOrdering) :
    Safe (m.toGridIndex c o) := by
  unfold MortonIndex3D.toGridIndex
  repeat (first | apply safe_unchecked_get3 h | safe_step)

theorem safe_concat3 [Storage S Octant] (h : SafeStorage c S) (m : MortonIndex3D S) : Safe (m.cellConcatenation c) := by
  unfold MortonIndex3D.cellConcatenation
  repeat (first | apply safe_unchecked_get3 h | safe_step)

theorem safe_string3 [Storage S Octant] (h : SafeStorage c S) (m : MortonIndex3D S) (n : MortonIndexNaming) : Safe (m.toString c n) := by
  cases n
  · exact safe_concat3 h m
  · exact safe_bind (safe_concat3 h m) fun _ => safe_pure _
  · exact safe_bind (safe_to_grid3 h m _) fun _ => safe_pure _

theorem safe_inverted3 [Storage S Octant] (h : SafeStorage c S) (m : MortonIndex3D S) : Safe (MortonIndex.inverted c m) := by
  unfold MortonIndex.inverted
  repeat (first | exact safe_unchecked_get3 h _ _ | exact safe_unchecked_set3 h _ _ _ | safe_step)

theorem safe_ancestor3 [VariableDepthStorage S Octant] (h : SafeVariable c S) (m : MortonIndex3D S) (g : NonZeroUsize) :
    Safe (VariableDepthMortonIndex.ancestor c m g) := safe_bind (h.ancestor _ _) fun _ => safe_pure _

theorem safe_descendant3 [VariableDepthStorage S Octant] (h : SafeVariable c S) (m : MortonIndex3D S) (cells : List Octant) :
    Safe (VariableDepthMortonIndex.descendant c m cells) := safe_bind (h.descendant _ _) fun _ => safe_pure _

theorem safe_parent3 [VariableDepthStorage S Octant] (h : SafeVariable c S) (m : MortonIndex3D S) :
    Safe (VariableDepthMortonIndex.parent c m) := safe_bind (safe_newUnchecked Nat.zero_lt_one) fun g => safe_ancestor3 h m g

theorem safe_withDepth3 [VariableDepthStorage S Octant] (h : SafeVariable c S) (m : MortonIndex3D S) (d : Nat) :
    Safe (VariableDepthMortonIndex.withDepth c m d) := by
  unfold VariableDepthMortonIndex.withDepth
  refine safe_ite (fun _ => safe_pure _) fun _ => safe_bind (safe_usub _ _) fun n => safe_ite (fun _ => safe_pure _) fun hn => ?_
  exact safe_bind (safe_newUnchecked (Nat.pos_of_ne_zero hn)) fun g => safe_ancestor3 h m g

end MortonRs
