import Verif.Lemmas.Refines

/-! # Builds with and without overflow checks: the generic accessors -/

namespace MortonRs

variable {c : Cfg} {S M Cell : Type}

/-- Reading and writing any level of any state agrees with the unchecked build. -/
structure RefinesStorage (c : Cfg) (S : Type) {Cell : Type} [Storage S Cell] : Prop where
  get : ∀ (s : S) (level : Nat), Refines (Storage.getCellAtLevelUnchecked c s level)
      (Storage.getCellAtLevelUnchecked c.release s level)
  set : ∀ (s : S) (level : Nat) (cell : Cell), Refines (Storage.setCellAtLevelUnchecked c s level cell)
      (Storage.setCellAtLevelUnchecked c.release s level cell)

/-- Moving any state to ancestors and descendants agrees with the unchecked build. -/
structure RefinesVariable (c : Cfg) (S : Type) {Cell : Type} [VariableDepthStorage S Cell] : Prop where
  ancestor : ∀ (s : S) (g : NonZeroUsize), Refines (VariableDepthStorage.ancestor c s g)
      (VariableDepthStorage.ancestor c.release s g)
  descendant : ∀ (s : S) (cells : List Cell), Refines (VariableDepthStorage.descendant c s cells)
      (VariableDepthStorage.descendant c.release s cells)

theorem refines_unsizedGet [Dimension Cell] (w : Nat) (b : BitVec w) (level : Nat) :
    Refines (FixedDepthStorage.getCellAtLevelUnchecked c w b level : Res Cell)
        (FixedDepthStorage.getCellAtLevelUnchecked c.release w b level : Res Cell) := by
  unfold FixedDepthStorage.getCellAtLevelUnchecked
  repeat (first | apply refines_intGetBits | exact refines_ok _ | refines_step)

theorem refines_fixedSet [Dimension Cell] (w : Nat) (b : BitVec w) (level : Nat) (cell : Cell) :
    Refines (FixedDepthStorage.setCellAtLevelUnchecked c w b level cell)
        (FixedDepthStorage.setCellAtLevelUnchecked c.release w b level cell) := by
  unfold FixedDepthStorage.setCellAtLevelUnchecked
  repeat (first | apply refines_intSetBits | refines_step)

theorem refines_staticGet [Dimension Cell] (w : Nat) (b : BitVec w) (level : Nat) :
    Refines (StaticStorage.getCellAtLevelUnchecked c w b level : Res Cell)
        (StaticStorage.getCellAtLevelUnchecked c.release w b level : Res Cell) := refines_unsizedGet w b level

theorem refines_staticSet [Dimension Cell] (w : Nat) (b : BitVec w) (level : Nat) (cell : Cell) :
    Refines (StaticStorage.setCellAtLevelUnchecked c w b level cell)
        (StaticStorage.setCellAtLevelUnchecked c.release w b level cell) := refines_fixedSet w b level cell

theorem refines_dynamicGet [Dimension Cell] (v : List (BitVec 8)) (level : Nat) :
    Refines (DynamicStorage.getCellAtLevelUnchecked c v level : Res Cell)
        (DynamicStorage.getCellAtLevelUnchecked c.release v level : Res Cell) := by
  unfold DynamicStorage.getCellAtLevelUnchecked
  repeat (first | apply refines_vecGetBitsAsUsize | refines_step)

theorem refines_dynamicSet [Dimension Cell] (v : List (BitVec 8)) (level : Nat) (cell : Cell) :
    Refines (DynamicStorage.setCellAtLevelUnchecked c v level cell)
        (DynamicStorage.setCellAtLevelUnchecked c.release v level cell) := by
  unfold DynamicStorage.setCellAtLevelUnchecked
  repeat (first | apply refines_setVecU8Bits | refines_step)

/-! ## Iteration -/

variable [Storage S Cell]

theorem refines_next (h : RefinesStorage c S) (it : CellIter S) : Refines (it.next c) (it.next c.release) := by
  unfold CellIter.next
  refine refines_ite (fun _ => refines_ok _) fun _ => ?_
  exact refines_bind (refines_uadd _ _) fun i => refines_bind (h.get _ _) fun x => refines_ok _

theorem refines_collect (h : RefinesStorage c S) (fuel : Nat) (it : CellIter S) :
    Refines (CellIter.collect c fuel it) (CellIter.collect c.release fuel it) := by
  induction fuel generalizing it with
  | zero => exact refines_refl _
  | succ fuel ih =>
    unfold CellIter.collect
    refine refines_bind (refines_next h it) fun r => ?_
    obtain ⟨x, it'⟩ := r
    cases x with
    | none => exact refines_pure _
    | some x => exact refines_bind (ih it') fun xs => refines_pure _

theorem refines_collectCells (h : RefinesStorage c S) (s : S) : Refines (Storage.collectCells c s)
    (Storage.collectCells c.release s) :=
  refines_collect h _ _

end MortonRs
