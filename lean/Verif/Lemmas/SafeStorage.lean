import Verif.Lemmas.NoUB

/-! # No undefined behaviour in the generic accessors -/

namespace MortonRs

variable {c : Cfg} {S M Cell : Type}

/-- Reading and writing any level of any state is safe. -/
structure SafeStorage (c : Cfg) (S : Type) {Cell : Type} [Storage S Cell] : Prop where
  get : ∀ (s : S) (level : Nat), Safe (Storage.getCellAtLevelUnchecked c s level)
  set : ∀ (s : S) (level : Nat) (cell : Cell), Safe (Storage.setCellAtLevelUnchecked c s level cell)

/-- Moving any state to ancestors and descendants is safe. -/
structure SafeVariable (c : Cfg) (S : Type) {Cell : Type} [VariableDepthStorage S Cell] : Prop where
  ancestor : ∀ (s : S) (g : NonZeroUsize), Safe (VariableDepthStorage.ancestor c s g)
  descendant : ∀ (s : S) (cells : List Cell), Safe (VariableDepthStorage.descendant c s cells)

theorem safe_unsizedGet [Dimension Cell] (w : Nat) (b : BitVec w) (level : Nat) :
    Safe (FixedDepthStorage.getCellAtLevelUnchecked c w b level : Res Cell) := by
  unfold FixedDepthStorage.getCellAtLevelUnchecked
  repeat (first | apply safe_intGetBits | exact safe_ok _ | safe_step)

theorem safe_fixedSet [Dimension Cell] (w : Nat) (b : BitVec w) (level : Nat) (cell : Cell) :
    Safe (FixedDepthStorage.setCellAtLevelUnchecked c w b level cell) := by
  unfold FixedDepthStorage.setCellAtLevelUnchecked
  repeat (first | apply safe_intSetBits | safe_step)

theorem safe_staticGet [Dimension Cell] (w : Nat) (b : BitVec w) (level : Nat) :
    Safe (StaticStorage.getCellAtLevelUnchecked c w b level : Res Cell) := safe_unsizedGet w b level

theorem safe_staticSet [Dimension Cell] (w : Nat) (b : BitVec w) (level : Nat) (cell : Cell) :
    Safe (StaticStorage.setCellAtLevelUnchecked c w b level cell) := safe_fixedSet w b level cell

theorem safe_dynamicGet [Dimension Cell] (v : List (BitVec 8)) (level : Nat) :
    Safe (DynamicStorage.getCellAtLevelUnchecked c v level : Res Cell) := by
  unfold DynamicStorage.getCellAtLevelUnchecked
  repeat (first | apply safe_vecGetBitsAsUsize | safe_step)

theorem bytesOf_length_ge (hc : 16 ≤ c.ptrBits) (x : BitVec c.ptrBits) : 2 ≤ (bytesOf c x).length := by
  unfold bytesOf leBytes
  split <;> simp <;> omega

theorem safe_dynamicSet [Dimension Cell] (hc : 16 ≤ c.ptrBits) (hd : Dimension.DIMENSIONALITY Cell < 8) (v : List (BitVec 8))
    (level : Nat) (cell : Cell) : Safe (DynamicStorage.setCellAtLevelUnchecked c v level cell) := by
  unfold DynamicStorage.setCellAtLevelUnchecked
  refine safe_bind' (safe_umul _ _) fun a ha => safe_bind (safe_uadd _ _) fun l1 => safe_bind (safe_umul _ _) fun b => ?_
  refine safe_bind' (safe_usub _ _) fun s hs => safe_bind' (safe_uadd _ _) fun e he => ?_
  exact safe_setVecU8Bits hc (bytesOf_length_ge hc _) hd (usub_lt (umul_lt ha) hs) he

/-! ## Iteration -/

variable [Storage S Cell]

theorem safe_next (h : SafeStorage c S) (it : CellIter S) : Safe (it.next c) := by
  unfold CellIter.next
  refine safe_ite (fun _ => safe_ok _) fun _ => ?_
  exact safe_bind (safe_uadd _ _) fun i => safe_bind (h.get _ _) fun x => safe_ok _

theorem next_some {it it' : CellIter S} {x : Cell} (hd : Storage.depth it.storage < 2 ^ c.ptrBits) (hi : it.index ≤ Storage.depth it.storage)
    (h : it.next c = .ok (some x, it')) : it'.storage = it.storage ∧ it'.index = it.index + 1 ∧ it.index < Storage.depth it.storage := by
  unfold CellIter.next at h
  split at h
  · cases h
  · have hlt : it.index < Storage.depth it.storage := by omega
    revert h
    cases e1 : uadd c it.index 1 with
    | error e => exact nofun
    | ok i =>
      have v1 := uadd_val (by omega) e1
      subst v1
      change (Storage.getCellAtLevelUnchecked c it.storage it.index >>= _) = _ → _
      cases Storage.getCellAtLevelUnchecked c it.storage it.index with
      | error e => exact nofun
      | ok y =>
        intro h
        cases h
        exact ⟨rfl, rfl, hlt⟩

theorem safe_collect (h : SafeStorage c S) (fuel : Nat) (it : CellIter S) (hd : Storage.depth it.storage < 2 ^ c.ptrBits)
    (hi : it.index ≤ Storage.depth it.storage) (hf : Storage.depth it.storage - it.index < fuel) : Safe (CellIter.collect c fuel it) := by
  induction fuel generalizing it with
  | zero => omega
  | succ fuel ih =>
    unfold CellIter.collect
    refine safe_bind' (safe_next h it) fun r hr => ?_
    obtain ⟨x, it'⟩ := r
    cases x with
    | none => exact safe_pure _
    | some x =>
      obtain ⟨e1, e2, e3⟩ := next_some hd hi hr
      refine safe_bind (ih it' (by rw [e1]; exact hd) (by rw [e1, e2]; omega) (by rw [e1, e2]; omega)) fun xs => safe_pure _

/-- Collecting all cells of a state whose depth fits `usize` is safe and terminates. -/
theorem safe_collectCells (h : SafeStorage c S) (s : S) (hd : Storage.depth s < 2 ^ c.ptrBits) : Safe (Storage.collectCells c s) :=
  safe_collect h _ _ hd (Nat.zero_le _) (Nat.lt_succ_self _)

end MortonRs
