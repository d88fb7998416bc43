import Verif.Props.ZOrder

/-! # Orderings only rename the axes (C68) -/

namespace MortonRs

/-! ## Statements -/

/-- The coordinates of `g` under `o` are those of `g'` under `o'`, axis by axis in the order of the names. -/
def SameUnder2D {W : Nat} (o : QuadrantOrdering) (g : Vector2 W) (o' : QuadrantOrdering) (g' : Vector2 W) : Prop :=
  if o = o' then g.x = g'.x ∧ g.y = g'.y else g.x = g'.y ∧ g.y = g'.x

def SameUnder3D {W : Nat} (o : OctantOrdering) (g : Vector3 W) (o' : OctantOrdering) (g' : Vector3 W) : Prop :=
  axisOf g (octantAxes o).1 = axisOf g' (octantAxes o').1 ∧
  axisOf g (octantAxes o).2.1 = axisOf g' (octantAxes o').2.1 ∧
  axisOf g (octantAxes o).2.2 = axisOf g' (octantAxes o').2.2

/-- Two grid results agree up to the names of the axes, faults included. -/
def SameResult {α : Type} (r : α → α → Prop) : Res α → Res α → Prop
  | .ok a, .ok b => r a b
  | .error e, .error f => e = f
  | _, _ => False

/-! ## Lemmas -/

variable {c : Cfg}

/-- Whether an operation fails does not depend on the operand. -/
def Uniform {α β : Type} (f : α → Res β) : Prop :=
  (∃ e, ∀ x, f x = .error e) ∨ ∃ g : α → β, ∀ x, f x = .ok (g x)

theorem shl_uniform (w k : Nat) : Uniform (fun x : BitVec w => shl c x k) := by
  unfold shl
  split
  · exact Or.inr ⟨_, fun _ => rfl⟩
  · split
    · exact Or.inl ⟨_, fun _ => rfl⟩
    · exact Or.inr ⟨_, fun _ => rfl⟩

theorem shr_uniform (w k : Nat) : Uniform (fun x : BitVec w => shr c x k) := by
  unfold shr
  split
  · exact Or.inr ⟨_, fun _ => rfl⟩
  · split
    · exact Or.inl ⟨_, fun _ => rfl⟩
    · exact Or.inr ⟨_, fun _ => rfl⟩

theorem intGetBits_uniform (w : Nat) (r : Range) : Uniform (fun x : BitVec w => intGetBits c x r) := by
  unfold intGetBits
  cases usub c w r.len with
  | error e => exact Or.inl ⟨e, fun _ => rfl⟩
  | ok v => exact Or.inr ⟨_, fun _ => rfl⟩

theorem SameResult.foldlM {σ : Type} {r : σ → σ → Prop} {f g : σ → Nat → Res σ}
    (h : ∀ i s t, r s t → SameResult r (f s i) (g t i)) (xs : List Nat) :
    ∀ s t, r s t → SameResult r (xs.foldlM f s) (xs.foldlM g t) := by
  induction xs with
  | nil => exact fun s t hs => hs
  | cons i xs ih =>
    intro s t hs
    rw [List.foldlM_cons, List.foldlM_cons]
    have := h i s t hs
    match hf : f s i, hg : g t i with
    | .ok a, .ok b => rw [hf, hg] at this; exact ih a b this
    | .error e, .error e' => rw [hf, hg] at this; exact this
    | .ok a, .error e' => rw [hf, hg] at this; exact this.elim
    | .error e, .ok b => rw [hf, hg] at this; exact this.elim

/-! ## 2D -/

theorem sameUnder2D_cases {W : Nat} {o o' : QuadrantOrdering} {g g' : Vector2 W} (h : SameUnder2D o g o' g') :
    (o = o' ∧ g = g') ∨ (o ≠ o' ∧ g' = ⟨g.y, g.x⟩) := by
  obtain ⟨x, y⟩ := g
  obtain ⟨x', y'⟩ := g'
  unfold SameUnder2D at h
  split at h
  · next e => exact .inl ⟨e, by simp only [Vector2.mk.injEq]; exact h⟩
  · next e => exact .inr ⟨e, by simp only [Vector2.mk.injEq]; exact ⟨h.2.symm, h.1.symm⟩⟩

theorem orderBits_swap {W : Nat} {o o' : QuadrantOrdering} (h : o ≠ o') (x y : BitVec W) :
    MortonIndex2D.orderBits o x y = MortonIndex2D.orderBits o' y x := by
  cases o <;> cases o' <;> first | rfl | exact absurd rfl h

theorem fixedFromGrid_swap2 {o o' : QuadrantOrdering} (h : o ≠ o') (w : Nat) (x y : BitVec c.ptrBits) :
    MortonIndex2D.fixedFromGridIndex c w ⟨x, y⟩ o = MortonIndex2D.fixedFromGridIndex c w ⟨y, x⟩ o' := by
  unfold MortonIndex2D.fixedFromGridIndex
  rcases intGetBits_uniform (c := c) c.ptrBits ⟨0, FixedDepthStorage.MAX_LEVELS w Quadrant⟩ with ⟨e, he⟩ | ⟨f, he⟩
  · simp only [he, error_bind]
  · simp only [he, ok_bind, orderBits_swap h]

theorem staticFromGrid_swap2 {o o' : QuadrantOrdering} (h : o ≠ o') (w d : Nat) (x y : BitVec c.ptrBits) :
    MortonIndex2D.staticFromGridIndex c w ⟨x, y⟩ d o = MortonIndex2D.staticFromGridIndex c w ⟨y, x⟩ d o' := by
  unfold MortonIndex2D.staticFromGridIndex
  split
  · rfl
  cases usub c (FixedDepthStorage.MAX_LEVELS w Quadrant) d with
  | error e => simp only [error_bind]
  | ok s =>
    simp only [ok_bind]
    rcases intGetBits_uniform (c := c) c.ptrBits ⟨0, d⟩ with ⟨e, he⟩ | ⟨f, he⟩
    · simp only [he, error_bind]
    rcases shl_uniform (c := c) c.ptrBits s with ⟨e, hs⟩ | ⟨k, hs⟩
    · simp only [he, ok_bind, hs, error_bind]
    · simp only [he, ok_bind, hs, orderBits_swap h]

theorem dynamicFromGrid_swap2 {o o' : QuadrantOrdering} (h : o ≠ o') (d : Nat) (x y : BitVec c.ptrBits) :
    MortonIndex2D.dynamicFromGridIndex c ⟨x, y⟩ d o = MortonIndex2D.dynamicFromGridIndex c ⟨y, x⟩ d o' := by
  unfold MortonIndex2D.dynamicFromGridIndex
  rcases intGetBits_uniform (c := c) c.ptrBits ⟨0, d⟩ with ⟨e, he⟩ | ⟨f, he⟩
  · simp only [he, error_bind]
  · simp only [he, ok_bind, orderBits_swap h]

theorem toGridIndex_swap2 {S : Type} [Storage S Quadrant] {o o' : QuadrantOrdering} (h : o ≠ o') (m : MortonIndex2D S) :
    SameResult (fun g g' => g' = ⟨g.y, g.x⟩) (m.toGridIndex c o) (m.toGridIndex c o') := by
  unfold MortonIndex2D.toGridIndex forRange
  refine SameResult.foldlM ?_ _ _ _ rfl
  intro l s t hs
  subst hs
  cases hq : m.getCellAtLevelUnchecked c l with
  | error e => simp only [hq, error_bind]; exact rfl
  | ok v =>
    cases h1 : usub c m.depth l with
    | error e => simp only [ok_bind, error_bind, h1, hq]; exact rfl
    | ok a =>
      cases h2 : usub c a 1 with
      | error e => simp only [ok_bind, error_bind, h1, h2, hq]; exact rfl
      | ok b =>
        rcases shl_uniform (c := c) c.ptrBits b with ⟨e, hu⟩ | ⟨k, hu⟩
        · simp only [ok_bind, error_bind, h1, h2, hu, hq]; exact rfl
        · simp only [ok_bind, h1, h2, hu, hq]
          cases o <;> cases o' <;> first | exact rfl | exact absurd rfl h

/-! ## 3D -/

theorem shl_small {w s : Nat} (h : s < w) (x : BitVec w) : shl c x s = .ok (x <<< s) := by
  unfold shl; rw [if_pos h]

/-- The grid index in the order of the ordering's name. -/
def inOrder {W : Nat} (o : OctantOrdering) (g : Vector3 W) : Vector3 W :=
  ⟨axisOf g (octantAxes o).1, axisOf g (octantAxes o).2.1, axisOf g (octantAxes o).2.2⟩

theorem sameUnder3D_inOrder {W : Nat} {o o' : OctantOrdering} {g g' : Vector3 W} (h : SameUnder3D o g o' g') :
    inOrder o g = inOrder o' g' := by
  unfold inOrder
  rw [h.1, h.2.1, h.2.2]

theorem or_left_comm {w : Nat} (a b d : BitVec w) : a ||| (b ||| d) = b ||| (a ||| d) := by
  rw [← BitVec.or_assoc, BitVec.or_comm a b, BitVec.or_assoc]

theorem fixedFromGrid_inOrder (w : Nat) (o : OctantOrdering) (g : Vector3 c.ptrBits) :
    MortonIndex3D.fixedFromGridIndex c w g o = MortonIndex3D.fixedFromGridIndex c w (inOrder o g) .XYZ := by
  unfold MortonIndex3D.fixedFromGridIndex
  cases MortonIndex3D.maxLevelsBitmask c w with
  | error e => rfl
  | ok mask =>
    simp only [ok_bind]
    split
    · rfl
    congr 1
    funext n
    congr 1
    congr 1
    funext i b
    congr 1
    funext s
    congr 1
    funext t
    rcases intGetBits_uniform (c := c) c.ptrBits ⟨s, t⟩ with ⟨e, he⟩ | ⟨f, he⟩
    · simp only [he, error_bind]
    · simp only [he, ok_bind]
      cases o <;> simp only [OctantOrdering.getBitShiftsForXyz, shl_small (show 0 < 64 by decide),
        shl_small (show 1 < 64 by decide), shl_small (show 2 < 64 by decide), ok_bind, inOrder, octantAxes, axisOf,
        BitVec.or_assoc, BitVec.or_comm, or_left_comm]

theorem fixedFromGridFast_inOrder (o : OctantOrdering) (g : Vector3 c.ptrBits) :
    MortonIndex3D.fixedFromGridIndexFast c g o = MortonIndex3D.fixedFromGridIndexFast c (inOrder o g) .XYZ := by
  unfold MortonIndex3D.fixedFromGridIndexFast
  cases MortonIndex3D.maxLevelsBitmask c 64 with
  | error e => rfl
  | ok mask =>
    simp only [ok_bind]
    split
    · rfl
    cases o <;> simp only [OctantOrdering.getBitShiftsForXyz, shl_small (show 0 < 64 by decide),
      shl_small (show 1 < 64 by decide), shl_small (show 2 < 64 by decide), ok_bind, inOrder, octantAxes, axisOf,
      BitVec.or_assoc, BitVec.or_comm, or_left_comm]

theorem staticFromGrid_inOrder (w d : Nat) (o : OctantOrdering) (g : Vector3 c.ptrBits) :
    MortonIndex3D.staticFromGridIndex c w g d o = MortonIndex3D.staticFromGridIndex c w (inOrder o g) d .XYZ := by
  unfold MortonIndex3D.staticFromGridIndex
  split
  · rfl
  cases usub c (FixedDepthStorage.MAX_LEVELS w Octant) d with
  | error e => simp only [error_bind]
  | ok s =>
    simp only [ok_bind]
    rcases intGetBits_uniform (c := c) c.ptrBits ⟨0, d⟩ with ⟨e, he⟩ | ⟨f, he⟩
    · simp only [he, error_bind]
    rcases shl_uniform (c := c) c.ptrBits s with ⟨e, hs⟩ | ⟨k, hs⟩
    · simp only [he, ok_bind, hs, error_bind]
    simp only [he, ok_bind, hs]
    congr 1
    funext n
    congr 1
    funext n'
    congr 1
    funext a
    congr 1
    congr 1
    funext i b
    congr 1
    funext s
    congr 1
    funext t
    rcases intGetBits_uniform (c := c) c.ptrBits ⟨s, t⟩ with ⟨e, he⟩ | ⟨f, he⟩
    · simp only [he, error_bind]
    · simp only [he, ok_bind]
      cases o <;> simp only [OctantOrdering.getBitShiftsForXyz, shl_small (show 0 < 32 by decide),
        shl_small (show 1 < 32 by decide), shl_small (show 2 < 32 by decide), ok_bind, inOrder, octantAxes, axisOf,
        BitVec.or_assoc, BitVec.or_comm, or_left_comm]

theorem dynamicFromGrid_inOrder (hc : 2 < c.ptrBits) (d : Nat) (o : OctantOrdering) (g : Vector3 c.ptrBits) :
    MortonIndex3D.dynamicFromGridIndex c g d o = MortonIndex3D.dynamicFromGridIndex c (inOrder o g) d .XYZ := by
  unfold MortonIndex3D.dynamicFromGridIndex
  dsimp only
  split
  · rfl
  rcases intGetBits_uniform (c := c) c.ptrBits ⟨0, d⟩ with ⟨e, he⟩ | ⟨f, he⟩
  · simp only [he, error_bind]
  simp only [he, ok_bind]
  congr 1
  funext st
  congr 1
  congr 1
  funext i b
  congr 1
  funext s
  congr 1
  funext t
  rcases shr_uniform (c := c) c.ptrBits t with ⟨e, he⟩ | ⟨f, he⟩
  · simp only [he, error_bind]
  · simp only [he, ok_bind]
    cases o <;> simp only [OctantOrdering.getBitShiftsForXyz, shl_small (show 0 < c.ptrBits by omega),
      shl_small (show 1 < c.ptrBits by omega), shl_small hc, ok_bind, inOrder, octantAxes, axisOf,
      BitVec.or_assoc, BitVec.or_comm, or_left_comm]

theorem toGridIndex_inOrder {S : Type} [Storage S Octant] (o : OctantOrdering) (m : MortonIndex3D S) :
    SameResult (fun g g' => inOrder o g = g') (m.toGridIndex c o) (m.toGridIndex c .XYZ) := by
  unfold MortonIndex3D.toGridIndex forRange
  refine SameResult.foldlM ?_ _ _ _ (by cases o <;> rfl)
  intro l s t hs
  subst hs
  cases hq : m.getCellAtLevelUnchecked c l with
  | error e => simp only [hq, error_bind]; exact rfl
  | ok v =>
    cases h1 : usub c m.depth l with
    | error e => simp only [ok_bind, error_bind, h1, hq]; exact rfl
    | ok a =>
      cases h2 : usub c a 1 with
      | error e => simp only [ok_bind, error_bind, h1, h2, hq]; exact rfl
      | ok b =>
        rcases shl_uniform (c := c) c.ptrBits b with ⟨e, hu⟩ | ⟨k, hu⟩
        · simp only [ok_bind, error_bind, h1, h2, hu, hq]; exact rfl
        · simp only [ok_bind, h1, h2, hu, hq]
          cases o <;> exact rfl

theorem inOrder_same {W : Nat} {o o' : OctantOrdering} {g g' : Vector3 W} (h : inOrder o g = inOrder o' g') :
    SameUnder3D o g o' g' := by
  simp only [inOrder, Vector3.mk.injEq] at h
  exact h

/-! ## C68 -/

theorem C68_orderings_rename_axes_2D {o o' : QuadrantOrdering} :
    (∀ g g' : Vector2 c.ptrBits, SameUnder2D o g o' g' →
      (∀ w, MortonIndex2D.fixedFromGridIndex c w g o = MortonIndex2D.fixedFromGridIndex c w g' o') ∧
      (∀ w d, MortonIndex2D.staticFromGridIndex c w g d o = MortonIndex2D.staticFromGridIndex c w g' d o') ∧
      (∀ d, MortonIndex2D.dynamicFromGridIndex c g d o = MortonIndex2D.dynamicFromGridIndex c g' d o')) ∧
    (∀ (S : Type) [Storage S Quadrant] (m : MortonIndex2D S),
      SameResult (fun g g' => SameUnder2D o g o' g') (m.toGridIndex c o) (m.toGridIndex c o')) := by
  refine ⟨fun g g' h => ?_, fun S _ m => ?_⟩
  · rcases sameUnder2D_cases h with ⟨rfl, rfl⟩ | ⟨h1, rfl⟩
    · exact ⟨fun _ => rfl, fun _ _ => rfl, fun _ => rfl⟩
    · exact ⟨fun _ => fixedFromGrid_swap2 h1 _ _ _, fun _ _ => staticFromGrid_swap2 h1 _ _ _ _,
        fun _ => dynamicFromGrid_swap2 h1 _ _ _⟩
  · by_cases h : o = o'
    · subst h
      cases m.toGridIndex c o with
      | error e => exact rfl
      | ok g => simp [SameResult, SameUnder2D]
    · have := toGridIndex_swap2 (c := c) h m
      revert this
      cases m.toGridIndex c o <;> cases m.toGridIndex c o' <;> try exact id
      intro e
      simp only [SameResult] at e
      subst e
      simp [SameResult, SameUnder2D, h]

theorem C68_orderings_rename_axes_3D (hc : c.Supported) {o o' : OctantOrdering} :
    (∀ g g' : Vector3 c.ptrBits, SameUnder3D o g o' g' →
      (∀ w, MortonIndex3D.fixedFromGridIndex c w g o = MortonIndex3D.fixedFromGridIndex c w g' o') ∧
      MortonIndex3D.fixedFromGridIndexFast c g o = MortonIndex3D.fixedFromGridIndexFast c g' o' ∧
      (∀ w d, MortonIndex3D.staticFromGridIndex c w g d o = MortonIndex3D.staticFromGridIndex c w g' d o') ∧
      (∀ d, MortonIndex3D.dynamicFromGridIndex c g d o = MortonIndex3D.dynamicFromGridIndex c g' d o')) ∧
    (∀ (S : Type) [Storage S Octant] (m : MortonIndex3D S),
      SameResult (fun g g' => SameUnder3D o g o' g') (m.toGridIndex c o) (m.toGridIndex c o')) := by
  have h2 : 2 < c.ptrBits := by rcases hc with h | h | h <;> omega
  refine ⟨fun g g' h => ?_, fun S _ m => ?_⟩
  · have e := sameUnder3D_inOrder h
    exact ⟨fun w => by rw [fixedFromGrid_inOrder, e, ← fixedFromGrid_inOrder],
      by rw [fixedFromGridFast_inOrder, e, ← fixedFromGridFast_inOrder],
      fun w d => by rw [staticFromGrid_inOrder, e, ← staticFromGrid_inOrder],
      fun d => by rw [dynamicFromGrid_inOrder h2, e, ← dynamicFromGrid_inOrder h2]⟩
  · have a := toGridIndex_inOrder (c := c) o m
    have b := toGridIndex_inOrder (c := c) o' m
    revert a b
    cases m.toGridIndex c o <;> cases m.toGridIndex c o' <;> cases m.toGridIndex c .XYZ <;> intro a b <;>
      simp only [SameResult] at a b ⊢
    · rw [a, b]
    · exact inOrder_same (a.trans b.symm)

/-- Position (5, 9) under `YX` is position (9, 5) under `XY`. -/
example : MortonIndex2D.dynamicFromGridIndex x64 ⟨5#64, 9#64⟩ 4 .YX =
    MortonIndex2D.dynamicFromGridIndex x64 ⟨9#64, 5#64⟩ 4 .XY :=
  (C68_orderings_rename_axes_2D.1 _ _ (by unfold SameUnder2D; decide)).2.2 4

/-- Position (1, 2, 3) under `ZXY` is position (3, 1, 2) under `XYZ`. -/
example : MortonIndex3D.staticFromGridIndex x64 64 ⟨1#64, 2#64, 3#64⟩ 21 .ZXY =
    MortonIndex3D.staticFromGridIndex x64 64 ⟨3#64, 1#64, 2#64⟩ 21 .XYZ :=
  ((C68_orderings_rename_axes_3D x64_supported).1 _ _ (by unfold SameUnder3D; decide)).2.2.1 64 21

example : SameResult (fun g g' => SameUnder3D .ZXY g .YXZ g') (exD3.toGridIndex x64 .ZXY) (exD3.toGridIndex x64 .YXZ) :=
  (C68_orderings_rename_axes_3D x64_supported).2 _ exD3

end MortonRs
