import Verif.Props.Carry

/-! # Steps of whole boxes (C130)

The loop of C128, started at a higher level, moves a node by a whole box: to the same place within the neighbour of the node above it. -/

namespace MortonRs

open BitStorage MortonIndex

variable {M Cell : Type} {c : Cfg}

/-! ## Statement -/

/-- Client code: the loop of C128 over the first `level` cells. -/
def boxStep2D {S : Type} [Storage S Quadrant] (c : Cfg) (o : QuadrantOrdering) (axis up : Bool) (level : Nat) (m : MortonIndex2D S) :
    Res (Option (MortonIndex2D S)) :=
  stepAcross c (crossQuadrant (axisBit2D o axis)) (fun q => q.toUsize &&& axisBit2D o axis != 0) up level m

/-- The same in 3D. -/
def boxStep3D {S : Type} [Storage S Octant] (c : Cfg) (o : OctantOrdering) (axis : Axis) (up : Bool) (level : Nat) (m : MortonIndex3D S) :
    Res (Option (MortonIndex3D S)) :=
  stepAcross c (crossOctant (axisBit3D o axis)) (fun q => q.toUsize &&& axisBit3D o axis != 0) up level m

/-- `n` is moved by `s`. -/
def MovedBy (up : Bool) (s n n' : Nat) : Prop := if up then n' = n + s else n' + s = n

/-- There are less than `s` places from `n` to the end of a grid of `2 ^ d`. -/
def NoRoom (up : Bool) (s d n : Nat) : Prop := if up then 2 ^ d ≤ n + s else n < s

/-- C130, 2D. The loop over the first `level` cells moves the node by the size of a box of this level, if there is room. The cells behind
`level` stay as they are; a level that the index does not have panics. -/
def StepsBoxes2D (c : Cfg) {S : Type} [Storage S Quadrant] (ok : MortonIndex2D S → Prop) : Prop :=
  ∀ m, ok m → ∀ o axis up level, (depth m < level → boxStep2D c o axis up level m = .error .panic) ∧
    (level ≤ depth m → ∃ r, boxStep2D c o axis up level m = .ok r ∧
      (∀ m', r = some m' → ok m' ∧ depth m' = depth m ∧ ∀ l, level ≤ l → getCellAtLevel c m' l = getCellAtLevel c m l) ∧
      (depth m ≤ c.ptrBits → ∃ g, m.toGridIndex c o = .ok g ∧
        (r = none ↔ NoRoom up (2 ^ (depth m - level)) (depth m) (coord2 g axis).toNat) ∧
        ∀ m', r = some m' → ∃ g', m'.toGridIndex c o = .ok g' ∧
          MovedBy up (2 ^ (depth m - level)) (coord2 g axis).toNat (coord2 g' axis).toNat ∧ coord2 g' (!axis) = coord2 g (!axis)))

/-- C130, 3D. -/
def StepsBoxes3D (c : Cfg) {S : Type} [Storage S Octant] (ok : MortonIndex3D S → Prop) : Prop :=
  ∀ m, ok m → ∀ o axis up level, (depth m < level → boxStep3D c o axis up level m = .error .panic) ∧
    (level ≤ depth m → ∃ r, boxStep3D c o axis up level m = .ok r ∧
      (∀ m', r = some m' → ok m' ∧ depth m' = depth m ∧ ∀ l, level ≤ l → getCellAtLevel c m' l = getCellAtLevel c m l) ∧
      (depth m ≤ c.ptrBits → ∃ g, m.toGridIndex c o = .ok g ∧
        (r = none ↔ NoRoom up (2 ^ (depth m - level)) (depth m) (coord3 g axis).toNat) ∧
        ∀ m', r = some m' → ∃ g', m'.toGridIndex c o = .ok g' ∧
          MovedBy up (2 ^ (depth m - level)) (coord3 g axis).toNat (coord3 g' axis).toNat ∧
          ∀ other, other ≠ axis → coord3 g' other = coord3 g other))

/-! ## Proof -/

theorem boxStep_ok [MortonIndex M Cell] {ok : M → Prop} {p : M → List Cell} (h : ListLike c ok p id) {flip : Cell → Res Cell}
    {fl : Cell → Cell} {f : Cell → Bool} (hfl : ∀ q, flip q = .ok (fl q)) (hf : ∀ q, f (fl q) = !f q) (up : Bool) (m : M) (hm : ok m)
    {level : Nat} (hl : level ≤ depth m) : ∃ r, stepAcross c flip f up level m = .ok r ∧
      (r = none ↔ NoRoom up (2 ^ (depth m - level)) (depth m) (binary ((p m).map f))) ∧
      ∀ m', r = some m' → ok m' ∧ depth m' = depth m ∧ (∀ l, level ≤ l → getCellAtLevel c m' l = getCellAtLevel c m l) ∧
        MovedBy up (2 ^ (depth m - level)) (binary ((p m).map f)) (binary ((p m').map f)) ∧
        ∀ g : Cell → Bool, (∀ q, g (fl q) = g q) → (p m').map g = (p m).map g := by
  have hd := h.depth_eq m hm
  have e := List.take_append_drop level (p m)
  have le : ((p m).take level).length = level := by rw [List.length_take]; omega
  have ld : ((p m).drop level).length = depth m - level := by rw [List.length_drop, hd]
  obtain ⟨r, r1, r2, r3⟩ := stepAcross_ok h hfl hf up ((p m).drop level) ((p m).take level) m hm e.symm
  rw [le] at r1 r2
  have eb : binary ((p m).map f) = 2 ^ (depth m - level) * binary (((p m).take level).map f) + binary (((p m).drop level).map f) := by
    rw [← ld, ← List.length_map (f := f), ← binary_append_list, ← List.map_append, e]
  have lt := binary_lt (((p m).drop level).map f)
  rw [List.length_map, ld] at lt
  have lt' := binary_lt (((p m).take level).map f)
  rw [List.length_map, le] at lt'
  have ed : 2 ^ depth m = 2 ^ (depth m - level) * 2 ^ level := by rw [← Nat.pow_add, show depth m - level + level = depth m by omega]
  refine ⟨r, r1, ?_, fun m' em => ?_⟩
  · rw [r2, eb]
    generalize binary (((p m).take level).map f) = x at *
    generalize binary (((p m).drop level).map f) = y at *
    unfold AtEdge NoRoom
    rw [ed]
    generalize 2 ^ (depth m - level) = s at *
    generalize 2 ^ level = t at *
    cases up <;> simp only [if_true, Bool.false_eq_true, if_false]
    · constructor
      · rintro rfl; omega
      · intro k
        rcases Nat.eq_zero_or_pos x with h0 | h0
        · exact h0
        · have := Nat.mul_le_mul_left s h0
          omega
    · constructor
      · rintro rfl
        rw [Nat.mul_succ]; omega
      · intro k
        rcases Nat.lt_or_ge (x + 1) t with h0 | h0
        · have := Nat.mul_le_mul_left s (show x + 2 ≤ t from h0)
          rw [Nat.mul_add] at this
          omega
        · omega
  · obtain ⟨o', as', a1, a2, a3, a4⟩ := r3 m' em
    rw [le] at a2
    have hd' : depth m' = depth m := by rw [h.depth_eq m' o', a1, List.length_append, a2, ld]; omega
    refine ⟨o', hd', fun l hl' => ?_, ?_, fun g hg => by rw [a1, List.map_append, a4 g hg, ← List.map_append, e]⟩
    · rw [h.get_eq o', h.get_eq hm, a1, List.getElem?_append_right (by omega), List.getElem?_drop, a2,
        show level + (l - level) = l by omega]
    · rw [a1, List.map_append, binary_append_list, List.length_map, ld, eb]
      generalize binary (((p m).take level).map f) = x at *
      generalize binary (as'.map f) = x' at *
      unfold NextTo at a3
      unfold MovedBy
      cases up <;> simp only [if_true, Bool.false_eq_true, if_false] at a3 ⊢ <;> subst a3 <;> rw [Nat.mul_succ] <;> omega

theorem boxStep_panics [MortonIndex M Cell] {ok : M → Prop} {p : M → List Cell} (h : ListLike c ok p id) {flip : Cell → Res Cell}
    {f : Cell → Bool} (up : Bool) (m : M) (hm : ok m) {level : Nat} (hl : depth m < level) :
    stepAcross c flip f up level m = .error .panic := by
  cases level with
  | zero => omega
  | succ l =>
    rw [stepAcross, h.get_ge m hm l (by rw [← h.depth_eq m hm]; omega)]
    rfl

theorem stepsBoxes_of2 {S : Type} [Storage S Quadrant] [BitStorage S Quadrant] {ok : MortonIndex2D S → Prop}
    (hc : c.Supported) (hwf : ∀ m, ok m → WF c m.storage) (hL : ListLike c ok (cells2 (S := S)) id) : StepsBoxes2D c ok := by
  intro m hm o axis up level
  unfold boxStep2D
  rw [quadrant_on]
  refine ⟨boxStep_panics hL up m hm, fun hl => ?_⟩
  obtain ⟨r, r1, r2, r3⟩ := boxStep_ok hL (crossQuadrant_ok o axis) (fun q => (quadrant_across o axis q).1) up m hm hl
  refine ⟨r, r1, fun m' e => ⟨(r3 m' e).1, (r3 m' e).2.1, (r3 m' e).2.2.1⟩, fun hd => ?_⟩
  obtain ⟨v, e1, e2, e3⟩ := toGridIndex_binary2 hc (hwf m hm) hd o
  have key : ∀ i, (coord2 v i).toNat = binary ((path m.storage).map (quadrantCoord o i)) := fun i => by
    cases i <;> assumption
  refine ⟨v, e1, by rw [key]; exact r2, fun m' e => ?_⟩
  obtain ⟨k1, k2, -, k3, k4⟩ := r3 m' e
  obtain ⟨v', f1, f2, f3⟩ := toGridIndex_binary2 hc (hwf m' k1) (Nat.le_trans (Nat.le_of_eq k2) hd) o
  have key' : ∀ i, (coord2 v' i).toNat = binary ((path m'.storage).map (quadrantCoord o i)) := fun i => by
    cases i <;> assumption
  refine ⟨v', f1, by rw [key, key']; exact k3, BitVec.eq_of_toNat_eq ?_⟩
  rw [key, key']
  exact congrArg _ (k4 _ fun q => (quadrant_across o axis q).2)

theorem stepsBoxes_of3 {S : Type} [Storage S Octant] [BitStorage S Octant] {ok : MortonIndex3D S → Prop}
    (hc : c.Supported) (hwf : ∀ m, ok m → WF c m.storage) (hL : ListLike c ok (cells3 (S := S)) id) : StepsBoxes3D c ok := by
  intro m hm o axis up level
  unfold boxStep3D
  rw [octant_on]
  refine ⟨boxStep_panics hL up m hm, fun hl => ?_⟩
  obtain ⟨r, r1, r2, r3⟩ := boxStep_ok (f := octantCoord o axis) hL (crossOctant_ok o axis)
    (fun q => by rw [octant_across, decide_eq_true rfl, Bool.xor_true]) up m hm hl
  refine ⟨r, r1, fun m' e => ⟨(r3 m' e).1, (r3 m' e).2.1, (r3 m' e).2.2.1⟩, fun hd => ?_⟩
  obtain ⟨v, e1, e2, e3, e4⟩ := toGridIndex_binary3 hc (hwf m hm) hd o
  have key : ∀ i, (coord3 v i).toNat = binary ((path m.storage).map (octantCoord o i)) := fun i => by
    cases i <;> assumption
  refine ⟨v, e1, by rw [key]; exact r2, fun m' e => ?_⟩
  obtain ⟨k1, k2, -, k3, k4⟩ := r3 m' e
  obtain ⟨v', f1, f2, f3, f4⟩ := toGridIndex_binary3 hc (hwf m' k1) (Nat.le_trans (Nat.le_of_eq k2) hd) o
  have key' : ∀ i, (coord3 v' i).toNat = binary ((path m'.storage).map (octantCoord o i)) := fun i => by
    cases i <;> assumption
  refine ⟨v', f1, by rw [key, key']; exact k3, fun other hne => BitVec.eq_of_toNat_eq ?_⟩
  rw [key, key']
  exact congrArg _ (k4 _ fun q => by rw [octant_across, decide_eq_false hne, Bool.xor_false])

/-! ## C130 -/

/-- C130 in 2D. -/
theorem C130_box_steps_2D (hc : c.Supported) :
    (∀ w, StepsBoxes2D c (fun m : MortonIndex2D (FixedDepthStorage2D w) => Reach2D c .all (.fixed w m))) ∧
    (∀ w, StepsBoxes2D c (fun m : MortonIndex2D (StaticStorage2D w) => Reach2D c .all (.static w m))) ∧
    (DynWrites c → StepsBoxes2D c (fun m : MortonIndex2D DynamicStorage2D => Reach2D c .all (.dynamic m))) :=
  ⟨fun _ => stepsBoxes_of2 hc (fixed_wf2 hc) (fixed_list2 hc), fun _ => stepsBoxes_of2 hc (static_wf2 hc) (static_list2 hc),
    fun hw => stepsBoxes_of2 hc (dynamic_wf2 hc) (dynamic_list2 hc hw)⟩

/-- C130 in 3D. -/
theorem C130_box_steps_3D (hc : c.Supported) :
    (∀ w, StepsBoxes3D c (fun m : MortonIndex3D (FixedDepthStorage3D w) => Reach3D c .all (.fixed w m))) ∧
    (∀ w, StepsBoxes3D c (fun m : MortonIndex3D (StaticStorage3D w) => Reach3D c .all (.static w m))) ∧
    (DynWrites c → StepsBoxes3D c (fun m : MortonIndex3D DynamicStorage3D => Reach3D c .all (.dynamic m))) :=
  ⟨fun _ => stepsBoxes_of3 hc (fixed_wf3 hc) (fixed_list3 hc), fun _ => stepsBoxes_of3 hc (static_wf3 hc) (static_list3 hc),
    fun hw => stepsBoxes_of3 hc (dynamic_wf3 hc) (dynamic_list3 hc hw)⟩

/-! ## Examples -/

/-- `[Three, One, Two]` (`exS2`) is at (6, 5). Two levels down from the root boxes have the size 2, one level down 4. -/
example : boxStep2D x64 .XY false false 2 exS2 = .ok (some ⟨⟨0xC800#16, 3⟩⟩) ∧
    (⟨⟨0xC800#16, 3⟩⟩ : MortonIndex2D (StaticStorage2D 16)).toGridIndex x64 .XY = .ok ⟨4, 5⟩ ∧
    boxStep2D x64 .XY true false 1 exS2 = .ok (some ⟨⟨0x5800#16, 3⟩⟩) ∧
    (⟨⟨0x5800#16, 3⟩⟩ : MortonIndex2D (StaticStorage2D 16)).toGridIndex x64 .XY = .ok ⟨6, 1⟩ ∧
    boxStep2D x64 .XY true true 1 exS2 = .ok none ∧ boxStep2D x64 .XY true true 4 exS2 = .error .panic := by
  decide +kernel

example : ∃ r, boxStep2D x64 .XY false true 2 exS2 = .ok r ∧ r = none := by
  obtain ⟨r, e, -, h⟩ := ((C130_box_steps_2D x64_supported).2.1 16 exS2 (exS2_reach _) .XY false true 2).2 (by decide)
  obtain ⟨g, g1, g2, -⟩ := h (by decide)
  have e0 : exS2.toGridIndex x64 .XY = .ok ⟨6, 5⟩ := by decide +kernel
  rw [e0] at g1
  cases g1
  exact ⟨r, e, g2.mpr (by unfold NoRoom; decide)⟩

/-- The dynamic index `[Five, One, Six]` (`exD3`): the last cell stays. -/
example : ∀ m, boxStep3D x64 .XYZ .X false 2 exD3 = .ok (some m) → getCellAtLevel x64 m 2 = .ok Octant.Six := by
  intro m e
  obtain ⟨r, e', h, -⟩ := ((C130_box_steps_3D x64_supported).2.2 x64_writes exD3 (exD3_reach _) .XYZ .X false 2).2 (by decide)
  rw [e, Except.ok.injEq] at e'
  rw [(h m e'.symm).2.2 2 (by decide)]
  rfl

end MortonRs
