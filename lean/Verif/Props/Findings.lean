import Verif.Props.Grid2D
import Verif.Props.Grid3D
import Verif.Props.Conv2D

/-!
# Properties that do not hold of the code

Each theorem is the negation of the property as it is stated elsewhere, by a concrete history of API calls. What is true
instead is in the `_partial` theorem of the same number.
-/

namespace MortonRs

open MortonIndex VariableDepthMortonIndex

/-- A 64-bit little-endian release build. -/
def x64r : Cfg := ⟨64, false, false⟩

/-- A 32-bit little-endian debug build. -/
def x32 : Cfg := ⟨32, true, false⟩

/-- A 16-bit little-endian debug build. -/
def x16 : Cfg := ⟨16, true, false⟩

/-- `DynamicStorage2D::zeroed(4)` allocates two bytes where one holds four quadrants. -/
def zeroed4 : MortonIndex2D DynamicStorage2D := MortonIndex2D.dynamicZeroed 4

theorem zeroed4_reach : Reach2D x64 .all (.dynamic zeroed4) := .dynamicZeroed (by unfold Addressable; decide) (.inl rfl)

/-- The same cells from a list. -/
def fourZeros : MortonIndex2D DynamicStorage2D := ⟨⟨[0#8], 4⟩⟩

theorem fourZeros_reach : Reach2D x64 .all (.dynamic fourZeros) :=
  .dynamicTryFromSlice (cs := [.Zero, .Zero, .Zero, .Zero]) (by unfold Addressable; decide) (by rfl)

/-! ## 2D dynamic `zeroed` at multiples of four -/

/-- **C46** is false: `zeroed(4)` is not `==` to the index of four `Zero` cells. -/
theorem C46_refuted :
    ¬ ∀ d, Addressable x64 (d * 2) → ∃ t : MortonIndex2D DynamicStorage2D,
      MortonIndex2D.tryFromSlice x64 (List.replicate d .Zero) = .ok (.ok t) ∧
        RustOrd.eq (MortonIndex2D.dynamicZeroed d) t = true := by
  intro h
  obtain ⟨t, e1, e2⟩ := h 4 (by unfold Addressable; decide)
  rw [show MortonIndex2D.tryFromSlice x64 (List.replicate 4 .Zero) = .ok (.ok fourZeros) from rfl] at e1
  cases e1
  revert e2
  decide

/-- **C48** is false: the root of `zeroed(4)` is not `==` to the default index. -/
theorem C48_refuted :
    ¬ ∀ m, Reach2D x64 .all (.dynamic m) → ∀ g : NonZeroUsize, g.val = depth m →
      ∃ a, ancestor x64 m g = .ok (some a) ∧ RustOrd.eq a ⟨DynamicStorage2D.default⟩ = true := by
  intro h
  obtain ⟨a, e1, e2⟩ := h zeroed4 zeroed4_reach ⟨4, by decide⟩ rfl
  rw [show ancestor x64 zeroed4 ⟨4, by decide⟩ = .ok (some ⟨⟨[0#8], 0⟩⟩) from rfl] at e1
  cases e1
  revert e2
  decide

/-- **C11** is false: `zeroed(4).child(Three).parent()` is not `==` to `zeroed(4)`. -/
theorem C11_refuted :
    ¬ ChildParent x64 (fun m : MortonIndex2D DynamicStorage2D => Reach2D x64 .all (.dynamic m))
      (fun m n => Addressable x64 ((depth m + n) * 2)) := by
  intro h
  obtain ⟨q, e1, e2⟩ := h zeroed4 zeroed4_reach .Three (by unfold Addressable; decide) ⟨⟨[0#8, 0xC0#8, 0#8], 5⟩⟩ (by rfl)
  rw [show parent x64 (⟨⟨[0#8, 0xC0#8, 0#8], 5⟩⟩ : MortonIndex2D DynamicStorage2D) = .ok (some ⟨⟨[0xC0#8, 0#8], 4⟩⟩) from rfl]
    at e1
  cases e1
  revert e2
  decide

/-- **C15** is false: `zeroed(4).cmp(four zeros)` is `Equal`, but `==` says they differ. -/
theorem C15_refuted : ¬ CmpAgreesWithEq x64 (fun m : MortonIndex2D DynamicStorage2D => Reach2D x64 .all (.dynamic m)) := by
  intro h
  have := (h zeroed4 fourZeros zeroed4_reach fourZeros_reach).mp (by rfl)
  revert this
  decide

/-- **C16** is false: the two indices have the same depth and the same cells, but `==` says they differ. -/
theorem C16_refuted : ¬ EqMeansSameCells x64 (fun m : MortonIndex2D DynamicStorage2D => Reach2D x64 .all (.dynamic m)) := by
  intro h
  have := (h zeroed4 fourZeros zeroed4_reach fourZeros_reach).mpr
    ⟨by rfl, fun l hl => by
      have : l < 4 := hl
      match l, this with
      | 0, _ | 1, _ | 2, _ | 3, _ => rfl⟩
  revert this
  decide

/-! ## 3D raw bits with non-zero unused bits -/

/-- Two raw values that differ only in the unused lowest bit of a `u16`. -/
theorem raw_reach (b : BitVec 16) : Reach3D x64 .all (.fixed 16 (MortonIndex3D.fixedFromRawIndex b)) :=
  .fixedFromRaw (by decide) (.inl rfl)

theorem raw_shows {b : BitVec 16} (h : b = 0#16 ∨ b = 1#16) {cs : List Octant}
    (hs : Shows x64 (MortonIndex3D.fixedFromRawIndex b) cs) : cs = [.Zero, .Zero, .Zero, .Zero, .Zero] := by
  obtain ⟨h1, h2⟩ := hs
  have hl : cs.length = 5 := by rcases h with rfl | rfl <;> exact h1.symm
  match cs, hl with
  | [c0, c1, c2, c3, c4], _ =>
    have e0 := h2 0 (by simp)
    have e1 := h2 1 (by simp)
    have e2 := h2 2 (by simp)
    have e3 := h2 3 (by simp)
    have e4 := h2 4 (by simp)
    rcases h with rfl | rfl <;> (cases e0; cases e1; cases e2; cases e3; cases e4; rfl)

/-- **C14** is false of raw-bits indices: the unused bits take part in the comparison. -/
theorem C14_refuted : ¬ ComparesPaths x64 octantKey (fun m => Reach3D x64 .all (.fixed 16 m)) := by
  intro h
  obtain ⟨as, bs, h1, h2, h3, -⟩ := h _ _ (raw_reach 0#16) (raw_reach 1#16)
  rw [raw_shows (.inl rfl) h1, raw_shows (.inr rfl) h2] at h3
  revert h3
  decide

/-- **C16** is false of raw-bits indices. -/
theorem C16_refuted_raw_3D : ¬ EqMeansSameCells x64 (fun m => Reach3D x64 .all (.fixed 16 m)) := by
  intro h
  have := (h _ _ (raw_reach 0#16) (raw_reach 1#16)).mpr
    ⟨by rfl, fun l hl => by
      have : l < 5 := hl
      match l, this with
      | 0, _ | 1, _ | 2, _ | 3, _ | 4, _ => rfl⟩
  revert this
  decide

/-- A static index of one level with a bit set behind it. -/
def strayS3 : MortonIndex3D (StaticStorage3D 16) := MortonIndex3D.staticFromRawIndex 0x0400#16 1

theorem strayS3_reach : Reach3D x64 .all (.static 16 strayS3) := .staticFromRaw (by decide) (by decide) (.inl rfl)

/-- **C15** is false of raw-bits indices: `cmp` ignores what follows the last cell, `==` does not. -/
theorem C15_refuted_raw_3D : ¬ CmpAgreesWithEq x64 (fun m => Reach3D x64 .all (.static 16 m)) := by
  intro h
  have := (h strayS3 ⟨⟨0#16, 1⟩⟩ strayS3_reach (.staticZeroed (d := 1) (by decide) (by rfl))).mp (by rfl)
  revert this
  decide

/-- **C11** is false of raw-bits indices: `parent` clears the stray bits that the original index had. -/
theorem C11_refuted_raw_3D :
    ¬ ChildParent x64 (fun m => Reach3D x64 .all (.static 16 m)) (fun _ _ => True) := by
  intro h
  obtain ⟨q, e1, e2⟩ := h strayS3 strayS3_reach .Two trivial ⟨⟨0x0800#16, 2⟩⟩ (by rfl)
  rw [show parent x64 (⟨⟨0x0800#16, 2⟩⟩ : MortonIndex3D (StaticStorage3D 16)) = .ok (some ⟨⟨0#16, 1⟩⟩) from rfl] at e1
  cases e1
  revert e2
  decide

/-- The bits left behind by a conversion from a dynamic index: eight octants fill three bytes, which end up as the low
24 bits of the `u32`, of which the lowest two are unused. So **C14** and **C16** also fail for indices not built from raw
bits. -/
theorem C16_refuted_converted_3D : ¬ EqMeansSameCells x64 (fun m => Reach3D x64 .all (.fixed 32 m)) := by
  intro h
  have hd : Reach3D x64 .all (.dynamic ⟨⟨[1#8, 0#8, 0#8], 8⟩⟩) :=
    .dynamicTryFromSlice (cs := [.Zero, .Zero, .Zero, .Zero, .Zero, .Zero, .Zero, .One]) (by unfold Addressable; decide)
      (by rfl)
  have hf : Reach3D x64 .all (.fixed 32 ⟨⟨1#32⟩⟩) := .dynamicToFixed (by decide) hd (.inl rfl) (by rfl)
  have := (h _ _ hf (.fixedDefault 32 (by decide))).mpr
    ⟨by rfl, fun l hl => by
      have : l < 10 := hl
      match l, this with
      | 0, _ | 1, _ | 2, _ | 3, _ | 4, _ | 5, _ | 6, _ | 7, _ | 8, _ | 9, _ => rfl⟩
  revert this
  decide

/-! ## Grid positions -/

/-- **C24** is false: a `u128` index of depth 0 panics in debug builds on 64-bit targets. -/
theorem C24_refuted :
    ¬ ∀ d, d ≤ 128 / 2 → ∀ g o, ∃ m, MortonIndex2D.staticFromGridIndex x64 128 g d o = .ok (.ok m) ∧ depth m = d ∧
      GridAt2D x64 m o g d := by
  intro h
  obtain ⟨m, e1, -⟩ := h 0 (by decide) ⟨0#64, 0#64⟩ .XY
  cases e1

/-- **C24** is false on targets whose pointers are narrower than `MAX_LEVELS`: in a release build on a 32-bit target,
position (1, 1) at depth 1 of a `u128` index comes back as (0, 0). -/
theorem C24_refuted_narrow :
    ¬ ∀ d, d ≤ 128 / 2 → ∀ g o, ∃ m, MortonIndex2D.staticFromGridIndex x32r 128 g d o = .ok (.ok m) ∧ depth m = d ∧
      GridAt2D x32r m o g d := by
  intro h
  obtain ⟨m, e1, -, v, e2, e3, -⟩ := h 1 (by decide) ⟨1#32, 1#32⟩ .XY
  rw [show MortonIndex2D.staticFromGridIndex x32r 128 ⟨1#32, 1#32⟩ 1 .XY = .ok (.ok ⟨⟨0#128, 1⟩⟩) from rfl] at e1
  cases e1
  rw [show MortonIndex2D.toGridIndex x32r (⟨⟨0#128, 1⟩⟩ : MortonIndex2D (StaticStorage2D 128)) .XY =
    .ok ⟨0#32, 0#32⟩ from rfl] at e2
  cases e2
  revert e3
  decide

/-- **C25** is false: position (1, 1, 1) at depth 3 of a `u32` index comes back as (0, 0, 0). -/
theorem C25_refuted :
    ¬ ∀ d, d ≤ 32 / 3 → ∀ g o, ∃ m, MortonIndex3D.staticFromGridIndex x64 32 g d o = .ok (.ok m) ∧ depth m = d ∧
      GridAt3D x64 m o g d := by
  intro h
  obtain ⟨m, e1, -, v, e2, e3, -⟩ := h 3 (by decide) ⟨1#64, 1#64, 1#64⟩ .XYZ
  rw [show MortonIndex3D.staticFromGridIndex x64 32 ⟨1#64, 1#64, 1#64⟩ 3 .XYZ = .ok (.ok ⟨⟨0#32, 3⟩⟩) from rfl] at e1
  cases e1
  rw [show MortonIndex3D.toGridIndex x64 (⟨⟨0#32, 3⟩⟩ : MortonIndex3D (StaticStorage3D 32)) .XYZ =
    .ok ⟨0#64, 0#64, 0#64⟩ from rfl] at e2
  cases e2
  revert e3
  decide

/-! ## Dynamic to fixed-depth -/

/-- **C33** is false: the dynamic index `[Three]` becomes the `u16` index whose fifth cell is `Three`. -/
theorem C33_refuted :
    ∃ m f, Reach2D x64 .canonical (.dynamic m) ∧ depth m ≤ 16 / 2 ∧ Shows x64 m [.Three] ∧
      MortonIndex2D.dynamicToFixed x64 16 m = .ok f ∧
      Shows x64 f [.Zero, .Zero, .Zero, .Zero, .Three, .Zero, .Zero, .Zero] := by
  refine ⟨⟨⟨[0xC0#8], 1⟩⟩, ⟨⟨0xC0#16⟩⟩, .dynamicTryFromSlice (cs := [.Three]) (by unfold Addressable; decide) (by rfl),
    by decide, ⟨by rfl, fun l hl => ?_⟩, by rfl, ⟨by rfl, fun l hl => ?_⟩⟩
  · match l, hl with
    | 0, _ => rfl
  · match l, hl with
    | 0, _ | 1, _ | 2, _ | 3, _ | 4, _ | 5, _ | 6, _ | 7, _ => rfl

end MortonRs
