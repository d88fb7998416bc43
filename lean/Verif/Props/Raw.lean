import Verif.Props.Access3D
import Verif.Props.Grid3D

/-! # Raw-bits constructors (C49) and the 3D fixed-depth grid constructor on 16-bit targets (C51) -/

namespace MortonRs

open BitStorage MortonIndex VariableDepthMortonIndex

variable {c : Cfg}

/-! ## C49 -/

/-- The number of the cell at level `l` consists of the bits `w - 3 (l + 1) .. w - 3 l` of `b`. -/
def CellsOfBits3D (c : Cfg) {S : Type} [Storage S Octant] {w : Nat} (m : MortonIndex3D S) (d : Nat) (b : BitVec w) : Prop :=
  depth m = d ∧ ∀ l, l < d → ∃ q, getCellAtLevel c m l = .ok q ∧ octantKey q = b.toNat / 2 ^ (w - 3 * (l + 1)) % 8

theorem C49_fixed_raw_3D (hc : c.Supported) (w : Nat) (hw : IntWidth w) (b : BitVec w) :
    CellsOfBits3D c (MortonIndex3D.fixedFromRawIndex b) (w / 3) b ∧
    (b.toNat % 2 ^ (w % 3) = 0 → ∀ cs, Shows c (MortonIndex3D.fixedFromRawIndex b) cs →
      ∃ m, MortonIndex3D.tryFromSlice c cs = .ok (.ok m) ∧ RustOrd.eq (MortonIndex3D.fixedFromRawIndex b) m = true) := by
  have hr : Reach3D c .all (.fixed w (MortonIndex3D.fixedFromRawIndex b)) := .fixedFromRaw hw (.inl rfl)
  have hwf := fixed_wf3 hc _ hr
  refine ⟨⟨rfl, fun l hl => ⟨_, MortonIndex3D.get_lt hc hwf hl, ?_⟩⟩, fun hz cs hs => ?_⟩
  · rw [octantKey_eq, slot_ofNat, digit, dim_Octant, Nat.mul_comm]
    rfl
  · have hp := (fixed_list3 (sc := .all) hc).eq_of_shows hr hs
    have hl : cs.length = w / dim Octant := hs.1.symm
    obtain ⟨m, h1, -, -, h4⟩ := MortonIndex3D.fixed_tryFrom hc hw (Nat.le_of_eq hl)
    refine ⟨m, h1, ?_⟩
    rw [fixed_eq3 hc _ _ (.fixedFromRaw hw (.inr hz)) (.fixedTryFromSlice hw h1), hp]
    change cs = path m.storage
    rw [h4, hl, Nat.sub_self, List.replicate_zero, List.append_nil]

example : CellsOfBits3D x64 (MortonIndex3D.fixedFromRawIndex 0xA701#16) 5 0xA701#16 :=
  (C49_fixed_raw_3D x64_supported 16 (by decide) _).1

theorem C49_static_raw_3D (hc : c.Supported) (w : Nat) (hw : IntWidth w) (b : BitVec w) (d : Nat) (hd : d ≤ w / 3) :
    CellsOfBits3D c (MortonIndex3D.staticFromRawIndex b d) d b ∧
    (b.toNat % 2 ^ (w - 3 * d) = 0 → ∀ cs, Shows c (MortonIndex3D.staticFromRawIndex b d) cs →
      ∃ m, MortonIndex3D.tryFromSlice c cs = .ok (.ok m) ∧ RustOrd.eq (MortonIndex3D.staticFromRawIndex b d) m = true) := by
  have hr : Reach3D c .all (.static w (MortonIndex3D.staticFromRawIndex b d)) := .staticFromRaw hw hd (.inl rfl)
  have hwf := static_wf3 hc _ hr
  refine ⟨⟨rfl, fun l hl => ⟨_, MortonIndex3D.get_lt hc hwf hl, ?_⟩⟩, fun hz cs hs => ?_⟩
  · rw [octantKey_eq, slot_ofNat, digit, dim_Octant, Nat.mul_comm]
    rfl
  · have hp := (static_list3 (sc := .all) hc).eq_of_shows hr hs
    have hl : d = cs.length := hs.1
    obtain ⟨m, h1, -, -, -, h4⟩ := MortonIndex3D.static_tryFrom hc hw (cs := cs) (by rw [← hl]; exact hd)
    refine ⟨m, h1, ?_⟩
    rw [static_eq3 hc _ _ (.staticFromRaw hw hd (.inr hz)) (.staticTryFromSlice hw h1), hp]
    exact h4.symm

/-- Without the hypothesis on the unused bits the last part is false: such an index is not `==` to the one with the same
cells. -/
theorem C49_unused_bits_matter_3D : ¬ ∀ (b : BitVec 8) cs, Shows x64 (MortonIndex3D.fixedFromRawIndex b) cs →
    ∃ m, MortonIndex3D.tryFromSlice x64 cs = .ok (.ok m) ∧ RustOrd.eq (MortonIndex3D.fixedFromRawIndex b) m = true := by
  intro h
  have hs : Shows x64 (MortonIndex3D.fixedFromRawIndex 0xB5#8) [.Five, .Five] := by
    refine ⟨by decide, fun l hl => ?_⟩
    have : l = 0 ∨ l = 1 := by simp at hl; omega
    rcases this with rfl | rfl <;> rfl
  obtain ⟨m, h1, h2⟩ := h 0xB5#8 _ hs
  rw [show MortonIndex3D.tryFromSlice x64 [.Five, .Five] = .ok (.ok (⟨⟨0xB4#8⟩⟩ : MortonIndex3D (FixedDepthStorage3D 8))) from rfl] at h1
  cases h1
  revert h2
  decide

example : CellsOfBits3D x64 (MortonIndex3D.staticFromRawIndex 0xA700#16 3) 3 0xA700#16 :=
  (C49_static_raw_3D x64_supported 16 (by decide) _ 3 (by decide)).1
example : ∃ m, MortonIndex3D.tryFromSlice x64 [.Five, .One, .Six] = .ok (.ok m) ∧
    RustOrd.eq (MortonIndex3D.staticFromRawIndex 0xA700#16 3) m = true := by
  refine (C49_static_raw_3D x64_supported 16 (by decide) _ 3 (by decide)).2 (by decide) _ ⟨by decide, fun l hl => ?_⟩
  have : l = 0 ∨ l = 1 ∨ l = 2 := by simp at hl; omega
  rcases this with rfl | rfl | rfl <;> rfl

/-! ## C51 -/

/-- On a 16-bit target the 3D fixed-depth constructor reads bits `0..21` of a 16-bit coordinate. With overflow checks it always
panics, without them it ignores the position and returns the index of zeros; for widths of 64 bits and more it does not
compile. -/
theorem C51_fixed_grid_16bit_3D (hc : c.ptrBits = 16) (w : Nat) (hw : IntWidth w) (g : Vector3 c.ptrBits) (o : OctantOrdering) :
    (w ≤ 32 → c.overflowChecks = true → MortonIndex3D.fixedFromGridIndex c w g o = .error .overflow) ∧
    (w ≤ 32 → c.overflowChecks = false →
      MortonIndex3D.fixedFromGridIndex c w g o = .ok ⟨FixedDepthStorage3D.default w⟩) ∧
    (32 < w → MortonIndex3D.fixedFromGridIndex c w g o = .error .compileError) :=
  MortonIndex3D.fixedFromGridIndex_16 hc w hw g o

/-- **C51**, last sentence: what C22 says for 32- and 64-bit targets does not hold on every supported one. -/
theorem C51_position_lost_16bit_3D : ¬ ∀ c : Cfg, c.Supported → ∀ w, IntWidth w → w / 3 < c.ptrBits → ∀ g o,
    ∃ m, MortonIndex3D.fixedFromGridIndex c w g o = .ok m ∧ GridAt3D c m o g (w / 3) := by
  intro h
  obtain ⟨m, h1, -⟩ := h ⟨16, true, false⟩ (by decide) 8 (by decide) (by decide) ⟨1#16, 2#16, 3#16⟩ .XYZ
  rw [(C51_fixed_grid_16bit_3D rfl 8 (by decide) _ _).1 (by decide) rfl] at h1
  cases h1

example : MortonIndex3D.fixedFromGridIndex ⟨16, false, false⟩ 8 ⟨1#16, 2#16, 3#16⟩ .XYZ = .ok ⟨⟨0#8⟩⟩ :=
  (C51_fixed_grid_16bit_3D rfl 8 (by decide) _ _).2.1 (by decide) rfl

end MortonRs
