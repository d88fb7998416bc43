import Verif.History

/-! # Concrete targets and indices

Used beside the theorems to show that their hypotheses can be met. -/

namespace MortonRs

/-- A 64-bit little-endian target with overflow checks (a debug build on x86-64). -/
def x64 : Cfg := ⟨64, true, false⟩

/-- A 32-bit little-endian target without overflow checks (a release build). -/
def x32r : Cfg := ⟨32, false, false⟩

/-- A 64-bit big-endian target with overflow checks. -/
def be64 : Cfg := ⟨64, true, true⟩

theorem x64_supported : x64.Supported := by decide
theorem x32r_supported : x32r.Supported := by decide
theorem be64_supported : be64.Supported := by decide
theorem x64_writes : DynWrites x64 := by decide
theorem x32r_writes : DynWrites x32r := by decide

/-- The fixed-depth index of `[Three, One, Two]`. -/
def exF2 : MortonIndex2D (FixedDepthStorage2D 16) := ⟨⟨0xD800#16⟩⟩

/-- The static index of `[Three, One, Two]`. -/
def exS2 : MortonIndex2D (StaticStorage2D 16) := ⟨⟨0xD800#16, 3⟩⟩

/-- The dynamic index of `[Three, One, Two]`. -/
def exD2 : MortonIndex2D DynamicStorage2D := ⟨⟨[0xD8#8], 3⟩⟩

/-- The fixed-depth index of `[Five, One, Six]`. -/
def exF3 : MortonIndex3D (FixedDepthStorage3D 32) := ⟨⟨0xA7000000#32⟩⟩

/-- The static index of `[Five, One, Six]`. -/
def exS3 : MortonIndex3D (StaticStorage3D 32) := ⟨⟨0xA7000000#32, 3⟩⟩

/-- The dynamic index of `[Five, One, Six]`. -/
def exD3 : MortonIndex3D DynamicStorage3D := ⟨⟨[0x00#8, 0xA7#8], 3⟩⟩

theorem exF2_reach (sc : Scope) : Reach2D x64 sc (.fixed 16 exF2) :=
  .fixedTryFromSlice (cs := [.Three, .One, .Two]) (by decide) (by rfl)

theorem exS2_reach (sc : Scope) : Reach2D x64 sc (.static 16 exS2) :=
  .staticTryFromSlice (cs := [.Three, .One, .Two]) (by decide) (by rfl)

theorem exD2_reach (sc : Scope) : Reach2D x64 sc (.dynamic exD2) :=
  .dynamicTryFromSlice (cs := [.Three, .One, .Two]) (by unfold Addressable; decide) (by rfl)

theorem exF3_reach (sc : Scope) : Reach3D x64 sc (.fixed 32 exF3) :=
  .fixedTryFromSlice (cs := [.Five, .One, .Six]) (by decide) (by rfl)

theorem exS3_reach (sc : Scope) : Reach3D x64 sc (.static 32 exS3) :=
  .staticTryFromSlice (cs := [.Five, .One, .Six]) (by decide) (by rfl)

theorem exD3_reach (sc : Scope) : Reach3D x64 sc (.dynamic exD3) :=
  .dynamicTryFromSlice (cs := [.Five, .One, .Six]) (by unfold Addressable; decide) (by rfl)

end MortonRs
