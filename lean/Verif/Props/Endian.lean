import Verif.Props.Access2D
import Verif.Props.Access3D

/-! # C47: dynamic indices and the byte order of the target

The property is false: on 32- and 64-bit big-endian targets every write into a dynamic index stores `Zero`. Reading does
not depend on the byte order, and neither does anything in the integer-backed index types. -/

namespace MortonRs

open MortonIndex VariableDepthMortonIndex

variable {c : Cfg}

/-- What a write into a dynamic index does on the targets where it does not work: the level becomes `zero`, whatever was
written. -/
def SetStores {M Cell : Type} [MortonIndex M Cell] (c : Cfg) (zero : Cell) (ok : M → Prop) : Prop :=
  ∀ m, ok m → ∀ l (v : Cell), l < depth m → ∃ m', setCellAtLevel c m l v = .ok m' ∧ depth m' = depth m ∧
    getCellAtLevel c m' l = .ok zero ∧ ∀ k, k ≠ l → getCellAtLevel c m' k = getCellAtLevel c m k

theorem ListLike.setStores {M Cell : Type} [MortonIndex M Cell] {ok : M → Prop} {p : M → List Cell} {wr : Cell → Cell}
    (h : ListLike c ok p wr) {zero : Cell} (hz : ∀ v, wr v = zero) : SetStores c zero ok := by
  intro m hm l v hl
  rw [h.depth_eq m hm] at hl
  obtain ⟨m', h1, h2, h3⟩ := h.set m hm l v hl
  have hlen : (p m').length = (p m).length := by rw [h3, List.length_set]
  refine ⟨m', h1, by rw [h.depth_eq m' h2, h.depth_eq m hm, hlen], ?_, fun k hk => ?_⟩
  · rw [h.get m' h2 l (by omega)]
    simp only [h3, List.getElem_set_self, hz]
  · rw [h.get_eq h2, h.get_eq hm, h3, List.getElem?_set_ne (Ne.symm hk)]

/-- **C47**, the part that holds: on little-endian (and 16-bit) targets a dynamic index is written and read like a list, and
reading is the same on every target. -/
theorem C47_dynamic_cells_2D_partial (hc : c.Supported) :
    (DynWrites c → SetGet c (fun m => Reach2D c .all (.dynamic m))) ∧
    ∀ (be : Bool) (m : MortonIndex2D DynamicStorage2D) l, getCellAtLevel { c with bigEndian := be } m l = getCellAtLevel c m l :=
  ⟨(C01_set_get_2D hc).2.2, fun _ _ _ => rfl⟩

example : (∃ m', setCellAtLevel x64 exD2 1 .Two = .ok m' ∧ depth m' = 3 ∧ getCellAtLevel x64 m' 1 = .ok .Two ∧
      ∀ k, k ≠ 1 → getCellAtLevel x64 m' k = getCellAtLevel x64 exD2 k) ∧
    getCellAtLevel be64 exD2 2 = getCellAtLevel x64 exD2 2 :=
  ⟨(C47_dynamic_cells_2D_partial x64_supported).1 x64_writes exD2 (exD2_reach _) 1 .Two (by decide),
    (C47_dynamic_cells_2D_partial x64_supported).2 true exD2 2⟩

/-- **C47**, the part that holds, 3D. -/
theorem C47_dynamic_cells_3D_partial (hc : c.Supported) :
    (DynWrites c → SetGet c (fun m => Reach3D c .all (.dynamic m))) ∧
    ∀ (be : Bool) (m : MortonIndex3D DynamicStorage3D) l, getCellAtLevel { c with bigEndian := be } m l = getCellAtLevel c m l :=
  ⟨(C01_set_get_3D hc).2.2, fun _ _ _ => rfl⟩

example : (∃ m', setCellAtLevel x64 exD3 1 .Two = .ok m' ∧ depth m' = 3 ∧ getCellAtLevel x64 m' 1 = .ok .Two ∧
      ∀ k, k ≠ 1 → getCellAtLevel x64 m' k = getCellAtLevel x64 exD3 k) ∧
    getCellAtLevel be64 exD3 2 = getCellAtLevel x64 exD3 2 :=
  ⟨(C47_dynamic_cells_3D_partial x64_supported).1 x64_writes exD3 (exD3_reach _) 1 .Two (by decide),
    (C47_dynamic_cells_3D_partial x64_supported).2 true exD3 2⟩

/-- On every other target, for every index and every cell, a write stores `Zero`. -/
theorem C47_big_endian_stores_zero_2D (hc : c.Supported) (hw : ¬ DynWrites c) :
    SetStores c .Zero (fun m => Reach2D c .all (.dynamic m)) :=
  (dynamic_list2' hc).setStores fun v => by
    change dynWritten c v = .Zero
    simp only [dynWritten, hw, if_false]
    rfl

/-- On every other target, for every index and every cell, a write stores `Zero`. -/
theorem C47_big_endian_stores_zero_3D (hc : c.Supported) (hw : ¬ DynWrites c) :
    SetStores c .Zero (fun m => Reach3D c .all (.dynamic m)) :=
  (dynamic_list3' hc).setStores fun v => by
    change dynWritten c v = .Zero
    simp only [dynWritten, hw, if_false]
    rfl

/-- The targets concerned are exactly the 32- and 64-bit big-endian ones. -/
theorem not_dynWrites_iff (hc : c.Supported) : ¬ DynWrites c ↔ c.bigEndian = true ∧ (c.ptrBits = 32 ∨ c.ptrBits = 64) := by
  unfold DynWrites
  rcases hc with h | h | h <;> simp [h]

/-- A dynamic index on a big-endian target: built from a grid position, which does not go through the faulty write. -/
def beD2 : MortonIndex2D DynamicStorage2D := ⟨⟨[0xD8#8], 3⟩⟩

theorem beD2_reach : Reach2D be64 .all (.dynamic beD2) :=
  .dynamicFromGrid (g := ⟨6, 5⟩) (d := 3) (o := .XY) (by rfl)

/-- **C47** is false: the read-after-write contract C01 fails on a 64-bit big-endian target. -/
theorem C47_refuted : ¬ ∀ c : Cfg, c.Supported → SetGet c (fun m => Reach2D c .all (.dynamic m)) := by
  intro h
  obtain ⟨m', h1, -, h3, -⟩ := h be64 be64_supported beD2 beD2_reach 1 .Two (by decide)
  obtain ⟨n', g1, -, g3, -⟩ := C47_big_endian_stores_zero_2D be64_supported (by decide) beD2 beD2_reach 1 .Two (by decide)
  rw [h1] at g1
  cases g1
  rw [h3] at g3
  cases g3

/-- The 3D index of `[Five, One, Six, One, Zero]` on a big-endian target: converted from a fixed-depth index. -/
def beD3 : MortonIndex3D DynamicStorage3D := ⟨⟨[0x10#8, 0xA7#8], 5⟩⟩

theorem beD3_reach : Reach3D be64 .all (.dynamic beD3) := by
  have h : Reach3D be64 .all (.fixed 16 (MortonIndex3D.fixedFromRawIndex 0xA710#16)) := .fixedFromRaw (by decide) (.inl rfl)
  exact h.fixedToDynamic

example : ∃ m', setCellAtLevel be64 beD3 1 .Two = .ok m' ∧ depth m' = 5 ∧ getCellAtLevel be64 m' 1 = .ok .Zero ∧
    ∀ k, k ≠ 1 → getCellAtLevel be64 m' k = getCellAtLevel be64 beD3 k :=
  C47_big_endian_stores_zero_3D be64_supported (by decide) beD3 beD3_reach 1 .Two (by decide)

example : ∃ m', setCellAtLevel be64 beD2 1 .Two = .ok m' ∧ depth m' = 3 ∧ getCellAtLevel be64 m' 1 = .ok .Zero ∧
    ∀ k, k ≠ 1 → getCellAtLevel be64 m' k = getCellAtLevel be64 beD2 k :=
  C47_big_endian_stores_zero_2D be64_supported (by decide) beD2 beD2_reach 1 .Two (by decide)
example : getCellAtLevel be64 beD2 0 = .ok .Three := by decide +kernel

end MortonRs
