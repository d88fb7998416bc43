import Verif.Lemmas.ByteReversed
import Verif.Props.Containers2D
import Verif.Props.Containers3D
import Verif.Props.Conv2D
import Verif.Props.Conv3D

/-! # Dynamic to fixed-depth conversion on big-endian targets (C33, C84)

The conversion copies the bytes of the dynamic index to the top of the integer, in the opposite order. So the cells stay where
they are exactly if the path, filled up to whole bytes, reads the same with its bytes reversed. -/

namespace MortonRs

open BitStorage LawfulContainer MortonIndex

/-- **C33** on big-endian targets: when the conversion keeps the cells. Missing as in `C33_dynamic_to_fixed_2D_partial`. -/
theorem C33_big_endian_2D_partial {c : Cfg} (hc : c.Supported) (hbe : c.bigEndian = true) (w : Nat) (hw : IntWidth w)
    (m : MortonIndex2D DynamicStorage2D) (hm : Reach2D c .canonical (.dynamic m)) (hd : depth m ≤ w / 2) :
    ∃ cs ds f, Shows c m cs ∧ MortonIndex2D.dynamicToFixed c w m = .ok f ∧ Shows c f ds ∧
      (ds = cs ++ List.replicate (w / 2 - cs.length) .Zero ↔ ReversibleBytes 2 quadrantKey cs) := by
  obtain ⟨f, h1, h2⟩ := MortonIndex2D.dynamicToFixed_bits hw ((reach2D_good hc hm).2 rfl) hd
  have hk : quadrantKey = Dimension.toUsize := by funext x; cases x <;> rfl
  refine ⟨path m.storage, path f.storage, f, MortonIndex2D.shows_path hc (dynamic_wf2 hc m hm), h1,
    MortonIndex2D.shows_path hc (FixedDepthStorage2D.wf hw _), ?_⟩
  have hw8 := hw.mod8
  refine keeps_be_iff (by decide) (by intro x; cases x <;> decide) quadrantKey_inj rfl hw8 (by omega) (path_length _)
    (by rw [path_length]; exact hd) (fun j hj => ?_)
  rw [path_length, hk]
  exact (h2 j hj).trans (by rw [hbe]; rfl)

/-- **C84** on big-endian targets: the conversion from a dynamic index, for every container. -/
theorem C84_bytes_big_endian_2D {B : Type} [FixedStorageType B] [LawfulBytes B] {c : Cfg} (hc : c.Supported) (hf : on B c)
    (hbe : c.bigEndian = true) (m : MortonIndex2D DynamicStorage2D) (hm : Reach2D c .canonical (.dynamic m))
    (cs : List Quadrant) (hs : Shows c m cs) (hl : cs.length ≤ Bits.BITS B / 2) :
    ∃ n, MortonIndex2D.dynamicToFixedOf c B m = .ok n ∧
      (Shows c n (cs ++ List.replicate (Bits.BITS B / 2 - cs.length) .Zero) ↔ ReversibleBytes 2 quadrantKey cs) := by
  have hk : quadrantKey = Dimension.toUsize := by funext x; cases x <;> rfl
  have hw8 := LawfulBytes.mod8 (B := B)
  have hcan := (reach2D_good hc hm).2 rfl
  have hcs : cs = path m.storage := shows_unique hs (MortonIndex2D.shows_path hc hcan.inv.wf)
  have hlen : cs.length = m.storage.depth := by rw [hcs, path_length]; rfl
  obtain ⟨f, h1, h2⟩ := MortonIndex2D.dynamicToFixedOf_be_bits hf hbe hcan (by rw [← hlen]; exact hl)
  have hsf := MortonIndex2D.shows_path hc (FixedDepthStorage2DOf.wf hf f.storage) (m := f)
  refine ⟨f, h1, ?_⟩
  have key : path f.storage = cs ++ List.replicate (Bits.BITS B / 2 - cs.length) .Zero ↔ ReversibleBytes 2 quadrantKey cs := by
    refine keeps_be_iff (by decide) (by intro x; cases x <;> decide) quadrantKey_inj rfl hw8 (by omega) (path_length _)
      hl (fun j hj => ?_)
    rw [hlen, hk, hcs]
    exact h2 j hj
  exact ⟨fun h => key.mp (shows_unique hsf h), fun h => key.mpr h ▸ hsf⟩

/-- **C33** on big-endian targets: when the conversion keeps the cells. Missing as in `C33_dynamic_to_fixed_3D_partial`. -/
theorem C33_big_endian_3D_partial {c : Cfg} (hc : c.Supported) (hbe : c.bigEndian = true) (w : Nat) (hw : IntWidth w)
    (m : MortonIndex3D DynamicStorage3D) (hm : Reach3D c .canonical (.dynamic m)) (hd : depth m ≤ w / 3) :
    ∃ cs ds f, Shows c m cs ∧ MortonIndex3D.dynamicToFixed c w m = .ok f ∧ Shows c f ds ∧
      (ds = cs ++ List.replicate (w / 3 - cs.length) .Zero ↔ ReversibleBytes 3 octantKey cs) := by
  obtain ⟨f, h1, h2⟩ := MortonIndex3D.dynamicToFixed_bits hw ((reach3D_good hc hm).2 rfl) hd
  have hk : octantKey = Dimension.toUsize := by funext x; cases x <;> rfl
  refine ⟨path m.storage, path f.storage, f, MortonIndex3D.shows_path hc (dynamic_wf3 hc m hm), h1,
    MortonIndex3D.shows_path hc (FixedDepthStorage3D.wf hw _), ?_⟩
  have hw8 := hw.mod8
  refine keeps_be_iff (by decide) (by intro x; cases x <;> decide) octantKey_inj rfl hw8 (by omega) (path_length _)
    (by rw [path_length]; exact hd) (fun j hj => ?_)
  rw [path_length, hk]
  exact (h2 j hj).trans (by rw [hbe]; rfl)

/-- **C84** on big-endian targets: the conversion from a dynamic index, for every container. -/
theorem C84_bytes_big_endian_3D {B : Type} [FixedStorageType B] [LawfulBytes B] {c : Cfg} (hc : c.Supported) (hf : on B c)
    (hbe : c.bigEndian = true) (m : MortonIndex3D DynamicStorage3D) (hm : Reach3D c .canonical (.dynamic m))
    (cs : List Octant) (hs : Shows c m cs) (hl : cs.length ≤ Bits.BITS B / 3) :
    ∃ n, MortonIndex3D.dynamicToFixedOf c B m = .ok n ∧
      (Shows c n (cs ++ List.replicate (Bits.BITS B / 3 - cs.length) .Zero) ↔ ReversibleBytes 3 octantKey cs) := by
  have hk : octantKey = Dimension.toUsize := by funext x; cases x <;> rfl
  have hw8 := LawfulBytes.mod8 (B := B)
  have hcan := (reach3D_good hc hm).2 rfl
  have hcs : cs = path m.storage := shows_unique hs (MortonIndex3D.shows_path hc hcan.inv.wf)
  have hlen : cs.length = m.storage.depth := by rw [hcs, path_length]; rfl
  obtain ⟨f, h1, h2⟩ := MortonIndex3D.dynamicToFixedOf_be_bits hf hbe hcan (by rw [← hlen]; exact hl)
  have hsf := MortonIndex3D.shows_path hc (FixedDepthStorage3DOf.wf hf f.storage) (m := f)
  refine ⟨f, h1, ?_⟩
  have key : path f.storage = cs ++ List.replicate (Bits.BITS B / 3 - cs.length) .Zero ↔ ReversibleBytes 3 octantKey cs := by
    refine keeps_be_iff (by decide) (by intro x; cases x <;> decide) octantKey_inj rfl hw8 (by omega) (path_length _)
      hl (fun j hj => ?_)
    rw [hlen, hk, hcs]
    exact h2 j hj
  exact ⟨fun h => key.mp (shows_unique hsf h), fun h => key.mpr h ▸ hsf⟩

/-- Three cells fill one byte, which is its own reversal; five cells need two bytes. -/
example : ReversibleBytes 2 quadrantKey [.Three, .One, .Two] := by
  intro j hj
  have hj : j < 8 := hj
  have : 8 * ((([.Three, .One, .Two] : List Quadrant).length * 2 + 7) / 8 - 1 - j / 8) + j % 8 = j := by
    simp only [List.length_cons, List.length_nil]; omega
  rw [this]
example : ¬ ReversibleBytes 2 quadrantKey [.Three, .One, .Two, .Zero, .One] := fun h => absurd (h 0 (by decide)) (by decide)

/-- A 16-bit big-endian target; there dynamic indices can be written. -/
def be16 : Cfg := ⟨16, true, true⟩

theorem exD2_reach_be16 (sc : Scope) : Reach2D be16 sc (.dynamic exD2) :=
  .dynamicTryFromSlice (cs := [.Three, .One, .Two]) (by unfold Addressable; decide) (by rfl)
theorem exD3_reach_be16 (sc : Scope) : Reach3D be16 sc (.dynamic exD3) :=
  .dynamicTryFromSlice (cs := [.Five, .One, .Six]) (by unfold Addressable; decide) (by rfl)

/-- On a big-endian target the index `[Three, One, Two]` keeps its cells as `u16`, which it does not on a little-endian one
(`C33_refuted`). -/
example : ∃ cs ds f, Shows be16 exD2 cs ∧ MortonIndex2D.dynamicToFixed be16 16 exD2 = .ok f ∧ Shows be16 f ds ∧
    (ds = cs ++ List.replicate (8 - cs.length) .Zero ↔ ReversibleBytes 2 quadrantKey cs) :=
  C33_big_endian_2D_partial (c := be16) (by decide) rfl 16 (by decide) exD2 (exD2_reach_be16 _) (by decide)
example : (MortonIndex2D.dynamicToFixed be16 16 exD2).toOption = some ⟨⟨0xD800#16⟩⟩ ∧
    (MortonIndex2D.dynamicToFixed x64 16 exD2).toOption = some ⟨⟨0x00D8#16⟩⟩ := by decide +kernel

/-- `[Five, One, Six]` needs two bytes, which trade places. -/
example : ∃ cs ds f, Shows be16 exD3 cs ∧ MortonIndex3D.dynamicToFixed be16 16 exD3 = .ok f ∧ Shows be16 f ds ∧
    (ds = cs ++ List.replicate (5 - cs.length) .Zero ↔ ReversibleBytes 3 octantKey cs) :=
  C33_big_endian_3D_partial (c := be16) (by decide) rfl 16 (by decide) exD3 (exD3_reach_be16 _) (by decide)
example : ¬ ReversibleBytes 3 octantKey [.Five, .One, .Six] := fun h => absurd (h 0 (by decide)) (by decide)
example : (MortonIndex3D.dynamicToFixed be16 16 exD3).toOption = some ⟨⟨0x00A7#16⟩⟩ := by decide +kernel

/-- A container of three bytes. -/
example (cs : List Quadrant) (hs : Shows be16 exD2 cs) (hl : cs.length ≤ 12) :
    ∃ n, MortonIndex2D.dynamicToFixedOf be16 (Bytes 3) exD2 = .ok n ∧
      (Shows be16 n (cs ++ List.replicate (12 - cs.length) .Zero) ↔ ReversibleBytes 2 quadrantKey cs) :=
  C84_bytes_big_endian_2D (B := Bytes 3) (c := be16) (by decide)
    ((C84_containers be16 (by decide)).2 3 (by unfold Addressable; decide)) rfl exD2 (exD2_reach_be16 _) cs hs hl
example (cs : List Octant) (hs : Shows be16 exD3 cs) (hl : cs.length ≤ 8) :
    ∃ n, MortonIndex3D.dynamicToFixedOf be16 (Bytes 3) exD3 = .ok n ∧
      (Shows be16 n (cs ++ List.replicate (8 - cs.length) .Zero) ↔ ReversibleBytes 3 octantKey cs) :=
  C84_bytes_big_endian_3D (B := Bytes 3) (c := be16) (by decide)
    ((C84_containers be16 (by decide)).2 3 (by unfold Addressable; decide)) rfl exD3 (exD3_reach_be16 _) cs hs hl

end MortonRs
