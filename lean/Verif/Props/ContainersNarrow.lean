import Verif.Props.GridNarrow
import Verif.Props.Containers2D
import Verif.Props.Containers3D
import Verif.Lemmas.ContainersNarrow

/-! # Static `from_grid_index` over any container with fewer than 256 levels: every depth, every target (C84) -/

namespace MortonRs

open MortonIndex BitStorage LawfulContainer

variable {c : Cfg} {B : Type} [FixedStorageType B] [LawfulContainer B]

/-- **C84**, 2D static grid positions at every depth. `d ≤ c.ptrBits ∧ MAX - d < c.ptrBits` says that the depth and the shift fit
a `usize`. Then the position comes back without the topmost levels a `usize` shifted up by `MAX - d` cannot hold
(there are none if `MAX ≤ c.ptrBits`). Otherwise nothing of it does. -/
theorem C84_exact_grid_2D (hc : c.Supported) (hf : on B c) (hB : Bits.BITS B / 2 < 256) (h8 : Bits.BITS B % 8 = 0) (d : Nat)
    (hd : d ≤ Bits.BITS B / 2) (g : Vector2 c.ptrBits) (o : QuadrantOrdering) :
    (¬ (d ≤ c.ptrBits ∧ Bits.BITS B / 2 - d < c.ptrBits) → c.overflowChecks = true →
      (MortonIndex2D.staticFromGridIndexOf c g d o : Res (Except Error (MortonIndex2D (StaticStorage2DOf B)))) = .error .overflow) ∧
    (¬ (d ≤ c.ptrBits ∧ Bits.BITS B / 2 - d < c.ptrBits) → c.overflowChecks = false →
      ∃ m : MortonIndex2D (StaticStorage2DOf B), MortonIndex2D.staticFromGridIndexOf c g d o = .ok (.ok m) ∧ m.storage.Ok ∧
        Shows c m (List.replicate d .Zero)) ∧
    (d ≤ c.ptrBits ∧ Bits.BITS B / 2 - d < c.ptrBits →
      ∃ m : MortonIndex2D (StaticStorage2DOf B), MortonIndex2D.staticFromGridIndexOf c g d o = .ok (.ok m) ∧ m.storage.Ok ∧
        depth m = d ∧ GridAt2D c m o g (d - (Bits.BITS B / 2 - c.ptrBits))) := by
  refine ⟨fun h ho => MortonIndex2D.staticFromGridIndexOf_overflow ho g hd (by omega) o, fun h ho => ?_, fun h => ?_⟩
  · obtain ⟨m, h1, h2, h3, -, h4⟩ := MortonIndex2D.staticFromGridIndexOf_all (B := B) hc hB h8 hf g hd (.inl ho) o
    have hwf : WF c m.storage := (StaticStorage2DOf.wf_iff hf m.storage).mpr (by rw [h2]; exact hd)
    have hl : (path m.storage).length = d := (path_length m.storage).trans h2
    have : path m.storage = List.replicate d .Zero := by
      apply List.ext_getElem (by simp [hl])
      intro l q1 q2
      rw [path_getElem, List.getElem_replicate]
      apply toUsize_inj
      rw [slot_ofNat]
      apply Nat.eq_of_testBit_eq
      intro j
      rw [testBit_digit]
      change (_ && (val m.storage.bits).testBit _) = (0 : Nat).testBit j
      rw [h4 h, Bool.and_false, Nat.zero_testBit]
    exact ⟨m, h1, (staticOf_ok2 hf _).mpr ⟨hwf, h3⟩, this ▸ MortonIndex2D.shows_path hc hwf⟩
  · obtain ⟨m, h1, h2, h3, h4, -⟩ := MortonIndex2D.staticFromGridIndexOf_all (B := B) hc hB h8 hf g hd (.inr h) o
    have hwf : WF c m.storage := (StaticStorage2DOf.wf_iff hf m.storage).mpr (by rw [h2]; exact hd)
    have hdep : Storage.depth m.storage = d := h2
    refine ⟨m, h1, (staticOf_ok2 hf _).mpr ⟨hwf, h3⟩, h2, ?_⟩
    obtain ⟨v, e1, e2, e3⟩ := MortonIndex2D.toGridIndex_of_gridPath hc hwf (o := o) (by omega) (by rw [hdep]; exact h4 h)
    rw [hdep] at e2 e3
    simp only [MortonIndex2D.lowPart_toNat] at e2 e3
    have e : ∀ x : Nat, x % 2 ^ (c.ptrBits - (Bits.BITS B / 2 - d)) % 2 ^ d = x % 2 ^ (d - (Bits.BITS B / 2 - c.ptrBits)) := by
      intro x
      apply Nat.eq_of_testBit_eq
      intro i
      simp only [Nat.testBit_mod_two_pow]
      rw [← Bool.and_assoc, ← Bool.decide_and]
      congr 1
      rw [decide_eq_decide]
      omega
    exact ⟨v, e1, e2.trans (e _), e3.trans (e _)⟩

/-- 128 levels in 32 bytes: no depth can be built from a position on a 64-bit target; 80 levels in 20 bytes: depth 20 keeps four
levels. -/
example : (MortonIndex2D.staticFromGridIndexOf x64 ⟨5#64, 6#64⟩ 64 .XY : Res (Except Error (MortonIndex2D (StaticStorage2DOf (Bytes 32))))) =
    .error .overflow :=
  (C84_exact_grid_2D x64_supported (x64_bytes 32 (by decide)) (by decide) (by decide) 64 (by decide) _ _).1 (by decide) rfl

example : ∃ m : MortonIndex2D (StaticStorage2DOf (Bytes 32)),
    MortonIndex2D.staticFromGridIndexOf x32r ⟨5#32, 6#32⟩ 20 .XY = .ok (.ok m) ∧ m.storage.Ok ∧ Shows x32r m (List.replicate 20 .Zero) :=
  (C84_exact_grid_2D x32r_supported (show 8 * 32 + 64 < 2 ^ 32 by decide) (by decide) (by decide) 20 (by decide) _ _).2.1 (by decide) rfl

example : ∃ m : MortonIndex2D (StaticStorage2DOf (Bytes 20)),
    MortonIndex2D.staticFromGridIndexOf x64 ⟨300#64, 77#64⟩ 20 .YX = .ok (.ok m) ∧ m.storage.Ok ∧ depth m = 20 ∧
    GridAt2D x64 m .YX ⟨300#64, 77#64⟩ 4 :=
  (C84_exact_grid_2D x64_supported (x64_bytes 20 (by decide)) (by decide) (by decide) 20 (by decide) _ _).2.2 (by decide)

/-- **C84**, every depth and target: the exact cells. `d ≤ c.ptrBits ∧ Bits.BITS B / 3 - d < c.ptrBits` says that the depth and the
shift fit a `usize`; it always holds when `MAX_LEVELS` is at most the pointer width. -/
theorem C84_exact_cells_3D (hc : c.Supported) (hf : on B c) (hB : Bits.BITS B / 3 < 256) (d : Nat) (hd : d ≤ Bits.BITS B / 3)
    (g : Vector3 c.ptrBits)
    (o : OctantOrdering) :
    (¬ (d ≤ c.ptrBits ∧ Bits.BITS B / 3 - d < c.ptrBits) → c.overflowChecks = true →
      (MortonIndex3D.staticFromGridIndexOf c g d o : Res (Except Error (MortonIndex3D (StaticStorage3DOf B)))) = .error .overflow) ∧
    (¬ (d ≤ c.ptrBits ∧ Bits.BITS B / 3 - d < c.ptrBits) → c.overflowChecks = false →
      ∃ m : MortonIndex3D (StaticStorage3DOf B), MortonIndex3D.staticFromGridIndexOf c g d o = .ok (.ok m) ∧ m.storage.Ok ∧
        Shows c m (List.replicate d .Zero)) ∧
    (d ≤ c.ptrBits ∧ Bits.BITS B / 3 - d < c.ptrBits → ∃ (m : MortonIndex3D (StaticStorage3DOf B)) (cs : List Octant),
      MortonIndex3D.staticFromGridIndexOf c g d o = .ok (.ok m) ∧
      m.storage.Ok ∧ Shows c m cs ∧ cs.length = d ∧ ∀ l (h : l < cs.length),
        if lostAbove c (Bits.BITS B) ≤ l ∧ l < filledBelow (Bits.BITS B) d then
          octantX o cs[l] = g.x.getLsbD (d - 1 - l) ∧ octantY o cs[l] = g.y.getLsbD (d - 1 - l) ∧
            octantZ o cs[l] = g.z.getLsbD (d - 1 - l)
        else cs[l] = .Zero) := by
  have hW : 3 ≤ c.ptrBits := by rcases hc with h | h | h <;> omega
  refine ⟨fun h ho => MortonIndex3D.staticFromGridIndexOf_overflow ho g hd (by omega) o, fun h ho => ?_, fun h => ?_⟩
  · obtain ⟨m, h1, h2, h3, h4⟩ := MortonIndex3D.staticFromGridIndexOf_all (B := B) hc hB hf g hd (.inl ho) o
    have hwf : WF c m.storage := (StaticStorage3DOf.wf_iff hf m.storage).mpr (by rw [h2]; exact hd)
    have hl : (path m.storage).length = d := (path_length m.storage).trans h2
    have : path m.storage = List.replicate d .Zero := by
      apply List.ext_getElem (by simp [hl])
      intro l q1 q2
      rw [path_getElem, List.getElem_replicate]
      have := h4 l (by omega)
      rwa [if_neg fun hk => h hk.1] at this
    exact ⟨m, h1, (staticOf_ok3 hf _).mpr ⟨hwf, h3⟩, this ▸ MortonIndex3D.shows_path hc hwf⟩
  · obtain ⟨m, h1, h2, h3, h4⟩ := MortonIndex3D.staticFromGridIndexOf_all (B := B) hc hB hf g hd (.inr h) o
    have hwf : WF c m.storage := (StaticStorage3DOf.wf_iff hf m.storage).mpr (by rw [h2]; exact hd)
    have hl : (path m.storage).length = d := (path_length m.storage).trans h2
    refine ⟨m, path m.storage, h1, (staticOf_ok3 hf _).mpr ⟨hwf, h3⟩, MortonIndex3D.shows_path hc hwf, hl, fun l q => ?_⟩
    have := h4 l (by omega)
    simp only [staticKept_iff (show l < d by omega) hd h.1 h.2] at this
    rw [path_getElem]
    split at this <;> rename_i hk
    · rw [if_pos hk]
      unfold GridCell3 at this
      rwa [octantX_eq hW, octantY_eq hW, octantZ_eq hW] at this
    · rw [if_neg hk]
      exact this

/-- **C84**, every depth that fits a `usize`: the exact position read back. The `lostAbove` topmost levels and the levels
from `filledBelow` on are gone. -/
theorem C84_exact_position_3D (hc : c.Supported) (hf : on B c) (hB : Bits.BITS B / 3 < 256) (d : Nat) (hd : d ≤ Bits.BITS B / 3)
    (h : d ≤ c.ptrBits ∧ Bits.BITS B / 3 - d < c.ptrBits) (g : Vector3 c.ptrBits) (o : OctantOrdering) :
    ∃ (m : MortonIndex3D (StaticStorage3DOf B)) (v : Vector3 c.ptrBits),
      MortonIndex3D.staticFromGridIndexOf c g d o = .ok (.ok m) ∧ m.toGridIndex c o = .ok v ∧
      v.x.toNat = g.x.toNat % 2 ^ (d - lostAbove c (Bits.BITS B)) / 2 ^ (d - filledBelow (Bits.BITS B) d) * 2 ^ (d - filledBelow (Bits.BITS B) d) ∧
      v.y.toNat = g.y.toNat % 2 ^ (d - lostAbove c (Bits.BITS B)) / 2 ^ (d - filledBelow (Bits.BITS B) d) * 2 ^ (d - filledBelow (Bits.BITS B) d) ∧
      v.z.toNat = g.z.toNat % 2 ^ (d - lostAbove c (Bits.BITS B)) / 2 ^ (d - filledBelow (Bits.BITS B) d) * 2 ^ (d - filledBelow (Bits.BITS B) d) := by
  have hW : 3 ≤ c.ptrBits := by rcases hc with h | h | h <;> omega
  obtain ⟨m, h1, h2, h3, h4⟩ := MortonIndex3D.staticFromGridIndexOf_all (B := B) hc hB hf g hd (.inr h) o
  have hwf : WF c m.storage := (StaticStorage3DOf.wf_iff hf m.storage).mpr (by rw [h2]; exact hd)
  have hl : (path m.storage).length = d := (path_length m.storage).trans h2
  obtain ⟨v, e1, e2, e3, e4⟩ := toGridIndex_binary3 hc hwf (show m.storage.depth ≤ _ by omega) o
  have coord : ∀ (f : Octant → Bool) (x : BitVec c.ptrBits), f .Zero = false →
      (∀ l, l < d → MortonIndex3D.staticKept c (Bits.BITS B) d l → f (slot m.storage l) = x.getLsbD (d - 1 - l)) →
      binary ((path m.storage).map f) =
        x.toNat % 2 ^ (d - lostAbove c (Bits.BITS B)) / 2 ^ (d - filledBelow (Bits.BITS B) d) * 2 ^ (d - filledBelow (Bits.BITS B) d) := by
    intro f x hz hf
    apply Nat.eq_of_testBit_eq
    intro i
    rw [binary_testBit, List.length_map, hl, Nat.testBit_mul_two_pow, Nat.testBit_div_two_pow, Nat.testBit_mod_two_pow]
    by_cases hi : i < d
    · rw [decide_eq_true hi, Bool.true_and, List.getD,
        List.getElem?_eq_getElem (by rw [List.length_map, hl]; omega), Option.getD_some, List.getElem_map, path_getElem]
      have := h4 (d - 1 - i) (by omega)
      by_cases hk : MortonIndex3D.staticKept c (Bits.BITS B) d (d - 1 - i)
      · rw [hf _ (by omega) hk, show d - 1 - (d - 1 - i) = i by omega, getLsbD_eq_testBit]
        rw [staticKept_iff (by omega) hd h.1 h.2] at hk
        rw [decide_eq_true (by omega), Nat.sub_add_cancel (by omega), decide_eq_true (by omega)]
        simp
      · rw [if_neg hk] at this
        rw [this, hz]
        rw [staticKept_iff (by omega) hd h.1 h.2] at hk
        by_cases q : d - filledBelow (Bits.BITS B) d ≤ i
        · rw [Nat.sub_add_cancel q, decide_eq_false (p := i < d - lostAbove c (Bits.BITS B)) (by omega)]
          simp
        · rw [decide_eq_false q, Bool.false_and]
    · rw [decide_eq_false hi, Bool.false_and]
      by_cases q : d - filledBelow (Bits.BITS B) d ≤ i
      · rw [Nat.sub_add_cancel q, decide_eq_false (p := i < d - lostAbove c (Bits.BITS B)) (by omega)]
        simp
      · rw [decide_eq_false q, Bool.false_and]
  have hz : octantX o .Zero = false ∧ octantY o .Zero = false ∧ octantZ o .Zero = false := by cases o <;> decide
  have kept : ∀ l, l < d → MortonIndex3D.staticKept c (Bits.BITS B) d l → GridCell3 o g (d - 1 - l) (slot m.storage l) := by
    intro l hl hk
    have := h4 l hl
    rwa [if_pos hk] at this
  refine ⟨m, v, h1, e1, ?_, ?_, ?_⟩
  · rw [e2]
    exact coord _ _ hz.1 fun l hl hk => by rw [← octantX_eq hW]; exact (kept l hl hk).1
  · rw [e3]
    exact coord _ _ hz.2.1 fun l hl hk => by rw [← octantY_eq hW]; exact (kept l hl hk).2.1
  · rw [e4]
    exact coord _ _ hz.2.2 fun l hl hk => by rw [← octantZ_eq hW]; exact (kept l hl hk).2.2


example : filledBelow (Bits.BITS (Bytes 3)) 3 = 8 ∧ filledBelow (Bits.BITS (Bytes 4)) 3 = 2 := by decide

example : ∃ (m : MortonIndex3D (StaticStorage3DOf (Bytes 4))) (v : Vector3 64),
    MortonIndex3D.staticFromGridIndexOf x64 ⟨7#64, 5#64, 3#64⟩ 3 .XYZ = .ok (.ok m) ∧
    m.toGridIndex x64 .XYZ = .ok v ∧ v.x.toNat = 6 ∧ v.y.toNat = 4 ∧ v.z.toNat = 2 :=
  C84_exact_position_3D x64_supported (x64_bytes 4 (by decide)) (by decide) 3 (by decide) (by decide) ⟨7#64, 5#64, 3#64⟩ _

/-- 85 levels in 32 bytes, depth 20. -/
example : (MortonIndex3D.staticFromGridIndexOf x64 ⟨7#64, 5#64, 3#64⟩ 20 .XYZ :
    Res (Except Error (MortonIndex3D (StaticStorage3DOf (Bytes 32))))) = .error .overflow :=
  (C84_exact_cells_3D x64_supported (x64_bytes 32 (by decide)) (by decide) 20 (by decide) _ _).1 (by decide) rfl

end MortonRs
