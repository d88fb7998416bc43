import Verif.Props.Access2D
import Verif.Props.Access3D
import Verif.Props.Grid2D
import Verif.Props.Grid3D

/-! # What static `from_grid_index` does at the depths and on the targets where C24 and C25 fail -/

namespace MortonRs

open MortonIndex BitStorage

variable {c : Cfg}

/-! ## C24 -/

/-- Outside the set of `C24_static_grid_2D_partial` the 2D static constructor does not depend on the position at all:
with overflow checks it panics, without it returns `zeroed(d)`. -/
theorem C24_elsewhere_2D (hc : c.Supported) (w : Nat) (hw : IntWidth w) (d : Nat) (hd : d ≤ w / 2)
    (h : ¬ (w / 2 ≤ c.ptrBits ∧ (w / 2 - d < c.ptrBits ∨ c.overflowChecks = false))) (g : Vector2 c.ptrBits)
    (o : QuadrantOrdering) :
    (c.overflowChecks = true → MortonIndex2D.staticFromGridIndex c w g d o = .error .overflow) ∧
    (c.overflowChecks = false → ∃ m, MortonIndex2D.staticFromGridIndex c w g d o = .ok (.ok m) ∧
      MortonIndex2D.staticZeroed w d = some m ∧ Shows c m (List.replicate d .Zero)) := by
  by_cases hn : c.ptrBits < w / 2
  · obtain ⟨h1, h2⟩ := MortonIndex2D.staticFromGridIndex_narrow hc hw hn g hd o
    refine ⟨h1, fun ho => ⟨_, h2 ho, ?_⟩⟩
    obtain ⟨m, t, e1, e2, -⟩ := (C46_static_zeroed_2D hc w hw d).2 hd
    have h' : ¬ d > StaticStorage.MAX_LEVELS w Quadrant := by change ¬ d > w / 2; omega
    have e : MortonIndex2D.staticZeroed w d = some ⟨⟨0#w, d⟩⟩ := by simp [MortonIndex2D.staticZeroed, h']
    rw [e] at e1
    cases e1
    exact ⟨e, e2⟩
  · refine ⟨fun ho => ?_, fun ho => absurd ⟨by omega, .inr ho⟩ h⟩
    have hs : ¬ w / 2 - d < c.ptrBits := fun hs => h ⟨by omega, .inl hs⟩
    have hM : FixedDepthStorage.MAX_LEVELS w Quadrant = w / 2 := rfl
    have hnot : ¬ d > w / 2 := by omega
    unfold MortonIndex2D.staticFromGridIndex
    simp only [hM, hnot, if_false, usub_ok hd, ok_bind]
    rcases shifted_overflow ho (gd := d) (M := w / 2) (by omega) g.x with h | ⟨y, h, h'⟩
    · rw [h]; rfl
    · rw [h]; simp only [ok_bind]; rw [h']; rfl

/-- The rest of C24's domain: a `u128` index on a 32-bit target, debug and release. -/
example : MortonIndex2D.staticFromGridIndex ⟨32, true, false⟩ 128 ⟨5#32, 6#32⟩ 20 .XY = .error .overflow :=
  (C24_elsewhere_2D (by decide) 128 (by decide) 20 (by decide) (by decide) _ _).1 rfl

example : ∃ m, MortonIndex2D.staticFromGridIndex x32r 128 ⟨5#32, 6#32⟩ 20 .XY = .ok (.ok m) ∧
    MortonIndex2D.staticZeroed 128 20 = some m ∧ Shows x32r m (List.replicate 20 .Zero) :=
  (C24_elsewhere_2D x32r_supported 128 (by decide) 20 (by decide) (by decide) _ _).2 rfl

/-! ## C25 -/

/-- The levels 3D static `from_grid_index` at depth `d` fills in are those from `lostAbove` up to (not including)
`filledBelow`. -/
def lostAbove (c : Cfg) (w : Nat) : Nat := w / 3 - c.ptrBits

/-- See `lostAbove`; the first level of the chunks of eight the loop does not visit. -/
def filledBelow (w d : Nat) : Nat := w / 3 - 8 * ((w / 3 + 7) / 8 - (d + 7) / 8)

theorem staticKept_iff {w d l : Nat} (hl : l < d) (hd : d ≤ w / 3) (h : d ≤ c.ptrBits) (h' : w / 3 - d < c.ptrBits) :
    MortonIndex3D.staticKept c w d l ↔ lostAbove c w ≤ l ∧ l < filledBelow w d := by
  unfold MortonIndex3D.staticKept MortonIndex3D.staticVisited lostAbove filledBelow
  constructor
  · rintro ⟨-, h1, h2⟩
    omega
  · rintro ⟨h1, h2⟩
    exact ⟨⟨h, h'⟩, by omega, by omega⟩

/-- **C25**, every depth and target: the exact cells. `d ≤ c.ptrBits ∧ w / 3 - d < c.ptrBits` says that the depth and the
shift fit a `usize`; it always holds when `MAX_LEVELS` is at most the pointer width. -/
theorem C25_exact_cells_3D (hc : c.Supported) (w : Nat) (hw : IntWidth w) (d : Nat) (hd : d ≤ w / 3) (g : Vector3 c.ptrBits)
    (o : OctantOrdering) :
    (¬ (d ≤ c.ptrBits ∧ w / 3 - d < c.ptrBits) → c.overflowChecks = true →
      MortonIndex3D.staticFromGridIndex c w g d o = .error .overflow) ∧
    (¬ (d ≤ c.ptrBits ∧ w / 3 - d < c.ptrBits) → c.overflowChecks = false →
      ∃ m, MortonIndex3D.staticFromGridIndex c w g d o = .ok (.ok m) ∧ Shows c m (List.replicate d .Zero)) ∧
    (d ≤ c.ptrBits ∧ w / 3 - d < c.ptrBits → ∃ m cs, MortonIndex3D.staticFromGridIndex c w g d o = .ok (.ok m) ∧
      Shows c m cs ∧ cs.length = d ∧ ∀ l (h : l < cs.length),
        if lostAbove c w ≤ l ∧ l < filledBelow w d then
          octantX o cs[l] = g.x.getLsbD (d - 1 - l) ∧ octantY o cs[l] = g.y.getLsbD (d - 1 - l) ∧
            octantZ o cs[l] = g.z.getLsbD (d - 1 - l)
        else cs[l] = .Zero) := by
  have hW : 3 ≤ c.ptrBits := by rcases hc with h | h | h <;> omega
  refine ⟨fun h ho => MortonIndex3D.staticFromGridIndex_overflow ho g hd (by omega) o, fun h ho => ?_, fun h => ?_⟩
  · obtain ⟨m, h1, h2, h3, h4⟩ := MortonIndex3D.staticFromGridIndex_all hc hw g hd (.inl ho) o
    have hwf : WF c m.storage := (StaticStorage3D.wf_iff hw m.storage).mpr (by rw [h2]; exact hd)
    have hl : (path m.storage).length = d := (path_length m.storage).trans h2
    have : path m.storage = List.replicate d .Zero := by
      apply List.ext_getElem (by simp [hl])
      intro l q1 q2
      rw [path_getElem, List.getElem_replicate]
      have := h4 l (by omega)
      rwa [if_neg fun hk => h hk.1] at this
    exact ⟨m, h1, this ▸ MortonIndex3D.shows_path hc hwf⟩
  · obtain ⟨m, h1, h2, h3, h4⟩ := MortonIndex3D.staticFromGridIndex_all hc hw g hd (.inr h) o
    have hwf : WF c m.storage := (StaticStorage3D.wf_iff hw m.storage).mpr (by rw [h2]; exact hd)
    have hl : (path m.storage).length = d := (path_length m.storage).trans h2
    refine ⟨m, path m.storage, h1, MortonIndex3D.shows_path hc hwf, hl, fun l q => ?_⟩
    have := h4 l (by omega)
    simp only [staticKept_iff (show l < d by omega) hd h.1 h.2] at this
    rw [path_getElem]
    split at this <;> rename_i hk
    · rw [if_pos hk]
      unfold GridCell3 at this
      rwa [octantX_eq hW, octantY_eq hW, octantZ_eq hW] at this
    · rw [if_neg hk]
      exact this

/-- Depth 3 of a `u32` index: the loop visits the topmost chunk only, levels 0 and 1. -/
example : filledBelow 32 3 = 2 ∧ lostAbove x64 32 = 0 := by decide

example : ∃ m cs, MortonIndex3D.staticFromGridIndex x64 32 ⟨7#64, 7#64, 7#64⟩ 3 .XYZ = .ok (.ok m) ∧
    Shows x64 m cs ∧ cs.length = 3 ∧ ∀ l (h : l < cs.length),
      if lostAbove x64 32 ≤ l ∧ l < filledBelow 32 3 then
        octantX .XYZ cs[l] = (7#64).getLsbD (3 - 1 - l) ∧ octantY .XYZ cs[l] = (7#64).getLsbD (3 - 1 - l) ∧
          octantZ .XYZ cs[l] = (7#64).getLsbD (3 - 1 - l)
      else cs[l] = .Zero :=
  (C25_exact_cells_3D x64_supported 32 (by decide) 3 (by decide) ⟨7#64, 7#64, 7#64⟩ .XYZ).2.2 (by decide)

example : ∃ m, MortonIndex3D.staticFromGridIndex x32r 128 ⟨7#32, 7#32, 7#32⟩ 7 .XYZ = .ok (.ok m) ∧
    Shows x32r m (List.replicate 7 .Zero) :=
  (C25_exact_cells_3D x32r_supported 128 (by decide) 7 (by decide) _ _).2.1 (by decide) rfl

/-- **C25**, every depth that fits a `usize`: the exact position read back. The `lostAbove` topmost levels and the levels
from `filledBelow` on are gone. -/
theorem C25_exact_position_3D (hc : c.Supported) (w : Nat) (hw : IntWidth w) (d : Nat) (hd : d ≤ w / 3)
    (h : d ≤ c.ptrBits ∧ w / 3 - d < c.ptrBits) (g : Vector3 c.ptrBits) (o : OctantOrdering) :
    ∃ m v, MortonIndex3D.staticFromGridIndex c w g d o = .ok (.ok m) ∧ m.toGridIndex c o = .ok v ∧
      v.x.toNat = g.x.toNat % 2 ^ (d - lostAbove c w) / 2 ^ (d - filledBelow w d) * 2 ^ (d - filledBelow w d) ∧
      v.y.toNat = g.y.toNat % 2 ^ (d - lostAbove c w) / 2 ^ (d - filledBelow w d) * 2 ^ (d - filledBelow w d) ∧
      v.z.toNat = g.z.toNat % 2 ^ (d - lostAbove c w) / 2 ^ (d - filledBelow w d) * 2 ^ (d - filledBelow w d) := by
  have hW : 3 ≤ c.ptrBits := by rcases hc with h | h | h <;> omega
  obtain ⟨m, h1, h2, h3, h4⟩ := MortonIndex3D.staticFromGridIndex_all hc hw g hd (.inr h) o
  have hwf : WF c m.storage := (StaticStorage3D.wf_iff hw m.storage).mpr (by rw [h2]; exact hd)
  have hl : (path m.storage).length = d := (path_length m.storage).trans h2
  obtain ⟨v, e1, e2, e3, e4⟩ := toGridIndex_binary3 hc hwf (show m.storage.depth ≤ _ by omega) o
  have coord : ∀ (f : Octant → Bool) (x : BitVec c.ptrBits), f .Zero = false →
      (∀ l, l < d → MortonIndex3D.staticKept c w d l → f (slot m.storage l) = x.getLsbD (d - 1 - l)) →
      binary ((path m.storage).map f) =
        x.toNat % 2 ^ (d - lostAbove c w) / 2 ^ (d - filledBelow w d) * 2 ^ (d - filledBelow w d) := by
    intro f x hz hf
    apply Nat.eq_of_testBit_eq
    intro i
    rw [binary_testBit, List.length_map, hl, Nat.testBit_mul_two_pow, Nat.testBit_div_two_pow, Nat.testBit_mod_two_pow]
    by_cases hi : i < d
    · rw [decide_eq_true hi, Bool.true_and, List.getD,
        List.getElem?_eq_getElem (by rw [List.length_map, hl]; omega), Option.getD_some, List.getElem_map, path_getElem]
      have := h4 (d - 1 - i) (by omega)
      by_cases hk : MortonIndex3D.staticKept c w d (d - 1 - i)
      · rw [hf _ (by omega) hk, show d - 1 - (d - 1 - i) = i by omega, getLsbD_eq_testBit]
        rw [staticKept_iff (by omega) hd h.1 h.2] at hk
        rw [decide_eq_true (by omega), Nat.sub_add_cancel (by omega), decide_eq_true (by omega)]
        simp
      · rw [if_neg hk] at this
        rw [this, hz]
        rw [staticKept_iff (by omega) hd h.1 h.2] at hk
        by_cases q : d - filledBelow w d ≤ i
        · rw [Nat.sub_add_cancel q, decide_eq_false (p := i < d - lostAbove c w) (by omega)]
          simp
        · rw [decide_eq_false q, Bool.false_and]
    · rw [decide_eq_false hi, Bool.false_and]
      by_cases q : d - filledBelow w d ≤ i
      · rw [Nat.sub_add_cancel q, decide_eq_false (p := i < d - lostAbove c w) (by omega)]
        simp
      · rw [decide_eq_false q, Bool.false_and]
  have hz : octantX o .Zero = false ∧ octantY o .Zero = false ∧ octantZ o .Zero = false := by cases o <;> decide
  have kept : ∀ l, l < d → MortonIndex3D.staticKept c w d l → GridCell3 o g (d - 1 - l) (slot m.storage l) := by
    intro l hl hk
    have := h4 l hl
    rwa [if_pos hk] at this
  refine ⟨m, v, h1, e1, ?_, ?_, ?_⟩
  · rw [e2]
    exact coord _ _ hz.1 fun l hl hk => by rw [← octantX_eq hW]; exact (kept l hl hk).1
  · rw [e3]
    exact coord _ _ hz.2.1 fun l hl hk => by rw [← octantY_eq hW]; exact (kept l hl hk).2.1
  · rw [e4]
    exact coord _ _ hz.2.2 fun l hl hk => by rw [← octantZ_eq hW]; exact (kept l hl hk).2.2

/-- Position (7, 5, 3) at depth 3 of a `u32` index comes back as (6, 4, 2); a `u64` index at depth 16 on a 16-bit target
loses the five topmost levels. -/
example : ∃ m v, MortonIndex3D.staticFromGridIndex x64 32 ⟨7#64, 5#64, 3#64⟩ 3 .XYZ = .ok (.ok m) ∧
    m.toGridIndex x64 .XYZ = .ok v ∧ v.x.toNat = 6 ∧ v.y.toNat = 4 ∧ v.z.toNat = 2 :=
  C25_exact_position_3D x64_supported 32 (by decide) 3 (by decide) (by decide) ⟨7#64, 5#64, 3#64⟩ _

example : ∃ m v, MortonIndex3D.staticFromGridIndex ⟨16, true, false⟩ 64 ⟨0xFFFF#16, 0x8001#16, 0x07FE#16⟩ 16 .XYZ = .ok (.ok m) ∧
    m.toGridIndex ⟨16, true, false⟩ .XYZ = .ok v ∧ v.x.toNat = 0x7F8 ∧ v.y.toNat = 0 ∧ v.z.toNat = 0x7F8 :=
  C25_exact_position_3D (c := ⟨16, true, false⟩) (by decide) 64 (by decide) 16 (by decide) (by decide)
    ⟨0xFFFF#16, 0x8001#16, 0x07FE#16⟩ _

end MortonRs
