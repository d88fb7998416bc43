import Verif.Props.GridNarrow
import Verif.Props.Laws2D
import Verif.Props.Laws3D

/-! # Exactly when the grid constructors agree (C59), at every depth and on every target -/

namespace MortonRs

open MortonIndex VariableDepthMortonIndex BitStorage

variable {c : Cfg}

/-- The shift and the depth fit a `usize`. -/
def gridFits (c : Cfg) (w d : Nat) : Prop := d ≤ c.ptrBits ∧ w / 3 - d < c.ptrBits

/-- 3D static `from_grid_index` at depth `d` fills in level `l` (see C25). -/
def gridKeeps (c : Cfg) (w d l : Nat) : Prop := gridFits c w d ∧ lostAbove c w ≤ l ∧ l < filledBelow w d

instance (c : Cfg) (w d : Nat) : Decidable (gridFits c w d) := by unfold gridFits; infer_instance

instance (c : Cfg) (w d l : Nat) : Decidable (gridKeeps c w d l) := by unfold gridKeeps; infer_instance

/-- Bit `i` of all coordinates is zero. -/
def gridZero2 {W : Nat} (g : Vector2 W) (i : Nat) : Prop := g.x.getLsbD i = false ∧ g.y.getLsbD i = false

def gridZero3 {W : Nat} (g : Vector3 W) (i : Nat) : Prop := g.x.getLsbD i = false ∧ g.y.getLsbD i = false ∧ g.z.getLsbD i = false

theorem path_eq_iff_slots {S T Cell : Type} [LawfulDim Cell] [Storage S Cell] [BitStorage S Cell] [Storage T Cell] [BitStorage T Cell]
    {s : S} {t : T} {d : Nat} (hs : Storage.depth s = d) (ht : Storage.depth t = d) :
    path s = path t ↔ ∀ l, l < d → slot s l = slot t l := by
  constructor
  · intro h l hl
    have e : (path s)[l]? = (path t)[l]? := by rw [h]
    rw [List.getElem?_eq_getElem (by rw [path_length, hs]; exact hl),
      List.getElem?_eq_getElem (by rw [path_length, ht]; exact hl)] at e
    have e := Option.some.inj e
    rwa [path_getElem, path_getElem] at e
  · intro h
    apply List.ext_getElem (by rw [path_length, path_length, hs, ht])
    intro l h1 h2
    rw [path_getElem, path_getElem]
    exact h l (by rw [path_length, hs] at h1; exact h1)

theorem gridKeeps_iff {w d l : Nat} (hl : l < d) (hd : d ≤ w / 3) : MortonIndex3D.staticKept c w d l ↔ gridKeeps c w d l := by
  constructor
  · intro h
    exact ⟨h.1, (staticKept_iff hl hd h.1.1 h.1.2).mp h⟩
  · intro h
    exact (staticKept_iff hl hd h.1.1 h.1.2).mpr h.2

theorem gridCell_unique3 {W : Nat} (hW : 3 ≤ W) {o : OctantOrdering} {g : Vector3 W} {i : Nat} {p q : Octant}
    (hp : GridCell3 o g i p) (hq : GridCell3 o g i q) : p = q :=
  MortonIndex3D.toIndex_inj hW o (hp.1.trans hq.1.symm) (hp.2.1.trans hq.2.1.symm) (hp.2.2.trans hq.2.2.symm)

theorem gridCell_zero_iff3 {W : Nat} (hW : 3 ≤ W) {o : OctantOrdering} {g : Vector3 W} {i : Nat} {p : Octant}
    (hp : GridCell3 o g i p) : p = .Zero ↔ gridZero3 g i := by
  have h0 : ∀ q : Octant, q = .Zero ↔ octantX o q = false ∧ octantY o q = false ∧ octantZ o q = false := by
    intro q
    cases o <;> cases q <;> decide
  rw [h0, ← octantX_eq hW, ← octantY_eq hW, ← octantZ_eq hW, hp.1, hp.2.1, hp.2.2]
  exact Iff.rfl

theorem gridCell_zero_iff2 {W : Nat} (hW : 2 ≤ W) {o : QuadrantOrdering} {g : Vector2 W} {i : Nat} {p : Quadrant}
    (h1 : (o.toIndex W p).x.getLsbD 0 = g.x.getLsbD i) (h2 : (o.toIndex W p).y.getLsbD 0 = g.y.getLsbD i) :
    p = .Zero ↔ gridZero2 g i := by
  have h0 : ∀ q : Quadrant, q = .Zero ↔ quadrantX o q = false ∧ quadrantY o q = false := by
    intro q
    cases o <;> cases q <;> decide
  rw [h0, ← quadrantX_eq hW, ← quadrantY_eq hW, h1, h2]
  exact Iff.rfl

/-- **C59**, 3D, every depth and target at which the static constructor does not panic: dynamic and static `from_grid_index` agree
exactly if the position is zero at the levels the static one does not fill in, and an ancestor of a static one is the one of the
coarser position exactly if the position is zero at the levels that only one of the two fills in. -/
theorem C59_exact_3D (hc : c.Supported) (w : Nat) (hw : IntWidth w) (g : Vector3 c.ptrBits) (o : OctantOrdering) :
    (DynWrites c → ∀ d, d ≤ w / 3 → d ≤ c.ptrBits / 2 → c.overflowChecks = false ∨ gridFits c w d →
      ∃ m s t, MortonIndex3D.dynamicFromGridIndex c g d o = .ok m ∧
        MortonIndex3D.staticFromGridIndex c w g d o = .ok (.ok s) ∧
        MortonIndex3D.dynamicToStatic c w m = .ok (.ok t) ∧
        (RustOrd.eq t s = true ↔ ∀ l, l < d → ¬ gridKeeps c w d l → gridZero3 g (d - 1 - l))) ∧
    (∀ d (k : NonZeroUsize), d + k.val ≤ w / 3 → c.overflowChecks = false ∨ (gridFits c w d ∧ gridFits c w (d + k.val)) →
      ∃ m s a, MortonIndex3D.staticFromGridIndex c w g (d + k.val) o = .ok (.ok m) ∧
        MortonIndex3D.staticFromGridIndex c w ⟨g.x >>> k.val, g.y >>> k.val, g.z >>> k.val⟩ d o = .ok (.ok s) ∧
        ancestor c m k = .ok (some a) ∧
        (RustOrd.eq a s = true ↔
          ∀ l, l < d → ¬ (gridKeeps c w (d + k.val) l ↔ gridKeeps c w d l) → gridZero3 g (d + k.val - 1 - l))) := by
  have hW : 3 ≤ c.ptrBits := by rcases hc with h | h | h <;> omega
  refine ⟨fun hdw d hd hdp hf => ?_, fun d k hd hf => ?_⟩
  · obtain ⟨m, h1, h2, h3, h4⟩ := MortonIndex3D.dynamicFromGridIndex_ok hc g d hdp o
    obtain ⟨s, g1, g2, g3, g4⟩ := MortonIndex3D.staticFromGridIndex_all hc hw g hd hf o
    obtain ⟨t, t1, t2, t3, t4⟩ := MortonIndex3D.dynamicToStatic_ok hc hw h3.inv.wf (by rw [h2]; exact hd)
    refine ⟨m, s, t, h1, g1, t1, ?_⟩
    have hr : Reach3D c .canonical (.static w t) := .dynamicToStatic hw (.dynamicFromGrid h1) t1
    rw [static_eq3 hc _ _ hr (.staticFromGrid hw g1), cells3, t4, cells3,
      path_eq_iff_slots (s := m.storage) (t := s.storage) h2 g2]
    refine forall_congr' fun l => forall_congr' fun hl => ?_
    have e1 := h4 hdw l hl
    have e2 := g4 l hl
    simp only [gridKeeps_iff (c := c) hl hd] at e2
    split at e2
    · next hk => exact iff_of_true (gridCell_unique3 hW e1 e2) (fun h => absurd hk h)
    · next hk => rw [e2, gridCell_zero_iff3 hW e1]; exact ⟨fun h _ => h, fun h => h hk⟩
  · obtain ⟨m, h1, h2, h3, h4⟩ := MortonIndex3D.staticFromGridIndex_all hc hw g hd (hf.imp id And.right) o
    obtain ⟨s, g1, g2, g3, g4⟩ := MortonIndex3D.staticFromGridIndex_all hc hw
      ⟨g.x >>> k.val, g.y >>> k.val, g.z >>> k.val⟩ (gd := d) (by omega) (hf.imp id And.left) o
    have hr : Reach3D c .canonical (.static w m) := .staticFromGrid hw h1
    have hlen : (cells3 m).length = d + k.val := by rw [cells3, path_length]; exact h2
    obtain ⟨a, a1, a2, a3⟩ := (static_anc3 hc).yes m hr k (by omega)
    refine ⟨m, s, a, h1, g1, a1, ?_⟩
    rw [hlen, Nat.add_sub_cancel] at a3
    have hda : Storage.depth a.storage = d := by
      have := congrArg List.length a3
      rw [cells3, path_length, List.length_take, hlen] at this
      omega
    have hsl : ∀ l, l < d → slot a.storage l = slot m.storage l := fun l hl => by
      have e : (cells3 a)[l]? = (List.take d (cells3 m))[l]? := by rw [a3]
      rw [List.getElem?_take_of_lt hl] at e
      rw [List.getElem?_eq_getElem (by rw [cells3, path_length, hda]; exact hl),
        List.getElem?_eq_getElem (by rw [hlen]; omega)] at e
      have e := Option.some.inj e
      simp only [cells3, path_getElem] at e
      exact e
    rw [static_eq3 hc _ _ a2 (.staticFromGrid hw g1), cells3, cells3,
      path_eq_iff_slots (s := a.storage) (t := s.storage) hda g2]
    refine forall_congr' fun l => forall_congr' fun hl => ?_
    rw [hsl l hl]
    have e1 := h4 l (by omega)
    have e2 := g4 l hl
    simp only [gridKeeps_iff (c := c) (show l < d + k.val by omega) hd] at e1
    simp only [gridKeeps_iff (c := c) hl (show d ≤ w / 3 by omega)] at e2
    have hsh : ∀ q, GridCell3 o (⟨g.x >>> k.val, g.y >>> k.val, g.z >>> k.val⟩ : Vector3 c.ptrBits) (d - 1 - l) q ↔
        GridCell3 o g (d + k.val - 1 - l) q := fun q => by
      unfold GridCell3
      simp only [BitVec.getLsbD_ushiftRight, show k.val + (d - 1 - l) = d + k.val - 1 - l by omega]
    rw [hsh] at e2
    by_cases k1 : gridKeeps c w (d + k.val) l <;> by_cases k2 : gridKeeps c w d l
    · rw [if_pos k1] at e1
      rw [if_pos k2] at e2
      exact iff_of_true (gridCell_unique3 hW e1 e2) fun h => absurd (iff_of_true k1 k2) h
    · rw [if_pos k1] at e1
      rw [if_neg k2] at e2
      rw [e2, gridCell_zero_iff3 hW e1]
      exact ⟨fun h _ => h, fun h => h fun hi => k2 (hi.mp k1)⟩
    · rw [if_neg k1] at e1
      rw [if_pos k2] at e2
      rw [e1, eq_comm, gridCell_zero_iff3 hW e2]
      exact ⟨fun h _ => h, fun h => h fun hi => k1 (hi.mpr k2)⟩
    · rw [if_neg k1] at e1
      rw [if_neg k2] at e2
      exact iff_of_true (e1.trans e2.symm) fun h => absurd (iff_of_false k1 k2) h

/-- Depth 3 of a `u32` index loses its last level: the constructors agree on even positions only. -/
example : ∃ m s t, MortonIndex3D.dynamicFromGridIndex x64 ⟨6#64, 2#64, 4#64⟩ 3 .XYZ = .ok m ∧
    MortonIndex3D.staticFromGridIndex x64 32 ⟨6#64, 2#64, 4#64⟩ 3 .XYZ = .ok (.ok s) ∧
    MortonIndex3D.dynamicToStatic x64 32 m = .ok (.ok t) ∧ RustOrd.eq t s = true := by
  obtain ⟨m, s, t, h1, h2, h3, h4⟩ := (C59_exact_3D x64_supported 32 (by decide) ⟨6#64, 2#64, 4#64⟩ .XYZ).1 x64_writes 3 (by decide)
    (by decide) (.inr (by decide))
  refine ⟨m, s, t, h1, h2, h3, h4.mpr fun l hl hk => ?_⟩
  have : l = 2 := by
    have : l ≠ 0 := fun e => hk (e ▸ by decide)
    have : l ≠ 1 := fun e => hk (e ▸ by decide)
    omega
  subst this
  exact ⟨rfl, rfl, rfl⟩

example : ∃ m s t, MortonIndex3D.dynamicFromGridIndex x64 ⟨7#64, 2#64, 4#64⟩ 3 .XYZ = .ok m ∧
    MortonIndex3D.staticFromGridIndex x64 32 ⟨7#64, 2#64, 4#64⟩ 3 .XYZ = .ok (.ok s) ∧
    MortonIndex3D.dynamicToStatic x64 32 m = .ok (.ok t) ∧ RustOrd.eq t s ≠ true := by
  obtain ⟨m, s, t, h1, h2, h3, h4⟩ := (C59_exact_3D x64_supported 32 (by decide) ⟨7#64, 2#64, 4#64⟩ .XYZ).1 x64_writes 3 (by decide)
    (by decide) (.inr (by decide))
  exact ⟨m, s, t, h1, h2, h3, fun h => absurd (h4.mp h 2 (by decide) (by decide)).1 (by decide)⟩

/-- The ancestor from depth 10 keeps level 2, the constructor at depth 3 does not. -/
example : ∃ m s a, MortonIndex3D.staticFromGridIndex x64 32 ⟨600#64, 2#64, 4#64⟩ 10 .XYZ = .ok (.ok m) ∧
    MortonIndex3D.staticFromGridIndex x64 32 ⟨600#64 >>> 7, 2#64 >>> 7, 4#64 >>> 7⟩ 3 .XYZ = .ok (.ok s) ∧
    ancestor x64 m ⟨7, by decide⟩ = .ok (some a) ∧
    (RustOrd.eq a s = true ↔ ∀ l, l < 3 → ¬ (gridKeeps x64 32 10 l ↔ gridKeeps x64 32 3 l) →
      gridZero3 (⟨600#64, 2#64, 4#64⟩ : Vector3 64) (9 - l)) :=
  (C59_exact_3D x64_supported 32 (by decide) ⟨600#64, 2#64, 4#64⟩ .XYZ).2 3 ⟨7, by decide⟩ (by decide) (.inr (by decide))

/-- **C59**, 2D, where `C59_grid_constructors_agree_2D` says nothing: with overflow checks the static constructor panics, without them
it agrees with the dynamic one exactly if the position is zero, and with its own ancestors always. -/
theorem C59_elsewhere_2D (hc : c.Supported) (w : Nat) (hw : IntWidth w) (g : Vector2 c.ptrBits) (o : QuadrantOrdering) :
    (∀ d, d ≤ w / 2 → ¬ (w / 2 ≤ c.ptrBits ∧ (w / 2 - d < c.ptrBits ∨ c.overflowChecks = false)) → c.overflowChecks = true →
      MortonIndex2D.staticFromGridIndex c w g d o = .error .overflow) ∧
    (c.ptrBits < w / 2 → c.overflowChecks = false →
      (∀ d, d ≤ w / 2 → d ≤ c.ptrBits / 2 →
        ∃ m s t, MortonIndex2D.dynamicFromGridIndex c g d o = .ok m ∧
          MortonIndex2D.staticFromGridIndex c w g d o = .ok (.ok s) ∧
          MortonIndex2D.dynamicToStatic c w m = .ok (.ok t) ∧ (RustOrd.eq t s = true ↔ ∀ i, i < d → gridZero2 g i)) ∧
      ∀ d (k : NonZeroUsize), d + k.val ≤ w / 2 →
        ∃ m s a, MortonIndex2D.staticFromGridIndex c w g (d + k.val) o = .ok (.ok m) ∧
          MortonIndex2D.staticFromGridIndex c w ⟨g.x >>> k.val, g.y >>> k.val⟩ d o = .ok (.ok s) ∧
          ancestor c m k = .ok (some a) ∧ RustOrd.eq a s = true) := by
  have hW : 2 ≤ c.ptrBits := by rcases hc with h | h | h <;> omega
  have hz : ∀ d, d ≤ w / 2 → path (⟨0#w, d⟩ : StaticStorage2D w) = List.replicate d .Zero := fun d hd => by
    apply List.ext_getElem (by rw [path_length, List.length_replicate]; rfl)
    intro l h1 h2
    rw [path_getElem, List.getElem_replicate]
    have hl : l < d := by rwa [List.length_replicate] at h2
    refine slot_zero_of_bits (s := (⟨0#w, d⟩ : StaticStorage2D w)) (n := w) (by change (l + 1) * 2 ≤ w; omega) (Nat.sub_le ..)
      fun i _ => ?_
    change (0#w).toNat.testBit i = false
    simp
  refine ⟨fun d hd h ho => (C24_elsewhere_2D hc w hw d hd h g o).1 ho, fun hn ho => ⟨fun d hd hdp => ?_, fun d k hd => ?_⟩⟩
  · obtain ⟨m, h1, h2, h3, h4⟩ := MortonIndex2D.dynamicFromGridIndex_ok hc g d hdp o
    have g1 := (MortonIndex2D.staticFromGridIndex_narrow hc hw hn g hd o).2 ho
    obtain ⟨t, t1, t2, t3, t4⟩ := MortonIndex2D.dynamicToStatic_ok hc hw h3.inv.wf (by rw [h2]; exact hd)
    refine ⟨m, _, t, h1, g1, t1, ?_⟩
    have hr : Reach2D c .canonical (.static w t) := .dynamicToStatic hw (.dynamicFromGrid h1) t1
    rw [static_eq2 hc _ _ hr (.staticFromGrid hw g1), cells2, t4, cells2,
      path_eq_iff_slots (s := m.storage) (t := (⟨0#w, d⟩ : StaticStorage2D w)) h2 rfl]
    have hs : ∀ l, l < d → (slot m.storage l = slot (⟨0#w, d⟩ : StaticStorage2D w) l ↔ gridZero2 g (d - 1 - l)) := fun l hl => by
      have e : slot (⟨0#w, d⟩ : StaticStorage2D w) l = .Zero := by
        have e := path_getElem (⟨0#w, d⟩ : StaticStorage2D w) l (by rw [path_length]; exact hl)
        simp only [hz d hd] at e
        rw [← e, List.getElem_replicate]
      rw [e, gridCell_zero_iff2 hW (h4 l hl).1 (h4 l hl).2]
    constructor
    · intro h i hi
      have := (hs (d - 1 - i) (by omega)).mp (h (d - 1 - i) (by omega))
      rwa [show d - 1 - (d - 1 - i) = i by omega] at this
    · intro h l hl
      exact (hs l hl).mpr (h _ (by omega))
  · have h1 := (MortonIndex2D.staticFromGridIndex_narrow hc hw hn g hd o).2 ho
    have g1 := (MortonIndex2D.staticFromGridIndex_narrow hc hw hn ⟨g.x >>> k.val, g.y >>> k.val⟩ (gd := d) (by omega) o).2 ho
    have hr : Reach2D c .canonical (.static w ⟨⟨0#w, d + k.val⟩⟩) := .staticFromGrid hw h1
    have hlen : (cells2 (⟨⟨0#w, d + k.val⟩⟩ : MortonIndex2D (StaticStorage2D w))).length = d + k.val := by
      rw [cells2, path_length]
      rfl
    obtain ⟨a, a1, a2, a3⟩ := (static_anc2 hc).yes _ hr k (by omega)
    refine ⟨_, _, a, h1, g1, a1, ?_⟩
    rw [static_eq2 hc _ _ a2 (.staticFromGrid hw g1), a3, hlen, Nat.add_sub_cancel, cells2, cells2, hz _ hd, hz d (by omega), List.take_replicate]
    congr 1
    omega

example : MortonIndex2D.staticFromGridIndex x64 128 ⟨5#64, 6#64⟩ 0 .XY = .error .overflow :=
  (C59_elsewhere_2D x64_supported 128 (by decide) _ _).1 0 (by decide) (by decide) rfl

example : ∃ m s t, MortonIndex2D.dynamicFromGridIndex x32r ⟨5#32, 6#32⟩ 3 .XY = .ok m ∧
    MortonIndex2D.staticFromGridIndex x32r 128 ⟨5#32, 6#32⟩ 3 .XY = .ok (.ok s) ∧
    MortonIndex2D.dynamicToStatic x32r 128 m = .ok (.ok t) ∧ RustOrd.eq t s ≠ true := by
  obtain ⟨m, s, t, h1, h2, h3, h4⟩ := ((C59_elsewhere_2D x32r_supported 128 (by decide) ⟨5#32, 6#32⟩ .XY).2 (by decide) rfl).1 3
    (by decide) (by decide)
  exact ⟨m, s, t, h1, h2, h3, fun h => absurd (h4.mp h 0 (by decide)).1 (by decide)⟩

end MortonRs
