import Verif.Props.ConvExact
import Verif.Props.FixedStray
import Verif.Props.Neighbours

/-! # Steps through the grid and converted orders with stray bits (C34, C93)

`Props/Neighbours` leaves out the indices with stray bits in the steps, `Props/Conv3D` in the comparison of converted 3D fixed-depth
indices. Here both are followed for every history. -/

namespace MortonRs

open BitStorage MortonIndex

variable {c : Cfg}

/-! ## Statements -/

/-- C93 for indices with any bits: the opposite step leads back to the cells of `m`, to an index `==` to `m` exactly if `m` is unspoiled. -/
def StepsThroughGridAnyBits2D (c : Cfg) {S : Type} [Storage S Quadrant] [RustOrd (MortonIndex2D S)] (ok unspoiled : MortonIndex2D S → Prop)
    (mk : Vector2 c.ptrBits → QuadrantOrdering → Res (MortonIndex2D S)) (d : Nat) : Prop :=
  ∀ m, ok m → depth m = d → ∀ o (dx dy : BitVec c.ptrBits), ∃ g n v r,
    m.toGridIndex c o = .ok g ∧ mk ⟨g.x + dx, g.y + dy⟩ o = .ok n ∧ depth n = d ∧
    n.toGridIndex c o = .ok v ∧ v.x.toNat = (g.x.toNat + dx.toNat) % 2 ^ d ∧ v.y.toNat = (g.y.toNat + dy.toNat) % 2 ^ d ∧
    mk ⟨v.x - dx, v.y - dy⟩ o = .ok r ∧ SameCells c r m ∧ (RustOrd.eq r m = true ↔ unspoiled m) ∧
    let still := dx.toNat % 2 ^ d = 0 ∧ dy.toNat % 2 ^ d = 0
    (SameCells c n m ↔ still) ∧ (RustOrd.eq n m = true ↔ still ∧ unspoiled m)

/-- C93 in 3D for indices with any bits. -/
def StepsThroughGridAnyBits3D (c : Cfg) {S : Type} [Storage S Octant] [RustOrd (MortonIndex3D S)] (ok unspoiled : MortonIndex3D S → Prop)
    (mk : Vector3 c.ptrBits → OctantOrdering → Res (MortonIndex3D S)) (d : Nat) : Prop :=
  ∀ m, ok m → depth m = d → ∀ o (dx dy dz : BitVec c.ptrBits), ∃ g n v r,
    m.toGridIndex c o = .ok g ∧ mk ⟨g.x + dx, g.y + dy, g.z + dz⟩ o = .ok n ∧ depth n = d ∧
    n.toGridIndex c o = .ok v ∧ v.x.toNat = (g.x.toNat + dx.toNat) % 2 ^ d ∧ v.y.toNat = (g.y.toNat + dy.toNat) % 2 ^ d ∧
    v.z.toNat = (g.z.toNat + dz.toNat) % 2 ^ d ∧
    mk ⟨v.x - dx, v.y - dy, v.z - dz⟩ o = .ok r ∧ SameCells c r m ∧ (RustOrd.eq r m = true ↔ unspoiled m) ∧
    let still := dx.toNat % 2 ^ d = 0 ∧ dy.toNat % 2 ^ d = 0 ∧ dz.toNat % 2 ^ d = 0
    (SameCells c n m ↔ still) ∧ (RustOrd.eq n m = true ↔ still ∧ unspoiled m)

/-- C34 for 3D fixed-depth indices with any bits: what `f` returns is in the order of the originals, except that it is Equal for
originals that differ in the rest only. -/
def ConversionForgetsRest (c : Cfg) {N : Type} [RustOrd N] {w : Nat} (ok : MortonIndex3D (FixedDepthStorage3D w) → Prop)
    (f : MortonIndex3D (FixedDepthStorage3D w) → N) : Prop :=
  ∀ a b, ok a → ok b → ∃ r, RustOrd.cmp c (f a) (f b) = .ok r ∧ RustOrd.partialCmp c (f a) (f b) = .ok (some r) ∧
    let r' := if r = .eq then compare (restOf a) (restOf b) else r
    RustOrd.cmp c a b = .ok r' ∧ RustOrd.partialCmp c a b = .ok (some r')

/-! ## Proofs -/

theorem stepsAnyBits_of2 {S : Type} [Storage S Quadrant] [BitStorage S Quadrant] [RustOrd (MortonIndex2D S)]
    (hc : c.Supported) {ok okC u : MortonIndex2D S → Prop} {mk : Vector2 c.ptrBits → QuadrantOrdering → Res (MortonIndex2D S)}
    {d : Nat} (hd : d ≤ c.ptrBits) (hwf : ∀ m, ok m → WF c m.storage) {wr : Quadrant → Quadrant}
    (hL : ListLike c ok (cells2 (S := S)) wr) (hU : UnspoiledMeans c ok okC u)
    (hmk : ∀ g o, ∃ m, mk g o = .ok m ∧ okC m ∧ depth m = d ∧ GridAt2D c m o g d) : StepsThroughGridAnyBits2D c ok u mk d := by
  intro m hm hdm o dx dy
  obtain ⟨g, g1, g2, g3⟩ := grid_lt2 hc (hwf m hm) (by omega) o
  rw [hdm] at g2 g3
  obtain ⟨n, n1, n2, n3, v, v1, v2, v3⟩ := hmk ⟨g.x + dx, g.y + dy⟩ o
  rw [step_mod hd] at v2 v3
  obtain ⟨r, r1, r2, r3, w, u1, u2, u3⟩ := hmk ⟨v.x - dx, v.y - dy⟩ o
  rw [step_back_mod hd g2 v2] at u2
  rw [step_back_mod hd g3 v3] at u3
  obtain ⟨n2, nu⟩ := (hU.1 n).mp n2
  obtain ⟨r2, ru⟩ := (hU.1 r).mp r2
  have hr : SameCells c r m := by
    rw [sameCells_iff_path hL r2 hm, same_place2 hc (hwf r r2) (hwf m hm) (by omega) (by omega) u1 g1]
    exact ⟨u2, u3⟩
  have hn : SameCells c n m ↔ dx.toNat % 2 ^ d = 0 ∧ dy.toNat % 2 ^ d = 0 := by
    rw [sameCells_iff_path hL n2 hm, same_place2 hc (hwf n n2) (hwf m hm) (by omega) (by omega) v1 g1, v2, v3, step_zero g2, step_zero g3]
  exact ⟨g, n, v, r, g1, n1, n3, v1, v2, v3, r1, hr, by rw [hU.2 r m r2 hm ru]; exact and_iff_right hr, hn, by rw [hU.2 n m n2 hm nu, hn]⟩

theorem stepsAnyBits_of3 {S : Type} [Storage S Octant] [BitStorage S Octant] [RustOrd (MortonIndex3D S)]
    (hc : c.Supported) {ok okC u : MortonIndex3D S → Prop} {mk : Vector3 c.ptrBits → OctantOrdering → Res (MortonIndex3D S)}
    {d : Nat} (hd : d ≤ c.ptrBits) (hwf : ∀ m, ok m → WF c m.storage) {wr : Octant → Octant}
    (hL : ListLike c ok (cells3 (S := S)) wr) (hU : UnspoiledMeans c ok okC u)
    (hmk : ∀ g o, ∃ m, mk g o = .ok m ∧ okC m ∧ depth m = d ∧ GridAt3D c m o g d) : StepsThroughGridAnyBits3D c ok u mk d := by
  intro m hm hdm o dx dy dz
  obtain ⟨g, g1, g2, g3, g4⟩ := grid_lt3 hc (hwf m hm) (by omega) o
  rw [hdm] at g2 g3 g4
  obtain ⟨n, n1, n2, n3, v, v1, v2, v3, v4⟩ := hmk ⟨g.x + dx, g.y + dy, g.z + dz⟩ o
  rw [step_mod hd] at v2 v3 v4
  obtain ⟨r, r1, r2, r3, w, u1, u2, u3, u4⟩ := hmk ⟨v.x - dx, v.y - dy, v.z - dz⟩ o
  rw [step_back_mod hd g2 v2] at u2
  rw [step_back_mod hd g3 v3] at u3
  rw [step_back_mod hd g4 v4] at u4
  obtain ⟨n2, nu⟩ := (hU.1 n).mp n2
  obtain ⟨r2, ru⟩ := (hU.1 r).mp r2
  have hr : SameCells c r m := by
    rw [sameCells_iff_path hL r2 hm, same_place3 hc (hwf r r2) (hwf m hm) (by omega) (by omega) u1 g1]
    exact ⟨u2, u3, u4⟩
  have hn : SameCells c n m ↔ dx.toNat % 2 ^ d = 0 ∧ dy.toNat % 2 ^ d = 0 ∧ dz.toNat % 2 ^ d = 0 := by
    rw [sameCells_iff_path hL n2 hm, same_place3 hc (hwf n n2) (hwf m hm) (by omega) (by omega) v1 g1, v2, v3, v4, step_zero g2,
      step_zero g3, step_zero g4]
  exact ⟨g, n, v, r, g1, n1, n3, v1, v2, v3, v4, r1, hr, by rw [hU.2 r m r2 hm ru]; exact and_iff_right hr, hn,
    by rw [hU.2 n m n2 hm nu, hn]⟩

/-- **C93** for 2D dynamic indices with any bits; fixed-depth and static ones are complete in `C93_steps_2D`. -/
theorem C93_steps_any_bits_2D (hc : c.Supported) (hdw : DynWrites c) (d : Nat) (hd : d ≤ c.ptrBits / 2) :
    StepsThroughGridAnyBits2D c (fun m => Reach2D c .all (.dynamic m)) (Unspoiled2D c)
      (fun g o => MortonIndex2D.dynamicFromGridIndex c g d o) d := by
  refine stepsAnyBits_of2 hc (by omega) (dynamic_wf2 hc) (dynamic_list2 hc hdw) ((C109_unspoiled_2D hc).2 hdw) fun g o => ?_
  obtain ⟨m, h1, h2, h3⟩ := ((C26_dynamic_grid_2D hc d).2 hd).1 g o
  exact ⟨m, h1, .dynamicFromGrid h1, h2, h3⟩

/-- **C93** for 3D indices with any bits. -/
theorem C93_steps_any_bits_3D (hc : c.Supported) :
    (32 ≤ c.ptrBits → ∀ w, IntWidth w → w / 3 < c.ptrBits →
      StepsThroughGridAnyBits3D c (fun m => Reach3D c .all (.fixed w m)) (Unspoiled3D c) (MortonIndex3D.fixedFromGridIndex c w) (w / 3)) ∧
    (∀ w d, IntWidth w → w / 3 ≤ c.ptrBits → d ≤ w / 3 → d = 0 ∨ StaticGridExact w d →
      StepsThroughGridAnyBits3D c (fun m => Reach3D c .all (.static w m)) (Unspoiled3D c)
        (fun g o => okOf (MortonIndex3D.staticFromGridIndex c w g d o)) d) ∧
    (DynWrites c → ∀ d, d ≤ c.ptrBits / 2 →
      StepsThroughGridAnyBits3D c (fun m => Reach3D c .all (.dynamic m)) (Unspoiled3D c)
        (fun g o => MortonIndex3D.dynamicFromGridIndex c g d o) d) := by
  refine ⟨fun h32 w hw hfit => stepsAnyBits_of3 hc (by omega) (fixed_wf3 hc) (fixed_list3 hc) ((C109_unspoiled_3D hc).1 w).1 fun g o => ?_,
    fun w d hw hfit hd he => stepsAnyBits_of3 hc (by omega) (static_wf3 hc) (static_list3 hc) ((C109_unspoiled_3D hc).1 w).2 fun g o => ?_,
    fun hdw d hd => stepsAnyBits_of3 hc (by omega) (dynamic_wf3 hc) (dynamic_list3 hc hdw) ((C109_unspoiled_3D hc).2 hdw) fun g o => ?_⟩
  · obtain ⟨m, h1, h2⟩ := ((C22_fixed_grid_3D hc h32 w hw).1 hfit).1 g o
    exact ⟨m, h1, .fixedFromGrid hw h1, rfl, h2⟩
  · obtain ⟨m, h1, h2, h3⟩ := ((C25_static_grid_3D_partial hc w hw d).2 hd hfit he).1 g o
    exact ⟨m, by rw [h1]; rfl, .staticFromGrid hw h1, h2, h3⟩
  · obtain ⟨m, h1, h2, h3⟩ := ((C26_dynamic_grid_3D hc d).2 hd hdw).1 g o
    exact ⟨m, h1, .dynamicFromGrid h1, h2, h3⟩

theorem forgetsRest_of {N : Type} [RustOrd N] (hc : c.Supported) {w : Nat} {ok' : N → Prop} {q : N → List Octant}
    (hq : CmpLike c octantKey ok' q) {f : MortonIndex3D (FixedDepthStorage3D w) → N}
    (hf : ∀ m, Reach3D c .all (.fixed w m) → ok' (f m) ∧ q (f m) = cells3 m) :
    ConversionForgetsRest c (fun m => Reach3D c .all (.fixed w m)) f := by
  intro a b ha hb
  have hw : IntWidth w := (fixed_wf3 hc a ha).fit
  obtain ⟨a1, a2⟩ := hf a ha
  obtain ⟨b1, b2⟩ := hf b hb
  obtain ⟨h1, h2⟩ := hq _ _ a1 b1
  rw [a2, b2] at h1 h2
  have hr : RustOrd.cmp c a b = .ok (if pathCmp octantKey (cells3 a) (cells3 b) = .eq then compare (restOf a) (restOf b)
      else pathCmp octantKey (cells3 a) (cells3 b)) := by
    rw [fixed_cmp_all3 hc hw]
    cases pathCmp octantKey (cells3 a) (cells3 b) <;> rfl
  refine ⟨_, h1, h2, hr, ?_⟩
  have hp : RustOrd.partialCmp c a b = (RustOrd.cmp c a b).map some := rfl
  rw [hp, hr]
  rfl

/-- **C34** for 3D fixed-depth indices with any bits. That `==` is kept is `C109_conversions_3D`. -/
theorem C34_order_any_bits_3D (hc : c.Supported) (w : Nat) :
    ConversionForgetsRest c (fun m : MortonIndex3D (FixedDepthStorage3D w) => Reach3D c .all (.fixed w m)) MortonIndex3D.fixedToStatic ∧
    ConversionForgetsRest c (fun m : MortonIndex3D (FixedDepthStorage3D w) => Reach3D c .all (.fixed w m)) (MortonIndex3D.fixedToDynamic c) := by
  refine ⟨forgetsRest_of hc (static_cmp3 (sc := .all) hc) fun m hm => ⟨.fixedToStatic hm, ?_⟩,
    forgetsRest_of hc (dynamic_cmp3 (sc := .all) hc) fun m hm => ⟨.fixedToDynamic hm, ?_⟩⟩
  · exact (MortonIndex3D.fixedToStatic_ok (c := c) (fixed_wf3 hc m hm).fit m).2.1
  · exact (MortonIndex3D.fixedToDynamic_ok hc (fixed_wf3 hc m hm).fit m).2.1

/-! ## Examples -/

/-- `zeroed(4)` has a spare byte: one step to the right and back is the same place, but not `==`. -/
example : ∃ n v r, MortonIndex2D.dynamicFromGridIndex x64 ⟨1#64, 0#64⟩ 4 .XY = .ok n ∧ n.toGridIndex x64 .XY = .ok v ∧ v.x.toNat = 1 ∧
    SameCells x64 r exSpareD2 ∧ RustOrd.eq r exSpareD2 ≠ true := by
  obtain ⟨g, n, v, r, h1, h2, -, h3, h4, -, -, h6, h7, -⟩ :=
    C93_steps_any_bits_2D x64_supported x64_writes 4 (by decide) exSpareD2 exSpareD2_reach rfl .XY 1#64 0#64
  have e : exSpareD2.toGridIndex x64 .XY = .ok ⟨0#64, 0#64⟩ := by decide +kernel
  have hg : g = ⟨0#64, 0#64⟩ := by rw [e] at h1; exact (Except.ok.inj h1).symm
  subst hg
  refine ⟨n, v, r, h2, h3, ?_, h6, fun h => ?_⟩
  · rw [h4]; decide
  · obtain ⟨r', h1, h2⟩ := h7.mp h
    rw [show rebuild x64 MortonIndex2D.cells (MortonIndex2D.tryFromSlice x64) exSpareD2 = .ok (.ok ⟨⟨[0x00#8], 4⟩⟩) from by rfl] at h1
    injection h1 with h1
    injection h1 with h1
    subst h1
    exact absurd h2 (by decide)

/-- All steps from a raw `u32` with two stray bits: staying where it is gives the index without them, which is not `==`. -/
example : ∃ n, MortonIndex3D.fixedFromGridIndex x64 32 ⟨0#64, 0#64, 0#64⟩ .XYZ = .ok n ∧
    SameCells x64 n (⟨⟨0x3#32⟩⟩ : MortonIndex3D (FixedDepthStorage3D 32)) ∧ RustOrd.eq n ⟨⟨0x3#32⟩⟩ ≠ true := by
  have hm : Reach3D x64 .all (.fixed 32 ⟨⟨0x3#32⟩⟩) := .fixedFromRaw (by decide) (.inl rfl)
  obtain ⟨g, n, v, r, h1, h2, -, -, -, -, -, -, -, -, h3, h4⟩ :=
    (C93_steps_any_bits_3D x64_supported).1 (by decide) 32 (by decide) (by decide) _ hm rfl .XYZ 0#64 0#64 0#64
  have e : (⟨⟨0x3#32⟩⟩ : MortonIndex3D (FixedDepthStorage3D 32)).toGridIndex x64 .XYZ = .ok ⟨0#64, 0#64, 0#64⟩ := by decide +kernel
  have hg : g = ⟨0#64, 0#64, 0#64⟩ := by rw [e] at h1; exact (Except.ok.inj h1).symm
  subst hg
  refine ⟨n, h2, h3.mpr (by decide), fun h => ?_⟩
  obtain ⟨r', h5, h6⟩ := (h4.mp h).2
  rw [show rebuild x64 MortonIndex3D.cells (MortonIndex3D.tryFromSlice x64) (⟨⟨0x3#32⟩⟩ : MortonIndex3D (FixedDepthStorage3D 32)) =
    .ok (.ok ⟨⟨0#32⟩⟩) from by decide +kernel] at h5
  injection h5 with h5
  injection h5 with h5
  subst h5
  exact absurd h6 (by decide)

/-- Two bits behind the last of ten cells in `u32`: the originals are ordered by them, the static and the dynamic indices are Equal. -/
example : let a : MortonIndex3D (FixedDepthStorage3D 32) := ⟨⟨0x80000001#32⟩⟩
    let b : MortonIndex3D (FixedDepthStorage3D 32) := ⟨⟨0x80000002#32⟩⟩
    RustOrd.cmp x64 (MortonIndex3D.fixedToStatic a) (MortonIndex3D.fixedToStatic b) = .ok .eq ∧ RustOrd.cmp x64 a b = .ok .lt := by
  intro a b
  have hr : ∀ x : MortonIndex3D (FixedDepthStorage3D 32), Reach3D x64 .all (.fixed 32 x) := fun _ => .fixedFromRaw (by decide) (.inl rfl)
  obtain ⟨r, h1, -, h2, -⟩ := (C34_order_any_bits_3D x64_supported 32).1 a b (hr a) (hr b)
  have e : RustOrd.cmp x64 (MortonIndex3D.fixedToStatic a) (MortonIndex3D.fixedToStatic b) = .ok .eq := by decide +kernel
  rw [e] at h1
  obtain rfl : Ordering.eq = r := Except.ok.inj h1
  rw [if_pos rfl] at h2
  exact ⟨e, h2.trans (by decide +kernel)⟩

end MortonRs
