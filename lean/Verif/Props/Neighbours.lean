import Verif.Props.Tiles
import Verif.Props.Conv2D
import Verif.Props.Grid2D
import Verif.Props.Grid3D

/-! # Stepping through the grid (C93) -/

namespace MortonRs

open BitStorage MortonIndex VariableDepthMortonIndex

variable {c : Cfg}

/-! ## Statements -/

/-- C93: `mk (to_grid_index(m) + offset)` (`wrapping_add`, so a negative offset is its two's complement) is the node at this
offset on the grid of depth `d`, which wraps around at its edges. The opposite step leads back to an index `==` to `m`, and
the step stays at `m` exactly for offsets that are multiples of the side of the grid. -/
def StepsThroughGrid2D (c : Cfg) {S : Type} [Storage S Quadrant] [RustOrd (MortonIndex2D S)] (ok : MortonIndex2D S → Prop)
    (mk : Vector2 c.ptrBits → QuadrantOrdering → Res (MortonIndex2D S)) (d : Nat) : Prop :=
  ∀ m, ok m → depth m = d → ∀ o (dx dy : BitVec c.ptrBits), ∃ g n v r,
    m.toGridIndex c o = .ok g ∧ mk ⟨g.x + dx, g.y + dy⟩ o = .ok n ∧ depth n = d ∧
    n.toGridIndex c o = .ok v ∧ v.x.toNat = (g.x.toNat + dx.toNat) % 2 ^ d ∧ v.y.toNat = (g.y.toNat + dy.toNat) % 2 ^ d ∧
    mk ⟨v.x - dx, v.y - dy⟩ o = .ok r ∧ RustOrd.eq r m = true ∧
    (RustOrd.eq n m = true ↔ dx.toNat % 2 ^ d = 0 ∧ dy.toNat % 2 ^ d = 0)

/-- C93 in 3D. -/
def StepsThroughGrid3D (c : Cfg) {S : Type} [Storage S Octant] [RustOrd (MortonIndex3D S)] (ok : MortonIndex3D S → Prop)
    (mk : Vector3 c.ptrBits → OctantOrdering → Res (MortonIndex3D S)) (d : Nat) : Prop :=
  ∀ m, ok m → depth m = d → ∀ o (dx dy dz : BitVec c.ptrBits), ∃ g n v r,
    m.toGridIndex c o = .ok g ∧ mk ⟨g.x + dx, g.y + dy, g.z + dz⟩ o = .ok n ∧ depth n = d ∧
    n.toGridIndex c o = .ok v ∧ v.x.toNat = (g.x.toNat + dx.toNat) % 2 ^ d ∧ v.y.toNat = (g.y.toNat + dy.toNat) % 2 ^ d ∧
    v.z.toNat = (g.z.toNat + dz.toNat) % 2 ^ d ∧
    mk ⟨v.x - dx, v.y - dy, v.z - dz⟩ o = .ok r ∧ RustOrd.eq r m = true ∧
    (RustOrd.eq n m = true ↔ dx.toNat % 2 ^ d = 0 ∧ dy.toNat % 2 ^ d = 0 ∧ dz.toNat % 2 ^ d = 0)

/-- C93: two nodes of one depth have the same ancestor `k` levels up exactly when their positions agree after `>> k`. -/
def SharesAncestor2D (c : Cfg) {S : Type} [VariableDepthStorage S Quadrant] [RustOrd (MortonIndex2D S)]
    (ok : MortonIndex2D S → Prop) : Prop :=
  ∀ a b, ok a → ok b → depth a = depth b → depth a ≤ c.ptrBits → ∀ k : NonZeroUsize, k.val ≤ depth a → ∀ o,
    ∃ pa pb va vb, ancestor c a k = .ok (some pa) ∧ ancestor c b k = .ok (some pb) ∧
      a.toGridIndex c o = .ok va ∧ b.toGridIndex c o = .ok vb ∧
      (RustOrd.cmp c pa pb = .ok .eq ↔ va.x >>> k.val = vb.x >>> k.val ∧ va.y >>> k.val = vb.y >>> k.val)

/-- C93 in 3D. -/
def SharesAncestor3D (c : Cfg) {S : Type} [VariableDepthStorage S Octant] [RustOrd (MortonIndex3D S)]
    (ok : MortonIndex3D S → Prop) : Prop :=
  ∀ a b, ok a → ok b → depth a = depth b → depth a ≤ c.ptrBits → ∀ k : NonZeroUsize, k.val ≤ depth a → ∀ o,
    ∃ pa pb va vb, ancestor c a k = .ok (some pa) ∧ ancestor c b k = .ok (some pb) ∧
      a.toGridIndex c o = .ok va ∧ b.toGridIndex c o = .ok vb ∧
      (RustOrd.cmp c pa pb = .ok .eq ↔ va.x >>> k.val = vb.x >>> k.val ∧ va.y >>> k.val = vb.y >>> k.val ∧
        va.z >>> k.val = vb.z >>> k.val)

/-! ## Lemmas -/

theorem step_mod {W d : Nat} (hd : d ≤ W) (g dx : BitVec W) : (g + dx).toNat % 2 ^ d = (g.toNat + dx.toNat) % 2 ^ d := by
  rw [BitVec.toNat_add, Nat.mod_mod_of_dvd _ (Nat.pow_dvd_pow 2 hd)]

theorem mod_cancel {P a b n : Nat} (hP : 0 < P) (h : (a + n) % P = (b + n) % P) : a % P = b % P := by
  obtain ⟨p, rfl⟩ : ∃ p, P = p + 1 := ⟨P - 1, by omega⟩
  have e : ∀ t, (t + n + n * p) % (p + 1) = t % (p + 1) := by
    intro t
    rw [show t + n + n * p = t + n * (p + 1) by rw [Nat.mul_succ]; omega, Nat.add_mul_mod_self_right]
  rw [← e a, ← e b, Nat.add_mod, h, ← Nat.add_mod]

theorem step_back_mod {W d : Nat} (hd : d ≤ W) {g v dx : BitVec W} (hg : g.toNat < 2 ^ d)
    (hv : v.toNat = (g.toNat + dx.toNat) % 2 ^ d) : (v - dx).toNat % 2 ^ d = g.toNat := by
  have h : (v - dx + dx).toNat % 2 ^ d = (g + dx).toNat % 2 ^ d := by
    rw [BitVec.sub_add_cancel, step_mod hd, hv, Nat.mod_mod]
  rw [step_mod hd, step_mod hd] at h
  rw [mod_cancel (Nat.two_pow_pos d) h, Nat.mod_eq_of_lt hg]

theorem step_zero {P g dx : Nat} (hg : g < P) : (g + dx) % P = g ↔ dx % P = 0 := by
  have hP : 0 < P := by omega
  have hr := Nat.mod_lt dx hP
  rw [Nat.add_mod, Nat.mod_eq_of_lt hg]
  by_cases h : g + dx % P < P
  · rw [Nat.mod_eq_of_lt h]; omega
  · rw [Nat.mod_eq_sub_mod (by omega), Nat.mod_eq_of_lt (by omega)]; omega

theorem same_place2 {S : Type} [Storage S Quadrant] [BitStorage S Quadrant] (hc : c.Supported) {a b : MortonIndex2D S}
    (ha : WF c a.storage) (hb : WF c b.storage) (hd : depth a = depth b) (hda : depth a ≤ c.ptrBits) {o : QuadrantOrdering}
    {va vb : Vector2 c.ptrBits} (h1 : a.toGridIndex c o = .ok va) (h2 : b.toGridIndex c o = .ok vb) :
    cells2 a = cells2 b ↔ va.x.toNat = vb.x.toNat ∧ va.y.toNat = vb.y.toNat := by
  obtain ⟨va', e1, e2, e3⟩ := toGridIndex_binary2 hc ha hda o
  obtain ⟨vb', f1, f2, f3⟩ := toGridIndex_binary2 hc hb (Nat.le_trans (Nat.le_of_eq hd.symm) hda) o
  obtain rfl : va' = va := by rw [e1] at h1; exact Except.ok.inj h1
  obtain rfl : vb' = vb := by rw [f1] at h2; exact Except.ok.inj h2
  have hl : (path a.storage).length = (path b.storage).length :=
    (path_length a.storage).trans (hd.trans (path_length b.storage).symm)
  rw [e2, e3, f2, f3]
  constructor
  · intro h
    have h : path a.storage = path b.storage := h
    rw [h]
    exact ⟨rfl, rfl⟩
  · rintro ⟨q1, q2⟩
    change path a.storage = path b.storage
    exact path_of_coords2 (o := o) (binary_inj (by rw [List.length_map, List.length_map, hl]) q1)
      (binary_inj (by rw [List.length_map, List.length_map, hl]) q2)

theorem same_place3 {S : Type} [Storage S Octant] [BitStorage S Octant] (hc : c.Supported) {a b : MortonIndex3D S}
    (ha : WF c a.storage) (hb : WF c b.storage) (hd : depth a = depth b) (hda : depth a ≤ c.ptrBits) {o : OctantOrdering}
    {va vb : Vector3 c.ptrBits} (h1 : a.toGridIndex c o = .ok va) (h2 : b.toGridIndex c o = .ok vb) :
    cells3 a = cells3 b ↔ va.x.toNat = vb.x.toNat ∧ va.y.toNat = vb.y.toNat ∧ va.z.toNat = vb.z.toNat := by
  obtain ⟨va', e1, e2, e3, e4⟩ := toGridIndex_binary3 hc ha hda o
  obtain ⟨vb', f1, f2, f3, f4⟩ := toGridIndex_binary3 hc hb (Nat.le_trans (Nat.le_of_eq hd.symm) hda) o
  obtain rfl : va' = va := by rw [e1] at h1; exact Except.ok.inj h1
  obtain rfl : vb' = vb := by rw [f1] at h2; exact Except.ok.inj h2
  have hl : (path a.storage).length = (path b.storage).length :=
    (path_length a.storage).trans (hd.trans (path_length b.storage).symm)
  rw [e2, e3, e4, f2, f3, f4]
  constructor
  · intro h
    have h : path a.storage = path b.storage := h
    rw [h]
    exact ⟨rfl, rfl, rfl⟩
  · rintro ⟨q1, q2, q3⟩
    change path a.storage = path b.storage
    exact path_of_coords3 (o := o) (binary_inj (by rw [List.length_map, List.length_map, hl]) q1)
      (binary_inj (by rw [List.length_map, List.length_map, hl]) q2)
      (binary_inj (by rw [List.length_map, List.length_map, hl]) q3)

theorem grid_lt2 {S : Type} [Storage S Quadrant] [BitStorage S Quadrant] (hc : c.Supported) {m : MortonIndex2D S}
    (h : WF c m.storage) (hd : depth m ≤ c.ptrBits) (o : QuadrantOrdering) :
    ∃ g, m.toGridIndex c o = .ok g ∧ g.x.toNat < 2 ^ depth m ∧ g.y.toNat < 2 ^ depth m := by
  obtain ⟨g, e1, e2, e3⟩ := toGridIndex_binary2 hc h hd o
  have hl : (path m.storage).length = depth m := path_length m.storage
  refine ⟨g, e1, ?_, ?_⟩
  · rw [e2, ← hl, ← List.length_map (f := quadrantX o)]; exact binary_lt _
  · rw [e3, ← hl, ← List.length_map (f := quadrantY o)]; exact binary_lt _

theorem grid_lt3 {S : Type} [Storage S Octant] [BitStorage S Octant] (hc : c.Supported) {m : MortonIndex3D S}
    (h : WF c m.storage) (hd : depth m ≤ c.ptrBits) (o : OctantOrdering) :
    ∃ g, m.toGridIndex c o = .ok g ∧ g.x.toNat < 2 ^ depth m ∧ g.y.toNat < 2 ^ depth m ∧ g.z.toNat < 2 ^ depth m := by
  obtain ⟨g, e1, e2, e3, e4⟩ := toGridIndex_binary3 hc h hd o
  have hl : (path m.storage).length = depth m := path_length m.storage
  refine ⟨g, e1, ?_, ?_, ?_⟩
  · rw [e2, ← hl, ← List.length_map (f := octantX o)]; exact binary_lt _
  · rw [e3, ← hl, ← List.length_map (f := octantY o)]; exact binary_lt _
  · rw [e4, ← hl, ← List.length_map (f := octantZ o)]; exact binary_lt _

theorem stepsThroughGrid_of2 {S : Type} [Storage S Quadrant] [BitStorage S Quadrant] [RustOrd (MortonIndex2D S)]
    (hc : c.Supported) {ok : MortonIndex2D S → Prop} {mk : Vector2 c.ptrBits → QuadrantOrdering → Res (MortonIndex2D S)}
    {d : Nat} (hd : d ≤ c.ptrBits) (hwf : ∀ m, ok m → WF c m.storage) (hE : EqLike ok (cells2 (S := S)))
    (hmk : ∀ g o, ∃ m, mk g o = .ok m ∧ ok m ∧ depth m = d ∧ GridAt2D c m o g d) : StepsThroughGrid2D c ok mk d := by
  intro m hm hdm o dx dy
  obtain ⟨g, g1, g2, g3⟩ := grid_lt2 hc (hwf m hm) (by omega) o
  rw [hdm] at g2 g3
  obtain ⟨n, n1, n2, n3, v, v1, v2, v3⟩ := hmk ⟨g.x + dx, g.y + dy⟩ o
  rw [step_mod hd] at v2 v3
  obtain ⟨r, r1, r2, r3, u, u1, u2, u3⟩ := hmk ⟨v.x - dx, v.y - dy⟩ o
  rw [step_back_mod hd g2 v2] at u2
  rw [step_back_mod hd g3 v3] at u3
  refine ⟨g, n, v, r, g1, n1, n3, v1, v2, v3, r1, ?_, ?_⟩
  · rw [hE r m r2 hm, same_place2 hc (hwf r r2) (hwf m hm) (by omega) (by omega) u1 g1]
    exact ⟨u2, u3⟩
  · rw [hE n m n2 hm, same_place2 hc (hwf n n2) (hwf m hm) (by omega) (by omega) v1 g1, v2, v3, step_zero g2, step_zero g3]

theorem stepsThroughGrid_of3 {S : Type} [Storage S Octant] [BitStorage S Octant] [RustOrd (MortonIndex3D S)]
    (hc : c.Supported) {ok : MortonIndex3D S → Prop} {mk : Vector3 c.ptrBits → OctantOrdering → Res (MortonIndex3D S)}
    {d : Nat} (hd : d ≤ c.ptrBits) (hwf : ∀ m, ok m → WF c m.storage) (hE : EqLike ok (cells3 (S := S)))
    (hmk : ∀ g o, ∃ m, mk g o = .ok m ∧ ok m ∧ depth m = d ∧ GridAt3D c m o g d) : StepsThroughGrid3D c ok mk d := by
  intro m hm hdm o dx dy dz
  obtain ⟨g, g1, g2, g3, g4⟩ := grid_lt3 hc (hwf m hm) (by omega) o
  rw [hdm] at g2 g3 g4
  obtain ⟨n, n1, n2, n3, v, v1, v2, v3, v4⟩ := hmk ⟨g.x + dx, g.y + dy, g.z + dz⟩ o
  rw [step_mod hd] at v2 v3 v4
  obtain ⟨r, r1, r2, r3, u, u1, u2, u3, u4⟩ := hmk ⟨v.x - dx, v.y - dy, v.z - dz⟩ o
  rw [step_back_mod hd g2 v2] at u2
  rw [step_back_mod hd g3 v3] at u3
  rw [step_back_mod hd g4 v4] at u4
  refine ⟨g, n, v, r, g1, n1, n3, v1, v2, v3, v4, r1, ?_, ?_⟩
  · rw [hE r m r2 hm, same_place3 hc (hwf r r2) (hwf m hm) (by omega) (by omega) u1 g1]
    exact ⟨u2, u3, u4⟩
  · rw [hE n m n2 hm, same_place3 hc (hwf n n2) (hwf m hm) (by omega) (by omega) v1 g1, v2, v3, v4, step_zero g2, step_zero g3,
      step_zero g4]

theorem shr_eq_iff {W k : Nat} (a b : BitVec W) : a >>> k = b >>> k ↔ a.toNat / 2 ^ k = b.toNat / 2 ^ k := by
  rw [← BitVec.toNat_inj, BitVec.toNat_ushiftRight, BitVec.toNat_ushiftRight, Nat.shiftRight_eq_div_pow,
    Nat.shiftRight_eq_div_pow]

theorem sharesAncestor_of2 {S : Type} [VariableDepthStorage S Quadrant] [BitStorage S Quadrant] [RustOrd (MortonIndex2D S)]
    (hc : c.Supported) {ok : MortonIndex2D S → Prop} (hwf : ∀ m, ok m → WF c m.storage)
    (hA : AncLike c ok (cells2 (S := S))) (hC : CmpLike c quadrantKey ok (cells2 (S := S))) : SharesAncestor2D c ok := by
  intro a b ha hb hd hda k hk o
  have la : (cells2 a).length = depth a := path_length a.storage
  have lb : (cells2 b).length = depth b := path_length b.storage
  obtain ⟨pa, a1, a2, a3⟩ := hA.yes a ha k (by omega)
  obtain ⟨pb, b1, b2, b3⟩ := hA.yes b hb k (by omega)
  have dpa : depth pa = depth a - k.val := by
    have : (cells2 pa).length = depth pa := path_length pa.storage
    rw [← this, a3, List.length_take]; omega
  have dpb : depth pb = depth b - k.val := by
    have : (cells2 pb).length = depth pb := path_length pb.storage
    rw [← this, b3, List.length_take]; omega
  obtain ⟨va, wa, x1, x2, x3, x4⟩ := ancestorShiftsGrid_of2 hc hwf hA a ha hda k pa a1 o
  obtain ⟨vb, wb, y1, y2, y3, y4⟩ := ancestorShiftsGrid_of2 hc hwf hA b hb (by omega) k pb b1 o
  refine ⟨pa, pb, va, vb, a1, b1, x1, y1, ?_⟩
  rw [(hC pa pb a2 b2).1, Except.ok.injEq, pathCmp_eq_iff _ quadrantKey_inj,
    same_place2 hc (hwf pa a2) (hwf pb b2) (by omega) (by omega) x2 y2, x3, x4, y3, y4, shr_eq_iff, shr_eq_iff]

theorem sharesAncestor_of3 {S : Type} [VariableDepthStorage S Octant] [BitStorage S Octant] [RustOrd (MortonIndex3D S)]
    (hc : c.Supported) {ok : MortonIndex3D S → Prop} (hwf : ∀ m, ok m → WF c m.storage)
    (hA : AncLike c ok (cells3 (S := S))) (hC : CmpLike c octantKey ok (cells3 (S := S))) : SharesAncestor3D c ok := by
  intro a b ha hb hd hda k hk o
  have la : (cells3 a).length = depth a := path_length a.storage
  have lb : (cells3 b).length = depth b := path_length b.storage
  obtain ⟨pa, a1, a2, a3⟩ := hA.yes a ha k (by omega)
  obtain ⟨pb, b1, b2, b3⟩ := hA.yes b hb k (by omega)
  have dpa : depth pa = depth a - k.val := by
    have : (cells3 pa).length = depth pa := path_length pa.storage
    rw [← this, a3, List.length_take]; omega
  have dpb : depth pb = depth b - k.val := by
    have : (cells3 pb).length = depth pb := path_length pb.storage
    rw [← this, b3, List.length_take]; omega
  obtain ⟨va, wa, x1, x2, x3, x4, x5⟩ := ancestorShiftsGrid_of3 hc hwf hA a ha hda k pa a1 o
  obtain ⟨vb, wb, y1, y2, y3, y4, y5⟩ := ancestorShiftsGrid_of3 hc hwf hA b hb (by omega) k pb b1 o
  refine ⟨pa, pb, va, vb, a1, b1, x1, y1, ?_⟩
  rw [(hC pa pb a2 b2).1, Except.ok.injEq, pathCmp_eq_iff _ octantKey_inj,
    same_place3 hc (hwf pa a2) (hwf pb b2) (by omega) (by omega) x2 y2, x3, x4, x5, y3, y4, y5, shr_eq_iff, shr_eq_iff,
    shr_eq_iff]

/-! ## C93 -/

/-- The depths are those at which the constructors keep every level (C21, C24, C26). -/
theorem C93_steps_2D (hc : c.Supported) :
    (∀ w, IntWidth w → w / 2 ≤ c.ptrBits →
      StepsThroughGrid2D c (fun m => Reach2D c .all (.fixed w m)) (MortonIndex2D.fixedFromGridIndex c w) (w / 2)) ∧
    (∀ w d, IntWidth w → w / 2 ≤ c.ptrBits → d ≤ w / 2 → w / 2 - d < c.ptrBits ∨ c.overflowChecks = false →
      StepsThroughGrid2D c (fun m => Reach2D c .all (.static w m))
        (fun g o => okOf (MortonIndex2D.staticFromGridIndex c w g d o)) d) ∧
    (∀ d, d ≤ c.ptrBits / 2 →
      StepsThroughGrid2D c (fun m => Reach2D c .canonical (.dynamic m))
        (fun g o => MortonIndex2D.dynamicFromGridIndex c g d o) d) := by
  refine ⟨fun w hw hfit => stepsThroughGrid_of2 hc hfit (fixed_wf2 hc) (fixed_eq2 hc) fun g o => ?_,
    fun w d hw hfit hd hs => stepsThroughGrid_of2 hc (by omega) (static_wf2 hc) (static_eq2 hc) fun g o => ?_,
    fun d hd => stepsThroughGrid_of2 hc (by omega) (dynamic_wf2 hc) (dynamic_eq2 hc) fun g o => ?_⟩
  · obtain ⟨m, h1, h2⟩ := ((C21_fixed_grid_2D hc w hw).1 hfit).1 g o
    exact ⟨m, h1, .fixedFromGrid hw h1, rfl, h2⟩
  · obtain ⟨m, h1, h2, h3⟩ := ((C24_static_grid_2D_partial hc w hw d).2 hd hfit hs).1 g o
    exact ⟨m, by rw [h1]; rfl, .staticFromGrid hw h1, h2, h3⟩
  · obtain ⟨m, h1, h2, h3⟩ := ((C26_dynamic_grid_2D hc d).2 hd).1 g o
    exact ⟨m, h1, .dynamicFromGrid h1, h2, h3⟩

/-- The depths are those at which the constructors keep every level (C22, C25, C26). -/
theorem C93_steps_3D (hc : c.Supported) :
    (32 ≤ c.ptrBits → ∀ w, IntWidth w → w / 3 < c.ptrBits →
      StepsThroughGrid3D c (fun m => Reach3D c .canonical (.fixed w m)) (MortonIndex3D.fixedFromGridIndex c w) (w / 3)) ∧
    (∀ w d, IntWidth w → w / 3 ≤ c.ptrBits → d ≤ w / 3 → d = 0 ∨ StaticGridExact w d →
      StepsThroughGrid3D c (fun m => Reach3D c .canonical (.static w m))
        (fun g o => okOf (MortonIndex3D.staticFromGridIndex c w g d o)) d) ∧
    (DynWrites c → ∀ d, d ≤ c.ptrBits / 2 →
      StepsThroughGrid3D c (fun m => Reach3D c .canonical (.dynamic m))
        (fun g o => MortonIndex3D.dynamicFromGridIndex c g d o) d) := by
  refine ⟨fun h32 w hw hfit => stepsThroughGrid_of3 hc (by omega) (fixed_wf3 hc) (fixed_eq3 hc) fun g o => ?_,
    fun w d hw hfit hd he => stepsThroughGrid_of3 hc (by omega) (static_wf3 hc) (static_eq3 hc) fun g o => ?_,
    fun hdw d hd => stepsThroughGrid_of3 hc (by omega) (dynamic_wf3 hc) (dynamic_eq3 hc) fun g o => ?_⟩
  · obtain ⟨m, h1, h2⟩ := ((C22_fixed_grid_3D hc h32 w hw).1 hfit).1 g o
    exact ⟨m, h1, .fixedFromGrid hw h1, rfl, h2⟩
  · obtain ⟨m, h1, h2, h3⟩ := ((C25_static_grid_3D_partial hc w hw d).2 hd hfit he).1 g o
    exact ⟨m, by rw [h1]; rfl, .staticFromGrid hw h1, h2, h3⟩
  · obtain ⟨m, h1, h2, h3⟩ := ((C26_dynamic_grid_3D hc d).2 hd hdw).1 g o
    exact ⟨m, h1, .dynamicFromGrid h1, h2, h3⟩

theorem C93_shared_ancestors_2D (hc : c.Supported) :
    (∀ w, SharesAncestor2D c (fun m => Reach2D c .all (.static w m))) ∧
    SharesAncestor2D c (fun m => Reach2D c .all (.dynamic m)) :=
  ⟨fun _ => sharesAncestor_of2 hc (static_wf2 hc) (static_anc2 hc) (static_cmp2 hc),
    sharesAncestor_of2 hc (dynamic_wf2 hc) (dynamic_anc2 hc) (dynamic_cmp2 hc)⟩

theorem C93_shared_ancestors_3D (hc : c.Supported) :
    (∀ w, SharesAncestor3D c (fun m => Reach3D c .all (.static w m))) ∧
    SharesAncestor3D c (fun m => Reach3D c .all (.dynamic m)) :=
  ⟨fun _ => sharesAncestor_of3 hc (static_wf3 hc) (static_anc3 hc) (static_cmp3 hc),
    sharesAncestor_of3 hc (dynamic_wf3 hc) (dynamic_anc3 hc) (dynamic_cmp3 hc)⟩

/-! ## Examples -/

/-- `[Three, One, Two]` is at (6, 5). Two to the right and seven up, over both edges of the grid of side 8, is (0, 4). -/
example : ∃ n v, MortonIndex2D.dynamicFromGridIndex x64 ⟨8#64, 12#64⟩ 3 .XY = .ok n ∧ n.toGridIndex x64 .XY = .ok v ∧
    v.x.toNat = 0 ∧ v.y.toNat = 4 ∧ RustOrd.eq n exD2 = false := by
  obtain ⟨g, n, v, r, h1, h2, -, h4, h5, h6, -, -, h9⟩ :=
    (C93_steps_2D x64_supported).2.2 3 (by decide) exD2 (exD2_reach _) rfl .XY 2#64 7#64
  have e : exD2.toGridIndex x64 .XY = .ok ⟨6#64, 5#64⟩ := by decide +kernel
  rw [e] at h1
  cases h1
  refine ⟨n, v, h2, h4, h5, h6, ?_⟩
  rw [← Bool.not_eq_true, h9]
  decide

/-- One step to the left of the first 3D static index of depth 19 is at the other edge. -/
example : ∃ n v, okOf (MortonIndex3D.staticFromGridIndex x64 64 ⟨-1#64, 0#64, 0#64⟩ 19 .XYZ) = .ok n ∧
    n.toGridIndex x64 .XYZ = .ok v ∧ v.x.toNat = 2 ^ 19 - 1 ∧ v.y.toNat = 0 := by
  have hr : Reach3D x64 .canonical (.static 64 ⟨⟨0#64, 19⟩⟩) :=
    .staticTryFromSlice (cs := List.replicate 19 .Zero) (by decide) (by decide +kernel)
  obtain ⟨g, n, v, r, h1, h2, -, h4, h5, h6, -⟩ :=
    (C93_steps_3D x64_supported).2.1 64 19 (by decide) (by decide) (by decide) (by decide) _ hr rfl .XYZ (-1#64) 0#64 0#64
  have e : (⟨⟨0#64, 19⟩⟩ : MortonIndex3D (StaticStorage3D 64)).toGridIndex x64 .XYZ = .ok ⟨0#64, 0#64, 0#64⟩ := by
    decide +kernel
  rw [e] at h1
  cases h1
  exact ⟨n, v, h2, h4, h5, h6⟩

/-- `[Three, One, Two]` and `[Three, One, Three]` have one parent: (6, 5) and (7, 5) under `XY`. -/
example : ∃ pa pb, ancestor x64 exD2 ⟨1, by decide⟩ = .ok (some pa) ∧
    ancestor x64 (⟨⟨[0xDC#8], 3⟩⟩ : MortonIndex2D DynamicStorage2D) ⟨1, by decide⟩ = .ok (some pb) ∧
    RustOrd.cmp x64 pa pb = .ok .eq := by
  have hr : Reach2D x64 .all (.dynamic ⟨⟨[0xDC#8], 3⟩⟩) :=
    .dynamicTryFromSlice (cs := [.Three, .One, .Three]) (by unfold Addressable; decide) (by rfl)
  obtain ⟨pa, pb, va, vb, h1, h2, h3, h4, h5⟩ :=
    (C93_shared_ancestors_2D x64_supported).2 exD2 _ (exD2_reach _) hr rfl (by decide) ⟨1, by decide⟩ (by decide) .XY
  have e1 : exD2.toGridIndex x64 .XY = .ok ⟨6#64, 5#64⟩ := by decide +kernel
  have e2 : (⟨⟨[0xDC#8], 3⟩⟩ : MortonIndex2D DynamicStorage2D).toGridIndex x64 .XY = .ok ⟨7#64, 5#64⟩ := by decide +kernel
  rw [e1] at h3
  rw [e2] at h4
  cases h3
  cases h4
  exact ⟨pa, pb, h1, h2, h5.mpr (by decide)⟩

end MortonRs
