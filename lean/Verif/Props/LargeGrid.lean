import Verif.Props.LargeContainers2D
import Verif.Props.LargeContainers3D

/-! # C85: static `from_grid_index` over containers with 256 levels or more, and what no size of a container changes

`C85_grid_2D` and `C85_grid_3D` say that a build with overflow checks panics at every depth. Here is what a build without them
returns. `C85_kept_2D` and `C85_kept_3D` collect what holds whatever the size. -/

namespace MortonRs

open BitStorage LawfulContainer MortonIndex VariableDepthMortonIndex

theorem path_zero {S Cell : Type} [LawfulDim Cell] [Storage S Cell] [BitStorage S Cell] {z : Cell} (hz : Dimension.toUsize z = 0) (s : S)
    (h : ∀ i, (value s).testBit i = false) : path s = List.replicate (Storage.depth s) z := by
  apply List.ext_getElem (by simp)
  intro l q1 q2
  rw [path_getElem, List.getElem_replicate]
  apply toUsize_inj
  rw [slot_ofNat, hz]
  apply Nat.eq_of_testBit_eq
  intro j
  rw [testBit_digit, h, Bool.and_false, Nat.zero_testBit]

section
variable {B : Type} [FixedStorageType B] [LawfulContainer B] {c : Cfg}

/-- Without overflow checks the position is lost at every depth the container has: the index is all `Zero`, at the depth cut to its
lowest byte, and so is its conversion to a fixed-depth index. The two bounds say that the loop counters fit a `usize`, the lengths a
`u32`. -/
theorem C85_grid_release_2D (hc : c.Supported) (hf : on B c) (ho : c.overflowChecks = false) (hB : 256 ≤ Bits.BITS B / 2)
    (hl : Bits.BITS B ≤ 2 ^ 32) (hu : Bits.BITS B + 8 < 2 ^ c.ptrBits) (h8 : Bits.BITS B % 8 = 0) (g : Vector2 c.ptrBits)
    (d : Nat) (hd : d ≤ Bits.BITS B / 2) (o : QuadrantOrdering) :
    ∃ m : MortonIndex2D (StaticStorage2DOf B), MortonIndex2D.staticFromGridIndexOf c g d o = .ok (.ok m) ∧ depth m = d % 256 ∧
      Shows c m (List.replicate (d % 256) .Zero) ∧
      Shows c (MortonIndex2D.staticToFixedOf m) (List.replicate (Bits.BITS B / 2) .Zero) := by
  have hfacts : d ≤ c.ptrBits → c.ptrBits ≤ 4 * (Bits.BITS B / 8 - (d + 3) / 4) := by
    rcases hc with h | h | h <;> rw [h] <;> omega
  obtain ⟨x0, x, gx0, gx, zx, -⟩ := shifted_all hc hd (by omega) (by omega) (.inl ho) g.x
  obtain ⟨y0, y, gy0, gy, zy, -⟩ := shifted_all hc hd (by omega) (by omega) (.inl ho) g.y
  obtain ⟨bits, h1, h2⟩ := MortonIndex2D.staticFromGridIndexOf_bits' hc hl hu h8 hf g d hd o gx0 gx gy0 gy
  have hz : ∀ i, (val bits).testBit i = false := by
    intro i
    by_cases hi : i < Bits.BITS B
    · rw [h2 i hi]
      by_cases h : Bits.BITS B / 8 - (d + 3) / 4 ≤ i / 8
      · have z : ∀ v : BitVec c.ptrBits, v = x ∨ v = y → v.getLsbD (i / 2) = false := by
          intro v hv
          by_cases q : d ≤ c.ptrBits
          · exact BitVec.getLsbD_of_ge _ _ (by have := hfacts q; omega)
          · rcases hv with rfl | rfl
            · rw [zx (by omega), BitVec.getLsbD_zero]
            · rw [zy (by omega), BitVec.getLsbD_zero]
        have p1 : (MortonIndex2D.orderBits o x y).1 = x ∨ (MortonIndex2D.orderBits o x y).1 = y := by cases o <;> simp [MortonIndex2D.orderBits]
        have p2 : (MortonIndex2D.orderBits o x y).2 = x ∨ (MortonIndex2D.orderBits o x y).2 = y := by cases o <;> simp [MortonIndex2D.orderBits]
        rw [z _ p1, z _ p2]
        simp
      · rw [decide_eq_false h, Bool.false_and]
    · exact Nat.testBit_lt_two_pow (Nat.lt_of_lt_of_le (val_lt bits) (Nat.pow_le_pow_right (by decide) (by omega)))
  refine ⟨_, h1, rfl, ?_, ?_⟩
  · have := MortonIndex2D.shows_path hc (m := (⟨⟨bits, asU8 d⟩⟩ : MortonIndex2D (StaticStorage2DOf B)))
      ((StaticStorage2DOf.wf_iff hf _).mpr (Nat.le_trans (Nat.mod_le d 256) hd))
    rwa [path_zero (z := .Zero) rfl _ hz] at this
  · have := MortonIndex2D.shows_path hc (m := (⟨⟨bits⟩⟩ : MortonIndex2D (FixedDepthStorage2DOf B))) (FixedDepthStorage2DOf.wf hf _)
    rwa [path_zero (z := .Zero) rfl _ hz] at this

/-- The same for 3D indices. -/
theorem C85_grid_release_3D (hc : c.Supported) (hf : on B c) (ho : c.overflowChecks = false) (hB : 256 ≤ Bits.BITS B / 3)
    (hl : Bits.BITS B ≤ 2 ^ 32) (hu : Bits.BITS B + 32 < 2 ^ c.ptrBits) (g : Vector3 c.ptrBits)
    (d : Nat) (hd : d ≤ Bits.BITS B / 3) (o : OctantOrdering) :
    ∃ m : MortonIndex3D (StaticStorage3DOf B), MortonIndex3D.staticFromGridIndexOf c g d o = .ok (.ok m) ∧ depth m = d % 256 ∧
      Shows c m (List.replicate (d % 256) .Zero) ∧
      Shows c (MortonIndex3D.staticToFixedOf m) (List.replicate (Bits.BITS B / 3) .Zero) := by
  have hW : c.ptrBits ≤ 64 := by rcases hc with h | h | h <;> omega
  have hfacts : d ≤ c.ptrBits → c.ptrBits ≤ 8 * ((Bits.BITS B / 3 + 7) / 8 - (d + 7) / 8) := by
    rcases hc with h | h | h <;> rw [h] <;> omega
  obtain ⟨x0, x, gx0, gx, zx, -⟩ := shifted_all hc hd (by omega) (by omega) (.inl ho) g.x
  obtain ⟨y0, y, gy0, gy, zy, -⟩ := shifted_all hc hd (by omega) (by omega) (.inl ho) g.y
  obtain ⟨z0, z, gz0, gz, zz, -⟩ := shifted_all hc hd (by omega) (by omega) (.inl ho) g.z
  have top : ∀ v : BitVec c.ptrBits, ∀ i, Bits.BITS B / 3 ≤ i → v.getLsbD i = false :=
    fun v i hi => BitVec.getLsbD_of_ge _ _ (by omega)
  obtain ⟨bits, h1, h2⟩ := MortonIndex3D.staticFromGridIndexOf_bits' hc hl hu hf g d hd o gx0 gx gy0 gy gz0 gz (top x) (top y) (top z)
  have hz : ∀ i, (val bits).testBit i = false := by
    intro i
    by_cases hi : i < Bits.BITS B
    · rw [h2 i hi]
      by_cases h : (Bits.BITS B / 3 + 7) / 8 - (d + 7) / 8 ≤ (i - Bits.BITS B % 3) / 24
      · have e : x.getLsbD ((i - Bits.BITS B % 3) / 3) = false ∧ y.getLsbD ((i - Bits.BITS B % 3) / 3) = false ∧
            z.getLsbD ((i - Bits.BITS B % 3) / 3) = false := by
          by_cases q : d ≤ c.ptrBits
          · have hq : c.ptrBits ≤ (i - Bits.BITS B % 3) / 3 := by have := hfacts q; omega
            exact ⟨BitVec.getLsbD_of_ge _ _ hq, BitVec.getLsbD_of_ge _ _ hq, BitVec.getLsbD_of_ge _ _ hq⟩
          · rw [zx (by omega), zy (by omega), zz (by omega)]
            simp
        rw [e.1, e.2.1, e.2.2]
        simp [OctantOrdering.pick]
      · rw [decide_eq_false h]; simp
    · exact Nat.testBit_lt_two_pow (Nat.lt_of_lt_of_le (val_lt bits) (Nat.pow_le_pow_right (by decide) (by omega)))
  refine ⟨_, h1, rfl, ?_, ?_⟩
  · have := MortonIndex3D.shows_path hc (m := (⟨⟨bits, asU8 d⟩⟩ : MortonIndex3D (StaticStorage3DOf B)))
      ((StaticStorage3DOf.wf_iff hf _).mpr (Nat.le_trans (Nat.mod_le d 256) hd))
    rwa [path_zero (z := .Zero) rfl _ hz] at this
  · have := MortonIndex3D.shows_path hc (m := (⟨⟨bits⟩⟩ : MortonIndex3D (FixedDepthStorage3DOf B))) (FixedDepthStorage3DOf.wf hf _)
    rwa [path_zero (z := .Zero) rfl _ hz] at this

/-- What does hold over every container, however large: `default` and `zeroed`, the errors beyond `MAX_LEVELS`, and the conversions of
the indices a static index can be: depth below 256, the depth of a `u8`. Cells written behind that depth, if there are any
(`C85_try_from_2D`), are not copied to a dynamic index. -/
theorem C85_kept_2D (hc : c.Supported) (hf : on B c) :
    Shows c (⟨StaticStorage2DOf.default B⟩ : MortonIndex2D _) [] ∧
    (∀ d, d < 256 → d ≤ Bits.BITS B / 2 → ∃ m, MortonIndex2D.staticZeroedOf B d = some m ∧ Shows c m (List.replicate d .Zero)) ∧
    (∀ d, d > Bits.BITS B / 2 → MortonIndex2D.staticZeroedOf B d = none) ∧
    (∀ cs : List Quadrant, cs.length > Bits.BITS B / 2 →
      (MortonIndex2D.tryFromSlice c cs : Res (Except Error (MortonIndex2D (StaticStorage2DOf B)))) =
        .ok (.error (.DepthLimitedExceeded (Bits.BITS B / 2))) ∧
      (MortonIndex2D.tryFromArray c cs : Res (Except Error (MortonIndex2D (StaticStorage2DOf B)))) =
        .ok (.error (.DepthLimitedExceeded (Bits.BITS B / 2)))) ∧
    (∀ m, depth m > Bits.BITS B / 2 →
      MortonIndex2D.dynamicToStaticOf c B m = .ok (.error (.DepthLimitedExceeded (Bits.BITS B / 2)))) ∧
    (DynWrites c → ∀ m : MortonIndex2D (StaticStorage2DOf B), m.storage.depth ≤ Bits.BITS B / 2 → m.storage.depth < 256 →
      ∀ cs, Shows c m cs → ∃ n m', MortonIndex2D.staticToDynamicOf c m = .ok n ∧ Reach2D c .canonical (.dynamic n) ∧ Shows c n cs ∧
        MortonIndex2D.dynamicToStaticOf c B n = .ok (.ok m') ∧ Shows c m' cs ∧ (m.storage.Ok → RustOrd.eq m' m = true)) ∧
    (∀ m : MortonIndex2D (StaticStorage2DOf B), m.storage.Ok → ∀ cs, Shows c m cs →
      Shows c (MortonIndex2D.staticToFixedOf m) (cs ++ List.replicate (Bits.BITS B / 2 - cs.length) .Zero)) := by
  have hz : ∀ d, d ≤ Bits.BITS B / 2 →
      Shows c (⟨⟨FixedStorageType.default, d⟩⟩ : MortonIndex2D (StaticStorage2DOf B)) (List.replicate d .Zero) := by
    intro d hd
    have hwf := (StaticStorage2DOf.wf_iff hf (⟨FixedStorageType.default, d⟩ : StaticStorage2DOf B)).mpr hd
    have := MortonIndex2D.shows_path hc
      (m := (⟨⟨FixedStorageType.default, d⟩⟩ : MortonIndex2D (StaticStorage2DOf B))) hwf
    rwa [StaticStorage2DOf.zero_path d hd] at this
  have hdet : ∀ {m : MortonIndex2D (StaticStorage2DOf B)} {cs}, WF c m.storage → Shows c m cs → cs = path m.storage :=
    fun hwf h => shows_unique h (MortonIndex2D.shows_path hc hwf)
  refine ⟨hz 0 (Nat.zero_le _), fun d _ hd => ⟨_, if_neg (Nat.not_lt.mpr hd), hz d hd⟩, fun d hd => if_pos hd, fun cs h => ?_,
    fun m hd => MortonIndex2D.dynamicToStaticOf_error hd, fun hdw m hd hlt cs hs => ?_, fun m hm cs hs => ?_⟩
  · obtain ⟨h1, h2⟩ := StaticStorage2DOf.tryFrom_error (B := B) (c := c) cs h
    constructor
    · simp only [MortonIndex2D.tryFromSlice, TryFromCells.tryFromSlice, h1, ok_bind, pure_eq_ok, Except.map]; rfl
    · simp only [MortonIndex2D.tryFromArray, TryFromCells.tryFromArray, h2, ok_bind, pure_eq_ok, Except.map]; rfl
  · have h1 := (StaticStorage2DOf.wf_iff hf m.storage).mpr hd
    obtain ⟨n, g1, g2, g3, g4⟩ := MortonIndex2D.staticToDynamicOf_ok' hc h1 hlt
    obtain ⟨bits, k1, k2, k3⟩ := MortonIndex2D.dynamicToStaticOf_wrap (B := B) hc hf g2.inv.wf (by rw [g3]; exact hd)
    rw [g3, Nat.mod_eq_of_lt hlt] at k1
    rw [g3] at k2 k3
    have hwf := (StaticStorage2DOf.wf_iff hf (⟨bits, m.storage.depth⟩ : StaticStorage2DOf B)).mpr hd
    have hsh := MortonIndex2D.shows_path hc (m := (⟨⟨bits, m.storage.depth⟩⟩ : MortonIndex2D (StaticStorage2DOf B))) hwf
    rw [k3, g4 hdw] at hsh
    rw [hdet h1 hs]
    refine ⟨n, _, g1, reach_of_canon2 hc hdw g2, g4 hdw ▸ MortonIndex2D.shows_path hc g2.inv.wf, k1, hsh, fun hm => ?_⟩
    exact (StaticStorage2DOf.eq_iff hwf k2 ((staticOf_ok2 hf _).mp hm).2).mpr (k3.trans (g4 hdw))
  · obtain ⟨h1, h2⟩ := (staticOf_ok2 hf _).mp hm
    obtain ⟨-, h4⟩ := (MortonIndex2D.staticToFixedOf_ok hf h1).2 h2
    have h5 := MortonIndex2D.shows_path hc (m := MortonIndex2D.staticToFixedOf m) (FixedDepthStorage2DOf.wf hf _)
    rw [h4] at h5
    rw [hdet h1 hs, path_length]
    exact h5

/-- What does hold over every container, however large: `default` and `zeroed`, the errors beyond `MAX_LEVELS`, and the conversions of
the indices a static index can be: depth below 256, the depth of a `u8`. Cells written behind that depth, if there are any
(`C85_try_from_3D`), are not copied to a dynamic index. -/
theorem C85_kept_3D (hc : c.Supported) (hf : on B c) :
    Shows c (⟨StaticStorage3DOf.default B⟩ : MortonIndex3D _) [] ∧
    (∀ d, d < 256 → d ≤ Bits.BITS B / 3 → ∃ m, MortonIndex3D.staticZeroedOf B d = some m ∧ Shows c m (List.replicate d .Zero)) ∧
    (∀ d, d > Bits.BITS B / 3 → MortonIndex3D.staticZeroedOf B d = none) ∧
    (∀ cs : List Octant, cs.length > Bits.BITS B / 3 →
      (MortonIndex3D.tryFromSlice c cs : Res (Except Error (MortonIndex3D (StaticStorage3DOf B)))) =
        .ok (.error (.DepthLimitedExceeded (Bits.BITS B / 3))) ∧
      (MortonIndex3D.tryFromArray c cs : Res (Except Error (MortonIndex3D (StaticStorage3DOf B)))) =
        .ok (.error (.DepthLimitedExceeded (Bits.BITS B / 3)))) ∧
    (∀ m, depth m > Bits.BITS B / 3 →
      MortonIndex3D.dynamicToStaticOf c B m = .ok (.error (.DepthLimitedExceeded (Bits.BITS B / 3)))) ∧
    (DynWrites c → ∀ m : MortonIndex3D (StaticStorage3DOf B), m.storage.depth ≤ Bits.BITS B / 3 → m.storage.depth < 256 →
      ∀ cs, Shows c m cs → ∃ n m', MortonIndex3D.staticToDynamicOf c m = .ok n ∧ Reach3D c .canonical (.dynamic n) ∧ Shows c n cs ∧
        MortonIndex3D.dynamicToStaticOf c B n = .ok (.ok m') ∧ Shows c m' cs ∧ (m.storage.Ok → RustOrd.eq m' m = true)) ∧
    (∀ m : MortonIndex3D (StaticStorage3DOf B), m.storage.Ok → ∀ cs, Shows c m cs →
      Shows c (MortonIndex3D.staticToFixedOf m) (cs ++ List.replicate (Bits.BITS B / 3 - cs.length) .Zero)) := by
  have hz : ∀ d, d ≤ Bits.BITS B / 3 →
      Shows c (⟨⟨FixedStorageType.default, d⟩⟩ : MortonIndex3D (StaticStorage3DOf B)) (List.replicate d .Zero) := by
    intro d hd
    have hwf := (StaticStorage3DOf.wf_iff hf (⟨FixedStorageType.default, d⟩ : StaticStorage3DOf B)).mpr hd
    have := MortonIndex3D.shows_path hc
      (m := (⟨⟨FixedStorageType.default, d⟩⟩ : MortonIndex3D (StaticStorage3DOf B))) hwf
    rwa [StaticStorage3DOf.zero_path d hd] at this
  have hdet : ∀ {m : MortonIndex3D (StaticStorage3DOf B)} {cs}, WF c m.storage → Shows c m cs → cs = path m.storage :=
    fun hwf h => shows_unique h (MortonIndex3D.shows_path hc hwf)
  refine ⟨hz 0 (Nat.zero_le _), fun d _ hd => ⟨_, if_neg (Nat.not_lt.mpr hd), hz d hd⟩, fun d hd => if_pos hd, fun cs h => ?_,
    fun m hd => MortonIndex3D.dynamicToStaticOf_error hd, fun hdw m hd hlt cs hs => ?_, fun m hm cs hs => ?_⟩
  · obtain ⟨h1, h2⟩ := StaticStorage3DOf.tryFrom_error (B := B) (c := c) cs h
    constructor
    · simp only [MortonIndex3D.tryFromSlice, TryFromCells.tryFromSlice, h1, ok_bind, pure_eq_ok, Except.map]; rfl
    · simp only [MortonIndex3D.tryFromArray, TryFromCells.tryFromArray, h2, ok_bind, pure_eq_ok, Except.map]; rfl
  · have h1 := (StaticStorage3DOf.wf_iff hf m.storage).mpr hd
    obtain ⟨n, g1, g2, g3, g4⟩ := MortonIndex3D.staticToDynamicOf_ok' hc h1 hlt
    obtain ⟨bits, k1, k2, k3⟩ := MortonIndex3D.dynamicToStaticOf_wrap (B := B) hc hf g2.inv.wf (by rw [g3]; exact hd)
    rw [g3, Nat.mod_eq_of_lt hlt] at k1
    rw [g3] at k2 k3
    have hwf := (StaticStorage3DOf.wf_iff hf (⟨bits, m.storage.depth⟩ : StaticStorage3DOf B)).mpr hd
    have hsh := MortonIndex3D.shows_path hc (m := (⟨⟨bits, m.storage.depth⟩⟩ : MortonIndex3D (StaticStorage3DOf B))) hwf
    rw [k3, g4 hdw] at hsh
    rw [hdet h1 hs]
    refine ⟨n, _, g1, reach_of_canon3 hc hdw g2, g4 hdw ▸ MortonIndex3D.shows_path hc g2.inv.wf, k1, hsh, fun hm => ?_⟩
    exact (StaticStorage3DOf.eq_iff hwf k2 ((staticOf_ok3 hf _).mp hm).2).mpr (k3.trans (g4 hdw))
  · obtain ⟨h1, h2⟩ := (staticOf_ok3 hf _).mp hm
    obtain ⟨-, h4⟩ := (MortonIndex3D.staticToFixedOf_ok hf h1).2 h2
    have h5 := MortonIndex3D.shows_path hc (m := MortonIndex3D.staticToFixedOf m) (FixedDepthStorage3DOf.wf hf _)
    rw [h4] at h5
    rw [hdet h1 hs, path_length]
    exact h5

end

/-- 64 bytes hold 256 levels: depth 256 comes out as the root, depth 40 as forty `Zero` cells. -/
example : ∃ m : MortonIndex2D (StaticStorage2DOf (Bytes 64)),
    MortonIndex2D.staticFromGridIndexOf x32r ⟨5#32, 6#32⟩ 256 .XY = .ok (.ok m) ∧ depth m = 0 ∧ Shows x32r m [] ∧
      Shows x32r (MortonIndex2D.staticToFixedOf m) (List.replicate 256 .Zero) :=
  C85_grid_release_2D x32r_supported (show 8 * 64 + 64 < 2 ^ 32 by decide) rfl (by decide) (by decide) (by decide) (by decide) _ 256
    (by decide) _

example : ∃ m : MortonIndex3D (StaticStorage3DOf (Bytes 100)),
    MortonIndex3D.staticFromGridIndexOf x32r ⟨5#32, 6#32, 7#32⟩ 40 .YXZ = .ok (.ok m) ∧ depth m = 40 ∧
      Shows x32r m (List.replicate 40 .Zero) ∧ Shows x32r (MortonIndex3D.staticToFixedOf m) (List.replicate 266 .Zero) :=
  C85_grid_release_3D x32r_supported (show 8 * 100 + 64 < 2 ^ 32 by decide) rfl (by decide) (by decide) (by decide) _ 40
    (by decide) _

/-- 300 cells are too many for 64 bytes; an index of four cells comes back. -/
example : (MortonIndex2D.tryFromSlice x64 (List.replicate 300 .One) : Res (Except Error (MortonIndex2D (StaticStorage2DOf (Bytes 64))))) =
    .ok (.error (.DepthLimitedExceeded 256)) :=
  ((C85_kept_2D (B := Bytes 64) x64_supported (x64_bytes 64 (by decide))).2.2.2.1 _ (by rw [List.length_replicate]; decide)).1

example : ∃ m n m' : MortonIndex3D (StaticStorage3DOf (Bytes 96)), ∃ k, MortonIndex3D.staticZeroedOf (Bytes 96) 4 = some n ∧
    VariableDepthMortonIndex.child x64 n .Six = .ok (some m) ∧ MortonIndex3D.staticToDynamicOf x64 m = .ok k ∧
    Shows x64 k [.Zero, .Zero, .Zero, .Zero, .Six] ∧
    MortonIndex3D.dynamicToStaticOf x64 (Bytes 96) k = .ok (.ok m') ∧ Shows x64 m' [.Zero, .Zero, .Zero, .Zero, .Six] := by
  have hk := C85_kept_3D (B := Bytes 96) x64_supported (x64_bytes 96 (by decide))
  obtain ⟨n, h1, h2⟩ := hk.2.1 4 (by decide) (by decide)
  have hd : n.storage.depth = 4 := by cases h1; rfl
  obtain ⟨m, g1, g2, g3⟩ := C85_descendant_3D (B := Bytes 96) x64_supported (x64_bytes 96 (by decide)) n _ [.Six] (by rw [hd]; decide) h2 (by decide)
  have hm : m.storage.depth = 5 := g2
  obtain ⟨k, m', e1, -, e2, e3, e4, -⟩ := hk.2.2.2.2.2.1 x64_writes m (by rw [hm]; decide) (by rw [hm]; decide) _ g3
  exact ⟨m, n, m', k, h1, g1, e1, e2, e3, e4⟩

end MortonRs
