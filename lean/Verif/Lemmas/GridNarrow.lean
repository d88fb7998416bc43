import Verif.Lemmas.Grid2D
import Verif.Lemmas.Grid3D

/-! # Static `from_grid_index` when `MAX_LEVELS` exceeds the pointer width -/

namespace MortonRs

open BitStorage

variable {c : Cfg} {w : Nat}

theorem Cfg.Supported.pow_le (hc : c.Supported) : 2 ^ 16 ≤ 2 ^ c.ptrBits :=
  Nat.pow_le_pow_right (by decide) (by rcases hc with h | h | h <;> omega)

/-- Both operations on a coordinate fail with overflow checks when the depth or the shift exceeds `usize`. -/
theorem shifted_overflow (ho : c.overflowChecks = true) {gd M : Nat} (h : c.ptrBits < gd ∨ c.ptrBits ≤ M - gd)
    (x : BitVec c.ptrBits) :
    intGetBits c x ⟨0, gd⟩ = .error .overflow ∨
      ∃ y, intGetBits c x ⟨0, gd⟩ = .ok y ∧ shl c y (M - gd) = .error .overflow := by
  by_cases h1 : c.ptrBits < gd
  · left
    have : ¬ gd ≤ c.ptrBits := by omega
    simp [intGetBits, Range.len, usub, this, ho]
  · right
    have h2 : ¬ M - gd < c.ptrBits := by omega
    have h3 : gd ≤ c.ptrBits := by omega
    refine ⟨_, by simp only [intGetBits, Range.len, Nat.sub_zero, usub_ok h3, ok_bind, pure_eq_ok]; rfl, ?_⟩
    simp [shl, h2, ho]

/-- Without overflow checks, or when both fit, the shifted coordinate exists; a depth beyond `usize` reads no bits. -/
theorem shifted_all (hc : c.Supported) {gd M : Nat} (hgd : gd ≤ M) (hM : M < 2 ^ 32) (hMp : M < 2 ^ c.ptrBits)
    (hs : c.overflowChecks = false ∨ (gd ≤ c.ptrBits ∧ M - gd < c.ptrBits)) (x : BitVec c.ptrBits) :
    ∃ y z, intGetBits c x ⟨0, gd⟩ = .ok y ∧ shl c y (M - gd) = .ok z ∧ (c.ptrBits < gd → z = 0#c.ptrBits) ∧
      (gd ≤ c.ptrBits → M - gd < c.ptrBits → ∀ i, z.getLsbD i =
        (decide (M - gd ≤ i) && (decide (i < M) && (decide (i < c.ptrBits) && x.getLsbD (i - (M - gd)))))) := by
  have hWl := hc.intWidth.le
  have hp := hc.le
  by_cases h1 : gd ≤ c.ptrBits
  · obtain ⟨y, g, e⟩ := intGetBits_ok (c := c) x 0 gd (by omega) (by omega) (Nat.two_pow_pos _) (by omega)
    by_cases h2 : M - gd < c.ptrBits
    · refine ⟨y, _, g, shl_ok h2, fun h => absurd h (by omega), fun _ _ i => ?_⟩
      rw [BitVec.getLsbD_shiftLeft, e]
      by_cases q1 : M - gd ≤ i
      · have q2 : ¬ i < M - gd := by omega
        have q3 : decide (i - (M - gd) < gd - 0) = decide (i < M) := by rw [decide_eq_decide]; omega
        rw [q3]
        simp only [q1, q2, decide_true, decide_false, Bool.true_and, Bool.not_false, Bool.and_true, Nat.zero_add]
        rw [← Bool.and_assoc, ← Bool.and_assoc, Bool.and_comm (decide (i < c.ptrBits))]
      · have q2 : i < M - gd := by omega
        simp [q1, q2]
    · have ho : c.overflowChecks = false := by
        rcases hs with h | h
        · exact h
        · exact absurd h.2 h2
      exact ⟨y, _, g, by simp only [shl, if_neg h2, ho]; rfl, fun h => absurd h (by omega), fun _ h => absurd h h2⟩
  · have ho : c.overflowChecks = false := by
      rcases hs with h | h
      · exact h
      · exact absurd h.1 h1
    have hz : intGetBits c x ⟨0, gd⟩ = .ok 0#c.ptrBits := by
      have e : usub c c.ptrBits gd = .ok (2 ^ c.ptrBits + c.ptrBits - gd) := by
        rw [usub, if_neg h1, ho]
        simp only [Bool.false_eq_true, if_false]
        rw [Nat.mod_eq_of_lt (by omega)]
      have e2 : ¬ (2 ^ c.ptrBits + c.ptrBits - gd) % 2 ^ 32 < c.ptrBits := by
        rcases hc with h | h | h <;> rw [h] at h1 hMp ⊢ <;> omega
      simp only [intGetBits, Range.len, Nat.sub_zero, e, ok_bind, pure_eq_ok, checkedShr, if_neg e2, Option.getD_none,
        BitVec.and_zero]
    refine ⟨0#c.ptrBits, 0#c.ptrBits, hz, ?_, fun _ => rfl, fun h => absurd h h1⟩
    unfold shl
    rw [ho]
    split <;> simp

namespace MortonIndex2D

/-- 2D, `MAX_LEVELS` beyond the pointer width: an overflow panic with overflow checks, always the all-`Zero` index
without. -/
theorem staticFromGridIndex_narrow (hc : c.Supported) (hw : IntWidth w) (hn : c.ptrBits < w / 2)
    (g : Vector2 c.ptrBits) {gd : Nat} (hgd : gd ≤ w / 2) (o : QuadrantOrdering) :
    (c.overflowChecks = true → staticFromGridIndex c w g gd o = .error .overflow) ∧
    (c.overflowChecks = false → staticFromGridIndex c w g gd o = .ok (.ok ⟨⟨0#w, gd⟩⟩)) := by
  have h2 : 2 * c.ptrBits ≤ w / 2 ∧ w % 8 = 0 ∧ c.ptrBits % 4 = 0 := by
    rcases hc with h | h | h <;> rcases hw with h' | h' | h' | h' | h' <;> omega
  have hM : FixedDepthStorage.MAX_LEVELS w Quadrant = w / 2 := rfl
  have hnot : ¬ gd > w / 2 := by omega
  have hwl := hw.le
  constructor
  · intro ho
    unfold staticFromGridIndex
    simp only [hM, hnot, if_false, usub_ok hgd, ok_bind]
    rcases shifted_overflow ho (gd := gd) (M := w / 2) (by omega) g.x with h | ⟨y, h, h'⟩
    · rw [h]; rfl
    · rw [h]; simp only [ok_bind]; rw [h']; rfl
  · intro ho
    obtain ⟨x0, x, gx0, gx, zx, -⟩ := shifted_all hc hgd (by omega) (Nat.lt_of_lt_of_le (by omega) hc.pow_le) (.inl ho) g.x
    obtain ⟨y0, y, gy0, gy, zy, -⟩ := shifted_all hc hgd (by omega) (Nat.lt_of_lt_of_le (by omega) hc.pow_le) (.inl ho) g.y
    obtain ⟨bits, h1, h3⟩ := staticFromGridIndex_bits hc hw g gd hgd o gx0 gx gy0 gy
    have : bits = 0#w := by
      apply BitVec.eq_of_getLsbD_eq
      intro i hi
      rw [h3 i hi, BitVec.getLsbD_zero]
      by_cases h : w / 8 - (gd + 3) / 4 ≤ i / 8
      · have z : ∀ v : BitVec c.ptrBits, v = x ∨ v = y → v.getLsbD (i / 2) = false := by
          by_cases hg : c.ptrBits < gd
          · rw [zx hg, zy hg]
            rintro v (rfl | rfl) <;> exact BitVec.getLsbD_zero
          · exact fun v _ => BitVec.getLsbD_of_ge _ _ (by omega)
        have p1 : (orderBits o x y).1 = x ∨ (orderBits o x y).1 = y := by cases o <;> simp [orderBits]
        have p2 : (orderBits o x y).2 = x ∨ (orderBits o x y).2 = y := by cases o <;> simp [orderBits]
        rw [z _ p1, z _ p2]
        simp
      · rw [decide_eq_false h, Bool.false_and]
    rw [h1, this]

/-- A static index built from a grid index has no stray bits. -/
theorem staticFromGridIndex_tail (hc : c.Supported) (hw : IntWidth w)
    {g : Vector2 c.ptrBits} {gd : Nat} {o : QuadrantOrdering} {m : MortonIndex2D (StaticStorage2D w)}
    (h : staticFromGridIndex c w g gd o = .ok (.ok m)) : TailZero m.storage := by
  have hd := (staticFromGridIndex_depth hw h).2
  by_cases hfit : w / 2 ≤ c.ptrBits
  · by_cases hs : w / dim Quadrant - gd < c.ptrBits ∨ c.overflowChecks = false
    · obtain ⟨_, h1, -, h3, -⟩ := staticFromGridIndex_ok hc hw hfit g gd hd hs o
      rw [h] at h1; cases h1
      exact h3
    · exfalso
      have h1 : ¬ w / 2 - gd < c.ptrBits := fun h => hs (.inl h)
      have h2 : c.overflowChecks = true := by
        cases e : c.overflowChecks
        · exact absurd (.inr e) hs
        · rfl
      have hg0 : ¬ gd > w / 2 := by rw [dim_Quadrant] at hd; omega
      have hM : FixedDepthStorage.MAX_LEVELS w Quadrant = w / 2 := rfl
      unfold staticFromGridIndex at h
      simp only [hM, hg0, if_false, usub_ok (Nat.le_of_not_gt hg0), ok_bind] at h
      rcases shifted_overflow h2 (gd := gd) (M := w / 2) (by omega) g.x with e | ⟨y, e, e'⟩
      · rw [e] at h; simp at h
      · rw [e] at h; simp only [ok_bind] at h; rw [e'] at h; simp at h
  · obtain ⟨n1, n2⟩ := staticFromGridIndex_narrow hc hw (by omega) g hd o
    cases e : c.overflowChecks
    · rw [n2 e] at h
      cases h
      exact fun i _ => StaticStorage2D.default_bits i gd
    · rw [n1 e] at h; simp at h

end MortonIndex2D

namespace MortonIndex3D

/-- The levels 3D static `from_grid_index` gets right on any target: those the loop visits (`staticVisited`) whose bit
survives the shift in a `usize`. -/
def staticKept (c : Cfg) (w gd l : Nat) : Prop :=
  (gd ≤ c.ptrBits ∧ w / 3 - gd < c.ptrBits) ∧ staticVisited w gd l ∧ w / 3 - 1 - l < c.ptrBits

instance (c : Cfg) (w gd l : Nat) : Decidable (staticKept c w gd l) := by unfold staticKept; infer_instance

theorem staticFromGridIndex_overflow (ho : c.overflowChecks = true) (g : Vector3 c.ptrBits) {gd : Nat}
    (hgd : gd ≤ w / 3) (h : c.ptrBits < gd ∨ c.ptrBits ≤ w / 3 - gd) (o : OctantOrdering) :
    staticFromGridIndex c w g gd o = .error .overflow := by
  have hM : FixedDepthStorage.MAX_LEVELS w Octant = w / 3 := rfl
  have hnot : ¬ gd > w / 3 := by omega
  unfold staticFromGridIndex
  simp only [hM, hnot, if_false, usub_ok hgd, ok_bind]
  rcases shifted_overflow ho h g.x with h | ⟨y, h, h'⟩
  · rw [h]; rfl
  · rw [h]; simp only [ok_bind]; rw [h']; rfl

/-- Static: exactly which cells come out, on any target. -/
theorem staticFromGridIndex_all (hc : c.Supported) (hw : IntWidth w) (g : Vector3 c.ptrBits) {gd : Nat} (hgd : gd ≤ w / 3)
    (hs : c.overflowChecks = false ∨ (gd ≤ c.ptrBits ∧ w / 3 - gd < c.ptrBits)) (o : OctantOrdering) :
    ∃ m, staticFromGridIndex c w g gd o = .ok (.ok m) ∧ m.storage.depth = gd ∧ TailZero m.storage ∧
      ∀ l, l < gd → if staticKept c w gd l then GridCell3 o g (gd - 1 - l) (slot m.storage l)
        else slot m.storage l = .Zero := by
  have hwl := hw.le
  have hWp : 16 ≤ c.ptrBits := by rcases hc with h | h | h <;> omega
  have hfacts : gd ≤ c.ptrBits → c.ptrBits ≤ w / 3 - gd → gd = 0 ∨
      c.ptrBits ≤ 8 * ((w / 3 + 7) / 8 - (gd + 7) / 8) := by
    rcases hc with h | h | h <;> rcases hw with h' | h' | h' | h' | h' <;> rw [h, h'] <;> omega
  obtain ⟨x0, x, gx0, gx, zx, ex⟩ := shifted_all hc hgd (by omega) (Nat.lt_of_lt_of_le (by omega) hc.pow_le) hs g.x
  obtain ⟨y0, y, gy0, gy, zy, ey⟩ := shifted_all hc hgd (by omega) (Nat.lt_of_lt_of_le (by omega) hc.pow_le) hs g.y
  obtain ⟨z0, z, gz0, gz, zz, ez⟩ := shifted_all hc hgd (by omega) (Nat.lt_of_lt_of_le (by omega) hc.pow_le) hs g.z
  obtain ⟨bits, h1, h2⟩ := staticFromGridIndex_bits hc hw g gd hgd o gx0 gx gy0 gy gz0 gz
  have pf : ∀ r, o.pick r false false false = false := by intro r; simp [OctantOrdering.pick]
  -- nothing is read unless the coordinates survive
  have zero : ∀ i, 8 * ((w / 3 + 7) / 8 - (gd + 7) / 8) ≤ i → i < w / 3 →
      ¬ ((gd ≤ c.ptrBits ∧ w / 3 - gd < c.ptrBits) ∧ w / 3 - gd ≤ i ∧ i < c.ptrBits) →
      ∀ r, o.pick r (x.getLsbD i) (y.getLsbD i) (z.getLsbD i) = false := by
    intro i hi hi2 hn r
    by_cases q1 : gd ≤ c.ptrBits
    · by_cases q2 : w / 3 - gd < c.ptrBits
      · rw [ex q1 q2, ey q1 q2, ez q1 q2]
        by_cases q3 : w / 3 - gd ≤ i
        · rw [decide_eq_false (p := i < c.ptrBits) (by omega)]; simp [pf]
        · rw [decide_eq_false q3]; simp [pf]
      · have : c.ptrBits ≤ i := by
          rcases hfacts q1 (by omega) with h | h
          · subst h; omega
          · omega
        rw [BitVec.getLsbD_of_ge _ _ this, BitVec.getLsbD_of_ge _ _ this, BitVec.getLsbD_of_ge _ _ this, pf]
    · rw [zx (by omega), zy (by omega), zz (by omega), BitVec.getLsbD_zero, pf]
  refine ⟨⟨⟨bits, gd⟩⟩, h1, rfl, ?_, ?_⟩
  · intro i hi
    change i < w - gd * 3 at hi
    change bits.getLsbD i = false
    rw [h2 i (by omega)]
    by_cases h0 : w % 3 ≤ i
    · by_cases hv : (w / 3 + 7) / 8 - (gd + 7) / 8 ≤ (i - w % 3) / 24
      · rw [zero _ (by omega) (by omega) (by omega), Bool.and_false]
      · rw [decide_eq_false hv]; simp
    · rw [decide_eq_false h0]; simp
  · intro l hl
    have key : ∀ r, r < 3 → bits.toNat.testBit (w - (l + 1) * 3 + r) =
        (decide (staticVisited w gd l) && o.pick r (x.getLsbD (w / 3 - 1 - l)) (y.getLsbD (w / 3 - 1 - l))
          (z.getLsbD (w / 3 - 1 - l))) := by
      intro r hr
      rw [← getLsbD_eq_testBit, level_pos (by omega), h2 _ (by omega), decide_eq_true (by omega), Bool.true_and]
      have e1 : (w % 3 + 3 * (w / 3 - 1 - l) + r - w % 3) % 3 = r := by omega
      have e2 : (w % 3 + 3 * (w / 3 - 1 - l) + r - w % 3) / 3 = w / 3 - 1 - l := by omega
      rw [e1, e2]
      congr 1
      rw [decide_eq_decide]
      unfold staticVisited
      omega
    by_cases hk : staticKept c w gd l
    · obtain ⟨⟨q1, q2⟩, hv, hp⟩ := hk
      rw [if_pos ⟨⟨q1, q2⟩, hv, hp⟩]
      apply gridCell3_of_bits (by omega)
      intro r hr
      change bits.toNat.testBit (w - (l + 1) * 3 + r) = _
      rw [key r hr, decide_eq_true hv, Bool.true_and, ex q1 q2, ey q1 q2, ez q1 q2,
        decide_eq_true (p := w / 3 - gd ≤ w / 3 - 1 - l) (by omega),
        decide_eq_true (p := w / 3 - 1 - l < w / 3) (by omega), decide_eq_true hp,
        show w / 3 - 1 - l - (w / 3 - gd) = gd - 1 - l by omega]
      simp only [Bool.true_and]
    · rw [if_neg hk]
      apply toUsize_inj
      rw [slot_ofNat]
      apply Nat.eq_of_testBit_eq
      intro j
      rw [testBit_digit, dim_Octant]
      change (decide (j < 3) && bits.toNat.testBit (w - (l + 1) * 3 + j)) = (0 : Nat).testBit j
      rw [Nat.zero_testBit]
      by_cases hj : j < 3
      · rw [key j hj]
        by_cases hv : staticVisited w gd l
        · rw [zero _ hv (by omega) (fun h => hk ⟨h.1, hv, h.2.2⟩), Bool.and_false, Bool.and_false]
        · rw [decide_eq_false hv]; simp
      · simp [hj]

/-- A static index built from a grid index has no stray bits. -/
theorem staticFromGridIndex_tail (hc : c.Supported) (hw : IntWidth w)
    {g : Vector3 c.ptrBits} {gd : Nat} {o : OctantOrdering} {m : MortonIndex3D (StaticStorage3D w)}
    (h : staticFromGridIndex c w g gd o = .ok (.ok m)) : TailZero m.storage := by
  have hd := (staticFromGridIndex_depth hw h).2
  by_cases hs : c.overflowChecks = false ∨ (gd ≤ c.ptrBits ∧ w / 3 - gd < c.ptrBits)
  · obtain ⟨_, h1, -, h3, -⟩ := staticFromGridIndex_all hc hw g hd hs o
    rw [h] at h1; cases h1
    exact h3
  · have h2 : c.overflowChecks = true := by
      cases e : c.overflowChecks
      · exact absurd (.inl e) hs
      · rfl
    rw [staticFromGridIndex_overflow h2 g hd (by
      have : ¬ (gd ≤ c.ptrBits ∧ w / 3 - gd < c.ptrBits) := fun h => hs (.inr h)
      omega)] at h
    simp at h

/-- 3D fixed-depth `from_grid_index` on 16-bit targets. -/
theorem fixedFromGridIndex_16 (hc : c.ptrBits = 16) (w : Nat) (hw : IntWidth w) (g : Vector3 c.ptrBits) (o : OctantOrdering) :
    (w ≤ 32 → c.overflowChecks = true → fixedFromGridIndex c w g o = .error .overflow) ∧
    (w ≤ 32 → c.overflowChecks = false → fixedFromGridIndex c w g o = .ok ⟨FixedDepthStorage3D.default w⟩) ∧
    (32 < w → fixedFromGridIndex c w g o = .error .compileError) := by
  obtain ⟨W, oc, be⟩ := c
  cases hc
  refine ⟨fun hle h => ?_, fun hle h => ?_, fun h => ?_⟩
  · cases h
    have : w = 8 ∨ w = 16 ∨ w = 32 := by unfold IntWidth at hw; omega
    rcases this with rfl | rfl | rfl <;> cases o <;> rfl
  · cases h
    have hz : ∀ x : BitVec 16, intGetBits ⟨16, false, be⟩ x ⟨0, 21⟩ = .ok 0#16 := fun x => by
      simp [intGetBits, usub, checkedShr, Range.len]
    have hw3 : w = 8 ∨ w = 16 ∨ w = 32 := by unfold IntWidth at hw; omega
    have hb : ∃ bm, MortonIndex3D.maxLevelsBitmask ⟨16, false, be⟩ w = .ok bm := by
      rcases hw3 with rfl | rfl | rfl <;> exact ⟨_, rfl⟩
    obtain ⟨bm, hb⟩ := hb
    obtain ⟨gx, hgx⟩ : ∃ gx, gx = g.x &&& bm := ⟨_, rfl⟩
    obtain ⟨gy, hgy⟩ : ∃ gy, gy = g.y &&& bm := ⟨_, rfl⟩
    obtain ⟨gz, hgz⟩ : ∃ gz, gz = g.z &&& bm := ⟨_, rfl⟩
    unfold MortonIndex3D.fixedFromGridIndex
    rw [hb]
    simp only [ok_bind, ← hgx, ← hgy, ← hgz]
    have hl : ∀ n, n = w / 3 → (n + 20) / 21 = 1 ∧ ¬ n > 16 := by
      rcases hw3 with rfl | rfl | rfl <;> rintro n rfl <;> decide
    have hdep : FixedDepthStorage.MAX_LEVELS w Octant = w / 3 := rfl
    rw [hdep]
    obtain ⟨h1, h2⟩ := hl _ rfl
    rw [if_neg h2, uadd_ok (by change w / 3 + 20 < 2 ^ 16; omega)]
    simp only [ok_bind, h1, forRange, List.range'_one, List.foldlM_cons, List.foldlM_nil, Nat.sub_zero]
    have e0 : umul ⟨16, false, be⟩ 0 21 = .ok 0 := rfl
    have e1 : uadd ⟨16, false, be⟩ 0 21 = .ok 21 := rfl
    simp only [e0, e1, ok_bind, hz]
    rcases hw3 with rfl | rfl | rfl <;> cases o <;> rfl
  · have : w = 64 ∨ w = 128 := by unfold IntWidth at hw; omega
    rcases this with rfl | rfl <;> rfl

/-- A fixed-depth index built from a grid index has no stray bits. -/
theorem fixedFromGridIndex_tail (hc : c.Supported) (hw : IntWidth w)
    {g : Vector3 c.ptrBits} {o : OctantOrdering} {m : MortonIndex3D (FixedDepthStorage3D w)}
    (h : fixedFromGridIndex c w g o = .ok m) : TailZero m.storage := by
  by_cases h32 : 32 ≤ c.ptrBits
  · by_cases hl : w / dim Octant < c.ptrBits
    · obtain ⟨_, h1, h2, -⟩ := fixedFromGridIndex_ok hc hw (by omega) hl g o
      rw [h] at h1; cases h1
      exact h2
    · rw [fixedFromGridIndex_error (by omega)] at h; simp at h
  · have h16 : c.ptrBits = 16 := by rcases hc with h | h | h <;> omega
    obtain ⟨n1, n2, n3⟩ := fixedFromGridIndex_16 h16 w hw g o
    by_cases hw32 : w ≤ 32
    · cases e : c.overflowChecks
      · rw [n2 hw32 e] at h
        cases h
        exact FixedDepthStorage3D.tailZero_default
      · rw [n1 hw32 e] at h; simp at h
    · rw [n3 (by omega)] at h; simp at h

theorem fixedFromGridIndexFast_tail (hc : c.Supported)
    {g : Vector3 c.ptrBits} {o : OctantOrdering} {m : MortonIndex3D (FixedDepthStorage3D 64)}
    (h : fixedFromGridIndexFast c g o = .ok m) : TailZero m.storage := by
  by_cases h32 : 32 ≤ c.ptrBits
  · rw [fixedFromGridIndexFast_eq hc (by omega)] at h
    exact fixedFromGridIndex_tail hc (by decide) h
  · exfalso
    have h16 : c.ptrBits = 16 := by rcases hc with h | h | h <;> omega
    obtain ⟨W, oc, be⟩ := c
    cases h16
    cases h

end MortonIndex3D

end MortonRs
