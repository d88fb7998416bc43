import Verif.Model.Storage
import Verif.Model.Align
import Verif.Lemmas.Bytes

/-! # Storages as big-endian sequences of digits

Every storage type is a number `value` of `width` bits; the cell at level `l` is the `l`-th base-`2^D`
digit, counted from the most significant end. -/

namespace MortonRs

/-- The facts about a cell type the proofs use. -/
class LawfulDim (Cell : Type) extends Dimension Cell where
  ofNat : Nat → Cell
  dim_pos : 0 < DIMENSIONALITY
  dim_le : DIMENSIONALITY ≤ 3
  toUsize_lt : ∀ x : Cell, toUsize x < 2 ^ DIMENSIONALITY
  tryFrom_ok : ∀ n, n < 2 ^ DIMENSIONALITY → tryFromUsize n = .ok (ofNat n)
  toUsize_ofNat : ∀ n, n < 2 ^ DIMENSIONALITY → toUsize (ofNat n) = n
  ofNat_toUsize : ∀ x : Cell, ofNat (toUsize x) = x

def quadrantOfNat : Nat → Quadrant
  | 0 => .Zero | 1 => .One | 2 => .Two | _ => .Three

def octantOfNat : Nat → Octant
  | 0 => .Zero | 1 => .One | 2 => .Two | 3 => .Three | 4 => .Four | 5 => .Five | 6 => .Six | _ => .Seven

instance : LawfulDim Quadrant where
  ofNat := quadrantOfNat
  dim_pos := by decide
  dim_le := by decide
  toUsize_lt x := by cases x <;> decide
  tryFrom_ok n h := by
    change n < 4 at h
    match n, h with
    | 0, _ | 1, _ | 2, _ | 3, _ => rfl
  toUsize_ofNat n h := by
    change n < 4 at h
    match n, h with
    | 0, _ | 1, _ | 2, _ | 3, _ => rfl
  ofNat_toUsize x := by cases x <;> rfl

instance : LawfulDim Octant where
  ofNat := octantOfNat
  dim_pos := by decide
  dim_le := by decide
  toUsize_lt x := by cases x <;> decide
  tryFrom_ok n h := by
    change n < 8 at h
    match n, h with
    | 0, _ | 1, _ | 2, _ | 3, _ | 4, _ | 5, _ | 6, _ | 7, _ => rfl
  toUsize_ofNat n h := by
    change n < 8 at h
    match n, h with
    | 0, _ | 1, _ | 2, _ | 3, _ | 4, _ | 5, _ | 6, _ | 7, _ => rfl
  ofNat_toUsize x := by cases x <;> rfl

/-- Short name for the number of bits per cell. -/
abbrev dim (Cell : Type) [LawfulDim Cell] : Nat := Dimension.DIMENSIONALITY Cell

theorem dim_pos (Cell : Type) [LawfulDim Cell] : 0 < dim Cell := LawfulDim.dim_pos

theorem dim_le (Cell : Type) [LawfulDim Cell] : dim Cell ≤ 3 := LawfulDim.dim_le

theorem toUsize_lt {Cell : Type} [LawfulDim Cell] (x : Cell) : Dimension.toUsize x < 2 ^ dim Cell :=
  LawfulDim.toUsize_lt x

theorem toUsize_inj {Cell : Type} [LawfulDim Cell] {x y : Cell}
    (h : Dimension.toUsize x = Dimension.toUsize y) : x = y := by
  rw [← LawfulDim.ofNat_toUsize x, ← LawfulDim.ofNat_toUsize y, h]

theorem toUsize_lt_8 {Cell : Type} [LawfulDim Cell] (x : Cell) : Dimension.toUsize x < 8 := by
  have h1 := toUsize_lt x
  have h2 : 2 ^ dim Cell ≤ 2 ^ 3 := Nat.pow_le_pow_right (by decide) (dim_le Cell)
  omega

/-! ## Digits -/

/-- The `l`-th digit (of `D` bits, from the top) of a number of `W` bits. -/
def digit (D V W l : Nat) : Nat := V / 2 ^ (W - (l + 1) * D) % 2 ^ D

theorem digit_lt (D V W l : Nat) : digit D V W l < 2 ^ D := Nat.mod_lt _ (Nat.two_pow_pos _)

theorem testBit_digit (D V W l j : Nat) :
    (digit D V W l).testBit j = (decide (j < D) && V.testBit (W - (l + 1) * D + j)) := by
  rw [digit, Nat.testBit_mod_two_pow, ← Nat.shiftRight_eq_div_pow, Nat.testBit_shiftRight]

theorem digit_eq_iff {D V W V' W' l l' : Nat} :
    digit D V W l = digit D V' W' l' ↔
      ∀ j, j < D → V.testBit (W - (l + 1) * D + j) = V'.testBit (W' - (l' + 1) * D + j) := by
  constructor
  · intro h j hj
    have := congrArg (·.testBit j) h
    simpa [testBit_digit, hj] using this
  · intro h
    apply Nat.eq_of_testBit_eq
    intro j
    by_cases hj : j < D
    · simp [testBit_digit, hj, h j hj]
    · simp [testBit_digit, hj]

/-- Top digits as a number: peel off the last one. -/
theorem top_succ {D V W k : Nat} (h : (k + 1) * D ≤ W) :
    V / 2 ^ (W - (k + 1) * D) = V / 2 ^ (W - k * D) * 2 ^ D + digit D V W k := by
  have e : W - k * D = (W - (k + 1) * D) + D := by rw [Nat.add_mul] at *; omega
  rw [digit, e, Nat.pow_add, ← Nat.div_div_eq_div_mul]
  rw [Nat.mul_comm (_ / _ / _)]
  exact (Nat.div_add_mod _ _).symm

/-! ## Integers -/

theorem getLsbD_eq_testBit {w : Nat} (x : BitVec w) (i : Nat) : x.getLsbD i = x.toNat.testBit i := rfl

theorem intGet_ok {c : Cfg} {Cell : Type} [LawfulDim Cell] (hc : c.Supported) {w : Nat} (hw : IntWidth w)
    (x : BitVec w) (l : Nat) (hl : (l + 1) * dim Cell ≤ w) :
    FixedDepthStorage.getCellAtLevelUnchecked c w x l =
      .ok (LawfulDim.ofNat (digit (dim Cell) x.toNat w l) : Cell) := by
  have hp := hc.le
  have hw1 := hw.pos
  have hw2 := hw.le
  have hD := dim_pos Cell
  have hD3 := dim_le Cell
  have hlw : l + 1 ≤ (l + 1) * dim Cell := Nat.le_mul_of_pos_right _ hD
  have a1 : l + 1 < 2 ^ c.ptrBits := by omega
  have a2 : (l + 1) * dim Cell < 2 ^ c.ptrBits := by omega
  have a3 : w - (l + 1) * dim Cell + dim Cell < 2 ^ c.ptrBits := by omega
  have a4 : w - (l + 1) * dim Cell < 2 ^ w := Nat.lt_of_le_of_lt (Nat.sub_le _ _) Nat.lt_two_pow_self
  obtain ⟨y, h1, h2⟩ := intGetBits_ok (c := c) x (w - (l + 1) * dim Cell)
    (w - (l + 1) * dim Cell + dim Cell) (by omega) (by omega) a4 (by omega)
  have key : (y.setWidth 8).toNat = digit (dim Cell) x.toNat w l := by
    apply Nat.eq_of_testBit_eq
    intro j
    rw [← getLsbD_eq_testBit, BitVec.getLsbD_setWidth, h2, testBit_digit, getLsbD_eq_testBit,
      Nat.add_sub_cancel_left]
    by_cases hj : j < dim Cell
    · have : j < 8 := by omega
      simp [hj, this]
    · simp [hj]
  unfold FixedDepthStorage.getCellAtLevelUnchecked
  simp only [uadd_ok a1, ok_bind, umul_ok a2, usub_ok hl, uadd_ok a3, Bits.getBits, h1, Bits.asU8, key]
  rw [LawfulDim.tryFrom_ok _ (digit_lt _ _ _ _)]
  rfl

theorem intSet_ok {c : Cfg} {Cell : Type} [LawfulDim Cell] (hc : c.Supported) {w : Nat} (hw : IntWidth w)
    (x : BitVec w) (l : Nat) (v : Cell) (hl : (l + 1) * dim Cell ≤ w) :
    ∃ y, FixedDepthStorage.setCellAtLevelUnchecked c w x l v = .ok y ∧
      ∀ i, y.toNat.testBit i =
        if w - (l + 1) * dim Cell ≤ i ∧ i < w - (l + 1) * dim Cell + dim Cell then
          (Dimension.toUsize v).testBit (i - (w - (l + 1) * dim Cell))
        else x.toNat.testBit i := by
  have hp := hc.le
  have hw1 := hw.pos
  have hw2 := hw.le
  have hD := dim_pos Cell
  have hD3 := dim_le Cell
  have hlw : l + 1 ≤ (l + 1) * dim Cell := Nat.le_mul_of_pos_right _ hD
  have a1 : l + 1 < 2 ^ c.ptrBits := by omega
  have a2 : (l + 1) * dim Cell < 2 ^ c.ptrBits := by omega
  have a3 : w - (l + 1) * dim Cell + dim Cell < 2 ^ c.ptrBits := by omega
  have hDl : dim Cell ≤ (l + 1) * dim Cell := Nat.le_mul_of_pos_left _ (by omega)
  have hv := toUsize_lt_8 v
  obtain ⟨y, h1, h2⟩ := intSetBits_ok (c := c) x (w - (l + 1) * dim Cell)
    (w - (l + 1) * dim Cell + dim Cell) ((BitVec.ofNat 8 (Dimension.toUsize v)).setWidth w)
    (by omega) (by omega) (by omega)
  refine ⟨y, ?_, ?_⟩
  · unfold FixedDepthStorage.setCellAtLevelUnchecked
    simp only [uadd_ok a1, ok_bind, umul_ok a2, usub_ok hl, uadd_ok a3, Bits.setBits, Bits.fromUN, h1]
  · intro i
    have hvb : ∀ j, j < w → ((BitVec.ofNat 8 (Dimension.toUsize v)).setWidth w).getLsbD j =
        (Dimension.toUsize v).testBit j := by
      intro j hj
      rw [BitVec.getLsbD_setWidth, BitVec.getLsbD_ofNat]
      by_cases h8 : j < 8
      · simp [h8, hj]
      · have : Dimension.toUsize v < 2 ^ j :=
          Nat.lt_of_lt_of_le hv (Nat.pow_le_pow_right (n := 2) (i := 3) (by decide) (by omega))
        simp [h8, Nat.testBit_lt_two_pow this]
    by_cases hi : i < w
    · rw [← getLsbD_eq_testBit, h2 i hi, Nat.add_sub_cancel_left]
      by_cases g1 : w - (l + 1) * dim Cell ≤ i
      · by_cases g2 : i < w - (l + 1) * dim Cell + dim Cell
        · rw [if_pos g1, if_pos g2, if_pos ⟨g1, g2⟩, hvb _ (by omega)]
        · rw [if_pos g1, if_neg g2, if_neg (by omega), hvb _ (by omega)]
          have : Dimension.toUsize v < 2 ^ (i - (w - (l + 1) * dim Cell)) :=
            Nat.lt_of_lt_of_le (toUsize_lt v) (Nat.pow_le_pow_right (by decide) (by omega))
          rw [Nat.testBit_lt_two_pow this]
          simp [getLsbD_eq_testBit]
      · rw [if_neg g1, if_neg (by omega)]
        rfl
    · rw [← getLsbD_eq_testBit, BitVec.getLsbD_of_ge _ _ (by omega), if_neg (by omega),
        ← getLsbD_eq_testBit, BitVec.getLsbD_of_ge _ _ (by omega)]

/-! ## Byte vectors -/

/-- The bit count of a byte vector, with the slack the address arithmetic needs, fits a `usize`. -/
def Fits (c : Cfg) (n : Nat) : Prop := n + 15 < 2 ^ c.ptrBits

theorem vecGet_ok {c : Cfg} {Cell : Type} [LawfulDim Cell] (hc : c.Supported)
    (bs : List (BitVec 8)) (l : Nat) (hfit : Fits c (8 * bs.length)) (hl : (l + 1) * dim Cell ≤ 8 * bs.length) :
    DynamicStorage.getCellAtLevelUnchecked c bs l =
      .ok (LawfulDim.ofNat (digit (dim Cell) (leValue bs) (8 * bs.length) l) : Cell) := by
  have hp := hc.le
  have hw := hc.intWidth
  have hw1 := hw.pos
  have hw2 := hw.le
  unfold Fits at hfit
  have hD := dim_pos Cell
  have hD3 := dim_le Cell
  have hlw : l + 1 ≤ (l + 1) * dim Cell := Nat.le_mul_of_pos_right _ hD
  have hDl : dim Cell ≤ (l + 1) * dim Cell := Nat.le_mul_of_pos_left _ (by omega)
  have a0 : bs.length * 8 < 2 ^ c.ptrBits := by omega
  have a1 : l + 1 < 2 ^ c.ptrBits := by omega
  have a2 : (l + 1) * dim Cell < 2 ^ c.ptrBits := by omega
  have hl' : (l + 1) * dim Cell ≤ bs.length * 8 := by omega
  have a3 : bs.length * 8 - (l + 1) * dim Cell + dim Cell < 2 ^ c.ptrBits := by omega
  obtain ⟨y, h1, h2⟩ := vecGetBitsAsUsize_ok (c := c) bs (bs.length * 8 - (l + 1) * dim Cell)
    (bs.length * 8 - (l + 1) * dim Cell + dim Cell) (by omega) (by omega) (by omega) (by omega)
    (by omega) (by omega)
  have key : y.toNat = digit (dim Cell) (leValue bs) (8 * bs.length) l := by
    apply Nat.eq_of_testBit_eq
    intro j
    rw [← getLsbD_eq_testBit, h2, testBit_digit, testBit_leValue, Nat.add_sub_cancel_left,
      Nat.mul_comm bs.length 8]
  unfold DynamicStorage.getCellAtLevelUnchecked
  simp only [Bits.size, umul_ok a0, uadd_ok a1, ok_bind, umul_ok a2, usub_ok hl', uadd_ok a3,
    Bits.getBitsAsUsize, h1, key]
  rw [LawfulDim.tryFrom_ok _ (digit_lt _ _ _ _)]
  rfl

/-- The cell that ends up in a dynamic storage when `v` is written. -/
def dynWritten {Cell : Type} [LawfulDim Cell] (c : Cfg) (v : Cell) : Cell :=
  if DynWrites c then v else LawfulDim.ofNat 0

theorem vecSet_ok {c : Cfg} {Cell : Type} [LawfulDim Cell] (hc : c.Supported)
    (bs : List (BitVec 8)) (l : Nat) (v : Cell) (hfit : Fits c (8 * bs.length))
    (hl : (l + 1) * dim Cell ≤ 8 * bs.length) :
    ∃ bs', DynamicStorage.setCellAtLevelUnchecked c bs l v = .ok bs' ∧ bs'.length = bs.length ∧
      ∀ i, (leValue bs').testBit i =
        if 8 * bs.length - (l + 1) * dim Cell ≤ i ∧ i < 8 * bs.length - (l + 1) * dim Cell + dim Cell then
          (Dimension.toUsize (dynWritten c v)).testBit (i - (8 * bs.length - (l + 1) * dim Cell))
        else (leValue bs).testBit i := by
  have hp := hc.le
  have hw := hc.intWidth
  have hw1 := hw.pos
  have hw2 := hw.le
  have hw8 := hw.mod8
  have hW : 16 ≤ c.ptrBits := by rcases hc with h | h | h <;> omega
  unfold Fits at hfit
  have hD := dim_pos Cell
  have hD3 := dim_le Cell
  have hv := toUsize_lt_8 v
  have hlw : l + 1 ≤ (l + 1) * dim Cell := Nat.le_mul_of_pos_right _ hD
  have hDl : dim Cell ≤ (l + 1) * dim Cell := Nat.le_mul_of_pos_left _ (by omega)
  have a0 : bs.length * 8 < 2 ^ c.ptrBits := by omega
  have a1 : l + 1 < 2 ^ c.ptrBits := by omega
  have a2 : (l + 1) * dim Cell < 2 ^ c.ptrBits := by omega
  have hl' : (l + 1) * dim Cell ≤ bs.length * 8 := by omega
  have a3 : bs.length * 8 - (l + 1) * dim Cell + dim Cell < 2 ^ c.ptrBits := by omega
  have hz : Dimension.toUsize (LawfulDim.ofNat (Cell := Cell) 0) = 0 :=
    LawfulDim.toUsize_ofNat 0 (Nat.two_pow_pos _)
  have key : ∀ us n, n ≤ 8 → us + n ≤ dim Cell → (n = 0 → us = 0) →
      ∃ byte, combinedByte c (bytesOf c (BitVec.ofNat c.ptrBits (Dimension.toUsize v))) us n = .ok byte ∧
        ∀ j, byte.getLsbD j = (decide (j < n) && (Dimension.toUsize (dynWritten c v)).testBit (us + j)) := by
    intro us n h1 h2 h3
    by_cases hbe : c.bigEndian = true
    · obtain ⟨byte, e1, e2⟩ := combinedByte_be hc hbe hv us n (by omega)
      refine ⟨byte, e1, fun j => ?_⟩
      rw [e2 j]
      congr 1
      by_cases h16 : c.ptrBits = 16
      · simp [dynWritten, DynWrites, h16]
      · simp [dynWritten, DynWrites, h16, hbe, hz]
    · have hle : c.bigEndian = false := by simpa using hbe
      have hbytes : bytesOf c (BitVec.ofNat c.ptrBits (Dimension.toUsize v)) =
          leBytes (BitVec.ofNat c.ptrBits (Dimension.toUsize v)) := by simp [bytesOf, hle]
      rw [hbytes]
      obtain ⟨byte, e1, e2⟩ := combinedByte_ok (c := c)
        (leBytes (BitVec.ofNat c.ptrBits (Dimension.toUsize v))) us n hle
        (by rw [leBytes_length]; omega) h1 (by rw [leBytes_length]; omega) (by omega)
      refine ⟨byte, e1, fun j => ?_⟩
      rw [e2 j]
      by_cases hj : j < n
      · rw [bitOf_leBytes _ _ hw8, BitVec.getLsbD_ofNat]
        have : us + j < c.ptrBits := by omega
        simp [this, dynWritten, DynWrites, hle]
      · simp [hj]
  obtain ⟨bs', h1, h2, h3⟩ := setVecU8Bits_gen (c := c) bs (bs.length * 8 - (l + 1) * dim Cell)
    (bs.length * 8 - (l + 1) * dim Cell + dim Cell)
    (bytesOf c (BitVec.ofNat c.ptrBits (Dimension.toUsize v)))
    (fun j => (Dimension.toUsize (dynWritten c v)).testBit j)
    (by omega) (by omega) (by omega) (by rw [Nat.add_sub_cancel_left]; exact key)
  refine ⟨bs', ?_, h2, ?_⟩
  · unfold DynamicStorage.setCellAtLevelUnchecked
    simp only [Bits.size, umul_ok a0, uadd_ok a1, ok_bind, umul_ok a2, usub_ok hl', uadd_ok a3,
      Bits.setBitsFromUsize, vecSetBitsFromUsize, h1]
  · intro i
    rw [testBit_leValue, testBit_leValue, h3 i, Nat.mul_comm bs.length 8]

/-- The masking step of `DynamicStorage{2D,3D}::ancestor`. -/
theorem maskFirst_ok {c : Cfg} (bs : List (BitVec 8)) (k : Nat) (hk : k < 8) (hbs : 0 < bs.length) :
    ∃ b0 nb, shl c 1#8 k = .ok (1#8 <<< k) ∧ subN c (1#8 <<< k) 1#8 = .ok ((1#8 <<< k) - 1#8) ∧
      index bs 0 = .ok b0 ∧
      indexSet bs 0 (b0 &&& ~~~((1#8 <<< k) - 1#8)) = .ok nb ∧ nb.length = bs.length ∧
      ∀ i, bitOf nb i = (bitOf bs i && decide (k ≤ i)) := by
  refine ⟨bs[0], bs.set 0 (bs[0] &&& ~~~((1#8 <<< k) - 1#8)), shl_ok hk, ?_, index_ok hbs,
    by simp [indexSet, hbs], by simp, ?_⟩
  · rw [subN, if_pos]
    have : ∀ k, k < 8 → (1#8).toNat ≤ (1#8 <<< k).toNat := by decide
    exact this k hk
  · intro i
    rw [bitOf_set _ _ hbs]
    by_cases hi : i / 8 = 0
    · have h8 : i < 8 := by omega
      have h1 : i % 8 = i := by omega
      rw [if_pos hi, BitVec.getLsbD_and, h1, highMask_getLsbD k hk i h8, ← bitOf_eq_getElem hbs h8]
      simp
    · have : k ≤ i := by omega
      rw [if_neg hi]
      simp [this]

end MortonRs
