import Verif.Props.Numbers
import Verif.Props.Examples
import Verif.Lemmas.Cmp2D
import Verif.Lemmas.Cmp3D

/-! # C81: the accessors of the storage types on any container

`StorageType::get_cell_at_level_unchecked` and `set_cell_at_level_unchecked` are generic in the container: a storage type
may be used with integers of another width, and with byte vectors as well as integers. -/

namespace MortonRs

/-- On every container in `ok`, reading a level returns the `D` bits of the level, counted down from bit `top`, and writing
replaces exactly these bits. -/
def CellsAreBits {T Cell : Type} (D : Nat) (key : Cell → Nat) (get : T → Nat → Res Cell)
    (set : T → Nat → Cell → Res T) (number size top : T → Nat) (ok : T → Prop) : Prop :=
  ∀ (x : T) (l : Nat), ok x → (l + 1) * D ≤ top x →
    (∃ v, get x l = .ok v ∧ key v = bitsIn (top x - (l + 1) * D) (top x - (l + 1) * D + D) (number x)) ∧
    ∀ v, ∃ y, set x l v = .ok y ∧ size y = size x ∧
      ReplacesBits (top x - (l + 1) * D) (top x - (l + 1) * D + D) (number x) (key v) (number y)

section generic
variable {c : Cfg} {Cell : Type} [LawfulDim Cell]

theorem bitsIn_lt (s n x : Nat) : bitsIn s (s + n) x < 2 ^ n := by
  rw [bitsIn, Nat.add_sub_cancel_left]
  exact Nat.mod_lt _ (Nat.two_pow_pos _)

/-- What `get` of the integer storage types asks of the container. -/
theorem typeGet_eq {T : Type} [Bits T] {B l : Nat} (x : T) (hl : (l + 1) * dim Cell ≤ B) (hB : B < 2 ^ c.ptrBits) :
    (FixedDepthStorage.getCellAtLevelUnchecked c B x l : Res Cell) = (do
      let b ← Bits.asU8 (← Bits.getBits c x ⟨B - (l + 1) * dim Cell, B - (l + 1) * dim Cell + dim Cell⟩)
      unwrapResult (Dimension.tryFromUsize b.toNat)) := by
  have hD := dim_pos Cell
  have hlw : l + 1 ≤ (l + 1) * dim Cell := Nat.le_mul_of_pos_right _ hD
  have hDl : dim Cell ≤ (l + 1) * dim Cell := Nat.le_mul_of_pos_left _ (by omega)
  have a1 : l + 1 < 2 ^ c.ptrBits := by omega
  have a2 : (l + 1) * dim Cell < 2 ^ c.ptrBits := by omega
  have a3 : B - (l + 1) * dim Cell + dim Cell < 2 ^ c.ptrBits := by omega
  unfold FixedDepthStorage.getCellAtLevelUnchecked
  simp only [uadd_ok a1, ok_bind, umul_ok a2, usub_ok hl, uadd_ok a3]

theorem typeSet_eq {T : Type} [Bits T] {B l : Nat} (x : T) (v : Cell) (hl : (l + 1) * dim Cell ≤ B)
    (hB : B < 2 ^ c.ptrBits) :
    FixedDepthStorage.setCellAtLevelUnchecked c B x l v =
      Bits.setBits c x ⟨B - (l + 1) * dim Cell, B - (l + 1) * dim Cell + dim Cell⟩
        (Bits.fromUN c (BitVec.ofNat 8 (Dimension.toUsize v))) := by
  have hD := dim_pos Cell
  have hlw : l + 1 ≤ (l + 1) * dim Cell := Nat.le_mul_of_pos_right _ hD
  have hDl : dim Cell ≤ (l + 1) * dim Cell := Nat.le_mul_of_pos_left _ (by omega)
  have a1 : l + 1 < 2 ^ c.ptrBits := by omega
  have a2 : (l + 1) * dim Cell < 2 ^ c.ptrBits := by omega
  have a3 : B - (l + 1) * dim Cell + dim Cell < 2 ^ c.ptrBits := by omega
  unfold FixedDepthStorage.setCellAtLevelUnchecked
  simp only [uadd_ok a1, ok_bind, umul_ok a2, usub_ok hl, uadd_ok a3]

theorem unwrap_ofNat {n : Nat} (h : n < 2 ^ dim Cell) :
    unwrapResult (Dimension.tryFromUsize n : Except Error Cell) = .ok (LawfulDim.ofNat n) := by
  rw [LawfulDim.tryFrom_ok _ h]
  rfl

theorem pow_dim_le : 2 ^ dim Cell ≤ 8 := by
  have h := Nat.pow_le_pow_right (n := 2) (by decide) (dim_le Cell)
  omega

/-- Integer storage types on integers. -/
theorem intCells (hc : c.Supported) {B w : Nat} (hw : IntWidth w) (hB : B ≤ w) {key : Cell → Nat}
    (hk : ∀ v : Cell, key v = Dimension.toUsize v) :
    CellsAreBits (dim Cell) key (FixedDepthStorage.getCellAtLevelUnchecked c B)
      (FixedDepthStorage.setCellAtLevelUnchecked c B) (BitVec.toNat : BitVec w → Nat) (fun _ => w) (fun _ => B)
      (fun _ => True) := by
  intro x l _ hl
  have hl : (l + 1) * dim Cell ≤ B := hl
  have hp := hc.le
  have hwl := hw.le
  have hw1 := hw.pos
  have h8 := hw.mod8
  have hD := dim_pos Cell
  have hD3 := dim_le Cell
  have hpd := pow_dim_le (Cell := Cell)
  have hDl : dim Cell ≤ (l + 1) * dim Cell := Nat.le_mul_of_pos_left _ (by omega)
  have hBp : B < 2 ^ c.ptrBits := by omega
  have h256 : 256 ≤ 2 ^ w := Nat.pow_le_pow_right (n := 2) (i := 8) (by decide) (by omega)
  refine ⟨?_, fun v => ?_⟩
  · obtain ⟨y, e1, e2⟩ := (C35_integer_get_bits hw c x (s := B - (l + 1) * dim Cell)
      (e := B - (l + 1) * dim Cell + dim Cell) (by omega) (by omega)).1
    have hlt := bitsIn_lt (B - (l + 1) * dim Cell) (dim Cell) x.toNat
    have e3 : (y.setWidth 8).toNat = y.toNat := by
      rw [BitVec.toNat_setWidth]; exact Nat.mod_eq_of_lt (by omega)
    refine ⟨LawfulDim.ofNat y.toNat, ?_, ?_⟩
    · rw [typeGet_eq x hl hBp, e1]
      simp only [ok_bind, Bits.asU8, e3]
      exact unwrap_ofNat (by omega)
    · rw [hk, LawfulDim.toUsize_ofNat _ (show _ < 2 ^ dim Cell by omega), e2]
  · have hv := toUsize_lt v
    have e3 : ((BitVec.ofNat 8 (Dimension.toUsize v)).setWidth w).toNat = Dimension.toUsize v := by
      rw [BitVec.toNat_setWidth, BitVec.toNat_ofNat, Nat.mod_eq_of_lt (a := Dimension.toUsize v) (by omega)]
      exact Nat.mod_eq_of_lt (by omega)
    obtain ⟨y, e1, e2, -⟩ := (C35_integer_set_bits hw c x (s := B - (l + 1) * dim Cell)
      (e := B - (l + 1) * dim Cell + dim Cell) (by omega) (by omega) (by omega)).1
      ((BitVec.ofNat 8 (Dimension.toUsize v)).setWidth w) (by rw [e3, Nat.add_sub_cancel_left]; exact hv)
    rw [e3] at e2
    exact ⟨y, by rw [typeSet_eq x v hl hBp]; exact e1, rfl, by rw [hk]; exact e2⟩

/-- The dynamic storage type on integers. -/
theorem intCellsDyn (hc : c.Supported) {w : Nat} (hw : IntWidth w) {key : Cell → Nat}
    (hk : ∀ v : Cell, key v = Dimension.toUsize v) :
    CellsAreBits (dim Cell) key (DynamicStorage.getCellAtLevelUnchecked c) (DynamicStorage.setCellAtLevelUnchecked c)
      (BitVec.toNat : BitVec w → Nat) (fun _ => w) (fun _ => w) (fun _ => True) := by
  intro x l _ hl
  have hl : (l + 1) * dim Cell ≤ w := hl
  have hp := hc.le
  have hwl := hw.le
  have hw1 := hw.pos
  have h8 := hw.mod8
  have hpw : 16 ≤ c.ptrBits := by have := hc; unfold Cfg.Supported at this; omega
  have hD := dim_pos Cell
  have hD3 := dim_le Cell
  have hpd := pow_dim_le (Cell := Cell)
  have hlw : l + 1 ≤ (l + 1) * dim Cell := Nat.le_mul_of_pos_right _ hD
  have hDl : dim Cell ≤ (l + 1) * dim Cell := Nat.le_mul_of_pos_left _ (by omega)
  have e0 : w / 8 * 8 = w := by omega
  have a0 : w / 8 * 8 < 2 ^ c.ptrBits := by omega
  have a1 : l + 1 < 2 ^ c.ptrBits := by omega
  have a2 : (l + 1) * dim Cell < 2 ^ c.ptrBits := by omega
  have a3 : w - (l + 1) * dim Cell + dim Cell < 2 ^ c.ptrBits := by omega
  refine ⟨?_, fun v => ?_⟩
  · obtain ⟨y, e1, e2⟩ := (C35_integer_get_bits hw c x (s := w - (l + 1) * dim Cell)
      (e := w - (l + 1) * dim Cell + dim Cell) (by omega) (by omega)).2 (by omega)
    have hlt := bitsIn_lt (w - (l + 1) * dim Cell) (dim Cell) x.toNat
    refine ⟨LawfulDim.ofNat y.toNat, ?_, ?_⟩
    · unfold DynamicStorage.getCellAtLevelUnchecked
      have hs : Bits.size x = w / 8 := rfl
      simp only [hs, umul_ok a0, e0, uadd_ok a1, ok_bind, umul_ok a2, usub_ok hl, uadd_ok a3, e1]
      exact unwrap_ofNat (by omega)
    · rw [hk, LawfulDim.toUsize_ofNat _ (show _ < 2 ^ dim Cell by omega), e2]
  · have hv := toUsize_lt v
    have e3 : (BitVec.ofNat c.ptrBits (Dimension.toUsize v)).toNat = Dimension.toUsize v := by
      rw [BitVec.toNat_ofNat]; exact Nat.mod_eq_of_lt (by omega)
    obtain ⟨y, e1, e2, -⟩ := (C35_integer_set_bits hw c x (s := w - (l + 1) * dim Cell)
      (e := w - (l + 1) * dim Cell + dim Cell) (by omega) (by omega) (by omega)).2
      (BitVec.ofNat c.ptrBits (Dimension.toUsize v)) (by rw [e3, Nat.add_sub_cancel_left]; exact hv)
    rw [e3] at e2
    refine ⟨y, ?_, rfl, by rw [hk]; exact e2⟩
    unfold DynamicStorage.setCellAtLevelUnchecked
    have hs : Bits.size x = w / 8 := rfl
    simp only [hs, umul_ok a0, e0, uadd_ok a1, ok_bind, umul_ok a2, usub_ok hl, uadd_ok a3, e1]

/-- The dynamic storage type on byte vectors. -/
theorem vecCellsDyn (hc : c.Supported) {key : Cell → Nat} (hk : ∀ v : Cell, key v = Dimension.toUsize v) :
    CellsAreBits (dim Cell) key (DynamicStorage.getCellAtLevelUnchecked c) (DynamicStorage.setCellAtLevelUnchecked c)
      leNumber List.length (fun bs : List (BitVec 8) => 8 * bs.length)
      (fun bs => Addressable c (8 * bs.length) ∧ DynWrites c) := by
  intro x l ⟨h1, h2⟩ hl
  have hD := dim_pos Cell
  have hf : Fits c (8 * x.length) := by unfold Addressable at h1; unfold Fits; omega
  refine ⟨⟨_, vecGet_ok hc x l hf hl, ?_⟩, fun v => ?_⟩
  · rw [hk, LawfulDim.toUsize_ofNat _ (digit_lt _ _ _ _), leNumber_eq, bitsIn, Nat.add_sub_cancel_left]
    rfl
  · obtain ⟨y, e1, e2, e3⟩ := vecSet_ok hc x l v hf hl
    refine ⟨y, e1, e2, ?_⟩
    rw [leNumber_eq, leNumber_eq, hk]
    refine replacesBits_of_testBit (by omega) fun i => ?_
    rw [e3]
    simp [dynWritten, h2]

/-- Integer storage types on byte vectors: writing. -/
theorem vecSetCells (hc : c.Supported) {key : Cell → Nat} (hk : ∀ v : Cell, key v = Dimension.toUsize v) {B l : Nat}
    (x : List (BitVec 8)) (h1 : Addressable c (8 * x.length)) (hB : B ≤ 8 * x.length) (hl : (l + 1) * dim Cell ≤ B)
    (v : Cell) :
    ∃ y, FixedDepthStorage.setCellAtLevelUnchecked c B x l v = .ok y ∧ y.length = x.length ∧
      ReplacesBits (B - (l + 1) * dim Cell) (B - (l + 1) * dim Cell + dim Cell) (leNumber x) (key v) (leNumber y) := by
  unfold Addressable at h1
  have hp := hc.le
  have hD := dim_pos Cell
  have hD3 := dim_le Cell
  have hpd := pow_dim_le (Cell := Cell)
  have hDl : dim Cell ≤ (l + 1) * dim Cell := Nat.le_mul_of_pos_left _ (by omega)
  have hv := toUsize_lt v
  have hbytes : bytesOf c (BitVec.ofNat 8 (Dimension.toUsize v)) = [BitVec.ofNat 8 (Dimension.toUsize v)] := by
    unfold bytesOf
    have : leBytes (BitVec.ofNat 8 (Dimension.toUsize v)) = [BitVec.ofNat 8 (Dimension.toUsize v)] := by
      apply List.ext_getElem
      · rw [leBytes_length]; rfl
      · intro i hi1 hi2
        have : i = 0 := by simpa using hi2
        subst this
        simp [leBytes]
    split <;> rw [this] <;> rfl
  have key' : ∀ us n, n ≤ 8 → us + n ≤ dim Cell → (n = 0 → us = 0) →
      ∃ byte, combinedByte c [BitVec.ofNat 8 (Dimension.toUsize v)] us n = .ok byte ∧
        ∀ j, byte.getLsbD j = (decide (j < n) && (Dimension.toUsize v).testBit (us + j)) := by
    intro us n g1 g2 g3
    have b1 : us + n < 2 ^ c.ptrBits := by omega
    have b2 : us / 8 = 0 := by omega
    have b3 : us % 8 = us := by omega
    obtain ⟨y, f1, f2⟩ := intGetBits_ok (c := c) (BitVec.ofNat 8 (Dimension.toUsize v)) us (us + n) (by decide)
      (by omega) (by omega) (by omega)
    refine ⟨y, ?_, fun j => ?_⟩
    · unfold combinedByte
      simp only [uadd_ok b1, ok_bind, List.length_singleton, usub_ok (Nat.le_refl 1), b2, b3, Nat.sub_self, if_true]
      exact f1
    · rw [f2, Nat.add_sub_cancel_left]
      by_cases hj : j < n
      · rw [BitVec.getLsbD_ofNat, decide_eq_true (show us + j < 8 by omega), Bool.true_and]
      · simp [hj]
  obtain ⟨y, e1, e2, e3⟩ := setVecU8Bits_gen (c := c) x (B - (l + 1) * dim Cell)
    (B - (l + 1) * dim Cell + dim Cell) [BitVec.ofNat 8 (Dimension.toUsize v)] (fun j => (Dimension.toUsize v).testBit j)
    (by omega) (by omega) (by omega) (by rw [Nat.add_sub_cancel_left]; exact key')
  refine ⟨y, ?_, e2, ?_⟩
  · rw [typeSet_eq x v hl (by omega)]
    change setVecU8Bits c x _ (bytesOf c (BitVec.ofNat 8 (Dimension.toUsize v))) = _
    rw [hbytes, e1]
  · rw [leNumber_eq, leNumber_eq, hk]
    refine replacesBits_of_testBit (by omega) fun i => ?_
    rw [testBit_leValue, testBit_leValue, e3]

/-- Integer storage types on byte vectors: reading. -/
theorem vecGetCells (hc : c.Supported) {B l : Nat}
    (x : List (BitVec 8)) (h1 : Addressable c (8 * x.length)) (hB : B ≤ 8 * x.length) (hl : (l + 1) * dim Cell ≤ B)
    {s e : Nat} (hs : s = B - (l + 1) * dim Cell) (he : e = s + dim Cell) :
    (FixedDepthStorage.getCellAtLevelUnchecked c B x l : Res Cell) = unwrapResult (Dimension.tryFromUsize
      (if 0 < e % 8 ∧ e % 8 < s % 8 then bitsIn s (s + 8) (leNumber x) else bitsIn s e (leNumber x))) := by
  unfold Addressable at h1
  have hp := hc.le
  have hD := dim_pos Cell
  have hD3 := dim_le Cell
  have hDl : dim Cell ≤ (l + 1) * dim Cell := Nat.le_mul_of_pos_left _ (by omega)
  obtain ⟨r, e1, e2, e3, e4⟩ := C38_vec_get_bits_partial (c := c) x (s := s) (e := e) (by omega) (by omega) (by omega)
  have hlen : (e - s + 7) / 8 = 1 := by omega
  rw [hlen] at e2 e4
  obtain ⟨b, rfl⟩ := List.length_eq_one_iff.mp e2
  have hb : leNumber [b] = b.toNat := rfl
  rw [typeGet_eq x hl (by omega), ← hs, ← he, e1]
  change unwrapResult (Dimension.tryFromUsize b.toNat) = _
  congr 2
  split
  · next h => rw [← hb, e4 h]
  · next h => rw [← hb, e3 h]

end generic

/-! ## Integers -/

/-- C81. The 2D accessors on integers: those of the fixed-depth and static storage types for any integer that is wide
enough, those of the dynamic storage type for any integer. -/
theorem C81_integers_2D {c : Cfg} (hc : c.Supported) {B w : Nat} (hw : IntWidth w) (hB : B ≤ w) :
    CellsAreBits 2 quadrantKey (FixedDepthStorage.getCellAtLevelUnchecked c B)
      (FixedDepthStorage.setCellAtLevelUnchecked c B) (BitVec.toNat : BitVec w → Nat) (fun _ => w) (fun _ => B)
      (fun _ => True) ∧
    CellsAreBits 2 quadrantKey (StaticStorage.getCellAtLevelUnchecked c B) (StaticStorage.setCellAtLevelUnchecked c B)
      (BitVec.toNat : BitVec w → Nat) (fun _ => w) (fun _ => B) (fun _ => True) ∧
    CellsAreBits 2 quadrantKey (DynamicStorage.getCellAtLevelUnchecked c) (DynamicStorage.setCellAtLevelUnchecked c)
      (BitVec.toNat : BitVec w → Nat) (fun _ => w) (fun _ => w) (fun _ => True) :=
  ⟨intCells hc hw hB quadrantKey_eq, intCells hc hw hB quadrantKey_eq, intCellsDyn hc hw quadrantKey_eq⟩

example : ∃ v, StaticStorage.getCellAtLevelUnchecked x64 32 0xC0FFEE1234#64 1 = .ok v ∧
    quadrantKey v = bitsIn (32 - (1 + 1) * 2) (32 - (1 + 1) * 2 + 2) 0xC0FFEE1234 :=
  ((C81_integers_2D x64_supported (B := 32) (w := 64) (by decide) (by decide)).2.1 0xC0FFEE1234#64 1 trivial
    (by decide)).1

/-- C81. The 3D accessors on integers: those of the fixed-depth and static storage types for any integer that is wide
enough, those of the dynamic storage type for any integer. -/
theorem C81_integers_3D {c : Cfg} (hc : c.Supported) {B w : Nat} (hw : IntWidth w) (hB : B ≤ w) :
    CellsAreBits 3 octantKey (FixedDepthStorage.getCellAtLevelUnchecked c B)
      (FixedDepthStorage.setCellAtLevelUnchecked c B) (BitVec.toNat : BitVec w → Nat) (fun _ => w) (fun _ => B)
      (fun _ => True) ∧
    CellsAreBits 3 octantKey (StaticStorage.getCellAtLevelUnchecked c B) (StaticStorage.setCellAtLevelUnchecked c B)
      (BitVec.toNat : BitVec w → Nat) (fun _ => w) (fun _ => B) (fun _ => True) ∧
    CellsAreBits 3 octantKey (DynamicStorage.getCellAtLevelUnchecked c) (DynamicStorage.setCellAtLevelUnchecked c)
      (BitVec.toNat : BitVec w → Nat) (fun _ => w) (fun _ => w) (fun _ => True) :=
  ⟨intCells hc hw hB octantKey_eq, intCells hc hw hB octantKey_eq, intCellsDyn hc hw octantKey_eq⟩

example : ∃ y, DynamicStorage.setCellAtLevelUnchecked be64 0xFFFF#16 2 Octant.Two = .ok y ∧ 16 = 16 ∧
    ReplacesBits (16 - (2 + 1) * 3) (16 - (2 + 1) * 3 + 3) 0xFFFF 2 y.toNat :=
  ((C81_integers_3D be64_supported (B := 16) (w := 16) (by decide) (by decide)).2.2 0xFFFF#16 2 trivial
    (by decide)).2 Octant.Two

/-! ## Byte vectors -/

/-- C81. The 2D accessors on byte vectors with enough bytes: 2D cells do not cross byte boundaries, so those of the
fixed-depth and static storage types work on every target, even where dynamic writes do not (C47). -/
theorem C81_bytes_2D {c : Cfg} (hc : c.Supported) {B : Nat} (hB : IntWidth B) :
    CellsAreBits 2 quadrantKey (FixedDepthStorage.getCellAtLevelUnchecked c B)
      (FixedDepthStorage.setCellAtLevelUnchecked c B) leNumber List.length (fun _ : List (BitVec 8) => B)
      (fun bs => Addressable c (8 * bs.length) ∧ B ≤ 8 * bs.length) ∧
    CellsAreBits 2 quadrantKey (StaticStorage.getCellAtLevelUnchecked c B) (StaticStorage.setCellAtLevelUnchecked c B)
      leNumber List.length (fun _ : List (BitVec 8) => B) (fun bs => Addressable c (8 * bs.length) ∧ B ≤ 8 * bs.length) ∧
    CellsAreBits 2 quadrantKey (DynamicStorage.getCellAtLevelUnchecked c) (DynamicStorage.setCellAtLevelUnchecked c)
      leNumber List.length (fun bs : List (BitVec 8) => 8 * bs.length)
      (fun bs => Addressable c (8 * bs.length) ∧ DynWrites c) := by
  have h : CellsAreBits 2 quadrantKey (FixedDepthStorage.getCellAtLevelUnchecked c B)
      (FixedDepthStorage.setCellAtLevelUnchecked c B) leNumber List.length (fun _ : List (BitVec 8) => B)
      (fun bs => Addressable c (8 * bs.length) ∧ B ≤ 8 * bs.length) := by
    intro x l ⟨h1, h2⟩ hl
    have h8 := hB.mod8
    have hl : (l + 1) * dim Quadrant ≤ B := hl
    refine ⟨⟨LawfulDim.ofNat (bitsIn (B - (l + 1) * 2) (B - (l + 1) * 2 + 2) (leNumber x)), ?_, ?_⟩,
      fun v => vecSetCells hc quadrantKey_eq x h1 h2 hl v⟩
    · have hno : ¬ (0 < (B - (l + 1) * 2 + 2) % 8 ∧ (B - (l + 1) * 2 + 2) % 8 < (B - (l + 1) * 2) % 8) := by
        have : (l + 1) * 2 ≤ B := hl
        omega
      rw [vecGetCells hc x h1 h2 hl (s := B - (l + 1) * 2) (e := B - (l + 1) * 2 + 2) rfl rfl, if_neg hno]
      exact unwrap_ofNat (bitsIn_lt _ _ _)
    · rw [quadrantKey_eq]
      exact LawfulDim.toUsize_ofNat _ (bitsIn_lt _ 2 _)
  exact ⟨h, h, vecCellsDyn hc quadrantKey_eq⟩

example : ∃ v, StaticStorage.getCellAtLevelUnchecked be64 16 [0x12#8, 0x9C#8, 0xFF#8] 1 = .ok v ∧
    quadrantKey v = bitsIn (16 - (1 + 1) * 2) (16 - (1 + 1) * 2 + 2) 0xFF9C12 :=
  ((C81_bytes_2D be64_supported (B := 16) (by decide)).2.1 [0x12#8, 0x9C#8, 0xFF#8] 1
    ⟨by unfold Addressable; decide, by decide⟩ (by decide)).1

/-- C81. The 3D accessors on byte vectors: the dynamic storage type works; writing works for all three; the read of the
fixed-depth and static storage types returns the cell if `get_bits` of the vector does not leak (C38), and otherwise the
cell whose number is the eight bits from the start of the level on, which panics unless the five leaked ones are zero.
Missing from the full statement: reads of levels that cross a byte boundary with a non-zero leak. -/
theorem C81_bytes_3D_partial {c : Cfg} (hc : c.Supported) {B : Nat} :
    CellsAreBits 3 octantKey (DynamicStorage.getCellAtLevelUnchecked c) (DynamicStorage.setCellAtLevelUnchecked c)
      leNumber List.length (fun bs : List (BitVec 8) => 8 * bs.length)
      (fun bs => Addressable c (8 * bs.length) ∧ DynWrites c) ∧
    ∀ (x : List (BitVec 8)) (l s : Nat), Addressable c (8 * x.length) → B ≤ 8 * x.length → (l + 1) * 3 ≤ B →
      s = B - (l + 1) * 3 →
      (¬ (0 < (s + 3) % 8 ∧ (s + 3) % 8 < s % 8) → ∃ v,
        FixedDepthStorage.getCellAtLevelUnchecked c B x l = .ok v ∧ StaticStorage.getCellAtLevelUnchecked c B x l = .ok v ∧
        octantKey v = bitsIn s (s + 3) (leNumber x)) ∧
      (0 < (s + 3) % 8 ∧ (s + 3) % 8 < s % 8 →
        (bitsIn (s + 3) (s + 8) (leNumber x) = 0 → ∃ v, FixedDepthStorage.getCellAtLevelUnchecked c B x l = .ok v ∧
          StaticStorage.getCellAtLevelUnchecked c B x l = .ok v ∧ octantKey v = bitsIn s (s + 3) (leNumber x)) ∧
        (bitsIn (s + 3) (s + 8) (leNumber x) ≠ 0 →
          (FixedDepthStorage.getCellAtLevelUnchecked c B x l : Res Octant) = .error .unwrap ∧
          (StaticStorage.getCellAtLevelUnchecked c B x l : Res Octant) = .error .unwrap)) ∧
      ∀ v : Octant, ∃ y, FixedDepthStorage.setCellAtLevelUnchecked c B x l v = .ok y ∧
        StaticStorage.setCellAtLevelUnchecked c B x l v = .ok y ∧ y.length = x.length ∧
        ReplacesBits s (s + 3) (leNumber x) (octantKey v) (leNumber y) := by
  refine ⟨vecCellsDyn hc octantKey_eq, fun x l s h1 h2 hl hs => ?_⟩
  have hl : (l + 1) * dim Octant ≤ B := hl
  have hget := vecGetCells hc x h1 h2 hl (s := s) (e := s + 3) hs rfl
  have hok : ∀ n, n < 2 ^ dim Octant → n = bitsIn s (s + 3) (leNumber x) →
      (FixedDepthStorage.getCellAtLevelUnchecked c B x l : Res Octant) = unwrapResult (Dimension.tryFromUsize n) →
      ∃ v, FixedDepthStorage.getCellAtLevelUnchecked c B x l = .ok v ∧ StaticStorage.getCellAtLevelUnchecked c B x l = .ok v ∧
        octantKey v = bitsIn s (s + 3) (leNumber x) := by
    intro n hn he hg
    rw [unwrap_ofNat hn] at hg
    exact ⟨_, hg, hg, by rw [octantKey_eq, LawfulDim.toUsize_ofNat _ hn, he]⟩
  have hsplit : bitsIn s (s + 8) (leNumber x) = 8 * bitsIn (s + 3) (s + 8) (leNumber x) + bitsIn s (s + 3) (leNumber x) := by
    unfold bitsIn
    rw [Nat.pow_add, ← Nat.div_div_eq_div_mul, show s + 8 - s = 8 by omega, show s + 8 - (s + 3) = 5 by omega,
      show s + 3 - s = 3 by omega]
    generalize leNumber x / 2 ^ s = n
    omega
  have hlt := bitsIn_lt s 3 (leNumber x)
  refine ⟨fun h => ?_, fun h => ⟨fun h0 => ?_, fun h0 => ?_⟩, fun v => ?_⟩
  · rw [if_neg h] at hget
    exact hok _ (bitsIn_lt _ _ _) rfl hget
  · rw [if_pos h] at hget
    refine hok _ ?_ (by rw [hsplit, h0]; omega) hget
    change bitsIn s (s + 8) (leNumber x) < 2 ^ 3
    omega
  · rw [if_pos h] at hget
    have h8 : 8 ≤ bitsIn s (s + 8) (leNumber x) := by omega
    have : unwrapResult (Dimension.tryFromUsize (bitsIn s (s + 8) (leNumber x)) : Except Error Octant) = .error .unwrap := by
      generalize bitsIn s (s + 8) (leNumber x) = n at h8
      match n, h8 with
      | n + 8, _ => rfl
    rw [this] at hget
    exact ⟨hget, hget⟩
  · obtain ⟨y, e1, e2, e3⟩ := vecSetCells hc octantKey_eq x h1 h2 hl v
    subst hs
    exact ⟨y, e1, e1, e2, e3⟩

example : (StaticStorage.getCellAtLevelUnchecked x64 16 [0xFF#8, 0xFF#8] 2 : Res Octant) = .error .unwrap :=
  (((C81_bytes_3D_partial x64_supported (B := 16)).2 [0xFF#8, 0xFF#8] 2 7 (by unfold Addressable; decide) (by decide)
    (by decide) (by decide)).2.1 (by decide)).2 (by decide) |>.2

/-- C81. The 3D reads on byte vectors are not right in general: level 2 of the bytes of `0xFFFF` should be `Seven`. -/
theorem C81_bytes_3D_refuted :
    (StaticStorage.getCellAtLevelUnchecked x64 16 0xFFFF#16 2 : Res Octant) = .ok .Seven ∧
    (StaticStorage.getCellAtLevelUnchecked x64 16 [0xFF#8, 0xFF#8] 2 : Res Octant) = .error .unwrap := by
  decide +kernel

end MortonRs
