import Verif.Props.StorageTypes
import Verif.Lemmas.Foreign

/-! # C86: the storage types in other dimensions

`Dimension` is a public trait and the storage types are generic in it. A comment in `storage.rs` 115 says that reading "only
works up to dimensionality 8". -/

namespace MortonRs

/-- The contract of `Dimension` (`dimensions/mod.rs` 8-31): the cells are the numbers below `2 ^ DIMENSIONALITY`. -/
structure DimensionContract (Cell : Type) [Dimension Cell] : Prop where
  pos : 0 < Dimension.DIMENSIONALITY Cell
  lt : ∀ v : Cell, Dimension.toUsize v < 2 ^ Dimension.DIMENSIONALITY Cell
  back : ∀ v : Cell, Dimension.tryFromUsize (Dimension.toUsize v) = .ok v
  all : ∀ n, n < 2 ^ Dimension.DIMENSIONALITY Cell → ∃ v : Cell, Dimension.toUsize v = n

section generic
variable {c : Cfg} {Cell : Type} [Dimension Cell]

local notation "D" => Dimension.DIMENSIONALITY Cell

theorem DimensionContract.unwrap (h : DimensionContract Cell) {n : Nat} (hn : n < 2 ^ D) :
    ∃ v : Cell, unwrapResult (Dimension.tryFromUsize n : Except Error Cell) = .ok v ∧ Dimension.toUsize v = n := by
  obtain ⟨v, rfl⟩ := h.all n hn
  exact ⟨v, by rw [h.back]; rfl, rfl⟩

theorem anyTypeGet (h : DimensionContract Cell) {T : Type} [Bits T] {B l : Nat} (x : T) (hl : (l + 1) * D ≤ B)
    (hB : B < 2 ^ c.ptrBits) :
    (FixedDepthStorage.getCellAtLevelUnchecked c B x l : Res Cell) = (do
      let b ← Bits.asU8 (← Bits.getBits c x ⟨B - (l + 1) * D, B - (l + 1) * D + D⟩)
      unwrapResult (Dimension.tryFromUsize b.toNat)) := by
  have hD := h.pos
  have hlw : l + 1 ≤ (l + 1) * D := Nat.le_mul_of_pos_right _ hD
  have hDl : D ≤ (l + 1) * D := Nat.le_mul_of_pos_left _ (by omega)
  have a1 : l + 1 < 2 ^ c.ptrBits := by omega
  have a2 : (l + 1) * D < 2 ^ c.ptrBits := by omega
  have a3 : B - (l + 1) * D + D < 2 ^ c.ptrBits := by omega
  unfold FixedDepthStorage.getCellAtLevelUnchecked
  simp only [uadd_ok a1, ok_bind, umul_ok a2, usub_ok hl, uadd_ok a3]

theorem anyTypeSet (h : DimensionContract Cell) {T : Type} [Bits T] {B l : Nat} (x : T) (v : Cell) (hl : (l + 1) * D ≤ B)
    (hB : B < 2 ^ c.ptrBits) :
    FixedDepthStorage.setCellAtLevelUnchecked c B x l v =
      Bits.setBits c x ⟨B - (l + 1) * D, B - (l + 1) * D + D⟩ (Bits.fromUN c (BitVec.ofNat 8 (Dimension.toUsize v))) := by
  have hD := h.pos
  have hlw : l + 1 ≤ (l + 1) * D := Nat.le_mul_of_pos_right _ hD
  have hDl : D ≤ (l + 1) * D := Nat.le_mul_of_pos_left _ (by omega)
  have a1 : l + 1 < 2 ^ c.ptrBits := by omega
  have a2 : (l + 1) * D < 2 ^ c.ptrBits := by omega
  have a3 : B - (l + 1) * D + D < 2 ^ c.ptrBits := by omega
  unfold FixedDepthStorage.setCellAtLevelUnchecked
  simp only [uadd_ok a1, ok_bind, umul_ok a2, usub_ok hl, uadd_ok a3]

theorem two_pow_small {n k : Nat} (h : n ≤ k) : 2 ^ n ≤ 2 ^ k := Nat.pow_le_pow_right (by decide) h

/-- What the accessors of the integer storage types do on integers, whatever the dimension: only the lowest eight bits of a
cell are read and written. -/
theorem anyInt (hc : c.Supported) (h : DimensionContract Cell) {B w : Nat} (hw : IntWidth w) (hB : B ≤ w) (x : BitVec w)
    {l : Nat} (hl : (l + 1) * D ≤ B) :
    (∃ v : Cell, FixedDepthStorage.getCellAtLevelUnchecked c B x l = .ok v ∧
      Dimension.toUsize v = bitsIn (B - (l + 1) * D) (B - (l + 1) * D + D) x.toNat % 256) ∧
    ∀ v : Cell, ∃ y, FixedDepthStorage.setCellAtLevelUnchecked c B x l v = .ok y ∧
      ReplacesBits (B - (l + 1) * D) (B - (l + 1) * D + D) x.toNat (Dimension.toUsize v % 256) y.toNat := by
  have hp := hc.le
  have hwl := hw.le
  have hw1 := hw.pos
  have h8 := hw.mod8
  have hD := h.pos
  have hDl : D ≤ (l + 1) * D := Nat.le_mul_of_pos_left _ (by omega)
  have hBp : B < 2 ^ c.ptrBits := by omega
  have h256 : 256 ≤ 2 ^ w := two_pow_small (n := 8) (by omega)
  refine ⟨?_, fun v => ?_⟩
  · obtain ⟨y, e1, e2⟩ := (C35_integer_get_bits hw c x (s := B - (l + 1) * D) (e := B - (l + 1) * D + D)
      (by omega) (by omega)).1
    have hlt := bitsIn_lt (B - (l + 1) * D) D x.toNat
    have e3 : (y.setWidth 8).toNat = y.toNat % 256 := BitVec.toNat_setWidth ..
    obtain ⟨v, f1, f2⟩ := h.unwrap (n := y.toNat % 256) (Nat.lt_of_le_of_lt (Nat.mod_le _ _) (by omega))
    refine ⟨v, ?_, by rw [f2, e2]⟩
    rw [anyTypeGet h x hl hBp, e1]
    simp only [ok_bind, Bits.asU8, e3]
    exact f1
  · have hv := h.lt v
    have e3 : ((BitVec.ofNat 8 (Dimension.toUsize v)).setWidth w).toNat = Dimension.toUsize v % 256 := by
      rw [BitVec.toNat_setWidth, BitVec.toNat_ofNat]
      exact Nat.mod_eq_of_lt (by omega)
    have e4 : Dimension.toUsize v % 256 ≤ Dimension.toUsize v := Nat.mod_le _ _
    obtain ⟨y, e1, e2, -⟩ := (C35_integer_set_bits hw c x (s := B - (l + 1) * D) (e := B - (l + 1) * D + D)
      (by omega) (by omega) (by omega)).1 ((BitVec.ofNat 8 (Dimension.toUsize v)).setWidth w)
      (by rw [e3, Nat.add_sub_cancel_left]; omega)
    rw [e3] at e2
    exact ⟨y, by rw [anyTypeSet h x v hl hBp]; exact e1, e2⟩

end generic

/-! ## The theorems -/

section theorems
variable {c : Cfg} {Cell : Type} [Dimension Cell]

local notation "D" => Dimension.DIMENSIONALITY Cell

/-- C86. On integers the accessors of the fixed-depth and static storage types work for a dimension if and only if its
dimensionality is at most eight, as the comment says (`D ≤ B`: there is a level at all). -/
theorem C86_integers (hc : c.Supported) (h : DimensionContract Cell) {B w : Nat} (hw : IntWidth w) (hB : B ≤ w)
    (hD : D ≤ B) :
    (CellsAreBits D (Dimension.toUsize (Cell := Cell)) (FixedDepthStorage.getCellAtLevelUnchecked c B)
      (FixedDepthStorage.setCellAtLevelUnchecked c B) (BitVec.toNat : BitVec w → Nat) (fun _ => w) (fun _ => B)
      (fun _ => True) ↔ D ≤ 8) ∧
    (CellsAreBits D (Dimension.toUsize (Cell := Cell)) (StaticStorage.getCellAtLevelUnchecked c B)
      (StaticStorage.setCellAtLevelUnchecked c B) (BitVec.toNat : BitVec w → Nat) (fun _ => w) (fun _ => B)
      (fun _ => True) ↔ D ≤ 8) := by
  refine (and_self_iff (a := _)).mpr ⟨fun H => ?_, fun h8 x l _ hl => ?_⟩
  · apply Decidable.byContradiction
    intro h8
    have h9 : 512 ≤ 2 ^ D := two_pow_small (n := 9) (by omega)
    obtain ⟨v, hv⟩ := h.all 256 (by omega)
    have hl : (0 + 1) * D ≤ B := by omega
    obtain ⟨y, e1, -, e2⟩ := (H 0#w 0 trivial hl).2 v
    obtain ⟨y', f1, f2⟩ := (anyInt hc h hw hB 0#w hl).2 v
    rw [e1] at f1
    cases f1
    have g1 := e2.inside
    have g2 := f2.inside
    rw [g1, hv, Nat.add_sub_cancel_left, Nat.zero_mod, Nat.mod_eq_of_lt (by omega)] at g2
    cases g2
  · obtain ⟨⟨v, e1, e2⟩, e3⟩ := anyInt hc h hw hB x (l := l) hl
    have hp : 2 ^ D ≤ 256 := two_pow_small (k := 8) h8
    refine ⟨⟨v, e1, ?_⟩, fun u => ?_⟩
    · have hlt := bitsIn_lt (B - (l + 1) * D) D x.toNat
      rw [e2, Nat.mod_eq_of_lt (by omega)]
    · obtain ⟨y, f1, f2⟩ := e3 u
      have hlt := h.lt u
      rw [Nat.mod_eq_of_lt (by omega)] at f2
      exact ⟨y, f1, rfl, f2⟩

/-- C86. In larger dimensions the accessors still return, but a cell loses all but its lowest eight bits, both when it is read
and when it is written; the bits of the other levels are not touched. -/
theorem C86_integers_wide (hc : c.Supported) (h : DimensionContract Cell) {B w : Nat} (hw : IntWidth w) (hB : B ≤ w) :
    ∀ (x : BitVec w) (l : Nat), (l + 1) * D ≤ B →
      (∃ v : Cell, FixedDepthStorage.getCellAtLevelUnchecked c B x l = .ok v ∧
        StaticStorage.getCellAtLevelUnchecked c B x l = .ok v ∧
        Dimension.toUsize v = bitsIn (B - (l + 1) * D) (B - (l + 1) * D + D) x.toNat % 256) ∧
      ∀ v : Cell, ∃ y, FixedDepthStorage.setCellAtLevelUnchecked c B x l v = .ok y ∧
        StaticStorage.setCellAtLevelUnchecked c B x l v = .ok y ∧
        ReplacesBits (B - (l + 1) * D) (B - (l + 1) * D + D) x.toNat (Dimension.toUsize v % 256) y.toNat := by
  intro x l hl
  obtain ⟨⟨v, e1, e2⟩, e3⟩ := anyInt hc h hw hB x (l := l) hl
  refine ⟨⟨v, e1, e1, e2⟩, fun u => ?_⟩
  obtain ⟨y, f1, f2⟩ := e3 u
  exact ⟨y, f1, f1, f2⟩

/-- C86. The dynamic storage type has no such limit: on integers it works for every dimension whose cells fit a `usize`. -/
theorem C86_integers_dynamic (hc : c.Supported) (h : DimensionContract Cell) {w : Nat} (hw : IntWidth w)
    (hD : D ≤ c.ptrBits) :
    CellsAreBits D (Dimension.toUsize (Cell := Cell)) (DynamicStorage.getCellAtLevelUnchecked c)
      (DynamicStorage.setCellAtLevelUnchecked c) (BitVec.toNat : BitVec w → Nat) (fun _ => w) (fun _ => w)
      (fun _ => True) := by
  intro x l _ hl
  have hl : (l + 1) * D ≤ w := hl
  have hp := hc.le
  have hwl := hw.le
  have hw1 := hw.pos
  have h8 := hw.mod8
  have hD0 := h.pos
  have hlw : l + 1 ≤ (l + 1) * D := Nat.le_mul_of_pos_right _ hD0
  have hDl : D ≤ (l + 1) * D := Nat.le_mul_of_pos_left _ (by omega)
  have e0 : w / 8 * 8 = w := by omega
  have a0 : w / 8 * 8 < 2 ^ c.ptrBits := by omega
  have a1 : l + 1 < 2 ^ c.ptrBits := by omega
  have a2 : (l + 1) * D < 2 ^ c.ptrBits := by omega
  have a3 : w - (l + 1) * D + D < 2 ^ c.ptrBits := by omega
  have hs : Bits.size x = w / 8 := rfl
  refine ⟨?_, fun v => ?_⟩
  · obtain ⟨y, e1, e2⟩ := (C35_integer_get_bits hw c x (s := w - (l + 1) * D) (e := w - (l + 1) * D + D)
      (by omega) (by omega)).2 (by omega)
    have hlt := bitsIn_lt (w - (l + 1) * D) D x.toNat
    obtain ⟨v, f1, f2⟩ := h.unwrap (n := y.toNat) (by omega)
    refine ⟨v, ?_, by rw [f2, e2]⟩
    unfold DynamicStorage.getCellAtLevelUnchecked
    simp only [hs, umul_ok a0, e0, uadd_ok a1, ok_bind, umul_ok a2, usub_ok hl, uadd_ok a3, e1]
    exact f1
  · have hv := h.lt v
    have hpp : 2 ^ D ≤ 2 ^ c.ptrBits := two_pow_small hD
    have e3 : (BitVec.ofNat c.ptrBits (Dimension.toUsize v)).toNat = Dimension.toUsize v := by
      rw [BitVec.toNat_ofNat]; exact Nat.mod_eq_of_lt (by omega)
    obtain ⟨y, e1, e2, -⟩ := (C35_integer_set_bits hw c x (s := w - (l + 1) * D) (e := w - (l + 1) * D + D)
      (by omega) (by omega) (by omega)).2
      (BitVec.ofNat c.ptrBits (Dimension.toUsize v)) (by rw [e3, Nat.add_sub_cancel_left]; exact hv)
    rw [e3] at e2
    refine ⟨y, ?_, rfl, e2⟩
    unfold DynamicStorage.setCellAtLevelUnchecked
    simp only [hs, umul_ok a0, e0, uadd_ok a1, ok_bind, umul_ok a2, usub_ok hl, uadd_ok a3, e1]

/-- C86. Nor has it one on byte vectors. Reading works on every target. -/
theorem C86_vectors_dynamic_reads (hc : c.Supported) (h : DimensionContract Cell) (hD : D ≤ c.ptrBits)
    (x : List (BitVec 8)) (l : Nat) (hx : Addressable c (8 * x.length)) (hl : (l + 1) * D ≤ 8 * x.length) :
    ∃ v : Cell, DynamicStorage.getCellAtLevelUnchecked c x l = .ok v ∧
      Dimension.toUsize v = bitsIn (8 * x.length - (l + 1) * D) (8 * x.length - (l + 1) * D + D) (leNumber x) := by
  unfold Addressable at hx
  have hD0 := h.pos
  have hlw : l + 1 ≤ (l + 1) * D := Nat.le_mul_of_pos_right _ hD0
  have hDl : D ≤ (l + 1) * D := Nat.le_mul_of_pos_left _ (by omega)
  have e0 : x.length * 8 = 8 * x.length := Nat.mul_comm ..
  have a0 : x.length * 8 < 2 ^ c.ptrBits := by omega
  have a1 : l + 1 < 2 ^ c.ptrBits := by omega
  have a2 : (l + 1) * D < 2 ^ c.ptrBits := by omega
  have a3 : 8 * x.length - (l + 1) * D + D < 2 ^ c.ptrBits := by omega
  have hs : Bits.size x = x.length := rfl
  obtain ⟨y, e1, e2⟩ := C37_vec_get_bits_as_usize hc x (s := 8 * x.length - (l + 1) * D)
    (e := 8 * x.length - (l + 1) * D + D) (by omega) (by omega) (by omega) (by omega)
  have hlt := bitsIn_lt (8 * x.length - (l + 1) * D) D (leNumber x)
  obtain ⟨v, f1, f2⟩ := h.unwrap (n := y.toNat) (by omega)
  refine ⟨v, ?_, by rw [f2, e2]⟩
  unfold DynamicStorage.getCellAtLevelUnchecked
  simp only [hs, umul_ok a0, e0, uadd_ok a1, ok_bind, umul_ok a2, usub_ok hl, uadd_ok a3, e1]
  exact f1

/-- C86. Reading and writing byte vectors (little-endian targets; on big-endian ones writing is wrong already in two
dimensions, C47). -/
theorem C86_vectors_dynamic (hc : c.Supported) (hle : c.bigEndian = false) (h : DimensionContract Cell)
    (hD : D ≤ c.ptrBits) :
    CellsAreBits D (Dimension.toUsize (Cell := Cell)) (DynamicStorage.getCellAtLevelUnchecked c)
      (DynamicStorage.setCellAtLevelUnchecked c) leNumber List.length (fun bs : List (BitVec 8) => 8 * bs.length)
      (fun bs => Addressable c (8 * bs.length)) := by
  intro x l hx hl
  have hl : (l + 1) * D ≤ 8 * x.length := hl
  have hx0 := hx
  unfold Addressable at hx
  have hD0 := h.pos
  have hlw : l + 1 ≤ (l + 1) * D := Nat.le_mul_of_pos_right _ hD0
  have hDl : D ≤ (l + 1) * D := Nat.le_mul_of_pos_left _ (by omega)
  have e0 : x.length * 8 = 8 * x.length := Nat.mul_comm ..
  have a0 : x.length * 8 < 2 ^ c.ptrBits := by omega
  have a1 : l + 1 < 2 ^ c.ptrBits := by omega
  have a2 : (l + 1) * D < 2 ^ c.ptrBits := by omega
  have a3 : 8 * x.length - (l + 1) * D + D < 2 ^ c.ptrBits := by omega
  have hs : Bits.size x = x.length := rfl
  refine ⟨?_, fun v => ?_⟩
  · exact C86_vectors_dynamic_reads hc h hD x l hx0 hl
  · have hv := h.lt v
    have hpp : 2 ^ D ≤ 2 ^ c.ptrBits := two_pow_small hD
    have e3 : (BitVec.ofNat c.ptrBits (Dimension.toUsize v)).toNat = Dimension.toUsize v := by
      rw [BitVec.toNat_ofNat]; exact Nat.mod_eq_of_lt (by omega)
    obtain ⟨y, e1, e2, e4⟩ := C37_vec_set_bits_from_usize hc hle x (BitVec.ofNat c.ptrBits (Dimension.toUsize v))
      (s := 8 * x.length - (l + 1) * D) (e := 8 * x.length - (l + 1) * D + D) (by omega) (by omega) (by omega) (by omega)
    rw [e3] at e4
    refine ⟨y, ?_, e2, e4⟩
    unfold DynamicStorage.setCellAtLevelUnchecked
    simp only [hs, umul_ok a0, e0, uadd_ok a1, ok_bind, umul_ok a2, usub_ok hl, uadd_ok a3, e1]

/-- C86. `MAX_LEVELS` of the integer storage types is the number of levels that fit: the levels below it are those whose bits
lie in the container. -/
theorem C86_max_levels (h : DimensionContract Cell) (B l : Nat) :
    (l < FixedDepthStorage.MAX_LEVELS B Cell ↔ (l + 1) * D ≤ B) ∧ (l < StaticStorage.MAX_LEVELS B Cell ↔ (l + 1) * D ≤ B) ∧
    FixedDepthStorage.maxDepth B Cell = some (B / D) ∧ StaticStorage.maxDepth B Cell = some (B / D) := by
  have := Nat.le_div_iff_mul_le (x := l + 1) (y := B) h.pos
  exact ⟨this, this, rfl, rfl⟩

end theorems

/-- C86. The cell iterator over a storage of any dimension yields its cells from the root on, then `None` forever. -/
theorem C86_cells {S Cell : Type} [Storage S Cell] {c : Cfg} {ok : S → Prop} {view : S → List Cell}
    (h : StorageContract c ok view) :
    ∀ s, ok s → Yields c (Storage.cells s) (view s) ∧ Storage.collectCells c s = .ok (view s) := by
  intro s hs
  have key : ∀ n i, i + n = (view s).length →
      (∀ k, nexts c (n + k) ⟨s, i⟩ = .ok (((view s).drop i).map some ++ List.replicate k none)) ∧
      CellIter.collect c (n + 1) ⟨s, i⟩ = .ok ((view s).drop i) := by
    intro n
    induction n with
    | zero =>
      intro i hi
      have hn : (CellIter.next c (⟨s, i⟩ : CellIter S) : Res (Option Cell × CellIter S)) = .ok (none, ⟨s, i⟩) := by
        simp [CellIter.next, h.depth s hs, ← hi]
      rw [List.drop_eq_nil_of_le (by omega)]
      refine ⟨fun k => ?_, by rw [CellIter.collect, hn]; rfl⟩
      rw [Nat.zero_add]
      induction k with
      | zero => rfl
      | succ k ih =>
        rw [nexts, hn]
        simp only [ok_bind, ih]
        rfl
    | succ n ih =>
      intro i hi
      have hlt : i < (view s).length := by omega
      have hu := h.usize s hs
      have hn : (CellIter.next c (⟨s, i⟩ : CellIter S) : Res (Option Cell × CellIter S)) =
          .ok (some (view s)[i], ⟨s, i + 1⟩) := by
        have h1 : ¬ i = (view s).length := by omega
        have h2 : i + 1 < 2 ^ c.ptrBits := by omega
        simp [CellIter.next, h.depth s hs, h1, uadd_ok h2, h.get s hs i hlt]
      obtain ⟨g1, g2⟩ := ih (i + 1) (by omega)
      rw [List.drop_eq_getElem_cons hlt]
      refine ⟨fun k => ?_, ?_⟩
      · rw [show n + 1 + k = n + k + 1 by omega, nexts, hn]
        simp only [ok_bind, g1]
        rfl
      · rw [CellIter.collect, hn]
        simp only [ok_bind, g2]
        rfl
  obtain ⟨g1, g2⟩ := key (view s).length 0 (by omega)
  refine ⟨fun n => ?_, ?_⟩
  · rw [List.drop_zero] at g1
    exact g1 n
  · rw [Storage.collectCells, h.depth s hs]
    rw [List.drop_zero] at g2
    exact g2

/-! ## A four-dimensional and a nine-dimensional example -/

/-- A dimension of another crate: the cells of `k` dimensions are the numbers below `2 ^ k`. -/
instance finDimension (k : Nat) : Dimension (Fin (2 ^ k)) where
  DIMENSIONALITY := k
  toUsize v := v.val
  tryFromUsize n := if h : n < 2 ^ k then .ok ⟨n, h⟩ else .error .CellIndexOutOfRange

theorem fin_contract {k : Nat} (hk : 0 < k) : DimensionContract (Fin (2 ^ k)) where
  pos := hk
  lt v := v.isLt
  back v := by simp [Dimension.tryFromUsize, Dimension.toUsize]
  all n hn := ⟨⟨n, hn⟩, rfl⟩

example : CellsAreBits 4 (fun v : Fin (2 ^ 4) => v.val) (FixedDepthStorage.getCellAtLevelUnchecked x64 16)
    (FixedDepthStorage.setCellAtLevelUnchecked x64 16) (BitVec.toNat : BitVec 16 → Nat) (fun _ => 16) (fun _ => 16)
    (fun _ => True) :=
  (C86_integers (Cell := Fin (2 ^ 4)) x64_supported (fin_contract (by decide)) (by decide) (by decide) (by decide)).1.mpr
    (by decide)
example : FixedDepthStorage.getCellAtLevelUnchecked x64 16 0xABCD#16 1 = .ok (0xB : Fin (2 ^ 4)) := by decide +kernel
example : FixedDepthStorage.setCellAtLevelUnchecked x64 16 0xABCD#16 2 (7 : Fin (2 ^ 4)) = .ok 0xAB7D#16 := by
  decide +kernel

/-- C86. In nine dimensions: cell 300 is written, cell 44 is read. -/
theorem C86_refuted_nine_dimensions :
    StaticStorage.setCellAtLevelUnchecked x64 64 0#64 0 (300 : Fin (2 ^ 9)) = .ok (44#64 <<< 55) ∧
    StaticStorage.getCellAtLevelUnchecked x64 64 (44#64 <<< 55) 0 = .ok (44 : Fin (2 ^ 9)) ∧
    StaticStorage.getCellAtLevelUnchecked x64 64 (300#64 <<< 55) 0 = .ok (44 : Fin (2 ^ 9)) := by decide +kernel

example : ¬ CellsAreBits 9 (fun v : Fin (2 ^ 9) => v.val) (StaticStorage.getCellAtLevelUnchecked x64 64)
    (StaticStorage.setCellAtLevelUnchecked x64 64) (BitVec.toNat : BitVec 64 → Nat) (fun _ => 64) (fun _ => 64)
    (fun _ => True) := fun H => absurd
  ((C86_integers (Cell := Fin (2 ^ 9)) x64_supported (fin_contract (by decide)) (by decide) (by decide)
    (by decide)).2.mp H) (by decide)

example : ∃ v : Fin (2 ^ 9), StaticStorage.getCellAtLevelUnchecked x64 64 (300#64 <<< 55) 0 = .ok v ∧ v.val = 300 % 256 := by
  obtain ⟨v, -, h1, h2⟩ := (C86_integers_wide (c := x64) (Cell := Fin (2 ^ 9)) x64_supported (fin_contract (by decide))
    (B := 64) (w := 64) (by decide) (by decide) (300#64 <<< 55) 0 (by decide)).1
  exact ⟨v, h1, by rw [show v.val = _ from h2]; decide⟩

example : DynamicStorage.setCellAtLevelUnchecked x64 0#64 0 (300 : Fin (2 ^ 9)) = .ok (300#64 <<< 55) := by decide +kernel
example : ∃ y, DynamicStorage.setCellAtLevelUnchecked x64 0#64 0 (300 : Fin (2 ^ 9)) = .ok y ∧ 64 = 64 ∧
    ReplacesBits (64 - (0 + 1) * 9) (64 - (0 + 1) * 9 + 9) 0 300 y.toNat :=
  ((C86_integers_dynamic (Cell := Fin (2 ^ 9)) x64_supported (fin_contract (by decide)) (w := 64) (by decide)
    (by decide)) 0#64 0 trivial (by decide)).2 300

example : ∃ v : Fin (2 ^ 9), DynamicStorage.getCellAtLevelUnchecked x64 [0x12#8, 0x34#8, 0x56#8] 1 = .ok v ∧
    v.val = bitsIn (24 - (1 + 1) * 9) (24 - (1 + 1) * 9 + 9) 0x563412 :=
  ((C86_vectors_dynamic (c := x64) (Cell := Fin (2 ^ 9)) x64_supported rfl (fin_contract (by decide)) (by decide))
    [0x12#8, 0x34#8, 0x56#8] 1 (by unfold Addressable; decide) (by decide)).1

/-- A big-endian target. -/
example : ∃ v : Fin (2 ^ 9), DynamicStorage.getCellAtLevelUnchecked be64 [0x12#8, 0x34#8, 0x56#8] 1 = .ok v ∧
    v.val = bitsIn 6 15 0x563412 :=
  C86_vectors_dynamic_reads (c := be64) (Cell := Fin (2 ^ 9)) be64_supported (fin_contract (by decide)) (by decide)
    [0x12#8, 0x34#8, 0x56#8] 1 (by unfold Addressable; decide) (by decide)

example : FixedDepthStorage.MAX_LEVELS 64 (Fin (2 ^ 9)) = 7 ∧ (6 < FixedDepthStorage.MAX_LEVELS 64 (Fin (2 ^ 9)) ↔ 63 ≤ 64) :=
  ⟨rfl, (C86_max_levels (Cell := Fin (2 ^ 9)) (fin_contract (by decide)) 64 6).1⟩

/-- A four-dimensional storage of another crate: four levels in the static storage type over `u16`. -/
structure Nibbles where
  bits : BitVec 16
  deriving DecidableEq

instance : Storage Nibbles (Fin (2 ^ 4)) where
  depth _ := 4
  getCellAtLevelUnchecked c s l := StaticStorage.getCellAtLevelUnchecked c 16 s.bits l
  setCellAtLevelUnchecked c s l v := do return ⟨← StaticStorage.setCellAtLevelUnchecked c 16 s.bits l v⟩
  maxDepth := StaticStorage.maxDepth 16 (Fin (2 ^ 4))

/-- The four hexadecimal digits. -/
def Nibbles.digits (s : Nibbles) : List (Fin (2 ^ 4)) :=
  (List.range 4).map fun l => ⟨bitsIn (16 - (l + 1) * 4) (16 - (l + 1) * 4 + 4) s.bits.toNat, bitsIn_lt _ 4 _⟩

theorem ReplacesBits.outside {s e x v y : Nat} (h : ReplacesBits s e x v y) {a b : Nat} (hab : b ≤ s ∨ e ≤ a) :
    bitsIn a b y = bitsIn a b x := by
  apply Nat.eq_of_testBit_eq
  intro i
  rw [testBit_bitsIn, testBit_bitsIn]
  by_cases hi : i < b - a
  · congr 1
    rcases hab with hb | ha
    · have := congrArg (fun n => n.testBit (a + i)) h.below
      simpa [Nat.testBit_mod_two_pow, show a + i < s by omega] using this
    · have := congrArg (fun n => n.testBit (a + i - e)) h.above
      simpa [Nat.testBit_div_two_pow, show a + i - e + e = a + i by omega] using this
  · simp [hi]

theorem nibbles_contract {c : Cfg} (hc : c.Supported) : StorageContract c (fun _ : Nibbles => True) Nibbles.digits := by
  have H := (C86_integers (c := c) (Cell := Fin (2 ^ 4)) hc (fin_contract (by decide)) (B := 16) (w := 16) (by decide)
    (by decide) (by decide)).2.mpr (by decide)
  have hlen : ∀ s : Nibbles, s.digits.length = 4 := fun s => by simp [Nibbles.digits]
  refine ⟨fun s _ => (hlen s).symm, fun s _ => ?_, fun s _ l hl => ?_, fun s _ l v hl => ?_⟩
  · have := hc.le
    rw [hlen]
    omega
  · rw [hlen] at hl
    obtain ⟨v, e1, e2⟩ := (H s.bits l trivial (show (l + 1) * 4 ≤ 16 by omega)).1
    refine e1.trans (congrArg Except.ok (Fin.ext ?_))
    simp only [Nibbles.digits, List.getElem_map, List.getElem_range]
    exact e2
  · rw [hlen] at hl
    obtain ⟨y, e1, -, e2⟩ := (H s.bits l trivial (show (l + 1) * 4 ≤ 16 by omega)).2 v
    refine ⟨⟨y⟩, ?_, trivial, ?_⟩
    · change (do return Nibbles.mk (← StaticStorage.setCellAtLevelUnchecked c 16 s.bits l v)) = _
      rw [e1]
      rfl
    · apply List.ext_getElem
      · rw [List.length_set, hlen, hlen]
      · intro k h1 h2
        rw [hlen] at h1
        apply Fin.ext
        simp only [Nibbles.digits, List.getElem_map, List.getElem_range, List.getElem_set]
        have e2 : ReplacesBits (16 - (l + 1) * 4) (16 - (l + 1) * 4 + 4) s.bits.toNat v.val y.toNat := e2
        split
        · next hk =>
          subst hk
          change bitsIn _ _ y.toNat = v.val
          rw [e2.inside, Nat.add_sub_cancel_left]
          exact Nat.mod_eq_of_lt v.isLt
        · next hk =>
          exact e2.outside (by omega)

example : Storage.collectCells x64 (⟨0xABCD#16⟩ : Nibbles) = .ok [0xA, 0xB, 0xC, 0xD] :=
  (C86_cells (nibbles_contract x64_supported) ⟨0xABCD#16⟩ trivial).2

end MortonRs
