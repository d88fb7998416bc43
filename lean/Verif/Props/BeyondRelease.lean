import Verif.Props.Beyond
import Verif.Props.OutOfRange
import Verif.Props.Examples

/-! # C79 in release builds: unchecked accesses beyond the capacity of an integer

Without overflow checks the address arithmetic wraps around, and so does the shift in `set_bits`, but not the one in `get_bits`. -/

namespace MortonRs

open MortonIndex

/-! ## Statements -/

/-- Two dimensions. A write beyond the capacity `cap` wraps around and changes the cell at the level modulo `cap`; one that
wraps exactly once around the address space combines the bits of the old and the new cell. A read wraps around only at a power of
two, the number of levels that the truncated shift amount can tell apart, and is `Zero` elsewhere. -/
def WrapsAround2D (c : Cfg) (M : Type) [MortonIndex M Quadrant] (w : Nat) : Prop :=
  c.overflowChecks = false → ∀ (m : M) (l : Nat), w / 2 ≤ l → l < 2 ^ c.ptrBits →
    (∀ v, l % 2 ^ (c.ptrBits - 1) ≠ w / 2 →
      setCellAtLevelUnchecked c m l v = setCellAtLevelUnchecked c m (l % (w / 2)) v) ∧
    (∀ v, l % 2 ^ (c.ptrBits - 1) = w / 2 → ∃ old both, getCellAtLevelUnchecked c m 0 = .ok old ∧
      quadrantKey both = quadrantKey old ||| quadrantKey v ∧
      setCellAtLevelUnchecked c m l v = setCellAtLevelUnchecked c m 0 both) ∧
    getCellAtLevelUnchecked c m l =
      if l % 2 ^ (min w (min 32 c.ptrBits) - 1) < w / 2 then
        getCellAtLevelUnchecked c m (l % 2 ^ (min w (min 32 c.ptrBits) - 1))
      else .ok .Zero

/-- Three dimensions, with `s` the wrapped-around number of the first bit of the level. A write beyond the capacity goes to the bits
from `s % w` on, which in general belong to two cells; what is above the highest bit is lost, and bits of the old value stay set if the
end of the level wraps around as well. A read returns the bits from `s` on, with `s` cut to the bits of the integer and to
32 bits, and zeros behind the highest bit. -/
def WrapsAround3D (c : Cfg) (M : Type) [MortonIndex M Octant] (w : Nat) (bits : M → BitVec w) : Prop :=
  c.overflowChecks = false → ∀ (m : M) (l s : Nat), w / 3 ≤ l → l < 2 ^ c.ptrBits →
    s < 2 ^ c.ptrBits → (s + (l + 1) * 3) % 2 ^ c.ptrBits = w →
    (∀ v, ∃ m', setCellAtLevelUnchecked c m l v = .ok m' ∧ depth m' = depth m ∧ ∀ i, i < w → (bits m').getLsbD i =
      if s % w ≤ i ∧ i < s % w + 3 then
        (octantKey v).testBit (i - s % w) || (decide (2 ^ c.ptrBits ≤ s + 3) && (bits m).getLsbD i)
      else (bits m).getLsbD i) ∧
    ∃ o, getCellAtLevelUnchecked c m l = .ok o ∧ octantKey o = (bits m).toNat / 2 ^ (s % 2 ^ min w 32) % 8

/-- Dynamic indices in two dimensions, with `n` bytes. Levels that differ by half the address space are the same; at the first four levels
behind the bytes a read returns `Zero` and a write does nothing, since the end of the range wraps around and the range is empty;
the others panic. -/
def WrapsAroundBytes2D (c : Cfg) : Prop :=
  c.overflowChecks = false → ∀ (m : MortonIndex2D DynamicStorage2D) (n l r : Nat),
    m.storage.bits.length = n → Addressable c (8 * n) →
    l < 2 ^ c.ptrBits → r = l % 2 ^ (c.ptrBits - 1) →
    (r < 4 * n → getCellAtLevelUnchecked c m l = getCellAtLevelUnchecked c m r ∧
      ∀ v, setCellAtLevelUnchecked c m l v = setCellAtLevelUnchecked c m r v) ∧
    (4 * n ≤ r → r < 4 * n + 4 → getCellAtLevelUnchecked c m l = .ok .Zero ∧
      ∀ v, setCellAtLevelUnchecked c m l v = .ok m) ∧
    (4 * n + 4 ≤ r → getCellAtLevelUnchecked c m l = .error .indexOutOfBounds ∧
      ∀ v, setCellAtLevelUnchecked c m l v = .error .indexOutOfBounds)

/-- Dynamic indices in three dimensions, with `n` bytes and `s` the wrapped-around number of the first bit of the level. If the three bits
from there on are inside the bytes, they are read and written; up to ten bits before the end of the address space a read returns
`Zero` and a write does nothing; in between, both panic. -/
def WrapsAroundBytes3D (c : Cfg) : Prop :=
  c.overflowChecks = false → ∀ (m : MortonIndex3D DynamicStorage3D) (n l s : Nat),
    m.storage.bits.length = n → Addressable c (8 * n) →
    l < 2 ^ c.ptrBits → s < 2 ^ c.ptrBits → (s + (l + 1) * 3) % 2 ^ c.ptrBits = 8 * n →
    (s + 3 ≤ 8 * n →
      (∃ o, getCellAtLevelUnchecked c m l = .ok o ∧ octantKey o = bitsIn s (s + 3) (leNumber m.storage.bits)) ∧
      (c.bigEndian = false → ∀ v, ∃ m', setCellAtLevelUnchecked c m l v = .ok m' ∧ depth m' = depth m ∧
        ReplacesBits s (s + 3) (leNumber m.storage.bits) (octantKey v) (leNumber m'.storage.bits))) ∧
    (8 * n < s + 3 → s + 10 < 2 ^ c.ptrBits → getCellAtLevelUnchecked c m l = .error .indexOutOfBounds ∧
      ∀ v, setCellAtLevelUnchecked c m l v = .error .indexOutOfBounds) ∧
    (2 ^ c.ptrBits ≤ s + 10 → getCellAtLevelUnchecked c m l = .ok .Zero ∧
      ∀ v, setCellAtLevelUnchecked c m l v = .ok m)

/-! ## Integers -/

section ints
variable {c : Cfg}

theorem shl_wraps (ho : c.overflowChecks = false) {w : Nat} (x : BitVec w) (s : Nat) : shl c x s = .ok (x <<< (s % w)) := by
  unfold shl
  split
  · next h => rw [Nat.mod_eq_of_lt h]
  · simp [ho]

theorem IntWidth.dvd_two_pow {w : Nat} (hw : IntWidth w) : w ∣ 2 ^ w := by
  rcases hw with rfl | rfl | rfl | rfl | rfl <;> decide

theorem intSetBits_wraps (ho : c.overflowChecks = false) {w : Nat} (hw : IntWidth w) (x v : BitVec w) (s e s' e' : Nat)
    (h1 : s % w = s' % w) (h2 : e - s = e' - s') : intSetBits c x ⟨s, e⟩ v = intSetBits c x ⟨s', e'⟩ v := by
  unfold intSetBits
  simp only [Range.len, shl_wraps ho, h2, Nat.mod_mod_of_dvd _ hw.dvd_two_pow, h1]

theorem intGetBits_wraps {w : Nat} (x : BitVec w) (s e s' e' : Nat)
    (h1 : s % 2 ^ w % 2 ^ 32 = s' % 2 ^ w % 2 ^ 32) (h2 : e - s = e' - s') :
    intGetBits c x ⟨s, e⟩ = intGetBits c x ⟨s', e'⟩ := by
  unfold intGetBits
  simp only [Range.len, h1, h2]

theorem usub_wraps (ho : c.overflowChecks = false) {a b : Nat} (ha : a < 2 ^ c.ptrBits) :
    usub c a b = .ok ((2 ^ c.ptrBits + a - b) % 2 ^ c.ptrBits) := by
  unfold usub
  split
  · next h =>
    rw [Nat.add_sub_assoc h, Nat.add_mod_left, Nat.mod_eq_of_lt (by omega)]
  · simp [ho]

theorem uadd_wraps (ho : c.overflowChecks = false) (a b : Nat) : uadd c a b = .ok ((a + b) % 2 ^ c.ptrBits) := by
  unfold uadd
  split
  · next h => rw [Nat.mod_eq_of_lt h]
  · simp [ho]

theorem umul_wraps (ho : c.overflowChecks = false) (a b : Nat) : umul c a b = .ok ((a * b) % 2 ^ c.ptrBits) := by
  unfold umul
  split
  · next h => rw [Nat.mod_eq_of_lt h]
  · simp [ho]

/-- Where the accessors of a `w`-bit storage look for a level, without overflow checks. -/
def wrappedStart (c : Cfg) (w d l : Nat) : Nat := (2 ^ c.ptrBits + w - (l + 1) * d % 2 ^ c.ptrBits) % 2 ^ c.ptrBits

theorem address_release (ho : c.overflowChecks = false) {w : Nat} (hw : w < 2 ^ c.ptrBits) (l d : Nat) {α : Type}
    (f : Nat → Nat → Res α) :
    (do
      let start ← usub c w (← umul c (← uadd c l 1) d)
      let stop ← uadd c start d
      f start stop) = f (wrappedStart c w d l) ((wrappedStart c w d l + d) % 2 ^ c.ptrBits) := by
  simp only [uadd_wraps ho, umul_wraps ho, ok_bind]
  rw [usub_wraps ho hw, ok_bind]
  have : (l + 1) % 2 ^ c.ptrBits * d % 2 ^ c.ptrBits = (l + 1) * d % 2 ^ c.ptrBits := by
    rw [Nat.mul_mod, Nat.mod_mod, ← Nat.mul_mod]
  rw [this]
  rfl

theorem wrappedStart_inside {w d l : Nat} (hw : w < 2 ^ c.ptrBits) (h : (l + 1) * d ≤ w) : wrappedStart c w d l = w - (l + 1) * d := by
  unfold wrappedStart
  rw [Nat.mod_eq_of_lt (by omega : (l + 1) * d < _), Nat.add_sub_assoc h, Nat.add_mod_left, Nat.mod_eq_of_lt (by omega)]

theorem wrapped2 (hc : c.Supported) {w : Nat} (hw : IntWidth w) (l : Nat) :
    wrappedStart c w 2 l % w = (w - (l % (w / 2) + 1) * 2) % w ∧
    (l % 2 ^ (c.ptrBits - 1) ≠ w / 2 →
      (wrappedStart c w 2 l + 2) % 2 ^ c.ptrBits - wrappedStart c w 2 l = 2) ∧
    (l % 2 ^ (c.ptrBits - 1) = w / 2 → (wrappedStart c w 2 l + 2) % 2 ^ c.ptrBits - wrappedStart c w 2 l = 0) ∧
    (l % 2 ^ (min w (min 32 c.ptrBits) - 1) < w / 2 →
      wrappedStart c w 2 l % 2 ^ w % 2 ^ 32 = w - (l % 2 ^ (min w (min 32 c.ptrBits) - 1) + 1) * 2 ∧
      l % 2 ^ (c.ptrBits - 1) ≠ w / 2) ∧
    (¬ l % 2 ^ (min w (min 32 c.ptrBits) - 1) < w / 2 → w ≤ wrappedStart c w 2 l % 2 ^ w % 2 ^ 32) := by
  obtain ⟨P, o, b⟩ := c
  unfold wrappedStart
  rcases hc with h | h | h <;> simp only at h <;> subst h <;> rcases hw with rfl | rfl | rfl | rfl | rfl <;>
    simp only [Nat.min_def, Nat.reduceLeDiff, if_true, if_false, Nat.reducePow, Nat.reduceDiv, Nat.reduceSub, Nat.reduceAdd] <;>
    refine ⟨?_, ?_, ?_, fun h => ⟨?_, ?_⟩, ?_⟩ <;> omega

end ints

/-! ## Two dimensions -/

section two
variable {c : Cfg}

theorem set_release2 (hc : c.Supported) (ho : c.overflowChecks = false) {w : Nat} (hw : IntWidth w) (x : BitVec w) (l : Nat)
    (v : Quadrant) :
    FixedDepthStorage.setCellAtLevelUnchecked c w x l v =
      intSetBits c x ⟨wrappedStart c w 2 l, (wrappedStart c w 2 l + 2) % 2 ^ c.ptrBits⟩
        ((BitVec.ofNat 8 (Dimension.toUsize v)).setWidth w) := by
  have hp := hc.le
  have hw2 := hw.le
  exact address_release ho (w := w) (by omega) l 2 (fun start stop =>
    intSetBits c x ⟨start, stop⟩ ((BitVec.ofNat 8 (Dimension.toUsize v)).setWidth w))

theorem get_release2 (hc : c.Supported) (ho : c.overflowChecks = false) {w : Nat} (hw : IntWidth w) (x : BitVec w) (l : Nat) :
    (FixedDepthStorage.getCellAtLevelUnchecked c w x l : Res Quadrant) = (do
      let y ← intGetBits c x ⟨wrappedStart c w 2 l, (wrappedStart c w 2 l + 2) % 2 ^ c.ptrBits⟩
      unwrapResult (Dimension.tryFromUsize (y.setWidth 8).toNat)) := by
  have hp := hc.le
  have hw2 := hw.le
  exact address_release ho (w := w) (by omega) l 2 (fun start stop => do
    let y ← intGetBits c x ⟨start, stop⟩
    unwrapResult (Dimension.tryFromUsize (y.setWidth 8).toNat))

theorem inside2 (hc : c.Supported) {w : Nat} (hw : IntWidth w) {k : Nat} (hk : k < w / 2) :
    wrappedStart c w 2 k = w - (k + 1) * 2 ∧
      (wrappedStart c w 2 k + 2) % 2 ^ c.ptrBits - wrappedStart c w 2 k = 2 := by
  have hp := hc.le
  have hw2 := hw.le
  have h1 : wrappedStart c w 2 k = w - (k + 1) * 2 := wrappedStart_inside (by omega) (by omega)
  rw [h1]
  refine ⟨rfl, ?_⟩
  rw [Nat.mod_eq_of_lt (by omega)]
  omega

theorem set_wraps2 (hc : c.Supported) (ho : c.overflowChecks = false) {w : Nat} (hw : IntWidth w) (x : BitVec w) (l : Nat) (v : Quadrant)
    (h : l % 2 ^ (c.ptrBits - 1) ≠ w / 2) :
    FixedDepthStorage.setCellAtLevelUnchecked c w x l v = FixedDepthStorage.setCellAtLevelUnchecked c w x (l % (w / 2)) v := by
  obtain ⟨h1, h2, -⟩ := wrapped2 hc hw l
  have hw0 : 0 < w / 2 := by rcases hw with rfl | rfl | rfl | rfl | rfl <;> decide
  obtain ⟨h3, h4⟩ := inside2 hc hw (Nat.mod_lt l hw0)
  rw [set_release2 hc ho hw, set_release2 hc ho hw]
  exact intSetBits_wraps ho hw _ _ _ _ _ _ (by rw [h1, h3]) (by rw [h2 h, h4])

theorem set_once2 (hc : c.Supported) (ho : c.overflowChecks = false) {w : Nat} (hw : IntWidth w) (x : BitVec w) (l : Nat) (v : Quadrant)
    (h : l % 2 ^ (c.ptrBits - 1) = w / 2) :
    ∃ old both : Quadrant, FixedDepthStorage.getCellAtLevelUnchecked c w x 0 = .ok old ∧
      quadrantKey both = quadrantKey old ||| quadrantKey v ∧
      FixedDepthStorage.setCellAtLevelUnchecked c w x l v = FixedDepthStorage.setCellAtLevelUnchecked c w x 0 both := by
  obtain ⟨h1, -, h2, -⟩ := wrapped2 hc hw l
  have hw0 : 0 < w / 2 := by rcases hw with rfl | rfl | rfl | rfl | rfl <;> decide
  have hw8 : 8 ≤ w ∧ w < 2 ^ 32 := ⟨by rcases hw with rfl | rfl | rfl | rfl | rfl <;> decide,
    by rcases hw with rfl | rfl | rfl | rfl | rfl <;> decide⟩
  have hl0 : l % (w / 2) = 0 := by
    rw [← Nat.mod_mod_of_dvd l (c := w / 2) (b := 2 ^ (c.ptrBits - 1)), h, Nat.mod_self]
    rcases hc with e | e | e <;> rw [e] <;> rcases hw with rfl | rfl | rfl | rfl | rfl <;> decide
  obtain ⟨h3, h4⟩ := inside2 hc hw hw0
  have hd : digit 2 x.toNat w 0 < 4 := digit_lt 2 _ _ _
  have hkey : quadrantKey (quadrantOfNat (digit 2 x.toNat w 0 ||| quadrantKey v)) = digit 2 x.toNat w 0 ||| quadrantKey v :=
    LawfulDim.toUsize_ofNat (Cell := Quadrant) _ (Nat.or_lt_two_pow (n := 2) hd (by cases v <;> decide))
  refine ⟨_, quadrantOfNat (digit 2 x.toNat w 0 ||| quadrantKey v),
    intGet_ok (Cell := Quadrant) hc hw x 0 (by change (0 + 1) * 2 ≤ w; omega), ?_, ?_⟩
  · rw [hkey]
    congr 1
    exact (LawfulDim.toUsize_ofNat (Cell := Quadrant) _ hd).symm
  · rw [set_release2 hc ho hw, set_release2 hc ho hw]
    rw [intSetBits_wraps ho hw _ _ _ _ (w - 2) (w - 2) (by rw [h1, hl0]) (by rw [h2 h]; omega),
      intSetBits_wraps ho hw x _ (wrappedStart c w 2 0) _ (w - 2) w (by rw [h3]) (by rw [h4]; omega)]
    obtain ⟨y, e1, e2⟩ := intSetBits_ok (c := c) x (w - 2) (w - 2) ((BitVec.ofNat 8 (Dimension.toUsize v)).setWidth w)
      hw8.2 (by omega) (by omega)
    obtain ⟨z, f1, f2⟩ := intSetBits_ok (c := c) x (w - 2) w ((BitVec.ofNat 8 (Dimension.toUsize
      (quadrantOfNat (digit 2 x.toNat w 0 ||| quadrantKey v)))).setWidth w) hw8.2 (by omega) (by omega)
    rw [e1, f1]
    congr 1
    apply BitVec.eq_of_getLsbD_eq
    intro i hi
    rw [e2 i hi, f2 i hi]
    split
    · next hi2 =>
      have hj : i - (w - 2) < 2 := by omega
      rw [if_neg (by omega), if_pos (by omega), BitVec.getLsbD_setWidth, BitVec.getLsbD_setWidth, BitVec.getLsbD_ofNat,
        BitVec.getLsbD_ofNat, show Dimension.toUsize (quadrantOfNat (digit 2 x.toNat w 0 ||| quadrantKey v)) = _ from hkey,
        Nat.testBit_or, testBit_digit, getLsbD_eq_testBit, decide_eq_true hj, decide_eq_true (by omega : i - (w - 2) < 8),
        decide_eq_true (by omega : i - (w - 2) < w)]
      simp only [Bool.true_and]
      congr 2
      omega
    · rfl

theorem get_wraps2 (hc : c.Supported) (ho : c.overflowChecks = false) {w : Nat} (hw : IntWidth w) (x : BitVec w) (l : Nat) :
    FixedDepthStorage.getCellAtLevelUnchecked c w x l =
      if l % 2 ^ (min w (min 32 c.ptrBits) - 1) < w / 2 then
        FixedDepthStorage.getCellAtLevelUnchecked c w x (l % 2 ^ (min w (min 32 c.ptrBits) - 1))
      else .ok Quadrant.Zero := by
  obtain ⟨-, h2, h2', h3, h4⟩ := wrapped2 hc hw l
  have hw8 : 8 ≤ w := by rcases hw with rfl | rfl | rfl | rfl | rfl <;> decide
  rw [get_release2 hc ho hw]
  split
  · next h =>
    obtain ⟨e1, e2⟩ := h3 h
    obtain ⟨e3, e4⟩ := inside2 hc hw h
    rw [get_release2 hc ho hw]
    rw [intGetBits_wraps x (wrappedStart c w 2 l) _ (wrappedStart c w 2 (l % 2 ^ (min w (min 32 c.ptrBits) - 1)))
      ((wrappedStart c w 2 (l % 2 ^ (min w (min 32 c.ptrBits) - 1)) + 2) % 2 ^ c.ptrBits) _ (by rw [h2 e2, e4])]
    rw [e1, e3]
    have : w < 2 ^ w := Nat.lt_two_pow_self
    have : w < 2 ^ 32 := by rcases hw with rfl | rfl | rfl | rfl | rfl <;> decide
    rw [Nat.mod_eq_of_lt (by omega : _ < 2 ^ w), Nat.mod_eq_of_lt (by omega : _ < 2 ^ 32)]
  · next h =>
    have hlen : (wrappedStart c w 2 l + 2) % 2 ^ c.ptrBits - wrappedStart c w 2 l ≤ w := by
      by_cases e : l % 2 ^ (c.ptrBits - 1) = w / 2
      · rw [h2' e]; omega
      · rw [h2 e]; omega
    have : intGetBits c x ⟨wrappedStart c w 2 l, (wrappedStart c w 2 l + 2) % 2 ^ c.ptrBits⟩ = .ok 0#w := by
      simp only [intGetBits, Range.len, usub_ok hlen, ok_bind, pure_eq_ok, checkedShr, if_neg (Nat.not_lt.mpr (h4 h)), Option.getD_none]
      rw [BitVec.zero_and]
    rw [this, ok_bind, BitVec.setWidth_zero]
    rfl

theorem C79_release_2D (hc : c.Supported) {w : Nat} (hw : IntWidth w) :
    WrapsAround2D c (MortonIndex2D (FixedDepthStorage2D w)) w ∧ WrapsAround2D c (MortonIndex2D (StaticStorage2D w)) w := by
  constructor
  · intro ho m l _ _
    refine ⟨fun v h => ?_, fun v h => ?_, get_wraps2 hc ho hw m.storage.bits l⟩
    · change (do let s ← (do let bits ← FixedDepthStorage.setCellAtLevelUnchecked c w m.storage.bits l v; pure _); pure _) = _
      rw [set_wraps2 hc ho hw _ _ _ h]
      rfl
    · obtain ⟨old, both, h1, h2, h3⟩ := set_once2 hc ho hw m.storage.bits l v h
      refine ⟨old, both, h1, h2, ?_⟩
      change (do let s ← (do let bits ← FixedDepthStorage.setCellAtLevelUnchecked c w m.storage.bits l v; pure _); pure _) = _
      rw [h3]
      rfl
  · intro ho m l _ _
    refine ⟨fun v h => ?_, fun v h => ?_, get_wraps2 hc ho hw m.storage.bits l⟩
    · change (do let s ← (do let bits ← FixedDepthStorage.setCellAtLevelUnchecked c w m.storage.bits l v; pure _); pure _) = _
      rw [set_wraps2 hc ho hw _ _ _ h]
      rfl
    · obtain ⟨old, both, h1, h2, h3⟩ := set_once2 hc ho hw m.storage.bits l v h
      refine ⟨old, both, h1, h2, ?_⟩
      change (do let s ← (do let bits ← FixedDepthStorage.setCellAtLevelUnchecked c w m.storage.bits l v; pure _); pure _) = _
      rw [h3]
      rfl

end two

/-! ## Three dimensions -/

section three
variable {c : Cfg}

theorem wrapped3 (hc : c.Supported) {w : Nat} (hw : IntWidth w) {l s : Nat} (hs : s < 2 ^ c.ptrBits)
    (h : (s + (l + 1) * 3) % 2 ^ c.ptrBits = w) :
    wrappedStart c w 3 l = s ∧ (s + 3) % 2 ^ c.ptrBits - s = (if 2 ^ c.ptrBits ≤ s + 3 then 0 else 3) ∧
    s % 2 ^ w % 2 ^ 32 = s % 2 ^ min w 32 ∧ (2 ^ c.ptrBits ≤ s + 3 → w ≤ s % 2 ^ w % 2 ^ 32) := by
  have h4 : 2 ^ c.ptrBits ≤ s + 3 → w ≤ s % 2 ^ w % 2 ^ 32 := by
    intro hN
    obtain ⟨j, hj, rfl⟩ : ∃ j, j < 3 ∧ s = 2 ^ c.ptrBits - 3 + j := ⟨s - (2 ^ c.ptrBits - 3), by omega, by omega⟩
    have hj : j = 0 ∨ j = 1 ∨ j = 2 := by omega
    rcases hc with e | e | e <;> rw [e] <;> rcases hw with rfl | rfl | rfl | rfl | rfl <;> rcases hj with rfl | rfl | rfl <;> decide
  refine ⟨?_, ?_, ?_, h4⟩
  · obtain ⟨P, o, b⟩ := c
    unfold wrappedStart
    rcases hc with e | e | e <;> simp only at e <;> subst e <;> rcases hw with rfl | rfl | rfl | rfl | rfl <;>
      simp only [Nat.reducePow] at hs h ⊢ <;> omega
  · have := hc.le
    split
    · next hN => rw [show s + 3 = (s + 3 - 2 ^ c.ptrBits) + 2 ^ c.ptrBits by omega, Nat.add_mod_right, Nat.mod_eq_of_lt (by omega)]; omega
    · next hN => rw [Nat.mod_eq_of_lt (by omega)]; omega
  · rcases hw with rfl | rfl | rfl | rfl | rfl <;> simp only [Nat.min_def, Nat.reduceLeDiff, if_true, if_false, Nat.reducePow] <;> omega

theorem set_wraps3 (hc : c.Supported) (ho : c.overflowChecks = false) {w : Nat} (hw : IntWidth w) (x : BitVec w) {l s : Nat}
    (hs : s < 2 ^ c.ptrBits) (h : (s + (l + 1) * 3) % 2 ^ c.ptrBits = w) (v : Octant) :
    ∃ y, FixedDepthStorage.setCellAtLevelUnchecked c w x l v = .ok y ∧ ∀ i, i < w → y.getLsbD i =
      if s % w ≤ i ∧ i < s % w + 3 then
        (octantKey v).testBit (i - s % w) || (decide (2 ^ c.ptrBits ≤ s + 3) && x.getLsbD i)
      else x.getLsbD i := by
  have hp := hc.le
  have hw2 := hw.le
  have hw8 : 8 ≤ w ∧ w < 2 ^ 32 := ⟨by rcases hw with rfl | rfl | rfl | rfl | rfl <;> decide,
    by rcases hw with rfl | rfl | rfl | rfl | rfl <;> decide⟩
  obtain ⟨h1, h2, -⟩ := wrapped3 hc hw hs h
  have e : FixedDepthStorage.setCellAtLevelUnchecked c w x l v = _ :=
    address_release ho (w := w) (by omega) l 3 (fun start stop =>
      intSetBits c x ⟨start, stop⟩ ((BitVec.ofNat 8 (Dimension.toUsize v)).setWidth w))
  rw [e, h1, intSetBits_wraps ho hw x _ s _ (s % w) (s % w + (if 2 ^ c.ptrBits ≤ s + 3 then 0 else 3)) (Nat.mod_mod ..).symm
    (by rw [h2]; omega)]
  have hsw : s % w < w := Nat.mod_lt _ (by omega)
  obtain ⟨y, e1, e2⟩ := intSetBits_ok (c := c) x (s % w) (s % w + (if 2 ^ c.ptrBits ≤ s + 3 then 0 else 3))
    ((BitVec.ofNat 8 (Dimension.toUsize v)).setWidth w) hw8.2 (by split <;> omega) hsw
  refine ⟨y, e1, fun i hi => ?_⟩
  rw [e2 i hi]
  have hv : ((BitVec.ofNat 8 (Dimension.toUsize v)).setWidth w).getLsbD (i - s % w) = (octantKey v).testBit (i - s % w) := by
    have h8 : octantKey v < 2 ^ 3 := by cases v <;> decide
    rw [BitVec.getLsbD_setWidth, BitVec.getLsbD_ofNat, decide_eq_true (by omega : i - s % w < w), Bool.true_and]
    by_cases hj : i - s % w < 8
    · rw [decide_eq_true hj]; rfl
    · rw [decide_eq_false hj, Bool.false_and]
      exact (Nat.testBit_lt_two_pow (Nat.lt_of_lt_of_le h8 (Nat.pow_le_pow_right (by omega) (by omega)))).symm
  have hv0 : ¬ i < s % w + 3 → (octantKey v).testBit (i - s % w) = false := fun hi3 => by
    have h8 : octantKey v < 2 ^ 3 := by cases v <;> decide
    exact Nat.testBit_lt_two_pow (Nat.lt_of_lt_of_le h8 (Nat.pow_le_pow_right (by omega) (by omega)))
  rw [hv]
  by_cases a1 : s % w ≤ i
  · by_cases a2 : i < s % w + 3
    · by_cases a3 : 2 ^ c.ptrBits ≤ s + 3
      · rw [if_pos a1, if_pos a3, if_neg (by omega), if_pos ⟨a1, a2⟩, decide_eq_true a3, Bool.true_and, Bool.or_comm]
      · rw [if_pos a1, if_neg a3, if_pos (by omega), if_pos ⟨a1, a2⟩, decide_eq_false a3, Bool.false_and, Bool.or_false]
    · rw [if_pos a1, if_neg (by split <;> omega), if_neg (by omega), hv0 a2, Bool.or_false]
  · rw [if_neg a1, if_neg (by omega)]

theorem get_wraps3 (hc : c.Supported) (ho : c.overflowChecks = false) {w : Nat} (hw : IntWidth w) (x : BitVec w) {l s : Nat}
    (hs : s < 2 ^ c.ptrBits) (h : (s + (l + 1) * 3) % 2 ^ c.ptrBits = w) :
    ∃ o : Octant, FixedDepthStorage.getCellAtLevelUnchecked c w x l = .ok o ∧ octantKey o = x.toNat / 2 ^ (s % 2 ^ min w 32) % 8 := by
  have hp := hc.le
  have hw2 := hw.le
  have hw8 : 8 ≤ w ∧ w < 2 ^ 32 := ⟨by rcases hw with rfl | rfl | rfl | rfl | rfl <;> decide,
    by rcases hw with rfl | rfl | rfl | rfl | rfl <;> decide⟩
  obtain ⟨h1, h2, h3, h4⟩ := wrapped3 hc hw hs h
  have hlt : x.toNat / 2 ^ (s % 2 ^ min w 32) % 8 < 2 ^ 3 := Nat.mod_lt _ (by decide)
  refine ⟨octantOfNat (x.toNat / 2 ^ (s % 2 ^ min w 32) % 8), ?_, LawfulDim.toUsize_ofNat (Cell := Octant) _ hlt⟩
  have e : (FixedDepthStorage.getCellAtLevelUnchecked c w x l : Res Octant) = _ :=
    address_release ho (w := w) (by omega) l 3 (fun start stop => do
      let y ← intGetBits c x ⟨start, stop⟩
      unwrapResult (Dimension.tryFromUsize (y.setWidth 8).toNat))
  have hs1 : s % 2 ^ w % 2 ^ 32 < 2 ^ 32 := Nat.mod_lt _ (by decide)
  have hs2 : s % 2 ^ w % 2 ^ 32 < 2 ^ w := Nat.lt_of_le_of_lt (Nat.mod_le _ _) (Nat.mod_lt _ (Nat.two_pow_pos _))
  rw [e, h1, intGetBits_wraps x s _ (s % 2 ^ w % 2 ^ 32) (s % 2 ^ w % 2 ^ 32 + (if 2 ^ c.ptrBits ≤ s + 3 then 0 else 3))
    (by rw [Nat.mod_eq_of_lt hs2, Nat.mod_eq_of_lt hs1]) (by rw [h2]; omega)]
  obtain ⟨y, e1, e2⟩ := intGetBits_ok (c := c) x (s % 2 ^ w % 2 ^ 32)
    (s % 2 ^ w % 2 ^ 32 + (if 2 ^ c.ptrBits ≤ s + 3 then 0 else 3)) hw8.2 (by split <;> omega) hs2 hs1
  have hy : (y.setWidth 8).toNat = x.toNat / 2 ^ (s % 2 ^ min w 32) % 8 := by
    apply Nat.eq_of_testBit_eq
    intro j
    rw [← getLsbD_eq_testBit, BitVec.getLsbD_setWidth, e2, show (8 : Nat) = 2 ^ 3 from rfl, Nat.testBit_mod_two_pow,
      Nat.testBit_div_two_pow, ← h3, getLsbD_eq_testBit, Nat.add_comm j]
    by_cases hj : j < 3
    · rw [decide_eq_true hj, decide_eq_true (by omega : j < 2 ^ 3), Bool.true_and, Bool.true_and]
      split
      · next hN =>
        rw [← getLsbD_eq_testBit, BitVec.getLsbD_of_ge x _ (by have := h4 hN; omega), Bool.and_false]
      · rw [decide_eq_true (by omega), Bool.true_and]
    · rw [decide_eq_false hj, Bool.false_and]
      rw [Nat.add_sub_cancel_left]
      split
      · simp
      · simp [hj]
  rw [e1, ok_bind, hy, show (Dimension.tryFromUsize _ : Except Error Octant) = _ from LawfulDim.tryFrom_ok _ hlt]
  rfl

theorem C79_release_3D (hc : c.Supported) {w : Nat} (hw : IntWidth w) :
    WrapsAround3D c (MortonIndex3D (FixedDepthStorage3D w)) w (fun m => m.storage.bits) ∧
    WrapsAround3D c (MortonIndex3D (StaticStorage3D w)) w (fun m => m.storage.bits) := by
  constructor
  · intro ho m l s _ _ hs h
    refine ⟨fun v => ?_, get_wraps3 hc ho hw m.storage.bits hs h⟩
    obtain ⟨y, h1, h2⟩ := set_wraps3 hc ho hw m.storage.bits hs h v
    refine ⟨⟨{ m.storage with bits := y }⟩, ?_, rfl, h2⟩
    change (do let s ← (do let bits ← FixedDepthStorage.setCellAtLevelUnchecked c w m.storage.bits l v; pure _); pure _) = _
    rw [h1]
    rfl
  · intro ho m l s _ _ hs h
    refine ⟨fun v => ?_, get_wraps3 hc ho hw m.storage.bits hs h⟩
    obtain ⟨y, h1, h2⟩ := set_wraps3 hc ho hw m.storage.bits hs h v
    refine ⟨⟨{ m.storage with bits := y }⟩, ?_, rfl, h2⟩
    change (do let s ← (do let bits ← FixedDepthStorage.setCellAtLevelUnchecked c w m.storage.bits l v; pure _); pure _) = _
    rw [h1]
    rfl

end three

/-! ## Byte vectors -/

section bytes
variable {c : Cfg}

theorem forRange_empty {σ : Type} {a b : Nat} (h : b ≤ a) (init : σ) (body : Nat → σ → Res σ) :
    forRange a b init body = .ok init := by
  unfold forRange
  rw [Nat.sub_eq_zero_of_le h]
  rfl

theorem bytes_address_release (ho : c.overflowChecks = false) {n : Nat} (hn : Addressable c (8 * n)) (l d : Nat) {α : Type}
    (f : Nat → Nat → Res α) :
    (do
      let start ← usub c (← umul c n 8) (← umul c (← uadd c l 1) d)
      let stop ← uadd c start d
      f start stop) = f (wrappedStart c (8 * n) d l) ((wrappedStart c (8 * n) d l + d) % 2 ^ c.ptrBits) := by
  unfold Addressable at hn
  rw [umul_ok (by omega), ok_bind, Nat.mul_comm n 8]
  exact address_release ho (by omega) l d f

theorem bytes_get_release {Cell : Type} [Dimension Cell] (ho : c.overflowChecks = false) {bs : List (BitVec 8)}
    (hn : Addressable c (8 * bs.length)) (l : Nat) :
    (DynamicStorage.getCellAtLevelUnchecked c bs l : Res Cell) = (do
      let y ← vecGetBitsAsUsize c bs ⟨wrappedStart c (8 * bs.length) (Dimension.DIMENSIONALITY Cell) l,
        (wrappedStart c (8 * bs.length) (Dimension.DIMENSIONALITY Cell) l + Dimension.DIMENSIONALITY Cell) % 2 ^ c.ptrBits⟩
      unwrapResult (Dimension.tryFromUsize y.toNat)) :=
  bytes_address_release ho hn l (Dimension.DIMENSIONALITY Cell) (fun start stop => do
    let y ← vecGetBitsAsUsize c bs ⟨start, stop⟩
    unwrapResult (Dimension.tryFromUsize y.toNat))

theorem bytes_set_release {Cell : Type} [Dimension Cell] (ho : c.overflowChecks = false) {bs : List (BitVec 8)}
    (hn : Addressable c (8 * bs.length)) (l : Nat) (v : Cell) :
    DynamicStorage.setCellAtLevelUnchecked c bs l v =
      vecSetBitsFromUsize c bs ⟨wrappedStart c (8 * bs.length) (Dimension.DIMENSIONALITY Cell) l,
        (wrappedStart c (8 * bs.length) (Dimension.DIMENSIONALITY Cell) l + Dimension.DIMENSIONALITY Cell) % 2 ^ c.ptrBits⟩
        (BitVec.ofNat c.ptrBits (Dimension.toUsize v)) :=
  bytes_address_release ho hn l (Dimension.DIMENSIONALITY Cell) (fun start stop =>
    vecSetBitsFromUsize c bs ⟨start, stop⟩ (BitVec.ofNat c.ptrBits (Dimension.toUsize v)))

/-- An end that wraps around, or would when rounded up to bytes: no byte is visited. -/
theorem bytes_empty (hc : c.Supported) (ho : c.overflowChecks = false) (bs : List (BitVec 8)) {s d : Nat} (hs : s < 2 ^ c.ptrBits)
    (hd : d ≤ 3) (h : 2 ^ c.ptrBits ≤ s + d + 7) :
    vecGetBitsAsUsize c bs ⟨s, (s + d) % 2 ^ c.ptrBits⟩ = .ok 0#c.ptrBits ∧
    ∀ v, vecSetBitsFromUsize c bs ⟨s, (s + d) % 2 ^ c.ptrBits⟩ v = .ok bs := by
  have hp := hc.le
  have hle : ((s + d) % 2 ^ c.ptrBits + 7) % 2 ^ c.ptrBits / 8 ≤ s / 8 := by
    rw [← Nat.mod_eq_of_lt (by omega : 7 < 2 ^ c.ptrBits), ← Nat.add_mod,
      Nat.mod_eq_sub_mod h, Nat.mod_eq_of_lt (by omega)]
    omega
  constructor
  · unfold vecGetBitsAsUsize
    simp only [uadd_wraps ho, ok_bind, forRange_empty hle]
    rfl
  · intro v
    unfold vecSetBitsFromUsize setVecU8Bits
    simp only [uadd_wraps ho, ok_bind, forRange_empty hle]
    rfl

theorem bytes_panic (hc : c.Supported) (bs : List (BitVec 8)) {s d : Nat} (hd : 0 < d ∧ d ≤ 3)
    (h1 : 8 * bs.length < s + d) (h2 : s + d + 7 < 2 ^ c.ptrBits) :
    vecGetBitsAsUsize c bs ⟨s, (s + d) % 2 ^ c.ptrBits⟩ = .error .indexOutOfBounds ∧
    ∀ v, vecSetBitsFromUsize c bs ⟨s, (s + d) % 2 ^ c.ptrBits⟩ v = .error .indexOutOfBounds := by
  have h16 : 16 ≤ c.ptrBits := by rcases hc with h | h | h <;> omega
  rw [Nat.mod_eq_of_lt (by omega)]
  obtain ⟨-, e1, -, e2⟩ := C76_vec_panics_partial hc bs (s := s) (e := s + d) (by omega) h1 h2
  exact ⟨e1 (by omega), e2 (by omega)⟩

theorem wrappedStart_lt (w d l : Nat) : wrappedStart c w d l < 2 ^ c.ptrBits := Nat.mod_lt _ (Nat.two_pow_pos _)

theorem C79_release_dynamic_2D (hc : c.Supported) : WrapsAroundBytes2D c := by
  intro ho m n l r hn ha _ hr
  subst hn
  have hs := wrappedStart_lt (c := c) (8 * m.storage.bits.length) 2 l
  have ha' : 8 * m.storage.bits.length + 64 < 2 ^ c.ptrBits := ha
  have key : (r < 4 * m.storage.bits.length →
        wrappedStart c (8 * m.storage.bits.length) 2 l = wrappedStart c (8 * m.storage.bits.length) 2 r) ∧
      (4 * m.storage.bits.length ≤ r →
        wrappedStart c (8 * m.storage.bits.length) 2 l + (r + 1 - 4 * m.storage.bits.length) * 2 = 2 ^ c.ptrBits) := by
    clear ho
    obtain ⟨P, o, b⟩ := c
    subst hr
    unfold wrappedStart
    rcases hc with e | e | e <;> simp only at e <;> subst e <;> simp only [Nat.reducePow, Nat.reduceSub] at ha' ⊢ <;> omega
  refine ⟨fun h => ?_, fun h1 h2 => ?_, fun h => ?_⟩
  · have hg : (DynamicStorage.getCellAtLevelUnchecked c m.storage.bits l : Res Quadrant) =
        DynamicStorage.getCellAtLevelUnchecked c m.storage.bits r := by
      rw [bytes_get_release ho ha, bytes_get_release ho ha]
      change (do let y ← vecGetBitsAsUsize c m.storage.bits ⟨wrappedStart c _ 2 l, (wrappedStart c _ 2 l + 2) % _⟩; _) = _
      rw [key.1 h]
      rfl
    refine ⟨hg, fun v => ?_⟩
    have hv : DynamicStorage.setCellAtLevelUnchecked c m.storage.bits l v =
        DynamicStorage.setCellAtLevelUnchecked c m.storage.bits r v := by
      rw [bytes_set_release ho ha, bytes_set_release ho ha]
      change vecSetBitsFromUsize c m.storage.bits ⟨wrappedStart c _ 2 l, (wrappedStart c _ 2 l + 2) % _⟩ _ = _
      rw [key.1 h]
      rfl
    change (do let s ← (do let bits ← DynamicStorage.setCellAtLevelUnchecked c m.storage.bits l v; pure _); pure _) = _
    rw [hv]
    rfl
  · have hk := key.2 h1
    obtain ⟨e1, e2⟩ := bytes_empty hc ho m.storage.bits hs (d := 2) (by omega) (by omega)
    refine ⟨(bytes_get_release (Cell := Quadrant) ho ha l).trans ?_, fun v => ?_⟩
    · change (do let y ← vecGetBitsAsUsize c m.storage.bits ⟨wrappedStart c _ 2 l, (wrappedStart c _ 2 l + 2) % _⟩; _) = _
      rw [e1]
      simp only [ok_bind, BitVec.toNat_zero]
      rfl
    · change (do let s ← (do let bits ← DynamicStorage.setCellAtLevelUnchecked c m.storage.bits l v; pure _); pure _) = _
      rw [show DynamicStorage.setCellAtLevelUnchecked c m.storage.bits l v = _ from (bytes_set_release ho ha l v).trans (e2 _)]
      rfl
  · have hk := key.2 (by omega)
    have hP : 2 ^ c.ptrBits = 2 * 2 ^ (c.ptrBits - 1) := by
      rcases hc with e | e | e <;> rw [e]
    have hr2 : r < 2 ^ (c.ptrBits - 1) := hr ▸ Nat.mod_lt _ (Nat.two_pow_pos _)
    obtain ⟨e1, e2⟩ := bytes_panic hc m.storage.bits (s := wrappedStart c (8 * m.storage.bits.length) 2 l) (d := 2)
      (by omega) (by omega) (by omega)
    refine ⟨(bytes_get_release (Cell := Quadrant) ho ha l).trans ?_, fun v => ?_⟩
    · change (do let y ← vecGetBitsAsUsize c m.storage.bits ⟨wrappedStart c _ 2 l, (wrappedStart c _ 2 l + 2) % _⟩; _) = _
      rw [e1]
      rfl
    · change (do let s ← (do let bits ← DynamicStorage.setCellAtLevelUnchecked c m.storage.bits l v; pure _); pure _) = _
      rw [show DynamicStorage.setCellAtLevelUnchecked c m.storage.bits l v = _ from (bytes_set_release ho ha l v).trans (e2 _)]
      rfl

theorem C79_release_dynamic_3D (hc : c.Supported) : WrapsAroundBytes3D c := by
  intro ho m n l s hn ha _ hs heq
  subst hn
  have h16 : 16 ≤ c.ptrBits := by rcases hc with h | h | h <;> omega
  have ha' : 8 * m.storage.bits.length + 64 < 2 ^ c.ptrBits := ha
  have key : wrappedStart c (8 * m.storage.bits.length) 3 l = s := by
    clear ho
    obtain ⟨P, o, b⟩ := c
    unfold wrappedStart
    rcases hc with e | e | e <;> simp only at e <;> subst e <;> simp only [Nat.reducePow] at ha' hs heq ⊢ <;> omega
  have hg := bytes_get_release (Cell := Octant) ho ha l
  have hset := bytes_set_release (Cell := Octant) ho ha l
  change _ = (do let y ← vecGetBitsAsUsize c m.storage.bits ⟨wrappedStart c _ 3 l, (wrappedStart c _ 3 l + 3) % _⟩; _) at hg
  change ∀ v, _ = vecSetBitsFromUsize c m.storage.bits ⟨wrappedStart c _ 3 l, (wrappedStart c _ 3 l + 3) % _⟩ _ at hset
  rw [key] at hg
  simp only [key] at hset
  refine ⟨fun h => ?_, fun h1 h2 => ?_, fun h => ?_⟩
  · rw [Nat.mod_eq_of_lt (by omega : s + 3 < _)] at hg hset
    obtain ⟨y, e1, e2⟩ := C37_vec_get_bits_as_usize hc m.storage.bits (s := s) (e := s + 3) (by omega) h (by omega) (by omega)
    have hlt : y.toNat < 2 ^ 3 := by
      rw [e2, bitsIn, Nat.add_sub_cancel_left]
      exact Nat.mod_lt _ (by decide)
    refine ⟨⟨octantOfNat y.toNat, hg.trans ?_, ?_⟩, fun hle v => ?_⟩
    · rw [show vecGetBitsAsUsize c m.storage.bits ⟨s, s + 3⟩ = _ from e1, ok_bind,
        show (Dimension.tryFromUsize _ : Except Error Octant) = _ from LawfulDim.tryFrom_ok _ hlt]
      rfl
    · rw [← e2]
      exact LawfulDim.toUsize_ofNat (Cell := Octant) _ hlt
    · obtain ⟨bs', f1, -, f2⟩ := C37_vec_set_bits_from_usize hc hle m.storage.bits
        (BitVec.ofNat c.ptrBits (Dimension.toUsize v)) (s := s) (e := s + 3) (by omega) h (by omega) (by omega)
      refine ⟨⟨{ m.storage with bits := bs' }⟩, ?_, rfl, ?_⟩
      · change (do let s ← (do let bits ← DynamicStorage.setCellAtLevelUnchecked c m.storage.bits l v; pure _); pure _) = _
        rw [show DynamicStorage.setCellAtLevelUnchecked c m.storage.bits l v = _ from (hset v).trans f1]
        rfl
      · rw [BitVec.toNat_ofNat, Nat.mod_eq_of_lt (Nat.lt_of_lt_of_le (toUsize_lt_8 v) (by omega))] at f2
        exact f2
  · obtain ⟨e1, e2⟩ := bytes_panic hc m.storage.bits (s := s) (d := 3) (by omega) h1 (by omega)
    refine ⟨hg.trans (by rw [e1]; rfl), fun v => ?_⟩
    change (do let s ← (do let bits ← DynamicStorage.setCellAtLevelUnchecked c m.storage.bits l v; pure _); pure _) = _
    rw [show DynamicStorage.setCellAtLevelUnchecked c m.storage.bits l v = _ from (hset v).trans (e2 _)]
    rfl
  · obtain ⟨e1, e2⟩ := bytes_empty hc ho m.storage.bits hs (d := 3) (by omega) (by omega)
    refine ⟨hg.trans ?_, fun v => ?_⟩
    · rw [e1]
      simp only [ok_bind, BitVec.toNat_zero]
      rfl
    · change (do let s ← (do let bits ← DynamicStorage.setCellAtLevelUnchecked c m.storage.bits l v; pure _); pure _) = _
      rw [show DynamicStorage.setCellAtLevelUnchecked c m.storage.bits l v = _ from (hset v).trans (e2 _)]
      rfl

end bytes

/-! ## Examples -/

/-- The path `[Three, One, Two]` has room for eight levels. In a release build, writing level 9 changes level 1, level 8 is combined
with level 0, and reading either returns `Zero`. -/
example : setCellAtLevelUnchecked x32r exS2 9 .Zero = setCellAtLevelUnchecked x32r exS2 1 .Zero :=
  ((C79_release_2D x32r_supported (w := 16) (by decide)).2 rfl exS2 9 (by decide) (by decide)).1 .Zero (by decide)

example : setCellAtLevelUnchecked x32r exS2 9 .Zero = .ok ⟨⟨0xC800#16, 3⟩⟩ ∧
    getCellAtLevelUnchecked x32r exS2 9 = .ok .Zero := by decide +kernel

example : ∃ old both, getCellAtLevelUnchecked x32r exS2 0 = .ok old ∧ quadrantKey both = quadrantKey old ||| quadrantKey .Zero ∧
    setCellAtLevelUnchecked x32r exS2 8 .Zero = setCellAtLevelUnchecked x32r exS2 0 both :=
  ((C79_release_2D x32r_supported (w := 16) (by decide)).2 rfl exS2 8 (by decide) (by decide)).2.1 .Zero (by decide)

/-- Level 11 of a 3D index of 32 bits: the write changes the bits 28, 29 and 30, which belong to levels 0 and 1. -/
example : ∃ m', setCellAtLevelUnchecked x32r exS3 11 .Five = .ok m' ∧ ∀ i, i < 32 → (m'.storage.bits).getLsbD i =
    if 28 ≤ i ∧ i < 31 then Nat.testBit 5 (i - 28) || (false && exS3.storage.bits.getLsbD i) else exS3.storage.bits.getLsbD i := by
  obtain ⟨m', h1, -, h2⟩ := ((C79_release_3D x32r_supported (w := 32) (by decide)).2 rfl exS3 11 (2 ^ 32 - 4)
    (by decide) (by decide) (by decide) (by decide)).1 .Five
  exact ⟨m', h1, h2⟩

/-- The dynamic index of `[Three, One, Two]` has one byte, with room for four levels. -/
example : getCellAtLevelUnchecked x32r exD2 6 = .ok .Zero ∧ setCellAtLevelUnchecked x32r exD2 6 .Three = .ok exD2 := by
  obtain ⟨-, h, -⟩ := C79_release_dynamic_2D x32r_supported rfl exD2 1 6 6 rfl (by unfold Addressable; decide) (by decide) (by decide)
  exact ⟨(h (by decide) (by decide)).1, (h (by decide) (by decide)).2 .Three⟩

example : getCellAtLevelUnchecked x32r exD2 8 = .error .indexOutOfBounds :=
  ((C79_release_dynamic_2D x32r_supported rfl exD2 1 8 8 rfl (by unfold Addressable; decide) (by decide) (by decide)).2.2 (by decide)).1

/-- Two bytes in 3D: level 5 starts two bits before the bytes, level 9 fourteen. -/
example : getCellAtLevelUnchecked x32r exD3 5 = .ok .Zero ∧ getCellAtLevelUnchecked x32r exD3 9 = .error .indexOutOfBounds :=
  ⟨((C79_release_dynamic_3D x32r_supported rfl exD3 2 5 (2 ^ 32 - 2) rfl (by unfold Addressable; decide) (by decide) (by decide)
      (by decide)).2.2 (by decide)).1,
    ((C79_release_dynamic_3D x32r_supported rfl exD3 2 9 (2 ^ 32 - 14) rfl (by unfold Addressable; decide) (by decide) (by decide)
      (by decide)).2.1 (by decide) (by decide)).1⟩

end MortonRs
