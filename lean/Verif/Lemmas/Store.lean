import Verif.Lemmas.Container

/-! # Generic facts about storages

`BitStorage` is the common interface of the six storage types; everything here is proved once for all
of them. -/

namespace MortonRs

/-- A storage is a number `value` of `width` bits with a depth; reading and writing a cell reads and
writes one digit. `fit` says the address arithmetic on it does not overflow, `written` is the cell that
ends up in the storage when a cell is written. -/
class BitStorage (S : Type) (Cell : outParam Type) [LawfulDim Cell] [Storage S Cell] where
  value : S → Nat
  width : S → Nat
  fit : Cfg → S → Prop
  written : Cfg → Cell → Cell
  value_lt : ∀ s, value s < 2 ^ width s
  get_ok : ∀ {c s l}, c.Supported → fit c s → (l + 1) * dim Cell ≤ width s →
    Storage.getCellAtLevelUnchecked c s l =
      .ok (LawfulDim.ofNat (digit (dim Cell) (value s) (width s) l))
  set_ok : ∀ {c s l} (v : Cell), c.Supported → fit c s → (l + 1) * dim Cell ≤ width s →
    ∃ s', Storage.setCellAtLevelUnchecked c s l v = .ok s' ∧ fit c s' ∧ width s' = width s ∧
      Storage.depth s' = Storage.depth s ∧
      ∀ i, (value s').testBit i =
        if width s - (l + 1) * dim Cell ≤ i ∧ i < width s - (l + 1) * dim Cell + dim Cell then
          (Dimension.toUsize (written c v)).testBit (i - (width s - (l + 1) * dim Cell))
        else (value s).testBit i

open BitStorage

variable {S Cell : Type} [LawfulDim Cell] [Storage S Cell] [BitStorage S Cell]

/-- The cell stored at a level. -/
def slot (s : S) (l : Nat) : Cell := LawfulDim.ofNat (digit (dim Cell) (value s) (width s) l)

/-- The path a storage holds. -/
def path (s : S) : List Cell := (List.range (Storage.depth s)).map (slot s)

@[simp] theorem path_length (s : S) : (path s).length = Storage.depth s := by simp [path]

theorem path_getElem (s : S) (l : Nat) (h : l < (path s).length) : (path s)[l] = slot s l := by
  simp [path]

theorem path_eq_iff {s t : S} (hd : Storage.depth s = Storage.depth t) :
    path s = path t ↔ ∀ l, l < Storage.depth s → slot s l = slot t l := by
  constructor
  · intro h l hl
    have h1 : l < (path s).length := by simpa using hl
    have h2 : l < (path t).length := by simpa [← hd] using hl
    rw [← path_getElem s l h1, ← path_getElem t l h2]
    simp [h]
  · intro h
    apply List.ext_getElem
    · simp [hd]
    · intro l h1 h2
      rw [path_getElem, path_getElem]
      exact h l (by simpa using h1)

/-- Well-formed: addressable, and all levels below the depth lie inside the storage. -/
structure WF (c : Cfg) (s : S) : Prop where
  fit : fit c s
  depth_le : Storage.depth s * dim Cell ≤ width s

theorem level_le {s : S} {c : Cfg} (h : WF c s) {l : Nat} (hl : l < Storage.depth s) :
    (l + 1) * dim Cell ≤ width s :=
  Nat.le_trans (Nat.mul_le_mul_right _ hl) h.depth_le

theorem slot_ofNat {s : S} {l : Nat} : Dimension.toUsize (slot s l) = digit (dim Cell) (value s) (width s) l :=
  LawfulDim.toUsize_ofNat _ (digit_lt _ _ _ _)

theorem slot_eq_iff {s t : S} {l k : Nat} :
    slot s l = slot t k ↔
      digit (dim Cell) (value s) (width s) l = digit (dim Cell) (value t) (width t) k := by
  constructor
  · intro h
    rw [← slot_ofNat, ← slot_ofNat, h]
  · intro h
    rw [slot, slot, h]

theorem get_slot {c : Cfg} {s : S} (hc : c.Supported) (h : WF c s) {l : Nat} (hl : l < Storage.depth s) :
    Storage.getCellAtLevelUnchecked c s l = .ok (slot s l) :=
  get_ok hc h.fit (level_le h hl)

/-- Bits of the number below position `n` are the same. -/
def SameBelow (n : Nat) (s t : S) : Prop := ∀ i, i < n → (value s).testBit i = (value t).testBit i

/-- Writing one cell. -/
theorem set_slot {c : Cfg} {s : S} (hc : c.Supported) (hf : fit c s) {l : Nat} (v : Cell)
    (hl : (l + 1) * dim Cell ≤ width s) :
    ∃ s' : S, Storage.setCellAtLevelUnchecked c s l v = .ok s' ∧ fit c s' ∧ width s' = width s ∧
      Storage.depth s' = Storage.depth s ∧
      slot s' l = written S c v ∧
      (∀ k, (k + 1) * dim Cell ≤ width s → k ≠ l → slot s' k = slot s k) ∧
      SameBelow (width s - (l + 1) * dim Cell) s' s := by
  obtain ⟨s', h1, h2, h3, h4, h5⟩ := set_ok v hc hf hl
  have hD := dim_pos Cell
  refine ⟨s', h1, h2, h3, h4, ?_, ?_, ?_⟩
  · apply toUsize_inj
    rw [slot_ofNat]
    apply Nat.eq_of_testBit_eq
    intro j
    rw [testBit_digit, h3, h5]
    by_cases hj : j < dim Cell
    · rw [if_pos (by omega), Nat.add_sub_cancel_left]
      simp [hj]
    · have : Dimension.toUsize (written S c v) < 2 ^ j :=
        Nat.lt_of_lt_of_le (toUsize_lt _) (Nat.pow_le_pow_right (by decide) (by omega))
      simp [hj, Nat.testBit_lt_two_pow this]
  · intro k hk hne
    rw [slot_eq_iff, digit_eq_iff, h3]
    intro j hj
    rw [h5, if_neg]
    rcases Nat.lt_or_gt_of_ne hne with h | h
    · have : (k + 1 + 1) * dim Cell ≤ (l + 1) * dim Cell := Nat.mul_le_mul_right _ (by omega)
      rw [Nat.add_mul (k + 1)] at this
      omega
    · have : (l + 1 + 1) * dim Cell ≤ (k + 1) * dim Cell := Nat.mul_le_mul_right _ (by omega)
      rw [Nat.add_mul (l + 1)] at this
      omega
  · intro i hi
    rw [h5, if_neg (by omega)]

/-- The loop `for (offset, cell) in cells.iter().enumerate() { set(d + offset, cell) }`. -/
theorem set_many {c : Cfg} (hc : c.Supported) (hwr : ∀ v, written S c v = v) (d : Nat) (xs : List Cell)
    (s : S) (hf : fit c s) (hl : (d + xs.length) * dim Cell ≤ width s)
    (body : Nat → Cell → S → Res S)
    (hbody : ∀ i x t, i < xs.length → body i x t = Storage.setCellAtLevelUnchecked c t (d + i) x) :
    ∃ s' : S, forEnum xs s body = .ok s' ∧ fit c s' ∧ width s' = width s ∧
      Storage.depth s' = Storage.depth s ∧
      (∀ k (h : k < xs.length), slot s' (d + k) = xs[k]) ∧
      (∀ k, (k + 1) * dim Cell ≤ width s → (k < d ∨ d + xs.length ≤ k) → slot s' k = slot s k) ∧
      SameBelow (width s - (d + xs.length) * dim Cell) s' s := by
  let P : Nat → S → Prop := fun n t => fit c t ∧ width t = width s ∧ Storage.depth t = Storage.depth s ∧
      (∀ k (h : k < xs.length), k < n → slot t (d + k) = xs[k]) ∧
      (∀ k, (k + 1) * dim Cell ≤ width s → (k < d ∨ d + n ≤ k) → slot t k = slot s k) ∧
      SameBelow (width s - (d + xs.length) * dim Cell) t s
  obtain ⟨s', h1, h2, h3, h4, h5, h6, h7⟩ := forEnum_invariant (xs := xs) (body := body) P
    ⟨hf, rfl, rfl, fun k _ h => by omega, fun k _ _ => rfl, fun i _ => rfl⟩ (by
      intro n hn t ⟨g1, g2, g3, g4, g5, g6⟩
      have hlev : (d + n + 1) * dim Cell ≤ width t := by
        rw [g2]; exact Nat.le_trans (Nat.mul_le_mul_right _ (by omega)) hl
      obtain ⟨t', e1, e2, e3, e4, e5, e6, e7⟩ := set_slot hc g1 xs[n] hlev
      refine ⟨t', by rw [hbody _ _ _ hn, e1], e2, by rw [e3, g2], by rw [e4, g3], ?_, ?_, ?_⟩
      · intro k hk hkn
        by_cases hkn' : k = n
        · subst hkn'; rw [e5, hwr]
        · rw [e6 (d + k) (by
            rw [g2]; exact Nat.le_trans (Nat.mul_le_mul_right _ (by omega)) hl) (by omega)]
          exact g4 k hk (by omega)
      · intro k hk hk'
        rw [e6 k (by rw [g2]; exact hk) (by omega)]
        exact g5 k hk (by omega)
      · intro i hi
        have : (d + n + 1) * dim Cell ≤ (d + xs.length) * dim Cell :=
          Nat.mul_le_mul_right _ (by omega)
        rw [e7 i (by rw [g2]; omega)]
        exact g6 i hi)
  exact ⟨s', h1, h2, h3, h4, fun k h => h5 k h h, h6, h7⟩

/-- The loop of `set_many` without assuming that writes store the right cell: it succeeds and touches
nothing else. -/
theorem set_many_total {c : Cfg} (hc : c.Supported) (d : Nat) (xs : List Cell)
    (s : S) (hf : fit c s) (hl : (d + xs.length) * dim Cell ≤ width s)
    (body : Nat → Cell → S → Res S)
    (hbody : ∀ i x t, i < xs.length → body i x t = Storage.setCellAtLevelUnchecked c t (d + i) x) :
    ∃ s' : S, forEnum xs s body = .ok s' ∧ fit c s' ∧ width s' = width s ∧
      Storage.depth s' = Storage.depth s ∧
      SameBelow (width s - (d + xs.length) * dim Cell) s' s := by
  let P : Nat → S → Prop := fun n t => fit c t ∧ width t = width s ∧ Storage.depth t = Storage.depth s ∧
      SameBelow (width s - (d + xs.length) * dim Cell) t s
  exact forEnum_invariant (xs := xs) (body := body) P ⟨hf, rfl, rfl, fun i _ => rfl⟩ (by
      intro n hn t ⟨g1, g2, g3, g6⟩
      have hlev : (d + n + 1) * dim Cell ≤ width t := by
        rw [g2]; exact Nat.le_trans (Nat.mul_le_mul_right _ (by omega)) hl
      obtain ⟨t', e1, e2, e3, e4, e5, e6, e7⟩ := set_slot hc g1 xs[n] hlev
      refine ⟨t', by rw [hbody _ _ _ hn, e1], e2, by rw [e3, g2], by rw [e4, g3], ?_⟩
      intro i hi
      have : (d + n + 1) * dim Cell ≤ (d + xs.length) * dim Cell :=
        Nat.mul_le_mul_right _ (by omega)
      rw [e7 i (by rw [g2]; omega)]
      exact g6 i hi)

/-- The loop `for level in a..b { set(level, f(level)) }`. -/
theorem set_range {c : Cfg} (hc : c.Supported) (a b : Nat) (f : Nat → Cell) (hab : a ≤ b)
    (s : S) (hf : fit c s) (hl : b * dim Cell ≤ width s)
    (body : Nat → S → Res S)
    (hbody : ∀ i t, a ≤ i → i < b → Storage.depth t = Storage.depth s →
      body i t = Storage.setCellAtLevelUnchecked c t i (f i)) :
    ∃ s' : S, forRange a b s body = .ok s' ∧ fit c s' ∧ width s' = width s ∧
      Storage.depth s' = Storage.depth s ∧
      (∀ k, a ≤ k → k < b → slot s' k = written S c (f k)) ∧
      (∀ k, (k + 1) * dim Cell ≤ width s → (k < a ∨ b ≤ k) → slot s' k = slot s k) ∧
      SameBelow (width s - b * dim Cell) s' s := by
  let P : Nat → S → Prop := fun n t => fit c t ∧ width t = width s ∧ Storage.depth t = Storage.depth s ∧
      (∀ k, a ≤ k → k < n → slot t k = written S c (f k)) ∧
      (∀ k, (k + 1) * dim Cell ≤ width s → (k < a ∨ n ≤ k) → slot t k = slot s k) ∧
      SameBelow (width s - b * dim Cell) t s
  exact forRange_invariant (body := body) P hab
    ⟨hf, rfl, rfl, fun k _ h => by omega, fun k _ _ => rfl, fun i _ => rfl⟩ (by
      intro n t hn1 hn2 ⟨g1, g2, g3, g4, g5, g6⟩
      have hlev : (n + 1) * dim Cell ≤ width t := by
        rw [g2]; exact Nat.le_trans (Nat.mul_le_mul_right _ (by omega)) hl
      obtain ⟨t', e1, e2, e3, e4, e5, e6, e7⟩ := set_slot hc g1 (f n) hlev
      refine ⟨t', by rw [hbody _ _ hn1 hn2 g3, e1], e2, by rw [e3, g2], by rw [e4, g3], ?_, ?_, ?_⟩
      · intro k hk hkn
        by_cases hkn' : k = n
        · subst hkn'; rw [e5]
        · rw [e6 k (by
            rw [g2]; exact Nat.le_trans (Nat.mul_le_mul_right _ (by omega)) hl) (by omega)]
          exact g4 k hk (by omega)
      · intro k hk hk'
        rw [e6 k (by rw [g2]; exact hk) (by omega)]
        exact g5 k hk (by omega)
      · intro i hi
        have : (n + 1) * dim Cell ≤ b * dim Cell := Nat.mul_le_mul_right _ (by omega)
        rw [e7 i (by rw [g2]; omega)]
        exact g6 i hi)

/-! ## The iterator -/

theorem collect_aux {c : Cfg} {s : S} (hc : c.Supported) (h : WF c s)
    (hd : Storage.depth s < 2 ^ c.ptrBits) :
    ∀ n i, i + n = Storage.depth s →
      CellIter.collect c (n + 1) ⟨s, i⟩ = .ok ((List.range' i n).map (slot s)) := by
  intro n
  induction n with
  | zero => intro i hi; simp [CellIter.collect, CellIter.next, ← hi]
  | succ n ih =>
    intro i hi
    have h1 : i ≠ Storage.depth s := by omega
    have h2 : i + 1 < 2 ^ c.ptrBits := by omega
    rw [CellIter.collect]
    simp only [CellIter.next, h1, if_false, uadd_ok h2, ok_bind,
      get_slot hc h (show i < Storage.depth s by omega), pure_eq_ok]
    rw [ih (i + 1) (by omega)]
    rfl

theorem collectCells_ok {c : Cfg} {s : S} (hc : c.Supported) (h : WF c s)
    (hd : Storage.depth s < 2 ^ c.ptrBits) : Storage.collectCells c s = .ok (path s) := by
  rw [Storage.collectCells, Storage.cells, collect_aux hc h hd _ _ (by omega), path, List.range_eq_range']

/-! ## Canonical storages -/

/-- All bits behind the last cell are zero. -/
def TailZero (s : S) : Prop := ∀ i, i < width s - Storage.depth s * dim Cell → (value s).testBit i = false

/-- A storage is determined by its width, depth, path and the bits behind the last cell. -/
theorem value_eq_of_path_tail {s t : S} (hs : Storage.depth s * dim Cell ≤ width s)
    (hw : width s = width t) (hb : SameBelow (width s - Storage.depth s * dim Cell) s t) (h : path s = path t) :
    value s = value t := by
  have hd : Storage.depth s = Storage.depth t := by
    rw [← path_length s, ← path_length t, h]
  rw [path_eq_iff hd] at h
  have hD := dim_pos Cell
  apply Nat.eq_of_testBit_eq
  intro i
  by_cases h1 : i < width s - Storage.depth s * dim Cell
  · exact hb i h1
  · by_cases h2 : i < width s
    · have hdm := Nat.div_add_mod (width s - 1 - i) (dim Cell)
      have hml := Nat.mod_lt (width s - 1 - i) hD
      have hk : (width s - 1 - i) / dim Cell < Storage.depth s := by
        rw [Nat.div_lt_iff_lt_mul hD]; omega
      generalize (width s - 1 - i) / dim Cell = k at *
      generalize (width s - 1 - i) % dim Cell = r at *
      have hkle : (k + 1) * dim Cell ≤ Storage.depth s * dim Cell := Nat.mul_le_mul_right _ hk
      have e : (k + 1) * dim Cell = dim Cell * k + dim Cell := by
        rw [Nat.add_mul, Nat.one_mul, Nat.mul_comm]
      have hd := (digit_eq_iff.mp (slot_eq_iff.mp (h k hk))) (dim Cell - 1 - r) (by omega)
      rw [← hw] at hd
      have hi : width s - (k + 1) * dim Cell + (dim Cell - 1 - r) = i := by omega
      rw [hi] at hd
      exact hd
    · rw [Nat.testBit_lt_two_pow (Nat.lt_of_lt_of_le (value_lt s) (Nat.pow_le_pow_right (by decide) (by omega))),
        Nat.testBit_lt_two_pow (Nat.lt_of_lt_of_le (value_lt t) (Nat.pow_le_pow_right (by decide) (by omega)))]

/-- A canonical storage is determined by its width, depth and path. -/
theorem value_eq_of_path {s t : S} (hs : Storage.depth s * dim Cell ≤ width s)
    (hw : width s = width t) (zs : TailZero s) (zt : TailZero t) (h : path s = path t) :
    value s = value t := by
  have hd : Storage.depth s = Storage.depth t := by
    rw [← path_length s, ← path_length t, h]
  exact value_eq_of_path_tail hs hw (fun i hi => by rw [zs i hi, zt i (by rw [← hw, ← hd]; exact hi)]) h

/-- The path is determined by depth and slots. -/
theorem path_of_slots {s : S} {cs : List Cell} (hd : Storage.depth s = cs.length)
    (h : ∀ k (hk : k < cs.length), slot s k = cs[k]) : path s = cs := by
  apply List.ext_getElem
  · simp [hd]
  · intro k h1 h2
    rw [path_getElem]
    exact h k h2

/-- Every bit in the area of the levels `a..d` belongs to one of these levels. -/
theorem exists_level {D W a d i : Nat} (hD : 0 < D) (hd : d * D ≤ W) (h1 : W - d * D ≤ i)
    (h2 : i < W - a * D) : ∃ k j, a ≤ k ∧ k < d ∧ j < D ∧ i = W - (k + 1) * D + j := by
  have hdm := Nat.div_add_mod (W - 1 - i) D
  have hml := Nat.mod_lt (W - 1 - i) hD
  have hk : (W - 1 - i) / D < d := by rw [Nat.div_lt_iff_lt_mul hD]; omega
  have ha : a ≤ (W - 1 - i) / D := by rw [Nat.le_div_iff_mul_le hD]; omega
  generalize (W - 1 - i) / D = k at *
  generalize (W - 1 - i) % D = r at *
  have hkle : (k + 1) * D ≤ d * D := Nat.mul_le_mul_right _ hk
  have e : (k + 1) * D = D * k + D := by rw [Nat.add_mul, Nat.one_mul, Nat.mul_comm]
  exact ⟨k, D - 1 - r, ha, hk, by omega, by omega⟩

theorem toUsize_zeroCell : Dimension.toUsize (LawfulDim.ofNat 0 : Cell) = 0 :=
  LawfulDim.toUsize_ofNat 0 (Nat.two_pow_pos _)

/-- Zero cells mean zero bits. -/
theorem bits_zero_of_slots {s : S} {a d : Nat} (hd : d * dim Cell ≤ width s)
    (h : ∀ k, a ≤ k → k < d → slot s k = LawfulDim.ofNat 0)
    (hz : ∀ i, i < width s - d * dim Cell → (value s).testBit i = false) :
    ∀ i, i < width s - a * dim Cell → (value s).testBit i = false := by
  intro i hi
  by_cases h1 : i < width s - d * dim Cell
  · exact hz i h1
  · obtain ⟨k, j, h2, h3, h4, h5⟩ := exists_level (dim_pos Cell) hd (by omega) hi
    have e := congrArg (fun x => (Dimension.toUsize x).testBit j) (h k h2 h3)
    simp only [slot_ofNat, testBit_digit, toUsize_zeroCell, h4, decide_true, Bool.true_and,
      Nat.zero_testBit] at e
    rw [h5, e]

/-- Zero bits mean zero cells. -/
theorem slot_zero_of_bits {s : S} {l n : Nat} (hl : (l + 1) * dim Cell ≤ width s)
    (hn : width s - l * dim Cell ≤ n) (h : ∀ i, i < n → (value s).testBit i = false) :
    slot s l = LawfulDim.ofNat 0 := by
  rw [slot]
  congr 1
  apply Nat.eq_of_testBit_eq
  intro j
  rw [testBit_digit, Nat.zero_testBit]
  by_cases hj : j < dim Cell
  · have e : (l + 1) * dim Cell = l * dim Cell + dim Cell := by rw [Nat.add_mul, Nat.one_mul]
    rw [h _ (by omega)]
    simp
  · simp [hj]

/-- Bits shifted by whole bytes at the low end: same slot. -/
theorem slot_shift {s a : S} {l n : Nat} (hw : width a + n = width s) (hl : (l + 1) * dim Cell ≤ width a)
    (h : ∀ i, width a - (l + 1) * dim Cell ≤ i → (value a).testBit i = (value s).testBit (i + n)) :
    slot a l = slot s l := by
  rw [slot_eq_iff, digit_eq_iff]
  intro j _
  rw [h _ (by omega)]
  congr 1
  omega

end MortonRs
