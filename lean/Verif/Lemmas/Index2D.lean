import Verif.Lemmas.Ops2D

/-! # `MortonIndex2D` over any storage -/

namespace MortonRs

set_option linter.unusedSectionVars false

open BitStorage

namespace MortonIndex2D

variable {S : Type} [Storage S Quadrant] [BitStorage S Quadrant] {c : Cfg}

theorem depth_eq (m : MortonIndex2D S) : MortonIndex.depth m = Storage.depth m.storage := rfl

theorem get_lt (hc : c.Supported) {m : MortonIndex2D S} (h : WF c m.storage) {l : Nat}
    (hl : l < Storage.depth m.storage) : MortonIndex.getCellAtLevel c m l = .ok (slot m.storage l) := by
  have : ¬ l ≥ Storage.depth m.storage := by omega
  simp only [MortonIndex.getCellAtLevel, getCellAtLevel, this, if_false]
  exact get_slot hc h hl

theorem get_ge {m : MortonIndex2D S} {l : Nat} (hl : Storage.depth m.storage ≤ l) :
    MortonIndex.getCellAtLevel c m l = .error .panic := by
  simp [MortonIndex.getCellAtLevel, getCellAtLevel, hl]

/-- The link between observations and the stored path. -/
theorem shows_iff (hc : c.Supported) {m : MortonIndex2D S} (h : WF c m.storage) {cs : List Quadrant} :
    Shows c m cs ↔ path m.storage = cs := by
  constructor
  · rintro ⟨h1, h2⟩
    apply path_of_slots h1
    intro k hk
    have := h2 k hk
    rw [get_lt hc h (by rw [← depth_eq, h1]; exact hk)] at this
    exact Except.ok.inj this
  · rintro rfl
    refine ⟨by rw [path_length]; rfl, fun l hl => ?_⟩
    rw [get_lt hc h (by simpa using hl), path_getElem]

theorem shows_path (hc : c.Supported) {m : MortonIndex2D S} (h : WF c m.storage) :
    Shows c m (path m.storage) := (shows_iff hc h).mpr rfl

theorem set_full (hc : c.Supported) {m : MortonIndex2D S} (h : WF c m.storage) {l : Nat}
    (hl : l < Storage.depth m.storage) (v : Quadrant) :
    ∃ m' : MortonIndex2D S, MortonIndex.setCellAtLevel c m l v = .ok m' ∧ WF c m'.storage ∧
      width m'.storage = width m.storage ∧ Storage.depth m'.storage = Storage.depth m.storage ∧
      path m'.storage = (path m.storage).set l (written S c v) ∧
      SameBelow (width m.storage - Storage.depth m.storage * dim Quadrant) m'.storage m.storage := by
  have hle := level_le h hl
  obtain ⟨s', h1, h2, h3, h4, h5, h6, h7⟩ := set_slot hc h.fit v hle
  refine ⟨⟨s'⟩, ?_, ⟨h2, by rw [h3, h4]; exact h.depth_le⟩, h3, h4, ?_, ?_⟩
  · have : ¬ l ≥ Storage.depth m.storage := by omega
    simp only [MortonIndex.setCellAtLevel, setCellAtLevel, this, if_false, h1, ok_bind, pure_eq_ok]
  · apply path_of_slots
    · simpa using h4
    · intro k hk
      rw [List.length_set, path_length] at hk
      rw [List.getElem_set]
      by_cases hkl : l = k
      · subst hkl; rw [if_pos rfl, h5]
      · rw [if_neg hkl, path_getElem]
        exact h6 k (level_le h hk) (by omega)
  · intro i hi
    have hmul : (l + 1) * dim Quadrant ≤ Storage.depth m.storage * dim Quadrant := Nat.mul_le_mul_right _ hl
    exact h7 i (by omega)

theorem tail_of_same {m m' : MortonIndex2D S} (hw : width m'.storage = width m.storage)
    (hd : Storage.depth m'.storage = Storage.depth m.storage)
    (h : SameBelow (width m.storage - Storage.depth m.storage * dim Quadrant) m'.storage m.storage)
    (hz : TailZero m.storage) : TailZero m'.storage := by
  intro i hi
  rw [hw, hd] at hi
  rw [h i hi]
  exact hz i hi

theorem set_lt (hc : c.Supported) {m : MortonIndex2D S} (h : WF c m.storage) {l : Nat}
    (hl : l < Storage.depth m.storage) (v : Quadrant) :
    ∃ m' : MortonIndex2D S, MortonIndex.setCellAtLevel c m l v = .ok m' ∧ WF c m'.storage ∧
      width m'.storage = width m.storage ∧ Storage.depth m'.storage = Storage.depth m.storage ∧
      path m'.storage = (path m.storage).set l (written S c v) ∧
      (TailZero m.storage → TailZero m'.storage) := by
  obtain ⟨m', h1, h2, h3, h4, h5, h6⟩ := set_full hc h hl v
  exact ⟨m', h1, h2, h3, h4, h5, tail_of_same h3 h4 h6⟩

theorem set_ge {m : MortonIndex2D S} {l : Nat} (hl : Storage.depth m.storage ≤ l) (v : Quadrant) :
    MortonIndex.setCellAtLevel c m l v = .error .panic := by
  simp [MortonIndex.setCellAtLevel, setCellAtLevel, hl]

theorem inverted_full (hc : c.Supported) {m : MortonIndex2D S} (h : WF c m.storage) :
    ∃ m' : MortonIndex2D S, MortonIndex.inverted c m = .ok m' ∧ WF c m'.storage ∧
      width m'.storage = width m.storage ∧ Storage.depth m'.storage = Storage.depth m.storage ∧
      path m'.storage = (path m.storage).reverse.map (written S c) ∧
      SameBelow (width m.storage - Storage.depth m.storage * dim Quadrant) m'.storage m.storage := by
  let n := Storage.depth m.storage
  let P : Nat → MortonIndex2D S → Prop := fun k t =>
    fit c t.storage ∧ width t.storage = width m.storage ∧ Storage.depth t.storage = n ∧
      (∀ l, l < n → n - k ≤ l → slot t.storage l = written S c (slot m.storage (n - 1 - l))) ∧
      SameBelow (width m.storage - n * dim Quadrant) t.storage m.storage
  obtain ⟨m', h1, h2, h3, h4, h5, h6⟩ := forRange_invariant (a := 0) (b := n) (init := m)
    (body := fun level ret => do
      let inverted_level ← usub c (← usub c n level) 1
      MortonIndex.setCellAtLevelUnchecked c ret inverted_level
        (← MortonIndex.getCellAtLevelUnchecked c m level)) P (by omega)
    ⟨h.fit, rfl, rfl, fun l h1 h2 => by omega, fun i _ => rfl⟩ (by
      rintro k t - hk ⟨g1, g2, g3, g4, g5⟩
      have a1 : k ≤ n := by omega
      have a2 : 1 ≤ n - k := by omega
      have hlev : (n - k - 1 + 1) * dim Quadrant ≤ width t.storage := by
        rw [g2]; exact level_le h (show n - k - 1 < n by omega)
      obtain ⟨s', e1, e2, e3, e4, e5, e6, e7⟩ := set_slot hc g1 (slot m.storage k) hlev
      refine ⟨⟨s'⟩, ?_, e2, by rw [← g2]; exact e3, by rw [← g3]; exact e4, ?_, ?_⟩
      · simp only [usub_ok a1, usub_ok a2, ok_bind, MortonIndex.getCellAtLevelUnchecked,
          getCellAtLevelUnchecked, get_slot hc h (show k < Storage.depth m.storage from hk),
          MortonIndex.setCellAtLevelUnchecked, setCellAtLevelUnchecked, e1, pure_eq_ok]
      · intro l hl1 hl2
        by_cases hl3 : l = n - k - 1
        · subst hl3
          rw [e5]
          congr 2
          omega
        · rw [e6 l (by rw [g2]; exact level_le h hl1) hl3]
          exact g4 l hl1 (by omega)
      · intro i hi
        have : (n - k - 1 + 1) * dim Quadrant ≤ n * dim Quadrant := Nat.mul_le_mul_right _ (by omega)
        rw [e7 i (by rw [g2]; omega)]
        exact g5 i hi)
  refine ⟨m', h1, ⟨h2, by rw [h3, h4]; exact h.depth_le⟩, h3, h4, ?_, ?_⟩
  · apply path_of_slots
    · simpa using h4
    · intro k hk
      have hk' : k < n := by simpa using hk
      rw [List.getElem_map, List.getElem_reverse, path_getElem, h5 k hk' (by omega)]
      congr 2
      simp [n]
  · exact h6

theorem inverted_ok (hc : c.Supported) {m : MortonIndex2D S} (h : WF c m.storage) :
    ∃ m' : MortonIndex2D S, MortonIndex.inverted c m = .ok m' ∧ WF c m'.storage ∧
      width m'.storage = width m.storage ∧ Storage.depth m'.storage = Storage.depth m.storage ∧
      path m'.storage = (path m.storage).reverse.map (written S c) ∧
      (TailZero m.storage → TailZero m'.storage) := by
  obtain ⟨m', h1, h2, h3, h4, h5, h6⟩ := inverted_full hc h
  exact ⟨m', h1, h2, h3, h4, h5, tail_of_same h3 h4 h6⟩

/-! ## Grid index -/

/-- Each coordinate of a cell is 0 or 1. -/
theorem toIndex_bit {W : Nat} (o : QuadrantOrdering) (q : Quadrant) (i : Nat) :
    ((o.toIndex W q).x.getLsbD i = (decide (i = 0) && (o.toIndex W q).x.getLsbD 0)) ∧
    ((o.toIndex W q).y.getLsbD i = (decide (i = 0) && (o.toIndex W q).y.getLsbD 0)) := by
  have key : ∀ (x : BitVec W), (x &&& 1#W).getLsbD i = (decide (i = 0) && (x &&& 1#W).getLsbD 0) := by
    intro x
    by_cases hi : i = 0
    · subst hi; simp
    · simp [BitVec.getLsbD_one, hi]
  cases o <;> exact ⟨key _, key _⟩

theorem toGridIndex_ok (hc : c.Supported) {m : MortonIndex2D S} (h : WF c m.storage)
    (hd : Storage.depth m.storage ≤ c.ptrBits) (o : QuadrantOrdering) :
    ∃ v, m.toGridIndex c o = .ok v ∧
      (∀ i, v.x.getLsbD i = (decide (i < Storage.depth m.storage) &&
        (o.toIndex c.ptrBits (slot m.storage (Storage.depth m.storage - 1 - i))).x.getLsbD 0)) ∧
      (∀ i, v.y.getLsbD i = (decide (i < Storage.depth m.storage) &&
        (o.toIndex c.ptrBits (slot m.storage (Storage.depth m.storage - 1 - i))).y.getLsbD 0)) := by
  have hW : 16 ≤ c.ptrBits := by rcases hc with h | h | h <;> omega
  let n := Storage.depth m.storage
  let P : Nat → Vector2 c.ptrBits → Prop := fun k v =>
    (∀ i, v.x.getLsbD i = (decide (i < n ∧ n - k ≤ i) &&
      (o.toIndex c.ptrBits (slot m.storage (n - 1 - i))).x.getLsbD 0)) ∧
    (∀ i, v.y.getLsbD i = (decide (i < n ∧ n - k ≤ i) &&
      (o.toIndex c.ptrBits (slot m.storage (n - 1 - i))).y.getLsbD 0))
  obtain ⟨v, h1, h2⟩ := forRange_invariant (a := 0) (b := n) (init := ⟨0#c.ptrBits, 0#c.ptrBits⟩)
    (body := fun level index => do
      let quadrant ← m.getCellAtLevelUnchecked c level
      let quadrant_index := o.toIndex c.ptrBits quadrant
      let shift ← usub c (← usub c m.depth level) 1
      let x := index.x ||| (← shl c quadrant_index.x shift)
      let y := index.y ||| (← shl c quadrant_index.y shift)
      return (⟨x, y⟩ : Vector2 c.ptrBits)) P (by omega)
    (by
      constructor <;> intro i <;> rw [decide_eq_false (p := i < n ∧ n - 0 ≤ i) (by omega)] <;>
        simp)
    (by
      rintro k v - hk ⟨gx, gy⟩
      have a1 : k ≤ m.depth := by change k ≤ n; omega
      have a2 : 1 ≤ m.depth - k := by change 1 ≤ n - k; omega
      have a3 : m.depth - k - 1 < c.ptrBits := by
        have : m.depth ≤ c.ptrBits := hd
        omega
      have hn : m.depth = n := rfl
      refine ⟨⟨v.x ||| (o.toIndex c.ptrBits (slot m.storage k)).x <<< (m.depth - k - 1),
        v.y ||| (o.toIndex c.ptrBits (slot m.storage k)).y <<< (m.depth - k - 1)⟩, ?_, ?_⟩
      · simp only [getCellAtLevelUnchecked, get_slot hc h (show k < Storage.depth m.storage from hk), ok_bind,
          usub_ok a1, usub_ok a2, shl_ok a3, pure_eq_ok]
      · rw [hn] at a3 ⊢
        have hb := toIndex_bit (W := c.ptrBits) o (slot m.storage k)
        exact ⟨or_shift_bit hk a3 (fun j => (o.toIndex c.ptrBits (slot m.storage j)).x.getLsbD 0) gx (fun i => (hb i).1),
          or_shift_bit hk a3 (fun j => (o.toIndex c.ptrBits (slot m.storage j)).y.getLsbD 0) gy (fun i => (hb i).2)⟩)
  refine ⟨v, h1, ?_, ?_⟩
  · intro i
    rw [h2.1 i]
    congr 1
    simp [n]
  · intro i
    rw [h2.2 i]
    congr 1
    simp [n]

/-! ## Strings -/

theorem cellConcatenation_ok (hc : c.Supported) {m : MortonIndex2D S} (h : WF c m.storage) :
    m.cellConcatenation c =
      .ok (String.ofList ((path m.storage).map fun q => Char.ofNat (48 + q.toUsize))) := by
  have key : ∀ (xs : List Nat), (∀ x ∈ xs, x < Storage.depth m.storage) →
      (xs.mapM fun level => do
        let cell ← m.getCellAtLevelUnchecked c level
        unwrapOption (fromDigit10 cell.toUsize)) =
      .ok ((xs.map (slot m.storage)).map fun q => Char.ofNat (48 + q.toUsize)) := by
    intro xs
    induction xs with
    | nil => intro _; rfl
    | cons x xs ih =>
      intro hx
      have h10 : (slot m.storage x).toUsize < 10 := by
        have := toUsize_lt_8 (slot m.storage x)
        change (slot m.storage x).toUsize < 8 at this
        omega
      rw [List.mapM_cons, ih (fun y hy => hx y (List.mem_cons_of_mem _ hy))]
      simp only [getCellAtLevelUnchecked, get_slot hc h (hx x (List.mem_cons_self ..)), ok_bind, fromDigit10,
        h10, if_true, unwrapOption, pure_eq_ok, List.map_cons]
  unfold cellConcatenation
  rw [key _ (by intro x hx; simp [depth] at hx; omega)]
  simp only [ok_bind, pure_eq_ok]
  rw [path, List.range_eq_range']
  rfl

end MortonIndex2D

end MortonRs
