import Verif.Lemmas.ListLike

/-! # Statements and generic proofs of the laws C52-C58

As in `Verif/Props/Defs.lean`, the statements are about an index type `M` and the indices `ok` picks out. -/

namespace MortonRs

open MortonIndex VariableDepthMortonIndex

variable {M Cell : Type}

/-! ## Statements -/

/-- C52: below the depth the unchecked accessors return what the checked ones return. -/
def UncheckedAgrees (c : Cfg) [MortonIndex M Cell] (ok : M → Prop) : Prop :=
  ∀ m, ok m → ∀ l, l < depth m →
    (∃ v, getCellAtLevelUnchecked c m l = .ok v ∧ getCellAtLevel c m l = .ok v) ∧
    ∀ v : Cell, ∃ m', setCellAtLevelUnchecked c m l v = .ok m' ∧ setCellAtLevel c m l v = .ok m'

/-- C55: children of one index are ordered like their cells, are equal only for the same cell, and come after
their parent. -/
def ChildrenOrdered (c : Cfg) (key : Cell → Nat) [VariableDepthMortonIndex M Cell] [RustOrd M] (ok : M → Prop)
    (room : M → Nat → Prop) : Prop :=
  ∀ m, ok m → room m 1 → ∀ v w a b, child c m v = .ok (some a) → child c m w = .ok (some b) →
    RustOrd.cmp c a b = .ok (compare (key v) (key w)) ∧ (RustOrd.eq a b = true → v = w) ∧
    RustOrd.cmp c m a = .ok .lt ∧ RustOrd.cmp c a m = .ok .gt

/-- C55: replacing a cell moves an index like the cell. -/
def SetMonotone (c : Cfg) (key : Cell → Nat) [MortonIndex M Cell] [RustOrd M] (ok : M → Prop) : Prop :=
  ∀ m, ok m → ∀ l v w a b, setCellAtLevel c m l v = .ok a → setCellAtLevel c m l w = .ok b →
    RustOrd.cmp c a b = .ok (compare (key v) (key w))

/-- C56: going up twice is going up once by the sum. -/
def AncestorsCompose (c : Cfg) [VariableDepthMortonIndex M Cell] [RustOrd M] (ok : M → Prop) : Prop :=
  ∀ m, ok m → ∀ g h k : NonZeroUsize, k.val = g.val + h.val →
    (ancestor c m g = .ok none ∧ ancestor c m k = .ok none) ∨
    ∃ a, ancestor c m g = .ok (some a) ∧ ((ancestor c a h = .ok none ∧ ancestor c m k = .ok none) ∨
      ∃ p q, ancestor c a h = .ok (some p) ∧ ancestor c m k = .ok (some q) ∧ RustOrd.cmp c p q = .ok .eq)

/-- C56: going down twice is going down once along both. -/
def DescendantsCompose (c : Cfg) [VariableDepthMortonIndex M Cell] [RustOrd M] (ok : M → Prop)
    (room : M → Nat → Prop) : Prop :=
  ∀ m, ok m → ∀ cs ds : List Cell, room m (cs ++ ds).length →
    (descendant c m cs = .ok none ∧ descendant c m (cs ++ ds) = .ok none) ∨
    ∃ a, descendant c m cs = .ok (some a) ∧ ((descendant c a ds = .ok none ∧ descendant c m (cs ++ ds) = .ok none) ∨
      ∃ p q, descendant c a ds = .ok (some p) ∧ descendant c m (cs ++ ds) = .ok (some q) ∧ RustOrd.cmp c p q = .ok .eq)

/-- C56: an index is its own ancestor extended by the cells that were cut off. -/
def AncestorDescendant (c : Cfg) [VariableDepthMortonIndex M Cell] [RustOrd M] (ok : M → Prop) : Prop :=
  ∀ m, ok m → ∀ g : NonZeroUsize, ∀ a, ancestor c m g = .ok (some a) → ∃ cs q, cs.length = g.val ∧
    (∀ k (h : k < cs.length), getCellAtLevel c m (depth a + k) = .ok cs[k]) ∧
    descendant c a cs = .ok (some q) ∧ RustOrd.cmp c q m = .ok .eq

/-- C57: `f` never reverses the order. -/
def ConversionMonotone (c : Cfg) {M N : Type} [RustOrd M] [RustOrd N] (ok : M → Prop) (f : M → N) : Prop :=
  ∀ a b, ok a → ok b → RustOrd.le c a b = .ok true → RustOrd.le c (f a) (f b) = .ok true

/-- C58: converting before or after an operation gives indices that compare equal. `f` is a conversion between
two variable-depth index types. -/
def ConversionCommutes (c : Cfg) {M N Cell : Type} [VariableDepthMortonIndex M Cell] [VariableDepthMortonIndex N Cell]
    [RustOrd N] (ok : M → Prop) (f : M → Res N) : Prop :=
  ∀ m, ok m → ∃ n, f m = .ok n ∧
    (∀ l v a, setCellAtLevel c m l v = .ok a → ∃ x y, f a = .ok x ∧ setCellAtLevel c n l v = .ok y ∧
      RustOrd.cmp c x y = .ok .eq) ∧
    (∀ a, inverted c m = .ok a → ∃ x y, f a = .ok x ∧ inverted c n = .ok y ∧ RustOrd.cmp c x y = .ok .eq) ∧
    (∀ g a, ancestor c m g = .ok (some a) → ∃ x y, f a = .ok x ∧ ancestor c n g = .ok (some y) ∧
      RustOrd.cmp c x y = .ok .eq) ∧
    (∀ g, ancestor c m g = .ok none → ancestor c n g = .ok none)

/-! ## Proofs -/

/-- Padding two paths to the same length with the least cell keeps the order. -/
theorem pathCmp_pad (key : Cell → Nat) {z : Cell} (hz : key z = 0) (n : Nat) :
    ∀ as bs : List Cell, as.length ≤ n → bs.length ≤ n → pathCmp key as bs ≠ .gt →
      pathCmp key (as ++ List.replicate (n - as.length) z) (bs ++ List.replicate (n - bs.length) z) ≠ .gt := by
  induction n with
  | zero =>
    intro as bs ha hb h
    obtain rfl : as = [] := List.eq_nil_of_length_eq_zero (by omega)
    obtain rfl : bs = [] := List.eq_nil_of_length_eq_zero (by omega)
    simp [pathCmp]
  | succ n ih =>
    intro as bs ha hb h
    cases as with
    | nil =>
      cases bs with
      | nil => rw [pathCmp_refl]; simp
      | cons b bs =>
        have := ih [] bs (by simp) (by simpa using hb) (by cases bs <;> simp [pathCmp])
        simp only [List.nil_append, List.length_nil, Nat.sub_zero] at this ⊢
        rw [List.replicate_succ, List.cons_append, pathCmp, hz]
        by_cases h0 : 0 < key b
        · rw [if_pos h0]; simp
        · rw [if_neg h0, if_neg (by omega)]
          simpa using this
    | cons a as =>
      cases bs with
      | nil => simp [pathCmp] at h
      | cons b bs =>
        rw [pathCmp] at h
        simp only [List.cons_append, pathCmp, List.length_cons, Nat.add_sub_add_right]
        by_cases h1 : key a < key b
        · rw [if_pos h1]; simp
        · rw [if_neg h1] at h ⊢
          by_cases h2 : key b < key a
          · rw [if_pos h2] at h; simp at h
          · rw [if_neg h2] at h ⊢
            exact ih as bs (by simpa using ha) (by simpa using hb) h

theorem monotone_of {c : Cfg} {M N : Type} [RustOrd M] [RustOrd N] {key : Cell → Nat} {z : Cell} (hz : key z = 0) (n : Nat)
    {ok : M → Prop} {ok' : N → Prop} {p : M → List Cell} {q : N → List Cell} {f : M → N} (hC : CmpLike c key ok p)
    (hC' : CmpLike c key ok' q) (hlen : ∀ m, ok m → (p m).length ≤ n)
    (hf : ∀ m, ok m → ok' (f m) ∧ q (f m) = p m ++ List.replicate (n - (p m).length) z) :
    ConversionMonotone c ok f := by
  intro a b ha hb h
  rw [hC.le_iff ha hb] at h
  rw [hC'.le_iff (hf a ha).1 (hf b hb).1, (hf a ha).2, (hf b hb).2]
  exact pathCmp_pad key hz n _ _ (hlen a ha) (hlen b hb) h

theorem commutes_of {c : Cfg} {M N : Type} [VariableDepthMortonIndex M Cell] [VariableDepthMortonIndex N Cell] [RustOrd N]
    {key : Cell → Nat} {ok : M → Prop} {ok' : N → Prop} {p : M → List Cell} {q : N → List Cell} {f : M → Res N}
    (h : ListLike c ok p id) (h' : ListLike c ok' q id) (hA : AncLike c ok p) (hA' : AncLike c ok' q)
    (hC' : CmpLike c key ok' q) {good : M → Prop} (hgood : ∀ m, good m → ok m)
    (hkeep : ∀ a m, good m → ok a → (p a).length ≤ (p m).length → good a)
    (hf : ∀ m, good m → ∃ n, f m = .ok n ∧ ok' n ∧ q n = p m) : ConversionCommutes c good f := by
  intro m hg
  have hm := hgood m hg
  obtain ⟨n, n1, n2, n3⟩ := hf m hg
  refine ⟨n, n1, fun l v a ha => ?_, fun a ha => ?_, fun g a ha => ?_, fun g ha => ?_⟩
  · by_cases hl : l < (p m).length
    · obtain ⟨a', a1, a2, a3⟩ := h.set m hm l v hl
      rw [ha] at a1; cases a1
      obtain ⟨x, x1, x2, x3⟩ := hf a (hkeep a m hg a2 (by rw [a3, List.length_set]; exact Nat.le_refl _))
      obtain ⟨y, y1, y2, y3⟩ := h'.set n n2 l v (by rw [n3]; exact hl)
      refine ⟨x, y, x1, y1, ?_⟩
      rw [(hC' x y x2 y2).1, x3, y3, a3, n3, pathCmp_refl]
    · rw [h.set_ge m hm l v (by omega)] at ha
      cases ha
  · obtain ⟨a', a1, a2, a3⟩ := h.inv m hm
    rw [ha] at a1; cases a1
    obtain ⟨x, x1, x2, x3⟩ := hf a (hkeep a m hg a2 (by rw [a3]; simp))
    obtain ⟨y, y1, y2, y3⟩ := h'.inv n n2
    refine ⟨x, y, x1, y1, ?_⟩
    rw [(hC' x y x2 y2).1, x3, y3, a3, n3, pathCmp_refl]
  · by_cases hl : g.val ≤ (p m).length
    · obtain ⟨a', a1, a2, a3⟩ := hA.yes m hm g hl
      rw [ha] at a1; cases a1
      obtain ⟨x, x1, x2, x3⟩ := hf a (hkeep a m hg a2 (by rw [a3, List.length_take]; omega))
      obtain ⟨y, y1, y2, y3⟩ := hA'.yes n n2 g (by rw [n3]; exact hl)
      refine ⟨x, y, x1, y1, ?_⟩
      rw [(hC' x y x2 y2).1, x3, y3, a3, n3, pathCmp_refl]
    · rw [hA.no m hm g (by omega)] at ha
      simp at ha
  · by_cases hl : g.val ≤ (p m).length
    · obtain ⟨a', a1, -⟩ := hA.yes m hm g hl
      rw [ha] at a1
      simp at a1
    · exact hA'.no n n2 g (by rw [n3]; omega)

theorem pathCmp_append_same (key : Cell → Nat) (xs ys zs : List Cell) :
    pathCmp key (xs ++ ys) (xs ++ zs) = pathCmp key ys zs := by
  induction xs with
  | nil => rfl
  | cons x xs ih => simpa [pathCmp] using ih

theorem pathCmp_singleton (key : Cell → Nat) (v w : Cell) : pathCmp key [v] [w] = compare (key v) (key w) := by
  simp only [pathCmp]
  rcases Nat.lt_trichotomy (key v) (key w) with h | h | h
  · rw [if_pos h, Nat.compare_eq_lt.mpr h]
  · rw [if_neg (by omega), if_neg (by omega), Nat.compare_eq_eq.mpr h]
  · rw [if_neg (by omega), if_pos h, Nat.compare_eq_gt.mpr h]

theorem pathCmp_cons_same_tail (key : Cell → Nat) (v w : Cell) (xs : List Cell) :
    pathCmp key (v :: xs) (w :: xs) = compare (key v) (key w) := by
  simp only [pathCmp]
  rcases Nat.lt_trichotomy (key v) (key w) with h | h | h
  · rw [if_pos h, Nat.compare_eq_lt.mpr h]
  · rw [if_neg (by omega), if_neg (by omega), Nat.compare_eq_eq.mpr h, pathCmp_refl]
  · rw [if_neg (by omega), if_pos h, Nat.compare_eq_gt.mpr h]

theorem pathCmp_set (key : Cell → Nat) (xs : List Cell) (l : Nat) (hl : l < xs.length) (v w : Cell) :
    pathCmp key (xs.set l v) (xs.set l w) = compare (key v) (key w) := by
  rw [List.set_eq_take_append_cons_drop, List.set_eq_take_append_cons_drop, if_pos hl, if_pos hl,
    pathCmp_append_same, pathCmp_cons_same_tail]

section
variable [MortonIndex M Cell] [RustOrd M] {c : Cfg} {ok : M → Prop} {p : M → List Cell} {key : Cell → Nat}

theorem ListLike.setMonotone (h : ListLike c ok p id) (hC : CmpLike c key ok p) : SetMonotone c key ok := by
  intro m hm l v w a b ha hb
  by_cases hl : l < (p m).length
  · obtain ⟨a', a1, a2, a3⟩ := h.set m hm l v hl
    obtain ⟨b', b1, b2, b3⟩ := h.set m hm l w hl
    rw [ha] at a1; cases a1
    rw [hb] at b1; cases b1
    rw [(hC a b a2 b2).1, a3, b3]
    exact congrArg _ (pathCmp_set key _ l hl v w)
  · rw [h.set_ge m hm l v (by omega)] at ha
    cases ha

end

section
variable [VariableDepthMortonIndex M Cell] [RustOrd M] {c : Cfg} {ok : M → Prop} {p : M → List Cell} {wr : Cell → Cell}
  {key : Cell → Nat} {room : M → Nat → Prop} {limit : Option Nat}

theorem DescLike.childrenOrdered (hD : DescLike c ok p room limit) (hC : CmpLike c key ok p)
    (heq : ∀ a b : M, RustOrd.eq a b = true → a = b) : ChildrenOrdered c key ok room := by
  intro m hm hr v w a b ha hb
  obtain ⟨ha1, ha2⟩ := hD.of_some hm (cs := [v]) hr ha
  obtain ⟨hb1, hb2⟩ := hD.of_some hm (cs := [w]) hr hb
  refine ⟨?_, fun e => ?_, ?_, ?_⟩
  · rw [(hC a b ha1 hb1).1, ha2, hb2, pathCmp_append_same, pathCmp_singleton]
  · have := heq a b e
    subst this
    rw [ha2] at hb2
    simpa using hb2
  · rw [(hC m a hm ha1).1, ha2]
    conv => lhs; arg 1; arg 2; rw [← List.append_nil (p m)]
    rw [pathCmp_append_same]
    rfl
  · rw [(hC a m ha1 hm).1, ha2]
    conv => lhs; arg 1; arg 3; rw [← List.append_nil (p m)]
    rw [pathCmp_append_same]
    rfl

theorem AncLike.compose (hA : AncLike c ok p) (hC : CmpLike c key ok p) : AncestorsCompose c ok := by
  intro m hm g h k hk
  by_cases hg : g.val ≤ (p m).length
  · obtain ⟨a, a1, a2, a3⟩ := hA.yes m hm g hg
    refine .inr ⟨a, a1, ?_⟩
    have hla : (p a).length = (p m).length - g.val := by rw [a3, List.length_take]; omega
    by_cases hh : h.val ≤ (p a).length
    · right
      obtain ⟨x, x1, x2, x3⟩ := hA.yes a a2 h hh
      obtain ⟨y, y1, y2, y3⟩ := hA.yes m hm k (by omega)
      refine ⟨x, y, x1, y1, ?_⟩
      rw [(hC x y x2 y2).1, x3, y3, hla, a3, List.take_take, hk]
      rw [show min ((p m).length - g.val - h.val) ((p m).length - g.val) = (p m).length - (g.val + h.val) by omega,
        pathCmp_refl]
    · exact .inl ⟨hA.no a a2 h (by omega), hA.no m hm k (by omega)⟩
  · exact .inl ⟨hA.no m hm g (by omega), hA.no m hm k (by omega)⟩

open Classical in
theorem DescLike.compose (hD : DescLike c ok p room limit) (hC : CmpLike c key ok p)
    (hr1 : ∀ m (xs ys : List Cell), room m (xs ++ ys).length → room m xs.length)
    (hr2 : ∀ m a (xs ys : List Cell), ok m → ok a → p a = p m ++ xs → room m (xs ++ ys).length → room a ys.length) :
    DescendantsCompose c ok room := by
  intro m hm cs ds hr
  by_cases hec : Exceeds limit ((p m).length + cs.length)
  · refine .inl ⟨hD.no m hm cs (hr1 m cs ds hr) hec, hD.no m hm _ hr ?_⟩
    rw [List.length_append]
    cases limit with
    | none => exact hec
    | some n => exact Nat.lt_of_lt_of_le hec (by omega)
  obtain ⟨a, ha, a1, a2⟩ := hD.yes m hm cs (hr1 m cs ds hr) hec
  refine .inr ⟨a, ha, ?_⟩
  have hra := hr2 m a cs ds hm a1 a2 hr
  have hl : (p a).length + ds.length = (p m).length + (cs ++ ds).length := by
    rw [a2, List.length_append, List.length_append]; omega
  by_cases he : Exceeds limit ((p a).length + ds.length)
  · exact .inl ⟨hD.no a a1 ds hra he, hD.no m hm _ hr (hl ▸ he)⟩
  · right
    obtain ⟨x, x1, x2, x3⟩ := hD.yes a a1 ds hra he
    obtain ⟨y, y1, y2, y3⟩ := hD.yes m hm _ hr (hl ▸ he)
    refine ⟨x, y, x1, y1, ?_⟩
    rw [(hC x y x2 y2).1, x3, y3, a2, List.append_assoc, pathCmp_refl]

theorem AncLike.ancestorDescendant (h : ListLike c ok p wr) (hA : AncLike c ok p) (hD : DescLike c ok p room limit)
    (hC : CmpLike c key ok p) (hroom : ∀ q m : M, ok m → ok q → ∀ n, (p q).length + n = (p m).length → room q n)
    (hlim : ∀ m : M, ok m → ¬ Exceeds limit (p m).length) : AncestorDescendant c ok := by
  intro m hm g a ha
  by_cases hg : g.val ≤ (p m).length
  · obtain ⟨a', a1, a2, a3⟩ := hA.yes m hm g hg
    rw [ha] at a1; cases a1
    have hla : (p a).length = (p m).length - g.val := by rw [a3, List.length_take]; omega
    have hlc : ((p m).drop ((p m).length - g.val)).length = g.val := by rw [List.length_drop]; omega
    obtain ⟨q, q1, q2, q3⟩ := hD.yes a a2 ((p m).drop ((p m).length - g.val))
      (hroom a m hm a2 _ (by rw [hla, hlc]; omega)) (by
        rw [hla, hlc, Nat.sub_add_cancel hg]; exact hlim m hm)
    refine ⟨_, q, hlc, fun k hk => ?_, q1, ?_⟩
    · rw [h.depth_eq a a2, hla, h.get_eq hm, List.getElem?_eq_getElem (by omega), List.getElem_drop]
    · rw [(hC q m q2 hm).1, q3, a3, List.take_append_drop, pathCmp_refl]
  · rw [hA.no m hm g (by omega)] at ha
    simp at ha

end

end MortonRs
