import Verif.Lemmas.Store
import Verif.Lemmas.ListLike

/-! # Storages known only by their contract

A storage that keeps the contract of the `Storage` trait is a `BitStorage`: the number whose digits are its cells. Everything that
is proved for all `BitStorage`s then holds for it. -/

namespace MortonRs

open BitStorage

section number
variable {Cell : Type} [LawfulDim Cell]

/-- The number whose digits are the cells, the first one the most significant. -/
def cellNumber : List Cell → Nat
  | [] => 0
  | x :: xs => 2 ^ (xs.length * dim Cell) * Dimension.toUsize x + cellNumber xs

theorem cellNumber_lt (xs : List Cell) : cellNumber xs < 2 ^ (xs.length * dim Cell) := by
  induction xs with
  | nil => simp [cellNumber]
  | cons x xs ih =>
    have h1 := toUsize_lt x
    rw [cellNumber, List.length_cons, Nat.add_mul, Nat.one_mul, Nat.pow_add]
    calc 2 ^ (xs.length * dim Cell) * Dimension.toUsize x + cellNumber xs
        < 2 ^ (xs.length * dim Cell) * Dimension.toUsize x + 2 ^ (xs.length * dim Cell) := by omega
      _ = 2 ^ (xs.length * dim Cell) * (Dimension.toUsize x + 1) := by rw [Nat.mul_add, Nat.mul_one]
      _ ≤ _ := Nat.mul_le_mul_left _ h1

theorem cellNumber_testBit (xs : List Cell) (l j : Nat) (hl : l < xs.length) (hj : j < dim Cell) :
    (cellNumber xs).testBit (xs.length * dim Cell - (l + 1) * dim Cell + j) = (Dimension.toUsize xs[l]).testBit j := by
  induction xs generalizing l with
  | nil => simp at hl
  | cons x xs ih =>
    rw [cellNumber, Nat.testBit_two_pow_mul_add _ (cellNumber_lt xs), List.length_cons]
    cases l with
    | zero =>
      rw [Nat.add_mul, Nat.zero_add, Nat.add_sub_cancel, if_neg (by omega), Nat.add_sub_cancel_left]
      rfl
    | succ l =>
      have hl' : l < xs.length := by simpa using hl
      have h1 : (l + 1) * dim Cell ≤ xs.length * dim Cell := Nat.mul_le_mul_right _ hl'
      rw [Nat.add_mul xs.length, Nat.add_mul (l + 1), Nat.add_sub_add_right]
      have h2 : dim Cell ≤ (l + 1) * dim Cell := by rw [Nat.add_mul, Nat.one_mul]; omega
      rw [if_pos (by omega), ih l hl']
      rfl

theorem cellNumber_digit (xs : List Cell) (l : Nat) (hl : l < xs.length) :
    digit (dim Cell) (cellNumber xs) (xs.length * dim Cell) l = Dimension.toUsize xs[l] := by
  apply Nat.eq_of_testBit_eq
  intro j
  rw [testBit_digit]
  by_cases hj : j < dim Cell
  · rw [cellNumber_testBit xs l j hl hj, decide_eq_true hj, Bool.true_and]
  · have : Dimension.toUsize xs[l] < 2 ^ j :=
      Nat.lt_of_lt_of_le (toUsize_lt _) (Nat.pow_le_pow_right (by decide) (by omega))
    rw [decide_eq_false hj, Bool.false_and, Nat.testBit_lt_two_pow this]

theorem cellNumber_set (xs : List Cell) (l : Nat) (v : Cell) (hl : l < xs.length) (i : Nat) :
    (cellNumber (xs.set l v)).testBit i =
      if xs.length * dim Cell - (l + 1) * dim Cell ≤ i ∧ i < xs.length * dim Cell - (l + 1) * dim Cell + dim Cell then
        (Dimension.toUsize v).testBit (i - (xs.length * dim Cell - (l + 1) * dim Cell))
      else (cellNumber xs).testBit i := by
  have hD := dim_pos Cell
  by_cases hi : i < xs.length * dim Cell
  · obtain ⟨k, j, -, hk, hj, rfl⟩ := exists_level (W := xs.length * dim Cell) (d := xs.length) (a := 0) hD (Nat.le_refl _)
      (by omega) (by rw [Nat.zero_mul]; omega)
    have h1 := cellNumber_testBit (xs.set l v) k j (by simpa using hk) hj
    simp only [List.length_set] at h1
    rw [h1, cellNumber_testBit xs k j hk hj]
    by_cases e : k = l
    · subst e
      rw [if_pos (by omega), Nat.add_sub_cancel_left, List.getElem_set_self]
    · rw [List.getElem_set_ne (Ne.symm e), if_neg]
      have hkD : (k + 1) * dim Cell ≤ xs.length * dim Cell := Nat.mul_le_mul_right _ hk
      have hlD : (l + 1) * dim Cell ≤ xs.length * dim Cell := Nat.mul_le_mul_right _ hl
      rcases Nat.lt_or_gt_of_ne e with h | h
      · have : (k + 1 + 1) * dim Cell ≤ (l + 1) * dim Cell := Nat.mul_le_mul_right _ (by omega)
        rw [Nat.add_mul (k + 1)] at this
        omega
      · have : (l + 1 + 1) * dim Cell ≤ (k + 1) * dim Cell := Nat.mul_le_mul_right _ (by omega)
        rw [Nat.add_mul (l + 1)] at this
        omega
  · have hlD : (l + 1) * dim Cell ≤ xs.length * dim Cell := Nat.mul_le_mul_right _ hl
    have h2 : dim Cell ≤ (l + 1) * dim Cell := by rw [Nat.add_mul, Nat.one_mul]; omega
    have hp : 2 ^ (xs.length * dim Cell) ≤ 2 ^ i := Nat.pow_le_pow_right (by decide) (by omega)
    have h3 := cellNumber_lt (xs.set l v)
    rw [List.length_set] at h3
    rw [Nat.testBit_lt_two_pow (Nat.lt_of_lt_of_le h3 hp), Nat.testBit_lt_two_pow (Nat.lt_of_lt_of_le (cellNumber_lt xs) hp),
      if_neg (by omega)]

end number

/-! ## The contracts -/

/-- The contract of `Storage` (`storage.rs` 36-78): the storages picked out by `ok` hold the cells `view s`; `depth` is their
number, and the two accessors read and write one of them. -/
structure StorageContract {S Cell : Type} [Storage S Cell] (c : Cfg) (ok : S → Prop) (view : S → List Cell) : Prop where
  depth : ∀ s, ok s → Storage.depth s = (view s).length
  usize : ∀ s, ok s → (view s).length < 2 ^ c.ptrBits
  get : ∀ s, ok s → ∀ l (h : l < (view s).length), Storage.getCellAtLevelUnchecked c s l = .ok (view s)[l]
  set : ∀ s, ok s → ∀ l v, l < (view s).length →
    ∃ s', Storage.setCellAtLevelUnchecked c s l v = .ok s' ∧ ok s' ∧ view s' = (view s).set l v

/-- The contract of `VariableDepthStorage` (`storage.rs` 80-92). `limit` is the greatest depth; `room n k` says that memory can
hold `k` more cells beside `n`. -/
structure VariableContract {S Cell : Type} [VariableDepthStorage S Cell] (c : Cfg) (ok : S → Prop) (view : S → List Cell)
    (room : Nat → Nat → Prop) (limit : Option Nat) : Prop where
  ancestor_none : ∀ s, ok s → ∀ g : NonZeroUsize, g.val > (view s).length → VariableDepthStorage.ancestor c s g = .ok none
  ancestor_some : ∀ s, ok s → ∀ g : NonZeroUsize, g.val ≤ (view s).length →
    ∃ a, VariableDepthStorage.ancestor c s g = .ok (some a) ∧ ok a ∧ view a = (view s).take ((view s).length - g.val)
  descendant_none : ∀ s, ok s → ∀ cs, room (view s).length cs.length → Exceeds limit ((view s).length + cs.length) →
    VariableDepthStorage.descendant c s cs = .ok none
  descendant_some : ∀ s, ok s → ∀ cs, room (view s).length cs.length → ¬ Exceeds limit ((view s).length + cs.length) →
    ∃ a, VariableDepthStorage.descendant c s cs = .ok (some a) ∧ ok a ∧ view a = view s ++ cs
  limit : ∀ s, ok s → ¬ Exceeds limit (view s).length
  room : ∀ s, ok s → ∀ n k, n + k ≤ (view s).length → room n k

/-- `==` of the storages is equality of the cells (`Eq` also wants it reflexive on all values). -/
structure EqContract {S Cell : Type} [RustOrd S] (ok : S → Prop) (view : S → List Cell) : Prop where
  refl : ∀ s : S, RustOrd.eq s s = true
  eq : ∀ a b : S, ok a → ok b → (RustOrd.eq a b = true ↔ view a = view b)

/-- `cmp` and `partial_cmp` of the storages are the order of the cells (README and `morton.rs`: depth-first order). -/
def OrdContract {S Cell : Type} [RustOrd S] (c : Cfg) (key : Cell → Nat) (ok : S → Prop) (view : S → List Cell) : Prop :=
  ∀ a b, ok a → ok b → RustOrd.cmp c a b = .ok (pathCmp key (view a) (view b)) ∧
    RustOrd.partialCmp c a b = .ok (some (pathCmp key (view a) (view b)))

/-! ## A storage that keeps the contract is a number with digits -/

section
variable {S Cell : Type} [LawfulDim Cell] [Storage S Cell] {c : Cfg} {ok : S → Prop} {view : S → List Cell}

@[instance_reducible]
def StorageContract.bits (h : StorageContract c ok view) : BitStorage S Cell where
  value s := cellNumber (view s)
  width s := (view s).length * dim Cell
  fit c' s := c' = c ∧ ok s
  written _ v := v
  value_lt s := cellNumber_lt _
  get_ok {c' s l} _ hf hl := by
    obtain ⟨rfl, hs⟩ := hf
    have hl' : l < (view s).length := Nat.lt_of_mul_lt_mul_right (a := dim Cell) (by
      have := dim_pos Cell
      rw [Nat.add_mul, Nat.one_mul] at hl
      omega)
    rw [h.get s hs l hl', cellNumber_digit _ _ hl', LawfulDim.ofNat_toUsize]
  set_ok {c' s l} v _ hf hl := by
    obtain ⟨rfl, hs⟩ := hf
    have hl' : l < (view s).length := Nat.lt_of_mul_lt_mul_right (a := dim Cell) (by
      have := dim_pos Cell
      rw [Nat.add_mul, Nat.one_mul] at hl
      omega)
    obtain ⟨s', h1, h2, h3⟩ := h.set s hs l v hl'
    refine ⟨s', h1, ⟨rfl, h2⟩, by rw [h3, List.length_set], by rw [h.depth s hs, h.depth s' h2, h3, List.length_set], ?_⟩
    intro i
    rw [h3]
    exact cellNumber_set _ _ _ hl' i

theorem StorageContract.wf (h : StorageContract c ok view) {s : S} (hs : ok s) : @WF S Cell _ _ h.bits c s :=
  @WF.mk S Cell _ _ h.bits c s ⟨rfl, hs⟩ (by rw [h.depth s hs]; exact Nat.le_refl _)

theorem StorageContract.path (h : StorageContract c ok view) {s : S} (hs : ok s) : @path S Cell _ _ h.bits s = view s := by
  letI := h.bits
  apply List.ext_getElem
  · rw [path_length, h.depth s hs]
  · intro l h1 h2
    rw [path_getElem]
    change LawfulDim.ofNat (digit (dim Cell) (cellNumber (view s)) ((view s).length * dim Cell) l) = _
    rw [cellNumber_digit _ _ h2, LawfulDim.ofNat_toUsize]

end

/-! ## Another view of the same cells -/

section congr
variable {M Cell : Type} {c : Cfg} {ok : M → Prop} {p q : M → List Cell}

theorem ListLike.congr [MortonIndex M Cell] {wr : Cell → Cell} (e : ∀ m, ok m → p m = q m) (h : ListLike c ok p wr) :
    ListLike c ok q wr where
  depth_eq m hm := e m hm ▸ h.depth_eq m hm
  get m hm := e m hm ▸ h.get m hm
  get_ge m hm := e m hm ▸ h.get_ge m hm
  set m hm l v hl := by
    obtain ⟨m', h1, h2, h3⟩ := h.set m hm l v (e m hm ▸ hl)
    exact ⟨m', h1, h2, by rw [← e m' h2, ← e m hm, h3]⟩
  set_ge m hm := e m hm ▸ h.set_ge m hm
  inv m hm := by
    obtain ⟨m', h1, h2, h3⟩ := h.inv m hm
    exact ⟨m', h1, h2, by rw [← e m' h2, ← e m hm, h3]⟩

theorem AncLike.congr [VariableDepthMortonIndex M Cell] (e : ∀ m, ok m → p m = q m) (h : AncLike c ok p) :
    AncLike c ok q where
  no m hm := e m hm ▸ h.no m hm
  yes m hm g hg := by
    obtain ⟨a, h1, h2, h3⟩ := h.yes m hm g (e m hm ▸ hg)
    exact ⟨a, h1, h2, by rw [← e a h2, ← e m hm, h3]⟩

theorem DescLike.congr [VariableDepthMortonIndex M Cell] {room : M → Nat → Prop} {limit : Option Nat}
    (e : ∀ m, ok m → p m = q m) (h : DescLike c ok p room limit) : DescLike c ok q room limit where
  no m hm := e m hm ▸ h.no m hm
  yes m hm cs hr hl := by
    obtain ⟨a, h1, h2, h3⟩ := h.yes m hm cs hr (e m hm ▸ hl)
    exact ⟨a, h1, h2, by rw [← e a h2, ← e m hm, h3]⟩

theorem CmpLike.congr [RustOrd M] {key : Cell → Nat} (e : ∀ m, ok m → p m = q m) (h : CmpLike c key ok p) :
    CmpLike c key ok q := fun a b ha hb => e a ha ▸ e b hb ▸ h a b ha hb

/-- Inverting twice and writing back, up to `==`. -/
theorem ListLike.restores [MortonIndex M Cell] [RustOrd M] (h : ListLike c ok p id) (hE : EqLike ok p) :
    InvertedInvolutive c ok ∧ SetRestores c ok := by
  refine ⟨fun m hm => ?_, fun m hm l v old hold => ?_⟩
  · obtain ⟨r, h1, h2, h3⟩ := h.inv m hm
    obtain ⟨rr, g1, g2, g3⟩ := h.inv r h2
    refine ⟨r, rr, h1, g1, (hE rr m g2 hm).mpr ?_⟩
    rw [g3, h3]
    simp
  · have hl : l < (p m).length := by
      apply Decidable.byContradiction
      intro hl
      rw [h.get_ge m hm l (by omega)] at hold
      cases hold
    rw [h.get m hm l hl] at hold
    cases hold
    obtain ⟨m', h1, h2, h3⟩ := h.set m hm l v hl
    obtain ⟨m'', g1, g2, g3⟩ := h.set m' h2 l (p m)[l] (by rw [h3, List.length_set]; exact hl)
    refine ⟨m', m'', h1, g1, (hE m'' m g2 hm).mpr ?_⟩
    rw [g3, h3]
    simp

end congr

end MortonRs
