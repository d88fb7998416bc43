import Verif.Spec

/-! # Statements of the properties that are the same for all index types

Each definition is a statement about an index type `M` and the indices `ok` picks out (in the theorems: the
indices some history of API calls produces). Only the public API of the crate occurs in them. -/

namespace MortonRs

open MortonIndex VariableDepthMortonIndex

variable {M Cell : Type}

section access
variable [MortonIndex M Cell]

/-- C01: a write at a level below the depth is visible at that level and nowhere else. -/
def SetGet (c : Cfg) (ok : M → Prop) : Prop :=
  ∀ m, ok m → ∀ l (v : Cell), l < depth m → ∃ m', setCellAtLevel c m l v = .ok m' ∧ depth m' = depth m ∧
    getCellAtLevel c m' l = .ok v ∧ ∀ k, k ≠ l → getCellAtLevel c m' k = getCellAtLevel c m k

/-- C02: the checked accessors panic exactly for levels at or beyond the depth. -/
def PanicsExactlyOutOfRange (c : Cfg) (ok : M → Prop) : Prop :=
  ∀ m, ok m → ∀ l,
    (l < depth m → (∃ v, getCellAtLevel c m l = .ok v) ∧ ∀ v : Cell, ∃ m', setCellAtLevel c m l v = .ok m') ∧
    (depth m ≤ l → getCellAtLevel c m l = .error .panic ∧ ∀ v : Cell, setCellAtLevel c m l v = .error .panic)

/-- C07, first half: `inverted` reverses the cells. -/
def InvertedReverses (c : Cfg) (ok : M → Prop) : Prop :=
  ∀ m, ok m → ∃ r, inverted c m = .ok r ∧ depth r = depth m ∧
    ∀ l, l < depth m → getCellAtLevel c r l = getCellAtLevel c m (depth m - 1 - l)

/-- C07, second half: `inverted` twice gives an equal index. -/
def InvertedInvolutive (c : Cfg) [RustOrd M] (ok : M → Prop) : Prop :=
  ∀ m, ok m → ∃ r rr, inverted c m = .ok r ∧ inverted c r = .ok rr ∧ RustOrd.eq rr m = true

/-- Writing a cell back that was there before restores an equal index (C50). -/
def SetRestores (c : Cfg) [RustOrd M] (ok : M → Prop) : Prop :=
  ∀ m, ok m → ∀ l (v old : Cell), getCellAtLevel c m l = .ok old →
    ∃ m' m'', setCellAtLevel c m l v = .ok m' ∧ setCellAtLevel c m' l old = .ok m'' ∧ RustOrd.eq m'' m = true

end access

/-- C06: the items of the first `n` calls of `next()`. -/
def nexts (c : Cfg) {S : Type} [Storage S Cell] : Nat → CellIter S → Res (List (Option Cell))
  | 0, _ => .ok []
  | n + 1, it => do
    let (item, it) ← it.next c
    return item :: (← nexts c n it)

/-- C06: any number of calls of `next()` on the iterator of `m` yields the cells in order, then `None`
forever. -/
def IteratesCells (c : Cfg) {S : Type} [Storage S Cell] [MortonIndex M Cell] (iter : M → CellIter S)
    (ok : M → Prop) : Prop :=
  ∀ m, ok m → ∀ n, ∃ items, nexts c n (iter m) = .ok items ∧ items.length = n ∧ ∀ k (h : k < items.length),
    (k < depth m → ∃ v, getCellAtLevel c m k = .ok v ∧ items[k] = some v) ∧ (depth m ≤ k → items[k] = none)

/-- The iterator yields exactly the cells `cs`. -/
def Yields (c : Cfg) {S : Type} [Storage S Cell] (it : CellIter S) (cs : List Cell) : Prop :=
  ∀ n, nexts c (cs.length + n) it = .ok (cs.map some ++ List.replicate n none)

section navigation
variable [VariableDepthMortonIndex M Cell]

/-- The first `n` levels of `a` are those of `m`, and it has no more. -/
def IsPrefix (c : Cfg) (m a : M) (n : Nat) : Prop :=
  depth a = n ∧ ∀ l, l < n → getCellAtLevel c a l = getCellAtLevel c m l

/-- C08. -/
def AncestorSpec (c : Cfg) (ok : M → Prop) : Prop :=
  ∀ m, ok m → ∀ g : NonZeroUsize,
    (g.val > depth m → ancestor c m g = .ok none) ∧
    (g.val ≤ depth m → ∃ a, ancestor c m g = .ok (some a) ∧ IsPrefix c m a (depth m - g.val))

/-- C09. -/
def ParentSpec (c : Cfg) (ok : M → Prop) : Prop :=
  ∀ m, ok m → (depth m = 0 → parent c m = .ok none) ∧
    (0 < depth m → ∃ a, parent c m = .ok (some a) ∧ IsPrefix c m a (depth m - 1))

/-- C09. -/
def WithDepthSpec (c : Cfg) [RustOrd M] (ok : M → Prop) : Prop :=
  ∀ m, ok m → ∀ d, (d > depth m → withDepth c m d = .ok none) ∧
    (d ≤ depth m → ∃ a, withDepth c m d = .ok (some a) ∧ IsPrefix c m a d) ∧
    (d = depth m → ∃ a, withDepth c m d = .ok (some a) ∧ RustOrd.eq a m = true)

/-- A depth beyond the limit of a storage type; `none` is no limit. -/
def Exceeds : Option Nat → Nat → Prop
  | none, _ => False
  | some limit, d => limit < d

/-- The result is the index `m` extended by `cs`. -/
def Extends (c : Cfg) (m : M) (cs : List Cell) (r : Res (Option M)) : Prop :=
  ∃ a, r = .ok (some a) ∧ depth a = depth m + cs.length ∧
    (∀ l, l < depth m → getCellAtLevel c a l = getCellAtLevel c m l) ∧
    ∀ k (h : k < cs.length), getCellAtLevel c a (depth m + k) = .ok cs[k]

/-- C10. `room m n` says that `n` more cells are within what memory can hold. -/
def DescendantSpec (c : Cfg) (ok : M → Prop) (room : M → Nat → Prop) (limit : Option Nat) : Prop :=
  ∀ m, ok m → ∀ cs : List Cell, room m cs.length →
    (Exceeds limit (depth m + cs.length) → descendant c m cs = .ok none) ∧
    (¬ Exceeds limit (depth m + cs.length) → Extends c m cs (descendant c m cs))

/-- C10. -/
def ChildSpec (c : Cfg) (ok : M → Prop) (room : M → Nat → Prop) (limit : Option Nat) : Prop :=
  ∀ m, ok m → ∀ v : Cell, room m 1 →
    (Exceeds limit (depth m + 1) → child c m v = .ok none) ∧
    (¬ Exceeds limit (depth m + 1) → Extends c m [v] (child c m v))

/-- C11: down and up again. -/
def DescendantAncestor (c : Cfg) [RustOrd M] (ok : M → Prop) (room : M → Nat → Prop) : Prop :=
  ∀ m, ok m → ∀ (cs : List Cell) (h : 0 < cs.length), room m cs.length → ∀ k, descendant c m cs = .ok (some k) →
    ∃ q, ancestor c k ⟨cs.length, h⟩ = .ok (some q) ∧ RustOrd.eq q m = true

/-- C11: to a child and back. -/
def ChildParent (c : Cfg) [RustOrd M] (ok : M → Prop) (room : M → Nat → Prop) : Prop :=
  ∀ m, ok m → ∀ v : Cell, room m 1 → ∀ k, child c m v = .ok (some k) →
    ∃ q, parent c k = .ok (some q) ∧ RustOrd.eq q m = true

/-- C11: up and down again along the last cell. -/
def ParentChild (c : Cfg) [RustOrd M] (ok : M → Prop) : Prop :=
  ∀ m, ok m → ∀ q, parent c m = .ok (some q) → ∃ v, getCellAtLevel c m (depth m - 1) = .ok v ∧
    ∃ k, child c q v = .ok (some k) ∧ RustOrd.eq k m = true

end navigation

section order
variable [MortonIndex M Cell] [RustOrd M]

/-- C12, C13, C14: all comparison operators are those of the lexicographic order of the cells, a proper
prefix first. -/
def ComparesPaths (c : Cfg) (key : Cell → Nat) (ok : M → Prop) : Prop :=
  ∀ a b, ok a → ok b → ∃ as bs, Shows c a as ∧ Shows c b bs ∧
    RustOrd.cmp c a b = .ok (pathCmp key as bs) ∧
    RustOrd.partialCmp c a b = .ok (some (pathCmp key as bs)) ∧
    RustOrd.lt c a b = .ok (decide (pathCmp key as bs = .lt)) ∧
    RustOrd.le c a b = .ok (decide (pathCmp key as bs ≠ .gt)) ∧
    RustOrd.gt c a b = .ok (decide (pathCmp key as bs = .gt)) ∧
    RustOrd.ge c a b = .ok (decide (pathCmp key as bs ≠ .lt))

/-- C15: `cmp` is a total order. -/
def TotalOrder (c : Cfg) (ok : M → Prop) : Prop :=
  (∀ a, ok a → RustOrd.cmp c a a = .ok .eq) ∧
  (∀ a b, ok a → ok b → ∃ o, RustOrd.cmp c a b = .ok o ∧ RustOrd.cmp c b a = .ok o.swap) ∧
  (∀ a b d, ok a → ok b → ok d → RustOrd.le c a b = .ok true → RustOrd.le c b d = .ok true →
    RustOrd.le c a d = .ok true) ∧
  (∀ a b d, ok a → ok b → ok d → RustOrd.cmp c a b = .ok .eq → RustOrd.cmp c a d = RustOrd.cmp c b d)

/-- C15: `cmp` says `Equal` exactly when `==` holds. -/
def CmpAgreesWithEq (c : Cfg) (ok : M → Prop) : Prop :=
  ∀ a b, ok a → ok b → (RustOrd.cmp c a b = .ok .eq ↔ RustOrd.eq a b = true)

/-- C16: `==` means same depth and same cells. -/
def EqMeansSameCells (c : Cfg) (ok : M → Prop) : Prop :=
  ∀ a b, ok a → ok b → (RustOrd.eq a b = true ↔
    depth a = depth b ∧ ∀ l, l < depth a → getCellAtLevel c a l = getCellAtLevel c b l)

/-- C17: equal values feed equal data to a hasher. -/
def EqHashesEqual (M : Type) [RustOrd M] : Prop :=
  ∀ a b : M, RustOrd.eq a b = true → RustOrd.hashInput a = RustOrd.hashInput b

end order

section subtree
variable [VariableDepthMortonIndex M Cell] [RustOrd M]

/-- `x` is an ancestor of `y` or `y` itself, as a user would test it: cut `y` down to the depth of `x` and
compare. -/
def InSubtree (c : Cfg) (x y : M) : Prop :=
  ∃ z, withDepth c y (depth x) = .ok (some z) ∧ RustOrd.cmp c z x = .ok .eq

/-- C18: a subtree starts with its root and is contiguous. -/
def SubtreeContiguous (c : Cfg) (ok : M → Prop) : Prop :=
  (∀ x y, ok x → ok y → InSubtree c x y → RustOrd.le c x y = .ok true) ∧
  (∀ x a m b, ok x → ok a → ok m → ok b → InSubtree c x a → InSubtree c x b →
    RustOrd.le c a m = .ok true → RustOrd.le c m b = .ok true → InSubtree c x m)

end subtree

end MortonRs
