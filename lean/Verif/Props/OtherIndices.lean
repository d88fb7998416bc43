import Verif.Props.OtherDimensions
import Verif.Lemmas.ListLike

/-! # C87: the provided methods of the index traits

`MortonIndex` and `VariableDepthMortonIndex` are public traits that other crates can implement, for any dimension. `inverted`,
`parent`, `with_depth` and `child` have bodies in the trait; an implementation that keeps the contract of the required methods
gets them for free. -/

namespace MortonRs

open MortonIndex VariableDepthMortonIndex

variable {M Cell : Type}

/-- The contract of the required methods of `MortonIndex` (`morton.rs` 33-75): the indices picked out by `ok` hold the cells
`view m`. -/
structure IndexContract [MortonIndex M Cell] (c : Cfg) (ok : M → Prop) (view : M → List Cell) : Prop where
  depth : ∀ m, ok m → depth m = (view m).length
  get : ∀ m, ok m → ∀ l, (h : l < (view m).length) → getCellAtLevel c m l = .ok (view m)[l]
  get_panics : ∀ m, ok m → ∀ l, (view m).length ≤ l → getCellAtLevel c m l = .error .panic
  get_unchecked : ∀ m, ok m → ∀ l, (h : l < (view m).length) → getCellAtLevelUnchecked c m l = .ok (view m)[l]
  set : ∀ m, ok m → ∀ l v, l < (view m).length →
    ∃ m', setCellAtLevel c m l v = .ok m' ∧ ok m' ∧ view m' = (view m).set l v
  set_panics : ∀ m, ok m → ∀ l v, (view m).length ≤ l → setCellAtLevel c m l v = .error .panic
  set_unchecked : ∀ m, ok m → ∀ l v, l < (view m).length →
    ∃ m', setCellAtLevelUnchecked c m l v = .ok m' ∧ ok m' ∧ view m' = (view m).set l v

/-- The contract of the required methods of `VariableDepthMortonIndex` (`morton.rs` 126-158). `limit` is the greatest depth;
`room m k` says that memory can hold `k` more cells. -/
structure VariableIndexContract [VariableDepthMortonIndex M Cell] (c : Cfg) (ok : M → Prop) (view : M → List Cell)
    (room : M → Nat → Prop) (limit : Option Nat) : Prop where
  ancestor_none : ∀ m, ok m → ∀ g : NonZeroUsize, g.val > (view m).length → ancestor c m g = .ok none
  ancestor_some : ∀ m, ok m → ∀ g : NonZeroUsize, g.val ≤ (view m).length →
    ∃ a, ancestor c m g = .ok (some a) ∧ ok a ∧ view a = (view m).take ((view m).length - g.val)
  descendant_none : ∀ m, ok m → ∀ cs, room m cs.length → Exceeds limit ((view m).length + cs.length) →
    descendant c m cs = .ok none
  descendant_some : ∀ m, ok m → ∀ cs, room m cs.length → ¬ Exceeds limit ((view m).length + cs.length) →
    ∃ a, descendant c m cs = .ok (some a) ∧ ok a ∧ view a = view m ++ cs
  limit : ∀ m, ok m → ¬ Exceeds limit (view m).length
  room : ∀ q m, ok q → ok m → (view q).length < (view m).length → room q 1

section
variable {c : Cfg} {ok : M → Prop} {view : M → List Cell} {room : M → Nat → Prop} {limit : Option Nat}

theorem IndexContract.inverted [MortonIndex M Cell] (h : IndexContract c ok view) {m : M} (hm : ok m) :
    ∃ m', MortonIndex.inverted c m = .ok m' ∧ ok m' ∧ view m' = (view m).reverse := by
  let n := (view m).length
  have hd : MortonIndex.depth m = n := h.depth m hm
  obtain ⟨m', h1, h2, h3, h4⟩ := forRange_invariant (a := 0) (b := n) (init := m)
    (body := fun level ret => do
      let inverted_level ← usub c (← usub c n level) 1
      setCellAtLevelUnchecked c ret inverted_level (← getCellAtLevelUnchecked c m level))
    (fun k t => ok t ∧ (view t).length = n ∧ ∀ l, l < n → n - k ≤ l → (view t)[l]? = (view m)[n - 1 - l]?)
    (by omega) ⟨hm, rfl, fun l h1 h2 => by omega⟩ (by
      rintro k t - hk ⟨g1, g2, g3⟩
      have a1 : k ≤ n := by omega
      have a2 : 1 ≤ n - k := by omega
      obtain ⟨t', e1, e2, e3⟩ := h.set_unchecked t g1 (n - k - 1) (view m)[k] (by omega)
      refine ⟨t', ?_, e2, by rw [e3, List.length_set, g2], fun l hl1 hl2 => ?_⟩
      · simp only [usub_ok a1, usub_ok a2, ok_bind, h.get_unchecked m hm k hk, e1]
      · by_cases hl3 : l = n - k - 1
        · subst hl3
          rw [e3, List.getElem?_set_self (by omega), show n - 1 - (n - k - 1) = k by omega, List.getElem?_eq_getElem hk]
        · rw [e3, List.getElem?_set_ne (by omega)]
          exact g3 l hl1 (by omega))
  refine ⟨m', by rw [MortonIndex.inverted, hd]; exact h1, h2, ?_⟩
  apply List.ext_getElem?
  intro l
  by_cases hl : l < n
  · rw [h4 l hl (by omega), List.getElem?_reverse hl]
  · rw [List.getElem?_eq_none (by omega), List.getElem?_eq_none (by rw [List.length_reverse]; omega)]

theorem IndexContract.list [MortonIndex M Cell] (h : IndexContract c ok view) : ListLike c ok view id where
  depth_eq := h.depth
  get := h.get
  get_ge := h.get_panics
  set := h.set
  set_ge := h.set_panics
  inv m hm := by
    rw [List.map_id]
    exact h.inverted hm

theorem VariableIndexContract.anc [VariableDepthMortonIndex M Cell] (h : VariableIndexContract c ok view room limit) :
    AncLike c ok view := ⟨h.ancestor_none, h.ancestor_some⟩

theorem VariableIndexContract.desc [VariableDepthMortonIndex M Cell] (h : VariableIndexContract c ok view room limit) :
    DescLike c ok view room limit := ⟨h.descendant_none, h.descendant_some⟩

/-- C87. The provided `inverted` never panics and reverses the cells; it keeps the contract, and doing it twice gives an index
equal to the first. -/
theorem C87_inverted [MortonIndex M Cell] (h : IndexContract c ok view) :
    InvertedReverses c ok ∧
    (∀ m, ok m → ∃ r, MortonIndex.inverted c m = .ok r ∧ ok r ∧ view r = (view m).reverse) ∧
    ([RustOrd M] → (∀ a b, ok a → ok b → (RustOrd.eq a b = true ↔ view a = view b)) → InvertedInvolutive c ok) :=
  ⟨h.list.invertedReverses, fun _ hm => h.inverted hm, fun hE => (h.list.restores hE).1⟩

/-- C87. The provided `parent`, `with_depth` and `child` are what their documentation says, and they undo each other. -/
theorem C87_navigation [VariableDepthMortonIndex M Cell] [RustOrd M] (h : IndexContract c ok view)
    (hV : VariableIndexContract c ok view room limit) (hrefl : ∀ m : M, RustOrd.eq m m = true)
    (hE : ∀ a b, ok a → ok b → (RustOrd.eq a b = true ↔ view a = view b)) :
    ParentSpec c ok ∧ WithDepthSpec c ok ∧ ChildSpec c ok room limit ∧ ChildParent c ok room ∧ ParentChild c ok := by
  have hL := h.list
  refine ⟨hV.anc.parentSpec hL, hV.anc.withDepthSpec hL hrefl, hV.desc.childSpec hL, hV.desc.childParent hV.anc hE,
    hV.desc.parentChild hL hV.anc hE (fun q m hm hq hl => hV.room q m hq hm (by omega)) hV.limit⟩

/-- C87. Closed form: the cells of the results. -/
theorem C87_cells [VariableDepthMortonIndex M Cell] (h : IndexContract c ok view)
    (hV : VariableIndexContract c ok view room limit) {m : M} (hm : ok m) :
    (∀ d, d ≤ (view m).length → ∃ a, withDepth c m d = .ok (some a) ∧ ok a ∧ view a = (view m).take d) ∧
    (∀ d, (view m).length < d → withDepth c m d = .ok none) ∧
    (view m = [] → parent c m = .ok none) ∧
    (view m ≠ [] → ∃ a, parent c m = .ok (some a) ∧ ok a ∧ view a = (view m).dropLast) ∧
    (∀ v, room m 1 → ¬ Exceeds limit ((view m).length + 1) → ∃ a, child c m v = .ok (some a) ∧ ok a ∧ view a = view m ++ [v]) ∧
    (∀ v, room m 1 → Exceeds limit ((view m).length + 1) → child c m v = .ok none) := by
  refine ⟨fun d hd => hV.anc.withDepth_take h.list hm hd, fun d hd => withDepth_gt (by rw [h.depth m hm]; exact hd),
    fun h0 => ?_, fun h0 => ?_, fun v hr hl => hV.descendant_some m hm [v] hr hl,
    fun v hr hl => hV.descendant_none m hm [v] hr hl⟩
  · rw [parent_eq]
    exact hV.ancestor_none m hm _ (by rw [h0]; exact Nat.one_pos)
  · have : 0 < (view m).length := List.length_pos_iff.mpr h0
    obtain ⟨a, h1, h2, h3⟩ := hV.ancestor_some m hm ⟨1, by decide⟩ this
    exact ⟨a, by rw [parent_eq]; exact h1, h2, by rw [h3, List.dropLast_eq_take]⟩

end

/-! ## A four-dimensional index of another crate -/

/-- An index that keeps its cells as a list, at most sixteen of them. -/
structure Path16 where
  cells : List (Fin (2 ^ 4))
  deriving DecidableEq

instance : RustOrd Path16 where
  eq a b := a == b
  hashInput a := a.cells.map Fin.val
  cmp _ a b := .ok (pathCmp Fin.val a.cells b.cells)
  partialCmp _ a b := .ok (some (pathCmp Fin.val a.cells b.cells))

instance : VariableDepthMortonIndex Path16 (Fin (2 ^ 4)) where
  getCellAtLevel _ m l := match m.cells[l]? with
    | some v => .ok v
    | none => .error .panic
  getCellAtLevelUnchecked _ m l := match m.cells[l]? with
    | some v => .ok v
    | none => .error .undefinedBehaviour
  setCellAtLevel _ m l v := if l < m.cells.length then .ok ⟨m.cells.set l v⟩ else .error .panic
  setCellAtLevelUnchecked _ m l v := if l < m.cells.length then .ok ⟨m.cells.set l v⟩ else .error .undefinedBehaviour
  depth m := m.cells.length
  toString _ m _ := .ok (String.join (m.cells.map fun v => String.singleton (Nat.digitChar v.val)))
  ancestor _ m g := .ok (if g.val > m.cells.length then none else some ⟨m.cells.take (m.cells.length - g.val)⟩)
  descendant _ m cs := .ok (if m.cells.length + cs.length > 16 then none else some ⟨m.cells ++ cs⟩)

theorem path16_contract (c : Cfg) : IndexContract c (fun m : Path16 => m.cells.length ≤ 16) Path16.cells where
  depth _ _ := rfl
  get m _ l h := by simp only [getCellAtLevel, List.getElem?_eq_getElem h]
  get_panics m _ l h := by simp only [getCellAtLevel, List.getElem?_eq_none h]
  get_unchecked m _ l h := by simp only [getCellAtLevelUnchecked, List.getElem?_eq_getElem h]
  set m hm l v h := ⟨⟨m.cells.set l v⟩, if_pos h, by rw [List.length_set]; exact hm, rfl⟩
  set_panics m _ l v h := if_neg (by omega)
  set_unchecked m hm l v h := ⟨⟨m.cells.set l v⟩, if_pos h, by rw [List.length_set]; exact hm, rfl⟩

theorem path16_variable (c : Cfg) :
    VariableIndexContract c (fun m : Path16 => m.cells.length ≤ 16) Path16.cells (fun _ _ => True) (some 16) where
  ancestor_none m _ g h := by simp only [ancestor, if_pos h]
  ancestor_some m hm g h := ⟨⟨m.cells.take (m.cells.length - g.val)⟩,
    by simp only [ancestor, if_neg (show ¬ g.val > m.cells.length by omega)], by rw [List.length_take]; omega, rfl⟩
  descendant_none m _ cs _ h := by
    simp only [Exceeds] at h
    simp only [descendant, if_pos h]
  descendant_some m _ cs _ h := by
    simp only [Exceeds] at h
    exact ⟨⟨m.cells ++ cs⟩, by simp only [descendant, if_neg h], by rw [List.length_append]; omega, rfl⟩
  limit m hm := by simp only [Exceeds]; omega
  room _ _ _ _ _ := trivial

theorem path16_eq (a b : Path16) : RustOrd.eq a b = true ↔ a.cells = b.cells := by
  cases a; cases b; simp [RustOrd.eq]

example : InvertedReverses x64 (fun m : Path16 => m.cells.length ≤ 16) := (C87_inverted (path16_contract x64)).1
example : ∃ r, MortonIndex.inverted x64 (⟨[1, 11, 7]⟩ : Path16) = .ok r ∧ r.cells.length ≤ 16 ∧ r.cells = [7, 11, 1] :=
  (C87_inverted (path16_contract x64)).2.1 _ (by decide)
example : ParentSpec x64 (fun m : Path16 => m.cells.length ≤ 16) :=
  (C87_navigation (path16_contract x64) (path16_variable x64) (fun m => (path16_eq m m).mpr rfl)
    fun a b _ _ => path16_eq a b).1
example : ∃ a, withDepth x64 (⟨[1, 11, 7]⟩ : Path16) 2 = .ok (some a) ∧ a.cells.length ≤ 16 ∧ a.cells = [1, 11] :=
  (C87_cells (path16_contract x64) (path16_variable x64) (m := ⟨[1, 11, 7]⟩) (by decide)).1 2 (by decide)
example : child x64 (⟨List.replicate 16 3⟩ : Path16) 5 = .ok none :=
  (C87_cells (path16_contract x64) (path16_variable x64) (m := ⟨List.replicate 16 3⟩) (by decide)).2.2.2.2.2 5 trivial
    (by simp [Exceeds])

end MortonRs
