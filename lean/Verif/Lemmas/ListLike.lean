import Verif.Props.Defs
import Verif.Lemmas.Nav
import Verif.Lemmas.Order

/-! # From "behaves like a list" to the property statements

`ListLike`, `AncLike`, `DescLike`, `EqLike`, `CmpLike` say that the indices picked out by `ok` behave like the
list `p m`. Each is proved once per index type; the property statements follow here once for all of them. -/

namespace MortonRs

open MortonIndex VariableDepthMortonIndex

variable {M Cell : Type}

/-- Reads and writes are those of a list; `wr v` is what a write of `v` stores. -/
structure ListLike [MortonIndex M Cell] (c : Cfg) (ok : M → Prop) (p : M → List Cell) (wr : Cell → Cell) : Prop where
  depth_eq : ∀ m, ok m → depth m = (p m).length
  get : ∀ m, ok m → ∀ l (h : l < (p m).length), getCellAtLevel c m l = .ok (p m)[l]
  get_ge : ∀ m, ok m → ∀ l, (p m).length ≤ l → getCellAtLevel c m l = .error .panic
  set : ∀ m, ok m → ∀ l v, l < (p m).length →
    ∃ m', setCellAtLevel c m l v = .ok m' ∧ ok m' ∧ p m' = (p m).set l (wr v)
  set_ge : ∀ m, ok m → ∀ l v, (p m).length ≤ l → setCellAtLevel c m l v = .error .panic
  inv : ∀ m, ok m → ∃ m', inverted c m = .ok m' ∧ ok m' ∧ p m' = (p m).reverse.map wr

structure AncLike [VariableDepthMortonIndex M Cell] (c : Cfg) (ok : M → Prop) (p : M → List Cell) : Prop where
  no : ∀ m, ok m → ∀ g : NonZeroUsize, g.val > (p m).length → ancestor c m g = .ok none
  yes : ∀ m, ok m → ∀ g : NonZeroUsize, g.val ≤ (p m).length →
    ∃ a, ancestor c m g = .ok (some a) ∧ ok a ∧ p a = (p m).take ((p m).length - g.val)

structure DescLike [VariableDepthMortonIndex M Cell] (c : Cfg) (ok : M → Prop) (p : M → List Cell)
    (room : M → Nat → Prop) (limit : Option Nat) : Prop where
  no : ∀ m, ok m → ∀ cs, room m cs.length → Exceeds limit ((p m).length + cs.length) →
    descendant c m cs = .ok none
  yes : ∀ m, ok m → ∀ cs, room m cs.length → ¬ Exceeds limit ((p m).length + cs.length) →
    ∃ a, descendant c m cs = .ok (some a) ∧ ok a ∧ p a = p m ++ cs

/-- The library's `==` is equality of the lists. -/
def EqLike [RustOrd M] (ok : M → Prop) (p : M → List Cell) : Prop :=
  ∀ a b, ok a → ok b → (RustOrd.eq a b = true ↔ p a = p b)

/-- `cmp` is the order of the lists. -/
def CmpLike [RustOrd M] (c : Cfg) (key : Cell → Nat) (ok : M → Prop) (p : M → List Cell) : Prop :=
  ∀ a b, ok a → ok b → RustOrd.cmp c a b = .ok (pathCmp key (p a) (p b)) ∧
    RustOrd.partialCmp c a b = .ok (some (pathCmp key (p a) (p b)))

section access
variable [MortonIndex M Cell] {c : Cfg} {ok : M → Prop} {p : M → List Cell} {wr : Cell → Cell}

theorem ListLike.shows (h : ListLike c ok p wr) {m : M} (hm : ok m) : Shows c m (p m) :=
  ⟨h.depth_eq m hm, fun l hl => h.get m hm l hl⟩

theorem ListLike.get_eq (h : ListLike c ok p wr) {m : M} (hm : ok m) (l : Nat) :
    getCellAtLevel c m l = match (p m)[l]? with
      | some x => .ok x
      | none => .error .panic := by
  by_cases hl : l < (p m).length
  · rw [h.get m hm l hl, List.getElem?_eq_getElem hl]
  · rw [h.get_ge m hm l (by omega), List.getElem?_eq_none (by omega)]

theorem shows_unique {m : M} {as bs : List Cell} (ha : Shows c m as) (hb : Shows c m bs) : as = bs := by
  have hl : as.length = bs.length := by rw [← ha.1, ← hb.1]
  apply List.ext_getElem hl
  intro l h1 h2
  have := ha.2 l h1
  rw [hb.2 l h2] at this
  exact (Except.ok.inj this).symm

theorem ListLike.eq_of_shows (h : ListLike c ok p wr) {m : M} (hm : ok m) {cs : List Cell} (hs : Shows c m cs) :
    p m = cs := shows_unique (h.shows hm) hs

theorem yields_of_shows {S : Type} [Storage S Cell] {iter : M → CellIter S} (h : IteratesCells c iter ok) {m : M}
    (hm : ok m) {cs : List Cell} (hs : Shows c m cs) : Yields c (iter m) cs := by
  intro n
  obtain ⟨items, h1, h2, h3⟩ := h m hm (cs.length + n)
  rw [h1]
  congr 1
  apply List.ext_getElem
  · simp [h2]
  · intro k hk1 hk2
    by_cases hk : k < cs.length
    · obtain ⟨v, g1, g2⟩ := (h3 k hk1).1 (by rw [hs.1]; exact hk)
      rw [hs.2 k hk] at g1
      cases g1
      rw [g2, List.getElem_append_left (by simpa using hk), List.getElem_map]
    · rw [(h3 k hk1).2 (by rw [hs.1]; omega), List.getElem_append_right (by simpa using hk), List.getElem_replicate]

theorem ListLike.setGet (h : ListLike c ok p id) : SetGet c ok := by
  intro m hm l v hl
  have hl' : l < (p m).length := by rw [← h.depth_eq m hm]; exact hl
  obtain ⟨m', h1, h2, h3⟩ := h.set m hm l v hl'
  refine ⟨m', h1, ?_, ?_, ?_⟩
  · rw [h.depth_eq m' h2, h.depth_eq m hm, h3, List.length_set]
  · rw [h.get_eq h2, h3, List.getElem?_set_self hl']
    rfl
  · intro k hk
    rw [h.get_eq h2, h.get_eq hm, h3, List.getElem?_set_ne (by omega)]

theorem ListLike.panics (h : ListLike c ok p wr) : PanicsExactlyOutOfRange c ok := by
  intro m hm l
  rw [h.depth_eq m hm]
  refine ⟨fun hl => ⟨⟨_, h.get m hm l hl⟩, fun v => ?_⟩, fun hl => ⟨h.get_ge m hm l hl, fun v => h.set_ge m hm l v hl⟩⟩
  obtain ⟨m', h1, -⟩ := h.set m hm l v hl
  exact ⟨m', h1⟩

theorem ListLike.invertedReverses (h : ListLike c ok p id) : InvertedReverses c ok := by
  intro m hm
  obtain ⟨r, h1, h2, h3⟩ := h.inv m hm
  rw [List.map_id] at h3
  refine ⟨r, h1, ?_, ?_⟩
  · rw [h.depth_eq r h2, h.depth_eq m hm, h3, List.length_reverse]
  · intro l hl
    rw [h.depth_eq m hm] at hl ⊢
    rw [h.get_eq h2, h.get_eq hm, h3, List.getElem?_reverse hl]

theorem ListLike.sameCells_iff (h : ListLike c ok p wr) {a b : M} (ha : ok a) (hb : ok b) :
    (depth a = depth b ∧ ∀ l, l < depth a → getCellAtLevel c a l = getCellAtLevel c b l) ↔ p a = p b := by
  rw [h.depth_eq a ha, h.depth_eq b hb]
  constructor
  · rintro ⟨h1, h2⟩
    apply List.ext_getElem h1
    intro l hl1 hl2
    have := h2 l hl1
    rw [h.get a ha l hl1, h.get b hb l hl2] at this
    exact Except.ok.inj this
  · intro e
    refine ⟨by rw [e], fun l hl => ?_⟩
    rw [h.get_eq ha, h.get_eq hb, e]

theorem ListLike.eqMeansSameCells [RustOrd M] (h : ListLike c ok p wr) (he : EqLike ok p) : EqMeansSameCells c ok := by
  intro a b ha hb
  rw [he a b ha hb, h.sameCells_iff ha hb]

theorem ListLike.comparesPaths [RustOrd M] {key : Cell → Nat} (h : ListLike c ok p wr) (hc : CmpLike c key ok p) :
    ComparesPaths c key ok := by
  intro a b ha hb
  obtain ⟨h1, h2⟩ := hc a b ha hb
  refine ⟨p a, p b, h.shows ha, h.shows hb, h1, h2, ?_, ?_, ?_, ?_⟩
  · rw [RustOrd.lt, h2]; cases pathCmp key (p a) (p b) <;> rfl
  · rw [RustOrd.le, h2]; cases pathCmp key (p a) (p b) <;> rfl
  · rw [RustOrd.gt, h2]; cases pathCmp key (p a) (p b) <;> rfl
  · rw [RustOrd.ge, h2]; cases pathCmp key (p a) (p b) <;> rfl

end access

section order
variable [RustOrd M] {c : Cfg} {ok : M → Prop} {p : M → List Cell} {key : Cell → Nat}

theorem CmpLike.le_iff (h : CmpLike c key ok p) {a b : M} (ha : ok a) (hb : ok b) :
    RustOrd.le c a b = .ok true ↔ pathCmp key (p a) (p b) ≠ .gt := by
  rw [RustOrd.le, (h a b ha hb).2]
  cases pathCmp key (p a) (p b) <;> simp [ok_bind, pure_eq_ok]

theorem CmpLike.totalOrder (hk : Function.Injective key) (h : CmpLike c key ok p) : TotalOrder c ok := by
  refine ⟨fun a ha => ?_, fun a b ha hb => ?_, fun a b d ha hb hd => ?_, fun a b d ha hb hd e => ?_⟩
  · rw [(h a a ha ha).1, pathCmp_refl]
  · exact ⟨_, (h a b ha hb).1, by rw [(h b a hb ha).1, pathCmp_swap]⟩
  · rw [h.le_iff ha hb, h.le_iff hb hd, h.le_iff ha hd]
    exact pathCmp_trans key
  · rw [(h a b ha hb).1] at e
    rw [(h a d ha hd).1, (h b d hb hd).1, (pathCmp_eq_iff key hk _ _).mp (Except.ok.inj e)]

theorem CmpLike.agreesWithEq (hk : Function.Injective key) (h : CmpLike c key ok p) (he : EqLike ok p) :
    CmpAgreesWithEq c ok := by
  intro a b ha hb
  rw [(h a b ha hb).1, he a b ha hb, ← pathCmp_eq_iff key hk]
  exact ⟨Except.ok.inj, congrArg _⟩

end order

section navigation
variable [VariableDepthMortonIndex M Cell] {c : Cfg} {ok : M → Prop} {p : M → List Cell} {wr : Cell → Cell}
  {room : M → Nat → Prop} {limit : Option Nat}

theorem isPrefix_of_take (h : ListLike c ok p wr) {m a : M} (hm : ok m) (ha : ok a) {n : Nat}
    (hn : n ≤ (p m).length) (e : p a = (p m).take n) : IsPrefix c m a n := by
  refine ⟨?_, fun l hl => ?_⟩
  · rw [h.depth_eq a ha, e, List.length_take]; omega
  · rw [h.get_eq ha, h.get_eq hm, e, List.getElem?_take_of_lt hl]

theorem AncLike.spec (h : ListLike c ok p wr) (hA : AncLike c ok p) : AncestorSpec c ok := by
  intro m hm g
  rw [h.depth_eq m hm]
  refine ⟨hA.no m hm g, fun hg => ?_⟩
  obtain ⟨a, h1, h2, h3⟩ := hA.yes m hm g hg
  exact ⟨a, h1, isPrefix_of_take h hm h2 (by omega) h3⟩

theorem AncLike.parentSpec (h : ListLike c ok p wr) (hA : AncLike c ok p) : ParentSpec c ok := by
  intro m hm
  rw [h.depth_eq m hm, parent_eq]
  refine ⟨fun h0 => hA.no m hm _ (by change 1 > _; omega), fun h0 => ?_⟩
  obtain ⟨a, h1, h2, h3⟩ := hA.yes m hm ⟨1, by decide⟩ h0
  exact ⟨a, h1, isPrefix_of_take h hm h2 (by omega) h3⟩

/-- What `with_depth` returns. -/
theorem AncLike.withDepth_take (h : ListLike c ok p wr) (hA : AncLike c ok p) {m : M} (hm : ok m) {d : Nat}
    (hd : d ≤ (p m).length) : ∃ a, withDepth c m d = .ok (some a) ∧ ok a ∧ p a = (p m).take d := by
  rcases Nat.lt_or_eq_of_le hd with h1 | h1
  · have h1' : d < depth m := by rw [h.depth_eq m hm]; exact h1
    rw [withDepth_lt h1']
    obtain ⟨a, g1, g2, g3⟩ := hA.yes m hm ⟨depth m - d, by omega⟩ (by
      change depth m - d ≤ _; rw [h.depth_eq m hm]; omega)
    refine ⟨a, g1, g2, ?_⟩
    rw [g3]
    change (p m).take ((p m).length - (depth m - d)) = _
    rw [h.depth_eq m hm]
    congr 1
    omega
  · have : d = depth m := by rw [h.depth_eq m hm]; exact h1
    rw [this, withDepth_self]
    exact ⟨m, rfl, hm, by rw [h.depth_eq m hm, List.take_length]⟩

theorem AncLike.withDepthSpec [RustOrd M] (h : ListLike c ok p wr) (hA : AncLike c ok p)
    (hrefl : ∀ m : M, RustOrd.eq m m = true) : WithDepthSpec c ok := by
  intro m hm d
  refine ⟨fun hd => withDepth_gt hd, fun hd => ?_, fun hd => ?_⟩
  · rw [h.depth_eq m hm] at hd
    obtain ⟨a, h1, h2, h3⟩ := hA.withDepth_take h hm hd
    exact ⟨a, h1, isPrefix_of_take h hm h2 hd h3⟩
  · subst hd
    exact ⟨m, withDepth_self, hrefl m⟩

theorem extends_of_append (h : ListLike c ok p wr) {m a : M} (hm : ok m) (ha : ok a) {cs : List Cell}
    {r : Res (Option M)} (hr : r = .ok (some a)) (e : p a = p m ++ cs) : Extends c m cs r := by
  refine ⟨a, hr, ?_, fun l hl => ?_, fun k hk => ?_⟩
  · rw [h.depth_eq a ha, h.depth_eq m hm, e, List.length_append]
  · rw [h.depth_eq m hm] at hl
    rw [h.get_eq ha, h.get_eq hm, e, List.getElem?_append_left hl]
  · rw [h.depth_eq m hm, h.get_eq ha, e, List.getElem?_append_right (by omega), Nat.add_sub_cancel_left,
      List.getElem?_eq_getElem hk]

theorem DescLike.spec (h : ListLike c ok p wr) (hD : DescLike c ok p room limit) : DescendantSpec c ok room limit := by
  intro m hm cs hr
  rw [h.depth_eq m hm]
  refine ⟨hD.no m hm cs hr, fun he => ?_⟩
  obtain ⟨a, h1, h2, h3⟩ := hD.yes m hm cs hr he
  exact extends_of_append h hm h2 h1 h3

theorem DescLike.childSpec (h : ListLike c ok p wr) (hD : DescLike c ok p room limit) : ChildSpec c ok room limit := by
  intro m hm v hr
  exact hD.spec h m hm [v] hr

open Classical in
theorem DescLike.of_some (hD : DescLike c ok p room limit) {m k : M} (hm : ok m)
    {cs : List Cell} (hr : room m cs.length) (hk : descendant c m cs = .ok (some k)) :
    ok k ∧ p k = p m ++ cs := by
  by_cases he : Exceeds limit ((p m).length + cs.length)
  · rw [hD.no m hm cs hr he] at hk; simp at hk
  · obtain ⟨a, h1, h2, h3⟩ := hD.yes m hm cs hr he
    rw [hk] at h1; cases h1
    exact ⟨h2, h3⟩

theorem DescLike.descendantAncestor [RustOrd M] (hA : AncLike c ok p) (hD : DescLike c ok p room limit)
    (hE : EqLike ok p) : DescendantAncestor c ok room := by
  intro m hm cs h0 hr k hk
  obtain ⟨h1, h2⟩ := hD.of_some hm hr hk
  obtain ⟨q, g1, g2, g3⟩ := hA.yes k h1 ⟨cs.length, h0⟩ (by rw [h2, List.length_append]; exact Nat.le_add_left ..)
  refine ⟨q, g1, (hE q m g2 hm).mpr ?_⟩
  rw [g3, h2, List.length_append, Nat.add_sub_cancel, List.take_left]

theorem DescLike.childParent [RustOrd M] (hA : AncLike c ok p) (hD : DescLike c ok p room limit)
    (hE : EqLike ok p) : ChildParent c ok room := by
  intro m hm v hr k hk
  rw [parent_eq]
  exact hD.descendantAncestor hA hE m hm [v] (by simp) hr k hk

theorem DescLike.parentChild [RustOrd M] (h : ListLike c ok p wr) (hA : AncLike c ok p) (hD : DescLike c ok p room limit)
    (hE : EqLike ok p) (hroom : ∀ q m : M, ok m → ok q → (p q).length + 1 = (p m).length → room q 1)
    (hlim : ∀ m : M, ok m → ¬ Exceeds limit (p m).length) :
    ParentChild c ok := by
  intro m hm q hq
  rw [parent_eq] at hq
  by_cases h0 : 0 < (p m).length
  · obtain ⟨a, h1, h2, h3⟩ := hA.yes m hm ⟨1, by decide⟩ h0
    rw [hq] at h1; cases h1
    change p q = (p m).take ((p m).length - 1) at h3
    refine ⟨(p m)[(p m).length - 1], ?_, ?_⟩
    · rw [h.depth_eq m hm]; exact h.get m hm _ (by omega)
    · have hlen : (p q).length + 1 = (p m).length := by rw [h3, List.length_take]; omega
      obtain ⟨k, g1, g2, g3⟩ := hD.yes q h2 [(p m)[(p m).length - 1]] (hroom q m hm h2 hlen) (by
        rw [List.length_singleton, hlen]; exact hlim m hm)
      refine ⟨k, g1, (hE k m g2 hm).mpr ?_⟩
      rw [g3, h3]
      conv => rhs; rw [← List.take_length (l := p m)]
      rw [List.take_append_getElem (by omega)]
      congr 1
      omega
  · rw [hA.no m hm _ (by change 1 > _; omega)] at hq
    simp at hq

end navigation

section subtree
variable [VariableDepthMortonIndex M Cell] [RustOrd M] {c : Cfg} {ok : M → Prop} {p : M → List Cell}
  {wr : Cell → Cell} {key : Cell → Nat}

theorem inSubtree_iff (hk : Function.Injective key) (h : ListLike c ok p wr) (hA : AncLike c ok p)
    (hC : CmpLike c key ok p) {x y : M} (hx : ok x) (hy : ok y) : InSubtree c x y ↔ p x <+: p y := by
  unfold InSubtree
  rw [h.depth_eq x hx]
  constructor
  · rintro ⟨z, h1, h2⟩
    by_cases hl : (p x).length ≤ (p y).length
    · obtain ⟨a, g1, g2, g3⟩ := hA.withDepth_take h hy hl
      rw [h1] at g1; cases g1
      rw [(hC z x g2 hx).1] at h2
      have := (pathCmp_eq_iff key hk _ _).mp (Except.ok.inj h2)
      rw [← this, g3]
      exact List.take_prefix ..
    · rw [withDepth_gt (by rw [h.depth_eq y hy]; omega)] at h1
      simp at h1
  · intro hp
    obtain ⟨a, g1, g2, g3⟩ := hA.withDepth_take h hy hp.length_le
    refine ⟨a, g1, ?_⟩
    rw [(hC a x g2 hx).1, g3, ← List.prefix_iff_eq_take.mp hp, pathCmp_refl]

theorem pathCmp_prefix {xs ys : List Cell} (h : xs <+: ys) : pathCmp key xs ys ≠ .gt := by
  obtain ⟨t, rfl⟩ := h
  induction xs with
  | nil => cases t <;> simp [pathCmp]
  | cons x xs ih => simpa [pathCmp] using ih

theorem pathCmp_between (hk : Function.Injective key) {xs as ms bs : List Cell} (ha : xs <+: as) (hb : xs <+: bs)
    (h1 : pathCmp key as ms ≠ .gt) (h2 : pathCmp key ms bs ≠ .gt) : xs <+: ms := by
  induction xs generalizing as ms bs with
  | nil => exact List.nil_prefix
  | cons x xs ih =>
    obtain ⟨ta, rfl⟩ := ha
    obtain ⟨tb, rfl⟩ := hb
    cases ms with
    | nil => simp [pathCmp] at h1
    | cons m ms =>
      simp only [List.cons_append, pathCmp] at h1 h2
      have hxm : key x = key m := by
        rcases Nat.lt_trichotomy (key x) (key m) with h | h | h
        · rw [if_neg (by omega), if_pos h] at h2; simp at h2
        · exact h
        · rw [if_neg (by omega), if_pos h] at h1; simp at h1
      have := hk hxm
      subst this
      simp only [Nat.lt_irrefl, if_false] at h1 h2
      rw [List.cons_prefix_cons]
      exact ⟨rfl, ih (List.prefix_append ..) (List.prefix_append ..) h1 h2⟩

theorem subtreeContiguous (hk : Function.Injective key) (h : ListLike c ok p wr) (hA : AncLike c ok p)
    (hC : CmpLike c key ok p) : SubtreeContiguous c ok := by
  refine ⟨fun x y hx hy hxy => ?_, fun x a m b hx ha hm hb hxa hxb h1 h2 => ?_⟩
  · rw [hC.le_iff hx hy]
    exact pathCmp_prefix ((inSubtree_iff hk h hA hC hx hy).mp hxy)
  · rw [inSubtree_iff hk h hA hC hx ha] at hxa
    rw [inSubtree_iff hk h hA hC hx hb] at hxb
    rw [inSubtree_iff hk h hA hC hx hm]
    exact pathCmp_between hk hxa hxb ((hC.le_iff ha hm).mp h1) ((hC.le_iff hm hb).mp h2)

end subtree

end MortonRs
