import Verif.Props.Sorted
import Verif.Props.StrayCount
import Verif.Props.Rebuild
import Verif.Props.Examples

/-! # Sorting by cells (C116)

Radix sort: one stable pass over the list for every level, from the deepest to the first one, that groups the indices by their cell
at this level. -/

namespace MortonRs

open MortonIndex

variable {M Cell : Type}

/-! ## Statement -/

/-- Client code: the cell at level `l`, or `None` if the index ends above it. -/
def cellOrNone [MortonIndex M Cell] (c : Cfg) (m : M) (l : Nat) : Res (Option Cell) :=
  if l < depth m then do return some (← getCellAtLevel c m l) else .ok none

/-- Client code: one pass. The indices that end above level `l` come first, then those with each of the cells in turn, and those in
one group stay in the order in which they came. -/
def bucketPass [MortonIndex M Cell] [DecidableEq Cell] (c : Cfg) (order : List Cell) (l : Nat) (ms : List M) : Res (List M) := do
  let keyed ← ms.mapM fun m => do return (← cellOrNone c m l, m)
  return (none :: order.map some).flatMap fun v => (keyed.filter fun e => e.1 = v).map (·.2)

/-- Client code: `for l in (l..l + k).rev() { ms = bucket_pass(l, ms) }`. -/
def radixSort [MortonIndex M Cell] [DecidableEq Cell] (c : Cfg) (order : List Cell) (l : Nat) : Nat → List M → Res (List M)
  | 0, ms => .ok ms
  | k + 1, ms => do bucketPass c order l (← radixSort c order (l + 1) k ms)

/-- C116. Passes for all levels, down to the deepest one in the list, sort the list by `cmp`. Nothing is lost or added, and
indices that compare as `Equal` stay in the order in which they came. -/
def RadixSorts [MortonIndex M Cell] [RustOrd M] [DecidableEq Cell] (c : Cfg) (order : List Cell) (ok : M → Prop) : Prop :=
  ∀ (ms : List M) (d : Nat), (∀ m ∈ ms, ok m ∧ depth m ≤ d) →
    ∃ xs, radixSort c order 0 d ms = .ok xs ∧ xs.Perm ms ∧ xs.Pairwise (fun a b => RustOrd.le c a b = .ok true) ∧
      ∀ q, ok q → xs.filter (fun m => RustOrd.cmp c m q = .ok .eq) = ms.filter (fun m => RustOrd.cmp c m q = .ok .eq)

open Classical in
/-- C116 for indices that hold more than their cells: sorted by the cells, so that each one comes before the next ones or has the
same cells, and those with the same cells stay in the order in which they came. -/
def RadixSortsCells [MortonIndex M Cell] [RustOrd M] [DecidableEq Cell] (c : Cfg) (order : List Cell) (ok : M → Prop) : Prop :=
  ∀ (ms : List M) (d : Nat), (∀ m ∈ ms, ok m ∧ depth m ≤ d) →
    ∃ xs, radixSort c order 0 d ms = .ok xs ∧ xs.Perm ms ∧
      xs.Pairwise (fun a b => RustOrd.lt c a b = .ok true ∨ SameCells c a b) ∧
      ∀ q, ok q → xs.filter (fun m => SameCells c m q) = ms.filter (fun m => SameCells c m q)

/-! ## Proof -/

section lists
variable {α β : Type} [DecidableEq β]

theorem flatMap_filter_perm (g : α → β) (vs : List β) (hn : vs.Nodup) (xs : List α) :
    (vs.flatMap fun v => xs.filter fun x => g x = v).Perm (xs.filter fun x => decide (g x ∈ vs)) := by
  induction vs with
  | nil => simp
  | cons v vs ih =>
    obtain ⟨h1, h2⟩ := List.nodup_cons.mp hn
    rw [List.flatMap_cons]
    refine ((ih h2).append_left _).trans ?_
    have e := List.filter_append_perm (fun x => decide (g x = v)) (xs.filter fun x => decide (g x ∈ v :: vs))
    rw [List.filter_filter, List.filter_filter] at e
    refine List.Perm.trans (.of_eq ?_) e
    congr 1
    · refine List.filter_congr fun x _ => ?_
      by_cases hx : g x = v <;> simp [hx]
    · refine List.filter_congr fun x _ => ?_
      by_cases hx : g x = v <;> simp [hx, h1]

/-- What has one key only stays together and in its order. -/
theorem filter_flatMap_filter (g : α → β) (vs : List β) (hn : vs.Nodup) (xs : List α) (f : α → Bool) {u : β} (hu : u ∈ vs)
    (hf : ∀ x ∈ xs, f x = true → g x = u) : (vs.flatMap fun v => xs.filter fun x => g x = v).filter f = xs.filter f := by
  have none_of : ∀ v, v ≠ u → (xs.filter fun x => g x = v).filter f = [] := by
    intro v hv
    rw [List.filter_eq_nil_iff]
    intro x hx e
    obtain ⟨h1, h2⟩ := List.mem_filter.mp hx
    simp only [decide_eq_true_eq] at h2
    exact hv (h2.symm.trans (hf x h1 e))
  have all_of : (xs.filter fun x => g x = u).filter f = xs.filter f := by
    rw [List.filter_filter]
    refine List.filter_congr fun x hx => ?_
    cases e : f x with
    | false => simp
    | true => simp [hf x hx e]
  have rest : ∀ ws : List β, u ∉ ws → (ws.flatMap fun v => xs.filter fun x => g x = v).filter f = [] := by
    intro ws hw
    induction ws with
    | nil => rfl
    | cons v ws ih =>
      rw [List.mem_cons, not_or] at hw
      rw [List.flatMap_cons, List.filter_append, none_of v (fun e => hw.1 e.symm), ih hw.2]
      rfl
  induction vs with
  | nil => simp at hu
  | cons v vs ih =>
    obtain ⟨h1, h2⟩ := List.nodup_cons.mp hn
    rw [List.flatMap_cons, List.filter_append]
    by_cases e : v = u
    · subst e
      rw [all_of, rest vs h1, List.append_nil]
    · rw [none_of v e, List.nil_append]
      exact ih h2 ((List.mem_cons.mp hu).resolve_left fun e' => e e'.symm)

end lists

section paths
variable {key : Cell → Nat}

theorem drop_eq_cons {xs : List Cell} {l : Nat} {v : Cell} (h : xs[l]? = some v) : xs.drop l = v :: xs.drop (l + 1) := by
  obtain ⟨h1, h2⟩ := List.getElem?_eq_some_iff.mp h
  rw [List.drop_eq_getElem_cons h1, h2]

theorem drop_eq_nil {xs : List Cell} {l : Nat} (h : xs[l]? = none) : xs.drop l = [] :=
  List.drop_of_length_le (List.getElem?_eq_none_iff.mp h)

/-- The groups of one pass. -/
def groups (order : List Cell) : List (Option Cell) := none :: order.map some

theorem groups_sorted {order : List Cell} (hord : order.Pairwise (fun v w => key v < key w)) :
    (groups order).Pairwise fun u v => u ≠ v ∧ ∀ w, v = some w → ∀ w', u = some w' → key w' < key w := by
  unfold groups
  rw [List.pairwise_cons]
  refine ⟨fun v hv => ?_, ?_⟩
  · obtain ⟨w, -, rfl⟩ := List.mem_map.mp hv
    exact ⟨by simp, by simp⟩
  · rw [List.pairwise_map]
    refine hord.imp fun {v w} h => ⟨fun e => ?_, fun x hx y hy => ?_⟩
    · cases e
      omega
    · cases hx
      cases hy
      exact h

theorem groups_later {order : List Cell} (hord : order.Pairwise (fun v w => key v < key w)) :
    (groups order).Pairwise fun u v => ∀ xs ys : List Cell, ∀ l : Nat, xs[l]? = u → ys[l]? = v →
      pathCmp key (xs.drop l) (ys.drop l) ≠ .gt := by
  unfold groups
  rw [List.pairwise_cons]
  refine ⟨fun v _ xs ys l h1 _ => ?_, ?_⟩
  · rw [drop_eq_nil h1]
    exact pathCmp_prefix (List.nil_prefix)
  · rw [List.pairwise_map]
    refine hord.imp fun {v w} h xs ys l h1 h2 => ?_
    rw [drop_eq_cons h1, drop_eq_cons h2, pathCmp, if_pos h]
    decide

variable {p : M → List Cell} [DecidableEq Cell]

theorem pass_sorted {order : List Cell} (hord : order.Pairwise (fun v w => key v < key w)) (l : Nat) {ms : List M}
    (hs : ms.Pairwise fun a b => pathCmp key ((p a).drop (l + 1)) ((p b).drop (l + 1)) ≠ .gt) :
    ((groups order).flatMap fun v => ms.filter fun m => (p m)[l]? = v).Pairwise
      fun a b => pathCmp key ((p a).drop l) ((p b).drop l) ≠ .gt := by
  rw [List.pairwise_flatMap]
  refine ⟨fun v _ => ?_, (groups_later hord).imp fun {u v} h a ha b hb => ?_⟩
  · refine (hs.filter _).imp_of_mem fun {a b} ha hb e => ?_
    have h1 := (List.mem_filter.mp ha).2
    have h2 := (List.mem_filter.mp hb).2
    simp only [decide_eq_true_eq] at h1 h2
    cases v with
    | none =>
      rw [drop_eq_nil h1]
      exact pathCmp_prefix List.nil_prefix
    | some v =>
      rw [drop_eq_cons h1, drop_eq_cons h2, pathCmp, if_neg (Nat.lt_irrefl _), if_neg (Nat.lt_irrefl _)]
      exact e
  · have h1 := (List.mem_filter.mp ha).2
    have h2 := (List.mem_filter.mp hb).2
    simp only [decide_eq_true_eq] at h1 h2
    exact h _ _ l h1 h2

end paths

section indices
variable [MortonIndex M Cell] [RustOrd M] [DecidableEq Cell] {c : Cfg} {ok : M → Prop} {p : M → List Cell} {wr : Cell → Cell}
  {key : Cell → Nat} {order : List Cell}

omit [RustOrd M] [DecidableEq Cell] in
theorem cellOrNone_ok (h : ListLike c ok p wr) {m : M} (hm : ok m) (l : Nat) : cellOrNone c m l = .ok (p m)[l]? := by
  unfold cellOrNone
  rw [h.depth_eq m hm]
  by_cases hl : l < (p m).length
  · rw [if_pos hl, h.get m hm l hl, List.getElem?_eq_getElem hl]
    rfl
  · rw [if_neg hl, List.getElem?_eq_none (by omega)]

omit [RustOrd M] in
theorem bucketPass_ok (h : ListLike c ok p wr) {ms : List M} (hms : ∀ m ∈ ms, ok m) (l : Nat) :
    bucketPass c order l ms = .ok ((groups order).flatMap fun v => ms.filter fun m => (p m)[l]? = v) := by
  have e : (ms.mapM fun m => do return (← cellOrNone c m l, m) : Res (List (Option Cell × M))) =
      .ok (ms.map fun m => ((p m)[l]?, m)) := by
    induction ms with
    | nil => rfl
    | cons m ms ih =>
      rw [List.mapM_cons, ih fun x hx => hms x (List.mem_cons_of_mem _ hx), cellOrNone_ok h (hms m (by simp))]
      rfl
  unfold bucketPass
  rw [e]
  simp only [ok_bind]
  congr 1
  refine congrArg (fun f => List.flatMap f _) (funext fun v => ?_)
  rw [List.filter_map, List.map_map]
  simp [Function.comp_def]

omit [RustOrd M] in
theorem radixSort_paths (h : ListLike c ok p wr) (hord : order.Pairwise (fun v w => key v < key w)) (hall : ∀ v, v ∈ order)
    (k l : Nat) (ms : List M) (hms : ∀ m ∈ ms, ok m ∧ (p m).length ≤ l + k) :
    ∃ xs, radixSort c order l k ms = .ok xs ∧ xs.Perm ms ∧
      xs.Pairwise (fun a b => pathCmp key ((p a).drop l) ((p b).drop l) ≠ .gt) ∧
      ∀ q, xs.filter (fun m => p m = q) = ms.filter (fun m => p m = q) := by
  have hnod : (groups order).Nodup := (groups_sorted hord).imp fun h => h.1
  have hmem : ∀ v, v ∈ groups order := by
    intro v
    cases v with
    | none => simp [groups]
    | some v => simp [groups, hall v]
  induction k generalizing l with
  | zero =>
    refine ⟨ms, rfl, .refl _, List.pairwise_iff_forall_sublist.mpr fun {a b} hab => ?_, fun _ => rfl⟩
    rw [List.drop_of_length_le (i := l) (hms a (hab.subset (by simp))).2]
    exact pathCmp_prefix List.nil_prefix
  | succ k ih =>
    obtain ⟨xs, x1, x2, x3, x4⟩ := ih (l + 1) fun m hm => ⟨(hms m hm).1, by have := (hms m hm).2; omega⟩
    have hxs : ∀ m ∈ xs, ok m := fun m hm => (hms m (x2.mem_iff.mp hm)).1
    refine ⟨_, by rw [radixSort, x1]; exact bucketPass_ok h hxs l, ?_, pass_sorted hord l x3, fun q => ?_⟩
    · refine (flatMap_filter_perm _ _ hnod _).trans ?_
      rw [List.filter_eq_self.mpr fun m _ => by simp [hmem]]
      exact x2
    · rw [filter_flatMap_filter _ _ hnod xs _ (hmem q[l]?) fun m _ e => by
        rw [decide_eq_true_eq] at e
        rw [e]]
      exact x4 q

theorem radixSorts_of (hk : Function.Injective key) (h : ListLike c ok p wr) (hC : CmpLike c key ok p)
    (hord : order.Pairwise (fun v w => key v < key w)) (hall : ∀ v, v ∈ order) : RadixSorts c order ok := by
  intro ms d hms
  obtain ⟨xs, x1, x2, x3, x4⟩ := radixSort_paths h hord hall d 0 ms fun m hm => ⟨(hms m hm).1, by
    rw [← h.depth_eq m (hms m hm).1]
    have := (hms m hm).2
    omega⟩
  have hxs : ∀ m ∈ xs, ok m := fun m hm => (hms m (x2.mem_iff.mp hm)).1
  have cmpEq : ∀ a b, ok a → ok b → (RustOrd.cmp c a b = .ok .eq ↔ p a = p b) := fun a b ha hb => by
    rw [(hC a b ha hb).1, ← pathCmp_eq_iff key hk]
    exact ⟨fun e => Except.ok.inj e, fun e => congrArg _ e⟩
  refine ⟨xs, x1, x2, x3.imp_of_mem fun {a b} ha hb e => ?_, fun q hq => ?_⟩
  · rw [RustOrd.le, (hC a b (hxs a ha) (hxs b hb)).2]
    simp only [List.drop_zero] at e
    cases e' : pathCmp key (p a) (p b) with
    | gt => exact absurd e' e
    | lt => rfl
    | eq => rfl
  · have e : ∀ ys : List M, (∀ m ∈ ys, ok m) → ys.filter (fun m => RustOrd.cmp c m q = .ok .eq) = ys.filter fun m => p m = p q :=
      fun ys hys => List.filter_congr fun m hm => by rw [decide_eq_decide]; exact cmpEq m q (hys m hm) hq
    rw [e xs hxs, e ms fun m hm => (hms m hm).1]
    exact x4 (p q)

theorem radixSortsCells_of (hk : Function.Injective key) (h : ListLike c ok p wr)
    (hlt : ∀ a b, ok a → ok b → pathCmp key (p a) (p b) = .lt → RustOrd.lt c a b = .ok true)
    (hord : order.Pairwise (fun v w => key v < key w)) (hall : ∀ v, v ∈ order) : RadixSortsCells c order ok := by
  intro ms d hms
  obtain ⟨xs, x1, x2, x3, x4⟩ := radixSort_paths h hord hall d 0 ms fun m hm => ⟨(hms m hm).1, by
    rw [← h.depth_eq m (hms m hm).1]
    have := (hms m hm).2
    omega⟩
  have hxs : ∀ m ∈ xs, ok m := fun m hm => (hms m (x2.mem_iff.mp hm)).1
  have hsame : ∀ a b, ok a → ok b → (SameCells c a b ↔ p a = p b) := fun a b ha hb => by
    rw [← h.sameCells_iff ha hb]
    refine ⟨fun ⟨g1, g2⟩ => ⟨g1, fun l _ => g2 l⟩, fun ⟨g1, g2⟩ => ⟨g1, fun l => ?_⟩⟩
    by_cases hl : l < depth a
    · exact g2 l hl
    · rw [h.get_ge a ha l (by rw [← h.depth_eq a ha]; omega), h.get_ge b hb l (by rw [← h.depth_eq b hb]; omega)]
  refine ⟨xs, x1, x2, x3.imp_of_mem fun {a b} ha hb e => ?_, fun q hq => ?_⟩
  · simp only [List.drop_zero] at e
    cases e' : pathCmp key (p a) (p b) with
    | gt => exact absurd e' e
    | lt => exact .inl (hlt a b (hxs a ha) (hxs b hb) e')
    | eq => exact .inr ((hsame a b (hxs a ha) (hxs b hb)).mpr ((pathCmp_eq_iff key hk _ _).mp e'))
  · have e : ∀ ys : List M, (∀ m ∈ ys, ok m) → ys.filter (fun m => @decide (SameCells c m q) (Classical.propDecidable _)) =
        ys.filter fun m => p m = p q :=
      fun ys hys => List.filter_congr fun m hm => by rw [decide_eq_decide]; exact hsame m q (hys m hm) hq
    rw [e xs hxs, e ms fun m hm => (hms m hm).1]
    exact x4 (p q)

end indices

/-! ## C116 -/

variable {c : Cfg}

theorem C116_radix_sort_2D (hc : c.Supported) :
    (∀ w, RadixSorts c [Quadrant.Zero, .One, .Two, .Three]
      (fun m : MortonIndex2D (FixedDepthStorage2D w) => Reach2D c .all (.fixed w m))) ∧
    (∀ w, RadixSorts c [Quadrant.Zero, .One, .Two, .Three]
      (fun m : MortonIndex2D (StaticStorage2D w) => Reach2D c .all (.static w m))) ∧
    RadixSorts c [Quadrant.Zero, .One, .Two, .Three] (fun m : MortonIndex2D DynamicStorage2D => Reach2D c .all (.dynamic m)) :=
  ⟨fun _ => radixSorts_of quadrantKey_inj (fixed_list2 hc) (fixed_cmp2 hc) (by decide) (fun v => by cases v <;> decide),
    fun _ => radixSorts_of quadrantKey_inj (static_list2 hc) (static_cmp2 hc) (by decide) (fun v => by cases v <;> decide),
    radixSorts_of quadrantKey_inj (dynamic_list2' hc) (dynamic_cmp2 hc) (by decide) (fun v => by cases v <;> decide)⟩

/-- C116 in 3D; the fixed type for values without stray bits. -/
theorem C116_radix_sort_3D (hc : c.Supported) :
    (∀ w, RadixSorts c [Octant.Zero, .One, .Two, .Three, .Four, .Five, .Six, .Seven]
      (fun m : MortonIndex3D (FixedDepthStorage3D w) => Reach3D c .canonical (.fixed w m))) ∧
    (∀ w, RadixSorts c [Octant.Zero, .One, .Two, .Three, .Four, .Five, .Six, .Seven]
      (fun m : MortonIndex3D (StaticStorage3D w) => Reach3D c .all (.static w m))) ∧
    RadixSorts c [Octant.Zero, .One, .Two, .Three, .Four, .Five, .Six, .Seven]
      (fun m : MortonIndex3D DynamicStorage3D => Reach3D c .all (.dynamic m)) :=
  ⟨fun _ => radixSorts_of octantKey_inj (fixed_list3 hc) (fixed_cmp3 hc) (by decide) (fun v => by cases v <;> decide),
    fun _ => radixSorts_of octantKey_inj (static_list3 hc) (static_cmp3 hc) (by decide) (fun v => by cases v <;> decide),
    radixSorts_of octantKey_inj (dynamic_list3' hc) (dynamic_cmp3 hc) (by decide) (fun v => by cases v <;> decide)⟩

/-- C116 for 3D fixed-depth indices with any bits in the places that belong to no cell: sorted by the cells. -/
theorem C116_radix_sort_any_bits_3D (hc : c.Supported) (w : Nat) :
    RadixSortsCells c [Octant.Zero, .One, .Two, .Three, .Four, .Five, .Six, .Seven]
      (fun m : MortonIndex3D (FixedDepthStorage3D w) => Reach3D c .all (.fixed w m)) := by
  refine radixSortsCells_of octantKey_inj (fixed_list3 hc) (fun a b ha _ e => ?_) (by decide) (fun v => by cases v <;> decide)
  have hp : RustOrd.partialCmp c a b = (RustOrd.cmp c a b).map some := rfl
  rw [RustOrd.lt, hp, fixed_cmp_all3 hc (fixed_wf3 hc a ha).fit, e]
  rfl

/-! ## Examples -/

/-- Nodes of a quadtree in disorder: `[Three, One, Two]`, `[Zero, Two]`, the root, `[Three]`, `[Zero]`. -/
def exUnsorted : List (MortonIndex2D (StaticStorage2D 16)) :=
  [exS2, ⟨⟨0x2000#16, 2⟩⟩, ⟨⟨0#16, 0⟩⟩, ⟨⟨0xC000#16, 1⟩⟩, ⟨⟨0#16, 1⟩⟩]

example : radixSort x64 [Quadrant.Zero, .One, .Two, .Three] 0 3 exUnsorted =
    .ok [⟨⟨0#16, 0⟩⟩, ⟨⟨0#16, 1⟩⟩, ⟨⟨0x2000#16, 2⟩⟩, ⟨⟨0xC000#16, 1⟩⟩, exS2] := by decide +kernel

/-- The theorem applied to them. -/
example : ∃ xs, radixSort x64 [Quadrant.Zero, .One, .Two, .Three] 0 3 exUnsorted = .ok xs ∧ xs.Perm exUnsorted ∧
    xs.Pairwise (fun a b => RustOrd.le x64 a b = .ok true) := by
  obtain ⟨xs, h1, h2, h3, -⟩ := (C116_radix_sort_2D x64_supported).2.1 16 exUnsorted 3 (fun m hm => by
    simp only [exUnsorted, List.mem_cons, List.not_mem_nil, or_false] at hm
    rcases hm with rfl | rfl | rfl | rfl | rfl
    · exact ⟨exS2_reach _, by decide⟩
    · exact ⟨.staticTryFromSlice (cs := [.Zero, .Two]) (by decide) (by rfl), by decide⟩
    · exact ⟨.staticTryFromSlice (cs := []) (by decide) (by rfl), by decide⟩
    · exact ⟨.staticTryFromSlice (cs := [.Three]) (by decide) (by rfl), by decide⟩
    · exact ⟨.staticTryFromSlice (cs := [.Zero]) (by decide) (by rfl), by decide⟩)
  exact ⟨xs, h1, h2, h3⟩

/-- With stray bits: `0xB700` differs from the others in a cell, `0xA701` from `0xA700` in the stray bit only. Indices with the same
cells are not exchanged, although the second one is less than the first. -/
example : radixSort x64 [Octant.Zero, .One, .Two, .Three, .Four, .Five, .Six, .Seven] 0 5
      [(⟨⟨0xB700#16⟩⟩ : MortonIndex3D (FixedDepthStorage3D 16)), ⟨⟨0xA701#16⟩⟩, ⟨⟨0xA700#16⟩⟩] =
    .ok [⟨⟨0xA701#16⟩⟩, ⟨⟨0xA700#16⟩⟩, ⟨⟨0xB700#16⟩⟩] := by decide +kernel

example : ∃ xs, radixSort x64 [Octant.Zero, .One, .Two, .Three, .Four, .Five, .Six, .Seven] 0 5
      [(⟨⟨0xB700#16⟩⟩ : MortonIndex3D (FixedDepthStorage3D 16)), ⟨⟨0xA701#16⟩⟩, ⟨⟨0xA700#16⟩⟩] = .ok xs ∧
    xs.Pairwise (fun a b => RustOrd.lt x64 a b = .ok true ∨ SameCells x64 a b) := by
  obtain ⟨xs, h1, -, h2, -⟩ := C116_radix_sort_any_bits_3D x64_supported 16
    [⟨⟨0xB700#16⟩⟩, ⟨⟨0xA701#16⟩⟩, ⟨⟨0xA700#16⟩⟩] 5 (fun m _ => ⟨.fixedFromRaw (by decide) (.inl rfl), by
      rw [(fixed_list3 x64_supported).depth_eq m (.fixedFromRaw (by decide) (.inl rfl))]
      exact Nat.le_of_eq rfl⟩)
  exact ⟨xs, h1, h2⟩

/-- Dynamic octree indices on a big-endian target: `[Zero]` and the root. -/
example : ∃ xs, radixSort be64 [Octant.Zero, .One, .Two, .Three, .Four, .Five, .Six, .Seven] 0 3
      [(⟨⟨[0#8], 1⟩⟩ : MortonIndex3D DynamicStorage3D), ⟨⟨[], 0⟩⟩] = .ok xs ∧
    xs.Pairwise (fun a b => RustOrd.le be64 a b = .ok true) := by
  obtain ⟨xs, h1, -, h2, -⟩ := (C116_radix_sort_3D (c := be64) (by decide)).2.2 [⟨⟨[0#8], 1⟩⟩, ⟨⟨[], 0⟩⟩] 3 (fun m hm => by
    simp only [List.mem_cons, List.not_mem_nil, or_false] at hm
    rcases hm with rfl | rfl
    · exact ⟨.dynamicTryFromSlice (cs := [.Zero]) (by unfold Addressable; decide) (by rfl), by decide⟩
    · exact ⟨.dynamicTryFromSlice (cs := []) (by unfold Addressable; decide) (by rfl), by decide⟩)
  exact ⟨xs, h1, h2⟩

end MortonRs
