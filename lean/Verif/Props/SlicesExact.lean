import Verif.Props.Slices
import Verif.Props.Deep2D
import Verif.Props.Deep3D

/-! # Displayable slices of any indices (C41): comparisons element by element, and exactly when displaying panics -/

namespace MortonRs

open MortonIndex

variable {c : Cfg} {M Cell : Type}

/-! ## Statements -/

/-- The elements of `as` and `bs` before `k` exist and compare as `same`. -/
def SameUpTo {R : Type} (cmp : M → M → Res R) (same : R) (as bs : List M) (k : Nat) : Prop :=
  k ≤ as.length ∧ k ≤ bs.length ∧ ∀ j (h : j < as.length) (h' : j < bs.length), j < k → cmp as[j] bs[j] = .ok same

/-- `r` is the lexicographic comparison of the slices by `cmp`: the first pair that is not `same` decides, or panics; without one the
lengths do. -/
def LexResult {R : Type} (cmp : M → M → Res R) (same less greater : R) (as bs : List M) (r : Res R) : Prop :=
  ∃ k, SameUpTo cmp same as bs k ∧
    ((k = as.length ∧ k = bs.length ∧ r = .ok same) ∨ (k = as.length ∧ k < bs.length ∧ r = .ok less) ∨
      (k < as.length ∧ k = bs.length ∧ r = .ok greater) ∨
      ∃ (h : k < as.length) (h' : k < bs.length), cmp as[k] bs[k] = r ∧ r ≠ .ok same)

/-- Displaying a slice panics exactly if the grid naming meets an index deeper than the pointer width in a build with overflow checks;
otherwise it is the list of the strings. -/
def DisplaysExactly (c : Cfg) [MortonIndex M Cell] (ok : M → Prop) : Prop :=
  ∀ (naming : MortonIndexNaming) (l : List M), (∀ m ∈ l, ok m) →
    ((naming = .GridIndex ∧ c.overflowChecks = true ∧ ∃ m ∈ l, c.ptrBits < depth m) →
      (makeDisplayable l naming).fmt c = .error .overflow) ∧
    (¬ (naming = .GridIndex ∧ c.overflowChecks = true ∧ ∃ m ∈ l, c.ptrBits < depth m) →
      ∃ strs : List String, strs.length = l.length ∧
        (∀ k (h : k < l.length) (h' : k < strs.length), MortonIndex.toString c l[k] naming = .ok strs[k]) ∧
        (makeDisplayable l naming).fmt c = .ok ("[" ++ ", ".intercalate strs ++ "]"))

/-! ## Comparisons -/

theorem sameUpTo_cons {R : Type} {cmp : M → M → Res R} {same : R} {a b : M} {as bs : List M} {k : Nat}
    (h : cmp a b = .ok same) (hk : SameUpTo cmp same as bs k) : SameUpTo cmp same (a :: as) (b :: bs) (k + 1) := by
  obtain ⟨h1, h2, h3⟩ := hk
  refine ⟨by simpa using h1, by simpa using h2, fun j g1 g2 g3 => ?_⟩
  cases j with
  | zero => exact h
  | succ j => exact h3 j (by simpa using g1) (by simpa using g2) (by omega)

theorem lexResult_cons {R : Type} {cmp : M → M → Res R} {same less greater : R} {a b : M} {as bs : List M} {r : Res R}
    (h : cmp a b = .ok same) (hr : LexResult cmp same less greater as bs r) :
    LexResult cmp same less greater (a :: as) (b :: bs) r := by
  obtain ⟨k, h1, h2⟩ := hr
  refine ⟨k + 1, sameUpTo_cons h h1, ?_⟩
  simp only [List.length_cons, Nat.add_right_cancel_iff, Nat.add_lt_add_iff_right, List.getElem_cons_succ]
  exact h2

theorem lexResult_head {R : Type} {cmp : M → M → Res R} {same less greater : R} {a b : M} {as bs : List M} {r : Res R}
    (h : cmp a b = r) (hr : r ≠ .ok same) : LexResult cmp same less greater (a :: as) (b :: bs) r :=
  ⟨0, ⟨Nat.zero_le _, Nat.zero_le _, fun j _ _ h => absurd h (by omega)⟩, .inr (.inr (.inr ⟨by simp, by simp, h, hr⟩))⟩

/-- The specification has one result only. -/
theorem lexResult_unique {R : Type} {cmp : M → M → Res R} {same less greater : R} {as bs : List M} {r r' : Res R}
    (h : LexResult cmp same less greater as bs r) (h' : LexResult cmp same less greater as bs r') : r = r' := by
  have key : ∀ {r r' : Res R} {k k' : Nat}, SameUpTo cmp same as bs k' → k < k' →
      ((k = as.length ∧ k = bs.length ∧ r = .ok same) ∨ (k = as.length ∧ k < bs.length ∧ r = .ok less) ∨
      (k < as.length ∧ k = bs.length ∧ r = .ok greater) ∨
      ∃ (h : k < as.length) (h' : k < bs.length), cmp as[k] bs[k] = r ∧ r ≠ .ok same) → False := by
    rintro r r' k k' ⟨a1, a2, a3⟩ hk (h | h | h | ⟨g1, g2, g3, g4⟩)
    · omega
    · omega
    · omega
    · exact g4 (g3.symm.trans (a3 k g1 g2 hk))
  obtain ⟨k, a, b⟩ := h
  obtain ⟨k', a', b'⟩ := h'
  rcases Nat.lt_trichotomy k k' with hk | hk | hk
  · exact (key (r' := r') a' hk b).elim
  · subst hk
    rcases b with ⟨b1, b2, b3⟩ | ⟨b1, b2, b3⟩ | ⟨b1, b2, b3⟩ | ⟨b1, b2, b3, b4⟩ <;>
      rcases b' with ⟨d1, d2, d3⟩ | ⟨d1, d2, d3⟩ | ⟨d1, d2, d3⟩ | ⟨d1, d2, d3, d4⟩ <;>
      first
      | omega
      | exact b3.trans d3.symm
      | exact b3.symm.trans d3
  · exact (key (r' := r) a hk b').elim

/-- **C41**, comparisons, for every type of index and every value: `==` is `==` of all pairs of elements and of the lengths, `cmp` and
`partial_cmp` are the lexicographic comparisons by `cmp` and `partial_cmp` of the elements; none of them looks at the naming. -/
theorem C41_compare_elements [RustOrd M] (c : Cfg) (as bs : List M) (n n' : MortonIndexNaming) :
    ((makeDisplayable as n).eq (makeDisplayable bs n') = true ↔
      as.length = bs.length ∧ ∀ k (h : k < as.length) (h' : k < bs.length), RustOrd.eq as[k] bs[k] = true) ∧
    (∀ r, (makeDisplayable as n).cmp c (makeDisplayable bs n') = r ↔ LexResult (RustOrd.cmp c) .eq .lt .gt as bs r) ∧
    ∀ r, (makeDisplayable as n).partialCmp c (makeDisplayable bs n') = r ↔
      LexResult (RustOrd.partialCmp c) (some .eq) (some .lt) (some .gt) as bs r := by
  have up0 : ∀ {R : Type} {cmp : M → M → Res R} {same : R} {as bs : List M}, SameUpTo cmp same as bs 0 :=
    ⟨Nat.zero_le _, Nat.zero_le _, fun j _ _ h => absurd h (by omega)⟩
  refine ⟨?_, fun r => ?_, fun r => ?_⟩
  · change sliceEq as bs = true ↔ _
    induction as generalizing bs with
    | nil => cases bs <;> simp [sliceEq]
    | cons a as ih =>
      cases bs with
      | nil => simp [sliceEq]
      | cons b bs =>
        simp only [sliceEq, Bool.and_eq_true, ih, List.length_cons, Nat.add_right_cancel_iff]
        constructor
        · rintro ⟨h1, h2, h3⟩
          refine ⟨h2, fun k g1 g2 => ?_⟩
          cases k with
          | zero => exact h1
          | succ k => exact h3 k (by simpa using g1) (by simpa using g2)
        · rintro ⟨h1, h2⟩
          exact ⟨h2 0 (by simp) (by simp), h1, fun k g1 g2 => h2 (k + 1) (by simpa using g1) (by simpa using g2)⟩
  · have : LexResult (RustOrd.cmp c) .eq .lt .gt as bs (sliceCmp c as bs) := by
      induction as generalizing bs with
      | nil =>
        cases bs with
        | nil => exact ⟨0, up0, .inl ⟨rfl, rfl, rfl⟩⟩
        | cons => exact ⟨0, up0, .inr (.inl ⟨rfl, by simp, rfl⟩)⟩
      | cons a as ih =>
        cases bs with
        | nil => exact ⟨0, up0, .inr (.inr (.inl ⟨by simp, rfl, rfl⟩))⟩
        | cons b bs =>
          rw [sliceCmp]
          rcases h : RustOrd.cmp c a b with e | (_ | _ | _)
          · exact lexResult_head h (by simp)
          · exact lexResult_head h (by simp)
          · exact lexResult_cons h (ih bs)
          · exact lexResult_head h (by simp)
    exact ⟨fun h => h ▸ this, fun h => lexResult_unique this h⟩
  · have : LexResult (RustOrd.partialCmp c) (some .eq) (some .lt) (some .gt) as bs (slicePartialCmp c as bs) := by
      induction as generalizing bs with
      | nil =>
        cases bs with
        | nil => exact ⟨0, up0, .inl ⟨rfl, rfl, rfl⟩⟩
        | cons => exact ⟨0, up0, .inr (.inl ⟨rfl, by simp, rfl⟩)⟩
      | cons a as ih =>
        cases bs with
        | nil => exact ⟨0, up0, .inr (.inr (.inl ⟨by simp, rfl, rfl⟩))⟩
        | cons b bs =>
          rw [slicePartialCmp]
          rcases h : RustOrd.partialCmp c a b with e | (_ | _ | _ | _)
          · exact lexResult_head h (by simp)
          · exact lexResult_head h (by simp)
          · exact lexResult_head h (by simp)
          · exact lexResult_cons h (ih bs)
          · exact lexResult_head h (by simp)
    exact ⟨fun h => h ▸ this, fun h => lexResult_unique this h⟩

/-- Two spoiled octree indices with the same cells, which `cmp` says are equal and `==` says are not. -/
example : (makeDisplayable [exS3, (⟨⟨0x80000001#32, 1⟩⟩ : MortonIndex3D (StaticStorage3D 32))] .GridIndex).eq
      (makeDisplayable [exS3, ⟨⟨0x80000002#32, 1⟩⟩] .CellConcatenation) ≠ true ∧
    (makeDisplayable [exS3, (⟨⟨0x80000001#32, 1⟩⟩ : MortonIndex3D (StaticStorage3D 32))] .GridIndex).cmp x64
      (makeDisplayable [exS3, ⟨⟨0x80000002#32, 1⟩⟩] .CellConcatenation) = .ok .eq := by
  obtain ⟨h1, h2, -⟩ := C41_compare_elements x64 [exS3, (⟨⟨0x80000001#32, 1⟩⟩ : MortonIndex3D (StaticStorage3D 32))]
    [exS3, ⟨⟨0x80000002#32, 1⟩⟩] .GridIndex .CellConcatenation
  refine ⟨fun h => absurd ((h1.mp h).2 1 (by decide) (by decide)) (by decide), (h2 _).mpr ⟨2, ⟨by decide, by decide, ?_⟩, .inl ⟨rfl, rfl, rfl⟩⟩⟩
  intro j g1 _ _
  have : j = 0 ∨ j = 1 := by
    simp only [List.length_cons, List.length_nil] at g1
    omega
  rcases this with rfl | rfl
  · exact (by decide +kernel : RustOrd.cmp x64 exS3 exS3 = .ok .eq)
  · exact (by decide +kernel : RustOrd.cmp x64 (⟨⟨0x80000001#32, 1⟩⟩ : MortonIndex3D (StaticStorage3D 32)) ⟨⟨0x80000002#32, 1⟩⟩ =
      .ok .eq)

/-! ## Display -/

theorem forEnumFrom_error {body : Nat → M → String → Res String} {bad : M → Prop} {xs : List M} {k : Nat} {acc : String}
    (h : ∀ m ∈ xs, ∀ i f, (bad m → body i m f = .error .overflow) ∧ (¬ bad m → ∃ f', body i m f = .ok f')) (he : ∃ m ∈ xs, bad m) :
    forEnumFrom k xs acc body = .error .overflow := by
  induction xs generalizing k acc with
  | nil => obtain ⟨m, hm, -⟩ := he; cases hm
  | cons x xs ih =>
    rw [forEnumFrom]
    by_cases hx : bad x
    · rw [(h x (by simp) k acc).1 hx]
      rfl
    · obtain ⟨f', hf⟩ := (h x (by simp) k acc).2 hx
      rw [hf, ok_bind]
      refine ih (fun m hm => h m (by simp [hm])) ?_
      obtain ⟨m, hm, e⟩ := he
      rcases List.mem_cons.mp hm with rfl | hm
      · exact absurd e hx
      · exact ⟨m, hm, e⟩

theorem displaysExactly_of [MortonIndex M Cell] {ok : M → Prop}
    (h1 : ∀ m naming, ok m → ¬ (naming = .GridIndex ∧ c.overflowChecks = true ∧ c.ptrBits < depth m) →
      ∃ s, MortonIndex.toString c m naming = .ok s)
    (h2 : ∀ m, ok m → c.overflowChecks = true → c.ptrBits < depth m → MortonIndex.toString c m .GridIndex = .error .overflow) :
    DisplaysExactly c ok := by
  intro naming l hl
  refine ⟨?_, fun hn => ?_⟩
  · rintro ⟨rfl, ho, m, hm, hd⟩
    have hpos : 1 ≤ l.length := List.length_pos_of_mem hm
    unfold DisplayableMortonIndexSlice.fmt makeDisplayable forEnum
    simp only
    rw [forEnumFrom_error (bad := fun m => c.ptrBits < depth m) (fun m' hm' i f => ⟨fun hd' => ?_, fun hd' => ?_⟩) ⟨m, hm, hd⟩]
    · rfl
    · rw [h2 m' (hl m' hm') ho hd']
      rfl
    · obtain ⟨s, hs⟩ := h1 m' .GridIndex (hl m' hm') fun h => hd' h.2.2
      simp only [hs, ok_bind, usub_ok hpos]
      split <;> exact ⟨_, rfl⟩
  · exact displays_of (ok := fun m => ok m ∧ m ∈ l) (fun m hm => h1 m naming hm.1 fun ⟨g1, g2, g3⟩ => hn ⟨g1, g2, m, hm.2, g3⟩) l
      fun m hm => ⟨hl m hm, hm⟩

theorem named_exactly2 (hc : c.Supported) (i : AnyIndex2D) (hi : Reach2D c .all i) :
    ∃ d, (∀ cs, i.Shows c cs → d = cs.length) ∧
      (∀ naming, ¬ (naming = .GridIndex ∧ c.overflowChecks = true ∧ c.ptrBits < d) → ∃ s, i.name c naming = .ok s) ∧
      (c.overflowChecks = true → c.ptrBits < d → i.name c .GridIndex = .error .overflow) := by
  obtain ⟨cs, h1, h2, h3, h4⟩ := C20_deep_grid_2D_partial hc i hi QuadrantOrdering.default
  have hu : ∀ cs', i.Shows c cs' → cs.length = cs'.length := fun cs' h => by
    cases i <;> exact h1.1.symm.trans h.1
  refine ⟨cs.length, hu, fun naming hn => ?_, fun ho hd => (h3 hd ho).2⟩
  by_cases hp : cs.length ≤ c.ptrBits
  · exact any_named2 hc hi naming fun _ cs' hs => hu cs' hs ▸ hp
  · by_cases hg : naming = .GridIndex
    · subst hg
      have ho : c.overflowChecks = false := by
        rw [← Bool.not_eq_true]
        exact fun h => hn ⟨rfl, h, by omega⟩
      obtain ⟨v, hv, -⟩ := h4 ho
      refine ⟨Nat.repr cs.length ++ "-" ++ Nat.repr v.x.toNat ++ "-" ++ Nat.repr v.y.toNat, ?_⟩
      cases i with
      | fixed w m =>
        change MortonIndex2D.toString c m .GridIndex = _
        rw [MortonIndex2D.toString, show m.toGridIndex c QuadrantOrdering.default = .ok v from hv, ← h1.1]
        rfl
      | static w m =>
        change MortonIndex2D.toString c m .GridIndex = _
        rw [MortonIndex2D.toString, show m.toGridIndex c QuadrantOrdering.default = .ok v from hv, ← h1.1]
        rfl
      | dynamic m =>
        change MortonIndex2D.toString c m .GridIndex = _
        rw [MortonIndex2D.toString, show m.toGridIndex c QuadrantOrdering.default = .ok v from hv, ← h1.1]
        rfl
    · exact any_named2 hc hi naming fun h => absurd h hg

theorem named_exactly3 (hc : c.Supported) (i : AnyIndex3D) (hi : Reach3D c .all i) :
    ∃ d, (∀ cs, i.Shows c cs → d = cs.length) ∧
      (∀ naming, ¬ (naming = .GridIndex ∧ c.overflowChecks = true ∧ c.ptrBits < d) → ∃ s, i.name c naming = .ok s) ∧
      (c.overflowChecks = true → c.ptrBits < d → i.name c .GridIndex = .error .overflow) := by
  obtain ⟨cs, h1, h2, h3, h4⟩ := C20_deep_grid_3D_partial hc i hi OctantOrdering.default
  have hu : ∀ cs', i.Shows c cs' → cs.length = cs'.length := fun cs' h => by
    cases i <;> exact h1.1.symm.trans h.1
  refine ⟨cs.length, hu, fun naming hn => ?_, fun ho hd => (h3 hd ho).2⟩
  by_cases hp : cs.length ≤ c.ptrBits
  · exact any_named3 hc hi naming fun _ cs' hs => hu cs' hs ▸ hp
  · by_cases hg : naming = .GridIndex
    · subst hg
      have ho : c.overflowChecks = false := by
        rw [← Bool.not_eq_true]
        exact fun h => hn ⟨rfl, h, by omega⟩
      obtain ⟨v, hv, -⟩ := h4 ho
      refine ⟨Nat.repr cs.length ++ "-" ++ Nat.repr v.x.toNat ++ "-" ++ Nat.repr v.y.toNat ++ "-" ++ Nat.repr v.z.toNat, ?_⟩
      cases i with
      | fixed w m =>
        change MortonIndex3D.toString c m .GridIndex = _
        rw [MortonIndex3D.toString, show m.toGridIndex c OctantOrdering.default = .ok v from hv, ← h1.1]
        rfl
      | static w m =>
        change MortonIndex3D.toString c m .GridIndex = _
        rw [MortonIndex3D.toString, show m.toGridIndex c OctantOrdering.default = .ok v from hv, ← h1.1]
        rfl
      | dynamic m =>
        change MortonIndex3D.toString c m .GridIndex = _
        rw [MortonIndex3D.toString, show m.toGridIndex c OctantOrdering.default = .ok v from hv, ← h1.1]
        rfl
    · exact any_named3 hc hi naming fun h => absurd h hg

/-- **C41**, display, 2D, all histories and namings. -/
theorem C41_display_exact_2D (hc : c.Supported) :
    (∀ w, DisplaysExactly c (fun m : MortonIndex2D (FixedDepthStorage2D w) => Reach2D c .all (.fixed w m)) ∧
      DisplaysExactly c (fun m : MortonIndex2D (StaticStorage2D w) => Reach2D c .all (.static w m))) ∧
    DisplaysExactly c (fun m : MortonIndex2D DynamicStorage2D => Reach2D c .all (.dynamic m)) := by
  refine ⟨fun w => ⟨?_, ?_⟩, ?_⟩ <;>
  · refine displaysExactly_of (fun m naming hm h => ?_) (fun m hm ho hd => ?_)
    · obtain ⟨d, h1, h2, h3⟩ := named_exactly2 hc _ hm
      obtain ⟨cs, hs, -⟩ := any_strings2 hc hm
      refine h2 naming ?_
      rw [h1 cs hs, ← hs.1]
      exact h
    · obtain ⟨d, h1, h2, h3⟩ := named_exactly2 hc _ hm
      obtain ⟨cs, hs, -⟩ := any_strings2 hc hm
      exact h3 ho (by rw [h1 cs hs, ← hs.1]; exact hd)

/-- **C41**, display, 3D, all histories and namings. -/
theorem C41_display_exact_3D (hc : c.Supported) :
    (∀ w, DisplaysExactly c (fun m : MortonIndex3D (FixedDepthStorage3D w) => Reach3D c .all (.fixed w m)) ∧
      DisplaysExactly c (fun m : MortonIndex3D (StaticStorage3D w) => Reach3D c .all (.static w m))) ∧
    DisplaysExactly c (fun m : MortonIndex3D DynamicStorage3D => Reach3D c .all (.dynamic m)) := by
  refine ⟨fun w => ⟨?_, ?_⟩, ?_⟩ <;>
  · refine displaysExactly_of (fun m naming hm h => ?_) (fun m hm ho hd => ?_)
    · obtain ⟨d, h1, h2, h3⟩ := named_exactly3 hc _ hm
      obtain ⟨cs, hs, -⟩ := any_strings3 hc hm
      refine h2 naming ?_
      rw [h1 cs hs, ← hs.1]
      exact h
    · obtain ⟨d, h1, h2, h3⟩ := named_exactly3 hc _ hm
      obtain ⟨cs, hs, -⟩ := any_strings3 hc hm
      exact h3 ho (by rw [h1 cs hs, ← hs.1]; exact hd)

/-- Displaying is not free of panics: 65 levels on a 64-bit target, with overflow checks. -/
theorem C41_refuted : ∃ (l : List (MortonIndex2D DynamicStorage2D)), (∀ m ∈ l, Reach2D x64 .canonical (.dynamic m)) ∧
    (makeDisplayable l .GridIndex).fmt x64 = .error .overflow := by
  refine ⟨[exD2, MortonIndex2D.dynamicZeroed 65], ?_, ?_⟩
  · simp only [List.mem_cons, List.not_mem_nil, or_false]
    rintro m (rfl | rfl)
    · exact exD2_reach _
    · exact .dynamicZeroed (by unfold Addressable; decide) (.inr (by decide))
  · refine ((C41_display_exact_2D x64_supported).2 .GridIndex _ ?_).1 ⟨rfl, rfl, MortonIndex2D.dynamicZeroed 65, by simp, by decide⟩
    simp only [List.mem_cons, List.not_mem_nil, or_false]
    rintro m (rfl | rfl)
    · exact exD2_reach _
    · exact .dynamicZeroed (by unfold Addressable; decide) (.inl rfl)

example : ∃ strs : List String, strs.length = 1 ∧
    (makeDisplayable [exD3] .GridIndex).fmt x64 = .ok ("[" ++ ", ".intercalate strs ++ "]") := by
  obtain ⟨strs, h1, -, h3⟩ := ((C41_display_exact_3D x64_supported).2 .GridIndex [exD3]
    (by simp only [List.mem_cons, List.not_mem_nil, or_false]; rintro m rfl; exact exD3_reach _)).2
    (by rintro ⟨-, -, m, hm, hd⟩
        simp only [List.mem_cons, List.not_mem_nil, or_false] at hm
        subst hm
        exact absurd hd (by decide))
  exact ⟨strs, h1, h3⟩

end MortonRs
