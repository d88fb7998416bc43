import Verif.Model.Helper
import Verif.Props.Strings
import Verif.Props.Order2D
import Verif.Props.Order3D

/-! # Displayable slices (C41) -/

namespace MortonRs

open BitStorage MortonIndex

variable {c : Cfg} {M Cell : Type}

/-! ## Statements -/

/-- The displayable slice prints the `to_string` of each index, joined by `", "`, in brackets. -/
def DisplaysAsList (c : Cfg) [MortonIndex M Cell] (ok : M → Prop) (naming : MortonIndexNaming) : Prop :=
  ∀ l : List M, (∀ m ∈ l, ok m) → ∃ strs : List String, strs.length = l.length ∧
    (∀ k (h : k < l.length) (h' : k < strs.length), MortonIndex.toString c l[k] naming = .ok strs[k]) ∧
    (makeDisplayable l naming).fmt c = .ok ("[" ++ ", ".intercalate strs ++ "]")

/-- `ps` are the paths of the indices `l`. -/
def ShowsAll (c : Cfg) [MortonIndex M Cell] (l : List M) (ps : List (List Cell)) : Prop :=
  ps.length = l.length ∧ ∀ k (h : k < l.length) (h' : k < ps.length), Shows c l[k] ps[k]

/-- The first position where the two slices differ: there the one slice ends, or has the smaller path. -/
def SliceBefore (key : Cell → Nat) (ps qs : List (List Cell)) : Prop :=
  ∃ k, ps.take k = qs.take k ∧ ((ps.length = k ∧ k < qs.length) ∨
    ∃ (h : k < ps.length) (h' : k < qs.length), pathCmp key ps[k] qs[k] = .lt)

/-- Comparisons of displayable slices are lexicographic and do not look at the naming. -/
def SlicesCompare (c : Cfg) [MortonIndex M Cell] [RustOrd M] (key : Cell → Nat) (ok : M → Prop) : Prop :=
  ∀ (as bs : List M) (n n' : MortonIndexNaming), (∀ m ∈ as, ok m) → (∀ m ∈ bs, ok m) →
    ∃ ps qs o, ShowsAll c as ps ∧ ShowsAll c bs qs ∧
      (makeDisplayable as n).cmp c (makeDisplayable bs n') = .ok o ∧
      (makeDisplayable as n).partialCmp c (makeDisplayable bs n') = .ok (some o) ∧
      (o = .eq ↔ ps = qs) ∧ (o = .lt ↔ SliceBefore key ps qs) ∧ (o = .gt ↔ SliceBefore key qs ps)

/-- Equality of displayable slices is that of the slices and does not look at the naming. -/
def SlicesEq (c : Cfg) [MortonIndex M Cell] [RustOrd M] (ok : M → Prop) : Prop :=
  ∀ (as bs : List M) (n n' : MortonIndexNaming), (∀ m ∈ as, ok m) → (∀ m ∈ bs, ok m) →
    ∃ ps qs, ShowsAll c as ps ∧ ShowsAll c bs qs ∧
      ((makeDisplayable as n).eq (makeDisplayable bs n') = true ↔ ps = qs)

/-! ## Display -/

theorem fmt_from [MortonIndex M Cell] (naming : MortonIndexNaming) {n : Nat} {body : Nat → M → String → Res String}
    (hb : ∀ idx m f s, MortonIndex.toString c m naming = .ok s →
      body idx m f = .ok (if idx < n - 1 then f ++ s ++ ", " else f ++ s)) (xs : List M) (strs : List String) (k : Nat)
    (acc : String) (hn : k + xs.length = n) (hl : strs.length = xs.length)
    (hs : ∀ k (h : k < xs.length) (h' : k < strs.length), MortonIndex.toString c xs[k] naming = .ok strs[k]) :
    forEnumFrom k xs acc body = .ok (acc ++ ", ".intercalate strs) := by
  induction xs generalizing strs k acc with
  | nil =>
    cases strs with
    | nil => simp [forEnumFrom]
    | cons => simp at hl
  | cons x xs ih =>
    cases strs with
    | nil => simp at hl
    | cons s strs =>
      have h0 : MortonIndex.toString c x naming = .ok s := hs 0 (by simp) (by simp)
      simp only [List.length_cons] at hn hl
      have hs' : ∀ k (h : k < xs.length) (h' : k < strs.length), MortonIndex.toString c xs[k] naming = .ok strs[k] :=
        fun k h h' => hs (k + 1) (by simpa using h) (by simpa using h')
      rw [forEnumFrom, hb k x acc s h0, ok_bind, ih strs (k + 1) _ (by omega) (by omega) hs']
      by_cases hk : k < n - 1
      · rw [if_pos hk, String.intercalate_cons_of_ne_nil (by
          intro e
          rw [e, List.length_nil] at hl
          omega)]
        simp only [String.append_assoc]
      · rw [if_neg hk]
        have : xs = [] := List.eq_nil_of_length_eq_zero (by omega)
        subst this
        have : strs = [] := List.eq_nil_of_length_eq_zero (by simpa using hl)
        subst this
        simp

/-- Whatever the index type: if every `to_string` succeeds, the slice is displayed. -/
theorem C41_display [MortonIndex M Cell] (naming : MortonIndexNaming) (l : List M) (strs : List String)
    (hl : strs.length = l.length)
    (hs : ∀ k (h : k < l.length) (h' : k < strs.length), MortonIndex.toString c l[k] naming = .ok strs[k]) :
    (makeDisplayable l naming).fmt c = .ok ("[" ++ ", ".intercalate strs ++ "]") := by
  cases l with
  | nil =>
    have : strs = [] := List.eq_nil_of_length_eq_zero (by simpa using hl)
    subst this
    rfl
  | cons x xs =>
    unfold DisplayableMortonIndexSlice.fmt makeDisplayable forEnum
    simp only
    rw [fmt_from (n := (x :: xs).length) naming ?_ (x :: xs) strs 0 "[" (by simp) hl hs]
    · rfl
    · intro idx m f s h
      have h1 : 1 ≤ (x :: xs).length := by simp
      simp only [h, ok_bind, usub_ok h1]
      split <;> rfl

/-- The empty slice. -/
example : (makeDisplayable ([] : List (MortonIndex2D DynamicStorage2D)) .GridIndex).fmt x64 = .ok "[]" :=
  C41_display .GridIndex [] [] rfl (fun _ h => absurd h (by simp))

theorem displays_of [MortonIndex M Cell] {ok : M → Prop} {naming : MortonIndexNaming}
    (h : ∀ m, ok m → ∃ s, MortonIndex.toString c m naming = .ok s) : DisplaysAsList c ok naming := by
  intro l hl
  obtain ⟨strs, h1, h2⟩ : ∃ strs : List String, strs.length = l.length ∧
      ∀ k (h : k < l.length) (h' : k < strs.length), MortonIndex.toString c l[k] naming = .ok strs[k] := by
    induction l with
    | nil => exact ⟨[], rfl, fun k h => absurd h (by simp)⟩
    | cons x xs ih =>
      obtain ⟨s, hs⟩ := h x (hl x (by simp))
      obtain ⟨strs, g1, g2⟩ := ih (fun m hm => hl m (by simp [hm]))
      refine ⟨s :: strs, by simp [g1], fun k h h' => ?_⟩
      cases k with
      | zero => exact hs
      | succ k => exact g2 k (by simpa using h) (by simpa using h')
  exact ⟨strs, h1, h2, C41_display naming l strs h1 h2⟩

/-! ## Comparison -/

theorem sliceBefore_cons {key : Cell → Nat} (p : List Cell) (ps qs : List (List Cell)) :
    SliceBefore key (p :: ps) (p :: qs) ↔ SliceBefore key ps qs := by
  constructor
  · rintro ⟨k, h1, h2⟩
    cases k with
    | zero =>
      exfalso
      rcases h2 with ⟨h, -⟩ | ⟨_, _, h⟩
      · simp at h
      · simp only [List.getElem_cons_zero] at h
        rw [pathCmp_refl] at h
        cases h
    | succ k =>
      refine ⟨k, by simpa using h1, ?_⟩
      rcases h2 with ⟨g1, g2⟩ | ⟨g1, g2, g3⟩
      · exact .inl ⟨by simpa using g1, by simpa using g2⟩
      · exact .inr ⟨by simpa using g1, by simpa using g2, by simpa using g3⟩
  · rintro ⟨k, h1, h2⟩
    refine ⟨k + 1, by simpa using h1, ?_⟩
    rcases h2 with ⟨g1, g2⟩ | ⟨g1, g2, g3⟩
    · exact .inl ⟨by simpa using g1, by simpa using g2⟩
    · exact .inr ⟨by simpa using g1, by simpa using g2, by simpa using g3⟩

theorem sliceBefore_ne {key : Cell → Nat} {p q : List Cell} (hpq : p ≠ q) (ps qs : List (List Cell)) :
    SliceBefore key (p :: ps) (q :: qs) ↔ pathCmp key p q = .lt := by
  constructor
  · rintro ⟨k, h1, h2⟩
    cases k with
    | zero =>
      rcases h2 with ⟨h, -⟩ | ⟨_, _, h⟩
      · simp at h
      · simpa using h
    | succ k => simp [hpq] at h1
  · intro h
    exact ⟨0, rfl, .inr ⟨by simp, by simp, h⟩⟩

theorem slice_cmp [RustOrd M] {key : Cell → Nat} {ok : M → Prop} {p : M → List Cell} (hk : Function.Injective key)
    (h : CmpLike c key ok p) (as bs : List M) (ha : ∀ m ∈ as, ok m) (hb : ∀ m ∈ bs, ok m) :
    ∃ o, sliceCmp c as bs = .ok o ∧ slicePartialCmp c as bs = .ok (some o) ∧
      (o = .eq ↔ as.map p = bs.map p) ∧ (o = .lt ↔ SliceBefore key (as.map p) (bs.map p)) ∧
      (o = .gt ↔ SliceBefore key (bs.map p) (as.map p)) := by
  induction as generalizing bs with
  | nil =>
    cases bs with
    | nil =>
      refine ⟨.eq, rfl, rfl, by simp, ?_, ?_⟩ <;>
      · simp only [reduceCtorEq, List.map_nil, false_iff]
        rintro ⟨k, -, ⟨-, h⟩ | ⟨h, -⟩⟩ <;> simp at h
    | cons b bs =>
      refine ⟨.lt, rfl, rfl, by simp, ?_, ?_⟩
      · simp only [true_iff]
        exact ⟨0, rfl, .inl ⟨rfl, by simp⟩⟩
      · simp only [reduceCtorEq, false_iff]
        rintro ⟨k, -, ⟨h1, h⟩ | ⟨h, h', -⟩⟩
        · simp at h
        · simp at h'
  | cons a as ih =>
    cases bs with
    | nil =>
      refine ⟨.gt, rfl, rfl, by simp, ?_, ?_⟩
      · simp only [reduceCtorEq, false_iff]
        rintro ⟨k, -, ⟨h1, h⟩ | ⟨h, h', -⟩⟩
        · simp at h
        · simp at h'
      · simp only [true_iff]
        exact ⟨0, rfl, .inl ⟨rfl, by simp⟩⟩
    | cons b bs =>
      obtain ⟨h1, h2⟩ := h a b (ha a (by simp)) (hb b (by simp))
      obtain ⟨o, i1, i2, i3, i4, i5⟩ := ih bs (fun m hm => ha m (by simp [hm])) (fun m hm => hb m (by simp [hm]))
      simp only [sliceCmp, slicePartialCmp, h1, h2, ok_bind, List.map_cons]
      have hsw := pathCmp_swap (key := key) (p a) (p b)
      rcases hp : pathCmp key (p a) (p b) with _ | _ | _
      · have hne : p a ≠ p b := by
          intro e
          rw [e, pathCmp_refl] at hp
          cases hp
        rw [sliceBefore_ne hne, sliceBefore_ne (Ne.symm hne), hp, ← hsw, hp]
        exact ⟨.lt, rfl, rfl, by simp [hne], by simp, by simp⟩
      · have he : p a = p b := (pathCmp_eq_iff key hk _ _).mp hp
        rw [he, sliceBefore_cons, sliceBefore_cons, List.cons.injEq]
        exact ⟨o, i1, i2, by simpa using i3, i4, i5⟩
      · have hne : p a ≠ p b := by
          intro e
          rw [e, pathCmp_refl] at hp
          cases hp
        rw [sliceBefore_ne hne, sliceBefore_ne (Ne.symm hne), hp, ← hsw, hp]
        exact ⟨.gt, rfl, rfl, by simp [hne], by simp, by simp⟩

theorem slice_eq [RustOrd M] {ok : M → Prop} {p : M → List Cell} (h : EqLike ok p) (as bs : List M)
    (ha : ∀ m ∈ as, ok m) (hb : ∀ m ∈ bs, ok m) : sliceEq as bs = true ↔ as.map p = bs.map p := by
  induction as generalizing bs with
  | nil => cases bs <;> simp [sliceEq]
  | cons a as ih =>
    cases bs with
    | nil => simp [sliceEq]
    | cons b bs =>
      simp only [sliceEq, Bool.and_eq_true, List.map_cons, List.cons.injEq]
      rw [h a b (ha a (by simp)) (hb b (by simp)),
        ih bs (fun m hm => ha m (by simp [hm])) (fun m hm => hb m (by simp [hm]))]

theorem showsAll_map [MortonIndex M Cell] {ok : M → Prop} {p : M → List Cell} {wr : Cell → Cell} (h : ListLike c ok p wr)
    (l : List M) (hl : ∀ m ∈ l, ok m) : ShowsAll c l (l.map p) :=
  ⟨by simp, fun k h1 h2 => by rw [List.getElem_map]; exact h.shows (hl _ (List.getElem_mem h1))⟩

theorem slicesCompare_of [MortonIndex M Cell] [RustOrd M] {key : Cell → Nat} {ok : M → Prop} {p : M → List Cell}
    {wr : Cell → Cell} (hk : Function.Injective key) (hl : ListLike c ok p wr) (h : CmpLike c key ok p) :
    SlicesCompare c key ok := by
  intro as bs n n' ha hb
  obtain ⟨o, h1, h2, h3⟩ := slice_cmp hk h as bs ha hb
  exact ⟨as.map p, bs.map p, o, showsAll_map hl as ha, showsAll_map hl bs hb, h1, h2, h3⟩

theorem slicesEq_of [MortonIndex M Cell] [RustOrd M] {ok : M → Prop} {p : M → List Cell}
    {wr : Cell → Cell} (hl : ListLike c ok p wr) (h : EqLike ok p) : SlicesEq c ok := by
  intro as bs n n' ha hb
  exact ⟨as.map p, bs.map p, showsAll_map hl as ha, showsAll_map hl bs hb, slice_eq h as bs ha hb⟩

/-! ## 2D -/

/-- A naming that cannot panic on `i`: the cell namings always, the grid naming up to the pointer width. -/
def NamingFits (c : Cfg) [MortonIndex M Cell] (naming : MortonIndexNaming) (m : M) : Prop :=
  naming = .GridIndex → MortonIndex.depth m ≤ c.ptrBits

theorem any_named2 (hc : c.Supported) {i : AnyIndex2D} (hi : Reach2D c .all i) (naming : MortonIndexNaming)
    (h : naming = .GridIndex → ∀ cs, i.Shows c cs → cs.length ≤ c.ptrBits) : ∃ s, i.name c naming = .ok s := by
  obtain ⟨cs, h1, h2, h3, h4⟩ := any_strings2 hc hi
  cases naming with
  | CellConcatenation => exact ⟨_, h2⟩
  | CellConcatenationWithRoot => exact ⟨_, h3⟩
  | GridIndex => exact ⟨_, h4 (h rfl cs h1)⟩

theorem C41_display_2D (hc : c.Supported) (naming : MortonIndexNaming) :
    (∀ w, DisplaysAsList c (fun m => Reach2D c .all (.fixed w m) ∧ NamingFits c naming m) naming) ∧
    (∀ w, DisplaysAsList c (fun m => Reach2D c .all (.static w m) ∧ NamingFits c naming m) naming) ∧
    DisplaysAsList c (fun m => Reach2D c .all (.dynamic m) ∧ NamingFits c naming m) naming :=
  ⟨fun _ => displays_of fun _ h => any_named2 hc h.1 naming fun e _ hs => hs.1 ▸ h.2 e,
    fun _ => displays_of fun _ h => any_named2 hc h.1 naming fun e _ hs => hs.1 ▸ h.2 e,
    displays_of fun _ h => any_named2 hc h.1 naming fun e _ hs => hs.1 ▸ h.2 e⟩

example : ∃ strs : List String, strs.length = 2 ∧
    (makeDisplayable [exS2, exS2] .GridIndex).fmt x64 = .ok ("[" ++ ", ".intercalate strs ++ "]") := by
  obtain ⟨strs, h1, -, h2⟩ := (C41_display_2D x64_supported .GridIndex).2.1 16 [exS2, exS2]
    (by simp only [List.mem_cons, List.not_mem_nil, or_false, or_self]
        rintro m rfl
        exact ⟨exS2_reach _, fun _ => by decide⟩)
  exact ⟨strs, h1, h2⟩

example : (makeDisplayable [exS2, exS2] .GridIndex).fmt x64 = .ok "[3-6-5, 3-6-5]" := by decide +kernel

theorem C41_compare_2D (hc : c.Supported) :
    (∀ w, SlicesCompare c quadrantKey (fun m => Reach2D c .all (.fixed w m))) ∧
    (∀ w, SlicesCompare c quadrantKey (fun m => Reach2D c .all (.static w m))) ∧
    SlicesCompare c quadrantKey (fun m => Reach2D c .all (.dynamic m)) :=
  ⟨fun _ => slicesCompare_of quadrantKey_inj (fixed_list2 hc) (fixed_cmp2 hc),
    fun _ => slicesCompare_of quadrantKey_inj (static_list2 hc) (static_cmp2 hc),
    slicesCompare_of quadrantKey_inj (dynamic_list2' hc) (dynamic_cmp2 hc)⟩

example : ∃ ps qs o, ShowsAll x64 [exD2] ps ∧ ShowsAll x64 [exD2, exD2] qs ∧
    (makeDisplayable [exD2] .GridIndex).cmp x64 (makeDisplayable [exD2, exD2] .CellConcatenation) = .ok o ∧
    (o = .lt ↔ SliceBefore quadrantKey ps qs) := by
  obtain ⟨ps, qs, o, h1, h2, h3, -, -, h4, -⟩ := (C41_compare_2D x64_supported).2.2 [exD2] [exD2, exD2] .GridIndex
    .CellConcatenation (by rintro m hm; simp at hm; subst hm; exact exD2_reach _)
    (by rintro m hm; simp at hm; subst hm; exact exD2_reach _)
  exact ⟨ps, qs, o, h1, h2, h3, h4⟩

/-- Equality of slices. Missing: dynamic indices with stray bits, where already `==` of single indices fails
(`C16_refuted`). -/
theorem C41_eq_2D_partial (hc : c.Supported) :
    (∀ w, SlicesEq c (fun m => Reach2D c .all (.fixed w m))) ∧
    (∀ w, SlicesEq c (fun m => Reach2D c .all (.static w m))) ∧
    SlicesEq c (fun m => Reach2D c .canonical (.dynamic m)) :=
  ⟨fun _ => slicesEq_of (fixed_list2 hc) (fixed_eq2 hc), fun _ => slicesEq_of (static_list2 hc) (static_eq2 hc),
    slicesEq_of (dynamic_list2' hc) (dynamic_eq2 hc)⟩

example : ∃ ps qs, ShowsAll x64 [exF2] ps ∧ ShowsAll x64 [exF2, exF2] qs ∧
    ((makeDisplayable [exF2] .GridIndex).eq (makeDisplayable [exF2, exF2] .GridIndex) = true ↔ ps = qs) :=
  (C41_eq_2D_partial x64_supported).1 16 [exF2] [exF2, exF2] .GridIndex .GridIndex
    (by rintro m hm; simp at hm; subst hm; exact exF2_reach _) (by rintro m hm; simp at hm; subst hm; exact exF2_reach _)

/-! ## 3D -/

theorem any_named3 (hc : c.Supported) {i : AnyIndex3D} (hi : Reach3D c .all i) (naming : MortonIndexNaming)
    (h : naming = .GridIndex → ∀ cs, i.Shows c cs → cs.length ≤ c.ptrBits) : ∃ s, i.name c naming = .ok s := by
  obtain ⟨cs, h1, h2, h3, h4⟩ := any_strings3 hc hi
  cases naming with
  | CellConcatenation => exact ⟨_, h2⟩
  | CellConcatenationWithRoot => exact ⟨_, h3⟩
  | GridIndex => exact ⟨_, h4 (h rfl cs h1)⟩

theorem C41_display_3D (hc : c.Supported) (naming : MortonIndexNaming) :
    (∀ w, DisplaysAsList c (fun m => Reach3D c .all (.fixed w m) ∧ NamingFits c naming m) naming) ∧
    (∀ w, DisplaysAsList c (fun m => Reach3D c .all (.static w m) ∧ NamingFits c naming m) naming) ∧
    DisplaysAsList c (fun m => Reach3D c .all (.dynamic m) ∧ NamingFits c naming m) naming :=
  ⟨fun _ => displays_of fun _ h => any_named3 hc h.1 naming fun e _ hs => hs.1 ▸ h.2 e,
    fun _ => displays_of fun _ h => any_named3 hc h.1 naming fun e _ hs => hs.1 ▸ h.2 e,
    displays_of fun _ h => any_named3 hc h.1 naming fun e _ hs => hs.1 ▸ h.2 e⟩

example : ∃ strs : List String, strs.length = 2 ∧
    (makeDisplayable [exS3, exS3] .GridIndex).fmt x64 = .ok ("[" ++ ", ".intercalate strs ++ "]") := by
  obtain ⟨strs, h1, -, h2⟩ := (C41_display_3D x64_supported .GridIndex).2.1 32 [exS3, exS3]
    (by simp only [List.mem_cons, List.not_mem_nil, or_false, or_self]
        rintro m rfl
        exact ⟨exS3_reach _, fun _ => by decide⟩)
  exact ⟨strs, h1, h2⟩

example : (makeDisplayable [exS3, exS3] .GridIndex).fmt x64 = .ok "[3-6-1-5, 3-6-1-5]" := by decide +kernel

/-- Comparison of slices, for fixed-depth indices on the histories without stray bits. Missing: the other histories,
where already the order of single indices fails (`C14_refuted`). -/
theorem C41_compare_3D_partial (hc : c.Supported) :
    (∀ w, SlicesCompare c octantKey (fun m => Reach3D c .canonical (.fixed w m))) ∧
    (∀ w, SlicesCompare c octantKey (fun m => Reach3D c .all (.static w m))) ∧
    SlicesCompare c octantKey (fun m => Reach3D c .all (.dynamic m)) :=
  ⟨fun _ => slicesCompare_of octantKey_inj (fixed_list3 hc) (fixed_cmp3 hc),
    fun _ => slicesCompare_of octantKey_inj (static_list3 hc) (static_cmp3 hc),
    slicesCompare_of octantKey_inj (dynamic_list3' hc) (dynamic_cmp3 hc)⟩

example : ∃ ps qs o, ShowsAll x64 [exD3] ps ∧ ShowsAll x64 [exD3, exD3] qs ∧
    (makeDisplayable [exD3] .GridIndex).cmp x64 (makeDisplayable [exD3, exD3] .CellConcatenation) = .ok o ∧
    (o = .lt ↔ SliceBefore octantKey ps qs) := by
  obtain ⟨ps, qs, o, h1, h2, h3, -, -, h4, -⟩ := (C41_compare_3D_partial x64_supported).2.2 [exD3] [exD3, exD3] .GridIndex
    .CellConcatenation (by rintro m hm; simp at hm; subst hm; exact exD3_reach _)
    (by rintro m hm; simp at hm; subst hm; exact exD3_reach _)
  exact ⟨ps, qs, o, h1, h2, h3, h4⟩

/-- Equality of slices, on the histories without stray bits. Missing: the other
histories, where already `==` of single indices fails (`C16_refuted`). -/
theorem C41_eq_3D_partial (hc : c.Supported) :
    (∀ w, SlicesEq c (fun m => Reach3D c .canonical (.fixed w m))) ∧
    (∀ w, SlicesEq c (fun m => Reach3D c .canonical (.static w m))) ∧
    SlicesEq c (fun m => Reach3D c .canonical (.dynamic m)) :=
  ⟨fun _ => slicesEq_of (fixed_list3 hc) (fixed_eq3 hc), fun _ => slicesEq_of (static_list3 hc) (static_eq3 hc),
    slicesEq_of (dynamic_list3' hc) (dynamic_eq3 hc)⟩

example : ∃ ps qs, ShowsAll x64 [exF3] ps ∧ ShowsAll x64 [exF3, exF3] qs ∧
    ((makeDisplayable [exF3] .GridIndex).eq (makeDisplayable [exF3, exF3] .GridIndex) = true ↔ ps = qs) :=
  (C41_eq_3D_partial x64_supported).1 32 [exF3] [exF3, exF3] .GridIndex .GridIndex
    (by rintro m hm; simp at hm; subst hm; exact exF3_reach _) (by rintro m hm; simp at hm; subst hm; exact exF3_reach _)

end MortonRs
