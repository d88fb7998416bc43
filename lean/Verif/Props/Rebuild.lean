import Verif.Props.Access2D
import Verif.Props.Access3D

/-! # Running through the cells, and rebuilding an index from them (C106)

`for` loops and the consuming methods of `Iterator` on `cells()`, and `try_from` on the collected cells, which brings indices with
the same cells but different histories to one form. -/

namespace MortonRs

open MortonIndex

variable {M Cell : Type}

/-! ## Statement -/

/-- The iterator after `k` calls of `next()`. -/
def CellIter.after (c : Cfg) {S : Type} [Storage S Cell] : Nat → CellIter S → Res (CellIter S)
  | 0, it => .ok it
  | k + 1, it => do
    let (_, it) ← it.next c
    after c k it

/-- `Iterator::fold` of the standard library: call `next()` until it returns `None`. `for` loops, `collect`, `count`, `last` and the
other consuming methods are instances. `fuel` bounds the number of calls. -/
def CellIter.fold (c : Cfg) {S B : Type} [Storage S Cell] (f : B → Cell → B) : Nat → B → CellIter S → Res B
  | 0, _, _ => .error .nontermination
  | fuel + 1, b, it => do
    let (item, it) ← it.next c
    match item with
    | none => return b
    | some x => CellIter.fold c f fuel (f b x) it

/-- C106, first half. After any number of calls of `next()`, a loop over the rest of the iterator sees exactly the remaining cells
in order, and ends. -/
def FoldsCells (c : Cfg) {S : Type} [Storage S Cell] [MortonIndex M Cell] (iter : M → CellIter S) (ok : M → Prop) : Prop :=
  ∀ m, ok m → ∃ cs, Shows c m cs ∧ ∀ k, ∃ it, CellIter.after c k (iter m) = .ok it ∧
    ∀ (B : Type) (f : B → Cell → B) (b : B) (fuel : Nat), cs.length - k < fuel →
      CellIter.fold c f fuel b it = .ok ((cs.drop k).foldl f b)

/-- Client code: `T::try_from(m.cells().collect::<Vec<_>>().as_slice())`. -/
def rebuild {T : Type} (c : Cfg) {S : Type} [Storage S Cell] [MortonIndex M Cell] (iter : M → CellIter S)
    (tf : List Cell → Res (Except Error T)) (m : M) : Res (Except Error T) := do
  tf (← CellIter.collect c (depth m + 1) (iter m))

/-- Same depth, and the same cell at every level. -/
def SameCells {M M' : Type} [MortonIndex M Cell] [MortonIndex M' Cell] (c : Cfg) (a : M) (b : M') : Prop :=
  depth a = depth b ∧ ∀ l, getCellAtLevel c a l = getCellAtLevel c b l

/-- C106, second half. Rebuilding an index of one kind as one of another kind with at least as many levels succeeds, with the same
cells. Two indices give the very same value exactly if they have the same cells, whatever their histories. -/
def RebuildNormalises {T : Type} (c : Cfg) {S : Type} [Storage S Cell] [MortonIndex M Cell] [MortonIndex T Cell]
    (iter : M → CellIter S) (ok : M → Prop) (fits : M → Prop) (tf : List Cell → Res (Except Error T)) : Prop :=
  ∀ a, ok a → fits a → ∃ r, rebuild c iter tf a = .ok (.ok r) ∧ SameCells c a r ∧
    ∀ b, ok b → fits b → (rebuild c iter tf b = .ok (.ok r) ↔ SameCells c a b)

/-- Into the index types of the library. A fixed-depth index has the same cells only if it is not padded. -/
def RebuildsInto2D (c : Cfg) {S : Type} [Storage S Quadrant] [MortonIndex M Quadrant] (iter : M → CellIter S) (ok : M → Prop) : Prop :=
  (∀ w, IntWidth w → RebuildNormalises c iter ok (fun m => depth m = w / 2)
    (MortonIndex2D.tryFromSlice c : List Quadrant → Res (Except Error (MortonIndex2D (FixedDepthStorage2D w))))) ∧
  (∀ w, IntWidth w → RebuildNormalises c iter ok (fun m => depth m ≤ w / 2)
    (MortonIndex2D.tryFromSlice c : List Quadrant → Res (Except Error (MortonIndex2D (StaticStorage2D w))))) ∧
  (DynWrites c → RebuildNormalises c iter ok (fun m => Addressable c (depth m * 2))
    (MortonIndex2D.tryFromSlice c : List Quadrant → Res (Except Error (MortonIndex2D DynamicStorage2D))))

def RebuildsInto3D (c : Cfg) {S : Type} [Storage S Octant] [MortonIndex M Octant] (iter : M → CellIter S) (ok : M → Prop) : Prop :=
  (∀ w, IntWidth w → RebuildNormalises c iter ok (fun m => depth m = w / 3)
    (MortonIndex3D.tryFromSlice c : List Octant → Res (Except Error (MortonIndex3D (FixedDepthStorage3D w))))) ∧
  (∀ w, IntWidth w → RebuildNormalises c iter ok (fun m => depth m ≤ w / 3)
    (MortonIndex3D.tryFromSlice c : List Octant → Res (Except Error (MortonIndex3D (StaticStorage3D w))))) ∧
  (DynWrites c → RebuildNormalises c iter ok (fun m => Addressable c (depth m * 3))
    (MortonIndex3D.tryFromSlice c : List Octant → Res (Except Error (MortonIndex3D DynamicStorage3D))))

/-! ## Proof -/

theorem nexts_after {c : Cfg} {S : Type} [Storage S Cell] (k n : Nat) : ∀ (it : CellIter S) (items : List (Option Cell)),
    nexts c (k + n) it = .ok items → ∃ it', CellIter.after c k it = .ok it' ∧ nexts c n it' = .ok (items.drop k) := by
  induction k with
  | zero =>
    intro it items h
    rw [Nat.zero_add] at h
    exact ⟨it, rfl, h⟩
  | succ k ih =>
    intro it items h
    rw [Nat.succ_add, nexts] at h
    cases e : it.next c with
    | error x => rw [e] at h; cases h
    | ok r =>
      obtain ⟨item, it1⟩ := r
      rw [e] at h
      simp only [ok_bind] at h
      cases e2 : nexts c (k + n) it1 with
      | error x => rw [e2] at h; cases h
      | ok rest =>
        rw [e2] at h
        cases h
        obtain ⟨it', h1, h2⟩ := ih it1 rest e2
        exact ⟨it', by rw [CellIter.after, e]; exact h1, h2⟩

theorem fold_of_nexts {c : Cfg} {S B : Type} [Storage S Cell] (f : B → Cell → B) (xs : List Cell) :
    ∀ (fuel : Nat) (b : B) (it : CellIter S) (rest : List (Option Cell)), xs.length < fuel →
      nexts c fuel it = .ok (xs.map some ++ none :: rest) → CellIter.fold c f fuel b it = .ok (xs.foldl f b) := by
  induction xs with
  | nil =>
    intro fuel b it rest hf h
    obtain ⟨n, rfl⟩ : ∃ n, fuel = n + 1 := ⟨fuel - 1, by simp at hf; omega⟩
    rw [nexts] at h
    cases e : it.next c with
    | error x => rw [e] at h; cases h
    | ok r =>
      obtain ⟨item, it1⟩ := r
      rw [e] at h
      simp only [ok_bind] at h
      cases e2 : nexts c n it1 with
      | error x => rw [e2] at h; cases h
      | ok tl =>
        rw [e2] at h
        have h : item :: tl = none :: rest := Except.ok.inj h
        cases h
        rw [CellIter.fold, e]
        rfl
  | cons x xs ih =>
    intro fuel b it rest hf h
    obtain ⟨n, rfl⟩ : ∃ n, fuel = n + 1 := ⟨fuel - 1, by simp at hf; omega⟩
    rw [nexts] at h
    cases e : it.next c with
    | error x => rw [e] at h; cases h
    | ok r =>
      obtain ⟨item, it1⟩ := r
      rw [e] at h
      simp only [ok_bind] at h
      cases e2 : nexts c n it1 with
      | error x => rw [e2] at h; cases h
      | ok tl =>
        rw [e2] at h
        have h : item :: tl = some x :: (xs.map some ++ none :: rest) := Except.ok.inj h
        cases h
        rw [CellIter.fold, e]
        exact ih n (f b x) it1 rest (by simp at hf; omega) e2

theorem collect_eq_fold {c : Cfg} {S : Type} [Storage S Cell] (fuel : Nat) : ∀ (it : CellIter S) (acc : List Cell),
    CellIter.fold c (fun xs x => xs ++ [x]) fuel acc it = (do return acc ++ (← CellIter.collect c fuel it)) := by
  induction fuel with
  | zero => intro it acc; rfl
  | succ n ih =>
    intro it acc
    rw [CellIter.fold, CellIter.collect]
    cases e : it.next c with
    | error x => rfl
    | ok r =>
      obtain ⟨item, it1⟩ := r
      simp only [ok_bind]
      cases item with
      | none => simp [ok_bind, pure_eq_ok]
      | some x =>
        simp only [ih]
        cases CellIter.collect c n it1 with
        | error x => rfl
        | ok xs => simp [ok_bind, pure_eq_ok]

section
variable {c : Cfg} {S : Type} [Storage S Cell] [MortonIndex M Cell] {iter : M → CellIter S} {ok : M → Prop} {p : M → List Cell}
  {wr : Cell → Cell}

theorem foldsCells_of (h : ListLike c ok p wr) (hi : IteratesCells c iter ok) : FoldsCells c iter ok := by
  intro m hm
  have hs := h.shows hm
  refine ⟨p m, hs, fun k => ?_⟩
  have hy := yields_of_shows hi hm hs
  -- the iterator after `k` calls does not depend on how many calls follow
  have key : ∀ n, ∃ it, CellIter.after c k (iter m) = .ok it ∧
      nexts c ((p m).length - k + n) it = .ok (((p m).drop k).map some ++ List.replicate n none) := by
    intro n
    have e := hy (k - (p m).length + n)
    have hl : (p m).length + (k - (p m).length + n) = k + ((p m).length - k + n) := by omega
    rw [hl] at e
    obtain ⟨it, h1, h2⟩ := nexts_after k _ _ _ e
    refine ⟨it, h1, h2.trans ?_⟩
    rw [List.drop_append, List.map_drop, List.drop_replicate, List.length_map]
    congr 3
    omega
  obtain ⟨it, h1, -⟩ := key 0
  refine ⟨it, h1, fun B f b fuel hf => ?_⟩
  obtain ⟨it', g1, g2⟩ := key (fuel - ((p m).length - k))
  rw [h1] at g1
  cases g1
  obtain ⟨n, hn⟩ : ∃ n, fuel - ((p m).length - k) = n + 1 := ⟨fuel - ((p m).length - k) - 1, by omega⟩
  have e : (p m).length - k + (n + 1) = fuel := by omega
  rw [hn, e, List.replicate_succ] at g2
  exact fold_of_nexts f _ fuel b it _ (by rw [List.length_drop]; exact hf) g2

theorem collect_of (h : ListLike c ok p wr) (hi : IteratesCells c iter ok) {m : M} (hm : ok m) :
    CellIter.collect c (depth m + 1) (iter m) = .ok (p m) := by
  obtain ⟨cs, h1, h2⟩ := foldsCells_of h hi m hm
  have e := h.eq_of_shows hm h1
  subst e
  obtain ⟨it, g1, g2⟩ := h2 0
  cases g1
  have := g2 _ (fun xs x => xs ++ [x]) [] (depth m + 1) (by rw [h.depth_eq m hm]; omega)
  rw [collect_eq_fold] at this
  have hf : ∀ (xs acc : List Cell), xs.foldl (fun xs x => xs ++ [x]) acc = acc ++ xs := by
    intro xs
    induction xs with
    | nil => simp
    | cons x xs ih => intro acc; rw [List.foldl_cons, ih]; simp
  rw [hf, List.drop_zero] at this
  cases e : CellIter.collect c (depth m + 1) (iter m) with
  | error x => rw [e] at this; cases this
  | ok xs => rw [e] at this; cases this; rfl

theorem rebuildNormalises_of {T : Type} [MortonIndex T Cell] {fits : M → Prop} {tf : List Cell → Res (Except Error T)}
    (h : ListLike c ok p wr) (hi : IteratesCells c iter ok) {okT : T → Prop} {q : T → List Cell} {wr' : Cell → Cell}
    (hT : ListLike c okT q wr')
    (htf : ∀ m, ok m → fits m → ∃ r, tf (p m) = .ok (.ok r) ∧ okT r ∧ q r = p m) : RebuildNormalises c iter ok fits tf := by
  intro a ha fa
  obtain ⟨r, h1, h2, h3⟩ := htf a ha fa
  refine ⟨r, ?_, ⟨?_, fun l => ?_⟩, fun b hb fb => ?_⟩
  · rw [rebuild, collect_of h hi ha]
    exact h1
  · rw [h.depth_eq a ha, hT.depth_eq r h2, h3]
  · rw [h.get_eq ha, hT.get_eq h2, h3]
  · have hsame : SameCells c a b ↔ p a = p b := by
      rw [← h.sameCells_iff ha hb]
      refine ⟨fun ⟨g1, g2⟩ => ⟨g1, fun l _ => g2 l⟩, fun ⟨g1, g2⟩ => ⟨g1, fun l => ?_⟩⟩
      by_cases hl : l < depth a
      · exact g2 l hl
      · rw [h.get_ge a ha l (by rw [← h.depth_eq a ha]; omega), h.get_ge b hb l (by rw [← h.depth_eq b hb]; omega)]
    rw [hsame, rebuild, collect_of h hi hb]
    simp only [ok_bind]
    obtain ⟨r', k1, k2, k3⟩ := htf b hb fb
    constructor
    · intro e
      rw [k1] at e
      cases e
      rw [← h3, k3]
    · intro e
      rw [← e]
      exact h1

end

/-! ## C106 -/

variable {c : Cfg}

theorem C106_fold_2D (hc : c.Supported) :
    (∀ w, FoldsCells c (fun m : MortonIndex2D (FixedDepthStorage2D w) => m.cells) (fun m => Reach2D c .all (.fixed w m))) ∧
    (∀ w, FoldsCells c (fun m : MortonIndex2D (StaticStorage2D w) => m.cells) (fun m => Reach2D c .all (.static w m))) ∧
    FoldsCells c (fun m : MortonIndex2D DynamicStorage2D => m.cells) (fun m => Reach2D c .all (.dynamic m)) :=
  ⟨fun _ => foldsCells_of (fixed_list2 hc) ((C06_iterator_2D hc).1 _), fun _ => foldsCells_of (static_list2 hc) ((C06_iterator_2D hc).2.1 _),
    foldsCells_of (dynamic_list2' hc) (C06_iterator_2D hc).2.2⟩

theorem C106_fold_3D (hc : c.Supported) :
    (∀ w, FoldsCells c (fun m : MortonIndex3D (FixedDepthStorage3D w) => m.cells) (fun m => Reach3D c .all (.fixed w m))) ∧
    (∀ w, FoldsCells c (fun m : MortonIndex3D (StaticStorage3D w) => m.cells) (fun m => Reach3D c .all (.static w m))) ∧
    FoldsCells c (fun m : MortonIndex3D DynamicStorage3D => m.cells) (fun m => Reach3D c .all (.dynamic m)) :=
  ⟨fun _ => foldsCells_of (fixed_list3 hc) ((C06_iterator_3D hc).1 _), fun _ => foldsCells_of (static_list3 hc) ((C06_iterator_3D hc).2.1 _),
    foldsCells_of (dynamic_list3' hc) (C06_iterator_3D hc).2.2⟩

theorem rebuildsInto2D_of (hc : c.Supported) {S : Type} [Storage S Quadrant] [MortonIndex M Quadrant] {iter : M → CellIter S}
    {ok : M → Prop} {p : M → List Quadrant} {wr : Quadrant → Quadrant} (h : ListLike c ok p wr) (hi : IteratesCells c iter ok) :
    RebuildsInto2D c iter ok := by
  refine ⟨fun w hw => ?_, fun w hw => ?_, fun hw => ?_⟩
  · refine rebuildNormalises_of h hi (fixed_list2 (sc := .all) (w := w) hc) fun m hm hf => ?_
    rw [h.depth_eq m hm] at hf
    obtain ⟨r, h1, -, -, h2⟩ := MortonIndex2D.fixed_tryFrom hc hw (cs := p m) (Nat.le_of_eq hf)
    have e : w / dim Quadrant - (p m).length = 0 := by
      change w / 2 - _ = 0
      omega
    rw [e, List.replicate_zero, List.append_nil] at h2
    exact ⟨r, h1, .fixedTryFromSlice hw h1, h2⟩
  · refine rebuildNormalises_of h hi (static_list2 (sc := .all) (w := w) hc) fun m hm hf => ?_
    rw [h.depth_eq m hm] at hf
    obtain ⟨r, h1, -, -, -, h2⟩ := MortonIndex2D.static_tryFrom hc hw (cs := p m) hf
    exact ⟨r, h1, .staticTryFromSlice hw h1, h2⟩
  · refine rebuildNormalises_of h hi (dynamic_list2 (sc := .all) hc hw) fun m hm hf => ?_
    rw [h.depth_eq m hm] at hf
    obtain ⟨r, h1, -, -, -, h2⟩ := MortonIndex2D.dynamic_tryFrom hc (cs := p m) hf
    exact ⟨r, h1, .dynamicTryFromSlice hf h1, h2 hw⟩

theorem C106_rebuild_2D (hc : c.Supported) :
    (∀ w, RebuildsInto2D c (fun m : MortonIndex2D (FixedDepthStorage2D w) => m.cells) (fun m => Reach2D c .all (.fixed w m))) ∧
    (∀ w, RebuildsInto2D c (fun m : MortonIndex2D (StaticStorage2D w) => m.cells) (fun m => Reach2D c .all (.static w m))) ∧
    RebuildsInto2D c (fun m : MortonIndex2D DynamicStorage2D => m.cells) (fun m => Reach2D c .all (.dynamic m)) :=
  ⟨fun _ => rebuildsInto2D_of hc (fixed_list2 hc) ((C06_iterator_2D hc).1 _),
    fun _ => rebuildsInto2D_of hc (static_list2 hc) ((C06_iterator_2D hc).2.1 _),
    rebuildsInto2D_of hc (dynamic_list2' hc) (C06_iterator_2D hc).2.2⟩

theorem rebuildsInto3D_of (hc : c.Supported) {S : Type} [Storage S Octant] [MortonIndex M Octant] {iter : M → CellIter S}
    {ok : M → Prop} {p : M → List Octant} {wr : Octant → Octant} (h : ListLike c ok p wr) (hi : IteratesCells c iter ok) :
    RebuildsInto3D c iter ok := by
  refine ⟨fun w hw => ?_, fun w hw => ?_, fun hw => ?_⟩
  · refine rebuildNormalises_of h hi (fixed_list3 (sc := .all) (w := w) hc) fun m hm hf => ?_
    rw [h.depth_eq m hm] at hf
    obtain ⟨r, h1, -, -, h2⟩ := MortonIndex3D.fixed_tryFrom hc hw (cs := p m) (Nat.le_of_eq hf)
    have e : w / dim Octant - (p m).length = 0 := by
      change w / 3 - _ = 0
      omega
    rw [e, List.replicate_zero, List.append_nil] at h2
    exact ⟨r, h1, .fixedTryFromSlice hw h1, h2⟩
  · refine rebuildNormalises_of h hi (static_list3 (sc := .all) (w := w) hc) fun m hm hf => ?_
    rw [h.depth_eq m hm] at hf
    obtain ⟨r, h1, -, -, -, h2⟩ := MortonIndex3D.static_tryFrom hc hw (cs := p m) hf
    exact ⟨r, h1, .staticTryFromSlice hw h1, h2⟩
  · refine rebuildNormalises_of h hi (dynamic_list3 (sc := .all) hc hw) fun m hm hf => ?_
    rw [h.depth_eq m hm] at hf
    obtain ⟨r, h1, -, -, -, h2⟩ := MortonIndex3D.dynamic_tryFrom hc (cs := p m) hf
    exact ⟨r, h1, .dynamicTryFromSlice hf h1, h2 hw⟩

theorem C106_rebuild_3D (hc : c.Supported) :
    (∀ w, RebuildsInto3D c (fun m : MortonIndex3D (FixedDepthStorage3D w) => m.cells) (fun m => Reach3D c .all (.fixed w m))) ∧
    (∀ w, RebuildsInto3D c (fun m : MortonIndex3D (StaticStorage3D w) => m.cells) (fun m => Reach3D c .all (.static w m))) ∧
    RebuildsInto3D c (fun m : MortonIndex3D DynamicStorage3D => m.cells) (fun m => Reach3D c .all (.dynamic m)) :=
  ⟨fun _ => rebuildsInto3D_of hc (fixed_list3 hc) ((C06_iterator_3D hc).1 _),
    fun _ => rebuildsInto3D_of hc (static_list3 hc) ((C06_iterator_3D hc).2.1 _),
    rebuildsInto3D_of hc (dynamic_list3' hc) (C06_iterator_3D hc).2.2⟩

/-! ## Examples -/

/-- `count` and `last` of an index of three cells, before and after one call of `next()`. -/
example : CellIter.fold x64 (fun n _ => n + 1) 9 0 exS2.cells = .ok 3 ∧
    CellIter.fold x64 (fun _ v => some v) 9 none exS2.cells = .ok (some Quadrant.Two) ∧
    (CellIter.after x64 1 exS2.cells >>= CellIter.fold x64 (fun n _ => n + 1) 9 0) = .ok 2 := by decide +kernel

/-- The theorem applied to it: a loop from the second cell on. -/
example : ∃ it, CellIter.after x64 1 exS2.cells = .ok it ∧ ∃ cs : List Quadrant, cs.length = 3 ∧
    CellIter.fold x64 (fun xs v => v :: xs) 9 [] it = .ok ((cs.drop 1).foldl (fun xs v => v :: xs) []) := by
  obtain ⟨cs, h1, h2⟩ := (C106_fold_2D x64_supported).2.1 16 exS2 (exS2_reach _)
  obtain ⟨it, h3, h4⟩ := h2 1
  have hl : cs.length = 3 := h1.1.symm
  exact ⟨it, h3, cs, hl, h4 _ _ _ 9 (by omega)⟩

/-- The two dynamic indices of depth 4 that F3 tells apart are rebuilt as the same value. -/
example : let z : MortonIndex2D DynamicStorage2D := MortonIndex2D.dynamicZeroed 4
    let t : MortonIndex2D DynamicStorage2D := ⟨⟨[0#8], 4⟩⟩
    RustOrd.eq z t = false ∧ rebuild x64 MortonIndex2D.cells (MortonIndex2D.tryFromSlice x64) z = .ok (.ok t) ∧
    rebuild x64 MortonIndex2D.cells (MortonIndex2D.tryFromSlice x64) t = .ok (.ok t) := by decide +kernel

/-- The theorem applied to them. -/
example : ∃ r, rebuild x64 MortonIndex2D.cells (MortonIndex2D.tryFromSlice x64) (MortonIndex2D.dynamicZeroed 4) =
      .ok (.ok (r : MortonIndex2D DynamicStorage2D)) ∧
    ∀ b, Reach2D x64 .all (.dynamic b) → Addressable x64 (depth b * 2) →
      (rebuild x64 MortonIndex2D.cells (MortonIndex2D.tryFromSlice x64) b = .ok (.ok r) ↔ SameCells x64 (MortonIndex2D.dynamicZeroed 4) b) := by
  obtain ⟨r, h1, -, h2⟩ := (C106_rebuild_2D x64_supported).2.2.2.2 x64_writes (MortonIndex2D.dynamicZeroed 4)
    (.dynamicZeroed (by unfold Addressable; decide) (.inl rfl)) (by unfold Addressable; decide)
  exact ⟨r, h1, h2⟩

/-- A static octree index as a dynamic one. -/
example : ∃ r, rebuild x64 MortonIndex3D.cells (MortonIndex3D.tryFromSlice x64) exS3 = .ok (.ok (r : MortonIndex3D DynamicStorage3D)) ∧
    SameCells x64 exS3 r := by
  obtain ⟨r, h1, h2, -⟩ := ((C106_rebuild_3D x64_supported).2.1 32).2.2 x64_writes exS3 (exS3_reach _) (by unfold Addressable; decide)
  exact ⟨r, h1, h2⟩

end MortonRs
