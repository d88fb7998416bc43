import Verif.Lemmas.Reach2D
import Verif.Lemmas.Cmp2D
import Verif.Lemmas.ListLike

/-! # Every 2D index type behaves like a list -/

namespace MortonRs

open BitStorage MortonIndex VariableDepthMortonIndex

variable {c : Cfg} {sc : Scope} {w : Nat}

/-- The cells of an index. -/
def cells2 {S : Type} [Storage S Quadrant] [BitStorage S Quadrant] (m : MortonIndex2D S) : List Quadrant :=
  path m.storage

theorem listLike_of2 {S : Type} [Storage S Quadrant] [BitStorage S Quadrant] (hc : c.Supported)
    {ok : MortonIndex2D S → Prop} (hwf : ∀ m, ok m → WF c m.storage)
    (hset : ∀ m m' l v, ok m → setCellAtLevel c m l v = .ok m' → ok m')
    (hinv : ∀ m m', ok m → inverted c m = .ok m' → ok m') :
    ListLike c ok cells2 (written S c) where
  depth_eq m hm := (path_length _).symm
  get m hm l hl := ((MortonIndex2D.shows_path hc (hwf m hm)).2 l hl)
  get_ge m hm l hl := MortonIndex2D.get_ge (by rw [← path_length]; exact hl)
  set m hm l v hl := by
    obtain ⟨m', h1, -, -, -, h5, -⟩ := MortonIndex2D.set_lt hc (hwf m hm) (by rw [← path_length]; exact hl) v
    exact ⟨m', h1, hset m m' l v hm h1, h5⟩
  set_ge m hm l v hl := MortonIndex2D.set_ge (by rw [← path_length]; exact hl) v
  inv m hm := by
    obtain ⟨m', h1, -, -, -, h5, -⟩ := MortonIndex2D.inverted_ok hc (hwf m hm)
    exact ⟨m', h1, hinv m m' hm h1, h5⟩

theorem iterates_of2 {S : Type} [Storage S Quadrant] [BitStorage S Quadrant] (hc : c.Supported)
    {ok : MortonIndex2D S → Prop} (hwf : ∀ m, ok m → WF c m.storage)
    (hd : ∀ m, ok m → Storage.depth m.storage < 2 ^ c.ptrBits) :
    IteratesCells c (fun m : MortonIndex2D S => m.cells) ok := by
  intro m hm n
  have h := hwf m hm
  have hdm := hd m hm
  have key : ∀ n i, i ≤ Storage.depth m.storage → ∃ items, nexts c n ⟨m.storage, i⟩ = .ok items ∧ items.length = n ∧
      ∀ k (hk : k < items.length), (i + k < Storage.depth m.storage → items[k] = some (slot m.storage (i + k))) ∧
        (Storage.depth m.storage ≤ i + k → items[k] = none) := by
    intro n
    induction n with
    | zero => intro i _; exact ⟨[], rfl, rfl, fun k hk => absurd hk (by simp)⟩
    | succ n ih =>
      intro i hi
      by_cases h1 : i = Storage.depth m.storage
      · obtain ⟨items, e1, e2, e3⟩ := ih i hi
        refine ⟨none :: items, ?_, by simp [e2], ?_⟩
        · simp only [nexts, CellIter.next, h1, if_true, ok_bind, pure_eq_ok]
          rw [← h1, e1]
          rfl
        · intro k hk
          cases k with
          | zero => exact ⟨fun h => by omega, fun _ => rfl⟩
          | succ k =>
            obtain ⟨g1, g2⟩ := e3 k (by simpa using hk)
            exact ⟨fun h => by omega, fun h => g2 (by omega)⟩
      · obtain ⟨items, e1, e2, e3⟩ := ih (i + 1) (by omega)
        have h2 : i + 1 < 2 ^ c.ptrBits := by omega
        refine ⟨some (slot m.storage i) :: items, ?_, by simp [e2], ?_⟩
        · simp only [nexts, CellIter.next, h1, if_false, uadd_ok h2, ok_bind,
            get_slot hc h (show i < Storage.depth m.storage by omega), pure_eq_ok]
          rw [e1]
          rfl
        · intro k hk
          cases k with
          | zero => exact ⟨fun _ => rfl, fun h => by omega⟩
          | succ k =>
            obtain ⟨g1, g2⟩ := e3 k (by simpa using hk)
            rw [show i + (k + 1) = i + 1 + k by omega]
            exact ⟨g1, g2⟩
  obtain ⟨items, e1, e2, e3⟩ := key n 0 (Nat.zero_le _)
  refine ⟨items, e1, e2, fun k hk => ?_⟩
  obtain ⟨g1, g2⟩ := e3 k hk
  rw [Nat.zero_add] at g1 g2
  exact ⟨fun hlt => ⟨_, MortonIndex2D.get_lt hc h hlt, g1 hlt⟩, g2⟩

theorem written_fixed2 : written (FixedDepthStorage2D w) c = id := rfl

theorem written_static2 : written (StaticStorage2D w) c = id := rfl

theorem written_dynamic2 (h : DynWrites c) : written DynamicStorage2D c = id := by
  funext v
  change dynWritten c v = v
  simp [dynWritten, h]

/-! ## Fixed depth -/

theorem fixed_wf2 (hc : c.Supported) (m : MortonIndex2D (FixedDepthStorage2D w)) (h : Reach2D c sc (.fixed w m)) :
    WF c m.storage := FixedDepthStorage2D.wf (reach2D_good hc h).1 m.storage

theorem fixed_list2 (hc : c.Supported) :
    ListLike c (fun m => Reach2D c sc (.fixed w m)) cells2 id :=
  listLike_of2 hc (fixed_wf2 hc) (fun _ _ _ _ h e => .fixedSet h e) (fun _ _ h e => .fixedInverted h e)

theorem fixed_depth_lt2 (hc : c.Supported) (m : MortonIndex2D (FixedDepthStorage2D w)) (h : Reach2D c sc (.fixed w m)) :
    Storage.depth m.storage < 2 ^ c.ptrBits := by
  have := hc.le
  have := StaticStorage2D.depth_small (reach2D_good hc h).1 (Nat.le_refl (w / dim Quadrant))
  change w / dim Quadrant < _
  omega

/-- In 2D every bit belongs to a cell. -/
theorem fixed_tail2 (hc : c.Supported) (m : MortonIndex2D (FixedDepthStorage2D w)) (h : Reach2D c sc (.fixed w m)) :
    TailZero m.storage := by
  intro i hi
  have := (reach2D_good hc h).1.mod8
  change i < w - w / 2 * 2 at hi
  omega

/-- Every 2D fixed-depth index that some history produces can be built from its cells, so it also has a history without stray bits. -/
theorem fixed_scope2 (hc : c.Supported) {sc' : Scope} {m : MortonIndex2D (FixedDepthStorage2D w)}
    (h : Reach2D c sc (.fixed w m)) : Reach2D c sc' (.fixed w m) := by
  have hw : IntWidth w := (reach2D_good hc h).1
  have hl : (path m.storage).length = w / dim Quadrant := path_length _
  obtain ⟨m', h1, -, h3, h4⟩ := MortonIndex2D.fixed_tryFrom hc hw (Nat.le_of_eq hl)
  have e : RustOrd.eq m'.storage m.storage = true :=
    (FixedDepthStorage2D.eq_iff h3 (fixed_tail2 hc m h)).mpr (by rw [h4, hl, Nat.sub_self]; simp)
  obtain ⟨s⟩ := m
  obtain ⟨s'⟩ := m'
  cases FixedDepthStorage2D.eq_iff_eq.mp e
  exact .fixedTryFromSlice hw h1

theorem fixed_eq2 (hc : c.Supported) :
    EqLike (fun m => Reach2D c sc (.fixed w m)) cells2 := fun a b ha hb =>
  FixedDepthStorage2D.eq_iff (fixed_tail2 hc a ha) (fixed_tail2 hc b hb)

theorem fixed_cmp2 (hc : c.Supported) :
    CmpLike c quadrantKey (fun m => Reach2D c sc (.fixed w m)) cells2 := by
  intro a b ha hb
  have h := FixedDepthStorage2D.cmp_ok (c := c) (fixed_tail2 hc a ha) (fixed_tail2 hc b hb)
  refine ⟨h, ?_⟩
  have h' : compare a.storage.bits.toNat b.storage.bits.toNat = _ := Except.ok.inj h
  change Except.ok (some (compare a.storage.bits.toNat b.storage.bits.toNat)) = _
  rw [h']
  rfl

/-! ## Static -/

theorem static_wf2 (hc : c.Supported) (m : MortonIndex2D (StaticStorage2D w)) (h : Reach2D c sc (.static w m)) :
    WF c m.storage := (reach2D_good hc h).1

theorem static_list2 (hc : c.Supported) :
    ListLike c (fun m => Reach2D c sc (.static w m)) cells2 id :=
  listLike_of2 hc (static_wf2 hc) (fun _ _ _ _ h e => .staticSet h e) (fun _ _ h e => .staticInverted h e)

theorem static_depth_le2 (hc : c.Supported) (m : MortonIndex2D (StaticStorage2D w)) (h : Reach2D c sc (.static w m)) :
    (cells2 m).length ≤ w / 2 := by
  have h := (reach2D_good hc h).1
  rw [cells2, path_length]
  exact (StaticStorage2D.wf_iff h.fit _).mp h

theorem static_depth_lt2 (hc : c.Supported) (m : MortonIndex2D (StaticStorage2D w)) (h : Reach2D c sc (.static w m)) :
    Storage.depth m.storage < 2 ^ c.ptrBits := by
  have := hc.le
  have h := (reach2D_good hc h).1
  have := StaticStorage2D.depth_small h.fit ((StaticStorage2D.wf_iff h.fit _).mp h)
  change m.storage.depth < _
  omega

theorem static_anc2 (hc : c.Supported) : AncLike c (fun m => Reach2D c sc (.static w m)) cells2 where
  no m hm g hg := MortonIndex2D.static_ancestor_none (by rw [cells2, path_length] at hg; exact hg)
  yes m hm g hg := by
    obtain ⟨a, h1, -, -, h4⟩ := MortonIndex2D.static_ancestor hc (static_wf2 hc m hm)
      (by rw [cells2, path_length] at hg; exact hg)
    exact ⟨a, h1, .staticAncestor hm h1, by rw [cells2, h4, cells2, path_length]; rfl⟩

/-- A slice of cells has at most `isize::MAX` elements. -/
def sliceRoom (c : Cfg) {M : Type} (_ : M) (n : Nat) : Prop := n < 2 ^ (c.ptrBits - 1)

theorem static_desc2 (hc : c.Supported) :
    DescLike c (fun m => Reach2D c sc (.static w m)) cells2 (sliceRoom c) (some (w / 2)) where
  no m hm cs hr he := MortonIndex2D.static_descendant_none hc (static_wf2 hc m hm) hr
    (by rw [cells2, path_length] at he; exact he)
  yes m hm cs hr he := by
    obtain ⟨a, h1, -, -, h4⟩ := MortonIndex2D.static_descendant hc (static_wf2 hc m hm)
      (cs := cs) (by rw [cells2, path_length] at he; exact Nat.le_of_not_gt he)
    exact ⟨a, h1, .staticDescendant hm hr h1, h4⟩

/-- Every 2D static index that some history produces can be built from its cells, so it also has a history without stray bits. -/
theorem static_scope2 (hc : c.Supported) {sc' : Scope} {m : MortonIndex2D (StaticStorage2D w)}
    (h : Reach2D c sc (.static w m)) : Reach2D c sc' (.static w m) := by
  obtain ⟨hwf, ht⟩ := reach2D_good hc h
  have hw : IntWidth w := hwf.fit
  obtain ⟨m', h1, -, h2, h3, h4⟩ := MortonIndex2D.static_tryFrom (cs := path m.storage) hc hw
    (by rw [path_length]; exact (StaticStorage2D.wf_iff hw _).mp hwf)
  have e : RustOrd.eq m'.storage m.storage = true := (StaticStorage2D.eq_iff h2 h3 ht).mpr h4
  obtain ⟨s⟩ := m
  obtain ⟨s'⟩ := m'
  cases StaticStorage2D.eq_iff_eq.mp e
  exact .staticTryFromSlice hw h1

theorem static_eq2 (hc : c.Supported) :
    EqLike (fun m => Reach2D c sc (.static w m)) cells2 := fun a _b ha hb =>
  StaticStorage2D.eq_iff (static_wf2 hc a ha) (reach2D_good hc ha).2 (reach2D_good hc hb).2

theorem static_cmp2 (hc : c.Supported) :
    CmpLike c quadrantKey (fun m => Reach2D c sc (.static w m)) cells2 := by
  intro a b ha hb
  have h := StaticStorage2D.cmp_ok hc (static_wf2 hc a ha) (static_wf2 hc b hb)
  refine ⟨h, ?_⟩
  have h' : StaticStorage2D.cmp c a.storage b.storage = _ := h
  change (StaticStorage2D.cmp c a.storage b.storage >>= fun o => pure (some o)) = _
  rw [h']
  rfl

theorem static_refl2 (m : MortonIndex2D (StaticStorage2D w)) : RustOrd.eq m m = true :=
  StaticStorage2D.eq_iff_eq.mpr rfl

/-! ## Dynamic -/

theorem dynamic_wf2 (hc : c.Supported) (m : MortonIndex2D DynamicStorage2D) (h : Reach2D c sc (.dynamic m)) :
    WF c m.storage := (reach2D_good hc h).1.wf

theorem dynamic_list2' (hc : c.Supported) :
    ListLike c (fun m => Reach2D c sc (.dynamic m)) cells2 (written DynamicStorage2D c) :=
  listLike_of2 hc (dynamic_wf2 hc) (fun _ _ _ _ h e => .dynamicSet h e) (fun _ _ h e => .dynamicInverted h e)

theorem dynamic_list2 (hc : c.Supported) (hw : DynWrites c) :
    ListLike c (fun m => Reach2D c sc (.dynamic m)) cells2 id :=
  written_dynamic2 hw ▸ dynamic_list2' hc

theorem dynamic_depth_lt2 (hc : c.Supported) (m : MortonIndex2D DynamicStorage2D) (h : Reach2D c sc (.dynamic m)) :
    Storage.depth m.storage < 2 ^ c.ptrBits := by
  have := (reach2D_good hc h).1.depth_lt
  change m.storage.depth < _
  omega

theorem dynamic_addr2 (hc : c.Supported) (m : MortonIndex2D DynamicStorage2D) (h : Reach2D c sc (.dynamic m)) :
    Addressable c ((cells2 m).length * 2) := by
  rw [cells2, path_length]
  exact (reach2D_good hc h).1.addr

theorem dynamic_anc2 (hc : c.Supported) : AncLike c (fun m => Reach2D c sc (.dynamic m)) cells2 where
  no m hm g hg := MortonIndex2D.dynamic_ancestor_none (by rw [cells2, path_length] at hg; exact hg)
  yes m hm g hg := by
    obtain ⟨a, h1, -, -, h4⟩ := MortonIndex2D.dynamic_ancestor (reach2D_good hc hm).1
      (by rw [cells2, path_length] at hg; exact hg)
    exact ⟨a, h1, .dynamicAncestor hm h1, by rw [cells2, h4, cells2, path_length]; rfl⟩

/-- A dynamic index with `n` more cells is addressable. -/
def dynRoom2 (c : Cfg) (m : MortonIndex2D DynamicStorage2D) (n : Nat) : Prop := Addressable c ((depth m + n) * 2)

theorem dynamic_desc2 (hc : c.Supported) (hw : DynWrites c) :
    DescLike c (fun m => Reach2D c sc (.dynamic m)) cells2 (dynRoom2 c) none where
  no m hm cs hr he := he.elim
  yes m hm cs hr he := by
    obtain ⟨a, h1, -, -, -, h4⟩ := MortonIndex2D.dynamic_descendant hc (reach2D_good hc hm).1 hr
    exact ⟨a, h1, .dynamicDescendant hm hr h1, h4 hw⟩

theorem dynamic_eq2 (hc : c.Supported) :
    EqLike (fun m => Reach2D c .canonical (.dynamic m)) cells2 := fun _a _b ha hb =>
  DynamicStorage2D.eq_iff ((reach2D_good hc ha).2 rfl) ((reach2D_good hc hb).2 rfl)

theorem dynamic_cmp2 (hc : c.Supported) :
    CmpLike c quadrantKey (fun m => Reach2D c sc (.dynamic m)) cells2 := by
  intro a b ha hb
  have h := DynamicStorage2D.cmp_ok hc (dynamic_wf2 hc a ha) (dynamic_wf2 hc b hb)
  refine ⟨h, ?_⟩
  have h' : DynamicStorage2D.cmp c a.storage b.storage = _ := h
  change (DynamicStorage2D.cmp c a.storage b.storage >>= fun o => pure (some o)) = _
  rw [h']
  rfl

theorem dynamic_refl2 (m : MortonIndex2D DynamicStorage2D) : RustOrd.eq m m = true :=
  DynamicStorage2D.eq_iff_eq.mpr rfl

end MortonRs
