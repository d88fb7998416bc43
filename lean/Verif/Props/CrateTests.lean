import Verif.Model.CrateTests
import Verif.Props.Sorted
import Verif.Props.Access2D
import Verif.Props.Access3D
import Verif.Props.Grid2D
import Verif.Props.Grid3D
import Verif.Props.Conv2D
import Verif.Props.Conv3D

/-! # The crate's randomised tests cannot fail, whatever they draw (C108) -/

namespace MortonRs

open MortonIndex VariableDepthMortonIndex

variable {M N Cell G O : Type} [DecidableEq Cell]

/-! ## Statements -/

/-- The test `ordering` passes: the indices can be built and sorted, and whatever sorted arrangement `sort()` leaves
behind, the loop over neighbours finds nothing wrong. -/
def Tested.OrderingPasses [RustOrd M] [RustOrd Cell] (c : Cfg) (t : Tested M Cell) (draws : List (List Cell)) : Prop :=
  ∃ ms, t.buildAll draws = .ok ms ∧ (∃ s : List M, s.Perm ms ∧ Sorted c s) ∧
    ∀ s : List M, s.Perm ms → Sorted c s → t.checkSorted c s = .ok ()

/-- The tests of `test_fixed_depth!` with `MAX_LEVELS = max`, for all draws; `wide` is needed for the grid only. -/
structure FixedTestsPass [MortonIndex M Cell] [RustOrd M] [RustOrd Cell] (c : Cfg) (t : Tested M Cell) (max : Nat)
    (zero one : Cell) (array : List Cell) (toGrid : M → O → Res G) (fromGrid : G → O → Res M) (orderings : List O)
    (wide : Prop) : Prop where
  default : t.fixedDefault c max zero = .ok ()
  from_cells : ∀ cs, cs.length = max → t.fromCells c cs = .ok ()
  from_array : t.fixedFromArray c max zero array = .ok ()
  from_too_many : ∀ cs, cs.length = max + 1 → t.tooMany cs = .ok ()
  from_fewer : ∀ cs, cs.length = max - 2 → t.fixedFewer c max zero cs = .ok ()
  set_cell : ∀ cs, cs.length = max → Tested.setCells c (.ok t.default) max cs = .ok ()
  set_cell_oob : t.setOutOfRange c max one = .ok ()
  cells_iter : ∀ cs, cs.length = max → t.cellsIter cs = .ok ()
  ordering : ∀ draws, (∀ cs ∈ draws, cs.length = max) → t.OrderingPasses c draws
  roundtrip : wide → ∀ cs, cs.length = max → t.gridRoundTrip toGrid fromGrid orderings cs = .ok ()
  inverted : ∀ cs, cs.length = max → t.invertedOnce c cs = .ok ()

/-- The tests of `test_static!` with `MAX_LEVELS = max`, for all draws. `split` is where `descendant_multi_levels` cuts,
`generations` is for `ancestor_multi`, `odd` is the number of levels in `.._with_odd_levels`. -/
structure StaticTestsPass [VariableDepthMortonIndex M Cell] [RustOrd M] [RustOrd Cell] (c : Cfg) (t : Tested M Cell)
    (max : Nat) (zero one three : Cell) (array : List Cell) (zeroed : Nat → Option M) (split : Nat)
    (generations : NonZeroUsize) (odd : Nat) (toGrid : M → O → Res G) (fromGrid : Nat → G → O → Res (Except Error M))
    (orderings : List O) (wide : Prop) : Prop where
  default : t.emptyDefault = .ok ()
  from_cells : ∀ cs, cs.length = max → t.fromCells c cs = .ok ()
  from_array : t.fromArray array = .ok ()
  from_too_many : ∀ cs, cs.length = max + 1 → t.tooMany cs = .ok ()
  from_fewer : ∀ cs, cs.length = max - 2 → t.fromCells c cs = .ok ()
  from_just_one : ∀ cs, cs.length = 1 → t.fromCells c cs = .ok ()
  set_cell : ∀ cs, cs.length = max → Tested.setCells c (unwrapOption (zeroed (asU8 max))) max cs = .ok ()
  set_cell_oob : t.setOutOfRange c 0 one = .ok ()
  cells_iter : ∀ cs, cs.length = max → t.cellsIter cs = .ok ()
  child : t.childOfRoot c three = .ok ()
  child_oob : ∀ cs, cs.length = max → t.childTooDeep c cs zero = .ok ()
  descendant_multi : ∀ cs, cs.length = max → t.descendantMulti c split cs = .ok ()
  descendant_too_far : ∀ cs, cs.length = max → t.descendantTooFar c cs zero = .ok ()
  parent : ∀ cs, cs.length = max → t.parentOf c cs = .ok ()
  parent_of_root : t.parentOfRoot c = .ok ()
  ancestor_multi : ∀ cs, cs.length = max → t.ancestorMulti c generations cs = .ok ()
  ancestor_to_root : ∀ cs, cs.length = max → ∀ g : NonZeroUsize, g.val = max → t.ancestorToRoot c g cs = .ok ()
  ancestor_too_far : ∀ cs, cs.length = max → ∀ g : NonZeroUsize, g.val = max + 1 → t.ancestorTooFar c g cs = .ok ()
  ordering : ∀ draws, (∀ cs ∈ draws, cs.length < max) → t.OrderingPasses c draws
  roundtrip : wide → ∀ d, d = max ∨ d = odd ∨ d = 1 → ∀ cs, cs.length = d →
    t.gridRoundTrip toGrid (fun g o => do unwrapResult (← fromGrid d g o)) orderings cs = .ok ()
  inverted : ∀ draws, (∀ cs ∈ draws, cs.length ≤ max) → t.invertedAll c draws = .ok ()

/-- The tests of `test_dynamic!`, for all draws. -/
structure DynamicTestsPass [VariableDepthMortonIndex M Cell] [RustOrd M] [RustOrd Cell] (c : Cfg) (t : Tested M Cell)
    (one three : Cell) (array : List Cell) (zeroed : Nat → Res M) (toGrid : M → O → Res G)
    (fromGrid : Nat → G → O → Res M) (orderings : List O) (wide : Prop) : Prop where
  default : t.emptyDefault = .ok ()
  from_even : ∀ cs, cs.length = 8 → t.fromCells c cs = .ok ()
  from_odd : ∀ cs, cs.length = 9 → t.fromCells c cs = .ok ()
  from_array : t.fromArray array = .ok ()
  set_cell : ∀ cs, cs.length = 8 → Tested.setCells c (zeroed 8) 8 cs = .ok ()
  set_cell_oob : t.setOutOfRange c 0 one = .ok ()
  cells_iter : ∀ cs, cs.length = 8 → t.cellsIter cs = .ok ()
  child : t.childOfRoot c three = .ok ()
  child_at_four_levels : ∀ cs, cs.length = 4 → t.childBelow c cs three = .ok ()
  descendant_multi : ∀ cs, cs.length = 6 → t.descendantMulti c 4 cs = .ok ()
  parent_4 : ∀ cs, cs.length = 4 → t.parentOf c cs = .ok ()
  parent_5 : ∀ cs, cs.length = 5 → t.parentOf c cs = .ok ()
  parent_of_root : t.parentOfRoot c = .ok ()
  ancestor_multi : ∀ cs, cs.length = 8 → t.ancestorMulti c ⟨3, by decide⟩ cs = .ok ()
  ancestor_to_root : ∀ cs, cs.length = 5 → t.ancestorToRoot c ⟨5, by decide⟩ cs = .ok ()
  ancestor_too_far : ∀ cs, cs.length = 4 → t.ancestorTooFar c ⟨5, by decide⟩ cs = .ok ()
  ordering : ∀ draws, (∀ cs ∈ draws, cs.length = 9) → t.OrderingPasses c draws
  roundtrip : wide → ∀ cs, cs.length = 32 → t.gridRoundTrip toGrid (fromGrid 32) orderings cs = .ok ()
  roundtrip_odd : wide → ∀ cs, cs.length = 29 → t.gridRoundTrip toGrid (fromGrid 29) orderings cs = .ok ()
  inverted : ∀ draws, (∀ cs ∈ draws, cs.length ≤ 32) → t.invertedAll c draws = .ok ()

/-- The tests of `test_conversions!` with `$max_levels = max`, for all draws; `F`, `S`, `D` are the fixed depth, static
and dynamic type. `half` is the length of the padding in `convert_static_to_fixed_with_fewer_levels`, `less` the
difference to `max` in the tests from dynamic indices with fewer levels. -/
structure ConversionTestsPass {F S D : Type} [MortonIndex F Cell] [MortonIndex S Cell] [MortonIndex D Cell] (max : Nat)
    (zero : Cell) (half less : Nat) (f : Tested F Cell) (s : Tested S Cell) (d : Tested D Cell) (fs : F → S) (fd : F → D)
    (sf : S → F) (sd : S → Res D) (df : D → Except Error F) (ds : D → Res (Except Error S)) : Prop where
  fixed_to_static : ∀ cs, cs.length = max → f.convertAtDepth s (fun m => .ok (fs m)) max cs = .ok ()
  fixed_to_dynamic : ∀ cs, cs.length = max → f.convertAtDepth d (fun m => .ok (fd m)) max cs = .ok ()
  static_to_fixed : ∀ cs, cs.length = max → s.convertPadded f (fun m => .ok (sf m)) [] cs = .ok ()
  static_to_fixed_fewer : ∀ cs, cs.length = max / 2 →
    s.convertPadded f (fun m => .ok (sf m)) (List.replicate half zero) cs = .ok ()
  static_to_dynamic : ∀ cs, cs.length = max → s.convertSameDepth d sd cs = .ok ()
  static_to_dynamic_fewer : ∀ cs, cs.length = max / 2 → s.convertSameDepth d sd cs = .ok ()
  dynamic_to_fixed : ∀ cs, cs.length = max → d.convertPadded f (fun m => unwrapResult (df m)) [] cs = .ok ()
  dynamic_to_fixed_fewer : ∀ cs, cs.length = max - less →
    d.convertPadded f (fun m => unwrapResult (df m)) (List.replicate less zero) cs = .ok ()
  dynamic_to_static : ∀ cs, cs.length = max → d.convertSameDepth s (fun m => do unwrapResult (← ds m)) cs = .ok ()
  dynamic_to_static_fewer : ∀ cs, cs.length = max - less →
    d.convertSameDepth s (fun m => do unwrapResult (← ds m)) cs = .ok ()

/-! ## Proof -/

/-- What the tests need to know about a type: it behaves like lists, `pad` says what a constructor makes of the cells. -/
structure Behaves [MortonIndex M Cell] (c : Cfg) (t : Tested M Cell) (ok : M → Prop) (p : M → List Cell)
    (fits : Nat → Prop) (pad : List Cell → List Cell) : Prop where
  list : ListLike c ok p id
  make : ∀ cs, fits cs.length → ∃ m, t.tryFrom cs = .ok (.ok m) ∧ t.tryFromArray cs = .ok (.ok m) ∧ ok m ∧ p m = pad cs
  cells : ∀ m, ok m → t.cells m = .ok (p m)
  root : ok t.default

theorem assert_ok {b : Bool} (h : b = true) : assertThat b = .ok () := by rw [h]; rfl

theorem forEnumFrom_unit {α : Type} {body : Nat → α → Unit → Res Unit} :
    ∀ (xs : List α) (i : Nat), (∀ k (h : k < xs.length), body (i + k) xs[k] () = .ok ()) →
      forEnumFrom i xs () body = .ok ()
  | [], _, _ => rfl
  | x :: xs, i, h => by
    have h0 := h 0 (by simp)
    rw [Nat.add_zero, List.getElem_cons_zero] at h0
    rw [forEnumFrom, h0, ok_bind]
    refine forEnumFrom_unit xs (i + 1) fun k hk => ?_
    have := h (k + 1) (by simpa using hk)
    rw [List.getElem_cons_succ] at this
    rw [show i + 1 + k = i + (k + 1) by omega]
    exact this

theorem forRange_unit {n : Nat} {body : Nat → Unit → Res Unit} (h : ∀ k, k < n → body k () = .ok ()) :
    forRange 0 n () body = .ok () := by
  obtain ⟨_, h1, -⟩ := forRange_invariant (fun _ (_ : Unit) => True) (Nat.zero_le n) (init := ()) (body := body) trivial
    (fun i s _ hi _ => ⟨(), h i hi, trivial⟩)
  exact h1

theorem forM_unit {α : Type} {f : α → Res Unit} : ∀ l : List α, (∀ a ∈ l, f a = .ok ()) → l.forM f = .ok ()
  | [], _ => rfl
  | a :: l, h => by
    show (f a >>= fun _ => l.forM f) = .ok ()
    rw [h a (by simp), ok_bind]
    exact forM_unit l fun b hb => h b (by simp [hb])

namespace Behaves

section
variable [MortonIndex M Cell] {c : Cfg} {t : Tested M Cell} {ok : M → Prop} {p : M → List Cell} {fits : Nat → Prop}
  {pad : List Cell → List Cell}

omit [DecidableEq Cell] in
theorem build (B : Behaves c t ok p fits pad) {cs : List Cell} (h : fits cs.length) :
    ∃ m, t.build cs = .ok m ∧ ok m ∧ p m = pad cs := by
  obtain ⟨m, h1, -, h3, h4⟩ := B.make cs h
  exact ⟨m, by rw [Tested.build, h1]; rfl, h3, h4⟩

theorem checkCells (B : Behaves c t ok p fits pad) {m : M} (hm : ok m) {cs : List Cell} (h : cs <+: p m) :
    Tested.checkCells c m cs = .ok () := by
  refine forEnumFrom_unit cs 0 fun k hk => ?_
  have hlen := h.length_le
  rw [Nat.zero_add, B.list.get m hm k (by omega), ok_bind]
  exact assert_ok (decide_eq_true (h.getElem hk))

theorem fromCells (B : Behaves c t ok p fits pad) {cs : List Cell} (h : fits cs.length) (hp : pad cs = cs) :
    t.fromCells c cs = .ok () := by
  obtain ⟨m, h1, h2, h3⟩ := B.build h
  rw [Tested.fromCells, h1, ok_bind, B.list.depth_eq m h2, h3, hp, assert_ok (decide_eq_true rfl), ok_bind]
  exact B.checkCells h2 (by rw [h3, hp]; exact List.prefix_rfl)

theorem cellsIter (B : Behaves c t ok p fits pad) {cs : List Cell} (h : fits cs.length) (hp : pad cs = cs) :
    t.cellsIter cs = .ok () := by
  obtain ⟨m, h1, h2, h3⟩ := B.build h
  rw [Tested.cellsIter, h1, ok_bind, B.cells m h2, ok_bind, h3, hp]
  exact assert_ok (decide_eq_true rfl)

theorem fromArray (B : Behaves c t ok p fits pad) {cs : List Cell} (h : fits cs.length) (hp : pad cs = cs) :
    t.fromArray cs = .ok () := by
  obtain ⟨m, -, h1, h2, h3⟩ := B.make cs h
  rw [Tested.fromArray, h1, ok_bind, unwrapResult, ok_bind, B.list.depth_eq m h2, h3, hp, assert_ok (decide_eq_true rfl), ok_bind, B.cells m h2, ok_bind, h3,
    hp]
  exact assert_ok (decide_eq_true rfl)

omit [DecidableEq Cell] in
theorem emptyDefault (B : Behaves c t ok p fits pad) (h0 : p t.default = []) : t.emptyDefault = .ok () := by
  rw [Tested.emptyDefault, B.list.depth_eq _ B.root, h0]
  rfl

omit [DecidableEq Cell] in
theorem setOutOfRange (B : Behaves c t ok p fits pad) {l : Nat} (h : (p t.default).length ≤ l) (v : Cell) :
    t.setOutOfRange c l v = .ok () := by
  rw [Tested.setOutOfRange, B.list.set_ge _ B.root l v h]
  rfl

omit [DecidableEq Cell] in
theorem buildAll (B : Behaves c t ok p fits pad) : ∀ draws : List (List Cell), (∀ cs ∈ draws, fits cs.length) →
    ∃ ms, t.buildAll draws = .ok ms ∧ ∀ m ∈ ms, ok m
  | [], _ => ⟨[], rfl, by simp⟩
  | cs :: draws, h => by
    obtain ⟨m, h1, h2, -⟩ := B.build (h cs (by simp))
    obtain ⟨ms, h3, h4⟩ := B.buildAll draws fun cs' h' => h cs' (by simp [h'])
    refine ⟨m :: ms, ?_, fun a ha => ?_⟩
    · rw [Tested.buildAll] at h3 ⊢
      rw [List.mapM_cons, h1, ok_bind, h3]
      rfl
    · rcases List.mem_cons.mp ha with rfl | ha
      · exact h2
      · exact h4 a ha

omit [DecidableEq Cell] in
theorem invertedOnce [RustOrd M] (B : Behaves c t ok p fits pad) (hE : EqLike ok p) {cs : List Cell} (h : fits cs.length)
    (hp : pad cs = cs) (hp' : pad cs.reverse = cs.reverse) : t.invertedOnce c cs = .ok () := by
  obtain ⟨m, h1, h2, h3⟩ := B.build h
  obtain ⟨m', g1, g2, g3⟩ := B.build (cs := cs.reverse) (by rw [List.length_reverse]; exact h)
  obtain ⟨n, e1, e2, e3⟩ := B.list.inv m h2
  rw [Tested.invertedOnce]
  simp only [h1, g1, e1, ok_bind]
  refine assert_ok ((hE n m' e2 g2).mpr ?_)
  rw [e3, g3, hp', h3, hp, List.map_id]

omit [DecidableEq Cell] in
theorem gridRoundTrip [RustOrd M] (B : Behaves c t ok p fits pad) (hE : EqLike ok p) {toGrid : M → O → Res G}
    {fromGrid : G → O → Res M} {orderings : List O} {cs : List Cell} (h : fits cs.length)
    (hg : ∀ m, ok m → p m = pad cs → ∀ o,
      ∃ g m', toGrid m o = .ok g ∧ fromGrid g o = .ok m' ∧ ok m' ∧ RustOrd.eq m' m = true) :
    t.gridRoundTrip toGrid fromGrid orderings cs = .ok () := by
  obtain ⟨m, h1, h2, h3⟩ := B.build h
  rw [Tested.gridRoundTrip, h1, ok_bind]
  refine forM_unit _ fun o _ => ?_
  obtain ⟨g, m', e1, e2, e3, e4⟩ := hg m h2 h3 o
  rw [e1, ok_bind, e2, ok_bind]
  exact assert_ok ((hE m m' h2 e3).mpr ((hE m' m e3 h2).mp e4).symm)

/-- Writing all cells into an index of that many levels. -/
theorem setCells {m : M} (hL : ListLike c ok p id) (hm : ok m) {cs : List Cell} (h : (p m).length = cs.length) :
    Tested.setCells c (.ok m) cs.length cs = .ok () := by
  rw [Tested.setCells, ok_bind]
  obtain ⟨m', h1, h2, h3, h4⟩ := forRange_invariant
    (fun i (s : M) => ok s ∧ (p s).length = cs.length ∧ ∀ k (hk : k < i) (hk' : k < cs.length), (p s)[k]? = some cs[k])
    (Nat.zero_le cs.length) (init := m)
    (body := fun level idx => do setCellAtLevel c idx level (← index cs level)) ⟨hm, h, fun k hk => absurd hk (by omega)⟩
    (by
      intro i s _ hi ⟨hs, hlen, hpre⟩
      obtain ⟨s', e1, e2, e3⟩ := hL.set s hs i cs[i] (by omega)
      refine ⟨s', by rw [index_ok hi, ok_bind, e1], e2, by rw [e3, List.length_set, hlen], fun k hk hk' => ?_⟩
      rw [e3, List.getElem?_set]
      by_cases hki : i = k
      · subst hki; simp [hlen, hi]
      · simp only [hki, if_false]
        exact hpre k (by omega) hk')
  rw [h1, ok_bind]
  refine forRange_unit fun k hk => ?_
  have hk' : k < (p m').length := by rw [h3]; exact hk
  have e := h4 k hk hk
  rw [List.getElem?_eq_getElem hk'] at e
  rw [index_ok hk, ok_bind, hL.get m' h2 k hk', ok_bind]
  exact assert_ok (decide_eq_true (Option.some.inj e).symm)

end

section ordering
variable [MortonIndex M Cell] [RustOrd M] [RustOrd Cell] {c : Cfg} {t : Tested M Cell} {ok : M → Prop} {p : M → List Cell}
  {fits : Nat → Prop} {pad : List Cell → List Cell} {key : Cell → Nat}

/-- The cells compare by number. -/
def CellOrder (c : Cfg) [RustOrd Cell] (key : Cell → Nat) : Prop :=
  ∀ a b : Cell, RustOrd.lt c a b = .ok (decide (key a < key b)) ∧ RustOrd.le c a b = .ok (decide (key a ≤ key b))

omit [DecidableEq Cell] in
theorem checkPairs (hc : CellOrder c key) : ∀ as bs : List Cell, pathCmp key as bs ≠ .gt →
    Tested.checkPairs c (as.zip bs) = .ok ()
  | [], _, _ => rfl
  | _ :: _, [], _ => rfl
  | a :: as, b :: bs, h => by
    rw [pathCmp] at h
    rw [List.zip_cons_cons, Tested.checkPairs, (hc a b).1, ok_bind]
    by_cases h1 : key a < key b
    · simp [h1]
    · by_cases h2 : key b < key a
      · simp [h1, h2] at h
      · have h3 : key a ≤ key b := by omega
        simp only [h1, h2, if_false] at h
        simp only [h1, decide_false, Bool.false_eq_true, if_false, (hc a b).2, ok_bind, h3, decide_true]
        rw [assert_ok rfl, ok_bind]
        exact checkPairs hc as bs h

omit [DecidableEq Cell] in
theorem checkSorted (B : Behaves c t ok p fits pad) (hC : CmpLike c key ok p) (hc : CellOrder c key) {ms : List M}
    (hms : ∀ m ∈ ms, ok m) (hs : Sorted c ms) : t.checkSorted c ms = .ok () := by
  refine forRange_unit fun k hk => ?_
  have h1 : k < ms.length := by omega
  have h2 : k + 1 < ms.length := by omega
  have e1 := hms _ (List.getElem_mem h1)
  have e2 := hms _ (List.getElem_mem h2)
  simp only [index_ok h1, index_ok h2, ok_bind, B.cells _ e1, B.cells _ e2]
  refine checkPairs hc _ _ ((hC.le_iff e1 e2).mp ?_)
  exact List.pairwise_iff_getElem.mp hs k (k + 1) h1 h2 (by omega)

omit [DecidableEq Cell] in
theorem ordering (B : Behaves c t ok p fits pad) (hC : CmpLike c key ok p) (hc : CellOrder c key)
    {draws : List (List Cell)} (h : ∀ cs ∈ draws, fits cs.length) : t.OrderingPasses c draws := by
  obtain ⟨ms, h1, h2⟩ := B.buildAll draws h
  exact ⟨ms, h1, can_sort hC ms h2, fun s hp hs => B.checkSorted hC hc (fun m hm => h2 m (hp.mem_iff.mp hm)) hs⟩

end ordering

section navigation
variable [VariableDepthMortonIndex M Cell] [RustOrd M] {c : Cfg} {t : Tested M Cell} {ok : M → Prop} {p : M → List Cell}
  {fits : Nat → Prop} {room : M → Nat → Prop} {limit : Option Nat}

omit [RustOrd M] in
theorem childOfRoot (B : Behaves c t ok p fits id) (hD : DescLike c ok p room limit) (h0 : p t.default = [])
    (hr : room t.default 1) (hl : ¬ Exceeds limit 1) (v : Cell) : t.childOfRoot c v = .ok () := by
  obtain ⟨k, h1, h2, h3⟩ := hD.yes t.default B.root [v] hr (by rw [h0]; exact hl)
  rw [h0, List.nil_append] at h3
  have hlen : 0 < (p k).length := by rw [h3]; simp
  rw [Tested.childOfRoot, child, h1, ok_bind, unwrapOption, ok_bind, B.list.depth_eq k h2, B.list.get k h2 0 hlen]
  simp [assertThat, ok_bind, h3]

omit [RustOrd M] in
theorem childBelow (B : Behaves c t ok p fits id) (hD : DescLike c ok p room limit) {cs : List Cell} (h : fits cs.length)
    (hr : ∀ m, ok m → p m = cs → room m 1) (hl : ¬ Exceeds limit (cs.length + 1)) (v : Cell) :
    t.childBelow c cs v = .ok () := by
  obtain ⟨m, g1, g2, g3⟩ := B.build h
  rw [id] at g3
  obtain ⟨k, h1, h2, h3⟩ := hD.yes m g2 [v] (hr m g2 g3) (by rw [g3]; exact hl)
  rw [g3] at h3
  have hlen : cs.length < (p k).length := by rw [h3]; simp
  rw [Tested.childBelow, g1, ok_bind, child, h1, ok_bind, unwrapOption, ok_bind, B.list.depth_eq k h2,
    B.list.get k h2 _ hlen]
  simp [assertThat, ok_bind, h3]

omit [DecidableEq Cell] in
theorem childTooDeep (B : Behaves c t ok p fits id) (hD : DescLike c ok p room limit) {cs : List Cell} (h : fits cs.length)
    (hr : ∀ m, ok m → p m = cs → room m 1) (hl : Exceeds limit (cs.length + 1)) (v : Cell) :
    t.childTooDeep c cs v = .ok () ∧ t.descendantTooFar c cs v = .ok () := by
  obtain ⟨m, g1, g2, g3⟩ := B.build h
  rw [id] at g3
  have h1 := hD.no m g2 [v] (hr m g2 g3) (by rw [g3]; exact hl)
  exact ⟨by rw [Tested.childTooDeep, g1, ok_bind, child, h1]; rfl, by rw [Tested.descendantTooFar, g1, ok_bind, h1]; rfl⟩

omit [DecidableEq Cell] in
theorem descendantMulti (B : Behaves c t ok p fits id) (hD : DescLike c ok p room limit) (hE : EqLike ok p) {cs : List Cell}
    (h : fits cs.length) {split : Nat} (h' : fits (cs.take split).length)
    (hr : ∀ m, ok m → p m = cs.take split → room m (cs.drop split).length) (hl : ¬ Exceeds limit cs.length) :
    t.descendantMulti c split cs = .ok () := by
  obtain ⟨m, g1, g2, g3⟩ := B.build h'
  obtain ⟨n, f1, f2, f3⟩ := B.build h
  rw [id] at g3 f3
  obtain ⟨k, h1, h2, h3⟩ := hD.yes m g2 (cs.drop split) (hr m g2 g3)
    (by rw [g3, ← List.length_append, List.take_append_drop]; exact hl)
  rw [g3, List.take_append_drop] at h3
  rw [Tested.descendantMulti, g1, ok_bind, h1, ok_bind, f1, ok_bind]
  exact assert_ok ((hE n k f2 h2).mpr (by rw [f3, h3]))

omit [DecidableEq Cell] in
theorem ancestorMulti (B : Behaves c t ok p fits id) (hA : AncLike c ok p) (hE : EqLike ok p) {cs : List Cell} (g : NonZeroUsize)
    (h : fits cs.length) (h' : fits (cs.take (cs.length - g.val)).length) (hg : g.val ≤ cs.length) :
    t.ancestorMulti c g cs = .ok () := by
  obtain ⟨m, g1, g2, g3⟩ := B.build h'
  obtain ⟨n, f1, f2, f3⟩ := B.build h
  rw [id] at g3 f3
  obtain ⟨a, h1, h2, h3⟩ := hA.yes n f2 g (by rw [f3]; exact hg)
  rw [f3] at h3
  rw [Tested.ancestorMulti]
  simp only [g1, f1, h1, ok_bind]
  exact assert_ok ((hE m a g2 h2).mpr (by rw [g3, h3]))

omit [DecidableEq Cell] in
theorem parentOf (B : Behaves c t ok p fits id) (hA : AncLike c ok p) (hE : EqLike ok p) {cs : List Cell}
    (h : fits cs.length) (h' : fits (cs.take (cs.length - 1)).length) (h0 : 0 < cs.length) : t.parentOf c cs = .ok () := by
  have := B.ancestorMulti hA hE ⟨1, by decide⟩ h h' h0
  unfold Tested.ancestorMulti at this
  unfold Tested.parentOf
  simp only [parent_eq]
  exact this

omit [DecidableEq Cell] in
theorem parentOfRoot (B : Behaves c t ok p fits id) (hA : AncLike c ok p) (h0 : p t.default = []) :
    t.parentOfRoot c = .ok () := by
  rw [Tested.parentOfRoot, parent_eq, hA.no _ B.root _ (by rw [h0]; exact Nat.one_pos)]
  rfl

omit [DecidableEq Cell] in
theorem ancestorToRoot (B : Behaves c t ok p fits id) (hA : AncLike c ok p) (hE : EqLike ok p) (h0 : p t.default = [])
    {cs : List Cell} (g : NonZeroUsize) (h : fits cs.length) (hg : g.val = cs.length) : t.ancestorToRoot c g cs = .ok () := by
  obtain ⟨n, f1, f2, f3⟩ := B.build h
  rw [id] at f3
  obtain ⟨a, h1, h2, h3⟩ := hA.yes n f2 g (by rw [f3, hg]; exact Nat.le_refl _)
  rw [f3, hg, Nat.sub_self, List.take_zero] at h3
  rw [Tested.ancestorToRoot, f1, ok_bind, h1, ok_bind]
  exact assert_ok ((hE _ a B.root h2).mpr (by rw [h0, h3]))

omit [DecidableEq Cell] in
theorem ancestorTooFar (B : Behaves c t ok p fits id) (hA : AncLike c ok p) {cs : List Cell} (g : NonZeroUsize)
    (h : fits cs.length) (hg : cs.length < g.val) : t.ancestorTooFar c g cs = .ok () := by
  obtain ⟨n, f1, f2, f3⟩ := B.build h
  rw [id] at f3
  rw [Tested.ancestorTooFar, f1, ok_bind, hA.no n f2 g (by rw [f3]; exact hg)]
  rfl

end navigation

section conversions
variable [MortonIndex M Cell] [MortonIndex N Cell] {c : Cfg} {src : Tested M Cell} {dst : Tested N Cell} {ok : M → Prop}
  {p : M → List Cell} {fits : Nat → Prop} {pad : List Cell → List Cell} {ok' : N → Prop} {p' : N → List Cell}
  {fits' : Nat → Prop} {pad' : List Cell → List Cell} {convert : M → Res N}

theorem convertPadded (B : Behaves c src ok p fits pad) (B' : Behaves c dst ok' p' fits' pad') {cs padding : List Cell}
    (h : fits cs.length)
    (hv : ∀ m, ok m → p m = pad cs → ∃ n, convert m = .ok n ∧ ok' n ∧ p' n = pad cs ++ padding) :
    src.convertPadded dst convert padding cs = .ok () := by
  obtain ⟨m, h1, h2, h3⟩ := B.build h
  obtain ⟨n, g1, g2, g3⟩ := hv m h2 h3
  rw [Tested.convertPadded]
  simp only [h1, g1, B.cells m h2, B'.cells n g2, ok_bind, h3, g3]
  simp [assertThat]

theorem convertAtDepth (B : Behaves c src ok p fits pad) (B' : Behaves c dst ok' p' fits' pad') {cs : List Cell}
    (h : fits cs.length) {max : Nat} (hm : (pad cs).length = max)
    (hv : ∀ m, ok m → p m = pad cs → ∃ n, convert m = .ok n ∧ ok' n ∧ p' n = pad cs) :
    src.convertAtDepth dst convert max cs = .ok () := by
  obtain ⟨m, h1, h2, h3⟩ := B.build h
  obtain ⟨n, g1, g2, g3⟩ := hv m h2 h3
  rw [Tested.convertAtDepth]
  simp only [h1, g1, B.cells m h2, B'.cells n g2, ok_bind, h3, g3, B'.list.depth_eq n g2, hm]
  simp [assertThat, ok_bind]

theorem convertSameDepth (B : Behaves c src ok p fits pad) (B' : Behaves c dst ok' p' fits' pad') {cs : List Cell}
    (h : fits cs.length)
    (hv : ∀ m, ok m → p m = pad cs → ∃ n, convert m = .ok n ∧ ok' n ∧ p' n = pad cs) :
    src.convertSameDepth dst convert cs = .ok () := by
  obtain ⟨m, h1, h2, h3⟩ := B.build h
  obtain ⟨n, g1, g2, g3⟩ := hv m h2 h3
  rw [Tested.convertSameDepth]
  simp only [h1, g1, B.cells m h2, B'.cells n g2, ok_bind, h3, g3, B'.list.depth_eq n g2, B.list.depth_eq m h2]
  simp [assertThat, ok_bind]

end conversions

section suites

/-- The cells of a fixed depth index made from fewer cells. -/
def padded (max : Nat) (zero : Cell) (cs : List Cell) : List Cell := cs ++ List.replicate (max - cs.length) zero

omit [DecidableEq Cell] in
theorem padded_full {max : Nat} {zero : Cell} {cs : List Cell} (h : cs.length = max) : padded max zero cs = cs := by
  rw [padded, h, Nat.sub_self, List.replicate_zero, List.append_nil]

omit [DecidableEq Cell] in
theorem padded_length {max : Nat} {zero : Cell} {cs : List Cell} (h : cs.length ≤ max) :
    (padded max zero cs).length = max := by
  rw [padded, List.length_append, List.length_replicate]
  omega

omit [DecidableEq Cell] in
theorem padded_getElem {max : Nat} {zero : Cell} {cs : List Cell} {k : Nat} (h : cs.length ≤ k)
    (hk : k < (padded max zero cs).length) : (padded max zero cs)[k] = zero := by
  simp [padded, List.getElem_append, Nat.not_lt.mpr h]

theorem fixed_suite [MortonIndex M Cell] [RustOrd M] [RustOrd Cell] {c : Cfg} {t : Tested M Cell} {ok : M → Prop}
    {p : M → List Cell} {max : Nat} {zero one : Cell} {array : List Cell} {toGrid : M → O → Res G}
    {fromGrid : G → O → Res M} {orderings : List O} {wide : Prop} {key : Cell → Nat}
    (B : Behaves c t ok p (· ≤ max) (padded max zero)) (hE : EqLike ok p) (hC : CmpLike c key ok p) (hc : CellOrder c key)
    (h2 : 2 ≤ max) (harr : array.length ≤ max) (hdef : p t.default = List.replicate max zero)
    (herr : ∀ cs, cs.length > max → ∃ e, t.tryFrom cs = .ok (.error e))
    (hg : wide → ∀ m, ok m → ∀ o,
      ∃ g m', toGrid m o = .ok g ∧ fromGrid g o = .ok m' ∧ ok m' ∧ RustOrd.eq m' m = true) :
    FixedTestsPass c t max zero one array toGrid fromGrid orderings wide where
  default := by
    have hlen : (p t.default).length = max := by rw [hdef, List.length_replicate]
    rw [Tested.fixedDefault, B.list.depth_eq _ B.root, hlen, assert_ok (decide_eq_true rfl), ok_bind]
    refine forRange_unit fun k hk => ?_
    rw [B.list.get _ B.root k (by omega), ok_bind]
    refine assert_ok (decide_eq_true ?_)
    simp [hdef]
  from_cells cs h := B.fromCells (Nat.le_of_eq h) (padded_full h)
  from_array := by
    obtain ⟨m, -, h1, h2, h3⟩ := B.make array harr
    rw [Tested.fixedFromArray, h1, ok_bind, unwrapResult, ok_bind, usub_ok harr, ok_bind, B.cells m h2, ok_bind, h3]
    exact assert_ok (decide_eq_true rfl)
  from_too_many cs h := by
    obtain ⟨e, he⟩ := herr cs (by omega)
    rw [Tested.tooMany, he]
    rfl
  from_fewer cs h := by
    obtain ⟨m, h1, g2, h3⟩ := B.build (cs := cs) (show cs.length ≤ max by omega)
    have hlen : (p m).length = max := by rw [h3, padded_length (by omega)]
    have hz : ∀ k (hk : k < (p m).length), max - 2 ≤ k → (p m)[k] = zero := by
      intro k hk hk'
      have e : (p m)[k]? = some zero := by
        rw [h3, List.getElem?_eq_getElem (by rw [← h3]; exact hk), padded_getElem (by omega)]
      rw [List.getElem?_eq_getElem hk] at e
      exact Option.some.inj e
    rw [Tested.fixedFewer, h1, ok_bind, B.list.depth_eq m g2, hlen, assert_ok (decide_eq_true rfl), ok_bind,
      B.checkCells g2 (by rw [h3]; exact List.prefix_append _ _), ok_bind, B.list.get m g2 (max - 2) (by omega), ok_bind,
      assert_ok (decide_eq_true (hz _ _ (Nat.le_refl _)).symm), ok_bind, B.list.get m g2 (max - 1) (by omega), ok_bind,
      assert_ok (decide_eq_true (hz _ _ (by omega)).symm)]
  set_cell cs h := by
    subst h
    exact setCells B.list B.root (by rw [hdef, List.length_replicate])
  set_cell_oob := B.setOutOfRange (by rw [hdef, List.length_replicate]; exact Nat.le_refl _) one
  cells_iter cs h := B.cellsIter (Nat.le_of_eq h) (padded_full h)
  ordering draws h := B.ordering hC hc fun cs hcs => Nat.le_of_eq (h cs hcs)
  roundtrip hw cs h := B.gridRoundTrip hE (Nat.le_of_eq h) fun m hm _ o => hg hw m hm o
  inverted cs h := B.invertedOnce hE (Nat.le_of_eq h) (padded_full h) (padded_full (by rw [List.length_reverse]; exact h))

theorem static_suite [VariableDepthMortonIndex M Cell] [RustOrd M] [RustOrd Cell] {c : Cfg} {t : Tested M Cell}
    {ok : M → Prop} {p : M → List Cell} {max : Nat} {zero one three : Cell} {array : List Cell} {zeroed : Nat → Option M}
    {split : Nat} {generations : NonZeroUsize} {odd : Nat} {toGrid : M → O → Res G}
    {fromGrid : Nat → G → O → Res (Except Error M)} {orderings : List O} {wide : Prop} {key : Cell → Nat}
    {room : M → Nat → Prop} (B : Behaves c t ok p (· ≤ max) id) (hE : EqLike ok p) (hC : CmpLike c key ok p)
    (hA : AncLike c ok p) (hD : DescLike c ok p room (some max)) (hc : CellOrder c key)
    (hroom : ∀ m n, n ≤ 64 → room m n) (h2 : 2 ≤ max) (hmax : max ≤ 64) (harr : array.length ≤ max) (hgen : generations.val ≤ max)
    (hodd : odd ≤ max) (hdef : p t.default = [])
    (herr : ∀ cs, cs.length > max → ∃ e, t.tryFrom cs = .ok (.error e))
    (hz : ∃ m, zeroed max = some m ∧ ok m ∧ (p m).length = max)
    (hg : wide → ∀ d, d = max ∨ d = odd ∨ d = 1 → ∀ m, ok m → (p m).length = d → ∀ o,
      ∃ g m', toGrid m o = .ok g ∧ fromGrid d g o = .ok (.ok m') ∧ ok m' ∧ RustOrd.eq m' m = true) :
    StaticTestsPass c t max zero one three array zeroed split generations odd toGrid fromGrid orderings wide where
  default := B.emptyDefault hdef
  from_cells cs h := B.fromCells (Nat.le_of_eq h) rfl
  from_array := B.fromArray harr rfl
  from_too_many cs h := by
    obtain ⟨e, he⟩ := herr cs (by omega)
    rw [Tested.tooMany, he]
    rfl
  from_fewer cs h := B.fromCells (show cs.length ≤ max by omega) rfl
  from_just_one cs h := B.fromCells (show cs.length ≤ max by omega) rfl
  set_cell cs h := by
    obtain ⟨m, e1, e2, e3⟩ := hz
    rw [show asU8 max = max from Nat.mod_eq_of_lt (by omega), e1]
    subst h
    exact setCells B.list e2 e3
  set_cell_oob := B.setOutOfRange (by rw [hdef]; exact Nat.le_refl _) one
  cells_iter cs h := B.cellsIter (Nat.le_of_eq h) rfl
  child := B.childOfRoot hD hdef (hroom _ _ (by omega)) (show ¬ max < 1 by omega) three
  child_oob cs h := (B.childTooDeep hD (Nat.le_of_eq h) (fun m _ _ => hroom m 1 (by omega))
    (show max < cs.length + 1 by omega) zero).1
  descendant_multi cs h := B.descendantMulti hD hE (Nat.le_of_eq h)
    (show (cs.take split).length ≤ max by rw [List.length_take]; omega)
    (fun m _ _ => hroom m _ (by rw [List.length_drop]; omega)) (show ¬ max < cs.length by omega)
  descendant_too_far cs h := (B.childTooDeep hD (Nat.le_of_eq h) (fun m _ _ => hroom m 1 (by omega))
    (show max < cs.length + 1 by omega) zero).2
  parent cs h := B.parentOf hA hE (Nat.le_of_eq h) (show (cs.take _).length ≤ max by rw [List.length_take]; omega) (by omega)
  parent_of_root := B.parentOfRoot hA hdef
  ancestor_multi cs h := B.ancestorMulti hA hE generations (Nat.le_of_eq h)
    (show (cs.take _).length ≤ max by rw [List.length_take]; omega) (by omega)
  ancestor_to_root cs h g hg := B.ancestorToRoot hA hE hdef g (Nat.le_of_eq h) (by omega)
  ancestor_too_far cs h g hg := B.ancestorTooFar hA g (Nat.le_of_eq h) (by omega)
  ordering draws h := B.ordering hC hc fun cs hcs => Nat.le_of_lt (h cs hcs)
  roundtrip hw d hd cs h := B.gridRoundTrip hE (show cs.length ≤ max by omega) fun m hm hp o => by
    obtain ⟨g, m', e1, e2, e3, e4⟩ := hg hw d hd m hm (by rw [hp]; exact h) o
    exact ⟨g, m', e1, by rw [e2]; rfl, e3, e4⟩
  inverted draws h := forM_unit draws fun cs hcs => B.invertedOnce hE (h cs hcs) rfl rfl

theorem dynamic_suite [VariableDepthMortonIndex M Cell] [RustOrd M] [RustOrd Cell] {c : Cfg} {t : Tested M Cell}
    {ok okAll : M → Prop} {p : M → List Cell} {one three : Cell} {array : List Cell} {zeroed : Nat → Res M}
    {toGrid : M → O → Res G} {fromGrid : Nat → G → O → Res M} {orderings : List O} {wide : Prop} {key : Cell → Nat}
    {room : M → Nat → Prop} (B : Behaves c t ok p (· ≤ 64) id) (hE : EqLike ok p) (hC : CmpLike c key ok p)
    (hA : AncLike c ok p) (hD : DescLike c ok p room none) (hc : CellOrder c key)
    (hroom : ∀ m n, ok m → (p m).length + n ≤ 64 → room m n) (harr : array.length ≤ 64) (hdef : p t.default = [])
    (hL : ListLike c okAll p id) (hz : ∃ m, zeroed 8 = .ok m ∧ okAll m ∧ (p m).length = 8)
    (hg : wide → ∀ d, d ≤ 32 → ∀ m, ok m → (p m).length = d → ∀ o,
      ∃ g m', toGrid m o = .ok g ∧ fromGrid d g o = .ok m' ∧ ok m' ∧ RustOrd.eq m' m = true) :
    DynamicTestsPass c t one three array zeroed toGrid fromGrid orderings wide where
  default := B.emptyDefault hdef
  from_even cs h := B.fromCells (show cs.length ≤ 64 by omega) rfl
  from_odd cs h := B.fromCells (show cs.length ≤ 64 by omega) rfl
  from_array := B.fromArray harr rfl
  set_cell cs h := by
    obtain ⟨m, e1, e2, e3⟩ := hz
    rw [e1, ← h]
    exact setCells hL e2 (by rw [e3, h])
  set_cell_oob := B.setOutOfRange (by rw [hdef]; exact Nat.le_refl _) one
  cells_iter cs h := B.cellsIter (show cs.length ≤ 64 by omega) rfl
  child := B.childOfRoot hD hdef (hroom _ _ B.root (by rw [hdef]; exact Nat.le_of_ble_eq_true rfl)) (fun h => h) three
  child_at_four_levels cs h := B.childBelow hD (show cs.length ≤ 64 by omega)
    (fun m hm hp => hroom m 1 hm (by rw [hp]; omega)) (fun h => h) three
  descendant_multi cs h := B.descendantMulti hD hE (show cs.length ≤ 64 by omega)
    (show (cs.take 4).length ≤ 64 by rw [List.length_take]; omega)
    (fun m hm hp => hroom m _ hm (by rw [hp, List.length_take, List.length_drop]; omega)) (fun h => h)
  parent_4 cs h := B.parentOf hA hE (show cs.length ≤ 64 by omega)
    (show (cs.take _).length ≤ 64 by rw [List.length_take]; omega) (by omega)
  parent_5 cs h := B.parentOf hA hE (show cs.length ≤ 64 by omega)
    (show (cs.take _).length ≤ 64 by rw [List.length_take]; omega) (by omega)
  parent_of_root := B.parentOfRoot hA hdef
  ancestor_multi cs h := B.ancestorMulti hA hE _ (show cs.length ≤ 64 by omega)
    (show (cs.take _).length ≤ 64 by rw [List.length_take]; omega) (by rw [h]; decide)
  ancestor_to_root cs h := B.ancestorToRoot hA hE hdef _ (show cs.length ≤ 64 by omega) h.symm
  ancestor_too_far cs h := B.ancestorTooFar hA _ (show cs.length ≤ 64 by omega) (by rw [h]; decide)
  ordering draws h := B.ordering hC hc fun cs hcs => (show cs.length ≤ 64 by have := h cs hcs; omega)
  roundtrip hw cs h := B.gridRoundTrip hE (show cs.length ≤ 64 by omega) fun m hm hp o =>
    hg hw 32 (by decide) m hm (by rw [hp]; exact h) o
  roundtrip_odd hw cs h := B.gridRoundTrip hE (show cs.length ≤ 64 by omega) fun m hm hp o =>
    hg hw 29 (by decide) m hm (by rw [hp]; exact h) o
  inverted draws h := forM_unit draws fun cs hcs =>
    B.invertedOnce hE (show cs.length ≤ 64 by have := h cs hcs; omega) rfl rfl

end suites

end Behaves

/-! ## Theorems -/

variable {c : Cfg} {w : Nat}

theorem addressable_small (hc : c.Supported) {n : Nat} (h : n ≤ 64 * 3) : Addressable c n := by
  rcases hc with e | e | e <;> unfold Addressable <;> rw [e] <;> omega

theorem sliceRoom_small (hc : c.Supported) {M : Type} {m : M} {n : Nat} (h : n ≤ 64) : sliceRoom c m n := by
  rcases hc with e | e | e <;> unfold sliceRoom <;> rw [e] <;> omega

/-! ### The 2D types -/

theorem cellOrder2 (c : Cfg) : Behaves.CellOrder c quadrantKey := by
  intro a b
  cases a <;> cases b <;> exact ⟨rfl, rfl⟩

theorem fixed_behaves2 {sc : Scope} (hc : c.Supported) (hw : IntWidth w) :
    Behaves c (testedFixed2 c w) (fun m => Reach2D c sc (.fixed w m)) cells2 (· ≤ w / 2) (Behaves.padded (w / 2) .Zero) where
  list := fixed_list2 hc
  make cs h := by
    obtain ⟨m, h1, h2, -, h4⟩ := MortonIndex2D.fixed_tryFrom (c := c) hc hw h
    exact ⟨m, h1, h2, .fixedTryFromSlice hw h1, h4⟩
  cells m hm := collectCells_ok hc (fixed_wf2 hc m hm) (fixed_depth_lt2 hc m hm)
  root := .fixedDefault w hw

theorem static_behaves2 {sc : Scope} (hc : c.Supported) (hw : IntWidth w) :
    Behaves c (testedStatic2 c w) (fun m => Reach2D c sc (.static w m)) cells2 (· ≤ w / 2) id where
  list := static_list2 hc
  make cs h := by
    obtain ⟨m, h1, h2, -, -, h4⟩ := MortonIndex2D.static_tryFrom (c := c) hc hw h
    exact ⟨m, h1, h2, .staticTryFromSlice hw h1, h4⟩
  cells m hm := collectCells_ok hc (static_wf2 hc m hm) (static_depth_lt2 hc m hm)
  root := .staticDefault w hw

theorem dynamic_behaves2 {sc : Scope} (hc : c.Supported) (hwr : DynWrites c) :
    Behaves c (testedDynamic2 c) (fun m => Reach2D c sc (.dynamic m)) cells2 (· ≤ 64) id where
  list := dynamic_list2 hc hwr
  make cs h := by
    have ha : Addressable c (cs.length * 2) := addressable_small hc (by omega)
    obtain ⟨m, h1, h2, -, -, h4⟩ := MortonIndex2D.dynamic_tryFrom (c := c) hc ha
    exact ⟨m, h1, h2, .dynamicTryFromSlice ha h1, h4 hwr⟩
  cells m hm := collectCells_ok hc (dynamic_wf2 hc m hm) (dynamic_depth_lt2 hc m hm)
  root := .dynamicDefault

/-- `default`, `from_*`, `set_cell*`, `cells_iter`, `ordering`, `roundtrip_grid_index` and `inverted` for the fixed depth
types. -/
theorem C108_fixed_tests_2D (hc : c.Supported) (w : Nat) (hw : IntWidth w) :
    FixedTestsPass c (testedFixed2 c w) (w / 2) .Zero .One [.Three, .Two, .Zero, .One]
      (fun m o => m.toGridIndex c o) (fun g o => MortonIndex2D.fixedFromGridIndex c w g o) [.XY, .YX]
      (w / 2 ≤ c.ptrBits) :=
  Behaves.fixed_suite (fixed_behaves2 (sc := .all) hc hw) (fixed_eq2 hc) (fixed_cmp2 hc) (cellOrder2 c)
    (by rcases hw with rfl | rfl | rfl | rfl | rfl <;> decide) (by rcases hw with rfl | rfl | rfl | rfl | rfl <;> decide)
    ((fixed_list2 (sc := .all) hc).eq_of_shows (.fixedDefault w hw) ((C48_defaults_2D hc).1 w hw))
    (fun _ h => ⟨_, (MortonIndex2D.fixed_tryFrom_error h).1⟩)
    (fun hwide m hm o => by
      obtain ⟨g, m', e1, e2, e3⟩ := ((C21_fixed_grid_2D hc w hw).1 hwide).2 m hm o
      exact ⟨g, m', e1, e2, .fixedFromGrid hw e2, e3⟩)

/-- All tests of `test_static!`. -/
theorem C108_static_tests_2D (hc : c.Supported) (w : Nat) (hw : IntWidth w) :
    StaticTestsPass c (testedStatic2 c w) (w / 2) .Zero .One .Three [.Three, .Two, .Zero, .One]
      (MortonIndex2D.staticZeroed w) (w / 2 - 2) ⟨3, by decide⟩ (w / 2 - 3)
      (fun m o => m.toGridIndex c o) (fun d g o => MortonIndex2D.staticFromGridIndex c w g d o) [.XY, .YX]
      (w / 2 ≤ c.ptrBits) :=
  Behaves.static_suite (static_behaves2 (sc := .all) hc hw) (static_eq2 hc) (static_cmp2 hc) (static_anc2 hc)
    (static_desc2 hc) (cellOrder2 c) (fun _ _ h => sliceRoom_small hc h)
    (by rcases hw with rfl | rfl | rfl | rfl | rfl <;> decide) (by rcases hw with rfl | rfl | rfl | rfl | rfl <;> decide)
    (by rcases hw with rfl | rfl | rfl | rfl | rfl <;> decide) (by rcases hw with rfl | rfl | rfl | rfl | rfl <;> decide)
    (Nat.sub_le _ _) rfl (fun _ h => ⟨_, (MortonIndex2D.static_tryFrom_error h).1⟩)
    (by
      obtain ⟨m, t, e1, e2, -⟩ := (C46_static_zeroed_2D hc w hw (w / 2)).2 (Nat.le_refl _)
      refine ⟨m, e1, .staticZeroed hw e1, ?_⟩
      rw [(static_list2 (sc := .all) hc).eq_of_shows (.staticZeroed hw e1) e2, List.length_replicate])
    (fun hwide d hd m hm hlen o => by
      have hpos : 0 < w / 2 ∧ 3 < w / 2 := by rcases hw with rfl | rfl | rfl | rfl | rfl <;> decide
      obtain ⟨g, m', e1, e2, e3⟩ := ((C24_static_grid_2D_partial hc w hw d).2 (by omega) hwide (.inl (by omega))).2 m hm
        (((static_list2 hc).depth_eq m hm).trans hlen) o
      exact ⟨g, m', e1, e2, .staticFromGrid hw e2, e3⟩)

/-- All tests of `test_dynamic!`. -/
theorem C108_dynamic_tests_2D (hc : c.Supported) (hwr : DynWrites c) :
    DynamicTestsPass c (testedDynamic2 c) .One .Three [.Three, .Two, .Zero, .One]
      (fun d => .ok (MortonIndex2D.dynamicZeroed d)) (fun m o => m.toGridIndex c o)
      (fun d g o => MortonIndex2D.dynamicFromGridIndex c g d o) [.XY, .YX] (c.ptrBits = 64) :=
  Behaves.dynamic_suite (okAll := fun m => Reach2D c .all (.dynamic m)) (dynamic_behaves2 (sc := .canonical) hc hwr)
    (dynamic_eq2 hc) (dynamic_cmp2 hc) (dynamic_anc2 hc) (dynamic_desc2 hc hwr) (cellOrder2 c)
    (fun m n hm h => addressable_small hc (by rw [(dynamic_list2 hc hwr).depth_eq m hm]; omega)) (by decide) rfl
    (dynamic_list2 hc hwr)
    (by
      have ha : Addressable c (8 * 2) := addressable_small hc (by decide)
      have hr : Reach2D c .all (.dynamic (MortonIndex2D.dynamicZeroed 8)) := .dynamicZeroed ha (.inl rfl)
      refine ⟨_, rfl, hr, ?_⟩
      rw [(dynamic_list2 hc hwr).eq_of_shows hr (C46_dynamic_zeroed_2D_partial hc hwr 8 ha).1, List.length_replicate])
    (fun h64 d hd m hm hlen o => by
      obtain ⟨g, m', e1, e2, e3⟩ := ((C26_dynamic_grid_2D hc d).2 (by rw [h64]; exact hd)).2 m hm
        (((dynamic_list2 hc hwr).depth_eq m hm).trans hlen) o
      exact ⟨g, m', e1, e2, .dynamicFromGrid e2, e3⟩)

/-- All tests of `test_conversions!`. -/
theorem C108_conversion_tests_2D (hc : c.Supported) (hle : c.bigEndian = false) (w : Nat) (hw : IntWidth w) :
    ConversionTestsPass (w / 2) .Zero (w / 2 / 2) 3 (testedFixed2 c w) (testedStatic2 c w) (testedDynamic2 c)
      MortonIndex2D.fixedToStatic (MortonIndex2D.fixedToDynamic c) MortonIndex2D.staticToFixed
      (MortonIndex2D.staticToDynamic c) (MortonIndex2D.dynamicToFixed c w) (MortonIndex2D.dynamicToStatic c w) := by
  have hwr : DynWrites c := .inl hle
  have F := fixed_behaves2 (sc := .canonical) hc hw
  have S := static_behaves2 (sc := .canonical) hc hw
  have D := dynamic_behaves2 (sc := .canonical) hc hwr
  have h64 : w / 2 ≤ 64 := by rcases hw with rfl | rfl | rfl | rfl | rfl <;> decide
  have hbytes : (w / 2 * 2 + 7) / 8 = w / 8 ∧ ((w / 2 - 3) * 2 + 7) / 8 = w / 8 ∧ w / 2 - (w / 2 - 3) = 3 := by
    rcases hw with rfl | rfl | rfl | rfl | rfl <;> decide
  have sf : ∀ cs m, Reach2D c .canonical (.static w m) → cells2 m = id cs → ∃ n,
      (Except.ok (MortonIndex2D.staticToFixed m) : Res _) = .ok n ∧ Reach2D c .canonical (.fixed w n) ∧
        cells2 n = id cs ++ List.replicate (w / 2 - cs.length) .Zero := by
    intro cs m hm hp
    have e := (MortonIndex2D.staticToFixed_ok hw (static_wf2 hc m hm)).2 (reach2D_good hc hm).2
    have hd : Storage.depth m.storage = cs.length := by rw [← path_length m.storage]; exact congrArg List.length hp
    refine ⟨_, rfl, .staticToFixed hm, ?_⟩
    rw [cells2, e.2, hd]
    exact congrArg (· ++ _) hp
  have sd : ∀ cs m, Reach2D c .canonical (.static w m) → cells2 m = id cs → ∃ n,
      MortonIndex2D.staticToDynamic c m = .ok n ∧ Reach2D c .canonical (.dynamic n) ∧ cells2 n = id cs := by
    intro cs m hm hp
    obtain ⟨n, e1, -, -, e4⟩ := MortonIndex2D.staticToDynamic_ok hc (static_wf2 hc m hm)
    exact ⟨n, e1, .staticToDynamic hm e1, (e4 hwr).trans hp⟩
  have df : ∀ cs m, (cs.length * 2 + 7) / 8 = w / 8 → cs.length ≤ w / 2 →
      Reach2D c .canonical (.dynamic m) → cells2 m = id cs → ∃ n,
      unwrapResult (MortonIndex2D.dynamicToFixed c w m) = .ok n ∧ Reach2D c .canonical (.fixed w n) ∧
        cells2 n = id cs ++ List.replicate (w / 2 - cs.length) .Zero := by
    intro cs m hb hl hm hp
    have hd : depth m = cs.length := (D.list.depth_eq m hm).trans (congrArg List.length hp)
    obtain ⟨as, ds, f, e1, e2, e3, e4⟩ := (C33_dynamic_to_fixed_2D_partial hc w hw m hm).2 (by omega) hle
    have ea : as = cs := (D.list.eq_of_shows hm e1).symm.trans hp
    subst ea
    have hf : Reach2D c .canonical (.fixed w f) := .dynamicToFixed hw hm e2
    exact ⟨f, by rw [e2]; rfl, hf, (F.list.eq_of_shows hf e3).trans (e4.mpr (.inl hb))⟩
  have ds : ∀ cs m, cs.length ≤ w / 2 → Reach2D c .canonical (.dynamic m) → cells2 m = id cs → ∃ n,
      (do unwrapResult (← MortonIndex2D.dynamicToStatic c w m)) = .ok n ∧ Reach2D c .canonical (.static w n) ∧
        cells2 n = id cs := by
    intro cs m hl hm hp
    have hd : depth m = cs.length := (D.list.depth_eq m hm).trans (congrArg List.length hp)
    obtain ⟨n, e1, -, -, e4⟩ := MortonIndex2D.dynamicToStatic_ok hc hw (dynamic_wf2 hc m hm) (by rw [← hd] at hl; exact hl)
    exact ⟨n, by rw [e1]; rfl, .dynamicToStatic hw hm e1, e4.trans hp⟩
  refine ⟨fun cs h => ?_, fun cs h => ?_, fun cs h => ?_, fun cs h => ?_, fun cs h => ?_, fun cs h => ?_, fun cs h => ?_,
    fun cs h => ?_, fun cs h => ?_, fun cs h => ?_⟩
  · exact F.convertAtDepth S (Nat.le_of_eq h) (Behaves.padded_length (Nat.le_of_eq h)) fun m hm hp =>
      ⟨_, rfl, .fixedToStatic hm, ((MortonIndex2D.fixedToStatic_ok (c := c) hw m).2.1).trans hp⟩
  · exact F.convertAtDepth D (Nat.le_of_eq h) (Behaves.padded_length (Nat.le_of_eq h)) fun m hm hp =>
      ⟨_, rfl, .fixedToDynamic hm, ((MortonIndex2D.fixedToDynamic_ok hc hw m).2.1).trans hp⟩
  · refine S.convertPadded F (Nat.le_of_eq h) fun m hm hp => ?_
    have := sf cs m hm hp
    rwa [h, Nat.sub_self] at this
  · refine S.convertPadded F (show cs.length ≤ w / 2 by omega) fun m hm hp => ?_
    have := sf cs m hm hp
    rwa [h, show w / 2 - w / 2 / 2 = w / 2 / 2 by rcases hw with rfl | rfl | rfl | rfl | rfl <;> decide] at this
  · exact S.convertSameDepth D (Nat.le_of_eq h) fun m hm hp => sd cs m hm hp
  · exact S.convertSameDepth D (show cs.length ≤ w / 2 by omega) fun m hm hp => sd cs m hm hp
  · refine D.convertPadded F (show cs.length ≤ 64 by omega) fun m hm hp => ?_
    have := df cs m (by rw [h]; exact hbytes.1) (by omega) hm hp
    rwa [h, Nat.sub_self] at this
  · refine D.convertPadded F (show cs.length ≤ 64 by omega) fun m hm hp => ?_
    have := df cs m (by rw [h]; exact hbytes.2.1) (by omega) hm hp
    rwa [h, hbytes.2.2] at this
  · exact D.convertSameDepth S (show cs.length ≤ 64 by omega) fun m hm hp => ds cs m (by omega) hm hp
  · exact D.convertSameDepth S (show cs.length ≤ 64 by omega) fun m hm hp => ds cs m (by omega) hm hp

/-! ### The 3D types -/

theorem cellOrder3 (c : Cfg) : Behaves.CellOrder c octantKey := by
  intro a b
  cases a <;> cases b <;> exact ⟨rfl, rfl⟩

theorem fixed_behaves3 {sc : Scope} (hc : c.Supported) (hw : IntWidth w) :
    Behaves c (testedFixed3 c w) (fun m => Reach3D c sc (.fixed w m)) cells3 (· ≤ w / 3) (Behaves.padded (w / 3) .Zero) where
  list := fixed_list3 hc
  make cs h := by
    obtain ⟨m, h1, h2, -, h4⟩ := MortonIndex3D.fixed_tryFrom (c := c) hc hw h
    exact ⟨m, h1, h2, .fixedTryFromSlice hw h1, h4⟩
  cells m hm := collectCells_ok hc (fixed_wf3 hc m hm) (fixed_depth_lt3 hc m hm)
  root := .fixedDefault w hw

theorem static_behaves3 {sc : Scope} (hc : c.Supported) (hw : IntWidth w) :
    Behaves c (testedStatic3 c w) (fun m => Reach3D c sc (.static w m)) cells3 (· ≤ w / 3) id where
  list := static_list3 hc
  make cs h := by
    obtain ⟨m, h1, h2, -, -, h4⟩ := MortonIndex3D.static_tryFrom (c := c) hc hw h
    exact ⟨m, h1, h2, .staticTryFromSlice hw h1, h4⟩
  cells m hm := collectCells_ok hc (static_wf3 hc m hm) (static_depth_lt3 hc m hm)
  root := .staticDefault w hw

theorem dynamic_behaves3 {sc : Scope} (hc : c.Supported) (hwr : DynWrites c) :
    Behaves c (testedDynamic3 c) (fun m => Reach3D c sc (.dynamic m)) cells3 (· ≤ 64) id where
  list := dynamic_list3 hc hwr
  make cs h := by
    have ha : Addressable c (cs.length * 3) := addressable_small hc (by omega)
    obtain ⟨m, h1, h2, -, -, h4⟩ := MortonIndex3D.dynamic_tryFrom (c := c) hc ha
    exact ⟨m, h1, h2, .dynamicTryFromSlice ha h1, h4 hwr⟩
  cells m hm := collectCells_ok hc (dynamic_wf3 hc m hm) (dynamic_depth_lt3 hc m hm)
  root := .dynamicDefault

/-- `default`, `from_*`, `set_cell*`, `cells_iter`, `ordering`, `roundtrip_grid_index` and `inverted` for the fixed depth
types. -/
theorem C108_fixed_tests_3D (hc : c.Supported) (w : Nat) (hw : IntWidth w) :
    FixedTestsPass c (testedFixed3 c w) (w / 3) .Zero .One [.Three, .Two]
      (fun m o => m.toGridIndex c o) (fun g o => MortonIndex3D.fixedFromGridIndex c w g o) [.XYZ, .XZY, .YXZ, .YZX, .ZXY, .ZYX]
      (32 ≤ c.ptrBits ∧ w / 3 < c.ptrBits) :=
  Behaves.fixed_suite (fixed_behaves3 (sc := .canonical) hc hw) (fixed_eq3 hc) (fixed_cmp3 hc) (cellOrder3 c)
    (by rcases hw with rfl | rfl | rfl | rfl | rfl <;> decide) (by rcases hw with rfl | rfl | rfl | rfl | rfl <;> decide)
    ((fixed_list3 (sc := .all) hc).eq_of_shows (.fixedDefault w hw) ((C48_defaults_3D hc).1 w hw))
    (fun _ h => ⟨_, (MortonIndex3D.fixed_tryFrom_error h).1⟩)
    (fun hwide m hm o => by
      obtain ⟨g, m', e1, e2, e3⟩ := ((C22_fixed_grid_3D hc hwide.1 w hw).1 hwide.2).2 m hm o
      exact ⟨g, m', e1, e2, .fixedFromGrid hw e2, e3⟩)

/-- All tests of `test_static!`. -/
theorem C108_static_tests_3D (hc : c.Supported) (w : Nat) (hw : IntWidth w) :
    StaticTestsPass c (testedStatic3 c w) (w / 3) .Zero .One .Three [.Three, .Two]
      (MortonIndex3D.staticZeroed w) (w / 3 - 1) ⟨1, by decide⟩ (w / 3 - 1)
      (fun m o => m.toGridIndex c o) (fun d g o => MortonIndex3D.staticFromGridIndex c w g d o) [.XYZ, .XZY, .YXZ, .YZX, .ZXY, .ZYX]
      (w / 3 ≤ c.ptrBits) :=
  Behaves.static_suite (static_behaves3 (sc := .canonical) hc hw) (static_eq3 hc) (static_cmp3 hc) (static_anc3 hc)
    (static_desc3 hc) (cellOrder3 c) (fun _ _ h => sliceRoom_small hc h)
    (by rcases hw with rfl | rfl | rfl | rfl | rfl <;> decide) (by rcases hw with rfl | rfl | rfl | rfl | rfl <;> decide)
    (by rcases hw with rfl | rfl | rfl | rfl | rfl <;> decide) (by rcases hw with rfl | rfl | rfl | rfl | rfl <;> decide)
    (Nat.sub_le _ _) rfl (fun _ h => ⟨_, (MortonIndex3D.static_tryFrom_error h).1⟩)
    (by
      obtain ⟨m, t, e1, e2, -⟩ := (C46_static_zeroed_3D hc w hw (w / 3)).2 (Nat.le_refl _)
      refine ⟨m, e1, .staticZeroed hw e1, ?_⟩
      rw [(static_list3 (sc := .all) hc).eq_of_shows (.staticZeroed hw e1) e2, List.length_replicate])
    (fun hwide d hd m hm hlen o => by
      have hpos : 0 < w / 3 ∧ StaticGridExact w (w / 3) ∧ StaticGridExact w (w / 3 - 1) ∧ StaticGridExact w 1 := by rcases hw with rfl | rfl | rfl | rfl | rfl <;> decide
      obtain ⟨g, m', e1, e2, e3⟩ := ((C25_static_grid_3D_partial hc w hw d).2 (by omega) hwide (.inr (by rcases hd with rfl | rfl | rfl <;> simp only [hpos]))).2 m hm
        (((static_list3 hc).depth_eq m hm).trans hlen) o
      exact ⟨g, m', e1, e2, .staticFromGrid hw e2, e3⟩)

/-- All tests of `test_dynamic!`. -/
theorem C108_dynamic_tests_3D (hc : c.Supported) (hwr : DynWrites c) :
    DynamicTestsPass c (testedDynamic3 c) .One .Three [.Three, .Two]
      (MortonIndex3D.dynamicZeroed c) (fun m o => m.toGridIndex c o)
      (fun d g o => MortonIndex3D.dynamicFromGridIndex c g d o) [.XYZ, .XZY, .YXZ, .YZX, .ZXY, .ZYX] (c.ptrBits = 64) :=
  Behaves.dynamic_suite (okAll := fun m => Reach3D c .all (.dynamic m)) (dynamic_behaves3 (sc := .canonical) hc hwr)
    (dynamic_eq3 hc) (dynamic_cmp3 hc) (dynamic_anc3 hc) (dynamic_desc3 hc hwr) (cellOrder3 c)
    (fun m n hm h => addressable_small hc (by rw [(dynamic_list3 hc hwr).depth_eq m hm]; omega)) (by decide) rfl
    (dynamic_list3 hc hwr)
    (by
      have ha : Addressable c (8 * 3) := addressable_small hc (by decide)
      obtain ⟨m, t, e1, e2, -⟩ := C46_dynamic_zeroed_3D hc hwr 8 ha
      refine ⟨m, e1, .dynamicZeroed ha e1, ?_⟩
      rw [(dynamic_list3 hc hwr).eq_of_shows (.dynamicZeroed (sc := .all) ha e1) e2, List.length_replicate])
    (fun h64 d hd m hm hlen o => by
      obtain ⟨g, m', e1, e2, e3⟩ := ((C26_dynamic_grid_3D hc d).2 (by rw [h64]; exact hd) hwr).2 m hm
        (((dynamic_list3 hc hwr).depth_eq m hm).trans hlen) o
      exact ⟨g, m', e1, e2, .dynamicFromGrid e2, e3⟩)

/-- All tests of `test_conversions!`. -/
theorem C108_conversion_tests_3D (hc : c.Supported) (hle : c.bigEndian = false) (w : Nat) (hw : IntWidth w) :
    ConversionTestsPass (w / 3) .Zero ((w / 3 + 1) / 2) 1 (testedFixed3 c w) (testedStatic3 c w) (testedDynamic3 c)
      MortonIndex3D.fixedToStatic (MortonIndex3D.fixedToDynamic c) MortonIndex3D.staticToFixed
      (MortonIndex3D.staticToDynamic c) (MortonIndex3D.dynamicToFixed c w) (MortonIndex3D.dynamicToStatic c w) := by
  have hwr : DynWrites c := .inl hle
  have F := fixed_behaves3 (sc := .canonical) hc hw
  have S := static_behaves3 (sc := .canonical) hc hw
  have D := dynamic_behaves3 (sc := .canonical) hc hwr
  have h64 : w / 3 ≤ 64 := by rcases hw with rfl | rfl | rfl | rfl | rfl <;> decide
  have hbytes : (w / 3 * 3 + 7) / 8 = w / 8 ∧ ((w / 3 - 1) * 3 + 7) / 8 = w / 8 ∧ w / 3 - (w / 3 - 1) = 1 := by
    rcases hw with rfl | rfl | rfl | rfl | rfl <;> decide
  have htail : w % 3 ≤ (8 - w / 3 * 3 % 8) % 8 ∧ w % 3 ≤ (8 - (w / 3 - 1) * 3 % 8) % 8 := by
    rcases hw with rfl | rfl | rfl | rfl | rfl <;> decide
  have sf : ∀ cs m, Reach3D c .canonical (.static w m) → cells3 m = id cs → ∃ n,
      (Except.ok (MortonIndex3D.staticToFixed m) : Res _) = .ok n ∧ Reach3D c .canonical (.fixed w n) ∧
        cells3 n = id cs ++ List.replicate (w / 3 - cs.length) .Zero := by
    intro cs m hm hp
    have e := (MortonIndex3D.staticToFixed_ok hw (static_wf3 hc m hm)).2 ((reach3D_good hc hm).2 rfl)
    have hd : Storage.depth m.storage = cs.length := by rw [← path_length m.storage]; exact congrArg List.length hp
    refine ⟨_, rfl, .staticToFixed hm, ?_⟩
    rw [cells3, e.2, hd]
    exact congrArg (· ++ _) hp
  have sd : ∀ cs m, Reach3D c .canonical (.static w m) → cells3 m = id cs → ∃ n,
      MortonIndex3D.staticToDynamic c m = .ok n ∧ Reach3D c .canonical (.dynamic n) ∧ cells3 n = id cs := by
    intro cs m hm hp
    obtain ⟨n, e1, -, -, e4⟩ := MortonIndex3D.staticToDynamic_ok hc (static_wf3 hc m hm)
    exact ⟨n, e1, .staticToDynamic hm e1, (e4 hwr).trans hp⟩
  have df : ∀ cs m, (cs.length * 3 + 7) / 8 = w / 8 → w % 3 ≤ (8 - cs.length * 3 % 8) % 8 → cs.length ≤ w / 3 →
      Reach3D c .canonical (.dynamic m) → cells3 m = id cs → ∃ n,
      unwrapResult (MortonIndex3D.dynamicToFixed c w m) = .ok n ∧ Reach3D c .canonical (.fixed w n) ∧
        cells3 n = id cs ++ List.replicate (w / 3 - cs.length) .Zero := by
    intro cs m hb ht hl hm hp
    have hd : depth m = cs.length := (D.list.depth_eq m hm).trans (congrArg List.length hp)
    obtain ⟨as, ds, f, e1, e2, e3, e4⟩ := (C33_dynamic_to_fixed_3D_partial hc w hw m hm).2 (by omega) hle
    have ea : as = cs := (D.list.eq_of_shows hm e1).symm.trans hp
    subst ea
    have hf : Reach3D c .canonical (.fixed w f) := .dynamicToFixed hw hm (.inr ⟨hle, by rw [hd]; exact ht⟩) e2
    exact ⟨f, by rw [e2]; rfl, hf, (F.list.eq_of_shows hf e3).trans (e4.mpr (.inl hb))⟩
  have ds : ∀ cs m, cs.length ≤ w / 3 → Reach3D c .canonical (.dynamic m) → cells3 m = id cs → ∃ n,
      (do unwrapResult (← MortonIndex3D.dynamicToStatic c w m)) = .ok n ∧ Reach3D c .canonical (.static w n) ∧
        cells3 n = id cs := by
    intro cs m hl hm hp
    have hd : depth m = cs.length := (D.list.depth_eq m hm).trans (congrArg List.length hp)
    obtain ⟨n, e1, -, -, e4⟩ := MortonIndex3D.dynamicToStatic_ok hc hw (dynamic_wf3 hc m hm) (by rw [← hd] at hl; exact hl)
    exact ⟨n, by rw [e1]; rfl, .dynamicToStatic hw hm e1, e4.trans hp⟩
  refine ⟨fun cs h => ?_, fun cs h => ?_, fun cs h => ?_, fun cs h => ?_, fun cs h => ?_, fun cs h => ?_, fun cs h => ?_,
    fun cs h => ?_, fun cs h => ?_, fun cs h => ?_⟩
  · exact F.convertAtDepth S (Nat.le_of_eq h) (Behaves.padded_length (Nat.le_of_eq h)) fun m hm hp =>
      ⟨_, rfl, .fixedToStatic hm, ((MortonIndex3D.fixedToStatic_ok (c := c) hw m).2.1).trans hp⟩
  · exact F.convertAtDepth D (Nat.le_of_eq h) (Behaves.padded_length (Nat.le_of_eq h)) fun m hm hp =>
      ⟨_, rfl, .fixedToDynamic hm, ((MortonIndex3D.fixedToDynamic_ok hc hw m).2.1).trans hp⟩
  · refine S.convertPadded F (Nat.le_of_eq h) fun m hm hp => ?_
    have := sf cs m hm hp
    rwa [h, Nat.sub_self] at this
  · refine S.convertPadded F (show cs.length ≤ w / 3 by omega) fun m hm hp => ?_
    have := sf cs m hm hp
    rwa [h, show w / 3 - w / 3 / 2 = (w / 3 + 1) / 2 by rcases hw with rfl | rfl | rfl | rfl | rfl <;> decide] at this
  · exact S.convertSameDepth D (Nat.le_of_eq h) fun m hm hp => sd cs m hm hp
  · exact S.convertSameDepth D (show cs.length ≤ w / 3 by omega) fun m hm hp => sd cs m hm hp
  · refine D.convertPadded F (show cs.length ≤ 64 by omega) fun m hm hp => ?_
    have := df cs m (by rw [h]; exact hbytes.1) (by rw [h]; exact htail.1) (by omega) hm hp
    rwa [h, Nat.sub_self] at this
  · refine D.convertPadded F (show cs.length ≤ 64 by omega) fun m hm hp => ?_
    have := df cs m (by rw [h]; exact hbytes.2.1) (by rw [h]; exact htail.2) (by omega) hm hp
    rwa [h, hbytes.2.2] at this
  · exact D.convertSameDepth S (show cs.length ≤ 64 by omega) fun m hm hp => ds cs m (by omega) hm hp
  · exact D.convertSameDepth S (show cs.length ≤ 64 by omega) fun m hm hp => ds cs m (by omega) hm hp

/-! ### Where the tests fail -/

omit [DecidableEq Cell] in
theorem gridRoundTrip_fails [RustOrd M] {t : Tested M Cell} {toGrid : M → O → Res G} {fromGrid : G → O → Res M} {o : O}
    {os : List O} (h : ∀ g o, ∃ e, fromGrid g o = .error e) (cs : List Cell) :
    t.gridRoundTrip toGrid fromGrid (o :: os) cs ≠ .ok () := by
  rw [Tested.gridRoundTrip]
  cases t.build cs with
  | error e => exact fun h => nomatch h
  | ok m =>
    have : ∃ e, (toGrid m o >>= fun g => fromGrid g o >>= fun r => assertThat (RustOrd.eq m r)) = .error e := by
      cases toGrid m o with
      | error e => exact ⟨e, rfl⟩
      | ok g =>
        obtain ⟨e, he⟩ := h g o
        exact ⟨e, by rw [ok_bind, he]; rfl⟩
    obtain ⟨e, he⟩ := this
    show ((toGrid m o >>= fun g => fromGrid g o >>= fun r => assertThat (RustOrd.eq m r)) >>= fun _ => os.forM _) ≠ .ok ()
    rw [he]
    exact fun h => nomatch h

/-- Pointer width is needed: on narrower targets the grid tests fail whatever they draw. -/
theorem C108_narrow_targets_2D (hc : c.Supported) :
    (∀ w, IntWidth w → w / 2 > c.ptrBits → ∀ cs, (testedFixed2 c w).gridRoundTrip (fun m o => m.toGridIndex c o)
      (fun g o => MortonIndex2D.fixedFromGridIndex c w g o) [.XY, .YX] cs ≠ .ok ()) ∧
    (c.ptrBits ≠ 64 → ∀ cs, (testedDynamic2 c).gridRoundTrip (fun m o => m.toGridIndex c o)
      (fun g o => MortonIndex2D.dynamicFromGridIndex c g 32 o) [.XY, .YX] cs ≠ .ok ()) := by
  refine ⟨fun w hw h cs => gridRoundTrip_fails (fun g o => ⟨_, (C21_fixed_grid_2D hc w hw).2 h g o⟩) cs,
    fun h cs => gridRoundTrip_fails (fun g o => ⟨_, (C26_dynamic_grid_2D hc 32).1 ?_ g o⟩) cs⟩
  rcases hc with e | e | e <;> omega

theorem C108_narrow_targets_3D (hc : c.Supported) :
    (∀ w, IntWidth w → 32 ≤ c.ptrBits → w / 3 ≥ c.ptrBits → ∀ cs, (testedFixed3 c w).gridRoundTrip
      (fun m o => m.toGridIndex c o) (fun g o => MortonIndex3D.fixedFromGridIndex c w g o)
      [.XYZ, .XZY, .YXZ, .YZX, .ZXY, .ZYX] cs ≠ .ok ()) ∧
    (c.ptrBits ≠ 64 → ∀ cs, (testedDynamic3 c).gridRoundTrip (fun m o => m.toGridIndex c o)
      (fun g o => MortonIndex3D.dynamicFromGridIndex c g 32 o) [.XYZ, .XZY, .YXZ, .YZX, .ZXY, .ZYX] cs ≠ .ok ()) := by
  refine ⟨fun w hw h32 h cs => gridRoundTrip_fails (fun g o => ⟨_, (C22_fixed_grid_3D hc h32 w hw).2 h g o⟩) cs,
    fun h cs => gridRoundTrip_fails (fun g o => ⟨_, (C26_dynamic_grid_3D hc 32).1 ?_ g o⟩) cs⟩
  rcases hc with e | e | e <;> omega

/-- Little endian is needed: `from_even_number_of_quadrants` and `from_even_number_of_octants` of the dynamic types fail
on a big endian target for some draws. -/
theorem C108_big_endian_refuted :
    (¬ ∀ cs, cs.length = 8 → (testedDynamic2 be64).fromCells be64 cs = .ok ()) ∧
    (¬ ∀ cs, cs.length = 8 → (testedDynamic3 be64).fromCells be64 cs = .ok ()) := by
  refine ⟨fun h => ?_, fun h => ?_⟩
  · have := h [.Zero, .One, .Two, .Three, .Three, .Two, .One, .Zero] rfl
    revert this
    decide +kernel
  · have := h [.Zero, .One, .Two, .Three, .Three, .Two, .One, .Zero] rfl
    revert this
    decide +kernel

/-! ### Concrete draws -/

example : (testedFixed2 x64 8).fromCells x64 [.Three, .One, .Zero, .Two] = .ok () :=
  (C108_fixed_tests_2D x64_supported 8 (by decide)).from_cells _ rfl

example : (testedFixed3 x64 8).fixedFewer x64 2 .Zero [] = .ok () :=
  (C108_fixed_tests_3D x64_supported 8 (by decide)).from_fewer _ rfl

example : (testedStatic2 x64 8).OrderingPasses x64 [[.Three, .One], [], [.Zero, .Two, .Two], [.Three]] :=
  (C108_static_tests_2D x64_supported 8 (by decide)).ordering _ (by decide)

example : (testedStatic3 x64 16).ancestorToRoot x64 ⟨5, by decide⟩ [.Three, .One, .Zero, .Two, .Two] = .ok () :=
  (C108_static_tests_3D x64_supported 16 (by decide)).ancestor_to_root _ rfl _ rfl

example : (testedDynamic2 x64).descendantMulti x64 4 [.Three, .One, .Zero, .Two, .Two, .One] = .ok () :=
  (C108_dynamic_tests_2D x64_supported x64_writes).descendant_multi _ rfl

example : (testedDynamic3 x64).gridRoundTrip (fun m o => m.toGridIndex x64 o)
    (fun g o => MortonIndex3D.dynamicFromGridIndex x64 g 29 o) [.XYZ, .XZY, .YXZ, .YZX, .ZXY, .ZYX]
    (List.replicate 28 .Three ++ [.One]) = .ok () :=
  (C108_dynamic_tests_3D x64_supported x64_writes).roundtrip_odd rfl _ rfl

example : (testedDynamic2 x64).convertPadded (testedFixed2 x64 8)
    (fun m => unwrapResult (MortonIndex2D.dynamicToFixed x64 8 m)) [.Zero, .Zero, .Zero] [.Two] = .ok () :=
  (C108_conversion_tests_2D x64_supported rfl 8 (by decide)).dynamic_to_fixed_fewer _ rfl

example : (testedDynamic3 x64).convertPadded (testedFixed3 x64 16)
    (fun m => unwrapResult (MortonIndex3D.dynamicToFixed x64 16 m)) [.Zero] [.Two, .One, .Three, .Zero] = .ok () :=
  (C108_conversion_tests_3D x64_supported rfl 16 (by decide)).dynamic_to_fixed_fewer _ rfl

example : (testedDynamic2 x32r).gridRoundTrip (fun m o => m.toGridIndex x32r o)
    (fun g o => MortonIndex2D.dynamicFromGridIndex x32r g 32 o) [.XY, .YX] (List.replicate 32 .One) ≠ .ok () :=
  (C108_narrow_targets_2D x32r_supported).2 (by decide) _

end MortonRs
