import Verif.Props.Programs
import Verif.Props.Strings
import Verif.Props.Deep2D
import Verif.Props.Conv2D
import Verif.Props.Laws2D

/-! # Programs over all 2D index types (C82) -/

namespace MortonRs

open BitStorage MortonIndex VariableDepthMortonIndex

variable {c : Cfg} {sc : Scope}

/-! ## What the calls mean -/

/-- The quadrant with the given coordinates. -/
def quadrantAt (o : QuadrantOrdering) (x y : Bool) : Quadrant :=
  ([Quadrant.Zero, .One, .Two, .Three].find? fun q => quadrantX o q = x ∧ quadrantY o q = y).getD .Zero

/-- 2D, for coordinates of `W` bits. Level `l` of the path of depth `d` of a grid position belongs to bit `d - 1 - l` of
its coordinates. -/
def ideal2D (W : Nat) : Ideal Quadrant QuadrantOrdering (Vector2 W) where
  dim := 2
  zero := .Zero
  key := quadrantKey
  toGrid o cs := ⟨BitVec.ofNat W (binary (cs.map (quadrantX o))), BitVec.ofNat W (binary (cs.map (quadrantY o)))⟩
  atGrid o g d := (List.range d).map fun l => quadrantAt o (g.x.toNat.testBit (d - 1 - l)) (g.y.toNat.testBit (d - 1 - l))
  gridLimit := W / 2
  fastWidth := none
  rawCells := none
  text
    | .CellConcatenation, cs => String.ofList (cs.map quadrantDigit)
    | .CellConcatenationWithRoot, cs => "r" ++ String.ofList (cs.map quadrantDigit)
    | .GridIndex, cs => Nat.repr cs.length ++ "-" ++ Nat.repr (binary (cs.map (quadrantX .XY))) ++ "-" ++
        Nat.repr (binary (cs.map (quadrantY .XY)))

/-- Where `from_grid_index` works: the coordinates have enough bits for the deepest level of the type (C21, C24), or the
static constructor reports that the depth is too great. For dynamic indices always (C26). -/
def gridWorks2D (c : Cfg) : Kind → Nat → Prop
  | .fixed w, _ => w / 2 ≤ c.ptrBits
  | .static w, d => d ≤ w / 2 → w / 2 ≤ c.ptrBits ∧ (w / 2 - d < c.ptrBits ∨ c.overflowChecks = false)
  | .dynamic, _ => True

/-- The rules for programs in one of the scopes of `Verif/History.lean`. With stray bits (`.all`), dynamic indices are not compared with
`==` nor converted to fixed-depth ones. -/
def rules2D (c : Cfg) (sc : Scope) : Rules where
  works := gridWorks2D c
  clean d := sc = .all ∨ d % 4 ≠ 0
  raw _ := True
  eqs k := k = .dynamic → sc = .canonical
  cmps _ := True
  toFixed k := k = .dynamic → sc = .canonical

/-! ## The calls on indices -/

namespace Program2D

abbrev S2 (c : Cfg) := Seen Quadrant (Vector2 c.ptrBits) × List AnyIndex2D

def default : Kind → AnyIndex2D
  | .fixed w => .fixed w ⟨FixedDepthStorage2D.default w⟩
  | .static w => .static w ⟨StaticStorage2D.default w⟩
  | .dynamic => .dynamic ⟨DynamicStorage2D.default⟩

def tryFromSlice (c : Cfg) (k : Kind) (cs : List Quadrant) : S2 c :=
  match k with
  | .fixed w => seenResult (.fixed w) (MortonIndex2D.tryFromSlice c cs)
  | .static w => seenResult (.static w) (MortonIndex2D.tryFromSlice c cs)
  | .dynamic => seenResult .dynamic (MortonIndex2D.tryFromSlice c cs)

def tryFromArray (c : Cfg) (k : Kind) (cs : List Quadrant) : S2 c :=
  match k with
  | .fixed w => seenResult (.fixed w) (MortonIndex2D.tryFromArray c cs)
  | .static w => seenResult (.static w) (MortonIndex2D.tryFromArray c cs)
  | .dynamic => seenResult .dynamic (MortonIndex2D.tryFromArray c cs)

def zeroed (c : Cfg) (k : Kind) (d : Nat) : S2 c :=
  match k with
  | .fixed _ => (.notOffered, [])
  | .static w => seenOption (.static w) (MortonIndex2D.staticZeroed w d)
  | .dynamic => (.obs .index, [.dynamic (MortonIndex2D.dynamicZeroed d)])

def fromGrid (c : Cfg) (k : Kind) (g : Vector2 c.ptrBits) (d : Nat) (o : QuadrantOrdering) : S2 c :=
  match k with
  | .fixed w => seenIndex (.fixed w) (MortonIndex2D.fixedFromGridIndex c w g o)
  | .static w => seenResult (.static w) (MortonIndex2D.staticFromGridIndex c w g d o)
  | .dynamic => seenIndex .dynamic (MortonIndex2D.dynamicFromGridIndex c g d o)

def onOne (c : Cfg) (i : AnyIndex2D) (op : Op Quadrant) : S2 c :=
  match i with
  | .fixed w m => seenFixed (.fixed w) (stepFixed c (fun m => m.cells) m op)
  | .static w m => seenObs (.static w) (stepIndex c (fun m => m.cells) m op)
  | .dynamic m => seenObs .dynamic (stepIndex c (fun m => m.cells) m op)

/-- `cmp` and `==` exist between two indices of the same type. -/
def onTwo (c : Cfg) (i j : AnyIndex2D) (op : Op Quadrant) : S2 c :=
  match i, j with
  | .fixed w m, .fixed w' m' => if h : w' = w then seenValue .obs (stepIndices c m (h ▸ m') op) else (.notOffered, [])
  | .static w m, .static w' m' => if h : w' = w then seenValue .obs (stepIndices c m (h ▸ m') op) else (.notOffered, [])
  | .dynamic m, .dynamic m' => seenValue .obs (stepIndices c m m' op)
  | _, _ => (.notOffered, [])

def partialCmp (c : Cfg) (i j : AnyIndex2D) : S2 c :=
  match i, j with
  | .fixed w m, .fixed w' m' => if h : w' = w then seenValue .order (RustOrd.partialCmp c m (h ▸ m')) else (.notOffered, [])
  | .static w m, .static w' m' => if h : w' = w then seenValue .order (RustOrd.partialCmp c m (h ▸ m')) else (.notOffered, [])
  | .dynamic m, .dynamic m' => seenValue .order (RustOrd.partialCmp c m m')
  | _, _ => (.notOffered, [])

/-- `From` between the types with the same integer and to dynamic indices, `TryFrom` from dynamic ones. -/
def convert (c : Cfg) (i : AnyIndex2D) (k : Kind) : S2 c :=
  match i, k with
  | .fixed w m, .static w' => if w = w' then (.obs .index, [.static w (MortonIndex2D.fixedToStatic m)]) else (.notOffered, [])
  | .static w m, .fixed w' => if w = w' then (.obs .index, [.fixed w (MortonIndex2D.staticToFixed m)]) else (.notOffered, [])
  | .fixed _ m, .dynamic => (.obs .index, [.dynamic (MortonIndex2D.fixedToDynamic c m)])
  | .static _ m, .dynamic => seenIndex .dynamic (MortonIndex2D.staticToDynamic c m)
  | .dynamic m, .fixed w => seenResult (.fixed w) (.ok (MortonIndex2D.dynamicToFixed c w m))
  | .dynamic m, .static w => seenResult (.static w) (MortonIndex2D.dynamicToStatic c w m)
  | _, _ => (.notOffered, [])

/-- One call of the API. A fault returns nothing and the program goes on (the caller caught the panic). -/
def step (c : Cfg) (x : Call Quadrant QuadrantOrdering (Vector2 c.ptrBits)) (env : List AnyIndex2D) : S2 c :=
  match x with
  | .default k => (.obs .index, [default k])
  | .tryFromSlice k cs => tryFromSlice c k cs
  | .tryFromArray k cs => tryFromArray c k cs
  | .zeroed k d => zeroed c k d
  | .fromGrid k g d o => fromGrid c k g d o
  | .fromGridFast _ _ => (.notOffered, [])
  | .fromRaw _ _ _ => (.notOffered, [])
  | .op op =>
    match env[op.args.1]?, op.args.2 with
    | none, _ => (.obs .noSuchValue, [])
    | some i, none => onOne c i op
    | some i, some j =>
      match env[j]? with
      | none => (.obs .noSuchValue, [])
      | some j => onTwo c i j op
  | .partialCmp i j =>
    match env[i]?, env[j]? with
    | some i, some j => partialCmp c i j
    | _, _ => (.obs .noSuchValue, [])
  | .toGrid i o =>
    match env[i]? with
    | some i => seenValue .grid (i.grid c o)
    | none => (.obs .noSuchValue, [])
  | .toString i naming =>
    match env[i]? with
    | some i => seenValue .text (i.name c naming)
    | none => (.obs .noSuchValue, [])
  | .convert i k =>
    match env[i]? with
    | some i => convert c i k
    | none => (.obs .noSuchValue, [])

/-! ## Proof -/

/-- The type of an index and its cells. -/
def tag : AnyIndex2D → Kind × List Quadrant
  | .fixed w m => (.fixed w, cells2 m)
  | .static w m => (.static w, cells2 m)
  | .dynamic m => (.dynamic, cells2 m)

theorem at_unique {W : Nat} (hW : 2 ≤ W) {o : QuadrantOrdering} {g : Vector2 W} {xs : List Quadrant} (h : GridList2 o g xs) {d : Nat}
    (hd : xs.length = d) : xs = (ideal2D W).atGrid o g d := by
  subst hd
  apply gridList_unique2 hW h
  · intro l hl
    have hl' : l < xs.length := by simpa [ideal2D] using hl
    simp only [quadrantX_eq hW, quadrantY_eq hW]
    simp only [ideal2D, List.length_map, List.length_range, List.getElem_map, List.getElem_range, BitVec.getLsbD]
    generalize g.x.toNat.testBit _ = x
    generalize g.y.toNat.testBit _ = y
    cases o <;> cases x <;> cases y <;> decide
  · simp [ideal2D]

/-- Indices made by the API, in one of the scopes of `Verif/History.lean`. -/
abbrev Ok (c : Cfg) (sc : Scope) (i : AnyIndex2D) : Prop := Reach2D c sc i

abbrev Agrees2 (c : Cfg) (sc : Scope) := Agrees (Grid := Vector2 c.ptrBits) tag (Ok c sc)

theorem build_fixed {cs : List Quadrant} {w : Nat} (h : cs.length ≤ w / 2) : (ideal2D c.ptrBits).build (.fixed w) cs =
    (.obs .index, [(.fixed w, cs ++ List.replicate (w / 2 - cs.length) .Zero)]) := if_pos h

theorem build_fixed_err {cs : List Quadrant} {w : Nat} (h : ¬ cs.length ≤ w / 2) : (ideal2D c.ptrBits).build (.fixed w) cs =
    (.err (.DepthLimitedExceeded (w / 2)), []) := if_neg h

theorem build_static {cs : List Quadrant} {w : Nat} (h : cs.length ≤ w / 2) : (ideal2D c.ptrBits).build (.static w) cs =
    (.obs .index, [(.static w, cs)]) := if_pos h

theorem build_static_err {cs : List Quadrant} {w : Nat} (h : ¬ cs.length ≤ w / 2) : (ideal2D c.ptrBits).build (.static w) cs =
    (.err (.DepthLimitedExceeded (w / 2)), []) := if_neg h

theorem zeroed_static {w d : Nat} (h : d ≤ w / 2) : (ideal2D c.ptrBits).zeroed (.static w) d =
    (.obs .index, [(.static w, List.replicate d .Zero)]) := if_pos h

theorem zeroed_static_none {w d : Nat} (h : ¬ d ≤ w / 2) : (ideal2D c.ptrBits).zeroed (.static w) d = (.obs .none, []) :=
  if_neg h

theorem grid_static {w d : Nat} {g : Vector2 c.ptrBits} {o : QuadrantOrdering} (h : d ≤ w / 2) :
    (ideal2D c.ptrBits).fromGrid (.static w) g d o = (.obs .index, [(.static w, (ideal2D c.ptrBits).atGrid o g d)]) := if_pos h

theorem grid_static_err {w d : Nat} {g : Vector2 c.ptrBits} {o : QuadrantOrdering} (h : ¬ d ≤ w / 2) :
    (ideal2D c.ptrBits).fromGrid (.static w) g d o = (.err (.DepthLimitedExceeded (w / 2)), []) := if_neg h

theorem grid_dynamic {d : Nat} {g : Vector2 c.ptrBits} {o : QuadrantOrdering} (h : d ≤ c.ptrBits / 2) :
    (ideal2D c.ptrBits).fromGrid .dynamic g d o = (.obs .index, [(.dynamic, (ideal2D c.ptrBits).atGrid o g d)]) := if_pos h

theorem grid_dynamic_panic {d : Nat} {g : Vector2 c.ptrBits} {o : QuadrantOrdering} (h : ¬ d ≤ c.ptrBits / 2) :
    (ideal2D c.ptrBits).fromGrid .dynamic g d o = (.obs (.fault .panic), []) := if_neg h

theorem default_agrees (hc : c.Supported) {k : Kind} (hk : k.Valid) :
    Agrees2 c sc ((ideal2D c.ptrBits).build k []) (.obs .index, [default k]) := by
  cases k with
  | fixed w =>
    rw [build_fixed (Nat.zero_le _)]
    obtain ⟨m, h1, -, h2, h3⟩ := MortonIndex2D.fixed_tryFrom hc hk (cs := []) (Nat.zero_le _)
    have e : (Except.ok (Except.ok ⟨FixedDepthStorage2D.default w⟩) : Res (Except Error _)) = .ok (.ok m) := h1
    cases e
    exact agrees_one (congrArg (Kind.fixed w, ·) h3) (.fixedDefault w hk)
  | static w =>
    rw [build_static (Nat.zero_le _)]
    exact agrees_one rfl (.staticDefault w hk)
  | dynamic => exact agrees_one rfl .dynamicDefault

theorem tryFrom_agrees (hc : c.Supported) (hdw : DynWrites c) {k : Kind} (hk : k.Valid) (cs : List Quadrant)
    (hd : k = .dynamic → Addressable c (cs.length * 2)) :
    Agrees2 c sc ((ideal2D c.ptrBits).build k cs) (tryFromSlice c k cs) ∧
    Agrees2 c sc ((ideal2D c.ptrBits).build k cs) (tryFromArray c k cs) := by
  cases k with
  | fixed w =>
    simp only [tryFromSlice, tryFromArray]
    by_cases h : cs.length ≤ w / 2
    · obtain ⟨m, h1, h2, -, h3⟩ := MortonIndex2D.fixed_tryFrom hc hk h
      rw [h1, h2, build_fixed h]
      have := agrees_one (ok := Ok c sc) (tag := tag) (s := Seen.obs (Grid := Vector2 c.ptrBits) .index)
        (v := .fixed w m) (congrArg (Kind.fixed w, ·) h3) (.fixedTryFromSlice hk h1)
      exact ⟨this, this⟩
    · obtain ⟨h1, h2⟩ := MortonIndex2D.fixed_tryFrom_error (c := c) (w := w) (cs := cs) (show _ > _ from Nat.lt_of_not_le h)
      rw [h1, h2, build_fixed_err h]
      exact ⟨agrees_none, agrees_none⟩
  | static w =>
    simp only [tryFromSlice, tryFromArray]
    by_cases h : cs.length ≤ w / 2
    · obtain ⟨m, h1, h2, -, -, h3⟩ := MortonIndex2D.static_tryFrom hc hk h
      rw [h1, h2, build_static h]
      have := agrees_one (ok := Ok c sc) (tag := tag) (s := Seen.obs (Grid := Vector2 c.ptrBits) .index)
        (v := .static w m) (congrArg (Kind.static w, ·) h3) (.staticTryFromSlice hk h1)
      exact ⟨this, this⟩
    · obtain ⟨h1, h2⟩ := MortonIndex2D.static_tryFrom_error (c := c) (w := w) (cs := cs) (show _ > _ from Nat.lt_of_not_le h)
      rw [h1, h2, build_static_err h]
      exact ⟨agrees_none, agrees_none⟩
  | dynamic =>
    simp only [tryFromSlice, tryFromArray]
    obtain ⟨m, h1, h2, -, -, h3⟩ := MortonIndex2D.dynamic_tryFrom hc (hd rfl)
    rw [h1, h2]
    have := agrees_one (ok := Ok c sc) (tag := tag) (s := Seen.obs (Grid := Vector2 c.ptrBits) .index)
      (v := .dynamic m) (congrArg (Kind.dynamic, ·) (h3 hdw)) (.dynamicTryFromSlice (hd rfl) h1)
    exact ⟨this, this⟩

theorem zeroed_agrees {k : Kind} (hk : k.Valid) (d : Nat) (hd : k = .dynamic → Addressable c (d * 2) ∧ (sc = .all ∨ d % 4 ≠ 0)) :
    Agrees2 c sc ((ideal2D c.ptrBits).zeroed k d) (zeroed c k d) := by
  cases k with
  | fixed w => exact agrees_none
  | static w =>
    simp only [zeroed]
    by_cases h : d ≤ w / 2
    · have h' : ¬ d > StaticStorage.MAX_LEVELS w Quadrant := by change ¬ d > w / 2; omega
      have e : MortonIndex2D.staticZeroed w d = some ⟨⟨0#w, d⟩⟩ := by simp [MortonIndex2D.staticZeroed, h']
      rw [e, zeroed_static h]
      exact agrees_one (congrArg (Kind.static w, ·) (StaticStorage2D.zero_path d h)) (.staticZeroed hk e)
    · have h' : d > StaticStorage.MAX_LEVELS w Quadrant := by change d > w / 2; omega
      have e : MortonIndex2D.staticZeroed w d = none := by simp [MortonIndex2D.staticZeroed, h']
      rw [e, zeroed_static_none h]
      exact agrees_none
  | dynamic =>
    refine agrees_one ?_ (.dynamicZeroed (hd rfl).1 (hd rfl).2)
    exact congrArg (Kind.dynamic, ·) (DynamicStorage2D.zero_path _ _ (by rw [DynamicStorage2D.numBytes, dim_Quadrant]; omega))

theorem fromGrid_agrees (hc : c.Supported) {k : Kind} (hk : k.Valid) (g : Vector2 c.ptrBits) (d : Nat)
    (o : QuadrantOrdering) (hd : gridWorks2D c k d) :
    Agrees2 c sc ((ideal2D c.ptrBits).fromGrid k g d o) (fromGrid c k g d o) := by
  have hW : 2 ≤ c.ptrBits := by rcases hc with h | h | h <;> omega
  cases k with
  | fixed w =>
    obtain ⟨m, h1, h2, h3⟩ := MortonIndex2D.fixedFromGridIndex_ok hc hk hd g o
    simp only [Ideal.fromGrid, fromGrid, h1]
    exact agrees_one (congrArg (Kind.fixed w, ·) (at_unique hW (gridList_of2 rfl h3) (path_length _))) (.fixedFromGrid hk h1)
  | static w =>
    simp only [fromGrid]
    by_cases h : d ≤ w / 2
    · obtain ⟨m, h1, h2, -, h3⟩ := MortonIndex2D.staticFromGridIndex_ok hc hk (hd h).1 g d h (hd h).2 o
      rw [h1, grid_static h]
      exact agrees_one (congrArg (Kind.static w, ·) (at_unique hW (gridList_of2 h2 h3) ((path_length _).trans h2)))
        (.staticFromGrid hk h1)
    · rw [grid_static_err h, MortonIndex2D.staticFromGridIndex_error g d (show _ > _ from Nat.lt_of_not_le h) o]
      exact agrees_none
  | dynamic =>
    simp only [fromGrid]
    by_cases h : d ≤ c.ptrBits / 2
    · obtain ⟨m, h1, h2, -, h3⟩ := MortonIndex2D.dynamicFromGridIndex_ok hc g d h o
      rw [h1, grid_dynamic h]
      exact agrees_one (congrArg (Kind.dynamic, ·) (at_unique hW (gridList_of2 h2 h3) ((path_length _).trans h2)))
        (.dynamicFromGrid h1)
    · rw [grid_dynamic_panic h, MortonIndex2D.dynamicFromGridIndex_panic g d (Nat.lt_of_not_le h) o]
      exact agrees_none

theorem onOne_agrees (hc : c.Supported) (hdw : DynWrites c) {env : List AnyIndex2D} {i : AnyIndex2D} (hi : Ok c sc i) (op : Op Quadrant)
    (h2 : op.args.2 = none) (hf : Call.Regular c (ideal2D c.ptrBits) (rules2D c sc) (.op op)
      (env.map tag)) (h1 : env[op.args.1]? = some i) :
    Agrees2 c sc ((ideal2D c.ptrBits).onOne (tag i).1 (tag i).2 op) (onOne c i op) := by
  simp only [Call.Regular, List.getElem?_map, h1, Option.map_some] at hf
  cases i with
  | fixed w m =>
    exact onFixed_agrees (fixed_list2 hc) (iterates_of2 hc (fixed_wf2 hc) (fixed_depth_lt2 hc)) hi op h2 (AnyIndex2D.fixed w) (.fixed w)
      (tag := tag) (fun _ => rfl) (fun _ h => h)
  | static w m =>
    exact onVariable_agrees (static_list2 hc) (static_anc2 hc) (static_desc2 hc)
      (iterates_of2 hc (static_wf2 hc) (static_depth_lt2 hc)) (fun _ _ _ h => h) hi op h2 hf.1 (AnyIndex2D.static w) (.static w)
      (fun _ => rfl) (fun _ h => h)
  | dynamic m =>
    exact onVariable_agrees (dynamic_list2 hc hdw) (dynamic_anc2 hc) (dynamic_desc2 hc hdw)
      (iterates_of2 hc (dynamic_wf2 hc) (dynamic_depth_lt2 hc))
      (fun m hm n h => by
        rw [dynRoom2, (dynamic_list2 hc hdw).depth_eq m hm]
        exact h) hi op h2 hf.1 AnyIndex2D.dynamic .dynamic (fun _ => rfl) (fun _ h => h)

theorem onTwo_agrees (hc : c.Supported) {i j : AnyIndex2D} (hi : Ok c sc i) (hj : Ok c sc j) (op : Op Quadrant)
    (h2 : op.args.2 ≠ none) (hR : (rules2D c sc).pairs (tag i).1 op) :
    Agrees2 c sc (if (tag i).1 = (tag j).1 then (.obs (stepLists quadrantKey (tag i).2 (tag j).2 op), []) else (.notOffered, []))
      (onTwo c i j op) := by
  cases i with
  | fixed w m =>
    cases j with
    | fixed w' m' =>
      by_cases h : w' = w
      · subst h
        simp only [onTwo, tag, dite_true, if_true]
        exact MortonRs.onTwo_agrees (rules2D c sc) _ (fun h => fixed_cmp2 hc) (fun h => fixed_eq2 hc) hi hj op h2 hR
      · rw [if_neg (show ¬ (tag (.fixed w m)).1 = (tag (.fixed w' m')).1 from fun e => h (by cases e; rfl)), onTwo, dif_neg h]
        exact agrees_none
    | static => exact agrees_none
    | dynamic => exact agrees_none
  | static w m =>
    cases j with
    | static w' m' =>
      by_cases h : w' = w
      · subst h
        simp only [onTwo, tag, dite_true, if_true]
        exact MortonRs.onTwo_agrees (rules2D c sc) _ (fun h => static_cmp2 hc) (fun h => static_eq2 hc) hi hj op h2 hR
      · rw [if_neg (show ¬ (tag (.static w m)).1 = (tag (.static w' m')).1 from fun e => h (by cases e; rfl)), onTwo, dif_neg h]
        exact agrees_none
    | fixed => exact agrees_none
    | dynamic => exact agrees_none
  | dynamic m =>
    cases j with
    | dynamic m' =>
      simp only [onTwo, tag, if_true]
      exact MortonRs.onTwo_agrees (rules2D c sc) _ (fun h => dynamic_cmp2 hc) (fun h => by cases h rfl; exact dynamic_eq2 hc) hi hj op h2 hR
    | fixed => exact agrees_none
    | static => exact agrees_none

theorem partialCmp_agrees (hc : c.Supported) {i j : AnyIndex2D} (hi : Ok c sc i) (hj : Ok c sc j)
    (hR : (rules2D c sc).cmps (tag i).1) :
    Agrees2 c sc (if (tag i).1 = (tag j).1 then (.order (some (pathCmp quadrantKey (tag i).2 (tag j).2)), []) else (.notOffered, []))
      (partialCmp c i j) := by
  cases i with
  | fixed w m =>
    cases j with
    | fixed w' m' =>
      by_cases h : w' = w
      · subst h
        simp only [partialCmp, tag, dite_true, if_true]
        exact partial_agrees (fixed_cmp2 hc) hi hj
      · rw [if_neg (show ¬ (tag (.fixed w m)).1 = (tag (.fixed w' m')).1 from fun e => h (by cases e; rfl)), partialCmp, dif_neg h]
        exact agrees_none
    | static => exact agrees_none
    | dynamic => exact agrees_none
  | static w m =>
    cases j with
    | static w' m' =>
      by_cases h : w' = w
      · subst h
        simp only [partialCmp, tag, dite_true, if_true]
        exact partial_agrees (static_cmp2 hc) hi hj
      · rw [if_neg (show ¬ (tag (.static w m)).1 = (tag (.static w' m')).1 from fun e => h (by cases e; rfl)), partialCmp, dif_neg h]
        exact agrees_none
    | fixed => exact agrees_none
    | dynamic => exact agrees_none
  | dynamic m =>
    cases j with
    | dynamic m' =>
      simp only [partialCmp, tag, if_true]
      exact partial_agrees (dynamic_cmp2 hc) hi hj
    | fixed => exact agrees_none
    | static => exact agrees_none

theorem toGrid_agrees (hc : c.Supported) {i : AnyIndex2D} (hi : Ok c sc i) (o : QuadrantOrdering) (hd : (tag i).2.length ≤ c.ptrBits) :
    Agrees2 c sc (.grid ((ideal2D c.ptrBits).toGrid o (tag i).2), []) (seenValue .grid (i.grid c o)) := by
  have key : ∀ {S : Type} [Storage S Quadrant] [BitStorage S Quadrant] (m : MortonIndex2D S), WF c m.storage →
      (path m.storage).length ≤ c.ptrBits → m.toGridIndex c o = .ok ((ideal2D c.ptrBits).toGrid o (path m.storage)) := by
    intro S _ _ m h hl
    obtain ⟨v, h1, h2, h3⟩ := toGridIndex_binary2 hc h (by rwa [path_length] at hl) o
    rw [h1]
    simp only [ideal2D, ← h2, ← h3, BitVec.ofNat_toNat, BitVec.setWidth_eq]
  cases i with
  | fixed w m => rw [AnyIndex2D.grid, key m (fixed_wf2 hc m hi) hd]; exact agrees_none
  | static w m => rw [AnyIndex2D.grid, key m (static_wf2 hc m hi) hd]; exact agrees_none
  | dynamic m => rw [AnyIndex2D.grid, key m (dynamic_wf2 hc m hi) hd]; exact agrees_none

theorem toString_agrees (hc : c.Supported) {i : AnyIndex2D} (hi : Ok c sc i) (n : MortonIndexNaming)
    (hd : n = .GridIndex → (tag i).2.length ≤ c.ptrBits) :
    Agrees2 c sc (.text ((ideal2D c.ptrBits).text n (tag i).2), []) (seenValue .text (i.name c n)) := by
  have key : ∀ {S : Type} [Storage S Quadrant] [BitStorage S Quadrant] (m : MortonIndex2D S), WF c m.storage →
      (n = .GridIndex → (path m.storage).length ≤ c.ptrBits) →
      m.toString c n = .ok ((ideal2D c.ptrBits).text n (path m.storage)) := by
    intro S _ _ m h hl
    cases n with
    | CellConcatenation => exact cellConcatenation_ok2 hc h
    | CellConcatenationWithRoot => rw [MortonIndex2D.toString, cellConcatenation_ok2 hc h]; rfl
    | GridIndex => exact gridString_ok2 hc h (by rw [← path_length m.storage]; exact hl rfl)
  cases i with
  | fixed w m =>
    have e : MortonIndex.toString c m n = _ := key m (fixed_wf2 hc m hi) hd
    rw [AnyIndex2D.name, e]
    exact agrees_none
  | static w m =>
    have e : MortonIndex.toString c m n = _ := key m (static_wf2 hc m hi) hd
    rw [AnyIndex2D.name, e]
    exact agrees_none
  | dynamic m =>
    have e : MortonIndex.toString c m n = _ := key m (dynamic_wf2 hc m hi) hd
    rw [AnyIndex2D.name, e]
    exact agrees_none

theorem convert_agrees (hc : c.Supported) (hdw : DynWrites c) {i : AnyIndex2D} (hi : Ok c sc i) {k : Kind} (hk : k.Valid)
    (hd : ∀ w cs, k = .fixed w → tag i = (.dynamic, cs) → cs.length ≤ w / 2 →
      sc = .canonical ∧ c.bigEndian = false ∧ ((cs.length * 2 + 7) / 8 = w / 8 ∨ ∀ x ∈ cs, x = .Zero)) :
    Agrees2 c sc ((ideal2D c.ptrBits).convert (tag i).1 (tag i).2 k) (convert c i k) := by
  cases i with
  | fixed w m =>
    have hw : IntWidth w := (reach2D_good hc hi).1
    cases k with
    | fixed => exact agrees_none
    | static w' =>
      by_cases h : w = w'
      · subst h
        simp only [Ideal.convert, convert, tag, if_true]
        rw [build_static (cs := cells2 m) (Nat.le_of_eq (path_length m.storage))]
        exact agrees_one (congrArg (Kind.static w, ·) (MortonIndex2D.fixedToStatic_ok (c := c) hw m).2.1) (.fixedToStatic hi)
      · simp only [Ideal.convert, convert, tag, if_neg h]
        exact agrees_none
    | dynamic =>
      exact agrees_one (congrArg (Kind.dynamic, ·) (MortonIndex2D.fixedToDynamic_ok hc hw m).2.1) (.fixedToDynamic hi)
  | static w m =>
    have hwf := static_wf2 hc m hi
    have hw : IntWidth w := hwf.fit
    cases k with
    | static => exact agrees_none
    | fixed w' =>
      by_cases h : w = w'
      · subst h
        simp only [Ideal.convert, convert, tag, if_true]
        rw [build_fixed (by rw [cells2, path_length]; exact (StaticStorage2D.wf_iff hw _).mp hwf)]
        refine agrees_one ?_ (.staticToFixed hi)
        have := ((MortonIndex2D.staticToFixed_ok hw hwf).2 (reach2D_good hc hi).2).2
        rw [← path_length m.storage] at this
        exact congrArg (Kind.fixed w, ·) this
      · simp only [Ideal.convert, convert, tag, if_neg h]
        exact agrees_none
    | dynamic =>
      obtain ⟨m', h1, -, -, h3⟩ := MortonIndex2D.staticToDynamic_ok hc hwf
      simp only [Ideal.convert, convert, tag, Ideal.build, h1]
      exact agrees_one (congrArg (Kind.dynamic, ·) (h3 hdw)) (.staticToDynamic hi h1)
  | dynamic m =>
    have hwf := dynamic_wf2 hc m hi
    cases k with
    | dynamic => exact agrees_none
    | static w =>
      simp only [Ideal.convert, convert, tag]
      by_cases h : (cells2 m).length ≤ w / 2
      · obtain ⟨m', h1, -, -, h3⟩ := MortonIndex2D.dynamicToStatic_ok hc hk hwf (by rw [cells2, path_length] at h; exact h)
        rw [h1, build_static h]
        exact agrees_one (congrArg (Kind.static w, ·) h3) (.dynamicToStatic hk hi h1)
      · rw [MortonIndex2D.dynamicToStatic_error (c := c) (w := w) (m := m)
          (by rw [cells2, path_length] at h; exact Nat.lt_of_not_le h), build_static_err h]
        exact agrees_none
    | fixed w =>
      simp only [Ideal.convert, convert, tag]
      by_cases h : (cells2 m).length ≤ w / 2
      · obtain ⟨rfl, hle, hb⟩ := hd w _ rfl rfl h
        obtain ⟨f, h1, h2⟩ := MortonIndex2D.dynamicToFixed_keeps hk hle ((reach2D_good hc hi).2 rfl)
          (by rw [cells2, path_length] at h; exact h)
        rw [h1, build_fixed h]
        refine agrees_one ?_ (.dynamicToFixed hk hi h1)
        have h3 := h2.mpr (by rw [cells2, path_length] at hb; exact hb)
        have e : m.storage.depth = (cells2 m).length := (path_length m.storage).symm
        rw [e] at h3
        exact congrArg (Kind.fixed w, ·) h3
      · rw [MortonIndex2D.dynamicToFixed_error (c := c) (w := w) (m := m)
          (by rw [cells2, path_length] at h; exact Nat.lt_of_not_le h), build_fixed_err h]
        exact agrees_none

theorem step_agrees (hc : c.Supported) (hdw : DynWrites c) (x : Call Quadrant QuadrantOrdering (Vector2 c.ptrBits))
    (env : List AnyIndex2D) (henv : ∀ i ∈ env, Ok c sc i)
    (hx : x.Regular c (ideal2D c.ptrBits) (rules2D c sc) (env.map tag)) :
    StepAgrees (ideal2D c.ptrBits) (step c) tag (Ok c sc) x env := by
  change Agrees2 c sc ((ideal2D c.ptrBits).step x (env.map tag)) (step c x env)
  cases x with
  | default k => exact default_agrees hc hx
  | tryFromSlice k cs => exact (tryFrom_agrees hc hdw hx.1 cs hx.2).1
  | tryFromArray k cs => exact (tryFrom_agrees hc hdw hx.1 cs hx.2).2
  | zeroed k d => exact zeroed_agrees hx.1 d hx.2
  | fromGrid k g d o => exact fromGrid_agrees hc hx.1 g d o hx.2
  | fromGridFast g o => exact agrees_none
  | fromRaw k b d => exact agrees_none
  | op op =>
    simp only [Ideal.step, step, List.getElem?_map]
    cases h1 : env[op.args.1]? with
    | none => exact agrees_none
    | some i =>
      have hi := henv i (List.mem_of_getElem? h1)
      cases h2 : op.args.2 with
      | none => exact onOne_agrees hc hdw hi op h2 hx h1
      | some j =>
        simp only [Option.map_some]
        cases h3 : env[j]? with
        | none => exact agrees_none
        | some j =>
          refine onTwo_agrees hc hi (henv j (List.mem_of_getElem? h3)) op (by rw [h2]; simp) ?_
          simp only [Call.Regular, List.getElem?_map, h1, Option.map_some] at hx
          cases i with
          | fixed => exact hx
          | static => exact hx.2
          | dynamic => exact hx.2
  | partialCmp i j =>
    simp only [Ideal.step, step, List.getElem?_map]
    cases h1 : env[i]? with
    | none => exact agrees_none
    | some i =>
      cases h2 : env[j]? with
      | none => exact agrees_none
      | some j =>
        simp only [Call.Regular, List.getElem?_map, h1, Option.map_some] at hx
        exact partialCmp_agrees hc (henv i (List.mem_of_getElem? h1)) (henv j (List.mem_of_getElem? h2)) hx
  | toGrid i o =>
    simp only [Ideal.step, step, List.getElem?_map]
    simp only [Call.Regular, List.getElem?_map] at hx
    cases h1 : env[i]? with
    | none => exact agrees_none
    | some i =>
      simp only [h1, Option.map_some] at hx
      exact toGrid_agrees hc (henv i (List.mem_of_getElem? h1)) o hx
  | toString i n =>
    simp only [Ideal.step, step, List.getElem?_map]
    cases h1 : env[i]? with
    | none => exact agrees_none
    | some j =>
      refine toString_agrees hc (henv j (List.mem_of_getElem? h1)) n fun e => ?_
      subst e
      simp only [Call.Regular, List.getElem?_map, h1, Option.map_some] at hx
      exact hx
  | convert i k =>
    simp only [Ideal.step, step, List.getElem?_map]
    cases h1 : env[i]? with
    | none => exact agrees_none
    | some j =>
      refine convert_agrees hc hdw (henv j (List.mem_of_getElem? h1)) hx.1 fun w cs e1 e2 h => ?_
      subst e1
      have := hx.2
      rw [List.getElem?_map, h1, Option.map_some, e2] at this
      exact ⟨(this h).1 rfl, (this h).2⟩

end Program2D

/-- **C82**, 2D: whatever a program of API calls over all index types observes is what the same program observes on types
with lists of cells, as long as its calls are regular. A program either makes no stray bits (`.canonical`) or does without the calls
that show them (`.all`). -/
theorem C82_programs_2D (sc : Scope) (hc : c.Supported) (hdw : DynWrites c)
    (xs : List (Call Quadrant QuadrantOrdering (Vector2 c.ptrBits)))
    (hr : RegularCalls c (ideal2D c.ptrBits) (rules2D c sc) xs []) :
    runCalls (Program2D.step c) xs [] = runCalls (ideal2D c.ptrBits).step xs [] :=
  runCalls_agrees (Program2D.step_agrees hc hdw) xs [] (by simp) hr

/-- A program that makes a dynamic index, converts it, descends, converts the result twice more, compares, asks for the grid
position and the string, makes indices of other types, and asks for things that do not exist. -/
def exCalls2 : List (Call Quadrant QuadrantOrdering (Vector2 x64.ptrBits)) :=
  [.tryFromSlice .dynamic [.Three, .One, .Two], .convert 0 (.static 16), .op (.child 1 .Two), .convert 2 (.fixed 16),
    .toGrid 2 .XY, .op (.cmp 1 2), .partialCmp 1 0, .toString 2 .CellConcatenationWithRoot, .convert 3 .dynamic, .convert 4 (.static 8),
    .op (.parent 3), .fromGrid (.static 16) ⟨5#64, 6#64⟩ 3 .XY, .op (.inverted 5), .op (.eq 5 1), .zeroed .dynamic 5, .default (.fixed 8),
    .op (.get 8 4)]

example : runCalls (Program2D.step x64) exCalls2 [] = runCalls (ideal2D x64.ptrBits).step exCalls2 [] :=
  C82_programs_2D .canonical x64_supported x64_writes exCalls2 (by
    have h : ∀ n, n ≤ 64 → Addressable x64 n := fun n hn => by unfold Addressable; change n + 64 < 2 ^ 64; omega
    have h8 : IntWidth 8 := by decide
    have h16 : IntWidth 16 := by decide
    exact ⟨⟨trivial, fun _ => h _ (by decide)⟩, ⟨h16, trivial⟩, ⟨(by decide : 1 < 2 ^ 63), trivial⟩, ⟨h16, fun _ => rfl⟩,
      (by decide : 4 ≤ 64), ⟨trivial, trivial⟩, trivial, trivial, ⟨trivial, trivial⟩, ⟨h8, trivial⟩, trivial, ⟨h16, fun _ => by decide⟩,
      ⟨trivial, trivial⟩, ⟨trivial, fun _ => rfl⟩, ⟨trivial, fun _ => ⟨h _ (by decide), .inr (by decide)⟩⟩, h8, trivial, trivial⟩)

/-- A program with stray bits: `zeroed(4)` has a byte too many, which its child and the conversion do not show. -/
def exStrayCalls2 : List (Call Quadrant QuadrantOrdering (Vector2 x64.ptrBits)) :=
  [.zeroed .dynamic 4, .op (.child 0 .Three), .op (.set 1 0 .Two), .convert 2 (.static 16), .op (.eq 3 3), .op (.parent 2),
    .op (.cmp 0 4), .toString 2 .CellConcatenation]

example : runCalls (Program2D.step x64) exStrayCalls2 [] = runCalls (ideal2D x64.ptrBits).step exStrayCalls2 [] :=
  C82_programs_2D .all x64_supported x64_writes exStrayCalls2 (by
    have h : ∀ n, n ≤ 64 → Addressable x64 n := fun n hn => by unfold Addressable; change n + 64 < 2 ^ 64; omega
    have h16 : IntWidth 16 := by decide
    exact ⟨⟨trivial, fun _ => ⟨h _ (by decide), .inl rfl⟩⟩, ⟨h _ (by decide), trivial⟩, ⟨trivial, trivial⟩, ⟨h16, trivial⟩,
      ⟨trivial, fun e => nomatch e⟩, ⟨trivial, trivial⟩, ⟨trivial, trivial⟩, trivial, trivial⟩)

example : runCalls (ideal2D x64.ptrBits).step exStrayCalls2 [] =
    [.obs .index, .obs .index, .obs .index, .obs .index, .obs (.bool true), .obs .index, .obs (.ordering .lt), .text "20003"] := by
  decide +kernel

/-- With `==` of dynamic indices the claim would be false: the library tells `zeroed(4)` from the same cells. -/
example : runCalls (Program2D.step x64) [.zeroed .dynamic 4, .tryFromSlice .dynamic [.Zero, .Zero, .Zero, .Zero], .op (.eq 0 1)] [] ≠
    runCalls (ideal2D x64.ptrBits).step [.zeroed .dynamic 4, .tryFromSlice .dynamic [.Zero, .Zero, .Zero, .Zero], .op (.eq 0 1)] [] := by
  decide +kernel

/-- What is seen. The fixed-depth index has been filled up with zeros, so its dynamic copy is too deep for an `u8`; a fixed-depth
index has no parent. -/
example : runCalls (ideal2D x64.ptrBits).step exCalls2 [] =
    [.obs .index, .obs .index, .obs .index, .obs .index, .grid ⟨12#64, 11#64⟩, .obs (.ordering .lt), .notOffered, .text "r3122",
      .obs .index, .err (.DepthLimitedExceeded 4), .notOffered, .obs .index, .obs .index, .obs (.bool false), .obs .index, .obs .index,
      .obs (.fault .panic)] := by
  decide +kernel

end MortonRs
