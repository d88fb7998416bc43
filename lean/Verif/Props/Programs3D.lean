import Verif.Props.Programs
import Verif.Props.Strings
import Verif.Props.Deep3D
import Verif.Props.Conv3D
import Verif.Props.Laws3D
import Verif.Props.Raw

/-! # Programs over all 3D index types (C82) -/

namespace MortonRs

open BitStorage MortonIndex VariableDepthMortonIndex

variable {c : Cfg} {sc : Scope}

/-! ## What the calls mean -/

/-- The octant with the given coordinates. -/
def octantAt (o : OctantOrdering) (x y z : Bool) : Octant :=
  ([Octant.Zero, .One, .Two, .Three, .Four, .Five, .Six, .Seven].find? fun q =>
    octantX o q = x ∧ octantY o q = y ∧ octantZ o q = z).getD .Zero

/-- The octant with the given number. -/
def octantOfKey (n : Nat) : Octant :=
  ([Octant.Zero, .One, .Two, .Three, .Four, .Five, .Six, .Seven].find? fun q => octantKey q = n).getD .Zero

/-- 3D, for coordinates of `W` bits. Level `l` of the path of depth `d` of a grid position belongs to bit `d - 1 - l` of
its coordinates. Level `l` of an integer of `w` bits is the digit to base 8 that starts at bit `w - 3 (l + 1)`. -/
def ideal3D (W : Nat) : Ideal Octant OctantOrdering (Vector3 W) where
  dim := 3
  zero := .Zero
  key := octantKey
  toGrid o cs := ⟨BitVec.ofNat W (binary (cs.map (octantX o))), BitVec.ofNat W (binary (cs.map (octantY o))),
    BitVec.ofNat W (binary (cs.map (octantZ o)))⟩
  atGrid o g d := (List.range d).map fun l => octantAt o (g.x.toNat.testBit (d - 1 - l)) (g.y.toNat.testBit (d - 1 - l))
    (g.z.toNat.testBit (d - 1 - l))
  gridLimit := W / 2
  fastWidth := some 64
  rawCells := some fun w b d => (List.range d).map fun l => octantOfKey (b / 2 ^ (w - 3 * (l + 1)) % 8)
  text
    | .CellConcatenation, cs => String.ofList (cs.map octantDigit)
    | .CellConcatenationWithRoot, cs => "r" ++ String.ofList (cs.map octantDigit)
    | .GridIndex, cs => Nat.repr cs.length ++ "-" ++ Nat.repr (binary (cs.map (octantX .XYZ))) ++ "-" ++
        Nat.repr (binary (cs.map (octantY .XYZ))) ++ "-" ++ Nat.repr (binary (cs.map (octantZ .XYZ)))

/-- Where `from_grid_index` works: the coordinates have enough bits for the deepest level of the type (C22, C51) and the depth of a
static index is one where the constructor loses no level (C25), or it reports that the depth is too great. For dynamic indices
always (C26). -/
def gridWorks3D (c : Cfg) : Kind → Nat → Prop
  | .fixed w, _ => 32 ≤ c.ptrBits ∧ w / 3 < c.ptrBits
  | .static w, d => d ≤ w / 3 → w / 3 ≤ c.ptrBits ∧ (d = 0 ∨ StaticGridExact w d)
  | .dynamic, _ => True

/-- The rules for programs in one of the scopes of `Verif/History.lean`. With stray bits (`.all`), there is no `==`, no comparison of
fixed-depth indices and no conversion of others to fixed-depth ones. -/
def rules3D (c : Cfg) (sc : Scope) : Rules where
  works := gridWorks3D c
  clean _ := True
  raw r := sc = .all ∨ r = 0
  eqs _ := sc = .canonical
  cmps k := (∃ w, k = .fixed w) → sc = .canonical
  toFixed _ := sc = .canonical

/-! ## The calls on indices -/

namespace Program3D

abbrev S3 (c : Cfg) := Seen Octant (Vector3 c.ptrBits) × List AnyIndex3D

def default : Kind → AnyIndex3D
  | .fixed w => .fixed w ⟨FixedDepthStorage3D.default w⟩
  | .static w => .static w ⟨StaticStorage3D.default w⟩
  | .dynamic => .dynamic ⟨DynamicStorage3D.default⟩

def tryFromSlice (c : Cfg) (k : Kind) (cs : List Octant) : S3 c :=
  match k with
  | .fixed w => seenResult (.fixed w) (MortonIndex3D.tryFromSlice c cs)
  | .static w => seenResult (.static w) (MortonIndex3D.tryFromSlice c cs)
  | .dynamic => seenResult .dynamic (MortonIndex3D.tryFromSlice c cs)

def tryFromArray (c : Cfg) (k : Kind) (cs : List Octant) : S3 c :=
  match k with
  | .fixed w => seenResult (.fixed w) (MortonIndex3D.tryFromArray c cs)
  | .static w => seenResult (.static w) (MortonIndex3D.tryFromArray c cs)
  | .dynamic => seenResult .dynamic (MortonIndex3D.tryFromArray c cs)

def zeroed (c : Cfg) (k : Kind) (d : Nat) : S3 c :=
  match k with
  | .fixed _ => (.notOffered, [])
  | .static w => seenOption (.static w) (MortonIndex3D.staticZeroed w d)
  | .dynamic => seenIndex .dynamic (MortonIndex3D.dynamicZeroed c d)

def fromGrid (c : Cfg) (k : Kind) (g : Vector3 c.ptrBits) (d : Nat) (o : OctantOrdering) : S3 c :=
  match k with
  | .fixed w => seenIndex (.fixed w) (MortonIndex3D.fixedFromGridIndex c w g o)
  | .static w => seenResult (.static w) (MortonIndex3D.staticFromGridIndex c w g d o)
  | .dynamic => seenIndex .dynamic (MortonIndex3D.dynamicFromGridIndex c g d o)

/-- `from_grid_index_fast` exists for 64 bits. -/
def fromGridFast (c : Cfg) (g : Vector3 c.ptrBits) (o : OctantOrdering) : S3 c :=
  seenIndex (.fixed 64) (MortonIndex3D.fixedFromGridIndexFast c g o)

def fromRaw (c : Cfg) (k : Kind) (b d : Nat) : S3 c :=
  match k with
  | .fixed w => (.obs .index, [.fixed w (MortonIndex3D.fixedFromRawIndex (BitVec.ofNat w b))])
  | .static w => (.obs .index, [.static w (MortonIndex3D.staticFromRawIndex (BitVec.ofNat w b) d)])
  | .dynamic => (.notOffered, [])

def onOne (c : Cfg) (i : AnyIndex3D) (op : Op Octant) : S3 c :=
  match i with
  | .fixed w m => seenFixed (.fixed w) (stepFixed c (fun m => m.cells) m op)
  | .static w m => seenObs (.static w) (stepIndex c (fun m => m.cells) m op)
  | .dynamic m => seenObs .dynamic (stepIndex c (fun m => m.cells) m op)

/-- `cmp` and `==` exist between two indices of the same type. -/
def onTwo (c : Cfg) (i j : AnyIndex3D) (op : Op Octant) : S3 c :=
  match i, j with
  | .fixed w m, .fixed w' m' => if h : w' = w then seenValue .obs (stepIndices c m (h ▸ m') op) else (.notOffered, [])
  | .static w m, .static w' m' => if h : w' = w then seenValue .obs (stepIndices c m (h ▸ m') op) else (.notOffered, [])
  | .dynamic m, .dynamic m' => seenValue .obs (stepIndices c m m' op)
  | _, _ => (.notOffered, [])

def partialCmp (c : Cfg) (i j : AnyIndex3D) : S3 c :=
  match i, j with
  | .fixed w m, .fixed w' m' => if h : w' = w then seenValue .order (RustOrd.partialCmp c m (h ▸ m')) else (.notOffered, [])
  | .static w m, .static w' m' => if h : w' = w then seenValue .order (RustOrd.partialCmp c m (h ▸ m')) else (.notOffered, [])
  | .dynamic m, .dynamic m' => seenValue .order (RustOrd.partialCmp c m m')
  | _, _ => (.notOffered, [])

/-- `From` between the types with the same integer and to dynamic indices, `TryFrom` from dynamic ones. -/
def convert (c : Cfg) (i : AnyIndex3D) (k : Kind) : S3 c :=
  match i, k with
  | .fixed w m, .static w' => if w = w' then (.obs .index, [.static w (MortonIndex3D.fixedToStatic m)]) else (.notOffered, [])
  | .static w m, .fixed w' => if w = w' then (.obs .index, [.fixed w (MortonIndex3D.staticToFixed m)]) else (.notOffered, [])
  | .fixed _ m, .dynamic => (.obs .index, [.dynamic (MortonIndex3D.fixedToDynamic c m)])
  | .static _ m, .dynamic => seenIndex .dynamic (MortonIndex3D.staticToDynamic c m)
  | .dynamic m, .fixed w => seenResult (.fixed w) (.ok (MortonIndex3D.dynamicToFixed c w m))
  | .dynamic m, .static w => seenResult (.static w) (MortonIndex3D.dynamicToStatic c w m)
  | _, _ => (.notOffered, [])

/-- One call of the API. A fault returns nothing and the program goes on (the caller caught the panic). -/
def step (c : Cfg) (x : Call Octant OctantOrdering (Vector3 c.ptrBits)) (env : List AnyIndex3D) : S3 c :=
  match x with
  | .default k => (.obs .index, [default k])
  | .tryFromSlice k cs => tryFromSlice c k cs
  | .tryFromArray k cs => tryFromArray c k cs
  | .zeroed k d => zeroed c k d
  | .fromGrid k g d o => fromGrid c k g d o
  | .fromGridFast g o => fromGridFast c g o
  | .fromRaw k b d => fromRaw c k b d
  | .op op =>
    match env[op.args.1]?, op.args.2 with
    | none, _ => (.obs .noSuchValue, [])
    | some i, none => onOne c i op
    | some i, some j =>
      match env[j]? with
      | none => (.obs .noSuchValue, [])
      | some j => onTwo c i j op
  | .partialCmp i j =>
    match env[i]?, env[j]? with
    | some i, some j => partialCmp c i j
    | _, _ => (.obs .noSuchValue, [])
  | .toGrid i o =>
    match env[i]? with
    | some i => seenValue .grid (i.grid c o)
    | none => (.obs .noSuchValue, [])
  | .toString i naming =>
    match env[i]? with
    | some i => seenValue .text (i.name c naming)
    | none => (.obs .noSuchValue, [])
  | .convert i k =>
    match env[i]? with
    | some i => convert c i k
    | none => (.obs .noSuchValue, [])

/-! ## Proof -/

/-- The type of an index and its cells. -/
def tag : AnyIndex3D → Kind × List Octant
  | .fixed w m => (.fixed w, cells3 m)
  | .static w m => (.static w, cells3 m)
  | .dynamic m => (.dynamic, cells3 m)

theorem at_unique {W : Nat} (hW : 3 ≤ W) {o : OctantOrdering} {g : Vector3 W} {xs : List Octant} (h : GridList3 o g xs) {d : Nat}
    (hd : xs.length = d) : xs = (ideal3D W).atGrid o g d := by
  subst hd
  apply gridList_unique3 hW h
  · intro l hl
    have hl' : l < xs.length := by simpa [ideal3D] using hl
    simp only [GridCell3, octantX_eq hW, octantY_eq hW, octantZ_eq hW]
    simp only [ideal3D, List.length_map, List.length_range, List.getElem_map, List.getElem_range, BitVec.getLsbD]
    generalize g.x.toNat.testBit _ = x
    generalize g.y.toNat.testBit _ = y
    generalize g.z.toNat.testBit _ = z
    cases o <;> cases x <;> cases y <;> cases z <;> decide
  · simp [ideal3D]

theorem octantOfKey_eq (q : Octant) : octantOfKey (octantKey q) = q := by cases q <;> rfl

theorem raw_cells {S : Type} [Storage S Octant] [BitStorage S Octant] {s : S} {w b d : Nat} (hd : Storage.depth s = d)
    (hw : width s = w) (hv : value s = b) :
    path s = (List.range d).map fun l => octantOfKey (b / 2 ^ (w - 3 * (l + 1)) % 8) := by
  subst hd hw hv
  rw [path]
  refine List.map_congr_left fun l _ => ?_
  rw [← octantOfKey_eq (slot s l), octantKey_eq, slot_ofNat, digit, dim_Octant, Nat.mul_comm]

/-- Indices made by the API, in one of the scopes of `Verif/History.lean`. -/
abbrev Ok (c : Cfg) (sc : Scope) (i : AnyIndex3D) : Prop := Reach3D c sc i

abbrev Agrees3 (c : Cfg) (sc : Scope) := Agrees (Grid := Vector3 c.ptrBits) tag (Ok c sc)

theorem build_fixed {cs : List Octant} {w : Nat} (h : cs.length ≤ w / 3) : (ideal3D c.ptrBits).build (.fixed w) cs =
    (.obs .index, [(.fixed w, cs ++ List.replicate (w / 3 - cs.length) .Zero)]) := if_pos h

theorem build_fixed_err {cs : List Octant} {w : Nat} (h : ¬ cs.length ≤ w / 3) : (ideal3D c.ptrBits).build (.fixed w) cs =
    (.err (.DepthLimitedExceeded (w / 3)), []) := if_neg h

theorem build_static {cs : List Octant} {w : Nat} (h : cs.length ≤ w / 3) : (ideal3D c.ptrBits).build (.static w) cs =
    (.obs .index, [(.static w, cs)]) := if_pos h

theorem build_static_err {cs : List Octant} {w : Nat} (h : ¬ cs.length ≤ w / 3) : (ideal3D c.ptrBits).build (.static w) cs =
    (.err (.DepthLimitedExceeded (w / 3)), []) := if_neg h

theorem zeroed_static {w d : Nat} (h : d ≤ w / 3) : (ideal3D c.ptrBits).zeroed (.static w) d =
    (.obs .index, [(.static w, List.replicate d .Zero)]) := if_pos h

theorem zeroed_static_none {w d : Nat} (h : ¬ d ≤ w / 3) : (ideal3D c.ptrBits).zeroed (.static w) d = (.obs .none, []) :=
  if_neg h

theorem grid_static {w d : Nat} {g : Vector3 c.ptrBits} {o : OctantOrdering} (h : d ≤ w / 3) :
    (ideal3D c.ptrBits).fromGrid (.static w) g d o = (.obs .index, [(.static w, (ideal3D c.ptrBits).atGrid o g d)]) := if_pos h

theorem grid_static_err {w d : Nat} {g : Vector3 c.ptrBits} {o : OctantOrdering} (h : ¬ d ≤ w / 3) :
    (ideal3D c.ptrBits).fromGrid (.static w) g d o = (.err (.DepthLimitedExceeded (w / 3)), []) := if_neg h

theorem grid_dynamic {d : Nat} {g : Vector3 c.ptrBits} {o : OctantOrdering} (h : d ≤ c.ptrBits / 2) :
    (ideal3D c.ptrBits).fromGrid .dynamic g d o = (.obs .index, [(.dynamic, (ideal3D c.ptrBits).atGrid o g d)]) := if_pos h

theorem grid_dynamic_panic {d : Nat} {g : Vector3 c.ptrBits} {o : OctantOrdering} (h : ¬ d ≤ c.ptrBits / 2) :
    (ideal3D c.ptrBits).fromGrid .dynamic g d o = (.obs (.fault .panic), []) := if_neg h

theorem default_agrees (hc : c.Supported) {k : Kind} (hk : k.Valid) :
    Agrees3 c sc ((ideal3D c.ptrBits).build k []) (.obs .index, [default k]) := by
  cases k with
  | fixed w =>
    rw [build_fixed (Nat.zero_le _)]
    obtain ⟨m, h1, -, h2, h3⟩ := MortonIndex3D.fixed_tryFrom hc hk (cs := []) (Nat.zero_le _)
    have e : (Except.ok (Except.ok ⟨FixedDepthStorage3D.default w⟩) : Res (Except Error _)) = .ok (.ok m) := h1
    cases e
    exact agrees_one (congrArg (Kind.fixed w, ·) h3) (.fixedDefault w hk)
  | static w =>
    rw [build_static (Nat.zero_le _)]
    exact agrees_one rfl (.staticDefault w hk)
  | dynamic => exact agrees_one rfl .dynamicDefault

theorem tryFrom_agrees (hc : c.Supported) (hdw : DynWrites c) {k : Kind} (hk : k.Valid) (cs : List Octant)
    (hd : k = .dynamic → Addressable c (cs.length * 3)) :
    Agrees3 c sc ((ideal3D c.ptrBits).build k cs) (tryFromSlice c k cs) ∧
    Agrees3 c sc ((ideal3D c.ptrBits).build k cs) (tryFromArray c k cs) := by
  cases k with
  | fixed w =>
    simp only [tryFromSlice, tryFromArray]
    by_cases h : cs.length ≤ w / 3
    · obtain ⟨m, h1, h2, -, h3⟩ := MortonIndex3D.fixed_tryFrom hc hk h
      rw [h1, h2, build_fixed h]
      have := agrees_one (ok := Ok c sc) (tag := tag) (s := Seen.obs (Grid := Vector3 c.ptrBits) .index)
        (v := .fixed w m) (congrArg (Kind.fixed w, ·) h3) (.fixedTryFromSlice hk h1)
      exact ⟨this, this⟩
    · obtain ⟨h1, h2⟩ := MortonIndex3D.fixed_tryFrom_error (c := c) (w := w) (cs := cs) (show _ > _ from Nat.lt_of_not_le h)
      rw [h1, h2, build_fixed_err h]
      exact ⟨agrees_none, agrees_none⟩
  | static w =>
    simp only [tryFromSlice, tryFromArray]
    by_cases h : cs.length ≤ w / 3
    · obtain ⟨m, h1, h2, -, -, h3⟩ := MortonIndex3D.static_tryFrom hc hk h
      rw [h1, h2, build_static h]
      have := agrees_one (ok := Ok c sc) (tag := tag) (s := Seen.obs (Grid := Vector3 c.ptrBits) .index)
        (v := .static w m) (congrArg (Kind.static w, ·) h3) (.staticTryFromSlice hk h1)
      exact ⟨this, this⟩
    · obtain ⟨h1, h2⟩ := MortonIndex3D.static_tryFrom_error (c := c) (w := w) (cs := cs) (show _ > _ from Nat.lt_of_not_le h)
      rw [h1, h2, build_static_err h]
      exact ⟨agrees_none, agrees_none⟩
  | dynamic =>
    simp only [tryFromSlice, tryFromArray]
    obtain ⟨m, h1, h2, -, -, h3⟩ := MortonIndex3D.dynamic_tryFrom hc (hd rfl)
    rw [h1, h2]
    have := agrees_one (ok := Ok c sc) (tag := tag) (s := Seen.obs (Grid := Vector3 c.ptrBits) .index)
      (v := .dynamic m) (congrArg (Kind.dynamic, ·) (h3 hdw)) (.dynamicTryFromSlice (hd rfl) h1)
    exact ⟨this, this⟩

theorem zeroed_agrees {k : Kind} (hk : k.Valid) (d : Nat) (hd : k = .dynamic → Addressable c (d * 3)) :
    Agrees3 c sc ((ideal3D c.ptrBits).zeroed k d) (zeroed c k d) := by
  cases k with
  | fixed w => exact agrees_none
  | static w =>
    simp only [zeroed]
    by_cases h : d ≤ w / 3
    · have h' : ¬ d > StaticStorage.MAX_LEVELS w Octant := by change ¬ d > w / 3; omega
      have e : MortonIndex3D.staticZeroed w d = some ⟨⟨0#w, d⟩⟩ := by simp [MortonIndex3D.staticZeroed, h']
      rw [e, zeroed_static h]
      exact agrees_one (congrArg (Kind.static w, ·) (StaticStorage3D.zero_path d h)) (.staticZeroed hk e)
    · have h' : d > StaticStorage.MAX_LEVELS w Octant := by change d > w / 3; omega
      have e : MortonIndex3D.staticZeroed w d = none := by simp [MortonIndex3D.staticZeroed, h']
      rw [e, zeroed_static_none h]
      exact agrees_none
  | dynamic =>
    obtain ⟨e, -⟩ := MortonIndex3D.dynamic_zeroed_ok (c := c) d (hd rfl)
    have e' : MortonIndex3D.dynamicZeroed c d = .ok ⟨⟨List.replicate (DynamicStorage3D.numBytes d) 0#8, d⟩⟩ := by
      rw [MortonIndex3D.dynamicZeroed, e]; rfl
    simp only [zeroed, e']
    exact agrees_one (congrArg (Kind.dynamic, ·) (DynamicStorage3D.zero_path _ _ (Nat.le_refl _))) (.dynamicZeroed (hd rfl) e')

theorem fromGrid_agrees (hc : c.Supported) (hdw : DynWrites c) {k : Kind} (hk : k.Valid) (g : Vector3 c.ptrBits) (d : Nat)
    (o : OctantOrdering) (hd : gridWorks3D c k d) :
    Agrees3 c sc ((ideal3D c.ptrBits).fromGrid k g d o) (fromGrid c k g d o) := by
  have hW : 3 ≤ c.ptrBits := by rcases hc with h | h | h <;> omega
  cases k with
  | fixed w =>
    obtain ⟨m, h1, h2, h3⟩ := MortonIndex3D.fixedFromGridIndex_ok hc hk (by have := hd.1; omega) hd.2 g o
    simp only [Ideal.fromGrid, fromGrid, h1]
    exact agrees_one (congrArg (Kind.fixed w, ·) (at_unique hW (gridList_of3 rfl h3) (path_length _))) (.fixedFromGrid hk h1)
  | static w =>
    simp only [fromGrid]
    by_cases h : d ≤ w / 3
    · obtain ⟨m, h1, h2, -, h3⟩ := MortonIndex3D.staticFromGridIndex_ok hc hk (hd h).1 g d h
        (.inl (shift_fits hc hk (hd h).1)) o
      have h3 := gridPath3_of_exact h (hd h).2 h3
      rw [h1, grid_static h]
      exact agrees_one (congrArg (Kind.static w, ·) (at_unique hW (gridList_of3 h2 h3) ((path_length _).trans h2)))
        (.staticFromGrid hk h1)
    · rw [grid_static_err h, MortonIndex3D.staticFromGridIndex_error g d (show _ > _ from Nat.lt_of_not_le h) o]
      exact agrees_none
  | dynamic =>
    simp only [fromGrid]
    by_cases h : d ≤ c.ptrBits / 2
    · obtain ⟨m, h1, h2, -, h3⟩ := MortonIndex3D.dynamicFromGridIndex_ok hc g d h o
      rw [h1, grid_dynamic h]
      exact agrees_one (congrArg (Kind.dynamic, ·) (at_unique hW (gridList_of3 h2 (h3 hdw)) ((path_length _).trans h2)))
        (.dynamicFromGrid h1)
    · rw [grid_dynamic_panic h, MortonIndex3D.dynamicFromGridIndex_panic g d (Nat.lt_of_not_le h) o]
      exact agrees_none

theorem fromGridFast_agrees (hc : c.Supported) (g : Vector3 c.ptrBits) (o : OctantOrdering) (hd : gridWorks3D c (.fixed 64) 0) :
    Agrees3 c sc ((ideal3D c.ptrBits).fromGridFast g o) (fromGridFast c g o) := by
  have hW : 3 ≤ c.ptrBits := by have := hd.1; omega
  have hW21 : 21 < c.ptrBits := by have := hd.1; omega
  obtain ⟨m, h1, h2, h3⟩ := MortonIndex3D.fixedFromGridIndex_ok hc (w := 64) (by decide) (by omega) hd.2 g o
  rw [← MortonIndex3D.fixedFromGridIndexFast_eq hc hW21] at h1
  simp only [Ideal.fromGridFast, ideal3D, Ideal.fromGrid, fromGridFast, h1]
  exact agrees_one (congrArg (Kind.fixed 64, ·) (at_unique hW (gridList_of3 rfl h3) (path_length _))) (.fixedFromGridFast h1)

theorem fromRaw_agrees {k : Kind} (b d : Nat)
    (hx : Call.Regular c (ideal3D c.ptrBits) (rules3D c sc) (.fromRaw k b d) []) :
    Agrees3 c sc ((ideal3D c.ptrBits).fromRaw k b d) (fromRaw c k b d) := by
  cases k with
  | fixed w =>
    obtain ⟨hw, hb, hz⟩ := hx
    have hv : (BitVec.ofNat w b).toNat = b := by rw [BitVec.toNat_ofNat, Nat.mod_eq_of_lt hb]
    exact agrees_one (congrArg (Kind.fixed w, ·) (raw_cells rfl rfl hv)) (.fixedFromRaw hw (by rw [hv]; exact hz))
  | static w =>
    obtain ⟨hw, hb, hd, hz⟩ := hx
    have hv : (BitVec.ofNat w b).toNat = b := by rw [BitVec.toNat_ofNat, Nat.mod_eq_of_lt hb]
    exact agrees_one (congrArg (Kind.static w, ·) (raw_cells rfl rfl hv)) (.staticFromRaw hw hd (by rw [hv]; exact hz))
  | dynamic => exact agrees_none

theorem onOne_agrees (hc : c.Supported) (hdw : DynWrites c) {env : List AnyIndex3D} {i : AnyIndex3D} (hi : Ok c sc i) (op : Op Octant)
    (h2 : op.args.2 = none) (hf : Call.Regular c (ideal3D c.ptrBits) (rules3D c sc) (.op op)
      (env.map tag)) (h1 : env[op.args.1]? = some i) :
    Agrees3 c sc ((ideal3D c.ptrBits).onOne (tag i).1 (tag i).2 op) (onOne c i op) := by
  simp only [Call.Regular, List.getElem?_map, h1, Option.map_some] at hf
  cases i with
  | fixed w m =>
    exact onFixed_agrees (fixed_list3 hc) (iterates_of3 hc (fixed_wf3 hc) (fixed_depth_lt3 hc)) hi op h2 (AnyIndex3D.fixed w) (.fixed w)
      (tag := tag) (fun _ => rfl) (fun _ h => h)
  | static w m =>
    exact onVariable_agrees (static_list3 hc) (static_anc3 hc) (static_desc3 hc)
      (iterates_of3 hc (static_wf3 hc) (static_depth_lt3 hc)) (fun _ _ _ h => h) hi op h2 hf.1 (AnyIndex3D.static w) (.static w)
      (fun _ => rfl) (fun _ h => h)
  | dynamic m =>
    exact onVariable_agrees (dynamic_list3 hc hdw) (dynamic_anc3 hc) (dynamic_desc3 hc hdw)
      (iterates_of3 hc (dynamic_wf3 hc) (dynamic_depth_lt3 hc))
      (fun m hm n h => by
        rw [dynRoom3, (dynamic_list3 hc hdw).depth_eq m hm]
        exact h) hi op h2 hf.1 AnyIndex3D.dynamic .dynamic (fun _ => rfl) (fun _ h => h)

theorem onTwo_agrees (hc : c.Supported) {i j : AnyIndex3D} (hi : Ok c sc i) (hj : Ok c sc j) (op : Op Octant)
    (h2 : op.args.2 ≠ none) (hR : (rules3D c sc).pairs (tag i).1 op) :
    Agrees3 c sc (if (tag i).1 = (tag j).1 then (.obs (stepLists octantKey (tag i).2 (tag j).2 op), []) else (.notOffered, []))
      (onTwo c i j op) := by
  cases i with
  | fixed w m =>
    cases j with
    | fixed w' m' =>
      by_cases h : w' = w
      · subst h
        simp only [onTwo, tag, dite_true, if_true]
        exact MortonRs.onTwo_agrees (ok := fun m => Reach3D c sc (.fixed w' m)) (p := cells3) (rules3D c sc) (.fixed w')
          (fun h => by cases h ⟨_, rfl⟩; exact fixed_cmp3 hc) (fun h => by cases h; exact fixed_eq3 hc) hi hj op h2 hR
      · rw [if_neg (show ¬ (tag (.fixed w m)).1 = (tag (.fixed w' m')).1 from fun e => h (by cases e; rfl)), onTwo, dif_neg h]
        exact agrees_none
    | static => exact agrees_none
    | dynamic => exact agrees_none
  | static w m =>
    cases j with
    | static w' m' =>
      by_cases h : w' = w
      · subst h
        simp only [onTwo, tag, dite_true, if_true]
        exact MortonRs.onTwo_agrees (rules3D c sc) _ (fun h => static_cmp3 hc) (fun h => by cases h; exact static_eq3 hc) hi hj op h2 hR
      · rw [if_neg (show ¬ (tag (.static w m)).1 = (tag (.static w' m')).1 from fun e => h (by cases e; rfl)), onTwo, dif_neg h]
        exact agrees_none
    | fixed => exact agrees_none
    | dynamic => exact agrees_none
  | dynamic m =>
    cases j with
    | dynamic m' =>
      simp only [onTwo, tag, if_true]
      exact MortonRs.onTwo_agrees (rules3D c sc) _ (fun h => dynamic_cmp3 hc) (fun h => by cases h; exact dynamic_eq3 hc) hi hj op h2 hR
    | fixed => exact agrees_none
    | static => exact agrees_none

theorem partialCmp_agrees (hc : c.Supported) {i j : AnyIndex3D} (hi : Ok c sc i) (hj : Ok c sc j)
    (hR : (rules3D c sc).cmps (tag i).1) :
    Agrees3 c sc (if (tag i).1 = (tag j).1 then (.order (some (pathCmp octantKey (tag i).2 (tag j).2)), []) else (.notOffered, []))
      (partialCmp c i j) := by
  cases i with
  | fixed w m =>
    cases j with
    | fixed w' m' =>
      by_cases h : w' = w
      · subst h
        simp only [partialCmp, tag, dite_true, if_true]
        cases hR ⟨_, rfl⟩
        exact partial_agrees (fixed_cmp3 hc) hi hj
      · rw [if_neg (show ¬ (tag (.fixed w m)).1 = (tag (.fixed w' m')).1 from fun e => h (by cases e; rfl)), partialCmp, dif_neg h]
        exact agrees_none
    | static => exact agrees_none
    | dynamic => exact agrees_none
  | static w m =>
    cases j with
    | static w' m' =>
      by_cases h : w' = w
      · subst h
        simp only [partialCmp, tag, dite_true, if_true]
        exact partial_agrees (static_cmp3 hc) hi hj
      · rw [if_neg (show ¬ (tag (.static w m)).1 = (tag (.static w' m')).1 from fun e => h (by cases e; rfl)), partialCmp, dif_neg h]
        exact agrees_none
    | fixed => exact agrees_none
    | dynamic => exact agrees_none
  | dynamic m =>
    cases j with
    | dynamic m' =>
      simp only [partialCmp, tag, if_true]
      exact partial_agrees (dynamic_cmp3 hc) hi hj
    | fixed => exact agrees_none
    | static => exact agrees_none

theorem toGrid_agrees (hc : c.Supported) {i : AnyIndex3D} (hi : Ok c sc i) (o : OctantOrdering) (hd : (tag i).2.length ≤ c.ptrBits) :
    Agrees3 c sc (.grid ((ideal3D c.ptrBits).toGrid o (tag i).2), []) (seenValue .grid (i.grid c o)) := by
  have key : ∀ {S : Type} [Storage S Octant] [BitStorage S Octant] (m : MortonIndex3D S), WF c m.storage →
      (path m.storage).length ≤ c.ptrBits → m.toGridIndex c o = .ok ((ideal3D c.ptrBits).toGrid o (path m.storage)) := by
    intro S _ _ m h hl
    obtain ⟨v, h1, h2, h3, h4⟩ := toGridIndex_binary3 hc h (by rwa [path_length] at hl) o
    rw [h1]
    simp only [ideal3D, ← h2, ← h3, ← h4, BitVec.ofNat_toNat, BitVec.setWidth_eq]
  cases i with
  | fixed w m => rw [AnyIndex3D.grid, key m (fixed_wf3 hc m hi) hd]; exact agrees_none
  | static w m => rw [AnyIndex3D.grid, key m (static_wf3 hc m hi) hd]; exact agrees_none
  | dynamic m => rw [AnyIndex3D.grid, key m (dynamic_wf3 hc m hi) hd]; exact agrees_none

theorem toString_agrees (hc : c.Supported) {i : AnyIndex3D} (hi : Ok c sc i) (n : MortonIndexNaming)
    (hd : n = .GridIndex → (tag i).2.length ≤ c.ptrBits) :
    Agrees3 c sc (.text ((ideal3D c.ptrBits).text n (tag i).2), []) (seenValue .text (i.name c n)) := by
  have key : ∀ {S : Type} [Storage S Octant] [BitStorage S Octant] (m : MortonIndex3D S), WF c m.storage →
      (n = .GridIndex → (path m.storage).length ≤ c.ptrBits) →
      m.toString c n = .ok ((ideal3D c.ptrBits).text n (path m.storage)) := by
    intro S _ _ m h hl
    cases n with
    | CellConcatenation => exact cellConcatenation_ok3 hc h
    | CellConcatenationWithRoot => rw [MortonIndex3D.toString, cellConcatenation_ok3 hc h]; rfl
    | GridIndex => exact gridString_ok3 hc h (by rw [← path_length m.storage]; exact hl rfl)
  cases i with
  | fixed w m =>
    have e : MortonIndex.toString c m n = _ := key m (fixed_wf3 hc m hi) hd
    rw [AnyIndex3D.name, e]
    exact agrees_none
  | static w m =>
    have e : MortonIndex.toString c m n = _ := key m (static_wf3 hc m hi) hd
    rw [AnyIndex3D.name, e]
    exact agrees_none
  | dynamic m =>
    have e : MortonIndex.toString c m n = _ := key m (dynamic_wf3 hc m hi) hd
    rw [AnyIndex3D.name, e]
    exact agrees_none

/-- Without stray bits and with nothing but `Zero` cells, no bit is set. -/
theorem value_zero {s : DynamicStorage3D} (h : DynamicStorage3D.Canon c s) (hz : ∀ x ∈ path s, x = .Zero) : value s = 0 := by
  have hb := bits_zero_of_slots (s := s) (a := 0) h.inv.wf.depth_le (fun k _ hk => hz _ (by
    have : k < (path s).length := by rw [path_length]; exact hk
    rw [← path_getElem s k this]
    exact List.getElem_mem _)) h.tail
  apply Nat.eq_of_testBit_eq
  intro i
  rw [Nat.zero_testBit]
  by_cases hi : i < width s
  · exact hb i (by omega)
  · exact Nat.testBit_lt_two_pow (Nat.lt_of_lt_of_le (leValue_lt s.bits) (Nat.pow_le_pow_right (by decide) (by
      have : width s = 8 * s.bits.length := rfl
      omega)))

theorem convert_agrees (hc : c.Supported) (hdw : DynWrites c) {i : AnyIndex3D} (hi : Ok c sc i) {k : Kind} (hk : k.Valid)
    (hd : ∀ w cs, k = .fixed w → tag i = (.dynamic, cs) → cs.length ≤ w / 3 →
      sc = .canonical ∧ c.bigEndian = false ∧ ((cs.length * 3 + 7) / 8 = w / 8 ∨ ∀ x ∈ cs, x = .Zero))
    (hs : ∀ w w' cs, k = .fixed w → tag i = (.static w', cs) → sc = .canonical) :
    Agrees3 c sc ((ideal3D c.ptrBits).convert (tag i).1 (tag i).2 k) (convert c i k) := by
  cases i with
  | fixed w m =>
    have hw : IntWidth w := (reach3D_good hc hi).1
    cases k with
    | fixed => exact agrees_none
    | static w' =>
      by_cases h : w = w'
      · subst h
        simp only [Ideal.convert, convert, tag, if_true]
        rw [build_static (cs := cells3 m) (Nat.le_of_eq (path_length m.storage))]
        exact agrees_one (congrArg (Kind.static w, ·) (MortonIndex3D.fixedToStatic_ok (c := c) hw m).2.1) (.fixedToStatic hi)
      · simp only [Ideal.convert, convert, tag, if_neg h]
        exact agrees_none
    | dynamic =>
      exact agrees_one (congrArg (Kind.dynamic, ·) (MortonIndex3D.fixedToDynamic_ok hc hw m).2.1) (.fixedToDynamic hi)
  | static w m =>
    have hwf := static_wf3 hc m hi
    have hw : IntWidth w := hwf.fit
    cases k with
    | static => exact agrees_none
    | fixed w' =>
      by_cases h : w = w'
      · subst h
        simp only [Ideal.convert, convert, tag, if_true]
        rw [build_fixed (by rw [cells3, path_length]; exact (StaticStorage3D.wf_iff hw _).mp hwf)]
        cases hs w w _ rfl rfl
        refine agrees_one ?_ (.staticToFixed hi)
        have := ((MortonIndex3D.staticToFixed_ok hw hwf).2 ((reach3D_good hc hi).2 rfl)).2
        rw [← path_length m.storage] at this
        exact congrArg (Kind.fixed w, ·) this
      · simp only [Ideal.convert, convert, tag, if_neg h]
        exact agrees_none
    | dynamic =>
      obtain ⟨m', h1, -, -, h3⟩ := MortonIndex3D.staticToDynamic_ok hc hwf
      simp only [Ideal.convert, convert, tag, Ideal.build, h1]
      exact agrees_one (congrArg (Kind.dynamic, ·) (h3 hdw)) (.staticToDynamic hi h1)
  | dynamic m =>
    have hwf := dynamic_wf3 hc m hi
    cases k with
    | dynamic => exact agrees_none
    | static w =>
      simp only [Ideal.convert, convert, tag]
      by_cases h : (cells3 m).length ≤ w / 3
      · obtain ⟨m', h1, -, -, h3⟩ := MortonIndex3D.dynamicToStatic_ok hc hk hwf (by rw [cells3, path_length] at h; exact h)
        rw [h1, build_static h]
        exact agrees_one (congrArg (Kind.static w, ·) h3) (.dynamicToStatic hk hi h1)
      · rw [MortonIndex3D.dynamicToStatic_error (c := c) (w := w) (m := m)
          (by rw [cells3, path_length] at h; exact Nat.lt_of_not_le h), build_static_err h]
        exact agrees_none
    | fixed w =>
      simp only [Ideal.convert, convert, tag]
      by_cases h : (cells3 m).length ≤ w / 3
      · obtain ⟨rfl, hle, hb⟩ := hd w _ rfl rfl h
        obtain ⟨f, h1, h2⟩ := MortonIndex3D.dynamicToFixed_keeps hk hle ((reach3D_good hc hi).2 rfl)
          (by rw [cells3, path_length] at h; exact h)
        rw [h1, build_fixed h]
        refine agrees_one ?_ ?_
        rotate_left
        · rcases hb with hb | hb
          · exact .dynamicToFixed hk hi (.inr ⟨hle, by
              have h8 := hk.mod8
              have hdep : depth m = (cells3 m).length := (path_length m.storage).symm
              rw [hdep]
              generalize (cells3 m).length = n at *
              have e8 : (8 - n * 3 % 8) % 8 = 8 * ((n * 3 + 7) / 8) - n * 3 := by omega
              rw [e8, hb]
              rcases hk with e | e | e | e | e <;> subst e <;> omega⟩) h1
          · have hcan : DynamicStorage3D.Canon c m.storage := (reach3D_good hc hi).2 rfl
            obtain ⟨f', e1, e2⟩ := MortonIndex3D.dynamicToFixed_value hk hle hcan (by rw [cells3, path_length] at h; exact h)
            rw [h1] at e1
            cases e1
            have hv : value f.storage = 0 := e2.trans (value_zero hcan hb)
            have hf : f = ⟨FixedDepthStorage3D.default w⟩ := by
              obtain ⟨⟨b⟩⟩ := f
              have : b = 0#w := BitVec.eq_of_toNat_eq hv
              rw [this]; rfl
            rw [hf]
            exact .fixedDefault w hk
        have h3 := h2.mpr (by rw [cells3, path_length] at hb; exact hb)
        have e : m.storage.depth = (cells3 m).length := (path_length m.storage).symm
        rw [e] at h3
        exact congrArg (Kind.fixed w, ·) h3
      · rw [MortonIndex3D.dynamicToFixed_error (c := c) (w := w) (m := m)
          (by rw [cells3, path_length] at h; exact Nat.lt_of_not_le h), build_fixed_err h]
        exact agrees_none

theorem step_agrees (hc : c.Supported) (hdw : DynWrites c) (x : Call Octant OctantOrdering (Vector3 c.ptrBits))
    (env : List AnyIndex3D) (henv : ∀ i ∈ env, Ok c sc i)
    (hx : x.Regular c (ideal3D c.ptrBits) (rules3D c sc) (env.map tag)) :
    StepAgrees (ideal3D c.ptrBits) (step c) tag (Ok c sc) x env := by
  change Agrees3 c sc ((ideal3D c.ptrBits).step x (env.map tag)) (step c x env)
  cases x with
  | default k => exact default_agrees hc hx
  | tryFromSlice k cs => exact (tryFrom_agrees hc hdw hx.1 cs hx.2).1
  | tryFromArray k cs => exact (tryFrom_agrees hc hdw hx.1 cs hx.2).2
  | zeroed k d => exact zeroed_agrees hx.1 d fun e => (hx.2 e).1
  | fromGrid k g d o => exact fromGrid_agrees hc hdw hx.1 g d o hx.2
  | fromGridFast g o => exact fromGridFast_agrees hc g o (hx 64 rfl)
  | fromRaw k b d => exact fromRaw_agrees b d hx
  | op op =>
    simp only [Ideal.step, step, List.getElem?_map]
    cases h1 : env[op.args.1]? with
    | none => exact agrees_none
    | some i =>
      have hi := henv i (List.mem_of_getElem? h1)
      cases h2 : op.args.2 with
      | none => exact onOne_agrees hc hdw hi op h2 hx h1
      | some j =>
        simp only [Option.map_some]
        cases h3 : env[j]? with
        | none => exact agrees_none
        | some j =>
          refine onTwo_agrees hc hi (henv j (List.mem_of_getElem? h3)) op (by rw [h2]; simp) ?_
          simp only [Call.Regular, List.getElem?_map, h1, Option.map_some] at hx
          cases i with
          | fixed => exact hx
          | static => exact hx.2
          | dynamic => exact hx.2
  | partialCmp i j =>
    simp only [Ideal.step, step, List.getElem?_map]
    cases h1 : env[i]? with
    | none => exact agrees_none
    | some i =>
      cases h2 : env[j]? with
      | none => exact agrees_none
      | some j =>
        simp only [Call.Regular, List.getElem?_map, h1, Option.map_some] at hx
        exact partialCmp_agrees hc (henv i (List.mem_of_getElem? h1)) (henv j (List.mem_of_getElem? h2)) hx
  | toGrid i o =>
    simp only [Ideal.step, step, List.getElem?_map]
    simp only [Call.Regular, List.getElem?_map] at hx
    cases h1 : env[i]? with
    | none => exact agrees_none
    | some i =>
      simp only [h1, Option.map_some] at hx
      exact toGrid_agrees hc (henv i (List.mem_of_getElem? h1)) o hx
  | toString i n =>
    simp only [Ideal.step, step, List.getElem?_map]
    cases h1 : env[i]? with
    | none => exact agrees_none
    | some j =>
      refine toString_agrees hc (henv j (List.mem_of_getElem? h1)) n fun e => ?_
      subst e
      simp only [Call.Regular, List.getElem?_map, h1, Option.map_some] at hx
      exact hx
  | convert i k =>
    simp only [Ideal.step, step, List.getElem?_map]
    cases h1 : env[i]? with
    | none => exact agrees_none
    | some j =>
      refine convert_agrees hc hdw (henv j (List.mem_of_getElem? h1)) hx.1 (fun w cs e1 e2 h => ?_) (fun w w' cs e1 e2 => ?_)
      · subst e1
        have := hx.2
        rw [List.getElem?_map, h1, Option.map_some, e2] at this
        exact this h
      · subst e1
        have := hx.2
        rw [List.getElem?_map, h1, Option.map_some, e2] at this
        exact this

end Program3D

/-- **C82**, 3D: whatever a program of API calls over all index types observes is what the same program observes on types
with lists of cells, as long as its calls are regular. A program either makes no stray bits (`.canonical`) or does without the calls
that show them (`.all`). -/
theorem C82_programs_3D (sc : Scope) (hc : c.Supported) (hdw : DynWrites c)
    (xs : List (Call Octant OctantOrdering (Vector3 c.ptrBits)))
    (hr : RegularCalls c (ideal3D c.ptrBits) (rules3D c sc) xs []) :
    runCalls (Program3D.step c) xs [] = runCalls (ideal3D c.ptrBits).step xs [] :=
  runCalls_agrees (Program3D.step_agrees hc hdw) xs [] (by simp) hr

/-- A program that makes a dynamic index, converts it, descends, converts the result twice more, compares, asks for the grid
position and the string, makes indices of other types from grid positions and integers, and asks for things that do not exist. -/
def exCalls3 : List (Call Octant OctantOrdering (Vector3 x64.ptrBits)) :=
  [.tryFromSlice .dynamic [.Three, .One, .Six], .convert 0 (.static 16), .op (.child 1 .Five), .convert 2 (.fixed 16),
    .toGrid 2 .XYZ, .op (.cmp 1 2), .partialCmp 1 0, .toString 2 .CellConcatenationWithRoot, .convert 3 .dynamic, .convert 4 (.static 8),
    .op (.parent 3), .fromGrid (.static 16) ⟨5#64, 6#64, 3#64⟩ 3 .XYZ, .fromRaw (.static 16) 0xA700 3, .op (.eq 5 6),
    .fromGridFast ⟨1#64, 2#64, 4#64⟩ .ZYX, .op (.get 7 20), .zeroed .dynamic 8, .convert 8 (.fixed 32), .fromRaw .dynamic 5 1, .op (.get 9 10)]

example : runCalls (Program3D.step x64) exCalls3 [] = runCalls (ideal3D x64.ptrBits).step exCalls3 [] :=
  C82_programs_3D .canonical x64_supported x64_writes exCalls3 (by
    have h : ∀ n, n ≤ 64 → Addressable x64 n := fun n hn => by unfold Addressable; change n + 64 < 2 ^ 64; omega
    have h8 : IntWidth 8 := by decide
    have h16 : IntWidth 16 := by decide
    have h32 : IntWidth 32 := by decide
    refine ⟨⟨trivial, fun _ => h _ (by decide)⟩, ⟨h16, trivial⟩, ⟨(by decide : 1 < 2 ^ 63), trivial⟩, ⟨h16, rfl⟩, (by decide : 4 ≤ 64),
      ⟨trivial, fun _ => rfl⟩, fun _ => rfl, trivial, ⟨trivial, trivial⟩, ⟨h8, trivial⟩, trivial, ⟨h16, fun _ => by decide⟩,
      ⟨h16, by decide, by decide, .inr (by decide)⟩, ⟨trivial, rfl⟩, fun _ e => by cases e; exact (by decide : 32 ≤ 64 ∧ 64 / 3 < 64), trivial,
      ⟨trivial, fun _ => ⟨h _ (by decide), trivial⟩⟩, ⟨h32, fun _ => ⟨rfl, rfl, .inr ?_⟩⟩, trivial, trivial, trivial⟩
    decide)

/-- A program with stray bits: an integer with bits behind its cells, its child, and conversions. -/
def exStrayCalls3 : List (Call Octant OctantOrdering (Vector3 x64.ptrBits)) :=
  [.fromRaw (.static 16) 0xFFFF 2, .op (.child 0 .One), .op (.parent 1), .op (.cmp 0 2), .convert 1 .dynamic, .fromRaw (.fixed 16) 0x0003 0,
    .convert 4 (.static 16), .toString 1 .CellConcatenation, .op (.get 5 4)]

example : runCalls (Program3D.step x64) exStrayCalls3 [] = runCalls (ideal3D x64.ptrBits).step exStrayCalls3 [] :=
  C82_programs_3D .all x64_supported x64_writes exStrayCalls3 (by
    have h16 : IntWidth 16 := by decide
    exact ⟨⟨h16, by decide, by decide, .inl rfl⟩, ⟨(by decide : 1 < 2 ^ 63), trivial⟩, ⟨trivial, trivial⟩,
      ⟨trivial, fun ⟨_, e⟩ => nomatch e⟩, ⟨trivial, trivial⟩, ⟨h16, by decide, .inl rfl⟩, ⟨h16, trivial⟩, trivial, ⟨trivial, trivial⟩,
      trivial⟩)

example : runCalls (ideal3D x64.ptrBits).step exStrayCalls3 [] =
    [.obs .index, .obs .index, .obs .index, .obs (.ordering .eq), .obs .index, .obs .index, .obs .index, .text "771", .obs (.cell .One)] := by
  decide +kernel

/-- Conversion to a fixed-depth index would make the claim false: it shows the bits behind the cells. -/
example : runCalls (Program3D.step x64) [.fromRaw (.static 16) 0xFFFF 2, .convert 0 (.fixed 16), .op (.get 1 4)] [] ≠
    runCalls (ideal3D x64.ptrBits).step [.fromRaw (.static 16) 0xFFFF 2, .convert 0 (.fixed 16), .op (.get 1 4)] [] := by
  decide +kernel

/-- What is seen. The fixed-depth index has been filled up with a zero, so its dynamic copy is too deep for an `u8`; a
fixed-depth index has no parent; dynamic indices are not made from integers. -/
example : runCalls (ideal3D x64.ptrBits).step exCalls3 [] =
    [.obs .index, .obs .index, .obs .index, .obs .index, .grid ⟨13#64, 10#64, 3#64⟩, .obs (.ordering .lt), .notOffered, .text "r3165",
      .obs .index, .err (.DepthLimitedExceeded 2), .notOffered, .obs .index, .obs .index, .obs (.bool false), .obs .index,
      .obs (.cell .Four), .obs .index, .obs .index, .notOffered, .obs (.fault .panic)] := by
  decide +kernel

end MortonRs
