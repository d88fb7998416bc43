import Verif.Props.Machine

/-! # Programs over all index types (C82): the calls and their meaning on lists

A program is a list of calls of the safe API. It starts with nothing: the values it works on are the indices its own calls
return, named by their positions. A value is an index of any of the types; calls on the same position may convert between them.
`Ideal.step` says what each call means when an index is nothing but its type and its list of cells. -/

namespace MortonRs

open MortonIndex VariableDepthMortonIndex

/-- The index types of one dimension: fixed depth, static and dynamic; `w` is the width of the integer type. -/
inductive Kind where
  | fixed (w : Nat)
  | static (w : Nat)
  | dynamic
  deriving DecidableEq

/-- The integer type exists. -/
def Kind.Valid : Kind → Prop
  | .fixed w | .static w => IntWidth w
  | .dynamic => True

/-- The greatest depth of a type, `D` being the dimension. -/
def Kind.limit (D : Nat) : Kind → Option Nat
  | .fixed w | .static w => some (w / D)
  | .dynamic => none

/-- One call. `i` and `j` are positions of values; `op` is one of the calls of `Op` (`set` works on a copy). -/
inductive Call (Cell Order Grid : Type) where
  | default (k : Kind)
  | tryFromSlice (k : Kind) (cs : List Cell)
  | tryFromArray (k : Kind) (cs : List Cell)
  | zeroed (k : Kind) (d : Nat)
  | fromGrid (k : Kind) (g : Grid) (d : Nat) (o : Order)
  | fromGridFast (g : Grid) (o : Order)
  | fromRaw (k : Kind) (b : Nat) (d : Nat)
  | op (op : Op Cell)
  | partialCmp (i j : Nat)
  | toGrid (i : Nat) (o : Order)
  | toString (i : Nat) (naming : MortonIndexNaming)
  | convert (i : Nat) (k : Kind)

/-- What a caller sees of one call. `notOffered`: the API has no such function (the program does not compile). -/
inductive Seen (Cell Grid : Type) where
  | obs (o : Obs Cell)
  | err (e : Error)
  | order (o : Option Ordering)
  | grid (g : Grid)
  | text (s : String)
  | notOffered
  deriving DecidableEq

section
variable {Cell Order Grid V : Type}

/-- Run a program; `step` gives what is seen of one call and the values it returns. -/
def runCalls (step : Call Cell Order Grid → List V → Seen Cell Grid × List V) :
    List (Call Cell Order Grid) → List V → List (Seen Cell Grid)
  | [], _ => []
  | x :: xs, env => (step x env).1 :: runCalls step xs (env ++ (step x env).2)

/-- Calls that only the variable-depth types have. -/
def Op.navigates : Op Cell → Bool
  | .ancestor .. | .parent .. | .withDepth .. | .descendant .. | .child .. => true
  | _ => false

/-- What a dimension contributes: the number of bits of a cell, the cell `Zero`, the order of the cells, the grid position of a
path, the path of a grid position with a given depth, the depth up to which dynamic indices are made from grid positions, the
integer type that has `from_grid_index_fast`, the cells of an integer (its width, its value and a depth; where `from_raw_index`
exists), and the strings. -/
structure Ideal (Cell Order Grid : Type) where
  dim : Nat
  zero : Cell
  key : Cell → Nat
  toGrid : Order → List Cell → Grid
  atGrid : Order → Grid → Nat → List Cell
  gridLimit : Nat
  fastWidth : Option Nat
  rawCells : Option (Nat → Nat → Nat → List Cell)
  text : MortonIndexNaming → List Cell → String

/-- A new value of the given type made from cells: fixed-depth indices are filled up with `Zero`. -/
def Ideal.build (I : Ideal Cell Order Grid) (k : Kind) (cs : List Cell) : Seen Cell Grid × List (Kind × List Cell) :=
  match k with
  | .fixed w =>
    if cs.length ≤ w / I.dim then (.obs .index, [(k, cs ++ List.replicate (w / I.dim - cs.length) I.zero)])
    else (.err (.DepthLimitedExceeded (w / I.dim)), [])
  | .static w =>
    if cs.length ≤ w / I.dim then (.obs .index, [(k, cs)]) else (.err (.DepthLimitedExceeded (w / I.dim)), [])
  | .dynamic => (.obs .index, [(k, cs)])

/-- `zeroed` of the given type; fixed-depth indices do not have it. -/
def Ideal.zeroed (I : Ideal Cell Order Grid) (k : Kind) (d : Nat) : Seen Cell Grid × List (Kind × List Cell) :=
  match k with
  | .fixed _ => (.notOffered, [])
  | .static w => if d ≤ w / I.dim then (.obs .index, [(k, List.replicate d I.zero)]) else (.obs .none, [])
  | .dynamic => (.obs .index, [(k, List.replicate d I.zero)])

/-- `from_grid_index` of the given type; the one of fixed-depth indices has no depth argument. -/
def Ideal.fromGrid (I : Ideal Cell Order Grid) (k : Kind) (g : Grid) (d : Nat) (o : Order) :
    Seen Cell Grid × List (Kind × List Cell) :=
  match k with
  | .fixed w => (.obs .index, [(k, I.atGrid o g (w / I.dim))])
  | .static w =>
    if d ≤ w / I.dim then (.obs .index, [(k, I.atGrid o g d)]) else (.err (.DepthLimitedExceeded (w / I.dim)), [])
  | .dynamic => if d ≤ I.gridLimit then (.obs .index, [(k, I.atGrid o g d)]) else (.obs (.fault .panic), [])

/-- `from_grid_index_fast`. -/
def Ideal.fromGridFast (I : Ideal Cell Order Grid) (g : Grid) (o : Order) : Seen Cell Grid × List (Kind × List Cell) :=
  match I.fastWidth with
  | some w => I.fromGrid (.fixed w) g 0 o
  | none => (.notOffered, [])

/-- `from_raw_index` of the given type; the one of fixed-depth indices has no depth argument. -/
def Ideal.fromRaw (I : Ideal Cell Order Grid) (k : Kind) (b d : Nat) : Seen Cell Grid × List (Kind × List Cell) :=
  match I.rawCells, k with
  | some r, .fixed w => (.obs .index, [(k, r w b (w / I.dim))])
  | some r, .static w => (.obs .index, [(k, r w b d)])
  | _, _ => (.notOffered, [])

/-- Conversion of a value of type `k` to type `k'`. The two types with an integer convert into each other only for the same
integer. -/
def Ideal.convert (I : Ideal Cell Order Grid) (k : Kind) (cs : List Cell) (k' : Kind) :
    Seen Cell Grid × List (Kind × List Cell) :=
  match k, k' with
  | .fixed w, .static w' => if w = w' then I.build k' cs else (.notOffered, [])
  | .static w, .fixed w' => if w = w' then I.build k' cs else (.notOffered, [])
  | .fixed _, .dynamic | .static _, .dynamic | .dynamic, .fixed _ | .dynamic, .static _ => I.build k' cs
  | _, _ => (.notOffered, [])

/-- An operation on one value. -/
def Ideal.onOne (I : Ideal Cell Order Grid) (k : Kind) (cs : List Cell) (op : Op Cell) :
    Seen Cell Grid × List (Kind × List Cell) :=
  match k with
  | .fixed _ =>
    if op.navigates then (.notOffered, []) else (.obs (stepList none cs op).1, (stepList none cs op).2.map (k, ·))
  | _ => (.obs (stepList (k.limit I.dim) cs op).1, (stepList (k.limit I.dim) cs op).2.map (k, ·))

/-- One call on values that are types with lists of cells. -/
def Ideal.step [DecidableEq Cell] (I : Ideal Cell Order Grid) (x : Call Cell Order Grid) (env : List (Kind × List Cell)) :
    Seen Cell Grid × List (Kind × List Cell) :=
  match x with
  | .default k => I.build k []
  | .tryFromSlice k cs => I.build k cs
  | .tryFromArray k cs => I.build k cs
  | .zeroed k d => I.zeroed k d
  | .fromGrid k g d o => I.fromGrid k g d o
  | .fromGridFast g o => I.fromGridFast g o
  | .fromRaw k b d => I.fromRaw k b d
  | .op op =>
    match env[op.args.1]?, op.args.2 with
    | none, _ => (.obs .noSuchValue, [])
    | some (k, cs), none => I.onOne k cs op
    | some (k, cs), some j =>
      match env[j]? with
      | none => (.obs .noSuchValue, [])
      | some (k', ds) => if k = k' then (.obs (stepLists I.key cs ds op), []) else (.notOffered, [])
  | .partialCmp i j =>
    match env[i]?, env[j]? with
    | some (k, cs), some (k', ds) => if k = k' then (.order (some (pathCmp I.key cs ds)), []) else (.notOffered, [])
    | _, _ => (.obs .noSuchValue, [])
  | .toGrid i o =>
    match env[i]? with
    | some (_, cs) => (.grid (I.toGrid o cs), [])
    | none => (.obs .noSuchValue, [])
  | .toString i naming =>
    match env[i]? with
    | some (_, cs) => (.text (I.text naming cs), [])
    | none => (.obs .noSuchValue, [])
  | .convert i k =>
    match env[i]? with
    | some (k', cs) => I.convert k' cs k
    | none => (.obs .noSuchValue, [])

/-- Where the library keeps what `Ideal.step` says: `works k d` for `from_grid_index` (C21-C26), `clean d` for `zeroed` of a dynamic
index (C46), `raw r` for an integer whose bits outside the cells are `r` (C49), `eqs` and `cmps` for `==` and for the comparisons of
a type (C16, C14), `toFixed` for conversions of a type to a fixed-depth one (C32, C33). -/
structure Rules where
  works : Kind → Nat → Prop
  clean : Nat → Prop
  raw : Nat → Prop
  eqs : Kind → Prop
  cmps : Kind → Prop
  toFixed : Kind → Prop

/-- The rules for an operation on two values. -/
def Rules.pairs (R : Rules) (k : Kind) : Op Cell → Prop
  | .eq _ _ => R.eqs k
  | .cmp _ _ => R.cmps k
  | _ => True

/-- The calls on which the library keeps what `Ideal.step` says; the others are the subject of the properties named here and
at `Rules`. -/
def Call.Regular (c : Cfg) (I : Ideal Cell Order Grid) (R : Rules) (x : Call Cell Order Grid) (env : List (Kind × List Cell)) : Prop :=
  match x with
  | .default k => k.Valid
  | .tryFromSlice k cs | .tryFromArray k cs => k.Valid ∧ (k = .dynamic → Addressable c (cs.length * I.dim))
  | .zeroed k d => k.Valid ∧ (k = .dynamic → Addressable c (d * I.dim) ∧ R.clean d)
  | .fromGrid k _ d _ => k.Valid ∧ R.works k d
  | .fromGridFast _ _ => ∀ w, I.fastWidth = some w → R.works (.fixed w) 0
  | .fromRaw k b d =>
      match k with
      | .fixed w => k.Valid ∧ b < 2 ^ w ∧ R.raw (b % 2 ^ (w % I.dim))
      | .static w => k.Valid ∧ b < 2 ^ w ∧ d ≤ w / I.dim ∧ R.raw (b % 2 ^ (w - I.dim * d))
      | .dynamic => True
  | .op a =>
      match env[a.args.1]? with
      | some (.fixed w, _) => R.pairs (.fixed w) a
      | some (.static w, cs) => a.fits (fun _ n => n < 2 ^ (c.ptrBits - 1)) cs.length ∧ R.pairs (.static w) a
      | some (.dynamic, cs) => a.fits (fun d n => Addressable c ((d + n) * I.dim)) cs.length ∧ R.pairs .dynamic a
      | none => True
  | .partialCmp i _ =>
      match env[i]? with
      | some (k, _) => R.cmps k
      | none => True
  -- the coordinates fit (C36, C40)
  | .toGrid i _ | .toString i .GridIndex =>
      match env[i]? with
      | some (_, cs) => cs.length ≤ c.ptrBits
      | none => True
  | .toString _ _ => True
  -- where dynamic indices can be converted to fixed-depth ones (C33)
  | .convert i k => k.Valid ∧
      match env[i]?, k with
      | some (.dynamic, cs), .fixed w => cs.length ≤ w / I.dim → R.toFixed .dynamic ∧
        c.bigEndian = false ∧ ((cs.length * I.dim + 7) / 8 = w / 8 ∨ ∀ x ∈ cs, x = I.zero)
      | some (.static w, _), .fixed _ => R.toFixed (.static w)
      | _, _ => True

/-- All calls of a program are regular when they are reached. -/
def RegularCalls [DecidableEq Cell] (c : Cfg) (I : Ideal Cell Order Grid) (R : Rules) :
    List (Call Cell Order Grid) → List (Kind × List Cell) → Prop
  | [], _ => True
  | x :: xs, env => x.Regular c I R env ∧ RegularCalls c I R xs (env ++ (I.step x env).2)

/-! ## The calls on indices, as far as they are the same in both dimensions -/

/-- What is seen of an operation on an index, and the new values. -/
def seenObs {M : Type} (f : M → V) : Res (Obs Cell × List M) → Seen Cell Grid × List V
  | .ok (o, ms) => (.obs o, ms.map f)
  | .error e => (.obs (.fault e), [])

/-- What is seen of a call that returns an index. -/
def seenIndex {M : Type} (f : M → V) : Res M → Seen Cell Grid × List V
  | .ok m => (.obs .index, [f m])
  | .error e => (.obs (.fault e), [])

/-- What is seen of a call that returns an `Option`. -/
def seenOption {M : Type} (f : M → V) : Option M → Seen Cell Grid × List V
  | some m => (.obs .index, [f m])
  | none => (.obs .none, [])

/-- What is seen of a call that returns a `Result`. -/
def seenResult {M : Type} (f : M → V) : Res (Except Error M) → Seen Cell Grid × List V
  | .ok (.ok m) => (.obs .index, [f m])
  | .ok (.error e) => (.err e, [])
  | .error e => (.obs (.fault e), [])

/-- What is seen of a call that returns no index. -/
def seenValue {α : Type} (f : α → Seen Cell Grid) : Res α → Seen Cell Grid × List V
  | .ok a => (f a, [])
  | .error e => (.obs (.fault e), [])

/-- An operation on a fixed-depth index; `none` for those that do not exist. -/
def stepFixed {S M : Type} [Storage S Cell] [MortonIndex M Cell] (c : Cfg) (iter : M → CellIter S) (m : M) :
    Op Cell → Option (Res (Obs Cell × List M))
  | .depth _ => some (.ok (.number (MortonIndex.depth m), []))
  | .get _ l => some (do return (.cell (← getCellAtLevel c m l), []))
  | .next _ n => some (do return (.items (← nexts c n (iter m)), []))
  | .set _ l v => some (do return (.index, [← setCellAtLevel c m l v]))
  | .inverted _ => some (do return (.index, [← MortonIndex.inverted c m]))
  | .ancestor _ _ | .parent _ | .withDepth _ _ | .descendant _ _ | .child _ _ => none
  | .cmp _ _ | .eq _ _ => some (.ok (.noSuchValue, []))

def seenFixed {M : Type} (f : M → V) : Option (Res (Obs Cell × List M)) → Seen Cell Grid × List V
  | none => (.notOffered, [])
  | some r => seenObs f r

/-! ## Proof -/

/-- A step of a library on values `V` agrees with the ideal one. -/
def StepAgrees [DecidableEq Cell] (I : Ideal Cell Order Grid) (step : Call Cell Order Grid → List V → Seen Cell Grid × List V)
    (tag : V → Kind × List Cell) (ok : V → Prop) (x : Call Cell Order Grid) (env : List V) : Prop :=
  I.step x (env.map tag) = ((step x env).1, (step x env).2.map tag) ∧ ∀ v ∈ (step x env).2, ok v

theorem runCalls_agrees [DecidableEq Cell] {c : Cfg} {I : Ideal Cell Order Grid} {R : Rules}
    {step : Call Cell Order Grid → List V → Seen Cell Grid × List V} {tag : V → Kind × List Cell} {ok : V → Prop}
    (h : ∀ x env, (∀ v ∈ env, ok v) → x.Regular c I R (env.map tag) → StepAgrees I step tag ok x env)
    (xs : List (Call Cell Order Grid)) (env : List V) (henv : ∀ v ∈ env, ok v)
    (hr : RegularCalls c I R xs (env.map tag)) :
    runCalls step xs env = runCalls I.step xs (env.map tag) := by
  induction xs generalizing env with
  | nil => rfl
  | cons x xs ih =>
    obtain ⟨h1, h2⟩ := h x env henv hr.1
    have h3 := hr.2
    rw [runCalls, runCalls]
    rw [h1] at h3 ⊢
    rw [← List.map_append] at h3 ⊢
    rw [ih _ (fun v hv => (List.mem_append.mp hv).elim (henv v) (h2 v)) h3]

/-- An outcome with its new values, next to the ideal one. -/
def Agrees (tag : V → Kind × List Cell) (ok : V → Prop) (a : Seen Cell Grid × List (Kind × List Cell))
    (b : Seen Cell Grid × List V) : Prop :=
  a = (b.1, b.2.map tag) ∧ ∀ v ∈ b.2, ok v

theorem agrees_none {tag : V → Kind × List Cell} {ok : V → Prop} {s : Seen Cell Grid} : Agrees tag ok (s, []) (s, []) :=
  ⟨rfl, by simp⟩

theorem agrees_one {tag : V → Kind × List Cell} {ok : V → Prop} {s : Seen Cell Grid} {t : Kind × List Cell} {v : V}
    (h1 : tag v = t) (h2 : ok v) : Agrees tag ok (s, [t]) (s, [v]) :=
  ⟨by rw [List.map_singleton, h1], by simpa using h2⟩

section ops
variable {c : Cfg} {S M : Type} [Storage S Cell] {ok : M → Prop} {p : M → List Cell} {iter : M → CellIter S}

theorem onVariable_agrees [VariableDepthMortonIndex M Cell] {limit : Option Nat} {roomM : M → Nat → Prop}
    {room : Nat → Nat → Prop} (hL : ListLike c ok p id) (hA : AncLike c ok p)
    (hD : DescLike c ok p roomM limit) (hI : IteratesCells c iter ok)
    (hroom : ∀ m, ok m → ∀ n, room (p m).length n → roomM m n) {m : M} (hm : ok m) (op : Op Cell) (h2 : op.args.2 = none)
    (hr : op.fits room (p m).length) (f : M → V) (k : Kind) {tag : V → Kind × List Cell} {okV : V → Prop}
    (ht : ∀ a, tag (f a) = (k, p a)) (hok : ∀ a, ok a → okV (f a)) :
    Agrees (Grid := Grid) tag okV (.obs (stepList limit (p m) op).1, (stepList limit (p m) op).2.map (k, ·))
      (seenObs f (stepIndex c iter m op)) := by
  rcases step_agrees hL hA hD hI hroom hm op h2 hr with ⟨obs, new, g1, g2, g3⟩ | ⟨e, g1, g2⟩
  · rw [g1, g3]
    refine ⟨?_, ?_⟩
    · simp only [seenObs, List.map_map]
      congr 1
      exact List.map_congr_left fun a _ => (ht a).symm
    · intro v hv
      obtain ⟨a, ha, rfl⟩ := List.mem_map.mp hv
      exact hok a (g2 a ha)
  · rw [g1, g2]
    exact agrees_none

theorem onFixed_agrees [MortonIndex M Cell] (hL : ListLike c ok p id) (hI : IteratesCells c iter ok) {m : M} (hm : ok m)
    (op : Op Cell) (h2 : op.args.2 = none) (f : M → V) (k : Kind) {tag : V → Kind × List Cell} {okV : V → Prop}
    (ht : ∀ a, tag (f a) = (k, p a)) (hok : ∀ a, ok a → okV (f a)) :
    Agrees (Grid := Grid) tag okV
      (if op.navigates then (.notOffered, []) else (.obs (stepList none (p m) op).1, (stepList none (p m) op).2.map (k, ·)))
      (seenFixed f (stepFixed c iter m op)) := by
  cases op with
  | depth i => simp only [Op.navigates, stepFixed, stepList, hL.depth_eq m hm]; exact agrees_none
  | get i l =>
    simp only [Op.navigates, stepFixed, stepList, hL.get_eq hm]
    cases (p m)[l]? <;> exact agrees_none
  | next i n =>
    simp only [Op.navigates, stepFixed, stepList, nexts_take hI hm (hL.shows hm)]
    exact agrees_none
  | set i l v =>
    simp only [Op.navigates, stepFixed, stepList]
    by_cases hl : l < (p m).length
    · obtain ⟨m', h1, h2, h3⟩ := hL.set m hm l v hl
      rw [h1, if_pos hl]
      exact agrees_one (by rw [ht, h3]; rfl) (hok _ h2)
    · rw [hL.set_ge m hm l v (by omega), if_neg hl]
      exact agrees_none
  | inverted i =>
    simp only [Op.navigates, stepFixed, stepList]
    obtain ⟨m', h1, h2, h3⟩ := hL.inv m hm
    rw [h1]
    exact agrees_one (by rw [ht, h3, List.map_id]) (hok _ h2)
  | ancestor => exact agrees_none
  | parent => exact agrees_none
  | withDepth => exact agrees_none
  | descendant => exact agrees_none
  | child => exact agrees_none
  | cmp => simp [Op.args] at h2
  | eq => simp [Op.args] at h2

omit [Storage S Cell] in
theorem onTwo_agrees [RustOrd M] [DecidableEq Cell] {key : Cell → Nat} (R : Rules) (k : Kind)
    (hC : R.cmps k → CmpLike c key ok p) (hE : R.eqs k → EqLike ok p) {m m' : M}
    (hm : ok m) (hm' : ok m') (op : Op Cell) (h2 : op.args.2 ≠ none) (hR : R.pairs k op) {tag : V → Kind × List Cell} {okV : V → Prop} :
    Agrees (Grid := Grid) tag okV (.obs (stepLists key (p m) (p m') op), []) (seenValue .obs (stepIndices c m m' op)) := by
  cases op with
  | cmp =>
    simp only [stepIndices, stepLists, (hC hR m m' hm hm').1, ok_bind, pure_eq_ok]
    exact agrees_none
  | eq =>
    have he : RustOrd.eq m m' = decide (p m = p m') := by
      rw [Bool.eq_iff_iff, hE hR m m' hm hm', decide_eq_true_iff]
    simp only [stepIndices, stepLists, he]
    exact agrees_none
  | _ => exact absurd rfl h2

omit [Storage S Cell] in
theorem partial_agrees [RustOrd M] {key : Cell → Nat} (hC : CmpLike c key ok p) {m m' : M} (hm : ok m) (hm' : ok m')
    {tag : V → Kind × List Cell} {okV : V → Prop} :
    Agrees (Grid := Grid) tag okV (.order (some (pathCmp key (p m) (p m'))), [])
      (seenValue .order (RustOrd.partialCmp c m m')) := by
  rw [(hC m m' hm hm').2]
  exact agrees_none

end ops

end

end MortonRs
