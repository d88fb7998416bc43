import Verif.Props.Access2D
import Verif.Props.Access3D
import Verif.Props.Nav2D
import Verif.Props.Nav3D
import Verif.Props.Order2D
import Verif.Props.Order3D

/-! # Programs over indices behave like programs over lists (C43)

A program is a list of operations on a growing list of values. Every operation names the values it works on by
their positions, is observed, and may add a new value. The same program is run on indices of one type through
the API (`runIndices`) and on plain lists (`runLists`). The theorems say that the observations agree. -/

namespace MortonRs

open MortonIndex VariableDepthMortonIndex

variable {M Cell : Type}

/-- One operation; `i` and `j` are positions of values. `set` works on a copy. -/
inductive Op (Cell : Type) where
  | depth (i : Nat)
  | get (i level : Nat)
  | next (i n : Nat)
  | set (i level : Nat) (v : Cell)
  | inverted (i : Nat)
  | ancestor (i : Nat) (g : NonZeroUsize)
  | parent (i : Nat)
  | withDepth (i d : Nat)
  | descendant (i : Nat) (cs : List Cell)
  | child (i : Nat) (v : Cell)
  | cmp (i j : Nat)
  | eq (i j : Nat)

/-- What a caller sees of one operation: a returned value, that an index was returned, `None`, or a panic (any fault). -/
inductive Obs (Cell : Type) where
  | number (n : Nat)
  | cell (v : Cell)
  | items (l : List (Option Cell))
  | index
  | none
  | ordering (o : Ordering)
  | bool (b : Bool)
  | fault (f : Fault)
  | noSuchValue
  deriving DecidableEq

section indices
variable {S : Type} [Storage S Cell] [VariableDepthMortonIndex M Cell] [RustOrd M]

/-- The observation of an `Option`, and the new value. -/
def observeOption {α : Type} : Option α → Obs Cell × List α
  | some a => (.index, [a])
  | none => (.none, [])

/-- One operation on one index. -/
def stepIndex (c : Cfg) (iter : M → CellIter S) (m : M) : Op Cell → Res (Obs Cell × List M)
  | .depth _ => .ok (.number (MortonIndex.depth m), [])
  | .get _ l => do return (.cell (← getCellAtLevel c m l), [])
  | .next _ n => do return (.items (← nexts c n (iter m)), [])
  | .set _ l v => do return (.index, [← setCellAtLevel c m l v])
  | .inverted _ => do return (.index, [← MortonIndex.inverted c m])
  | .ancestor _ g => do return observeOption (← VariableDepthMortonIndex.ancestor c m g)
  | .parent _ => do return observeOption (← VariableDepthMortonIndex.parent c m)
  | .withDepth _ d => do return observeOption (← VariableDepthMortonIndex.withDepth c m d)
  | .descendant _ cs => do return observeOption (← VariableDepthMortonIndex.descendant c m cs)
  | .child _ v => do return observeOption (← VariableDepthMortonIndex.child c m v)
  | .cmp _ _ | .eq _ _ => .ok (.noSuchValue, [])

/-- One operation on two indices. -/
def stepIndices (c : Cfg) (m m' : M) : Op Cell → Res (Obs Cell)
  | .cmp _ _ => do return .ordering (← RustOrd.cmp c m m')
  | _ => .ok (.bool (RustOrd.eq m m'))

/-- The positions an operation uses. -/
def Op.args : Op Cell → Nat × Option Nat
  | .depth i | .get i _ | .next i _ | .set i _ _ | .inverted i | .ancestor i _ | .parent i | .withDepth i _
  | .descendant i _ | .child i _ => (i, Option.none)
  | .cmp i j | .eq i j => (i, some j)

/-- Run a program on indices. A fault adds no value and the program goes on (the caller caught the panic). -/
def runIndices (c : Cfg) (iter : M → CellIter S) : List (Op Cell) → List M → List (Obs Cell)
  | [], _ => []
  | op :: ops, env =>
    match env[op.args.1]?, op.args.2 with
    | Option.none, _ => .noSuchValue :: runIndices c iter ops env
    | some m, Option.none =>
      match stepIndex c iter m op with
      | .ok (obs, new) => obs :: runIndices c iter ops (env ++ new)
      | .error f => .fault f :: runIndices c iter ops env
    | some m, some j =>
      match env[j]? with
      | Option.none => .noSuchValue :: runIndices c iter ops env
      | some m' =>
        match stepIndices c m m' op with
        | .ok obs => obs :: runIndices c iter ops env
        | .error f => .fault f :: runIndices c iter ops env

end indices

/-- One operation on one list of cells; `limit` is the greatest depth of the index type. -/
def stepList (limit : Option Nat) (cs : List Cell) : Op Cell → Obs Cell × List (List Cell)
  | .depth _ => (.number cs.length, [])
  | .get _ l => match cs[l]? with
    | some v => (.cell v, [])
    | Option.none => (.fault .panic, [])
  | .next _ n => (.items ((cs.map some ++ List.replicate n Option.none).take n), [])
  | .set _ l v => if l < cs.length then (.index, [cs.set l v]) else (.fault .panic, [])
  | .inverted _ => (.index, [cs.reverse])
  | .ancestor _ g => if g.val ≤ cs.length then (.index, [cs.take (cs.length - g.val)]) else (.none, [])
  | .parent _ => if cs = [] then (.none, []) else (.index, [cs.dropLast])
  | .withDepth _ d => if d ≤ cs.length then (.index, [cs.take d]) else (.none, [])
  | .descendant _ ds => append ds
  | .child _ v => append [v]
  | .cmp _ _ | .eq _ _ => (.noSuchValue, [])
where
  append (ds : List Cell) : Obs Cell × List (List Cell) :=
    if limit.any (· < cs.length + ds.length) then (.none, []) else (.index, [cs ++ ds])

/-- One operation on two lists of cells. -/
def stepLists [DecidableEq Cell] (key : Cell → Nat) (cs ds : List Cell) : Op Cell → Obs Cell
  | .cmp _ _ => .ordering (pathCmp key cs ds)
  | _ => .bool (cs = ds)

/-- Run a program on lists. -/
def runLists [DecidableEq Cell] (key : Cell → Nat) (limit : Option Nat) : List (Op Cell) → List (List Cell) → List (Obs Cell)
  | [], _ => []
  | op :: ops, env =>
    match env[op.args.1]?, op.args.2 with
    | Option.none, _ => .noSuchValue :: runLists key limit ops env
    | some cs, Option.none => (stepList limit cs op).1 :: runLists key limit ops (env ++ (stepList limit cs op).2)
    | some cs, some j =>
      match env[j]? with
      | Option.none => .noSuchValue :: runLists key limit ops env
      | some ds => stepLists key cs ds op :: runLists key limit ops env

/-- An extension of a list of length `n` stays within `room`. -/
def Op.fits (room : Nat → Nat → Prop) (n : Nat) : Op Cell → Prop
  | .descendant _ ds => room n ds.length
  | .child _ _ => room n 1
  | _ => True

/-- Every extension in the program stays within `room depth added` (what memory can hold). -/
def Affordable (room : Nat → Nat → Prop) (limit : Option Nat) : List (Op Cell) → List (List Cell) → Prop
  | [], _ => True
  | op :: ops, env =>
    match env[op.args.1]? with
    | Option.none => Affordable room limit ops env
    | some cs =>
      op.fits room cs.length ∧ Affordable room limit ops (env ++ (stepList limit cs op).2)

theorem affordable_all {room : Nat → Nat → Prop} {limit : Option Nat} (h : ∀ n k, room n k) (ops : List (Op Cell))
    (env : List (List Cell)) : Affordable room limit ops env := by
  induction ops generalizing env with
  | nil => trivial
  | cons op ops ih =>
    unfold Affordable
    split
    · exact ih _
    · refine ⟨?_, ih _⟩
      cases op <;> first | trivial | exact h _ _

/-- The program does not use `==`. -/
def NoEq (ops : List (Op Cell)) : Prop := ∀ op ∈ ops, ∀ i j, op ≠ .eq i j

/-- C43: started on indices that show the lists `env`, a program makes the same observations. -/
def BehavesLikeLists (c : Cfg) {S : Type} [Storage S Cell] [VariableDepthMortonIndex M Cell] [RustOrd M] [DecidableEq Cell]
    (iter : M → CellIter S) (key : Cell → Nat) (room : Nat → Nat → Prop) (limit : Option Nat)
    (allowed : List (Op Cell) → Prop) (ok : M → Prop) : Prop :=
  ∀ (start : List M) (env : List (List Cell)) (ops : List (Op Cell)), (∀ m ∈ start, ok m) →
    env.length = start.length → (∀ k (h : k < start.length) (h' : k < env.length), Shows c start[k] env[k]) →
    Affordable room limit ops env → allowed ops →
    runIndices c iter ops start = runLists key limit ops env

/-! ## Proof -/

theorem nexts_take {c : Cfg} {S : Type} [Storage S Cell] [MortonIndex M Cell] {ok : M → Prop} {iter : M → CellIter S}
    (h : IteratesCells c iter ok) {m : M} (hm : ok m) {cs : List Cell} (hs : Shows c m cs) (n : Nat) :
    nexts c n (iter m) = .ok ((cs.map some ++ List.replicate n none).take n) := by
  obtain ⟨items, h1, h2, h3⟩ := h m hm n
  rw [h1]
  congr 1
  apply List.ext_getElem
  · simp [h2]
  · intro k hk1 hk2
    rw [List.getElem_take]
    by_cases hk : k < cs.length
    · obtain ⟨v, g1, g2⟩ := (h3 k hk1).1 (by rw [hs.1]; exact hk)
      rw [hs.2 k hk] at g1
      cases g1
      rw [g2, List.getElem_append_left (by simpa using hk), List.getElem_map]
    · rw [(h3 k hk1).2 (by rw [hs.1]; omega), List.getElem_append_right (by simpa using hk), List.getElem_replicate]

section proof
variable {c : Cfg} {S : Type} [Storage S Cell] [VariableDepthMortonIndex M Cell] [RustOrd M] [DecidableEq Cell]
  {ok : M → Prop} {p : M → List Cell} {iter : M → CellIter S} {key : Cell → Nat} {limit : Option Nat}
  {roomM : M → Nat → Prop} {room : Nat → Nat → Prop}

omit [RustOrd M] [DecidableEq Cell] in
/-- One step agrees. -/
theorem step_agrees (hL : ListLike c ok p id) (hA : AncLike c ok p) (hD : DescLike c ok p roomM limit)
    (hI : IteratesCells c iter ok) (hroom : ∀ m, ok m → ∀ n, room (p m).length n → roomM m n)
    {m : M} (hm : ok m) (op : Op Cell) (h2 : op.args.2 = none)
    (hr : op.fits room (p m).length) :
    (∃ obs new, stepIndex c iter m op = .ok (obs, new) ∧ (∀ a ∈ new, ok a) ∧ stepList limit (p m) op = (obs, new.map p)) ∨
    (∃ f, stepIndex c iter m op = .error f ∧ stepList limit (p m) op = (.fault f, [])) := by
  have happ : ∀ ds : List Cell, room (p m).length ds.length →
      ∃ obs new, (do return observeOption (← VariableDepthMortonIndex.descendant c m ds) : Res (Obs Cell × List M)) =
        .ok (obs, new) ∧ (∀ a ∈ new, ok a) ∧ stepList.append limit (p m) ds = (obs, new.map p) := by
    intro ds hds
    by_cases he : limit.any (· < (p m).length + ds.length) = true
    · refine ⟨.none, [], ?_, by simp, ?_⟩
      · rw [hD.no m hm ds (hroom m hm _ hds) (by
          cases limit with
          | none => cases he
          | some l => simpa [Exceeds] using he)]
        rfl
      · rw [stepList.append, if_pos he]; rfl
    · obtain ⟨a, g1, g2, g3⟩ := hD.yes m hm ds (hroom m hm _ hds) (by
        intro h
        apply he
        cases limit with
        | none => cases h
        | some l => simpa [Exceeds] using h)
      refine ⟨.index, [a], ?_, by simpa using g2, ?_⟩
      · rw [g1]; rfl
      · rw [stepList.append, if_neg he, List.map_singleton, g3]
  cases op with
  | depth i => exact .inl ⟨_, [], rfl, by simp, by rw [hL.depth_eq m hm]; rfl⟩
  | get i l =>
    simp only [stepIndex, stepList, hL.get_eq hm]
    cases (p m)[l]? with
    | some v => exact .inl ⟨_, [], rfl, by simp, rfl⟩
    | none => exact .inr ⟨_, rfl, rfl⟩
  | next i n =>
    simp only [stepIndex, stepList, nexts_take hI hm (hL.shows hm)]
    exact .inl ⟨_, [], rfl, by simp, rfl⟩
  | set i l v =>
    simp only [stepIndex, stepList]
    by_cases hl : l < (p m).length
    · obtain ⟨m', h1, h2, h3⟩ := hL.set m hm l v hl
      rw [h1, if_pos hl]
      exact .inl ⟨_, [m'], rfl, by simpa using h2, by rw [List.map_singleton, h3]; rfl⟩
    · rw [hL.set_ge m hm l v (by omega), if_neg hl]
      exact .inr ⟨_, rfl, rfl⟩
  | inverted i =>
    simp only [stepIndex, stepList]
    obtain ⟨m', h1, h2, h3⟩ := hL.inv m hm
    rw [h1]
    exact .inl ⟨_, [m'], rfl, by simpa using h2, by rw [List.map_singleton, h3, List.map_id]⟩
  | ancestor i g =>
    simp only [stepIndex, stepList]
    by_cases hg : g.val ≤ (p m).length
    · obtain ⟨a, h1, h2, h3⟩ := hA.yes m hm g hg
      rw [h1, if_pos hg]
      exact .inl ⟨_, [a], rfl, by simpa using h2, by rw [List.map_singleton, h3]⟩
    · rw [hA.no m hm g (by omega), if_neg hg]
      exact .inl ⟨_, [], rfl, by simp, rfl⟩
  | parent i =>
    simp only [stepIndex, stepList, parent_eq]
    by_cases h0 : p m = []
    · rw [hA.no m hm _ (by rw [h0]; exact Nat.zero_lt_one), if_pos h0]
      exact .inl ⟨_, [], rfl, by simp, rfl⟩
    · obtain ⟨a, h1, h2, h3⟩ := hA.yes m hm ⟨1, by decide⟩ (List.length_pos_iff.mpr h0)
      rw [h1, if_neg h0]
      exact .inl ⟨_, [a], rfl, by simpa using h2, by rw [List.map_singleton, h3, List.dropLast_eq_take]⟩
  | withDepth i d =>
    simp only [stepIndex, stepList]
    by_cases hd : d ≤ (p m).length
    · obtain ⟨a, h1, h2, h3⟩ := hA.withDepth_take hL hm hd
      rw [h1, if_pos hd]
      exact .inl ⟨_, [a], rfl, by simpa using h2, by rw [List.map_singleton, h3]⟩
    · rw [withDepth_gt (by rw [hL.depth_eq m hm]; omega), if_neg hd]
      exact .inl ⟨_, [], rfl, by simp, rfl⟩
  | descendant i ds =>
    obtain ⟨obs, new, h1, h2, h3⟩ := happ ds hr
    exact .inl ⟨obs, new, h1, h2, h3⟩
  | child i v =>
    obtain ⟨obs, new, h1, h2, h3⟩ := happ [v] hr
    exact .inl ⟨obs, new, h1, h2, h3⟩
  | cmp => simp [Op.args] at h2
  | eq => simp [Op.args] at h2

theorem run_agrees (hL : ListLike c ok p id) (hA : AncLike c ok p) (hD : DescLike c ok p roomM limit)
    (hI : IteratesCells c iter ok) (hC : CmpLike c key ok p)
    (hroom : ∀ m, ok m → ∀ n, room (p m).length n → roomM m n) (ops : List (Op Cell)) (hE : EqLike ok p ∨ NoEq ops)
    (env : List M) (henv : ∀ m ∈ env, ok m) (hf : Affordable room limit ops (env.map p)) :
    runIndices c iter ops env = runLists key limit ops (env.map p) := by
  induction ops generalizing env with
  | nil => rfl
  | cons op ops ih =>
    have ih := ih (hE.imp_right fun h op hop => h op (List.mem_cons_of_mem _ hop))
    rw [runIndices, runLists]
    rw [Affordable] at hf
    rw [List.getElem?_map] at hf ⊢
    cases h1 : env[op.args.1]? with
    | none =>
      rw [h1] at hf
      simp only [Option.map_none]
      rw [ih env henv hf]
    | some m =>
      rw [h1] at hf
      have hm : ok m := henv m (List.mem_of_getElem? h1)
      cases h2 : op.args.2 with
      | none =>
        simp only [Option.map_some]
        obtain ⟨hr, hf⟩ := hf
        rcases step_agrees hL hA hD hI hroom hm op h2 hr with ⟨obs, new, g1, g2, g3⟩ | ⟨f, g1, g2⟩
        · rw [g3] at hf ⊢
          rw [g1]
          simp only
          rw [← List.map_append] at hf ⊢
          rw [ih (env ++ new) ?_ hf]
          intro a ha
          rcases List.mem_append.mp ha with ha | ha
          · exact henv a ha
          · exact g2 a ha
        · rw [g2] at hf ⊢
          rw [g1]
          simp only [List.append_nil] at hf ⊢
          rw [ih env henv hf]
      | some j =>
        simp only [Option.map_some]
        have hf' : Affordable room limit ops (env.map p) := by
          have := hf.2
          cases op <;> simp only [Op.args, reduceCtorEq] at h2 <;> simpa [stepList] using this
        rw [List.getElem?_map]
        cases h3 : env[j]? with
        | none => simp only [Option.map_none]; rw [ih env henv hf']
        | some m' =>
          have hm' : ok m' := henv m' (List.mem_of_getElem? h3)
          simp only [Option.map_some]
          cases op <;> simp only [Op.args, reduceCtorEq] at h2
          · simp only [stepIndices, stepLists, (hC m m' hm hm').1, ok_bind, pure_eq_ok]
            rw [ih env henv hf']
          · have hE := hE.resolve_right (fun h => h _ (List.mem_cons_self ..) _ _ rfl)
            simp only [stepIndices, stepLists]
            rw [ih env henv hf', show RustOrd.eq m m' = decide (p m = p m') by
              rw [Bool.eq_iff_iff, hE m m' hm hm', decide_eq_true_iff]]

theorem behaves (hL : ListLike c ok p id) (hA : AncLike c ok p) (hD : DescLike c ok p roomM limit)
    (hI : IteratesCells c iter ok) {allowed : List (Op Cell) → Prop} (hE : ∀ ops, allowed ops → EqLike ok p ∨ NoEq ops)
    (hC : CmpLike c key ok p)
    (hroom : ∀ m, ok m → ∀ n, room (p m).length n → roomM m n) : BehavesLikeLists c iter key room limit allowed ok := by
  intro start env ops hok hl hs hf ha
  have : env = start.map p := by
    apply List.ext_getElem (by simp [hl])
    intro k h1 h2
    rw [List.getElem_map]
    have h3 : k < start.length := by omega
    exact (hL.eq_of_shows (hok _ (List.getElem_mem h3)) (hs k h3 h1)).symm
  subst this
  exact run_agrees hL hA hD hI hC hroom ops (hE ops ha) start hok hf

end proof

/-! ## The theorems -/

variable {c : Cfg}

/-- **C43**, 2D, for dynamic indices on targets where their writes work (`C47_refuted`). Programs on dynamic indices that use
`==` start from indices without stray bits (on the others `==` is not equality of the cells, `C16_refuted`). A slice has fewer than `isize::MAX`
elements; a dynamic index stays addressable. -/
theorem C43_programs_2D (hc : c.Supported) :
    (∀ w, BehavesLikeLists c (fun m : MortonIndex2D (StaticStorage2D w) => m.cells) quadrantKey
      (fun _ n => n < 2 ^ (c.ptrBits - 1)) (some (w / 2)) (fun _ => True) (fun m => Reach2D c .all (.static w m))) ∧
    (DynWrites c → ∀ sc, BehavesLikeLists c (fun m : MortonIndex2D DynamicStorage2D => m.cells) quadrantKey
      (fun d n => Addressable c ((d + n) * 2)) none
      (fun ops => sc = .canonical ∨ NoEq ops) (fun m => Reach2D c sc (.dynamic m))) :=
  ⟨fun _ => behaves (static_list2 hc) (static_anc2 hc) (static_desc2 hc) (iterates_of2 hc (static_wf2 hc) (static_depth_lt2 hc))
      (fun _ _ => .inl (static_eq2 hc)) (static_cmp2 hc) (fun _ _ _ h => h),
    fun hw _ => behaves (dynamic_list2 hc hw) (dynamic_anc2 hc) (dynamic_desc2 hc hw)
      (iterates_of2 hc (dynamic_wf2 hc) (dynamic_depth_lt2 hc)) (fun _ h => h.imp_left fun e => by subst e; exact dynamic_eq2 hc)
      (dynamic_cmp2 hc)
      (fun m hm n h => by
        rw [dynRoom2, (dynamic_list2 hc hw).depth_eq m hm]
        exact h)⟩

/-- A program that descends, moves back up, writes, compares and panics, and its observations. -/
def exProgram2 : List (Op Quadrant) :=
  [.descendant 0 [.Two, .One], .withDepth 1 3, .eq 2 0, .set 2 1 .Zero, .cmp 3 0, .get 3 7, .parent 3]

theorem exD2_shows : Shows x64 exD2 [.Three, .One, .Two] := by
  refine ⟨rfl, fun l hl => ?_⟩
  match l, hl with
  | 0, _ => exact (by decide +kernel : getCellAtLevel x64 exD2 0 = .ok .Three)
  | 1, _ => exact (by decide +kernel : getCellAtLevel x64 exD2 1 = .ok .One)
  | 2, _ => exact (by decide +kernel : getCellAtLevel x64 exD2 2 = .ok .Two)

example : runIndices x64 (fun m : MortonIndex2D DynamicStorage2D => m.cells) exProgram2 [exD2] =
    runLists quadrantKey none exProgram2 [[.Three, .One, .Two]] :=
  (C43_programs_2D x64_supported).2 x64_writes .canonical [exD2] [[.Three, .One, .Two]] exProgram2
    (by intro m hm; simp at hm; subst hm; exact exD2_reach _) rfl
    (by
      intro k h h'
      match k, h with
      | 0, _ => exact exD2_shows)
    ⟨by change Addressable x64 _; unfold Addressable; decide, trivial, trivial, trivial, trivial, trivial, trivial, trivial⟩
    (.inl rfl)

example : runLists quadrantKey none exProgram2 [[.Three, .One, .Two]] =
    [.index, .index, .bool true, .index, .ordering .lt, .fault .panic, .index] := rfl

/-- **C43**, 3D; programs that use `==` start from indices without stray bits, for static indices too (`C16_refuted_raw_3D`). -/
theorem C43_programs_3D (hc : c.Supported) :
    (∀ w sc, BehavesLikeLists c (fun m : MortonIndex3D (StaticStorage3D w) => m.cells) octantKey
      (fun _ n => n < 2 ^ (c.ptrBits - 1)) (some (w / 3))
      (fun ops => sc = .canonical ∨ NoEq ops) (fun m => Reach3D c sc (.static w m))) ∧
    (DynWrites c → ∀ sc, BehavesLikeLists c (fun m : MortonIndex3D DynamicStorage3D => m.cells) octantKey
      (fun d n => Addressable c ((d + n) * 3)) none
      (fun ops => sc = .canonical ∨ NoEq ops) (fun m => Reach3D c sc (.dynamic m))) :=
  ⟨fun _ _ => behaves (static_list3 hc) (static_anc3 hc) (static_desc3 hc) (iterates_of3 hc (static_wf3 hc) (static_depth_lt3 hc))
      (fun _ h => h.imp_left fun e => by subst e; exact static_eq3 hc) (static_cmp3 hc) (fun _ _ _ h => h),
    fun hw _ => behaves (dynamic_list3 hc hw) (dynamic_anc3 hc) (dynamic_desc3 hc hw)
      (iterates_of3 hc (dynamic_wf3 hc) (dynamic_depth_lt3 hc)) (fun _ h => h.imp_left fun e => by subst e; exact dynamic_eq3 hc)
      (dynamic_cmp3 hc)
      (fun m hm n h => by
        rw [dynRoom3, (dynamic_list3 hc hw).depth_eq m hm]
        exact h)⟩

/-- The same kind of program in 3D, on a static index with room for ten levels. -/
def exProgram3 : List (Op Octant) :=
  [.descendant 0 [.Two, .Seven], .child 1 .Four, .descendant 2 [.One, .One, .One, .One, .One], .withDepth 2 3, .eq 3 0, .parent 0]

theorem exS3_shows : Shows x64 exS3 [.Five, .One, .Six] := by
  refine ⟨rfl, fun l hl => ?_⟩
  match l, hl with
  | 0, _ => exact (by decide +kernel : getCellAtLevel x64 exS3 0 = .ok .Five)
  | 1, _ => exact (by decide +kernel : getCellAtLevel x64 exS3 1 = .ok .One)
  | 2, _ => exact (by decide +kernel : getCellAtLevel x64 exS3 2 = .ok .Six)

example : runIndices x64 (fun m : MortonIndex3D (StaticStorage3D 32) => m.cells) exProgram3 [exS3] =
    runLists octantKey (some 10) exProgram3 [[.Five, .One, .Six]] :=
  (C43_programs_3D x64_supported).1 32 .canonical [exS3] [[.Five, .One, .Six]] exProgram3
    (by intro m hm; simp at hm; subst hm; exact exS3_reach _) rfl
    (by
      intro k h h'
      match k, h with
      | 0, _ => exact exS3_shows)
    ⟨by change _ < _; decide, by change _ < _; decide, by change _ < _; decide, trivial, trivial, trivial, trivial⟩
    (.inl rfl)

example : runLists octantKey (some 10) exProgram3 [[.Five, .One, .Six]] =
    [.index, .index, .none, .index, .bool true, .index] := rfl

end MortonRs
