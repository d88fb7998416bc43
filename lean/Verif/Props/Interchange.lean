import Verif.Props.Machine
import Verif.Props.Refinement

/-! # One program, two implementations (C60 for programs, C61)

Built on the machine of C43: a program is a list of operations, run through the API on indices of one type. -/

namespace MortonRs

open MortonIndex VariableDepthMortonIndex

variable {M N Cell : Type}

/-! ## C60: a whole program in a debug and in a release build -/

/-- A program in a build with overflow checks in which no step overflowed makes the same observations (values and panics)
in the build without the checks. -/
def ProgramsRefine (c : Cfg) {S : Type} [Storage S Cell] [VariableDepthMortonIndex M Cell] [RustOrd M]
    (iter : M → CellIter S) : Prop :=
  ∀ (ops : List (Op Cell)) (env : List M), (∀ o ∈ runIndices c iter ops env, ∀ f, o = .fault f → f ≠ .overflow) →
    runIndices c.release iter ops env = runIndices c iter ops env

section debug
variable {c : Cfg} {S : Type} [Storage S Cell] [VariableDepthMortonIndex M Cell] [RustOrd M] {iter : M → CellIter S}

omit [RustOrd M] [VariableDepthMortonIndex M Cell] in
theorem refines_nexts (h : ∀ it : CellIter S, Refines (it.next c) (it.next c.release)) (n : Nat) (it : CellIter S) :
    Refines (nexts c n it) (nexts c.release n it) := by
  induction n generalizing it with
  | zero => exact refines_ok _
  | succ n ih => exact refines_bind (h it) fun r => refines_bind (ih r.2) fun _ => refines_pure _

omit [RustOrd M] in
theorem refines_stepIndex (ho : OperationsRefine c M) (hn : NavigationRefine c M)
    (hi : ∀ it : CellIter S, Refines (it.next c) (it.next c.release)) (m : M) (op : Op Cell) :
    Refines (stepIndex c iter m op) (stepIndex c.release iter m op) := by
  cases op with
  | depth i => exact refines_ok _
  | get i l => exact refines_bind ((ho m).2.2.1 l) fun _ => refines_pure _
  | next i n => exact refines_bind (refines_nexts hi n _) fun _ => refines_pure _
  | set i l v => exact refines_bind ((ho m).2.2.2.1 l v) fun _ => refines_pure _
  | inverted i => exact refines_bind (ho m).2.2.2.2.2 fun _ => refines_pure _
  | ancestor i g => exact refines_bind ((hn m).1 g) fun _ => refines_pure _
  | parent i => exact refines_bind (hn m).2.1 fun _ => refines_pure _
  | withDepth i d => exact refines_bind ((hn m).2.2.1 d) fun _ => refines_pure _
  | descendant i cs => exact refines_bind ((hn m).2.2.2.1 cs) fun _ => refines_pure _
  | child i v => exact refines_bind ((hn m).2.2.2.2 v) fun _ => refines_pure _
  | cmp i j => exact refines_ok _
  | eq i j => exact refines_ok _

omit [VariableDepthMortonIndex M Cell] in
theorem refines_stepIndices (hc : ComparisonsRefine c M) (m m' : M) (op : Op Cell) :
    Refines (stepIndices c m m' op) (stepIndices c.release m m' op) := by
  cases op <;> first | exact refines_bind (hc m m').1 fun _ => refines_pure _ | exact refines_ok _

theorem programsRefine (ho : OperationsRefine c M) (hn : NavigationRefine c M) (hc : ComparisonsRefine c M)
    (hi : ∀ it : CellIter S, Refines (it.next c) (it.next c.release)) : ProgramsRefine c iter := by
  intro ops
  induction ops with
  | nil => intros; rfl
  | cons op ops ih =>
    intro env h
    unfold runIndices at h ⊢
    cases h1 : env[op.args.1]? with
    | none =>
      rw [h1] at h
      simp only at h ⊢
      rw [ih env fun o ho => h o (List.mem_cons_of_mem _ ho)]
    | some m =>
      rw [h1] at h
      cases h2 : op.args.2 with
      | none =>
        rw [h2] at h
        simp only at h ⊢
        have hs := refines_stepIndex (iter := iter) ho hn hi m op
        cases h3 : stepIndex c iter m op with
        | error f =>
          rw [h3] at h hs
          simp only at h
          have hf := h _ (List.mem_cons_self ..) f rfl
          rcases hs with hs | hs
          · exact absurd (Except.error.inj hs) hf
          · rw [← hs]
            simp only
            rw [ih env fun o ho => h o (List.mem_cons_of_mem _ ho)]
        | ok r =>
          rw [h3] at h hs
          obtain ⟨obs, new⟩ := r
          simp only at h
          rcases hs with hs | hs
          · cases hs
          · rw [← hs]
            simp only
            rw [ih (env ++ new) fun o ho => h o (List.mem_cons_of_mem _ ho)]
      | some j =>
        rw [h2] at h
        simp only at h ⊢
        cases h4 : env[j]? with
        | none =>
          rw [h4] at h
          simp only at h ⊢
          rw [ih env fun o ho => h o (List.mem_cons_of_mem _ ho)]
        | some m' =>
          rw [h4] at h
          simp only at h ⊢
          have hs := refines_stepIndices hc m m' op
          cases h3 : stepIndices c m m' op with
          | error f =>
            rw [h3] at h hs
            simp only at h
            have hf := h _ (List.mem_cons_self ..) f rfl
            rcases hs with hs | hs
            · exact absurd (Except.error.inj hs) hf
            · rw [← hs]
              simp only
              rw [ih env fun o ho => h o (List.mem_cons_of_mem _ ho)]
          | ok obs =>
            rw [h3] at h hs
            simp only at h
            rcases hs with hs | hs
            · cases hs
            · rw [← hs]
              simp only
              rw [ih env fun o ho => h o (List.mem_cons_of_mem _ ho)]

end debug

/-- **C60** for programs on any indices of the four variable-depth types, reachable or not. -/
theorem C60_debug_release_programs (c : Cfg) (w : Nat) :
    (ProgramsRefine c (fun m : MortonIndex2D (StaticStorage2D w) => m.cells) ∧
      ProgramsRefine c (fun m : MortonIndex2D DynamicStorage2D => m.cells)) ∧
    ProgramsRefine c (fun m : MortonIndex3D (StaticStorage3D w) => m.cells) ∧
      ProgramsRefine c (fun m : MortonIndex3D DynamicStorage3D => m.cells) := by
  obtain ⟨-, ⟨s1, s2, s3, s4, -⟩, d1, d2, d3, d4, -⟩ := C60_debug_release_2D c w
  obtain ⟨-, ⟨t1, t2, t3, t4, -⟩, e1, e2, e3, e4, -⟩ := C60_debug_release_3D c w
  exact ⟨⟨programsRefine s1 s2 s3 s4.1, programsRefine d1 d2 d3 d4.1⟩, programsRefine t1 t2 t3 t4.1, programsRefine e1 e2 e3 e4.1⟩

/-! ## C61: the storage and the target are interchangeable -/

/-- Started on indices that show the same lists, a program makes the same observations on both implementations, as long
as no extension exceeds what memory can hold or the smaller of two different depth limits. -/
def Interchangeable (c c' : Cfg) {S S' : Type} [Storage S Cell] [Storage S' Cell] [VariableDepthMortonIndex M Cell] [RustOrd M]
    [VariableDepthMortonIndex N Cell] [RustOrd N] (iter : M → CellIter S) (iter' : N → CellIter S')
    (room room' : Nat → Nat → Prop) (limit limit' : Option Nat) (allowed : List (Op Cell) → Prop)
    (ok : M → Prop) (ok' : N → Prop) : Prop :=
  ∀ (start : List M) (start' : List N) (env : List (List Cell)) (ops : List (Op Cell)),
    (∀ m ∈ start, ok m) → (∀ m ∈ start', ok' m) → start.length = env.length → start'.length = env.length →
    (∀ k (h : k < start.length) (h' : k < env.length), Shows c start[k] env[k]) →
    (∀ k (h : k < start'.length) (h' : k < env.length), Shows c' start'[k] env[k]) →
    Affordable room limit ops env → Affordable room' limit' ops env → allowed ops →
    (limit = limit' ∨ (Affordable (within limit) limit ops env ∧ Affordable (within limit') limit' ops env)) →
    runIndices c iter ops start = runIndices c' iter' ops start'
where
  /-- An extension stays within the depth limit. -/
  within (limit : Option Nat) (d n : Nat) : Prop := ∀ k, limit = some k → d + n ≤ k

section
variable [DecidableEq Cell] {key : Cell → Nat}

omit [DecidableEq Cell] in
theorem stepList_unlimited {limit : Option Nat} {cs : List Cell} {op : Op Cell}
    (h : op.fits (Interchangeable.within limit) cs.length) : stepList limit cs op = stepList none cs op := by
  cases op with
  | descendant i ds =>
    cases limit with
    | none => rfl
    | some k =>
      have : cs.length + ds.length ≤ k := h k rfl
      simp [stepList, stepList.append, Nat.not_lt.mpr this]
  | child i v =>
    cases limit with
    | none => rfl
    | some k =>
      have : cs.length + 1 ≤ k := h k rfl
      simp only [stepList, stepList.append, Option.any_some, Option.any_none, List.length_singleton]
      rw [if_neg (by simp; omega), if_neg (by simp)]
  | _ => rfl

/-- Within the limit, the limit does not matter. -/
theorem runLists_unlimited {limit : Option Nat} (ops : List (Op Cell)) (env : List (List Cell))
    (h : Affordable (Interchangeable.within limit) limit ops env) : runLists key limit ops env = runLists key none ops env := by
  induction ops generalizing env with
  | nil => rfl
  | cons op ops ih =>
    unfold runLists
    unfold Affordable at h
    cases h1 : env[op.args.1]? with
    | none =>
      rw [h1] at h
      simp only at h ⊢
      rw [ih env h]
    | some cs =>
      rw [h1] at h
      simp only at h
      obtain ⟨h, ht⟩ := h
      have e := stepList_unlimited h
      cases h2 : op.args.2 with
      | none =>
        simp only
        rw [ih _ ht, e]
      | some j =>
        simp only
        have hnil : (stepList limit cs op).2 = [] := by
          cases op <;> simp only [Op.args, reduceCtorEq] at h2 <;> rfl
        rw [hnil, List.append_nil] at ht
        cases h3 : env[j]? with
        | none => simp only; rw [ih _ ht]
        | some ds => simp only; rw [ih _ ht]

theorem interchangeable {c c' : Cfg} {S S' : Type} [Storage S Cell] [Storage S' Cell] [VariableDepthMortonIndex M Cell]
    [RustOrd M] [VariableDepthMortonIndex N Cell] [RustOrd N] {iter : M → CellIter S} {iter' : N → CellIter S'}
    {room room' : Nat → Nat → Prop} {limit limit' : Option Nat} {allowed : List (Op Cell) → Prop} {ok : M → Prop} {ok' : N → Prop}
    (h : BehavesLikeLists c iter key room limit allowed ok) (h' : BehavesLikeLists c' iter' key room' limit' allowed ok') :
    Interchangeable c c' iter iter' room room' limit limit' allowed ok ok' := by
  intro start start' env ops hs hs' hl hl' hv hv' ha ha' hal hlim
  rw [h start env ops hs hl.symm hv ha hal, h' start' env ops hs' hl'.symm hv' ha' hal]
  rcases hlim with rfl | ⟨h1, h2⟩
  · rfl
  · rw [runLists_unlimited ops env h1, runLists_unlimited ops env h2]

end

theorem BehavesLikeLists.mono {c : Cfg} {Cell S M : Type} [Storage S Cell] [VariableDepthMortonIndex M Cell] [RustOrd M]
    [DecidableEq Cell] {iter : M → CellIter S} {key : Cell → Nat} {room : Nat → Nat → Prop} {limit : Option Nat}
    {allowed allowed' : List (Op Cell) → Prop} {ok : M → Prop} (h : BehavesLikeLists c iter key room limit allowed ok)
    (ha : ∀ ops, allowed' ops → allowed ops) : BehavesLikeLists c iter key room limit allowed' ok :=
  fun start env ops h1 h2 h3 h4 h5 => h start env ops h1 h2 h3 h4 (ha ops h5)

/-- **C61**, 2D: static indices of any two widths, static and dynamic, dynamic and dynamic; on any two targets. -/
theorem C61_interchangeable_2D {c c' : Cfg} (hc : c.Supported) (hc' : c'.Supported) (sc : Scope) :
    (∀ w w', Interchangeable c c' (fun m : MortonIndex2D (StaticStorage2D w) => m.cells)
      (fun m : MortonIndex2D (StaticStorage2D w') => m.cells) (fun _ n => n < 2 ^ (c.ptrBits - 1)) (fun _ n => n < 2 ^ (c'.ptrBits - 1))
      (some (w / 2)) (some (w' / 2)) (fun _ => True)
      (fun m => Reach2D c .all (.static w m)) (fun m => Reach2D c' .all (.static w' m))) ∧
    (DynWrites c' → ∀ w, Interchangeable c c' (fun m : MortonIndex2D (StaticStorage2D w) => m.cells)
      (fun m : MortonIndex2D DynamicStorage2D => m.cells) (fun _ n => n < 2 ^ (c.ptrBits - 1)) (fun d n => Addressable c' ((d + n) * 2))
      (some (w / 2)) none (fun ops => sc = .canonical ∨ NoEq ops)
      (fun m => Reach2D c .all (.static w m)) (fun m => Reach2D c' sc (.dynamic m))) ∧
    (DynWrites c → DynWrites c' → Interchangeable c c' (fun m : MortonIndex2D DynamicStorage2D => m.cells)
      (fun m : MortonIndex2D DynamicStorage2D => m.cells) (fun d n => Addressable c ((d + n) * 2)) (fun d n => Addressable c' ((d + n) * 2))
      none none (fun ops => sc = .canonical ∨ NoEq ops)
      (fun m => Reach2D c sc (.dynamic m)) (fun m => Reach2D c' sc (.dynamic m))) :=
  ⟨fun w w' => interchangeable ((C43_programs_2D hc).1 w) ((C43_programs_2D hc').1 w'),
    fun hw w => interchangeable (((C43_programs_2D hc).1 w).mono fun _ _ => trivial) ((C43_programs_2D hc').2 hw sc),
    fun hw hw' => interchangeable ((C43_programs_2D hc).2 hw sc) ((C43_programs_2D hc').2 hw' sc)⟩

/-- **C61**, 3D. -/
theorem C61_interchangeable_3D {c c' : Cfg} (hc : c.Supported) (hc' : c'.Supported) (sc : Scope) :
    (∀ w w', Interchangeable c c' (fun m : MortonIndex3D (StaticStorage3D w) => m.cells)
      (fun m : MortonIndex3D (StaticStorage3D w') => m.cells) (fun _ n => n < 2 ^ (c.ptrBits - 1)) (fun _ n => n < 2 ^ (c'.ptrBits - 1))
      (some (w / 3)) (some (w' / 3)) (fun ops => sc = .canonical ∨ NoEq ops)
      (fun m => Reach3D c sc (.static w m)) (fun m => Reach3D c' sc (.static w' m))) ∧
    (DynWrites c' → ∀ w, Interchangeable c c' (fun m : MortonIndex3D (StaticStorage3D w) => m.cells)
      (fun m : MortonIndex3D DynamicStorage3D => m.cells) (fun _ n => n < 2 ^ (c.ptrBits - 1)) (fun d n => Addressable c' ((d + n) * 3))
      (some (w / 3)) none (fun ops => sc = .canonical ∨ NoEq ops)
      (fun m => Reach3D c sc (.static w m)) (fun m => Reach3D c' sc (.dynamic m))) ∧
    (DynWrites c → DynWrites c' → Interchangeable c c' (fun m : MortonIndex3D DynamicStorage3D => m.cells)
      (fun m : MortonIndex3D DynamicStorage3D => m.cells) (fun d n => Addressable c ((d + n) * 3)) (fun d n => Addressable c' ((d + n) * 3))
      none none (fun ops => sc = .canonical ∨ NoEq ops)
      (fun m => Reach3D c sc (.dynamic m)) (fun m => Reach3D c' sc (.dynamic m))) :=
  ⟨fun w w' => interchangeable ((C43_programs_3D hc).1 w sc) ((C43_programs_3D hc').1 w' sc),
    fun hw w => interchangeable ((C43_programs_3D hc).1 w sc) ((C43_programs_3D hc').2 hw sc),
    fun hw hw' => interchangeable ((C43_programs_3D hc).2 hw sc) ((C43_programs_3D hc').2 hw' sc)⟩

/-! ## Cases -/

theorem exS2_shows : Shows x64 exS2 [.Three, .One, .Two] := by
  refine ⟨rfl, fun l hl => ?_⟩
  match l, hl with
  | 0, _ => exact (by decide +kernel : getCellAtLevel x64 exS2 0 = .ok .Three)
  | 1, _ => exact (by decide +kernel : getCellAtLevel x64 exS2 1 = .ok .One)
  | 2, _ => exact (by decide +kernel : getCellAtLevel x64 exS2 2 = .ok .Two)

theorem exD2_shows32 : Shows x32r exD2 [.Three, .One, .Two] := by
  refine ⟨rfl, fun l hl => ?_⟩
  match l, hl with
  | 0, _ => exact (by decide +kernel : getCellAtLevel x32r exD2 0 = .ok .Three)
  | 1, _ => exact (by decide +kernel : getCellAtLevel x32r exD2 1 = .ok .One)
  | 2, _ => exact (by decide +kernel : getCellAtLevel x32r exD2 2 = .ok .Two)

theorem exS3_shows32 : Shows x32r exS3 [.Five, .One, .Six] := by
  refine ⟨rfl, fun l hl => ?_⟩
  match l, hl with
  | 0, _ => exact (by decide +kernel : getCellAtLevel x32r exS3 0 = .ok .Five)
  | 1, _ => exact (by decide +kernel : getCellAtLevel x32r exS3 1 = .ok .One)
  | 2, _ => exact (by decide +kernel : getCellAtLevel x32r exS3 2 = .ok .Six)

/-- The 3D program of C43, one extension of which exceeds the depth limit, on a 64-bit debug and a 32-bit release build. -/
example : runIndices x64 (fun m : MortonIndex3D (StaticStorage3D 32) => m.cells) exProgram3 [exS3] =
    runIndices x32r (fun m : MortonIndex3D (StaticStorage3D 32) => m.cells) exProgram3 [exS3] := by
  refine (C61_interchangeable_3D x64_supported x32r_supported .canonical).1 32 32 [exS3] [exS3]
    [[.Five, .One, .Six]] exProgram3 ?_ ?_ rfl rfl ?_ ?_ ?_ ?_ (.inl rfl) (.inl rfl)
  · intro m hm; simp at hm; subst hm; exact exS3_reach _
  · intro m hm; simp at hm; subst hm; exact .staticTryFromSlice (cs := [.Five, .One, .Six]) (by decide) (by rfl)
  · intro k h h'
    match k, h with
    | 0, _ => exact exS3_shows
  · intro k h h'
    match k, h with
    | 0, _ => exact exS3_shows32
  · exact ⟨by change _ < _; decide, by change _ < _; decide, by change _ < _; decide, trivial, trivial, trivial, trivial⟩
  · exact ⟨by change _ < _; decide, by change _ < _; decide, by change _ < _; decide, trivial, trivial, trivial, trivial⟩

/-- The program of C43 on a `u16` static index on a 64-bit debug build and on a dynamic index on a 32-bit release build. -/
example : runIndices x64 (fun m : MortonIndex2D (StaticStorage2D 16) => m.cells) exProgram2 [exS2] =
    runIndices x32r (fun m : MortonIndex2D DynamicStorage2D => m.cells) exProgram2 [exD2] := by
  refine (C61_interchangeable_2D x64_supported x32r_supported .canonical).2.1 x32r_writes 16 [exS2] [exD2]
    [[.Three, .One, .Two]] exProgram2 ?_ ?_ rfl rfl ?_ ?_ ?_ ?_ (.inl rfl) (.inr ⟨?_, ?_⟩)
  · intro m hm; simp at hm; subst hm; exact exS2_reach _
  · intro m hm; simp at hm; subst hm; exact .dynamicTryFromSlice (cs := [.Three, .One, .Two]) (by unfold Addressable; decide) (by rfl)
  · intro k h h'
    match k, h with
    | 0, _ => exact exS2_shows
  · intro k h h'
    match k, h with
    | 0, _ => exact exD2_shows32
  · exact ⟨by change _ < _; decide, trivial, trivial, trivial, trivial, trivial, trivial, trivial⟩
  · exact ⟨by change Addressable x32r _; unfold Addressable; decide, trivial, trivial, trivial, trivial, trivial, trivial, trivial⟩
  · exact ⟨fun k e => by cases e; decide, trivial, trivial, trivial, trivial, trivial, trivial, trivial⟩
  · exact ⟨nofun, trivial, trivial, trivial, trivial, trivial, trivial, trivial⟩

/-- No step of the program of C43 overflows in a debug build, so it does the same in a release build. -/
example : runIndices x64.release (fun m : MortonIndex2D (StaticStorage2D 16) => m.cells) exProgram2 [exS2] =
    runIndices x64 (fun m : MortonIndex2D (StaticStorage2D 16) => m.cells) exProgram2 [exS2] :=
  (C60_debug_release_programs x64 16).1.1 exProgram2 [exS2] (by
    have : runIndices x64 (fun m : MortonIndex2D (StaticStorage2D 16) => m.cells) exProgram2 [exS2] =
        [.index, .index, .bool true, .index, .ordering .lt, .fault .panic, .index] := by rfl
    rw [this]
    intro o ho f hf
    subst hf
    simp at ho
    subst ho
    decide)

end MortonRs
