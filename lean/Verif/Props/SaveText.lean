import Verif.Props.Rebuild
import Verif.Props.StringOrder
import Verif.Props.Grid2D
import Verif.Props.Grid3D
import Verif.Props.DebugText

/-! # Saving indices as text and loading them again (C111)

Client code that writes an index with `to_string`, and reads it back on the same or another target into an index of the same or
another type: cell by cell with `Cell::try_from` and `try_from` on the slice, or from the numbers of a grid index string with
`from_grid_index`. -/

namespace MortonRs

open MortonIndex

variable {M T Cell : Type}

/-! ## Client code -/

/-- `char::to_digit(10)` of the standard library. -/
def charDigit (ch : Char) : Option Nat := if ch.isDigit then some (ch.toNat - 48) else none

/-- Client code: `text.chars().map(|ch| Cell::try_from(ch.to_digit(10)? as usize).ok()).collect::<Option<Vec<_>>>()`. -/
def readCells [Dimension Cell] : List Char → Option (List Cell)
  | [] => some []
  | ch :: rest => do
    let d ← charDigit ch
    let v ← (Dimension.tryFromUsize d : Except Error Cell).toOption
    return v :: (← readCells rest)

/-- Client code: for the naming with root `text.strip_prefix('r')?`. -/
def stripRoot : MortonIndexNaming → List Char → Option (List Char)
  | .CellConcatenationWithRoot, 'r' :: rest => some rest
  | .CellConcatenationWithRoot, _ => none
  | _, text => some text

/-- Client code: `T::try_from(cells.as_slice()).ok()` on the cells of the text. -/
def loadCells [Dimension Cell] (tf : List Cell → Res (Except Error T)) (naming : MortonIndexNaming) (text : String) :
    Res (Option T) :=
  match (stripRoot naming text.toList).bind readCells with
  | none => return none
  | some cs => do return (← tf cs).toOption

/-! ## Statement -/

/-- The two namings that list the cells. -/
def CellNaming (naming : MortonIndexNaming) : Prop := naming = .CellConcatenation ∨ naming = .CellConcatenationWithRoot

/-- What a naming puts in front of the digits. -/
def rootPrefix : MortonIndexNaming → String
  | .CellConcatenationWithRoot => "r"
  | _ => ""

/-- Loading arbitrary text. It succeeds exactly on the prefix followed by digits of cells, not more than fit, and the text of the
result is the text loaded, padded with zeros for a fixed-depth index. It never panics. -/
def LoadsExactly [Dimension Cell] [MortonIndex T Cell] (c : Cfg) (digits : List Char) (fits tooLong : Nat → Prop)
    (pad : Nat → Nat) (tf : List Cell → Res (Except Error T)) : Prop :=
  ∀ naming, CellNaming naming →
    (∀ ds : List Char, (∀ ch ∈ ds, ch ∈ digits) → fits ds.length →
      ∃ r, loadCells tf naming (rootPrefix naming ++ String.ofList ds) = .ok (some r) ∧
        MortonIndex.toString c r naming = .ok (rootPrefix naming ++ String.ofList (ds ++ List.replicate (pad ds.length) '0'))) ∧
    (∀ ds : List Char, (∀ ch ∈ ds, ch ∈ digits) → tooLong ds.length →
      loadCells tf naming (rootPrefix naming ++ String.ofList ds) = .ok none) ∧
    (∀ text, ¬ (∃ ds : List Char, text = rootPrefix naming ++ String.ofList ds ∧ ∀ ch ∈ ds, ch ∈ digits) →
      loadCells tf naming text = .ok none)

/-- Text written on target `c` by an index of one type and read on target `c'` as an index of another: the same cells, and the same
text again. -/
def TextRoundTrip [Dimension Cell] [MortonIndex M Cell] [MortonIndex T Cell] (c c' : Cfg) (ok : M → Prop) (fits : Nat → Prop)
    (tf : List Cell → Res (Except Error T)) : Prop :=
  ∀ naming, CellNaming naming → ∀ m, ok m → ∃ text, MortonIndex.toString c m naming = .ok text ∧ (fits (depth m) →
    ∃ r, loadCells tf naming text = .ok (some r) ∧ depth r = depth m ∧ (∀ l, getCellAtLevel c' r l = getCellAtLevel c m l) ∧
      MortonIndex.toString c' r naming = .ok text ∧
      ∀ m₂, ok m₂ → (MortonIndex.toString c m₂ naming = .ok text ↔ depth m₂ = depth m ∧ ∀ l, getCellAtLevel c m₂ l = getCellAtLevel c m l))

/-! ## Proof -/

section
variable [Dimension Cell] {digit : Cell → Char}

/-- Digits are read back. -/
def ReadsDigit [Dimension Cell] (digit : Cell → Char) : Prop :=
  ∀ ch v, ((charDigit ch).bind fun d => (Dimension.tryFromUsize d : Except Error Cell).toOption) = some v ↔ ch = digit v

theorem readCells_cons (ch : Char) (rest : List Char) : (readCells (ch :: rest) : Option (List Cell)) =
    ((charDigit ch).bind fun d => (Dimension.tryFromUsize d : Except Error Cell).toOption).bind fun v =>
      (readCells rest).bind fun vs => some (v :: vs) := by
  rw [readCells]
  cases charDigit ch <;> rfl

theorem readCells_some (h : ReadsDigit digit) : ∀ (text : List Char) (cs : List Cell),
    readCells text = some cs ↔ text = cs.map digit
  | [], cs => by
    rw [readCells]
    cases cs <;> simp
  | ch :: rest, cs => by
    rw [readCells_cons]
    cases cs with
    | nil =>
      simp only [List.map_nil, reduceCtorEq, iff_false]
      intro e
      obtain ⟨v, -, e⟩ := Option.bind_eq_some_iff.mp e
      obtain ⟨vs, -, e⟩ := Option.bind_eq_some_iff.mp e
      cases e
    | cons v vs =>
      rw [List.map_cons, List.cons.injEq, ← readCells_some h rest vs, ← h ch v]
      constructor
      · intro e
        obtain ⟨v', e1, e⟩ := Option.bind_eq_some_iff.mp e
        obtain ⟨vs', e2, e⟩ := Option.bind_eq_some_iff.mp e
        cases e
        exact ⟨e1, e2⟩
      · rintro ⟨e1, e2⟩
        rw [e1, e2]
        rfl

theorem stripRoot_some {naming : MortonIndexNaming} (hn : CellNaming naming) (text : String) (ds : List Char) :
    stripRoot naming text.toList = some ds ↔ text = rootPrefix naming ++ String.ofList ds := by
  rcases hn with rfl | rfl
  · change some text.toList = some ds ↔ text = "" ++ String.ofList ds
    rw [Option.some.injEq, String.empty_append]
    constructor
    · rintro rfl
      rw [String.ofList_toList]
    · rintro rfl
      rw [String.toList_ofList]
  · rw [rootPrefix]
    constructor
    · intro e
      cases ht : text.toList with
      | nil => rw [ht] at e; cases e
      | cons ch rest =>
        rw [ht] at e
        by_cases hr : ch = 'r'
        · subst hr
          cases e
          rw [← String.toList_inj, ht, String.toList_append, show "r".toList = ['r'] from rfl, String.toList_ofList,
            List.singleton_append]
        · rw [stripRoot] at e
          · cases e
          · intro rest' h
            exact hr (List.cons.inj h).1
    · rintro rfl
      rw [String.toList_append, show "r".toList = ['r'] from rfl, String.toList_ofList, List.singleton_append]
      rfl

theorem loadCells_ok (h : ReadsDigit digit) {naming : MortonIndexNaming} (hn : CellNaming naming)
    (tf : List Cell → Res (Except Error T)) (cs : List Cell) {r : T} (htf : tf cs = .ok (.ok r)) :
    loadCells tf naming (rootPrefix naming ++ String.ofList (cs.map digit)) = .ok (some r) := by
  rw [loadCells, (stripRoot_some hn _ _).mpr rfl, Option.bind_some, (readCells_some h _ _).mpr rfl]
  simp only [htf, ok_bind]
  rfl

theorem loadCells_none (h : ReadsDigit digit) {naming : MortonIndexNaming} (hn : CellNaming naming)
    (tf : List Cell → Res (Except Error T)) (text : String)
    (ht : ¬ ∃ cs : List Cell, text = rootPrefix naming ++ String.ofList (cs.map digit)) :
    loadCells tf naming text = .ok none := by
  rw [loadCells]
  cases e : (stripRoot naming text.toList).bind (readCells (Cell := Cell)) with
  | none => rfl
  | some cs =>
    obtain ⟨ds, e1, e2⟩ := Option.bind_eq_some_iff.mp e
    refine absurd ⟨cs, ?_⟩ ht
    rw [(stripRoot_some hn _ _).mp e1, (readCells_some h _ _).mp e2]

omit [Dimension Cell] in
theorem digits_map {digits : List Char} (hd : ∀ ch, ch ∈ digits ↔ ∃ v, ch = digit v) (ds : List Char)
    (h : ∀ ch ∈ ds, ch ∈ digits) : ∃ cs : List Cell, ds = cs.map digit := by
  induction ds with
  | nil => exact ⟨[], rfl⟩
  | cons ch ds ih =>
    obtain ⟨v, rfl⟩ := (hd ch).mp (h ch (by simp))
    obtain ⟨cs, rfl⟩ := ih fun x hx => h x (by simp [hx])
    exact ⟨v :: cs, rfl⟩

omit [Dimension Cell] in
theorem nameLike_naming [MortonIndex M Cell] {c : Cfg} {ok : M → Prop} {p : M → List Cell} (hN : NameLike c ok p digit) {m : M}
    (hm : ok m) {naming : MortonIndexNaming} (hn : CellNaming naming) :
    MortonIndex.toString c m naming = .ok (rootPrefix naming ++ String.ofList ((p m).map digit)) := by
  rcases hn with rfl | rfl
  · rw [(hN m hm).1, rootPrefix]
    · simp
    · simp
  · exact (hN m hm).2

theorem loadsExactly_of [MortonIndex T Cell] {c : Cfg} {digits : List Char} {fits tooLong : Nat → Prop} {pad : Nat → Nat} {zero : Cell}
    {tf : List Cell → Res (Except Error T)} {okT : T → Prop} {q : T → List Cell} (h : ReadsDigit digit)
    (hd : ∀ ch, ch ∈ digits ↔ ∃ v, ch = digit v) (hz : digit zero = '0') (hN : NameLike c okT q digit)
    (htf : ∀ cs, fits cs.length → ∃ r, tf cs = .ok (.ok r) ∧ okT r ∧ q r = cs ++ List.replicate (pad cs.length) zero)
    (hlong : ∀ cs, tooLong cs.length → ∃ e, tf cs = .ok (.error e)) : LoadsExactly c digits fits tooLong pad tf := by
  refine fun naming hn => ⟨fun ds hds hf => ?_, fun ds hds hf => ?_, fun text ht => ?_⟩
  · obtain ⟨cs, rfl⟩ := digits_map hd ds hds
    rw [List.length_map] at hf ⊢
    obtain ⟨r, h1, h2, h3⟩ := htf cs hf
    refine ⟨r, loadCells_ok h hn tf cs h1, ?_⟩
    rw [nameLike_naming hN h2 hn, h3, List.map_append, List.map_replicate, hz]
  · obtain ⟨cs, rfl⟩ := digits_map hd ds hds
    rw [List.length_map] at hf
    obtain ⟨e, h1⟩ := hlong cs hf
    rw [loadCells, (stripRoot_some hn _ _).mpr rfl, Option.bind_some, (readCells_some h _ _).mpr rfl]
    simp only [h1, ok_bind]
    rfl
  · refine loadCells_none h hn tf text fun ⟨cs, e⟩ => ht ⟨cs.map digit, e, fun ch hch => ?_⟩
    obtain ⟨v, -, rfl⟩ := List.mem_map.mp hch
    exact (hd _).mpr ⟨v, rfl⟩

theorem textRoundTrip_of [MortonIndex M Cell] [MortonIndex T Cell] {c c' : Cfg} {fits : Nat → Prop}
    {tf : List Cell → Res (Except Error T)} {ok : M → Prop} {p : M → List Cell} {okT : T → Prop} {q : T → List Cell}
    {wr wr' : Cell → Cell} (h : ReadsDigit digit) (hinj : ∀ {u v}, digit u = digit v → u = v) (hL : ListLike c ok p wr)
    (hN : NameLike c ok p digit)
    (hL' : ListLike c' okT q wr') (hN' : NameLike c' okT q digit)
    (htf : ∀ cs, fits cs.length → ∃ r, tf cs = .ok (.ok r) ∧ okT r ∧ q r = cs) : TextRoundTrip c c' ok fits tf := by
  intro naming hn m hm
  refine ⟨_, nameLike_naming hN hm hn, fun hf => ?_⟩
  rw [hL.depth_eq m hm] at hf
  obtain ⟨r, h1, h2, h3⟩ := htf _ hf
  refine ⟨r, loadCells_ok h hn tf _ h1, ?_, fun l => ?_, ?_, fun m₂ hm₂ => ?_⟩
  · rw [hL.depth_eq m hm, hL'.depth_eq r h2, h3]
  · rw [hL.get_eq hm, hL'.get_eq h2, h3]
  · rw [nameLike_naming hN' h2 hn, h3]
  · have hsame : (depth m₂ = depth m ∧ ∀ l, getCellAtLevel c m₂ l = getCellAtLevel c m l) ↔ p m₂ = p m := by
      rw [← hL.sameCells_iff hm₂ hm]
      refine ⟨fun ⟨g1, g2⟩ => ⟨g1, fun l _ => g2 l⟩, fun ⟨g1, g2⟩ => ⟨g1, fun l => ?_⟩⟩
      by_cases hl : l < depth m₂
      · exact g2 l hl
      · rw [hL.get_ge m hm l (by rw [← hL.depth_eq m hm]; omega), hL.get_ge m₂ hm₂ l (by rw [← hL.depth_eq m₂ hm₂]; omega)]
    rw [hsame, nameLike_naming hN hm₂ hn, Except.ok.injEq]
    constructor
    · intro e
      have e := congrArg String.toList e
      simp only [String.toList_append, String.toList_ofList, List.append_cancel_left_eq] at e
      exact (List.map_inj_right (fun _ _ => hinj)).mp e
    · intro e
      rw [e]

end

theorem charDigit_iff (ch : Char) (n : Nat) : charDigit ch = some n ↔ n < 10 ∧ ch = Char.ofNat (48 + n) := by
  rw [charDigit]
  constructor
  · intro h
    split at h
    · rename_i hd
      cases h
      rw [Char.isDigit, Bool.and_eq_true, decide_eq_true_iff, decide_eq_true_iff] at hd
      obtain ⟨h1, h2⟩ := hd
      have h1 : 48 ≤ ch.toNat := h1
      have h2 : ch.toNat ≤ 57 := h2
      refine ⟨by omega, ?_⟩
      rw [show 48 + (ch.toNat - 48) = ch.toNat by omega, Char.ofNat_toNat]
    · cases h
  · rintro ⟨h, rfl⟩
    revert n
    decide

theorem readsDigit2 : ReadsDigit quadrantDigit := by
  intro ch v
  rw [Option.bind_eq_some_iff]
  constructor
  · rintro ⟨d, h1, h2⟩
    obtain ⟨-, rfl⟩ := (charDigit_iff ch d).mp h1
    change (Quadrant.tryFromUsize d).toOption = some v at h2
    unfold Quadrant.tryFromUsize at h2
    split at h2 <;> cases h2 <;> rfl
  · rintro rfl
    cases v
    · exact ⟨0, by decide⟩
    · exact ⟨1, by decide⟩
    · exact ⟨2, by decide⟩
    · exact ⟨3, by decide⟩

theorem readsDigit3 : ReadsDigit octantDigit := by
  intro ch v
  rw [Option.bind_eq_some_iff]
  constructor
  · rintro ⟨d, h1, h2⟩
    obtain ⟨-, rfl⟩ := (charDigit_iff ch d).mp h1
    change (Octant.tryFromUsize d).toOption = some v at h2
    unfold Octant.tryFromUsize at h2
    split at h2 <;> cases h2 <;> rfl
  · rintro rfl
    cases v
    · exact ⟨0, by decide⟩
    · exact ⟨1, by decide⟩
    · exact ⟨2, by decide⟩
    · exact ⟨3, by decide⟩
    · exact ⟨4, by decide⟩
    · exact ⟨5, by decide⟩
    · exact ⟨6, by decide⟩
    · exact ⟨7, by decide⟩

/-! ## Cells as text, 2D -/

section
variable {c c' : Cfg}

theorem digits_mem2 (ch : Char) : ch ∈ "0123".toList ↔ ∃ v, ch = quadrantDigit v := by
  constructor
  · intro h
    simp only [show "0123".toList = ['0', '1', '2', '3'] from rfl, List.mem_cons, List.not_mem_nil, or_false] at h
    rcases h with rfl | rfl | rfl | rfl
    · exact ⟨.Zero, rfl⟩
    · exact ⟨.One, rfl⟩
    · exact ⟨.Two, rfl⟩
    · exact ⟨.Three, rfl⟩
  · rintro ⟨v, rfl⟩
    cases v <;> decide

theorem C111_load_exactly_2D (hc : c.Supported) :
    (∀ w, IntWidth w → LoadsExactly c "0123".toList (· ≤ w / 2) (w / 2 < ·) (w / 2 - ·)
      (MortonIndex2D.tryFromSlice c : List Quadrant → Res (Except Error (MortonIndex2D (FixedDepthStorage2D w))))) ∧
    (∀ w, IntWidth w → LoadsExactly c "0123".toList (· ≤ w / 2) (w / 2 < ·) (fun _ => 0)
      (MortonIndex2D.tryFromSlice c : List Quadrant → Res (Except Error (MortonIndex2D (StaticStorage2D w))))) ∧
    (DynWrites c → LoadsExactly c "0123".toList (fun n => Addressable c (n * 2)) (fun _ => False) (fun _ => 0)
      (MortonIndex2D.tryFromSlice c : List Quadrant → Res (Except Error (MortonIndex2D DynamicStorage2D)))) := by
  refine ⟨fun w hw => ?_, fun w hw => ?_, fun hw => ?_⟩
  · refine loadsExactly_of (zero := .Zero) readsDigit2 digits_mem2 rfl (nameLike_of2 hc (fixed_wf2 (sc := .all) hc)) (fun cs hf => ?_)
      fun cs hl => ⟨_, (MortonIndex2D.fixed_tryFrom_error hl).1⟩
    obtain ⟨r, h1, -, -, h2⟩ := MortonIndex2D.fixed_tryFrom hc hw (cs := cs) hf
    exact ⟨r, h1, .fixedTryFromSlice hw h1, h2⟩
  · refine loadsExactly_of (zero := .Zero) readsDigit2 digits_mem2 rfl (nameLike_of2 hc (static_wf2 (sc := .all) hc)) (fun cs hf => ?_)
      fun cs hl => ⟨_, (MortonIndex2D.static_tryFrom_error hl).1⟩
    obtain ⟨r, h1, -, -, -, h2⟩ := MortonIndex2D.static_tryFrom hc hw (cs := cs) hf
    exact ⟨r, h1, .staticTryFromSlice hw h1, by rw [List.replicate_zero, List.append_nil]; exact h2⟩
  · refine loadsExactly_of (zero := .Zero) readsDigit2 digits_mem2 rfl (nameLike_of2 hc (dynamic_wf2 (sc := .all) hc)) (fun cs hf => ?_)
      fun cs hl => hl.elim
    obtain ⟨r, h1, -, -, -, h2⟩ := MortonIndex2D.dynamic_tryFrom hc (cs := cs) hf
    exact ⟨r, h1, .dynamicTryFromSlice hf h1, by rw [List.replicate_zero, List.append_nil]; exact h2 hw⟩

/-- Into the index types of the library. A fixed-depth index has the same cells only if it is not padded. -/
def TextInto2D [MortonIndex M Quadrant] (c c' : Cfg) (ok : M → Prop) : Prop :=
  (∀ w, IntWidth w → TextRoundTrip c c' ok (· = w / 2)
    (MortonIndex2D.tryFromSlice c' : List Quadrant → Res (Except Error (MortonIndex2D (FixedDepthStorage2D w))))) ∧
  (∀ w, IntWidth w → TextRoundTrip c c' ok (· ≤ w / 2)
    (MortonIndex2D.tryFromSlice c' : List Quadrant → Res (Except Error (MortonIndex2D (StaticStorage2D w))))) ∧
  (DynWrites c' → TextRoundTrip c c' ok (fun n => Addressable c' (n * 2))
    (MortonIndex2D.tryFromSlice c' : List Quadrant → Res (Except Error (MortonIndex2D DynamicStorage2D))))

theorem textInto2_of [MortonIndex M Quadrant] (hc' : c'.Supported) {ok : M → Prop} {p : M → List Quadrant} {wr : Quadrant → Quadrant}
    (hL : ListLike c ok p wr) (hN : NameLike c ok p quadrantDigit) : TextInto2D c c' ok := by
  refine ⟨fun w hw => ?_, fun w hw => ?_, fun hw => ?_⟩
  · refine textRoundTrip_of readsDigit2 quadrantDigit_inj hL hN (fixed_list2 (sc := .all) (w := w) hc')
      (nameLike_of2 hc' (fixed_wf2 hc')) fun cs hf => ?_
    obtain ⟨r, h1, -, -, h2⟩ := MortonIndex2D.fixed_tryFrom hc' hw (cs := cs) (Nat.le_of_eq hf)
    have e : w / dim Quadrant - cs.length = 0 := by
      change w / 2 - _ = 0
      omega
    rw [e, List.replicate_zero, List.append_nil] at h2
    exact ⟨r, h1, .fixedTryFromSlice hw h1, h2⟩
  · refine textRoundTrip_of readsDigit2 quadrantDigit_inj hL hN (static_list2 (sc := .all) (w := w) hc')
      (nameLike_of2 hc' (static_wf2 hc')) fun cs hf => ?_
    obtain ⟨r, h1, -, -, -, h2⟩ := MortonIndex2D.static_tryFrom hc' hw (cs := cs) hf
    exact ⟨r, h1, .staticTryFromSlice hw h1, h2⟩
  · refine textRoundTrip_of readsDigit2 quadrantDigit_inj hL hN (dynamic_list2 (sc := .all) hc' hw)
      (nameLike_of2 hc' (dynamic_wf2 hc')) fun cs hf => ?_
    obtain ⟨r, h1, -, -, -, h2⟩ := MortonIndex2D.dynamic_tryFrom hc' (cs := cs) hf
    exact ⟨r, h1, .dynamicTryFromSlice hf h1, h2 hw⟩

theorem C111_round_trip_2D (hc : c.Supported) (hc' : c'.Supported) :
    (∀ w, TextInto2D c c' (fun m : MortonIndex2D (FixedDepthStorage2D w) => Reach2D c .all (.fixed w m))) ∧
    (∀ w, TextInto2D c c' (fun m : MortonIndex2D (StaticStorage2D w) => Reach2D c .all (.static w m))) ∧
    TextInto2D c c' (fun m : MortonIndex2D DynamicStorage2D => Reach2D c .all (.dynamic m)) :=
  ⟨fun _ => textInto2_of hc' (fixed_list2 hc) (nameLike_of2 hc (fixed_wf2 hc)),
    fun _ => textInto2_of hc' (static_list2 hc) (nameLike_of2 hc (static_wf2 hc)),
    textInto2_of hc' (dynamic_list2' hc) (nameLike_of2 hc (dynamic_wf2 hc))⟩

end

/-! ## Cells as text, 3D -/

section
variable {c c' : Cfg}

theorem digits_mem3 (ch : Char) : ch ∈ "01234567".toList ↔ ∃ v, ch = octantDigit v := by
  constructor
  · intro h
    simp only [show "01234567".toList = ['0', '1', '2', '3', '4', '5', '6', '7'] from rfl, List.mem_cons, List.not_mem_nil, or_false] at h
    rcases h with rfl | rfl | rfl | rfl | rfl | rfl | rfl | rfl
    · exact ⟨.Zero, rfl⟩
    · exact ⟨.One, rfl⟩
    · exact ⟨.Two, rfl⟩
    · exact ⟨.Three, rfl⟩
    · exact ⟨.Four, rfl⟩
    · exact ⟨.Five, rfl⟩
    · exact ⟨.Six, rfl⟩
    · exact ⟨.Seven, rfl⟩
  · rintro ⟨v, rfl⟩
    cases v <;> decide

theorem C111_load_exactly_3D (hc : c.Supported) :
    (∀ w, IntWidth w → LoadsExactly c "01234567".toList (· ≤ w / 3) (w / 3 < ·) (w / 3 - ·)
      (MortonIndex3D.tryFromSlice c : List Octant → Res (Except Error (MortonIndex3D (FixedDepthStorage3D w))))) ∧
    (∀ w, IntWidth w → LoadsExactly c "01234567".toList (· ≤ w / 3) (w / 3 < ·) (fun _ => 0)
      (MortonIndex3D.tryFromSlice c : List Octant → Res (Except Error (MortonIndex3D (StaticStorage3D w))))) ∧
    (DynWrites c → LoadsExactly c "01234567".toList (fun n => Addressable c (n * 3)) (fun _ => False) (fun _ => 0)
      (MortonIndex3D.tryFromSlice c : List Octant → Res (Except Error (MortonIndex3D DynamicStorage3D)))) := by
  refine ⟨fun w hw => ?_, fun w hw => ?_, fun hw => ?_⟩
  · refine loadsExactly_of (zero := .Zero) readsDigit3 digits_mem3 rfl (nameLike_of3 hc (fixed_wf3 (sc := .all) hc)) (fun cs hf => ?_)
      fun cs hl => ⟨_, (MortonIndex3D.fixed_tryFrom_error hl).1⟩
    obtain ⟨r, h1, -, -, h2⟩ := MortonIndex3D.fixed_tryFrom hc hw (cs := cs) hf
    exact ⟨r, h1, .fixedTryFromSlice hw h1, h2⟩
  · refine loadsExactly_of (zero := .Zero) readsDigit3 digits_mem3 rfl (nameLike_of3 hc (static_wf3 (sc := .all) hc)) (fun cs hf => ?_)
      fun cs hl => ⟨_, (MortonIndex3D.static_tryFrom_error hl).1⟩
    obtain ⟨r, h1, -, -, -, h2⟩ := MortonIndex3D.static_tryFrom hc hw (cs := cs) hf
    exact ⟨r, h1, .staticTryFromSlice hw h1, by rw [List.replicate_zero, List.append_nil]; exact h2⟩
  · refine loadsExactly_of (zero := .Zero) readsDigit3 digits_mem3 rfl (nameLike_of3 hc (dynamic_wf3 (sc := .all) hc)) (fun cs hf => ?_)
      fun cs hl => hl.elim
    obtain ⟨r, h1, -, -, -, h2⟩ := MortonIndex3D.dynamic_tryFrom hc (cs := cs) hf
    exact ⟨r, h1, .dynamicTryFromSlice hf h1, by rw [List.replicate_zero, List.append_nil]; exact h2 hw⟩

/-- Into the index types of the library. A fixed-depth index has the same cells only if it is not padded. -/
def TextInto3D [MortonIndex M Octant] (c c' : Cfg) (ok : M → Prop) : Prop :=
  (∀ w, IntWidth w → TextRoundTrip c c' ok (· = w / 3)
    (MortonIndex3D.tryFromSlice c' : List Octant → Res (Except Error (MortonIndex3D (FixedDepthStorage3D w))))) ∧
  (∀ w, IntWidth w → TextRoundTrip c c' ok (· ≤ w / 3)
    (MortonIndex3D.tryFromSlice c' : List Octant → Res (Except Error (MortonIndex3D (StaticStorage3D w))))) ∧
  (DynWrites c' → TextRoundTrip c c' ok (fun n => Addressable c' (n * 3))
    (MortonIndex3D.tryFromSlice c' : List Octant → Res (Except Error (MortonIndex3D DynamicStorage3D))))

theorem textInto3_of [MortonIndex M Octant] (hc' : c'.Supported) {ok : M → Prop} {p : M → List Octant} {wr : Octant → Octant}
    (hL : ListLike c ok p wr) (hN : NameLike c ok p octantDigit) : TextInto3D c c' ok := by
  refine ⟨fun w hw => ?_, fun w hw => ?_, fun hw => ?_⟩
  · refine textRoundTrip_of readsDigit3 octantDigit_inj hL hN (fixed_list3 (sc := .all) (w := w) hc')
      (nameLike_of3 hc' (fixed_wf3 hc')) fun cs hf => ?_
    obtain ⟨r, h1, -, -, h2⟩ := MortonIndex3D.fixed_tryFrom hc' hw (cs := cs) (Nat.le_of_eq hf)
    have e : w / dim Octant - cs.length = 0 := by
      change w / 3 - _ = 0
      omega
    rw [e, List.replicate_zero, List.append_nil] at h2
    exact ⟨r, h1, .fixedTryFromSlice hw h1, h2⟩
  · refine textRoundTrip_of readsDigit3 octantDigit_inj hL hN (static_list3 (sc := .all) (w := w) hc')
      (nameLike_of3 hc' (static_wf3 hc')) fun cs hf => ?_
    obtain ⟨r, h1, -, -, -, h2⟩ := MortonIndex3D.static_tryFrom hc' hw (cs := cs) hf
    exact ⟨r, h1, .staticTryFromSlice hw h1, h2⟩
  · refine textRoundTrip_of readsDigit3 octantDigit_inj hL hN (dynamic_list3 (sc := .all) hc' hw)
      (nameLike_of3 hc' (dynamic_wf3 hc')) fun cs hf => ?_
    obtain ⟨r, h1, -, -, -, h2⟩ := MortonIndex3D.dynamic_tryFrom hc' (cs := cs) hf
    exact ⟨r, h1, .dynamicTryFromSlice hf h1, h2 hw⟩

theorem C111_round_trip_3D (hc : c.Supported) (hc' : c'.Supported) :
    (∀ w, TextInto3D c c' (fun m : MortonIndex3D (FixedDepthStorage3D w) => Reach3D c .all (.fixed w m))) ∧
    (∀ w, TextInto3D c c' (fun m : MortonIndex3D (StaticStorage3D w) => Reach3D c .all (.static w m))) ∧
    TextInto3D c c' (fun m : MortonIndex3D DynamicStorage3D => Reach3D c .all (.dynamic m)) :=
  ⟨fun _ => textInto3_of hc' (fixed_list3 hc) (nameLike_of3 hc (fixed_wf3 hc)),
    fun _ => textInto3_of hc' (static_list3 hc) (nameLike_of3 hc (static_wf3 hc)),
    textInto3_of hc' (dynamic_list3' hc) (nameLike_of3 hc (dynamic_wf3 hc))⟩

end

/-! ## Grid index strings -/

/-- `text.split('-')` of the standard library. -/
def splitDash : List Char → List (List Char)
  | [] => [[]]
  | '-' :: rest => [] :: splitDash rest
  | ch :: rest => match splitDash rest with
    | [] => [[ch]]
    | word :: words => (ch :: word) :: words

/-- The value of a list of digits, `None` if there is another character. -/
def decimalValue : List Char → Nat → Option Nat
  | [], acc => some acc
  | ch :: rest, acc => (charDigit ch).bind fun d => decimalValue rest (10 * acc + d)

/-- `usize::from_str` of the standard library, successes only: an optional plus sign and at least one digit, and the value must
fit. -/
def parseUsize (c : Cfg) (word : List Char) : Option (BitVec c.ptrBits) :=
  let digits := match word with
    | '+' :: rest => rest
    | _ => word
  if digits = [] then none
  else (decimalValue digits 0).bind fun n => if n < 2 ^ c.ptrBits then some (BitVec.ofNat _ n) else none

/-- Client code: the parts of a 2D grid index string, and `from_grid_index` on them. -/
def loadGrid2D (c : Cfg) (text : String) : Res (Option (MortonIndex2D DynamicStorage2D)) :=
  match splitDash text.toList with
  | [d, x, y] => match parseUsize c d, parseUsize c x, parseUsize c y with
    | some d, some x, some y => do return some (← MortonIndex2D.dynamicFromGridIndex c ⟨x, y⟩ d.toNat .default)
    | _, _, _ => return none
  | _ => return none

/-- The same in 3D. -/
def loadGrid3D (c : Cfg) (text : String) : Res (Option (MortonIndex3D DynamicStorage3D)) :=
  match splitDash text.toList with
  | [d, x, y, z] => match parseUsize c d, parseUsize c x, parseUsize c y, parseUsize c z with
    | some d, some x, some y, some z => do return some (← MortonIndex3D.dynamicFromGridIndex c ⟨x, y, z⟩ d.toNat .default)
    | _, _, _, _ => return none
  | _ => return none

/-- Grid index strings written on target `c` and read on target `c'`. -/
def GridTextRoundTrip [MortonIndex M Cell] [MortonIndex T Cell] (c c' : Cfg) (ok : M → Prop)
    (load : String → Res (Option T)) : Prop :=
  ∀ m, ok m → depth m ≤ c.ptrBits → depth m ≤ c'.ptrBits / 2 → ∃ text r, MortonIndex.toString c m .GridIndex = .ok text ∧
    load text = .ok (some r) ∧ depth r = depth m ∧ (∀ l, getCellAtLevel c' r l = getCellAtLevel c m l) ∧
    MortonIndex.toString c' r .GridIndex = .ok text

theorem splitDash_word {word : List Char} (h : '-' ∉ word) : splitDash word = [word] := by
  induction word with
  | nil => rfl
  | cons ch word ih =>
    simp only [List.mem_cons, not_or] at h
    rw [splitDash, ih h.2]
    exact fun e => h.1 e.symm

theorem splitDash_dash {word rest : List Char} (h : '-' ∉ word) : splitDash (word ++ '-' :: rest) = word :: splitDash rest := by
  induction word with
  | nil => rfl
  | cons ch word ih =>
    simp only [List.mem_cons, not_or] at h
    rw [List.cons_append, splitDash, ih h.2]
    exact fun e => h.1 e.symm

theorem decimalValue_eq : ∀ (ds : List Char) (acc : Nat), (∀ ch ∈ ds, ch.isDigit = true) →
    decimalValue ds acc = some (Nat.ofDigitChars 10 ds acc)
  | [], acc, _ => rfl
  | ch :: ds, acc, h => by
    rw [decimalValue, charDigit, if_pos (h ch (by simp)), Option.bind_some, decimalValue_eq ds _ fun x hx => h x (by simp [hx])]
    rfl

theorem parseUsize_repr (c : Cfg) {n : Nat} (h : n < 2 ^ c.ptrBits) : parseUsize c n.repr.toList = some (BitVec.ofNat _ n) := by
  have hp : '+' ∉ n.repr.toList := not_mem_repr rfl n
  have hne := repr_ne_nil n
  have hds : ∀ ch ∈ n.repr.toList, ch.isDigit = true := fun ch hch => by
    rw [Nat.toList_repr] at hch
    exact Nat.isDigit_of_mem_toDigits (by decide) (by decide) hch
  have hv : decimalValue n.repr.toList 0 = some n := by
    rw [decimalValue_eq _ _ hds, Nat.toList_repr]
    exact congrArg some Nat.ofDigitChars_ten_toDigits
  rw [parseUsize]
  · rw [if_neg hne, hv, Option.bind_some, if_pos h]
  · intro rest e
    rw [e] at hp
    simp at hp

section
variable {c c' : Cfg}

theorem gridTextRoundTrip_of2 {S : Type} [Storage S Quadrant] [BitStorage S Quadrant] (hc : c.Supported) (hc' : c'.Supported)
    {ok : MortonIndex2D S → Prop} {wr : Quadrant → Quadrant} (hL : ListLike c ok cells2 wr) (hwf : ∀ m, ok m → WF c m.storage) :
    GridTextRoundTrip c c' ok (loadGrid2D c') := by
  intro m hm h1 h2
  have hlt := hc'.le
  have hWp : 16 ≤ c'.ptrBits := by rcases hc' with h | h | h <;> omega
  rw [hL.depth_eq m hm] at h1 h2
  have hfit : ∀ f : Quadrant → Bool, binary ((cells2 m).map f) < 2 ^ c'.ptrBits := fun f => by
    have := binary_lt ((cells2 m).map f)
    rw [List.length_map] at this
    exact Nat.lt_of_lt_of_le this (Nat.pow_le_pow_right (by decide) (by omega))
  have hd : (cells2 m).length < 2 ^ c'.ptrBits := Nat.lt_of_le_of_lt (by omega) (Nat.lt_two_pow_self (n := c'.ptrBits))
  have hs := gridString_ok2 hc (hwf m hm) (by rw [← path_length]; exact h1)
  rw [show path m.storage = cells2 m from rfl] at hs
  obtain ⟨r, g1, g2, g3, g4⟩ := MortonIndex2D.dynamicFromGridIndex_ok hc'
    ⟨BitVec.ofNat _ (binary ((cells2 m).map (quadrantX .XY))), BitVec.ofNat _ (binary ((cells2 m).map (quadrantY .XY)))⟩ _ h2 .XY
  have hr : Reach2D c' .all (.dynamic r) := .dynamicFromGrid g1
  have hwr := dynamic_wf2 hc' r hr
  have hdr : Storage.depth r.storage = (cells2 m).length := g2
  obtain ⟨v, e1, e2, e3⟩ := MortonIndex2D.toGridIndex_of_gridPath hc' hwr (o := .XY) (by omega) (by rw [hdr]; exact g4)
  obtain ⟨v', f1, f2, f3⟩ := toGridIndex_binary2 hc' hwr (by omega) .XY
  rw [f1] at e1
  cases e1
  have hlr : (cells2 r).length = (cells2 m).length := (path_length _).trans hdr
  have hsmall : ∀ f : Quadrant → Bool, binary ((cells2 m).map f) % 2 ^ c'.ptrBits % 2 ^ (cells2 m).length = binary ((cells2 m).map f) :=
    fun f => by
      have := binary_lt ((cells2 m).map f)
      rw [List.length_map] at this
      rw [Nat.mod_eq_of_lt (hfit f), Nat.mod_eq_of_lt this]
  rw [hdr, BitVec.toNat_ofNat, hsmall, f2] at e2
  rw [hdr, BitVec.toNat_ofNat, hsmall, f3] at e3
  have hp : cells2 r = cells2 m :=
    path_of_coords2 (binary_inj (by simp only [List.length_map]; exact hlr) e2) (binary_inj (by simp only [List.length_map]; exact hlr) e3)
  have hLr := dynamic_list2' (sc := .all) hc'
  refine ⟨_, r, hs, ?_, ?_, fun l => ?_, ?_⟩
  · rw [loadGrid2D]
    simp only [String.toList_append, List.append_assoc, show "-".toList = ['-'] from rfl, List.cons_append, List.nil_append,
      splitDash_dash (dash_not_mem_repr _), splitDash_word (dash_not_mem_repr _)]
    rw [parseUsize_repr c' hd, parseUsize_repr c' (hfit _), parseUsize_repr c' (hfit _)]
    simp only [BitVec.toNat_ofNat, Nat.mod_eq_of_lt hd]
    change (do return some (← MortonIndex2D.dynamicFromGridIndex c' _ (cells2 m).length .XY)) = _
    rw [g1]
    rfl
  · rw [hLr.depth_eq r hr, hL.depth_eq m hm, hp]
  · rw [hLr.get_eq hr, hL.get_eq hm, hp]
  · have := gridString_ok2 hc' hwr (by omega)
    rw [show path r.storage = cells2 r from rfl, hp] at this
    exact this

theorem gridTextRoundTrip_of3 {S : Type} [Storage S Octant] [BitStorage S Octant] (hc : c.Supported) (hc' : c'.Supported)
    (hw' : DynWrites c')
    {ok : MortonIndex3D S → Prop} {wr : Octant → Octant} (hL : ListLike c ok cells3 wr) (hwf : ∀ m, ok m → WF c m.storage) :
    GridTextRoundTrip c c' ok (loadGrid3D c') := by
  intro m hm h1 h2
  have hlt := hc'.le
  have hWp : 16 ≤ c'.ptrBits := by rcases hc' with h | h | h <;> omega
  rw [hL.depth_eq m hm] at h1 h2
  have hfit : ∀ f : Octant → Bool, binary ((cells3 m).map f) < 2 ^ c'.ptrBits := fun f => by
    have := binary_lt ((cells3 m).map f)
    rw [List.length_map] at this
    exact Nat.lt_of_lt_of_le this (Nat.pow_le_pow_right (by decide) (by omega))
  have hd : (cells3 m).length < 2 ^ c'.ptrBits := Nat.lt_of_le_of_lt (by omega) (Nat.lt_two_pow_self (n := c'.ptrBits))
  have hs := gridString_ok3 hc (hwf m hm) (by rw [← path_length]; exact h1)
  rw [show path m.storage = cells3 m from rfl] at hs
  obtain ⟨r, g1, g2, g3, g4⟩ := MortonIndex3D.dynamicFromGridIndex_ok hc'
    ⟨BitVec.ofNat _ (binary ((cells3 m).map (octantX .XYZ))), BitVec.ofNat _ (binary ((cells3 m).map (octantY .XYZ))),
      BitVec.ofNat _ (binary ((cells3 m).map (octantZ .XYZ)))⟩ _ h2 .XYZ
  have hr : Reach3D c' .all (.dynamic r) := .dynamicFromGrid g1
  have hwr := dynamic_wf3 hc' r hr
  have hdr : Storage.depth r.storage = (cells3 m).length := g2
  obtain ⟨v, e1, e2, e3, e4⟩ := MortonIndex3D.toGridIndex_of_gridPath hc' hwr (o := .XYZ) (by omega) (by rw [hdr]; exact g4 hw')
  obtain ⟨v', f1, f2, f3, f4⟩ := toGridIndex_binary3 hc' hwr (by omega) .XYZ
  rw [f1] at e1
  cases e1
  have hlr : (cells3 r).length = (cells3 m).length := (path_length _).trans hdr
  have hsmall : ∀ f : Octant → Bool, binary ((cells3 m).map f) % 2 ^ c'.ptrBits % 2 ^ (cells3 m).length = binary ((cells3 m).map f) :=
    fun f => by
      have := binary_lt ((cells3 m).map f)
      rw [List.length_map] at this
      rw [Nat.mod_eq_of_lt (hfit f), Nat.mod_eq_of_lt this]
  rw [hdr, BitVec.toNat_ofNat, hsmall, f2] at e2
  rw [hdr, BitVec.toNat_ofNat, hsmall, f3] at e3
  rw [hdr, BitVec.toNat_ofNat, hsmall, f4] at e4
  have hp : cells3 r = cells3 m :=
    path_of_coords3 (binary_inj (by simp only [List.length_map]; exact hlr) e2) (binary_inj (by simp only [List.length_map]; exact hlr) e3)
      (binary_inj (by simp only [List.length_map]; exact hlr) e4)
  have hLr := dynamic_list3' (sc := .all) hc'
  refine ⟨_, r, hs, ?_, ?_, fun l => ?_, ?_⟩
  · rw [loadGrid3D]
    simp only [String.toList_append, List.append_assoc, show "-".toList = ['-'] from rfl, List.cons_append, List.nil_append,
      splitDash_dash (dash_not_mem_repr _), splitDash_word (dash_not_mem_repr _)]
    rw [parseUsize_repr c' hd, parseUsize_repr c' (hfit _), parseUsize_repr c' (hfit _), parseUsize_repr c' (hfit _)]
    simp only [BitVec.toNat_ofNat, Nat.mod_eq_of_lt hd]
    change (do return some (← MortonIndex3D.dynamicFromGridIndex c' _ (cells3 m).length .XYZ)) = _
    rw [g1]
    rfl
  · rw [hLr.depth_eq r hr, hL.depth_eq m hm, hp]
  · rw [hLr.get_eq hr, hL.get_eq hm, hp]
  · have := gridString_ok3 hc' hwr (by omega)
    rw [show path r.storage = cells3 r from rfl, hp] at this
    exact this

theorem C111_grid_text_2D (hc : c.Supported) (hc' : c'.Supported) :
    (∀ w, GridTextRoundTrip c c' (fun m : MortonIndex2D (FixedDepthStorage2D w) => Reach2D c .all (.fixed w m)) (loadGrid2D c')) ∧
    (∀ w, GridTextRoundTrip c c' (fun m : MortonIndex2D (StaticStorage2D w) => Reach2D c .all (.static w m)) (loadGrid2D c')) ∧
    GridTextRoundTrip c c' (fun m : MortonIndex2D DynamicStorage2D => Reach2D c .all (.dynamic m)) (loadGrid2D c') :=
  ⟨fun _ => gridTextRoundTrip_of2 hc hc' (fixed_list2 hc) (fixed_wf2 hc),
    fun _ => gridTextRoundTrip_of2 hc hc' (static_list2 hc) (static_wf2 hc),
    gridTextRoundTrip_of2 hc hc' (dynamic_list2' hc) (dynamic_wf2 hc)⟩

theorem C111_grid_text_3D (hc : c.Supported) (hc' : c'.Supported) (hw' : DynWrites c') :
    (∀ w, GridTextRoundTrip c c' (fun m : MortonIndex3D (FixedDepthStorage3D w) => Reach3D c .all (.fixed w m)) (loadGrid3D c')) ∧
    (∀ w, GridTextRoundTrip c c' (fun m : MortonIndex3D (StaticStorage3D w) => Reach3D c .all (.static w m)) (loadGrid3D c')) ∧
    GridTextRoundTrip c c' (fun m : MortonIndex3D DynamicStorage3D => Reach3D c .all (.dynamic m)) (loadGrid3D c') :=
  ⟨fun _ => gridTextRoundTrip_of3 hc hc' hw' (fixed_list3 hc) (fixed_wf3 hc),
    fun _ => gridTextRoundTrip_of3 hc hc' hw' (static_list3 hc) (static_wf3 hc),
    gridTextRoundTrip_of3 hc hc' hw' (dynamic_list3' hc) (dynamic_wf3 hc)⟩

end

/-! ## Examples -/

/-- A static index of three cells, written and read as a dynamic one. -/
example : MortonIndex.toString x64 exS2 .CellConcatenationWithRoot = .ok "r312" ∧
    loadCells (MortonIndex2D.tryFromSlice x64 : List Quadrant → Res (Except Error (MortonIndex2D DynamicStorage2D)))
      .CellConcatenationWithRoot "r312" = .ok (some exD2) ∧
    MortonIndex.toString x64 exS2 .GridIndex = .ok "3-6-5" ∧ loadGrid2D x64 "3-6-5" = .ok (some exD2) ∧
    loadGrid2D x64 "+3-06-5" = .ok (some exD2) ∧ loadGrid2D x64 "3-6" = .ok none ∧ loadGrid2D x64 "3-6-18446744073709551616" = .ok none := by
  decide +kernel

/-- Text that is not loaded: another digit, no root, too long. -/
example : let load := loadCells (MortonIndex2D.tryFromSlice x64 : List Quadrant → Res (Except Error (MortonIndex2D (StaticStorage2D 8))))
    load .CellConcatenation "314" = .ok none ∧ load .CellConcatenationWithRoot "312" = .ok none ∧
    load .CellConcatenation "31210" = .ok none ∧ load .CellConcatenation "3121" = .ok (some ⟨⟨0xD9#8, 4⟩⟩) := by
  decide +kernel

/-- The theorems applied: an octree index saved on a 64-bit target and loaded on a 32-bit one. -/
example : ∃ text, MortonIndex.toString x64 exS3 .CellConcatenation = .ok text ∧
    ∃ r : MortonIndex3D (StaticStorage3D 64), loadCells (MortonIndex3D.tryFromSlice x32r) .CellConcatenation text = .ok (some r) ∧
      depth r = 3 ∧ MortonIndex.toString x32r r .CellConcatenation = .ok text := by
  obtain ⟨text, h1, h2⟩ := ((C111_round_trip_3D x64_supported (c' := x32r) (by decide)).2.1 32).2.1 64 (by decide)
    .CellConcatenation (.inl rfl) exS3 (exS3_reach _)
  obtain ⟨r, h3, h4, -, h5, -⟩ := h2 (by decide)
  exact ⟨text, h1, r, h3, h4, h5⟩

example : ∃ r : MortonIndex2D (FixedDepthStorage2D 16),
    loadCells (MortonIndex2D.tryFromSlice x64) .CellConcatenation (rootPrefix .CellConcatenation ++ String.ofList ['3', '1', '2']) =
      .ok (some r) ∧ MortonIndex.toString x64 r .CellConcatenation =
        .ok (rootPrefix .CellConcatenation ++ String.ofList ['3', '1', '2', '0', '0', '0', '0', '0']) :=
  ((C111_load_exactly_2D x64_supported).1 16 (by decide) .CellConcatenation (.inl rfl)).1 ['3', '1', '2'] (by decide) (by decide)

example : ∃ text r, MortonIndex.toString x64 exS3 .GridIndex = .ok text ∧ loadGrid3D x32r text = .ok (some r) ∧ depth r = 3 := by
  obtain ⟨text, r, h1, h2, h3, -⟩ := (C111_grid_text_3D x64_supported (c' := x32r) (by decide) (.inl rfl)).2.1 32 exS3 (exS3_reach _)
    (by decide) (by decide)
  exact ⟨text, r, h1, h2, h3⟩

end MortonRs
