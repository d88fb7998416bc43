import Verif.Model.Debug
import Verif.Lemmas.Strings
import Verif.Lemmas.Cmp2D
import Verif.Lemmas.Cmp3D
import Verif.Props.Examples

/-! # C78: the `Debug` text tells indices apart exactly as `==` does

`assert_eq!` on indices compares with `==` and prints with `{:?}`; two sides that fail the comparison are never printed
alike. -/

namespace MortonRs

/-- The `Debug` texts of two values are the same exactly when `==` holds. -/
def DebugAgreesWithEq (M : Type) [RustOrd M] [RustDebug M] : Prop :=
  ∀ a b : M, RustDebug.debug a = RustDebug.debug b ↔ RustOrd.eq a b = true

/-! ## Splitting text -/

theorem split_at_char (ch : Char) {xs xs' ys ys' : List Char} (h1 : ch ∉ xs) (h2 : ch ∉ xs')
    (h : xs ++ ch :: ys = xs' ++ ch :: ys') : xs = xs' ∧ ys = ys' := by
  induction xs generalizing xs' with
  | nil =>
    cases xs' with
    | nil => simpa using h
    | cons a as => simp at h h2; exact absurd h.1 h2.1
  | cons b bs ih =>
    cases xs' with
    | nil => simp at h h1; exact absurd h.1.symm h1.1
    | cons a as =>
      simp at h h1 h2
      obtain ⟨e1, e2⟩ := ih (by simpa using h1.2) (by simpa using h2.2) h.2
      exact ⟨by rw [h.1, e1], e2⟩

theorem not_mem_repr {ch : Char} (hd : ch.isDigit = false) (n : Nat) : ch ∉ n.repr.toList := by
  rw [Nat.toList_repr]
  intro h
  have := Nat.isDigit_of_mem_toDigits (by decide) (by decide) h
  rw [hd] at this
  cases this

theorem repr_ne_nil (n : Nat) : n.repr.toList ≠ [] := by
  rw [Nat.toList_repr]
  intro h
  have := Nat.ofDigitChars_ten_toDigits (n := n)
  have h2 := Nat.length_toDigits_pos (b := 10) (n := n)
  rw [h] at h2
  simp at h2

/-- The elements of a list of numbers, as `Debug for Vec<T>` separates them. -/
def commaText : List Nat → List Char
  | [] => []
  | [n] => n.repr.toList
  | n :: k :: ns => n.repr.toList ++ ',' :: ' ' :: commaText (k :: ns)

theorem intercalate_repr (ns : List Nat) : (", ".intercalate (ns.map Nat.repr)).toList = commaText ns := by
  induction ns with
  | nil => rfl
  | cons n ns ih =>
    cases ns with
    | nil => simp [commaText]
    | cons k ns =>
      rw [List.map_cons, String.intercalate_cons_of_ne_nil (by simp), String.toList_append, String.toList_append, ih,
        commaText, List.append_assoc, show ", ".toList = [',', ' '] from rfl, List.cons_append, List.cons_append,
        List.nil_append]

theorem commaText_ne_nil (n : Nat) (ns : List Nat) : commaText (n :: ns) ≠ [] := by
  cases ns with
  | nil => exact repr_ne_nil n
  | cons k ns => rw [commaText]; simp

theorem not_mem_commaText {ch : Char} (hd : ch.isDigit = false) (h1 : ch ≠ ',') (h2 : ch ≠ ' ') (ns : List Nat) :
    ch ∉ commaText ns := by
  induction ns with
  | nil => simp [commaText]
  | cons n ns ih =>
    cases ns with
    | nil => exact not_mem_repr hd n
    | cons k ns =>
      rw [commaText]
      simp only [List.mem_append, List.mem_cons, not_or]
      exact ⟨not_mem_repr hd n, h1, h2, ih⟩

theorem commaText_inj {ns ks : List Nat} (h : commaText ns = commaText ks) : ns = ks := by
  have hcomma : ∀ n : Nat, ',' ∉ n.repr.toList := not_mem_repr (by decide)
  induction ns generalizing ks with
  | nil =>
    cases ks with
    | nil => rfl
    | cons k ks => exact absurd h.symm (commaText_ne_nil k ks)
  | cons n ns ih =>
    cases ks with
    | nil => exact absurd h (commaText_ne_nil n ns)
    | cons k ks =>
      match ns, ks with
      | [], [] => rw [repr_inj h]
      | [], k' :: ks =>
        rw [commaText, commaText] at h
        exact absurd (h ▸ List.mem_append_right _ (List.mem_cons_self ..)) (hcomma n)
      | n' :: ns, [] =>
        rw [commaText, commaText] at h
        exact absurd (h ▸ List.mem_append_right _ (List.mem_cons_self ..)) (hcomma k)
      | n' :: ns, k' :: ks =>
        rw [commaText, commaText] at h
        obtain ⟨e1, e2⟩ := split_at_char ',' (hcomma n) (hcomma k) h
        rw [repr_inj e1, ih (List.cons.inj e2).2]

/-! ## Structures -/

theorem debugStruct_one {name field x y : String}
    (h : debugStruct name [(field, x)] = debugStruct name [(field, y)]) : x.toList = y.toList := by
  have h' := congrArg String.toList h
  simp only [debugStruct, List.map_cons, List.map_nil, String.intercalate_singleton, String.toList_append] at h'
  exact List.append_cancel_left (List.append_cancel_left (List.append_cancel_right h') )

/-- What follows the value of the first field of a two-field structure. -/
theorem debugStruct_two {name field field' x y x' y' : String}
    (h : debugStruct name [(field, x), (field', x')] = debugStruct name [(field, y), (field', y')]) :
    x.toList ++ ',' :: ' ' :: (field'.toList ++ ": ".toList ++ x'.toList) =
      y.toList ++ ',' :: ' ' :: (field'.toList ++ ": ".toList ++ y'.toList) := by
  have h' := congrArg String.toList h
  simp only [debugStruct, List.map_cons, List.map_nil, String.intercalate_cons_cons, String.intercalate_singleton,
    String.toList_append] at h'
  have h2 := List.append_cancel_left (List.append_cancel_right h')
  simp only [List.append_assoc] at h2
  have h3 := List.append_cancel_left (List.append_cancel_left h2)
  simpa only [List.append_assoc, show ", ".toList = [',', ' '] from rfl, List.cons_append, List.nil_append] using h3

/-- Two fields, the first of which is a number. -/
theorem debugStruct_num {name field field' : String} {n k n' k' : Nat}
    (h : debugStruct name [(field, n.repr), (field', n'.repr)] = debugStruct name [(field, k.repr), (field', k'.repr)]) :
    n = k ∧ n' = k' := by
  obtain ⟨e1, e2⟩ := split_at_char ',' (not_mem_repr (by decide) n) (not_mem_repr (by decide) k) (debugStruct_two h)
  exact ⟨repr_inj e1, repr_inj (List.append_cancel_left (List.cons.inj e2).2)⟩

theorem bytes_text (bs : List (BitVec 8)) :
    (RustDebug.debug bs).toList = ('[' :: commaText (bs.map BitVec.toNat)) ++ [']'] := by
  have h : bs.map RustDebug.debug = (bs.map BitVec.toNat).map Nat.repr := by
    rw [List.map_map]; rfl
  show ("[" ++ ", ".intercalate (bs.map RustDebug.debug) ++ "]").toList = _
  rw [h, String.toList_append, String.toList_append, intercalate_repr]
  rfl

/-- Two fields, the first of which is a list of bytes. -/
theorem debugStruct_bytes {name field field' : String} {bs cs : List (BitVec 8)} {n k : Nat}
    (h : debugStruct name [(field, RustDebug.debug bs), (field', n.repr)] =
      debugStruct name [(field, RustDebug.debug cs), (field', k.repr)]) : bs = cs ∧ n = k := by
  have h1 := debugStruct_two h
  rw [bytes_text, bytes_text, List.append_assoc _ [']'] _, List.append_assoc _ [']'] _] at h1
  have hb : ∀ bs : List (BitVec 8), ']' ∉ '[' :: commaText (bs.map BitVec.toNat) := by
    intro bs
    rw [List.mem_cons, not_or]
    exact ⟨by decide, not_mem_commaText (by decide) (by decide) (by decide) _⟩
  obtain ⟨e1, e2⟩ := split_at_char ']' (hb bs) (hb cs) h1
  have e3 := commaText_inj (List.cons.inj e1).2
  have e4 : bs = cs := by
    have := List.map_inj_right (f := BitVec.toNat) (fun x y h => BitVec.eq_of_toNat_eq h) |>.mp e3
    exact this
  exact ⟨e4, repr_inj (List.append_cancel_left (List.cons.inj (List.cons.inj e2).2).2)⟩

/-! ## 2D -/

/-- **C78**, 2D: for every two values of an index type, with whatever bits they hold, the `Debug` texts agree exactly when
`==` holds; and the variants of the cells print differently. -/
theorem C78_debug_text_2D :
    (∀ w, DebugAgreesWithEq (MortonIndex2D (FixedDepthStorage2D w))) ∧
    (∀ w, DebugAgreesWithEq (MortonIndex2D (StaticStorage2D w))) ∧
    DebugAgreesWithEq (MortonIndex2D DynamicStorage2D) ∧
    (∀ a b : Quadrant, RustDebug.debug a = RustDebug.debug b ↔ a = b) := by
  refine ⟨?_, ?_, ?_, ?_⟩
  · rintro w ⟨a⟩ ⟨b⟩
    show _ ↔ RustOrd.eq a b = true
    rw [FixedDepthStorage2D.eq_iff_eq]
    constructor
    · intro h
      have h2 := debugStruct_one (String.toList_injective (debugStruct_one h))
      obtain ⟨a⟩ := a
      obtain ⟨b⟩ := b
      exact congrArg _ (BitVec.eq_of_toNat_eq (repr_inj h2))
    · rintro rfl; rfl
  · rintro w ⟨a⟩ ⟨b⟩
    show _ ↔ RustOrd.eq a b = true
    rw [StaticStorage2D.eq_iff_eq]
    constructor
    · intro h
      obtain ⟨a, d⟩ := a
      obtain ⟨b, e⟩ := b
      obtain ⟨h1, h2⟩ := debugStruct_num (String.toList_injective (debugStruct_one h))
      rw [show a = b from BitVec.eq_of_toNat_eq h1]
      exact congrArg _ h2
    · rintro rfl; rfl
  · rintro ⟨a⟩ ⟨b⟩
    show _ ↔ RustOrd.eq a b = true
    rw [DynamicStorage2D.eq_iff_eq]
    constructor
    · intro h
      obtain ⟨a, d⟩ := a
      obtain ⟨b, e⟩ := b
      obtain ⟨h1, h2⟩ := debugStruct_bytes (String.toList_injective (debugStruct_one h))
      rw [show a = b from h1]
      exact congrArg _ h2
    · rintro rfl; rfl
  · intro a b
    cases a <;> cases b <;> simp [RustDebug.debug]

/-! ## 3D -/

/-- **C78**, 3D: for every two values of an index type, with whatever bits they hold, the `Debug` texts agree exactly when
`==` holds; and the variants of the cells print differently. -/
theorem C78_debug_text_3D :
    (∀ w, DebugAgreesWithEq (MortonIndex3D (FixedDepthStorage3D w))) ∧
    (∀ w, DebugAgreesWithEq (MortonIndex3D (StaticStorage3D w))) ∧
    DebugAgreesWithEq (MortonIndex3D DynamicStorage3D) ∧
    (∀ a b : Octant, RustDebug.debug a = RustDebug.debug b ↔ a = b) := by
  refine ⟨?_, ?_, ?_, ?_⟩
  · rintro w ⟨a⟩ ⟨b⟩
    show _ ↔ RustOrd.eq a b = true
    rw [FixedDepthStorage3D.eq_iff_eq]
    constructor
    · intro h
      have h2 := debugStruct_one (String.toList_injective (debugStruct_one h))
      obtain ⟨a⟩ := a
      obtain ⟨b⟩ := b
      exact congrArg _ (BitVec.eq_of_toNat_eq (repr_inj h2))
    · rintro rfl; rfl
  · rintro w ⟨a⟩ ⟨b⟩
    show _ ↔ RustOrd.eq a b = true
    rw [StaticStorage3D.eq_iff_eq]
    constructor
    · intro h
      obtain ⟨a, d⟩ := a
      obtain ⟨b, e⟩ := b
      obtain ⟨h1, h2⟩ := debugStruct_num (String.toList_injective (debugStruct_one h))
      rw [show a = b from BitVec.eq_of_toNat_eq h1]
      exact congrArg _ h2
    · rintro rfl; rfl
  · rintro ⟨a⟩ ⟨b⟩
    show _ ↔ RustOrd.eq a b = true
    rw [DynamicStorage3D.eq_iff_eq]
    constructor
    · intro h
      obtain ⟨a, d⟩ := a
      obtain ⟨b, e⟩ := b
      obtain ⟨h1, h2⟩ := debugStruct_bytes (String.toList_injective (debugStruct_one h))
      rw [show a = b from h1]
      exact congrArg _ h2
    · rintro rfl; rfl
  · intro a b
    cases a <;> cases b <;> simp [RustDebug.debug]

/-! ## The remaining public types -/

/-- **C78**, errors, orderings and naming styles: their texts tell the values apart. -/
theorem C78_debug_text_enums :
    (∀ a b : Error, RustDebug.debug a = RustDebug.debug b ↔ a = b) ∧
    (∀ a b : QuadrantOrdering, RustDebug.debug a = RustDebug.debug b ↔ a = b) ∧
    (∀ a b : OctantOrdering, RustDebug.debug a = RustDebug.debug b ↔ a = b) ∧
    (∀ a b : MortonIndexNaming, RustDebug.debug a = RustDebug.debug b ↔ a = b) := by
  have key : ∀ n : Nat, debugStruct "DepthLimitedExceeded" [("max_depth", Nat.repr n)] ≠ "CellIndexOutOfRange" := by
    intro n h
    have h1 := congrArg (fun s => s.toList.head?) h
    simp only [debugStruct, String.toList_append, List.head?_append] at h1
    rw [show "DepthLimitedExceeded".toList.head? = some 'D' by decide +kernel,
      show "CellIndexOutOfRange".toList.head? = some 'C' by decide +kernel] at h1
    simp at h1
  refine ⟨?_, ?_, ?_, ?_⟩
  · intro a b
    constructor
    · intro h
      match a, b with
      | .DepthLimitedExceeded n, .DepthLimitedExceeded k => rw [repr_inj (debugStruct_one h)]
      | .DepthLimitedExceeded n, .CellIndexOutOfRange => exact absurd h (key n)
      | .CellIndexOutOfRange, .DepthLimitedExceeded k => exact absurd h.symm (key k)
      | .CellIndexOutOfRange, .CellIndexOutOfRange => rfl
    · rintro rfl; rfl
  all_goals
    intro a b
    cases a <;> cases b <;> simp [RustDebug.debug]

/-! ## The `{:#?}` text -/

/-- The `{:#?}` texts of two values are the same exactly when `==` holds. -/
def PrettyAgreesWithEq (M : Type) [RustOrd M] [RustDebug M] : Prop :=
  ∀ a b : M, RustDebug.pretty a = RustDebug.pretty b ↔ RustOrd.eq a b = true

/-- The text without spaces and line breaks. -/
def bare (text : List Char) : List Char := text.filter fun ch => !(ch == ' ' || ch == '\n')

theorem bare_append (xs ys : List Char) : bare (xs ++ ys) = bare xs ++ bare ys := List.filter_append ..

theorem bare_padAdapter (b : Bool) (text : List Char) : bare (padAdapter b text) = bare text := by
  induction text generalizing b with
  | nil => rfl
  | cons ch chs ih =>
    rw [padAdapter, bare_append]
    have h1 : bare (if b then [' ', ' ', ' ', ' '] else []) = [] := by cases b <;> decide
    rw [h1, List.nil_append]
    show bare ([ch] ++ _) = bare ([ch] ++ _)
    rw [bare_append, bare_append, ih]

theorem bare_prettyEntry (text : String) : bare (prettyEntry text).toList = bare text.toList ++ [','] := by
  rw [prettyEntry, String.toList_ofList, bare_padAdapter, String.toList_append, bare_append]
  rfl

theorem bare_repr (n : Nat) : bare n.repr.toList = n.repr.toList := by
  rw [bare, List.filter_eq_self]
  intro ch h
  have h1 : ch ≠ ' ' := by rintro rfl; exact not_mem_repr (by decide) n h
  have h2 : ch ≠ '\n' := by rintro rfl; exact not_mem_repr (by decide) n h
  simp [h1, h2]

theorem prettyStruct_one {name field x y : String}
    (h : prettyStruct name [(field, x)] = prettyStruct name [(field, y)]) : bare x.toList = bare y.toList := by
  have h' := congrArg (fun s => bare s.toList) h
  simp only [prettyStruct, List.map_cons, List.map_nil, String.join_cons, String.join_nil, String.toList_append,
    bare_append, bare_prettyEntry, List.append_assoc] at h'
  have h2 := List.append_cancel_left (List.append_cancel_left (List.append_cancel_left (List.append_cancel_left h')))
  exact List.append_cancel_right h2

/-- What follows the value of the first field of a two-field structure. -/
theorem bare_two {name field field' x x' : String} :
    bare (prettyStruct name [(field, x), (field', x')]).toList =
      (bare name.toList ++ (bare " {\n".toList ++ (bare field.toList ++ bare ": ".toList))) ++
        (bare x.toList ++ ',' :: ((bare field'.toList ++ bare ": ".toList) ++ (bare x'.toList ++ [',', '}']))) := by
  simp only [prettyStruct, List.map_cons, List.map_nil, String.join_cons, String.join_nil, String.toList_append,
    bare_append, bare_prettyEntry, List.append_assoc]
  rfl

/-- Two fields, the first of which is a number. -/
theorem prettyStruct_num {name field field' : String} {n k n' k' : Nat}
    (h : bare (prettyStruct name [(field, n.repr), (field', n'.repr)]).toList =
      bare (prettyStruct name [(field, k.repr), (field', k'.repr)]).toList) : n = k ∧ n' = k' := by
  rw [bare_two, bare_two] at h
  have h1 := List.append_cancel_left h
  simp only [bare_repr] at h1
  obtain ⟨e1, e2⟩ := split_at_char ',' (not_mem_repr (by decide) n) (not_mem_repr (by decide) k) h1
  exact ⟨repr_inj e1, repr_inj (List.append_cancel_right (List.append_cancel_left e2))⟩

/-- The elements of a list of numbers, each followed by a comma. -/
def entriesText : List Nat → List Char
  | [] => []
  | n :: ns => n.repr.toList ++ ',' :: entriesText ns

theorem entriesText_inj {ns ks : List Nat} (h : entriesText ns = entriesText ks) : ns = ks := by
  have hcomma : ∀ n : Nat, ',' ∉ n.repr.toList := not_mem_repr (by decide)
  induction ns generalizing ks with
  | nil =>
    cases ks with
    | nil => rfl
    | cons k ks => simp [entriesText] at h
  | cons n ns ih =>
    cases ks with
    | nil => simp [entriesText] at h
    | cons k ks =>
      obtain ⟨e1, e2⟩ := split_at_char ',' (hcomma n) (hcomma k) h
      rw [repr_inj e1, ih e2]

theorem not_mem_entriesText {ch : Char} (hd : ch.isDigit = false) (h1 : ch ≠ ',') (ns : List Nat) :
    ch ∉ entriesText ns := by
  induction ns with
  | nil => simp [entriesText]
  | cons n ns ih =>
    rw [entriesText]
    simp only [List.mem_append, List.mem_cons, not_or]
    exact ⟨not_mem_repr hd n, h1, ih⟩

theorem bare_entries (bs : List (BitVec 8)) :
    bare (String.join (bs.map fun x => prettyEntry (RustDebug.pretty x))).toList = entriesText (bs.map BitVec.toNat) := by
  induction bs with
  | nil => rfl
  | cons b bs ih =>
    rw [List.map_cons, String.join_cons, String.toList_append, bare_append, bare_prettyEntry, ih, List.map_cons,
      entriesText, show (RustDebug.pretty b).toList = b.toNat.repr.toList from rfl, bare_repr, List.append_assoc]
    rfl

theorem bare_bytes (bs : List (BitVec 8)) :
    bare (RustDebug.pretty bs).toList = ('[' :: entriesText (bs.map BitVec.toNat)) ++ [']'] := by
  cases bs with
  | nil => rfl
  | cons b bs =>
    show bare ("[\n" ++ String.join ((b :: bs).map fun x => prettyEntry (RustDebug.pretty x)) ++ "]").toList = _
    rw [String.toList_append, String.toList_append, bare_append, bare_append, bare_entries]
    rfl

/-- Two fields, the first of which is a list of bytes. -/
theorem prettyStruct_bytes {name field field' : String} {bs cs : List (BitVec 8)} {n k : Nat}
    (h : bare (prettyStruct name [(field, RustDebug.pretty bs), (field', n.repr)]).toList =
      bare (prettyStruct name [(field, RustDebug.pretty cs), (field', k.repr)]).toList) : bs = cs ∧ n = k := by
  rw [bare_two, bare_two] at h
  have h1 := List.append_cancel_left h
  rw [bare_bytes, bare_bytes, List.append_assoc _ [']'] _, List.append_assoc _ [']'] _, bare_repr, bare_repr] at h1
  have hb : ∀ bs : List (BitVec 8), ']' ∉ '[' :: entriesText (bs.map BitVec.toNat) := by
    intro bs
    rw [List.mem_cons, not_or]
    exact ⟨by decide, not_mem_entriesText (by decide) (by decide) _⟩
  obtain ⟨e1, e2⟩ := split_at_char ']' (hb bs) (hb cs) h1
  have e3 := entriesText_inj (List.cons.inj e1).2
  have e4 : bs = cs := List.map_inj_right (f := BitVec.toNat) (fun x y h => BitVec.eq_of_toNat_eq h) |>.mp e3
  exact ⟨e4, repr_inj (List.append_cancel_right (List.append_cancel_left (List.cons.inj e2).2))⟩

/-- **C78**, 2D, `{:#?}`: the texts over several lines agree exactly when `==` holds. -/
theorem C78_pretty_text_2D :
    (∀ w, PrettyAgreesWithEq (MortonIndex2D (FixedDepthStorage2D w))) ∧
    (∀ w, PrettyAgreesWithEq (MortonIndex2D (StaticStorage2D w))) ∧
    PrettyAgreesWithEq (MortonIndex2D DynamicStorage2D) ∧
    (∀ a b : Quadrant, RustDebug.pretty a = RustDebug.pretty b ↔ a = b) := by
  refine ⟨?_, ?_, ?_, ?_⟩
  · rintro w ⟨⟨a⟩⟩ ⟨⟨b⟩⟩
    show _ ↔ RustOrd.eq (⟨a⟩ : FixedDepthStorage2D w) ⟨b⟩ = true
    rw [FixedDepthStorage2D.eq_iff_eq]
    constructor
    · intro h
      have h1 := prettyStruct_one h
      have h2 : bare (RustDebug.pretty a).toList = bare (RustDebug.pretty b).toList := by
        simp only [RustDebug.pretty, prettyStruct, List.map_cons, List.map_nil, String.join_cons, String.join_nil,
          String.toList_append, bare_append, bare_prettyEntry, List.append_assoc] at h1
        exact List.append_cancel_right
          (List.append_cancel_left (List.append_cancel_left (List.append_cancel_left (List.append_cancel_left h1))))
      rw [show (RustDebug.pretty a).toList = a.toNat.repr.toList from rfl,
        show (RustDebug.pretty b).toList = b.toNat.repr.toList from rfl, bare_repr, bare_repr] at h2
      exact congrArg _ (BitVec.eq_of_toNat_eq (repr_inj h2))
    · intro h; rw [h]
  · rintro w ⟨⟨a, d⟩⟩ ⟨⟨b, e⟩⟩
    show _ ↔ RustOrd.eq (⟨a, d⟩ : StaticStorage2D w) ⟨b, e⟩ = true
    rw [StaticStorage2D.eq_iff_eq]
    constructor
    · intro h
      obtain ⟨h1, h2⟩ := prettyStruct_num (prettyStruct_one h)
      rw [show a = b from BitVec.eq_of_toNat_eq h1, show d = e from h2]
    · intro h; rw [h]
  · rintro ⟨⟨a, d⟩⟩ ⟨⟨b, e⟩⟩
    show _ ↔ RustOrd.eq (⟨a, d⟩ : DynamicStorage2D) ⟨b, e⟩ = true
    rw [DynamicStorage2D.eq_iff_eq]
    constructor
    · intro h
      obtain ⟨h1, h2⟩ := prettyStruct_bytes (prettyStruct_one h)
      rw [show a = b from h1, show d = e from h2]
    · intro h; rw [h]
  · intro a b
    cases a <;> cases b <;> simp [RustDebug.pretty]

/-- **C78**, 3D, `{:#?}`: the texts over several lines agree exactly when `==` holds. -/
theorem C78_pretty_text_3D :
    (∀ w, PrettyAgreesWithEq (MortonIndex3D (FixedDepthStorage3D w))) ∧
    (∀ w, PrettyAgreesWithEq (MortonIndex3D (StaticStorage3D w))) ∧
    PrettyAgreesWithEq (MortonIndex3D DynamicStorage3D) ∧
    (∀ a b : Octant, RustDebug.pretty a = RustDebug.pretty b ↔ a = b) := by
  refine ⟨?_, ?_, ?_, ?_⟩
  · rintro w ⟨⟨a⟩⟩ ⟨⟨b⟩⟩
    show _ ↔ RustOrd.eq (⟨a⟩ : FixedDepthStorage3D w) ⟨b⟩ = true
    rw [FixedDepthStorage3D.eq_iff_eq]
    constructor
    · intro h
      have h1 := prettyStruct_one h
      have h2 : bare (RustDebug.pretty a).toList = bare (RustDebug.pretty b).toList := by
        simp only [RustDebug.pretty, prettyStruct, List.map_cons, List.map_nil, String.join_cons, String.join_nil,
          String.toList_append, bare_append, bare_prettyEntry, List.append_assoc] at h1
        exact List.append_cancel_right
          (List.append_cancel_left (List.append_cancel_left (List.append_cancel_left (List.append_cancel_left h1))))
      rw [show (RustDebug.pretty a).toList = a.toNat.repr.toList from rfl,
        show (RustDebug.pretty b).toList = b.toNat.repr.toList from rfl, bare_repr, bare_repr] at h2
      exact congrArg _ (BitVec.eq_of_toNat_eq (repr_inj h2))
    · intro h; rw [h]
  · rintro w ⟨⟨a, d⟩⟩ ⟨⟨b, e⟩⟩
    show _ ↔ RustOrd.eq (⟨a, d⟩ : StaticStorage3D w) ⟨b, e⟩ = true
    rw [StaticStorage3D.eq_iff_eq]
    constructor
    · intro h
      obtain ⟨h1, h2⟩ := prettyStruct_num (prettyStruct_one h)
      rw [show a = b from BitVec.eq_of_toNat_eq h1, show d = e from h2]
    · intro h; rw [h]
  · rintro ⟨⟨a, d⟩⟩ ⟨⟨b, e⟩⟩
    show _ ↔ RustOrd.eq (⟨a, d⟩ : DynamicStorage3D) ⟨b, e⟩ = true
    rw [DynamicStorage3D.eq_iff_eq]
    constructor
    · intro h
      obtain ⟨h1, h2⟩ := prettyStruct_bytes (prettyStruct_one h)
      rw [show a = b from h1, show d = e from h2]
    · intro h; rw [h]
  · intro a b
    cases a <;> cases b <;> simp [RustDebug.pretty]

/-- **C78**, errors, orderings and naming styles, `{:#?}`. -/
theorem C78_pretty_text_enums :
    (∀ a b : Error, RustDebug.pretty a = RustDebug.pretty b ↔ a = b) ∧
    (∀ a b : QuadrantOrdering, RustDebug.pretty a = RustDebug.pretty b ↔ a = b) ∧
    (∀ a b : OctantOrdering, RustDebug.pretty a = RustDebug.pretty b ↔ a = b) ∧
    (∀ a b : MortonIndexNaming, RustDebug.pretty a = RustDebug.pretty b ↔ a = b) := by
  have key : ∀ n : Nat, prettyStruct "DepthLimitedExceeded" [("max_depth", Nat.repr n)] ≠ "CellIndexOutOfRange" := by
    intro n h
    have h1 := congrArg (fun s => s.toList.head?) h
    simp only [prettyStruct, String.toList_append, List.head?_append] at h1
    rw [show "DepthLimitedExceeded".toList.head? = some 'D' by decide +kernel,
      show "CellIndexOutOfRange".toList.head? = some 'C' by decide +kernel] at h1
    simp at h1
  refine ⟨?_, ?_, ?_, ?_⟩
  · intro a b
    constructor
    · intro h
      match a, b with
      | .DepthLimitedExceeded n, .DepthLimitedExceeded k =>
        have h1 := prettyStruct_one h
        rw [bare_repr, bare_repr] at h1
        rw [repr_inj h1]
      | .DepthLimitedExceeded n, .CellIndexOutOfRange => exact absurd h (key n)
      | .CellIndexOutOfRange, .DepthLimitedExceeded k => exact absurd h.symm (key k)
      | .CellIndexOutOfRange, .CellIndexOutOfRange => rfl
    · rintro rfl; rfl
  all_goals
    intro a b
    cases a <;> cases b <;> simp [RustDebug.pretty]

example : RustDebug.pretty (⟨⟨[0xAB#8, 0x40#8], 5⟩⟩ : MortonIndex2D DynamicStorage2D) =
    "MortonIndex2D {\n    storage: DynamicStorage2D {\n        bits: [\n            171,\n            64,\n        ],\n" ++
    "        depth: 5,\n    },\n}" := by decide +kernel
example : RustDebug.pretty (⟨⟨[], 0⟩⟩ : MortonIndex3D DynamicStorage3D) =
    "MortonIndex3D {\n    storage: DynamicStorage3D {\n        bits: [],\n        depth: 0,\n    },\n}" := by
  decide +kernel
example : RustDebug.pretty (Error.DepthLimitedExceeded 21) = "DepthLimitedExceeded {\n    max_depth: 21,\n}" := by
  decide +kernel

/-- One byte with the value 12 and two bytes with the values 1 and 2. -/
example : RustDebug.pretty (⟨⟨[12#8], 2⟩⟩ : MortonIndex2D DynamicStorage2D) ≠
    RustDebug.pretty (⟨⟨[1#8, 2#8], 2⟩⟩ : MortonIndex2D DynamicStorage2D) :=
  fun h => absurd ((C78_pretty_text_2D.2.2.1 _ _).mp h) (by decide)

/-! ## Concrete texts -/

example : RustDebug.debug (⟨⟨0xB0#8, 3⟩⟩ : MortonIndex2D (StaticStorage2D 8)) =
    "MortonIndex2D { storage: StaticStorage2D { bits: 176, depth: 3 } }" := by decide +kernel
example : RustDebug.debug (⟨⟨[0xAB#8, 0x40#8], 5⟩⟩ : MortonIndex2D DynamicStorage2D) =
    "MortonIndex2D { storage: DynamicStorage2D { bits: [171, 64], depth: 5 } }" := by decide +kernel
example : RustDebug.debug (⟨⟨513#16⟩⟩ : MortonIndex3D (FixedDepthStorage3D 16)) =
    "MortonIndex3D { storage: FixedDepthStorage3D { bits: 513 } }" := by decide +kernel
example : RustDebug.debug (⟨⟨[], 0⟩⟩ : MortonIndex3D DynamicStorage3D) =
    "MortonIndex3D { storage: DynamicStorage3D { bits: [], depth: 0 } }" := by decide +kernel
example : RustDebug.debug (Error.DepthLimitedExceeded 21) = "DepthLimitedExceeded { max_depth: 21 }" := by decide +kernel

/-- The empty index and the index of one zero cell have the same bits but different texts. -/
example : RustDebug.debug (⟨⟨0#8, 0⟩⟩ : MortonIndex2D (StaticStorage2D 8)) ≠
    RustDebug.debug (⟨⟨0#8, 1⟩⟩ : MortonIndex2D (StaticStorage2D 8)) :=
  fun h => absurd ((C78_debug_text_2D.2.1 8 _ _).mp h) (by decide)
example : RustDebug.debug (⟨⟨[0x10#8], 2⟩⟩ : MortonIndex3D DynamicStorage3D) ≠
    RustDebug.debug (⟨⟨[0x10#8, 0#8], 2⟩⟩ : MortonIndex3D DynamicStorage3D) :=
  fun h => absurd ((C78_debug_text_3D.2.2.1 _ _).mp h) (by decide)
example : RustDebug.debug (Error.DepthLimitedExceeded 21) ≠ RustDebug.debug (Error.DepthLimitedExceeded 2) :=
  fun h => absurd ((C78_debug_text_enums.1 _ _).mp h) (by decide)

end MortonRs
