import Verif.Props.Strings

/-! # Order and nesting of the cell strings (C92) -/

namespace MortonRs

open BitStorage MortonIndex

variable {c : Cfg}

/-! ## Statements

The strings are the library's; how Rust compares two `str`s is part of the statement: byte by byte over the UTF-8 encoding, a
proper prefix first. `str::starts_with` is the prefix relation on the bytes. -/

/-- The bytes of a string. -/
def strBytes (s : String) : List Nat := s.toUTF8.data.toList.map UInt8.toNat

/-- `Ord for str`. -/
def strCmp (s t : String) : Ordering := pathCmp id (strBytes s) (strBytes t)

/-- C92: sorting the strings is sorting the indices. -/
def StringsSort {M Cell : Type} [MortonIndex M Cell] [RustOrd M] (c : Cfg) (ok : M → Prop) : Prop :=
  ∀ a b, ok a → ok b → ∀ naming, naming = .CellConcatenation ∨ naming = .CellConcatenationWithRoot → ∃ s t,
    MortonIndex.toString c a naming = .ok s ∧ MortonIndex.toString c b naming = .ok t ∧
    RustOrd.cmp c a b = .ok (strCmp s t) ∧ RustOrd.partialCmp c a b = .ok (some (strCmp s t))

/-- C92: the subtree of a node is the set of the nodes whose string starts with the node's. -/
def StringsNest {M Cell : Type} [VariableDepthMortonIndex M Cell] [RustOrd M] (c : Cfg) (ok : M → Prop) : Prop :=
  ∀ a b, ok a → ok b → ∀ naming, naming = .CellConcatenation ∨ naming = .CellConcatenationWithRoot → ∃ s t,
    MortonIndex.toString c a naming = .ok s ∧ MortonIndex.toString c b naming = .ok t ∧
    (InSubtree c a b ↔ strBytes s <+: strBytes t)

/-! ## Bytes of the strings -/

theorem strBytes_ofList (cs : List Char) : strBytes (String.ofList cs) = (cs.flatMap String.utf8EncodeChar).map UInt8.toNat := by
  rw [strBytes, String.toUTF8, String.toByteArray_ofList, List.utf8Encode]
  simp

theorem strBytes_append (s t : String) : strBytes (s ++ t) = strBytes s ++ strBytes t := by
  simp [strBytes, String.toUTF8, String.toByteArray_append]

theorem strBytes_digits {Cell : Type} (digit : Cell → Char) (key : Cell → Nat)
    (h : ∀ v, (String.utf8EncodeChar (digit v)).map UInt8.toNat = [48 + key v]) (cs : List Cell) :
    strBytes (String.ofList (cs.map digit)) = cs.map fun v => 48 + key v := by
  rw [strBytes_ofList]
  induction cs with
  | nil => rfl
  | cons v cs ih => rw [List.map_cons, List.flatMap_cons, List.map_append, h, ih]; rfl

theorem pathCmp_map {Cell : Type} (key : Cell → Nat) (n : Nat) : ∀ xs ys : List Cell,
    pathCmp id (xs.map fun v => n + key v) (ys.map fun v => n + key v) = pathCmp key xs ys
  | [], [] => rfl
  | [], _ :: _ => rfl
  | _ :: _, [] => rfl
  | x :: xs, y :: ys => by
    rw [List.map_cons, List.map_cons, pathCmp, pathCmp, pathCmp_map key n xs ys]
    simp only [id, Nat.add_lt_add_iff_left]

theorem prefix_map {A B : Type} {f : A → B} (hf : Function.Injective f) : ∀ xs ys : List A,
    xs.map f <+: ys.map f ↔ xs <+: ys
  | [], ys => by simp
  | x :: xs, [] => by simp
  | x :: xs, y :: ys => by
    rw [List.map_cons, List.map_cons, List.cons_prefix_cons, List.cons_prefix_cons, prefix_map hf xs ys]
    exact and_congr_left fun _ => hf.eq_iff

theorem strBytes_r : strBytes "r" = [114] := by decide +kernel

theorem strCmp_r (s t : String) : strCmp ("r" ++ s) ("r" ++ t) = strCmp s t := by
  rw [strCmp, strBytes_append, strBytes_append, strBytes_r, List.singleton_append, List.singleton_append, pathCmp]
  simp [strCmp]

theorem prefix_r (s t : String) : strBytes ("r" ++ s) <+: strBytes ("r" ++ t) ↔ strBytes s <+: strBytes t := by
  rw [strBytes_append, strBytes_append, strBytes_r, List.singleton_append, List.singleton_append, List.cons_prefix_cons]
  simp

/-! ## General part -/

section
variable {M Cell : Type} {ok : M → Prop} {p : M → List Cell} {digit : Cell → Char} {key : Cell → Nat}

/-- The two cell strings are the digits of `p`. -/
def NameLike [MortonIndex M Cell] (c : Cfg) (ok : M → Prop) (p : M → List Cell) (digit : Cell → Char) : Prop :=
  ∀ m, ok m → MortonIndex.toString c m .CellConcatenation = .ok (String.ofList ((p m).map digit)) ∧
    MortonIndex.toString c m .CellConcatenationWithRoot = .ok ("r" ++ String.ofList ((p m).map digit))

theorem stringsSort_of [MortonIndex M Cell] [RustOrd M] (hN : NameLike c ok p digit) (hC : CmpLike c key ok p)
    (hd : ∀ v, (String.utf8EncodeChar (digit v)).map UInt8.toNat = [48 + key v]) : StringsSort c ok := by
  intro a b ha hb naming hn
  have e : strCmp (String.ofList ((p a).map digit)) (String.ofList ((p b).map digit)) = pathCmp key (p a) (p b) := by
    rw [strCmp, strBytes_digits digit key hd, strBytes_digits digit key hd, pathCmp_map]
  rcases hn with rfl | rfl
  · exact ⟨_, _, (hN a ha).1, (hN b hb).1, by rw [e]; exact hC a b ha hb⟩
  · exact ⟨_, _, (hN a ha).2, (hN b hb).2, by rw [strCmp_r, e]; exact hC a b ha hb⟩

theorem stringsNest_of [VariableDepthMortonIndex M Cell] [RustOrd M] {wr : Cell → Cell} (hN : NameLike c ok p digit)
    (hk : Function.Injective key) (hL : ListLike c ok p wr) (hA : AncLike c ok p) (hC : CmpLike c key ok p)
    (hd : ∀ v, (String.utf8EncodeChar (digit v)).map UInt8.toNat = [48 + key v]) : StringsNest c ok := by
  intro a b ha hb naming hn
  have e : InSubtree c a b ↔
      strBytes (String.ofList ((p a).map digit)) <+: strBytes (String.ofList ((p b).map digit)) := by
    rw [inSubtree_iff hk hL hA hC ha hb, strBytes_digits digit key hd, strBytes_digits digit key hd,
      prefix_map (fun x y h => hk (Nat.add_left_cancel h))]
  rcases hn with rfl | rfl
  · exact ⟨_, _, (hN a ha).1, (hN b hb).1, e⟩
  · exact ⟨_, _, (hN a ha).2, (hN b hb).2, by rw [prefix_r]; exact e⟩

end

/-! ## 2D -/

theorem nameLike_of2 {S : Type} [Storage S Quadrant] [BitStorage S Quadrant] (hc : c.Supported) {ok : MortonIndex2D S → Prop}
    (hwf : ∀ m, ok m → WF c m.storage) : NameLike c ok cells2 quadrantDigit := fun m h => by
  have e := cellConcatenation_ok2 hc (hwf m h)
  refine ⟨e, ?_⟩
  change m.toString c .CellConcatenationWithRoot = _
  rw [MortonIndex2D.toString, e]
  rfl

theorem quadrantDigit_byte (v : Quadrant) : (String.utf8EncodeChar (quadrantDigit v)).map UInt8.toNat = [48 + quadrantKey v] := by
  cases v <;> decide

theorem C92_string_order_2D (hc : c.Supported) :
    (∀ w, StringsSort c (fun m => Reach2D c .all (.fixed w m))) ∧
    (∀ w, StringsSort c (fun m => Reach2D c .all (.static w m))) ∧
    StringsSort c (fun m => Reach2D c .all (.dynamic m)) :=
  ⟨fun _ => stringsSort_of (nameLike_of2 hc (fixed_wf2 hc)) (fixed_cmp2 hc) quadrantDigit_byte,
    fun _ => stringsSort_of (nameLike_of2 hc (static_wf2 hc)) (static_cmp2 hc) quadrantDigit_byte,
    stringsSort_of (nameLike_of2 hc (dynamic_wf2 hc)) (dynamic_cmp2 hc) quadrantDigit_byte⟩

theorem C92_string_prefix_2D (hc : c.Supported) :
    (∀ w, StringsNest c (fun m => Reach2D c .all (.static w m))) ∧
    StringsNest c (fun m => Reach2D c .all (.dynamic m)) :=
  ⟨fun _ => stringsNest_of (nameLike_of2 hc (static_wf2 hc)) quadrantKey_inj (static_list2 hc) (static_anc2 hc)
      (static_cmp2 hc) quadrantDigit_byte,
    stringsNest_of (nameLike_of2 hc (dynamic_wf2 hc)) quadrantKey_inj (dynamic_list2' hc) (dynamic_anc2 hc)
      (dynamic_cmp2 hc) quadrantDigit_byte⟩

/-- `r3` before `r312`, as the root of the subtree it contains. -/
example : ∃ s t, MortonIndex.toString x64 (⟨⟨0xC000#16, 1⟩⟩ : MortonIndex2D (StaticStorage2D 16)) .CellConcatenationWithRoot = .ok s ∧
    MortonIndex.toString x64 exS2 .CellConcatenationWithRoot = .ok t ∧
    (InSubtree x64 (⟨⟨0xC000#16, 1⟩⟩ : MortonIndex2D (StaticStorage2D 16)) exS2 ↔ strBytes s <+: strBytes t) :=
  (C92_string_prefix_2D x64_supported).1 16 _ _ (.staticTryFromSlice (cs := [.Three]) (by decide) (by rfl)) (exS2_reach _) _
    (.inr rfl)

example : strCmp "r3" "r312" = .lt ∧ strCmp "r32" "r312" = .gt ∧ strBytes "r3" <+: strBytes "r312" := by decide +kernel

/-! ## 3D -/

theorem nameLike_of3 {S : Type} [Storage S Octant] [BitStorage S Octant] (hc : c.Supported) {ok : MortonIndex3D S → Prop}
    (hwf : ∀ m, ok m → WF c m.storage) : NameLike c ok cells3 octantDigit := fun m h => by
  have e := cellConcatenation_ok3 hc (hwf m h)
  refine ⟨e, ?_⟩
  change m.toString c .CellConcatenationWithRoot = _
  rw [MortonIndex3D.toString, e]
  rfl

theorem octantDigit_byte (v : Octant) : (String.utf8EncodeChar (octantDigit v)).map UInt8.toNat = [48 + octantKey v] := by
  cases v <;> decide

/-- Fixed-depth indices built from bits outside the cells (F11) are left out here: their order looks at these bits too. -/
theorem C92_string_order_3D (hc : c.Supported) :
    (∀ w, StringsSort c (fun m => Reach3D c .canonical (.fixed w m))) ∧
    (∀ w, StringsSort c (fun m => Reach3D c .all (.static w m))) ∧
    StringsSort c (fun m => Reach3D c .all (.dynamic m)) :=
  ⟨fun _ => stringsSort_of (nameLike_of3 hc (fixed_wf3 hc)) (fixed_cmp3 hc) octantDigit_byte,
    fun _ => stringsSort_of (nameLike_of3 hc (static_wf3 hc)) (static_cmp3 hc) octantDigit_byte,
    stringsSort_of (nameLike_of3 hc (dynamic_wf3 hc)) (dynamic_cmp3 hc) octantDigit_byte⟩

theorem C92_string_prefix_3D (hc : c.Supported) :
    (∀ w, StringsNest c (fun m => Reach3D c .all (.static w m))) ∧
    StringsNest c (fun m => Reach3D c .all (.dynamic m)) :=
  ⟨fun _ => stringsNest_of (nameLike_of3 hc (static_wf3 hc)) octantKey_inj (static_list3 hc) (static_anc3 hc)
      (static_cmp3 hc) octantDigit_byte,
    stringsNest_of (nameLike_of3 hc (dynamic_wf3 hc)) octantKey_inj (dynamic_list3' hc) (dynamic_anc3 hc)
      (dynamic_cmp3 hc) octantDigit_byte⟩

example : ∃ s t, MortonIndex.toString x64 (⟨⟨0xA0000000#32, 1⟩⟩ : MortonIndex3D (StaticStorage3D 32)) .CellConcatenation = .ok s ∧
    MortonIndex.toString x64 exS3 .CellConcatenation = .ok t ∧
    RustOrd.cmp x64 (⟨⟨0xA0000000#32, 1⟩⟩ : MortonIndex3D (StaticStorage3D 32)) exS3 = .ok (strCmp s t) ∧
    RustOrd.partialCmp x64 (⟨⟨0xA0000000#32, 1⟩⟩ : MortonIndex3D (StaticStorage3D 32)) exS3 = .ok (some (strCmp s t)) :=
  (C92_string_order_3D x64_supported).2.1 32 _ _ (.staticTryFromSlice (cs := [.Five]) (by decide) (by rfl)) (exS3_reach _) _
    (.inl rfl)

end MortonRs
