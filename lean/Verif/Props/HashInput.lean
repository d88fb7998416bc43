import Verif.Lemmas.Cmp2D
import Verif.Lemmas.Cmp3D
import Verif.Model.Containers2D
import Verif.Model.Containers3D
import Verif.Props.Examples

/-! # C89: what is fed to a hasher determines the index

`Hash` asks that equal values feed the same data to the hasher (C17). Its documentation also asks that the data of one value be no
prefix of the data of another, so that tuples, lists and maps of indices do not collide. -/

namespace MortonRs

/-- The data `a` and `b` feed to a hasher are the same exactly when `==` holds; if they are not, they differ before either ends,
so that nothing that is hashed afterwards can make up for it. -/
def HashTellsApart (M : Type) [RustOrd M] : Prop :=
  ∀ a b : M, (RustOrd.hashInput a = RustOrd.hashInput b ↔ RustOrd.eq a b = true) ∧
    ∀ rest rest', RustOrd.hashInput a ++ rest = RustOrd.hashInput b ++ rest' → RustOrd.eq a b = true ∧ rest = rest'

/-- The data of a list of indices, one after the other (the length is hashed before them). -/
def hashAll {M : Type} [RustOrd M] (ms : List M) : List Nat := ms.flatMap RustOrd.hashInput

theorem hashTellsApart_of {M : Type} [RustOrd M] (h1 : ∀ a b : M, RustOrd.eq a b = true → a = b)
    (h2 : ∀ a : M, RustOrd.eq a a = true)
    (h3 : ∀ (a b : M) rest rest', RustOrd.hashInput a ++ rest = RustOrd.hashInput b ++ rest' → a = b ∧ rest = rest') :
    HashTellsApart M := by
  refine fun a b => ⟨⟨fun h => ?_, fun h => by rw [h1 a b h]⟩, fun r r' h => ?_⟩
  · obtain ⟨rfl, -⟩ := h3 a b [] [] (by rw [h])
    exact h2 a
  · obtain ⟨rfl, e⟩ := h3 a b r r' h
    exact ⟨h2 a, e⟩

theorem toNat_map_inj {w : Nat} {xs ys : List (BitVec w)} (h : xs.map BitVec.toNat = ys.map BitVec.toNat) : xs = ys :=
  List.map_inj_right (f := BitVec.toNat) (fun _ _ h => BitVec.eq_of_toNat_eq h) |>.mp h

/-- Length, bytes, depth. -/
theorem bytesInput_prefix {bs cs : List (BitVec 8)} {d e : Nat} {r r' : List Nat}
    (h : bs.length :: bs.map BitVec.toNat ++ [d] ++ r = cs.length :: cs.map BitVec.toNat ++ [e] ++ r') :
    bs = cs ∧ d = e ∧ r = r' := by
  simp only [List.cons_append, List.append_assoc, List.cons.injEq] at h
  obtain ⟨h1, h2⟩ := h
  obtain ⟨h3, h4⟩ := List.append_inj h2 (by rw [List.length_map, List.length_map, h1])
  simp only [List.nil_append, List.cons.injEq] at h4
  exact ⟨toNat_map_inj h3, h4.1, h4.2⟩

/-- **C89**, 2D. -/
theorem C89_hash_input_2D :
    (∀ w, HashTellsApart (MortonIndex2D (FixedDepthStorage2D w))) ∧
    (∀ w, HashTellsApart (MortonIndex2D (StaticStorage2D w))) ∧
    HashTellsApart (MortonIndex2D DynamicStorage2D) := by
  refine ⟨fun w => hashTellsApart_of ?_ ?_ ?_, fun w => hashTellsApart_of ?_ ?_ ?_, hashTellsApart_of ?_ ?_ ?_⟩
  · rintro ⟨a⟩ ⟨b⟩ h
    exact congrArg _ (FixedDepthStorage2D.eq_iff_eq.mp h : a = b)
  · rintro ⟨a⟩
    exact FixedDepthStorage2D.eq_iff_eq.mpr rfl
  · rintro ⟨⟨a⟩⟩ ⟨⟨b⟩⟩ r r' h
    injection (show a.toNat :: r = b.toNat :: r' from h) with h1 h2
    rw [BitVec.eq_of_toNat_eq h1]
    exact ⟨rfl, h2⟩
  · rintro ⟨a⟩ ⟨b⟩ h
    exact congrArg _ (StaticStorage2D.eq_iff_eq.mp h : a = b)
  · rintro ⟨a⟩
    exact StaticStorage2D.eq_iff_eq.mpr rfl
  · rintro ⟨⟨a, d⟩⟩ ⟨⟨b, e⟩⟩ r r' h
    injection (show a.toNat :: d :: r = b.toNat :: e :: r' from h) with h1 h2
    injection h2 with h2 h3
    rw [BitVec.eq_of_toNat_eq h1, h2]
    exact ⟨rfl, h3⟩
  · rintro ⟨a⟩ ⟨b⟩ h
    exact congrArg _ (DynamicStorage2D.eq_iff_eq.mp h : a = b)
  · rintro ⟨a⟩
    exact DynamicStorage2D.eq_iff_eq.mpr rfl
  · rintro ⟨⟨a, d⟩⟩ ⟨⟨b, e⟩⟩ r r' h
    obtain ⟨h1, h2, h3⟩ := bytesInput_prefix (bs := a) (cs := b) (d := d) (e := e) h
    rw [h1, h2]
    exact ⟨rfl, h3⟩

/-- **C89**, 3D. -/
theorem C89_hash_input_3D :
    (∀ w, HashTellsApart (MortonIndex3D (FixedDepthStorage3D w))) ∧
    (∀ w, HashTellsApart (MortonIndex3D (StaticStorage3D w))) ∧
    HashTellsApart (MortonIndex3D DynamicStorage3D) := by
  refine ⟨fun w => hashTellsApart_of ?_ ?_ ?_, fun w => hashTellsApart_of ?_ ?_ ?_, hashTellsApart_of ?_ ?_ ?_⟩
  · rintro ⟨a⟩ ⟨b⟩ h
    exact congrArg _ (FixedDepthStorage3D.eq_iff_eq.mp h : a = b)
  · rintro ⟨a⟩
    exact FixedDepthStorage3D.eq_iff_eq.mpr rfl
  · rintro ⟨⟨a⟩⟩ ⟨⟨b⟩⟩ r r' h
    injection (show a.toNat :: r = b.toNat :: r' from h) with h1 h2
    rw [BitVec.eq_of_toNat_eq h1]
    exact ⟨rfl, h2⟩
  · rintro ⟨a⟩ ⟨b⟩ h
    exact congrArg _ (StaticStorage3D.eq_iff_eq.mp h : a = b)
  · rintro ⟨a⟩
    exact StaticStorage3D.eq_iff_eq.mpr rfl
  · rintro ⟨⟨a, d⟩⟩ ⟨⟨b, e⟩⟩ r r' h
    injection (show a.toNat :: d :: r = b.toNat :: e :: r' from h) with h1 h2
    injection h2 with h2 h3
    rw [BitVec.eq_of_toNat_eq h1, h2]
    exact ⟨rfl, h3⟩
  · rintro ⟨a⟩ ⟨b⟩ h
    exact congrArg _ (DynamicStorage3D.eq_iff_eq.mp h : a = b)
  · rintro ⟨a⟩
    exact DynamicStorage3D.eq_iff_eq.mpr rfl
  · rintro ⟨⟨a, d⟩⟩ ⟨⟨b, e⟩⟩ r r' h
    obtain ⟨h1, h2, h3⟩ := bytesInput_prefix (bs := a) (cs := b) (d := d) (e := e) h
    rw [h1, h2]
    exact ⟨rfl, h3⟩

/-- **C89**, cells. -/
theorem C89_hash_cells : HashTellsApart Quadrant ∧ HashTellsApart Octant := by
  constructor
  · refine hashTellsApart_of (fun a b => ?_) (fun a => ?_) (fun a b r r' h => ?_)
    · cases a <;> cases b <;> decide
    · cases a <;> decide
    · injection (show a.variantIndex :: r = b.variantIndex :: r' from h) with h1 h2
      exact ⟨(by cases a <;> cases b <;> first | rfl | cases h1), h2⟩
  · refine hashTellsApart_of (fun a b => ?_) (fun a => ?_) (fun a b r r' h => ?_)
    · cases a <;> cases b <;> decide
    · cases a <;> decide
    · injection (show a.variantIndex :: r = b.variantIndex :: r' from h) with h1 h2
      exact ⟨(by cases a <;> cases b <;> first | rfl | cases h1), h2⟩

/-- **C89**, other containers and storages: what holds for a container holds for the fixed-depth and static storages over it, and
what holds for a storage holds for the indices over it. -/
theorem C89_hash_other_containers (B S : Type) [FixedStorageType B] [RustOrd S] :
    (HashTellsApart B → HashTellsApart (MortonIndex2D (FixedDepthStorage2DOf B)) ∧
      HashTellsApart (MortonIndex2D (StaticStorage2DOf B)) ∧
      HashTellsApart (MortonIndex3D (FixedDepthStorage3DOf B)) ∧ HashTellsApart (MortonIndex3D (StaticStorage3DOf B))) ∧
    (HashTellsApart S → HashTellsApart (MortonIndex2D S) ∧ HashTellsApart (MortonIndex3D S)) := by
  refine ⟨fun h => ⟨fun a b => h a.storage.bits b.storage.bits, ?_, fun a b => h a.storage.bits b.storage.bits, ?_⟩,
    fun h => ⟨fun a b => h a.storage b.storage, fun a b => h a.storage b.storage⟩⟩ <;>
  · rintro ⟨⟨a, d⟩⟩ ⟨⟨b, e⟩⟩
    have key : ∀ r r', RustOrd.hashInput a ++ [d] ++ r = RustOrd.hashInput b ++ [e] ++ r' →
        (RustOrd.eq a b = true ∧ d = e) ∧ r = r' := by
      intro r r' he
      rw [List.append_assoc, List.append_assoc] at he
      obtain ⟨h1, h2⟩ := (h a b).2 _ _ he
      injection h2 with h2 h3
      exact ⟨⟨h1, h2⟩, h3⟩
    have heq : (RustOrd.eq a b && d == e) = true ↔ RustOrd.eq a b = true ∧ d = e := by simp
    refine ⟨⟨fun g => ?_, fun g => ?_⟩, fun r r' g => ?_⟩
    · exact heq.mpr (key [] [] (by rw [show RustOrd.hashInput a ++ [d] = RustOrd.hashInput b ++ [e] from g])).1
    · obtain ⟨g1, g2⟩ := heq.mp g
      show RustOrd.hashInput a ++ [d] = RustOrd.hashInput b ++ [e]
      rw [(h a b).1.mpr g1, g2]
    · exact ⟨heq.mpr (key r r' g).1, (key r r' g).2⟩

/-- **C89**, lists: two lists of indices of the same length feed the same data exactly when they are equal element by element. -/
theorem C89_hash_lists {M : Type} [RustOrd M] (h : HashTellsApart M) :
    ∀ ms ns : List M, ms.length = ns.length →
      (hashAll ms = hashAll ns ↔ ∀ i (h1 : i < ms.length) (h2 : i < ns.length), RustOrd.eq ms[i] ns[i] = true) := by
  intro ms
  induction ms with
  | nil =>
    intro ns hl
    cases ns with
    | nil => simp
    | cons => simp at hl
  | cons m ms ih =>
    intro ns hl
    cases ns with
    | nil => simp at hl
    | cons n ns =>
      have ih := ih ns (by simpa using hl)
      constructor
      · intro he
        obtain ⟨h1, h2⟩ := (h m n).2 (hashAll ms) (hashAll ns) (by simpa [hashAll] using he)
        intro i g1 g2
        cases i with
        | zero => exact h1
        | succ i => exact ih.mp h2 i (by simpa using g1) (by simpa using g2)
      · intro he
        have e1 := (h m n).1.mpr (he 0 (by simp) (by simp))
        have e2 := ih.mpr fun i g1 g2 => he (i + 1) (by simpa using g1) (by simpa using g2)
        simp only [hashAll, List.flatMap_cons] at e2 ⊢
        rw [e1, e2]

/-! ## Examples -/

/-- The same bits at two depths, and the same depth over one byte and two. -/
example : RustOrd.hashInput (⟨⟨0#8, 1⟩⟩ : MortonIndex2D (StaticStorage2D 8)) ≠ RustOrd.hashInput (⟨⟨0#8, 2⟩⟩ : MortonIndex2D (StaticStorage2D 8)) :=
  fun h => absurd (((C89_hash_input_2D.2.1 8) _ _).1.mp h) (by decide)
example (rest rest' : List Nat) : RustOrd.hashInput (⟨⟨[1#8], 2⟩⟩ : MortonIndex3D DynamicStorage3D) ++ rest ≠
    RustOrd.hashInput (⟨⟨[1#8, 2#8], 2⟩⟩ : MortonIndex3D DynamicStorage3D) ++ rest' :=
  fun h => absurd ((C89_hash_input_3D.2.2 _ _).2 rest rest' h).1 (by decide)
example : RustOrd.hashInput (⟨⟨[7#8, 9#8], 3⟩⟩ : MortonIndex3D DynamicStorage3D) = [2, 7, 9, 3] := rfl
example : let a : MortonIndex3D (StaticStorage3D 8) := ⟨⟨5#8, 1⟩⟩
    hashAll [a, ⟨⟨6#8, 2⟩⟩] ≠ hashAll [a, ⟨⟨6#8, 1⟩⟩] :=
  fun h => absurd ((C89_hash_lists (C89_hash_input_3D.2.1 8) _ _ (by rfl)).mp h 1 (by decide) (by decide)) (by decide)

/-- The native integers are such containers. -/
theorem hashTellsApart_bitVec (w : Nat) : HashTellsApart (BitVec w) := by
  refine hashTellsApart_of (fun a b h => ?_) (fun a => ?_) (fun a b r r' h => ?_)
  · exact eq_of_beq (show (a == b) = true from h)
  · exact (beq_self_eq_true a : (a == a) = true)
  · injection (show a.toNat :: r = b.toNat :: r' from h) with h1 h2
    exact ⟨BitVec.eq_of_toNat_eq h1, h2⟩
example : HashTellsApart (MortonIndex3D (StaticStorage3DOf (BitVec 24))) :=
  ((C89_hash_other_containers (BitVec 24) (BitVec 24)).1 (hashTellsApart_bitVec 24)).2.2.2

end MortonRs
