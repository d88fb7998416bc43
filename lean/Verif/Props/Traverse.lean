import Verif.Props.Laws2D
import Verif.Props.Laws3D

/-! # Visiting a subtree with `child` (C65) -/

namespace MortonRs

open MortonIndex VariableDepthMortonIndex

variable {M Cell : Type}

/-! ## Statement -/

/-- A depth-first walk as a user would write it: visit the node, then the subtrees of its children in the order of
`order`, `n` levels deep; `child` returning `None` ends a branch. -/
def walk [VariableDepthMortonIndex M Cell] (c : Cfg) (order : List Cell) : Nat → M → Res (List M)
  | 0, m => .ok [m]
  | n + 1, m => do
    let parts ← order.mapM fun v => do
      match ← child c m v with
      | none => .ok []
      | some k => walk c order n k
    return m :: parts.flatten

/-- C65: the walk visits the nodes of the subtree of at most `n` levels below the root, each once, in the order of
`<`. -/
def WalksInOrder [VariableDepthMortonIndex M Cell] [RustOrd M] (c : Cfg) (order : List Cell) (ok : M → Prop)
    (room : M → Nat → Prop) : Prop :=
  ∀ m, ok m → ∀ n, room m n → ∃ ms, walk c order n m = .ok ms ∧ (∀ a ∈ ms, ok a) ∧
    ms.Pairwise (fun a b => RustOrd.lt c a b = .ok true) ∧
    ∀ y, ok y → ((∃ a ∈ ms, RustOrd.cmp c a y = .ok .eq) ↔ InSubtree c m y ∧ depth y ≤ depth m + n)

/-! ## Proof -/

theorem pathCmp_branch (key : Cell → Nat) {v w : Cell} (h : key v < key w) (xs s t : List Cell) :
    pathCmp key (xs ++ v :: s) (xs ++ w :: t) = .lt := by
  induction xs with
  | nil => simp [pathCmp, h]
  | cons x xs ih => simpa [pathCmp] using ih

theorem pathCmp_longer (key : Cell → Nat) (xs : List Cell) (v : Cell) (t : List Cell) :
    pathCmp key xs (xs ++ v :: t) = .lt := by
  induction xs with
  | nil => simp [pathCmp]
  | cons x xs ih => simpa [pathCmp] using ih

/-- What a walk `n` levels below a node with path `xs` returns. -/
structure Walked (ok : M → Prop) (p : M → List Cell) (key : Cell → Nat) (limit : Option Nat) (n : Nat) (xs : List Cell)
    (ms : List M) : Prop where
  all : ∀ a ∈ ms, ok a ∧ xs <+: p a ∧ (p a).length ≤ xs.length + n
  sorted : ms.Pairwise (fun a b => pathCmp key (p a) (p b) = .lt)
  complete : ∀ cs : List Cell, cs.length ≤ n → ¬ Exceeds limit (xs.length + cs.length) → ∃ a ∈ ms, p a = xs ++ cs

variable [VariableDepthMortonIndex M Cell] {c : Cfg} {ok : M → Prop} {p : M → List Cell} {wr : Cell → Cell}
  {key : Cell → Nat} {room room' : M → Nat → Prop} {limit : Option Nat} {order : List Cell}

/-- The subtrees of the children `vs`. -/
theorem walk_children (hD : DescLike c ok p room limit) {m : M} (hm : ok m) (n : Nat) (h1 : room m 1)
    (ih : ∀ k v, ok k → p k = p m ++ [v] → ∃ ms, walk c order n k = .ok ms ∧ Walked ok p key limit n (p k) ms)
    (vs : List Cell) (hvs : vs.Pairwise (fun v w => key v < key w)) :
    ∃ parts, (vs.mapM fun v => do
        match ← child c m v with
        | none => .ok []
        | some k => walk c order n k) = .ok parts ∧
      (∀ a ∈ parts.flatten, ok a ∧ (∃ v ∈ vs, ∃ t, p a = p m ++ v :: t) ∧ (p a).length ≤ (p m).length + (n + 1)) ∧
      parts.flatten.Pairwise (fun a b => pathCmp key (p a) (p b) = .lt) ∧
      ∀ v ∈ vs, ∀ cs : List Cell, cs.length ≤ n → ¬ Exceeds limit ((p m).length + (v :: cs).length) →
        ∃ a ∈ parts.flatten, p a = p m ++ v :: cs := by
  induction vs with
  | nil => exact ⟨[], rfl, by simp, by simp, by simp⟩
  | cons v vs ihv =>
    rw [List.pairwise_cons] at hvs
    obtain ⟨parts, e1, e2, e3, e4⟩ := ihv hvs.2
    have hchild : child c m v = descendant c m [v] := rfl
    by_cases he : Exceeds limit ((p m).length + 1)
    · refine ⟨[] :: parts, ?_, ?_, ?_, ?_⟩
      · rw [List.mapM_cons, hchild, hD.no m hm [v] h1 he, e1]
        rfl
      · intro a ha
        obtain ⟨g1, ⟨u, g2, g3⟩, g4⟩ := e2 a (by simpa using ha)
        exact ⟨g1, ⟨u, List.mem_cons_of_mem _ g2, g3⟩, g4⟩
      · simpa using e3
      · intro u hu cs hcs hne
        exfalso
        apply hne
        cases limit with
        | none => exact he
        | some L => change L < _ at he; change L < _; rw [List.length_cons]; omega
    · obtain ⟨k, k1, k2, k3⟩ := hD.yes m hm [v] h1 he
      obtain ⟨ms, w1, w2⟩ := ih k v k2 k3
      refine ⟨ms :: parts, ?_, ?_, ?_, ?_⟩
      · rw [List.mapM_cons, hchild, k1, e1]
        simp only [ok_bind, w1]
        rfl
      · intro a ha
        rw [List.flatten_cons, List.mem_append] at ha
        rcases ha with ha | ha
        · obtain ⟨g1, ⟨t, g2⟩, g3⟩ := w2.all a ha
          rw [k3] at g2 g3
          refine ⟨g1, ⟨v, List.mem_cons_self, t, by rw [← g2]; simp⟩, ?_⟩
          rw [List.length_append, List.length_singleton] at g3
          omega
        · obtain ⟨g1, ⟨u, g2, g3⟩, g4⟩ := e2 a ha
          exact ⟨g1, ⟨u, List.mem_cons_of_mem _ g2, g3⟩, g4⟩
      · rw [List.flatten_cons, List.pairwise_append]
        refine ⟨w2.sorted, e3, fun a ha b hb => ?_⟩
        obtain ⟨-, ⟨t, g2⟩, -⟩ := w2.all a ha
        obtain ⟨-, ⟨u, g3, s, g4⟩, -⟩ := e2 b hb
        rw [k3] at g2
        rw [← g2, g4, List.append_assoc]
        exact pathCmp_branch key (hvs.1 u g3) _ _ _
      · intro u hu cs hcs hne
        rw [List.mem_cons] at hu
        rcases hu with rfl | hu
        · obtain ⟨a, g1, g2⟩ := w2.complete cs hcs (by
            rw [k3, List.length_append, List.length_singleton]
            rw [List.length_cons] at hne
            rwa [Nat.add_assoc, Nat.add_comm 1])
          exact ⟨a, by rw [List.flatten_cons, List.mem_append]; exact .inl g1, by rw [g2, k3]; simp⟩
        · obtain ⟨a, g1, g2⟩ := e4 u hu cs hcs hne
          exact ⟨a, by rw [List.flatten_cons, List.mem_append]; exact .inr g1, g2⟩

theorem walk_walked (hD : DescLike c ok p room limit)
    (hord : order.Pairwise (fun v w => key v < key w)) (hall : ∀ v, v ∈ order)
    (hr : ∀ m, ok m → ∀ n, room' m (n + 1) → room m 1 ∧ ∀ k v, ok k → p k = p m ++ [v] → room' k n)
    (n : Nat) : ∀ m, ok m → room' m n → ∃ ms, walk c order n m = .ok ms ∧ Walked ok p key limit n (p m) ms := by
  induction n with
  | zero =>
    intro m hm _
    refine ⟨[m], rfl, ?_, by simp, ?_⟩
    · intro a ha
      rw [List.mem_singleton] at ha
      subst ha
      exact ⟨hm, List.prefix_rfl, by omega⟩
    · intro cs hcs _
      have : cs = [] := List.eq_nil_of_length_eq_zero (by omega)
      exact ⟨m, by simp, by simp [this]⟩
  | succ n ih =>
    intro m hm hrm
    obtain ⟨r1, r2⟩ := hr m hm n hrm
    obtain ⟨parts, e1, e2, e3, e4⟩ := walk_children hD hm n r1 (fun k v hk he => ih k hk (r2 k v hk he)) order hord
    refine ⟨m :: parts.flatten, ?_, ?_, ?_, ?_⟩
    · rw [walk, e1]
      rfl
    · intro a ha
      rw [List.mem_cons] at ha
      rcases ha with rfl | ha
      · exact ⟨hm, List.prefix_rfl, by omega⟩
      · obtain ⟨g1, ⟨v, -, t, g3⟩, g4⟩ := e2 a ha
        exact ⟨g1, ⟨v :: t, g3.symm⟩, g4⟩
    · rw [List.pairwise_cons]
      refine ⟨fun a ha => ?_, e3⟩
      obtain ⟨-, ⟨v, -, t, g3⟩, -⟩ := e2 a ha
      rw [g3]
      exact pathCmp_longer key _ _ _
    · intro cs hcs hne
      cases cs with
      | nil => exact ⟨m, List.mem_cons_self, by simp⟩
      | cons v cs =>
        obtain ⟨a, g1, g2⟩ := e4 v (hall v) cs (by rw [List.length_cons] at hcs; omega) hne
        exact ⟨a, List.mem_cons_of_mem _ g1, g2⟩

theorem walksInOrder_of [RustOrd M] (hk : Function.Injective key) (h : ListLike c ok p wr) (hA : AncLike c ok p)
    (hD : DescLike c ok p room limit) (hC : CmpLike c key ok p) (hlim : ∀ m : M, ok m → ¬ Exceeds limit (p m).length)
    (hord : order.Pairwise (fun v w => key v < key w)) (hall : ∀ v, v ∈ order)
    (hr : ∀ m, ok m → ∀ n, room' m (n + 1) → room m 1 ∧ ∀ k v, ok k → p k = p m ++ [v] → room' k n) :
    WalksInOrder c order ok room' := by
  intro m hm n hrm
  obtain ⟨ms, h1, h2⟩ := walk_walked hD hord hall hr n m hm hrm
  refine ⟨ms, h1, fun a ha => (h2.all a ha).1, ?_, fun y hy => ?_⟩
  · refine List.Pairwise.imp_of_mem ?_ h2.sorted
    intro a b ha hb hab
    rw [RustOrd.lt, (hC a b (h2.all a ha).1 (h2.all b hb).1).2, hab]
    rfl
  · rw [inSubtree_iff hk h hA hC hm hy, h.depth_eq y hy, h.depth_eq m hm]
    constructor
    · rintro ⟨a, ha, hay⟩
      obtain ⟨g1, g2, g3⟩ := h2.all a ha
      rw [(hC a y g1 hy).1] at hay
      have := (pathCmp_eq_iff key hk _ _).mp (Except.ok.inj hay)
      rw [← this]
      exact ⟨g2, g3⟩
    · rintro ⟨⟨t, ht⟩, hl⟩
      have hlen : (p y).length = (p m).length + t.length := by rw [← ht, List.length_append]
      obtain ⟨a, g1, g2⟩ := h2.complete t (by omega) (by rw [← hlen]; exact hlim y hy)
      refine ⟨a, g1, ?_⟩
      rw [(hC a y (h2.all a g1).1 hy).1, g2, ht, pathCmp_refl]

/-! ## C65 -/

theorem C65_walk_2D (hc : c.Supported) :
    (∀ w, WalksInOrder c [Quadrant.Zero, .One, .Two, .Three] (fun m => Reach2D c .all (.static w m)) (fun _ _ => True)) ∧
    (DynWrites c → WalksInOrder c [Quadrant.Zero, .One, .Two, .Three] (fun m => Reach2D c .all (.dynamic m))
      (fun m n => Addressable c ((depth m + n) * 2))) := by
  refine ⟨fun w => ?_, fun hw => ?_⟩
  · refine walksInOrder_of quadrantKey_inj (static_list2 hc) (static_anc2 hc) (static_desc2 hc) (static_cmp2 hc)
      (fun m hm => Nat.not_lt.mpr (static_depth_le2 hc m hm)) (by decide) (fun v => by cases v <;> decide)
      (fun m hm n _ => ⟨one_lt_isize hc (x := Quadrant.Zero), fun _ _ _ _ => trivial⟩)
  · refine walksInOrder_of quadrantKey_inj (dynamic_list2 hc hw) (dynamic_anc2 hc) (dynamic_desc2 hc hw)
      (dynamic_cmp2 hc) (fun m hm => id) (by decide) (fun v => by cases v <;> decide) (fun m hm n hr => ⟨?_, fun k v hk e => ?_⟩)
    · unfold dynRoom2 Addressable at *
      omega
    · have e2 := (dynamic_list2' hc).depth_eq k hk
      rw [e, List.length_append, ← (dynamic_list2' hc).depth_eq m hm, List.length_singleton] at e2
      rw [e2]
      unfold Addressable at *
      omega

/-- Two levels below a node at depth 3: 1 + 4 + 16 nodes. -/
example : ∃ ms, walk x64 [Quadrant.Zero, .One, .Two, .Three] 2 exD2 = .ok ms ∧ ms.length = 21 ∧
    ms.Pairwise (fun a b => RustOrd.lt x64 a b = .ok true) := by
  obtain ⟨ms, h1, -, h3, -⟩ := (C65_walk_2D x64_supported).2 x64_writes exD2 (exD2_reach _) 2
    (show (3 + 2) * 2 + 64 < 2 ^ 64 by decide)
  refine ⟨ms, h1, ?_, h3⟩
  have : ((walk x64 [Quadrant.Zero, .One, .Two, .Three] 2 exD2).toOption.map (·.length)) = some 21 := by decide +kernel
  rw [h1] at this
  exact Option.some.inj this

/-- The limit of the storage cuts the walk: a `u8` index has four levels. -/
example : (walk x64 [Quadrant.Zero, .One, .Two, .Three] 3 (⟨⟨0b11_01_00_00#8, 2⟩⟩ : MortonIndex2D (StaticStorage2D 8))).toOption.map
    (·.map fun m => (m.storage.bits.toNat, m.storage.depth)) |>.map (·.length) |> (· = some 21) := by decide +kernel

theorem C65_walk_3D (hc : c.Supported) :
    (∀ w, WalksInOrder c [Octant.Zero, .One, .Two, .Three, .Four, .Five, .Six, .Seven] (fun m => Reach3D c .all (.static w m)) (fun _ _ => True)) ∧
    (DynWrites c → WalksInOrder c [Octant.Zero, .One, .Two, .Three, .Four, .Five, .Six, .Seven] (fun m => Reach3D c .all (.dynamic m))
      (fun m n => Addressable c ((depth m + n) * 3))) := by
  refine ⟨fun w => ?_, fun hw => ?_⟩
  · refine walksInOrder_of octantKey_inj (static_list3 hc) (static_anc3 hc) (static_desc3 hc) (static_cmp3 hc)
      (fun m hm => Nat.not_lt.mpr (static_depth_le3 hc m hm)) (by decide) (fun v => by cases v <;> decide)
      (fun m hm n _ => ⟨one_lt_isize hc (x := Octant.Zero), fun _ _ _ _ => trivial⟩)
  · refine walksInOrder_of octantKey_inj (dynamic_list3 hc hw) (dynamic_anc3 hc) (dynamic_desc3 hc hw)
      (dynamic_cmp3 hc) (fun m hm => id) (by decide) (fun v => by cases v <;> decide) (fun m hm n hr => ⟨?_, fun k v hk e => ?_⟩)
    · unfold dynRoom3 Addressable at *
      omega
    · have e2 := (dynamic_list3' hc).depth_eq k hk
      rw [e, List.length_append, ← (dynamic_list3' hc).depth_eq m hm, List.length_singleton] at e2
      rw [e2]
      unfold Addressable at *
      omega

/-- One level below a node at depth 3: 1 + 8 nodes. -/
example : ∃ ms, walk x64 [Octant.Zero, .One, .Two, .Three, .Four, .Five, .Six, .Seven] 1 exS3 = .ok ms ∧ ms.length = 9 ∧
    ms.Pairwise (fun a b => RustOrd.lt x64 a b = .ok true) := by
  obtain ⟨ms, h1, -, h3, -⟩ := (C65_walk_3D x64_supported).1 32 exS3 (exS3_reach _) 1 trivial
  refine ⟨ms, h1, ?_, h3⟩
  have : ((walk x64 [Octant.Zero, .One, .Two, .Three, .Four, .Five, .Six, .Seven] 1 exS3).toOption.map (·.length)) =
    some 9 := by decide +kernel
  rw [h1] at this
  exact Option.some.inj this

end MortonRs
