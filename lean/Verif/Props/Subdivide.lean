import Verif.Props.Adapt

/-! # Recursive subdivision (C105)

How a tree is built with this crate: start at a node, ask a criterion of the application whether to split, and go on with the
children. And the completion of some leaves to a whole tree, which is a subdivision by one such criterion. -/

namespace MortonRs

open MortonIndex VariableDepthMortonIndex

variable {M Cell : Type}

/-! ## Statement -/

/-- Client code: split `m` as long as the criterion says so, at most `n` levels down, and collect the nodes that are not split.
`child` is the library's. -/
def subdivide [VariableDepthMortonIndex M Cell] (c : Cfg) (split : M → Bool) (order : List Cell) : Nat → M → Res (List M)
  | 0, m => .ok [m]
  | n + 1, m =>
    if split m then do
      let parts ← order.mapM fun v => do
        match ← child c m v with
        | none => .ok []
        | some a => subdivide c split order n a
      return parts.flatten
    else .ok [m]

/-- C105, first half. Whatever the criterion (it must not tell apart indices that compare equal), the subdivision gives leaves in
strictly ascending order. A node is one of them exactly if every node from `m` down to it is split and it is not, or is at the last
level; and every node below `m` at or below the last level is in the subtree of a leaf. `room` says that the last level fits. -/
def Subdivides [VariableDepthMortonIndex M Cell] [RustOrd M] (c : Cfg) (order : List Cell) (ok : M → Prop)
    (room : M → Nat → Prop) : Prop :=
  ∀ split : M → Bool, (∀ a b, ok a → ok b → RustOrd.cmp c a b = .ok .eq → split a = split b) →
  ∀ m, ok m → ∀ n, room m n → ∃ ms, subdivide c split order n m = .ok ms ∧ (∀ a ∈ ms, ok a) ∧
    ms.Pairwise (fun a b => RustOrd.lt c a b = .ok true) ∧ Disjoint c ms ∧
    (∀ y, ok y → ((∃ a ∈ ms, RustOrd.cmp c a y = .ok .eq) ↔
      InSubtree c m y ∧ depth y ≤ depth m + n ∧
      (∀ x, ok x → InSubtree c m x → InSubtree c x y → depth x < depth y → split x = true) ∧
      (split y = false ∨ depth y = depth m + n))) ∧
    ∀ q, ok q → InSubtree c m q → depth m + n ≤ depth q → ∃ a ∈ ms, InSubtree c a q

/-- C105, second half. Splitting the nodes that have one of the given leaves properly below them completes the leaves to a tree:
all of them are among the result, the result covers everything below `m`, and it is the coarsest such list, every node above one
of its leaves having a given leaf properly below it. -/
def CompletesLeaves [VariableDepthMortonIndex M Cell] [RustOrd M] (c : Cfg) (order : List Cell) (ok : M → Prop)
    (room : M → Nat → Prop) : Prop :=
  ∀ m, ok m → ∀ n, room m n → ∀ leaves : List M, Disjoint c leaves →
    (∀ a ∈ leaves, ok a ∧ InSubtree c m a ∧ depth a ≤ depth m + n) →
  ∀ split : M → Bool, (∀ x, ok x → (split x = true ↔ ∃ a ∈ leaves, InSubtree c x a ∧ depth x < depth a)) →
  ∃ ms, subdivide c split order n m = .ok ms ∧ (∀ a ∈ ms, ok a) ∧ ms.Pairwise (fun a b => RustOrd.lt c a b = .ok true) ∧
    Disjoint c ms ∧ (∀ a ∈ leaves, ∃ b ∈ ms, RustOrd.cmp c b a = .ok .eq) ∧
    (∀ q, ok q → InSubtree c m q → depth m + n ≤ depth q → ∃ a ∈ ms, InSubtree c a q) ∧
    ∀ b ∈ ms, ∀ x, ok x → InSubtree c m x → InSubtree c x b → depth x < depth b →
      ∃ a ∈ leaves, InSubtree c x a ∧ depth x < depth a

/-! ## The walk on paths -/

section paths
variable [VariableDepthMortonIndex M Cell] {c : Cfg} {ok : M → Prop} {p : M → List Cell} {key : Cell → Nat}
  {room room' : M → Nat → Prop} {limit : Option Nat} {order : List Cell} {split : M → Bool}

structure Subdivided (ok : M → Prop) (p : M → List Cell) (key : Cell → Nat) (split : M → Bool) (n : Nat) (xs : List Cell)
    (ms : List M) : Prop where
  all : ∀ a ∈ ms, ok a ∧ xs <+: p a ∧ (p a).length ≤ xs.length + n ∧
    (∀ x, ok x → xs.length ≤ (p x).length → p x <+: p a → (p x).length < (p a).length → split x = true) ∧
    (split a = false ∨ (p a).length = xs.length + n)
  sorted : ms.Pairwise (fun a b => Apart key (p a) (p b))
  cover : ∀ t : List Cell, n ≤ t.length → ∃ a ∈ ms, p a <+: xs ++ t

theorem subdivide_children (hD : DescLike c ok p room limit) {m : M} (hm : ok m) (k : Nat) (h1 : room m 1)
    (he : ¬ Exceeds limit ((p m).length + 1))
    (ih : ∀ a v, ok a → p a = p m ++ [v] → ∃ ms, subdivide c split order k a = .ok ms ∧ Subdivided ok p key split k (p a) ms)
    (vs : List Cell) (hvs : vs.Pairwise (fun v w => key v < key w)) :
    ∃ parts, (vs.mapM fun v => do
        match ← child c m v with
        | none => .ok []
        | some a => subdivide c split order k a) = .ok parts ∧
      (∀ a ∈ parts.flatten, ok a ∧ (∃ v ∈ vs, ∃ t, p a = p m ++ v :: t) ∧ (p a).length ≤ (p m).length + (k + 1) ∧
        (∀ x, ok x → (p m).length < (p x).length → p x <+: p a → (p x).length < (p a).length → split x = true) ∧
        (split a = false ∨ (p a).length = (p m).length + (k + 1))) ∧
      parts.flatten.Pairwise (fun a b => Apart key (p a) (p b)) ∧
      ∀ v ∈ vs, ∀ t : List Cell, k ≤ t.length → ∃ a ∈ parts.flatten, p a <+: p m ++ v :: t := by
  induction vs with
  | nil => exact ⟨[], rfl, by simp, by simp, by simp⟩
  | cons v vs ihv =>
    rw [List.pairwise_cons] at hvs
    obtain ⟨parts, e1, e2, e3, e4⟩ := ihv hvs.2
    have hchild : child c m v = descendant c m [v] := rfl
    obtain ⟨a, a1, a2, a3⟩ := hD.yes m hm [v] h1 he
    obtain ⟨ms, w1, w2⟩ := ih a v a2 a3
    have a4 : (p a).length = (p m).length + 1 := by rw [a3]; simp
    refine ⟨ms :: parts, ?_, ?_, ?_, ?_⟩
    · rw [List.mapM_cons, hchild, a1, e1]
      simp only [ok_bind, w1]
      rfl
    · intro b hb
      rw [List.flatten_cons, List.mem_append] at hb
      rcases hb with hb | hb
      · obtain ⟨g1, ⟨t, g2⟩, g3, g4, g5⟩ := w2.all b hb
        rw [a3] at g2
        exact ⟨g1, ⟨v, List.mem_cons_self, t, by rw [← g2]; simp⟩, by omega, fun x hx hl => g4 x hx (by omega),
          g5.imp id (by omega)⟩
      · obtain ⟨g1, ⟨u, g2, g3⟩, g4⟩ := e2 b hb
        exact ⟨g1, ⟨u, List.mem_cons_of_mem _ g2, g3⟩, g4⟩
    · rw [List.flatten_cons, List.pairwise_append]
      refine ⟨w2.sorted, e3, fun x hx y hy => ?_⟩
      obtain ⟨-, ⟨t, g2⟩, -⟩ := w2.all x hx
      obtain ⟨-, ⟨u, g3, s, g4⟩, -⟩ := e2 y hy
      rw [a3] at g2
      rw [← g2, g4, List.append_assoc]
      exact apart_branch key (hvs.1 u g3) _ _ _
    · intro u hu t ht
      simp only [List.flatten_cons, List.mem_append]
      rw [List.mem_cons] at hu
      rcases hu with rfl | hu
      · have e : p m ++ u :: t = p a ++ t := by rw [a3]; simp
        rw [e]
        obtain ⟨b, b1, b2⟩ := w2.cover t ht
        exact ⟨b, .inl b1, b2⟩
      · obtain ⟨b, b1, b2⟩ := e4 u hu t ht
        exact ⟨b, .inr b1, b2⟩

theorem subdivide_subdivided (hD : DescLike c ok p room limit) (hord : order.Pairwise (fun v w => key v < key w))
    (hall : ∀ v, v ∈ order) (hs : ∀ a b, ok a → ok b → p a = p b → split a = split b)
    (hr : ∀ m, ok m → ∀ k, room' m (k + 1) → room m 1 ∧ ¬ Exceeds limit ((p m).length + 1) ∧
      ∀ a v, ok a → p a = p m ++ [v] → room' a k)
    (k : Nat) : ∀ m, ok m → room' m k → ∃ ms, subdivide c split order k m = .ok ms ∧ Subdivided ok p key split k (p m) ms := by
  have here : ∀ m, ok m → ∀ k, split m = false ∨ k = 0 → Subdivided ok p key split k (p m) [m] := by
    intro m hm k hk
    refine ⟨?_, by simp, fun t _ => ⟨m, by simp, List.prefix_append _ _⟩⟩
    intro a ha
    rw [List.mem_singleton] at ha
    subst ha
    exact ⟨hm, List.prefix_rfl, by omega, fun x _ h1 _ h3 => by omega, hk.imp id (by omega)⟩
  induction k with
  | zero =>
    intro m hm _
    exact ⟨[m], rfl, here m hm 0 (.inr rfl)⟩
  | succ k ih =>
    intro m hm hrm
    rw [subdivide]
    cases hsm : split m with
    | false => exact ⟨[m], rfl, here m hm _ (.inl hsm)⟩
    | true =>
      obtain ⟨r1, r2, r3⟩ := hr m hm k hrm
      obtain ⟨parts, e1, e2, e3, e4⟩ := subdivide_children (key := key) hD hm k r1 r2
        (fun a v ha hp => ih a ha (r3 a v ha hp)) order hord
      refine ⟨parts.flatten, ?_, ⟨?_, e3, ?_⟩⟩
      · simp only [if_true, e1, ok_bind]
        rfl
      · intro a ha
        obtain ⟨g1, ⟨v, -, t, g3⟩, g4, g5, g6⟩ := e2 a ha
        refine ⟨g1, ⟨v :: t, g3.symm⟩, g4, fun x hx hl hpx hlt => ?_, g6⟩
        rcases Nat.lt_or_eq_of_le hl with hl | hl
        · exact g5 x hx hl hpx hlt
        · have : p m = p x := (List.prefix_of_prefix_length_le ⟨v :: t, g3.symm⟩ hpx (by omega)).eq_of_length hl
          rw [← hs m x hm hx this, hsm]
      · intro t ht
        cases t with
        | nil => simp at ht
        | cons v t => exact e4 v (hall v) t (by simp at ht; omega)

end paths

/-! ## On indices -/

section indices
variable [VariableDepthMortonIndex M Cell] [RustOrd M] {c : Cfg} {ok : M → Prop} {p : M → List Cell} {wr : Cell → Cell}
  {key : Cell → Nat} {room room' : M → Nat → Prop} {limit : Option Nat} {order : List Cell}

theorem subdivides_of (hk : Function.Injective key) (h : ListLike c ok p wr) (hA : AncLike c ok p) (hD : DescLike c ok p room limit)
    (hC : CmpLike c key ok p) (hord : order.Pairwise (fun v w => key v < key w)) (v₀ : Cell) (hall : ∀ v, v ∈ order)
    (hr : ∀ m, ok m → ∀ k, room' m (k + 1) → room m 1 ∧ ¬ Exceeds limit ((p m).length + 1) ∧
      ∀ a v, ok a → p a = p m ++ [v] → room' a k) : Subdivides c order ok room' := by
  intro split hs m hm n hrm
  have heq : ∀ a b, ok a → ok b → (RustOrd.cmp c a b = .ok .eq ↔ p a = p b) := by
    intro a b ha hb
    rw [(hC a b ha hb).1, ← pathCmp_eq_iff key hk]
    exact ⟨Except.ok.inj, congrArg _⟩
  have sub := @inSubtree_iff _ _ _ _ c ok p wr key hk h hA hC
  obtain ⟨ms, q1, q2⟩ := subdivide_subdivided (key := key) hD hord hall (fun a b ha hb e => hs a b ha hb ((heq a b ha hb).mpr e)) hr n
    m hm hrm
  have hok : ∀ a ∈ ms, ok a := fun a ha => (q2.all a ha).1
  refine ⟨ms, q1, hok, ?_, ?_, fun y hy => ⟨?_, ?_⟩, ?_⟩
  · exact List.Pairwise.imp_of_mem (fun hx hy hxy => (lt_iff_path hC (hok _ hx) (hok _ hy)).mpr hxy.1) q2.sorted
  · refine List.Pairwise.imp_of_mem (fun {x y} hx hy hxy => ?_) q2.sorted
    rw [sub (hok x hx) (hok y hy), sub (hok y hy) (hok x hx)]
    exact hxy.2
  · rintro ⟨a, ha, hay⟩
    obtain ⟨g1, g2, g3, g4, g5⟩ := q2.all a ha
    have e := (heq a y g1 hy).mp hay
    rw [h.depth_eq y hy, h.depth_eq m hm, ← hs a y g1 hy hay, sub hm hy, ← e]
    refine ⟨g2, g3, fun x hx h1 h2 h3 => ?_, g5⟩
    rw [sub hm hx] at h1
    rw [sub hx hy, ← e] at h2
    rw [h.depth_eq x hx] at h3
    exact g4 x hx h1.length_le h2 h3
  · rintro ⟨h1, h2, h3, h4⟩
    rw [sub hm hy] at h1
    rw [h.depth_eq y hy, h.depth_eq m hm] at h2 h4
    obtain ⟨t, ht⟩ := h1
    obtain ⟨a, ha, hpa⟩ := q2.cover (t ++ List.replicate n v₀) (by simp)
    rw [← List.append_assoc, ht] at hpa
    obtain ⟨g1, g2, g3, g4, g5⟩ := q2.all a ha
    refine ⟨a, ha, (heq a y g1 hy).mpr ?_⟩
    have hpy : p y <+: p y ++ List.replicate n v₀ := List.prefix_append _ _
    have hmy : (p m).length ≤ (p y).length := by rw [← ht]; simp
    rcases Nat.lt_trichotomy (p a).length (p y).length with hl | hl | hl
    · have hay := List.prefix_of_prefix_length_le hpa hpy (by omega)
      have := h3 a g1 ((sub hm g1).mpr g2) ((sub g1 hy).mpr hay) (by rw [h.depth_eq a g1, h.depth_eq y hy]; exact hl)
      rw [this] at g5
      simp only [Bool.true_eq_false, false_or] at g5
      omega
    · exact (List.prefix_of_prefix_length_le hpa hpy (by omega)).eq_of_length hl
    · have := g4 y hy hmy (List.prefix_of_prefix_length_le hpy hpa (by omega)) hl
      rw [this] at h4
      simp only [Bool.true_eq_false, false_or] at h4
      omega
  · intro q hq hmq hl
    obtain ⟨t, ht⟩ := (sub hm hq).mp hmq
    rw [h.depth_eq m hm, h.depth_eq q hq, ← ht, List.length_append] at hl
    obtain ⟨a, ha, hpa⟩ := q2.cover t (by omega)
    exact ⟨a, ha, (sub (hok a ha) hq).mpr (by rw [← ht]; exact hpa)⟩

theorem completes_of (hk : Function.Injective key) (h : ListLike c ok p wr) (hA : AncLike c ok p) (hC : CmpLike c key ok p)
    (H : Subdivides c order ok room') : CompletesLeaves c order ok room' := by
  intro m hm n hrm leaves hdis hlv split hsp
  have sub := @inSubtree_iff _ _ _ _ c ok p wr key hk h hA hC
  have hresp : ∀ a b, ok a → ok b → RustOrd.cmp c a b = .ok .eq → split a = split b := by
    intro a b ha hb e
    rw [(hC a b ha hb).1] at e
    have e := (pathCmp_eq_iff key hk _ _).mp (Except.ok.inj e)
    rw [Bool.eq_iff_iff, hsp a ha, hsp b hb]
    have : ∀ d ∈ leaves, (InSubtree c a d ∧ depth a < depth d ↔ InSubtree c b d ∧ depth b < depth d) := by
      intro d hd
      rw [sub ha (hlv d hd).1, sub hb (hlv d hd).1, h.depth_eq a ha, h.depth_eq b hb, e]
    exact ⟨fun ⟨d, hd, hx⟩ => ⟨d, hd, (this d hd).mp hx⟩, fun ⟨d, hd, hx⟩ => ⟨d, hd, (this d hd).mpr hx⟩⟩
  obtain ⟨ms, h1, h2, h3, h4, h5, h6⟩ := H split hresp m hm n hrm
  refine ⟨ms, h1, h2, h3, h4, fun a ha => ?_, h6, fun b hb x hx hmx hxb hlt => ?_⟩
  · obtain ⟨k1, k2, k3⟩ := hlv a ha
    refine (h5 a k1).mpr ⟨k2, k3, fun x hx _ hxa hlt => (hsp x hx).mpr ⟨a, ha, hxa, hlt⟩, .inl ?_⟩
    rw [Bool.eq_false_iff]
    intro e
    obtain ⟨b, hb, hab, hlt⟩ := (hsp a k1).mp e
    rw [disjoint_same hdis ha hb hab] at hlt
    omega
  · have hbb : RustOrd.cmp c b b = .ok .eq := by rw [(hC b b (h2 b hb) (h2 b hb)).1, pathCmp_refl]
    exact (hsp x hx).mp (((h5 b (h2 b hb)).mp ⟨b, hb, hbb⟩).2.2.1 x hx hmx hxb hlt)

end indices

/-! ## C105 -/

variable {c : Cfg}

theorem C105_subdivide_2D (hc : c.Supported) :
    (∀ w, Subdivides c [Quadrant.Zero, .One, .Two, .Three] (fun m : MortonIndex2D (StaticStorage2D w) => Reach2D c .all (.static w m))
      (fun m n => depth m + n ≤ w / 2)) ∧
    (DynWrites c → Subdivides c [Quadrant.Zero, .One, .Two, .Three]
      (fun m : MortonIndex2D DynamicStorage2D => Reach2D c .all (.dynamic m)) (fun m n => Addressable c ((depth m + n) * 2))) := by
  refine ⟨fun w => ?_, fun hw => ?_⟩
  · refine subdivides_of quadrantKey_inj (static_list2 hc) (static_anc2 hc) (static_desc2 hc) (static_cmp2 hc) (by decide) .Zero
      (fun v => by cases v <;> decide) (fun m hm k hr => ?_)
    have e := (static_list2 hc).depth_eq m hm
    refine ⟨one_lt_isize hc (x := Quadrant.Zero), ?_, fun a v ha ea => ?_⟩
    · change ¬ _ < _
      omega
    · have e2 := (static_list2 hc).depth_eq a ha
      rw [ea, List.length_append, List.length_singleton] at e2
      omega
  · refine subdivides_of quadrantKey_inj (dynamic_list2 hc hw) (dynamic_anc2 hc) (dynamic_desc2 hc hw) (dynamic_cmp2 hc) (by decide)
      .Zero (fun v => by cases v <;> decide) (fun m hm k hr => ⟨?_, id, fun a v ha ea => ?_⟩)
    · unfold dynRoom2 Addressable at *
      omega
    · have e2 := (dynamic_list2' hc).depth_eq a ha
      rw [ea, List.length_append, ← (dynamic_list2' hc).depth_eq m hm, List.length_singleton] at e2
      rw [e2]
      unfold Addressable at *
      omega

theorem C105_subdivide_3D (hc : c.Supported) :
    (∀ w, Subdivides c [Octant.Zero, .One, .Two, .Three, .Four, .Five, .Six, .Seven]
      (fun m : MortonIndex3D (StaticStorage3D w) => Reach3D c .all (.static w m)) (fun m n => depth m + n ≤ w / 3)) ∧
    (DynWrites c → Subdivides c [Octant.Zero, .One, .Two, .Three, .Four, .Five, .Six, .Seven]
      (fun m : MortonIndex3D DynamicStorage3D => Reach3D c .all (.dynamic m)) (fun m n => Addressable c ((depth m + n) * 3))) := by
  refine ⟨fun w => ?_, fun hw => ?_⟩
  · refine subdivides_of octantKey_inj (static_list3 hc) (static_anc3 hc) (static_desc3 hc) (static_cmp3 hc) (by decide) .Zero
      (fun v => by cases v <;> decide) (fun m hm k hr => ?_)
    have e := (static_list3 hc).depth_eq m hm
    refine ⟨one_lt_isize hc (x := Octant.Zero), ?_, fun a v ha ea => ?_⟩
    · change ¬ _ < _
      omega
    · have e2 := (static_list3 hc).depth_eq a ha
      rw [ea, List.length_append, List.length_singleton] at e2
      omega
  · refine subdivides_of octantKey_inj (dynamic_list3 hc hw) (dynamic_anc3 hc) (dynamic_desc3 hc hw) (dynamic_cmp3 hc) (by decide)
      .Zero (fun v => by cases v <;> decide) (fun m hm k hr => ⟨?_, id, fun a v ha ea => ?_⟩)
    · unfold dynRoom3 Addressable at *
      omega
    · have e2 := (dynamic_list3' hc).depth_eq a ha
      rw [ea, List.length_append, ← (dynamic_list3' hc).depth_eq m hm, List.length_singleton] at e2
      rw [e2]
      unfold Addressable at *
      omega

theorem C105_complete_2D (hc : c.Supported) :
    (∀ w, CompletesLeaves c [Quadrant.Zero, .One, .Two, .Three]
      (fun m : MortonIndex2D (StaticStorage2D w) => Reach2D c .all (.static w m)) (fun m n => depth m + n ≤ w / 2)) ∧
    (DynWrites c → CompletesLeaves c [Quadrant.Zero, .One, .Two, .Three]
      (fun m : MortonIndex2D DynamicStorage2D => Reach2D c .all (.dynamic m)) (fun m n => Addressable c ((depth m + n) * 2))) :=
  ⟨fun w => completes_of quadrantKey_inj (static_list2 hc) (static_anc2 hc) (static_cmp2 hc) ((C105_subdivide_2D hc).1 w),
    fun hw => completes_of quadrantKey_inj (dynamic_list2 hc hw) (dynamic_anc2 hc) (dynamic_cmp2 hc) ((C105_subdivide_2D hc).2 hw)⟩

theorem C105_complete_3D (hc : c.Supported) :
    (∀ w, CompletesLeaves c [Octant.Zero, .One, .Two, .Three, .Four, .Five, .Six, .Seven]
      (fun m : MortonIndex3D (StaticStorage3D w) => Reach3D c .all (.static w m)) (fun m n => depth m + n ≤ w / 3)) ∧
    (DynWrites c → CompletesLeaves c [Octant.Zero, .One, .Two, .Three, .Four, .Five, .Six, .Seven]
      (fun m : MortonIndex3D DynamicStorage3D => Reach3D c .all (.dynamic m)) (fun m n => Addressable c ((depth m + n) * 3))) :=
  ⟨fun w => completes_of octantKey_inj (static_list3 hc) (static_anc3 hc) (static_cmp3 hc) ((C105_subdivide_3D hc).1 w),
    fun hw => completes_of octantKey_inj (dynamic_list3 hc hw) (dynamic_anc3 hc) (dynamic_cmp3 hc) ((C105_subdivide_3D hc).2 hw)⟩

/-! ## Examples -/

/-- Split towards the cell `Three` all the way: of each level the cells `Zero`, `One` and `Two` remain. -/
example : (subdivide x64 (fun m : MortonIndex2D (StaticStorage2D 16) => decide ((List.range (depth m)).all
    fun l => (getCellAtLevel x64 m l).toOption == some Quadrant.Three)) [Quadrant.Zero, .One, .Two, .Three] 3 exRoot2).toOption.map
    (·.map fun m => (m.storage.bits, depth m)) =
    some [(0#16, 1), (0x4000#16, 1), (0x8000#16, 1), (0xC000#16, 2), (0xD000#16, 2), (0xE000#16, 2), (0xF000#16, 3), (0xF400#16, 3),
      (0xF800#16, 3), (0xFC00#16, 3)] := by decide +kernel

/-- The theorem applied to a criterion on the depth alone. -/
example : ∃ ms, subdivide x64 (fun m => depth m < 2) [Quadrant.Zero, .One, .Two, .Three] 5 exRoot2 = .ok ms ∧ Disjoint x64 ms ∧
    ∀ q, Reach2D x64 .all (.static 16 q) → InSubtree x64 exRoot2 q → 5 ≤ depth q → ∃ a ∈ ms, InSubtree x64 a q := by
  obtain ⟨ms, h1, -, -, h2, -, h3⟩ := (C105_subdivide_2D x64_supported).1 16 (fun m => depth m < 2)
    (fun a b ha hb e => by
      obtain ⟨h1, -⟩ := static_cmp2 x64_supported a b ha hb
      rw [h1] at e
      have e := (pathCmp_eq_iff quadrantKey quadrantKey_inj _ _).mp (Except.ok.inj e)
      have e1 := (static_list2 x64_supported).depth_eq a ha
      rw [e, ← (static_list2 x64_supported).depth_eq b hb] at e1
      simp only [e1])
    exRoot2 exRoot2_reach 5 (by decide)
  exact ⟨ms, h1, h2, fun q hq hm hl => h3 q hq hm (show 0 + 5 ≤ depth q by omega)⟩

/-- A criterion that asks whether one of the given leaves is properly below. -/
def exAbove2 (leaves : List (MortonIndex2D (StaticStorage2D 16))) (x : MortonIndex2D (StaticStorage2D 16)) : Bool :=
  leaves.any fun a => decide (InSubtree x64 x a ∧ depth x < depth a)

/-- The leaf `[Zero, Three]` completed to a tree: seven leaves, the fourth at depth 2 being the given one. -/
example : (subdivide x64 (exAbove2 [⟨⟨0x3000#16, 2⟩⟩]) [Quadrant.Zero, .One, .Two, .Three] 4 exRoot2).toOption.map
    (·.map fun m => (m.storage.bits, depth m)) =
    some [(0#16, 2), (0x1000#16, 2), (0x2000#16, 2), (0x3000#16, 2), (0x4000#16, 1), (0x8000#16, 1), (0xC000#16, 1)] := by decide +kernel

/-- The theorem applied to the leaves of C95. -/
example : ∃ ms, subdivide x64 (exAbove2 exLeaves2) [Quadrant.Zero, .One, .Two, .Three] 8 exRoot2 = .ok ms ∧ Disjoint x64 ms ∧
    ∀ a ∈ exLeaves2, ∃ b ∈ ms, RustOrd.cmp x64 b a = .ok .eq := by
  obtain ⟨ms, h1, -, -, h2, h3, -⟩ := (C105_complete_2D x64_supported).1 16 exRoot2 exRoot2_reach 8 (by decide) exLeaves2
    exLeaves2_disjoint (fun a ha => ⟨exLeaves2_reach a ha, by revert a; decide +kernel⟩) (exAbove2 exLeaves2)
    (fun x _ => by simp [exAbove2])
  exact ⟨ms, h1, h2, h3⟩

/-- Below a dynamic octree node of depth 3, split by depth. -/
example : ∃ ms, subdivide x64 (fun x => depth x == 3) [Octant.Zero, .One, .Two, .Three, .Four, .Five, .Six, .Seven] 2 exD3 = .ok ms ∧
    Disjoint x64 ms := by
  obtain ⟨ms, h1, -, -, h2, -⟩ := (C105_subdivide_3D x64_supported).2 x64_writes (fun x => depth x == 3)
    (fun a b ha hb e => by
      obtain ⟨h1, -⟩ := dynamic_cmp3 x64_supported a b ha hb
      rw [h1] at e
      have e := (pathCmp_eq_iff octantKey octantKey_inj _ _).mp (Except.ok.inj e)
      have e1 := (dynamic_list3' x64_supported).depth_eq a ha
      rw [e, ← (dynamic_list3' x64_supported).depth_eq b hb] at e1
      simp only [e1])
    exD3 (exD3_reach _) 2 (by unfold Addressable; decide)
  exact ⟨ms, h1, h2⟩

end MortonRs
