import Verif.Props.Carry
import Verif.Props.Touching
import Verif.Props.LocateAll

/-! # Balanced trees (C129)

A tree is balanced (2:1) if leaves that touch on a side differ by at most one level. For each leaf and side a client looks up the leaf
around the neighbour of the same size (C128, C125) and compares the depths. -/

namespace MortonRs

open BitStorage MortonIndex VariableDepthMortonIndex

variable {M Cell A : Type} {c : Cfg}

/-! ## Statement -/

/-- Client code: `f(a)?` for all `a` of a list. -/
def allOf {α : Type} (f : α → Res Bool) : List α → Res Bool
  | [] => return true
  | a :: l => do if ← f a then allOf f l else return false

/-- Client code: the leaf around the neighbour of `x` on a side, if there is one, is at most one level above `x`. The leaves `<=` the
neighbour are split off by a binary search. -/
def balancedAt [MortonIndex M Cell] (next : A → Bool → M → Res (Option M)) (le below : M → M → Bool) (leaves : List M) (x : M)
    (side : A × Bool) : Res Bool := do
  match ← next side.1 side.2 x with
  | none => return true
  | some q =>
    match (leaves.takeWhile (le · q)).getLast?.filter (below · q) with
    | none => return true
    | some y => return decide (depth x ≤ depth y + 1)

/-- Client code: all leaves, all sides. -/
def balanced [MortonIndex M Cell] (next : A → Bool → M → Res (Option M)) (le below : M → M → Bool) (sides : List (A × Bool))
    (leaves : List M) : Res Bool := allOf (fun x => allOf (balancedAt next le below leaves x) sides) leaves

/-- Leaves that touch on a side differ by at most one level. -/
def Balanced [MortonIndex M Cell] (D : Nat) (place : M → (A → Nat) → Prop) (leaves : List M) : Prop :=
  ∀ x ∈ leaves, ∀ y ∈ leaves, ∀ gx gy, place x gx → place y gy → ∀ a up, Touches D a up (depth x) gx (depth y) gy →
    depth x ≤ depth y + 1 ∧ depth y ≤ depth x + 1

/-- C129. The answer is true exactly if the tree is balanced. `le` and `below` decide `<=` and the relation of a node and its subtree. -/
def ChecksBalance [VariableDepthMortonIndex M Cell] [RustOrd M] (c : Cfg) (ok : M → Prop) (D : Nat) (place : M → (A → Nat) → Prop)
    (next : A → Bool → M → Res (Option M)) (sides : List (A × Bool)) : Prop :=
  ∀ (leaves : List M) (le below : M → M → Bool), (∀ m ∈ leaves, ok m ∧ depth m ≤ D) → Sorted c leaves → Disjoint c leaves →
    (∀ a b, ok a → ok b → (le a b = true ↔ RustOrd.le c a b = .ok true)) →
    (∀ a b, ok a → ok b → (below a b = true ↔ InSubtree c a b)) →
    ∃ b, balanced next le below sides leaves = .ok b ∧ (b = true ↔ Balanced D place leaves)

/-- Client code: the sides of a square, and the neighbour by C128. -/
def sides2D : List (Axis2 × Bool) := [(.X, false), (.X, true), (.Y, false), (.Y, true)]

def nextTo2D {S : Type} [Storage S Quadrant] (c : Cfg) (o : QuadrantOrdering) (a : Axis2) : Bool → MortonIndex2D S →
    Res (Option (MortonIndex2D S)) := neighbour2D c o (a = .Y)

/-- The sides of a cube. -/
def sides3D : List (Axis × Bool) := [(.X, false), (.X, true), (.Y, false), (.Y, true), (.Z, false), (.Z, true)]

/-! ## Proof -/

theorem allOf_ok {α : Type} {f : α → Res Bool} (P : α → Prop) : ∀ {l : List α},
    (∀ a ∈ l, ∃ b, f a = .ok b ∧ (b = true ↔ P a)) → ∃ b, allOf f l = .ok b ∧ (b = true ↔ ∀ a ∈ l, P a)
  | [], _ => ⟨true, rfl, by simp⟩
  | a :: l, h => by
    obtain ⟨b, e, hb⟩ := h a (by simp)
    obtain ⟨b', e', hb'⟩ := allOf_ok P fun a ha => h a (List.mem_cons_of_mem _ ha)
    rw [allOf, e, ok_bind]
    cases b with
    | true => exact ⟨b', e', by rw [hb', List.forall_mem_cons]; exact ⟨fun k => ⟨hb.mp rfl, k⟩, fun k => k.2⟩⟩
    | false =>
      refine ⟨false, rfl, ⟨fun k => (by cases k), fun k => ?_⟩⟩
      exact absurd (hb.mpr (k a (by simp))) (by decide)

theorem pairwise_mem {α : Type} {R : α → α → Prop} (hR : ∀ a b, R a b → R b a) {l : List α} (hl : l.Pairwise R) {x y : α}
    (hx : x ∈ l) (hy : y ∈ l) : x = y ∨ R x y := by
  induction l with
  | nil => cases hx
  | cons a l ih =>
    obtain ⟨h1, h2⟩ := List.pairwise_cons.mp hl
    rcases List.mem_cons.mp hx with rfl | hx' <;> rcases List.mem_cons.mp hy with rfl | hy'
    · exact .inl rfl
    · exact .inr (h1 y hy')
    · exact .inr (hR _ _ (h1 x hx'))
    · exact ih h2 hx' hy'

section positions
variable {D d e : Nat} {a : A} {up : Bool} {g h : A → Nat}

/-- Nothing touches a node behind the edge of the grid. -/
theorem not_touches_edge (hd : d ≤ D) (he : e ≤ D) (hg : AtEdge up d (g a)) (hh : h a < 2 ^ e) : ¬ Touches D a up d g e h := by
  rintro ⟨p, q, hp, hq, hq', hb1, hb2⟩
  have hs := Nat.two_pow_pos (D - d)
  have ha : q a / 2 ^ (D - d) ≠ g a := fun e => hq fun b => by
    by_cases hba : b = a
    · rw [hba]; exact e
    · rw [hb2 b hba]; exact hp b
  have h1 := (Nat.div_eq_iff hs).mp (hp a)
  cases up <;> simp only [AtEdge, if_true, Bool.false_eq_true, if_false] at hg hb1
  · apply ha
    rw [hg] at h1 ⊢
    exact Nat.div_eq_of_lt (by omega)
  · have h2 : q a < 2 ^ D := by
      have := hq' a
      rw [← this, Nat.div_lt_iff_lt_mul (Nat.two_pow_pos _), ← Nat.pow_add, show e + (D - e) = D by omega] at hh
      exact hh
    have h3 : (g a + 1) * 2 ^ (D - d) = 2 ^ D := by rw [hg, ← Nat.pow_add, show d + (D - d) = D by omega]
    rw [Nat.succ_mul] at h3
    exact ha (div_unique (by omega) (by rw [Nat.succ_mul]; omega))

end positions

section generic
variable {ok : M → Prop} {D : Nat} {place : M → (A → Nat) → Prop} {next : A → Bool → M → Res (Option M)}
  [VariableDepthMortonIndex M Cell] [RustOrd M]

/-- Two leaves that touch touch on the opposite side as well. -/
theorem touches_back (hP : ∀ x y gx gy, ok x → ok y → depth x ≤ depth y → depth y ≤ D → place x gx → place y gy →
      (InSubtree c x y ↔ ∀ b, gy b / 2 ^ (depth y - depth x) = gx b))
    {x y : M} {gx gy : A → Nat} {a : A} {up : Bool} (hx : ok x) (hy : ok y) (dx : depth x ≤ D) (dy : depth y ≤ D) (px : place x gx)
    (py : place y gy) (hn : x = y ∨ ¬ InSubtree c x y ∧ ¬ InSubtree c y x) (ht : Touches D a up (depth x) gx (depth y) gy) :
    Touches D a (!up) (depth y) gy (depth x) gx := by
  obtain ⟨p, q, t1, t2, t3, t4, t5⟩ := ht
  refine ⟨q, p, t3, fun hpy => ?_, t1, ?_, fun b hb => (t5 b hb).symm⟩
  · rcases hn with rfl | ⟨n1, n2⟩
    · exact t2 fun b => by rw [t3 b, ← hpy b, t1 b]
    · rcases Nat.le_total (depth x) (depth y) with hl | hl
      · exact n1 ((hP x y gx gy hx hy hl dy px py).mpr ((Holds.coarser hpy hl dy).mp t1))
      · exact n2 ((hP y x gy gx hy hx hl dx py px).mpr ((Holds.coarser t1 hl dx).mp hpy))
  · cases up <;> simp only [Bool.not_true, Bool.not_false, if_true, Bool.false_eq_true, if_false] at t4 ⊢ <;> omega

/-- What one look says. -/
theorem balancedAt_ok (hLoc : LocatesAll c ok)
    (hP : ∀ x y gx gy, ok x → ok y → depth x ≤ depth y → depth y ≤ D → place x gx → place y gy →
      (InSubtree c x y ↔ ∀ b, gy b / 2 ^ (depth y - depth x) = gx b))
    (hT : FindsTouching c ok D place) (hB : ∀ y gy, ok y → depth y ≤ D → place y gy → ∀ b, gy b < 2 ^ depth y)
    (hN : ∀ x, ok x → depth x ≤ D → ∀ a up, ∃ r gx, next a up x = .ok r ∧ place x gx ∧ (r = none → AtEdge up (depth x) (gx a)) ∧
      ∀ q, r = some q → ok q ∧ depth q = depth x ∧ ∃ gq, place q gq ∧ Beside a up gx gq)
    (hdep : ∀ x y, ok x → ok y → InSubtree c x y → depth x ≤ depth y)
    {leaves : List M} {le below : M → M → Bool} (hok : ∀ m ∈ leaves, ok m ∧ depth m ≤ D) (hs : Sorted c leaves) (hd : Disjoint c leaves)
    (hle : ∀ a b, ok a → ok b → (le a b = true ↔ RustOrd.le c a b = .ok true))
    (hbe : ∀ a b, ok a → ok b → (below a b = true ↔ InSubtree c a b)) {x : M} (hx : x ∈ leaves) (side : A × Bool) :
    ∃ b, balancedAt next le below leaves x side = .ok b ∧ (b = true ↔ ∀ y ∈ leaves, ∀ gx gy, place x gx → place y gy →
      Touches D side.1 side.2 (depth x) gx (depth y) gy → depth x ≤ depth y + 1) := by
  obtain ⟨a, up⟩ := side
  obtain ⟨ox, dx⟩ := hok x hx
  have huniq : ∀ gx gx', place x gx → place x gx' → gx = gx' := fun gx gx' h1 h2 => funext fun b => by
    have r1 := (hP x x gx gx ox ox (Nat.le_refl _) dx h1 h1).mpr fun b => by simp
    have := (hP x x gx gx' ox ox (Nat.le_refl _) dx h1 h2).mp r1 b
    simpa using this.symm
  obtain ⟨r, gx, n1, px, n2, n3⟩ := hN x ox dx a up
  rw [balancedAt, n1, ok_bind]
  cases r with
  | none =>
    refine ⟨true, rfl, ⟨fun _ y hy gx' gy px' py ht => ?_, fun _ => rfl⟩⟩
    rw [huniq gx' gx px' px] at ht
    exact absurd ht (not_touches_edge dx (hok y hy).2 (n2 rfl) (hB y gy (hok y hy).1 (hok y hy).2 py a))
  | some q =>
    obtain ⟨oq, dq, gq, pq, bq⟩ := n3 q rfl
    have key : ∀ y ∈ leaves, ∀ gy, place y gy → (Touches D a up (depth x) gx (depth y) gy ↔
        InSubtree c y q ∨ InSubtree c q y ∧ facesBack up (depth y - depth q) (gq a) (gy a) = true) := fun y hy gy py =>
      (hT x q gx gq a up ox oq dx dq px pq bq).1 y gy (hok y hy).1 (hok y hy).2 py
    have loc := (hLoc leaves [q] le below (fun m hm => (hok m hm).1) (fun m hm => by rw [List.mem_singleton.mp hm]; exact oq) hs hd
      (by unfold Sorted; exact List.pairwise_singleton _ _) hle hbe).2 0 q _ rfl rfl
    have e : (leaves.takeWhile (le · q)).getLast?.or none = (leaves.takeWhile (le · q)).getLast? := by simp
    rw [e] at loc
    simp only []
    cases hr : (leaves.takeWhile (le · q)).getLast?.filter (below · q) with
    | none =>
      refine ⟨true, rfl, ⟨fun _ y hy gx' gy px' py ht => ?_, fun _ => rfl⟩⟩
      rw [huniq gx' gx px' px] at ht
      rcases (key y hy gy py).mp ht with k | k
      · exact absurd k (loc.2.mp hr y hy)
      · have := hdep q y oq (hok y hy).1 k.1
        omega
    | some z =>
      obtain ⟨z1, z2⟩ := (loc.1 z).mp hr
      refine ⟨_, rfl, ?_⟩
      rw [decide_eq_true_iff]
      constructor
      · intro hz y hy gx' gy px' py ht
        rw [huniq gx' gx px' px] at ht
        rcases (key y hy gy py).mp ht with k | k
        · have := (loc.1 y).mpr ⟨hy, k⟩
          rw [hr] at this
          cases this
          exact hz
        · have := hdep q y oq (hok y hy).1 k.1
          omega
      · intro hall
        obtain ⟨_, gz, _, pz, _⟩ := hN z (hok z z1).1 (hok z z1).2 a up
        exact hall z z1 gx gz px pz ((key z z1 gz pz).mpr (.inl z2))

theorem checksBalance_of (hLoc : LocatesAll c ok)
    (hP : ∀ x y gx gy, ok x → ok y → depth x ≤ depth y → depth y ≤ D → place x gx → place y gy →
      (InSubtree c x y ↔ ∀ b, gy b / 2 ^ (depth y - depth x) = gx b))
    (hT : FindsTouching c ok D place) (hB : ∀ y gy, ok y → depth y ≤ D → place y gy → ∀ b, gy b < 2 ^ depth y)
    (hN : ∀ x, ok x → depth x ≤ D → ∀ a up, ∃ r gx, next a up x = .ok r ∧ place x gx ∧ (r = none → AtEdge up (depth x) (gx a)) ∧
      ∀ q, r = some q → ok q ∧ depth q = depth x ∧ ∃ gq, place q gq ∧ Beside a up gx gq)
    (hdep : ∀ x y, ok x → ok y → InSubtree c x y → depth x ≤ depth y)
    {sides : List (A × Bool)} (hsides : ∀ s, s ∈ sides) : ChecksBalance c ok D place next sides := by
  intro leaves le below hok hs hd hle hbe
  obtain ⟨b, e, hb⟩ := allOf_ok (f := fun x => allOf (balancedAt next le below leaves x) sides) (l := leaves)
    (fun x => ∀ s ∈ sides, ∀ y ∈ leaves, ∀ gx gy, place x gx → place y gy →
      Touches D s.1 s.2 (depth x) gx (depth y) gy → depth x ≤ depth y + 1)
    fun x hx => allOf_ok _ fun s _ => balancedAt_ok hLoc hP hT hB hN hdep hok hs hd hle hbe hx s
  refine ⟨b, e, hb.trans ⟨fun h x hx y hy gx gy px py a up ht => ⟨h x hx (a, up) (hsides _) y hy gx gy px py ht, ?_⟩,
    fun h x hx s _ y hy gx gy px py ht => (h x hx y hy gx gy px py s.1 s.2 ht).1⟩⟩
  have hn : x = y ∨ ¬ InSubtree c x y ∧ ¬ InSubtree c y x :=
    pairwise_mem (fun _ _ h => h.symm) hd hx hy
  exact h y hy (a, !up) (hsides _) x hx gy gx py px
    (touches_back hP (hok x hx).1 (hok y hy).1 (hok x hx).2 (hok y hy).2 px py hn ht)

theorem depth_le_of_inSubtree {key : Cell → Nat} {p : M → List Cell} {wr : Cell → Cell} (hk : Function.Injective key)
    (h : ListLike c ok p wr) (hA : AncLike c ok p) (hC : CmpLike c key ok p) (x y : M) (hx : ok x) (hy : ok y)
    (hs : InSubtree c x y) : depth x ≤ depth y := by
  rw [h.depth_eq x hx, h.depth_eq y hy]
  exact ((inSubtree_iff hk h hA hC hx hy).mp hs).length_le

end generic

section kinds
variable {D : Nat}

theorem place_lt2 {S : Type} [Storage S Quadrant] [BitStorage S Quadrant] (hc : c.Supported) (hD : D ≤ c.ptrBits)
    {ok : MortonIndex2D S → Prop} (hwf : ∀ m, ok m → WF c m.storage) (o : QuadrantOrdering) (y : MortonIndex2D S) (gy : Axis2 → Nat)
    (hy : ok y) (hd : depth y ≤ D) (py : Place2D c o y gy) (b : Axis2) : gy b < 2 ^ depth y := by
  obtain ⟨v, e, h1, h2⟩ := py
  obtain ⟨v', e1, e2, e3⟩ := toGridIndex_binary2 hc (hwf y hy) (Nat.le_trans hd hD) o
  rw [e, Except.ok.injEq] at e1
  subst e1
  cases b
  · rw [h1, e2]; exact binary_map_lt _ (path_length _)
  · rw [h2, e3]; exact binary_map_lt _ (path_length _)

theorem next_ok2 {S : Type} [Storage S Quadrant] (hD : D ≤ c.ptrBits) {ok : MortonIndex2D S → Prop} (h : StepsAcross2D c ok)
    (o : QuadrantOrdering) (x : MortonIndex2D S) (hx : ok x) (dx : depth x ≤ D) (a : Axis2) (up : Bool) :
    ∃ r gx, nextTo2D c o a up x = .ok r ∧ Place2D c o x gx ∧ (r = none → AtEdge up (depth x) (gx a)) ∧
      ∀ q, r = some q → ok q ∧ depth q = depth x ∧ ∃ gq, Place2D c o q gq ∧ Beside a up gx gq := by
  obtain ⟨r, e, h1, -⟩ := h x hx o (a = .Y) up
  obtain ⟨g, g1, g2, g3⟩ := h1 (Nat.le_trans dx hD)
  refine ⟨r, fun | .X => g.x.toNat | .Y => g.y.toNat, e, ⟨g, g1, rfl, rfl⟩, fun hr => ?_, fun q hq => ?_⟩
  · have := g2.mp hr
    cases a <;> exact this
  · obtain ⟨k1, k2, g', k3, k4, k5⟩ := g3 q hq
    refine ⟨k1, k2, fun | .X => g'.x.toNat | .Y => g'.y.toNat, ⟨g', k3, rfl, rfl⟩, ?_⟩
    cases a
    · exact ⟨k4, fun b hb => by
        cases b
        · exact absurd rfl hb
        · exact congrArg BitVec.toNat k5⟩
    · exact ⟨k4, fun b hb => by
        cases b
        · exact congrArg BitVec.toNat k5
        · exact absurd rfl hb⟩

theorem place_lt3 {S : Type} [Storage S Octant] [BitStorage S Octant] (hc : c.Supported) (hD : D ≤ c.ptrBits)
    {ok : MortonIndex3D S → Prop} (hwf : ∀ m, ok m → WF c m.storage) (o : OctantOrdering) (y : MortonIndex3D S) (gy : Axis → Nat)
    (hy : ok y) (hd : depth y ≤ D) (py : Place3D c o y gy) (b : Axis) : gy b < 2 ^ depth y := by
  obtain ⟨v, e, h1, h2, h3⟩ := py
  obtain ⟨v', e1, e2, e3, e4⟩ := toGridIndex_binary3 hc (hwf y hy) (Nat.le_trans hd hD) o
  rw [e, Except.ok.injEq] at e1
  subst e1
  cases b
  · rw [h1, e2]; exact binary_map_lt _ (path_length _)
  · rw [h2, e3]; exact binary_map_lt _ (path_length _)
  · rw [h3, e4]; exact binary_map_lt _ (path_length _)

theorem next_ok3 {S : Type} [Storage S Octant] (hD : D ≤ c.ptrBits) {ok : MortonIndex3D S → Prop} (h : StepsAcross3D c ok)
    (o : OctantOrdering) (x : MortonIndex3D S) (hx : ok x) (dx : depth x ≤ D) (a : Axis) (up : Bool) :
    ∃ r gx, neighbour3D c o a up x = .ok r ∧ Place3D c o x gx ∧ (r = none → AtEdge up (depth x) (gx a)) ∧
      ∀ q, r = some q → ok q ∧ depth q = depth x ∧ ∃ gq, Place3D c o q gq ∧ Beside a up gx gq := by
  obtain ⟨r, e, h1, -⟩ := h x hx o a up
  obtain ⟨g, g1, g2, g3⟩ := h1 (Nat.le_trans dx hD)
  refine ⟨r, fun b => (coord3 g b).toNat, e, ⟨g, g1, rfl, rfl, rfl⟩, g2.mp, fun q hq => ?_⟩
  obtain ⟨k1, k2, g', k3, k4, k5⟩ := g3 q hq
  exact ⟨k1, k2, fun b => (coord3 g' b).toNat, ⟨g', k3, rfl, rfl, rfl⟩, k4, fun b hb => congrArg BitVec.toNat (k5 b hb)⟩

/-! ## C129 -/

/-- C129 in 2D. -/
theorem C129_balance_2D (hc : c.Supported) (hD : D ≤ c.ptrBits) (o : QuadrantOrdering) :
    (∀ w, ChecksBalance c (fun m : MortonIndex2D (StaticStorage2D w) => Reach2D c .all (.static w m)) D (Place2D c o) (nextTo2D c o)
      sides2D) ∧
    (DynWrites c → ChecksBalance c (fun m : MortonIndex2D DynamicStorage2D => Reach2D c .all (.dynamic m)) D (Place2D c o)
      (nextTo2D c o) sides2D) :=
  ⟨fun w => checksBalance_of ((C125_locates_all_2D hc).1 w) (place_nested2 ((C67_subtree_is_box_2D hc).1 w) hD o)
      ((C121_touching_2D hc hD o).1 w) (place_lt2 hc hD (static_wf2 hc) o) (next_ok2 hD ((C128_carry_2D hc).2.1 w) o)
      (depth_le_of_inSubtree quadrantKey_inj (static_list2 hc) (static_anc2 hc) (static_cmp2 hc))
      (by rintro ⟨_ | _, _ | _⟩ <;> simp [sides2D]),
    fun hw => checksBalance_of (C125_locates_all_2D hc).2 (place_nested2 (C67_subtree_is_box_2D hc).2 hD o)
      (C121_touching_2D hc hD o).2 (place_lt2 hc hD (dynamic_wf2 hc) o) (next_ok2 hD ((C128_carry_2D hc).2.2 hw) o)
      (depth_le_of_inSubtree quadrantKey_inj (dynamic_list2' hc) (dynamic_anc2 hc) (dynamic_cmp2 hc))
      (by rintro ⟨_ | _, _ | _⟩ <;> simp [sides2D])⟩

/-- C129 in 3D. -/
theorem C129_balance_3D (hc : c.Supported) (hD : D ≤ c.ptrBits) (o : OctantOrdering) :
    (∀ w, ChecksBalance c (fun m : MortonIndex3D (StaticStorage3D w) => Reach3D c .all (.static w m)) D (Place3D c o) (neighbour3D c o)
      sides3D) ∧
    (DynWrites c → ChecksBalance c (fun m : MortonIndex3D DynamicStorage3D => Reach3D c .all (.dynamic m)) D (Place3D c o)
      (neighbour3D c o) sides3D) :=
  ⟨fun w => checksBalance_of ((C125_locates_all_3D hc).1 w) (place_nested3 ((C67_subtree_is_box_3D hc).1 w) hD o)
      ((C121_touching_3D hc hD o).1 w) (place_lt3 hc hD (static_wf3 hc) o) (next_ok3 hD ((C128_carry_3D hc).2.1 w) o)
      (depth_le_of_inSubtree octantKey_inj (static_list3 hc) (static_anc3 hc) (static_cmp3 hc))
      (by rintro ⟨_ | _ | _, _ | _⟩ <;> simp [sides3D]),
    fun hw => checksBalance_of (C125_locates_all_3D hc).2 (place_nested3 (C67_subtree_is_box_3D hc).2 hD o)
      (C121_touching_3D hc hD o).2 (place_lt3 hc hD (dynamic_wf3 hc) o) (next_ok3 hD ((C128_carry_3D hc).2.2 hw) o)
      (depth_le_of_inSubtree octantKey_inj (dynamic_list3' hc) (dynamic_anc3 hc) (dynamic_cmp3 hc))
      (by rintro ⟨_ | _ | _, _ | _⟩ <;> simp [sides3D])⟩

end kinds

/-! ## Examples -/

/-- `[Zero]`, `[One, Zero]`, `[Two]`: balanced. With `[One, Zero, Zero]` instead of `[One, Zero]`, which touches `[Zero]` too, it is not. -/
def exBalanced : List (MortonIndex2D (StaticStorage2D 16)) := [⟨⟨0#16, 1⟩⟩, ⟨⟨0x4000#16, 2⟩⟩, ⟨⟨0x8000#16, 1⟩⟩]
def exUnbalanced : List (MortonIndex2D (StaticStorage2D 16)) := [⟨⟨0#16, 1⟩⟩, ⟨⟨0x4000#16, 3⟩⟩, ⟨⟨0x8000#16, 1⟩⟩]

def exLe (a b : MortonIndex2D (StaticStorage2D 16)) : Bool := decide (RustOrd.le x64 a b = .ok true)
def exBelow (a b : MortonIndex2D (StaticStorage2D 16)) : Bool := decide (InSubtree x64 a b)

example : balanced (nextTo2D x64 .XY) exLe exBelow sides2D exBalanced = .ok true ∧
    balanced (nextTo2D x64 .XY) exLe exBelow sides2D exUnbalanced = .ok false := by decide +kernel

theorem exBalance_reach : (∀ m ∈ exBalanced, Reach2D x64 .all (.static 16 m) ∧ depth m ≤ 5) ∧
    ∀ m ∈ exUnbalanced, Reach2D x64 .all (.static 16 m) ∧ depth m ≤ 5 := by
  constructor <;> intro m hm <;> simp only [exBalanced, exUnbalanced, List.mem_cons, List.not_mem_nil, or_false] at hm <;>
    rcases hm with rfl | rfl | rfl
  · exact ⟨.staticTryFromSlice (cs := [.Zero]) (by decide) (by rfl), by decide⟩
  · exact ⟨.staticTryFromSlice (cs := [.One, .Zero]) (by decide) (by rfl), by decide⟩
  · exact ⟨.staticTryFromSlice (cs := [.Two]) (by decide) (by rfl), by decide⟩
  · exact ⟨.staticTryFromSlice (cs := [.Zero]) (by decide) (by rfl), by decide⟩
  · exact ⟨.staticTryFromSlice (cs := [.One, .Zero, .Zero]) (by decide) (by rfl), by decide⟩
  · exact ⟨.staticTryFromSlice (cs := [.Two]) (by decide) (by rfl), by decide⟩

example : Balanced 5 (Place2D x64 .XY) exBalanced ∧ ¬ Balanced 5 (Place2D x64 .XY) exUnbalanced := by
  have h := (C129_balance_2D x64_supported (D := 5) (by decide) .XY).1 16
  obtain ⟨b, e, hb⟩ := h exBalanced exLe exBelow exBalance_reach.1 (by unfold Sorted; decide +kernel) (by unfold Disjoint; decide +kernel)
    (fun a b _ _ => decide_eq_true_iff) (fun a b _ _ => decide_eq_true_iff)
  obtain ⟨b', e', hb'⟩ := h exUnbalanced exLe exBelow exBalance_reach.2 (by unfold Sorted; decide +kernel)
    (by unfold Disjoint; decide +kernel) (fun a b _ _ => decide_eq_true_iff) (fun a b _ _ => decide_eq_true_iff)
  have k : balanced (nextTo2D x64 .XY) exLe exBelow sides2D exBalanced = .ok true := by decide +kernel
  have k' : balanced (nextTo2D x64 .XY) exLe exBelow sides2D exUnbalanced = .ok false := by decide +kernel
  rw [k, Except.ok.injEq] at e
  rw [k', Except.ok.injEq] at e'
  exact ⟨hb.mp e.symm, fun hn => absurd (e'.trans (hb'.mpr hn)) (by decide)⟩

/-- The dynamic octants `[Zero]` and `[One, Zero, Zero]`. -/
def exUnbalanced3 : List (MortonIndex3D DynamicStorage3D) := [⟨⟨[0#8], 1⟩⟩, ⟨⟨[0#8, 0x20#8], 3⟩⟩]

example : ¬ Balanced 5 (Place3D x64 .XYZ) exUnbalanced3 := by
  obtain ⟨b, e, hb⟩ := (C129_balance_3D x64_supported (D := 5) (by decide) .XYZ).2 x64_writes exUnbalanced3
    (fun a b => decide (RustOrd.le x64 a b = .ok true)) (fun a b => decide (InSubtree x64 a b))
    (by
      intro m hm
      simp only [exUnbalanced3, List.mem_cons, List.not_mem_nil, or_false] at hm
      rcases hm with rfl | rfl
      · exact ⟨.dynamicTryFromSlice (cs := [.Zero]) (by unfold Addressable; decide) (by rfl), by decide⟩
      · exact ⟨.dynamicTryFromSlice (cs := [.One, .Zero, .Zero]) (by unfold Addressable; decide) (by rfl), by decide⟩)
    (by unfold Sorted; decide +kernel) (by unfold Disjoint; decide +kernel) (fun a b _ _ => decide_eq_true_iff)
    (fun a b _ _ => decide_eq_true_iff)
  have k : balanced (neighbour3D x64 .XYZ) (fun a b => decide (RustOrd.le x64 a b = .ok true)) (fun a b => decide (InSubtree x64 a b))
    sides3D exUnbalanced3 = .ok false := by decide +kernel
  rw [k, Except.ok.injEq] at e
  exact fun hn => absurd (e.trans (hb.mpr hn)) (by decide)

end MortonRs
