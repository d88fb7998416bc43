import Verif.Props.Balance
import Verif.Props.Adapt

/-! # Balancing a tree (C131)

A client makes a tree balanced (C129): as long as a leaf is too large for a leaf beside it, it is replaced by its children (C104). The
loop ends, and no balanced tree over the same places that refines the tree has larger leaves. -/

namespace MortonRs

open BitStorage MortonIndex VariableDepthMortonIndex

variable {M Cell A : Type} {c : Cfg}

/-! ## Statement -/

/-- Client code: the first answer of `f` on a list. -/
def firstOf {α β : Type} (f : α → Res (Option β)) : List α → Res (Option β)
  | [] => return none
  | a :: l => do
    match ← f a with
    | some b => return some b
    | none => firstOf f l

/-- Client code: if the leaf around the neighbour of `x` on a side is more than one level above `x`, the leaf and the leaves before
and behind it. -/
def coarseAt [MortonIndex M Cell] (next : A → Bool → M → Res (Option M)) (le below : M → M → Bool) (leaves : List M) (x : M)
    (side : A × Bool) : Res (Option (List M × M × List M)) := do
  match ← next side.1 side.2 x with
  | none => return none
  | some q =>
    match (leaves.takeWhile (le · q)).getLast?.filter (below · q) with
    | none => return none
    | some y =>
      if depth x ≤ depth y + 1 then return none
      else return some ((leaves.takeWhile (le · q)).dropLast, y, leaves.dropWhile (le · q))

/-- Client code: the first such leaf of the tree. -/
def findCoarse [MortonIndex M Cell] (next : A → Bool → M → Res (Option M)) (le below : M → M → Bool) (sides : List (A × Bool))
    (leaves : List M) : Res (Option (List M × M × List M)) :=
  firstOf (fun x => firstOf (coarseAt next le below leaves x) sides) leaves

/-- Client code: `m.child(v).unwrap()` for all cells. -/
def childrenOf [VariableDepthMortonIndex M Cell] (c : Cfg) (m : M) : List Cell → Res (List M)
  | [] => return []
  | v :: vs => do
    match ← child c m v with
    | none => .error .panic
    | some x => return x :: (← childrenOf c m vs)

/-- Client code: at most `n` rounds of the loop; `None` if it is not done then. -/
def balanceTree [VariableDepthMortonIndex M Cell] (c : Cfg) (next : A → Bool → M → Res (Option M)) (le below : M → M → Bool)
    (sides : List (A × Bool)) (order : List Cell) : Nat → List M → Res (Option (List M))
  | 0, _ => return none
  | n + 1, leaves => do
    match ← findCoarse next le below sides leaves with
    | none => return some leaves
    | some (before, y, after) => balanceTree c next le below sides order n (before ++ ((← childrenOf c y order) ++ after))

/-- A position of the grid with `2 ^ D` places per axis is in a box of the list. -/
def Fills [MortonIndex M Cell] (D : Nat) (place : M → (A → Nat) → Prop) (ms : List M) (pos : A → Nat) : Prop :=
  ∃ m ∈ ms, ∃ g, place m g ∧ Holds D (depth m) g pos

/-- Every node of the one list is in the subtree of a node of the other one. -/
def RefinesLeaves [VariableDepthMortonIndex M Cell] [RustOrd M] (c : Cfg) (ts ms : List M) : Prop := ∀ t ∈ ts, ∃ m ∈ ms, InSubtree c m t

/-- C131. The loop ends. The result is a sorted list of leaves that is balanced, refines the tree and covers the same positions; every
other list with these properties refines the result. -/
def BalancesTree [VariableDepthMortonIndex M Cell] [RustOrd M] (c : Cfg) (order : List Cell) (ok : M → Prop) (D : Nat)
    (place : M → (A → Nat) → Prop) (next : A → Bool → M → Res (Option M)) (sides : List (A × Bool)) : Prop :=
  ∀ (leaves : List M) (le below : M → M → Bool), (∀ m ∈ leaves, ok m ∧ depth m ≤ D) → Sorted c leaves → Disjoint c leaves →
    (∀ a b, ok a → ok b → (le a b = true ↔ RustOrd.le c a b = .ok true)) →
    (∀ a b, ok a → ok b → (below a b = true ↔ InSubtree c a b)) →
    ∃ n out, balanceTree c next le below sides order n leaves = .ok (some out) ∧ (∀ m ∈ out, ok m ∧ depth m ≤ D) ∧ Sorted c out ∧
      Disjoint c out ∧ Balanced D place out ∧ RefinesLeaves c out leaves ∧ (∀ pos, Fills D place out pos ↔ Fills D place leaves pos) ∧
      ∀ ts : List M, (∀ t ∈ ts, ok t ∧ depth t ≤ D) → Balanced D place ts → RefinesLeaves c ts leaves →
        (∀ pos, Fills D place ts pos ↔ Fills D place leaves pos) → RefinesLeaves c ts out

/-! ## Proof -/

theorem firstOf_ok {α β : Type} {f : α → Res (Option β)} (P : α → Prop) (Q : β → Prop) : ∀ {l : List α},
    (∀ a ∈ l, ∃ r, f a = .ok r ∧ (r = none → P a) ∧ ∀ b, r = some b → Q b) →
    ∃ r, firstOf f l = .ok r ∧ (r = none → ∀ a ∈ l, P a) ∧ ∀ b, r = some b → Q b
  | [], _ => ⟨none, rfl, by simp, by simp⟩
  | a :: l, h => by
    obtain ⟨r, e, h1, h2⟩ := h a (by simp)
    obtain ⟨r', e', h1', h2'⟩ := firstOf_ok P Q fun a ha => h a (List.mem_cons_of_mem _ ha)
    rw [firstOf, e, ok_bind]
    cases r with
    | none => exact ⟨r', e', fun k => List.forall_mem_cons.mpr ⟨h1 rfl, h1' k⟩, h2'⟩
    | some b => exact ⟨some b, rfl, fun k => (by cases k), h2⟩

/-- The look of C129 asks whether there is an answer. -/
theorem balancedAt_coarseAt [MortonIndex M Cell] {next : A → Bool → M → Res (Option M)} {le below : M → M → Bool} {leaves : List M}
    {x : M} {side : A × Bool} {b : Bool} (h : balancedAt next le below leaves x side = .ok b) :
    ∃ r, coarseAt next le below leaves x side = .ok r ∧ b = r.isNone := by
  unfold balancedAt at h
  unfold coarseAt
  cases hn : next side.1 side.2 x with
  | error e => rw [hn] at h; cases h
  | ok o =>
    rw [hn, ok_bind] at h
    rw [ok_bind]
    cases o with
    | none => cases h; exact ⟨none, rfl, rfl⟩
    | some q =>
      simp only [] at h ⊢
      cases hy : (leaves.takeWhile (le · q)).getLast?.filter (below · q) with
      | none => rw [hy] at h; cases h; exact ⟨none, rfl, rfl⟩
      | some y =>
        rw [hy] at h
        cases h
        by_cases hd : depth x ≤ depth y + 1
        · exact ⟨none, by simp only []; rw [if_pos hd]; rfl, by simp [hd]⟩
        · exact ⟨_, by simp only []; rw [if_neg hd]; rfl, by simp [hd]⟩

theorem coarseAt_some [MortonIndex M Cell] {next : A → Bool → M → Res (Option M)} {le below : M → M → Bool} {leaves : List M}
    {x : M} {side : A × Bool} {bf af : List M} {y : M} (h : coarseAt next le below leaves x side = .ok (some (bf, y, af))) :
    ∃ q, next side.1 side.2 x = .ok (some q) ∧ leaves = bf ++ y :: af ∧ below y q = true ∧ depth y + 1 < depth x := by
  unfold coarseAt at h
  cases hn : next side.1 side.2 x with
  | error e => rw [hn] at h; cases h
  | ok o =>
    rw [hn, ok_bind] at h
    cases o with
    | none => cases h
    | some q =>
      simp only [] at h
      cases hy : (leaves.takeWhile (le · q)).getLast?.filter (below · q) with
      | none => rw [hy] at h; cases h
      | some z =>
        rw [hy] at h
        simp only [] at h
        by_cases hd : depth x ≤ depth z + 1
        · rw [if_pos hd] at h; cases h
        · rw [if_neg hd] at h
          cases h
          obtain ⟨h1, h2⟩ := Option.filter_eq_some_iff.mp hy
          obtain ⟨l, e⟩ := List.getLast?_eq_some_iff.mp h1
          refine ⟨q, rfl, ?_, h2, by omega⟩
          have t := List.takeWhile_append_dropWhile (p := (le · q)) (l := leaves)
          rw [e] at t ⊢
          rw [List.dropLast_concat]
          rw [List.append_assoc] at t
          exact t.symm

theorem childrenOf_ok [VariableDepthMortonIndex M Cell] {m : M} {R : Cell → M → Prop} : ∀ {order : List Cell},
    (∀ v ∈ order, ∃ x, child c m v = .ok (some x) ∧ R v x) → ∃ xs, childrenOf c m order = .ok xs ∧ xs.length = order.length ∧
      (∀ i (_ : i < xs.length) (_ : i < order.length), child c m order[i] = .ok (some xs[i])) ∧
      (∀ x ∈ xs, ∃ v, R v x) ∧ ∀ v ∈ order, ∃ x ∈ xs, R v x
  | [], _ => ⟨[], rfl, rfl, by simp, by simp, by simp⟩
  | v :: vs, h => by
    obtain ⟨x, e, r⟩ := h v (by simp)
    obtain ⟨xs, e', h1, h2, h3, h4⟩ := childrenOf_ok fun v hv => h v (List.mem_cons_of_mem _ hv)
    refine ⟨x :: xs, by rw [childrenOf, e, ok_bind]; simp only []; rw [e', ok_bind]; rfl, by simp [h1], fun i hi hj => ?_,
      List.forall_mem_cons.mpr ⟨⟨v, r⟩, h3⟩,
      List.forall_mem_cons.mpr ⟨⟨x, by simp, r⟩, fun w hw => ?_⟩⟩
    · cases i with
      | zero => exact e
      | succ i => exact h2 i (by simpa using hi) (by simpa using hj)
    · obtain ⟨y, hy, ry⟩ := h4 w hw
      exact ⟨y, List.mem_cons_of_mem _ hy, ry⟩

section generic
variable {ok : M → Prop} {D : Nat} {place : M → (A → Nat) → Prop} {next : A → Bool → M → Res (Option M)}
  [VariableDepthMortonIndex M Cell] [RustOrd M]

/-- What is known of an index type. -/
structure Geometry (c : Cfg) (ok : M → Prop) (D : Nat) (place : M → (A → Nat) → Prop) (next : A → Bool → M → Res (Option M)) : Prop where
  locates : LocatesAll c ok
  nested : ∀ x y gx gy, ok x → ok y → depth x ≤ depth y → depth y ≤ D → place x gx → place y gy →
    (InSubtree c x y ↔ ∀ b, gy b / 2 ^ (depth y - depth x) = gx b)
  touching : FindsTouching c ok D place
  bound : ∀ y gy, ok y → depth y ≤ D → place y gy → ∀ b, gy b < 2 ^ depth y
  steps : ∀ x, ok x → depth x ≤ D → ∀ a up, ∃ r gx, next a up x = .ok r ∧ place x gx ∧ (r = none → AtEdge up (depth x) (gx a)) ∧
    ∀ q, r = some q → ok q ∧ depth q = depth x ∧ ∃ gq, place q gq ∧ Beside a up gx gq
  deeper : ∀ x y, ok x → ok y → InSubtree c x y → depth x ≤ depth y
  placed : ∀ x, ok x → depth x ≤ D → ∃ g, place x g

theorem Geometry.findCoarse_ok (G : Geometry c ok D place next) {sides : List (A × Bool)} (hsides : ∀ s, s ∈ sides) {leaves : List M}
    {le below : M → M → Bool} (hok : ∀ m ∈ leaves, ok m ∧ depth m ≤ D) (hs : Sorted c leaves) (hd : Disjoint c leaves)
    (hle : ∀ a b, ok a → ok b → (le a b = true ↔ RustOrd.le c a b = .ok true))
    (hbe : ∀ a b, ok a → ok b → (below a b = true ↔ InSubtree c a b)) :
    ∃ r, findCoarse next le below sides leaves = .ok r ∧ (r = none → Balanced D place leaves) ∧
      ∀ bf y af, r = some (bf, y, af) → leaves = bf ++ y :: af ∧ ∃ x ∈ leaves, depth y + 1 < depth x ∧
        ∃ gx gy a up, place x gx ∧ place y gy ∧ Touches D a up (depth x) gx (depth y) gy := by
  have look : ∀ x ∈ leaves, ∀ s ∈ sides, ∃ r, coarseAt next le below leaves x s = .ok r ∧
      (r = none → balancedAt next le below leaves x s = .ok true) ∧
      ∀ t : List M × M × List M, r = some t → leaves = t.1 ++ t.2.1 :: t.2.2 ∧ ∃ x ∈ leaves, depth t.2.1 + 1 < depth x ∧
        ∃ gx gy a up, place x gx ∧ place t.2.1 gy ∧ Touches D a up (depth x) gx (depth t.2.1) gy := by
    intro x hx s _
    obtain ⟨b, e, hb⟩ := balancedAt_ok G.locates G.nested G.touching G.bound G.steps G.deeper hok hs hd hle hbe hx s
    obtain ⟨r, er, hr⟩ := balancedAt_coarseAt e
    refine ⟨r, er, fun h => by rw [e, hr, h]; rfl, ?_⟩
    rintro ⟨bf, y, af⟩ h
    subst h
    obtain ⟨q, e1, e2, e3, e4⟩ := coarseAt_some er
    have hy : y ∈ leaves := by rw [e2]; simp
    obtain ⟨r, gx, n1, n2, -, n4⟩ := G.steps x (hok x hx).1 (hok x hx).2 s.1 s.2
    rw [e1, Except.ok.injEq] at n1
    subst n1
    obtain ⟨oq, dq, gq, pq, bq⟩ := n4 q rfl
    obtain ⟨gy, py⟩ := G.placed y (hok y hy).1 (hok y hy).2
    refine ⟨e2, x, hx, e4, gx, gy, s.1, s.2, n2, py, ?_⟩
    exact ((G.touching x q gx gq s.1 s.2 (hok x hx).1 oq (hok x hx).2 dq n2 pq bq).1 y gy (hok y hy).1 (hok y hy).2 py).mpr
      (.inl ((hbe y q (hok y hy).1 oq).mp e3))
  obtain ⟨r, e, h1, h2⟩ := firstOf_ok (f := fun x => firstOf (coarseAt next le below leaves x) sides) (l := leaves)
    (fun x => ∀ s ∈ sides, balancedAt next le below leaves x s = .ok true) _ fun x hx => firstOf_ok _ _ (look x hx)
  refine ⟨r, e, fun hr => ?_, fun bf y af hr => h2 _ hr⟩
  obtain ⟨b, eb, hb⟩ := checksBalance_of G.locates G.nested G.touching G.bound G.steps G.deeper hsides leaves le below hok hs hd hle hbe
  refine hb.mp ?_
  obtain ⟨b', eb', hb'⟩ := allOf_ok (f := fun x => allOf (balancedAt next le below leaves x) sides) (l := leaves) (fun _ => True)
    fun x hx => by
      obtain ⟨b, e, hb⟩ := allOf_ok (f := balancedAt next le below leaves x) (l := sides) (fun _ => True)
        fun s hs' => ⟨true, h1 hr x hx s hs', by simp⟩
      exact ⟨b, e, by simp [hb]⟩
  rw [show balanced next le below sides leaves = .ok b' from eb', Except.ok.injEq] at eb
  rw [← eb]
  exact hb'.mpr fun _ _ => trivial

/-- Two nodes of a list of leaves that hold the same position are the same. -/
theorem Geometry.same_leaf (G : Geometry c ok D place next) {leaves : List M} (hok : ∀ m ∈ leaves, ok m ∧ depth m ≤ D)
    (hd : Disjoint c leaves) {x z : M} (hx : x ∈ leaves) (hz : z ∈ leaves) {gx gz pos : A → Nat} (px : place x gx) (pz : place z gz)
    (h1 : Holds D (depth x) gx pos) (h2 : Holds D (depth z) gz pos) : x = z := by
  rcases pairwise_mem (fun _ _ h => h.symm) hd hx hz with e | ⟨n1, n2⟩
  · exact e
  · exfalso
    obtain ⟨ox, dx⟩ := hok x hx
    obtain ⟨oz, dz⟩ := hok z hz
    rcases Nat.le_total (depth x) (depth z) with hl | hl
    · exact n1 ((G.nested x z gx gz ox oz hl dz px pz).mpr ((Holds.coarser h2 hl dz).mp h1))
    · exact n2 ((G.nested z x gz gx oz ox hl dx pz px).mpr ((Holds.coarser h1 hl dx).mp h2))

/-- What is below a node holds only positions of the node. -/
theorem Geometry.holds_above (G : Geometry c ok D place next) {x t : M} (hx : ok x) (ht : ok t) (dt : depth t ≤ D) {gx gt pos : A → Nat}
    (px : place x gx) (pt : place t gt) (hi : InSubtree c x t) (h : Holds D (depth t) gt pos) : Holds D (depth x) gx pos :=
  (Holds.coarser h (G.deeper x t hx ht hi) dt).mpr ((G.nested x t gx gt hx ht (G.deeper x t hx ht hi) dt px pt).mp hi)

/-- A balanced tree that refines the list also refines it after a split. -/
theorem Geometry.must_split (G : Geometry c ok D place next) {leaves ts : List M} (hok : ∀ m ∈ leaves, ok m ∧ depth m ≤ D)
    (hd : Disjoint c leaves) {x y : M} (hx : x ∈ leaves) (hy : y ∈ leaves) (hxy : depth y + 1 < depth x) {gx gy : A → Nat} {a : A}
    {up : Bool} (px : place x gx) (py : place y gy) (hT : Touches D a up (depth x) gx (depth y) gy)
    (htok : ∀ t ∈ ts, ok t ∧ depth t ≤ D) (htb : Balanced D place ts) (htr : RefinesLeaves c ts leaves)
    (htf : ∀ pos, Fills D place leaves pos → Fills D place ts pos) {t : M} (ht : t ∈ ts) (hyt : InSubtree c y t) :
    depth y < depth t := by
  obtain ⟨oy, dy⟩ := hok y hy
  obtain ⟨ox, dx⟩ := hok x hx
  obtain ⟨ot, dt⟩ := htok t ht
  have hle := G.deeper y t oy ot hyt
  rcases Nat.lt_or_eq_of_le hle with h | h
  · exact h
  · exfalso
    obtain ⟨gt, pt⟩ := G.placed t ot dt
    have eg : gt = gy := funext fun b => by
      have := (G.nested y t gy gt oy ot hle dt py pt).mp hyt b
      rw [h, Nat.sub_self, Nat.pow_zero, Nat.div_one] at this
      exact this
    obtain ⟨p, q, t1, t2, t3, t4⟩ := hT
    obtain ⟨t', ht', gt', pt', hp'⟩ := htf p ⟨x, hx, gx, px, t1⟩
    obtain ⟨ot', dt'⟩ := htok t' ht'
    obtain ⟨z, hz, hzt⟩ := htr t' ht'
    obtain ⟨oz, dz⟩ := hok z hz
    obtain ⟨gz, pz⟩ := G.placed z oz dz
    have e : x = z := G.same_leaf hok hd hx hz px pz t1 (G.holds_above oz ot' dt' pz pt' hzt hp')
    subst e
    have hdeep := G.deeper x t' ox ot' hzt
    have := (htb t' ht' t ht gt' gt pt' pt a up ⟨p, q, hp', fun hq => t2 (G.holds_above ox ot' dt' px pt' hzt hq), by
      rw [← h, eg]; exact t3, t4⟩).1
    omega

/-- The number that gets smaller. -/
def weight (D K : Nat) (ms : List M) : Nat := (ms.map fun m => (K + 1) ^ (D - depth m)).sum

/-- What is known of children and subtrees. -/
structure Splitting (c : Cfg) (order : List Cell) (ok : M → Prop) (D : Nat) (place : M → (A → Nat) → Prop) : Prop where
  split : ∀ y x, ok y → ok x → depth x ≤ D → depth y < depth x → ∃ xs, childrenOf c y order = .ok xs ∧ xs.length = order.length ∧
    (∀ x ∈ xs, ok x ∧ depth x = depth y + 1 ∧ InSubtree c y x) ∧ Siblings c order.length y xs ∧
    ∀ gy pos, place y gy → Holds D (depth y) gy pos → ∃ x ∈ xs, ∃ g, place x g ∧ Holds D (depth x) g pos
  replace : SiblingsReplaceParent c order ok
  equal : ∀ x y, ok x → ok y → RustOrd.cmp c x y = .ok .eq → depth x = depth y ∧ InSubtree c y x
  trans : ∀ x y z, ok x → ok y → ok z → InSubtree c x y → InSubtree c y z → InSubtree c x z
  refl : ∀ x, ok x → InSubtree c x x

/-- One split. -/
theorem Geometry.split_step (G : Geometry c ok D place next) {order : List Cell} (S : Splitting c order ok D place) {bf af : List M}
    {x y : M} (hok : ∀ m ∈ bf ++ y :: af, ok m ∧ depth m ≤ D) (hs : Sorted c (bf ++ y :: af)) (hd : Disjoint c (bf ++ y :: af))
    (hx : x ∈ bf ++ y :: af) (hxy : depth y + 1 < depth x) {gx gy : A → Nat} {a : A} {up : Bool} (px : place x gx) (py : place y gy)
    (hT : Touches D a up (depth x) gx (depth y) gy) : ∃ xs, childrenOf c y order = .ok xs ∧
      (∀ m ∈ bf ++ (xs ++ af), ok m ∧ depth m ≤ D) ∧ Sorted c (bf ++ (xs ++ af)) ∧ Disjoint c (bf ++ (xs ++ af)) ∧
      weight D order.length (bf ++ (xs ++ af)) < weight D order.length (bf ++ y :: af) ∧
      RefinesLeaves c (bf ++ (xs ++ af)) (bf ++ y :: af) ∧
      (∀ pos, Fills D place (bf ++ (xs ++ af)) pos ↔ Fills D place (bf ++ y :: af) pos) ∧
      ∀ ts : List M, (∀ t ∈ ts, ok t ∧ depth t ≤ D) → Balanced D place ts → RefinesLeaves c ts (bf ++ y :: af) →
        (∀ pos, Fills D place ts pos ↔ Fills D place (bf ++ y :: af) pos) → RefinesLeaves c ts (bf ++ (xs ++ af)) := by
  have hy : y ∈ bf ++ y :: af := by simp
  obtain ⟨oy, dy⟩ := hok y hy
  obtain ⟨ox, dx⟩ := hok x hx
  obtain ⟨xs, c1, c2, c3, c4, c5⟩ := S.split y x oy ox dx (by omega)
  have obf : ∀ m ∈ bf, ok m ∧ depth m ≤ D := fun m hm => hok m (by simp [hm])
  have oaf : ∀ m ∈ af, ok m ∧ depth m ≤ D := fun m hm => hok m (by simp [hm])
  obtain ⟨rep, cov⟩ := (S.replace y oy xs (fun x hx => (c3 x hx).1) c4).2 bf af (fun m hm => (obf m hm).1) (fun m hm => (oaf m hm).1)
  obtain ⟨hs', hd'⟩ := rep.mpr ⟨hs, hd⟩
  have hok' : ∀ m ∈ bf ++ (xs ++ af), ok m ∧ depth m ≤ D := fun m hm => by
    rcases List.mem_append.mp hm with hm | hm
    · exact obf m hm
    · rcases List.mem_append.mp hm with hm | hm
      · exact ⟨(c3 m hm).1, by rw [(c3 m hm).2.1]; omega⟩
      · exact oaf m hm
  have hlt : weight D order.length (bf ++ (xs ++ af)) < weight D order.length (bf ++ y :: af) := by
    unfold weight
    simp only [List.map_append, List.map_cons, List.sum_append, List.sum_cons]
    have ex : (xs.map fun m => (order.length + 1) ^ (D - depth m)).sum = order.length * (order.length + 1) ^ (D - (depth y + 1)) := by
      rw [← c2]
      have : ∀ l : List M, (∀ m ∈ l, depth m = depth y + 1) →
          (l.map fun m => (xs.length + 1) ^ (D - depth m)).sum = l.length * (xs.length + 1) ^ (D - (depth y + 1)) := by
        intro l
        induction l with
        | nil => intro _; simp
        | cons m l ihl =>
          intro hl
          rw [List.map_cons, List.sum_cons, ihl fun m hm => hl m (List.mem_cons_of_mem _ hm), hl m (by simp), List.length_cons,
            Nat.succ_mul, Nat.add_comm]
      exact this xs fun m hm => (c3 m hm).2.1
    rw [ex]
    have ep : (order.length + 1) ^ (D - depth y) = (order.length + 1) ^ (D - (depth y + 1)) * (order.length + 1) := by
      rw [← Nat.pow_succ, show (D - (depth y + 1)).succ = D - depth y by omega]
    have hpos : 0 < (order.length + 1) ^ (D - (depth y + 1)) := Nat.pow_pos (by omega)
    rw [ep, Nat.mul_succ, Nat.mul_comm order.length]
    omega
  have href : RefinesLeaves c (bf ++ (xs ++ af)) (bf ++ y :: af) := fun t ht => by
    rcases List.mem_append.mp ht with ht | ht
    · exact ⟨t, by simp [ht], S.refl t (obf t ht).1⟩
    · rcases List.mem_append.mp ht with ht | ht
      · exact ⟨y, hy, (c3 t ht).2.2⟩
      · exact ⟨t, by simp [ht], S.refl t (oaf t ht).1⟩
  refine ⟨xs, c1, hok', hs', hd', hlt, href, fun pos => ⟨?_, ?_⟩, fun ts t1 t2 t3 t4 t ht => ?_⟩
  · rintro ⟨m, hm, g, pm, hh⟩
    obtain ⟨m', hm', hi⟩ := href m hm
    obtain ⟨g', pm'⟩ := G.placed m' (hok m' hm').1 (hok m' hm').2
    exact ⟨m', hm', g', pm', G.holds_above (hok m' hm').1 (hok' m hm).1 (hok' m hm).2 pm' pm hi hh⟩
  · rintro ⟨m, hm, g, pm, hh⟩
    rcases List.mem_append.mp hm with hm | hm
    · exact ⟨m, by simp [hm], g, pm, hh⟩
    · rcases List.mem_cons.mp hm with rfl | hm
      · obtain ⟨x', hx', g', pg', hh'⟩ := c5 g pos pm hh
        exact ⟨x', by simp [hx'], g', pg', hh'⟩
      · exact ⟨m, by simp [hm], g, pm, hh⟩
  · rcases (cov t (t1 t ht).1).mp (t3 t ht) with k | k
    · exact k
    · exfalso
      obtain ⟨hdt, key⟩ := S.equal t y (t1 t ht).1 oy k
      have := G.must_split hok hd hx hy hxy px py hT t1 t2 t3 (fun pos => (t4 pos).mpr) ht key
      omega

theorem Geometry.balances (G : Geometry c ok D place next) {order : List Cell} {sides : List (A × Bool)} (hsides : ∀ s, s ∈ sides)
    (S : Splitting c order ok D place) : BalancesTree c order ok D place next sides := by
  intro leaves le below hok hs hd hle hbe
  generalize hw : weight D order.length leaves = w
  induction w using Nat.strongRecOn generalizing leaves with
  | ind w ih =>
    obtain ⟨r, e, h1, h2⟩ := G.findCoarse_ok hsides hok hs hd hle hbe
    cases r with
    | none =>
      refine ⟨1, leaves, by rw [balanceTree, e, ok_bind]; rfl, hok, hs, hd, h1 rfl, fun t ht => ⟨t, ht, S.refl t (hok t ht).1⟩,
        fun _ => Iff.rfl, fun ts _ _ h _ => h⟩
    | some t =>
      obtain ⟨bf, y, af⟩ := t
      obtain ⟨el, x, hx, hxy, gx, gy, a, up, px, py, hT⟩ := h2 bf y af rfl
      subst el
      obtain ⟨xs, c1, hok', hs', hd', hlt, href, hfill, hmin⟩ := G.split_step S hok hs hd hx hxy px py hT
      obtain ⟨n, out, o1, o2, o3, o4, o5, o6, o7, o8⟩ := ih _ (hw ▸ hlt) _ hok' hs' hd' rfl
      refine ⟨n + 1, out, by rw [balanceTree, e, ok_bind]; simp only []; rw [c1, ok_bind]; exact o1, o2, o3, o4, o5, fun t ht => ?_,
        fun pos => (o7 pos).trans (hfill pos),
        fun ts t1 t2 t3 t4 => o8 ts t1 t2 (hmin ts t1 t2 t3 t4) fun pos => (t4 pos).trans (hfill pos).symm⟩
      obtain ⟨m, hm, hi⟩ := o6 t ht
      obtain ⟨m', hm', hi'⟩ := href m hm
      exact ⟨m', hm', S.trans m' m t (hok m' hm').1 (hok' m hm).1 (o2 t ht).1 hi' hi⟩

end generic

section like
variable {ok : M → Prop} {D : Nat} {place : M → (A → Nat) → Prop} {next : A → Bool → M → Res (Option M)}
  [VariableDepthMortonIndex M Cell] [RustOrd M] {key : Cell → Nat} {p : M → List Cell} {wr : Cell → Cell} {order : List Cell}

theorem splitting_of [Inhabited Cell] (hk : Function.Injective key) (h : ListLike c ok p wr) (hA : AncLike c ok p)
    (hC : CmpLike c key ok p) {room : M → Nat → Prop} {limit : Option Nat} (hDe : DescLike c ok p room limit)
    (hord : order.map key = List.range order.length) (hall : ∀ v : Cell, v ∈ order)
    (hroom : ∀ y x, ok y → ok x → depth x ≤ D → depth y < depth x → room y 1 ∧ ¬ Exceeds limit (depth y + 1))
    (coord : A → Cell → Bool) (hcell : ∀ bits : A → Bool, ∃ v, ∀ b, coord b v = bits b)
    (hplace : ∀ m, ok m → depth m ≤ D → ∀ g, place m g ↔ ∀ b, g b = binary ((p m).map (coord b))) :
    Splitting c order ok D place := by
  refine ⟨?_, siblingsReplace_of hk h hA hC hord hall, ?_, ?_, ?_⟩
  · intro y x hy hx dx hlt
    obtain ⟨hr, he⟩ := hroom y x hy hx dx hlt
    rw [h.depth_eq y hy] at he
    obtain ⟨xs, c1, c2, c3, c4, c5⟩ := childrenOf_ok (c := c) (m := y) (order := order) (R := fun v x => ok x ∧ p x = p y ++ [v])
      fun v _ => by
        obtain ⟨a, a1, a2, a3⟩ := hDe.yes y hy [v] hr he
        exact ⟨a, a1, a2, a3⟩
    obtain ⟨-, hsib⟩ := childrenAreSiblings_of hk hA hC hDe hord (room' := fun m => room m 1) (fun _ _ h => h) y hy hr xs c2 c3
    have hx' : ∀ x ∈ xs, ok x ∧ depth x = depth y + 1 ∧ InSubtree c y x := fun x hx => by
      obtain ⟨v, k1, k2⟩ := c4 x hx
      refine ⟨k1, by rw [h.depth_eq x k1, h.depth_eq y hy, k2]; simp, (inSubtree_iff hk h hA hC hy k1).mpr ?_⟩
      rw [k2]
      exact List.prefix_append _ _
    refine ⟨xs, c1, c2, hx', hsib, fun gy pos py hh => ?_⟩
    obtain ⟨v, hv⟩ := hcell fun b => decide (pos b / 2 ^ (D - (depth y + 1)) % 2 = 1)
    obtain ⟨z, hz, oz, ez⟩ := c5 v (hall v)
    have dz := (hx' z hz).2.1
    refine ⟨z, hz, _, (hplace z oz (by omega) _).mpr fun _ => rfl, fun b => ?_⟩
    have hb := hh b
    rw [(hplace y hy (by omega) gy).mp py b, show D - depth y = D - (depth y + 1) + 1 by omega, Nat.pow_succ,
      ← Nat.div_div_eq_div_mul] at hb
    rw [dz, ez, List.map_append, List.map_singleton, binary_append, hv b, ← hb]
    by_cases h1 : pos b / 2 ^ (D - (depth y + 1)) % 2 = 1
    · rw [decide_eq_true h1]; simp only [Bool.toNat_true]; omega
    · rw [decide_eq_false h1]; simp only [Bool.toNat_false]; omega
  · intro x y hx hy he
    rw [(hC x y hx hy).1, Except.ok.injEq, pathCmp_eq_iff key hk] at he
    exact ⟨by rw [h.depth_eq x hx, h.depth_eq y hy, he], (inSubtree_iff hk h hA hC hy hx).mpr (he ▸ List.prefix_refl _)⟩
  · intro x y z hx hy hz h1 h2
    exact (inSubtree_iff hk h hA hC hx hz).mpr
      (((inSubtree_iff hk h hA hC hx hy).mp h1).trans ((inSubtree_iff hk h hA hC hy hz).mp h2))
  · intro x hx
    exact (inSubtree_iff hk h hA hC hx hx).mpr (List.prefix_refl _)

theorem geometry_of (hk : Function.Injective key) (h : ListLike c ok p wr) (hA : AncLike c ok p) (hC : CmpLike c key ok p)
    (coord : A → Cell → Bool) (hplace : ∀ m, ok m → depth m ≤ D → ∀ g, place m g ↔ ∀ b, g b = binary ((p m).map (coord b)))
    (hLoc : LocatesAll c ok)
    (hP : ∀ x y gx gy, ok x → ok y → depth x ≤ depth y → depth y ≤ D → place x gx → place y gy →
      (InSubtree c x y ↔ ∀ b, gy b / 2 ^ (depth y - depth x) = gx b))
    (hT : FindsTouching c ok D place) (hB : ∀ y gy, ok y → depth y ≤ D → place y gy → ∀ b, gy b < 2 ^ depth y)
    (hN : ∀ x, ok x → depth x ≤ D → ∀ a up, ∃ r gx, next a up x = .ok r ∧ place x gx ∧ (r = none → AtEdge up (depth x) (gx a)) ∧
      ∀ q, r = some q → ok q ∧ depth q = depth x ∧ ∃ gq, place q gq ∧ Beside a up gx gq) : Geometry c ok D place next :=
  ⟨hLoc, hP, hT, hB, hN, depth_le_of_inSubtree hk h hA hC, fun x hx hd => ⟨_, (hplace x hx hd _).mpr fun _ => rfl⟩⟩

end like

section kinds
variable {D : Nat}

def coordOf2 (o : QuadrantOrdering) : Axis2 → Quadrant → Bool
  | .X => quadrantX o
  | .Y => quadrantY o

def coordOf3 (o : OctantOrdering) : Axis → Octant → Bool
  | .X => octantX o
  | .Y => octantY o
  | .Z => octantZ o

theorem cell_of_bits2 (o : QuadrantOrdering) (bits : Axis2 → Bool) : ∃ v, ∀ b, coordOf2 o b v = bits b := by
  obtain ⟨q, h0, h1⟩ := exists_quadrant o (bits .X) (bits .Y)
  exact ⟨q, fun b => by cases b <;> assumption⟩

theorem cell_of_bits3 (o : OctantOrdering) (bits : Axis → Bool) : ∃ v, ∀ b, coordOf3 o b v = bits b := by
  obtain ⟨q, h0, h1, h2⟩ := exists_octant o (bits .X) (bits .Y) (bits .Z)
  exact ⟨q, fun b => by cases b <;> assumption⟩

theorem place_iff2 {S : Type} [Storage S Quadrant] [BitStorage S Quadrant] (hc : c.Supported) (hD : D ≤ c.ptrBits)
    {ok : MortonIndex2D S → Prop} (hwf : ∀ m, ok m → WF c m.storage) (o : QuadrantOrdering) (m : MortonIndex2D S) (hm : ok m)
    (hd : depth m ≤ D) (g : Axis2 → Nat) : Place2D c o m g ↔ ∀ b, g b = binary ((cells2 m).map (coordOf2 o b)) := by
  obtain ⟨v, e1, e2, e3⟩ := toGridIndex_binary2 hc (hwf m hm) (Nat.le_trans hd hD) o
  constructor
  · rintro ⟨v', e, h1, h2⟩ b
    rw [e1, Except.ok.injEq] at e
    subst e
    cases b
    · exact h1.trans e2
    · exact h2.trans e3
  · intro h
    exact ⟨v, e1, (h .X).trans e2.symm, (h .Y).trans e3.symm⟩

theorem place_iff3 {S : Type} [Storage S Octant] [BitStorage S Octant] (hc : c.Supported) (hD : D ≤ c.ptrBits)
    {ok : MortonIndex3D S → Prop} (hwf : ∀ m, ok m → WF c m.storage) (o : OctantOrdering) (m : MortonIndex3D S) (hm : ok m)
    (hd : depth m ≤ D) (g : Axis → Nat) : Place3D c o m g ↔ ∀ b, g b = binary ((cells3 m).map (coordOf3 o b)) := by
  obtain ⟨v, e1, e2, e3, e4⟩ := toGridIndex_binary3 hc (hwf m hm) (Nat.le_trans hd hD) o
  constructor
  · rintro ⟨v', e, h1, h2, h3⟩ b
    rw [e1, Except.ok.injEq] at e
    subst e
    cases b
    · exact h1.trans e2
    · exact h2.trans e3
    · exact h3.trans e4
  · intro h
    exact ⟨v, e1, (h .X).trans e2.symm, (h .Y).trans e3.symm, (h .Z).trans e4.symm⟩

/-- The address space has room for the cells of a grid index. -/
theorem addressable_of_le (hc : c.Supported) {n : Nat} (h : n ≤ c.ptrBits * 3) : Addressable c n := by
  unfold Addressable
  rcases hc with e | e | e <;> rw [e] at h ⊢ <;> omega

theorem static_geometry2 (hc : c.Supported) (hD : D ≤ c.ptrBits) (o : QuadrantOrdering) (w : Nat) :
    Geometry c (fun m : MortonIndex2D (StaticStorage2D w) => Reach2D c .all (.static w m)) D (Place2D c o) (nextTo2D c o) :=
  geometry_of quadrantKey_inj (static_list2 hc) (static_anc2 hc) (static_cmp2 hc) (coordOf2 o)
    (place_iff2 hc hD (static_wf2 hc) o) ((C125_locates_all_2D hc).1 w) (place_nested2 ((C67_subtree_is_box_2D hc).1 w) hD o)
    ((C121_touching_2D hc hD o).1 w) (place_lt2 hc hD (static_wf2 hc) o) (next_ok2 hD ((C128_carry_2D hc).2.1 w) o)

theorem static_splitting2 (hc : c.Supported) (hD : D ≤ c.ptrBits) (o : QuadrantOrdering) (w : Nat) :
    Splitting c [Quadrant.Zero, .One, .Two, .Three]
      (fun m : MortonIndex2D (StaticStorage2D w) => Reach2D c .all (.static w m)) D (Place2D c o) :=
  have : Inhabited Quadrant := ⟨.Zero⟩
  splitting_of quadrantKey_inj (static_list2 hc) (static_anc2 hc) (static_cmp2 hc) (static_desc2 hc) (by decide)
    (fun v => by cases v <;> decide)
    (fun y x hy hx _ hlt => ⟨one_lt_isize hc (x := Quadrant.Zero), Nat.not_lt.mpr (Nat.le_trans hlt
      (Nat.le_trans (Nat.le_of_eq ((static_list2 hc).depth_eq x hx)) (static_depth_le2 hc x hx)))⟩)
    (coordOf2 o) (cell_of_bits2 o) (place_iff2 hc hD (static_wf2 hc) o)

theorem dynamic_geometry2 (hc : c.Supported) (hw : DynWrites c) (hD : D ≤ c.ptrBits) (o : QuadrantOrdering) :
    Geometry c (fun m : MortonIndex2D DynamicStorage2D => Reach2D c .all (.dynamic m)) D (Place2D c o) (nextTo2D c o) :=
  geometry_of quadrantKey_inj (dynamic_list2' hc) (dynamic_anc2 hc) (dynamic_cmp2 hc) (coordOf2 o)
    (place_iff2 hc hD (dynamic_wf2 hc) o) (C125_locates_all_2D hc).2 (place_nested2 (C67_subtree_is_box_2D hc).2 hD o)
    (C121_touching_2D hc hD o).2 (place_lt2 hc hD (dynamic_wf2 hc) o) (next_ok2 hD ((C128_carry_2D hc).2.2 hw) o)

theorem dynamic_splitting2 (hc : c.Supported) (hw : DynWrites c) (hD : D ≤ c.ptrBits) (o : QuadrantOrdering) :
    Splitting c [Quadrant.Zero, .One, .Two, .Three]
      (fun m : MortonIndex2D DynamicStorage2D => Reach2D c .all (.dynamic m)) D (Place2D c o) :=
  have : Inhabited Quadrant := ⟨.Zero⟩
  splitting_of quadrantKey_inj (dynamic_list2' hc) (dynamic_anc2 hc) (dynamic_cmp2 hc) (dynamic_desc2 hc hw) (by decide)
    (fun v => by cases v <;> decide)
    (fun y x hy hx hd hlt => ⟨addressable_of_le hc (by
      have : Storage.depth y.storage < D := Nat.lt_of_lt_of_le hlt hd
      omega), id⟩)
    (coordOf2 o) (cell_of_bits2 o) (place_iff2 hc hD (dynamic_wf2 hc) o)

theorem static_geometry3 (hc : c.Supported) (hD : D ≤ c.ptrBits) (o : OctantOrdering) (w : Nat) :
    Geometry c (fun m : MortonIndex3D (StaticStorage3D w) => Reach3D c .all (.static w m)) D (Place3D c o) (neighbour3D c o) :=
  geometry_of octantKey_inj (static_list3 hc) (static_anc3 hc) (static_cmp3 hc) (coordOf3 o)
    (place_iff3 hc hD (static_wf3 hc) o) ((C125_locates_all_3D hc).1 w) (place_nested3 ((C67_subtree_is_box_3D hc).1 w) hD o)
    ((C121_touching_3D hc hD o).1 w) (place_lt3 hc hD (static_wf3 hc) o) (next_ok3 hD ((C128_carry_3D hc).2.1 w) o)

theorem static_splitting3 (hc : c.Supported) (hD : D ≤ c.ptrBits) (o : OctantOrdering) (w : Nat) :
    Splitting c [Octant.Zero, .One, .Two, .Three, .Four, .Five, .Six, .Seven]
      (fun m : MortonIndex3D (StaticStorage3D w) => Reach3D c .all (.static w m)) D (Place3D c o) :=
  have : Inhabited Octant := ⟨.Zero⟩
  splitting_of octantKey_inj (static_list3 hc) (static_anc3 hc) (static_cmp3 hc) (static_desc3 hc) (by decide)
    (fun v => by cases v <;> decide)
    (fun y x hy hx _ hlt => ⟨one_lt_isize hc (x := Octant.Zero), Nat.not_lt.mpr (Nat.le_trans hlt
      (Nat.le_trans (Nat.le_of_eq ((static_list3 hc).depth_eq x hx)) (static_depth_le3 hc x hx)))⟩)
    (coordOf3 o) (cell_of_bits3 o) (place_iff3 hc hD (static_wf3 hc) o)

theorem dynamic_geometry3 (hc : c.Supported) (hw : DynWrites c) (hD : D ≤ c.ptrBits) (o : OctantOrdering) :
    Geometry c (fun m : MortonIndex3D DynamicStorage3D => Reach3D c .all (.dynamic m)) D (Place3D c o) (neighbour3D c o) :=
  geometry_of octantKey_inj (dynamic_list3' hc) (dynamic_anc3 hc) (dynamic_cmp3 hc) (coordOf3 o)
    (place_iff3 hc hD (dynamic_wf3 hc) o) (C125_locates_all_3D hc).2 (place_nested3 (C67_subtree_is_box_3D hc).2 hD o)
    (C121_touching_3D hc hD o).2 (place_lt3 hc hD (dynamic_wf3 hc) o) (next_ok3 hD ((C128_carry_3D hc).2.2 hw) o)

theorem dynamic_splitting3 (hc : c.Supported) (hw : DynWrites c) (hD : D ≤ c.ptrBits) (o : OctantOrdering) :
    Splitting c [Octant.Zero, .One, .Two, .Three, .Four, .Five, .Six, .Seven]
      (fun m : MortonIndex3D DynamicStorage3D => Reach3D c .all (.dynamic m)) D (Place3D c o) :=
  have : Inhabited Octant := ⟨.Zero⟩
  splitting_of octantKey_inj (dynamic_list3' hc) (dynamic_anc3 hc) (dynamic_cmp3 hc) (dynamic_desc3 hc hw) (by decide)
    (fun v => by cases v <;> decide)
    (fun y x hy hx hd hlt => ⟨addressable_of_le hc (by
      have : Storage.depth y.storage < D := Nat.lt_of_lt_of_le hlt hd
      omega), id⟩)
    (coordOf3 o) (cell_of_bits3 o) (place_iff3 hc hD (dynamic_wf3 hc) o)

/-! ## C131 -/

theorem mem_sides2D (s : Axis2 × Bool) : s ∈ sides2D := by rcases s with ⟨_ | _, _ | _⟩ <;> simp [sides2D]

theorem mem_sides3D (s : Axis × Bool) : s ∈ sides3D := by rcases s with ⟨_ | _ | _, _ | _⟩ <;> simp [sides3D]

/-- C131 in 2D, with the sides in any order. -/
theorem C131_balancing_2D (hc : c.Supported) (hD : D ≤ c.ptrBits) (o : QuadrantOrdering) {sides : List (Axis2 × Bool)}
    (hsides : ∀ s, s ∈ sides) :
    (∀ w, BalancesTree c [Quadrant.Zero, .One, .Two, .Three]
      (fun m : MortonIndex2D (StaticStorage2D w) => Reach2D c .all (.static w m)) D (Place2D c o) (nextTo2D c o) sides) ∧
    (DynWrites c → BalancesTree c [Quadrant.Zero, .One, .Two, .Three]
      (fun m : MortonIndex2D DynamicStorage2D => Reach2D c .all (.dynamic m)) D (Place2D c o) (nextTo2D c o) sides) :=
  ⟨fun w => (static_geometry2 hc hD o w).balances hsides (static_splitting2 hc hD o w),
    fun hw => (dynamic_geometry2 hc hw hD o).balances hsides (dynamic_splitting2 hc hw hD o)⟩

/-- C131 in 3D, with the sides in any order. -/
theorem C131_balancing_3D (hc : c.Supported) (hD : D ≤ c.ptrBits) (o : OctantOrdering) {sides : List (Axis × Bool)}
    (hsides : ∀ s, s ∈ sides) :
    (∀ w, BalancesTree c [Octant.Zero, .One, .Two, .Three, .Four, .Five, .Six, .Seven]
      (fun m : MortonIndex3D (StaticStorage3D w) => Reach3D c .all (.static w m)) D (Place3D c o) (neighbour3D c o) sides) ∧
    (DynWrites c → BalancesTree c [Octant.Zero, .One, .Two, .Three, .Four, .Five, .Six, .Seven]
      (fun m : MortonIndex3D DynamicStorage3D => Reach3D c .all (.dynamic m)) D (Place3D c o) (neighbour3D c o) sides) :=
  ⟨fun w => (static_geometry3 hc hD o w).balances hsides (static_splitting3 hc hD o w),
    fun hw => (dynamic_geometry3 hc hw hD o).balances hsides (dynamic_splitting3 hc hw hD o)⟩

end kinds

/-! ## Examples -/

/-- `[Zero]`, `[One, Zero, Zero]`, `[Two]`: `[Zero]` is split once. -/
example : balanceTree x64 (nextTo2D x64 .XY) exLe exBelow sides2D [.Zero, .One, .Two, .Three] 2 exUnbalanced =
    .ok (some [⟨⟨0#16, 2⟩⟩, ⟨⟨0x1000#16, 2⟩⟩, ⟨⟨0x2000#16, 2⟩⟩, ⟨⟨0x3000#16, 2⟩⟩, ⟨⟨0x4000#16, 3⟩⟩, ⟨⟨0x8000#16, 1⟩⟩]) := by
  decide +kernel

example : ∃ n out, balanceTree x64 (nextTo2D x64 .XY) exLe exBelow sides2D [.Zero, .One, .Two, .Three] n exUnbalanced = .ok (some out) ∧
    Balanced 5 (Place2D x64 .XY) out := by
  obtain ⟨n, out, h1, -, -, -, h2, -⟩ := (C131_balancing_2D x64_supported (D := 5) (by decide) .XY mem_sides2D).1 16 exUnbalanced exLe exBelow
    exBalance_reach.2 (by unfold Sorted; decide +kernel) (by unfold Disjoint; decide +kernel)
    (fun a b _ _ => decide_eq_true_iff) (fun a b _ _ => decide_eq_true_iff)
  exact ⟨n, out, h1, h2⟩

/-- The dynamic octants `[Zero]` and `[One, Zero, Zero]`. -/
example : ∃ n out, balanceTree x64 (neighbour3D x64 .XYZ) (fun a b => decide (RustOrd.le x64 a b = .ok true))
    (fun a b => decide (InSubtree x64 a b)) sides3D [.Zero, .One, .Two, .Three, .Four, .Five, .Six, .Seven] n exUnbalanced3 =
    .ok (some out) ∧ Balanced 5 (Place3D x64 .XYZ) out := by
  obtain ⟨n, out, h1, -, -, -, h2, -⟩ := (C131_balancing_3D x64_supported (D := 5) (by decide) .XYZ mem_sides3D).2 x64_writes exUnbalanced3
    (fun a b => decide (RustOrd.le x64 a b = .ok true)) (fun a b => decide (InSubtree x64 a b))
    (by
      intro m hm
      simp only [exUnbalanced3, List.mem_cons, List.not_mem_nil, or_false] at hm
      rcases hm with rfl | rfl
      · exact ⟨.dynamicTryFromSlice (cs := [.Zero]) (by unfold Addressable; decide) (by rfl), by decide⟩
      · exact ⟨.dynamicTryFromSlice (cs := [.One, .Zero, .Zero]) (by unfold Addressable; decide) (by rfl), by decide⟩)
    (by unfold Sorted; decide +kernel) (by unfold Disjoint; decide +kernel) (fun a b _ _ => decide_eq_true_iff)
    (fun a b _ _ => decide_eq_true_iff)
  exact ⟨n, out, h1, h2⟩

end MortonRs
