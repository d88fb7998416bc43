import Verif.Props.BalanceUnique

/-! # Splits in any order (C134)

C131 is about one loop. A client may also split the leaves that are too large in any order it likes, e.g. from a work list or on several
threads, and gets the same tree. -/

namespace MortonRs

open BitStorage MortonIndex VariableDepthMortonIndex

variable {M Cell A : Type} {c : Cfg}

/-! ## Statement -/

/-- `k` splits lead from one list of leaves to another one. Each replaces, at its place, any leaf `y` more than one level above any leaf `x`
that touches it by the children of `y`. -/
inductive SplitSteps [VariableDepthMortonIndex M Cell] (c : Cfg) (order : List Cell) (D : Nat) (place : M → (A → Nat) → Prop) :
    Nat → List M → List M → Prop
  | done (ms : List M) : SplitSteps c order D place 0 ms ms
  | split {k : Nat} {before after out xs : List M} {x y : M} {gx gy : A → Nat} {a : A} {up : Bool} :
      x ∈ before ++ y :: after → depth y + 1 < depth x → place x gx → place y gy → Touches D a up (depth x) gx (depth y) gy →
      childrenOf c y order = .ok xs → SplitSteps c order D place k (before ++ (xs ++ after)) out →
      SplitSteps c order D place (k + 1) (before ++ y :: after) out

/-- C134. There is a bound for the number of splits. After any of them the leaves are sorted and disjoint, and the result of C131 refines
them: no leaf is split that need not be. If the list is balanced, it is the result of C131. If it is not, the next split exists. -/
def SplitsInAnyOrder [VariableDepthMortonIndex M Cell] [RustOrd M] (c : Cfg) (order : List Cell) (ok : M → Prop) (D : Nat)
    (place : M → (A → Nat) → Prop) (next : A → Bool → M → Res (Option M)) (sides : List (A × Bool)) : Prop :=
  ∀ (leaves : List M) (le below : M → M → Bool), (∀ m ∈ leaves, ok m ∧ depth m ≤ D) → Sorted c leaves → Disjoint c leaves →
    (∀ a b, ok a → ok b → (le a b = true ↔ RustOrd.le c a b = .ok true)) →
    (∀ a b, ok a → ok b → (below a b = true ↔ InSubtree c a b)) →
    ∃ N n out, balanceTree c next le below sides order n leaves = .ok (some out) ∧
      ∀ k ms, SplitSteps c order D place k leaves ms → k ≤ N ∧ (∀ m ∈ ms, ok m ∧ depth m ≤ D) ∧ Sorted c ms ∧ Disjoint c ms ∧
        RefinesLeaves c out ms ∧ (Balanced D place ms → SameNodes c out ms) ∧
        (¬ Balanced D place ms → ∃ ms', SplitSteps c order D place 1 ms ms')

/-! ## Proof -/

section generic
variable {ok : M → Prop} {D : Nat} {place : M → (A → Nat) → Prop} {next : A → Bool → M → Res (Option M)}
  [VariableDepthMortonIndex M Cell] [RustOrd M] {order : List Cell}

theorem Geometry.split_steps (G : Geometry c ok D place next) (S : Splitting c order ok D place) {ts : List M}
    (t1 : ∀ t ∈ ts, ok t ∧ depth t ≤ D) (t2 : Balanced D place ts) {k : Nat} {leaves ms : List M}
    (h : SplitSteps c order D place k leaves ms) : (∀ m ∈ leaves, ok m ∧ depth m ≤ D) → Sorted c leaves → Disjoint c leaves →
    RefinesLeaves c ts leaves → (∀ pos, Fills D place ts pos ↔ Fills D place leaves pos) →
    k + weight D order.length ms ≤ weight D order.length leaves ∧ (∀ m ∈ ms, ok m ∧ depth m ≤ D) ∧ Sorted c ms ∧ Disjoint c ms ∧
      RefinesLeaves c ts ms ∧ RefinesLeaves c ms leaves ∧ ∀ pos, Fills D place ms pos ↔ Fills D place leaves pos := by
  induction h with
  | done ms =>
    intro hok hs hd hr _
    exact ⟨by omega, hok, hs, hd, hr, fun t ht => ⟨t, ht, S.refl t (hok t ht).1⟩, fun _ => Iff.rfl⟩
  | split hx hxy px py hT hch _ ih =>
    intro hok hs hd hr hf
    obtain ⟨xs, c1, hok', hs', hd', hlt, href, hfill, hmin⟩ := G.split_step S hok hs hd hx hxy px py hT
    rw [hch, Except.ok.injEq] at c1
    subst c1
    obtain ⟨i1, i2, i3, i4, i5, i6, i7⟩ := ih hok' hs' hd' (hmin ts t1 t2 hr hf) fun pos => (hf pos).trans (hfill pos).symm
    refine ⟨by omega, i2, i3, i4, i5, fun t ht => ?_, fun pos => (i7 pos).trans (hfill pos)⟩
    obtain ⟨m, hm, hi⟩ := i6 t ht
    obtain ⟨m', hm', hi'⟩ := href m hm
    exact ⟨m', hm', S.trans m' m t (hok m' hm').1 (hok' m hm).1 (i2 t ht).1 hi' hi⟩

theorem Geometry.splitsInAnyOrder (G : Geometry c ok D place next) (S : Splitting c order ok D place) {sides : List (A × Bool)}
    (hsides : ∀ s, s ∈ sides)
    (hsame : ∀ as bs : List M, (∀ m ∈ as, ok m) → (∀ m ∈ bs, ok m) → Sorted c as → Disjoint c as → Sorted c bs → Disjoint c bs →
      RefinesLeaves c as bs → RefinesLeaves c bs as → SameNodes c as bs) : SplitsInAnyOrder c order ok D place next sides := by
  intro leaves le below hok hs hd hle hbe
  obtain ⟨n, out, r1, r2, r3, r4, r5, r6, r7, r8⟩ := G.balances hsides S leaves le below hok hs hd hle hbe
  refine ⟨weight D order.length leaves, n, out, r1, fun k ms h => ?_⟩
  obtain ⟨i1, i2, i3, i4, i5, i6, i7⟩ := G.split_steps S r2 r5 h hok hs hd r6 r7
  refine ⟨by omega, i2, i3, i4, i5, fun hb => ?_, fun hb => ?_⟩
  · exact hsame out ms (fun m hm => (r2 m hm).1) (fun m hm => (i2 m hm).1) r3 r4 i3 i4 i5 (r8 ms i2 hb i6 i7)
  · obtain ⟨r, e, h1, h2⟩ := G.findCoarse_ok hsides i2 i3 i4 hle hbe
    cases r with
    | none => exact absurd (h1 rfl) hb
    | some t =>
      obtain ⟨bf, y, af⟩ := t
      obtain ⟨el, x, hx, hxy, gx, gy, a, up, px, py, hT⟩ := h2 bf y af rfl
      subst el
      obtain ⟨xs, c1, -⟩ := G.split_step S i2 i3 i4 hx hxy px py hT
      exact ⟨_, .split hx hxy px py hT c1 (.done _)⟩

end generic

/-! ## C134 -/

section kinds
variable {D : Nat}

/-- C134 in 2D. -/
theorem C134_any_order_2D (hc : c.Supported) (hD : D ≤ c.ptrBits) (o : QuadrantOrdering) {sides : List (Axis2 × Bool)}
    (hsides : ∀ s, s ∈ sides) :
    (∀ w, SplitsInAnyOrder c [Quadrant.Zero, .One, .Two, .Three]
      (fun m : MortonIndex2D (StaticStorage2D w) => Reach2D c .all (.static w m)) D (Place2D c o) (nextTo2D c o) sides) ∧
    (DynWrites c → SplitsInAnyOrder c [Quadrant.Zero, .One, .Two, .Three]
      (fun m : MortonIndex2D DynamicStorage2D => Reach2D c .all (.dynamic m)) D (Place2D c o) (nextTo2D c o) sides) :=
  ⟨fun w => (static_geometry2 hc hD o w).splitsInAnyOrder (static_splitting2 hc hD o w) hsides fun _ _ =>
      sameNodes_of quadrantKey_inj (static_list2 hc) (static_anc2 hc) (static_cmp2 hc),
    fun hw => (dynamic_geometry2 hc hw hD o).splitsInAnyOrder (dynamic_splitting2 hc hw hD o) hsides fun _ _ =>
      sameNodes_of quadrantKey_inj (dynamic_list2' hc) (dynamic_anc2 hc) (dynamic_cmp2 hc)⟩

/-- C134 in 3D. -/
theorem C134_any_order_3D (hc : c.Supported) (hD : D ≤ c.ptrBits) (o : OctantOrdering) {sides : List (Axis × Bool)}
    (hsides : ∀ s, s ∈ sides) :
    (∀ w, SplitsInAnyOrder c [Octant.Zero, .One, .Two, .Three, .Four, .Five, .Six, .Seven]
      (fun m : MortonIndex3D (StaticStorage3D w) => Reach3D c .all (.static w m)) D (Place3D c o) (neighbour3D c o) sides) ∧
    (DynWrites c → SplitsInAnyOrder c [Octant.Zero, .One, .Two, .Three, .Four, .Five, .Six, .Seven]
      (fun m : MortonIndex3D DynamicStorage3D => Reach3D c .all (.dynamic m)) D (Place3D c o) (neighbour3D c o) sides) :=
  ⟨fun w => (static_geometry3 hc hD o w).splitsInAnyOrder (static_splitting3 hc hD o w) hsides fun _ _ =>
      sameNodes_of octantKey_inj (static_list3 hc) (static_anc3 hc) (static_cmp3 hc),
    fun hw => (dynamic_geometry3 hc hw hD o).splitsInAnyOrder (dynamic_splitting3 hc hw hD o) hsides fun _ _ =>
      sameNodes_of octantKey_inj (dynamic_list3' hc) (dynamic_anc3 hc) (dynamic_cmp3 hc)⟩

end kinds

/-! ## Examples -/

/-- `exUnbalanced` after the split of `[Zero]`. -/
def exSplit : List (MortonIndex2D (StaticStorage2D 16)) :=
  [⟨⟨0#16, 2⟩⟩, ⟨⟨0x1000#16, 2⟩⟩, ⟨⟨0x2000#16, 2⟩⟩, ⟨⟨0x3000#16, 2⟩⟩, ⟨⟨0x4000#16, 3⟩⟩, ⟨⟨0x8000#16, 1⟩⟩]

/-- It is one split away: `[One, Zero, Zero]` at (4, 0) of the grid of depth 3 touches `[Zero]`, e.g. at the positions (16, 0) and (15, 0) of
the grid of depth 5. -/
theorem exSplit_steps : SplitSteps x64 [Quadrant.Zero, .One, .Two, .Three] 5 (Place2D x64 .XY) 1 exUnbalanced exSplit := by
  refine SplitSteps.split (M := MortonIndex2D (StaticStorage2D 16)) (A := Axis2) (before := []) (x := ⟨⟨0x4000#16, 3⟩⟩)
    (y := ⟨⟨0#16, 1⟩⟩) (gx := fun | .X => 4 | .Y => 0) (gy := fun | .X => 0 | .Y => 0) (a := .X) (up := false)
    (after := [⟨⟨0x4000#16, 3⟩⟩, ⟨⟨0x8000#16, 1⟩⟩])
    (xs := [⟨⟨0#16, 2⟩⟩, ⟨⟨0x1000#16, 2⟩⟩, ⟨⟨0x2000#16, 2⟩⟩, ⟨⟨0x3000#16, 2⟩⟩]) (by simp) (by decide)
    ⟨⟨4#64, 0#64⟩, by decide +kernel, rfl, rfl⟩ ⟨⟨0#64, 0#64⟩, by decide +kernel, rfl, rfl⟩ ?_ (by decide +kernel) (.done _)
  refine ⟨fun | .X => 16 | .Y => 0, fun | .X => 15 | .Y => 0, fun b => by cases b <;> decide, fun h => absurd (h .X) (by decide),
    fun b => by cases b <;> decide, by decide, fun b hb => ?_⟩
  cases b
  · exact absurd rfl hb
  · rfl

/-- The theorem on it: the steps are bounded, and what is balanced is the result of the loop. -/
example : ∃ N n out, balanceTree x64 (nextTo2D x64 .XY) exLe exBelow sides2D [.Zero, .One, .Two, .Three] n exUnbalanced = .ok (some out) ∧
    1 ≤ N ∧ Sorted x64 exSplit ∧ (Balanced 5 (Place2D x64 .XY) exSplit → SameNodes x64 out exSplit) := by
  obtain ⟨N, n, out, h1, h2⟩ := (C134_any_order_2D x64_supported (D := 5) (by decide) .XY mem_sides2D).1 16 exUnbalanced exLe exBelow
    exBalance_reach.2 (by unfold Sorted; decide +kernel) (by unfold Disjoint; decide +kernel)
    (fun a b _ _ => decide_eq_true_iff) (fun a b _ _ => decide_eq_true_iff)
  obtain ⟨k1, -, k2, -, -, k3, -⟩ := h2 1 exSplit exSplit_steps
  exact ⟨N, n, out, h1, k1, k2, k3⟩

/-- The dynamic octants `[Zero]` and `[One, Zero, Zero]` are not balanced, so there is a split. -/
example : ∃ ms', SplitSteps x64 [Octant.Zero, .One, .Two, .Three, .Four, .Five, .Six, .Seven] 5 (Place3D x64 .XYZ) 1 exUnbalanced3 ms' := by
  have hok : ∀ m ∈ exUnbalanced3, Reach3D x64 .all (.dynamic m) ∧ depth m ≤ 5 := by
    intro m hm
    simp only [exUnbalanced3, List.mem_cons, List.not_mem_nil, or_false] at hm
    rcases hm with rfl | rfl
    · exact ⟨.dynamicTryFromSlice (cs := [.Zero]) (by unfold Addressable; decide) (by rfl), by decide⟩
    · exact ⟨.dynamicTryFromSlice (cs := [.One, .Zero, .Zero]) (by unfold Addressable; decide) (by rfl), by decide⟩
  have hs : Sorted x64 exUnbalanced3 := by unfold Sorted; decide +kernel
  have hd : Disjoint x64 exUnbalanced3 := by unfold Disjoint; decide +kernel
  obtain ⟨b, e, hb⟩ := (C129_balance_3D x64_supported (D := 5) (by decide) .XYZ).2 x64_writes exUnbalanced3
    (fun a b => decide (RustOrd.le x64 a b = .ok true)) (fun a b => decide (InSubtree x64 a b)) hok hs hd
    (fun a b _ _ => decide_eq_true_iff) (fun a b _ _ => decide_eq_true_iff)
  have k : balanced (neighbour3D x64 .XYZ) (fun a b => decide (RustOrd.le x64 a b = .ok true)) (fun a b => decide (InSubtree x64 a b))
    sides3D exUnbalanced3 = .ok false := by decide +kernel
  rw [k, Except.ok.injEq] at e
  obtain ⟨N, n, out, -, h2⟩ := (C134_any_order_3D x64_supported (D := 5) (by decide) .XYZ mem_sides3D).2 x64_writes exUnbalanced3
    (fun a b => decide (RustOrd.le x64 a b = .ok true)) (fun a b => decide (InSubtree x64 a b)) hok hs hd
    (fun a b _ _ => decide_eq_true_iff) (fun a b _ _ => decide_eq_true_iff)
  exact (h2 0 exUnbalanced3 (.done _)).2.2.2.2.2.2 fun hn => absurd (e.trans (hb.mpr hn)) (by decide)

end MortonRs
