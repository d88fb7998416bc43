import Verif.Props.Balancing
import Verif.Props.Merge

/-! # The balanced tree does not depend on the ordering (C132)

Orderings decide which cell is where, and the order in which a client looks at the sides decides which leaf is split first. Neither
changes what is balanced, nor the result of C131. -/

namespace MortonRs

open BitStorage MortonIndex VariableDepthMortonIndex

variable {M Cell A : Type} {c : Cfg}

/-! ## Statement -/

/-- Two lists of nodes are the same for `cmp`. -/
def SameNodes [RustOrd M] (c : Cfg) (as bs : List M) : Prop :=
  as.length = bs.length ∧ ∀ i (h : i < as.length) (h' : i < bs.length), RustOrd.cmp c as[i] bs[i] = .ok .eq

/-- C132. Two orderings agree on what is balanced; the loops of two clients that use different orderings and different orders of the
sides return the same nodes. -/
def BalancesAlike [VariableDepthMortonIndex M Cell] [RustOrd M] (c : Cfg) (order : List Cell) (ok : M → Prop) (D : Nat)
    (place place' : M → (A → Nat) → Prop) (next next' : A → Bool → M → Res (Option M)) (sides sides' : List (A × Bool)) : Prop :=
  (∀ ms : List M, (∀ m ∈ ms, ok m ∧ depth m ≤ D) → (Balanced D place ms ↔ Balanced D place' ms)) ∧
  ∀ (leaves : List M) (le below : M → M → Bool), (∀ m ∈ leaves, ok m ∧ depth m ≤ D) → Sorted c leaves → Disjoint c leaves →
    (∀ a b, ok a → ok b → (le a b = true ↔ RustOrd.le c a b = .ok true)) →
    (∀ a b, ok a → ok b → (below a b = true ↔ InSubtree c a b)) →
    ∀ n n' out out', balanceTree c next le below sides order n leaves = .ok (some out) →
      balanceTree c next' le below sides' order n' leaves = .ok (some out') → SameNodes c out out'

/-! ## Proof -/

/-- More rounds do not change the result. -/
theorem balanceTree_det [VariableDepthMortonIndex M Cell] {next : A → Bool → M → Res (Option M)} {le below : M → M → Bool}
    {sides : List (A × Bool)} {order : List Cell} : ∀ {n n' : Nat} {leaves out out' : List M},
    balanceTree c next le below sides order n leaves = .ok (some out) →
    balanceTree c next le below sides order n' leaves = .ok (some out') → out = out'
  | 0, _, _, _, _, h, _ => by cases h
  | _, 0, _, _, _, _, h => by cases h
  | n + 1, n' + 1, leaves, out, out', h, h' => by
    rw [balanceTree] at h h'
    cases hf : findCoarse next le below sides leaves with
    | error e => rw [hf] at h; cases h
    | ok r =>
      rw [hf, ok_bind] at h h'
      cases r with
      | none => cases h; cases h'; rfl
      | some t =>
        obtain ⟨bf, y, af⟩ := t
        simp only [] at h h'
        cases hx : childrenOf c y order with
        | error e => rw [hx] at h; cases h
        | ok xs =>
          rw [hx, ok_bind] at h h'
          exact balanceTree_det h h'

section turn
variable [MortonIndex M Cell] {ok : M → Prop} {D : Nat} {place place' : M → (A → Nat) → Prop} {σ τ : A → A}

theorem Holds.turn {d : Nat} {g pos : A → Nat} (σ : A → A) (h : Holds D d g pos) : Holds D d (g ∘ σ) (pos ∘ σ) := fun b => h (σ b)

theorem Touches.turn (h1 : ∀ a, σ (τ a) = a) (h2 : ∀ a, τ (σ a) = a) {a : A} {up : Bool} {d e : Nat} {g h : A → Nat}
    (ht : Touches D a up d g e h) : Touches D (τ a) up d (g ∘ σ) e (h ∘ σ) := by
  obtain ⟨p, q, t1, t2, t3, t4, t5⟩ := ht
  refine ⟨p ∘ σ, q ∘ σ, t1.turn σ, fun k => t2 fun b => ?_, t3.turn σ, ?_, fun b hb => t5 (σ b) fun e => hb (by rw [← e, h2])⟩
  · have := k (τ b)
    simp only [Function.comp, h1] at this
    exact this
  · simp only [Function.comp, h1]
    exact t4

theorem Balanced.turn (h1 : ∀ a, σ (τ a) = a) (h2 : ∀ a, τ (σ a) = a)
    (hpl : ∀ m g, ok m → depth m ≤ D → place' m g → place m (g ∘ σ)) {ms : List M} (hok : ∀ m ∈ ms, ok m ∧ depth m ≤ D)
    (hb : Balanced D place ms) : Balanced D place' ms :=
  fun x hx y hy gx gy px py a up ht => hb x hx y hy (gx ∘ σ) (gy ∘ σ) (hpl x gx (hok x hx).1 (hok x hx).2 px)
    (hpl y gy (hok y hy).1 (hok y hy).2 py) (τ a) up (ht.turn h1 h2)

theorem Fills.turn (hpl : ∀ m g, ok m → depth m ≤ D → place' m g → place m (g ∘ σ)) {ms : List M}
    (hok : ∀ m ∈ ms, ok m ∧ depth m ≤ D) {pos : A → Nat} (h : Fills D place' ms pos) : Fills D place ms (pos ∘ σ) := by
  obtain ⟨m, hm, g, pg, hh⟩ := h
  exact ⟨m, hm, g ∘ σ, hpl m g (hok m hm).1 (hok m hm).2 pg, hh.turn σ⟩

end turn

section like
variable {ok : M → Prop} {D : Nat} {place place' : M → (A → Nat) → Prop} {next next' : A → Bool → M → Res (Option M)}
  [VariableDepthMortonIndex M Cell] [RustOrd M] {key : Cell → Nat} {p : M → List Cell} {wr : Cell → Cell} {order : List Cell}

/-- Lists of leaves that refine each other are the same. -/
theorem sameNodes_of (hk : Function.Injective key) (h : ListLike c ok p wr) (hA : AncLike c ok p) (hC : CmpLike c key ok p)
    {as bs : List M} (oa : ∀ m ∈ as, ok m) (ob : ∀ m ∈ bs, ok m) (sa : Sorted c as) (da : Disjoint c as) (sb : Sorted c bs)
    (db : Disjoint c bs) (hab : RefinesLeaves c as bs) (hba : RefinesLeaves c bs as) : SameNodes c as bs := by
  have aa : (as.map p).Pairwise (Apart key) := List.pairwise_map.mpr ((leaves_iff_apart hk h hA hC oa).mp ⟨sa, da⟩)
  have ab : (bs.map p).Pairwise (Apart key) := List.pairwise_map.mpr ((leaves_iff_apart hk h hA hC ob).mp ⟨sb, db⟩)
  have half : ∀ {as bs : List M}, (∀ m ∈ as, ok m) → (∀ m ∈ bs, ok m) → (as.map p).Pairwise (Apart key) → RefinesLeaves c as bs →
      RefinesLeaves c bs as → ∀ x ∈ as.map p, x ∈ bs.map p := by
    intro as bs oa ob aa hab hba x hx
    obtain ⟨a, ha, rfl⟩ := List.mem_map.mp hx
    obtain ⟨b, hb, i1⟩ := hab a ha
    obtain ⟨a', ha', i2⟩ := hba b hb
    have p1 := (inSubtree_iff hk h hA hC (ob b hb) (oa a ha)).mp i1
    have p2 := (inSubtree_iff hk h hA hC (oa a' ha') (ob b hb)).mp i2
    have e := apart_prefix_eq aa (List.mem_map.mpr ⟨a', ha', rfl⟩) hx (p2.trans p1)
    rw [e] at p2
    rw [p2.eq_of_length (Nat.le_antisymm p2.length_le p1.length_le)]
    exact List.mem_map.mpr ⟨b, hb, rfl⟩
  have e : as.map p = bs.map p := ascending_ext (fun _ _ => apart_asymm) aa ab fun x =>
    ⟨half oa ob aa hab hba x, half ob oa ab hba hab x⟩
  refine ⟨by simpa using congrArg List.length e, fun i hi hi' => ?_⟩
  rw [(hC _ _ (oa _ (List.getElem_mem hi)) (ob _ (List.getElem_mem hi'))).1, (pathCmp_eq_iff key hk _ _).mpr]
  have : (as.map p)[i]'(by simpa using hi) = (bs.map p)[i]'(by simpa using hi') := by simp only [e]
  simpa using this

theorem balancesAlike_of (hk : Function.Injective key) (h : ListLike c ok p wr) (hA : AncLike c ok p) (hC : CmpLike c key ok p)
    {σ τ : A → A} (h1 : ∀ a, σ (τ a) = a) (h2 : ∀ a, τ (σ a) = a)
    (hpl : ∀ m g, ok m → depth m ≤ D → place' m g → place m (g ∘ σ))
    (hpl' : ∀ m g, ok m → depth m ≤ D → place m g → place' m (g ∘ τ)) {sides sides' : List (A × Bool)}
    (hb : BalancesTree c order ok D place next sides) (hb' : BalancesTree c order ok D place' next' sides') :
    BalancesAlike c order ok D place place' next next' sides sides' := by
  have turn : ∀ ms : List M, (∀ m ∈ ms, ok m ∧ depth m ≤ D) → (Balanced D place ms ↔ Balanced D place' ms) := fun ms hms =>
    ⟨fun k => k.turn h1 h2 hpl hms, fun k => k.turn h2 h1 hpl' hms⟩
  have e1 : ∀ pos : A → Nat, (pos ∘ τ) ∘ σ = pos := fun pos => funext fun b => congrArg pos (h2 b)
  have e2 : ∀ pos : A → Nat, (pos ∘ σ) ∘ τ = pos := fun pos => funext fun b => congrArg pos (h1 b)
  have fills : ∀ ms : List M, (∀ m ∈ ms, ok m ∧ depth m ≤ D) → ∀ pos, Fills D place' ms pos ↔ Fills D place ms (pos ∘ σ) :=
    fun ms hms pos => ⟨fun k => k.turn hpl hms, fun k => by
      have := k.turn hpl' hms
      rwa [e2] at this⟩
  refine ⟨turn, fun leaves le below hok hs hd hle hbe n n' out out' ho ho' => ?_⟩
  obtain ⟨k, r, r1, r2, r3, r4, r5, r6, r7, r8⟩ := hb leaves le below hok hs hd hle hbe
  obtain ⟨k', r', r1', r2', r3', r4', r5', r6', r7', r8'⟩ := hb' leaves le below hok hs hd hle hbe
  rw [balanceTree_det ho r1, balanceTree_det ho' r1']
  refine sameNodes_of hk h hA hC (fun m hm => (r2 m hm).1) (fun m hm => (r2' m hm).1) r3 r4 r3' r4' ?_ ?_
  · refine r8' r r2 ((turn r r2).mp r5) r6 fun pos => ?_
    rw [fills r r2, fills leaves hok, r7]
  · refine r8 r' r2' ((turn r' r2').mpr r5') r6' fun pos => ?_
    have := r7' (pos ∘ τ)
    rwa [fills r' r2', fills leaves hok, e1] at this

end like

section kinds
variable {D : Nat}

/-- The axis of the second ordering on which the cells lie as on an axis of the first one. -/
theorem turn_axes2 (o o' : QuadrantOrdering) : ∃ σ τ : Axis2 → Axis2, (∀ a, σ (τ a) = a) ∧ (∀ a, τ (σ a) = a) ∧
    ∀ b v, coordOf2 o b v = coordOf2 o' (σ b) v := by
  let sw : Axis2 → Axis2 := fun | .X => .Y | .Y => .X
  cases o <;> cases o'
  · exact ⟨id, id, fun _ => rfl, fun _ => rfl, fun _ _ => rfl⟩
  · exact ⟨sw, sw, fun a => by cases a <;> rfl, fun a => by cases a <;> rfl, fun b v => by cases b <;> cases v <;> rfl⟩
  · exact ⟨sw, sw, fun a => by cases a <;> rfl, fun a => by cases a <;> rfl, fun b v => by cases b <;> cases v <;> rfl⟩
  · exact ⟨id, id, fun _ => rfl, fun _ => rfl, fun _ _ => rfl⟩

def axisFor (o o' : OctantOrdering) (a : Axis) : Axis :=
  if a = (octantAxes o).1 then (octantAxes o').1 else if a = (octantAxes o).2.1 then (octantAxes o').2.1 else (octantAxes o').2.2

theorem turn_axes3 (o o' : OctantOrdering) : ∃ σ τ : Axis → Axis, (∀ a, σ (τ a) = a) ∧ (∀ a, τ (σ a) = a) ∧
    ∀ b v, coordOf3 o b v = coordOf3 o' (σ b) v :=
  ⟨axisFor o o', axisFor o' o, fun a => by cases o <;> cases o' <;> cases a <;> rfl,
    fun a => by cases o <;> cases o' <;> cases a <;> rfl,
    fun b v => by cases o <;> cases o' <;> cases b <;> cases v <;> rfl⟩

/-- The places of two orderings. -/
theorem turn_place {ok : M → Prop} [MortonIndex M Cell] {place place' : M → (A → Nat) → Prop} {p : M → List Cell}
    {coord coord' : A → Cell → Bool} (hp : ∀ m, ok m → depth m ≤ D → ∀ g, place m g ↔ ∀ b, g b = binary ((p m).map (coord b)))
    (hp' : ∀ m, ok m → depth m ≤ D → ∀ g, place' m g ↔ ∀ b, g b = binary ((p m).map (coord' b))) {σ : A → A}
    (hσ : ∀ b v, coord b v = coord' (σ b) v) (m : M) (g : A → Nat) (hm : ok m) (hd : depth m ≤ D) (h : place' m g) :
    place m (g ∘ σ) :=
  (hp m hm hd _).mpr fun b => by
    rw [show coord b = coord' (σ b) from funext (hσ b)]
    exact (hp' m hm hd g).mp h (σ b)

/-! ## C132 -/

/-- C132 in 2D. -/
theorem C132_balanced_alike_2D (hc : c.Supported) (hD : D ≤ c.ptrBits) (o o' : QuadrantOrdering) {sides sides' : List (Axis2 × Bool)}
    (hs : ∀ s, s ∈ sides) (hs' : ∀ s, s ∈ sides') :
    (∀ w, BalancesAlike c [Quadrant.Zero, .One, .Two, .Three]
      (fun m : MortonIndex2D (StaticStorage2D w) => Reach2D c .all (.static w m)) D (Place2D c o) (Place2D c o') (nextTo2D c o)
      (nextTo2D c o') sides sides') ∧
    (DynWrites c → BalancesAlike c [Quadrant.Zero, .One, .Two, .Three]
      (fun m : MortonIndex2D DynamicStorage2D => Reach2D c .all (.dynamic m)) D (Place2D c o) (Place2D c o') (nextTo2D c o)
      (nextTo2D c o') sides sides') := by
  obtain ⟨σ, τ, h1, h2, h3⟩ := turn_axes2 o o'
  have h3' : ∀ b v, coordOf2 o' b v = coordOf2 o (τ b) v := fun b v => by rw [h3, h1]
  refine ⟨fun w => ?_, fun hw => ?_⟩
  · have i := fun o => place_iff2 hc hD (static_wf2 hc (sc := .all) (w := w)) o
    exact balancesAlike_of quadrantKey_inj (static_list2 hc) (static_anc2 hc) (static_cmp2 hc) h1 h2 (turn_place (i o) (i o') h3)
      (turn_place (i o') (i o) h3') ((C131_balancing_2D hc hD o hs).1 w) ((C131_balancing_2D hc hD o' hs').1 w)
  · have i := fun o => place_iff2 hc hD (dynamic_wf2 hc (sc := .all)) o
    exact balancesAlike_of quadrantKey_inj (dynamic_list2' hc) (dynamic_anc2 hc) (dynamic_cmp2 hc) h1 h2 (turn_place (i o) (i o') h3)
      (turn_place (i o') (i o) h3') ((C131_balancing_2D hc hD o hs).2 hw) ((C131_balancing_2D hc hD o' hs').2 hw)

/-- C132 in 3D. -/
theorem C132_balanced_alike_3D (hc : c.Supported) (hD : D ≤ c.ptrBits) (o o' : OctantOrdering) {sides sides' : List (Axis × Bool)}
    (hs : ∀ s, s ∈ sides) (hs' : ∀ s, s ∈ sides') :
    (∀ w, BalancesAlike c [Octant.Zero, .One, .Two, .Three, .Four, .Five, .Six, .Seven]
      (fun m : MortonIndex3D (StaticStorage3D w) => Reach3D c .all (.static w m)) D (Place3D c o) (Place3D c o') (neighbour3D c o)
      (neighbour3D c o') sides sides') ∧
    (DynWrites c → BalancesAlike c [Octant.Zero, .One, .Two, .Three, .Four, .Five, .Six, .Seven]
      (fun m : MortonIndex3D DynamicStorage3D => Reach3D c .all (.dynamic m)) D (Place3D c o) (Place3D c o') (neighbour3D c o)
      (neighbour3D c o') sides sides') := by
  obtain ⟨σ, τ, h1, h2, h3⟩ := turn_axes3 o o'
  have h3' : ∀ b v, coordOf3 o' b v = coordOf3 o (τ b) v := fun b v => by rw [h3, h1]
  refine ⟨fun w => ?_, fun hw => ?_⟩
  · have i := fun o => place_iff3 hc hD (static_wf3 hc (sc := .all) (w := w)) o
    exact balancesAlike_of octantKey_inj (static_list3 hc) (static_anc3 hc) (static_cmp3 hc) h1 h2 (turn_place (i o) (i o') h3)
      (turn_place (i o') (i o) h3') ((C131_balancing_3D hc hD o hs).1 w) ((C131_balancing_3D hc hD o' hs').1 w)
  · have i := fun o => place_iff3 hc hD (dynamic_wf3 hc (sc := .all)) o
    exact balancesAlike_of octantKey_inj (dynamic_list3' hc) (dynamic_anc3 hc) (dynamic_cmp3 hc) h1 h2 (turn_place (i o) (i o') h3)
      (turn_place (i o') (i o) h3') ((C131_balancing_3D hc hD o hs).2 hw) ((C131_balancing_3D hc hD o' hs').2 hw)

end kinds

/-! ## Examples -/

/-- Two runs over `exUnbalanced`: XY with the sides of `sides2D`, YX with the sides in reversed order. -/
example : ∃ n n' out out', balanceTree x64 (nextTo2D x64 .XY) exLe exBelow sides2D [.Zero, .One, .Two, .Three] n exUnbalanced =
      .ok (some out) ∧
    balanceTree x64 (nextTo2D x64 .YX) exLe exBelow sides2D.reverse [.Zero, .One, .Two, .Three] n' exUnbalanced = .ok (some out') ∧
    SameNodes x64 out out' := by
  have hr : ∀ s, s ∈ sides2D.reverse := fun s => List.mem_reverse.mpr (mem_sides2D s)
  have hs : Sorted x64 exUnbalanced := by unfold Sorted; decide +kernel
  have hd : Disjoint x64 exUnbalanced := by unfold Disjoint; decide +kernel
  obtain ⟨n, out, e, -⟩ := (C131_balancing_2D x64_supported (D := 5) (by decide) .XY mem_sides2D).1 16 exUnbalanced exLe exBelow
    exBalance_reach.2 hs hd (fun a b _ _ => decide_eq_true_iff) (fun a b _ _ => decide_eq_true_iff)
  obtain ⟨n', out', e', -⟩ := (C131_balancing_2D x64_supported (D := 5) (by decide) .YX hr).1 16 exUnbalanced exLe exBelow
    exBalance_reach.2 hs hd (fun a b _ _ => decide_eq_true_iff) (fun a b _ _ => decide_eq_true_iff)
  exact ⟨n, n', out, out', e, e', ((C132_balanced_alike_2D x64_supported (D := 5) (by decide) .XY .YX mem_sides2D hr).1 16).2 exUnbalanced
    exLe exBelow exBalance_reach.2 hs hd (fun a b _ _ => decide_eq_true_iff) (fun a b _ _ => decide_eq_true_iff) n n' out out' e e'⟩

/-- In both runs `[Zero]` is split. -/
example : balanceTree x64 (nextTo2D x64 .YX) exLe exBelow sides2D.reverse [.Zero, .One, .Two, .Three] 2 exUnbalanced =
    balanceTree x64 (nextTo2D x64 .XY) exLe exBelow sides2D [.Zero, .One, .Two, .Three] 2 exUnbalanced := by decide +kernel

/-- The dynamic octants `[Zero]` and `[One, Zero, Zero]` with the orderings XYZ and ZXY. -/
example : Balanced 5 (Place3D x64 .XYZ) exUnbalanced3 ↔ Balanced 5 (Place3D x64 .ZXY) exUnbalanced3 :=
  ((C132_balanced_alike_3D x64_supported (D := 5) (by decide) .XYZ .ZXY mem_sides3D mem_sides3D).2 x64_writes).1 exUnbalanced3 (by
    intro m hm
    simp only [exUnbalanced3, List.mem_cons, List.not_mem_nil, or_false] at hm
    rcases hm with rfl | rfl
    · exact ⟨.dynamicTryFromSlice (cs := [.Zero]) (by unfold Addressable; decide) (by rfl), by decide⟩
    · exact ⟨.dynamicTryFromSlice (cs := [.One, .Zero, .Zero]) (by unfold Addressable; decide) (by rfl), by decide⟩)

end MortonRs
