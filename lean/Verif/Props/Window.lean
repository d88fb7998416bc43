import Verif.Props.Tiles
import Verif.Props.Traverse
import Verif.Props.Leaves

/-! # Window queries (C97) -/

namespace MortonRs

open BitStorage MortonIndex VariableDepthMortonIndex

variable {M Cell : Type}

/-! ## Statements -/

/-- How the box of a node lies to a window. -/
inductive Verdict where
  | inside
  | outside
  | partly
  deriving DecidableEq

/-- The nodes that make up a window, as a user would compute them: a node inside is taken, one outside is dropped, and of the
others the children are visited, `n` levels deep. -/
def query [VariableDepthMortonIndex M Cell] (c : Cfg) (test : M → Res Verdict) (order : List Cell) : Nat → M → Res (List M)
  | 0, m => do
    match ← test m with
    | .inside => return [m]
    | _ => return []
  | n + 1, m => do
    match ← test m with
    | .inside => return [m]
    | .outside => return []
    | .partly =>
      let parts ← order.mapM fun v => do
        match ← child c m v with
        | none => .ok []
        | some k => query c test order n k
      return parts.flatten

/-- A window of the grid of depth `n`: `xlo ≤ x < xhi` and `ylo ≤ y < yhi`. -/
structure Window2D where
  xlo : Nat
  xhi : Nat
  ylo : Nat
  yhi : Nat

def Window2D.Has (b : Window2D) (x y : Nat) : Prop := (b.xlo ≤ x ∧ x < b.xhi) ∧ b.ylo ≤ y ∧ y < b.yhi

/-- The test of a node against the window, by its grid position and its side. -/
def Window2D.test {S : Type} [Storage S Quadrant] (b : Window2D) (c : Cfg) (o : QuadrantOrdering) (n : Nat)
    (m : MortonIndex2D S) : Res Verdict := do
  let g ← m.toGridIndex c o
  let s := 2 ^ (n - depth m)
  let x := g.x.toNat * s
  let y := g.y.toNat * s
  if (b.xlo ≤ x ∧ x + s ≤ b.xhi) ∧ b.ylo ≤ y ∧ y + s ≤ b.yhi then return .inside
  else if (x + s ≤ b.xlo ∨ b.xhi ≤ x) ∨ y + s ≤ b.ylo ∨ b.yhi ≤ y then return .outside
  else return .partly

/-- C97. The query for a window of the grid of depth `n` returns nodes below `m` in increasing order, none in the subtree of
another one, whose boxes together hold exactly the positions of the window in the box of `m`; they are the largest such nodes:
each node with its whole box in the window is in the subtree of one of them. -/
def QueriesWindow2D (c : Cfg) {S : Type} [VariableDepthStorage S Quadrant] [RustOrd (MortonIndex2D S)]
    (ok : MortonIndex2D S → Prop) (room : MortonIndex2D S → Nat → Prop) : Prop :=
  ∀ (b : Window2D) o n m, ok m → depth m ≤ n → n ≤ c.ptrBits → room m (n - depth m) →
    ∃ ms, query c (b.test c o n) [Quadrant.Zero, .One, .Two, .Three] (n - depth m) m = .ok ms ∧
      (∀ a ∈ ms, ok a ∧ depth a ≤ n ∧ InSubtree c m a) ∧
      ms.Pairwise (fun x y => RustOrd.lt c x y = .ok true) ∧ Disjoint c ms ∧
      (∀ x y, (∃ a ∈ ms, Covers2D c o n a x y) ↔ Covers2D c o n m x y ∧ b.Has x y) ∧
      ∀ a, ok a → depth a ≤ n → InSubtree c m a → (∀ x y, Covers2D c o n a x y → b.Has x y) → ∃ a' ∈ ms, InSubtree c a' a

/-- A window of the grid in three dimensions, one interval per axis. -/
structure Window3D where
  lo : Axis → Nat
  hi : Axis → Nat

def Window3D.Has (b : Window3D) (p : Axis → Nat) : Prop := ∀ ax, b.lo ax ≤ p ax ∧ p ax < b.hi ax

def Window3D.test {S : Type} [Storage S Octant] (b : Window3D) (c : Cfg) (o : OctantOrdering) (n : Nat)
    (m : MortonIndex3D S) : Res Verdict := do
  let g ← m.toGridIndex c o
  let s := 2 ^ (n - depth m)
  let x := g.x.toNat * s
  let y := g.y.toNat * s
  let z := g.z.toNat * s
  if (b.lo .X ≤ x ∧ x + s ≤ b.hi .X) ∧ (b.lo .Y ≤ y ∧ y + s ≤ b.hi .Y) ∧ b.lo .Z ≤ z ∧ z + s ≤ b.hi .Z then return .inside
  else if (x + s ≤ b.lo .X ∨ b.hi .X ≤ x) ∨ (y + s ≤ b.lo .Y ∨ b.hi .Y ≤ y) ∨ z + s ≤ b.lo .Z ∨ b.hi .Z ≤ z then return .outside
  else return .partly

/-- C97 in 3D. -/
def QueriesWindow3D (c : Cfg) {S : Type} [VariableDepthStorage S Octant] [RustOrd (MortonIndex3D S)]
    (ok : MortonIndex3D S → Prop) (room : MortonIndex3D S → Nat → Prop) : Prop :=
  ∀ (b : Window3D) o n m, ok m → depth m ≤ n → n ≤ c.ptrBits → room m (n - depth m) →
    ∃ ms, query c (b.test c o n) [Octant.Zero, .One, .Two, .Three, .Four, .Five, .Six, .Seven] (n - depth m) m = .ok ms ∧
      (∀ a ∈ ms, ok a ∧ depth a ≤ n ∧ InSubtree c m a) ∧
      ms.Pairwise (fun x y => RustOrd.lt c x y = .ok true) ∧ Disjoint c ms ∧
      (∀ p, (∃ a ∈ ms, Covers3D c o n a p) ↔ Covers3D c o n m p ∧ b.Has p) ∧
      ∀ a, ok a → depth a ≤ n → InSubtree c m a → (∀ p, Covers3D c o n a p → b.Has p) → ∃ a' ∈ ms, InSubtree c a' a

/-- C97. A node whose position lies between those of `a` and `b` along each axis sorts between them. -/
def CornersEnclose2D (c : Cfg) {S : Type} [Storage S Quadrant] [RustOrd (MortonIndex2D S)] (ok : MortonIndex2D S → Prop) : Prop :=
  ∀ a m b, ok a → ok m → ok b → depth a = depth m → depth m = depth b → depth m ≤ c.ptrBits → ∀ o ga gm gb,
    a.toGridIndex c o = .ok ga → m.toGridIndex c o = .ok gm → b.toGridIndex c o = .ok gb →
    ga.x.toNat ≤ gm.x.toNat → gm.x.toNat ≤ gb.x.toNat → ga.y.toNat ≤ gm.y.toNat → gm.y.toNat ≤ gb.y.toNat →
    RustOrd.le c a m = .ok true ∧ RustOrd.le c m b = .ok true

/-- C97. It is in every subtree that holds both, for instance that of their lowest common ancestor. -/
def CornersShareAncestors2D (c : Cfg) {S : Type} [VariableDepthStorage S Quadrant] [RustOrd (MortonIndex2D S)]
    (ok : MortonIndex2D S → Prop) : Prop :=
  ∀ a m b, ok a → ok m → ok b → depth a = depth m → depth m = depth b → depth m ≤ c.ptrBits → ∀ o ga gm gb,
    a.toGridIndex c o = .ok ga → m.toGridIndex c o = .ok gm → b.toGridIndex c o = .ok gb →
    ga.x.toNat ≤ gm.x.toNat → gm.x.toNat ≤ gb.x.toNat → ga.y.toNat ≤ gm.y.toNat → gm.y.toNat ≤ gb.y.toNat →
    ∀ r, ok r → InSubtree c r a → InSubtree c r b → InSubtree c r m

/-- C97 in 3D. -/
def CornersEnclose3D (c : Cfg) {S : Type} [Storage S Octant] [RustOrd (MortonIndex3D S)] (ok : MortonIndex3D S → Prop) : Prop :=
  ∀ a m b, ok a → ok m → ok b → depth a = depth m → depth m = depth b → depth m ≤ c.ptrBits → ∀ o ga gm gb,
    a.toGridIndex c o = .ok ga → m.toGridIndex c o = .ok gm → b.toGridIndex c o = .ok gb →
    (∀ ax, (axisOf ga ax).toNat ≤ (axisOf gm ax).toNat ∧ (axisOf gm ax).toNat ≤ (axisOf gb ax).toNat) →
    RustOrd.le c a m = .ok true ∧ RustOrd.le c m b = .ok true

/-- C97 in 3D. -/
def CornersShareAncestors3D (c : Cfg) {S : Type} [VariableDepthStorage S Octant] [RustOrd (MortonIndex3D S)]
    (ok : MortonIndex3D S → Prop) : Prop :=
  ∀ a m b, ok a → ok m → ok b → depth a = depth m → depth m = depth b → depth m ≤ c.ptrBits → ∀ o ga gm gb,
    a.toGridIndex c o = .ok ga → m.toGridIndex c o = .ok gm → b.toGridIndex c o = .ok gb →
    (∀ ax, (axisOf ga ax).toNat ≤ (axisOf gm ax).toNat ∧ (axisOf gm ax).toNat ≤ (axisOf gb ax).toNat) →
    ∀ r, ok r → InSubtree c r a → InSubtree c r b → InSubtree c r m

/-! ## The query on paths -/

section paths
variable {Ax : Type}

/-- The box of the path `xs` in the grid of depth `n` holds the position `q`. -/
def PathCovers (coord : Ax → Cell → Bool) (n : Nat) (xs : List Cell) (q : Ax → Nat) : Prop :=
  ∀ ax, q ax / 2 ^ (n - xs.length) = binary (xs.map (coord ax))

/-- The lower end of the box of a path along an axis. -/
def lowEnd (coord : Ax → Cell → Bool) (n : Nat) (xs : List Cell) (ax : Ax) : Nat :=
  binary (xs.map (coord ax)) * 2 ^ (n - xs.length)

def PathInside (coord : Ax → Cell → Bool) (lo hi : Ax → Nat) (n : Nat) (xs : List Cell) : Prop :=
  ∀ ax, lo ax ≤ lowEnd coord n xs ax ∧ lowEnd coord n xs ax + 2 ^ (n - xs.length) ≤ hi ax

def PathOutside (coord : Ax → Cell → Bool) (lo hi : Ax → Nat) (n : Nat) (xs : List Cell) : Prop :=
  ∃ ax, lowEnd coord n xs ax + 2 ^ (n - xs.length) ≤ lo ax ∨ hi ax ≤ lowEnd coord n xs ax

variable {coord : Ax → Cell → Bool} {lo hi : Ax → Nat} {n : Nat}

theorem pathCovers_iff {xs : List Cell} {q : Ax → Nat} :
    PathCovers coord n xs q ↔ ∀ ax, lowEnd coord n xs ax ≤ q ax ∧ q ax < lowEnd coord n xs ax + 2 ^ (n - xs.length) := by
  refine forall_congr' fun ax => ?_
  rw [← in_box, lowEnd, Nat.add_mul, Nat.one_mul]

theorem lowEnd_append {xs t : List Cell} (h : (xs ++ t).length ≤ n) (ax : Ax) :
    lowEnd coord n xs ax ≤ lowEnd coord n (xs ++ t) ax ∧
    lowEnd coord n (xs ++ t) ax + 2 ^ (n - (xs ++ t).length) ≤ lowEnd coord n xs ax + 2 ^ (n - xs.length) := by
  rw [List.length_append] at h
  have h1 := binary_lt (t.map (coord ax))
  rw [List.length_map] at h1
  have e : 2 ^ (n - xs.length) = 2 ^ t.length * 2 ^ (n - (xs ++ t).length) := by
    rw [← Nat.pow_add, List.length_append]
    congr 1
    omega
  rw [lowEnd, lowEnd, List.map_append, binary_append_list, List.length_map, e]
  have hp := Nat.two_pow_pos (n - (xs ++ t).length)
  generalize 2 ^ (n - (xs ++ t).length) = s at *
  generalize binary (xs.map (coord ax)) = X
  generalize binary (t.map (coord ax)) = T at *
  generalize 2 ^ t.length = K at *
  have h2 : (T + 1) * s ≤ K * s := Nat.mul_le_mul_right s h1
  rw [Nat.add_mul, Nat.one_mul] at h2
  rw [Nat.add_mul, ← Nat.mul_assoc, Nat.mul_comm X K]
  omega

theorem not_inside_outside {xs t : List Cell} (h : (xs ++ t).length ≤ n) (hi' : PathInside coord lo hi n (xs ++ t))
    (ho : PathOutside coord lo hi n xs) : False := by
  obtain ⟨ax, ho⟩ := ho
  obtain ⟨h1, h2⟩ := hi' ax
  obtain ⟨h3, h4⟩ := lowEnd_append (coord := coord) h ax
  have := Nat.two_pow_pos (n - (xs ++ t).length)
  omega

/-- A single position is inside or outside. -/
theorem leaf_decided {xs : List Cell} (h : xs.length = n) (ho : ¬ PathOutside coord lo hi n xs) : PathInside coord lo hi n xs := by
  intro ax
  have h1 : ¬ (lowEnd coord n xs ax + 2 ^ (n - xs.length) ≤ lo ax ∨ hi ax ≤ lowEnd coord n xs ax) := fun h => ho ⟨ax, h⟩
  rw [h, Nat.sub_self] at h1 ⊢
  omega

theorem inside_of_covers {xs : List Cell} (h : ∀ q, PathCovers coord n xs q → ∀ ax, lo ax ≤ q ax ∧ q ax < hi ax) :
    PathInside coord lo hi n xs := by
  intro ax
  have hp := Nat.two_pow_pos (n - xs.length)
  have h1 := h (lowEnd coord n xs) (pathCovers_iff.mpr fun ax => by omega) ax
  have h2 := h (fun ax => lowEnd coord n xs ax + 2 ^ (n - xs.length) - 1) (pathCovers_iff.mpr fun ax => by omega) ax
  omega

theorem covers_of_inside {xs : List Cell} (h : PathInside coord lo hi n xs) {q : Ax → Nat} (hq : PathCovers coord n xs q) (ax : Ax) :
    lo ax ≤ q ax ∧ q ax < hi ax := by
  have h1 := h ax
  have h2 := pathCovers_iff.mp hq ax
  omega

theorem not_outside_of_covers {xs : List Cell} {q : Ax → Nat} (hq : PathCovers coord n xs q)
    (hw : ∀ ax, lo ax ≤ q ax ∧ q ax < hi ax) : ¬ PathOutside coord lo hi n xs := by
  rintro ⟨ax, h⟩
  have h1 := hw ax
  have h2 := pathCovers_iff.mp hq ax
  omega

/-- A position in the box of a path is in the box of a child. -/
theorem covers_child (hs : ∀ bits : Ax → Bool, ∃ v, ∀ ax, coord ax v = bits ax) {xs : List Cell} (h : xs.length < n) {q : Ax → Nat}
    (hq : PathCovers coord n xs q) : ∃ v, PathCovers coord n (xs ++ [v]) q := by
  obtain ⟨v, hv⟩ := hs fun ax => decide (q ax / 2 ^ (n - xs.length - 1) % 2 = 1)
  refine ⟨v, fun ax => ?_⟩
  have h1 := hq ax
  have e : 2 ^ (n - xs.length) = 2 ^ (n - xs.length - 1) * 2 := by
    rw [← Nat.pow_succ]
    congr 1
    omega
  rw [e, ← Nat.div_div_eq_div_mul] at h1
  rw [List.map_append, List.map_singleton, binary_append, hv, List.length_append, List.length_singleton, ← Nat.sub_sub, ← h1]
  generalize q ax / 2 ^ (n - xs.length - 1) = k
  rcases Nat.mod_two_eq_zero_or_one k with h | h <;> rw [h] <;> simp <;> omega

/-- One path sorts before the other and neither is a prefix of the other. -/
def Apart (key : Cell → Nat) (a b : List Cell) : Prop := pathCmp key a b = .lt ∧ ¬ a <+: b ∧ ¬ b <+: a

theorem apart_branch (key : Cell → Nat) {v w : Cell} (h : key v < key w) (xs s t : List Cell) :
    Apart key (xs ++ v :: s) (xs ++ w :: t) := by
  have hne : v ≠ w := fun e => by rw [e] at h; omega
  refine ⟨pathCmp_branch key h xs s t, fun hp => ?_, fun hp => ?_⟩
  · rw [List.prefix_append_right_inj, List.cons_prefix_cons] at hp
    exact hne hp.1
  · rw [List.prefix_append_right_inj, List.cons_prefix_cons] at hp
    exact hne hp.1.symm

/-- What a query below a node with path `xs` returns. -/
structure Queried (ok : M → Prop) (p : M → List Cell) (key : Cell → Nat) (coord : Ax → Cell → Bool) (lo hi : Ax → Nat) (n : Nat)
    (xs : List Cell) (ms : List M) : Prop where
  all : ∀ a ∈ ms, ok a ∧ xs <+: p a ∧ (p a).length ≤ n ∧ PathInside coord lo hi n (p a)
  sorted : ms.Pairwise (fun a b => Apart key (p a) (p b))
  complete : ∀ q, PathCovers coord n xs q → (∀ ax, lo ax ≤ q ax ∧ q ax < hi ax) → ∃ a ∈ ms, PathCovers coord n (p a) q
  maximal : ∀ t : List Cell, (xs ++ t).length ≤ n → PathInside coord lo hi n (xs ++ t) → ∃ a ∈ ms, p a <+: xs ++ t

variable [VariableDepthMortonIndex M Cell] {c : Cfg} {ok : M → Prop} {p : M → List Cell} {wr : Cell → Cell} {key : Cell → Nat}
  {room room' : M → Nat → Prop} {limit : Option Nat} {order : List Cell} {test : M → Res Verdict}

theorem query_children (hD : DescLike c ok p room limit) {m : M} (hm : ok m) (k : Nat) (h1 : room m 1)
    (he : ¬ Exceeds limit ((p m).length + 1))
    (ih : ∀ a v, ok a → p a = p m ++ [v] → ∃ ms, query c test order k a = .ok ms ∧ Queried ok p key coord lo hi n (p a) ms)
    (vs : List Cell) (hvs : vs.Pairwise (fun v w => key v < key w)) :
    ∃ parts, (vs.mapM fun v => do
        match ← child c m v with
        | none => .ok []
        | some a => query c test order k a) = .ok parts ∧
      (∀ a ∈ parts.flatten, ok a ∧ (∃ v ∈ vs, ∃ t, p a = p m ++ v :: t) ∧ (p a).length ≤ n ∧ PathInside coord lo hi n (p a)) ∧
      parts.flatten.Pairwise (fun a b => Apart key (p a) (p b)) ∧
      (∀ v ∈ vs, ∀ q, PathCovers coord n (p m ++ [v]) q → (∀ ax, lo ax ≤ q ax ∧ q ax < hi ax) →
        ∃ a ∈ parts.flatten, PathCovers coord n (p a) q) ∧
      ∀ v ∈ vs, ∀ t : List Cell, (p m ++ v :: t).length ≤ n → PathInside coord lo hi n (p m ++ v :: t) →
        ∃ a ∈ parts.flatten, p a <+: p m ++ v :: t := by
  induction vs with
  | nil => exact ⟨[], rfl, by simp, by simp, by simp, by simp⟩
  | cons v vs ihv =>
    rw [List.pairwise_cons] at hvs
    obtain ⟨parts, e1, e2, e3, e4, e5⟩ := ihv hvs.2
    have hchild : child c m v = descendant c m [v] := rfl
    obtain ⟨a, a1, a2, a3⟩ := hD.yes m hm [v] h1 he
    obtain ⟨ms, w1, w2⟩ := ih a v a2 a3
    refine ⟨ms :: parts, ?_, ?_, ?_, ?_, ?_⟩
    · rw [List.mapM_cons, hchild, a1, e1]
      simp only [ok_bind, w1]
      rfl
    · intro b hb
      rw [List.flatten_cons, List.mem_append] at hb
      rcases hb with hb | hb
      · obtain ⟨g1, ⟨t, g2⟩, g3, g4⟩ := w2.all b hb
        rw [a3] at g2
        exact ⟨g1, ⟨v, List.mem_cons_self, t, by rw [← g2]; simp⟩, g3, g4⟩
      · obtain ⟨g1, ⟨u, g2, g3⟩, g4⟩ := e2 b hb
        exact ⟨g1, ⟨u, List.mem_cons_of_mem _ g2, g3⟩, g4⟩
    · rw [List.flatten_cons, List.pairwise_append]
      refine ⟨w2.sorted, e3, fun x hx y hy => ?_⟩
      obtain ⟨-, ⟨t, g2⟩, -⟩ := w2.all x hx
      obtain ⟨-, ⟨u, g3, s, g4⟩, -⟩ := e2 y hy
      rw [a3] at g2
      rw [← g2, g4, List.append_assoc]
      exact apart_branch key (hvs.1 u g3) _ _ _
    · intro u hu q hq hw
      simp only [List.flatten_cons, List.mem_append]
      rw [List.mem_cons] at hu
      rcases hu with rfl | hu
      · obtain ⟨b, b1, b2⟩ := w2.complete q (by rw [a3]; exact hq) hw
        exact ⟨b, .inl b1, b2⟩
      · obtain ⟨b, b1, b2⟩ := e4 u hu q hq hw
        exact ⟨b, .inr b1, b2⟩
    · intro u hu t ht hin
      simp only [List.flatten_cons, List.mem_append]
      rw [List.mem_cons] at hu
      rcases hu with rfl | hu
      · have e : p m ++ u :: t = p a ++ t := by rw [a3]; simp
        rw [e] at ht hin ⊢
        obtain ⟨b, b1, b2⟩ := w2.maximal t ht hin
        exact ⟨b, .inl b1, b2⟩
      · obtain ⟨b, b1, b2⟩ := e5 u hu t ht hin
        exact ⟨b, .inr b1, b2⟩

theorem query_queried (hD : DescLike c ok p room limit) (hord : order.Pairwise (fun v w => key v < key w)) (hall : ∀ v, v ∈ order)
    (hs : ∀ bits : Ax → Bool, ∃ v, ∀ ax, coord ax v = bits ax)
    (hr : ∀ m, ok m → ∀ k, room' m (k + 1) → room m 1 ∧ ¬ Exceeds limit ((p m).length + 1) ∧
      ∀ a v, ok a → p a = p m ++ [v] → room' a k)
    (hT : ∀ m, ok m → (p m).length ≤ n → ∃ v, test m = .ok v ∧ (v = .inside ↔ PathInside coord lo hi n (p m)) ∧
      (v = .outside ↔ PathOutside coord lo hi n (p m)))
    (k : Nat) : ∀ m, ok m → (p m).length + k = n → room' m k →
      ∃ ms, query c test order k m = .ok ms ∧ Queried ok p key coord lo hi n (p m) ms := by
  have here : ∀ m, ok m → (p m).length ≤ n → PathInside coord lo hi n (p m) → Queried ok p key coord lo hi n (p m) [m] := by
    intro m hm hl hin
    refine ⟨?_, by simp, fun q hq _ => ⟨m, by simp, hq⟩, fun t _ _ => ⟨m, by simp, List.prefix_append _ _⟩⟩
    intro a ha
    rw [List.mem_singleton] at ha
    subst ha
    exact ⟨hm, List.prefix_rfl, hl, hin⟩
  have nothing : ∀ m, ok m → PathOutside coord lo hi n (p m) → Queried ok p key coord lo hi n (p m) [] := by
    intro m hm ho
    exact ⟨by simp, by simp, fun q hq hw => absurd ho (not_outside_of_covers hq hw),
      fun t ht hin => (not_inside_outside ht hin ho).elim⟩
  induction k with
  | zero =>
    intro m hm hl _
    obtain ⟨v, v1, v2, v3⟩ := hT m hm (by omega)
    rw [query, v1]
    cases v with
    | inside => exact ⟨[m], rfl, here m hm (by omega) (v2.mp rfl)⟩
    | outside => exact ⟨[], rfl, nothing m hm (v3.mp rfl)⟩
    | partly =>
      exfalso
      have : PathInside coord lo hi n (p m) := leaf_decided (by omega) fun h => by have := v3.mpr h; simp at this
      have := v2.mpr this
      simp at this
  | succ k ih =>
    intro m hm hl hrm
    obtain ⟨v, v1, v2, v3⟩ := hT m hm (by omega)
    rw [query, v1]
    cases v with
    | inside => exact ⟨[m], rfl, here m hm (by omega) (v2.mp rfl)⟩
    | outside => exact ⟨[], rfl, nothing m hm (v3.mp rfl)⟩
    | partly =>
      obtain ⟨r1, r2, r3⟩ := hr m hm k hrm
      obtain ⟨parts, e1, e2, e3, e4, e5⟩ := query_children (key := key) (coord := coord) (lo := lo) (hi := hi) (n := n) hD hm k r1 r2
        (fun a v ha hp => ih a ha (by rw [hp, List.length_append, List.length_singleton]; omega) (r3 a v ha hp)) order hord
      refine ⟨parts.flatten, ?_, ⟨?_, e3, ?_, ?_⟩⟩
      · simp only [ok_bind, e1]
        rfl
      · intro a ha
        obtain ⟨g1, ⟨v, -, t, g3⟩, g4, g5⟩ := e2 a ha
        exact ⟨g1, ⟨v :: t, g3.symm⟩, g4, g5⟩
      · intro q hq hw
        obtain ⟨v, hv⟩ := covers_child hs (by omega) hq
        exact e4 v (hall v) q hv hw
      · intro t ht hin
        cases t with
        | nil =>
          rw [List.append_nil] at hin
          have := v2.mpr hin
          simp at this
        | cons v t => exact e5 v (hall v) t ht hin

end paths

/-! ## The query on indices -/

variable {c : Cfg}

/-- The x axis and the y axis of a cell. -/
def axes2 (o : QuadrantOrdering) (ax : Bool) : Quadrant → Bool := if ax then quadrantX o else quadrantY o

/-- The ends of a window on the x axis and the y axis. -/
def Window2D.lo (b : Window2D) (ax : Bool) : Nat := if ax then b.xlo else b.ylo

def Window2D.hi (b : Window2D) (ax : Bool) : Nat := if ax then b.xhi else b.yhi

/-- The verdict on a node is right. -/
theorem Window2D.test_ok {S : Type} [Storage S Quadrant] [BitStorage S Quadrant] (hc : c.Supported) {ok : MortonIndex2D S → Prop}
    {wr : Quadrant → Quadrant} (hwf : ∀ m, ok m → WF c m.storage) (h : ListLike c ok (cells2 (S := S)) wr) (b : Window2D)
    (o : QuadrantOrdering) {n : Nat} (hn : n ≤ c.ptrBits) : ∀ a, ok a → (cells2 a).length ≤ n → ∃ v, b.test c o n a = .ok v ∧
      (v = .inside ↔ PathInside (axes2 o) b.lo b.hi n (cells2 a)) ∧ (v = .outside ↔ PathOutside (axes2 o) b.lo b.hi n (cells2 a)) := by
  intro a ha hl
  obtain ⟨g, g1, g2, g3⟩ := toGridIndex_binary2 hc (hwf a ha)
    (by have := h.depth_eq a ha; change Storage.depth a.storage = _ at this; omega) o
  have hin : PathInside (axes2 o) b.lo b.hi n (cells2 a) ↔
      (b.xlo ≤ g.x.toNat * 2 ^ (n - depth a) ∧ g.x.toNat * 2 ^ (n - depth a) + 2 ^ (n - depth a) ≤ b.xhi) ∧
      b.ylo ≤ g.y.toNat * 2 ^ (n - depth a) ∧ g.y.toNat * 2 ^ (n - depth a) + 2 ^ (n - depth a) ≤ b.yhi := by
    rw [g2, g3, h.depth_eq a ha]
    constructor
    · intro hx
      exact ⟨hx true, hx false⟩
    · rintro ⟨h1, h2⟩ ax
      cases ax
      · exact h2
      · exact h1
  have hout : PathOutside (axes2 o) b.lo b.hi n (cells2 a) ↔
      (g.x.toNat * 2 ^ (n - depth a) + 2 ^ (n - depth a) ≤ b.xlo ∨ b.xhi ≤ g.x.toNat * 2 ^ (n - depth a)) ∨
      g.y.toNat * 2 ^ (n - depth a) + 2 ^ (n - depth a) ≤ b.ylo ∨ b.yhi ≤ g.y.toNat * 2 ^ (n - depth a) := by
    rw [g2, g3, h.depth_eq a ha]
    constructor
    · rintro ⟨ax, hx⟩
      cases ax
      · exact .inr hx
      · exact .inl hx
    · rintro (hx | hx)
      · exact ⟨true, hx⟩
      · exact ⟨false, hx⟩
  have hp := Nat.two_pow_pos (n - depth a)
  rw [hin, hout]
  simp only [Window2D.test, g1, ok_bind]
  split
  · next h1 =>
    refine ⟨_, rfl, by simp [h1], ?_⟩
    simp only [reduceCtorEq, false_iff]
    omega
  · next h1 =>
    split
    · next h2 => exact ⟨_, rfl, by simp only [reduceCtorEq, false_iff]; exact h1, by simp only [true_iff]; exact h2⟩
    · next h2 => exact ⟨_, rfl, by simp only [reduceCtorEq, false_iff]; exact h1, by simp only [reduceCtorEq, false_iff]; exact h2⟩

theorem queriesWindow_of2 {S : Type} [VariableDepthStorage S Quadrant] [BitStorage S Quadrant] [RustOrd (MortonIndex2D S)]
    (hc : c.Supported) {ok : MortonIndex2D S → Prop} {wr : Quadrant → Quadrant} {room room' : MortonIndex2D S → Nat → Prop}
    {limit : Option Nat} (hwf : ∀ m, ok m → WF c m.storage) (h : ListLike c ok (cells2 (S := S)) wr) (hA : AncLike c ok (cells2 (S := S)))
    (hD : DescLike c ok (cells2 (S := S)) room limit) (hC : CmpLike c quadrantKey ok (cells2 (S := S)))
    (hr : ∀ m, ok m → ∀ k, room' m (k + 1) → room m 1 ∧ ¬ Exceeds limit ((cells2 m).length + 1) ∧
      ∀ a v, ok a → cells2 a = cells2 m ++ [v] → room' a k) :
    QueriesWindow2D c ok room' := by
  intro b o n m hm hmn hn hrm
  let coord := axes2 o
  let lo := b.lo
  let hi := b.hi
  have hcov : ∀ a, ok a → depth a ≤ n → ∀ x y, Covers2D c o n a x y ↔ PathCovers coord n (cells2 a) (fun ax => if ax then x else y) := by
    intro a ha hl x y
    rw [covers_iff2 hc (hwf a ha) (by omega), h.depth_eq a ha, PathCovers]
    constructor
    · rintro ⟨h1, h2⟩ ax
      cases ax
      · exact h2
      · exact h1
    · intro hx
      exact ⟨hx true, hx false⟩
  have hcov' : ∀ a, ok a → depth a ≤ n → ∀ q, PathCovers coord n (cells2 a) q ↔ Covers2D c o n a (q true) (q false) := by
    intro a ha hl q
    rw [hcov a ha hl]
    have : (fun ax : Bool => if ax then q true else q false) = q := by funext ax; cases ax <;> rfl
    rw [this]
  have hhas : ∀ x y, b.Has x y ↔ ∀ ax, lo ax ≤ (if ax then x else y) ∧ (if ax then x else y) < hi ax := by
    intro x y
    constructor
    · rintro ⟨h1, h2⟩ ax
      cases ax
      · exact h2
      · exact h1
    · intro hx
      exact ⟨hx true, hx false⟩
  have hT := b.test_ok hc hwf h o hn
  have hs : ∀ bits : Bool → Bool, ∃ v, ∀ ax, coord ax v = bits ax := by
    intro bits
    obtain ⟨cs, h1, h2, h3⟩ := exists_cells2 o 1 (bits true).toNat (bits false).toNat (by cases bits true <;> decide)
      (by cases bits false <;> decide)
    obtain ⟨v, rfl⟩ : ∃ v, cs = [v] := List.length_eq_one_iff.mp h1
    refine ⟨v, fun ax => ?_⟩
    have e : ∀ b b' : Bool, binary [b] = b'.toNat → b = b' := by decide
    cases ax
    · exact e _ _ h3
    · exact e _ _ h2
  obtain ⟨ms, q1, q2⟩ := query_queried (key := quadrantKey) (order := [Quadrant.Zero, .One, .Two, .Three]) (coord := coord) (lo := lo)
    (hi := hi) (n := n) hD (by decide) (fun v => by cases v <;> decide) hs hr hT (n - depth m) m hm
    (by rw [← h.depth_eq m hm]; omega) hrm
  have sub := @inSubtree_iff _ _ _ _ c ok (cells2 (S := S)) wr quadrantKey quadrantKey_inj h hA hC
  have hdep : ∀ a ∈ ms, ok a ∧ depth a ≤ n := fun a ha => ⟨(q2.all a ha).1, by rw [h.depth_eq a (q2.all a ha).1]; exact (q2.all a ha).2.2.1⟩
  refine ⟨ms, q1, fun a ha => ⟨(hdep a ha).1, (hdep a ha).2, ?_⟩, ?_, ?_, fun x y => ⟨?_, ?_⟩, ?_⟩
  · rw [sub hm (hdep a ha).1]
    exact (q2.all a ha).2.1
  · refine List.Pairwise.imp_of_mem ?_ q2.sorted
    intro x y hx hy hxy
    rw [RustOrd.lt, (hC x y (hdep x hx).1 (hdep y hy).1).2, hxy.1]
    rfl
  · refine List.Pairwise.imp_of_mem ?_ q2.sorted
    intro x y hx hy hxy
    rw [sub (hdep x hx).1 (hdep y hy).1, sub (hdep y hy).1 (hdep x hx).1]
    exact hxy.2
  · rintro ⟨a, ha, hcv⟩
    obtain ⟨g1, ⟨t, g2⟩, g3, g4⟩ := q2.all a ha
    have hpc := (hcov a g1 (hdep a ha).2 x y).mp hcv
    refine ⟨?_, (hhas x y).mpr fun ax => covers_of_inside g4 hpc ax⟩
    rw [hcov m hm hmn, pathCovers_iff]
    intro ax
    have h1 := pathCovers_iff.mp hpc ax
    rw [← g2] at h1 g3
    have h2 := lowEnd_append (coord := coord) g3 ax
    omega
  · rintro ⟨h1, h2⟩
    obtain ⟨a, ha, h3⟩ := q2.complete _ ((hcov m hm hmn x y).mp h1) ((hhas x y).mp h2)
    exact ⟨a, ha, (hcov a (hdep a ha).1 (hdep a ha).2 x y).mpr h3⟩
  · intro a ha hl hsub hin
    obtain ⟨t, ht⟩ := (sub hm ha).mp hsub
    have hla : (cells2 a).length ≤ n := by rw [← h.depth_eq a ha]; exact hl
    have : PathInside coord lo hi n (cells2 a) := by
      refine inside_of_covers fun q hq ax => ?_
      have := (hhas _ _).mp (hin _ _ ((hcov' a ha hl q).mp hq)) ax
      cases ax <;> exact this
    rw [← ht] at this hla
    obtain ⟨a', g1, g2⟩ := q2.maximal t hla this
    rw [ht] at g2
    exact ⟨a', g1, (sub (hdep a' g1).1 ha).mpr g2⟩

/-- The verdict on a node is right. -/
theorem Window3D.test_ok {S : Type} [Storage S Octant] [BitStorage S Octant] (hc : c.Supported) {ok : MortonIndex3D S → Prop}
    {wr : Octant → Octant} (hwf : ∀ m, ok m → WF c m.storage) (h : ListLike c ok (cells3 (S := S)) wr) (b : Window3D) (o : OctantOrdering)
    {n : Nat} (hn : n ≤ c.ptrBits) : ∀ a, ok a → (cells3 a).length ≤ n → ∃ v, b.test c o n a = .ok v ∧
      (v = .inside ↔ PathInside (octantCoord o) b.lo b.hi n (cells3 a)) ∧
      (v = .outside ↔ PathOutside (octantCoord o) b.lo b.hi n (cells3 a)) := by
  intro a ha hl
  obtain ⟨g, g1, g2, g3, g4⟩ := toGridIndex_binary3 hc (hwf a ha)
    (by have := h.depth_eq a ha; change Storage.depth a.storage = _ at this; omega) o
  have hin : PathInside (octantCoord o) b.lo b.hi n (cells3 a) ↔
      (b.lo .X ≤ g.x.toNat * 2 ^ (n - depth a) ∧ g.x.toNat * 2 ^ (n - depth a) + 2 ^ (n - depth a) ≤ b.hi .X) ∧
      (b.lo .Y ≤ g.y.toNat * 2 ^ (n - depth a) ∧ g.y.toNat * 2 ^ (n - depth a) + 2 ^ (n - depth a) ≤ b.hi .Y) ∧
      b.lo .Z ≤ g.z.toNat * 2 ^ (n - depth a) ∧ g.z.toNat * 2 ^ (n - depth a) + 2 ^ (n - depth a) ≤ b.hi .Z := by
    rw [g2, g3, g4, h.depth_eq a ha]
    constructor
    · intro hx
      exact ⟨hx .X, hx .Y, hx .Z⟩
    · rintro ⟨h1, h2, h3⟩ ax
      cases ax
      · exact h1
      · exact h2
      · exact h3
  have hout : PathOutside (octantCoord o) b.lo b.hi n (cells3 a) ↔
      (g.x.toNat * 2 ^ (n - depth a) + 2 ^ (n - depth a) ≤ b.lo .X ∨ b.hi .X ≤ g.x.toNat * 2 ^ (n - depth a)) ∨
      (g.y.toNat * 2 ^ (n - depth a) + 2 ^ (n - depth a) ≤ b.lo .Y ∨ b.hi .Y ≤ g.y.toNat * 2 ^ (n - depth a)) ∨
      g.z.toNat * 2 ^ (n - depth a) + 2 ^ (n - depth a) ≤ b.lo .Z ∨ b.hi .Z ≤ g.z.toNat * 2 ^ (n - depth a) := by
    rw [g2, g3, g4, h.depth_eq a ha]
    constructor
    · rintro ⟨ax, hx⟩
      cases ax
      · exact .inl hx
      · exact .inr (.inl hx)
      · exact .inr (.inr hx)
    · rintro (hx | hx | hx)
      · exact ⟨.X, hx⟩
      · exact ⟨.Y, hx⟩
      · exact ⟨.Z, hx⟩
  have hp := Nat.two_pow_pos (n - depth a)
  rw [hin, hout]
  simp only [Window3D.test, g1, ok_bind]
  split
  · next h1 =>
    refine ⟨_, rfl, by simp [h1], ?_⟩
    simp only [reduceCtorEq, false_iff]
    omega
  · next h1 =>
    split
    · next h2 => exact ⟨_, rfl, by simp only [reduceCtorEq, false_iff]; exact h1, by simp only [true_iff]; exact h2⟩
    · next h2 => exact ⟨_, rfl, by simp only [reduceCtorEq, false_iff]; exact h1, by simp only [reduceCtorEq, false_iff]; exact h2⟩

theorem queriesWindow_of3 {S : Type} [VariableDepthStorage S Octant] [BitStorage S Octant] [RustOrd (MortonIndex3D S)]
    (hc : c.Supported) {ok : MortonIndex3D S → Prop} {wr : Octant → Octant} {room room' : MortonIndex3D S → Nat → Prop}
    {limit : Option Nat} (hwf : ∀ m, ok m → WF c m.storage) (h : ListLike c ok (cells3 (S := S)) wr) (hA : AncLike c ok (cells3 (S := S)))
    (hD : DescLike c ok (cells3 (S := S)) room limit) (hC : CmpLike c octantKey ok (cells3 (S := S)))
    (hr : ∀ m, ok m → ∀ k, room' m (k + 1) → room m 1 ∧ ¬ Exceeds limit ((cells3 m).length + 1) ∧
      ∀ a v, ok a → cells3 a = cells3 m ++ [v] → room' a k) :
    QueriesWindow3D c ok room' := by
  intro b o n m hm hmn hn hrm
  have hcov : ∀ a, ok a → depth a ≤ n → ∀ q, Covers3D c o n a q ↔ PathCovers (octantCoord o) n (cells3 a) q := by
    intro a ha hl q
    rw [covers_iff3 hc (hwf a ha) (by omega), h.depth_eq a ha]
    rfl
  have hT := b.test_ok hc hwf h o hn
  have hs : ∀ bits : Axis → Bool, ∃ v, ∀ ax, octantCoord o ax v = bits ax := by
    intro bits
    obtain ⟨cs, h1, h2⟩ := exists_cells3 o 1 (fun ax => (bits ax).toNat) (fun ax => by cases bits ax <;> decide)
    obtain ⟨v, rfl⟩ : ∃ v, cs = [v] := List.length_eq_one_iff.mp h1
    have e : ∀ b b' : Bool, binary [b] = b'.toNat → b = b' := by decide
    exact ⟨v, fun ax => e _ _ (h2 ax)⟩
  obtain ⟨ms, q1, q2⟩ := query_queried (key := octantKey)
    (order := [Octant.Zero, .One, .Two, .Three, .Four, .Five, .Six, .Seven]) (coord := octantCoord o) (lo := b.lo)
    (hi := b.hi) (n := n) hD (by decide) (fun v => by cases v <;> decide) hs hr hT (n - depth m) m hm
    (by rw [← h.depth_eq m hm]; omega) hrm
  have sub := @inSubtree_iff _ _ _ _ c ok (cells3 (S := S)) wr octantKey octantKey_inj h hA hC
  have hdep : ∀ a ∈ ms, ok a ∧ depth a ≤ n := fun a ha =>
    ⟨(q2.all a ha).1, by rw [h.depth_eq a (q2.all a ha).1]; exact (q2.all a ha).2.2.1⟩
  refine ⟨ms, q1, fun a ha => ⟨(hdep a ha).1, (hdep a ha).2, ?_⟩, ?_, ?_, fun q => ⟨?_, ?_⟩, ?_⟩
  · rw [sub hm (hdep a ha).1]
    exact (q2.all a ha).2.1
  · refine List.Pairwise.imp_of_mem ?_ q2.sorted
    intro x y hx hy hxy
    rw [RustOrd.lt, (hC x y (hdep x hx).1 (hdep y hy).1).2, hxy.1]
    rfl
  · refine List.Pairwise.imp_of_mem ?_ q2.sorted
    intro x y hx hy hxy
    rw [sub (hdep x hx).1 (hdep y hy).1, sub (hdep y hy).1 (hdep x hx).1]
    exact hxy.2
  · rintro ⟨a, ha, hcv⟩
    obtain ⟨g1, ⟨t, g2⟩, g3, g4⟩ := q2.all a ha
    have hpc := (hcov a g1 (hdep a ha).2 q).mp hcv
    refine ⟨?_, fun ax => covers_of_inside g4 hpc ax⟩
    rw [hcov m hm hmn, pathCovers_iff]
    intro ax
    have h1 := pathCovers_iff.mp hpc ax
    rw [← g2] at h1 g3
    have h2 := lowEnd_append (coord := octantCoord o) g3 ax
    omega
  · rintro ⟨h1, h2⟩
    obtain ⟨a, ha, h3⟩ := q2.complete _ ((hcov m hm hmn q).mp h1) h2
    exact ⟨a, ha, (hcov a (hdep a ha).1 (hdep a ha).2 q).mpr h3⟩
  · intro a ha hl hsub hin
    obtain ⟨t, ht⟩ := (sub hm ha).mp hsub
    have hla : (cells3 a).length ≤ n := by rw [← h.depth_eq a ha]; exact hl
    have : PathInside (octantCoord o) b.lo b.hi n (cells3 a) :=
      inside_of_covers fun q hq ax => hin _ ((hcov a ha hl q).mpr hq) ax
    rw [← ht] at this hla
    obtain ⟨a', g1, g2⟩ := q2.maximal t hla this
    rw [ht] at g2
    exact ⟨a', g1, (sub (hdep a' g1).1 ha).mpr g2⟩

/-! ## Corners -/

theorem cornersEnclose_of2 {S : Type} [Storage S Quadrant] [RustOrd (MortonIndex2D S)] {ok : MortonIndex2D S → Prop}
    (h : OrderIsZOrder2D c ok) : CornersEnclose2D c ok := by
  intro a m b ha hm hb e1 e2 hd o ga gm gb h1 h2 h3 x1 x2 y1 y2
  obtain ⟨g1, g2, f1, f2, -, -, -, f3⟩ := h a m ha hm e1 (by omega) o
  obtain ⟨k1, k2, l1, l2, -, -, -, l3⟩ := h m b hm hb e2 hd o
  rw [h1] at f1
  rw [h2] at f2 l1
  rw [h3] at l2
  cases f1; cases f2; cases l1; cases l2
  exact ⟨f3 x1 y1, l3 x2 y2⟩

theorem cornersEnclose_of3 {S : Type} [Storage S Octant] [RustOrd (MortonIndex3D S)] {ok : MortonIndex3D S → Prop}
    (h : OrderIsZOrder3D c ok) : CornersEnclose3D c ok := by
  intro a m b ha hm hb e1 e2 hd o ga gm gb h1 h2 h3 hx
  obtain ⟨g1, g2, f1, f2, -, -, -, f3⟩ := h a m ha hm e1 (by omega) o
  obtain ⟨k1, k2, l1, l2, -, -, -, l3⟩ := h m b hm hb e2 hd o
  rw [h1] at f1
  rw [h2] at f2 l1
  rw [h3] at l2
  cases f1; cases f2; cases l1; cases l2
  exact ⟨f3 (hx .X).1 (hx .Y).1 (hx .Z).1, l3 (hx .X).2 (hx .Y).2 (hx .Z).2⟩

theorem cornersShare_of2 {S : Type} [VariableDepthStorage S Quadrant] [RustOrd (MortonIndex2D S)] {ok : MortonIndex2D S → Prop}
    (h : CornersEnclose2D c ok) (h' : SubtreeContiguous c ok) : CornersShareAncestors2D c ok := by
  intro a m b ha hm hb e1 e2 hd o ga gm gb h1 h2 h3 x1 x2 y1 y2 r hr ra rb
  obtain ⟨k1, k2⟩ := h a m b ha hm hb e1 e2 hd o ga gm gb h1 h2 h3 x1 x2 y1 y2
  exact h'.2 r a m b hr ha hm hb ra rb k1 k2

theorem cornersShare_of3 {S : Type} [VariableDepthStorage S Octant] [RustOrd (MortonIndex3D S)] {ok : MortonIndex3D S → Prop}
    (h : CornersEnclose3D c ok) (h' : SubtreeContiguous c ok) : CornersShareAncestors3D c ok := by
  intro a m b ha hm hb e1 e2 hd o ga gm gb h1 h2 h3 hx r hr ra rb
  obtain ⟨k1, k2⟩ := h a m b ha hm hb e1 e2 hd o ga gm gb h1 h2 h3 hx
  exact h'.2 r a m b hr ha hm hb ra rb k1 k2

/-! ## C97 -/

/-- `room` says that the nodes of depth `n` fit. Dynamic indices are made on targets where writes work (C47). -/
theorem C97_window_query_2D (hc : c.Supported) :
    (∀ w, QueriesWindow2D c (fun m => Reach2D c .all (.static w m)) (fun m n => depth m + n ≤ w / 2)) ∧
    (DynWrites c → QueriesWindow2D c (fun m => Reach2D c .all (.dynamic m)) (fun m n => Addressable c ((depth m + n) * 2))) := by
  refine ⟨fun w => ?_, fun hw => ?_⟩
  · refine queriesWindow_of2 hc (static_wf2 hc) (static_list2 hc) (static_anc2 hc) (static_desc2 hc) (static_cmp2 hc) (fun m hm k hr => ?_)
    have e := (static_list2 hc).depth_eq m hm
    refine ⟨one_lt_isize hc (x := Quadrant.Zero), ?_, fun a v ha ea => ?_⟩
    · change ¬ _ < _
      omega
    · have e2 := (static_list2 hc).depth_eq a ha
      rw [ea, List.length_append, List.length_singleton] at e2
      omega
  · refine queriesWindow_of2 hc (dynamic_wf2 hc) (dynamic_list2 hc hw) (dynamic_anc2 hc) (dynamic_desc2 hc hw) (dynamic_cmp2 hc)
      (fun m hm k hr => ⟨?_, id, fun a v ha ea => ?_⟩)
    · unfold dynRoom2 Addressable at *
      omega
    · have e2 := (dynamic_list2' hc).depth_eq a ha
      rw [ea, List.length_append, ← (dynamic_list2' hc).depth_eq m hm, List.length_singleton] at e2
      rw [e2]
      unfold Addressable at *
      omega

theorem C97_window_query_3D (hc : c.Supported) :
    (∀ w, QueriesWindow3D c (fun m => Reach3D c .all (.static w m)) (fun m n => depth m + n ≤ w / 3)) ∧
    (DynWrites c → QueriesWindow3D c (fun m => Reach3D c .all (.dynamic m)) (fun m n => Addressable c ((depth m + n) * 3))) := by
  refine ⟨fun w => ?_, fun hw => ?_⟩
  · refine queriesWindow_of3 hc (static_wf3 hc) (static_list3 hc) (static_anc3 hc) (static_desc3 hc) (static_cmp3 hc) (fun m hm k hr => ?_)
    have e := (static_list3 hc).depth_eq m hm
    refine ⟨one_lt_isize hc (x := Octant.Zero), ?_, fun a v ha ea => ?_⟩
    · change ¬ _ < _
      omega
    · have e2 := (static_list3 hc).depth_eq a ha
      rw [ea, List.length_append, List.length_singleton] at e2
      omega
  · refine queriesWindow_of3 hc (dynamic_wf3 hc) (dynamic_list3 hc hw) (dynamic_anc3 hc) (dynamic_desc3 hc hw) (dynamic_cmp3 hc)
      (fun m hm k hr => ⟨?_, id, fun a v ha ea => ?_⟩)
    · unfold dynRoom3 Addressable at *
      omega
    · have e2 := (dynamic_list3' hc).depth_eq a ha
      rw [ea, List.length_append, ← (dynamic_list3' hc).depth_eq m hm, List.length_singleton] at e2
      rw [e2]
      unfold Addressable at *
      omega

theorem C97_window_corners_2D (hc : c.Supported) :
    (∀ w, CornersEnclose2D c (fun m => Reach2D c .all (.fixed w m))) ∧
    (∀ w, CornersEnclose2D c (fun m => Reach2D c .all (.static w m)) ∧ CornersShareAncestors2D c (fun m => Reach2D c .all (.static w m))) ∧
    CornersEnclose2D c (fun m => Reach2D c .all (.dynamic m)) ∧ CornersShareAncestors2D c (fun m => Reach2D c .all (.dynamic m)) := by
  obtain ⟨h1, h2, h3⟩ := C66_order_is_z_order_2D hc
  obtain ⟨k1, k2⟩ := C18_subtree_contiguous_2D hc
  exact ⟨fun w => cornersEnclose_of2 (h1 w), fun w => ⟨cornersEnclose_of2 (h2 w), cornersShare_of2 (cornersEnclose_of2 (h2 w)) (k1 w)⟩,
    cornersEnclose_of2 h3, cornersShare_of2 (cornersEnclose_of2 h3) k2⟩

theorem C97_window_corners_3D (hc : c.Supported) :
    (∀ w, CornersEnclose3D c (fun m => Reach3D c .canonical (.fixed w m))) ∧
    (∀ w, CornersEnclose3D c (fun m => Reach3D c .all (.static w m)) ∧ CornersShareAncestors3D c (fun m => Reach3D c .all (.static w m))) ∧
    CornersEnclose3D c (fun m => Reach3D c .all (.dynamic m)) ∧ CornersShareAncestors3D c (fun m => Reach3D c .all (.dynamic m)) := by
  obtain ⟨h1, h2, h3⟩ := C66_order_is_z_order_3D hc
  obtain ⟨k1, k2⟩ := C18_subtree_contiguous_3D hc
  exact ⟨fun w => cornersEnclose_of3 (h1 w), fun w => ⟨cornersEnclose_of3 (h2 w), cornersShare_of3 (cornersEnclose_of3 (h2 w)) (k1 w)⟩,
    cornersEnclose_of3 h3, cornersShare_of3 (cornersEnclose_of3 h3) k2⟩

/-! ## Examples -/

/-- The root of a static `u16` quadtree. -/
def exRoot2 : MortonIndex2D (StaticStorage2D 16) := ⟨⟨0#16, 0⟩⟩

/-- The 3 × 4 window from (1, 2) on in the grid of depth 3: two squares of side 2 and four of side 1. -/
example : (query x64 ((⟨1, 4, 2, 6⟩ : Window2D).test x64 .XY 3) [Quadrant.Zero, .One, .Two, .Three] 3 exRoot2).toOption.map
    (·.map fun m => depth m) = some [3, 3, 2, 3, 3, 2] := by decide +kernel

theorem exRoot2_reach : Reach2D x64 .all (.static 16 exRoot2) := .staticTryFromSlice (w := 16) (cs := []) (by decide) (by decide +kernel)

/-- The theorem applied to it. -/
example : ∃ ms, query x64 ((⟨1, 4, 2, 6⟩ : Window2D).test x64 .XY 3) [Quadrant.Zero, .One, .Two, .Three] 3 exRoot2 = .ok ms ∧
    Disjoint x64 ms ∧ ∀ x y, (∃ a ∈ ms, Covers2D x64 .XY 3 a x y) ↔
      Covers2D x64 .XY 3 exRoot2 x y ∧ (1 ≤ x ∧ x < 4) ∧ 2 ≤ y ∧ y < 6 := by
  obtain ⟨ms, h1, -, -, h2, h3, -⟩ := (C97_window_query_2D x64_supported).1 16 ⟨1, 4, 2, 6⟩ .XY 3 exRoot2 exRoot2_reach
    (by decide) (by decide) (by decide)
  exact ⟨ms, h1, h2, h3⟩

/-- Below the dynamic node of the examples, two levels down. -/
example (b : Window2D) : ∃ ms, query x64 (b.test x64 .XY 5) [Quadrant.Zero, .One, .Two, .Three] 2 exD2 = .ok ms ∧ Disjoint x64 ms := by
  obtain ⟨ms, h1, -, -, h2, -⟩ := (C97_window_query_2D x64_supported).2 x64_writes b .XY 5 exD2 (exD2_reach _)
    (by decide) (by decide) (show (3 + (5 - 3)) * 2 + 64 < 2 ^ 64 by decide)
  exact ⟨ms, h1, h2⟩

/-- (2, 1) ≤ (2, 3) ≤ (3, 4) along both axes. -/
example : let a : MortonIndex2D (StaticStorage2D 16) := ⟨⟨6144#16, 3⟩⟩; let m : MortonIndex2D (StaticStorage2D 16) := ⟨⟨14336#16, 3⟩⟩
    let b : MortonIndex2D (StaticStorage2D 16) := ⟨⟨37888#16, 3⟩⟩
    RustOrd.le x64 a m = .ok true ∧ RustOrd.le x64 m b = .ok true :=
  ((C97_window_corners_2D x64_supported).2.1 16).1 _ _ _
    (.staticTryFromSlice (w := 16) (cs := [.Zero, .One, .Two]) (by decide) (by decide +kernel))
    (.staticTryFromSlice (w := 16) (cs := [.Zero, .Three, .Two]) (by decide) (by decide +kernel))
    (.staticTryFromSlice (w := 16) (cs := [.Two, .One, .One]) (by decide) (by decide +kernel))
    rfl rfl (by decide) .XY ⟨2#64, 1#64⟩ ⟨2#64, 3#64⟩ ⟨3#64, 4#64⟩ (by decide +kernel) (by decide +kernel) (by decide +kernel)
    (by decide) (by decide) (by decide) (by decide)

/-- A box of the octree. -/
example : ∃ ms, query x64 ((⟨fun _ => 1, fun _ => 3⟩ : Window3D).test x64 .XYZ 4)
    [Octant.Zero, .One, .Two, .Three, .Four, .Five, .Six, .Seven] 1 exS3 = .ok ms ∧ Disjoint x64 ms := by
  obtain ⟨ms, h1, -, -, h2, -⟩ := (C97_window_query_3D x64_supported).1 32 ⟨fun _ => 1, fun _ => 3⟩ .XYZ 4 exS3 (exS3_reach _)
    (by decide) (by decide) (by decide)
  exact ⟨ms, h1, h2⟩

end MortonRs
