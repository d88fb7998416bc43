import Verif.Props.Regions

/-! # Nearest neighbours (C117)

The leaf of a list that is nearest to a position of the grid, found by going down the tree and leaving out the nodes whose box is
farther away than the best leaf so far. -/

namespace MortonRs

open MortonIndex VariableDepthMortonIndex

variable {M Cell : Type}

/-! ## Statement -/

/-- Distance of two coordinates. -/
def absDiff (a b : Nat) : Nat := (a - b) + (b - a)

/-- The square of the distance of two positions of the grid. -/
def dist2 (q p : Nat × Nat) : Nat := absDiff q.1 p.1 ^ 2 + absDiff q.2 p.2 ^ 2

/-- The same in 3D. -/
def dist3 (q p : Nat × Nat × Nat) : Nat := absDiff q.1 p.1 ^ 2 + absDiff q.2.1 p.2.1 ^ 2 + absDiff q.2.2 p.2.2 ^ 2

/-- The position `p` of the grid with `2 ^ D` places per axis lies in the box of the node `m`. -/
def InBox2D (c : Cfg) {S : Type} [Storage S Quadrant] (o : QuadrantOrdering) (D : Nat) (m : MortonIndex2D S) (p : Nat × Nat) : Prop :=
  ∃ g, m.toGridIndex c o = .ok g ∧ p.1 / 2 ^ (D - depth m) = g.x.toNat ∧ p.2 / 2 ^ (D - depth m) = g.y.toNat

/-- The same in 3D. -/
def InBox3D (c : Cfg) {S : Type} [Storage S Octant] (o : OctantOrdering) (D : Nat) (m : MortonIndex3D S) (p : Nat × Nat × Nat) : Prop :=
  ∃ g, m.toGridIndex c o = .ok g ∧ p.1 / 2 ^ (D - depth m) = g.x.toNat ∧ p.2.1 / 2 ^ (D - depth m) = g.y.toNat ∧
    p.2.2 / 2 ^ (D - depth m) = g.z.toNat

/-- Client code: the distance of `q` to the places `lo..lo + len`. -/
def axisDist (q lo len : Nat) : Nat := if q < lo then lo - q else q + 1 - (lo + len)

/-- Client code: the square of the distance of `q` to the box of `m`, calculated exactly. -/
def boxDist2 (c : Cfg) {S : Type} [Storage S Quadrant] (o : QuadrantOrdering) (D : Nat) (q : Nat × Nat) (m : MortonIndex2D S) :
    Res Nat := do
  let g ← m.toGridIndex c o
  let s := 2 ^ (D - depth m)
  return axisDist q.1 (g.x.toNat * s) s ^ 2 + axisDist q.2 (g.y.toNat * s) s ^ 2

/-- The same in 3D. -/
def boxDist3 (c : Cfg) {S : Type} [Storage S Octant] (o : OctantOrdering) (D : Nat) (q : Nat × Nat × Nat) (m : MortonIndex3D S) :
    Res Nat := do
  let g ← m.toGridIndex c o
  let s := 2 ^ (D - depth m)
  return axisDist q.1 (g.x.toNat * s) s ^ 2 + axisDist q.2.1 (g.y.toNat * s) s ^ 2 + axisDist q.2.2 (g.z.toNat * s) s ^ 2

/-- Client code: take `y` if it is nearer than the best one so far. -/
def closer (dist : M → Res Nat) (best : Option (M × Nat)) (y : M) : Res (Option (M × Nat)) := do
  let d ← dist y
  match best with
  | none => return some (y, d)
  | some (b, e) => return if d < e then some (y, d) else some (b, e)

/-- Client code: look for the nearest one of `ms`, all of them at or below `m`, at most `n` levels down. A node whose box is not
nearer than the best one so far is left out, with all that is below it. -/
def nearest [VariableDepthMortonIndex M Cell] (c : Cfg) (below : M → M → Bool) (order : List Cell) (dist : M → Res Nat) :
    Nat → M → List M → Option (M × Nat) → Res (Option (M × Nat))
  | 0, _, ms, best => ms.foldlM (closer dist) best
  | n + 1, m, ms, best => do
    let d ← dist m
    if ms.isEmpty || best.any (fun b => b.2 ≤ d) then return best
    else do
      let best ← (ms.filter fun y => depth y ≤ depth m).foldlM (closer dist) best
      order.foldlM (init := best) fun best v => do
        match ← child c m v with
        | none => return best
        | some a => nearest c below order dist n a (ms.filter fun y => below a y) best

/-- C117. The search ends with one of the leaves, and no position in the box of any leaf is nearer than its distance, which is that of
a position in its own box. `dist` is the client's distance to a box, `box` and `far` say which positions are in it and how far away
they are. `D` is the depth of the grid: `2 ^ D` places per axis. -/
def FindsNearest [VariableDepthMortonIndex M Cell] [RustOrd M] {P : Type} (c : Cfg) (order : List Cell) (ok : M → Prop)
    (room : M → Nat → Prop) (D : Nat) (box : M → P → Prop) (dist : P → M → Res Nat) (far : P → P → Nat) : Prop :=
  ∀ (below : M → M → Bool), (∀ a b, ok a → ok b → (below a b = true ↔ InSubtree c a b)) →
  ∀ q top n ms, ok top → room top n → depth top + n ≤ D → (∀ y ∈ ms, ok y ∧ InSubtree c top y ∧ depth y ≤ depth top + n) →
    (ms = [] → nearest c below order (dist q) n top ms none = .ok none) ∧
    (ms ≠ [] → ∃ r e, nearest c below order (dist q) n top ms none = .ok (some (r, e)) ∧ r ∈ ms ∧ (∃ p, box r p ∧ far q p = e) ∧
      ∀ y ∈ ms, ∀ p, box y p → e ≤ far q p)

/-! ## The search -/

section search
variable [VariableDepthMortonIndex M Cell] {c : Cfg} {ok : M → Prop} {p : M → List Cell}
  {room room' : M → Nat → Prop} {limit : Option Nat} {order : List Cell} {dist : M → Res Nat} {far : M → Nat} {D : Nat}

/-- `best` is the nearest one of those in `seen`. -/
def Best (far : M → Nat) (seen : M → Prop) : Option (M × Nat) → Prop
  | none => ∀ y, ¬ seen y
  | some (b, e) => seen b ∧ far b = e ∧ ∀ y, seen y → e ≤ far y

omit [VariableDepthMortonIndex M Cell] in
theorem Best.congr {seen seen' : M → Prop} {best : Option (M × Nat)} (h : Best far seen best) (e : ∀ y, seen y ↔ seen' y) :
    Best far seen' best := by
  have : seen = seen' := funext fun y => propext (e y)
  exact this ▸ h

omit [VariableDepthMortonIndex M Cell] in
theorem foldl_closer (ms : List M) (hd : ∀ y ∈ ms, dist y = .ok (far y)) (seen : M → Prop) (best : Option (M × Nat))
    (h : Best far seen best) : ∃ best', ms.foldlM (closer dist) best = .ok best' ∧ Best far (fun y => seen y ∨ y ∈ ms) best' := by
  induction ms generalizing seen best with
  | nil => exact ⟨best, rfl, h.congr fun y => by simp⟩
  | cons m ms ih =>
    have hm : ∃ best1, closer dist best m = .ok best1 ∧ Best far (fun y => seen y ∨ y = m) best1 := by
      unfold closer
      rw [hd m (by simp)]
      cases best with
      | none => exact ⟨some (m, far m), rfl, .inr rfl, rfl, fun y hy => hy.elim (fun hy => absurd hy (h y)) fun hy => by rw [hy]; exact Nat.le_refl _⟩
      | some b =>
        obtain ⟨b, e⟩ := b
        obtain ⟨h1, h2, h3⟩ := h
        simp only [ok_bind]
        by_cases hlt : far m < e
        · refine ⟨some (m, far m), by rw [if_pos hlt]; rfl, .inr rfl, rfl, fun y hy => hy.elim (fun hy => ?_) fun hy => by rw [hy]; exact Nat.le_refl _⟩
          exact Nat.le_trans (Nat.le_of_lt hlt) (h3 y hy)
        · refine ⟨some (b, e), by rw [if_neg hlt]; rfl, .inl h1, h2, fun y hy => hy.elim (h3 y) fun hy => by rw [hy]; omega⟩
    obtain ⟨best1, e1, h1⟩ := hm
    obtain ⟨best2, e2, h2⟩ := ih (fun y hy => hd y (List.mem_cons_of_mem _ hy)) _ best1 h1
    exact ⟨best2, by rw [List.foldlM_cons, e1]; exact e2, h2.congr fun y => by simp [or_assoc]⟩

/-- The children one after the other. -/
theorem nearest_children {below : M → M → Bool} {m : M} {n : Nat} {ms : List M} (hb : ∀ a y, ok a → y ∈ ms → (below a y = true ↔ p a <+: p y))
    (hD : DescLike c ok p room limit) (hm : ok m) (h1 : room m 1) (he : ¬ Exceeds limit ((p m).length + 1))
    (ih : ∀ a v, ok a → p a = p m ++ [v] → ∀ (seen : M → Prop) best, Best far seen best →
      ∃ best', nearest c below order dist n a (ms.filter fun y => below a y) best = .ok best' ∧
        Best far (fun y => seen y ∨ y ∈ ms.filter fun y => below a y) best')
    (vs : List Cell) (seen : M → Prop) (best : Option (M × Nat)) (h : Best far seen best) :
    ∃ best', (vs.foldlM (init := best) fun best v => do
        match ← child c m v with
        | none => return best
        | some a => nearest c below order dist n a (ms.filter fun y => below a y) best) = .ok best' ∧
      Best far (fun y => seen y ∨ y ∈ ms ∧ ∃ v ∈ vs, p m ++ [v] <+: p y) best' := by
  induction vs generalizing seen best with
  | nil => exact ⟨best, rfl, h.congr fun y => by simp⟩
  | cons v vs ihv =>
    have hchild : child c m v = descendant c m [v] := rfl
    obtain ⟨a, a1, a2, a3⟩ := hD.yes m hm [v] h1 he
    obtain ⟨best1, e1, b1⟩ := ih a v a2 a3 seen best h
    obtain ⟨best2, e2, b2⟩ := ihv _ best1 b1
    refine ⟨best2, ?_, b2.congr fun y => ?_⟩
    · rw [List.foldlM_cons, hchild, a1]
      simp only [ok_bind]
      rw [e1]
      exact e2
    · rw [or_assoc, List.mem_filter]
      refine or_congr_right ⟨?_, ?_⟩
      · rintro (⟨h1, h2⟩ | ⟨h1, w, hw, h2⟩)
        · exact ⟨h1, v, by simp, a3 ▸ (hb a y a2 h1).mp h2⟩
        · exact ⟨h1, w, List.mem_cons_of_mem _ hw, h2⟩
      · rintro ⟨h1, w, hw, h2⟩
        rcases List.mem_cons.mp hw with rfl | hw
        · exact .inl ⟨h1, (hb a y a2 h1).mpr (a3 ▸ h2)⟩
        · exact .inr ⟨h1, w, hw, h2⟩

theorem nearest_best {below : M → M → Bool} (hb : ∀ a b, ok a → ok b → (below a b = true ↔ p a <+: p b))
    (hdep : ∀ m, ok m → depth m = (p m).length) (hD : DescLike c ok p room limit) (hall : ∀ v, v ∈ order)
    (hr : ∀ m, ok m → ∀ k, room' m (k + 1) → room m 1 ∧ ¬ Exceeds limit ((p m).length + 1) ∧
      ∀ a v, ok a → p a = p m ++ [v] → room' a k)
    (hdist : ∀ m, ok m → (p m).length ≤ D → dist m = .ok (far m))
    (hmono : ∀ x y, ok x → ok y → (p x).length ≤ D → (p y).length ≤ D → p x <+: p y → far x ≤ far y)
    (n : Nat) : ∀ m, ok m → room' m n → (p m).length + n ≤ D → ∀ ms : List M,
      (∀ y ∈ ms, ok y ∧ p m <+: p y ∧ (p y).length ≤ (p m).length + n) → ∀ (seen : M → Prop) best, Best far seen best →
      ∃ best', nearest c below order dist n m ms best = .ok best' ∧ Best far (fun y => seen y ∨ y ∈ ms) best' := by
  induction n with
  | zero =>
    intro m hm _ hl ms hms seen best h
    exact foldl_closer ms (fun y hy => hdist y (hms y hy).1 (by have := (hms y hy).2.2; omega)) seen best h
  | succ n ih =>
    intro m hm hrm hl ms hms seen best h
    have hyl : ∀ y ∈ ms, (p y).length ≤ D := fun y hy => by have := (hms y hy).2.2; omega
    rw [nearest, hdist m hm (by omega)]
    simp only [ok_bind]
    by_cases hstop : (ms.isEmpty || best.any fun b => b.2 ≤ far m) = true
    · rw [if_pos hstop]
      refine ⟨best, rfl, ?_⟩
      rw [Bool.or_eq_true] at hstop
      rcases hstop with hs | hs
      · rw [List.isEmpty_iff.mp hs]
        exact h.congr fun y => by simp
      · cases best with
        | none => simp at hs
        | some b =>
          obtain ⟨b, e⟩ := b
          simp only [Option.any_some, decide_eq_true_eq] at hs
          obtain ⟨h1, h2, h3⟩ := h
          refine ⟨.inl h1, h2, fun y hy => hy.elim (h3 y) fun hy => ?_⟩
          exact Nat.le_trans hs (hmono m y hm (hms y hy).1 (by omega) (hyl y hy) (hms y hy).2.1)
    · rw [if_neg hstop]
      obtain ⟨r1, r2, r3⟩ := hr m hm n hrm
      obtain ⟨best1, e1, b1⟩ := foldl_closer (dist := dist) (ms.filter fun y => depth y ≤ depth m)
        (fun y hy => have hy := (List.mem_filter.mp hy).1; hdist y (hms y hy).1 (hyl y hy)) seen best h
      obtain ⟨best2, e2, b2⟩ := nearest_children (order := order) (dist := dist) (far := far) (n := n) (ms := ms)
        (fun a y ha hy => hb a y ha (hms y hy).1) hD hm r1 r2
        (fun a v ha hp seen best hbest => ih a ha (r3 a v ha hp) (by rw [hp]; simp; omega) _ (fun y hy => by
          obtain ⟨hy1, hy2⟩ := List.mem_filter.mp hy
          refine ⟨(hms y hy1).1, (hb a y ha (hms y hy1).1).mp hy2, ?_⟩
          have := (hms y hy1).2.2
          rw [hp]
          simp
          omega) seen best hbest) order _ best1 b1
      refine ⟨best2, by rw [e1]; exact e2, b2.congr fun y => ?_⟩
      rw [or_assoc]
      refine or_congr_right ⟨fun hy => hy.elim (fun hy => (List.mem_filter.mp hy).1) (·.1), fun hy => ?_⟩
      obtain ⟨y1, ⟨t, ht⟩, -⟩ := hms y hy
      cases t with
      | nil =>
        refine .inl (List.mem_filter.mpr ⟨hy, ?_⟩)
        rw [decide_eq_true_eq, hdep y y1, hdep m hm, ← ht]
        simp
      | cons v t => exact .inr ⟨hy, v, hall v, t, by rw [← ht]; simp⟩

/-- From the search to the statement. -/
theorem findsNearest_of [RustOrd M] {P : Type} {wr : Cell → Cell} {key : Cell → Nat} (hk : Function.Injective key)
    (h : ListLike c ok p wr) (hA : AncLike c ok p) (hD : DescLike c ok p room limit) (hC : CmpLike c key ok p) (hall : ∀ v, v ∈ order)
    (hr : ∀ m, ok m → ∀ k, room' m (k + 1) → room m 1 ∧ ¬ Exceeds limit ((p m).length + 1) ∧
      ∀ a v, ok a → p a = p m ++ [v] → room' a k)
    {box : M → P → Prop} {dist : P → M → Res Nat} {far : P → P → Nat}
    (hdist : ∀ q m, ok m → (p m).length ≤ D → ∃ e, dist q m = .ok e ∧ (∃ x, box m x ∧ far q x = e) ∧ ∀ x, box m x → e ≤ far q x)
    (hbox : ∀ x y, ok x → ok y → (p x).length ≤ D → (p y).length ≤ D → p x <+: p y → ∀ z, box y z → box x z) :
    FindsNearest c order ok room' D box dist far := by
  intro below hbelow q top n ms htop hrt hl hms
  have hin : ∀ {a b : M}, ok a → ok b → (InSubtree c a b ↔ p a <+: p b) := fun ha hb => inSubtree_iff hk h hA hC ha hb
  let F : M → Nat := fun m => match dist q m with | .ok e => e | .error _ => 0
  have hF : ∀ m, ok m → (p m).length ≤ D → dist q m = .ok (F m) ∧ (∃ x, box m x ∧ far q x = F m) ∧ ∀ x, box m x → F m ≤ far q x := by
    intro m hm hl
    obtain ⟨e, e1, e2⟩ := hdist q m hm hl
    have : F m = e := by simp only [F, e1]
    rw [this]
    exact ⟨e1, e2⟩
  rw [h.depth_eq top htop] at hl
  have hms' : ∀ y ∈ ms, ok y ∧ p top <+: p y ∧ (p y).length ≤ (p top).length + n := fun y hy => by
    obtain ⟨h1, h2, h3⟩ := hms y hy
    rw [h.depth_eq y h1, h.depth_eq top htop] at h3
    exact ⟨h1, (hin htop h1).mp h2, h3⟩
  obtain ⟨best, e1, e2⟩ := nearest_best (dist := dist q) (far := F) (fun a b ha hb => (hbelow a b ha hb).trans (hin ha hb)) h.depth_eq hD
    hall hr (fun m hm hl => (hF m hm hl).1) (fun x y hx hy lx ly e => by
      obtain ⟨-, ⟨z, z1, z2⟩, -⟩ := hF y hy ly
      rw [← z2]
      exact (hF x hx lx).2.2 z (hbox x y hx hy lx ly e z z1)) n top htop hrt hl ms hms' (fun _ => False) none (fun _ h => h)
  refine ⟨fun e => ?_, fun e => ?_⟩
  · subst e
    cases best with
    | none => exact e1
    | some b => exact (e2.1.elim id (by simp)).elim
  · cases best with
    | none =>
      obtain ⟨y, hy⟩ := List.exists_mem_of_ne_nil ms e
      exact absurd (.inr hy) (e2 y)
    | some b =>
      obtain ⟨r, d⟩ := b
      obtain ⟨h1, h2, h3⟩ := e2
      have hr' : r ∈ ms := h1.resolve_left id
      have ln : ∀ y ∈ ms, (p y).length ≤ D := fun y hy => by have := (hms' y hy).2.2; omega
      refine ⟨r, d, e1, hr', h2 ▸ (hF r (hms' r hr').1 (ln r hr')).2.1, fun y hy x hx => ?_⟩
      exact Nat.le_trans (h3 y (.inr hy)) ((hF y (hms' y hy).1 (ln y hy)).2.2 x hx)

end search

/-! ## Boxes -/

theorem axisDist_le {q g s x : Nat} (hs : 0 < s) (h : x / s = g) : axisDist q (g * s) s ≤ absDiff q x := by
  subst h
  have h1 : x / s * s ≤ x := Nat.div_mul_le_self x s
  have h2 : x < x / s * s + s := by
    have := Nat.lt_mul_div_succ x hs
    rw [Nat.mul_add, Nat.mul_one, Nat.mul_comm] at this
    exact this
  unfold axisDist absDiff
  split <;> omega

theorem axisDist_attained (q g : Nat) {s : Nat} (hs : 0 < s) : ∃ x, x / s = g ∧ absDiff q x = axisDist q (g * s) s := by
  have hin : ∀ k, k < s → (g * s + k) / s = g := fun k hk => by
    rw [Nat.add_comm, Nat.add_mul_div_right _ _ hs, Nat.div_eq_of_lt hk, Nat.zero_add]
  unfold axisDist absDiff
  by_cases h1 : q < g * s
  · exact ⟨g * s + 0, hin 0 hs, by rw [if_pos h1]; omega⟩
  · by_cases h2 : q < g * s + s
    · refine ⟨g * s + (q - g * s), hin _ (by omega), ?_⟩
      rw [if_neg h1]
      omega
    · refine ⟨g * s + (s - 1), hin _ (by omega), ?_⟩
      rw [if_neg h1]
      omega

theorem sq_le {a b : Nat} (h : a ≤ b) : a ^ 2 ≤ b ^ 2 := Nat.pow_le_pow_left h 2

/-- A coordinate of a node above. -/
theorem coord_above {f : Cell → Bool} {xs ys : List Cell} {D z : Nat} (hl : ys.length ≤ D) (h : xs <+: ys)
    (hz : z / 2 ^ (D - ys.length) = binary (ys.map f)) : z / 2 ^ (D - xs.length) = binary (xs.map f) := by
  obtain ⟨t, rfl⟩ := h
  rw [List.length_append] at hl hz
  rw [List.map_append, binary_append_list, List.length_map] at hz
  rw [show D - xs.length = (D - (xs.length + t.length)) + t.length by omega, Nat.pow_add, ← Nat.div_div_eq_div_mul, hz,
    Nat.add_comm, Nat.add_mul_div_left _ _ (Nat.two_pow_pos _), Nat.div_eq_of_lt, Nat.zero_add]
  have := binary_lt (t.map f)
  rwa [List.length_map] at this

section boxes
variable {c : Cfg} {D : Nat}

theorem boxDist2_ok (hc : c.Supported) {S : Type} [Storage S Quadrant] [BitStorage S Quadrant] {m : MortonIndex2D S} (h : WF c m.storage)
    (hd : Storage.depth m.storage ≤ c.ptrBits) (o : QuadrantOrdering) (q : Nat × Nat) :
    ∃ e, boxDist2 c o D q m = .ok e ∧ (∃ x, InBox2D c o D m x ∧ dist2 q x = e) ∧ ∀ x, InBox2D c o D m x → e ≤ dist2 q x := by
  obtain ⟨g, g1, -⟩ := toGridIndex_binary2 hc h hd o
  have hs := Nat.two_pow_pos (D - depth m)
  obtain ⟨x, x1, x2⟩ := axisDist_attained q.1 g.x.toNat hs
  obtain ⟨y, y1, y2⟩ := axisDist_attained q.2 g.y.toNat hs
  refine ⟨_, by unfold boxDist2; rw [g1]; rfl, ⟨(x, y), ⟨g, g1, x1, y1⟩, by rw [dist2, x2, y2]⟩, ?_⟩
  rintro z ⟨g', e1, z1, z2⟩
  rw [g1] at e1
  cases e1
  exact Nat.add_le_add (sq_le (axisDist_le hs z1)) (sq_le (axisDist_le hs z2))

theorem inBox2_above (hc : c.Supported) {S : Type} [Storage S Quadrant] [BitStorage S Quadrant] {a b : MortonIndex2D S} (ha : WF c a.storage)
    (hb : WF c b.storage) (hda : depth a = (cells2 a).length) (hdb : depth b = (cells2 b).length) (hD : D ≤ c.ptrBits)
    (la : (cells2 a).length ≤ D) (lb : (cells2 b).length ≤ D) (h : cells2 a <+: cells2 b) (o : QuadrantOrdering) (z : Nat × Nat)
    (hz : InBox2D c o D b z) : InBox2D c o D a z := by
  obtain ⟨g, g1, g2, g3⟩ := toGridIndex_binary2 hc ha (Nat.le_trans (Nat.le_of_eq hda) (Nat.le_trans la hD)) o
  obtain ⟨k, k1, k2, k3⟩ := toGridIndex_binary2 hc hb (Nat.le_trans (Nat.le_of_eq hdb) (Nat.le_trans lb hD)) o
  obtain ⟨k', e, z1, z2⟩ := hz
  rw [k1] at e
  cases e
  rw [k2, hdb] at z1
  rw [k3, hdb] at z2
  exact ⟨g, g1, by rw [g2, hda]; exact coord_above lb h z1, by rw [g3, hda]; exact coord_above lb h z2⟩

theorem boxDist3_ok (hc : c.Supported) {S : Type} [Storage S Octant] [BitStorage S Octant] {m : MortonIndex3D S} (h : WF c m.storage)
    (hd : Storage.depth m.storage ≤ c.ptrBits) (o : OctantOrdering) (q : Nat × Nat × Nat) :
    ∃ e, boxDist3 c o D q m = .ok e ∧ (∃ x, InBox3D c o D m x ∧ dist3 q x = e) ∧ ∀ x, InBox3D c o D m x → e ≤ dist3 q x := by
  obtain ⟨g, g1, -⟩ := toGridIndex_binary3 hc h hd o
  have hs := Nat.two_pow_pos (D - depth m)
  obtain ⟨x, x1, x2⟩ := axisDist_attained q.1 g.x.toNat hs
  obtain ⟨y, y1, y2⟩ := axisDist_attained q.2.1 g.y.toNat hs
  obtain ⟨z, z1, z2⟩ := axisDist_attained q.2.2 g.z.toNat hs
  refine ⟨_, by unfold boxDist3; rw [g1]; rfl, ⟨(x, y, z), ⟨g, g1, x1, y1, z1⟩, by rw [dist3, x2, y2, z2]⟩, ?_⟩
  rintro u ⟨g', e1, u1, u2, u3⟩
  rw [g1] at e1
  cases e1
  exact Nat.add_le_add (Nat.add_le_add (sq_le (axisDist_le hs u1)) (sq_le (axisDist_le hs u2))) (sq_le (axisDist_le hs u3))

theorem inBox3_above (hc : c.Supported) {S : Type} [Storage S Octant] [BitStorage S Octant] {a b : MortonIndex3D S} (ha : WF c a.storage)
    (hb : WF c b.storage) (hda : depth a = (cells3 a).length) (hdb : depth b = (cells3 b).length) (hD : D ≤ c.ptrBits)
    (la : (cells3 a).length ≤ D) (lb : (cells3 b).length ≤ D) (h : cells3 a <+: cells3 b) (o : OctantOrdering) (z : Nat × Nat × Nat)
    (hz : InBox3D c o D b z) : InBox3D c o D a z := by
  obtain ⟨g, g1, g2, g3, g4⟩ := toGridIndex_binary3 hc ha (Nat.le_trans (Nat.le_of_eq hda) (Nat.le_trans la hD)) o
  obtain ⟨k, k1, k2, k3, k4⟩ := toGridIndex_binary3 hc hb (Nat.le_trans (Nat.le_of_eq hdb) (Nat.le_trans lb hD)) o
  obtain ⟨k', e, z1, z2, z3⟩ := hz
  rw [k1] at e
  cases e
  rw [k2, hdb] at z1
  rw [k3, hdb] at z2
  rw [k4, hdb] at z3
  exact ⟨g, g1, by rw [g2, hda]; exact coord_above lb h z1, by rw [g3, hda]; exact coord_above lb h z2,
    by rw [g4, hda]; exact coord_above lb h z3⟩

/-! ## C117 -/

theorem C117_nearest_2D (hc : c.Supported) (hD : D ≤ c.ptrBits) (o : QuadrantOrdering) :
    (∀ w, FindsNearest c [Quadrant.Zero, .One, .Two, .Three]
      (fun m : MortonIndex2D (StaticStorage2D w) => Reach2D c .all (.static w m)) (fun m n => depth m + n ≤ w / 2) D
      (InBox2D c o D) (boxDist2 c o D) dist2) ∧
    (DynWrites c → FindsNearest c [Quadrant.Zero, .One, .Two, .Three]
      (fun m : MortonIndex2D DynamicStorage2D => Reach2D c .all (.dynamic m)) (fun m n => Addressable c ((depth m + n) * 2)) D
      (InBox2D c o D) (boxDist2 c o D) dist2) :=
  ⟨fun w => findsNearest_of quadrantKey_inj (static_list2 hc) (static_anc2 hc) (static_desc2 hc) (static_cmp2 hc)
      (fun v => by cases v <;> decide) (fun m hm k => static_room2 hc hm k)
      (fun q m hm hl => boxDist2_ok hc (static_wf2 hc m hm)
        (Nat.le_trans (Nat.le_of_eq ((static_list2 hc).depth_eq m hm)) (Nat.le_trans hl hD)) o q)
      (fun x y hx hy lx ly e => inBox2_above hc (static_wf2 hc x hx) (static_wf2 hc y hy) ((static_list2 hc).depth_eq x hx)
        ((static_list2 hc).depth_eq y hy) hD lx ly e o),
    fun hw => findsNearest_of quadrantKey_inj (dynamic_list2 hc hw) (dynamic_anc2 hc) (dynamic_desc2 hc hw) (dynamic_cmp2 hc)
      (fun v => by cases v <;> decide) (fun m hm k => dynamic_room2 hc hm k)
      (fun q m hm hl => boxDist2_ok hc (dynamic_wf2 hc m hm)
        (Nat.le_trans (Nat.le_of_eq ((dynamic_list2 hc hw).depth_eq m hm)) (Nat.le_trans hl hD)) o q)
      (fun x y hx hy lx ly e => inBox2_above hc (dynamic_wf2 hc x hx) (dynamic_wf2 hc y hy) ((dynamic_list2 hc hw).depth_eq x hx)
        ((dynamic_list2 hc hw).depth_eq y hy) hD lx ly e o)⟩

theorem C117_nearest_3D (hc : c.Supported) (hD : D ≤ c.ptrBits) (o : OctantOrdering) :
    (∀ w, FindsNearest c [Octant.Zero, .One, .Two, .Three, .Four, .Five, .Six, .Seven]
      (fun m : MortonIndex3D (StaticStorage3D w) => Reach3D c .all (.static w m)) (fun m n => depth m + n ≤ w / 3) D
      (InBox3D c o D) (boxDist3 c o D) dist3) ∧
    (DynWrites c → FindsNearest c [Octant.Zero, .One, .Two, .Three, .Four, .Five, .Six, .Seven]
      (fun m : MortonIndex3D DynamicStorage3D => Reach3D c .all (.dynamic m)) (fun m n => Addressable c ((depth m + n) * 3)) D
      (InBox3D c o D) (boxDist3 c o D) dist3) :=
  ⟨fun w => findsNearest_of octantKey_inj (static_list3 hc) (static_anc3 hc) (static_desc3 hc) (static_cmp3 hc)
      (fun v => by cases v <;> decide) (fun m hm k => static_room3 hc hm k)
      (fun q m hm hl => boxDist3_ok hc (static_wf3 hc m hm)
        (Nat.le_trans (Nat.le_of_eq ((static_list3 hc).depth_eq m hm)) (Nat.le_trans hl hD)) o q)
      (fun x y hx hy lx ly e => inBox3_above hc (static_wf3 hc x hx) (static_wf3 hc y hy) ((static_list3 hc).depth_eq x hx)
        ((static_list3 hc).depth_eq y hy) hD lx ly e o),
    fun hw => findsNearest_of octantKey_inj (dynamic_list3 hc hw) (dynamic_anc3 hc) (dynamic_desc3 hc hw) (dynamic_cmp3 hc)
      (fun v => by cases v <;> decide) (fun m hm k => dynamic_room3 hc hm k)
      (fun q m hm hl => boxDist3_ok hc (dynamic_wf3 hc m hm)
        (Nat.le_trans (Nat.le_of_eq ((dynamic_list3 hc hw).depth_eq m hm)) (Nat.le_trans hl hD)) o q)
      (fun x y hx hy lx ly e => inBox3_above hc (dynamic_wf3 hc x hx) (dynamic_wf3 hc y hy) ((dynamic_list3 hc hw).depth_eq x hx)
        ((dynamic_list3 hc hw).depth_eq y hy) hD lx ly e o)⟩

end boxes

/-! ## Examples -/

/-- The leaves `[Zero, Three]`, `[One]`, `[Three]` in a grid of 8 by 8: the position `(1, 7)` is 4 places below `[Zero, Three]`,
which ends at row 3, and 3 places left of `[Three]`. -/
example : nearest x64 exBelow2 [Quadrant.Zero, .One, .Two, .Three] (boxDist2 x64 .XY 3 (1, 7)) 3 ⟨⟨0#16, 0⟩⟩ exRegionB none =
    .ok (some (⟨⟨0xC000#16, 1⟩⟩, 9)) := by decide +kernel

theorem exRegionB_low : ∀ y ∈ exRegionB, InSubtree x64 (⟨⟨0#16, 0⟩⟩ : MortonIndex2D (StaticStorage2D 16)) y ∧
    depth y ≤ depth (⟨⟨0#16, 0⟩⟩ : MortonIndex2D (StaticStorage2D 16)) + 3 := by
  intro y hy
  simp only [exRegionB, List.mem_cons, List.not_mem_nil, or_false] at hy
  rcases hy with rfl | rfl | rfl <;> exact ⟨by decide +kernel, by decide⟩

/-- The theorem applied to them. -/
example : ∃ r e, nearest x64 exBelow2 [Quadrant.Zero, .One, .Two, .Three] (boxDist2 x64 .XY 3 (1, 7)) 3 ⟨⟨0#16, 0⟩⟩ exRegionB none =
      .ok (some (r, e)) ∧ r ∈ exRegionB ∧ ∀ y ∈ exRegionB, ∀ p, InBox2D x64 .XY 3 y p → e ≤ dist2 (1, 7) p := by
  obtain ⟨r, e, h1, h2, -, h3⟩ := (((C117_nearest_2D (D := 3) x64_supported (by decide) .XY).1 16 exBelow2
    (fun a b _ _ => by simp [exBelow2]) (1, 7) ⟨⟨0#16, 0⟩⟩ 3 exRegionB (.staticTryFromSlice (cs := []) (by decide) (by rfl))
    (by decide) (by decide) (fun y hy => ⟨exRegionB_region.1 y hy, exRegionB_low y hy⟩)).2 (by decide))
  exact ⟨r, e, h1, h2, h3⟩

/-- A dynamic octree with one leaf, `[Five, One, Six]`. -/
example : ∃ r e, nearest x64 (fun a b => decide (InSubtree x64 a b)) [Octant.Zero, .One, .Two, .Three, .Four, .Five, .Six, .Seven]
      (boxDist3 x64 .XYZ 3 (1, 2, 3)) 2 (⟨⟨[0xA0#8], 1⟩⟩ : MortonIndex3D DynamicStorage3D) [exD3] none = .ok (some (r, e)) := by
  obtain ⟨r, e, h1, -⟩ := ((C117_nearest_3D (D := 3) x64_supported (by decide) .XYZ).2 x64_writes (fun a b => decide (InSubtree x64 a b))
    (fun a b _ _ => by simp) (1, 2, 3) ⟨⟨[0xA0#8], 1⟩⟩ 2 [exD3] (.dynamicTryFromSlice (cs := [.Five]) (by unfold Addressable; decide) (by rfl))
    (by unfold Addressable; decide) (by decide) (fun y hy => by
      rw [List.mem_singleton] at hy
      subst hy
      exact ⟨exD3_reach _, by decide +kernel, by decide⟩)).2 (by decide)
  exact ⟨r, e, h1⟩

end MortonRs
