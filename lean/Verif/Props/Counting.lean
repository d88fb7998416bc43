import Verif.Props.Examples
import Verif.Props.Raw
import Verif.Lemmas.Kinds2D
import Verif.Lemmas.Kinds3D
import Verif.Lemmas.Binary

/-! # Counting through the nodes of a depth (C98) -/

namespace MortonRs

open MortonIndex VariableDepthMortonIndex

variable {M Cell : Type}

/-! ## Statements -/

/-- The number whose digits to the base `b` are the cells, the first cell being the most significant digit. -/
def pathNumber (b : Nat) (key : Cell → Nat) (cs : List Cell) : Nat := cs.foldl (fun n v => b * n + key v) 0

/-- The next node of the same depth, as a user would compute it: the last of the first `l` cells that can be increased is increased,
and those after it start again from `zero`. -/
def nextNode [MortonIndex M Cell] [Dimension Cell] (c : Cfg) (zero : Cell) : Nat → M → Res (Option M)
  | 0, _ => .ok none
  | l + 1, m => do
    let v ← getCellAtLevel c m l
    match Dimension.tryFromUsize (Dimension.toUsize v + 1) with
    | .ok v' => return some (← setCellAtLevel c m l v')
    | .error _ => nextNode c zero l (← setCellAtLevel c m l zero)

/-- The nodes from `m` on, at most `n` more. -/
def nodesFrom [MortonIndex M Cell] [Dimension Cell] (c : Cfg) (zero : Cell) : Nat → M → Res (List M)
  | 0, m => .ok [m]
  | n + 1, m => do
    match ← nextNode c zero (depth m) m with
    | none => return [m]
    | some m' => return m :: (← nodesFrom c zero n m')

/-- C98. Counting gives `None` at the last node of a depth. Otherwise it gives the node whose number is one more, which is the next one
in the order. -/
def CountsUp (c : Cfg) [MortonIndex M Cell] [Dimension Cell] [RustOrd M] (b : Nat) (key : Cell → Nat) (zero : Cell) (ok : M → Prop) : Prop :=
  ∀ m, ok m → ∃ cs, Shows c m cs ∧ pathNumber b key cs < b ^ depth m ∧
    (pathNumber b key cs + 1 = b ^ depth m →
      nextNode c zero (depth m) m = .ok none ∧ ∀ k, ok k → depth k = depth m → RustOrd.le c k m = .ok true) ∧
    (pathNumber b key cs + 1 ≠ b ^ depth m →
      ∃ m' cs', nextNode c zero (depth m) m = .ok (some m') ∧ ok m' ∧ depth m' = depth m ∧ Shows c m' cs' ∧
        pathNumber b key cs' = pathNumber b key cs + 1 ∧ RustOrd.lt c m m' = .ok true ∧
        ∀ k, ok k → depth k = depth m → RustOrd.lt c m k = .ok true → RustOrd.le c m' k = .ok true)

/-- C98. Counting on from `m` visits in increasing order, and each once, the nodes of its depth that do not sort before it; from the node with
only `zero` cells these are all `b ^ depth m` of them. -/
def EnumeratesDepth (c : Cfg) [MortonIndex M Cell] [Dimension Cell] [RustOrd M] (b : Nat) (key : Cell → Nat) (zero : Cell) (ok : M → Prop) :
    Prop :=
  ∀ m, ok m → ∀ n, b ^ depth m ≤ n + 1 → ∃ ms cs, nodesFrom c zero n m = .ok ms ∧ Shows c m cs ∧
    ms.length + pathNumber b key cs = b ^ depth m ∧
    (∀ i (h : i < ms.length), ok ms[i] ∧ depth ms[i] = depth m ∧
      ∃ xs, Shows c ms[i] xs ∧ pathNumber b key xs = pathNumber b key cs + i) ∧
    ms.Pairwise (fun x y => RustOrd.lt c x y = .ok true) ∧
    (∀ k, ok k → depth k = depth m → (RustOrd.le c m k = .ok true ↔ ∃ a ∈ ms, RustOrd.cmp c a k = .ok .eq)) ∧
    ((∀ v ∈ cs, v = zero) → ms.length = b ^ depth m ∧ ∀ k, ok k → depth k = depth m → ∃ a ∈ ms, RustOrd.cmp c a k = .ok .eq)

/-! ## Numbers of paths -/

section numbers
variable {b : Nat} {key : Cell → Nat}

theorem pathNumber_append (cs : List Cell) (v : Cell) : pathNumber b key (cs ++ [v]) = b * pathNumber b key cs + key v := by
  simp [pathNumber, List.foldl_append]

theorem pathNumber_lt (hk : ∀ v, key v < b) (cs : List Cell) : pathNumber b key cs < b ^ cs.length := by
  induction cs using snocInduction with
  | nil => simp [pathNumber]
  | append_singleton cs v ih =>
    rw [pathNumber_append, List.length_append, List.length_singleton, Nat.pow_succ]
    have h1 := hk v
    have h2 : b * (pathNumber b key cs + 1) ≤ b * b ^ cs.length := Nat.mul_le_mul_left b ih
    rw [Nat.mul_add, Nat.mul_one] at h2
    rw [Nat.mul_comm (b ^ _)]
    omega

theorem compare_digits {A B x y : Nat} (hx : x < b) (hy : y < b) :
    compare (b * A + x) (b * B + y) = (compare A B).then (compare x y) := by
  rcases Nat.lt_trichotomy A B with h | h | h
  · rw [Nat.compare_eq_lt.mpr h]
    have : b * (A + 1) ≤ b * B := Nat.mul_le_mul_left b h
    rw [Nat.mul_add] at this
    exact Nat.compare_eq_lt.mpr (by omega)
  · subst h
    rw [Nat.compare_eq_eq.mpr rfl]
    change _ = compare x y
    rcases Nat.lt_trichotomy x y with h | h | h
    · rw [Nat.compare_eq_lt.mpr h, Nat.compare_eq_lt.mpr (by omega)]
    · rw [Nat.compare_eq_eq.mpr h, Nat.compare_eq_eq.mpr (by omega)]
    · rw [Nat.compare_eq_gt.mpr h, Nat.compare_eq_gt.mpr (by omega)]
  · rw [Nat.compare_eq_gt.mpr h]
    have : b * (B + 1) ≤ b * A := Nat.mul_le_mul_left b h
    rw [Nat.mul_add] at this
    exact Nat.compare_eq_gt.mpr (by omega)

theorem pathCmp_number (hk : ∀ v, key v < b) (as : List Cell) : ∀ bs : List Cell, as.length = bs.length →
    pathCmp key as bs = compare (pathNumber b key as) (pathNumber b key bs) := by
  induction as using snocInduction with
  | nil =>
    intro bs h
    rw [List.length_nil] at h
    rw [List.eq_nil_of_length_eq_zero h.symm, pathCmp_refl, Nat.compare_eq_eq.mpr rfl]
  | append_singleton as v ih =>
    intro bs h
    rw [List.length_append, List.length_singleton] at h
    obtain ⟨bs', w, rfl⟩ : ∃ bs' w, bs = bs' ++ [w] :=
      ⟨bs.dropLast, bs.getLast (by intro e; rw [e] at h; simp at h), (List.dropLast_concat_getLast _).symm⟩
    rw [List.length_append, List.length_singleton] at h
    have hl : as.length = bs'.length := by omega
    rw [pathCmp_append key hl, pathCmp_single, ih bs' hl, pathNumber_append, pathNumber_append, compare_digits (hk v) (hk w)]

theorem pathNumber_zero {zero : Cell} (hz : key zero = 0) (cs : List Cell) (h : ∀ v ∈ cs, v = zero) : pathNumber b key cs = 0 := by
  induction cs using snocInduction with
  | nil => rfl
  | append_singleton cs v ih =>
    rw [pathNumber_append, ih fun v hv => h v (List.mem_append_left _ hv), h v (by simp), hz, Nat.mul_zero]

end numbers

/-! ## Counting -/

/-- The cells are the digits to the base `b`. -/
structure Digits [Dimension Cell] (b : Nat) (key : Cell → Nat) (zero : Cell) : Prop where
  lt : ∀ v, key v < b
  zero : key zero = 0
  next : ∀ v, (∃ v', Dimension.tryFromUsize (Dimension.toUsize v + 1) = .ok v' ∧ key v' = key v + 1) ∨
    ((∃ e, Dimension.tryFromUsize (Cell := Cell) (Dimension.toUsize v + 1) = .error e) ∧ key v + 1 = b)

section counting
variable [MortonIndex M Cell] [Dimension Cell] [RustOrd M] {c : Cfg} {ok : M → Prop} {p : M → List Cell} {b : Nat} {key : Cell → Nat}
  {zero : Cell}

omit [RustOrd M] in
theorem nextNode_ok (hd : Digits b key zero) (h : ListLike c ok p id) (pre : List Cell) : ∀ suf m, ok m → p m = pre ++ suf →
    (pathNumber b key pre + 1 = b ^ pre.length ∧ nextNode c zero pre.length m = .ok none) ∨
    (pathNumber b key pre + 1 < b ^ pre.length ∧ ∃ m' pre', nextNode c zero pre.length m = .ok (some m') ∧ ok m' ∧ p m' = pre' ++ suf ∧
      pre'.length = pre.length ∧ pathNumber b key pre' = pathNumber b key pre + 1) := by
  induction pre using snocInduction with
  | nil =>
    intro suf m _ _
    exact .inl ⟨rfl, rfl⟩
  | append_singleton pre v ih =>
    intro suf m hm e
    have hl : pre.length < (p m).length := by rw [e]; simp
    have hv : (p m)[pre.length] = v := by simp [e]
    have hn := pathNumber_lt hd.lt pre
    have hbs : b * (pathNumber b key pre + 1) ≤ b * b ^ pre.length := Nat.mul_le_mul_left b hn
    rw [Nat.mul_add, Nat.mul_one] at hbs
    have e1 : (pre ++ [v]).length = pre.length + 1 := by simp
    rw [e1, pathNumber_append, Nat.pow_succ, Nat.mul_comm (b ^ _)]
    rw [nextNode, h.get m hm _ hl, hv]
    rcases hd.next v with ⟨v', h1, h2⟩ | ⟨⟨err, h1⟩, h2⟩
    · right
      obtain ⟨m', g1, g2, g3⟩ := h.set m hm pre.length v' hl
      have := hd.lt v'
      refine ⟨by omega, m', pre ++ [v'], ?_, g2, ?_, by simp, ?_⟩
      · simp only [ok_bind, h1, g1]
        rfl
      · rw [g3, e]
        simp
      · rw [pathNumber_append]
        omega
    · obtain ⟨m', g1, g2, g3⟩ := h.set m hm pre.length zero hl
      have e' : p m' = pre ++ ([zero] ++ suf) := by rw [g3, e]; simp
      simp only [ok_bind, h1, g1]
      rcases ih _ m' g2 e' with ⟨k1, k2⟩ | ⟨k1, m'', pre', k2, k3, k4, k5, k6⟩
      · left
        refine ⟨?_, k2⟩
        rw [← k1, Nat.mul_add]
        omega
      · right
        have : b * (pathNumber b key pre + 1 + 1) ≤ b * b ^ pre.length := Nat.mul_le_mul_left b k1
        rw [Nat.mul_add, Nat.mul_add] at this
        have hb := hd.lt v
        refine ⟨by omega, m'', pre' ++ [zero], k2, k3, by rw [k4]; simp, by simp [k5], ?_⟩
        rw [pathNumber_append, k6, hd.zero, Nat.mul_add]
        omega

omit [MortonIndex M Cell] in
theorem lt_iff_number (hd : Digits b key zero) (hC : CmpLike c key ok p) {x y : M} (hx : ok x) (hy : ok y)
    (hl : (p x).length = (p y).length) :
    RustOrd.lt c x y = .ok true ↔ pathNumber b key (p x) < pathNumber b key (p y) := by
  rw [RustOrd.lt, (hC x y hx hy).2, pathCmp_number hd.lt _ _ hl, ← Nat.compare_eq_lt]
  cases compare (pathNumber b key (p x)) (pathNumber b key (p y)) <;> simp [pure, Except.pure]

omit [MortonIndex M Cell] in
theorem le_iff_number (hd : Digits b key zero) (hC : CmpLike c key ok p) {x y : M} (hx : ok x) (hy : ok y)
    (hl : (p x).length = (p y).length) :
    RustOrd.le c x y = .ok true ↔ pathNumber b key (p x) ≤ pathNumber b key (p y) := by
  rw [RustOrd.le, (hC x y hx hy).2, pathCmp_number hd.lt _ _ hl, ← Nat.isLE_compare]
  cases compare (pathNumber b key (p x)) (pathNumber b key (p y)) <;> simp [pure, Except.pure]

omit [MortonIndex M Cell] in
theorem cmp_iff_number (hd : Digits b key zero) (hC : CmpLike c key ok p) {x y : M} (hx : ok x) (hy : ok y)
    (hl : (p x).length = (p y).length) :
    RustOrd.cmp c x y = .ok .eq ↔ pathNumber b key (p x) = pathNumber b key (p y) := by
  rw [(hC x y hx hy).1, pathCmp_number hd.lt _ _ hl, ← Nat.compare_eq_eq]
  constructor
  · exact fun h => Except.ok.inj h
  · exact fun h => by rw [h]

theorem countsUp_of (hd : Digits b key zero) (h : ListLike c ok p id) (hC : CmpLike c key ok p) : CountsUp c b key zero ok := by
  intro m hm
  have hl := h.depth_eq m hm
  refine ⟨p m, h.shows hm, by rw [hl]; exact pathNumber_lt hd.lt _, ?_⟩
  rw [hl]
  have hn := nextNode_ok hd h (p m) [] m hm (by simp)
  refine ⟨fun h1 => ⟨?_, fun k hk hkd => ?_⟩, fun h1 => ?_⟩
  · rcases hn with ⟨-, h2⟩ | ⟨h2, -⟩
    · exact h2
    · omega
  · have e : (p k).length = (p m).length := by rw [← h.depth_eq k hk, hkd]
    rw [le_iff_number hd hC hk hm e]
    have := pathNumber_lt hd.lt (p k)
    rw [e] at this
    omega
  · rcases hn with ⟨h2, -⟩ | ⟨h2, m', pre', g1, g2, g3, g4, g5⟩
    · exact absurd h2 h1
    rw [List.append_nil] at g3
    rw [← g3] at g4 g5
    refine ⟨m', p m', g1, g2, by rw [h.depth_eq m' g2, g4], h.shows g2, g5, ?_, fun k hk hkd hlt => ?_⟩
    · rw [lt_iff_number hd hC hm g2 g4.symm]
      omega
    · have e : (p k).length = (p m).length := by rw [← h.depth_eq k hk, hkd]
      rw [lt_iff_number hd hC hm hk e.symm] at hlt
      rw [le_iff_number hd hC g2 hk (by omega)]
      omega

omit [RustOrd M] in
theorem nodesFrom_ok (hd : Digits b key zero) (h : ListLike c ok p id) (n : Nat) : ∀ m, ok m →
    b ^ (p m).length ≤ pathNumber b key (p m) + n + 1 →
    ∃ ms, nodesFrom c zero n m = .ok ms ∧ ms.length + pathNumber b key (p m) = b ^ (p m).length ∧
      ∀ i (hi : i < ms.length), ok ms[i] ∧ (p ms[i]).length = (p m).length ∧
        pathNumber b key (p ms[i]) = pathNumber b key (p m) + i := by
  have single : ∀ m, ok m → ∀ i (hi : i < [m].length), ok [m][i] ∧ (p [m][i]).length = (p m).length ∧
      pathNumber b key (p [m][i]) = pathNumber b key (p m) + i := by
    intro m hm i hi
    have : i = 0 := by simpa using hi
    subst this
    exact ⟨hm, rfl, rfl⟩
  induction n with
  | zero =>
    intro m hm hb
    have := pathNumber_lt hd.lt (p m)
    refine ⟨[m], rfl, ?_, single m hm⟩
    rw [List.length_singleton]
    omega
  | succ n ih =>
    intro m hm hb
    rw [nodesFrom, h.depth_eq m hm]
    rcases nextNode_ok hd h (p m) [] m hm (by simp) with ⟨h1, h2⟩ | ⟨h1, m', pre', g1, g2, g3, g4, g5⟩
    · refine ⟨[m], by simp only [h2, ok_bind]; rfl, ?_, single m hm⟩
      rw [List.length_singleton]
      omega
    · rw [List.append_nil] at g3
      rw [← g3] at g4 g5
      obtain ⟨ms, k1, k2, k3⟩ := ih m' g2 (by rw [g4]; omega)
      refine ⟨m :: ms, by simp only [g1, ok_bind, k1]; rfl, ?_, fun i hi => ?_⟩
      · rw [List.length_cons]
        rw [g4] at k2
        omega
      · cases i with
        | zero => exact ⟨hm, rfl, rfl⟩
        | succ i =>
          obtain ⟨j1, j2, j3⟩ := k3 i (by simpa using hi)
          rw [List.getElem_cons_succ]
          exact ⟨j1, by omega, by omega⟩

theorem enumeratesDepth_of (hd : Digits b key zero) (h : ListLike c ok p id) (hC : CmpLike c key ok p) :
    EnumeratesDepth c b key zero ok := by
  intro m hm n hn
  have hl := h.depth_eq m hm
  rw [hl] at hn ⊢
  obtain ⟨ms, h1, h2, h3⟩ := nodesFrom_ok hd h n m hm (by omega)
  have all : ∀ k, ok k → (p k).length = (p m).length → (RustOrd.le c m k = .ok true ↔ ∃ a ∈ ms, RustOrd.cmp c a k = .ok .eq) := by
    intro k hk e
    rw [le_iff_number hd hC hm hk e.symm]
    have := pathNumber_lt hd.lt (p k)
    rw [e] at this
    constructor
    · intro hle
      have hi : pathNumber b key (p k) - pathNumber b key (p m) < ms.length := by omega
      obtain ⟨j1, j2, j3⟩ := h3 _ hi
      refine ⟨_, List.getElem_mem hi, (cmp_iff_number hd hC j1 hk (by omega)).mpr ?_⟩
      omega
    · rintro ⟨a, ha, hcmp⟩
      obtain ⟨i, hi, rfl⟩ := List.getElem_of_mem ha
      obtain ⟨j1, j2, j3⟩ := h3 i hi
      rw [cmp_iff_number hd hC j1 hk (by omega)] at hcmp
      omega
  refine ⟨ms, p m, h1, h.shows hm, h2, fun i hi => ?_, ?_, fun k hk e => ?_, fun hz => ⟨?_, fun k hk e => ?_⟩⟩
  · obtain ⟨j1, j2, j3⟩ := h3 i hi
    exact ⟨j1, by rw [h.depth_eq _ j1, j2], p ms[i], h.shows j1, j3⟩
  · rw [List.pairwise_iff_getElem]
    intro i j hi hj hij
    obtain ⟨i1, i2, i3⟩ := h3 i hi
    obtain ⟨j1, j2, j3⟩ := h3 j hj
    rw [lt_iff_number hd hC i1 j1 (by omega)]
    omega
  · exact all k hk (by rw [← h.depth_eq k hk, e])
  · rw [pathNumber_zero hd.zero _ hz] at h2
    exact h2
  · have e' : (p k).length = (p m).length := by rw [← h.depth_eq k hk, e]
    rw [← all k hk e', le_iff_number hd hC hm hk e'.symm, pathNumber_zero hd.zero _ hz]
    exact Nat.zero_le _

end counting

theorem quadrant_digits : Digits 4 quadrantKey .Zero where
  lt v := by cases v <;> decide
  zero := rfl
  next v := by
    cases v
    · exact .inl ⟨.One, rfl, rfl⟩
    · exact .inl ⟨.Two, rfl, rfl⟩
    · exact .inl ⟨.Three, rfl, rfl⟩
    · exact .inr ⟨⟨_, rfl⟩, rfl⟩

theorem octant_digits : Digits 8 octantKey .Zero where
  lt v := by cases v <;> decide
  zero := rfl
  next v := by
    cases v
    · exact .inl ⟨.One, rfl, rfl⟩
    · exact .inl ⟨.Two, rfl, rfl⟩
    · exact .inl ⟨.Three, rfl, rfl⟩
    · exact .inl ⟨.Four, rfl, rfl⟩
    · exact .inl ⟨.Five, rfl, rfl⟩
    · exact .inl ⟨.Six, rfl, rfl⟩
    · exact .inl ⟨.Seven, rfl, rfl⟩
    · exact .inr ⟨⟨_, rfl⟩, rfl⟩

/-! ## Theorems -/

variable {c : Cfg}

/-- C98. -/
theorem C98_counting_2D (hc : c.Supported) :
    (∀ w, CountsUp c 4 quadrantKey .Zero (fun m => Reach2D c .all (.fixed w m)) ∧
      EnumeratesDepth c 4 quadrantKey .Zero (fun m => Reach2D c .all (.fixed w m))) ∧
    (∀ w, CountsUp c 4 quadrantKey .Zero (fun m => Reach2D c .all (.static w m)) ∧
      EnumeratesDepth c 4 quadrantKey .Zero (fun m => Reach2D c .all (.static w m))) ∧
    (DynWrites c → CountsUp c 4 quadrantKey .Zero (fun m => Reach2D c .all (.dynamic m)) ∧
      EnumeratesDepth c 4 quadrantKey .Zero (fun m => Reach2D c .all (.dynamic m))) :=
  ⟨fun _ => ⟨countsUp_of quadrant_digits (fixed_list2 hc) (fixed_cmp2 hc), enumeratesDepth_of quadrant_digits (fixed_list2 hc) (fixed_cmp2 hc)⟩,
    fun _ => ⟨countsUp_of quadrant_digits (static_list2 hc) (static_cmp2 hc),
      enumeratesDepth_of quadrant_digits (static_list2 hc) (static_cmp2 hc)⟩,
    fun hw => ⟨countsUp_of quadrant_digits (dynamic_list2 hc hw) (dynamic_cmp2 hc),
      enumeratesDepth_of quadrant_digits (dynamic_list2 hc hw) (dynamic_cmp2 hc)⟩⟩

/-- C98 in 3D; the fixed type for values made without `from_raw_index` with spare bits. -/
theorem C98_counting_3D (hc : c.Supported) :
    (∀ w, CountsUp c 8 octantKey .Zero (fun m => Reach3D c .canonical (.fixed w m)) ∧
      EnumeratesDepth c 8 octantKey .Zero (fun m => Reach3D c .canonical (.fixed w m))) ∧
    (∀ w, CountsUp c 8 octantKey .Zero (fun m => Reach3D c .all (.static w m)) ∧
      EnumeratesDepth c 8 octantKey .Zero (fun m => Reach3D c .all (.static w m))) ∧
    (DynWrites c → CountsUp c 8 octantKey .Zero (fun m => Reach3D c .all (.dynamic m)) ∧
      EnumeratesDepth c 8 octantKey .Zero (fun m => Reach3D c .all (.dynamic m))) :=
  ⟨fun _ => ⟨countsUp_of octant_digits (fixed_list3 hc) (fixed_cmp3 hc), enumeratesDepth_of octant_digits (fixed_list3 hc) (fixed_cmp3 hc)⟩,
    fun _ => ⟨countsUp_of octant_digits (static_list3 hc) (static_cmp3 hc),
      enumeratesDepth_of octant_digits (static_list3 hc) (static_cmp3 hc)⟩,
    fun hw => ⟨countsUp_of octant_digits (dynamic_list3 hc hw) (dynamic_cmp3 hc),
      enumeratesDepth_of octant_digits (dynamic_list3 hc hw) (dynamic_cmp3 hc)⟩⟩

/-- The cells are consecutive triples of bits of `n`, so their number is `n` without its lowest bits. -/
theorem pathNumber_triples {w n : Nat} (hn : n < 2 ^ w) (cs : List Octant) (hl : 3 * cs.length ≤ w)
    (h : ∀ l (hl : l < cs.length), octantKey cs[l] = n / 2 ^ (w - 3 * (l + 1)) % 8) :
    pathNumber 8 octantKey cs = n / 2 ^ (w - 3 * cs.length) := by
  have : ∀ l, l ≤ cs.length → pathNumber 8 octantKey (cs.take l) = n / 2 ^ (w - 3 * l) := by
    intro l
    induction l with
    | zero =>
      intro _
      rw [Nat.mul_zero, Nat.sub_zero, Nat.div_eq_of_lt hn]
      rfl
    | succ l ih =>
      intro h1
      have e : 2 ^ (w - 3 * l) = 2 ^ (w - 3 * (l + 1)) * 8 := by
        rw [show (8 : Nat) = 2 ^ 3 from rfl, ← Nat.pow_add]
        congr 1
        omega
      rw [List.take_succ_eq_append_getElem (by omega), pathNumber_append, ih (by omega), h l (by omega), e, ← Nat.div_div_eq_div_mul]
      exact Nat.div_add_mod ..
  have h1 := this cs.length (Nat.le_refl _)
  rwa [List.take_length] at h1

/-- C98. `from_raw_index` gives the node of each number: the node number `i` of depth `d` has the raw bits `i`, shifted to the top. -/
theorem C98_raw_number_3D (hc : c.Supported) (w : Nat) (hw : IntWidth w) (i : Nat) :
    (i < 8 ^ (w / 3) → ∃ cs, Shows c (MortonIndex3D.fixedFromRawIndex (BitVec.ofNat w i <<< (w % 3))) cs ∧
      cs.length = w / 3 ∧ pathNumber 8 octantKey cs = i) ∧
    ∀ d, d ≤ w / 3 → i < 8 ^ d → ∃ cs, Shows c (MortonIndex3D.staticFromRawIndex (BitVec.ofNat w i <<< (w - 3 * d)) d) cs ∧
      cs.length = d ∧ pathNumber 8 octantKey cs = i := by
  have number : ∀ {S : Type} [Storage S Octant] (m : MortonIndex3D S) cs d, d ≤ w / 3 → i < 8 ^ d → Shows c m cs →
      CellsOfBits3D c m d (BitVec.ofNat w i <<< (w - 3 * d)) → cs.length = d ∧ pathNumber 8 octantKey cs = i := by
    intro S _ m cs d hd hi hs hb
    have hl : cs.length = d := by rw [← hs.1, hb.1]
    refine ⟨hl, ?_⟩
    rw [pathNumber_triples (w := w) (BitVec.isLt _) cs (by omega) fun l h => ?_, hl]
    · have h8 : 8 ^ d * 2 ^ (w - 3 * d) = 2 ^ w := by
        rw [show (8 : Nat) = 2 ^ 3 from rfl, ← Nat.pow_mul, ← Nat.pow_add]
        congr 1
        omega
      have hp := Nat.two_pow_pos (w - 3 * d)
      have h1 : i * 2 ^ (w - 3 * d) < 2 ^ w := by rw [← h8]; exact Nat.mul_lt_mul_of_pos_right hi hp
      have h2 : i < 2 ^ w := Nat.lt_of_le_of_lt (Nat.le_mul_of_pos_right i hp) h1
      rw [BitVec.toNat_shiftLeft, BitVec.toNat_ofNat, Nat.mod_eq_of_lt h2, Nat.shiftLeft_eq, Nat.mod_eq_of_lt h1, Nat.mul_div_cancel _ hp]
    · obtain ⟨q, g1, g2⟩ := hb.2 l (by omega)
      rw [hs.2 l h] at g1
      cases g1
      exact g2
  refine ⟨fun hi => ?_, fun d hd hi => ?_⟩
  · have h1 := (fixed_list3 hc).shows (.fixedFromRaw hw (.inl rfl) : Reach3D c .all (.fixed w (MortonIndex3D.fixedFromRawIndex (BitVec.ofNat w i <<< (w % 3)))))
    have e : w % 3 = w - 3 * (w / 3) := by omega
    refine ⟨_, h1, number _ _ _ (Nat.le_refl _) hi h1 ?_⟩
    rw [e]
    exact (C49_fixed_raw_3D hc w hw _).1
  · have h1 := (static_list3 hc).shows (.staticFromRaw hw hd (.inl rfl) :
      Reach3D c .all (.static w (MortonIndex3D.staticFromRawIndex (BitVec.ofNat w i <<< (w - 3 * d)) d)))
    exact ⟨_, h1, number _ _ _ hd hi h1 (C49_static_raw_3D hc w hw _ d hd).1⟩

/-! ## Examples -/

/-- `[One, Three]` is followed by `[Two, Zero]`. -/
example : nextNode x64 Quadrant.Zero 2 (⟨⟨0x7000#16, 2⟩⟩ : MortonIndex2D (StaticStorage2D 16)) = .ok (some ⟨⟨0x8000#16, 2⟩⟩) := by
  decide +kernel

/-- `[Three, Three]` is the last node of depth 2. -/
example : nextNode x64 Quadrant.Zero 2 (⟨⟨0xF000#16, 2⟩⟩ : MortonIndex2D (StaticStorage2D 16)) = .ok none := by
  decide +kernel

/-- The sixteen nodes of depth 2. -/
example : ∃ ms, nodesFrom x64 Quadrant.Zero 15 (⟨⟨0#16, 2⟩⟩ : MortonIndex2D (StaticStorage2D 16)) = .ok ms ∧ ms.length = 16 := by
  obtain ⟨ms, cs, h1, h2, -, -, -, -, h3⟩ := ((C98_counting_2D x64_supported).2.1 16).2 ⟨⟨0#16, 2⟩⟩
    (.staticTryFromSlice (w := 16) (cs := [.Zero, .Zero]) (by decide) (by decide +kernel)) 15 (by decide)
  refine ⟨ms, h1, (h3 ?_).1⟩
  have h4 : Shows x64 (⟨⟨0#16, 2⟩⟩ : MortonIndex2D (StaticStorage2D 16)) [.Zero, .Zero] := by unfold Shows; decide +kernel
  rw [shows_unique h2 h4]
  decide

/-- The octant node `[Five, One, Six]` has the number 5 · 64 + 1 · 8 + 6 = 334 and is followed by `[Five, One, Seven]`. -/
example : pathNumber 8 octantKey [.Five, .One, .Six] = 334 ∧
    nextNode x64 Octant.Zero 3 exS3 = .ok (some ⟨⟨0xA7800000#32, 3⟩⟩) := by decide +kernel

/-- Node 334 of depth 3, from its number. -/
example : MortonIndex3D.staticFromRawIndex (BitVec.ofNat 32 334 <<< (32 - 3 * 3)) 3 = exS3 := by decide +kernel

example : ∃ cs, Shows x64 (MortonIndex3D.fixedFromRawIndex (BitVec.ofNat 32 334 <<< (32 % 3))) cs ∧
    cs.length = 32 / 3 ∧ pathNumber 8 octantKey cs = 334 := (C98_raw_number_3D x64_supported 32 (by decide) 334).1 (by decide)

/-- The theorem on the dynamic index of the examples. -/
example : ∃ ms cs, nodesFrom x64 Octant.Zero (8 ^ 3) exD3 = .ok ms ∧ Shows x64 exD3 cs ∧ ms.length + pathNumber 8 octantKey cs = 8 ^ 3 := by
  obtain ⟨ms, cs, h1, h2, h3, -⟩ := ((C98_counting_3D x64_supported).2.2 x64_writes).2 exD3 (exD3_reach _) (8 ^ 3) (by decide)
  exact ⟨ms, cs, h1, h2, h3⟩

end MortonRs
