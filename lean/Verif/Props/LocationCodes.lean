import Verif.Props.Counting

/-! # Location codes (C120)

Nodes named by a single number, as in hashed octrees: the cells as digits behind a leading 1, which marks the depth. -/

namespace MortonRs

open MortonIndex VariableDepthMortonIndex

variable {M Cell : Type}

/-! ## Statement -/

/-- Client code: the loop of `locationCode`, from level `l` on, `k` levels are left. -/
def codeFrom [MortonIndex M Cell] [Dimension Cell] (c : Cfg) (b : Nat) (m : M) : Nat → Nat → Nat → Res Nat
  | _, 0, n => .ok n
  | l, k + 1, n => do
    let v ← getCellAtLevel c m l
    codeFrom c b m (l + 1) k (← uadd c (← umul c n b) (Dimension.toUsize v))

/-- Client code: `let mut n = 1; for l in 0..m.depth() { n = n * b + usize::from(m.get_cell_at_level(l)) }`; `b` is 4 or 8. -/
def locationCode [MortonIndex M Cell] [Dimension Cell] (c : Cfg) (b : Nat) (m : M) : Res Nat := codeFrom c b m 0 (depth m) 1

/-- Client code: `while n > 1 { cells.push(Cell::try_from(n % b)); n /= b }` and `cells.reverse()`, at most `fuel` steps. -/
def codeCells [Dimension Cell] (b : Nat) : Nat → Nat → Except Error (List Cell)
  | 0, _ => .ok []
  | fuel + 1, n => if n > 1 then do return (← codeCells b fuel (n / b)) ++ [← Dimension.tryFromUsize (n % b)] else .ok []

/-- The codes of nodes of depth `d` fit into `usize`. -/
def CodeFits (c : Cfg) (b d : Nat) : Prop := 2 * b ^ d ≤ 2 ^ c.ptrBits

instance (c : Cfg) (b d : Nat) : Decidable (CodeFits c b d) := by unfold CodeFits; infer_instance

/-- C120, reading: the code of an index gives its depth and its cells, and every number in the range of a depth is the code of the
index with the cells that are read from it. -/
def ReadsCodes [MortonIndex M Cell] [Dimension Cell] (c : Cfg) (b : Nat) (ok : M → Prop) : Prop :=
  (∀ x, ok x → CodeFits c b (depth x) → ∃ n cs, locationCode c b x = .ok n ∧ b ^ depth x ≤ n ∧ n < 2 * b ^ depth x ∧
    codeCells b c.ptrBits n = .ok cs ∧ Shows c x cs) ∧
  ∀ d n, CodeFits c b d → b ^ d ≤ n → n < 2 * b ^ d → ∃ cs : List Cell, codeCells b c.ptrBits n = .ok cs ∧ cs.length = d ∧
    ∀ x, ok x → Shows c x cs → locationCode c b x = .ok n

/-- C120. Two indices have one code exactly if they compare as `Equal`, and codes sort by depth, then by the order of the indices. -/
def NamesNodes [MortonIndex M Cell] [Dimension Cell] [RustOrd M] (c : Cfg) (b : Nat) (ok : M → Prop) : Prop :=
  ReadsCodes c b ok ∧
  ∀ x y n k, ok x → ok y → CodeFits c b (depth x) → CodeFits c b (depth y) → locationCode c b x = .ok n → locationCode c b y = .ok k →
    (n = k ↔ RustOrd.cmp c x y = .ok .eq) ∧
    (n < k ↔ depth x < depth y ∨ depth x = depth y ∧ RustOrd.lt c x y = .ok true)

/-- C120, moves: the code of a child is the code with one more digit, and `y` is in the subtree of `x` exactly if the code of `x` is that
of `y` without the digits of the levels between them. -/
def CodesMove [VariableDepthMortonIndex M Cell] [Dimension Cell] [RustOrd M] (c : Cfg) (b : Nat) (ok : M → Prop) : Prop :=
  (∀ x v y n, ok x → CodeFits c b (depth x + 1) → child c x v = .ok (some y) → locationCode c b x = .ok n →
    locationCode c b y = .ok (n * b + Dimension.toUsize v)) ∧
  ∀ x y n k, ok x → ok y → CodeFits c b (depth x) → CodeFits c b (depth y) → locationCode c b x = .ok n → locationCode c b y = .ok k →
    (InSubtree c x y ↔ depth x ≤ depth y ∧ k / b ^ (depth y - depth x) = n)

/-! ## Codes of paths -/

/-- The cells are the digits to the base `b`, and the conversions to and from `usize` are those of the digits. -/
structure CodeDigits [Dimension Cell] (b : Nat) (key : Cell → Nat) : Prop where
  base : 2 ≤ b
  lt : ∀ v, key v < b
  inj : Function.Injective key
  all : ∀ i, i < b → ∃ v, key v = i
  to : ∀ v : Cell, Dimension.toUsize v = key v
  of : ∀ v : Cell, Dimension.tryFromUsize (key v) = .ok v

def pathCode (b : Nat) (key : Cell → Nat) (cs : List Cell) : Nat := b ^ cs.length + pathNumber b key cs

section codes
variable [Dimension Cell] {b : Nat} {key : Cell → Nat}

omit [Dimension Cell] in
theorem pathCode_append (xs : List Cell) (v : Cell) : pathCode b key (xs ++ [v]) = pathCode b key xs * b + key v := by
  rw [pathCode, pathCode, pathNumber_append, List.length_append, List.length_singleton, Nat.pow_succ, Nat.add_mul, Nat.mul_comm b,
    Nat.add_assoc]

theorem pathCode_range (hd : CodeDigits b key) (xs : List Cell) : b ^ xs.length ≤ pathCode b key xs ∧ pathCode b key xs < 2 * b ^ xs.length := by
  have := pathNumber_lt hd.lt xs
  unfold pathCode
  omega

theorem pathCode_lt_of_length (hd : CodeDigits b key) {xs ys : List Cell} (h : xs.length < ys.length) :
    pathCode b key xs < pathCode b key ys := by
  have h1 := (pathCode_range hd xs).2
  have h2 := (pathCode_range hd ys).1
  have h3 : b ^ (xs.length + 1) ≤ b ^ ys.length := Nat.pow_le_pow_right (by have := hd.base; omega) h
  have h4 : 2 * b ^ xs.length ≤ b * b ^ xs.length := Nat.mul_le_mul_right _ hd.base
  rw [Nat.pow_succ, Nat.mul_comm] at h3
  omega

theorem pathCode_cmp (hd : CodeDigits b key) {xs ys : List Cell} (h : xs.length = ys.length) :
    pathCmp key xs ys = compare (pathCode b key xs) (pathCode b key ys) := by
  rw [pathCmp_number hd.lt xs ys h, pathCode, pathCode, h]
  rcases Nat.lt_trichotomy (pathNumber b key xs) (pathNumber b key ys) with g | g | g
  · rw [Nat.compare_eq_lt.mpr g, Nat.compare_eq_lt.mpr (by omega)]
  · rw [Nat.compare_eq_eq.mpr g, Nat.compare_eq_eq.mpr (by omega)]
  · rw [Nat.compare_eq_gt.mpr g, Nat.compare_eq_gt.mpr (by omega)]

theorem pathCode_lt_iff (hd : CodeDigits b key) {xs ys : List Cell} :
    pathCode b key xs < pathCode b key ys ↔ xs.length < ys.length ∨ xs.length = ys.length ∧ pathCmp key xs ys = .lt := by
  rcases Nat.lt_trichotomy xs.length ys.length with h | h | h
  · exact ⟨fun _ => .inl h, fun _ => pathCode_lt_of_length hd h⟩
  · rw [pathCode_cmp hd h, Nat.compare_eq_lt]
    omega
  · have := pathCode_lt_of_length hd h
    omega

theorem pathCode_inj (hd : CodeDigits b key) {xs ys : List Cell} : pathCode b key xs = pathCode b key ys ↔ xs = ys := by
  refine ⟨fun e => ?_, fun e => by rw [e]⟩
  rcases Nat.lt_trichotomy xs.length ys.length with h | h | h
  · have := pathCode_lt_of_length hd h
    omega
  · rw [← pathCmp_eq_iff key hd.inj, pathCode_cmp hd h, e, Nat.compare_eq_eq]
  · have := pathCode_lt_of_length hd h
    omega

theorem pathCode_div (hd : CodeDigits b key) (xs ys : List Cell) : pathCode b key (xs ++ ys) / b ^ ys.length = pathCode b key xs := by
  have hb := hd.base
  induction ys using snocInduction with
  | nil => simp
  | append_singleton ys v ih =>
    rw [← List.append_assoc, pathCode_append, List.length_append, List.length_singleton, Nat.pow_succ, Nat.mul_comm (b ^ _),
      ← Nat.div_div_eq_div_mul, Nat.mul_comm _ b, Nat.mul_add_div (by omega), Nat.div_eq_of_lt (hd.lt v), Nat.add_zero, ih]

theorem pathCode_prefix (hd : CodeDigits b key) {xs ys : List Cell} :
    xs <+: ys ↔ xs.length ≤ ys.length ∧ pathCode b key ys / b ^ (ys.length - xs.length) = pathCode b key xs := by
  constructor
  · rintro ⟨t, rfl⟩
    refine ⟨by simp, ?_⟩
    rw [List.length_append, Nat.add_sub_cancel_left, pathCode_div hd]
  · rintro ⟨h1, h2⟩
    have e := pathCode_div hd (ys.take xs.length) (ys.drop xs.length)
    rw [List.take_append_drop, List.length_drop, h2, pathCode_inj hd] at e
    rw [e]
    exact List.take_prefix _ _

theorem codeCells_pathCode (hd : CodeDigits b key) (xs : List Cell) (fuel : Nat) (hf : xs.length ≤ fuel) :
    codeCells b fuel (pathCode b key xs) = .ok xs := by
  have hb := hd.base
  induction xs using snocInduction generalizing fuel with
  | nil =>
    cases fuel with
    | zero => rfl
    | succ fuel => rw [codeCells, if_neg (by simp [pathCode, pathNumber])]
  | append_singleton xs v ih =>
    rw [List.length_append, List.length_singleton] at hf
    obtain ⟨fuel, rfl⟩ : ∃ f, fuel = f + 1 := ⟨fuel - 1, by omega⟩
    have h1 : 1 < pathCode b key (xs ++ [v]) := by
      have := (pathCode_range hd xs).1
      have h0 := Nat.pow_pos (n := xs.length) (show 0 < b by omega)
      rw [pathCode_append]
      have : 1 * 2 ≤ pathCode b key xs * b := Nat.mul_le_mul (by omega) hb
      omega
    rw [codeCells, if_pos h1, pathCode_append, Nat.mul_comm, Nat.mul_add_div (by omega), Nat.div_eq_of_lt (hd.lt v), Nat.add_zero,
      ih fuel (by omega), Nat.mul_add_mod, Nat.mod_eq_of_lt (hd.lt v), hd.of v]
    rfl

theorem exists_pathCode (hd : CodeDigits b key) (d : Nat) : ∀ n, b ^ d ≤ n → n < 2 * b ^ d →
    ∃ xs : List Cell, xs.length = d ∧ pathCode b key xs = n := by
  have hb := hd.base
  induction d with
  | zero => exact fun n h1 h2 => ⟨[], rfl, by simp [pathCode, pathNumber] at *; omega⟩
  | succ d ih =>
    intro n h1 h2
    rw [Nat.pow_succ] at h1 h2
    obtain ⟨xs, x1, x2⟩ := ih (n / b) ((Nat.le_div_iff_mul_le (by omega)).mpr h1)
      ((Nat.div_lt_iff_lt_mul (by omega)).mpr (by rw [Nat.mul_assoc]; exact h2))
    obtain ⟨v, hv⟩ := hd.all (n % b) (Nat.mod_lt _ (by omega))
    exact ⟨xs ++ [v], by simp [x1], by rw [pathCode_append, x2, hv, Nat.mul_comm]; exact Nat.div_add_mod n b⟩

end codes

/-! ## Codes of indices -/

section indices
variable [Dimension Cell] {c : Cfg} {ok : M → Prop} {p : M → List Cell} {wr : Cell → Cell} {b : Nat} {key : Cell → Nat}

theorem codeFrom_pathCode [MortonIndex M Cell] (hd : CodeDigits b key) (h : ListLike c ok p wr) {m : M} (hm : ok m)
    (hf : CodeFits c b (p m).length) (suf : List Cell) : ∀ pre, p m = pre ++ suf →
    codeFrom c b m pre.length suf.length (pathCode b key pre) = .ok (pathCode b key (p m)) := by
  induction suf with
  | nil =>
    intro pre e
    rw [e, List.append_nil]
    rfl
  | cons v suf ih =>
    intro pre e
    have hl : pre.length < (p m).length := by simp [e]
    have hv : (p m)[pre.length] = v := by simp [e]
    have hlt : pathCode b key (pre ++ [v]) < 2 ^ c.ptrBits := by
      have h1 := (pathCode_range hd (pre ++ [v])).2
      have h2 : b ^ (pre ++ [v]).length ≤ b ^ (p m).length :=
        Nat.pow_le_pow_right (by have := hd.base; omega) (by simp [e])
      unfold CodeFits at hf
      omega
    have hcode := pathCode_append (b := b) (key := key) pre v
    rw [List.length_cons, codeFrom, h.get m hm _ hl, ok_bind, hv, umul_ok (by omega), ok_bind, hd.to v, uadd_ok (by omega), ok_bind,
      ← hcode]
    have := ih (pre ++ [v]) (by simp [e])
    rw [List.length_append, List.length_singleton] at this
    exact this

theorem locationCode_pathCode [MortonIndex M Cell] (hd : CodeDigits b key) (h : ListLike c ok p wr) {m : M} (hm : ok m)
    (hf : CodeFits c b (depth m)) : locationCode c b m = .ok (pathCode b key (p m)) := by
  rw [h.depth_eq m hm] at hf
  have := codeFrom_pathCode hd h hm hf (p m) [] rfl
  rw [locationCode, h.depth_eq m hm]
  simpa [pathCode, pathNumber] using this

theorem length_le_bits (hd : CodeDigits b key) {d : Nat} (hf : CodeFits c b d) : d ≤ c.ptrBits := by
  unfold CodeFits at hf
  have h1 : 2 ^ d ≤ b ^ d := Nat.pow_le_pow_left hd.base d
  have h2 : 2 ^ d ≤ 2 ^ c.ptrBits := by omega
  exact (Nat.pow_le_pow_iff_right (by decide)).mp h2

theorem readsCodes_of [MortonIndex M Cell] (hd : CodeDigits b key) (h : ListLike c ok p wr) : ReadsCodes c b ok := by
  refine ⟨fun x hx hf => ?_, fun d n hf h1 h2 => ?_⟩
  · have hr := pathCode_range hd (p x)
    refine ⟨_, p x, locationCode_pathCode hd h hx hf, by rw [h.depth_eq x hx]; exact hr.1, by rw [h.depth_eq x hx]; exact hr.2,
      codeCells_pathCode hd _ _ ?_, h.shows hx⟩
    rw [h.depth_eq x hx] at hf
    exact length_le_bits hd hf
  · obtain ⟨xs, rfl, rfl⟩ := exists_pathCode hd d n h1 h2
    refine ⟨xs, codeCells_pathCode hd xs _ (length_le_bits hd hf), rfl, fun x hx hs => ?_⟩
    have e := h.eq_of_shows hx hs
    rw [← e, locationCode_pathCode hd h hx (by rw [h.depth_eq x hx, e]; exact hf)]

theorem namesNodes_of [MortonIndex M Cell] [RustOrd M] (hd : CodeDigits b key) (h : ListLike c ok p wr) (hC : CmpLike c key ok p) :
    NamesNodes c b ok := by
  refine ⟨readsCodes_of hd h, fun x y n k hx hy fx fy hn hk => ?_⟩
  rw [locationCode_pathCode hd h hx fx] at hn
  rw [locationCode_pathCode hd h hy fy] at hk
  cases hn
  cases hk
  rw [h.depth_eq x hx, h.depth_eq y hy, pathCode_inj hd, pathCode_lt_iff hd, (hC x y hx hy).1, ← pathCmp_eq_iff key hd.inj,
    RustOrd.lt, (hC x y hx hy).2]
  refine ⟨⟨congrArg _, Except.ok.inj⟩, ?_⟩
  cases pathCmp key (p x) (p y) <;> simp

theorem codesMove_of [VariableDepthMortonIndex M Cell] [RustOrd M] {room : M → Nat → Prop} {limit : Option Nat}
    (hd : CodeDigits b key) (h : ListLike c ok p wr) (hA : AncLike c ok p) (hD : DescLike c ok p room limit)
    (hC : CmpLike c key ok p) (hroom : ∀ x, ok x → CodeFits c b (depth x + 1) → room x 1) : CodesMove c b ok := by
  refine ⟨fun x v y n hx hf hy hn => ?_, fun x y n k hx hy fx fy hn hk => ?_⟩
  · have hr := hroom x hx hf
    have hchild : child c x v = descendant c x [v] := rfl
    by_cases he : Exceeds limit ((p x).length + [v].length)
    · rw [hchild, hD.no x hx [v] hr he] at hy
      cases hy
    · obtain ⟨a, a1, a2, a3⟩ := hD.yes x hx [v] hr he
      rw [hchild, a1] at hy
      cases hy
      have hfx : CodeFits c b (depth x) := by
        unfold CodeFits at hf ⊢
        have : b ^ depth x ≤ b ^ (depth x + 1) := Nat.pow_le_pow_right (by have := hd.base; omega) (by omega)
        omega
      rw [locationCode_pathCode hd h hx hfx] at hn
      cases hn
      rw [locationCode_pathCode hd h a2 (by rw [h.depth_eq y a2, a3, List.length_append, ← h.depth_eq x hx]; exact hf), a3,
        pathCode_append, hd.to]
  · rw [locationCode_pathCode hd h hx fx] at hn
    rw [locationCode_pathCode hd h hy fy] at hk
    cases hn
    cases hk
    rw [inSubtree_iff hd.inj h hA hC hx hy, h.depth_eq x hx, h.depth_eq y hy, pathCode_prefix hd]

end indices

theorem quadrant_codes : CodeDigits 4 quadrantKey where
  base := by decide
  lt v := by cases v <;> decide
  inj := quadrantKey_inj
  all i hi := by
    match i, hi with
    | 0, _ => exact ⟨.Zero, rfl⟩
    | 1, _ => exact ⟨.One, rfl⟩
    | 2, _ => exact ⟨.Two, rfl⟩
    | 3, _ => exact ⟨.Three, rfl⟩
  to v := by cases v <;> rfl
  of v := by cases v <;> rfl

theorem octant_codes : CodeDigits 8 octantKey where
  base := by decide
  lt v := by cases v <;> decide
  inj := octantKey_inj
  all i hi := by
    match i, hi with
    | 0, _ => exact ⟨.Zero, rfl⟩
    | 1, _ => exact ⟨.One, rfl⟩
    | 2, _ => exact ⟨.Two, rfl⟩
    | 3, _ => exact ⟨.Three, rfl⟩
    | 4, _ => exact ⟨.Four, rfl⟩
    | 5, _ => exact ⟨.Five, rfl⟩
    | 6, _ => exact ⟨.Six, rfl⟩
    | 7, _ => exact ⟨.Seven, rfl⟩
  to v := by cases v <;> rfl
  of v := by cases v <;> rfl

/-! ## C120 -/

variable {c : Cfg}

/-- C120 in 2D. -/
theorem C120_location_codes_2D (hc : c.Supported) :
    (∀ w, NamesNodes c 4 (fun m : MortonIndex2D (FixedDepthStorage2D w) => Reach2D c .all (.fixed w m))) ∧
    (∀ w, NamesNodes c 4 (fun m : MortonIndex2D (StaticStorage2D w) => Reach2D c .all (.static w m)) ∧
      CodesMove c 4 (fun m : MortonIndex2D (StaticStorage2D w) => Reach2D c .all (.static w m))) ∧
    NamesNodes c 4 (fun m : MortonIndex2D DynamicStorage2D => Reach2D c .all (.dynamic m)) ∧
    (DynWrites c → CodesMove c 4 (fun m : MortonIndex2D DynamicStorage2D => Reach2D c .all (.dynamic m))) :=
  ⟨fun _ => namesNodes_of quadrant_codes (fixed_list2 hc) (fixed_cmp2 hc),
    fun _ => ⟨namesNodes_of quadrant_codes (static_list2 hc) (static_cmp2 hc),
      codesMove_of quadrant_codes (static_list2 hc) (static_anc2 hc) (static_desc2 hc) (static_cmp2 hc)
        fun _ _ _ => one_lt_isize hc (x := Quadrant.Zero)⟩,
    namesNodes_of quadrant_codes (dynamic_list2' hc) (dynamic_cmp2 hc),
    fun hw => codesMove_of quadrant_codes (dynamic_list2 hc hw) (dynamic_anc2 hc) (dynamic_desc2 hc hw) (dynamic_cmp2 hc)
      fun x _ hf => by
        have := length_le_bits quadrant_codes hf
        change depth x + 1 ≤ c.ptrBits at this
        change Addressable c ((depth x + 1) * 2)
        unfold Addressable
        rcases hc with e | e | e <;> rw [e] at this ⊢ <;> omega⟩

/-- C120 in 3D; the fixed type is compared for values without stray bits. -/
theorem C120_location_codes_3D (hc : c.Supported) :
    (∀ w, NamesNodes c 8 (fun m : MortonIndex3D (FixedDepthStorage3D w) => Reach3D c .canonical (.fixed w m)) ∧
      ReadsCodes c 8 (fun m : MortonIndex3D (FixedDepthStorage3D w) => Reach3D c .all (.fixed w m))) ∧
    (∀ w, NamesNodes c 8 (fun m : MortonIndex3D (StaticStorage3D w) => Reach3D c .all (.static w m)) ∧
      CodesMove c 8 (fun m : MortonIndex3D (StaticStorage3D w) => Reach3D c .all (.static w m))) ∧
    NamesNodes c 8 (fun m : MortonIndex3D DynamicStorage3D => Reach3D c .all (.dynamic m)) ∧
    (DynWrites c → CodesMove c 8 (fun m : MortonIndex3D DynamicStorage3D => Reach3D c .all (.dynamic m))) :=
  ⟨fun _ => ⟨namesNodes_of octant_codes (fixed_list3 hc) (fixed_cmp3 hc), readsCodes_of octant_codes (fixed_list3 hc)⟩,
    fun _ => ⟨namesNodes_of octant_codes (static_list3 hc) (static_cmp3 hc),
      codesMove_of octant_codes (static_list3 hc) (static_anc3 hc) (static_desc3 hc) (static_cmp3 hc)
        fun _ _ _ => one_lt_isize hc (x := Octant.Zero)⟩,
    namesNodes_of octant_codes (dynamic_list3' hc) (dynamic_cmp3 hc),
    fun hw => codesMove_of octant_codes (dynamic_list3 hc hw) (dynamic_anc3 hc) (dynamic_desc3 hc hw) (dynamic_cmp3 hc)
      fun x _ hf => by
        have := length_le_bits octant_codes hf
        change depth x + 1 ≤ c.ptrBits at this
        change Addressable c ((depth x + 1) * 3)
        unfold Addressable
        rcases hc with e | e | e <;> rw [e] at this ⊢ <;> omega⟩

/-! ## Examples -/

/-- `[Three, One, Two]` has the code `1 11 01 10` in binary, `[Five, One, Six]` the code `1516` in octal digits. -/
example : locationCode x64 4 exS2 = .ok 0b1110110 ∧ locationCode x64 4 exD2 = .ok 0b1110110 ∧
    locationCode x64 8 exD3 = .ok 0b1101001110 := by decide +kernel

example : codeCells 4 64 0b1110110 = .ok [Quadrant.Three, .One, .Two] := rfl

/-- A static index of 32 levels in 2D has no code in 64 bits, one of 31 levels has. -/
example : ¬ CodeFits x64 4 32 ∧ CodeFits x64 4 31 ∧ CodeFits x64 8 21 := by decide +kernel

/-- The theorem applied: the parent of `[Three, One, Two]` has its code without the last digit. -/
example : InSubtree x64 (⟨⟨0xD000#16, 2⟩⟩ : MortonIndex2D (StaticStorage2D 16)) exS2 :=
  (((C120_location_codes_2D x64_supported).2.1 16).2.2 ⟨⟨0xD000#16, 2⟩⟩ exS2 0b11101 0b1110110
    (.staticTryFromSlice (cs := [.Three, .One]) (by decide) (by rfl)) (exS2_reach _) (by decide +kernel) (by decide +kernel)
    (by decide +kernel) (by decide +kernel)).mpr (by decide +kernel)

example : ∃ n cs, locationCode x64 8 exD3 = .ok n ∧ codeCells 8 64 n = .ok cs ∧ Shows x64 exD3 cs := by
  obtain ⟨n, cs, h1, -, -, h2, h3⟩ := (C120_location_codes_3D x64_supported).2.2.1.1.1 exD3 (exD3_reach _) (by decide +kernel)
  exact ⟨n, cs, h1, h2, h3⟩

end MortonRs
