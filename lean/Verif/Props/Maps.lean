import Verif.Props.HashInput
import Verif.Props.Stray
import Verif.Props.Access2D
import Verif.Props.Access3D
import Verif.Props.StorageBits
import Verif.Props.Order2D
import Verif.Props.Order3D
import Verif.Props.Findings
import Verif.Props.BottomUp

/-! # Maps with indices as keys (C110)

The crate derives `Hash`, `Eq` and `Ord`, so that indices can be the keys of a hash map or of a sorted map. Two small maps written
against these traits stand for those of the standard library, whose code is not modelled. -/

namespace MortonRs

open MortonIndex

variable {K α V : Type}

/-! ## Statements -/

/-- A call on a map. Each gives the value that was stored under the key before the call. `resize` changes the number of buckets. -/
inductive MapOp (K V : Type) where
  | insert (k : K) (v : V)
  | remove (k : K)
  | get (k : K)
  | resize (n : Nat)

/-- The key of a call. -/
def MapOp.key? : MapOp K V → Option K
  | .insert k _ | .remove k | .get k => some k
  | .resize _ => none

/-- What a call answers, and the map afterwards, if a map is a function. The keys are looked at through `p`. -/
def mapStep [DecidableEq α] (p : K → α) (f : α → Option V) : MapOp K V → Option V × (α → Option V)
  | .insert k v => (f (p k), fun q => if q = p k then some v else f q)
  | .remove k => (f (p k), fun q => if q = p k then none else f q)
  | .get k => (f (p k), f)
  | .resize _ => (none, f)

/-- The answers to some calls one after the other, and the map at the end. -/
def mapRun [DecidableEq α] (p : K → α) : (α → Option V) → List (MapOp K V) → List (Option V) × (α → Option V)
  | f, [] => ([], f)
  | f, op :: ops => ((mapStep p f op).1 :: (mapRun p (mapStep p f op).2 ops).1, (mapRun p (mapStep p f op).2 ops).2)

/-- The entries are those of the function `f`, each key once. -/
def EntriesOf (p : K → α) (f : α → Option V) (es : List (K × V)) : Prop :=
  (es.map fun e => p e.1).Nodup ∧ ∀ q v, (∃ e ∈ es, p e.1 = q ∧ e.2 = v) ↔ f q = some v

/-! ### Hash maps -/

/-- A hash map: its entries in the order of insertion, and the number of buckets. Only the entries in the bucket of a key are compared with
it. -/
structure HashTable (K V : Type) where
  buckets : Nat
  entries : List (K × V)

/-- The first entry `hit` picks gets the value `v`; without one, an entry is added. -/
def putFirst (hit : K → Bool) (k : K) (v : V) : List (K × V) → Option V × List (K × V)
  | [] => (none, [(k, v)])
  | e :: es => if hit e.1 then (some e.2, (e.1, v) :: es) else ((putFirst hit k v es).1, e :: (putFirst hit k v es).2)

/-- The first entry `hit` picks is removed. -/
def dropFirst (hit : K → Bool) : List (K × V) → Option V × List (K × V)
  | [] => (none, [])
  | e :: es => if hit e.1 then (some e.2, es) else ((dropFirst hit es).1, e :: (dropFirst hit es).2)

/-- The value of the first entry `hit` picks. -/
def findFirst (hit : K → Bool) : List (K × V) → Option V
  | [] => none
  | e :: es => if hit e.1 then some e.2 else findFirst hit es

/-- `e` is in the bucket of `k` and `==` to `k`. `hash` is what the hasher makes of the data it is fed. -/
def inBucket [RustOrd K] (hash : List Nat → Nat) (n : Nat) (k e : K) : Bool :=
  hash (RustOrd.hashInput e) % n == hash (RustOrd.hashInput k) % n && RustOrd.eq e k

/-- One call on a hash map. -/
def HashTable.step [RustOrd K] (hash : List Nat → Nat) (t : HashTable K V) : MapOp K V → Option V × HashTable K V
  | .insert k v => ((putFirst (inBucket hash t.buckets k) k v t.entries).1, ⟨t.buckets, (putFirst (inBucket hash t.buckets k) k v t.entries).2⟩)
  | .remove k => ((dropFirst (inBucket hash t.buckets k) t.entries).1, ⟨t.buckets, (dropFirst (inBucket hash t.buckets k) t.entries).2⟩)
  | .get k => (findFirst (inBucket hash t.buckets k) t.entries, t)
  | .resize n => (none, ⟨n, t.entries⟩)

/-- Some calls on a hash map, one after the other. -/
def HashTable.run [RustOrd K] (hash : List Nat → Nat) : HashTable K V → List (MapOp K V) → List (Option V) × HashTable K V
  | t, [] => ([], t)
  | t, op :: ops => ((t.step hash op).1 :: (HashTable.run hash (t.step hash op).2 ops).1, (HashTable.run hash (t.step hash op).2 ops).2)

/-- C110: with any hasher and any numbers of buckets a hash map behaves like a function of `p` of the keys. -/
def HashMapsBy [RustOrd K] [DecidableEq α] (ok : K → Prop) (p : K → α) : Prop :=
  ∀ (V : Type) (hash : List Nat → Nat) (n : Nat) (ops : List (MapOp K V)), (∀ op ∈ ops, ∀ k, op.key? = some k → ok k) →
    (HashTable.run hash ⟨n, []⟩ ops).1 = (mapRun p (fun _ => none) ops).1 ∧
    EntriesOf p (mapRun p (fun _ => none) ops).2 (HashTable.run hash ⟨n, []⟩ ops).2.entries

/-! ### Sorted maps -/

/-- Binary search: the place of `k`, or where it would have to be inserted. -/
def searchSorted [RustOrd K] (c : Cfg) (es : List (K × V)) (k : K) : Nat → Nat → Nat → Res (Nat × Bool)
  | 0, lo, _ => .ok (lo, false)
  | fuel + 1, lo, hi =>
    if lo < hi then
      match es[(lo + hi) / 2]? with
      | none => .error .panic
      | some e => do
        match ← RustOrd.cmp c e.1 k with
        | .eq => return ((lo + hi) / 2, true)
        | .lt => searchSorted c es k fuel ((lo + hi) / 2 + 1) hi
        | .gt => searchSorted c es k fuel lo ((lo + hi) / 2)
    else .ok (lo, false)

/-- A sorted `Vec` of entries that is searched by `binary_search_by(|e| e.0.cmp(k))`. -/
def sortedStep [RustOrd K] (c : Cfg) (es : List (K × V)) : MapOp K V → Res (Option V × List (K × V))
  | .insert k v => do
    let (i, found) ← searchSorted c es k es.length 0 es.length
    if found then return (es[i]?.map (·.2), es.modify i fun e => (e.1, v)) else return (none, es.take i ++ (k, v) :: es.drop i)
  | .remove k => do
    let (i, found) ← searchSorted c es k es.length 0 es.length
    if found then return (es[i]?.map (·.2), es.eraseIdx i) else return (none, es)
  | .get k => do
    let (i, found) ← searchSorted c es k es.length 0 es.length
    if found then return (es[i]?.map (·.2), es) else return (none, es)
  | .resize _ => .ok (none, es)

/-- Some calls on a sorted map, one after the other. -/
def sortedRun [RustOrd K] (c : Cfg) : List (K × V) → List (MapOp K V) → Res (List (Option V) × List (K × V))
  | es, [] => .ok ([], es)
  | es, op :: ops => do
    let (a, es') ← sortedStep c es op
    let (as, es'') ← sortedRun c es' ops
    return (a :: as, es'')

/-- C110: a sorted map behaves like a function of `p` of the keys, and its entries are in strictly ascending order. -/
def SortedMapsBy [RustOrd K] [DecidableEq α] (c : Cfg) (ok : K → Prop) (p : K → α) : Prop :=
  ∀ (V : Type) (ops : List (MapOp K V)), (∀ op ∈ ops, ∀ k, op.key? = some k → ok k) →
    ∃ es, sortedRun c [] ops = .ok ((mapRun p (fun _ => none) ops).1, es) ∧ EntriesOf p (mapRun p (fun _ => none) ops).2 es ∧
      es.Pairwise fun a b => RustOrd.lt c a.1 b.1 = .ok true

/-- The keys are looked at through the cells the index shows. -/
def HashMapsByCells {Cell : Type} [MortonIndex K Cell] [RustOrd K] [DecidableEq Cell] (c : Cfg) (ok : K → Prop) : Prop :=
  ∀ p : K → List Cell, (∀ k, ok k → Shows c k (p k)) → HashMapsBy ok p

/-- The same for sorted maps. -/
def SortedMapsByCells {Cell : Type} [MortonIndex K Cell] [RustOrd K] [DecidableEq Cell] (c : Cfg) (ok : K → Prop) : Prop :=
  ∀ p : K → List Cell, (∀ k, ok k → Shows c k (p k)) → SortedMapsBy c ok p

/-- The keys are looked at through `==`. -/
def HashMapsByEq (K : Type) [RustOrd K] : Prop :=
  ∀ (α : Type) (_ : DecidableEq α) (p : K → α), (∀ a b, RustOrd.eq a b = true ↔ p a = p b) → HashMapsBy (fun _ => True) p

/-! ## Proofs -/

section lists
variable [DecidableEq α] {p : K → α} {f : α → Option V} {es : List (K × V)} {k : K}

omit [DecidableEq α] in
theorem EntriesOf.none (h : EntriesOf p f es) (hn : ∀ e ∈ es, p e.1 ≠ p k) : f (p k) = none := by
  cases hf : f (p k) with
  | none => rfl
  | some v =>
    obtain ⟨e, he, h1, -⟩ := (h.2 _ _).mpr hf
    exact absurd h1 (hn e he)

omit [DecidableEq α] in
theorem EntriesOf.some (h : EntriesOf p f es) {e : K × V} (he : e ∈ es) (hk : p e.1 = p k) : f (p k) = some e.2 :=
  (h.2 _ _).mp ⟨e, he, hk, rfl⟩

theorem EntriesOf.add {l1 l2 : List (K × V)} (h : EntriesOf p f (l1 ++ l2)) (hn : ∀ e ∈ l1 ++ l2, p e.1 ≠ p k) (v : V) :
    EntriesOf p (fun q => if q = p k then Option.some v else f q) (l1 ++ (k, v) :: l2) := by
  obtain ⟨h1, h2⟩ := h
  refine ⟨?_, fun q x => ?_⟩
  · rw [List.map_append] at h1
    rw [List.map_append, List.map_cons]
    refine (List.perm_middle.nodup_iff).mpr (List.nodup_cons.mpr ⟨?_, h1⟩)
    rw [← List.map_append, List.mem_map]
    rintro ⟨e, he, e1⟩
    exact hn e he e1
  · dsimp only
    by_cases e : q = p k
    · subst e
      rw [if_pos rfl]
      constructor
      · rintro ⟨d, hd, d1, d2⟩
        rcases List.mem_append.mp hd with g | g
        · exact absurd d1 (hn d (List.mem_append_left _ g))
        · rcases List.mem_cons.mp g with rfl | g
          · rw [← d2]
          · exact absurd d1 (hn d (List.mem_append_right _ g))
      · rintro g
        cases g
        exact ⟨(k, v), by simp, rfl, rfl⟩
    · rw [if_neg e, ← h2]
      constructor
      · rintro ⟨d, hd, d1, d2⟩
        refine ⟨d, ?_, d1, d2⟩
        rcases List.mem_append.mp hd with g | g
        · exact List.mem_append_left _ g
        · rcases List.mem_cons.mp g with rfl | g
          · exact absurd d1.symm e
          · exact List.mem_append_right _ g
      · rintro ⟨d, hd, d1, d2⟩
        refine ⟨d, ?_, d1, d2⟩
        rcases List.mem_append.mp hd with g | g
        · exact List.mem_append_left _ g
        · exact List.mem_append_right _ (List.mem_cons_of_mem _ g)

theorem EntriesOf.del {l1 l2 : List (K × V)} {e : K × V} (h : EntriesOf p f (l1 ++ e :: l2)) (hk : p e.1 = p k) :
    EntriesOf p (fun q => if q = p k then Option.none else f q) (l1 ++ l2) ∧ ∀ d ∈ l1 ++ l2, p d.1 ≠ p k := by
  obtain ⟨h1, h2⟩ := h
  rw [List.map_append, List.map_cons] at h1
  have h3 := (List.perm_middle.nodup_iff).mp h1
  obtain ⟨h4, h5⟩ := List.nodup_cons.mp h3
  have hne : ∀ d ∈ l1 ++ l2, p d.1 ≠ p k := by
    intro d hd g
    rw [← List.map_append, List.mem_map] at h4
    exact h4 ⟨d, hd, g.trans hk.symm⟩
  refine ⟨⟨by rwa [List.map_append], fun q x => ?_⟩, hne⟩
  dsimp only
  by_cases eq : q = p k
  · subst eq
    rw [if_pos rfl]
    constructor
    · rintro ⟨d, hd, d1, -⟩
      exact absurd d1 (hne d hd)
    · intro g
      cases g
  · rw [if_neg eq, ← h2]
    constructor
    · rintro ⟨d, hd, d1, d2⟩
      refine ⟨d, ?_, d1, d2⟩
      rcases List.mem_append.mp hd with g | g
      · exact List.mem_append_left _ g
      · exact List.mem_append_right _ (List.mem_cons_of_mem _ g)
    · rintro ⟨d, hd, d1, d2⟩
      refine ⟨d, ?_, d1, d2⟩
      rcases List.mem_append.mp hd with g | g
      · exact List.mem_append_left _ g
      · rcases List.mem_cons.mp g with rfl | g
        · exact absurd (d1.symm.trans hk) eq
        · exact List.mem_append_right _ g

theorem EntriesOf.put {l1 l2 : List (K × V)} {e : K × V} (h : EntriesOf p f (l1 ++ e :: l2)) (hk : p e.1 = p k) (v : V) :
    EntriesOf p (fun q => if q = p k then Option.some v else f q) (l1 ++ (e.1, v) :: l2) := by
  obtain ⟨h1, h2⟩ := h.del hk
  have := h1.add (k := e.1) (by rw [hk]; exact h2) v
  rw [hk] at this
  refine ⟨this.1, fun q x => (this.2 q x).trans ?_⟩
  dsimp only
  by_cases eq : q = p k
  · rw [if_pos eq, if_pos eq]
  · rw [if_neg eq, if_neg eq, if_neg eq]

theorem putFirst_cases (hit : K → Bool) (k : K) (v : V) (es : List (K × V)) :
    ((∀ e ∈ es, hit e.1 = false) ∧ putFirst hit k v es = (none, es ++ [(k, v)])) ∨
    ∃ l1 e l2, es = l1 ++ e :: l2 ∧ hit e.1 = true ∧ putFirst hit k v es = (some e.2, l1 ++ (e.1, v) :: l2) := by
  induction es with
  | nil => exact .inl ⟨by simp, rfl⟩
  | cons d es ih =>
    rw [putFirst]
    by_cases hd : hit d.1 = true
    · rw [if_pos hd]
      exact .inr ⟨[], d, es, rfl, hd, rfl⟩
    · rw [if_neg hd]
      rcases ih with ⟨h1, h2⟩ | ⟨l1, e, l2, h1, h2, h3⟩
      · rw [h2]
        refine .inl ⟨fun e he => ?_, rfl⟩
        rcases List.mem_cons.mp he with rfl | he
        · exact Bool.not_eq_true _ |>.mp hd
        · exact h1 e he
      · rw [h3]
        exact .inr ⟨d :: l1, e, l2, by rw [h1]; rfl, h2, rfl⟩

theorem dropFirst_cases (hit : K → Bool) (es : List (K × V)) :
    ((∀ e ∈ es, hit e.1 = false) ∧ dropFirst hit es = (none, es)) ∨
    ∃ l1 e l2, es = l1 ++ e :: l2 ∧ hit e.1 = true ∧ dropFirst hit es = (some e.2, l1 ++ l2) := by
  induction es with
  | nil => exact .inl ⟨by simp, rfl⟩
  | cons d es ih =>
    rw [dropFirst]
    by_cases hd : hit d.1 = true
    · rw [if_pos hd]
      exact .inr ⟨[], d, es, rfl, hd, rfl⟩
    · rw [if_neg hd]
      rcases ih with ⟨h1, h2⟩ | ⟨l1, e, l2, h1, h2, h3⟩
      · rw [h2]
        refine .inl ⟨fun e he => ?_, rfl⟩
        rcases List.mem_cons.mp he with rfl | he
        · exact Bool.not_eq_true _ |>.mp hd
        · exact h1 e he
      · rw [h3]
        exact .inr ⟨d :: l1, e, l2, by rw [h1]; rfl, h2, rfl⟩

theorem findFirst_eq (hit : K → Bool) (es : List (K × V)) : findFirst hit es = (dropFirst hit es).1 := by
  induction es with
  | nil => rfl
  | cons d es ih =>
    rw [findFirst, dropFirst]
    by_cases hd : hit d.1 = true
    · rw [if_pos hd, if_pos hd]
    · rw [if_neg hd, if_neg hd]
      exact ih

end lists

section hash
variable [RustOrd K] [DecidableEq α] {ok : K → Prop} {p : K → α}

omit [DecidableEq α] in
theorem inBucket_iff (hH : EqHashesEqual K) (hE : ∀ a b, ok a → ok b → (RustOrd.eq a b = true ↔ p a = p b)) (hash : List Nat → Nat) (n : Nat)
    {k e : K} (hk : ok k) (he : ok e) : inBucket hash n k e = true ↔ p e = p k := by
  unfold inBucket
  rw [Bool.and_eq_true, hE e k he hk]
  constructor
  · exact fun h => h.2
  · intro h
    refine ⟨?_, h⟩
    rw [hH e k ((hE e k he hk).mpr h)]
    exact beq_self_eq_true _

theorem hashStep_ok (hH : EqHashesEqual K) (hE : ∀ a b, ok a → ok b → (RustOrd.eq a b = true ↔ p a = p b)) (hash : List Nat → Nat)
    {f : α → Option V} {t : HashTable K V} (ht : ∀ e ∈ t.entries, ok e.1) (hf : EntriesOf p f t.entries) (op : MapOp K V)
    (ho : ∀ k, op.key? = some k → ok k) :
    (t.step hash op).1 = (mapStep p f op).1 ∧ (∀ e ∈ (t.step hash op).2.entries, ok e.1) ∧
      EntriesOf p (mapStep p f op).2 (t.step hash op).2.entries := by
  have hit : ∀ {k}, ok k → ∀ e ∈ t.entries, inBucket hash t.buckets k e.1 = true ↔ p e.1 = p k := fun hk e he =>
    inBucket_iff hH hE hash t.buckets hk (ht e he)
  have miss : ∀ {k}, ok k → (∀ e ∈ t.entries, inBucket hash t.buckets k e.1 = false) → ∀ e ∈ t.entries, p e.1 ≠ p k := by
    intro k hk h e he g
    have := (hit hk e he).mpr g
    rw [h e he] at this
    cases this
  cases op with
  | insert k v =>
    have hk := ho k rfl
    change (putFirst _ _ _ _).1 = f (p k) ∧ (∀ e ∈ (putFirst _ _ _ _).2, ok e.1) ∧ EntriesOf p (fun q => if q = p k then some v else f q)
      (putFirst _ _ _ _).2
    rcases putFirst_cases (inBucket hash t.buckets k) k v t.entries with ⟨h1, h2⟩ | ⟨l1, e, l2, h1, h2, h3⟩
    · rw [h2]
      have h1 := miss hk h1
      refine ⟨(hf.none h1).symm, fun e he => ?_, ?_⟩
      · rcases List.mem_append.mp he with g | g
        · exact ht e g
        · rw [List.mem_singleton.mp g]
          exact hk
      · have := EntriesOf.add (l1 := t.entries) (l2 := []) (by rwa [List.append_nil]) (k := k) (by rwa [List.append_nil]) v
        exact this
    · rw [h3]
      have he : e ∈ t.entries := by rw [h1]; simp
      have hp := (hit hk e he).mp h2
      refine ⟨(hf.some he hp).symm, fun d hd => ?_, (h1 ▸ hf).put hp v⟩
      rcases List.mem_append.mp hd with g | g
      · exact ht d (by rw [h1]; exact List.mem_append_left _ g)
      · rcases List.mem_cons.mp g with rfl | g
        · exact ht e he
        · exact ht d (by rw [h1]; exact List.mem_append_right _ (List.mem_cons_of_mem _ g))
  | remove k =>
    have hk := ho k rfl
    change (dropFirst _ _).1 = f (p k) ∧ (∀ e ∈ (dropFirst _ _).2, ok e.1) ∧ EntriesOf p (fun q => if q = p k then none else f q)
      (dropFirst _ _).2
    rcases dropFirst_cases (inBucket hash t.buckets k) t.entries with ⟨h1, h2⟩ | ⟨l1, e, l2, h1, h2, h3⟩
    · rw [h2]
      have h1 := miss hk h1
      refine ⟨(hf.none h1).symm, ht, hf.1, fun q v => ?_⟩
      rw [hf.2]
      dsimp only
      by_cases eq : q = p k
      · rw [if_pos eq, eq, hf.none h1]
      · rw [if_neg eq]
    · rw [h3]
      have he : e ∈ t.entries := by rw [h1]; simp
      have hp := (hit hk e he).mp h2
      refine ⟨(hf.some he hp).symm, fun d hd => ?_, ((h1 ▸ hf).del hp).1⟩
      rcases List.mem_append.mp hd with g | g
      · exact ht d (by rw [h1]; exact List.mem_append_left _ g)
      · exact ht d (by rw [h1]; exact List.mem_append_right _ (List.mem_cons_of_mem _ g))
  | get k =>
    have hk := ho k rfl
    refine ⟨?_, ht, hf⟩
    change findFirst _ _ = f (p k)
    rw [findFirst_eq]
    rcases dropFirst_cases (inBucket hash t.buckets k) t.entries with ⟨h1, h2⟩ | ⟨l1, e, l2, h1, h2, h3⟩
    · rw [h2, hf.none (miss hk h1)]
    · have he : e ∈ t.entries := by rw [h1]; simp
      rw [h3, hf.some he ((hit hk e he).mp h2)]
  | resize n => exact ⟨rfl, ht, hf⟩

theorem hashRun_ok (hH : EqHashesEqual K) (hE : ∀ a b, ok a → ok b → (RustOrd.eq a b = true ↔ p a = p b)) (hash : List Nat → Nat)
    (ops : List (MapOp K V)) : ∀ {f : α → Option V} {t : HashTable K V}, (∀ e ∈ t.entries, ok e.1) → EntriesOf p f t.entries →
      (∀ op ∈ ops, ∀ k, op.key? = some k → ok k) →
      (HashTable.run hash t ops).1 = (mapRun p f ops).1 ∧ EntriesOf p (mapRun p f ops).2 (HashTable.run hash t ops).2.entries := by
  induction ops with
  | nil => exact fun _ hf _ => ⟨rfl, hf⟩
  | cons op ops ih =>
    intro f t ht hf ho
    obtain ⟨h1, h2, h3⟩ := hashStep_ok hH hE hash ht hf op (ho op (by simp))
    obtain ⟨k1, k2⟩ := ih h2 h3 fun op' h => ho op' (List.mem_cons_of_mem _ h)
    exact ⟨by rw [HashTable.run, mapRun, h1, k1], k2⟩

omit [RustOrd K] [DecidableEq α] in
theorem entriesOf_nil : EntriesOf p (fun _ => none) ([] : List (K × V)) :=
  ⟨List.nodup_nil, fun q v => by simp⟩

theorem hashMapsBy_of (hH : EqHashesEqual K) (hE : ∀ a b, ok a → ok b → (RustOrd.eq a b = true ↔ p a = p b)) : HashMapsBy ok p :=
  fun _ hash _ ops ho => hashRun_ok hH hE hash ops (by simp) entriesOf_nil ho

end hash

section sorted
variable {Cell : Type} [RustOrd K] {c : Cfg} {ok : K → Prop} {p : K → List Cell} {key : Cell → Nat}

/-- The keys are strictly ascending. -/
def Ascending (key : Cell → Nat) (p : K → List Cell) (es : List (K × V)) : Prop :=
  (es.map fun e => p e.1).Pairwise fun a b => pathCmp key a b = .lt

omit [RustOrd K] in
theorem Ascending.getElem {es : List (K × V)} (h : Ascending key p es) {i j : Nat} (hij : i < j) (hj : j < es.length) :
    pathCmp key (p (es[i]'(by omega)).1) (p es[j].1) = .lt := by
  have := List.pairwise_iff_getElem.mp h i j (by rw [List.length_map]; omega) (by rwa [List.length_map]) hij
  simpa using this

theorem searchSorted_ok (hk : Function.Injective key) (hC : CmpLike c key ok p) {es : List (K × V)} (hes : ∀ e ∈ es, ok e.1)
    (hs : Ascending key p es) {k : K} (hok : ok k) : ∀ fuel lo hi, hi - lo ≤ fuel → lo ≤ hi → hi ≤ es.length →
      (∀ j (h : j < es.length), j < lo → pathCmp key (p es[j].1) (p k) = .lt) →
      (∀ j (h : j < es.length), hi ≤ j → pathCmp key (p k) (p es[j].1) = .lt) →
      (∃ i, ∃ h : i < es.length, searchSorted c es k fuel lo hi = .ok (i, true) ∧ p es[i].1 = p k) ∨
      ∃ i, i ≤ es.length ∧ searchSorted c es k fuel lo hi = .ok (i, false) ∧
        (∀ j (h : j < es.length), j < i → pathCmp key (p es[j].1) (p k) = .lt) ∧
        (∀ j (h : j < es.length), i ≤ j → pathCmp key (p k) (p es[j].1) = .lt) := by
  intro fuel
  induction fuel with
  | zero =>
    intro lo hi h1 h2 h3 h4 h5
    have e : lo = hi := by omega
    subst e
    exact .inr ⟨lo, h3, rfl, h4, h5⟩
  | succ fuel ih =>
    intro lo hi h1 h2 h3 h4 h5
    rw [searchSorted]
    by_cases hlt : lo < hi
    · have hm : (lo + hi) / 2 < es.length := by omega
      rw [if_pos hlt, List.getElem?_eq_getElem hm]
      dsimp only
      rw [(hC _ k (hes _ (List.getElem_mem hm)) hok).1, ok_bind]
      cases hq : pathCmp key (p es[(lo + hi) / 2].1) (p k) with
      | eq => exact .inl ⟨_, hm, rfl, (pathCmp_eq_iff key hk _ _).mp hq⟩
      | lt =>
        refine ih _ hi (by omega) (by omega) h3 (fun j hj hjm => ?_) h5
        by_cases e : j = (lo + hi) / 2
        · subst e
          exact hq
        · exact pathCmp_lt_of_le hk (hs.getElem (i := j) (j := (lo + hi) / 2) (by omega) hm) (by rw [hq]; decide)
      | gt =>
        have hq' : pathCmp key (p k) (p es[(lo + hi) / 2].1) = .lt := by
          rw [← pathCmp_swap, hq]
          rfl
        refine ih lo _ (by omega) (by omega) (by omega) h4 (fun j hj hjm => ?_)
        by_cases e : j = (lo + hi) / 2
        · subst e
          exact hq'
        · exact pathCmp_lt_of_le hk hq' (by rw [hs.getElem (i := (lo + hi) / 2) (j := j) (by omega) hj]; decide)
    · have e : lo = hi := by omega
      subst e
      rw [if_neg hlt]
      exact .inr ⟨lo, h3, rfl, h4, h5⟩

theorem pathCmp_lt_ne {a b : List Cell} (h : pathCmp key a b = .lt) : a ≠ b := by
  rintro rfl
  rw [pathCmp_refl] at h
  cases h

/-- The two ways a search ends, as a split of the list. -/
theorem searchSorted_split (hk : Function.Injective key) (hC : CmpLike c key ok p) {es : List (K × V)} (hes : ∀ e ∈ es, ok e.1)
    (hs : Ascending key p es) {k : K} (hok : ok k) :
    (∃ l1 e l2, es = l1 ++ e :: l2 ∧ searchSorted c es k es.length 0 es.length = .ok (l1.length, true) ∧ p e.1 = p k) ∨
    ∃ l1 l2, es = l1 ++ l2 ∧ searchSorted c es k es.length 0 es.length = .ok (l1.length, false) ∧
      (∀ e ∈ l1, pathCmp key (p e.1) (p k) = .lt) ∧ ∀ e ∈ l2, pathCmp key (p k) (p e.1) = .lt := by
  rcases searchSorted_ok hk hC hes hs hok es.length 0 es.length (by omega) (by omega) (by omega) (fun j _ h => by omega)
    (fun j h h' => by omega) with ⟨i, h, h1, h2⟩ | ⟨i, h, h1, h2, h3⟩
  · refine .inl ⟨es.take i, es[i], es.drop (i + 1), ?_, ?_, h2⟩
    · rw [List.getElem_cons_drop, List.take_append_drop]
    · rw [List.length_take, Nat.min_eq_left (Nat.le_of_lt h)]
      exact h1
  · refine .inr ⟨es.take i, es.drop i, (List.take_append_drop i es).symm, ?_, fun e he => ?_, fun e he => ?_⟩
    · rw [List.length_take, Nat.min_eq_left h]
      exact h1
    · obtain ⟨j, hj, rfl⟩ := List.getElem_of_mem he
      rw [List.length_take] at hj
      rw [List.getElem_take]
      exact h2 j (by omega) (by omega)
    · obtain ⟨j, hj, rfl⟩ := List.getElem_of_mem he
      rw [List.length_drop] at hj
      rw [List.getElem_drop]
      exact h3 (i + j) (by omega) (by omega)

omit [RustOrd K] in
theorem ascending_add {l1 l2 : List (K × V)} (h : Ascending key p (l1 ++ l2)) {k : K} (v : V)
    (h1 : ∀ e ∈ l1, pathCmp key (p e.1) (p k) = .lt) (h2 : ∀ e ∈ l2, pathCmp key (p k) (p e.1) = .lt) :
    Ascending key p (l1 ++ (k, v) :: l2) := by
  unfold Ascending at *
  rw [List.map_append, List.pairwise_append] at h
  rw [List.map_append, List.map_cons, List.pairwise_append, List.pairwise_cons]
  refine ⟨h.1, ⟨fun b hb => ?_, h.2.1⟩, fun a ha b hb => ?_⟩
  · obtain ⟨e, he, rfl⟩ := List.mem_map.mp hb
    exact h2 e he
  · rcases List.mem_cons.mp hb with rfl | hb
    · obtain ⟨e, he, rfl⟩ := List.mem_map.mp ha
      exact h1 e he
    · exact h.2.2 a ha b hb

omit [RustOrd K] in
theorem ascending_del {l1 l2 : List (K × V)} {e : K × V} (h : Ascending key p (l1 ++ e :: l2)) : Ascending key p (l1 ++ l2) := by
  refine List.Pairwise.sublist ?_ h
  exact (List.Sublist.append (List.Sublist.refl _) (List.sublist_cons_self _ _)).map _

theorem modify_at {β : Type} (g : β → β) (l1 l2 : List β) (e : β) : (l1 ++ e :: l2).modify l1.length g = l1 ++ g e :: l2 := by
  induction l1 with
  | nil => rfl
  | cons d l1 ih => exact congrArg (d :: ·) ih

variable [DecidableEq Cell]

theorem sortedStep_ok (hk : Function.Injective key) (hC : CmpLike c key ok p) {f : List Cell → Option V} {es : List (K × V)}
    (hes : ∀ e ∈ es, ok e.1) (hs : Ascending key p es) (hf : EntriesOf p f es) (op : MapOp K V) (ho : ∀ k, op.key? = some k → ok k) :
    ∃ es', sortedStep c es op = .ok ((mapStep p f op).1, es') ∧ (∀ e ∈ es', ok e.1) ∧ Ascending key p es' ∧
      EntriesOf p (mapStep p f op).2 es' := by
  have miss : ∀ {k} {l1 l2 : List (K × V)}, es = l1 ++ l2 → (∀ e ∈ l1, pathCmp key (p e.1) (p k) = .lt) →
      (∀ e ∈ l2, pathCmp key (p k) (p e.1) = .lt) → ∀ e ∈ es, p e.1 ≠ p k := by
    intro k l1 l2 h h1 h2 e he
    rw [h] at he
    rcases List.mem_append.mp he with g | g
    · exact pathCmp_lt_ne (h1 e g)
    · exact (pathCmp_lt_ne (h2 e g)).symm
  have at_ : ∀ {l1 l2 : List (K × V)} {e}, (l1 ++ e :: l2)[l1.length]? = some e := by
    intro l1 l2 e
    rw [List.getElem?_append_right (Nat.le_refl _), Nat.sub_self]
    rfl
  cases op with
  | resize n => exact ⟨es, rfl, hes, hs, hf⟩
  | get k =>
    rcases searchSorted_split hk hC hes hs (ho k rfl) with ⟨l1, e, l2, h1, h2, h3⟩ | ⟨l1, l2, h1, h2, h3, h4⟩
    · refine ⟨es, ?_, hes, hs, hf⟩
      rw [sortedStep, h2, ok_bind]
      change Except.ok _ = Except.ok (f (p k), es)
      rw [hf.some (e := e) (by rw [h1]; simp) h3, h1, at_]
      rfl
    · refine ⟨es, ?_, hes, hs, hf⟩
      rw [sortedStep, h2, ok_bind]
      change Except.ok _ = Except.ok (f (p k), es)
      rw [hf.none (miss h1 h3 h4)]
  | remove k =>
    rcases searchSorted_split hk hC hes hs (ho k rfl) with ⟨l1, e, l2, h1, h2, h3⟩ | ⟨l1, l2, h1, h2, h3, h4⟩
    · refine ⟨l1 ++ l2, ?_, fun d hd => hes d ?_, ascending_del (h1 ▸ hs), ((h1 ▸ hf).del h3).1⟩
      · rw [sortedStep, h2, ok_bind]
        change Except.ok _ = Except.ok (f (p k), l1 ++ l2)
        rw [hf.some (e := e) (by rw [h1]; simp) h3, h1, at_, List.eraseIdx_append_of_length_le (Nat.le_refl _), Nat.sub_self]
        rfl
      · rw [h1]
        rcases List.mem_append.mp hd with g | g
        · exact List.mem_append_left _ g
        · exact List.mem_append_right _ (List.mem_cons_of_mem _ g)
    · have hm := miss h1 h3 h4
      refine ⟨es, ?_, hes, hs, hf.1, fun q v => ?_⟩
      · rw [sortedStep, h2, ok_bind]
        change Except.ok _ = Except.ok (f (p k), es)
        rw [hf.none hm]
      · rw [hf.2]
        change _ ↔ (if q = p k then none else f q) = some v
        by_cases eq : q = p k
        · rw [if_pos eq, eq, hf.none hm]
        · rw [if_neg eq]
  | insert k v =>
    rcases searchSorted_split hk hC hes hs (ho k rfl) with ⟨l1, e, l2, h1, h2, h3⟩ | ⟨l1, l2, h1, h2, h3, h4⟩
    · refine ⟨l1 ++ (e.1, v) :: l2, ?_, fun d hd => ?_, ?_, (h1 ▸ hf).put h3 v⟩
      · rw [sortedStep, h2, ok_bind]
        change Except.ok _ = Except.ok (f (p k), l1 ++ (e.1, v) :: l2)
        rw [hf.some (e := e) (by rw [h1]; simp) h3, h1, at_, modify_at]
        rfl
      · rcases List.mem_append.mp hd with g | g
        · exact hes d (by rw [h1]; exact List.mem_append_left _ g)
        · rcases List.mem_cons.mp g with rfl | g
          · exact hes e (by rw [h1]; simp)
          · exact hes d (by rw [h1]; exact List.mem_append_right _ (List.mem_cons_of_mem _ g))
      · have := h1 ▸ hs
        unfold Ascending at this ⊢
        rw [List.map_append, List.map_cons] at this ⊢
        exact this
    · have hm := miss h1 h3 h4
      refine ⟨l1 ++ (k, v) :: l2, ?_, fun d hd => ?_, ascending_add (h1 ▸ hs) v h3 h4, EntriesOf.add (h1 ▸ hf) (h1 ▸ hm) v⟩
      · rw [sortedStep, h2, ok_bind]
        change Except.ok _ = Except.ok (f (p k), l1 ++ (k, v) :: l2)
        rw [hf.none hm, h1]
        simp
      · rcases List.mem_append.mp hd with g | g
        · exact hes d (by rw [h1]; exact List.mem_append_left _ g)
        · rcases List.mem_cons.mp g with rfl | g
          · exact ho k rfl
          · exact hes d (by rw [h1]; exact List.mem_append_right _ g)

theorem sortedRun_ok (hk : Function.Injective key) (hC : CmpLike c key ok p) (ops : List (MapOp K V)) :
    ∀ {f : List Cell → Option V} {es : List (K × V)}, (∀ e ∈ es, ok e.1) → Ascending key p es → EntriesOf p f es →
      (∀ op ∈ ops, ∀ k, op.key? = some k → ok k) →
      ∃ es', sortedRun c es ops = .ok ((mapRun p f ops).1, es') ∧ (∀ e ∈ es', ok e.1) ∧ Ascending key p es' ∧
        EntriesOf p (mapRun p f ops).2 es' := by
  induction ops with
  | nil => exact fun h1 h2 h3 _ => ⟨_, rfl, h1, h2, h3⟩
  | cons op ops ih =>
    intro f es h1 h2 h3 ho
    obtain ⟨es', k1, k2, k3, k4⟩ := sortedStep_ok hk hC h1 h2 h3 op (ho op (by simp))
    obtain ⟨es'', l1, l2, l3, l4⟩ := ih k2 k3 k4 fun op' h => ho op' (List.mem_cons_of_mem _ h)
    refine ⟨es'', ?_, l2, l3, l4⟩
    rw [sortedRun, k1, ok_bind]
    dsimp only
    rw [l1, ok_bind]
    rfl

theorem sortedMapsBy_of (hk : Function.Injective key) (hC : CmpLike c key ok p) : SortedMapsBy c ok p := by
  intro V ops ho
  obtain ⟨es, h1, h2, h3, h4⟩ := sortedRun_ok (V := V) hk hC ops (es := []) (by simp) List.Pairwise.nil entriesOf_nil ho
  refine ⟨es, h1, h4, ?_⟩
  rw [List.pairwise_iff_getElem]
  intro i j hi hj hij
  rw [RustOrd.lt, (hC _ _ (h2 _ (List.getElem_mem hi)) (h2 _ (List.getElem_mem hj))).2, h3.getElem hij hj]
  rfl

end sorted

section theorems
variable {c : Cfg}

theorem hashMapsByCells_of {Cell : Type} [MortonIndex K Cell] [RustOrd K] [DecidableEq Cell] {ok : K → Prop} {q : K → List Cell}
    {wr : Cell → Cell} (hH : EqHashesEqual K) (hL : ListLike c ok q wr) (hE : EqLike ok q) : HashMapsByCells c ok := by
  intro p hp
  refine hashMapsBy_of hH fun a b ha hb => ?_
  rw [hE a b ha hb, hL.eq_of_shows ha (hp a ha), hL.eq_of_shows hb (hp b hb)]

theorem sortedMapsByCells_of {Cell : Type} [MortonIndex K Cell] [RustOrd K] [DecidableEq Cell] {ok : K → Prop} {q : K → List Cell}
    {wr : Cell → Cell} {key : Cell → Nat} (hk : Function.Injective key) (hL : ListLike c ok q wr) (hC : CmpLike c key ok q) :
    SortedMapsByCells c ok := by
  intro p hp
  refine sortedMapsBy_of hk fun a b ha hb => ?_
  rw [← hL.eq_of_shows ha (hp a ha), ← hL.eq_of_shows hb (hp b hb)]
  exact hC a b ha hb

/-- **C110**, 2D: hash maps whose keys are indices. Dynamic indices: those made without `zeroed` at a multiple
of four (`.canonical`). -/
theorem C110_hash_maps_2D (hc : c.Supported) :
    (∀ w, HashMapsByCells c (fun m => Reach2D c .all (.fixed w m))) ∧
    (∀ w, HashMapsByCells c (fun m => Reach2D c .all (.static w m))) ∧
    HashMapsByCells c (fun m => Reach2D c .canonical (.dynamic m)) :=
  ⟨fun w => hashMapsByCells_of (C17_equal_indices_hash_equally_2D.1 w) (fixed_list2 hc) (fixed_eq2 hc),
    fun w => hashMapsByCells_of (C17_equal_indices_hash_equally_2D.2.1 w) (static_list2 hc) (static_eq2 hc),
    hashMapsByCells_of C17_equal_indices_hash_equally_2D.2.2 (dynamic_list2' hc) (dynamic_eq2 hc)⟩

/-- **C110**, 3D: hash maps whose keys are indices without stray bits. -/
theorem C110_hash_maps_3D (hc : c.Supported) :
    (∀ w, HashMapsByCells c (fun m => Reach3D c .canonical (.fixed w m))) ∧
    (∀ w, HashMapsByCells c (fun m => Reach3D c .canonical (.static w m))) ∧
    HashMapsByCells c (fun m => Reach3D c .canonical (.dynamic m)) :=
  ⟨fun w => hashMapsByCells_of (C17_equal_indices_hash_equally_3D.1 w) (fixed_list3 hc) (fixed_eq3 hc),
    fun w => hashMapsByCells_of (C17_equal_indices_hash_equally_3D.2.1 w) (static_list3 hc) (static_eq3 hc),
    hashMapsByCells_of C17_equal_indices_hash_equally_3D.2.2 (dynamic_list3' hc) (dynamic_eq3 hc)⟩

/-- **C110**: with any values as keys, hash maps tell apart what `==` tells apart. -/
theorem C110_hash_maps_any :
    (∀ w, HashMapsByEq (MortonIndex2D (FixedDepthStorage2D w)) ∧ HashMapsByEq (MortonIndex2D (StaticStorage2D w)) ∧
      HashMapsByEq (MortonIndex3D (FixedDepthStorage3D w)) ∧ HashMapsByEq (MortonIndex3D (StaticStorage3D w))) ∧
    HashMapsByEq (MortonIndex2D DynamicStorage2D) ∧ HashMapsByEq (MortonIndex3D DynamicStorage3D) := by
  have h : ∀ {K : Type} [RustOrd K], EqHashesEqual K → HashMapsByEq K := by
    intro K _ hH α _ p hp
    exact hashMapsBy_of hH fun a b _ _ => hp a b
  exact ⟨fun w => ⟨h (C17_equal_indices_hash_equally_2D.1 w), h (C17_equal_indices_hash_equally_2D.2.1 w),
    h (C17_equal_indices_hash_equally_3D.1 w), h (C17_equal_indices_hash_equally_3D.2.1 w)⟩,
    h C17_equal_indices_hash_equally_2D.2.2, h C17_equal_indices_hash_equally_3D.2.2⟩

/-- **C110**, 2D: sorted maps whose keys are indices with any history. -/
theorem C110_sorted_maps_2D (hc : c.Supported) :
    (∀ w, SortedMapsByCells c (fun m => Reach2D c .all (.fixed w m))) ∧
    (∀ w, SortedMapsByCells c (fun m => Reach2D c .all (.static w m))) ∧
    SortedMapsByCells c (fun m => Reach2D c .all (.dynamic m)) :=
  ⟨fun _ => sortedMapsByCells_of quadrantKey_inj (fixed_list2 hc) (fixed_cmp2 hc),
    fun _ => sortedMapsByCells_of quadrantKey_inj (static_list2 hc) (static_cmp2 hc),
    sortedMapsByCells_of quadrantKey_inj (dynamic_list2' hc) (dynamic_cmp2 hc)⟩

/-- **C110**, 3D: sorted maps whose keys are indices with any history, fixed-depth indices without stray bits; with stray bits a fixed-depth
index is the number it stores. -/
theorem C110_sorted_maps_3D (hc : c.Supported) :
    (∀ w, SortedMapsByCells c (fun m => Reach3D c .canonical (.fixed w m))) ∧
    (∀ w, SortedMapsBy c (fun _ : MortonIndex3D (FixedDepthStorage3D w) => True) fun m => [(StorageBits.bits m.storage).toNat]) ∧
    (∀ w, SortedMapsByCells c (fun m => Reach3D c .all (.static w m))) ∧
    SortedMapsByCells c (fun m => Reach3D c .all (.dynamic m)) :=
  ⟨fun _ => sortedMapsByCells_of octantKey_inj (fixed_list3 hc) (fixed_cmp3 hc),
    fun _ => sortedMapsBy_of Function.injective_id fixed_number_order3,
    fun _ => sortedMapsByCells_of octantKey_inj (static_list3 hc) (static_cmp3 hc),
    sortedMapsByCells_of octantKey_inj (dynamic_list3' hc) (dynamic_cmp3 hc)⟩

/-- **C110**: with other histories the two kinds of maps disagree. `zeroed(4)` and the index made of four `Zero` cells are two keys of a hash
map, whatever the hasher, but one key of a sorted map. -/
theorem C110_spoiled_keys (hash : List Nat → Nat) (n : Nat) :
    (HashTable.run hash ⟨n, []⟩ [.insert zeroed4 1, .get fourZeros, .insert fourZeros 2]).1 = [none, none, none] ∧
    (HashTable.run hash ⟨n, []⟩ [.insert zeroed4 1, .get fourZeros, .insert fourZeros 2]).2.entries = [(zeroed4, 1), (fourZeros, 2)] ∧
    sortedRun x64 [] [.insert zeroed4 1, .get fourZeros, .insert fourZeros 2] = .ok ([none, some 1, some 1], [(zeroed4, 2)]) := by
  have h : ∀ h n, inBucket h n fourZeros zeroed4 = false := fun h n => by
    unfold inBucket
    rw [show RustOrd.eq zeroed4 fourZeros = false by decide, Bool.and_false]
  refine ⟨?_, ?_, by decide +kernel⟩
  · simp [HashTable.run, HashTable.step, putFirst, findFirst, h]
  · simp [HashTable.run, HashTable.step, putFirst, findFirst, h]

/-! ## Examples -/

/-- A value is stored under one index and found under another one of the same cells, after a change of the number of buckets. -/
example (hash : List Nat → Nat) : (HashTable.run hash ⟨8, []⟩
    [.insert exS2 7, .resize 16, .get ⟨⟨0xD800#16, 3⟩⟩, .remove exS2, .get exS2]).1 = [none, none, some 7, some 7, none] := by
  have hr : Reach2D x64 .all (.static 16 exS2) := exS2_reach _
  have h := ((C110_hash_maps_2D x64_supported).2.1 16 cells2 (fun k hk => (static_list2 x64_supported).shows hk) Nat hash 8
    [.insert exS2 7, .resize 16, .get ⟨⟨0xD800#16, 3⟩⟩, .remove exS2, .get exS2] (by
      intro op ho k e
      simp only [List.mem_cons, List.not_mem_nil, or_false] at ho
      rcases ho with rfl | rfl | rfl | rfl | rfl <;> cases e <;> exact hr)).1
  rw [h]
  decide +kernel

/-- Three dynamic indices in a sorted map, inserted in another order. -/
example : ∃ es, sortedRun x64 [] [.insert exD3 1, .insert ⟨⟨[], 0⟩⟩ 2, .insert exD3 3, .get ⟨⟨[], 0⟩⟩] =
      .ok ([none, none, some 1, some 2], es) ∧ es.Pairwise fun a b => RustOrd.lt x64 a.1 b.1 = .ok true := by
  have h0 : Reach3D x64 .all (.dynamic (⟨⟨[], 0⟩⟩ : MortonIndex3D DynamicStorage3D)) := .dynamicDefault
  obtain ⟨es, h1, -, h2⟩ := (C110_sorted_maps_3D x64_supported).2.2.2 cells3 (fun k hk => (dynamic_list3' x64_supported).shows hk) Nat
    [.insert exD3 1, .insert ⟨⟨[], 0⟩⟩ 2, .insert exD3 3, .get ⟨⟨[], 0⟩⟩] (by
      intro op ho k e
      simp only [List.mem_cons, List.not_mem_nil, or_false] at ho
      rcases ho with rfl | rfl | rfl | rfl <;> cases e <;> first | exact exD3_reach _ | exact h0)
  refine ⟨es, ?_, h2⟩
  rw [h1, show (mapRun cells3 (fun _ => none) [MapOp.insert exD3 1, .insert ⟨⟨[], 0⟩⟩ 2, .insert exD3 3, .get ⟨⟨[], 0⟩⟩]).1 =
    [none, none, some 1, some 2] by decide +kernel]

end theorems

end MortonRs
