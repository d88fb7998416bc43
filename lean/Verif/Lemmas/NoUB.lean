import Verif.Model.Helper
import Verif.Model.Index2D
import Verif.Model.Index3D
import Verif.Model.Align

/-! # Calculus for the absence of undefined behaviour and non-termination -/

namespace MortonRs

/-- The call neither reaches undefined behaviour nor loops forever. -/
def Safe {α : Type} (r : Res α) : Prop := r ≠ .error .undefinedBehaviour ∧ r ≠ .error .nontermination

variable {c : Cfg} {α β σ : Type}

theorem safe_ok (a : α) : Safe (.ok a : Res α) := ⟨nofun, nofun⟩
theorem safe_pure (a : α) : Safe (pure a : Res α) := safe_ok a
theorem safe_error {e : Fault} (h1 : e ≠ .undefinedBehaviour) (h2 : e ≠ .nontermination) : Safe (.error e : Res α) :=
  ⟨fun h => h1 (Except.error.inj h), fun h => h2 (Except.error.inj h)⟩

/-- Sequencing; the continuation may use what the first step returned. -/
theorem safe_bind' {r : Res α} {f : α → Res β} (hr : Safe r) (hf : ∀ a, r = .ok a → Safe (f a)) : Safe (r >>= f) := by
  cases r with
  | ok a => exact hf a rfl
  | error e => exact ⟨fun h => hr.1 (congrArg _ (Except.error.inj h)), fun h => hr.2 (congrArg _ (Except.error.inj h))⟩

theorem safe_bind {r : Res α} {f : α → Res β} (hr : Safe r) (hf : ∀ a, Safe (f a)) : Safe (r >>= f) :=
  safe_bind' hr fun a _ => hf a

theorem safe_ite {p : Prop} [Decidable p] {a b : Res α} (ha : p → Safe a) (hb : ¬ p → Safe b) : Safe (if p then a else b) := by
  split
  · exact ha ‹_›
  · exact hb ‹_›

theorem safe_foldlM {ι : Type} {l : List ι} {f : σ → ι → Res σ} (h : ∀ s i, Safe (f s i)) (s : σ) : Safe (l.foldlM f s) := by
  induction l generalizing s with
  | nil => exact safe_pure s
  | cons i l ih =>
    rw [List.foldlM_cons]
    exact safe_bind (h s i) ih

theorem safe_forRange {a b : Nat} {init : σ} {body : Nat → σ → Res σ} (h : ∀ i s, Safe (body i s)) :
    Safe (forRange a b init body) := safe_foldlM (fun s i => h i s) init

theorem safe_forRangeRev {a b : Nat} {init : σ} {body : Nat → σ → Res σ} (h : ∀ i s, Safe (body i s)) :
    Safe (forRangeRev a b init body) := safe_foldlM (fun s i => h i s) init

theorem safe_forEnumFrom {k : Nat} {xs : List α} {init : σ} {body : Nat → α → σ → Res σ} (h : ∀ i x s, Safe (body i x s)) :
    Safe (forEnumFrom k xs init body) := by
  induction xs generalizing k init with
  | nil => exact safe_ok _
  | cons x xs ih => exact safe_bind (h k x init) fun s => ih

theorem safe_forEnum {xs : List α} {init : σ} {body : Nat → α → σ → Res σ} (h : ∀ i x s, Safe (body i x s)) :
    Safe (forEnum xs init body) := safe_forEnumFrom h

theorem safe_mapM {l : List α} {f : α → Res β} (h : ∀ a, Safe (f a)) : Safe (l.mapM f) := by
  induction l with
  | nil => exact safe_pure []
  | cons x xs ih =>
    rw [List.mapM_cons]
    exact safe_bind (h x) fun b => safe_bind ih fun bs => safe_pure _

/-! ## Arithmetic -/

theorem safe_uadd (a b : Nat) : Safe (uadd c a b) := by
  unfold uadd; split
  · exact safe_ok _
  · split
    · exact safe_error nofun nofun
    · exact safe_ok _

theorem safe_usub (a b : Nat) : Safe (usub c a b) := by
  unfold usub; split
  · exact safe_ok _
  · split
    · exact safe_error nofun nofun
    · exact safe_ok _

theorem safe_umul (a b : Nat) : Safe (umul c a b) := by
  unfold umul; split
  · exact safe_ok _
  · split
    · exact safe_error nofun nofun
    · exact safe_ok _

theorem safe_u8sub (a b : Nat) : Safe (u8sub c a b) := by
  unfold u8sub; split
  · exact safe_ok _
  · split
    · exact safe_error nofun nofun
    · exact safe_ok _

theorem safe_shl {w : Nat} (x : BitVec w) (s : Nat) : Safe (shl c x s) := by
  unfold shl; split
  · exact safe_ok _
  · split
    · exact safe_error nofun nofun
    · exact safe_ok _

theorem safe_shr {w : Nat} (x : BitVec w) (s : Nat) : Safe (shr c x s) := by
  unfold shr; split
  · exact safe_ok _
  · split
    · exact safe_error nofun nofun
    · exact safe_ok _

theorem safe_subN {w : Nat} (a b : BitVec w) : Safe (subN c a b) := by
  unfold subN; split
  · exact safe_ok _
  · split
    · exact safe_error nofun nofun
    · exact safe_ok _

theorem safe_index (xs : List α) (i : Nat) : Safe (index xs i) := by
  unfold index; split
  · exact safe_ok _
  · exact safe_error nofun nofun

theorem safe_indexSet (xs : List α) (i : Nat) (v : α) : Safe (indexSet xs i v) := by
  unfold indexSet; split
  · exact safe_ok _
  · exact safe_error nofun nofun

theorem safe_unwrapOption (o : Option α) : Safe (unwrapOption o) := by
  cases o
  · exact safe_error nofun nofun
  · exact safe_ok _

theorem safe_unwrapResult {ε : Type} (r : Except ε α) : Safe (unwrapResult r) := by
  cases r
  · exact safe_error nofun nofun
  · exact safe_ok _

theorem safe_newUnchecked {n : Nat} (h : 0 < n) : Safe (NonZeroUsize.newUnchecked n) := by
  unfold NonZeroUsize.newUnchecked
  rw [dif_pos h]
  exact safe_ok _

/-- A loop whose body is safe wherever an invariant holds. -/
theorem safe_forRange_inv {a b : Nat} {init : σ} {body : Nat → σ → Res σ} (P : Nat → σ → Prop) (h0 : a < b → P a init)
    (h : ∀ i s, a ≤ i → i < b → P i s → Safe (body i s) ∧ ∀ s', body i s = .ok s' → P (i + 1) s') :
    Safe (forRange a b init body) := by
  unfold forRange
  obtain ⟨n, hn⟩ : ∃ n, n = b - a := ⟨_, rfl⟩
  rw [← hn]
  induction n generalizing a init with
  | zero => exact safe_pure _
  | succ n ih =>
    rw [List.range'_succ, List.foldlM_cons]
    have hab : a < b := by omega
    obtain ⟨h1, h2⟩ := h a init (Nat.le_refl _) hab (h0 hab)
    exact safe_bind' h1 fun s' e => ih (fun _ => h2 s' e) (fun i s hi hi' => h i s (by omega) hi') (by omega)

/-- Apply the rules above. -/
macro "safe_step" : tactic => `(tactic| first
  | assumption
  | apply safe_ok | apply safe_pure | apply safe_uadd | apply safe_usub | apply safe_umul | apply safe_u8sub
  | apply safe_shl | apply safe_shr | apply safe_subN | apply safe_index | apply safe_indexSet
  | apply safe_unwrapOption | apply safe_unwrapResult
  | exact safe_error nofun nofun
  | apply safe_bind | apply safe_forRange | apply safe_forRangeRev | apply safe_forEnum | apply safe_mapM
  | intro _ | refine safe_ite (fun _ => ?_) (fun _ => ?_) | dsimp only
  | split)

theorem safe_intGetBits {w : Nat} (x : BitVec w) (r : Range) : Safe (intGetBits c x r) := by
  unfold intGetBits
  repeat safe_step

theorem safe_intSetBits {w : Nat} (x v : BitVec w) (r : Range) : Safe (intSetBits c x r v) := by
  unfold intSetBits
  repeat safe_step

/-! ## Byte vectors -/

theorem safe_vecGetBitsAsUsize (v : List (BitVec 8)) (r : Range) : Safe (vecGetBitsAsUsize c v r) := by
  unfold vecGetBitsAsUsize
  repeat (first | apply safe_intGetBits | apply safe_intSetBits | safe_step)

theorem safe_readU16 {v : List (BitVec 8)} {i : Nat} (h : i + 1 < v.length) : Safe (readU16 c v i) := by
  unfold readU16
  rw [List.getElem?_eq_getElem h, List.getElem?_eq_getElem (by omega : i < v.length)]
  exact safe_ok _

/-- The raw two-byte read stays inside a value of at least two bytes while fewer than eight bits have been copied. -/
theorem safe_combinedByte {v : List (BitVec 8)} {nb k : Nat} (hv : 2 ≤ v.length) (hnb : nb < 8) : Safe (combinedByte c v nb k) := by
  unfold combinedByte
  have h0 : nb / 8 = 0 := by omega
  refine safe_bind (safe_uadd _ _) fun e => safe_bind (safe_usub _ _) fun last => ?_
  dsimp only
  rw [h0]
  split
  · repeat (first | apply safe_intGetBits | safe_step)
  · refine safe_bind (safe_readU16 (by omega)) fun b => ?_
    repeat (first | apply safe_intGetBits | safe_step)

theorem usub_lt {a b r : Nat} (ha : a < 2 ^ c.ptrBits) (h : usub c a b = .ok r) : r < 2 ^ c.ptrBits := by
  unfold usub at h
  have hp : 0 < 2 ^ c.ptrBits := Nat.two_pow_pos _
  split at h
  · cases h; omega
  · split at h
    · cases h
    · cases h; exact Nat.mod_lt _ hp

theorem umul_lt {a b r : Nat} (h : umul c a b = .ok r) : r < 2 ^ c.ptrBits := by
  unfold umul at h
  have hp : 0 < 2 ^ c.ptrBits := Nat.two_pow_pos _
  split at h
  · cases h; assumption
  · split at h
    · cases h
    · cases h; exact Nat.mod_lt _ hp

theorem usub_val {a b r : Nat} (hb : b ≤ a) (h : usub c a b = .ok r) : r = a - b := by
  unfold usub at h
  rw [if_pos hb] at h
  cases h; rfl

theorem uadd_cases {a b r : Nat} (ha : a < 2 ^ c.ptrBits) (hb : b < 2 ^ c.ptrBits) (h : uadd c a b = .ok r) :
    r = a + b ∧ a + b < 2 ^ c.ptrBits ∨ r + 2 ^ c.ptrBits = a + b := by
  unfold uadd at h
  split at h
  · cases h; exact .inl ⟨rfl, ‹_›⟩
  · split at h
    · cases h
    · cases h
      refine .inr ?_
      rw [Nat.mod_eq_sub_mod (by omega), Nat.mod_eq_of_lt (by omega)]
      omega

theorem uadd_val {a b r : Nat} (hab : a + b < 2 ^ c.ptrBits) (h : uadd c a b = .ok r) : r = a + b := by
  unfold uadd at h
  rw [if_pos hab] at h
  cases h; rfl

theorem umul_val {a b r : Nat} (hab : a * b < 2 ^ c.ptrBits) (h : umul c a b = .ok r) : r = a * b := by
  unfold umul at h
  rw [if_pos hab] at h
  cases h; rfl

/-- Writing at most seven bits at any position whose end was computed by wrapping addition. -/
theorem safe_setVecU8Bits {vec v : List (BitVec 8)} {start stop d : Nat} (hc : 16 ≤ c.ptrBits) (hv : 2 ≤ v.length) (hd : d < 8)
    (hs : start < 2 ^ c.ptrBits) (he : uadd c start d = .ok stop) : Safe (setVecU8Bits c vec ⟨start, stop⟩ v) := by
  unfold setVecU8Bits
  have hpow : 2 ^ 16 ≤ 2 ^ c.ptrBits := Nat.pow_le_pow_right (by decide) hc
  refine safe_bind' (safe_uadd _ _) fun t ht => safe_bind ?_ fun st => safe_pure _
  dsimp only at ht ⊢
  have hcases := uadd_cases hs (by omega) he
  have hstop : stop < 2 ^ c.ptrBits := by omega
  have htc := uadd_cases hstop (by omega) ht
  refine safe_forRange_inv (fun i st => start ≤ st.2.1 ∧ st.2.1 ≤ stop ∧ st.2.1 ≤ (i + 1) * 8 ∧ st.2.2 = st.2.1 - start) ?_ ?_
  · intro hlt
    dsimp only
    omega
  · rintro i ⟨ve, sb, nb⟩ hi hi' ⟨p1, p2, p3, p4⟩
    dsimp only at p1 p2 p3 p4 ⊢
    have hno : stop = start + d ∧ t = stop + 7 ∧ t < 2 ^ c.ptrBits := by omega
    have hi8 : (i + 1) * 8 < 2 ^ c.ptrBits := by omega
    refine ⟨?_, ?_⟩
    · refine safe_bind' (safe_uadd _ _) fun i1 e1 => safe_bind' (safe_umul _ _) fun i8 e2 => ?_
      refine safe_bind' (safe_usub _ _) fun k e3 => safe_bind (safe_combinedByte hv (by omega)) fun cb => ?_
      repeat (first | apply safe_intSetBits | safe_step)
    · intro s' hb
      revert hb
      cases e1 : uadd c i 1 with
      | error e => exact nofun
      | ok i1 =>
        have v1 := uadd_val (by omega) e1
        subst v1
        change (umul c (i + 1) 8 >>= _) = _ → _
        cases e2 : umul c (i + 1) 8 with
        | error e => exact nofun
        | ok i8 =>
          have v2 := umul_val hi8 e2
          subst v2
          change (usub c (min ((i + 1) * 8) stop) sb >>= _) = _ → _
          cases e3 : usub c (min ((i + 1) * 8) stop) sb with
          | error e => exact nofun
          | ok k =>
            have v3 := usub_val (by omega) e3
            change (combinedByte c v nb k >>= _) = _ → _
            cases combinedByte c v nb k with
            | error e => exact nofun
            | ok cb =>
              change (index ve i >>= _) = _ → _
              cases index ve i with
              | error e => exact nofun
              | ok byte =>
                change (umul c i 8 >>= _) = _ → _
                cases umul c i 8 with
                | error e => exact nofun
                | ok j8 =>
                  change (usub c sb j8 >>= _) = _ → _
                  cases usub c sb j8 with
                  | error e => exact nofun
                  | ok lo =>
                    change (usub c _ j8 >>= _) = _ → _
                    cases usub c (min ((i + 1) * 8) stop) j8 with
                    | error e => exact nofun
                    | ok hi =>
                      change (intSetBits c byte ⟨lo, hi⟩ cb >>= _) = _ → _
                      cases intSetBits c byte ⟨lo, hi⟩ cb with
                      | error e => exact nofun
                      | ok byte' =>
                        change (uadd c nb k >>= _) = _ → _
                        cases e4 : uadd c nb k with
                        | error e => exact nofun
                        | ok nb' =>
                          have v4 := uadd_val (by omega) e4
                          intro hb
                          cases hb
                          dsimp only
                          omega

end MortonRs
