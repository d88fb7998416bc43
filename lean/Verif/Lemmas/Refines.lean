import Verif.Lemmas.NoUB

/-! # Calculus for comparing a build with overflow checks to one without

The two builds differ only in what arithmetic does on overflow. `Refines r r'` relates the result `r` of a call in some
build to its result `r'` in the build without overflow checks for the same target. -/

namespace MortonRs

/-- The same target without overflow checks (`--release`). -/
abbrev Cfg.release (c : Cfg) : Cfg := ⟨c.ptrBits, false, c.bigEndian⟩

/-- `r` is an arithmetic overflow panic, or else exactly `r'`: the same value or the same panic. -/
def Refines {α : Type} (r r' : Res α) : Prop := r = .error .overflow ∨ r = r'

variable {c : Cfg} {α β σ : Type}

theorem refines_refl (r : Res α) : Refines r r := .inr rfl
theorem refines_ok (a : α) : Refines (.ok a : Res α) (.ok a) := .inr rfl
theorem refines_pure (a : α) : Refines (pure a : Res α) (pure a) := .inr rfl
theorem refines_error (e : Fault) : Refines (.error e : Res α) (.error e) := .inr rfl

/-- Sequencing; the continuation may use what the first step returned. -/
theorem refines_bind' {r r' : Res α} {f f' : α → Res β} (hr : Refines r r') (hf : ∀ a, r = .ok a → Refines (f a) (f' a)) :
    Refines (r >>= f) (r' >>= f') := by
  rcases hr with rfl | rfl
  · exact .inl rfl
  · cases r with
    | ok a => exact hf a rfl
    | error e => exact refines_error e

theorem refines_bind {r r' : Res α} {f f' : α → Res β} (hr : Refines r r') (hf : ∀ a, Refines (f a) (f' a)) :
    Refines (r >>= f) (r' >>= f') := refines_bind' hr fun a _ => hf a

theorem refines_ite {p : Prop} [Decidable p] {a b a' b' : Res α} (ha : p → Refines a a') (hb : ¬ p → Refines b b') :
    Refines (if p then a else b) (if p then a' else b') := by
  split
  · exact ha ‹_›
  · exact hb ‹_›

theorem refines_foldlM {ι : Type} {l : List ι} {f f' : σ → ι → Res σ} (h : ∀ s i, Refines (f s i) (f' s i)) (s : σ) :
    Refines (l.foldlM f s) (l.foldlM f' s) := by
  induction l generalizing s with
  | nil => exact refines_pure s
  | cons i l ih =>
    rw [List.foldlM_cons, List.foldlM_cons]
    exact refines_bind (h s i) ih

theorem refines_forRange {a b : Nat} {init : σ} {body body' : Nat → σ → Res σ} (h : ∀ i s, Refines (body i s) (body' i s)) :
    Refines (forRange a b init body) (forRange a b init body') := refines_foldlM (fun s i => h i s) init

theorem refines_forRangeRev {a b : Nat} {init : σ} {body body' : Nat → σ → Res σ} (h : ∀ i s, Refines (body i s) (body' i s)) :
    Refines (forRangeRev a b init body) (forRangeRev a b init body') := refines_foldlM (fun s i => h i s) init

theorem refines_forEnumFrom {k : Nat} {xs : List α} {init : σ} {body body' : Nat → α → σ → Res σ}
    (h : ∀ i x s, Refines (body i x s) (body' i x s)) : Refines (forEnumFrom k xs init body) (forEnumFrom k xs init body') := by
  induction xs generalizing k init with
  | nil => exact refines_ok _
  | cons x xs ih => exact refines_bind (h k x init) fun s => ih

theorem refines_forEnum {xs : List α} {init : σ} {body body' : Nat → α → σ → Res σ}
    (h : ∀ i x s, Refines (body i x s) (body' i x s)) : Refines (forEnum xs init body) (forEnum xs init body') :=
  refines_forEnumFrom h

theorem refines_mapM {l : List α} {f f' : α → Res β} (h : ∀ a, Refines (f a) (f' a)) : Refines (l.mapM f) (l.mapM f') := by
  induction l with
  | nil => exact refines_pure []
  | cons x xs ih =>
    rw [List.mapM_cons, List.mapM_cons]
    exact refines_bind (h x) fun b => refines_bind ih fun bs => refines_pure _

/-! ## Arithmetic -/

theorem refines_overflow {p : Prop} [Decidable p] {b : Bool} {x y : α} :
    Refines (if p then .ok x else if b then .error .overflow else .ok y)
      (if p then .ok x else if false = true then .error .overflow else .ok y) := by
  by_cases hp : p
  · rw [if_pos hp, if_pos hp]; exact refines_ok x
  · rw [if_neg hp, if_neg hp]
    cases b
    · exact .inr rfl
    · exact .inl rfl

theorem refines_uadd (a b : Nat) : Refines (uadd c a b) (uadd c.release a b) := refines_overflow
theorem refines_usub (a b : Nat) : Refines (usub c a b) (usub c.release a b) := refines_overflow
theorem refines_umul (a b : Nat) : Refines (umul c a b) (umul c.release a b) := refines_overflow
theorem refines_u8sub (a b : Nat) : Refines (u8sub c a b) (u8sub c.release a b) := refines_overflow
theorem refines_shl {w : Nat} (x : BitVec w) (s : Nat) : Refines (shl c x s) (shl c.release x s) := refines_overflow
theorem refines_shr {w : Nat} (x : BitVec w) (s : Nat) : Refines (shr c x s) (shr c.release x s) := refines_overflow
theorem refines_subN {w : Nat} (a b : BitVec w) : Refines (subN c a b) (subN c.release a b) := refines_overflow

theorem refines_addN {w : Nat} (a b : BitVec w) : Refines (addN c a b) (addN c.release a b) := refines_overflow
theorem refines_mulN {w : Nat} (a b : BitVec w) : Refines (mulN c a b) (mulN c.release a b) := refines_overflow

/-- Apply the rules above. -/
macro "refines_step" : tactic => `(tactic| first
  | assumption
  | apply refines_refl
  | apply refines_uadd | apply refines_usub | apply refines_umul | apply refines_u8sub
  | apply refines_shl | apply refines_shr | apply refines_subN
  | apply refines_bind | apply refines_forRange | apply refines_forRangeRev | apply refines_forEnum | apply refines_mapM
  | intro _ | refine refines_ite (fun _ => ?_) (fun _ => ?_) | dsimp only
  | split)

theorem refines_intGetBits {w : Nat} (x : BitVec w) (r : Range) : Refines (intGetBits c x r) (intGetBits c.release x r) := by
  unfold intGetBits
  repeat refines_step

theorem refines_intSetBits {w : Nat} (x v : BitVec w) (r : Range) : Refines (intSetBits c x r v)
    (intSetBits c.release x r v) := by
  unfold intSetBits
  repeat refines_step

/-! ## Byte vectors -/

theorem refines_vecGetBitsAsUsize (v : List (BitVec 8)) (r : Range) :
    Refines (vecGetBitsAsUsize c v r) (vecGetBitsAsUsize c.release v r) := by
  unfold vecGetBitsAsUsize
  repeat (first | apply refines_intGetBits | apply refines_intSetBits | refines_step)

theorem refines_combinedByte (v : List (BitVec 8)) (nb k : Nat) : Refines (combinedByte c v nb k)
    (combinedByte c.release v nb k) := by
  unfold combinedByte
  repeat (first | apply refines_intGetBits | refines_step)

theorem refines_setVecU8Bits (vec v : List (BitVec 8)) (r : Range) :
    Refines (setVecU8Bits c vec r v) (setVecU8Bits c.release vec r v) := by
  unfold setVecU8Bits
  repeat (first | apply refines_combinedByte | apply refines_intSetBits | refines_step)

theorem refines_vecGetBits (v : List (BitVec 8)) (r : Range) : Refines (vecGetBits c v r) (vecGetBits c.release v r) := by
  have hcarry : ∀ a b l, Refines (getBitsCarry c a b l) (getBitsCarry c.release a b l) := fun a b l => by
    unfold getBitsCarry
    repeat (first | apply refines_intGetBits | apply refines_intSetBits | refines_step)
  have hmask : ∀ a b d l, Refines (getBitsMaskLast c a b d l) (getBitsMaskLast c.release a b d l) := fun a b d l => by
    unfold getBitsMaskLast
    repeat refines_step
  unfold vecGetBits
  repeat (first | apply hcarry | apply hmask | refines_step)

end MortonRs
