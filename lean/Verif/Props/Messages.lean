import Verif.Props.Laws2D
import Verif.Props.Laws3D
import Verif.Lemmas.Strings

/-! # Reported errors and their messages (C73) -/

namespace MortonRs

open BitStorage MortonIndex VariableDepthMortonIndex

variable {c : Cfg}

/-- A call on an input of depth `n`, for a type that holds `limit` levels, reports an error exactly when the input
is too deep, and the message of any error it reports spells out the limit. -/
def ReportsLimit {α : Type} (r : Res (Except Error α)) (n limit : Nat) : Prop :=
  ((∃ e, r = .ok (.error e)) ↔ n > limit) ∧
  ∀ e, r = .ok (.error e) →
    e.display = s!"Exceeded the depth limit of {limit} levels for this Morton index type"

theorem ReportsLimit.of {α : Type} {r : Res (Except Error α)} {n limit : Nat}
    (h1 : n > limit → r = .ok (.error (.DepthLimitedExceeded limit)))
    (h2 : n ≤ limit → ∀ e, r ≠ .ok (.error e)) : ReportsLimit r n limit := by
  refine ⟨⟨fun ⟨e, he⟩ => ?_, fun h => ⟨_, h1 h⟩⟩, fun e he => ?_⟩
  · exact Nat.lt_of_not_le fun h => h2 h e he
  · have h : n > limit := Nat.lt_of_not_le fun h => h2 h e he
    rw [h1 h] at he
    cases he
    rfl

theorem not_error_of_ok {α : Type} {r : Res (Except Error α)} (h : ∃ m, r = .ok (.ok m)) (e : Error) :
    r ≠ .ok (.error e) := by
  obtain ⟨m, h⟩ := h
  rw [h]
  intro h
  cases h

theorem bind_not_error {α β : Type} {x : Res β} {f : β → Res (Except Error α)} {e : Error}
    (h : ∀ y, f y ≠ .ok (.error e)) : (x >>= f) ≠ .ok (.error e) := by
  cases x with
  | error _ => intro h; cases h
  | ok y => exact h y

theorem MortonIndex2D.staticFromGridIndex_not_error {w : Nat} (g : Vector2 c.ptrBits) {d : Nat} (h : d ≤ w / 2)
    (o : QuadrantOrdering) (e : Error) : MortonIndex2D.staticFromGridIndex c w g d o ≠ .ok (.error e) := by
  unfold MortonIndex2D.staticFromGridIndex
  rw [if_neg (by omega)]
  repeat refine bind_not_error fun _ => ?_
  intro h
  cases h

theorem MortonIndex3D.staticFromGridIndex_not_error {w : Nat} (g : Vector3 c.ptrBits) {d : Nat} (h : d ≤ w / 3)
    (o : OctantOrdering) (e : Error) : MortonIndex3D.staticFromGridIndex c w g d o ≠ .ok (.error e) := by
  unfold MortonIndex3D.staticFromGridIndex
  have h' : ¬ d > FixedDepthStorage.MAX_LEVELS w Octant := Nat.not_lt.mpr h
  simp only [if_neg h']
  repeat refine bind_not_error fun _ => ?_
  intro h
  cases h

theorem C73_messages_2D (hc : c.Supported) (w : Nat) (hw : IntWidth w) :
    (∀ cs, ReportsLimit (α := MortonIndex2D (FixedDepthStorage2D w)) (MortonIndex2D.tryFromSlice c cs) cs.length (w / 2)) ∧
    (∀ cs, ReportsLimit (α := MortonIndex2D (FixedDepthStorage2D w)) (MortonIndex2D.tryFromArray c cs) cs.length (w / 2)) ∧
    (∀ cs, ReportsLimit (α := MortonIndex2D (StaticStorage2D w)) (MortonIndex2D.tryFromSlice c cs) cs.length (w / 2)) ∧
    (∀ cs, ReportsLimit (α := MortonIndex2D (StaticStorage2D w)) (MortonIndex2D.tryFromArray c cs) cs.length (w / 2)) ∧
    (∀ g d o, ReportsLimit (MortonIndex2D.staticFromGridIndex c w g d o) d (w / 2)) ∧
    (∀ m, Reach2D c .all (.dynamic m) → ReportsLimit (MortonIndex2D.dynamicToStatic c w m) (depth m) (w / 2)) ∧
    (∀ m, Reach2D c .all (.dynamic m) → ReportsLimit (.ok (MortonIndex2D.dynamicToFixed c w m)) (depth m) (w / 2)) := by
  refine ⟨fun cs => .of (fun h => (MortonIndex2D.fixed_tryFrom_error h).1) fun h => not_error_of_ok ?_,
    fun cs => .of (fun h => (MortonIndex2D.fixed_tryFrom_error h).2) fun h => not_error_of_ok ?_,
    fun cs => .of (fun h => (MortonIndex2D.static_tryFrom_error h).1) fun h => not_error_of_ok ?_,
    fun cs => .of (fun h => (MortonIndex2D.static_tryFrom_error h).2) fun h => not_error_of_ok ?_,
    fun g d o => .of (fun h => MortonIndex2D.staticFromGridIndex_error g d h o)
      fun h => MortonIndex2D.staticFromGridIndex_not_error g h o,
    fun m hm => .of (fun h => MortonIndex2D.dynamicToStatic_error h) fun h => not_error_of_ok ?_,
    fun m hm => .of (fun h => congrArg _ (MortonIndex2D.dynamicToFixed_error h)) fun h => not_error_of_ok ?_⟩
  · obtain ⟨m, h1, -⟩ := MortonIndex2D.fixed_tryFrom hc hw h
    exact ⟨m, h1⟩
  · obtain ⟨m, -, h2, -⟩ := MortonIndex2D.fixed_tryFrom hc hw h
    exact ⟨m, h2⟩
  · obtain ⟨m, h1, -⟩ := MortonIndex2D.static_tryFrom hc hw h
    exact ⟨m, h1⟩
  · obtain ⟨m, -, h2, -⟩ := MortonIndex2D.static_tryFrom hc hw h
    exact ⟨m, h2⟩
  · obtain ⟨m', h1, -⟩ := MortonIndex2D.dynamicToStatic_ok hc hw (dynamic_wf2 hc m hm) h
    exact ⟨m', h1⟩
  · have h' : ¬ m.depth > FixedDepthStorage.MAX_LEVELS w Quadrant := Nat.not_lt.mpr h
    exact ⟨_, by simp only [MortonIndex2D.dynamicToFixed, h', if_false]; rfl⟩

theorem C73_messages_3D (hc : c.Supported) (w : Nat) (hw : IntWidth w) :
    (∀ cs, ReportsLimit (α := MortonIndex3D (FixedDepthStorage3D w)) (MortonIndex3D.tryFromSlice c cs) cs.length (w / 3)) ∧
    (∀ cs, ReportsLimit (α := MortonIndex3D (FixedDepthStorage3D w)) (MortonIndex3D.tryFromArray c cs) cs.length (w / 3)) ∧
    (∀ cs, ReportsLimit (α := MortonIndex3D (StaticStorage3D w)) (MortonIndex3D.tryFromSlice c cs) cs.length (w / 3)) ∧
    (∀ cs, ReportsLimit (α := MortonIndex3D (StaticStorage3D w)) (MortonIndex3D.tryFromArray c cs) cs.length (w / 3)) ∧
    (∀ g d o, ReportsLimit (MortonIndex3D.staticFromGridIndex c w g d o) d (w / 3)) ∧
    (∀ m, Reach3D c .all (.dynamic m) → ReportsLimit (MortonIndex3D.dynamicToStatic c w m) (depth m) (w / 3)) ∧
    (∀ m, Reach3D c .all (.dynamic m) → ReportsLimit (.ok (MortonIndex3D.dynamicToFixed c w m)) (depth m) (w / 3)) := by
  refine ⟨fun cs => .of (fun h => (MortonIndex3D.fixed_tryFrom_error h).1) fun h => not_error_of_ok ?_,
    fun cs => .of (fun h => (MortonIndex3D.fixed_tryFrom_error h).2) fun h => not_error_of_ok ?_,
    fun cs => .of (fun h => (MortonIndex3D.static_tryFrom_error h).1) fun h => not_error_of_ok ?_,
    fun cs => .of (fun h => (MortonIndex3D.static_tryFrom_error h).2) fun h => not_error_of_ok ?_,
    fun g d o => .of (fun h => MortonIndex3D.staticFromGridIndex_error g d h o)
      fun h => MortonIndex3D.staticFromGridIndex_not_error g h o,
    fun m hm => .of (fun h => MortonIndex3D.dynamicToStatic_error h) fun h => not_error_of_ok ?_,
    fun m hm => .of (fun h => congrArg _ (MortonIndex3D.dynamicToFixed_error h)) fun h => not_error_of_ok ?_⟩
  · obtain ⟨m, h1, -⟩ := MortonIndex3D.fixed_tryFrom hc hw h
    exact ⟨m, h1⟩
  · obtain ⟨m, -, h2, -⟩ := MortonIndex3D.fixed_tryFrom hc hw h
    exact ⟨m, h2⟩
  · obtain ⟨m, h1, -⟩ := MortonIndex3D.static_tryFrom hc hw h
    exact ⟨m, h1⟩
  · obtain ⟨m, -, h2, -⟩ := MortonIndex3D.static_tryFrom hc hw h
    exact ⟨m, h2⟩
  · obtain ⟨m', h1, -⟩ := MortonIndex3D.dynamicToStatic_ok hc hw (dynamic_wf3 hc m hm) h
    exact ⟨m', h1⟩
  · have h' : ¬ m.depth > FixedDepthStorage.MAX_LEVELS w Octant := Nat.not_lt.mpr h
    exact ⟨_, by simp only [MortonIndex3D.dynamicToFixed, h', if_false]; rfl⟩

example : ∃ e, MortonIndex3D.staticFromGridIndex x32r 32 ⟨1#32, 2#32, 3#32⟩ 11 .XYZ = .ok (.error e) ∧
    e.display = "Exceeded the depth limit of 10 levels for this Morton index type" := by
  have h := (C73_messages_3D x32r_supported 32 (by decide)).2.2.2.2.1 ⟨1#32, 2#32, 3#32⟩ 11 .XYZ
  obtain ⟨e, he⟩ := h.1.mpr (by decide)
  exact ⟨e, he, h.2 e he⟩

theorem surrounded_inj {a b x y : String} (h : a ++ x ++ b = a ++ y ++ b) : x.toList = y.toList := by
  have h' := congrArg String.toList h
  simp only [String.toList_append] at h'
  exact List.append_cancel_left (List.append_cancel_right h')

theorem display_length (n : Nat) :
    (Error.DepthLimitedExceeded n).display.length > Error.CellIndexOutOfRange.display.length := by
  change ("Exceeded the depth limit of " ++ Nat.repr n ++ " levels for this Morton index type").length >
    "Cell index is out of range".length
  rw [String.length_append, String.length_append]
  have h1 : "Exceeded the depth limit of ".length = 28 := by decide +kernel
  have h2 : "Cell index is out of range".length = 26 := by decide +kernel
  omega

/-- Different errors have different messages. -/
theorem C73_messages_distinct (e e' : Error) (h : e.display = e'.display) : e = e' := by
  cases e with
  | DepthLimitedExceeded a =>
    cases e' with
    | DepthLimitedExceeded b => exact congrArg _ (repr_inj (surrounded_inj h))
    | CellIndexOutOfRange => have := display_length a; rw [h] at this; omega
  | CellIndexOutOfRange =>
    cases e' with
    | DepthLimitedExceeded b => have := display_length b; rw [h] at this; omega
    | CellIndexOutOfRange => rfl

theorem C73_cell_number_message (n : Nat) (e : Error) :
    (Quadrant.tryFromUsize n = .error e → e.display = "Cell index is out of range") ∧
    (Octant.tryFromUsize n = .error e → e.display = "Cell index is out of range") := by
  constructor
  · intro h
    unfold Quadrant.tryFromUsize at h
    split at h <;> cases h
    rfl
  · intro h
    unfold Octant.tryFromUsize at h
    split at h <;> cases h
    rfl

example : ∃ e, Octant.tryFromUsize 8 = .error e ∧ e.display = "Cell index is out of range" :=
  ⟨_, rfl, (C73_cell_number_message 8 _).2 rfl⟩

example : ∃ e, (MortonIndex2D.tryFromSlice x64 (List.replicate 17 .Three) :
      Res (Except Error (MortonIndex2D (FixedDepthStorage2D 32)))) = .ok (.error e) ∧
    e.display = "Exceeded the depth limit of 16 levels for this Morton index type" := by
  have h := (C73_messages_2D x64_supported 32 (by decide)).1 (List.replicate 17 .Three)
  obtain ⟨e, he⟩ := h.1.mpr (by decide)
  exact ⟨e, he, h.2 e he⟩

example : (Error.DepthLimitedExceeded 21).display ≠ (Error.DepthLimitedExceeded 42).display :=
  fun h => by cases C73_messages_distinct _ _ h

end MortonRs
