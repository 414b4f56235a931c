import Verif.Model.Session

/-!
# C04, C06: unit system selection and histories
-/

namespace PyX

open Classical Py

/-- specification: the objects that select a unit system -/
inductive Selects : PyVal → UnitSystem → Prop
  | bare : Selects (.int 0) .bare
  | mks : Selects (.int 1) .mks
  | fls : Selects (.int 2) .fls

theorem Selects.unique {v u u'} (h : Selects v u) (h' : Selects v u') : u = u' := by
  cases h <;> cases h' <;> rfl

/-- C04: setting the unit system succeeds exactly for the ints 0, 1, 2 ... -/
theorem C04_accepts (v : PyVal) (u : UnitSystem) :
    UnitConverter.set_unitSystem v = pure u ↔ Selects v u := by
  constructor
  · intro h
    by_cases h0 : v.isInt 0
    · rw [UnitConverter.set_unitSystem, if_pos h0] at h
      cases congrArg Py.out h; cases h0; exact .bare
    by_cases h1 : v.isInt 1
    · rw [UnitConverter.set_unitSystem, if_neg h0, if_pos h1] at h
      cases congrArg Py.out h; cases h1; exact .mks
    by_cases h2 : v.isInt 2
    · rw [UnitConverter.set_unitSystem, if_neg h0, if_neg h1, if_pos h2] at h
      cases congrArg Py.out h; cases h2; exact .fls
    · rw [UnitConverter.set_unitSystem, if_neg h0, if_neg h1, if_neg h2] at h
      cases congrArg Py.out h
  · rintro (_ | _ | _) <;> simp [UnitConverter.set_unitSystem, PyVal.isInt]

/-- ... and for anything else logs an error and raises `ValueError` -/
theorem C04_rejects (v : PyVal) (hv : ¬ ∃ u, Selects v u) :
    (UnitConverter.set_unitSystem v).out = .raise .value ∧
    (UnitConverter.set_unitSystem v).logs.map (·.level) = [.error] := by
  have h0 : ¬ v.isInt 0 := fun h => hv ⟨.bare, by cases h; exact .bare⟩
  have h1 : ¬ v.isInt 1 := fun h => hv ⟨.mks, by cases h; exact .mks⟩
  have h2 : ¬ v.isInt 2 := fun h => hv ⟨.fls, by cases h; exact .fls⟩
  rw [UnitConverter.set_unitSystem, if_neg h0, if_neg h1, if_neg h2]
  exact ⟨rfl, rfl⟩

/-- `True`, `1.0`, `"1"` and `None` are all rejected although `True == 1 == 1.0` -/
example (v : PyVal) (hv : v ∈ [PyVal.bool true, .float (.fin 1), .str "1", .none, .int 3, .int (-1)]) :
    (UnitConverter.set_unitSystem v).out = .raise .value := by
  refine (C04_rejects v ?_).1
  rintro ⟨u, h⟩
  cases h <;> simp at hv

/-- C04: the constructor of `XSteam` accepts the same objects -/
theorem C04_init (v : PyVal) :
    ((XSteam.init v).out = .raise .value ∧ ¬ ∃ u, Selects v u) ∨
    (∃ u, Selects v u ∧ (XSteam.init v).out = .ok u) := by
  by_cases h : ∃ u, Selects v u
  · obtain ⟨u, hu⟩ := h
    right
    refine ⟨u, hu, ?_⟩
    rw [XSteam.init, UnitConverter.init, (C04_accepts v u).2 hu]
    rfl
  · left
    refine ⟨?_, h⟩
    have := (C04_rejects v h).1
    rcases hr : UnitConverter.set_unitSystem v with ⟨l, o⟩
    rw [hr] at this
    simp only at this
    subst this
    simp only [XSteam.init, UnitConverter.init, hr]
    rfl

/-- C04: a failing selection changes nothing: every object keeps its unit system -/
theorem C04_atomic (F : FP) (w : World) (v : PyVal) (i : ℕ) (hv : ¬ ∃ u, Selects v u) :
    (step F w (.set i v)).1 = w ∧ (step F w (.new v)).1 = w := by
  constructor
  · simp only [step]
    cases w[i]? with
    | none => rfl
    | some u => simp only [(C04_rejects v hv).1]
  · rcases C04_init v with h | ⟨u, hu, _⟩
    · simp only [step, h.1]
    · exact absurd ⟨u, hu⟩ hv

/-- C04: a successful selection changes exactly the one object -/
theorem C04_frame (F : FP) (w : World) (v : PyVal) (u : UnitSystem) (i j : ℕ) (hv : Selects v u) :
    (step F w (.set i v)).1[j]? = if i = j then (w[j]?).map (fun _ => u) else w[j]? := by
  simp only [step]
  rcases hi : w[i]? with _ | ui
  · simp only
    split_ifs with h
    · subst h; simp [hi]
    · rfl
  · simp only [(C04_accepts v u).2 hv]
    have : (pure u : Py UnitSystem).out = .ok u := rfl
    simp only [this, List.getElem?_set]
    split_ifs with h h'
    · subst h; simp [hi]
    · subst h; simp [hi] ; exact absurd (List.getElem?_eq_some_iff.1 hi).1 h'
    · rfl

/-! ## Histories -/

/-- specification: how many objects a history has created -/
noncomputable def created : List Op → ℕ
  | [] => 0
  | .new v :: h => (if ∃ u, Selects v u then 1 else 0) + created h
  | _ :: h => created h

/-- specification: the unit system object `i` holds, read off the *reversed* history: the most recent
successful `set` on `i`, or else the argument of the constructor call that made object `i`. -/
noncomputable def lastSelected : List Op → ℕ → Option UnitSystem
  | [], _ => none
  | .call _ _ :: h, i => lastSelected h i
  | .set j v :: h, i =>
    if hv : (∃ u, Selects v u) ∧ i = j ∧ i < created h then some hv.1.choose else lastSelected h i
  | .new v :: h, i =>
    if hv : (∃ u, Selects v u) ∧ i = created h then some hv.1.choose else lastSelected h i

theorem runHistory_append (F : FP) (w : World) (h : List Op) (o : Op) :
    runHistory F w (h ++ [o]) = (step F (runHistory F w h) o).1 := by
  simp [runHistory]

theorem runHistory_spec (F : FP) (r : List Op) :
    (runHistory F [] r.reverse).length = created r ∧
    ∀ i, (runHistory F [] r.reverse)[i]? = lastSelected r i := by
  induction r with
  | nil => simp [runHistory, created, lastSelected]
  | cons o r ih =>
    obtain ⟨ihl, ihg⟩ := ih
    rw [List.reverse_cons, runHistory_append]
    generalize runHistory F [] r.reverse = w at *
    cases o with
    | call i c =>
      simp only [step, created, lastSelected]
      cases w[i]? <;> exact ⟨ihl, ihg⟩
    | set i v =>
      by_cases hv : ∃ u, Selects v u
      · obtain ⟨u, hu⟩ := id hv
        constructor
        · simp only [step, created]
          cases w[i]? with
          | none => exact ihl
          | some _ =>
            simp only [(C04_accepts v u).2 hu, Py.pure_def]
            simpa using ihl
        · intro j
          rw [C04_frame F w v u i j hu]
          simp only [lastSelected, hv, true_and]
          have hch : hv.choose = u := (hv.choose_spec).unique hu
          by_cases hij : i = j
          · subst hij
            by_cases hlt : i < created r
            · rw [dif_pos ⟨rfl, hlt⟩]
              simp [hch, List.getElem?_eq_getElem (ihl ▸ hlt)]
            · rw [dif_neg (by simp [hlt]), ← ihg]
              have : w[i]? = none := by
                rw [List.getElem?_eq_none_iff, ihl]; omega
              simp [this]
          · rw [if_neg hij, dif_neg (by intro h; exact hij h.1.symm), ihg]
      · rw [(C04_atomic F w v i hv).1]
        simp only [created, lastSelected, hv, false_and, dif_neg, not_false_eq_true]
        exact ⟨ihl, ihg⟩
    | new v =>
      by_cases hv : ∃ u, Selects v u
      · obtain ⟨u, hu⟩ := id hv
        have hout : (XSteam.init v).out = .ok u := by
          rcases C04_init v with h | ⟨u', hu', h⟩
          · exact absurd hv h.2
          · rw [h, hu.unique hu']
        have hch : hv.choose = u := (hv.choose_spec).unique hu
        simp only [step, hout, created, lastSelected, hv, if_true, true_and]
        refine ⟨by simp [ihl]; omega, fun j => ?_⟩
        by_cases hj : j = created r
        · subst hj
          rw [dif_pos rfl, hch, ← ihl]
          simp
        · rw [dif_neg hj, ← ihg]
          rcases lt_or_ge j w.length with h | h
          · rw [List.getElem?_append_left h]
          · rw [List.getElem?_eq_none (by simp; omega), List.getElem?_eq_none h]
      · rw [(C04_atomic F w v 0 hv).2]
        simp only [created, lastSelected, hv, if_false, false_and, dif_neg, not_false_eq_true,
          zero_add]
        exact ⟨ihl, ihg⟩

/-- C06: after any history, what a call returns, raises and logs is determined by the method, its
arguments and the unit system last successfully selected on that object. -/
theorem C06_history (F : FP) (h : List Op) (i : ℕ) (c : Call) (u : UnitSystem)
    (hu : lastSelected h.reverse i = some u) :
    (step F (runHistory F [] h) (.call i c)).2 = c.run F u >>= fun x => pure (some x) := by
  have := (runHistory_spec F h.reverse).2 i
  rw [List.reverse_reverse, hu] at this
  simp only [step, this]

/-- C06: a call changes no object, so calls can be repeated, reordered or dropped freely -/
theorem C06_call_pure (F : FP) (w : World) (i : ℕ) (c : Call) : (step F w (.call i c)).1 = w := by
  simp only [step]
  cases w[i]? <;> rfl

/-- C06: dropping every call, every failed operation and every selection on other objects from the
past of a call does not change what it observes -/
theorem C06_irrelevant (F : FP) (h₁ h₂ : List Op) (o : Op) (i : ℕ) (c : Call)
    (ho : (∃ j d, o = .call j d) ∨ (∃ v, (o = .new v ∨ ∃ j, o = .set j v) ∧ ¬ ∃ u, Selects v u) ∨
      (∃ j v, o = .set j v ∧ j ≠ i)) :
    (step F (runHistory F [] (h₁ ++ o :: h₂)) (.call i c)).2 =
    (step F (runHistory F [] (h₁ ++ h₂)) (.call i c)).2 := by
  -- the two worlds agree at `i` and have the same length
  have key : ∀ (h₂ : List Op) (w w' : World), w.length = w'.length → w[i]? = w'[i]? →
      (runHistory F w h₂)[i]? = (runHistory F w' h₂)[i]? := by
    intro h₂
    induction h₂ with
    | nil => intro w w' _ h; exact h
    | cons o h₂ ih =>
      intro w w' hl hg
      simp only [runHistory, List.foldl_cons]
      apply ih
      · cases o with
        | call j d => rw [C06_call_pure, C06_call_pure]; exact hl
        | set j v =>
          by_cases hv : ∃ u, Selects v u
          · obtain ⟨u, hu⟩ := hv
            simp only [step, (C04_accepts v u).2 hu, Py.pure_def]
            rcases hwj : w[j]? with _ | a <;> rcases hwj' : w'[j]? with _ | b <;> simp [hl]
          · rw [(C04_atomic F w v j hv).1, (C04_atomic F w' v j hv).1]; exact hl
        | new v =>
          simp only [step]
          cases (XSteam.init v).out <;> simp [hl]
      · cases o with
        | call j d => rw [C06_call_pure, C06_call_pure]; exact hg
        | set j v =>
          by_cases hv : ∃ u, Selects v u
          · obtain ⟨u, hu⟩ := hv
            rw [C04_frame F w v u j i hu, C04_frame F w' v u j i hu, hg]
          · rw [(C04_atomic F w v j hv).1, (C04_atomic F w' v j hv).1]; exact hg
        | new v =>
          simp only [step]
          cases (XSteam.init v).out with
          | ok u =>
            rcases lt_trichotomy i w.length with h | h | h
            · rw [List.getElem?_append_left h, List.getElem?_append_left (hl ▸ h), hg]
            · subst h; simp [hl]
            · rw [List.getElem?_eq_none (by simp; omega), List.getElem?_eq_none (by simp; omega)]
          | raise e => exact hg
          | diverge => exact hg
  have e1 : runHistory F [] (h₁ ++ o :: h₂) = runHistory F (step F (runHistory F [] h₁) o).1 h₂ := by
    simp [runHistory]
  have e2 : runHistory F [] (h₁ ++ h₂) = runHistory F (runHistory F [] h₁) h₂ := by
    simp [runHistory]
  have : (runHistory F [] (h₁ ++ o :: h₂))[i]? = (runHistory F [] (h₁ ++ h₂))[i]? := by
    rw [e1, e2]
    generalize runHistory F [] h₁ = w
    rcases ho with ⟨j, d, rfl⟩ | ⟨v, ho, hv⟩ | ⟨j, v, rfl, hj⟩
    · rw [C06_call_pure]
    · rcases ho with rfl | ⟨j, rfl⟩
      · rw [(C04_atomic F w v 0 hv).2]
      · rw [(C04_atomic F w v j hv).1]
    · by_cases hv : ∃ u, Selects v u
      · obtain ⟨u, hu⟩ := hv
        apply key
        · simp only [step, (C04_accepts v u).2 hu, Py.pure_def]
          cases w[j]? <;> simp
        · rw [C04_frame F w v u j i hu, if_neg hj]
      · rw [(C04_atomic F w v j hv).1]
  simp only [step, this]
  cases (runHistory F [] (h₁ ++ h₂))[i]? <;> rfl

/-- a concrete history: two objects, a failed selection and a change on the other object in between -/
example (F : FP) (c : Call) :
    (step F (runHistory F [] [.new (.int 1), .new (.int 0), .set 1 (.int 2), .set 0 (.str "x"),
      .call 1 c]) (.call 0 c)).2 = c.run F .mks >>= fun x => pure (some x) := by
  apply C06_history
  have h1 : ∃ u, Selects (.int 1) u := ⟨_, .mks⟩
  have h0 : ∃ u, Selects (.int 0) u := ⟨_, .bare⟩
  have h2 : ∃ u, Selects (.int 2) u := ⟨_, .fls⟩
  have hx : ¬ ∃ u, Selects (.str "x") u := by rintro ⟨u, h⟩; cases h
  have e : h1.choose = .mks := (h1.choose_spec).unique .mks
  simp [lastSelected, created, h0, h1, hx, e]

end PyX
