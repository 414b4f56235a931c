import Verif.Lemmas.Ideal

/-!
# "A number, or something in the log"

`Sound B x`: a run that returns, returns finite numbers, or (allowed if `B`) has logged a warning or an error.
Used in exact arithmetic.
-/

namespace PyX

open Classical Py

variable {α β σ : Type}

/-- a warning or an error has been logged -/
def Noted (l : List LogRec) : Prop := ∃ r ∈ l, r.level = .warning ∨ r.level = .error

theorem Noted.left {l l' : List LogRec} (h : Noted l) : Noted (l ++ l') := by
  obtain ⟨r, hr, h⟩ := h; exact ⟨r, by simp [hr], h⟩
theorem Noted.right {l l' : List LogRec} (h : Noted l') : Noted (l ++ l') := by
  obtain ⟨r, hr, h⟩ := h; exact ⟨r, by simp [hr], h⟩
theorem Noted.nil : ¬ Noted [] := by simp [Noted]

/-- every float inside the value is finite -/
class AllFin (α : Type) where
  ok : α → Prop

instance : AllFin Num := ⟨fun a => ∃ x : ℝ, a = .fin x⟩
instance : AllFin ℤ := ⟨fun _ => True⟩
instance : AllFin ℚ := ⟨fun _ => True⟩
instance : AllFin ℕ := ⟨fun _ => True⟩
instance : AllFin Bool := ⟨fun _ => True⟩
instance : AllFin Unit := ⟨fun _ => True⟩
instance [AllFin α] : AllFin (List α) := ⟨fun _ => True⟩
instance [AllFin α] : AllFin (Option α) := ⟨fun o => ∀ a, o = some a → AllFin.ok a⟩
instance [AllFin α] [AllFin β] : AllFin (α × β) := ⟨fun p => AllFin.ok p.1 ∧ AllFin.ok p.2⟩
instance [AllFin α] : AllFin (Ctl α) := ⟨fun c => match c with | .next s => AllFin.ok s | .brk s => AllFin.ok s⟩

def Sound (B : Prop) [AllFin α] (x : Py α) : Prop :=
  Post x (fun l a => AllFin.ok a ∨ B ∧ Noted l) (fun _ => True) True

variable {B : Prop} [AllFin α] [AllFin β] [AllFin σ]

@[sound] theorem ok_fin (x : ℝ) : AllFin.ok (Num.fin x) ↔ True := by
  simp only [iff_true]; exact ⟨x, rfl⟩
@[sound] theorem ok_int (x : ℤ) : AllFin.ok x ↔ True := by simp only [AllFin.ok]
@[sound] theorem ok_rat (x : ℚ) : AllFin.ok x ↔ True := by simp only [AllFin.ok]
@[sound] theorem ok_unit (x : Unit) : AllFin.ok x ↔ True := by simp only [AllFin.ok]
@[sound] theorem ok_list (x : List α) : AllFin.ok x ↔ True := by simp only [AllFin.ok]
@[sound] theorem ok_none : AllFin.ok (none : Option α) ↔ True := by simp [AllFin.ok]
@[sound] theorem ok_some (a : α) : AllFin.ok (some a) ↔ AllFin.ok a := by simp [AllFin.ok]
@[sound] theorem ok_mk (a : α) (b : β) : AllFin.ok (a, b) ↔ AllFin.ok a ∧ AllFin.ok b := Iff.rfl
@[sound] theorem ok_next (a : α) : AllFin.ok (Ctl.next a) ↔ AllFin.ok a := Iff.rfl
@[sound] theorem ok_brk (a : α) : AllFin.ok (Ctl.brk a) ↔ AllFin.ok a := Iff.rfl

theorem Sound.ret {a : α} (h : AllFin.ok a) : Sound B (pure a) := Post.ret (.inl h)
theorem Sound.raise {e : Err} : Sound B (Py.raise e : Py α) := trivial

theorem Sound.bind {x : Py α} {f : α → Py β} (hx : Sound B x) (h : ∀ a, AllFin.ok a → Sound B (f a)) :
    Sound B (x >>= f) := by
  apply Post.bind
  refine hx.mono ?_ (fun _ h => h) id
  rintro l a (ha | ⟨hB, hl⟩)
  · exact (h a ha).mono (fun _ _ h => h.imp_right (And.imp_right Noted.right)) (fun _ h => h) id
  · exact Post.any (fun _ _ => .inr ⟨hB, hl.left⟩) (fun _ => trivial) trivial

theorem Sound.bind_num {x : Py Num} {f : Num → Py β} (hx : Sound B x)
    (h : ∀ a : ℝ, Sound B (f (.fin a))) : Sound B (x >>= f) :=
  Sound.bind hx (by rintro _ ⟨a, rfl⟩; exact h a)

theorem Sound.bind_two {x : Py (Num × Num)} {f : Num × Num → Py β} (hx : Sound B x)
    (h : ∀ a b : ℝ, Sound B (f (.fin a, .fin b))) : Sound B (x >>= f) :=
  Sound.bind hx (by rintro ⟨_, _⟩ ⟨⟨a, rfl⟩, ⟨b, rfl⟩⟩; exact h a b)

theorem Sound.bind_four {x : Py (Num × Num × Num × Num)} {f : Num × Num × Num × Num → Py β}
    (hx : Sound B x) (h : ∀ a b c d : ℝ, Sound B (f (.fin a, .fin b, .fin c, .fin d))) :
    Sound B (x >>= f) :=
  Sound.bind hx (by
    rintro ⟨_, _, _, _⟩ ⟨⟨a, rfl⟩, ⟨b, rfl⟩, ⟨c, rfl⟩, ⟨d, rfl⟩⟩; exact h a b c d)

theorem Sound.bind_opt {x : Py (Option Num × Num × Num × Num)}
    {f : Option Num × Num × Num × Num → Py β} (hx : Sound B x)
    (h : ∀ (a : Option Num) (b c d : ℝ), AllFin.ok a → Sound B (f (a, .fin b, .fin c, .fin d))) :
    Sound B (x >>= f) :=
  Sound.bind hx (by
    rintro ⟨a, _, _, _⟩ ⟨ha, ⟨b, rfl⟩, ⟨c, rfl⟩, ⟨d, rfl⟩⟩; exact h a b c d ha)

theorem Sound.ite {c : Prop} {_ : Decidable c} {x y : Py α} (h₁ : Sound B x) (h₂ : Sound B y) :
    Sound B (if c then x else y) := Post.ite (fun _ => h₁) (fun _ => h₂)

theorem Sound.warn_bind {m : String} {f : Unit → Py α} : Sound True (warn m >>= f) := by
  apply Post.bind
  apply Post.warn
  exact Post.any (fun _ _ => .inr ⟨trivial, Noted.left ⟨_, List.mem_singleton_self _, .inl rfl⟩⟩) (fun _ => trivial) trivial

theorem Sound.logError_bind {m : String} {f : Unit → Py α} : Sound True (logError m >>= f) := by
  apply Post.bind
  apply Post.logError
  exact Post.any (fun _ _ => .inr ⟨trivial, Noted.left ⟨_, List.mem_singleton_self _, .inr rfl⟩⟩) (fun _ => trivial) trivial

@[sound] theorem Sound.int (x : Py ℤ) : Sound B x :=
  Post.any (fun _ _ => .inl trivial) (fun _ => trivial) trivial
@[sound] theorem Sound.bool (x : Py Bool) : Sound B x :=
  Post.any (fun _ _ => .inl trivial) (fun _ => trivial) trivial

@[sound] theorem Sound.logDebug (m : String) : Sound B (logDebug m) := Or.inl trivial
@[sound] theorem Sound.logInfo (m : String) : Sound B (logInfo m) := Or.inl trivial
@[sound] theorem Sound.warn (m : String) : Sound B (PyX.warn m) := Or.inl trivial
@[sound] theorem Sound.logError (m : String) : Sound B (PyX.logError m) := Or.inl trivial

theorem Sound.getVar {o : Option Num} (h : AllFin.ok o) : Sound B (getVar o) := by
  cases o with
  | none => exact Sound.raise
  | some a => exact Sound.ret (h a rfl)

theorem Sound.idx (l : List α) (i : ℕ) (h : ∀ a : α, AllFin.ok a) : Sound B (idx l i) := by
  unfold PyX.idx
  split
  · exact Sound.ret (h _)
  · exact Sound.raise

@[sound] theorem Sound.idxZ (l : List ℤ) (i : ℕ) : Sound B (PyX.idx l i) := Sound.idx l i (fun _ => trivial)
@[sound] theorem Sound.idxQ (l : List ℚ) (i : ℕ) : Sound B (PyX.idx l i) := Sound.idx l i (fun _ => trivial)
@[sound] theorem Sound.idxL (l : List (List ℚ)) (i : ℕ) : Sound B (PyX.idx l i) :=
  Sound.idx l i (fun _ => trivial)

@[sound] theorem Sound.div (a b : ℝ) : Sound B (FP.ideal.div (.fin a) (.fin b)) := by
  rw [div_ideal_eq]; exact Sound.ite Sound.raise (Sound.ret ⟨_, rfl⟩)

@[sound] theorem Sound.exp (a : ℝ) : Sound B (FP.ideal.exp (.fin a)) := by
  rw [exp_ideal]; exact Sound.ret ⟨_, rfl⟩

@[sound] theorem Sound.log (a : ℝ) : Sound B (FP.ideal.log (.fin a)) := by
  simp only [FP.log]
  split
  · exact Sound.raise
  · exact Sound.ret ⟨_, rfl⟩

@[sound] theorem Sound.sqrt (a : ℝ) : Sound B (FP.ideal.sqrt (.fin a)) := by
  simp only [FP.sqrt]
  split
  · exact Sound.raise
  · exact Sound.ret ⟨_, rfl⟩

@[sound] theorem Sound.pow (a b : ℝ) : Sound B (FP.ideal.pow (.fin a) (.fin b)) := by
  simp only [FP.pow]
  repeat' split
  all_goals first | exact Sound.raise | exact Sound.ret ⟨_, rfl⟩

theorem Sound.forRange {a b : ℕ} {s : σ} {f : ℕ → σ → Py σ} (h0 : AllFin.ok s)
    (h : ∀ i s, AllFin.ok s → Sound B (f i s)) : Sound B (forRange a b s f) := by
  by_cases hab : a ≤ b
  · obtain ⟨k, rfl⟩ : ∃ k, b = a + k := ⟨b - a, by omega⟩
    clear hab
    induction k generalizing a s with
    | zero => simpa [forRange_self] using Sound.ret h0
    | succ k ih =>
      rw [forRange_lt (by omega)]
      apply Sound.bind (h _ _ h0)
      intro s' hs'
      have := ih (a := a + 1) hs'
      rwa [show a + 1 + k = a + (k + 1) by omega] at this
  · have : b - a = 0 := by omega
    simpa [PyX.forRange, this] using Sound.ret h0

theorem Sound.for_num {a b : ℕ} {s : Num} {f : ℕ → Num → Py Num}
    (h0 : AllFin.ok s) (h : ∀ (i : ℕ) (s : ℝ), Sound B (f i (.fin s))) : Sound B (PyX.forRange a b s f) :=
  Sound.forRange h0 (by rintro i _ ⟨s, rfl⟩; exact h i s)

theorem Sound.for_two {a b : ℕ} {s : Num × Num} {f : ℕ → Num × Num → Py (Num × Num)}
    (h0 : AllFin.ok s) (h : ∀ (i : ℕ) (s t : ℝ), Sound B (f i (.fin s, .fin t))) :
    Sound B (PyX.forRange a b s f) :=
  Sound.forRange h0
    (by rintro i ⟨_, _⟩ ⟨⟨a, rfl⟩, ⟨b, rfl⟩⟩; exact h i a b)

theorem Sound.for_four {a b : ℕ} {s : Num × Num × Num × Num}
    {f : ℕ → Num × Num × Num × Num → Py (Num × Num × Num × Num)}
    (h0 : AllFin.ok s) (h : ∀ (i : ℕ) (s t u v : ℝ), Sound B (f i (.fin s, .fin t, .fin u, .fin v))) :
    Sound B (PyX.forRange a b s f) :=
  Sound.forRange h0
    (by rintro i ⟨_, _, _, _⟩ ⟨⟨a, rfl⟩, ⟨b, rfl⟩, ⟨c, rfl⟩, ⟨d, rfl⟩⟩; exact h i a b c d)

theorem Sound.runN {pass : σ → Py (Ctl σ)} (h : ∀ s, AllFin.ok s → Sound B (pass s)) :
    ∀ n s, AllFin.ok s → Sound B (runN pass n s)
  | 0, s, hs => Sound.ret (a := Ctl.next s) hs
  | n + 1, s, hs => by
    show Sound B (pass s >>= fun c => match c with
      | .next s' => PyX.runN pass n s'
      | .brk s' => pure (.brk s'))
    apply Sound.bind (h s hs)
    intro c hc
    cases c with
    | next s' => exact Sound.runN h n s' hc
    | brk s' => exact Sound.ret (a := Ctl.brk s') hc

theorem Sound.while {pass : σ → Py (Ctl σ)} {s : σ} (h0 : AllFin.ok s)
    (h : ∀ s, AllFin.ok s → Sound B (pass s)) : Sound B (whileLoop pass s) := by
  unfold whileLoop
  split
  · apply Sound.bind (Sound.runN h _ _ h0)
    intro c hc
    cases c <;> exact Sound.ret hc
  · trivial

theorem Sound.while_opt {pass : Option Num × Num × Num × Num → Py (Ctl (Option Num × Num × Num × Num))}
    {s : Option Num × Num × Num × Num} (h0 : AllFin.ok s)
    (h : ∀ (a : Option Num) (b c d : ℝ), AllFin.ok a → Sound B (pass (a, .fin b, .fin c, .fin d))) :
    Sound B (whileLoop pass s) :=
  Sound.while h0 (by
    rintro ⟨a, _, _, _⟩ ⟨ha, ⟨b, rfl⟩, ⟨c, rfl⟩, ⟨d, rfl⟩⟩; exact h a b c d ha)

theorem Sound.while_four {pass : Num × Num × Num × Num → Py (Ctl (Num × Num × Num × Num))}
    {s : Num × Num × Num × Num} (h0 : AllFin.ok s)
    (h : ∀ (a b c d : ℝ), Sound B (pass (.fin a, .fin b, .fin c, .fin d))) :
    Sound B (whileLoop pass s) :=
  Sound.while h0 (by
    rintro ⟨_, _, _, _⟩ ⟨⟨a, rfl⟩, ⟨b, rfl⟩, ⟨c, rfl⟩, ⟨d, rfl⟩⟩; exact h a b c d)

attribute [sound] add_ideal sub_ideal mul_ideal neg_fin fabs_fin lit_ideal ofInt_eq and_self

/-- walk over all paths -/
macro "sound_walk" : tactic => `(tactic|
  repeat' (with_reducible first
    | exact Sound.warn_bind
    | exact Sound.logError_bind
    | exact Sound.raise
    | exact Sound.int _
    | exact Sound.bool _
    | (refine Sound.ret ?_; first | assumption | (simp only [sound]; done) | (simp only [sound, and_true]; assumption))
    | apply Sound.ite
    | (refine Sound.bind_num ?_ (fun _ => ?_))
    | (refine Sound.bind_two ?_ (fun _ _ => ?_); rotate_left; dsimp only)
    | (refine Sound.bind_four ?_ (fun _ _ _ _ => ?_); rotate_left; dsimp only)
    | (refine Sound.bind_opt ?_ (fun _ _ _ _ _ => ?_); rotate_left; dsimp only)
    | (refine Sound.bind ?_ (fun _ _ => ?_))
    | exact Sound.getVar (by assumption)
    | (simp only [sound]; done)
    | (refine Sound.for_num (by simp only [sound]) (fun _ _ => ?_))
    | (refine Sound.for_two (by simp only [sound]) (fun _ _ _ => ?_))
    | (refine Sound.for_four (by simp only [sound]) (fun _ _ _ _ _ => ?_))
    | (refine Sound.while_opt (by simp only [sound]) (fun _ _ _ _ _ => ?_))
    | (refine Sound.while_four (by simp only [sound]) (fun _ _ _ _ => ?_))
    | split))

end PyX
