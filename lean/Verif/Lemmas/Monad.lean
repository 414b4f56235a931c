import Verif.Model.Base
import Verif.Lemmas.Attr
import Mathlib.Tactic.SimpRw
import Mathlib.Tactic.IntervalCases

/-!
# Reasoning about runs

`Post x Q E D`: if the run `x` returns a value, it and the log records satisfy `Q`; if it raises, the
exception satisfies `E`; if it does not terminate, `D` holds.
-/

namespace PyX

open Classical Py

variable {α β σ : Type}

def Post (x : Py α) (Q : List LogRec → α → Prop) (E : Err → Prop) (D : Prop) : Prop :=
  match x.out with
  | .ok a => Q x.logs a
  | .raise e => E e
  | .diverge => D

theorem Post.ret {a : α} {Q E D} (h : Q [] a) : Post (pure a) Q E D := h

theorem Post.raise {e : Err} {Q : List LogRec → α → Prop} {E D} (h : E e) :
    Post (Py.raise e) Q E D := h

theorem Post.bind {x : Py α} {f : α → Py β} {Q E D}
    (h : Post x (fun l a => Post (f a) (fun l' b => Q (l ++ l') b) E D) E D) :
    Post (x >>= f) Q E D := by
  rcases x with ⟨l, o⟩
  cases o with
  | ok a =>
    simp only [Post] at h
    simp only [Post, Py.bind_def, Py.andThen]
    generalize f a = y at h ⊢
    rcases y with ⟨l', o'⟩
    cases o' <;> exact h
  | raise e => exact h
  | diverge => exact h

theorem Post.ite {c : Prop} {_ : Decidable c} {x y : Py α} {Q E D}
    (h₁ : c → Post x Q E D) (h₂ : ¬ c → Post y Q E D) : Post (if c then x else y) Q E D := by
  split
  · exact h₁ ‹_›
  · exact h₂ ‹_›

theorem Post.any {x : Py α} {Q : List LogRec → α → Prop} {E : Err → Prop} {D : Prop}
    (hQ : ∀ l a, Q l a) (hE : ∀ e, E e) (hD : D) : Post x Q E D := by
  rcases x with ⟨l, o⟩
  cases o <;> simp [Post, hQ, hE, hD]

theorem Post.mono {x : Py α} {Q Q' : List LogRec → α → Prop} {E E' : Err → Prop} {D D' : Prop}
    (h : Post x Q E D) (hQ : ∀ l a, Q l a → Q' l a) (hE : ∀ e, E e → E' e) (hD : D → D') :
    Post x Q' E' D' := by
  rcases x with ⟨l, o⟩
  cases o <;> simp_all [Post]

theorem Post.warn {m : String} {Q E D} (h : Q [⟨.warning, m⟩] ()) : Post (warn m) Q E D := h
theorem Post.logError {m : String} {Q E D} (h : Q [⟨.error, m⟩] ()) : Post (logError m) Q E D := h
theorem Post.logDebug {m : String} {Q E D} (h : Q [⟨.debug, m⟩] ()) : Post (logDebug m) Q E D := h
theorem Post.logInfo {m : String} {Q E D} (h : Q [⟨.info, m⟩] ()) : Post (logInfo m) Q E D := h

theorem Post.idx {l : List α} {i : ℕ} {Q E D} (hi : i < l.length) (h : Q [] l[i]) :
    Post (idx l i) Q E D := by
  simp only [PyX.idx, List.getElem?_eq_getElem hi]
  exact h

/-- what a finished run returned -/
theorem Post.elim {x : Py α} {Q E D} (h : Post x Q E D) {a : α} (hx : x.out = .ok a) :
    Q x.logs a := by
  simpa [Post, hx] using h

theorem Post.elimErr {x : Py α} {Q E D} (h : Post x Q E D) {e : Err} (hx : x.out = .raise e) :
    E e := by
  simpa [Post, hx] using h

theorem Post.elimDiv {x : Py α} {Q E D} (h : Post x Q E D) (hx : x.out = .diverge) : D := by
  simpa [Post, hx] using h

/-! ### `for` -/

theorem forRange_self (a : ℕ) (s : σ) (f : ℕ → σ → Py σ) : forRange a a s f = pure s := by
  simp [forRange]

theorem forRange_lt {a b : ℕ} (h : a < b) (s : σ) (f : ℕ → σ → Py σ) :
    forRange a b s f = f a s >>= fun s' => forRange (a + 1) b s' f := by
  obtain ⟨k, rfl⟩ : ∃ k, b = a + 1 + k := ⟨b - (a + 1), by omega⟩
  simp only [forRange]
  rw [show a + 1 + k - a = k + 1 by omega, show a + 1 + k - (a + 1) = k by omega,
    List.range'_succ, List.foldlM_cons]

/-- a loop whose passes follow a known sequence of states -/
theorem forRange_seq {a b : ℕ} (hab : a ≤ b) (st : ℕ → σ) (f : ℕ → σ → Py σ)
    (h : ∀ i, a ≤ i → i < b → f i (st i) = pure (st (i + 1))) :
    forRange a b (st a) f = pure (st b) := by
  obtain ⟨k, rfl⟩ : ∃ k, b = a + k := ⟨b - a, by omega⟩
  induction k generalizing a with
  | zero => simp [forRange_self]
  | succ k ih =>
    rw [forRange_lt (by omega), h a le_rfl (by omega), pure_bind]
    have := ih (a := a + 1) (by omega) (fun i h1 h2 => h i (by omega) (by omega))
    rwa [show a + 1 + k = a + (k + 1) by omega] at this

theorem Post.forRange {a b : ℕ} {s : σ} {f : ℕ → σ → Py σ} {E : Err → Prop} {D : Prop}
    (I : σ → Prop) (h0 : I s)
    (h : ∀ i s, a ≤ i → i < b → I s → Post (f i s) (fun _ s' => I s') E D) :
    Post (forRange a b s f) (fun _ s' => I s') E D := by
  by_cases hab : a ≤ b
  · obtain ⟨k, rfl⟩ : ∃ k, b = a + k := ⟨b - a, by omega⟩
    clear hab
    induction k generalizing a s with
    | zero => simpa [forRange_self] using Post.ret h0
    | succ k ih =>
      rw [forRange_lt (by omega)]
      apply Post.bind
      refine (h a s le_rfl (by omega) h0).mono ?_ (fun _ h => h) (fun h => h)
      intro l s' hs'
      have := ih (a := a + 1) hs' (fun i s h1 h2 => h i s (by omega) (by omega))
      rwa [show a + 1 + k = a + (k + 1) by omega] at this
  · have : b - a = 0 := by omega
    simpa [PyX.forRange, this] using Post.ret h0

/-! ### `while` -/

theorem Finished.raise {e : Err} : Finished (Py.raise e : Py (Ctl σ)) := by
  intro s; simp [Py.raise]

/-- unfolding one pass of a `while` loop -/
theorem whileLoop_eq (pass : σ → Py (Ctl σ)) (s : σ) :
    whileLoop pass s = pass s >>= fun c => match c with
      | .next s' => whileLoop pass s'
      | .brk s' => pure s' := by
  have step : ∀ n, runN pass (n + 1) s = pass s >>= fun c => match c with
      | .next s' => runN pass n s'
      | .brk s' => pure (.brk s') := fun n => rfl
  have h0 : ¬ Finished (runN pass 0 s) := fun h => h s rfl
  rcases hp : pass s with ⟨l, o⟩
  cases o with
  | raise e =>
    have h1 : runN pass 1 s = ⟨l, .raise e⟩ := by rw [step, hp]; rfl
    have hex : ∃ n, Finished (runN pass n s) := ⟨1, by rw [h1]; intro s'; simp⟩
    have hfind : Nat.find hex = 1 := by
      rw [Nat.find_eq_iff]
      refine ⟨by rw [h1]; intro s'; simp, fun m hm => ?_⟩
      interval_cases m; exact h0
    simp only [whileLoop, hex, dif_pos, hfind, h1]
    rfl
  | diverge =>
    have h1 : runN pass 1 s = ⟨l, .diverge⟩ := by rw [step, hp]; rfl
    have hex : ∃ n, Finished (runN pass n s) := ⟨1, by rw [h1]; intro s'; simp⟩
    have hfind : Nat.find hex = 1 := by
      rw [Nat.find_eq_iff]
      refine ⟨by rw [h1]; intro s'; simp, fun m hm => ?_⟩
      interval_cases m; exact h0
    simp only [whileLoop, hex, dif_pos, hfind, h1]
    rfl
  | ok c =>
    cases c with
    | brk s' =>
      have h1 : runN pass 1 s = ⟨l, .ok (.brk s')⟩ := by
        rw [step, hp]; simp [Py.bind_def, Py.andThen, Py.pure_def, Py.prepend]
      have hex : ∃ n, Finished (runN pass n s) := ⟨1, by rw [h1]; intro s'; simp⟩
      have hfind : Nat.find hex = 1 := by
        rw [Nat.find_eq_iff]
        refine ⟨by rw [h1]; intro s'; simp, fun m hm => ?_⟩
        interval_cases m; exact h0
      simp only [whileLoop, hex, dif_pos, hfind, h1]
      rfl
    | next s' =>
      have hn : ∀ n, runN pass (n + 1) s = prepend l (runN pass n s') := by
        intro n; rw [step, hp]; rfl
      have hfin : ∀ n, Finished (runN pass (n + 1) s) ↔ Finished (runN pass n s') := by
        intro n; rw [hn]
        generalize runN pass n s' = r
        rcases r with ⟨l', o'⟩
        cases o' <;> simp [Finished, prepend]
      by_cases hex : ∃ n, Finished (runN pass n s')
      · have hex' : ∃ n, Finished (runN pass n s) := by
          obtain ⟨n, h⟩ := hex; exact ⟨n + 1, (hfin n).2 h⟩
        have hfind : Nat.find hex' = Nat.find hex + 1 := by
          rw [Nat.find_eq_iff]
          refine ⟨(hfin _).2 (Nat.find_spec hex), fun m hm => ?_⟩
          cases m with
          | zero => exact h0
          | succ m => rw [hfin]; exact Nat.find_min hex (by omega)
        have e1 : whileLoop pass s' = runN pass (Nat.find hex) s' >>= fun c => match c with
            | .next s' => pure s'
            | .brk s' => pure s' := by simp only [whileLoop, hex, dif_pos]; rfl
        show _ = prepend l (whileLoop pass s')
        rw [e1]
        simp only [whileLoop, hex', dif_pos, hfind, hn]
        exact prepend_andThen _ _ _
      · have hex' : ¬ ∃ n, Finished (runN pass n s) := by
          rintro ⟨n, h⟩
          cases n with
          | zero => exact h0 h
          | succ n => exact hex ⟨n, (hfin n).1 h⟩
        have e1 : whileLoop pass s' = diverge := by
          simp only [whileLoop, hex, dif_neg, not_false_eq_true]
        show _ = prepend l (whileLoop pass s')
        rw [e1]
        simp only [whileLoop, hex', dif_neg, not_false_eq_true]
        rfl

/-- invariant rule for `while` (partial correctness) -/
theorem Post.whileLoop {pass : σ → Py (Ctl σ)} {s : σ} {E : Err → Prop} {D : Prop}
    (I J : σ → Prop) (h0 : I s)
    (h : ∀ s, I s → Post (pass s) (fun _ c => match c with | .next s' => I s' | .brk s' => J s') E D)
    (hD : D) :
    Post (whileLoop pass s) (fun _ s' => J s') E D := by
  have key : ∀ n s, I s →
      Post (runN pass n s) (fun _ c => match c with | .next s' => I s' | .brk s' => J s') E D := by
    intro n
    induction n with
    | zero => intro s hs; exact Post.ret hs
    | succ n ih =>
      intro s hs
      apply Post.bind
      refine (h s hs).mono ?_ (fun _ h => h) (fun h => h)
      intro l c hc
      cases c with
      | next s' => exact ih s' hc
      | brk s' => exact Post.ret hc
  unfold PyX.whileLoop
  split
  · rename_i hex
    apply Post.bind
    have hfin := Nat.find_spec hex
    have := key (Nat.find hex) s h0
    generalize runN pass (Nat.find hex) s = r at *
    rcases r with ⟨l, o⟩
    cases o with
    | ok c =>
      cases c with
      | next s' => exact absurd rfl (hfin s')
      | brk s' => exact this
    | raise e => exact this
    | diverge => exact this
  · exact hD

end PyX
