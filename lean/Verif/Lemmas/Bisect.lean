import Verif.Lemmas.Ideal
import Mathlib.Data.Set.Finite.Basic
import Mathlib.Data.Set.Card

/-!
# Bisection loops in finite precision

`FP.Grid F`: the results of `F.rnd` form a finite set of reals, rounding is monotone, leaves floats
alone, and doubling a float is exact unless it overflows.  IEEE binary64 with round-to-nearest is one
(see `Verif.Spec.Binary` for a concrete instance).
-/

namespace PyX

open Classical Py

/-- finite-precision arithmetic -/
structure FP.Grid (F : FP) : Prop where
  /-- there are finitely many floats -/
  finite : {y : ℝ | F.rnd y = .fin y}.Finite
  /-- rounding gives a float -/
  idem : ∀ x y, F.rnd x = .fin y → F.rnd y = .fin y
  /-- rounding is never NaN -/
  not_nan : ∀ x, F.rnd x ≠ .nan
  /-- rounding is monotone -/
  mono : ∀ x y a b, x ≤ y → F.rnd x = .fin a → F.rnd y = .fin b → a ≤ b
  /-- doubling is exact or overflows -/
  double : ∀ y, F.rnd y = .fin y → F.rnd (2 * y) = .fin (2 * y) ∨ ∃ s, F.rnd (2 * y) = .inf s
  /-- nothing below a positively overflowing bound ... -/
  inf_pos : ∀ x y, x ≤ y → F.rnd x = .inf false → F.rnd y = .inf false
  inf_neg : ∀ x y, x ≤ y → F.rnd y = .inf true → F.rnd x = .inf true
  /-- zero and small integers are floats -/
  int_exact : ∀ n : ℤ, |n| ≤ 2 ^ 53 → F.rnd n = .fin n
  /-- numbers of everyday size are represented with an absolute error of at most 1e-9 -/
  fine : ∀ x, |x| ≤ 4000000 → ∃ y, F.rnd x = .fin y ∧ |y - x| ≤ 1e-9

/-- the floats of `F` -/
def FP.IsFloat (F : FP) : Num → Prop
  | .fin y => F.rnd y = .fin y
  | _ => True

section
variable {F : FP} (hF : F.Grid)
include hF

theorem FP.Grid.rnd_isFloat (x : ℝ) : F.IsFloat (F.rnd x) := by
  rcases h : F.rnd x with _ | s | y
  · trivial
  · trivial
  · exact hF.idem x y h

theorem FP.Grid.zero_isFloat : F.IsFloat (.fin 0) := by
  have := hF.int_exact 0 (by norm_num)
  rw [Int.cast_zero] at this
  exact this

theorem FP.Grid.lit_isFloat (q : ℚ) : F.IsFloat (F.lit q) := hF.rnd_isFloat _

theorem FP.Grid.ofInt_isFloat (n : ℤ) (h : |n| ≤ 2 ^ 53) : F.IsFloat (.ofInt n) :=
  hF.int_exact n h

theorem FP.Grid.add_isFloat (a b : Num) : F.IsFloat (F.add a b) := by
  cases a <;> cases b <;> simp only [FP.add] <;> try trivial
  · split <;> trivial
  · exact hF.rnd_isFloat _

theorem FP.Grid.sub_isFloat (a b : Num) : F.IsFloat (F.sub a b) := by
  cases a <;> cases b <;> simp only [FP.sub] <;> try trivial
  · split <;> trivial
  · exact hF.rnd_isFloat _

theorem FP.Grid.mul_isFloat (a b : Num) : F.IsFloat (F.mul a b) := by
  cases a <;> cases b <;> simp only [FP.mul] <;> try trivial
  · split <;> trivial
  · split <;> trivial
  · exact hF.rnd_isFloat _

theorem FP.Grid.div_isFloat (a b : Num) :
    Post (F.div a b) (fun _ r => F.IsFloat r) (fun _ => True) True := by
  cases b with
  | nan => cases a <;> exact Post.ret trivial
  | inf s =>
    cases a
    · exact Post.ret trivial
    · exact Post.ret trivial
    · exact Post.ret hF.zero_isFloat
  | fin b =>
    simp only [FP.div]
    split
    · trivial
    · cases a
      · exact Post.ret trivial
      · exact Post.ret trivial
      · exact Post.ret (hF.rnd_isFloat _)

end

/-- `(l + h) / 2` in floating point -/
noncomputable def FP.mid (F : FP) (l h : Num) : Num :=
  match F.add l h with
  | .nan => .nan
  | .inf s => .inf s
  | .fin a => F.rnd (a / 2)

theorem FP.div_two (F : FP) (l h : Num) :
    F.div (F.add l h) (.ofInt 2) = pure (F.mid l h) := by
  simp only [FP.mid, Num.ofInt]
  generalize F.add l h = a
  cases a with
  | nan => simp [FP.div]
  | inf s => simp [FP.div, not_lt.2 (zero_le_two (α := ℝ))]
  | fin a => simp [FP.div]

theorem FP.Grid.mid_isFloat {F : FP} (hF : F.Grid) (l h : Num) : F.IsFloat (F.mid l h) := by
  unfold FP.mid
  cases F.add l h
  · trivial
  · trivial
  · exact hF.rnd_isFloat _

/-- the midpoint of two finite floats is between them, or has overflowed -/
theorem FP.Grid.mid_between {F : FP} (hF : F.Grid) {l h : ℝ} (hl : F.rnd l = .fin l)
    (hh : F.rnd h = .fin h) (hlh : l ≤ h) :
    (∃ m, F.mid (.fin l) (.fin h) = .fin m ∧ l ≤ m ∧ m ≤ h ∧ F.rnd m = .fin m) ∨
    ∃ s, F.mid (.fin l) (.fin h) = .inf s := by
  have hmid : F.mid (.fin l) (.fin h) = match F.rnd (l + h) with
    | .nan => .nan | .inf s => .inf s | .fin a => F.rnd (a / 2) := rfl
  rcases hs : F.rnd (l + h) with _ | s | a
  · exact absurd hs (hF.not_nan _)
  · right; exact ⟨s, by rw [hmid, hs]⟩
  · left
    rw [hmid, hs]
    have hla : l ≤ a / 2 := by
      rcases hF.double l hl with h2 | ⟨s, h2⟩
      · have := hF.mono (2 * l) (l + h) _ _ (by linarith) h2 hs
        linarith
      · cases s with
        | false =>
          have := hF.inf_pos (2 * l) (l + h) (by linarith) h2
          rw [hs] at this; cases this
        | true =>
          -- 2 l overflows negatively: l is negative and a/2 ≥ l because 2l rounds below a
          by_contra hcon
          push Not at hcon
          have ha : F.rnd a = .fin a := hF.idem _ _ hs
          have := hF.inf_neg a (2 * l) (by linarith) h2
          rw [ha] at this; cases this
    have hah : a / 2 ≤ h := by
      rcases hF.double h hh with h2 | ⟨s, h2⟩
      · have := hF.mono (l + h) (2 * h) _ _ (by linarith) hs h2
        linarith
      · cases s with
        | true =>
          have := hF.inf_neg (l + h) (2 * h) (by linarith) h2
          rw [hs] at this; cases this
        | false =>
          by_contra hcon
          push Not at hcon
          have ha : F.rnd a = .fin a := hF.idem _ _ hs
          have := hF.inf_pos (2 * h) a (by linarith) h2
          rw [ha] at this; cases this
    rcases hm : F.rnd (a / 2) with _ | s | m
    · exact absurd hm (hF.not_nan _)
    · cases s with
      | false =>
        have := hF.inf_pos _ _ hah hm
        rw [hh] at this; cases this
      | true =>
        have := hF.inf_neg _ _ hla hm
        rw [hl] at this; cases this
    · exact ⟨m, hm, hF.mono _ _ _ _ hla hl hm, hF.mono _ _ _ _ hah hm hh, hF.idem _ _ hm⟩

theorem FP.mid_comm (F : FP) (l h : Num) : F.mid l h = F.mid h l := by
  unfold FP.mid
  have : F.add l h = F.add h l := by
    cases l <;> cases h <;> simp [FP.add, add_comm]
    rename_i a b; cases a <;> cases b <;> simp
  rw [this]

/-- a midpoint that is not a finite number stays the same in the next pass -/
theorem FP.mid_sticky (F : FP) (l h : Num) (hm : ∀ m, F.mid l h ≠ .fin m) :
    F.mid l (F.mid l h) = F.mid l h ∧ F.mid (F.mid l h) h = F.mid l h := by
  have key : ∀ l h : Num, (∀ m, F.mid l h ≠ .fin m) → F.mid l (F.mid l h) = F.mid l h := by
    intro l h hm
    cases l with
    | nan => cases h <;> rfl
    | inf s =>
      cases h with
      | nan => rfl
      | inf t => cases s <;> cases t <;> rfl
      | fin b => cases s <;> rfl
    | fin a =>
      rcases hmid : F.mid (.fin a) h with _ | s | m
      · rfl
      · rfl
      · exact absurd hmid (hm m)
  refine ⟨key l h hm, ?_⟩
  rw [FP.mid_comm F (F.mid l h) h, FP.mid_comm F l h]
  exact key h l (by rw [FP.mid_comm]; exact hm)

/-! ### the common loop -/

/-- state of a solver: current unknown, current value, upper and lower bound -/
abbrev BState := Option Num × Num × Num × Num

/-- the loop body shared by all bisection solvers: `c` is the loop condition on the current value,
`f` the function to invert, `up` says that the midpoint becomes the new upper bound. -/
noncomputable def bisectPass (F : FP) (c : Num → Prop) (f : Num → Py Num) (up : Num → Prop)
    (msg : String) : BState → Py (Ctl BState)
  | (x, r, hi, lo) =>
    if c r then do
      let x ← F.div (F.add lo hi) (Num.ofInt 2)
      let r' ← f x
      if Num.feq r r' then do
        warn msg
        pure (.brk (some x, r', hi, lo))
      else if up r' then pure (.next (some x, r', x, lo))
      else pure (.next (some x, r', hi, x))
    else pure (.brk (x, r, hi, lo))

theorem feq_self {r : Num} (h : r ≠ .nan) : Num.feq r r := by
  cases r with
  | nan => exact absurd rfl h
  | inf s => rfl
  | fin a => rfl

/-- `Clean D x`: the run raises no `IndexError`, and if it does not terminate then `D` -/
def Clean {α : Type} (D : Prop) (x : Py α) : Prop := Post x (fun _ _ => True) (· ≠ .index) D

section
variable {α β σ : Type} {D : Prop}

theorem Clean.ret (a : α) : Clean D (pure a : Py α) := trivial
theorem Clean.raise {e : Err} (h : e ≠ .index) : Clean D (Py.raise e : Py α) := h
theorem Clean.bind {x : Py α} {f : α → Py β} (hx : Clean D x) (hf : ∀ a, Clean D (f a)) :
    Clean D (x >>= f) := by
  apply Post.bind
  exact hx.mono (fun _ a _ => (hf a).mono (fun _ _ _ => trivial) (fun _ h => h) id) (fun _ h => h) id
theorem Clean.ite {c : Prop} {_ : Decidable c} {x y : Py α} (hx : Clean D x) (hy : Clean D y) :
    Clean D (if c then x else y) := by split <;> assumption
theorem Clean.warn (m : String) : Clean D (warn m) := trivial
theorem Clean.logError (m : String) : Clean D (logError m) := trivial
theorem Clean.logDebug (m : String) : Clean D (logDebug m) := trivial
theorem Clean.logInfo (m : String) : Clean D (logInfo m) := trivial
theorem Clean.idx {l : List α} {i : ℕ} (h : i < l.length) : Clean D (idx l i) :=
  Post.idx h trivial
theorem Clean.getVar (o : Option α) : Clean D (getVar o) := by
  cases o
  · exact Clean.raise (by decide)
  · exact Clean.ret _
theorem Clean.div (F : FP) (a b : Num) : Clean D (F.div a b) := by
  unfold FP.div
  split
  · split
    · exact Clean.raise (by decide)
    · split <;> exact Clean.ret _
  all_goals exact Clean.ret _
theorem Clean.pow (F : FP) (a b : Num) : Clean D (F.pow a b) := by
  unfold FP.pow
  repeat' split
  all_goals first | exact Clean.ret _ | exact Clean.raise (by decide)
theorem Clean.exp (F : FP) (a : Num) : Clean D (F.exp a) := by
  unfold FP.exp
  repeat' split
  all_goals first | exact Clean.ret _ | exact Clean.raise (by decide)
theorem Clean.log (F : FP) (a : Num) : Clean D (F.log a) := by
  unfold FP.log
  repeat' split
  all_goals first | exact Clean.ret _ | exact Clean.raise (by decide)
theorem Clean.sqrt (F : FP) (a : Num) : Clean D (F.sqrt a) := by
  unfold FP.sqrt
  repeat' split
  all_goals first | exact Clean.ret _ | exact Clean.raise (by decide)
theorem Clean.forRange {a b : ℕ} {s : σ} {f : ℕ → σ → Py σ}
    (h : ∀ i s, i < b → Clean D (f i s)) : Clean D (forRange a b s f) := by
  refine (Post.forRange (E := (· ≠ .index)) (D := D) (fun _ => True) trivial ?_).mono
    (fun _ _ _ => trivial) (fun _ h => h) id
  intro i s _ hi _
  exact h i s hi
/-- without a claim about termination -/
theorem Clean.whileLoop {pass : σ → Py (Ctl σ)} {s : σ} (hD : D) (h : ∀ s, Clean D (pass s)) :
    Clean D (whileLoop pass s) := by
  refine (Post.whileLoop (E := (· ≠ .index)) (D := D) (fun _ => True) (fun _ => True) trivial ?_ hD).mono
    (fun _ _ _ => trivial) (fun _ h => h) id
  intro s _
  exact (h s).mono (fun _ c _ => by cases c <;> trivial) (fun _ h => h) id
end

/-- number of floats between two reals -/
noncomputable def FP.count (F : FP) (l h : ℝ) : ℕ :=
  {y : ℝ | F.rnd y = .fin y ∧ l ≤ y ∧ y ≤ h}.ncard

theorem FP.Grid.count_lt {F : FP} (hF : F.Grid) {l h l' h' x : ℝ} (hl : l ≤ l') (hh : h' ≤ h)
    (hx : F.rnd x = .fin x) (hx1 : l ≤ x) (hx2 : x ≤ h) (hx3 : x < l' ∨ h' < x) :
    F.count l' h' < F.count l h := by
  apply Set.ncard_lt_ncard
  · refine ⟨fun y hy => ⟨hy.1, hl.trans hy.2.1, hy.2.2.trans hh⟩, fun hsub => ?_⟩
    have := hsub (⟨hx, hx1, hx2⟩ : x ∈ {y : ℝ | F.rnd y = .fin y ∧ l ≤ y ∧ y ≤ h})
    rcases hx3 with h3 | h3
    · exact absurd this.2.1 (not_le.2 h3)
    · exact absurd this.2.2 (not_le.2 h3)
  · exact hF.finite.subset (fun y hy => hy.1)

section
variable {F : FP} {c : Num → Prop} {f : Num → Py Num} {up : Num → Prop} {msg : String} {D : Prop}

/-- if the midpoint is the same as in the previous pass, the loop ends now -/
theorem bisect_same (hc : ¬ c .nan) (x : Option Num) (l : List LogRec) (r hi lo : Num)
    (hf : f (F.mid lo hi) = ⟨l, .ok r⟩) :
    Clean D (whileLoop (bisectPass F c f up msg) (x, r, hi, lo)) := by
  rw [whileLoop_eq]
  simp only [bisectPass]
  split
  · rename_i h
    have hr : r ≠ .nan := by rintro rfl; exact hc h
    rw [FP.div_two, pure_bind, hf]
    simp only [Py.bind_def, Py.andThen, if_pos (feq_self hr)]
    exact trivial
  · exact Clean.ret _

/-- one pass: either it ends, or it goes on with one of two brackets -/
theorem bisect_step (hf : ∀ x, Clean D (f x)) (x : Option Num) (r hi lo : Num)
    (h1 : ∀ l r', f (F.mid lo hi) = ⟨l, .ok r'⟩ → Clean D
      (whileLoop (bisectPass F c f up msg) (some (F.mid lo hi), r', F.mid lo hi, lo)))
    (h2 : ∀ l r', f (F.mid lo hi) = ⟨l, .ok r'⟩ → Clean D
      (whileLoop (bisectPass F c f up msg) (some (F.mid lo hi), r', hi, F.mid lo hi))) :
    Clean D (whileLoop (bisectPass F c f up msg) (x, r, hi, lo)) := by
  rw [whileLoop_eq]
  simp only [bisectPass]
  split
  · rw [FP.div_two, pure_bind]
    have hf' := hf (F.mid lo hi)
    rcases hfm : f (F.mid lo hi) with ⟨l, o⟩
    rw [hfm] at hf'
    cases o with
    | raise e => exact hf'
    | diverge => exact hf'
    | ok r' =>
      rw [bind_assoc]
      show Clean D (Py.prepend l _)
      have pre : ∀ y : Py BState, Clean D y → Clean D (Py.prepend l y) := by
        intro y hy
        rcases y with ⟨l', o⟩
        cases o <;> exact hy
      apply pre
      beta_reduce
      by_cases hq : Num.feq r r'
      · rw [if_pos hq]; exact trivial
      · rw [if_neg hq]
        by_cases hu : up r'
        · rw [if_pos hu, pure_bind]; exact h1 l r' hfm
        · rw [if_neg hu, pure_bind]; exact h2 l r' hfm
  · exact Clean.ret _

/-- a bracket whose midpoint is not finite -/
theorem bisect_sticky (hc : ¬ c .nan) (hf : ∀ x, Clean D (f x)) (x : Option Num) (r hi lo : Num)
    (hm : ∀ m, F.mid lo hi ≠ .fin m) :
    Clean D (whileLoop (bisectPass F c f up msg) (x, r, hi, lo)) := by
  obtain ⟨s1, s2⟩ := FP.mid_sticky F lo hi hm
  refine bisect_step hf x r hi lo (fun l r' h => ?_) (fun l r' h => ?_)
  · exact bisect_same hc _ l r' _ _ (by rw [s1]; exact h)
  · exact bisect_same hc _ l r' _ _ (by rw [s2]; exact h)

/-- **Termination**: in finite precision every bisection loop that stops on NaN ends, provided the
inverted function does. -/
theorem bisect_terminates (hF : F.Grid) (hc : ¬ c .nan) (hf : ∀ x, Clean D (f x))
    (x : Option Num) (r hi lo : Num) (hhi : F.IsFloat hi) (hlo : F.IsFloat lo) :
    Clean D (whileLoop (bisectPass F c f up msg) (x, r, hi, lo)) := by
  -- finite brackets, by induction on the number of floats in them
  have key : ∀ n, ∀ (hi lo : ℝ), F.rnd hi = .fin hi → F.rnd lo = .fin lo →
      F.count (min lo hi) (max lo hi) ≤ n → ∀ x r,
      Clean D (whileLoop (bisectPass F c f up msg) (x, r, .fin hi, .fin lo)) := by
    intro n
    induction n with
    | zero =>
      intro hi lo hhi hlo hn
      exfalso
      have hfin : {y : ℝ | F.rnd y = .fin y ∧ min lo hi ≤ y ∧ y ≤ max lo hi}.Finite :=
        hF.finite.subset (fun y hy => hy.1)
      have := (Set.ncard_eq_zero hfin).1 (Nat.le_zero.1 hn)
      have hmem : lo ∈ {y : ℝ | F.rnd y = .fin y ∧ min lo hi ≤ y ∧ y ≤ max lo hi} :=
        ⟨hlo, min_le_left _ _, le_max_left _ _⟩
      rw [this] at hmem; exact hmem
    | succ n ih =>
      intro hi lo hhi hlo hn x r
      have hmid : (∃ m, F.mid (.fin lo) (.fin hi) = .fin m ∧ min lo hi ≤ m ∧ m ≤ max lo hi ∧
          F.rnd m = .fin m) ∨ ∃ s, F.mid (.fin lo) (.fin hi) = .inf s := by
        rcases le_total lo hi with h | h
        · rw [min_eq_left h, max_eq_right h]; exact hF.mid_between hlo hhi h
        · rw [min_eq_right h, max_eq_left h, FP.mid_comm]; exact hF.mid_between hhi hlo h
      rcases hmid with ⟨m, hm, hm1, hm2, hmf⟩ | ⟨s, hs⟩
      swap
      · exact bisect_sticky hc hf x r _ _ (by rw [hs]; simp)
      refine bisect_step hf x r _ _ (fun l r' h => ?_) (fun l r' h => ?_)
      · by_cases hmh : m = hi
        · -- the bracket did not change
          subst hmh
          rw [hm]
          exact bisect_same hc _ l r' _ _ h
        · rw [hm]
          apply ih m lo hmf hlo
          have : F.count (min lo m) (max lo m) < F.count (min lo hi) (max lo hi) := by
            apply hF.count_lt (x := hi) (le_min (min_le_left _ _) hm1)
              (max_le (le_max_left _ _) hm2) hhi (min_le_right _ _) (le_max_right _ _)
            rcases le_total lo hi with h | h
            · right
              rw [max_eq_right h] at hm2
              rw [min_eq_left h] at hm1
              rw [max_eq_right hm1]
              exact lt_of_le_of_ne hm2 hmh
            · left
              rw [min_eq_right h] at hm1
              rw [max_eq_left h] at hm2
              rw [min_eq_right hm2]
              exact lt_of_le_of_ne hm1 (Ne.symm hmh)
          omega
      · by_cases hmh : m = lo
        · subst hmh
          rw [hm]
          exact bisect_same hc _ l r' _ _ h
        · rw [hm]
          apply ih hi m hhi hmf
          have : F.count (min m hi) (max m hi) < F.count (min lo hi) (max lo hi) := by
            apply hF.count_lt (x := lo) (le_min hm1 (min_le_right _ _))
              (max_le hm2 (le_max_right _ _)) hlo (min_le_left _ _) (le_max_left _ _)
            rcases le_total lo hi with h | h
            · left
              rw [min_eq_left h] at hm1
              rw [max_eq_right h] at hm2
              rw [min_eq_left hm2]
              exact lt_of_le_of_ne hm1 (Ne.symm hmh)
            · right
              rw [max_eq_left h] at hm2
              rw [min_eq_right h] at hm1
              rw [max_eq_left hm1]
              exact lt_of_le_of_ne hm2 hmh
          omega
  by_cases hfin : ∃ m, F.mid lo hi = .fin m
  · -- both bounds are finite or their midpoint is
    cases lo with
    | nan => obtain ⟨m, hm⟩ := hfin; cases hi <;> cases hm
    | inf s => obtain ⟨m, hm⟩ := hfin; cases hi <;> (try cases s) <;> (try rename_i t; cases t) <;> cases hm
    | fin lo =>
      cases hi with
      | nan => obtain ⟨m, hm⟩ := hfin; cases hm
      | inf s => obtain ⟨m, hm⟩ := hfin; cases hm
      | fin hi => exact key _ hi lo hhi hlo le_rfl x r
  · exact bisect_sticky hc hf x r hi lo (fun m hm => hfin ⟨m, hm⟩)

end

/-! ### loops that stop on the width of the bracket -/

/-- the loop body of the solvers that watch the width of the bracket -/
noncomputable def widthPass (F : FP) (c : Num → Prop) (tol : ℚ) (f : Num → Py Num) (up : Num → Prop) :
    BState → Py (Ctl BState)
  | (x, r, hi, lo) =>
    if c r ∧ Num.fabs (F.sub hi lo) > F.lit tol then do
      let x ← F.div (F.add lo hi) (Num.ofInt 2)
      let r' ← f x
      if up r' then pure (.next (some x, r', x, lo))
      else pure (.next (some x, r', hi, x))
    else pure (.brk (x, r, hi, lo))

section
variable {F : FP} {c : Num → Prop} {f : Num → Py Num} {up : Num → Prop} {tol : ℚ} {D : Prop}

/-- a wide bracket has a midpoint strictly inside -/
theorem FP.Grid.mid_strict (hF : F.Grid) {l h : ℝ} (hl' : |l| ≤ 1000000) (hh' : |h| ≤ 1000000)
    (ht : (1e-7 : ℝ) ≤ tol) (ht' : (tol : ℝ) ≤ 1)
    (hw : Num.fabs (F.sub (.fin h) (.fin l)) > F.lit tol) :
    ∃ m, F.mid (.fin l) (.fin h) = .fin m ∧ min l h < m ∧ m < max l h ∧ F.rnd m = .fin m := by
  rw [abs_le] at hl' hh'
  obtain ⟨y, hy, hye⟩ := hF.fine (h - l) (by rw [abs_le]; constructor <;> linarith)
  obtain ⟨t, htt, hte⟩ := hF.fine tol (by rw [abs_le]; constructor <;> linarith)
  obtain ⟨a, ha, hae⟩ := hF.fine (l + h) (by rw [abs_le]; constructor <;> linarith)
  have hsub : F.sub (.fin h) (.fin l) = .fin y := hy
  have hlit : F.lit tol = .fin t := htt
  rw [hsub, hlit] at hw
  have hyt : t < |y| := hw
  rw [abs_le] at hye hte hae
  obtain ⟨m, hm, hme⟩ := hF.fine (a / 2) (by rw [abs_le]; constructor <;> linarith)
  rw [abs_le] at hme
  have hmid : F.mid (.fin l) (.fin h) = .fin m := by
    have : F.add (.fin l) (.fin h) = .fin a := ha
    simp only [FP.mid, this, hm]
  refine ⟨m, hmid, ?_, ?_, hF.idem _ _ hm⟩
  · rcases le_total 0 y with h0 | h0
    · rw [abs_of_nonneg h0] at hyt
      refine (min_le_left _ _).trans_lt ?_
      linarith
    · rw [abs_of_nonpos h0] at hyt
      refine (min_le_right _ _).trans_lt ?_
      linarith
  · rcases le_total 0 y with h0 | h0
    · rw [abs_of_nonneg h0] at hyt
      refine lt_of_lt_of_le ?_ (le_max_right _ _)
      linarith
    · rw [abs_of_nonpos h0] at hyt
      refine lt_of_lt_of_le ?_ (le_max_left _ _)
      linarith

theorem width_terminates (hF : F.Grid) (ht : (1e-7 : ℝ) ≤ tol) (ht' : (tol : ℝ) ≤ 1)
    (hf : ∀ x, Clean D (f x)) :
    ∀ (hi lo : ℝ), F.rnd hi = .fin hi → F.rnd lo = .fin lo → |hi| ≤ 1000000 → |lo| ≤ 1000000 → ∀ x r,
      Clean D (whileLoop (widthPass F c tol f up) (x, r, .fin hi, .fin lo)) := by
  have key : ∀ n, ∀ (hi lo : ℝ), F.rnd hi = .fin hi → F.rnd lo = .fin lo →
      |hi| ≤ 1000000 → |lo| ≤ 1000000 →
      F.count (min lo hi) (max lo hi) ≤ n → ∀ x r,
      Clean D (whileLoop (widthPass F c tol f up) (x, r, .fin hi, .fin lo)) := by
    intro n
    induction n with
    | zero =>
      intro hi lo hhi hlo _ _ hn
      exfalso
      have hfin : {y : ℝ | F.rnd y = .fin y ∧ min lo hi ≤ y ∧ y ≤ max lo hi}.Finite :=
        hF.finite.subset (fun y hy => hy.1)
      have := (Set.ncard_eq_zero hfin).1 (Nat.le_zero.1 hn)
      have hmem : lo ∈ {y : ℝ | F.rnd y = .fin y ∧ min lo hi ≤ y ∧ y ≤ max lo hi} :=
        ⟨hlo, min_le_left _ _, le_max_left _ _⟩
      rw [this] at hmem; exact hmem
    | succ n ih =>
      intro hi lo hhi hlo hbhi hblo hn x r
      rw [whileLoop_eq]
      simp only [widthPass]
      split
      swap
      · exact Clean.ret _
      rename_i hc
      obtain ⟨m, hm, hm1, hm2, hmf⟩ := hF.mid_strict hblo hbhi ht ht' hc.2
      rw [FP.div_two, pure_bind, hm, bind_assoc]
      have hbm : |m| ≤ 1000000 := by
        rw [abs_le] at *
        constructor
        · have := le_min hblo.1 hbhi.1; linarith
        · have := max_le hblo.2 hbhi.2; linarith
      refine Clean.bind (hf _) (fun r' => ?_)
      split
      · rw [pure_bind]
        apply ih m lo hmf hlo hbm hblo
        have : F.count (min lo m) (max lo m) < F.count (min lo hi) (max lo hi) := by
          apply hF.count_lt (x := hi) (le_min (min_le_left _ _) hm1.le)
            (max_le (le_max_left _ _) hm2.le) hhi (min_le_right _ _) (le_max_right _ _)
          rcases le_total lo hi with h | h
          · right
            rw [max_eq_right h] at hm2; rw [min_eq_left h] at hm1
            rw [max_eq_right hm1.le]; exact hm2
          · left
            rw [min_eq_right h] at hm1; rw [max_eq_left h] at hm2
            rw [min_eq_right hm2.le]; exact hm1
        omega
      · rw [pure_bind]
        apply ih hi m hhi hmf hbhi hbm
        have : F.count (min m hi) (max m hi) < F.count (min lo hi) (max lo hi) := by
          apply hF.count_lt (x := lo) (le_min hm1.le (min_le_right _ _))
            (max_le hm2.le (le_max_right _ _)) hlo (min_le_left _ _) (le_max_left _ _)
          rcases le_total lo hi with h | h
          · left
            rw [min_eq_left h] at hm1; rw [max_eq_right h] at hm2
            rw [min_eq_left hm2.le]; exact hm1
          · right
            rw [max_eq_left h] at hm2; rw [min_eq_right h] at hm1
            rw [max_eq_left hm1.le]; exact hm2
        omega
  intro hi lo h1 h2 h3 h4 x r
  exact key _ hi lo h1 h2 h3 h4 le_rfl x r

/-- an invariant of such a loop: once a midpoint was taken it lies between the bounds -/
theorem width_between (hF : F.Grid) (ht : (1e-7 : ℝ) ≤ tol) (ht' : (tol : ℝ) ≤ 1) (a b : ℝ)
    (hi lo : ℝ) (hhi : F.rnd hi = .fin hi) (hlo : F.rnd lo = .fin lo) (hbhi : |hi| ≤ 1000000)
    (hblo : |lo| ≤ 1000000) (h1 : hi ∈ Set.Icc a b) (h2 : lo ∈ Set.Icc a b) (r : Num) :
    Post (whileLoop (widthPass F c tol f up) (none, r, .fin hi, .fin lo))
      (fun _ s => ∀ x, s.1 = some x → ∃ y, x = .fin y ∧ F.rnd y = .fin y ∧ y ∈ Set.Icc a b ∧
        |y| ≤ 1000000) (fun _ => True) True := by
  refine Post.whileLoop
    (fun s => (∃ hi lo : ℝ, s.2.2 = (.fin hi, .fin lo) ∧ F.rnd hi = .fin hi ∧ F.rnd lo = .fin lo ∧
      |hi| ≤ 1000000 ∧ |lo| ≤ 1000000 ∧ hi ∈ Set.Icc a b ∧ lo ∈ Set.Icc a b) ∧
      ∀ x, s.1 = some x → ∃ y, x = .fin y ∧ F.rnd y = .fin y ∧ y ∈ Set.Icc a b ∧ |y| ≤ 1000000)
    _ ⟨⟨hi, lo, rfl, hhi, hlo, hbhi, hblo, h1, h2⟩, by simp⟩ ?_ trivial
  rintro ⟨x, r, hi, lo⟩ ⟨⟨hi', lo', heq, hhi, hlo, hbhi, hblo, h1, h2⟩, hx⟩
  simp only [Prod.mk.injEq] at heq
  obtain ⟨rfl, rfl⟩ := heq
  simp only [widthPass]
  apply Post.ite
  · intro hc
    obtain ⟨m, hm, hm1, hm2, hmf⟩ := hF.mid_strict hblo hbhi ht ht' hc.2
    have hbm : |m| ≤ 1000000 := by
      rw [abs_le] at *
      constructor
      · have := le_min hblo.1 hbhi.1; linarith
      · have := max_le hblo.2 hbhi.2; linarith
    have hmI : m ∈ Set.Icc a b :=
      ⟨(le_min h2.1 h1.1).trans hm1.le, hm2.le.trans (max_le h2.2 h1.2)⟩
    rw [FP.div_two, pure_bind, hm]
    apply Post.bind
    refine Post.any (fun _ r' => ?_) (fun _ => trivial) trivial
    apply Post.ite
    · intro _
      apply Post.ret
      refine ⟨⟨m, lo', rfl, hmf, hlo, hbm, hblo, hmI, h2⟩, ?_⟩
      intro x hx; cases hx; exact ⟨m, rfl, hmf, hmI, hbm⟩
    · intro _
      apply Post.ret
      refine ⟨⟨hi', m, rfl, hhi, hmf, hbhi, hbm, h1, hmI⟩, ?_⟩
      intro x hx; cases hx; exact ⟨m, rfl, hmf, hmI, hbm⟩
  · intro _
    exact Post.ret hx

end

/-- the unknown found by a bisection loop is a midpoint, hence a float -/
theorem bisect_isFloat {F : FP} {c : Num → Prop} {f : Num → Py Num} {up : Num → Prop} {msg : String}
    (hF : F.Grid) (r hi lo : Num) :
    Post (whileLoop (bisectPass F c f up msg) (none, r, hi, lo))
      (fun _ s => ∀ x, s.1 = some x → F.IsFloat x) (fun _ => True) True := by
  refine Post.whileLoop (fun s => ∀ x, s.1 = some x → F.IsFloat x) _ (by simp) ?_ trivial
  rintro ⟨x, r, hi, lo⟩ hx
  simp only [bisectPass]
  apply Post.ite
  · intro _
    rw [FP.div_two, pure_bind]
    apply Post.bind
    refine Post.any (fun _ r' => ?_) (fun _ => trivial) trivial
    have hm : ∀ x, some (F.mid lo hi) = some x → F.IsFloat x := by
      intro x hx; cases hx; exact hF.mid_isFloat _ _
    apply Post.ite
    · intro _
      apply Post.bind
      exact Post.warn (Post.ret hm)
    · intro _
      apply Post.ite <;> intro _ <;> exact Post.ret hm
  · intro _
    exact Post.ret hx

theorem Clean.idx_bind {α β : Type} {D : Prop} {l : List α} {i : ℕ} {f : α → Py β}
    (h : i < l.length) (hf : ∀ a ∈ l, Clean D (f a)) : Clean D (PyX.idx l i >>= f) := by
  rw [PyX.idx_lt h, pure_bind]
  exact hf _ (List.getElem_mem h)

end PyX
