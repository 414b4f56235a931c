import Verif.Props.Total
import Verif.Props.Flow

/-!
# C26, C28: what the bisection solvers return
-/

namespace PyX

open Classical Py

variable {σ : Type}

theorem Post.known {α β : Type} {l : List LogRec} {a : α} {f : α → Py β} {Q E D}
    (h : Post (f a) (fun m b => Q (l ++ m) b) E D) : Post ((⟨l, .ok a⟩ : Py α) >>= f) Q E D :=
  Post.bind h

/-- invariant rule for `while`, with the log so far -/
theorem Post.whileLog {pass : σ → Py (Ctl σ)} {s : σ} {E : Err → Prop} {D : Prop}
    (I J : List LogRec → σ → Prop) (h0 : I [] s)
    (h : ∀ l s, I l s → Post (pass s)
      (fun m c => match c with | .next s' => I (l ++ m) s' | .brk s' => J (l ++ m) s') E D)
    (hD : D) :
    Post (PyX.whileLoop pass s) J E D := by
  have key : ∀ n l s, I l s → Post (runN pass n s)
      (fun m c => match c with | .next s' => I (l ++ m) s' | .brk s' => J (l ++ m) s') E D := by
    intro n
    induction n with
    | zero => intro l s hs; exact Post.ret (by simpa using hs)
    | succ n ih =>
      intro l s hs
      apply Post.bind
      refine (h l s hs).mono ?_ (fun _ h => h) (fun h => h)
      intro m c hc
      cases c with
      | next s' =>
        have := ih (l ++ m) s' hc
        simp only [List.append_assoc] at this
        exact this
      | brk s' => exact Post.ret (by simpa using hc)
  unfold PyX.whileLoop
  split
  · rename_i hex
    apply Post.bind
    have hfin := Nat.find_spec hex
    have := key (Nat.find hex) [] s h0
    generalize runN pass (Nat.find hex) s = r at *
    rcases r with ⟨l, o⟩
    cases o with
    | ok c =>
      cases c with
      | next s' => exact absurd rfl (hfin s')
      | brk s' =>
        have h' : J l s' := this
        exact (show J (l ++ []) s' by simpa using h')
    | raise e => exact this
    | diverge => exact this
  · exact hD

/-- what a bisection that stops has achieved: the message is in the log, or the loop condition is false
at the returned value -/
theorem bisect_result {F : FP} {c : Num → Prop} {f : Num → Py Num} {up : Num → Prop} {msg : String}
    (r hi lo : Num) :
    Post (PyX.whileLoop (bisectPass F c f up msg) (none, r, hi, lo) >>= fun s => getVar s.1)
      (fun l a => ⟨.warning, msg⟩ ∈ l ∨ ∃ y, (f a).out = .ok y ∧ ¬ c y) (fun _ => True) True := by
  refine Post.bind ?_
  refine (Post.whileLog (I := fun _ s => ∀ a, s.1 = some a → (f a).out = .ok s.2.1)
    (J := fun l s => ⟨.warning, msg⟩ ∈ l ∨ ∀ a, s.1 = some a → ∃ y, (f a).out = .ok y ∧ ¬ c y)
    (E := fun _ => True) (D := True) ?_ ?_ trivial).mono ?_ (fun _ h => h) id
  · intro a h; cases h
  · rintro l ⟨x, r, hi, lo⟩ hI
    unfold bisectPass
    refine Post.ite (fun hc => ?_) (fun hc => Post.ret (.inr fun a ha => ⟨_, hI a ha, hc⟩))
    rw [FP.div_two, pure_bind]
    generalize hz : f (F.mid lo hi) = z
    rcases z with ⟨m, o⟩
    cases o with
    | raise e => exact trivial
    | diverge => exact trivial
    | ok r' =>
      have hr : ∀ a, some (F.mid lo hi) = some a → (f a).out = .ok r' := by
        intro a ha; cases ha; rw [hz]
      refine Post.known ?_
      refine Post.ite (fun _ => ?_) (fun _ => Post.ite (fun _ => Post.ret hr) (fun _ => Post.ret hr))
      refine Post.bind (Post.warn (Post.ret (.inl ?_)))
      simp
  · rintro l ⟨x, r, hi, lo⟩ h
    cases x with
    | none => exact trivial
    | some a =>
      refine Post.ret ?_
      rw [List.append_nil]
      exact h.imp_right fun h => h a rfl

/-- in exact arithmetic the result of a bisection lies in the bracket it started with -/
theorem bisect_bracket {c : Num → Prop} {f : Num → Py Num} {up : Num → Prop} {msg : String}
    (r : Num) (hi lo : ℝ) :
    Post (PyX.whileLoop (bisectPass .ideal c f up msg) (none, r, .fin hi, .fin lo) >>= fun s => getVar s.1)
      (fun _ a => ∃ x ∈ Set.uIcc lo hi, a = .fin x) (fun _ => True) True := by
  refine Post.bind ?_
  refine (Post.whileLoop
    (I := fun s : BState => (∀ a, s.1 = some a → ∃ x ∈ Set.uIcc lo hi, a = .fin x) ∧
      (∃ x ∈ Set.uIcc lo hi, s.2.2.1 = .fin x) ∧ ∃ x ∈ Set.uIcc lo hi, s.2.2.2 = .fin x)
    (J := fun s => ∀ a, s.1 = some a → ∃ x ∈ Set.uIcc lo hi, a = .fin x)
    (E := fun _ => True) (D := True) ?_ ?_ trivial).mono ?_ (fun _ h => h) id
  · refine ⟨fun a h => (by cases h), ⟨hi, Set.right_mem_uIcc, rfl⟩, ⟨lo, Set.left_mem_uIcc, rfl⟩⟩
  · rintro ⟨x, r, h, l⟩ ⟨h1, ⟨b, hb, rfl⟩, ⟨a, ha, rfl⟩⟩
    have hm : ∃ x ∈ Set.uIcc lo hi, FP.ideal.mid (.fin a) (.fin b) = .fin x := by
      refine ⟨(a + b) / 2, ?_, rfl⟩
      rw [Set.mem_uIcc] at ha hb ⊢
      rcases le_total lo hi with h | h
      · left
        have ha' : lo ≤ a ∧ a ≤ hi := by rcases ha with h | h <;> constructor <;> linarith
        have hb' : lo ≤ b ∧ b ≤ hi := by rcases hb with h | h <;> constructor <;> linarith
        constructor <;> linarith
      · right
        have ha' : hi ≤ a ∧ a ≤ lo := by rcases ha with h | h <;> constructor <;> linarith
        have hb' : hi ≤ b ∧ b ≤ lo := by rcases hb with h | h <;> constructor <;> linarith
        constructor <;> linarith
    have hs : ∀ z, some (FP.ideal.mid (.fin a) (.fin b)) = some z → ∃ x ∈ Set.uIcc lo hi, z = .fin x := by
      intro z hz; cases hz; exact hm
    unfold bisectPass
    refine Post.ite (fun hc => ?_) (fun hc => Post.ret h1)
    rw [FP.div_two, pure_bind]
    refine Post.bind (Post.any (fun _ _ => ?_) (fun _ => trivial) trivial)
    refine Post.ite (fun _ => ?_) (fun _ => Post.ite (fun _ => Post.ret ?_) (fun _ => Post.ret ?_))
    · exact Post.bind (Post.warn (Post.ret hs))
    · exact ⟨hs, hm, ⟨a, ha, rfl⟩⟩
    · exact ⟨hs, ⟨b, hb, rfl⟩, hm⟩
  · rintro l ⟨x, r, hi, lo⟩ h
    cases x with
    | none => exact trivial
    | some a => exact Post.ret (h a rfl)

/-! ## The solvers -/

/-- the functions that invert an equation by bisection -/
inductive Solver where
  | T1_prho (p rho : Num) | T2_prho (p rho : Num) | T3_prho (p rho : Num) | T5_prho (p rho : Num)
  | h3_pT (p T : Num) | T5_ph (p h : Num) | T5_ps (p s : Num) | h4L_p (p : Num) | h4V_p (p : Num)

namespace Solver

noncomputable def run (F : FP) : Solver → Py Num
  | T1_prho p rho => Region1.T1_prho F p rho
  | T2_prho p rho => Region2.T2_prho F p rho
  | T3_prho p rho => Region3.T3_prho F p rho
  | T5_prho p rho => Region5.T5_prho F p rho
  | h3_pT p T => Region3.h3_pT F p T
  | T5_ph p h => Region5.T5_ph F p h
  | T5_ps p s => Region5.T5_ps F p s
  | h4L_p p => Region4.h4L_p F p
  | h4V_p p => Region4.h4V_p F p

/-- the equation to invert -/
noncomputable def equation (F : FP) : Solver → Num → Py Num
  | T1_prho p _, T => do F.div (.ofInt 1) (← Region1.v1_pT F p T)
  | T2_prho p _, T => do F.div (.ofInt 1) (← Region2.v2_pT F p T)
  | T3_prho _ rho, T => Region3.p3_rhoT F rho T
  -- the equation of region 2, not of region 5 (C28)
  | T5_prho p _, T => do F.div (.ofInt 1) (← Region2.v2_pT F p T)
  | h3_pT p _, h => Region3.T3_ph F p h
  | T5_ph p _, T => Region5.h5_pT F p T
  | T5_ps p _, T => Region5.s5_pT F p T
  | h4L_p _, h | h4V_p _, h => RegionBorders.p3sat_h F h

/-- the value the equation must take -/
def target : Solver → Num
  | T1_prho _ rho | T2_prho _ rho | T5_prho _ rho => rho
  | T3_prho p _ | h4L_p p | h4V_p p => p
  | h3_pT _ T => T
  | T5_ph _ h => h
  | T5_ps _ s => s

def tolerance : Solver → ℚ
  | T1_prho .. | h3_pT .. | T5_ph .. | T5_ps .. | h4L_p _ => 1e-5
  | T2_prho .. | T5_prho .. | h4V_p _ => 1e-6
  | T3_prho .. => 1e-8

/-- what it logs when it gives up -/
def message : Solver → String
  | T1_prho .. => "T1_prho stopped iterating after %d steps because values did not converge"
  | T2_prho .. => "T2_prho stopped iterating after %d steps because values did not converge"
  | T3_prho .. => "T3_prho stopped iterating after %d steps because values did not converge"
  | T5_prho .. => "T5_prho stopped iterating after %d steps because values did not converge"
  | h3_pT .. => "h3_pT stopped iterating after %d steps because values did not converge"
  | T5_ph .. => "T5_ph stopped iterating after %d steps because values did not converge"
  | T5_ps .. => "T5_ps stopped iterating after %d steps because values did not converge"
  | h4L_p _ => "h4L_p stopped iterating after %d steps because values did not converge"
  | h4V_p _ => "h4V_p stopped iterating after %d steps because values did not converge"

/-- the two saturation enthalpies iterate only near the critical point -/
def Iterates (F : FP) : Solver → Prop
  | h4L_p p | h4V_p p => ¬ p < F.lit 16.529 ∧ p > F.lit 0.000611657 ∧ p < F.lit 22.06395
  | _ => True

/-- the interval searched, in exact arithmetic -/
def Bracket : Solver → ℝ → ℝ → Prop
  | T1_prho p _, lo, hi => lo = 273.15 ∧ (Region4.T4_p .ideal p).out = .ok (.fin hi)
  | T2_prho p _, lo, hi => hi = 1073.15 ∧
      (if p < .fin 16.5292 then Region4.T4_p .ideal p else RegionBorders.B23T_p .ideal p).out = .ok (.fin lo)
  | T3_prho .., lo, hi => lo = 623.15 ∧ hi = 1073.15
  | T5_prho .., lo, hi => lo = 1073.15 ∧ hi = 2073.15
  | T5_ph .., lo, hi | T5_ps .., lo, hi => lo = 1073.15 ∧ hi = 2273.15
  | h4L_p _, lo, hi => lo = 1670.858218 ∧ hi = 2087.23500164864
  | h4V_p _, lo, hi => lo = 2087.23500164864 ∧ hi = 2568.592004
  | h3_pT p T, lo, hi =>
      let low : Py Num := Region1.h1_pT .ideal p (.fin 623.15)
      let high : Py Num := RegionBorders.B23T_p .ideal p >>= Region2.h2_pT .ideal p
      if p < .fin 22.06395 then ∃ Ts, (Region4.T4_p .ideal p).out = .ok Ts ∧
        if T ≤ Ts then low.out = .ok (.fin lo) ∧ (Region4.h4L_p .ideal p).out = .ok (.fin hi)
        else (Region4.h4V_p .ideal p).out = .ok (.fin lo) ∧ high.out = .ok (.fin hi)
      else low.out = .ok (.fin lo) ∧ high.out = .ok (.fin hi)

end Solver

theorem Post.known' {α β : Type} {x : Py α} {f : α → Py β} {Q : List LogRec → β → Prop} {E D}
    (h : ∀ l a, x = ⟨l, .ok a⟩ → Post (f a) (fun m b => Q (l ++ m) b) E D) (hE : ∀ e, E e) (hD : D) :
    Post (x >>= f) Q E D := by
  rcases x with ⟨l, o⟩
  cases o with
  | ok a => exact Post.bind (h l a rfl)
  | raise e => exact hE e
  | diverge => exact hD

/-- C26: a solver that returns has logged that it did not converge, or the residual at the returned value is
not above the tolerance (the residual may be NaN); any arithmetic -/
theorem C26_tolerance (F : FP) (s : Solver) (hs : s.Iterates F) (a : Num) (h : (s.run F).out = .ok a) :
    ⟨.warning, s.message⟩ ∈ (s.run F).logs ∨
    ∃ y, (s.equation F a).out = .ok y ∧ ¬ Num.fabs (F.sub s.target y) > F.lit s.tolerance := by
  have key : Post (s.run F) (fun l a =>
      ⟨.warning, s.message⟩ ∈ l ∨
      ∃ y, (s.equation F a).out = .ok y ∧ ¬ Num.fabs (F.sub s.target y) > F.lit s.tolerance)
      (fun _ => True) True := by
    have app : ∀ (x : Py Num) (l : List LogRec), Post x (fun l a =>
      ⟨.warning, s.message⟩ ∈ l ∨
      ∃ y, (s.equation F a).out = .ok y ∧ ¬ Num.fabs (F.sub s.target y) > F.lit s.tolerance)
      (fun _ => True) True → Post x (fun m a =>
      ⟨.warning, s.message⟩ ∈ l ++ m ∨
      ∃ y, (s.equation F a).out = .ok y ∧ ¬ Num.fabs (F.sub s.target y) > F.lit s.tolerance)
      (fun _ => True) True := fun x l h =>
        h.mono (fun _ _ h => h.imp_left (List.mem_append_right _)) (fun _ h => h) id
    cases s <;> simp only [Solver.run, Solver.equation, Solver.target, Solver.tolerance, Solver.message,
      Solver.Iterates] at *
    case T1_prho p rho =>
      unfold Region1.T1_prho
      rw [Region1.T1_prho.pass_eq]
      exact Post.known' (fun l a _ => app _ _ (bisect_result ..)) (fun _ => trivial) trivial
    case T2_prho p rho =>
      unfold Region2.T2_prho
      rw [Region2.T2_prho.pass_eq]
      simp only [pure_bind]
      refine Post.ite (fun _ => ?_) (fun _ => ?_) <;>
        exact Post.known' (fun l a _ => app _ _ (bisect_result ..)) (fun _ => trivial) trivial
    case T3_prho p rho =>
      unfold Region3.T3_prho
      rw [Region3.T3_prho.pass_eq]
      exact bisect_result ..
    case T5_prho p rho =>
      unfold Region5.T5_prho
      rw [Region5.T5_prho.pass_eq]
      exact bisect_result ..
    case h3_pT p T =>
      unfold Region3.h3_pT
      rw [Region3.h3_pT.pass_eq]
      simp only [pure_bind]
      have go : ∀ (x : Py Num) (f : Num → Py Num), (∀ y, Post (f y) (fun l a =>
          ⟨.warning, "h3_pT stopped iterating after %d steps because values did not converge"⟩ ∈ l ∨
          ∃ y, (Region3.T3_ph F p a).out = .ok y ∧ ¬ Num.fabs (F.sub T y) > F.lit 1e-5)
          (fun _ => True) True) → Post (x >>= f) (fun l a =>
          ⟨.warning, "h3_pT stopped iterating after %d steps because values did not converge"⟩ ∈ l ∨
          ∃ y, (Region3.T3_ph F p a).out = .ok y ∧ ¬ Num.fabs (F.sub T y) > F.lit 1e-5)
          (fun _ => True) True := fun x f hf =>
        Post.known' (fun l a _ => app _ _ (hf a)) (fun _ => trivial) trivial
      repeat' first
        | exact bisect_result ..
        | refine Post.ite (fun _ => ?_) (fun _ => ?_)
        | refine go _ _ fun _ => ?_
    case T5_ph p h =>
      unfold Region5.T5_ph
      rw [Region5.T5_ph.pass_eq]
      exact bisect_result ..
    case T5_ps p h =>
      unfold Region5.T5_ps
      rw [Region5.T5_ps.pass_eq]
      exact bisect_result ..
    case h4L_p p =>
      unfold Region4.h4L_p
      simp only [if_pos hs.2, if_neg hs.1, bind_pure]
      rw [Region4.h4L_p.pass_eq]
      exact Post.known' (fun l a _ => app _ _ (bisect_result ..)) (fun _ => trivial) trivial
    case h4V_p p =>
      unfold Region4.h4V_p
      simp only [if_pos hs.2, if_neg hs.1, bind_pure]
      rw [Region4.h4V_p.pass_eq]
      exact Post.known' (fun l a _ => app _ _ (bisect_result ..)) (fun _ => trivial) trivial
  exact key.elim h

/-- C26 in exact arithmetic: a solver with finite arguments that returns a finite number without that message
has solved its equation within the tolerance -/
theorem C26_exact (s : Solver) (hs : s.Iterates .ideal) (a : Num) (x y : ℝ) (h : (s.run .ideal).out = .ok a)
    (hm : ⟨.warning, s.message⟩ ∉ (s.run .ideal).logs) (ht : s.target = .fin x)
    (hy : (s.equation .ideal a).out = .ok (.fin y)) : |x - y| ≤ s.tolerance := by
  obtain ⟨z, hz, hc⟩ := (C26_tolerance .ideal s hs a h).resolve_left hm
  obtain rfl := Outcome.ok.inj (hz.symm.trans hy)
  simpa only [ht, sub_ideal, Num.fabs, gt_num, lit_ideal, fin_lt, not_lt] using hc

/-- C26: in exact arithmetic the result lies in the interval searched -/
theorem C26_bracket (s : Solver) (hs : s.Iterates .ideal) (lo hi : ℝ) (hb : s.Bracket lo hi) (a : Num)
    (h : (s.run .ideal).out = .ok a) : ∃ x ∈ Set.uIcc lo hi, a = .fin x := by
  have e1 : FP.ideal.lit 273.15 = .fin 273.15 := by rw [lit_ideal]; norm_num
  have e2 : FP.ideal.lit 1073.15 = .fin 1073.15 := by rw [lit_ideal]; norm_num
  have e3 : FP.ideal.lit 623.15 = .fin 623.15 := by rw [lit_ideal]; norm_num
  have e4 : FP.ideal.lit 2073.15 = .fin 2073.15 := by rw [lit_ideal]; norm_num
  have e5 : FP.ideal.lit 2273.15 = .fin 2273.15 := by rw [lit_ideal]; norm_num
  have e6 : FP.ideal.lit 16.5292 = .fin 16.5292 := by rw [lit_ideal]; norm_num
  have e7 : FP.ideal.lit 22.06395 = .fin 22.06395 := by rw [lit_ideal]; norm_num
  have e8 : FP.ideal.lit 1670.858218 = .fin 1670.858218 := by rw [lit_ideal]; norm_num
  have e9 : FP.ideal.lit 2087.23500164864 = .fin 2087.23500164864 := by rw [lit_ideal]; norm_num
  have e10 : FP.ideal.add (FP.ideal.lit 2563.592004) (.ofInt 5) = .fin 2568.592004 := by
    rw [lit_ideal, ofInt_eq, add_ideal]; norm_num
  have key : Post (s.run .ideal) (fun _ a => ∃ x ∈ Set.uIcc lo hi, a = .fin x) (fun _ => True) True := by
    cases s <;> simp only [Solver.run, Solver.Iterates, Solver.Bracket] at *
    case T1_prho p rho =>
      unfold Region1.T1_prho
      rw [Region1.T1_prho.pass_eq]
      refine Post.known' (fun l a ha => ?_) (fun _ => trivial) trivial
      rw [ha] at hb
      obtain ⟨rfl, hb⟩ := hb
      obtain rfl := Outcome.ok.inj hb
      rw [e1]
      exact bisect_bracket ..
    case T2_prho p rho =>
      unfold Region2.T2_prho
      rw [Region2.T2_prho.pass_eq]
      simp only [pure_bind, e6, e2]
      obtain ⟨rfl, hb⟩ := hb
      refine Post.ite (fun hp => ?_) (fun hp => ?_) <;>
      · first | rw [if_pos hp] at hb | rw [if_neg hp] at hb
        refine Post.known' (fun l a ha => ?_) (fun _ => trivial) trivial
        rw [ha] at hb
        obtain rfl := Outcome.ok.inj hb
        exact bisect_bracket ..
    case T3_prho p rho =>
      unfold Region3.T3_prho
      obtain ⟨rfl, rfl⟩ := hb
      rw [Region3.T3_prho.pass_eq, e3, e2]
      exact bisect_bracket ..
    case T5_prho p rho =>
      unfold Region5.T5_prho
      obtain ⟨rfl, rfl⟩ := hb
      rw [Region5.T5_prho.pass_eq, e4, e2]
      exact bisect_bracket ..
    case T5_ph p h =>
      unfold Region5.T5_ph
      obtain ⟨rfl, rfl⟩ := hb
      rw [Region5.T5_ph.pass_eq, e5, e2]
      exact bisect_bracket ..
    case T5_ps p h =>
      unfold Region5.T5_ps
      obtain ⟨rfl, rfl⟩ := hb
      rw [Region5.T5_ps.pass_eq, e5, e2]
      exact bisect_bracket ..
    case h4L_p p =>
      unfold Region4.h4L_p
      simp only [if_pos hs.2, if_neg hs.1, bind_pure]
      obtain ⟨rfl, rfl⟩ := hb
      rw [Region4.h4L_p.pass_eq, e8, e9]
      exact Post.known' (fun l a _ => bisect_bracket ..) (fun _ => trivial) trivial
    case h4V_p p =>
      unfold Region4.h4V_p
      simp only [if_pos hs.2, if_neg hs.1, bind_pure]
      obtain ⟨rfl, rfl⟩ := hb
      rw [Region4.h4V_p.pass_eq, e10, e9]
      exact Post.known' (fun l a _ => bisect_bracket ..) (fun _ => trivial) trivial
    case h3_pT p T =>
      unfold Region3.h3_pT
      rw [Region3.h3_pT.pass_eq]
      simp only [e7, e3, pure_bind] at hb ⊢
      refine Post.ite (fun hp => ?_) (fun hp => ?_)
      · rw [if_pos hp] at hb
        obtain ⟨Ts, hTs, hb⟩ := hb
        refine Post.known' (fun l a ha => ?_) (fun _ => trivial) trivial
        rw [ha] at hTs
        obtain rfl := Outcome.ok.inj hTs
        refine Post.ite (fun hT => ?_) (fun hT => ?_)
        · rw [if_pos hT] at hb
          refine Post.known' (fun l1 b hb1 => ?_) (fun _ => trivial) trivial
          refine Post.known' (fun l2 c hc1 => ?_) (fun _ => trivial) trivial
          rw [hb1, hc1] at hb
          obtain rfl := Outcome.ok.inj hb.1
          obtain rfl := Outcome.ok.inj hb.2
          exact bisect_bracket ..
        · rw [if_neg hT] at hb
          refine Post.known' (fun l1 b hb1 => ?_) (fun _ => trivial) trivial
          rw [hb1] at hb
          obtain rfl := Outcome.ok.inj hb.1
          refine Post.known' (fun l2 c hc1 => ?_) (fun _ => trivial) trivial
          refine Post.known' (fun l3 d hd1 => ?_) (fun _ => trivial) trivial
          obtain rfl := Outcome.ok.inj ((out_bind_of (by rw [hc1]) (by rw [hd1])).symm.trans hb.2)
          exact bisect_bracket ..
      · rw [if_neg hp] at hb
        refine Post.known' (fun l1 b hb1 => ?_) (fun _ => trivial) trivial
        rw [hb1] at hb
        obtain rfl := Outcome.ok.inj hb.1
        refine Post.known' (fun l2 c hc1 => ?_) (fun _ => trivial) trivial
        refine Post.known' (fun l3 d hd1 => ?_) (fun _ => trivial) trivial
        obtain rfl := Outcome.ok.inj ((out_bind_of (by rw [hc1]) (by rw [hd1])).symm.trans hb.2)
        exact bisect_bracket ..
  exact key.elim h

end PyX
