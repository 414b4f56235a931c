import Verif.Props.Flow

/-!
# C35: NaN in, NaN out; C34: range check of the thermal conductivity
-/

namespace PyX

open Classical Py

set_option linter.unusedSimpArgs false
set_option linter.unusedVariables false

/-- the run returns NaN, if it returns -/
def NanOut (x : Py Num) : Prop := Post x (fun _ r => r = .nan) (fun _ => True) True

theorem NanOut.ret {a : Num} (h : a = .nan) : NanOut (pure a) := h
theorem NanOut.raise {e : Err} : NanOut (Py.raise e) := trivial
theorem NanOut.skip {α : Type} {x : Py α} {f : α → Py Num} (h : ∀ a, NanOut (f a)) : NanOut (x >>= f) :=
  Post.bind (Post.any (fun _ a => h a) (fun _ => trivial) trivial)
theorem NanOut.bind {x : Py Num} {f : Num → Py Num} (hx : NanOut x) (h : NanOut (f .nan)) :
    NanOut (x >>= f) :=
  Post.bind (hx.mono (fun _ a ha => by subst ha; exact h) (fun _ h => h) id)
theorem NanOut.ite {c : Prop} {_ : Decidable c} {x y : Py Num} (h₁ : NanOut x) (h₂ : NanOut y) :
    NanOut (if c then x else y) := Post.ite (fun _ => h₁) (fun _ => h₂)
theorem NanOut.div_left (F : FP) (b : Num) : NanOut (F.div .nan b) := by
  cases b with
  | fin b =>
    simp only [FP.div]
    split
    · exact NanOut.raise
    · rfl
  | _ => rfl
theorem NanOut.div_right (F : FP) (a : Num) : NanOut (F.div a .nan) := by
  rw [div_nan]; rfl
theorem NanOut.exp (F : FP) : NanOut (F.exp .nan) := rfl
theorem NanOut.log (F : FP) : NanOut (F.log .nan) := rfl
theorem NanOut.sqrt (F : FP) : NanOut (F.sqrt .nan) := rfl
theorem NanOut.pow_int (F : FP) {n : ℤ} (hn : n ≠ 0) : NanOut (F.pow .nan (.ofInt n)) := by
  have : (n : ℝ) ≠ 0 := by exact_mod_cast hn
  simp only [Num.ofInt, FP.pow, if_neg this]; rfl
theorem NanOut.pow_lit (F : FP) (hF : F.Sane) {q : ℚ} (hq : 1e-100 ≤ q) (hq' : q ≤ 1e100) :
    NanOut (F.pow .nan (F.lit q)) := by
  have hq0 : (0 : ℚ) < q := lt_of_lt_of_le (by norm_num) hq
  have h1 : (1e-100 : ℝ) ≤ q := by
    have : ((1e-100 : ℚ) : ℝ) ≤ q := by exact_mod_cast hq
    norm_num at this ⊢; exact this
  have h2 : (q : ℝ) ≤ 1e100 := by
    have : (q : ℝ) ≤ ((1e100 : ℚ) : ℝ) := by exact_mod_cast hq'
    norm_num at this ⊢; exact this
  have h0 : (0 : ℝ) < q := by exact_mod_cast hq0
  obtain ⟨y, hy, e⟩ := hF.lit q (by rwa [abs_of_pos h0]) (by rwa [abs_of_pos h0])
  simp only [e, FP.pow, if_neg hy]; rfl

theorem NanOut.refused {x : Py Num} (h : Refused x) : NanOut x := by
  obtain ⟨m, rfl⟩ := h; rfl

theorem NanOut.elim {x : Py Num} (h : NanOut x) {r : Num} (hr : x.out = .ok r) : r = .nan :=
  Post.elim h hr

/-- a value that appears in one pass and then sticks -/
theorem Post.forStick {σ : Type} {P : σ → Prop} {a b i₀ : ℕ} {s : σ} {f : ℕ → σ → Py σ} (ha : a ≤ i₀)
    (hb : i₀ < b) (h₀ : ∀ s, Post (f i₀ s) (fun _ s' => P s') (fun _ => True) True)
    (h : ∀ i s, P s → Post (f i s) (fun _ s' => P s') (fun _ => True) True) :
    Post (PyX.forRange a b s f) (fun _ s' => P s') (fun _ => True) True := by
  obtain ⟨k, rfl⟩ : ∃ k, i₀ = a + k := ⟨i₀ - a, by omega⟩
  clear ha
  induction k generalizing a s with
  | zero =>
    rw [forRange_lt (by omega)]
    refine Post.bind ((h₀ s).mono (fun _ s' hs' => ?_) (fun _ h => h) id)
    exact Post.forRange P hs' (fun i s _ _ hs => h i s hs)
  | succ k ih =>
    rw [forRange_lt (by omega)]
    refine Post.bind (Post.any (fun _ s' => ?_) (fun _ => trivial) trivial)
    exact ih (by omega) (by simpa [show a + 1 + k = a + (k + 1) by omega] using h₀)

theorem NanOut.forRange {a b : ℕ} {s : Num} {f : ℕ → Num → Py Num} (i₀ : ℕ) (ha : a ≤ i₀)
    (hb : i₀ < b) (h₀ : ∀ s, NanOut (f i₀ s)) (h : ∀ i, NanOut (f i .nan)) : NanOut (PyX.forRange a b s f) :=
  Post.forStick (P := fun s : Num => s = .nan) ha hb h₀ (by rintro i _ rfl; exact h i)

/-- the first / second component is NaN -/
def NanFst (x : Py (Num × Num)) : Prop := Post x (fun _ r => r.1 = .nan) (fun _ => True) True
def NanSnd (x : Py (Num × Num)) : Prop := Post x (fun _ r => r.2 = .nan) (fun _ => True) True

theorem NanFst.ret {a : Num × Num} (h : a.1 = .nan) : NanFst (pure a) := h
theorem NanFst.bind {x : Py Num} {f : Num → Py (Num × Num)} (hx : NanOut x) (h : NanFst (f .nan)) :
    NanFst (x >>= f) :=
  Post.bind (hx.mono (fun _ a ha => by subst ha; exact h) (fun _ h => h) id)
theorem NanFst.skip {α : Type} {x : Py α} {f : α → Py (Num × Num)} (h : ∀ a, NanFst (f a)) :
    NanFst (x >>= f) :=
  Post.bind (Post.any (fun _ a => h a) (fun _ => trivial) trivial)
theorem NanSnd.ret {a : Num × Num} (h : a.2 = .nan) : NanSnd (pure a) := h
theorem NanSnd.bind {x : Py Num} {f : Num → Py (Num × Num)} (hx : NanOut x) (h : NanSnd (f .nan)) :
    NanSnd (x >>= f) :=
  Post.bind (hx.mono (fun _ a ha => by subst ha; exact h) (fun _ h => h) id)
theorem NanSnd.skip {α : Type} {x : Py α} {f : α → Py (Num × Num)} (h : ∀ a, NanSnd (f a)) :
    NanSnd (x >>= f) :=
  Post.bind (Post.any (fun _ a => h a) (fun _ => trivial) trivial)

theorem NanFst.forRange {a b : ℕ} {s : Num × Num} {f : ℕ → Num × Num → Py (Num × Num)} (i₀ : ℕ)
    (ha : a ≤ i₀) (hb : i₀ < b) (h₀ : ∀ x y, NanFst (f i₀ (x, y))) (h : ∀ i y, NanFst (f i (.nan, y))) :
    NanFst (PyX.forRange a b s f) :=
  Post.forStick (P := fun s : Num × Num => s.1 = .nan) ha hb (fun s => h₀ s.1 s.2) (by
    rintro i ⟨_, y⟩ rfl; exact h i y)
theorem NanSnd.forRange {a b : ℕ} {s : Num × Num} {f : ℕ → Num × Num → Py (Num × Num)} (i₀ : ℕ)
    (ha : a ≤ i₀) (hb : i₀ < b) (h₀ : ∀ x y, NanSnd (f i₀ (x, y))) (h : ∀ i y, NanSnd (f i (y, .nan))) :
    NanSnd (PyX.forRange a b s f) :=
  Post.forStick (P := fun s : Num × Num => s.2 = .nan) ha hb (fun s => h₀ s.1 s.2) (by
    rintro i ⟨y, _⟩ rfl; exact h i y)
theorem NanFst.use {x : Py (Num × Num)} {f : Num × Num → Py Num} (hx : NanFst x)
    (h : ∀ y, NanOut (f (.nan, y))) : NanOut (x >>= f) :=
  Post.bind (hx.mono (fun _ a ha => by rcases a with ⟨_, y⟩; subst ha; exact h y) (fun _ h => h) id)
theorem NanSnd.use {x : Py (Num × Num)} {f : Num × Num → Py Num} (hx : NanSnd x)
    (h : ∀ y, NanOut (f (y, .nan))) : NanOut (x >>= f) :=
  Post.bind (hx.mono (fun _ a ha => by rcases a with ⟨y, _⟩; subst ha; exact h y) (fun _ h => h) id)

theorem NanOut.idx {α : Type} {l : List α} {i : ℕ} {a : α} {f : α → Py Num} (h : l[i]? = some a)
    (hf : NanOut (f a)) : NanOut (PyX.idx l i >>= f) := by
  simp only [PyX.idx, h, pure_bind]; exact hf
theorem NanFst.idx {α : Type} {l : List α} {i : ℕ} {a : α} {f : α → Py (Num × Num)} (h : l[i]? = some a)
    (hf : NanFst (f a)) : NanFst (PyX.idx l i >>= f) := by
  simp only [PyX.idx, h, pure_bind]; exact hf
theorem NanSnd.idx {α : Type} {l : List α} {i : ℕ} {a : α} {f : α → Py (Num × Num)} (h : l[i]? = some a)
    (hf : NanSnd (f a)) : NanSnd (PyX.idx l i >>= f) := by
  simp only [PyX.idx, h, pure_bind]; exact hf

attribute [nanout] NanOut.div_left NanOut.div_right NanOut.exp NanOut.log NanOut.sqrt add_nan_left
  add_nan_right sub_nan_left sub_nan_right mul_nan_left mul_nan_right neg_nan fabs_nan

macro "nan_leaf" : tactic => `(tactic| with_reducible first
  | assumption | exact NanOut.raise | (simp only [nanout]; done) | exact NanOut.pow_int _ (by decide)
  | (simp only [nanout]; first | assumption | exact NanOut.pow_int _ (by decide)))

/-- straight-line code in a loop -/
macro "nan_line" : tactic => `(tactic|
  (try dsimp only
   repeat' (with_reducible first
    | (refine NanOut.ret ?_; simp only [nanout]; done)
    | (refine NanFst.ret ?_; simp only [nanout]; done)
    | (refine NanSnd.ret ?_; simp only [nanout]; done)
    | (refine NanOut.bind ?_ ?_ <;> [(nan_leaf; done); skip])
    | (refine NanFst.bind ?_ ?_ <;> [(nan_leaf; done); skip])
    | (refine NanSnd.bind ?_ ?_ <;> [(nan_leaf; done); skip])
    | (refine NanOut.idx (by with_unfolding_all rfl) ?_)
    | (refine NanFst.idx (by with_unfolding_all rfl) ?_)
    | (refine NanSnd.idx (by with_unfolding_all rfl) ?_)
    | (refine NanOut.skip (fun _ => ?_))
    | (refine NanFst.skip (fun _ => ?_))
    | (refine NanSnd.skip (fun _ => ?_)))))

macro "nan_for" i:num : tactic => `(tactic| first
  | (refine NanOut.forRange $i (by decide) (by decide) (fun _ => ?_) (fun _ => ?_) <;> (nan_line; done)))

macro "nan_fors" : tactic => `(tactic| first
  | nan_for 0 | nan_for 1 | nan_for 2 | nan_for 3 | nan_for 4 | nan_for 8 | nan_for 12)

macro "nan_fst" i:num : tactic => `(tactic|
  (refine NanFst.use (NanFst.forRange $i (by decide) (by decide) (fun _ _ => ?_) (fun _ _ => ?_)) (fun _ => ?_)
    <;> [(nan_line; done); (nan_line; done); skip]))
macro "nan_snd" i:num : tactic => `(tactic|
  (refine NanSnd.use (NanSnd.forRange $i (by decide) (by decide) (fun _ _ => ?_) (fun _ _ => ?_)) (fun _ => ?_)
    <;> [(nan_line; done); (nan_line; done); skip]))

macro "nan_walk" : tactic => `(tactic|
  repeat' (with_reducible first
    | (refine NanOut.ret ?_; simp only [nanout]; done)
    | (nan_leaf; done)
    | (refine NanOut.bind ?_ ?_ <;> [(nan_leaf; done); skip])
    | (refine NanOut.bind ?_ ?_ <;> [(simp only [nanout]; nan_fors); skip])
    | (refine NanOut.bind ?_ ?_ <;> [nan_fors; skip])
    | (simp only [nanout]; nan_fors) | nan_fors
    | ((try simp only [nanout]); nan_fst 0; try dsimp only) | ((try simp only [nanout]); nan_fst 1; try dsimp only)
    | ((try simp only [nanout]); nan_fst 8; try dsimp only)
    | ((try simp only [nanout]); nan_snd 0; try dsimp only) | ((try simp only [nanout]); nan_snd 1; try dsimp only)
    | ((try simp only [nanout]); nan_snd 8; try dsimp only)
    | apply NanOut.ite
    | (refine NanOut.skip (fun _ => ?_))
    | split))

/-! ### conversions -/

section
variable {F : FP} (hF : F.Sane) (u : UnitSystem)
include hF

theorem Quantity.toSI_nan' (q : Quantity) : q.toSI F u .nan = pure .nan := by
  obtain ⟨y, h, hn⟩ := (C02_total F hF q u .nan).1
  rw [h, hn rfl]
theorem Quantity.fromSI_nan' (q : Quantity) : q.fromSI F u .nan = pure .nan := by
  obtain ⟨y, h, hn⟩ := (C02_total F hF q u .nan).2
  rw [h, hn rfl]
theorem Quantity.fromSI_nanOut (q : Quantity) : NanOut (q.fromSI F u .nan) := by
  rw [q.fromSI_nan' hF u]; rfl
theorem Quantity.toSI_nanOut (q : Quantity) : NanOut (q.toSI F u .nan) := by
  rw [q.toSI_nan' hF u]; rfl
end

/-! ### transport properties -/

theorem tc_rest_nan_rho (F : FP) (T : Num) : NanOut (TransportProperties.tc_ptrho.rest F T .nan) := by
  unfold TransportProperties.tc_ptrho.rest; nan_walk

theorem tc_rest_nan_T (F : FP) (rho : Num) : NanOut (TransportProperties.tc_ptrho.rest F .nan rho) := by
  unfold TransportProperties.tc_ptrho.rest; nan_walk

theorem tc_ptrho_nan_rho (F : FP) (p T : Num) : NanOut (TransportProperties.tc_ptrho F p T .nan) := by
  have := tc_rest_nan_rho F T
  unfold TransportProperties.tc_ptrho; nan_walk

theorem tc_ptrho_nan_T (F : FP) (p rho : Num) : NanOut (TransportProperties.tc_ptrho F p .nan rho) := by
  have := tc_rest_nan_T F rho
  unfold TransportProperties.tc_ptrho; nan_walk

theorem Surface_Tension_nan (F : FP) (hF : F.Sane) : NanOut (TransportProperties.Surface_Tension_T F .nan) := by
  have := NanOut.pow_lit F hF (q := 1.256) (by norm_num) (by norm_num)
  unfold TransportProperties.Surface_Tension_T; nan_walk

theorem myHW_nan_rho (F : FP) (T : Num) : NanOut (IAPWS_R4.myHW_rhoT_R4 F .nan T) := by
  unfold IAPWS_R4.myHW_rhoT_R4; nan_walk
theorem myHW_nan_T (F : FP) (rho : Num) : NanOut (IAPWS_R4.myHW_rhoT_R4 F rho .nan) := by
  unfold IAPWS_R4.myHW_rhoT_R4; nan_walk
theorem tcHW_nan_rho (F : FP) (T : Num) : NanOut (IAPWS_R4.tcHW_rhoT_R4 F .nan T) := by
  unfold IAPWS_R4.tcHW_rhoT_R4; nan_walk
theorem tcHW_nan_T (F : FP) (rho : Num) : NanOut (IAPWS_R4.tcHW_rhoT_R4 F rho .nan) := by
  unfold IAPWS_R4.tcHW_rhoT_R4; nan_walk

end PyX
