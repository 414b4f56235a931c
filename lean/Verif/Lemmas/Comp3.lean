import Verif.Lemmas.Comp

/-!
# Certificates with conditions on several pairs of quantities

The checker of `Comp.lean` knows conditions on one pair of quantities. Region 3 is bounded by conditions on pressure and
temperature, on pressure and enthalpy, and on density and temperature; here each condition brings its own pair. The tolerance can
also be relative, `tol/x`.
-/

namespace PyX.Kron

/-- the condition `0 ≤ e (c₁ (x, y), c₂ (x, y) + cl log x)` -/
structure Con where
  e : E
  c1 : Quot
  c2 : Quot
  cl : Lg

def Con.Holds (k : Con) (x y : ℝ) : Prop := 0 ≤ k.e.eval (k.c1.eval x y) (k.c2.eval x y + k.cl.coef * Real.log x)

/-- the job with this condition only -/
def Con.job (J : Job) (k : Con) : Job := ⟨J.f1, J.f2, J.B, J.g, J.lg, J.w, [k.e], k.c1, k.c2, k.cl⟩

/-- the condition which always holds -/
def Con.triv : Con := ⟨cst 0, q0, q0, ⟨false, 0, 1⟩⟩

theorem Con.triv_holds (x y : ℝ) : Con.triv.Holds x y := by
  simp [Con.triv, Con.Holds, eval_cst]

def conN : List Con → ℕ → Con
  | [], _ => Con.triv
  | e :: _, 0 => e
  | _ :: t, n + 1 => conN t n

theorem conN_holds {l : List Con} {x y : ℝ} (h : ∀ k ∈ l, k.Holds x y) (i : ℕ) : (conN l i).Holds x y := by
  induction l generalizing i with
  | nil => exact Con.triv_holds x y
  | cons e t ih =>
    cases i with
    | zero => exact h e (List.mem_cons_self ..)
    | succ i => exact ih (fun e he => h e (List.mem_cons_of_mem _ he)) i

/-- `checkC` with separate conditions, without limits, and with a tolerance relative to `1/x` if `rel` -/
noncomputable def checkR (J : Job) (K : List Con) (rel : Bool) (D : Digs) (en ed : ℕ) (t : CTree) :
    ℕ → ℕ → ℕ → ℕ → ℕ → ℕ → Bool :=
  CTree.rec (motive := fun _ => ℕ → ℕ → ℕ → ℕ → ℕ → ℕ → Bool)
    (fun z a b A c d C => z.check J D (cond rel (Nat.mul en A) en) (cond rel (Nat.mul ed (Nat.add a b)) ed) a b A c d C)
    (fun _ _ _ _ _ _ => false)
    (fun z i g k a b A c d C => z.checkOut ((conN K i).job J) D 0 g k a b A c d C)
    (fun _ _ l r a b A c d C => and (l (Nat.sub (Nat.mul 2 a) b) b (Nat.mul 2 A) c d C) (r (Nat.add (Nat.mul 2 a) b) b (Nat.mul 2 A) c d C))
    (fun _ _ l r a b A c d C => and (l a b A (Nat.sub (Nat.mul 2 c) d) d (Nat.mul 2 C)) (r a b A (Nat.add (Nat.mul 2 c) d) d (Nat.mul 2 C))) t

theorem checkR_sx {J : Job} {K : List Con} {rel : Bool} {D : Digs} {en ed : ℕ} {l r : CTree} {a b A c d C : ℕ}
    (hl : checkR J K rel D en ed l (Nat.sub (Nat.mul 2 a) b) b (Nat.mul 2 A) c d C = true)
    (hr : checkR J K rel D en ed r (Nat.add (Nat.mul 2 a) b) b (Nat.mul 2 A) c d C = true) :
    checkR J K rel D en ed (.sx l r) a b A c d C = true := by
  change and (checkR J K rel D en ed l (Nat.sub (Nat.mul 2 a) b) b (Nat.mul 2 A) c d C)
      (checkR J K rel D en ed r (Nat.add (Nat.mul 2 a) b) b (Nat.mul 2 A) c d C) = true
  rw [hl, hr]; rfl

theorem checkR_sy {J : Job} {K : List Con} {rel : Bool} {D : Digs} {en ed : ℕ} {l r : CTree} {a b A c d C : ℕ}
    (hl : checkR J K rel D en ed l a b A (Nat.sub (Nat.mul 2 c) d) d (Nat.mul 2 C) = true)
    (hr : checkR J K rel D en ed r a b A (Nat.add (Nat.mul 2 c) d) d (Nat.mul 2 C) = true) :
    checkR J K rel D en ed (.sy l r) a b A c d C = true := by
  change and (checkR J K rel D en ed l a b A (Nat.sub (Nat.mul 2 c) d) d (Nat.mul 2 C))
      (checkR J K rel D en ed r a b A (Nat.add (Nat.mul 2 c) d) d (Nat.mul 2 C)) = true
  rw [hl, hr]; rfl

theorem checkR_sound {J : Job} (hw : J.w = 0) {K : List Con} {rel : Bool} {D : Digs} (hfy : 1 ≤ D.fy) (hBy : 1 ≤ D.By)
    (hry : 1 ≤ D.ry) {en ed : ℕ} (hed : 1 ≤ ed) (tree : CTree) {a b A c d C : ℕ} (hb : b < a) (hd : d ≤ c) (hA : 0 < A)
    (hC : 0 < C) (h : checkR J K rel D en ed tree a b A c d C = true) {x y : ℝ} (hcon : ∀ k ∈ K, k.Holds x y)
    (hr : InRect a b A c d C x y) :
    |J.B.eval (J.v1 x y) (J.v2 x y) - J.g.eval x y| ≤ en / ed * cond rel (1 / x) 1 := by
  induction tree generalizing a b A c d C with
  | leaf z =>
    change z.check J D (cond rel (Nat.mul en A) en) (cond rel (Nat.mul ed (Nat.add a b)) ed) a b A c d C = true at h
    cases rel with
    | false => simpa [hw] using cert_sound hfy hBy hry hed hb.le hA h hr
    | true =>
      have hab : 0 < a + b := by omega
      have k := cert_sound hfy hBy hry (ed := ed * (a + b)) (Nat.mul_pos hed hab) hb.le hA h hr
      rw [hw, pow_zero, mul_one] at k
      refine k.trans ?_
      have h1 := abs_le.1 hr.1
      have hA' : (0 : ℝ) < A := by exact_mod_cast hA
      have hb' : (b : ℝ) < a := by exact_mod_cast hb
      have hx : 0 < x := by
        by_contra hx
        have := mul_nonneg hA'.le (sub_nonneg.2 (not_lt.1 hx))
        linarith
      have hab' : (0 : ℝ) < a + b := by exact_mod_cast hab
      have hed' : (0 : ℝ) < ed := by exact_mod_cast hed
      have hen : (0 : ℝ) ≤ en := Nat.cast_nonneg _
      simp only [cond_true, Nat.mul_eq]
      push_cast
      rw [div_mul_div_comm, mul_one, div_le_div_iff₀ (by positivity) (by positivity)]
      have : A * x ≤ a + b := by linarith
      have := mul_le_mul_of_nonneg_left this (mul_nonneg hen hed'.le)
      nlinarith
  | out z i g k =>
    refine absurd ?_ (out_sound (J := (conN K i).job J) hfy hBy hA h hr)
    intro e he
    obtain rfl : e = (conN K i).e := by simpa [Con.job] using he
    exact conN_holds hcon i
  | skip => exact absurd (show false = true from h) (by simp)
  | sx l r ihl ihr =>
    change and (checkR J K rel D en ed l (Nat.sub (Nat.mul 2 a) b) b (Nat.mul 2 A) c d C)
      (checkR J K rel D en ed r (Nat.add (Nat.mul 2 a) b) b (Nat.mul 2 A) c d C) = true at h
    simp only [Bool.and_eq_true, Nat.sub_eq, Nat.mul_eq, Nat.add_eq] at h
    have h1 := abs_le.1 hr.1
    rcases le_total (A * x) a with hm | hm
    · refine ihl (by omega) hd (by omega) hC h.1 ⟨?_, hr.2⟩
      rw [Nat.cast_sub (by omega), abs_le]; push_cast
      constructor <;> linarith
    · refine ihr (by omega) hd (by omega) hC h.2 ⟨?_, hr.2⟩
      rw [abs_le]; push_cast
      constructor <;> linarith
  | sy l r ihl ihr =>
    change and (checkR J K rel D en ed l a b A (Nat.sub (Nat.mul 2 c) d) d (Nat.mul 2 C))
      (checkR J K rel D en ed r a b A (Nat.add (Nat.mul 2 c) d) d (Nat.mul 2 C)) = true at h
    simp only [Bool.and_eq_true, Nat.sub_eq, Nat.mul_eq, Nat.add_eq] at h
    have h1 := abs_le.1 hr.2
    rcases le_total (C * y) c with hm | hm
    · refine ihl hb (by omega) hA (by omega) h.1 ⟨hr.1, ?_⟩
      rw [Nat.cast_sub (by omega), abs_le]; push_cast
      constructor <;> linarith
    · refine ihr hb (by omega) hA (by omega) h.2 ⟨hr.1, ?_⟩
      rw [abs_le]; push_cast
      constructor <;> linarith

end PyX.Kron
