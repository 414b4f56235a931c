import Verif.Props.Solvers

/-!
# Bisection converges in exact arithmetic

Where the equation is one-to-one and Lipschitz on the interval searched, and takes the value asked for, the loop shared by the
solvers stops at a value that meets the tolerance, and logs nothing. The first pass is different from the others: it compares
the value at the midpoint with a made-up starting value, and gives up if they are equal.
-/

namespace PyX

open Classical Py Num

section
variable {c : Num → Prop} {f : Num → Py Num} {up : Num → Prop} {msg : String} {g : ℝ → ℝ} {lo hi xs tol L : ℝ}

theorem mid_ideal (a b : ℝ) : FP.ideal.mid (.fin a) (.fin b) = .fin ((a + b) / 2) := rfl

/-- the passes after the first -/
theorem bisect_rest (hf : ∀ x ∈ Set.Icc lo hi, f (.fin x) = pure (.fin (g x))) (hg : Set.InjOn g (Set.Icc lo hi))
    (hc : ∀ r : ℝ, c (.fin r) ↔ tol < |g xs - r|)
    (hu : ∀ x ∈ Set.Icc lo hi, up (.fin (g x)) → xs ≤ x) (hd : ∀ x ∈ Set.Icc lo hi, ¬ up (.fin (g x)) → x ≤ xs)
    (hL : ∀ x ∈ Set.Icc lo hi, |g xs - g x| ≤ L * |xs - x|) (hL0 : 0 ≤ L) (n : ℕ) :
    ∀ a b x, lo ≤ a → a < b → b ≤ hi → a ≤ xs → xs ≤ b → (x = a ∨ x = b) → L * (b - a) ≤ tol * 2 ^ n →
      ∃ x' ∈ Set.Icc lo hi, |g xs - g x'| ≤ tol ∧
        (whileLoop (bisectPass .ideal c f up msg) (some (.fin x), .fin (g x), .fin b, .fin a) >>= fun s => getVar s.1) = pure (.fin x') := by
  induction n with
  | zero =>
    intro a b x h1 h2 h3 h4 h5 hx hn
    have m : x ∈ Set.Icc lo hi := by rcases hx with rfl | rfl <;> constructor <;> linarith
    have d : |xs - x| ≤ b - a := by rcases hx with rfl | rfl <;> rw [abs_le] <;> constructor <;> linarith
    have e : |g xs - g x| ≤ tol := (hL x m).trans ((mul_le_mul_of_nonneg_left d hL0).trans (by simpa using hn))
    refine ⟨x, m, e, ?_⟩
    rw [whileLoop_eq]
    simp only [bisectPass, if_neg (fun h => absurd ((hc _).1 h) (not_lt.2 e)), pure_bind, getVar]
  | succ n ih =>
    intro a b x h1 h2 h3 h4 h5 hx hn
    have m : x ∈ Set.Icc lo hi := by rcases hx with rfl | rfl <;> constructor <;> linarith
    by_cases hs : tol < |g xs - g x|
    · have m' : (a + b) / 2 ∈ Set.Icc lo hi := by constructor <;> linarith
      have ne : ¬ Num.feq (.fin (g x)) (.fin (g ((a + b) / 2))) := fun h => by
        have := hg m m' h
        rcases hx with rfl | rfl <;> linarith
      have hn' : L * ((b - a) / 2) ≤ tol * 2 ^ n := by rw [pow_succ] at hn; linarith
      rw [whileLoop_eq]
      simp only [bisectPass, if_pos ((hc _).2 hs), FP.div_two, mid_ideal, pure_bind, hf _ m', if_neg ne]
      by_cases hup : up (.fin (g ((a + b) / 2)))
      · simp only [if_pos hup, pure_bind]
        exact ih a _ _ h1 (by linarith) (by linarith) h4 (hu _ m' hup) (.inr rfl) (by linarith)
      · simp only [if_neg hup, pure_bind]
        exact ih _ b _ (by linarith) (by linarith) h3 (hd _ m' hup) h5 (.inl rfl) (by linarith)
    · refine ⟨x, m, not_lt.1 hs, ?_⟩
      rw [whileLoop_eq]
      simp only [bisectPass, if_neg (fun h => absurd ((hc _).1 h) hs), pure_bind, getVar]

/-- the whole loop, unless the value at the first midpoint happens to be the starting value `r` -/
theorem bisect_converges (hf : ∀ x ∈ Set.Icc lo hi, f (.fin x) = pure (.fin (g x))) (hg : Set.InjOn g (Set.Icc lo hi))
    (hc : ∀ r : ℝ, c (.fin r) ↔ tol < |g xs - r|)
    (hu : ∀ x ∈ Set.Icc lo hi, up (.fin (g x)) → xs ≤ x) (hd : ∀ x ∈ Set.Icc lo hi, ¬ up (.fin (g x)) → x ≤ xs)
    (hL : ∀ x ∈ Set.Icc lo hi, |g xs - g x| ≤ L * |xs - x|) (hL0 : 0 ≤ L) (ht : 0 < tol) (hlo : lo < hi)
    (hx : xs ∈ Set.Icc lo hi) {r : ℝ} (hr : tol < |g xs - r|) (hm : r ≠ g ((lo + hi) / 2)) :
    ∃ x' ∈ Set.Icc lo hi, |g xs - g x'| ≤ tol ∧
      (whileLoop (bisectPass .ideal c f up msg) (none, .fin r, .fin hi, .fin lo) >>= fun s => getVar s.1) = pure (.fin x') := by
  obtain ⟨n, hn⟩ := pow_unbounded_of_one_lt (L * (hi - lo) / tol) one_lt_two
  rw [div_lt_iff₀ ht] at hn
  have m' : (lo + hi) / 2 ∈ Set.Icc lo hi := by constructor <;> linarith
  have hL1 : L * ((hi - lo) / 2) ≤ tol * 2 ^ n := by
    have : 0 ≤ L * (hi - lo) := mul_nonneg hL0 (by linarith)
    linarith
  have ne : ¬ Num.feq (.fin r) (.fin (g ((lo + hi) / 2))) := fun h => hm h
  rw [whileLoop_eq]
  simp only [bisectPass, if_pos ((hc _).2 hr), FP.div_two, mid_ideal, pure_bind, hf _ m', if_neg ne]
  by_cases hup : up (.fin (g ((lo + hi) / 2)))
  · simp only [if_pos hup, pure_bind]
    exact bisect_rest hf hg hc hu hd hL hL0 n lo _ _ le_rfl (by linarith) (by linarith) hx.1 (hu _ m' hup) (.inr rfl) (by linarith)
  · simp only [if_neg hup, pure_bind]
    exact bisect_rest hf hg hc hu hd hL hL0 n _ hi _ (by linarith) (by linarith) le_rfl (hd _ m' hup) hx.2 (.inl rfl) (by linarith)

/-- if the value at the first midpoint is the starting value, the loop gives up there -/
theorem bisect_gives_up (hf : f (.fin ((lo + hi) / 2)) = pure (.fin (g ((lo + hi) / 2)))) (hc : c (.fin (g ((lo + hi) / 2)))) :
    (whileLoop (bisectPass .ideal c f up msg) (none, .fin (g ((lo + hi) / 2)), .fin hi, .fin lo) >>= fun s => getVar s.1) =
      ⟨[⟨.warning, msg⟩], .ok (.fin ((lo + hi) / 2))⟩ := by
  have e : Num.feq (.fin (g ((lo + hi) / 2))) (.fin (g ((lo + hi) / 2))) := rfl
  rw [whileLoop_eq]
  simp only [bisectPass, if_pos hc, FP.div_two, mid_ideal, pure_bind, hf, if_pos e]
  rfl
end

end PyX
