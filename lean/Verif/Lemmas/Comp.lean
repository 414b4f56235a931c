import Verif.Lemmas.Kron
import Verif.Lemmas.LogCert

/-!
# A checker for the accuracy of a backward equation

A backward equation `B` is to undo forward equations `f₁`, `f₂`: the value `B (f₁ (x, y)) (f₂ (x, y))` has to lie within a
tolerance of a target `g (x, y)`. All four are quotients of polynomials of high degree, so that the composition is out of
reach of the checker of `Kron.lean`. On a small rectangle, however, each is close to a polynomial of low degree, and these are
easily composed. A certificate gives the polynomials `q₁`, `q₂`, `r` that approximate `f₁`, `f₂`, `B`; the checker
verifies that they do and bounds `r (q₁, q₂) - g`.

The second of the forward equations may also contain a multiple of the logarithm of `x`, approximated according to `LogCert.lean`.

Here rectangles are given by their centre `(a/A, c/C)` and half their sides `b/A`, `d/C`.
-/

namespace PyX.Kron

open Finset

/-! ## Bounds for the absolute value -/

noncomputable def small3 (V W dx dy B : ℕ) (x : Four) : Bool :=
  Nat.ble (Nat.add x.2.1 x.2.2) (Nat.add B (Nat.mul 2 (minRowR V W dy dx x.1.1 x.1.2)))

noncomputable def small2 (mx my a b A c d C : ℕ) (e : E) (B S : ℕ) : Bool :=
  let V := Nat.pow 2 (Nat.succ (Nat.log2 S))
  let dy := digyR my e
  let dx := digxR mx e
  let W := Nat.pow V dy
  and (Nat.ble (Nat.succ S) V) (small3 V W dx dy B (runR mx my V W a b A c d C e))

/-- the value on the rectangle, times `A^kx C^ky`, is at most `B` in absolute value -/
noncomputable def small (mx my : ℕ) (e : E) (a b A c d C B : ℕ) : Bool :=
  and (Nat.ble 1 A) (and (Nat.ble 1 C) (and (okR e) (and (atR a A c C e)
    (small2 mx my a b A c d C e B (Nat.add (totR a b A c d C e).sum (peakR a b A c d C e))))))

/-! ## Certificates -/

/-- a constant -/
def cst (n : ℕ) : E := .mono [(n, 0, 0)] [] 0 0

noncomputable def addP (e f : E) : E :=
  .add (.pad (Nat.sub (kxR f) (kxR e)) (Nat.sub (kyR f) (kyR e)) e) (.pad (Nat.sub (kxR e) (kxR f)) (Nat.sub (kyR e) (kyR f)) f)
noncomputable def subP (e f : E) : E :=
  .sub (.pad (Nat.sub (kxR f) (kxR e)) (Nat.sub (kyR f) (kyR e)) e) (.pad (Nat.sub (kxR e) (kxR f)) (Nat.sub (kyR e) (kyR f)) f)

/-- a polynomial in two variables, with bounds for its degrees -/
structure Poly where
  q : Rows
  DX : ℕ
  DY : ℕ

noncomputable def Poly.ok (q : Poly) : Bool := okRows (Nat.succ q.DY) q.q (Nat.succ q.DX)

/-- the polynomial of `A x - a` and `C y - c` -/
def Poly.loc (q : Poly) (a A c C : ℕ) : E := .loc a A c C q.q q.DX q.DY

/-- `g^m` times the sum of `n (f/g)^J` -/
noncomputable def subRow (g : ℕ) (f : E) (r : List Two) : ℕ → E :=
  List.rec (motive := fun _ => ℕ → E) (fun _ => .mono [] [] 0 0)
    (fun c t ih m => .add (.mono [(Nat.mul c.1 (Nat.pow g m), 0, 0)] [(Nat.mul c.2 (Nat.pow g m), 0, 0)] 0 0)
      (List.rec (motive := fun _ => E) (.mono [] [] 0 0) (fun _ _ _ => .mul f (ih (Nat.sub m 1))) t)) r

/-- `g^(m + DY)` times the sum of `n (e/g)^I (f/g)^J`, where neither `e` nor `f` are padded -/
noncomputable def subRows (g DY : ℕ) (e f : E) (q : Rows) : ℕ → E :=
  List.rec (motive := fun _ => ℕ → E) (fun _ => .mono [] [] 0 0)
    (fun r t ih m => .add (subRow g f r (Nat.add m DY))
      (List.rec (motive := fun _ => E) (.mono [] [] 0 0) (fun _ _ _ => .mul e (ih (Nat.sub m 1))) t)) q

noncomputable def Poly.subst (q : Poly) (g : ℕ) (e f : E) : E := subRows g q.DY e f q.q q.DX

/-- bounds for a polynomial and its derivative where `|y| ≤ d` -/
noncomputable def rowSize (d : ℕ) (r : List Two) : Two :=
  List.rec (motive := fun _ => Two) (0, 0)
    (fun c _ ih => (Nat.add (Nat.add c.1 c.2) (Nat.mul d ih.1), Nat.add ih.1 (Nat.mul d ih.2))) r

/-- bounds for a polynomial and its partial derivatives where `|x| ≤ b` and `|y| ≤ d` -/
noncomputable def Poly.size (q : Poly) (b d : ℕ) : ℕ :=
  List.rec (motive := fun _ => ℕ) 0 (fun r _ ih => Nat.add (rowSize d r).1 (Nat.mul b ih)) q.q
noncomputable def rowsLip (b d : ℕ) (q : Rows) : Two :=
  List.rec (motive := fun _ => Two) (0, 0)
    (fun r _ ih => (Nat.add (rowSize d r).1 (Nat.mul b ih.1), Nat.add ih.1 (Nat.mul b ih.2))) q
noncomputable def Poly.lipX (q : Poly) (b d : ℕ) : ℕ := (rowsLip b d q.q).2
noncomputable def Poly.lipY (q : Poly) (b d : ℕ) : ℕ :=
  List.rec (motive := fun _ => ℕ) 0 (fun r _ ih => Nat.add (rowSize d r).2 (Nat.mul b ih)) q.q

/-- a quotient; the denominator is a sum of monomials -/
structure Quot where
  n : E
  l : List Mono
  KX : ℕ
  KY : ℕ

noncomputable def Quot.eval (q : Quot) (x y : ℝ) : ℝ := q.n.eval x y / evalN q.l x y

/-- lower bound for the denominator, times `A^KX C^KY` -/
noncomputable def Quot.low (q : Quot) (a b A c d C : ℕ) : ℕ := packR (pw1 (Nat.sub a b) 0 A q.KX) (pw1 (Nat.sub c d) 0 C q.KY) q.l

noncomputable def closeE (u : E) (g : ℕ) (q : Quot) : E := subP (.mul (.mono q.l [] q.KX q.KY) u) (.mul (cst g) q.n)

/-- on the rectangle, `u` lies within `k` of `g` times the quotient -/
noncomputable def close (mx my : ℕ) (u : E) (g : ℕ) (q : Quot) (k a b A c d C : ℕ) : Bool :=
  and (or (Nat.beq q.KX 0) (Nat.ble b a)) (and (or (Nat.beq q.KY 0) (Nat.ble d c)) (and (okTermsR q.KX q.KY q.l) (and (Nat.ble 1 (q.low a b A c d C))
    (small mx my (closeE u g q) a b A c d C
      (Nat.mul (Nat.mul k (q.low a b A c d C))
        (Nat.mul (Nat.pow A (Nat.sub (kxR (closeE u g q)) q.KX)) (Nat.pow C (Nat.sub (kyR (closeE u g q)) q.KY))))))))

/-- no logarithm -/
def lc0 : LC := ⟨0, 0, 0, []⟩

/-- a multiple `± n/d` of the logarithm -/
structure Lg where
  neg : Bool
  n : ℕ
  d : ℕ

noncomputable def Lg.coef (l : Lg) : ℝ := cond l.neg (-1) 1 * (l.n / l.d)

/-- no condition -/
def q0 : Quot := ⟨cst 0, [(1, 0, 0)], 0, 0⟩

/-- what is to be checked: `B (v₁, v₂)` is near `g (x, y)`, where `v₁ = f₁ (x, y)` and `v₂` is `f₂ (x, y)` plus a multiple of
`log x`; only points with `e (u₁, u₂) ≥ 0` for all `e` in `con` matter, where `u₁ = c₁ (x, y)` and likewise for `u₂`. The
tolerance is a multiple of `x^w`. -/
structure Job where
  f1 : Quot
  f2 : Quot
  B : Quot
  g : Quot
  lg : Lg
  w : ℕ
  con : List E
  c1 : Quot
  c2 : Quot
  cl : Lg

noncomputable def Job.v1 (J : Job) (x y : ℝ) : ℝ := J.f1.eval x y
noncomputable def Job.v2 (J : Job) (x y : ℝ) : ℝ := J.f2.eval x y + J.lg.coef * Real.log x
noncomputable def Job.u1 (J : Job) (x y : ℝ) : ℝ := J.c1.eval x y
noncomputable def Job.u2 (J : Job) (x y : ℝ) : ℝ := J.c2.eval x y + J.cl.coef * Real.log x

/-- the approximations on one rectangle: `q₁/S` of `A₁ f₁ - a₁` within `d₁/S`, likewise for `f₂`, and `r/R` of `B` within
`k/R`, in terms of `A₁ v₁ - a₁` and `A₂ v₂ - a₂`, for `|A₁ v₁ - a₁| ≤ b₁` and `|A₂ v₂ - a₂| ≤ b₂`; `m/(R S^deg)` bounds the
difference between `r (q₁, q₂)` and the target -/
structure Cert where
  a1 : ℕ
  b1 : ℕ
  A1 : ℕ
  a2 : ℕ
  b2 : ℕ
  A2 : ℕ
  q1 : Poly
  q2 : Poly
  S : ℕ
  d1 : ℕ
  d2 : ℕ
  r : Poly
  R : ℕ
  k : ℕ
  m : ℕ
  lc : LC

/-- the sizes of the digit expansions in the checks of `f₁` and `f₂`, of `B`, and of the composition -/
structure Digs where
  fx : ℕ
  fy : ℕ
  Bx : ℕ
  By : ℕ
  rx : ℕ
  ry : ℕ

/-- the approximations are what they claim to be -/
noncomputable def Cert.checkF (q : Poly) (S ai bi Ai di : ℕ) (f : Quot) (mx my a b A c d C : ℕ) : Bool :=
  and q.ok (and (Nat.ble (Nat.add (q.size b d) di) (Nat.mul bi S))
    (close mx my (.add (q.loc a A c C) (cst (Nat.mul S ai))) (Nat.mul S Ai) f di a b A c d C))

/-- the coefficients of `± (c₁ u - c₂ u² + …)` -/
noncomputable def altRows (cs : List ℕ) : Bool → Rows :=
  List.rec (motive := fun _ => Bool → Rows) (fun _ => [])
    (fun c _ ih s => List.cons [cond s (0, c) (c, 0)] (ih (not s))) cs

/-- the polynomial as an expression in `A x - a`, with the opposite sign if `s` -/
noncomputable def LC.poly (z : LC) (s : Bool) : Poly :=
  ⟨[cond s ((Int.neg z.c0).toNat, z.c0.toNat) (z.c0.toNat, (Int.neg z.c0).toNat)] :: altRows z.cs s, z.cs.length, 0⟩

/-- the same as `checkF`, for a function which also contains a logarithm -/
noncomputable def Cert.checkL (q : Poly) (S ai bi Ai di : ℕ) (f : Quot) (l : Lg) (z : LC) (mx my a b A c d C : ℕ) : Bool :=
  and q.ok (and (Nat.ble (Nat.add (q.size b d) di) (Nat.mul bi S)) (and (Nat.ble 1 l.d) (and (Nat.ble (Nat.succ b) a)
    (and (Nat.ble (logErr (Nat.mul (Nat.mul S Ai) l.n) l.d a b A z) di) (and (z.poly l.neg).ok
      (close mx my (.add (.sub (q.loc a A c C) ((z.poly l.neg).loc a A c C)) (cst (Nat.mul S ai)))
        (Nat.mul S Ai) f (Nat.sub di (logErr (Nat.mul (Nat.mul S Ai) l.n) l.d a b A z)) a b A c d C))))))

noncomputable def Cert.checkF2 (q : Poly) (S ai bi Ai di : ℕ) (f : Quot) (l : Lg) (z : LC) (mx my a b A c d C : ℕ) : Bool :=
  cond (Nat.beq l.n 0) (Cert.checkF q S ai bi Ai di f mx my a b A c d C) (Cert.checkL q S ai bi Ai di f l z mx my a b A c d C)

noncomputable def Cert.checkB (z : Cert) (B : Quot) (mx my : ℕ) : Bool :=
  and z.r.ok (close mx my (z.r.loc z.a1 z.A1 z.a2 z.A2) z.R B z.k z.a1 z.b1 z.A1 z.a2 z.b2 z.A2)

/-- the composition -/
noncomputable def Cert.comp (z : Cert) (a A c C : ℕ) : E :=
  z.r.subst z.S (z.q1.loc a A c C) (z.q2.loc a A c C)

noncomputable def Cert.checkG (z : Cert) (g : Quot) (mx my a b A c d C : ℕ) : Bool :=
  close mx my (z.comp a A c C) (Nat.mul z.R (Nat.pow z.S (Nat.add z.r.DX z.r.DY))) g z.m a b A c d C

/-- the errors add up to less than `en/ed` times `x^w` -/
noncomputable def Cert.checkE (z : Cert) (w en ed a b A : ℕ) : Bool :=
  and (Nat.ble 1 z.S) (and (Nat.ble 1 z.R)
    (Nat.ble (Nat.mul (Nat.mul ed (Nat.pow A w)) (Nat.add (Nat.mul z.k (Nat.pow z.S (Nat.succ (Nat.add z.r.DX z.r.DY))))
        (Nat.add (Nat.mul (Nat.add (Nat.mul (z.r.lipX z.b1 z.b2) z.d1) (Nat.mul (z.r.lipY z.b1 z.b2) z.d2))
          (Nat.pow z.S (Nat.add z.r.DX z.r.DY))) (Nat.mul z.m z.S))))
      (Nat.mul (Nat.mul en (Nat.pow (Nat.sub a b) w)) (Nat.mul z.R (Nat.pow z.S (Nat.succ (Nat.add z.r.DX z.r.DY)))))))

noncomputable def Cert.check (z : Cert) (J : Job) (D : Digs) (en ed a b A c d C : ℕ) : Bool :=
  and (z.checkE J.w en ed a b A) (and (Cert.checkF z.q1 z.S z.a1 z.b1 z.A1 z.d1 J.f1 D.fx D.fy a b A c d C)
    (and (Cert.checkF2 z.q2 z.S z.a2 z.b2 z.A2 z.d2 J.f2 J.lg z.lc D.fx D.fy a b A c d C)
      (and (z.checkB J.B D.Bx D.By) (z.checkG J.g D.rx D.ry a b A c d C))))

def conAt : List E → ℕ → E
  | [], _ => cst 0
  | e :: _, 0 => e
  | _ :: t, n + 1 => conAt t n

/-- condition number `i` is violated: `g` times its value is at most `-1` -/
noncomputable def Cert.checkOut (z : Cert) (J : Job) (D : Digs) (i g k a b A c d C : ℕ) : Bool :=
  and (Nat.ble 1 z.S) (and (Nat.ble 1 k)
    (and (Cert.checkF z.q1 z.S z.a1 z.b1 z.A1 z.d1 J.c1 D.fx D.fy a b A c d C)
    (and (Cert.checkF2 z.q2 z.S z.a2 z.b2 z.A2 z.d2 J.c2 J.cl z.lc D.fx D.fy a b A c d C)
      (small D.Bx D.By (addP (.mul (cst g) (conAt J.con i)) (cst k)) z.a1 z.b1 z.A1 z.a2 z.b2 z.A2
        (Nat.mul (Nat.sub k 1) (Nat.mul (Nat.pow z.A1 (kxR (addP (.mul (cst g) (conAt J.con i)) (cst k))))
          (Nat.pow z.A2 (kyR (addP (.mul (cst g) (conAt J.con i)) (cst k))))))))))

/-- how a rectangle is halved; `skip` and `out` mark rectangles outside the domain -/
inductive CTree where
  | leaf (z : Cert)
  | skip
  | out (z : Cert) (i g k : ℕ)
  | sx (l r : CTree)
  | sy (l r : CTree)

noncomputable def checkC (J : Job) (D : Digs) (en ed : ℕ) (lim : List Lim) (t : CTree) : ℕ → ℕ → ℕ → ℕ → ℕ → ℕ → Bool :=
  CTree.rec (motive := fun _ => ℕ → ℕ → ℕ → ℕ → ℕ → ℕ → Bool)
    (fun z a b A c d C => z.check J D en ed a b A c d C)
    (fun a b A c d C => and (Nat.ble b a) (and (Nat.ble d c) (beyond (Nat.sub a b) A (Nat.sub c d) (Nat.mul 2 d) C lim)))
    (fun z i g k a b A c d C => z.checkOut J D i g k a b A c d C)
    (fun _ _ l r a b A c d C => and (l (Nat.sub (Nat.mul 2 a) b) b (Nat.mul 2 A) c d C) (r (Nat.add (Nat.mul 2 a) b) b (Nat.mul 2 A) c d C))
    (fun _ _ l r a b A c d C => and (l a b A (Nat.sub (Nat.mul 2 c) d) d (Nat.mul 2 C)) (r a b A (Nat.add (Nat.mul 2 c) d) d (Nat.mul 2 C))) t

section sound

open Polynomial

variable {mx my a b A c d C B : ℕ}

theorem phi_abs {s t : ℝ} (hs : |s| ≤ 1) (ht : |t| ≤ 1) (p : ℕ[X][X]) : |phi s t p| ≤ ((phi (R := ℕ) 1 1 p : ℕ) : ℝ) := by
  obtain ⟨dx, dy, hd⟩ := exists_deg p
  rw [phi_sum _ _ hd, phi_one hd]
  push_cast
  refine (abs_sum_le_sum_abs _ _).trans (sum_le_sum fun i _ => ?_)
  rw [abs_mul, abs_pow]
  have h1 : |∑ j ∈ range dy, (cf p i j : ℝ) * t ^ j| ≤ ∑ j ∈ range dy, (cf p i j : ℝ) := by
    refine (abs_sum_le_sum_abs _ _).trans (sum_le_sum fun j _ => ?_)
    rw [abs_mul, abs_pow, Nat.abs_cast]
    exact mul_le_of_le_one_right (Nat.cast_nonneg _) (pow_le_one₀ (abs_nonneg _) ht)
  have h2 : |s| ^ i ≤ 1 := pow_le_one₀ (abs_nonneg _) hs
  have h3 : 0 ≤ |s| ^ i := by positivity
  have h4 : 0 ≤ |∑ j ∈ range dy, (cf p i j : ℝ) * t ^ j| := abs_nonneg _
  nlinarith

theorem small_sound (hmy : 1 ≤ my) {e : E} (h : small mx my e a b A c d C B = true)
    {s t : ℝ} (hs : |s| ≤ 1) (ht : |t| ≤ 1) :
    |(A : ℝ) ^ e.kx * (C : ℝ) ^ e.ky * e.eval ((a + b * s) / A) ((c + d * t) / C)| ≤ B := by
  simp only [small, Bool.and_eq_true, totR_eq, peakR_eq, atR_eq, okR_eq] at h
  obtain ⟨hA, hC, ok, at', h⟩ := h
  replace hA := Nat.le_of_ble_eq_true hA
  replace hC := Nat.le_of_ble_eq_true hC
  simp only [small2, Bool.and_eq_true, digxR_eq, digyR_eq, runR_eq, small3, minRowR_eq] at h
  obtain ⟨hV, h⟩ := h
  replace hV := Nat.le_of_ble_eq_true hV
  revert h hV
  generalize Nat.pow 2 _ = V
  intro h hV
  have e1 : ∀ a b, Nat.pow a b = a ^ b := fun _ _ => rfl
  have ts : (tot a b A c d C e).sum = (tot a b A c d C e).1 + (tot a b A c d C e).2 := rfl
  have hV1 : (tot a b A c d C e).1 + (tot a b A c d C e).2 + peak a b A c d C e < V := by
    simp only [Nat.add_eq] at hV; omega
  have dy1 := dig_pos hmy (fun _ k => k) e
  set dx := e.dig mx fun k _ => k with hdx
  set dy := e.dig my fun _ k => k with hdy
  have hVW : V ≤ V ^ dy := Nat.le_self_pow (by omega) V
  rw [e1] at h
  obtain ⟨L, Q, L', Q', g1, g6, g7, g3, g4, g5⟩ := expr_good (mx := mx) (my := my) (V := V) (W := V ^ dy) (a := a) (b := b)
    (A := A) (c := c) (d := d) (C := C) hA hC hmy e ok at' (by omega) le_rfl
  rw [← hdx, ← hdy] at g3 g4
  rw [g1] at h
  have bL : ∀ i j, cf L i j < V := fun i j => by
    have := cf_le (L + Q) i j; rw [cf_add] at this; omega
  have bL' : ∀ i j, cf L' i j < V := fun i j => by
    have := cf_le (L' + Q') i j; rw [cf_add] at this; omega
  obtain ⟨M, hM⟩ := exists_poly (fun i j => min (cf L i j) (cf L' i j)) dx dy
  obtain ⟨L2, hL2⟩ := exists_poly (fun i j => cf L i j - min (cf L i j) (cf L' i j)) dx dy
  obtain ⟨L2', hL2'⟩ := exists_poly (fun i j => cf L' i j - min (cf L i j) (cf L' i j)) dx dy
  have dM : Deg M dx dy := fun i j h => by rw [hM, if_neg (by omega)]
  have sL : L = L2 + M := cf_ext fun i j => by
    rw [cf_add, hL2, hM]
    split_ifs with h
    · omega
    · exact g3 i j (by omega)
  have sL' : L' = L2' + M := cf_ext fun i j => by
    rw [cf_add, hL2', hM]
    split_ifs with h
    · omega
    · exact g4 i j (by omega)
  have rM : minRow V (V ^ dy) dy dx (phi (V ^ dy) V L) (phi (V ^ dy) V L') = phi 1 1 M := by
    rw [phi_sum _ _ g3, phi_sum _ _ g4, phi_one dM]
    simp only [Nat.cast_id]
    rw [minRow_eq le_rfl dx _ _ bL bL']
    refine sum_congr rfl fun i hi => sum_congr rfl fun j hj => ?_
    rw [mem_range] at hi hj
    rw [hM, if_pos ⟨hi, hj⟩]
  replace h := Nat.le_of_ble_eq_true h
  rw [rM, sL, sL'] at h
  simp only [Nat.add_eq, Nat.mul_eq, map_add] at h
  have hN : phi (R := ℕ) 1 1 (L2 + Q) + phi (R := ℕ) 1 1 (L2' + Q') ≤ B := by
    simp only [map_add]; omega
  have hR : ((phi (R := ℕ) 1 1 (L2 + Q) : ℕ) : ℝ) + (phi (R := ℕ) 1 1 (L2' + Q') : ℕ) ≤ B := by exact_mod_cast hN
  have u1 := phi_abs hs ht (L2 + Q)
  have u2 := phi_abs hs ht (L2' + Q')
  rw [g5 s t, sL, sL']
  have : phi s t (L2 + M + Q) - phi s t (L2' + M + Q') = phi s t (L2 + Q) - phi s t (L2' + Q') := by
    simp only [map_add]; ring
  rw [this]
  exact (abs_sub _ _).trans ((add_le_add u1 u2).trans hR)

end sound

section eval

variable {x y : ℝ}

@[simp] theorem evalN_nil' (x y : ℝ) : evalN [] x y = 0 := by simp [evalN]

@[simp] theorem evalN_cons' (n I J : ℕ) (l : List Mono) (x y : ℝ) :
    evalN ((n, I, J) :: l) x y = n * x ^ I * y ^ J + evalN l x y := by simp [evalN]

theorem eval_cst (n : ℕ) : (cst n).eval x y = n := by simp [cst, E.eval]
theorem eval_addP (e f : E) : (addP e f).eval x y = e.eval x y + f.eval x y := by simp [addP, E.eval]
theorem eval_subP (e f : E) : (subP e f).eval x y = e.eval x y - f.eval x y := by simp [subP, E.eval]

noncomputable def Poly.eval (q : Poly) (x y : ℝ) : ℝ := evalRows x y q.q

theorem eval_loc (q : Poly) (a A c C : ℕ) : (q.loc a A c C).eval x y = q.eval (A * x - a) (C * y - c) := rfl

theorem eval_subRow {g : ℕ} (hg : 1 ≤ g) (f : E) (r : List Two) {n m : ℕ} (ok : okRow r n = true) (hm : n ≤ m + 1) :
    (subRow g f r m).eval x y = (g : ℝ) ^ m * evalRow (f.eval x y / g) r := by
  have hg' : (g : ℝ) ≠ 0 := by positivity
  induction r generalizing n m with
  | nil => simp [subRow, E.eval, evalRow]
  | cons c r ih =>
    have ok' : and (Nat.ble 1 n) (okRow r (Nat.sub n 1)) = true := ok
    rw [Bool.and_eq_true] at ok'
    have hn := Nat.le_of_ble_eq_true ok'.1
    have e2 : ∀ a b, Nat.pow a b = a ^ b := fun _ _ => rfl
    cases r with
    | nil =>
      have : subRow g f [c] m = .add (.mono [(Nat.mul c.1 (Nat.pow g m), 0, 0)] [(Nat.mul c.2 (Nat.pow g m), 0, 0)] 0 0)
        (.mono [] [] 0 0) := rfl
      rw [this]
      simp only [E.eval, evalN_cons', evalN_nil', evalRow, Nat.mul_eq, e2, pow_zero, mul_one]
      push_cast; ring
    | cons c' r =>
      have h2 : 1 ≤ n - 1 := by
        have := ok'.2
        have h3 : and (Nat.ble 1 (Nat.sub n 1)) (okRow r (Nat.sub (Nat.sub n 1) 1)) = true := this
        rw [Bool.and_eq_true] at h3
        exact Nat.le_of_ble_eq_true h3.1
      have : subRow g f (c :: c' :: r) m = .add (.mono [(Nat.mul c.1 (Nat.pow g m), 0, 0)] [(Nat.mul c.2 (Nat.pow g m), 0, 0)] 0 0)
        (.mul f (subRow g f (c' :: r) (Nat.sub m 1))) := rfl
      rw [this]
      obtain ⟨k, rfl⟩ : ∃ k, m = k + 1 := ⟨m - 1, by omega⟩
      have h4 := ih (m := k) ok'.2 (by simp only [Nat.sub_eq]; omega)
      simp only [E.eval, evalN_cons', evalN_nil', Nat.mul_eq, Nat.sub_eq, Nat.add_sub_cancel, e2, pow_zero, mul_one, h4]
      have e5 : evalRow (f.eval x y / g) (c :: c' :: r) =
        ((c.1 : ℝ) - c.2) + f.eval x y / g * evalRow (f.eval x y / g) (c' :: r) := rfl
      rw [e5]
      push_cast
      generalize evalRow (f.eval x y / g) (c' :: r) = w
      field_simp
      ring

theorem eval_subRows {g DY : ℕ} (hg : 1 ≤ g) (e f : E) (q : Rows) {n m : ℕ} (ok : okRows (DY + 1) q n = true) (hm : n ≤ m + 1) :
    (subRows g DY e f q m).eval x y = (g : ℝ) ^ (m + DY) * evalRows (e.eval x y / g) (f.eval x y / g) q := by
  have hg' : (g : ℝ) ≠ 0 := by positivity
  induction q generalizing n m with
  | nil => simp [subRows, E.eval, evalRows]
  | cons r q ih =>
    have ok' : and (okRow r (DY + 1)) (and (Nat.ble 1 n) (okRows (DY + 1) q (Nat.sub n 1))) = true := ok
    rw [Bool.and_eq_true, Bool.and_eq_true] at ok'
    have hn := Nat.le_of_ble_eq_true ok'.2.1
    cases q with
    | nil =>
      have : subRows g DY e f [r] m = .add (subRow g f r (Nat.add m DY)) (.mono [] [] 0 0) := rfl
      rw [this]
      simp only [E.eval, evalN_nil', evalRows, Nat.add_eq]
      rw [eval_subRow hg f r ok'.1 (by omega)]
      ring
    | cons r' q =>
      have h2 : 1 ≤ n - 1 := by
        have h3 : and (okRow r' (DY + 1)) (and (Nat.ble 1 (Nat.sub n 1)) (okRows (DY + 1) q (Nat.sub (Nat.sub n 1) 1))) = true := ok'.2.2
        rw [Bool.and_eq_true, Bool.and_eq_true] at h3
        exact Nat.le_of_ble_eq_true h3.2.1
      have : subRows g DY e f (r :: r' :: q) m = .add (subRow g f r (Nat.add m DY)) (.mul e (subRows g DY e f (r' :: q) (Nat.sub m 1))) := rfl
      rw [this]
      obtain ⟨k, rfl⟩ : ∃ k, m = k + 1 := ⟨m - 1, by omega⟩
      have h4 := ih (m := k) ok'.2.2 (by simp only [Nat.sub_eq]; omega)
      simp only [E.eval, Nat.add_eq, Nat.sub_eq, Nat.add_sub_cancel, h4]
      have e5 : evalRows (e.eval x y / g) (f.eval x y / g) (r :: r' :: q) =
        evalRow (f.eval x y / g) r + e.eval x y / g * evalRows (e.eval x y / g) (f.eval x y / g) (r' :: q) := rfl
      rw [eval_subRow hg f r ok'.1 (by omega), e5]
      generalize evalRows (e.eval x y / g) (f.eval x y / g) (r' :: q) = w
      generalize evalRow (f.eval x y / g) r = v
      field_simp
      ring

theorem eval_subst {q : Poly} (ok : q.ok = true) {g : ℕ} (hg : 1 ≤ g) (e f : E) :
    (q.subst g e f).eval x y = (g : ℝ) ^ (q.DX + q.DY) * q.eval (e.eval x y / g) (f.eval x y / g) :=
  eval_subRows hg e f q.q ok le_rfl

theorem two_abs (c : Two) : |(c.1 : ℝ) - c.2| ≤ ((c.1 + c.2 : ℕ) : ℝ) := by
  refine (abs_sub _ _).trans ?_
  rw [Nat.abs_cast, Nat.abs_cast]; push_cast; exact le_rfl

theorem row_size {d : ℕ} (r : List Two) (hy : |y| ≤ d) : |evalRow y r| ≤ ((rowSize d r).1 : ℝ) := by
  induction r with
  | nil => simp [rowSize, evalRow]
  | cons c r ih =>
    have e : (rowSize d (c :: r)).1 = c.1 + c.2 + d * (rowSize d r).1 := rfl
    rw [evalRow, e, Nat.cast_add, Nat.cast_mul]
    refine (abs_add_le _ _).trans (add_le_add (two_abs c) ?_)
    rw [abs_mul]; gcongr

theorem row_lip {d : ℕ} {v v' : ℝ} (r : List Two) (hv : |v| ≤ d) (hv' : |v'| ≤ d) :
    |evalRow v r - evalRow v' r| ≤ (rowSize d r).2 * |v - v'| := by
  induction r with
  | nil => simp [rowSize, evalRow]
  | cons c r ih =>
    have e : (rowSize d (c :: r)).2 = (rowSize d r).1 + d * (rowSize d r).2 := rfl
    have e' : evalRow v (c :: r) - evalRow v' (c :: r) = (v - v') * evalRow v r + v' * (evalRow v r - evalRow v' r) := by
      rw [evalRow, evalRow]; ring
    rw [e', e, Nat.cast_add, Nat.cast_mul, add_mul]
    refine (abs_add_le _ _).trans (add_le_add ?_ ?_)
    · rw [abs_mul, mul_comm]
      exact mul_le_mul_of_nonneg_right (row_size r hv) (abs_nonneg _)
    · rw [abs_mul, mul_assoc]; gcongr

theorem size_sound {b d : ℕ} (q : Poly) (hx : |x| ≤ b) (hy : |y| ≤ d) : |q.eval x y| ≤ q.size b d := by
  obtain ⟨q, DX, DY⟩ := q
  show |evalRows x y q| ≤ _
  induction q with
  | nil => simp [Poly.size, evalRows]
  | cons r q ih =>
    have e : Poly.size ⟨r :: q, DX, DY⟩ b d = (rowSize d r).1 + b * Poly.size ⟨q, DX, DY⟩ b d := rfl
    rw [evalRows, e, Nat.cast_add, Nat.cast_mul]
    refine (abs_add_le _ _).trans (add_le_add (row_size r hy) ?_)
    rw [abs_mul]; gcongr

theorem lip_sound {b d : ℕ} {u v u' v' : ℝ} (q : Poly) (hu : |u| ≤ b) (hu' : |u'| ≤ b) (hv : |v| ≤ d) (hv' : |v'| ≤ d) :
    |q.eval u v - q.eval u' v'| ≤ q.lipX b d * |u - u'| + q.lipY b d * |v - v'| := by
  obtain ⟨q, DX, DY⟩ := q
  show |evalRows u v q - evalRows u' v' q| ≤ _
  have key : |evalRows u v q| ≤ ((rowsLip b d q).1 : ℝ) ∧ |evalRows u v q - evalRows u' v' q| ≤
      (rowsLip b d q).2 * |u - u'| + Poly.lipY ⟨q, DX, DY⟩ b d * |v - v'| := by
    induction q with
    | nil => simp [rowsLip, Poly.lipY, evalRows]
    | cons r q ih =>
      have e1 : (rowsLip b d (r :: q)).1 = (rowSize d r).1 + b * (rowsLip b d q).1 := rfl
      have e2 : (rowsLip b d (r :: q)).2 = (rowsLip b d q).1 + b * (rowsLip b d q).2 := rfl
      have e3 : Poly.lipY ⟨r :: q, DX, DY⟩ b d = (rowSize d r).2 + b * Poly.lipY ⟨q, DX, DY⟩ b d := rfl
      have e4 : evalRows u v (r :: q) - evalRows u' v' (r :: q) = (evalRow v r - evalRow v' r) + (u - u') * evalRows u v q +
          u' * (evalRows u v q - evalRows u' v' q) := by rw [evalRows, evalRows]; ring
      obtain ⟨i1, i2⟩ := ih
      constructor
      · rw [evalRows, e1, Nat.cast_add, Nat.cast_mul]
        refine (abs_add_le _ _).trans (add_le_add (row_size r hv) ?_)
        rw [abs_mul]; gcongr
      · have j1 := row_lip r hv hv'
        have j2 : |(u - u') * evalRows u v q| ≤ (rowsLip b d q).1 * |u - u'| := by
          rw [abs_mul, mul_comm]; exact mul_le_mul_of_nonneg_right i1 (abs_nonneg _)
        have j3 : |u' * (evalRows u v q - evalRows u' v' q)| ≤
            b * ((rowsLip b d q).2 * |u - u'| + Poly.lipY ⟨q, DX, DY⟩ b d * |v - v'|) := by
          rw [abs_mul]; gcongr
        rw [e4, e2, e3]
        push_cast
        refine (abs_add_le _ _).trans ((add_le_add ((abs_add_le _ _).trans (add_le_add j1 j2)) j3).trans (le_of_eq ?_))
        ring
  exact key.2

theorem pack_low {u v A C KX KY : ℕ} (hA : 1 ≤ A) (hC : 1 ≤ C) {l : List Mono} (ok : okTerms KX KY l = true)
    (hx : KX = 0 ∨ (u : ℝ) ≤ A * x) (hy : KY = 0 ∨ (v : ℝ) ≤ C * y) :
    ((pack (pw1 u 0 A KX) (pw1 v 0 C KY) l : ℕ) : ℝ) ≤ A ^ KX * C ^ KY * evalN l x y := by
  induction l with
  | nil => simp [pack]
  | cons t l ih =>
    obtain ⟨n, I, J⟩ := t
    obtain ⟨h1, h2, h3⟩ := ok_cons ok
    obtain ⟨i, rfl⟩ := Nat.exists_eq_add_of_le h1
    obtain ⟨j, rfl⟩ := Nat.exists_eq_add_of_le h2
    simp only [pack, evalN_cons', Nat.add_eq, Nat.mul_eq, pw1_eq, add_zero, Nat.add_sub_cancel_left]
    push_cast
    have g1 : (u : ℝ) ^ I ≤ (A * x) ^ I := by
      rcases hx with hx | hx
      · have : I = 0 := by omega
        subst this; simp
      · gcongr
    have g2 : (v : ℝ) ^ J ≤ (C * y) ^ J := by
      rcases hy with hy | hy
      · have : J = 0 := by omega
        subst this; simp
      · gcongr
    have g3 : (u : ℝ) ^ I * v ^ J ≤ (A * x) ^ I * (C * y) ^ J := by
      have : (0 : ℝ) ≤ (A * x) ^ I := le_trans (by positivity) g1
      gcongr
    have g4 := mul_le_mul_of_nonneg_left g3 (show (0 : ℝ) ≤ n * (A ^ i * C ^ j) by positivity)
    have := ih h3
    calc _ = n * (A ^ i * C ^ j) * ((u : ℝ) ^ I * v ^ J) + ((pack (pw1 u 0 A (I + i)) (pw1 v 0 C (J + j)) l : ℕ) : ℝ) := by ring
      _ ≤ n * (A ^ i * C ^ j) * ((A * x) ^ I * (C * y) ^ J) + A ^ (I + i) * C ^ (J + j) * evalN l x y := add_le_add g4 this
      _ = _ := by rw [mul_pow, mul_pow]; ring

end eval

/-- the point lies in the rectangle -/
def InRect (a b A c d C : ℕ) (x y : ℝ) : Prop := |A * x - a| ≤ b ∧ |C * y - c| ≤ d

theorem InRect.point {a b A : ℕ} (hA : 1 ≤ A) {x : ℝ} (h : |A * x - a| ≤ b) : ∃ s : ℝ, |s| ≤ 1 ∧ x = (a + b * s) / A := by
  have hA' : (A : ℝ) ≠ 0 := by positivity
  rcases Nat.eq_zero_or_pos b with rfl | hb
  · refine ⟨0, by simp, ?_⟩
    have : A * x - a = 0 := by simpa using h
    rw [eq_div_iff hA']; linarith
  · have hb' : (0 : ℝ) < b := by exact_mod_cast hb
    refine ⟨(A * x - a) / b, ?_, ?_⟩
    · rw [abs_div, Nat.abs_cast, div_le_one hb']; exact h
    · field_simp; ring

theorem close_sound {mx my : ℕ} (hmy : 1 ≤ my) {u : E} {g : ℕ} {q : Quot} {k a b A c d C : ℕ}
    (h : close mx my u g q k a b A c d C = true) {x y : ℝ} (hr : InRect a b A c d C x y) :
    0 < evalN q.l x y ∧ |u.eval x y - g * q.eval x y| ≤ k := by
  simp only [close, Bool.and_eq_true, okTermsR_eq, kxR_eq, kyR_eq] at h
  obtain ⟨hb, hd, ok, hl, hs⟩ := h
  rw [Bool.or_eq_true] at hb hd
  replace hb := hb.imp Nat.eq_of_beq_eq_true Nat.le_of_ble_eq_true
  replace hd := hd.imp Nat.eq_of_beq_eq_true Nat.le_of_ble_eq_true
  replace hl := Nat.le_of_ble_eq_true hl
  have hs' := hs
  simp only [small, Bool.and_eq_true] at hs'
  obtain ⟨hA, hC, -, -⟩ := hs'
  replace hA := Nat.le_of_ble_eq_true hA
  replace hC := Nat.le_of_ble_eq_true hC
  obtain ⟨s, s1, rfl⟩ := InRect.point hA hr.1
  obtain ⟨t, t1, rfl⟩ := InRect.point hC hr.2
  have key := small_sound hmy hs s1 t1
  set x := (a + b * s) / (A : ℝ)
  set y := (c + d * t) / (C : ℝ)
  have lx : q.KX = 0 ∨ ((a - b : ℕ) : ℝ) ≤ A * x := hb.imp id fun hb => by
    rw [Nat.cast_sub hb]; have := (abs_le.1 hr.1).1; linarith
  have ly : q.KY = 0 ∨ ((c - d : ℕ) : ℝ) ≤ C * y := hd.imp id fun hd => by
    rw [Nat.cast_sub hd]; have := (abs_le.1 hr.2).1; linarith
  have low : (q.low a b A c d C : ℝ) ≤ A ^ q.KX * C ^ q.KY * evalN q.l x y := by
    rw [Quot.low, packR_eq]; exact pack_low hA hC ok lx ly
  have hl' : (1 : ℝ) ≤ q.low a b A c d C := by exact_mod_cast hl
  have hA' : (0 : ℝ) < A := by positivity
  have hC' : (0 : ℝ) < C := by positivity
  have hD : 0 < evalN q.l x y := by
    have : (0 : ℝ) < A ^ q.KX * C ^ q.KY * evalN q.l x y := by linarith
    exact pos_of_mul_pos_right this (by positivity)
  refine ⟨hD, ?_⟩
  have kx : q.KX ≤ (closeE u g q).kx := by
    simp only [closeE, subP, E.kx, kxR_eq, Nat.add_eq, Nat.sub_eq]; omega
  have ky : q.KY ≤ (closeE u g q).ky := by
    simp only [closeE, subP, E.ky, kyR_eq, Nat.add_eq, Nat.sub_eq]; omega
  obtain ⟨i, hi⟩ := Nat.exists_eq_add_of_le kx
  obtain ⟨j, hj⟩ := Nat.exists_eq_add_of_le ky
  have e2 : ∀ a b, Nat.pow a b = a ^ b := fun _ _ => rfl
  have ev : (closeE u g q).eval x y = evalN q.l x y * u.eval x y - g * q.n.eval x y := by
    simp [closeE, eval_subP, E.eval, eval_cst]
  rw [ev, hi, hj] at key
  simp only [e2, Nat.mul_eq, Nat.sub_eq, Nat.add_sub_cancel_left] at key
  push_cast at key
  have hq : u.eval x y - g * q.eval x y = (evalN q.l x y * u.eval x y - g * q.n.eval x y) / evalN q.l x y := by
    rw [Quot.eval]; field_simp
  rw [hq, abs_div, abs_of_pos hD, div_le_iff₀ hD]
  rw [abs_mul, abs_of_pos (by positivity)] at key
  have hP : (0 : ℝ) < A ^ (q.KX + i) * C ^ (q.KY + j) := by positivity
  refine le_of_mul_le_mul_left (key.trans ?_) hP
  have := mul_le_mul_of_nonneg_left low (show (0 : ℝ) ≤ k * (A ^ i * C ^ j) by positivity)
  calc _ = k * ((A : ℝ) ^ i * C ^ j) * q.low a b A c d C := by ring
    _ ≤ _ := this
    _ = _ := by ring

theorem checkF_sound {q : Poly} {S ai bi Ai di : ℕ} (hS : 1 ≤ S) {f : Quot} {mx my a b A c d C : ℕ} (hmy : 1 ≤ my)
    (h : Cert.checkF q S ai bi Ai di f mx my a b A c d C = true) {x y : ℝ} (hr : InRect a b A c d C x y) :
    |q.eval (A * x - a) (C * y - c) / S - (Ai * f.eval x y - ai)| ≤ di / S ∧
      |q.eval (A * x - a) (C * y - c) / S| ≤ bi ∧ |Ai * f.eval x y - ai| ≤ bi := by
  simp only [Cert.checkF, Bool.and_eq_true] at h
  obtain ⟨ok, hs, hc⟩ := h
  replace hs := Nat.le_of_ble_eq_true hs
  simp only [Nat.add_eq, Nat.mul_eq] at hs
  have hs' : (q.size b d : ℝ) + di ≤ bi * S := by exact_mod_cast hs
  have h1 := (close_sound hmy hc hr).2
  rw [E.eval, eval_cst, eval_loc] at h1
  simp only [Nat.mul_eq] at h1
  push_cast at h1
  have h2 := size_sound q hr.1 hr.2
  have hS' : (0 : ℝ) < S := by positivity
  set v := q.eval (A * x - a) (C * y - c)
  have e : v / S - (Ai * f.eval x y - ai) = (v + S * ai - S * Ai * f.eval x y) / S := by field_simp; ring
  have c1 : |v / S - (Ai * f.eval x y - ai)| ≤ di / S := by
    rw [e, abs_div, Nat.abs_cast]; gcongr
  have c2 : |v / S| ≤ q.size b d / S := by rw [abs_div, Nat.abs_cast]; gcongr
  have c3 : (q.size b d : ℝ) / S + di / S ≤ bi := by rw [← add_div, div_le_iff₀ hS']; exact hs'
  have c4 : (0 : ℝ) ≤ di / S := by positivity
  refine ⟨c1, by linarith, ?_⟩
  have e3 : Ai * f.eval x y - ai = v / S - (v / S - (Ai * f.eval x y - ai)) := by ring
  rw [e3]
  exact (abs_sub _ _).trans (by linarith)

theorem altRows_eval (cs : List ℕ) (s : Bool) (k : ℕ) (u v : ℝ) :
    u ^ k * evalRows u v (altRows cs s) = cond s (-1) 1 * altEval u k cs := by
  induction cs generalizing k s with
  | nil => simp [altRows, altEval, evalRows]
  | cons c t ih =>
    have h := ih (!s) (k + 1)
    have e : altRows (c :: t) s = [cond s (0, c) (c, 0)] :: altRows t (!s) := rfl
    rw [e, evalRows, mul_add, ← mul_assoc, ← pow_succ, h, altEval]
    cases s <;> simp [evalRow] <;> ring

theorem LC.eval (z : LC) (s : Bool) (u v : ℝ) : (z.poly s).eval u v = cond s (-1) 1 * (z.c0 + altEval u 1 z.cs) := by
  have h := altRows_eval z.cs s 1 u v
  have hc : (z.c0 : ℝ) = z.c0.toNat - (Int.neg z.c0).toNat := by
    have : z.c0 = z.c0.toNat - (-z.c0).toNat := by omega
    have e : Int.neg z.c0 = -z.c0 := rfl
    rw [e]
    exact_mod_cast this
  rw [pow_one] at h
  rw [LC.poly, Poly.eval, evalRows, h, mul_add]
  congr 1
  rw [hc]
  cases s <;> simp [evalRow]

theorem checkL_sound {q : Poly} {S ai bi Ai di : ℕ} (hS : 1 ≤ S) {f : Quot} {l : Lg} {z : LC} {mx my a b A c d C : ℕ} (hmy : 1 ≤ my)
    (hA : 0 < A) (h : Cert.checkL q S ai bi Ai di f l z mx my a b A c d C = true) {x y : ℝ} (hr : InRect a b A c d C x y) :
    |q.eval (A * x - a) (C * y - c) / S - (Ai * (f.eval x y + l.coef * Real.log x) - ai)| ≤ di / S ∧
      |q.eval (A * x - a) (C * y - c) / S| ≤ bi ∧ |Ai * (f.eval x y + l.coef * Real.log x) - ai| ≤ bi := by
  simp only [Cert.checkL, Bool.and_eq_true] at h
  obtain ⟨ok, hs, hd, hba, he, okl, hc⟩ := h
  replace hs := Nat.le_of_ble_eq_true hs
  replace hd := Nat.le_of_ble_eq_true hd
  replace hba := Nat.le_of_ble_eq_true hba
  replace he := Nat.le_of_ble_eq_true he
  simp only [Nat.add_eq, Nat.mul_eq, Nat.succ_eq_add_one] at hs hba he
  have hs' : (q.size b d : ℝ) + di ≤ bi * S := by exact_mod_cast hs
  have h1 := (close_sound hmy hc hr).2
  have hl := log_sound (G := S * Ai * l.n) (H := l.d) hd hA hba z hr.1
  rw [E.eval, E.eval, eval_cst, eval_loc, eval_loc, LC.eval] at h1
  simp only [Nat.mul_eq, Nat.sub_eq, Nat.cast_sub he] at h1
  generalize logErr (S * Ai * l.n) l.d a b A z = ε at *
  push_cast at h1 hl
  have h2 := size_sound q hr.1 hr.2
  have hS' : (0 : ℝ) < S := by positivity
  set v := q.eval (A * x - a) (C * y - c)
  set L := (z.c0 : ℝ) + altEval (A * x - a) 1 z.cs
  have h3 : |v + S * ai - S * Ai * (f.eval x y + l.coef * Real.log x)| ≤ di := by
    have e : v + S * ai - S * Ai * (f.eval x y + l.coef * Real.log x) = (v - cond l.neg (-1) 1 * L + S * ai - S * Ai * f.eval x y) -
        cond l.neg (-1) 1 * (S * Ai * l.n / l.d * Real.log x - L) := by
      rw [Lg.coef]; ring
    rw [e]
    refine (abs_sub _ _).trans ((add_le_add h1 ?_).trans (le_of_eq (sub_add_cancel (di : ℝ) ε)))
    rw [abs_mul]
    have : |cond l.neg (-1 : ℝ) 1| = 1 := by cases l.neg <;> simp
    rw [this, one_mul]
    exact hl
  have e : v / S - (Ai * (f.eval x y + l.coef * Real.log x) - ai) = (v + S * ai - S * Ai * (f.eval x y + l.coef * Real.log x)) / S := by
    field_simp; ring
  have c1 : |v / S - (Ai * (f.eval x y + l.coef * Real.log x) - ai)| ≤ di / S := by
    rw [e, abs_div, Nat.abs_cast]; gcongr
  have c2 : |v / S| ≤ q.size b d / S := by rw [abs_div, Nat.abs_cast]; gcongr
  have c3 : (q.size b d : ℝ) / S + di / S ≤ bi := by rw [← add_div, div_le_iff₀ hS']; exact hs'
  have c4 : (0 : ℝ) ≤ di / S := by positivity
  refine ⟨c1, by linarith, ?_⟩
  have e3 : Ai * (f.eval x y + l.coef * Real.log x) - ai = v / S - (v / S - (Ai * (f.eval x y + l.coef * Real.log x) - ai)) := by ring
  rw [e3]
  exact (abs_sub _ _).trans (by linarith)

theorem checkF2_sound {q : Poly} {S ai bi Ai di : ℕ} (hS : 1 ≤ S) {f : Quot} {l : Lg} {z : LC} {mx my a b A c d C : ℕ} (hmy : 1 ≤ my)
    (hA : 0 < A) (h : Cert.checkF2 q S ai bi Ai di f l z mx my a b A c d C = true) {x y : ℝ} (hr : InRect a b A c d C x y) :
    q.ok = true ∧ |q.eval (A * x - a) (C * y - c) / S - (Ai * (f.eval x y + l.coef * Real.log x) - ai)| ≤ di / S ∧
      |q.eval (A * x - a) (C * y - c) / S| ≤ bi ∧ |Ai * (f.eval x y + l.coef * Real.log x) - ai| ≤ bi := by
  rw [Cert.checkF2] at h
  rcases hn : Nat.beq l.n 0 with _ | _
  · rw [hn, cond_false] at h
    exact ⟨by simp only [Cert.checkL, Bool.and_eq_true] at h; exact h.1, checkL_sound hS hmy hA h hr⟩
  · rw [hn, cond_true] at h
    have h0 : l.coef = 0 := by rw [Lg.coef, Nat.eq_of_beq_eq_true hn]; simp
    rw [h0, zero_mul, add_zero]
    exact ⟨by simp only [Cert.checkF, Bool.and_eq_true] at h; exact h.1, checkF_sound hS hmy h hr⟩

theorem cert_sound {z : Cert} {J : Job} {D : Digs} (hfy : 1 ≤ D.fy) (hBy : 1 ≤ D.By) (hry : 1 ≤ D.ry) {en ed : ℕ} (hed : 1 ≤ ed)
    {a b A c d C : ℕ} (hb : b ≤ a) (hA : 0 < A) (h : z.check J D en ed a b A c d C = true) {x y : ℝ} (hr : InRect a b A c d C x y) :
    |J.B.eval (J.v1 x y) (J.v2 x y) - J.g.eval x y| ≤ en / ed * x ^ J.w := by
  simp only [Cert.check, Bool.and_eq_true] at h
  obtain ⟨hE, h1, h2, hB, hG⟩ := h
  simp only [Cert.checkE, Bool.and_eq_true] at hE
  obtain ⟨hS, hR, hE⟩ := hE
  replace hS := Nat.le_of_ble_eq_true hS
  replace hR := Nat.le_of_ble_eq_true hR
  replace hE := Nat.le_of_ble_eq_true hE
  obtain ⟨f1, f1', f1''⟩ := checkF_sound hS hfy h1 hr
  obtain ⟨ok2, f2, f2', f2''⟩ := checkF2_sound hS hfy hA h2 hr
  have ok1 : z.q1.ok = true := by simp only [Cert.checkF, Bool.and_eq_true] at h1; exact h1.1
  change |z.q2.eval (A * x - a) (C * y - c) / z.S - (z.A2 * J.v2 x y - z.a2)| ≤ z.d2 / z.S at f2
  change |z.A2 * J.v2 x y - z.a2| ≤ z.b2 at f2''
  change |z.q1.eval (A * x - a) (C * y - c) / z.S - (z.A1 * J.v1 x y - z.a1)| ≤ z.d1 / z.S at f1
  change |z.A1 * J.v1 x y - z.a1| ≤ z.b1 at f1''
  simp only [Cert.checkB, Bool.and_eq_true] at hB
  have okr := hB.1
  have b1 := (close_sound hBy hB.2 (x := J.v1 x y) (y := J.v2 x y) ⟨f1'', f2''⟩).2
  rw [eval_loc] at b1
  have g1 := (close_sound hry hG hr).2
  rw [Cert.comp, eval_subst okr hS, eval_loc, eval_loc] at g1
  have e2 : ∀ a b, Nat.pow a b = a ^ b := fun _ _ => rfl
  simp only [e2, Nat.mul_eq, Nat.add_eq, Nat.succ_eq_add_one] at g1 hE
  push_cast at g1
  have l1 := lip_sound z.r f1' f1'' f2' f2''
  set u := z.q1.eval (A * x - a) (C * y - c) / (z.S : ℝ)
  set v := z.q2.eval (A * x - a) (C * y - c) / (z.S : ℝ)
  set u' := z.A1 * J.v1 x y - (z.a1 : ℝ)
  set v' := z.A2 * J.v2 x y - (z.a2 : ℝ)
  set β := J.B.eval (J.v1 x y) (J.v2 x y)
  set γ := J.g.eval x y
  set n := z.r.DX + z.r.DY
  have hS' : (0 : ℝ) < z.S := by positivity
  have hR' : (0 : ℝ) < z.R := by positivity
  have hed' : (0 : ℝ) < ed := by positivity
  have hA' : (0 : ℝ) < A := by exact_mod_cast hA
  have hE' : (ed : ℝ) * A ^ J.w * (z.k * z.S ^ (n + 1) + ((z.r.lipX z.b1 z.b2 * z.d1 + z.r.lipY z.b1 z.b2 * z.d2) * z.S ^ n + z.m * z.S)) ≤
      en * ((a - b : ℕ) : ℝ) ^ J.w * (z.R * z.S ^ (n + 1)) := by exact_mod_cast hE
  have hx : ((a - b : ℕ) : ℝ) ≤ A * x := by rw [Nat.cast_sub hb]; linarith [(abs_le.1 hr.1).1]
  have hw : ((a - b : ℕ) : ℝ) ^ J.w ≤ A ^ J.w * x ^ J.w := by rw [← mul_pow]; gcongr
  have l2 : |z.r.eval u v - z.r.eval u' v'| ≤ (z.r.lipX z.b1 z.b2 * z.d1 + z.r.lipY z.b1 z.b2 * z.d2) / z.S := by
    refine l1.trans ?_
    calc _ ≤ (z.r.lipX z.b1 z.b2 : ℝ) * (z.d1 / z.S) + z.r.lipY z.b1 z.b2 * (z.d2 / z.S) := by gcongr
      _ = _ := by ring
  have g2 : |z.r.eval u v - z.R * γ| ≤ z.m / z.S ^ n := by
    have : (z.S : ℝ) ^ n * z.r.eval u v - z.R * z.S ^ n * γ = z.S ^ n * (z.r.eval u v - z.R * γ) := by ring
    rw [this, abs_mul, abs_of_pos (by positivity)] at g1
    rw [le_div_iff₀ (by positivity)]
    linarith
  have e : z.R * (β - γ) = -(z.r.eval u' v' - z.R * β) - (z.r.eval u v - z.r.eval u' v') + (z.r.eval u v - z.R * γ) := by ring
  have h3 : |z.R * (β - γ)| ≤ z.k + (z.r.lipX z.b1 z.b2 * z.d1 + z.r.lipY z.b1 z.b2 * z.d2) / z.S + z.m / z.S ^ n := by
    rw [e]
    refine (abs_add_le _ _).trans (add_le_add ((abs_sub _ _).trans (add_le_add ?_ l2)) g2)
    rw [abs_neg]; exact b1
  rw [abs_mul, abs_of_pos hR'] at h3
  have hP : (0 : ℝ) < ed * A ^ J.w * (z.R * z.S ^ (n + 1)) := by positivity
  refine le_of_mul_le_mul_left ?_ hP
  have h4 := mul_le_mul_of_nonneg_left h3 (show (0 : ℝ) ≤ ed * A ^ J.w * z.S ^ (n + 1) by positivity)
  have e5 : (ed : ℝ) * A ^ J.w * z.S ^ (n + 1) * (z.k + (z.r.lipX z.b1 z.b2 * z.d1 + z.r.lipY z.b1 z.b2 * z.d2) / z.S + z.m / z.S ^ n) =
      (ed : ℝ) * A ^ J.w * (z.k * z.S ^ (n + 1) + ((z.r.lipX z.b1 z.b2 * z.d1 + z.r.lipY z.b1 z.b2 * z.d2) * z.S ^ n + z.m * z.S)) := by
    field_simp
    ring
  rw [e5] at h4
  have h5 := mul_le_mul_of_nonneg_right hw (show (0 : ℝ) ≤ en * (z.R * z.S ^ (n + 1)) by positivity)
  calc _ = (ed : ℝ) * A ^ J.w * z.S ^ (n + 1) * (z.R * |β - γ|) := by ring
    _ ≤ _ := h4
    _ ≤ _ := hE'
    _ = ((a - b : ℕ) : ℝ) ^ J.w * (en * (z.R * z.S ^ (n + 1))) := by ring
    _ ≤ A ^ J.w * x ^ J.w * (en * (z.R * z.S ^ (n + 1))) := h5
    _ = _ := by field_simp

theorem conAt_nonneg {l : List E} {x y : ℝ} (h : ∀ e ∈ l, 0 ≤ e.eval x y) (i : ℕ) : 0 ≤ (conAt l i).eval x y := by
  induction l generalizing i with
  | nil => simp [conAt, eval_cst]
  | cons e t ih =>
    cases i with
    | zero => exact h e (List.mem_cons_self ..)
    | succ i => exact ih (fun e he => h e (List.mem_cons_of_mem _ he)) i

theorem out_sound {z : Cert} {J : Job} {D : Digs} (hfy : 1 ≤ D.fy) (hBy : 1 ≤ D.By) {i g k a b A c d C : ℕ} (hA : 0 < A)
    (h : z.checkOut J D i g k a b A c d C = true) {x y : ℝ} (hr : InRect a b A c d C x y) :
    ¬ ∀ e ∈ J.con, 0 ≤ e.eval (J.u1 x y) (J.u2 x y) := by
  intro hcon
  simp only [Cert.checkOut, Bool.and_eq_true] at h
  obtain ⟨hS, hk, h1, h2, hs⟩ := h
  replace hS := Nat.le_of_ble_eq_true hS
  replace hk := Nat.le_of_ble_eq_true hk
  obtain ⟨_, _, f1⟩ := checkF_sound hS hfy h1 hr
  obtain ⟨_, _, _, f2⟩ := checkF2_sound hS hfy hA h2 hr
  change |z.A1 * J.u1 x y - z.a1| ≤ z.b1 at f1
  change |z.A2 * J.u2 x y - z.a2| ≤ z.b2 at f2
  have hs' := hs
  simp only [small, Bool.and_eq_true] at hs'
  obtain ⟨hA1, hA2, -, -⟩ := hs'
  replace hA1 := Nat.le_of_ble_eq_true hA1
  replace hA2 := Nat.le_of_ble_eq_true hA2
  obtain ⟨s, s1, e1⟩ := InRect.point hA1 f1
  obtain ⟨t, t1, e2⟩ := InRect.point hA2 f2
  have key := small_sound hBy hs s1 t1
  simp only [kxR_eq, kyR_eq] at key
  rw [← e1, ← e2, eval_addP, E.eval, eval_cst, eval_cst] at key
  generalize (addP (.mul (cst g) (conAt J.con i)) (cst k)).kx = kx at key
  generalize (addP (.mul (cst g) (conAt J.con i)) (cst k)).ky = ky at key
  have e3 : ∀ a b, Nat.pow a b = a ^ b := fun _ _ => rfl
  have hA1' : (0 : ℝ) < z.A1 := by positivity
  have hA2' : (0 : ℝ) < z.A2 := by positivity
  have hP : (0 : ℝ) < (z.A1 : ℝ) ^ kx * (z.A2 : ℝ) ^ ky := by positivity
  rw [abs_mul, abs_of_pos hP] at key
  simp only [e3, Nat.mul_eq, Nat.sub_eq] at key
  push_cast [Nat.cast_sub hk] at key
  have h0 := conAt_nonneg hcon i
  have hg : (0 : ℝ) ≤ g := Nat.cast_nonneg _
  have h4 : |g * (conAt J.con i).eval (J.u1 x y) (J.u2 x y) + k| ≤ (k : ℝ) - 1 := by
    refine le_of_mul_le_mul_left (key.trans (le_of_eq ?_)) hP
    ring
  have h5 := (le_abs_self _).trans h4
  have := mul_nonneg hg h0
  linarith

theorem checkC_sx {J : Job} {D : Digs} {en ed : ℕ} {lim : List Lim} {l r : CTree} {a b A c d C : ℕ}
    (hl : checkC J D en ed lim l (Nat.sub (Nat.mul 2 a) b) b (Nat.mul 2 A) c d C = true)
    (hr : checkC J D en ed lim r (Nat.add (Nat.mul 2 a) b) b (Nat.mul 2 A) c d C = true) :
    checkC J D en ed lim (.sx l r) a b A c d C = true := by
  change and (checkC J D en ed lim l (Nat.sub (Nat.mul 2 a) b) b (Nat.mul 2 A) c d C)
      (checkC J D en ed lim r (Nat.add (Nat.mul 2 a) b) b (Nat.mul 2 A) c d C) = true
  rw [hl, hr]; rfl

theorem checkC_sy {J : Job} {D : Digs} {en ed : ℕ} {lim : List Lim} {l r : CTree} {a b A c d C : ℕ}
    (hl : checkC J D en ed lim l a b A (Nat.sub (Nat.mul 2 c) d) d (Nat.mul 2 C) = true)
    (hr : checkC J D en ed lim r a b A (Nat.add (Nat.mul 2 c) d) d (Nat.mul 2 C) = true) :
    checkC J D en ed lim (.sy l r) a b A c d C = true := by
  change and (checkC J D en ed lim l a b A (Nat.sub (Nat.mul 2 c) d) d (Nat.mul 2 C))
      (checkC J D en ed lim r a b A (Nat.add (Nat.mul 2 c) d) d (Nat.mul 2 C)) = true
  rw [hl, hr]; rfl

theorem checkC_sound {J : Job} {D : Digs} (hfy : 1 ≤ D.fy) (hBy : 1 ≤ D.By) (hry : 1 ≤ D.ry) {en ed : ℕ} (hed : 1 ≤ ed)
    {lim : List Lim} (tree : CTree) {a b A c d C : ℕ} (hb : b ≤ a) (hd : d ≤ c) (hA : 0 < A) (hC : 0 < C)
    (h : checkC J D en ed lim tree a b A c d C = true) {x y : ℝ} (hl : ∀ l ∈ lim, l.Holds x y)
    (hcon : ∀ e ∈ J.con, 0 ≤ e.eval (J.u1 x y) (J.u2 x y)) (hr : InRect a b A c d C x y) :
    |J.B.eval (J.v1 x y) (J.v2 x y) - J.g.eval x y| ≤ en / ed * x ^ J.w := by
  induction tree generalizing a b A c d C with
  | leaf z => exact cert_sound hfy hBy hry hed hb hA h hr
  | out z i g k => exact absurd hcon (out_sound hfy hBy hA h hr)
  | skip =>
    exfalso
    change and (Nat.ble b a) (and (Nat.ble d c) (beyond (Nat.sub a b) A (Nat.sub c d) (Nat.mul 2 d) C lim)) = true at h
    simp only [Bool.and_eq_true, Nat.sub_eq, Nat.mul_eq] at h
    have hA' : (0 : ℝ) < A := by exact_mod_cast hA
    have hC' : (0 : ℝ) < C := by exact_mod_cast hC
    have h1 := abs_le.1 hr.1
    have h2 := abs_le.1 hr.2
    refine beyond_sound hA hC h.2.2 hl ?_ ?_ ?_
    · rw [div_le_iff₀ hA', Nat.cast_sub hb]; linarith
    · rw [div_le_iff₀ hC', Nat.cast_sub hd]; linarith
    · rw [le_div_iff₀ hC', Nat.cast_sub hd]; push_cast; linarith
  | sx l r ihl ihr =>
    change and (checkC J D en ed lim l (Nat.sub (Nat.mul 2 a) b) b (Nat.mul 2 A) c d C)
      (checkC J D en ed lim r (Nat.add (Nat.mul 2 a) b) b (Nat.mul 2 A) c d C) = true at h
    simp only [Bool.and_eq_true, Nat.sub_eq, Nat.mul_eq, Nat.add_eq] at h
    have h1 := abs_le.1 hr.1
    rcases le_total (A * x) a with hm | hm
    · refine ihl (by omega) hd (by omega) hC h.1 ⟨?_, hr.2⟩
      rw [Nat.cast_sub (by omega), abs_le]; push_cast
      constructor <;> linarith
    · refine ihr (by omega) hd (by omega) hC h.2 ⟨?_, hr.2⟩
      rw [abs_le]; push_cast
      constructor <;> linarith
  | sy l r ihl ihr =>
    change and (checkC J D en ed lim l a b A (Nat.sub (Nat.mul 2 c) d) d (Nat.mul 2 C))
      (checkC J D en ed lim r a b A (Nat.add (Nat.mul 2 c) d) d (Nat.mul 2 C)) = true at h
    simp only [Bool.and_eq_true, Nat.sub_eq, Nat.mul_eq, Nat.add_eq] at h
    have h1 := abs_le.1 hr.2
    rcases le_total (C * y) c with hm | hm
    · refine ihl hb (by omega) hA (by omega) h.1 ⟨hr.1, ?_⟩
      rw [Nat.cast_sub (by omega), abs_le]; push_cast
      constructor <;> linarith
    · refine ihr hb (by omega) hA (by omega) h.2 ⟨hr.1, ?_⟩
      rw [abs_le]; push_cast
      constructor <;> linarith

end PyX.Kron
