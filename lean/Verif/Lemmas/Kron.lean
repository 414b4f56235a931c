import Mathlib.Algebra.BigOperators.Intervals
import Mathlib.Algebra.Order.BigOperators.Ring.Finset
import Mathlib.Algebra.Polynomial.Eval.Degree
import Mathlib.Data.Nat.Choose.Sum
import Mathlib.Data.Real.Basic
import Mathlib.Tactic.Linarith
import Mathlib.Tactic.LinearCombination
import Mathlib.Tactic.Ring
import Mathlib.Tactic.FieldSimp
import Mathlib.Tactic.Positivity

/-!
# A checker for the sign of a polynomial in two variables on a rectangle

The polynomial is an expression `E` built from lists of monomials `n xᴵ yᴶ` with natural coefficients by addition,
subtraction and multiplication. On the rectangle `x = (a + b h)/A`, `y = (c + d k)/C` with `0 ≤ h, k ≤ 1` it becomes a
difference of two polynomials in `h`, `k` with natural coefficients. The checker packs lower bounds of the low
coefficients of each into one natural number (evaluation at large powers of two), reads them off as digits and
compares. All its operations are those on natural numbers that the kernel evaluates on literals, so that a check is
run by the kernel.

If the polynomials in `h`, `k` have coefficients `p i j` and `n i j`, the difference is at least
`p 0 0 + Σ min(p i j, n i j) - Σ n i j`, where the first sum runs over any set of `(i, j) ≠ (0, 0)`.
-/

namespace PyX.Kron

open Finset

/-- a monomial `n xᴵ yᴶ` -/
abbrev Mono := ℕ × ℕ × ℕ

noncomputable def evalN (ts : List Mono) (x y : ℝ) : ℝ :=
  (ts.map fun t => (t.1 : ℝ) * x ^ t.2.1 * y ^ t.2.2).sum

/-- positive and negative part -/
abbrev Two := ℕ × ℕ

/-- the coefficients of a polynomial in two variables, for each exponent of the first those for the exponents of the second -/
abbrev Rows := List (List Two)

/-- an expression; `mono` is the difference of two lists, with bounds for the exponents; `loc` is a polynomial in `A x - a`
and `C y - c`, with bounds for its degrees; `norm` changes nothing, but makes the checker cancel the common part of the
coefficients; `pad` raises the bounds for the exponents -/
inductive E where
  | mono (pos neg : List Mono) (KX KY : ℕ)
  | loc (a A c C : ℕ) (q : Rows) (DX DY : ℕ)
  | add (e f : E)
  | sub (e f : E)
  | mul (e f : E)
  | norm (e : E)
  | pad (i j : ℕ) (e : E)

noncomputable def evalRow (y : ℝ) : List Two → ℝ
  | [] => 0
  | c :: t => ((c.1 : ℝ) - c.2) + y * evalRow y t

noncomputable def evalRows (x y : ℝ) : Rows → ℝ
  | [] => 0
  | r :: t => evalRow y r + x * evalRows x y t

noncomputable def E.eval (x y : ℝ) : E → ℝ
  | mono pos neg _ _ => evalN pos x y - evalN neg x y
  | loc a A c C q _ _ => evalRows (A * x - a) (C * y - c) q
  | add e f => e.eval x y + f.eval x y
  | sub e f => e.eval x y - f.eval x y
  | mul e f => e.eval x y * f.eval x y
  | norm e => e.eval x y
  | pad _ _ e => e.eval x y

/-! ## The program -/

/-- `m` terms of `(a + u)^I`, from that with `u^i` on, whose binomial coefficient is `c` -/
noncomputable def binP (a u I m : ℕ) : ℕ → ℕ → ℕ :=
  Nat.rec (motive := fun _ => ℕ → ℕ → ℕ) (fun _ _ => 0)
    (fun _ ih i c => Nat.add (Nat.mul c (Nat.mul (Nat.pow a (Nat.sub I i)) (Nat.pow u i)))
      (ih (Nat.succ i) (Nat.div (Nat.mul c (Nat.sub I i)) (Nat.succ i)))) m

/-- the first `m` terms of `A^(K-I) (a + b W)^I` -/
noncomputable def pw (a b A W m K I : ℕ) : ℕ :=
  Nat.mul (Nat.pow A (Nat.sub K I)) (binP a (Nat.mul b W) I (Nat.sub m (Nat.sub m (Nat.succ I))) 0 1)

def pw1 (a b A K I : ℕ) : ℕ := Nat.mul (Nat.pow A (Nat.sub K I)) (Nat.pow (Nat.add a b) I)

def pack (X Y : ℕ → ℕ) : List Mono → ℕ
  | [] => 0
  | (n, I, J) :: t => Nat.add (Nat.mul n (Nat.mul (X I) (Y J))) (pack X Y t)

def mn (p n : ℕ) : ℕ := Nat.sub p (Nat.sub p n)

def minDig (V : ℕ) : ℕ → ℕ → ℕ → ℕ
  | 0, _, _ => 0
  | m + 1, p, n => Nat.add (mn (Nat.mod p V) (Nat.mod n V)) (minDig V m (Nat.div p V) (Nat.div n V))

def minRow (V W my : ℕ) : ℕ → ℕ → ℕ → ℕ
  | 0, _, _ => 0
  | m + 1, p, n => Nat.add (minDig V my (Nat.mod p W) (Nat.mod n W)) (minRow V W my m (Nat.div p W) (Nat.div n W))

/-- the common part of two packed numbers -/
def minPack (V : ℕ) : ℕ → ℕ → ℕ → ℕ
  | 0, _, _ => 0
  | m + 1, p, n =>
    Nat.add (mn (Nat.mod p V) (Nat.mod n V)) (Nat.mul V (minPack V m (Nat.div p V) (Nat.div n V)))

def minPackRow (V W my : ℕ) : ℕ → ℕ → ℕ → ℕ
  | 0, _, _ => 0
  | m + 1, p, n => Nat.add (minPack V my (Nat.mod p W) (Nat.mod n W))
      (Nat.mul W (minPackRow V W my m (Nat.div p W) (Nat.div n W)))

/-- all exponents are within the bounds -/
def okTerms (KX KY : ℕ) : List Mono → Bool
  | [] => true
  | (_, I, J) :: t => and (Nat.ble I KX) (and (Nat.ble J KY) (okTerms KX KY t))

def Two.add (x y : Two) : Two := (Nat.add x.1 y.1, Nat.add x.2 y.2)
def Two.sub (x y : Two) : Two := (Nat.add x.1 y.2, Nat.add x.2 y.1)
def Two.scale (k : ℕ) (x : Two) : Two := (Nat.mul k x.1, Nat.mul k x.2)
def Two.mul (x y : Two) : Two :=
  (Nat.add (Nat.mul x.1 y.1) (Nat.mul x.2 y.2), Nat.add (Nat.mul x.1 y.2) (Nat.mul x.2 y.1))

/-- the coefficients of a polynomial, packed -/
noncomputable def rowPack (v : ℕ) (r : List Two) : Two :=
  List.rec (motive := fun _ => Two) (0, 0) (fun c _ ih => (Nat.add c.1 (Nat.mul v ih.1), Nat.add c.2 (Nat.mul v ih.2))) r

noncomputable def rowsPack (u v : ℕ) (q : Rows) : Two :=
  List.rec (motive := fun _ => Two) (0, 0)
    (fun r _ ih => (Nat.add (rowPack v r).1 (Nat.mul u ih.1), Nat.add (rowPack v r).2 (Nat.mul u ih.2))) q

/-- the degrees are within the bounds -/
noncomputable def okRow (r : List Two) : ℕ → Bool :=
  List.rec (motive := fun _ => ℕ → Bool) (fun _ => true) (fun _ _ ih n => and (Nat.ble 1 n) (ih (Nat.sub n 1))) r

noncomputable def okRows (m : ℕ) (q : Rows) : ℕ → Bool :=
  List.rec (motive := fun _ => ℕ → Bool) (fun _ => true)
    (fun r _ ih n => and (okRow r m) (and (Nat.ble 1 n) (ih (Nat.sub n 1)))) q

namespace E

/-- largest exponents -/
def kx : E → ℕ
  | mono _ _ K _ => K
  | loc _ _ _ _ _ _ _ => 0
  | add e _ => e.kx
  | sub e _ => e.kx
  | mul e f => Nat.add e.kx f.kx
  | norm e => e.kx
  | pad i _ e => Nat.add i e.kx
def ky : E → ℕ
  | mono _ _ _ K => K
  | loc _ _ _ _ _ _ _ => 0
  | add e _ => e.ky
  | sub e _ => e.ky
  | mul e f => Nat.add e.ky f.ky
  | norm e => e.ky
  | pad _ j e => Nat.add j e.ky

noncomputable def ok : E → Bool
  | mono pos neg KX KY => and (okTerms KX KY pos) (okTerms KX KY neg)
  | loc _ _ _ _ q DX DY => okRows (Nat.succ DY) q (Nat.succ DX)
  | add e f | sub e f => and (Nat.beq e.kx f.kx) (and (Nat.beq e.ky f.ky) (and e.ok f.ok))
  | mul e f => and e.ok f.ok
  | norm e => e.ok
  | pad _ _ e => e.ok

/-- polynomials in local coordinates belong to the rectangle -/
def at' (a A c C : ℕ) : E → Bool
  | mono _ _ _ _ => true
  | loc a' A' c' C' _ _ _ => and (Nat.beq a' a) (and (Nat.beq A' A) (and (Nat.beq c' c) (Nat.beq C' C)))
  | add e f | sub e f | mul e f => and (e.at' a A c C) (f.at' a A c C)
  | norm e => e.at' a A c C
  | pad _ _ e => e.at' a A c C

/-- how many coefficients are kept in one direction -/
def dig (m : ℕ) (k : ℕ → ℕ → ℕ) : E → ℕ
  | mono _ _ KX KY => mn m (Nat.succ (k KX KY))
  | loc _ _ _ _ _ DX DY => Nat.succ (k DX DY)
  | add e f | sub e f => Nat.add (e.dig m k) (Nat.sub (f.dig m k) (e.dig m k))
  | mul e f => Nat.sub (Nat.add (e.dig m k) (f.dig m k)) 1
  | norm e => e.dig m k
  | pad _ _ e => e.dig m k

end E

/-- the sums of the coefficients -/
noncomputable def tot (a b A c d C : ℕ) : E → Two
  | .mono pos neg KX KY => (pack (pw1 a b A KX) (pw1 c d C KY) pos, pack (pw1 a b A KX) (pw1 c d C KY) neg)
  | .loc _ _ _ _ q _ _ => rowsPack b d q
  | .add e f => (tot a b A c d C e).add (tot a b A c d C f)
  | .sub e f => (tot a b A c d C e).sub (tot a b A c d C f)
  | .mul e f => (tot a b A c d C e).mul (tot a b A c d C f)
  | .norm e => tot a b A c d C e
  | .pad i j e => (tot a b A c d C e).scale (Nat.mul (Nat.pow A i) (Nat.pow C j))

def Two.sum (x : Two) : ℕ := Nat.add x.1 x.2

/-- an upper bound for the coefficients that have to be read -/
noncomputable def peak (a b A c d C : ℕ) : E → ℕ
  | .mono _ _ _ _ => 0
  | .loc _ _ _ _ _ _ _ => 0
  | .add e f | .sub e f | .mul e f => Nat.add (peak a b A c d C e) (peak a b A c d C f)
  | .norm e => Nat.add (peak a b A c d C e) (tot a b A c d C e).sum
  | .pad _ _ e => peak a b A c d C e

/-- packed coefficients and their sums -/
abbrev Four := Two × Two

def Four.add (x y : Four) : Four := (x.1.add y.1, x.2.add y.2)
def Four.sub (x y : Four) : Four := (x.1.sub y.1, x.2.sub y.2)
def Four.mul (x y : Four) : Four := (x.1.mul y.1, x.2.mul y.2)
def Four.scale (k : ℕ) (x : Four) : Four := (x.1.scale k, x.2.scale k)
def Four.norm (V W dx dy : ℕ) : Four → Four
  | ((p, n), (P, N)) =>
    ((Nat.sub p (minPackRow V W dy dx p n), Nat.sub n (minPackRow V W dy dx p n)),
      (Nat.sub P (minRow V W dy dx p n), Nat.sub N (minRow V W dy dx p n)))

noncomputable def run (mx my V W a b A c d C : ℕ) : E → Four
  | .mono pos neg KX KY =>
    ((pack (pw a b A W (mn mx (Nat.succ KX)) KX) (pw c d C V (mn my (Nat.succ KY)) KY) pos,
      pack (pw a b A W (mn mx (Nat.succ KX)) KX) (pw c d C V (mn my (Nat.succ KY)) KY) neg),
    (pack (pw1 a b A KX) (pw1 c d C KY) pos, pack (pw1 a b A KX) (pw1 c d C KY) neg))
  | .loc _ _ _ _ q _ _ => (rowsPack (Nat.mul b W) (Nat.mul d V) q, rowsPack b d q)
  | .add e f => (run mx my V W a b A c d C e).add (run mx my V W a b A c d C f)
  | .sub e f => (run mx my V W a b A c d C e).sub (run mx my V W a b A c d C f)
  | .mul e f => (run mx my V W a b A c d C e).mul (run mx my V W a b A c d C f)
  | .norm e => (run mx my V W a b A c d C e).norm V W (e.dig mx fun k _ => k) (e.dig my fun _ k => k)
  | .pad i j e => (run mx my V W a b A c d C e).scale (Nat.mul (Nat.pow A i) (Nat.pow C j))

/-! ### The same functions, written with recursors

The kernel evaluates these much faster than definitions by structural recursion. -/

section fast

noncomputable def packR (X Y : ℕ → ℕ) (l : List Mono) : ℕ :=
  List.rec (motive := fun _ => ℕ) 0
    (fun t _ ih => Prod.rec (fun n u => Prod.rec (fun I J => Nat.add (Nat.mul n (Nat.mul (X I) (Y J))) ih) u) t) l
noncomputable def minDigR (V m : ℕ) : ℕ → ℕ → ℕ :=
  Nat.rec (motive := fun _ => ℕ → ℕ → ℕ) (fun _ _ => 0)
    (fun _ ih p n => Nat.add (mn (Nat.mod p V) (Nat.mod n V)) (ih (Nat.div p V) (Nat.div n V))) m
noncomputable def minRowR (V W my m : ℕ) : ℕ → ℕ → ℕ :=
  Nat.rec (motive := fun _ => ℕ → ℕ → ℕ) (fun _ _ => 0)
    (fun _ ih p n => Nat.add (minDigR V my (Nat.mod p W) (Nat.mod n W)) (ih (Nat.div p W) (Nat.div n W))) m
noncomputable def minPackR (V m : ℕ) : ℕ → ℕ → ℕ :=
  Nat.rec (motive := fun _ => ℕ → ℕ → ℕ) (fun _ _ => 0)
    (fun _ ih p n => Nat.add (mn (Nat.mod p V) (Nat.mod n V)) (Nat.mul V (ih (Nat.div p V) (Nat.div n V)))) m
noncomputable def minPackRowR (V W my m : ℕ) : ℕ → ℕ → ℕ :=
  Nat.rec (motive := fun _ => ℕ → ℕ → ℕ) (fun _ _ => 0)
    (fun _ ih p n => Nat.add (minPackR V my (Nat.mod p W) (Nat.mod n W)) (Nat.mul W (ih (Nat.div p W) (Nat.div n W)))) m
noncomputable def okTermsR (KX KY : ℕ) (l : List Mono) : Bool :=
  List.rec (motive := fun _ => Bool) true (fun t _ ih => and (Nat.ble t.2.1 KX) (and (Nat.ble t.2.2 KY) ih)) l
noncomputable def kxR (e : E) : ℕ :=
  E.rec (motive := fun _ => ℕ) (fun _ _ K _ => K) (fun _ _ _ _ _ _ _ => 0) (fun _ _ i _ => i) (fun _ _ i _ => i)
    (fun _ _ i j => Nat.add i j) (fun _ i => i) (fun k _ _ i => Nat.add k i) e
noncomputable def kyR (e : E) : ℕ :=
  E.rec (motive := fun _ => ℕ) (fun _ _ _ K => K) (fun _ _ _ _ _ _ _ => 0) (fun _ _ i _ => i) (fun _ _ i _ => i)
    (fun _ _ i j => Nat.add i j) (fun _ i => i) (fun _ k _ i => Nat.add k i) e
noncomputable def okR (e : E) : Bool :=
  E.rec (motive := fun _ => Bool) (fun pos neg KX KY => and (okTermsR KX KY pos) (okTermsR KX KY neg))
    (fun _ _ _ _ q DX DY => okRows (Nat.succ DY) q (Nat.succ DX))
    (fun e f i j => and (Nat.beq (kxR e) (kxR f)) (and (Nat.beq (kyR e) (kyR f)) (and i j)))
    (fun e f i j => and (Nat.beq (kxR e) (kxR f)) (and (Nat.beq (kyR e) (kyR f)) (and i j)))
    (fun _ _ i j => and i j) (fun _ i => i) (fun _ _ _ i => i) e
noncomputable def atR (a A c C : ℕ) (e : E) : Bool :=
  E.rec (motive := fun _ => Bool) (fun _ _ _ _ => true)
    (fun a' A' c' C' _ _ _ => and (Nat.beq a' a) (and (Nat.beq A' A) (and (Nat.beq c' c) (Nat.beq C' C))))
    (fun _ _ i j => and i j) (fun _ _ i j => and i j) (fun _ _ i j => and i j) (fun _ i => i) (fun _ _ _ i => i) e
noncomputable def digxR (m : ℕ) (e : E) : ℕ :=
  E.rec (motive := fun _ => ℕ) (fun _ _ K _ => mn m (Nat.succ K)) (fun _ _ _ _ _ K _ => Nat.succ K)
    (fun _ _ i j => Nat.add i (Nat.sub j i)) (fun _ _ i j => Nat.add i (Nat.sub j i))
    (fun _ _ i j => Nat.sub (Nat.add i j) 1) (fun _ i => i) (fun _ _ _ i => i) e
noncomputable def digyR (m : ℕ) (e : E) : ℕ :=
  E.rec (motive := fun _ => ℕ) (fun _ _ _ K => mn m (Nat.succ K)) (fun _ _ _ _ _ _ K => Nat.succ K)
    (fun _ _ i j => Nat.add i (Nat.sub j i)) (fun _ _ i j => Nat.add i (Nat.sub j i))
    (fun _ _ i j => Nat.sub (Nat.add i j) 1) (fun _ i => i) (fun _ _ _ i => i) e
noncomputable def totR (a b A c d C : ℕ) (e : E) : Two :=
  E.rec (motive := fun _ => Two)
    (fun pos neg KX KY => (packR (pw1 a b A KX) (pw1 c d C KY) pos, packR (pw1 a b A KX) (pw1 c d C KY) neg))
    (fun _ _ _ _ q _ _ => rowsPack b d q)
    (fun _ _ i j => i.add j) (fun _ _ i j => i.sub j) (fun _ _ i j => i.mul j) (fun _ i => i)
    (fun k l _ i => i.scale (Nat.mul (Nat.pow A k) (Nat.pow C l))) e
noncomputable def peakR (a b A c d C : ℕ) (e : E) : ℕ :=
  E.rec (motive := fun _ => ℕ) (fun _ _ _ _ => 0) (fun _ _ _ _ _ _ _ => 0) (fun _ _ i j => Nat.add i j)
    (fun _ _ i j => Nat.add i j) (fun _ _ i j => Nat.add i j) (fun e i => Nat.add i (totR a b A c d C e).sum) (fun _ _ _ i => i) e
noncomputable def Four.normR (V W dx dy : ℕ) (x : Four) : Four :=
  ((Nat.sub x.1.1 (minPackRowR V W dy dx x.1.1 x.1.2), Nat.sub x.1.2 (minPackRowR V W dy dx x.1.1 x.1.2)),
    (Nat.sub x.2.1 (minRowR V W dy dx x.1.1 x.1.2), Nat.sub x.2.2 (minRowR V W dy dx x.1.1 x.1.2)))
noncomputable def runR (mx my V W a b A c d C : ℕ) (e : E) : Four :=
  E.rec (motive := fun _ => Four)
    (fun pos neg KX KY =>
      ((packR (pw a b A W (mn mx (Nat.succ KX)) KX) (pw c d C V (mn my (Nat.succ KY)) KY) pos,
        packR (pw a b A W (mn mx (Nat.succ KX)) KX) (pw c d C V (mn my (Nat.succ KY)) KY) neg),
      (packR (pw1 a b A KX) (pw1 c d C KY) pos, packR (pw1 a b A KX) (pw1 c d C KY) neg)))
    (fun _ _ _ _ q _ _ => (rowsPack (Nat.mul b W) (Nat.mul d V) q, rowsPack b d q))
    (fun _ _ i j => i.add j) (fun _ _ i j => i.sub j) (fun _ _ i j => i.mul j)
    (fun e i => i.normR V W (digxR mx e) (digyR my e))
    (fun k l _ i => i.scale (Nat.mul (Nat.pow A k) (Nat.pow C l))) e

theorem packR_eq (X Y : ℕ → ℕ) (l : List Mono) : packR X Y l = pack X Y l := by
  induction l with
  | nil => rfl
  | cons t l ih =>
    obtain ⟨n, I, J⟩ := t
    show Nat.add _ (packR X Y l) = _
    rw [ih]; rfl
theorem minDigR_eq (V m p n : ℕ) : minDigR V m p n = minDig V m p n := by
  induction m generalizing p n with
  | zero => rfl
  | succ m ih =>
    show Nat.add _ (minDigR V m _ _) = _
    rw [ih]; rfl
theorem minRowR_eq (V W my m p n : ℕ) : minRowR V W my m p n = minRow V W my m p n := by
  induction m generalizing p n with
  | zero => rfl
  | succ m ih =>
    show Nat.add (minDigR V my _ _) (minRowR V W my m _ _) = _
    rw [ih, minDigR_eq]; rfl
theorem minPackR_eq (V m p n : ℕ) : minPackR V m p n = minPack V m p n := by
  induction m generalizing p n with
  | zero => rfl
  | succ m ih =>
    show Nat.add _ (Nat.mul _ (minPackR V m _ _)) = _
    rw [ih]; rfl
theorem minPackRowR_eq (V W my m p n : ℕ) : minPackRowR V W my m p n = minPackRow V W my m p n := by
  induction m generalizing p n with
  | zero => rfl
  | succ m ih =>
    show Nat.add (minPackR V my _ _) (Nat.mul _ (minPackRowR V W my m _ _)) = _
    rw [ih, minPackR_eq]; rfl
theorem okTermsR_eq (KX KY : ℕ) (l : List Mono) : okTermsR KX KY l = okTerms KX KY l := by
  induction l with
  | nil => rfl
  | cons t l ih =>
    show and _ (and _ (okTermsR KX KY l)) = _
    rw [ih]; rfl
theorem kxR_eq (e : E) : kxR e = e.kx := by
  induction e with
  | mono | loc => rfl
  | add e f ie jf | sub e f ie jf => exact ie
  | mul e f ie jf =>
    show Nat.add (kxR e) (kxR f) = _
    rw [ie, jf]; rfl
  | norm e ie => exact ie
  | pad k l e ie =>
    show Nat.add k (kxR e) = _
    rw [ie]; rfl
theorem kyR_eq (e : E) : kyR e = e.ky := by
  induction e with
  | mono | loc => rfl
  | add e f ie jf | sub e f ie jf => exact ie
  | mul e f ie jf =>
    show Nat.add (kyR e) (kyR f) = _
    rw [ie, jf]; rfl
  | norm e ie => exact ie
  | pad k l e ie =>
    show Nat.add l (kyR e) = _
    rw [ie]; rfl
theorem okR_eq (e : E) : okR e = e.ok := by
  induction e with
  | mono pos neg KX KY =>
    show and (okTermsR KX KY pos) (okTermsR KX KY neg) = _
    rw [okTermsR_eq, okTermsR_eq]; rfl
  | loc => rfl
  | add e f ie jf | sub e f ie jf =>
    show and (Nat.beq (kxR e) (kxR f)) (and (Nat.beq (kyR e) (kyR f)) (and (okR e) (okR f))) = _
    rw [ie, jf, kxR_eq, kxR_eq, kyR_eq, kyR_eq]; rfl
  | mul e f ie jf =>
    show and (okR e) (okR f) = _
    rw [ie, jf]; rfl
  | norm e ie => exact ie
  | pad k l e ie => exact ie
theorem atR_eq (a A c C : ℕ) (e : E) : atR a A c C e = e.at' a A c C := by
  induction e with
  | mono | loc => rfl
  | add e f ie jf | sub e f ie jf | mul e f ie jf =>
    show and (atR a A c C e) (atR a A c C f) = _
    rw [ie, jf]; rfl
  | norm e ie => exact ie
  | pad k l e ie => exact ie
theorem digxR_eq (m : ℕ) (e : E) : digxR m e = e.dig m fun k _ => k := by
  induction e with
  | mono | loc => rfl
  | add e f ie jf | sub e f ie jf =>
    show Nat.add (digxR m e) (Nat.sub (digxR m f) (digxR m e)) = _
    rw [ie, jf]; rfl
  | mul e f ie jf =>
    show Nat.sub (Nat.add (digxR m e) (digxR m f)) 1 = _
    rw [ie, jf]; rfl
  | norm e ie => exact ie
  | pad k l e ie => exact ie
theorem digyR_eq (m : ℕ) (e : E) : digyR m e = e.dig m fun _ k => k := by
  induction e with
  | mono | loc => rfl
  | add e f ie jf | sub e f ie jf =>
    show Nat.add (digyR m e) (Nat.sub (digyR m f) (digyR m e)) = _
    rw [ie, jf]; rfl
  | mul e f ie jf =>
    show Nat.sub (Nat.add (digyR m e) (digyR m f)) 1 = _
    rw [ie, jf]; rfl
  | norm e ie => exact ie
  | pad k l e ie => exact ie
theorem totR_eq (a b A c d C : ℕ) (e : E) : totR a b A c d C e = tot a b A c d C e := by
  induction e with
  | mono pos neg KX KY =>
    show (packR (pw1 a b A KX) (pw1 c d C KY) pos, packR (pw1 a b A KX) (pw1 c d C KY) neg) = _
    rw [packR_eq, packR_eq]; rfl
  | loc => rfl
  | add e f ie jf =>
    show (totR a b A c d C e).add (totR a b A c d C f) = _
    rw [ie, jf]; rfl
  | sub e f ie jf =>
    show (totR a b A c d C e).sub (totR a b A c d C f) = _
    rw [ie, jf]; rfl
  | mul e f ie jf =>
    show (totR a b A c d C e).mul (totR a b A c d C f) = _
    rw [ie, jf]; rfl
  | norm e ie => exact ie
  | pad k l e ie =>
    show (totR a b A c d C e).scale _ = _
    rw [ie]; rfl
theorem peakR_eq (a b A c d C : ℕ) (e : E) : peakR a b A c d C e = peak a b A c d C e := by
  induction e with
  | mono | loc => rfl
  | add e f ie jf | sub e f ie jf | mul e f ie jf =>
    show Nat.add (peakR a b A c d C e) (peakR a b A c d C f) = _
    rw [ie, jf]; rfl
  | norm e ie =>
    show Nat.add (peakR a b A c d C e) (totR a b A c d C e).sum = _
    rw [ie, totR_eq]; rfl
  | pad k l e ie => exact ie
theorem Four.normR_eq (V W dx dy : ℕ) (x : Four) : x.normR V W dx dy = x.norm V W dx dy := by
  obtain ⟨⟨p, n⟩, P, N⟩ := x
  simp only [Four.normR, Four.norm, minPackRowR_eq, minRowR_eq]
theorem runR_eq (mx my V W a b A c d C : ℕ) (e : E) : runR mx my V W a b A c d C e = run mx my V W a b A c d C e := by
  induction e with
  | mono pos neg KX KY =>
    show ((packR _ _ pos, packR _ _ neg), (packR _ _ pos, packR _ _ neg)) = _
    simp only [packR_eq]; rfl
  | loc => rfl
  | add e f ie jf =>
    show (runR mx my V W a b A c d C e).add (runR mx my V W a b A c d C f) = _
    rw [ie, jf]; rfl
  | sub e f ie jf =>
    show (runR mx my V W a b A c d C e).sub (runR mx my V W a b A c d C f) = _
    rw [ie, jf]; rfl
  | mul e f ie jf =>
    show (runR mx my V W a b A c d C e).mul (runR mx my V W a b A c d C f) = _
    rw [ie, jf]; rfl
  | norm e ie =>
    show (runR mx my V W a b A c d C e).normR V W (digxR mx e) (digyR my e) = _
    rw [ie, Four.normR_eq, digxR_eq, digyR_eq]; rfl
  | pad k l e ie =>
    show (runR mx my V W a b A c d C e).scale _ = _
    rw [ie]; rfl

end fast

/-- the comparison -/
noncomputable def final (V W dx dy : ℕ) (x : Four) : Bool :=
  Nat.ble (Nat.succ (Nat.add x.2.2 (mn (Nat.mod x.1.1 V) (Nat.mod x.1.2 V))))
    (Nat.add (Nat.mod x.1.1 V) (minRowR V W dy dx x.1.1 x.1.2))

noncomputable def leaf2 (mx my a b A c d C : ℕ) (e : E) (S : ℕ) : Bool :=
  let V := Nat.pow 2 (Nat.succ (Nat.log2 S))
  let dy := digyR my e
  let dx := digxR mx e
  let W := Nat.pow V dy
  and (Nat.ble (Nat.succ S) V) (final V W dx dy (runR mx my V W a b A c d C e))

/-- the test on one rectangle `[a/A, (a+b)/A] × [c/C, (c+d)/C]` -/
noncomputable def leaf (mx my : ℕ) (e : E) (a b A c d C : ℕ) : Bool :=
  and (Nat.ble 1 A) (and (Nat.ble 1 C) (and (atR a A c C e)
    (leaf2 mx my a b A c d C e (Nat.add (totR a b A c d C e).sum (peakR a b A c d C e)))))

/-- a limit of the domain: `y ≤ yn/yd` (or `y ≥ yn/yd`, if `up`) implies `x ≤ xn/xd` -/
structure Lim where
  up : Bool
  xn : ℕ
  xd : ℕ
  yn : ℕ
  yd : ℕ

/-- the rectangle lies beyond the limit -/
def Lim.beyond (a A c d C : ℕ) : Lim → Bool
  | ⟨up, xn, xd, yn, yd⟩ => and (Nat.ble (Nat.succ (Nat.mul xn A)) (Nat.mul a xd))
      (cond up (Nat.ble (Nat.mul yn C) (Nat.mul c yd)) (Nat.ble (Nat.mul (Nat.add c d) yd) (Nat.mul yn C)))

def beyond (a A c d C : ℕ) : List Lim → Bool
  | [] => false
  | l :: t => or (l.beyond a A c d C) (beyond a A c d C t)

/-- how a rectangle is halved, in `x` or in `y`; `skip` marks rectangles outside the domain -/
inductive Tree where
  | leaf
  | skip
  | sx (l r : Tree)
  | sy (l r : Tree)

noncomputable def check (mx my : ℕ) (e : E) (lim : List Lim) : Tree → ℕ → ℕ → ℕ → ℕ → ℕ → ℕ → Bool
  | .leaf, a, b, A, c, d, C => leaf mx my e a b A c d C
  | .skip, a, _, A, c, d, C => beyond a A c d C lim
  | .sx l r, a, b, A, c, d, C =>
      and (check mx my e lim l (Nat.mul 2 a) b (Nat.mul 2 A) c d C)
        (check mx my e lim r (Nat.add (Nat.mul 2 a) b) b (Nat.mul 2 A) c d C)
  | .sy l r, a, b, A, c, d, C =>
      and (check mx my e lim l a b A (Nat.mul 2 c) d (Nat.mul 2 C))
        (check mx my e lim r a b A (Nat.add (Nat.mul 2 c) d) d (Nat.mul 2 C))

theorem check_sx {mx my : ℕ} {e : E} {lim : List Lim} {l r : Tree} {a b A c d C : ℕ}
    (hl : check mx my e lim l (Nat.mul 2 a) b (Nat.mul 2 A) c d C = true)
    (hr : check mx my e lim r (Nat.add (Nat.mul 2 a) b) b (Nat.mul 2 A) c d C = true) :
    check mx my e lim (.sx l r) a b A c d C = true := by
  rw [check, hl, hr]; rfl

theorem check_sy {mx my : ℕ} {e : E} {lim : List Lim} {l r : Tree} {a b A c d C : ℕ}
    (hl : check mx my e lim l a b A (Nat.mul 2 c) d (Nat.mul 2 C) = true)
    (hr : check mx my e lim r a b A (Nat.add (Nat.mul 2 c) d) d (Nat.mul 2 C) = true) :
    check mx my e lim (.sy l r) a b A c d C = true := by
  rw [check, hl, hr]; rfl

/-! ## Its correctness -/

/-- coefficient `i` of `(a + b h)^I` -/
def bc (a b I i : ℕ) : ℕ := I.choose i * a ^ (I - i) * b ^ i

theorem bc_sum {R : Type} [CommSemiring R] (a b I : ℕ) (h : R) {X : ℕ} (hX : I < X) :
    ((a : R) + b * h) ^ I = ∑ i ∈ range X, (bc a b I i : R) * h ^ i := by
  rw [add_comm, add_pow]
  have : range (I + 1) ⊆ range X := by
    intro i hi; simp only [mem_range] at *; omega
  rw [sum_subset this]
  · refine (sum_congr rfl fun i _ => ?_)
    rw [bc]; push_cast; ring
  · intro i _ hi
    rw [mem_range, not_lt] at hi
    rw [Nat.choose_eq_zero_of_lt (by omega)]; simp

theorem sum_lt_pow {V L : ℕ} {c : ℕ → ℕ} (h : ∀ r, c r < V) : ∑ r ∈ range L, c r * V ^ r < V ^ L := by
  induction L with
  | zero => simp
  | succ L ih =>
    rw [sum_range_succ, pow_succ']
    have : c L + 1 ≤ V := h L
    calc _ < V ^ L + c L * V ^ L := by omega
      _ = (c L + 1) * V ^ L := by ring
      _ ≤ V * V ^ L := Nat.mul_le_mul_right _ this

theorem sum_shift {V L : ℕ} (c : ℕ → ℕ) :
    ∑ r ∈ range (L + 1), c r * V ^ r = c 0 + V * ∑ r ∈ range L, c (r + 1) * V ^ r := by
  rw [sum_range_succ', mul_sum, add_comm, pow_zero, mul_one]
  congr 1
  exact sum_congr rfl fun r _ => by ring

theorem digit {V : ℕ} {c N : ℕ} (h : c < V) : (c + V * N) % V = c ∧ (c + V * N) / V = N := by
  constructor
  · rw [Nat.add_mul_mod_self_left, Nat.mod_eq_of_lt h]
  · rw [Nat.add_mul_div_left _ _ (by omega), Nat.div_eq_of_lt h, zero_add]

theorem mn_eq (p n : ℕ) : mn p n = min p n := by
  unfold mn; simp only [Nat.sub_eq]; omega

theorem minDig_eq {V : ℕ} (m : ℕ) (p n : ℕ → ℕ) (hp : ∀ r, p r < V) (hn : ∀ r, n r < V) :
    minDig V m (∑ r ∈ range m, p r * V ^ r) (∑ r ∈ range m, n r * V ^ r) = ∑ r ∈ range m, min (p r) (n r) := by
  induction m generalizing p n with
  | zero => rfl
  | succ m ih =>
    have ep := digit (N := ∑ r ∈ range m, p (r + 1) * V ^ r) (hp 0)
    have en := digit (N := ∑ r ∈ range m, n (r + 1) * V ^ r) (hn 0)
    have e1 : ∀ a b, Nat.mod a b = a % b := fun _ _ => rfl
    have e2 : ∀ a b, Nat.div a b = a / b := fun _ _ => rfl
    rw [minDig, sum_shift, sum_shift, e1, e1, e2, e2, ep.1, ep.2, en.1, en.2,
      ih (fun r => p (r + 1)) (fun r => n (r + 1)) (fun r => hp _) (fun r => hn _), mn_eq, Nat.add_eq,
      sum_range_succ', add_comm]

theorem minPack_eq {V : ℕ} (m : ℕ) (p n : ℕ → ℕ) (hp : ∀ r, p r < V) (hn : ∀ r, n r < V) :
    minPack V m (∑ r ∈ range m, p r * V ^ r) (∑ r ∈ range m, n r * V ^ r) =
      ∑ r ∈ range m, min (p r) (n r) * V ^ r := by
  induction m generalizing p n with
  | zero => rfl
  | succ m ih =>
    have ep := digit (N := ∑ r ∈ range m, p (r + 1) * V ^ r) (hp 0)
    have en := digit (N := ∑ r ∈ range m, n (r + 1) * V ^ r) (hn 0)
    have e1 : ∀ a b, Nat.mod a b = a % b := fun _ _ => rfl
    have e2 : ∀ a b, Nat.div a b = a / b := fun _ _ => rfl
    rw [minPack, sum_shift, sum_shift, e1, e1, e2, e2, ep.1, ep.2, en.1, en.2,
      ih (fun r => p (r + 1)) (fun r => n (r + 1)) (fun r => hp _) (fun r => hn _), mn_eq, Nat.add_eq, Nat.mul_eq,
      sum_shift (fun r => min (p r) (n r))]

/-- the first row of a packed number and the others -/
theorem row {V W my m : ℕ} (hW : V ^ my ≤ W) (p : ℕ → ℕ → ℕ) (hp : ∀ i j, p i j < V) :
    (∑ i ∈ range (m + 1), (∑ j ∈ range my, p i j * V ^ j) * W ^ i) % W = ∑ j ∈ range my, p 0 j * V ^ j ∧
    (∑ i ∈ range (m + 1), (∑ j ∈ range my, p i j * V ^ j) * W ^ i) / W =
      ∑ i ∈ range m, (∑ j ∈ range my, p (i + 1) j * V ^ j) * W ^ i := by
  rw [sum_shift (fun i => ∑ j ∈ range my, p i j * V ^ j)]
  exact digit (lt_of_lt_of_le (sum_lt_pow (hp 0)) hW)

theorem minRow_eq {V W my : ℕ} (hW : V ^ my ≤ W) (m : ℕ) (p n : ℕ → ℕ → ℕ) (hp : ∀ i j, p i j < V)
    (hn : ∀ i j, n i j < V) :
    minRow V W my m (∑ i ∈ range m, (∑ j ∈ range my, p i j * V ^ j) * W ^ i)
      (∑ i ∈ range m, (∑ j ∈ range my, n i j * V ^ j) * W ^ i) =
      ∑ i ∈ range m, ∑ j ∈ range my, min (p i j) (n i j) := by
  induction m generalizing p n with
  | zero => rfl
  | succ m ih =>
    have ep := row (m := m) hW p hp
    have en := row (m := m) hW n hn
    have e1 : ∀ a b, Nat.mod a b = a % b := fun _ _ => rfl
    have e2 : ∀ a b, Nat.div a b = a / b := fun _ _ => rfl
    rw [minRow, e1, e1, e2, e2, ep.1, ep.2, en.1, en.2, minDig_eq my _ _ (hp 0) (hn 0),
      ih (fun i => p (i + 1)) (fun i => n (i + 1)) (fun i => hp _) (fun i => hn _), Nat.add_eq,
      sum_range_succ' (fun i => ∑ j ∈ range my, min (p i j) (n i j)), add_comm]

theorem minPackRow_eq {V W my : ℕ} (hW : V ^ my ≤ W) (m : ℕ) (p n : ℕ → ℕ → ℕ) (hp : ∀ i j, p i j < V)
    (hn : ∀ i j, n i j < V) :
    minPackRow V W my m (∑ i ∈ range m, (∑ j ∈ range my, p i j * V ^ j) * W ^ i)
      (∑ i ∈ range m, (∑ j ∈ range my, n i j * V ^ j) * W ^ i) =
      ∑ i ∈ range m, (∑ j ∈ range my, min (p i j) (n i j) * V ^ j) * W ^ i := by
  induction m generalizing p n with
  | zero => rfl
  | succ m ih =>
    have ep := row (m := m) hW p hp
    have en := row (m := m) hW n hn
    have e1 : ∀ a b, Nat.mod a b = a % b := fun _ _ => rfl
    have e2 : ∀ a b, Nat.div a b = a / b := fun _ _ => rfl
    rw [minPackRow, e1, e1, e2, e2, ep.1, ep.2, en.1, en.2, minPack_eq my _ _ (hp 0) (hn 0),
      ih (fun i => p (i + 1)) (fun i => n (i + 1)) (fun i => hp _) (fun i => hn _), Nat.add_eq, Nat.mul_eq,
      sum_shift (fun i => ∑ j ∈ range my, min (p i j) (n i j) * V ^ j)]

open Polynomial in
/-- a polynomial in `h` (outer) and `k` (inner) at a point of a semiring -/
noncomputable def phi {R : Type} [CommSemiring R] (h k : R) : ℕ[X][X] →+* R :=
  eval₂RingHom (eval₂RingHom (Nat.castRingHom R) k) h

/-- coefficients -/
noncomputable def cf (p : Polynomial (Polynomial ℕ)) (i j : ℕ) : ℕ := (p.coeff i).coeff j

section phi

open Polynomial

variable {R : Type} [CommSemiring R] (h k : R)

theorem phi_X : phi h k X = h := by simp [phi]
theorem phi_CX : phi h k (C X) = k := by simp [phi]

/-- all exponents of the first variable are below `dx`, all of the second below `dy` -/
def Deg (p : ℕ[X][X]) (dx dy : ℕ) : Prop := ∀ i j, dx ≤ i ∨ dy ≤ j → cf p i j = 0

theorem phi_sum {p : ℕ[X][X]} {dx dy : ℕ} (hd : Deg p dx dy) :
    phi h k p = ∑ i ∈ range dx, (∑ j ∈ range dy, (cf p i j : R) * k ^ j) * h ^ i := by
  have hx : p.natDegree < dx ∨ p = 0 := by
    by_cases hp : p = 0
    · exact .inr hp
    · left
      by_contra hc
      rw [not_lt] at hc
      have h1 : p.coeff p.natDegree = 0 := by
        ext j; exact hd _ j (.inl hc)
      exact hp (leadingCoeff_eq_zero.1 h1)
  rcases hx with hx | rfl
  · rw [phi, coe_eval₂RingHom, eval₂_eq_sum_range' _ hx]
    refine sum_congr rfl fun i _ => ?_
    congr 1
    by_cases hq : p.coeff i = 0
    · simp [hq, cf]
    · have hy : (p.coeff i).natDegree < dy := by
        by_contra hc
        rw [not_lt] at hc
        exact hq (leadingCoeff_eq_zero.1 (hd i _ (.inr hc)))
      rw [coe_eval₂RingHom, eval₂_eq_sum_range' _ hy]
      rfl
  · simp [cf]

theorem exists_deg (p : ℕ[X][X]) : ∃ dx dy, Deg p dx dy := by
  refine ⟨p.natDegree + 1, (range (p.natDegree + 1)).sup (fun i => (p.coeff i).natDegree) + 1, ?_⟩
  rintro i j (h | h)
  · simp [cf, coeff_eq_zero_of_natDegree_lt (show p.natDegree < i by omega)]
  · by_cases hi : i < p.natDegree + 1
    · have := le_sup (f := fun i => (p.coeff i).natDegree) (mem_range.2 hi)
      exact coeff_eq_zero_of_natDegree_lt (by omega)
    · simp [cf, coeff_eq_zero_of_natDegree_lt (show p.natDegree < i by omega)]

theorem Deg.mono {p : ℕ[X][X]} {dx dy dx' dy' : ℕ} (hd : Deg p dx dy) (hx : dx ≤ dx') (hy : dy ≤ dy') :
    Deg p dx' dy' := fun i j h => hd i j (by omega)

theorem Deg.add {p q : ℕ[X][X]} {dx dy : ℕ} (hp : Deg p dx dy) (hq : Deg q dx dy) : Deg (p + q) dx dy := by
  intro i j h
  have h1 := hp i j h
  have h2 := hq i j h
  simp only [cf] at *
  simp [h1, h2]

theorem Deg.mul {p q : ℕ[X][X]} {dx dy dx' dy' : ℕ} (hp : Deg p dx dy) (hq : Deg q dx' dy') :
    Deg (p * q) (dx + dx' - 1) (dy + dy' - 1) := by
  intro i j h
  simp only [cf, coeff_mul, finsetSum_coeff]
  refine sum_eq_zero fun a ha => ?_
  rw [mem_antidiagonal] at ha
  refine sum_eq_zero fun b hb => ?_
  rw [mem_antidiagonal] at hb
  rcases h with h | h
  · by_cases c : dx ≤ a.1
    · rw [show (p.coeff a.1).coeff b.1 = 0 from hp _ _ (.inl c), zero_mul]
    · rw [show (q.coeff a.2).coeff b.2 = 0 from hq _ _ (.inl (by omega)), mul_zero]
  · by_cases c : dy ≤ b.1
    · rw [show (p.coeff a.1).coeff b.1 = 0 from hp _ _ (.inr c), zero_mul]
    · rw [show (q.coeff a.2).coeff b.2 = 0 from hq _ _ (.inr (by omega)), mul_zero]

theorem Deg.zero {dx dy : ℕ} : Deg 0 dx dy := fun i j _ => by simp [cf]

theorem Deg.natMul {p : ℕ[X][X]} {dx dy : ℕ} (n : ℕ) (hp : Deg p dx dy) : Deg ((n : ℕ[X][X]) * p) dx dy := by
  intro i j h
  have h1 := hp i j h
  simp only [cf] at *
  rw [← nsmul_eq_mul]
  simp [h1]

/-- `Σ i < m, c i hⁱ` -/
theorem Deg.outer (c : ℕ → ℕ) (m : ℕ) : Deg (∑ i ∈ range m, (c i : ℕ[X][X]) * X ^ i) m 1 := by
  intro i j h
  have e : ∀ b ∈ range m, (((c b : ℕ[X][X]) * X ^ b).coeff i).coeff j = if i = b then (if j = 0 then c b else 0) else 0 := by
    intro b _
    rw [← C_eq_natCast, coeff_C_mul, coeff_X_pow]
    split_ifs with h1 h2
    · rw [mul_one, ← C_eq_natCast, h2, coeff_C_zero]
      rfl
    · rw [mul_one, ← C_eq_natCast, coeff_C_of_ne_zero h2]
    · simp
  simp only [cf, finsetSum_coeff]
  rw [sum_congr rfl e]
  refine sum_eq_zero fun b hb => ?_
  rw [mem_range] at hb
  split_ifs with h1 h2
  · omega
  · rfl
  · rfl

/-- `Σ j < m, c j kʲ` -/
theorem Deg.inner (c : ℕ → ℕ) (m : ℕ) : Deg (∑ i ∈ range m, (c i : ℕ[X][X]) * C X ^ i) 1 m := by
  intro i j h
  have e : ∀ b ∈ range m, (((c b : ℕ[X][X]) * C X ^ b).coeff i).coeff j = if j = b then (if i = 0 then c b else 0) else 0 := by
    intro b _
    rw [← C_eq_natCast, ← C_pow, ← C_mul, coeff_C]
    by_cases h1 : i = 0
    · rw [if_pos h1, ← C_eq_natCast, coeff_C_mul, coeff_X_pow, if_pos h1]
      split_ifs with h2 <;> simp
    · simp [h1]
  simp only [cf, finsetSum_coeff]
  rw [sum_congr rfl e]
  refine sum_eq_zero fun b hb => ?_
  rw [mem_range] at hb
  split_ifs with h1 h2
  · omega
  · rfl
  · rfl

end phi
/-- the inequality behind the test -/
theorem core {X Y mx my : ℕ} (hmx : mx ≤ X) (hmy : my ≤ Y) (h1 : 1 ≤ mx) (h2 : 1 ≤ my) (p n : ℕ → ℕ → ℕ)
    (hc : (∑ i ∈ range X, ∑ j ∈ range Y, n i j) + min (p 0 0) (n 0 0) <
      p 0 0 + ∑ i ∈ range mx, ∑ j ∈ range my, min (p i j) (n i j))
    {h k : ℝ} (h0 : 0 ≤ h) (h1' : h ≤ 1) (k0 : 0 ≤ k) (k1 : k ≤ 1) :
    ∑ i ∈ range X, (∑ j ∈ range Y, (n i j : ℝ) * k ^ j) * h ^ i <
      ∑ i ∈ range X, (∑ j ∈ range Y, (p i j : ℝ) * k ^ j) * h ^ i := by
  -- the part common to both, without the constant coefficient
  let q : ℕ → ℕ → ℕ := fun i j =>
    if i < mx ∧ j < my then (if i = 0 ∧ j = 0 then 0 else min (p i j) (n i j)) else 0
  let e : ℕ → ℕ → ℕ := fun i j => if i = 0 ∧ j = 0 then p 0 0 else 0
  have hqn : ∀ i j, q i j ≤ n i j := by
    intro i j; simp only [q]; split_ifs <;> simp
  have hqp : ∀ i j, q i j + e i j ≤ p i j := by
    intro i j; simp only [q, e]
    split_ifs with a b c
    · obtain ⟨rfl, rfl⟩ := b; simp
    · simp
    · obtain ⟨rfl, rfl⟩ := c; simp
    · simp
  have hk : ∀ j, 0 ≤ k ^ j ∧ k ^ j ≤ 1 := fun j => ⟨pow_nonneg k0 j, pow_le_one₀ k0 k1⟩
  have hh : ∀ j, 0 ≤ h ^ j ∧ h ^ j ≤ 1 := fun j => ⟨pow_nonneg h0 j, pow_le_one₀ h0 h1'⟩
  have X1 : 0 ∈ range X := mem_range.2 (by omega)
  have Y1 : 0 ∈ range Y := mem_range.2 (by omega)
  -- sums of q
  have sq : (∑ i ∈ range X, ∑ j ∈ range Y, q i j) + min (p 0 0) (n 0 0) =
      ∑ i ∈ range mx, ∑ j ∈ range my, min (p i j) (n i j) := by
    have s1 : ∑ i ∈ range X, ∑ j ∈ range Y, q i j = ∑ i ∈ range mx, ∑ j ∈ range my, q i j := by
      symm
      refine (sum_congr rfl fun i hi => ?_).trans (sum_subset (range_mono hmx) fun i _ hi => ?_)
      · refine sum_subset (range_mono hmy) fun j _ hj => ?_
        simp only [mem_range] at hj; simp [q, hj]
      · refine sum_eq_zero fun j _ => ?_
        simp only [mem_range] at hi; simp [q, hi]
    have s2 : ∀ i ∈ range mx, ∀ j ∈ range my, min (p i j) (n i j) =
        q i j + if i = 0 then (if j = 0 then min (p 0 0) (n 0 0) else 0) else 0 := by
      intro i hi j hj
      simp only [mem_range] at hi hj
      simp only [q, hi, hj, and_self, if_true]
      by_cases a : i = 0
      · by_cases b : j = 0
        · subst a b; simp
        · simp [a, b]
      · simp [a]
    rw [s1, sum_congr rfl fun i hi => sum_congr rfl (s2 i hi)]
    simp only [sum_add_distrib]
    congr 1
    have : ∀ i ∈ range mx, (∑ j ∈ range my, if i = 0 then (if j = 0 then min (p 0 0) (n 0 0) else 0) else 0) =
        if i = 0 then min (p 0 0) (n 0 0) else 0 := by
      intro i _
      by_cases a : i = 0
      · simp only [a, if_true]
        rw [sum_ite_eq' (range my) 0, if_pos (mem_range.2 (by omega))]
      · simp [a]
    rw [sum_congr rfl this, sum_ite_eq' (range mx) 0, if_pos (mem_range.2 (by omega))]
  have low : (p 0 0 : ℝ) + ∑ i ∈ range X, (∑ j ∈ range Y, (q i j : ℝ) * k ^ j) * h ^ i ≤
      ∑ i ∈ range X, (∑ j ∈ range Y, (p i j : ℝ) * k ^ j) * h ^ i := by
    have se : ∑ i ∈ range X, (∑ j ∈ range Y, (e i j : ℝ) * k ^ j) * h ^ i = p 0 0 := by
      rw [sum_eq_single_of_mem 0 X1, sum_eq_single_of_mem 0 Y1]
      · simp [e]
      · intro j _ hj; simp [e, hj]
      · intro i _ hi; simp [e, hi]
    rw [← se, ← sum_add_distrib]
    refine sum_le_sum fun i _ => ?_
    rw [← add_mul, ← sum_add_distrib]
    refine mul_le_mul_of_nonneg_right (sum_le_sum fun j _ => ?_) (hh i).1
    rw [← add_mul]
    refine mul_le_mul_of_nonneg_right ?_ (hk j).1
    have := hqp i j
    rw [add_comm]
    exact_mod_cast this
  have up : ∑ i ∈ range X, (∑ j ∈ range Y, (n i j : ℝ) * k ^ j) * h ^ i ≤
      (∑ i ∈ range X, (∑ j ∈ range Y, (q i j : ℝ) * k ^ j) * h ^ i) +
        ((∑ i ∈ range X, ∑ j ∈ range Y, (n i j : ℝ)) - ∑ i ∈ range X, ∑ j ∈ range Y, (q i j : ℝ)) := by
    rw [← sum_sub_distrib, ← sum_add_distrib]
    refine sum_le_sum fun i _ => ?_
    have : ∑ j ∈ range Y, ((n i j : ℝ) * k ^ j - (q i j : ℝ) * k ^ j) ≤
        ∑ j ∈ range Y, ((n i j : ℝ) - q i j) := by
      refine sum_le_sum fun j _ => ?_
      rw [← sub_mul]
      have h' : (0 : ℝ) ≤ (n i j : ℝ) - q i j := by
        have : (q i j : ℝ) ≤ n i j := by exact_mod_cast hqn i j
        linarith
      exact mul_le_of_le_one_right h' (hk j).2
    rw [sum_sub_distrib, sum_sub_distrib] at this
    have nn : 0 ≤ (∑ j ∈ range Y, (n i j : ℝ)) - ∑ j ∈ range Y, (q i j : ℝ) := by
      rw [← sum_sub_distrib]
      refine sum_nonneg fun j _ => ?_
      have : (q i j : ℝ) ≤ n i j := by exact_mod_cast hqn i j
      linarith
    have t := hh i
    nlinarith
  have hc' : (∑ i ∈ range X, ∑ j ∈ range Y, (n i j : ℝ)) + min (p 0 0 : ℝ) (n 0 0) <
      p 0 0 + ∑ i ∈ range mx, ∑ j ∈ range my, ((min (p i j) (n i j) : ℕ) : ℝ) := by exact_mod_cast hc
  have sq' : (∑ i ∈ range X, ∑ j ∈ range Y, (q i j : ℝ)) + min (p 0 0 : ℝ) (n 0 0) =
      ∑ i ∈ range mx, ∑ j ∈ range my, ((min (p i j) (n i j) : ℕ) : ℝ) := by exact_mod_cast sq
  linarith

section sound

open Polynomial

theorem pw1_eq (a b A K I : ℕ) : pw1 a b A K I = A ^ (K - I) * (a + b) ^ I := rfl

theorem binP_eq (a u I m i c : ℕ) (hc : c = I.choose i) :
    binP a u I m i c = ∑ r ∈ range m, I.choose (i + r) * (a ^ (I - (i + r)) * u ^ (i + r)) := by
  induction m generalizing i c with
  | zero => rfl
  | succ m ih =>
    have h : c * (I - i) / (i + 1) = I.choose (i + 1) := by
      rw [hc, ← Nat.choose_succ_right_eq, Nat.mul_div_cancel _ (Nat.succ_pos i)]
    show c * (a ^ (I - i) * u ^ i) + binP a u I m (i + 1) (c * (I - i) / (i + 1)) = _
    rw [ih (i + 1) _ h, sum_range_succ', add_comm, hc]
    congr 1
    refine sum_congr rfl fun r _ => ?_
    rw [show i + 1 + r = i + (r + 1) by omega]

theorem pw_eq (a b A W m K I : ℕ) : pw a b A W m K I = A ^ (K - I) * ∑ i ∈ range m, bc a b I i * W ^ i := by
  have e : pw a b A W m K I = A ^ (K - I) * binP a (b * W) I (m - (m - (I + 1))) 0 1 := rfl
  rw [e, binP_eq _ _ _ _ _ _ (by simp)]
  congr 1
  have : range (m - (m - (I + 1))) ⊆ range m := range_mono (by omega)
  rw [← sum_subset this]
  · refine sum_congr rfl fun i _ => ?_
    rw [bc, zero_add, mul_pow]; ring
  · intro i hi hi'
    rw [mem_range] at hi hi'
    rw [bc, Nat.choose_eq_zero_of_lt (by omega)]; simp

/-- the low part of a power and the rest -/
theorem split_pow (a b I m : ℕ) (Z : ℕ[X][X]) : ∃ Q : ℕ[X][X],
    ((a : ℕ[X][X]) + b * Z) ^ I = (∑ i ∈ range m, (bc a b I i : ℕ[X][X]) * Z ^ i) + Q :=
  ⟨_, by rw [bc_sum (R := ℕ[X][X]) a b I Z (X := m + (I + 1)) (by omega), sum_range_add]⟩

variable {mx my V W a b A c d C : ℕ}

theorem ok_cons {KX KY n I J : ℕ} {ts : List Mono} (h : okTerms KX KY ((n, I, J) :: ts) = true) :
    I ≤ KX ∧ J ≤ KY ∧ okTerms KX KY ts = true := by
  simp only [okTerms, Bool.and_eq_true] at h
  exact ⟨Nat.le_of_ble_eq_true h.1, Nat.le_of_ble_eq_true h.2.1, h.2.2⟩

theorem terms_good (hA : 1 ≤ A) (hC : 1 ≤ C) {KX KY : ℕ} (m1 m2 : ℕ) {ts : List Mono} (ok : okTerms KX KY ts = true) :
    ∃ L Q : ℕ[X][X], pack (pw a b A W m1 KX) (pw c d C V m2 KY) ts = phi W V L ∧ Deg L m1 m2 ∧
      pack (pw1 a b A KX) (pw1 c d C KY) ts = phi 1 1 (L + Q) ∧
      ∀ h k : ℝ, (A : ℝ) ^ KX * (C : ℝ) ^ KY * evalN ts ((a + b * h) / A) ((c + d * k) / C) = phi h k (L + Q) := by
  have hA' : (A : ℝ) ≠ 0 := by positivity
  have hC' : (C : ℝ) ≠ 0 := by positivity
  induction ts with
  | nil => exact ⟨0, 0, by simp [pack], Deg.zero, by simp [pack], by simp [evalN]⟩
  | cons t ts ih =>
    obtain ⟨n, I, J⟩ := t
    obtain ⟨hI, hJ, ok'⟩ := ok_cons ok
    obtain ⟨L, Q, e1, e2, e3, e4⟩ := ih ok'
    obtain ⟨QX, hX⟩ := split_pow a b I m1 X
    obtain ⟨QY, hY⟩ := split_pow c d J m2 (Polynomial.C X)
    set LX := ∑ i ∈ range m1, (bc a b I i : ℕ[X][X]) * X ^ i with hLX
    set LY : ℕ[X][X] := ∑ i ∈ range m2, (bc c d J i : ℕ[X][X]) * (Polynomial.C X : ℕ[X][X]) ^ i with hLY
    have key : (n : ℕ[X][X]) * (((A : ℕ[X][X]) ^ (KX - I) * ((a : ℕ[X][X]) + (b : ℕ[X][X]) * X) ^ I) *
        ((C : ℕ[X][X]) ^ (KY - J) * ((c : ℕ[X][X]) + (d : ℕ[X][X]) * Polynomial.C X) ^ J)) =
        (n : ℕ[X][X]) * (((A : ℕ[X][X]) ^ (KX - I) * LX) * ((C : ℕ[X][X]) ^ (KY - J) * LY)) +
        (n : ℕ[X][X]) * ((A : ℕ[X][X]) ^ (KX - I) * (C : ℕ[X][X]) ^ (KY - J)) * (LX * QY + QX * LY + QX * QY) := by
      rw [hX, hY]; ring
    refine ⟨(n : ℕ[X][X]) * (((A : ℕ[X][X]) ^ (KX - I) * LX) * ((C : ℕ[X][X]) ^ (KY - J) * LY)) + L,
      (n : ℕ[X][X]) * ((A : ℕ[X][X]) ^ (KX - I) * (C : ℕ[X][X]) ^ (KY - J)) * (LX * QY + QX * LY + QX * QY) + Q, ?_, ?_, ?_, ?_⟩
    · simp only [pack, e1, map_add, map_mul, map_natCast, map_pow, hLX, hLY, map_sum, phi_X, phi_CX, Nat.cast_id]
      rw [pw_eq a b A W m1 KX I, pw_eq c d C V m2 KY J]
      rfl
    · refine Deg.add (Deg.natMul _ ?_) e2
      have d1 : Deg ((A : ℕ[X][X]) ^ (KX - I) * LX) m1 1 := by
        rw [← Nat.cast_pow]; exact Deg.natMul _ (Deg.outer _ _)
      have d2 : Deg ((C : ℕ[X][X]) ^ (KY - J) * LY) 1 m2 := by
        rw [← Nat.cast_pow]; exact Deg.natMul _ (Deg.inner _ _)
      exact (d1.mul d2).mono (by omega) (by omega)
    · rw [show ∀ a b c d : ℕ[X][X], a + b + (c + d) = (a + c) + (b + d) from fun _ _ _ _ => by ring, ← key, map_add, ← e3]
      simp only [pack, map_add, map_mul, map_natCast, map_pow, phi_X, phi_CX, Nat.cast_id, mul_one, pw1_eq]
      rfl
    · intro h k
      rw [show ∀ a b c d : ℕ[X][X], a + b + (c + d) = (a + c) + (b + d) from fun _ _ _ _ => by ring, ← key, map_add, ← e4]
      simp only [evalN, List.map_cons, List.sum_cons, mul_add, map_add, map_mul, map_natCast, map_pow, phi_X, phi_CX]
      congr 1
      rw [div_pow, div_pow, show (A : ℝ) ^ KX = A ^ (KX - I) * A ^ I by rw [← pow_add]; congr 1; omega,
        show (C : ℝ) ^ KY = C ^ (KY - J) * C ^ J by rw [← pow_add]; congr 1; omega]
      field_simp

end sound
section sound

open Polynomial

variable {mx my V W a b A c d C : ℕ}

theorem phi_one {p : ℕ[X][X]} {dx dy : ℕ} (hd : Deg p dx dy) :
    phi (R := ℕ) 1 1 p = ∑ i ∈ range dx, ∑ j ∈ range dy, cf p i j := by
  rw [phi_sum _ _ hd]; simp

theorem cf_le (p : ℕ[X][X]) (i j : ℕ) : cf p i j ≤ phi (R := ℕ) 1 1 p := by
  obtain ⟨dx, dy, hd⟩ := exists_deg p
  by_cases h : dx ≤ i ∨ dy ≤ j
  · rw [hd i j h]; exact Nat.zero_le _
  · rw [not_or, not_le, not_le] at h
    rw [phi_one hd]
    refine le_trans ?_ (single_le_sum (f := fun i => ∑ j ∈ range dy, cf p i j) (fun _ _ => Nat.zero_le _) (mem_range.2 h.1))
    exact single_le_sum (f := fun j => cf p i j) (fun _ _ => Nat.zero_le _) (mem_range.2 h.2)

theorem cf_add (p q : ℕ[X][X]) (i j : ℕ) : cf (p + q) i j = cf p i j + cf q i j := by simp [cf]

theorem phi_nonneg {h k : ℝ} (hh : 0 ≤ h) (hk : 0 ≤ k) (p : ℕ[X][X]) : 0 ≤ phi h k p := by
  obtain ⟨dx, dy, hd⟩ := exists_deg p
  rw [phi_sum _ _ hd]
  positivity

theorem dig_pos {m : ℕ} (hm : 1 ≤ m) (k : ℕ → ℕ → ℕ) (e : E) : 1 ≤ e.dig m k := by
  induction e with
  | mono pos neg KX KY => simp only [E.dig, mn_eq]; omega
  | loc a A c C q DX DY => exact Nat.succ_pos _
  | add e f ihe ihf => simp only [E.dig, Nat.add_eq, Nat.sub_eq]; omega
  | sub e f ihe ihf => simp only [E.dig, Nat.add_eq, Nat.sub_eq]; omega
  | mul e f ihe ihf => simp only [E.dig, Nat.add_eq, Nat.sub_eq]; omega
  | norm e ih => exact ih
  | pad i j e ih => exact ih

theorem cf_ext {p q : ℕ[X][X]} (h : ∀ i j, cf p i j = cf q i j) : p = q := by
  ext i j; exact h i j

/-- a polynomial with given coefficients -/
theorem exists_poly (f : ℕ → ℕ → ℕ) (dx dy : ℕ) :
    ∃ p : ℕ[X][X], ∀ i j, cf p i j = if i < dx ∧ j < dy then f i j else 0 := by
  refine ⟨∑ i ∈ range dx, monomial i (∑ j ∈ range dy, monomial j (f i j)), fun i j => ?_⟩
  simp only [cf, finsetSum_coeff, coeff_monomial]
  by_cases hi : i < dx
  · rw [sum_eq_single i]
    · simp only [if_true, finsetSum_coeff, coeff_monomial]
      by_cases hj : j < dy
      · rw [sum_eq_single j]
        · simp [hi, hj]
        · intro b _ hb; simp [hb]
        · intro hh; simp [hj] at hh
      · rw [sum_eq_zero]
        · simp [hj]
        · intro b hb
          rw [mem_range] at hb
          rw [if_neg (by omega)]
    · intro b _ hb; simp [hb]
    · intro hh; simp [hi] at hh
  · rw [sum_eq_zero]
    · simp [hi]
    · intro b hb
      rw [mem_range] at hb
      rw [if_neg (by omega)]; simp

theorem Deg.X : Deg X 2 1 := fun i j h => by
  simp only [cf, coeff_X]
  split_ifs with h1
  · rw [coeff_one, if_neg (by omega)]
  · simp

theorem Deg.CX : Deg (Polynomial.C Polynomial.X) 1 2 := fun i j h => by
  simp only [cf, coeff_C]
  split_ifs with h1
  · rw [coeff_X, if_neg (by omega)]
  · simp

theorem Deg.nat (n : ℕ) : Deg (n : ℕ[X][X]) 1 1 := by
  have h1 : Deg 1 1 1 := fun i j h => by
    simp only [cf, coeff_one]
    split_ifs with h1
    · rw [coeff_one, if_neg (by omega)]
    · simp
  simpa using h1.natMul n

/-- one row of coefficients -/
theorem row_good (r : List Two) {n : ℕ} (ok : okRow r n = true) : ∃ L L' : ℕ[X][X], Deg L 1 n ∧ Deg L' 1 n ∧
    (∀ V, rowPack (d * V) r = (phi W V L, phi W V L')) ∧ rowPack d r = (phi 1 1 L, phi 1 1 L') ∧
    ∀ h k : ℝ, evalRow (d * k) r = phi h k L - phi h k L' := by
  induction r generalizing n with
  | nil => exact ⟨0, 0, Deg.zero, Deg.zero, fun V => by simp [rowPack], by simp [rowPack], fun h k => by simp [evalRow]⟩
  | cons t r ih =>
    have ok' : and (Nat.ble 1 n) (okRow r (Nat.sub n 1)) = true := ok
    rw [Bool.and_eq_true] at ok'
    have hn := Nat.le_of_ble_eq_true ok'.1
    obtain ⟨L, L', g1, g2, g3, g4, g5⟩ := ih ok'.2
    obtain ⟨m, rfl⟩ : ∃ m, n = m + 1 := ⟨n - 1, by omega⟩
    simp only [Nat.sub_eq, Nat.add_sub_cancel] at g1 g2
    have key : ∀ (n : ℕ) {M : ℕ[X][X]}, Deg M 1 m → Deg ((n : ℕ[X][X]) + (d : ℕ[X][X]) * (Polynomial.C Polynomial.X * M)) 1 (m + 1) :=
      fun n M hM => Deg.add ((Deg.nat n).mono le_rfl (by omega)) (Deg.natMul _ ((Deg.CX.mul hM).mono (by omega) (by omega)))
    refine ⟨_, _, key t.1 g1, key t.2 g2, fun V => ?_, ?_, fun h k => ?_⟩
    · have : rowPack (d * V) (t :: r) = (t.1 + d * V * (rowPack (d * V) r).1, t.2 + d * V * (rowPack (d * V) r).2) := rfl
      rw [this, g3]
      simp only [map_add, map_mul, map_natCast, phi_CX, Nat.cast_id]
      refine Prod.ext ?_ ?_ <;> dsimp only <;> ring
    · have : rowPack d (t :: r) = (t.1 + d * (rowPack d r).1, t.2 + d * (rowPack d r).2) := rfl
      rw [this, g4]
      simp only [map_add, map_mul, map_natCast, phi_CX, Nat.cast_id, one_mul]
    · simp only [evalRow, map_add, map_mul, map_natCast, phi_CX]
      rw [g5 h k]; ring

theorem rows_good (q : Rows) {n m : ℕ} (ok : okRows m q n = true) : ∃ L L' : ℕ[X][X], Deg L n m ∧ Deg L' n m ∧
    rowsPack (b * W) (d * V) q = (phi W V L, phi W V L') ∧ rowsPack b d q = (phi 1 1 L, phi 1 1 L') ∧
    ∀ h k : ℝ, evalRows (b * h) (d * k) q = phi h k L - phi h k L' := by
  induction q generalizing n with
  | nil => exact ⟨0, 0, Deg.zero, Deg.zero, by simp [rowsPack], by simp [rowsPack], fun h k => by simp [evalRows]⟩
  | cons r q ih =>
    have ok' : and (okRow r m) (and (Nat.ble 1 n) (okRows m q (Nat.sub n 1))) = true := ok
    rw [Bool.and_eq_true, Bool.and_eq_true] at ok'
    have hn := Nat.le_of_ble_eq_true ok'.2.1
    obtain ⟨M, M', f1, f2, f3, f4, f5⟩ := row_good (d := d) (W := W) r ok'.1
    obtain ⟨L, L', g1, g2, g3, g4, g5⟩ := ih ok'.2.2
    obtain ⟨n, rfl⟩ : ∃ k, n = k + 1 := ⟨n - 1, by omega⟩
    simp only [Nat.sub_eq, Nat.add_sub_cancel] at g1 g2
    have key : ∀ {M L : ℕ[X][X]}, Deg M 1 m → Deg L n m → Deg (M + (b : ℕ[X][X]) * (Polynomial.X * L)) (n + 1) m :=
      fun hM hL => Deg.add (hM.mono (by omega) le_rfl) (Deg.natMul _ ((Deg.X.mul hL).mono (by omega) (by omega)))
    refine ⟨_, _, key f1 g1, key f2 g2, ?_, ?_, fun h k => ?_⟩
    · have : rowsPack (b * W) (d * V) (r :: q) = ((rowPack (d * V) r).1 + b * W * (rowsPack (b * W) (d * V) q).1,
        (rowPack (d * V) r).2 + b * W * (rowsPack (b * W) (d * V) q).2) := rfl
      rw [this, g3, f3]
      simp only [map_add, map_mul, map_natCast, phi_X, Nat.cast_id]
      refine Prod.ext ?_ ?_ <;> dsimp only <;> ring
    · have : rowsPack b d (r :: q) = ((rowPack d r).1 + b * (rowsPack b d q).1, (rowPack d r).2 + b * (rowsPack b d q).2) := rfl
      rw [this, g4, f4]
      simp only [map_add, map_mul, map_natCast, phi_X, Nat.cast_id, one_mul]
    · simp only [evalRows, map_add, map_mul, map_natCast, phi_X]
      rw [g5 h k, f5 h k]; ring

theorem expr_good (hA : 1 ≤ A) (hC : 1 ≤ C) (hmy : 1 ≤ my) (e : E) (ok : e.ok = true) (at' : e.at' a A c C = true)
    (hV : peak a b A c d C e < V)
    (hW : V ^ (e.dig my fun _ k => k) ≤ W) :
    ∃ L Q L' Q' : ℕ[X][X], run mx my V W a b A c d C e =
        ((phi W V L, phi W V L'), (phi 1 1 (L + Q), phi 1 1 (L' + Q'))) ∧
      phi 1 1 (L + Q) ≤ (tot a b A c d C e).1 ∧ phi 1 1 (L' + Q') ≤ (tot a b A c d C e).2 ∧
      Deg L (e.dig mx fun k _ => k) (e.dig my fun _ k => k) ∧ Deg L' (e.dig mx fun k _ => k) (e.dig my fun _ k => k) ∧
      ∀ h k : ℝ, (A : ℝ) ^ e.kx * (C : ℝ) ^ e.ky * e.eval ((a + b * h) / A) ((c + d * k) / C) =
        phi h k (L + Q) - phi h k (L' + Q') := by
  have V1 : 1 ≤ V := by omega
  induction e with
  | mono pos neg KX KY =>
    simp only [E.ok, Bool.and_eq_true] at ok
    obtain ⟨L, Q, e1, e2, e3, e4⟩ := terms_good hA hC (mn mx (Nat.succ KX)) (mn my (Nat.succ KY)) ok.1
    obtain ⟨L', Q', f1, f2, f3, f4⟩ := terms_good hA hC (mn mx (Nat.succ KX)) (mn my (Nat.succ KY)) ok.2
    refine ⟨L, Q, L', Q', ?_, e3.ge, f3.ge, e2, f2, ?_⟩
    · simp only [run]; exact Prod.ext (Prod.ext e1 f1) (Prod.ext e3 f3)
    · intro h k
      rw [← e4, ← f4, E.eval]; simp only [E.kx, E.ky]; ring
  | loc a' A' c' C' q DX DY =>
    simp only [E.at', Bool.and_eq_true] at at'
    obtain rfl := Nat.eq_of_beq_eq_true at'.1
    obtain rfl := Nat.eq_of_beq_eq_true at'.2.1
    obtain rfl := Nat.eq_of_beq_eq_true at'.2.2.1
    obtain rfl := Nat.eq_of_beq_eq_true at'.2.2.2
    obtain ⟨L, L', g1, g2, g3, g4, g5⟩ := rows_good (b := b) (d := d) (W := W) (V := V) q ok
    refine ⟨L, 0, L', 0, ?_, ?_, ?_, g1, g2, fun h k => ?_⟩
    · simp only [run, add_zero]; exact Prod.ext g3 g4
    · simp only [tot, add_zero]; exact (congrArg Prod.fst g4).ge
    · simp only [tot, add_zero]; exact (congrArg Prod.snd g4).ge
    · have hA' : (A' : ℝ) ≠ 0 := by positivity
      have hC' : (C' : ℝ) ≠ 0 := by positivity
      simp only [E.kx, E.ky, E.eval, pow_zero, one_mul, add_zero, ← g5]
      congr 1 <;> field_simp <;> ring
  | add e f ihe ihf =>
    simp only [E.ok, Bool.and_eq_true] at ok
    simp only [E.at', Bool.and_eq_true] at at'
    have kx := Nat.eq_of_beq_eq_true ok.1
    have ky := Nat.eq_of_beq_eq_true ok.2.1
    simp only [peak, Nat.add_eq] at hV
    simp only [E.dig, Nat.add_eq, Nat.sub_eq] at hW
    obtain ⟨L, Q, L', Q', e1, t1, t2, e3, e4, e5⟩ := ihe ok.2.2.1 at'.1 (by omega)
      (le_trans (Nat.pow_le_pow_right V1 (by omega)) hW)
    obtain ⟨M, R, M', R', f1, u1, u2, f3, f4, f5⟩ := ihf ok.2.2.2 at'.2 (by omega)
      (le_trans (Nat.pow_le_pow_right V1 (by omega)) hW)
    refine ⟨L + M, Q + R, L' + M', Q' + R', ?_, ?_, ?_, ?_, ?_, ?_⟩
    · simp only [run]; rw [e1, f1]; simp only [Four.add, Two.add, map_add, Nat.add_eq]
      refine Prod.ext rfl (Prod.ext ?_ ?_) <;> dsimp only <;> ring
    · simp only [tot, Two.add, Nat.add_eq, map_add] at *; omega
    · simp only [tot, Two.add, Nat.add_eq, map_add] at *; omega
    · simp only [E.dig, Nat.add_eq, Nat.sub_eq]
      exact Deg.add (e3.mono (by omega) (by omega)) (f3.mono (by omega) (by omega))
    · simp only [E.dig, Nat.add_eq, Nat.sub_eq]
      exact Deg.add (e4.mono (by omega) (by omega)) (f4.mono (by omega) (by omega))
    · intro h k
      have u := e5 h k
      have v := f5 h k
      rw [← kx, ← ky] at v
      simp only [E.eval, E.kx, E.ky, map_add] at u v ⊢
      linear_combination u + v
  | sub e f ihe ihf =>
    simp only [E.ok, Bool.and_eq_true] at ok
    simp only [E.at', Bool.and_eq_true] at at'
    have kx := Nat.eq_of_beq_eq_true ok.1
    have ky := Nat.eq_of_beq_eq_true ok.2.1
    simp only [peak, Nat.add_eq] at hV
    simp only [E.dig, Nat.add_eq, Nat.sub_eq] at hW
    obtain ⟨L, Q, L', Q', e1, t1, t2, e3, e4, e5⟩ := ihe ok.2.2.1 at'.1 (by omega)
      (le_trans (Nat.pow_le_pow_right V1 (by omega)) hW)
    obtain ⟨M, R, M', R', f1, u1, u2, f3, f4, f5⟩ := ihf ok.2.2.2 at'.2 (by omega)
      (le_trans (Nat.pow_le_pow_right V1 (by omega)) hW)
    refine ⟨L + M', Q + R', L' + M, Q' + R, ?_, ?_, ?_, ?_, ?_, ?_⟩
    · simp only [run]; rw [e1, f1]; simp only [Four.sub, Two.sub, map_add, Nat.add_eq]
      refine Prod.ext rfl (Prod.ext ?_ ?_) <;> dsimp only <;> ring
    · simp only [tot, Two.sub, Nat.add_eq, map_add] at *; omega
    · simp only [tot, Two.sub, Nat.add_eq, map_add] at *; omega
    · simp only [E.dig, Nat.add_eq, Nat.sub_eq]
      exact Deg.add (e3.mono (by omega) (by omega)) (f4.mono (by omega) (by omega))
    · simp only [E.dig, Nat.add_eq, Nat.sub_eq]
      exact Deg.add (e4.mono (by omega) (by omega)) (f3.mono (by omega) (by omega))
    · intro h k
      have u := e5 h k
      have v := f5 h k
      rw [← kx, ← ky] at v
      simp only [E.eval, E.kx, E.ky, map_add] at u v ⊢
      linear_combination u - v
  | mul e f ihe ihf =>
    simp only [E.ok, Bool.and_eq_true] at ok
    simp only [E.at', Bool.and_eq_true] at at'
    simp only [peak, Nat.add_eq] at hV
    simp only [E.dig, Nat.add_eq, Nat.sub_eq] at hW
    have p1 := dig_pos hmy (fun _ k => k) e
    have p2 := dig_pos hmy (fun _ k => k) f
    obtain ⟨L, Q, L', Q', e1, t1, t2, e3, e4, e5⟩ := ihe ok.1 at'.1 (by omega) (le_trans (Nat.pow_le_pow_right V1 (by omega)) hW)
    obtain ⟨M, R, M', R', f1, u1, u2, f3, f4, f5⟩ := ihf ok.2 at'.2 (by omega) (le_trans (Nat.pow_le_pow_right V1 (by omega)) hW)
    have q1 : L * M + L' * M' + (L * R + Q * (M + R) + (L' * R' + Q' * (M' + R'))) =
        (L + Q) * (M + R) + (L' + Q') * (M' + R') := by ring
    have q2 : L * M' + L' * M + (L * R' + Q * (M' + R') + (L' * R + Q' * (M + R))) =
        (L + Q) * (M' + R') + (L' + Q') * (M + R) := by ring
    refine ⟨L * M + L' * M', L * R + Q * (M + R) + (L' * R' + Q' * (M' + R')),
      L * M' + L' * M, L * R' + Q * (M' + R') + (L' * R + Q' * (M + R)), ?_, ?_, ?_, ?_, ?_, ?_⟩
    · simp only [run]; rw [e1, f1, q1, q2]
      simp only [Four.mul, Two.mul, map_add, map_mul, Nat.add_eq, Nat.mul_eq]
    · rw [q1, map_add, map_mul, map_mul]
      simp only [tot, Two.mul, Nat.add_eq, Nat.mul_eq]
      exact Nat.add_le_add (Nat.mul_le_mul t1 u1) (Nat.mul_le_mul t2 u2)
    · rw [q2, map_add, map_mul, map_mul]
      simp only [tot, Two.mul, Nat.add_eq, Nat.mul_eq]
      exact Nat.add_le_add (Nat.mul_le_mul t1 u2) (Nat.mul_le_mul t2 u1)
    · exact Deg.add (e3.mul f3) (e4.mul f4)
    · exact Deg.add (e3.mul f4) (e4.mul f3)
    · intro h k
      have u := e5 h k
      have v := f5 h k
      simp only [E.eval, E.kx, E.ky, map_add, map_mul, Nat.add_eq, pow_add] at u v ⊢
      linear_combination (C ^ f.ky * A ^ f.kx * f.eval ((a + b * h) / A) ((c + d * k) / C)) * u +
        (phi h k L + phi h k Q - (phi h k L' + phi h k Q')) * v
  | norm e ih =>
    simp only [peak, Nat.add_eq] at hV
    simp only [E.dig] at hW
    obtain ⟨L, Q, L', Q', e1, t1, t2, e3, e4, e5⟩ := ih ok at' (by omega) hW
    have ts : (tot a b A c d C e).sum = (tot a b A c d C e).1 + (tot a b A c d C e).2 := rfl
    have bL : ∀ i j, cf L i j < V := fun i j => by
      have := cf_le (L + Q) i j; rw [cf_add] at this; omega
    have bL' : ∀ i j, cf L' i j < V := fun i j => by
      have := cf_le (L' + Q') i j; rw [cf_add] at this; omega
    set dx := e.dig mx fun k _ => k with hdx
    set dy := e.dig my fun _ k => k with hdy
    obtain ⟨M, hM⟩ := exists_poly (fun i j => min (cf L i j) (cf L' i j)) dx dy
    obtain ⟨L2, hL2⟩ := exists_poly (fun i j => cf L i j - min (cf L i j) (cf L' i j)) dx dy
    obtain ⟨L2', hL2'⟩ := exists_poly (fun i j => cf L' i j - min (cf L i j) (cf L' i j)) dx dy
    have dM : Deg M dx dy := fun i j h => by rw [hM, if_neg (by omega)]
    have d2 : Deg L2 dx dy := fun i j h => by rw [hL2, if_neg (by omega)]
    have d2' : Deg L2' dx dy := fun i j h => by rw [hL2', if_neg (by omega)]
    have sL : L = L2 + M := cf_ext fun i j => by
      rw [cf_add, hL2, hM]
      split_ifs with h
      · omega
      · exact e3 i j (by omega)
    have sL' : L' = L2' + M := cf_ext fun i j => by
      rw [cf_add, hL2', hM]
      split_ifs with h
      · omega
      · exact e4 i j (by omega)
    have pM : minPackRow V W dy dx (phi W V L) (phi W V L') = phi W V M := by
      rw [phi_sum _ _ e3, phi_sum _ _ e4, phi_sum _ _ dM]
      simp only [Nat.cast_id]
      rw [minPackRow_eq hW dx _ _ bL bL']
      refine sum_congr rfl fun i hi => ?_
      congr 1
      refine sum_congr rfl fun j hj => ?_
      rw [mem_range] at hi hj
      rw [hM, if_pos ⟨hi, hj⟩]
    have rM : minRow V W dy dx (phi W V L) (phi W V L') = phi 1 1 M := by
      rw [phi_sum _ _ e3, phi_sum _ _ e4, phi_one dM]
      simp only [Nat.cast_id]
      rw [minRow_eq hW dx _ _ bL bL']
      refine sum_congr rfl fun i hi => sum_congr rfl fun j hj => ?_
      rw [mem_range] at hi hj
      rw [hM, if_pos ⟨hi, hj⟩]
    refine ⟨L2, Q, L2', Q', ?_, ?_, ?_, d2, d2', ?_⟩
    · simp only [run]
      rw [e1]
      simp only [Four.norm, ← hdx, ← hdy]
      rw [pM, rM, sL, sL']
      simp only [map_add, Nat.sub_eq]
      refine Prod.ext (Prod.ext ?_ ?_) (Prod.ext ?_ ?_) <;> dsimp only <;> omega
    · refine le_trans ?_ t1
      rw [sL]; simp only [map_add]; omega
    · refine le_trans ?_ t2
      rw [sL']; simp only [map_add]; omega
    · intro h k
      have := e5 h k
      rw [sL, sL'] at this
      simp only [map_add, E.kx, E.ky, E.eval] at this ⊢
      linear_combination this
  | pad i j e ih =>
    obtain ⟨L, Q, L', Q', e1, t1, t2, e3, e4, e5⟩ := ih ok at' hV hW
    have q1 : ((A ^ i * C ^ j : ℕ) : ℕ[X][X]) * L + (A ^ i * C ^ j : ℕ) * Q = (A ^ i * C ^ j : ℕ) * (L + Q) := by ring
    have q2 : ((A ^ i * C ^ j : ℕ) : ℕ[X][X]) * L' + (A ^ i * C ^ j : ℕ) * Q' = (A ^ i * C ^ j : ℕ) * (L' + Q') := by ring
    refine ⟨(A ^ i * C ^ j : ℕ) * L, (A ^ i * C ^ j : ℕ) * Q, (A ^ i * C ^ j : ℕ) * L', (A ^ i * C ^ j : ℕ) * Q',
      ?_, ?_, ?_, e3.natMul _, e4.natMul _, ?_⟩
    · simp only [run]; rw [e1, q1, q2]
      simp only [Four.scale, Two.scale, map_mul, map_natCast, Nat.cast_id]
      rfl
    · rw [q1, map_mul, map_natCast, Nat.cast_id]
      exact Nat.mul_le_mul_left _ t1
    · rw [q2, map_mul, map_natCast, Nat.cast_id]
      exact Nat.mul_le_mul_left _ t2
    · intro h k
      rw [q1, q2, map_mul, map_mul, map_natCast, ← mul_sub, ← e5 h k]
      simp only [E.kx, E.ky, E.eval, Nat.add_eq, pow_add]
      push_cast
      ring

/-- adding to the summands other than the first increases the sum of the others -/
theorem sum_first {X Y : ℕ} (hX : 1 ≤ X) (hY : 1 ≤ Y) (f g : ℕ → ℕ → ℕ) (hfg : ∀ i j, f i j ≤ g i j) :
    (∑ i ∈ range X, ∑ j ∈ range Y, f i j) + g 0 0 ≤ (∑ i ∈ range X, ∑ j ∈ range Y, g i j) + f 0 0 := by
  have e : ∑ i ∈ range X, ∑ j ∈ range Y, g i j =
      (∑ i ∈ range X, ∑ j ∈ range Y, f i j) + ∑ i ∈ range X, ∑ j ∈ range Y, (g i j - f i j) := by
    simp only [← sum_add_distrib]
    exact sum_congr rfl fun i _ => sum_congr rfl fun j _ => by have := hfg i j; omega
  have h1 : g 0 0 - f 0 0 ≤ ∑ i ∈ range X, ∑ j ∈ range Y, (g i j - f i j) := by
    refine le_trans ?_ (single_le_sum (f := fun i => ∑ j ∈ range Y, (g i j - f i j)) (fun _ _ => Nat.zero_le _)
      (mem_range.2 (show 0 < X from hX)))
    exact single_le_sum (f := fun j => g 0 j - f 0 j) (fun _ _ => Nat.zero_le _) (mem_range.2 (show 0 < Y from hY))
  omega

theorem first_digit {p : ℕ[X][X]} {dx dy : ℕ} (hd : Deg p dx dy) (hx : 1 ≤ dx) (hy : 1 ≤ dy) (hV : ∀ i j, cf p i j < V)
    (hW : W = V ^ dy) : phi W V p % V = cf p 0 0 := by
  obtain ⟨x, rfl⟩ : ∃ x, dx = x + 1 := ⟨dx - 1, by omega⟩
  obtain ⟨y, rfl⟩ : ∃ y, dy = y + 1 := ⟨dy - 1, by omega⟩
  rw [phi_sum _ _ hd]
  simp only [Nat.cast_id]
  rw [sum_shift (fun i => ∑ j ∈ range (y + 1), cf p i j * V ^ j), sum_shift (fun j => cf p 0 j), hW, pow_succ', mul_assoc,
    add_assoc, ← mul_add]
  exact (digit (hV 0 0)).1

theorem leaf_sound (hmx : 1 ≤ mx) (hmy : 1 ≤ my) {e : E} (ok : e.ok = true) (h : leaf mx my e a b A c d C = true)
    {s t : ℝ} (s0 : 0 ≤ s) (s1 : s ≤ 1) (t0 : 0 ≤ t) (t1 : t ≤ 1) :
    0 < e.eval ((a + b * s) / A) ((c + d * t) / C) := by
  simp only [leaf, Bool.and_eq_true, totR_eq, peakR_eq, atR_eq] at h
  obtain ⟨hA, hC, at', h⟩ := h
  replace hA := Nat.le_of_ble_eq_true hA
  replace hC := Nat.le_of_ble_eq_true hC
  simp only [leaf2, Bool.and_eq_true, digxR_eq, digyR_eq, runR_eq, final, minRowR_eq] at h
  obtain ⟨hV, h⟩ := h
  replace hV := Nat.le_of_ble_eq_true hV
  revert h hV
  generalize Nat.pow 2 _ = V
  intro h hV
  have e1 : ∀ a b, Nat.pow a b = a ^ b := fun _ _ => rfl
  have ts : (tot a b A c d C e).sum = (tot a b A c d C e).1 + (tot a b A c d C e).2 := rfl
  have hV1 : (tot a b A c d C e).1 + (tot a b A c d C e).2 + peak a b A c d C e < V := by
    simp only [Nat.add_eq] at hV; omega
  have dx1 := dig_pos hmx (fun k _ => k) e
  have dy1 := dig_pos hmy (fun _ k => k) e
  set dx := e.dig mx fun k _ => k with hdx
  set dy := e.dig my fun _ k => k with hdy
  have hVW : V ≤ V ^ dy := Nat.le_self_pow (by omega) V
  rw [e1] at h
  obtain ⟨L, Q, L', Q', g1, g6, g7, g3, g4, g5⟩ := expr_good (mx := mx) (my := my) (V := V) (W := V ^ dy) (a := a) (b := b)
    (A := A) (c := c) (d := d) (C := C) hA hC hmy e ok at' (by omega) le_rfl
  rw [← hdx, ← hdy] at g3 g4
  rw [g1] at h
  have bL : ∀ i j, cf L i j < V := fun i j => by
    have := cf_le (L + Q) i j; rw [cf_add] at this; omega
  have bL' : ∀ i j, cf L' i j < V := fun i j => by
    have := cf_le (L' + Q') i j; rw [cf_add] at this; omega
  replace h := Nat.le_of_ble_eq_true h
  have e2 : ∀ a b, Nat.mod a b = a % b := fun _ _ => rfl
  simp only [Nat.add_eq, Nat.succ_eq_add_one, e2, mn_eq] at h
  rw [first_digit g3 dx1 dy1 bL rfl, first_digit g4 dx1 dy1 bL' rfl, phi_sum _ _ g3, phi_sum _ _ g4] at h
  simp only [Nat.cast_id] at h
  rw [minRow_eq le_rfl dx _ _ bL bL'] at h
  obtain ⟨X0, Y0, hd⟩ := exists_deg (L' + Q')
  have mono := sum_first dx1 dy1 (fun i j => min (cf L i j) (cf L' i j)) (fun i j => min (cf L i j) (cf (L' + Q') i j))
    (fun i j => by simp only [cf_add]; omega)
  have dN : Deg (L' + Q') (max X0 dx) (max Y0 dy) := hd.mono (le_max_left _ _) (le_max_left _ _)
  have dL : Deg L (max X0 dx) (max Y0 dy) := g3.mono (le_max_right _ _) (le_max_right _ _)
  have := core (le_max_right X0 dx) (le_max_right Y0 dy) dx1 dy1 (cf L) (cf (L' + Q')) (by
    rw [← phi_one dN]
    omega) s0 s1 t0 t1
  rw [← phi_sum s t dL, ← phi_sum s t dN] at this
  have hq := phi_nonneg s0 t0 Q
  have hA' : (0 : ℝ) < A := by positivity
  have hC' : (0 : ℝ) < C := by positivity
  have key : 0 < (A : ℝ) ^ e.kx * (C : ℝ) ^ e.ky * e.eval ((a + b * s) / A) ((c + d * t) / C) := by
    rw [g5 s t, map_add]; linarith
  exact pos_of_mul_pos_right key (by positivity)

end sound

/-- the meaning of a limit -/
def Lim.Holds (l : Lim) (x y : ℝ) : Prop :=
  (l.up = true → (l.yn : ℝ) ≤ y * l.yd → x * l.xd ≤ l.xn) ∧ (l.up = false → y * l.yd ≤ l.yn → x * l.xd ≤ l.xn)

theorem beyond_sound {a A c d C : ℕ} (hA : 0 < A) (hC : 0 < C) {lim : List Lim} (h : beyond a A c d C lim = true)
    {x y : ℝ} (hl : ∀ l ∈ lim, l.Holds x y) (hx : (a : ℝ) / A ≤ x) (hy : (c : ℝ) / C ≤ y) (hy' : y ≤ ((c : ℝ) + d) / C) : False := by
  have hA' : (0 : ℝ) < A := by exact_mod_cast hA
  have hC' : (0 : ℝ) < C := by exact_mod_cast hC
  rw [div_le_iff₀ hA'] at hx
  rw [div_le_iff₀ hC'] at hy
  rw [le_div_iff₀ hC'] at hy'
  induction lim with
  | nil => cases h
  | cons l t ih =>
    rw [beyond, Bool.or_eq_true] at h
    rcases h with h | h
    · have hh := hl l (List.mem_cons_self ..)
      obtain ⟨up, xn, xd, yn, yd⟩ := l
      simp only [Lim.beyond, Bool.and_eq_true] at h
      obtain ⟨h1, h2⟩ := h
      replace h1 := Nat.le_of_ble_eq_true h1
      have h1' : (xn : ℝ) * A < a * xd := by exact_mod_cast h1
      have hd : (0 : ℝ) ≤ xd := Nat.cast_nonneg _
      have hd' : (0 : ℝ) ≤ yd := Nat.cast_nonneg _
      have : x * xd ≤ xn := by
        cases up with
        | true =>
          refine hh.1 rfl ?_
          have h2 := Nat.le_of_ble_eq_true h2
          have h2' : (yn : ℝ) * C ≤ c * yd := by exact_mod_cast h2
          dsimp only
          have : (yn : ℝ) * C ≤ y * yd * C := by nlinarith
          exact le_of_mul_le_mul_right this hC'
        | false =>
          refine hh.2 rfl ?_
          have h2 := Nat.le_of_ble_eq_true h2
          have h2' : ((c : ℝ) + d) * yd ≤ yn * C := by exact_mod_cast h2
          dsimp only
          have : y * yd * C ≤ (yn : ℝ) * C := by nlinarith
          exact le_of_mul_le_mul_right this hC'
      nlinarith
    · exact ih h fun l hl' => hl l (List.mem_cons_of_mem _ hl')

theorem check_sound {mx my : ℕ} (hmx : 1 ≤ mx) (hmy : 1 ≤ my) {e : E} (ok : e.ok = true) {lim : List Lim} (tree : Tree)
    {a b A c d C : ℕ} (hA : 0 < A) (hC : 0 < C) (h : check mx my e lim tree a b A c d C = true) {x y : ℝ}
    (hl : ∀ l ∈ lim, l.Holds x y) (hx : (a : ℝ) / A ≤ x) (hx' : x ≤ ((a : ℝ) + b) / A) (hy : (c : ℝ) / C ≤ y)
    (hy' : y ≤ ((c : ℝ) + d) / C) : 0 < e.eval x y := by
  induction tree generalizing a b A c d C with
  | leaf =>
    have hA' : (0 : ℝ) < A := by exact_mod_cast hA
    have hC' : (0 : ℝ) < C := by exact_mod_cast hC
    -- the point of the unit square
    have pt : ∀ {u v N : ℕ} {z : ℝ}, (0 : ℝ) < N → (u : ℝ) / N ≤ z → z ≤ ((u : ℝ) + v) / N →
        ∃ s : ℝ, 0 ≤ s ∧ s ≤ 1 ∧ z = (u + v * s) / N := by
      intro u v N z hN h1 h2
      rw [div_le_iff₀ hN] at h1
      rw [le_div_iff₀ hN] at h2
      rcases (Nat.cast_nonneg (α := ℝ) v).eq_or_lt with hv | hv
      · exact ⟨0, le_rfl, zero_le_one, by rw [eq_div_iff hN.ne']; linarith⟩
      · refine ⟨(z * N - u) / v, ?_, ?_, ?_⟩
        · exact div_nonneg (by linarith) hv.le
        · rw [div_le_one hv]; linarith
        · field_simp; ring
    obtain ⟨s, s0, s1, rfl⟩ := pt hA' hx hx'
    obtain ⟨t, t0, t1, rfl⟩ := pt hC' hy hy'
    exact leaf_sound hmx hmy ok h s0 s1 t0 t1
  | skip => exact (beyond_sound hA hC h hl hx hy hy').elim
  | sx l r ihl ihr =>
    simp only [check, Bool.and_eq_true] at h
    have hA' : (0 : ℝ) < A := by exact_mod_cast hA
    rw [div_le_iff₀ hA'] at hx
    rw [le_div_iff₀ hA'] at hx'
    have h2 : (0 : ℝ) < 2 * A := by linarith
    rcases le_total (x * (2 * A)) (2 * a + b) with hm | hm
    · refine ihl (Nat.mul_pos two_pos hA) hC h.1 ?_ ?_ hy hy'
      · simp only [Nat.mul_eq]; push_cast; rw [div_le_iff₀ h2]; linarith
      · simp only [Nat.mul_eq]; push_cast; rw [le_div_iff₀ h2]; exact hm
    · refine ihr (Nat.mul_pos two_pos hA) hC h.2 ?_ ?_ hy hy'
      · simp only [Nat.mul_eq, Nat.add_eq]; push_cast; rw [div_le_iff₀ h2]; exact hm
      · simp only [Nat.mul_eq, Nat.add_eq]; push_cast; rw [le_div_iff₀ h2]; linarith
  | sy l r ihl ihr =>
    simp only [check, Bool.and_eq_true] at h
    have hC' : (0 : ℝ) < C := by exact_mod_cast hC
    rw [div_le_iff₀ hC'] at hy
    rw [le_div_iff₀ hC'] at hy'
    have h2 : (0 : ℝ) < 2 * C := by linarith
    rcases le_total (y * (2 * C)) (2 * c + d) with hm | hm
    · refine ihl hA (Nat.mul_pos two_pos hC) h.1 hx hx' ?_ ?_
      · simp only [Nat.mul_eq]; push_cast; rw [div_le_iff₀ h2]; linarith
      · simp only [Nat.mul_eq]; push_cast; rw [le_div_iff₀ h2]; exact hm
    · refine ihr hA (Nat.mul_pos two_pos hC) h.2 hx hx' ?_ ?_
      · simp only [Nat.mul_eq, Nat.add_eq]; push_cast; rw [div_le_iff₀ h2]; exact hm
      · simp only [Nat.mul_eq, Nat.add_eq]; push_cast; rw [le_div_iff₀ h2]; linarith

end PyX.Kron
