import Mathlib.Analysis.SpecialFunctions.Pow.Real
import Mathlib.Analysis.SpecialFunctions.Log.Basic

/-!
# The Python fragment the pyXSteam code is written in

Everything in `/repo/pyXSteam` is straight-line floating point arithmetic, `if`, `for i in range`,
`while`, list indexing, `math.{log,exp,sqrt,fabs}`, `logging` and exceptions.  This file gives that
fragment a meaning in Lean.

* `Num`     : a Python `float`: NaN, an infinity, or a finite number (signed zeros are identified).
* `Py α`    : the result of running Python code: the log records emitted, and a value, an exception
              or non-termination.
* `FP`      : the arithmetic.  Every rounding is a *parameter*: `F.rnd x` is the float produced when
              the exact result of `+ - * /` (or a decimal literal) is the real `x`, and `F.powr`,
              `F.expr`, `F.logr`, `F.sqrtr` are what the C library returns.  Theorems quantified over
              `F : FP` hold for IEEE doubles with any rounding mode and any libm.
              `FP.ideal` is exact real arithmetic.
-/

namespace PyX

open Classical

/-- A Python `float`.  Simplification: `-0.0` and `0.0` are the same value. -/
inductive Num where
  | nan
  | inf (neg : Bool)
  | fin (x : ℝ)

/-- Exceptions the modelled code can raise. -/
inductive Err where
  | zeroDivision   -- ZeroDivisionError
  | overflow       -- OverflowError
  | value          -- ValueError
  | type           -- TypeError (also: a complex number was produced, see `FP.pow`)
  | index          -- IndexError
  | unbound        -- UnboundLocalError
  deriving DecidableEq

inductive Level where
  | debug | info | warning | error
  deriving DecidableEq

/-- One record handed to the `logging` module.  Only the level and the unformatted message are kept. -/
structure LogRec where
  level : Level
  msg : String

/-- How a run of Python code ends. -/
inductive Outcome (α : Type) where
  | ok (a : α)
  | raise (e : Err)
  | diverge

/-- A run of Python code: the log records it emitted, and how it ended. -/
structure Py (α : Type) where
  logs : List LogRec
  out : Outcome α

namespace Py

variable {α β : Type}

@[ext] theorem ext {x y : Py α} (h₁ : x.logs = y.logs) (h₂ : x.out = y.out) : x = y := by
  cases x; cases y; simp_all

/-- `return a` -/
def ret (a : α) : Py α := ⟨[], .ok a⟩

/-- `raise e` -/
def raise (e : Err) : Py α := ⟨[], .raise e⟩

/-- a loop that never ends -/
def diverge : Py α := ⟨[], .diverge⟩

/-- emit one log record -/
def log (l : Level) (m : String) : Py Unit := ⟨[⟨l, m⟩], .ok ()⟩

/-- put log records in front of a run; the log of a run that never ends is not tracked -/
def prepend (l : List LogRec) (y : Py β) : Py β :=
  match y.out with
  | .diverge => y
  | o => ⟨l ++ y.logs, o⟩

/-- sequencing: an exception (or non-termination) skips the rest -/
def andThen (x : Py α) (f : α → Py β) : Py β :=
  match x.out with
  | .ok a => prepend x.logs (f a)
  | .raise e => ⟨x.logs, .raise e⟩
  | .diverge => ⟨x.logs, .diverge⟩

instance : Monad Py where
  pure := ret
  bind := andThen

theorem pure_def (a : α) : (pure a : Py α) = ⟨[], .ok a⟩ := rfl
theorem bind_def (x : Py α) (f : α → Py β) : (x >>= f) = andThen x f := rfl

@[simp] theorem prepend_nil (y : Py β) : prepend [] y = y := by
  rcases y with ⟨l, o⟩
  cases o <;> simp [prepend]

theorem prepend_prepend (l l' : List LogRec) (y : Py β) :
    prepend l (prepend l' y) = prepend (l ++ l') y := by
  rcases y with ⟨l, o⟩
  cases o <;> simp [prepend]

theorem prepend_andThen (l : List LogRec) (x : Py α) (f : α → Py β) :
    andThen (prepend l x) f = prepend l (andThen x f) := by
  rcases x with ⟨l', o⟩
  cases o with
  | ok a =>
    show prepend (l ++ l') (f a) = prepend l (prepend l' (f a))
    rw [prepend_prepend]
  | raise e => simp [prepend, andThen]
  | diverge => simp [prepend, andThen]

instance : LawfulMonad Py := LawfulMonad.mk'
  (id_map := by
    intro α x
    show andThen x _ = x
    rcases x with ⟨l, o⟩
    cases o <;> simp [andThen, Function.comp, ret, prepend])
  (pure_bind := by intro α β a f; simp [bind_def, andThen, pure_def])
  (bind_assoc := by
    intro α β γ x f g
    rcases x with ⟨l, o⟩
    cases o with
    | ok a =>
      show andThen (prepend l (f a)) g = prepend l (andThen (f a) g)
      rw [prepend_andThen]
    | raise e => simp [bind_def, andThen]
    | diverge => simp [bind_def, andThen])

@[simp] theorem raise_bind (e : Err) (f : α → Py β) : ((raise e : Py α) >>= f) = raise e := rfl
@[simp] theorem diverge_bind (f : α → Py β) : ((diverge : Py α) >>= f) = diverge := rfl

theorem log_bind (l : Level) (m : String) (f : Unit → Py β) :
    (log l m >>= f) = prepend [⟨l, m⟩] (f ()) := rfl

end Py

open Py

/-- `logger.warning(...)` -/
def warn (m : String) : Py Unit := Py.log .warning m
/-- `logger.error(...)` -/
def logError (m : String) : Py Unit := Py.log .error m
/-- `logger.debug(...)` -/
def logDebug (m : String) : Py Unit := Py.log .debug m
/-- `logger.info(...)` -/
def logInfo (m : String) : Py Unit := Py.log .info m

/-! ## Comparisons -/

namespace Num

/-- an `int` used where a float is expected; the integers in the code are small, so this is exact -/
def ofInt (n : ℤ) : Num := .fin (n : ℝ)

/-- Python `a < b` -/
def lt : Num → Num → Prop
  | .fin a, .fin b => a < b
  | .fin _, .inf n => n = false
  | .inf n, .fin _ => n = true
  | .inf m, .inf n => m = true ∧ n = false
  | _, _ => False

/-- Python `a == b` -/
def feq : Num → Num → Prop
  | .fin a, .fin b => a = b
  | .inf m, .inf n => m = n
  | _, _ => False

/-- Python `a <= b` -/
def le (a b : Num) : Prop := lt a b ∨ feq a b

instance : LT Num := ⟨lt⟩
instance : LE Num := ⟨le⟩

noncomputable instance (a b : Num) : Decidable (a < b) := Classical.propDecidable _
noncomputable instance (a b : Num) : Decidable (a ≤ b) := Classical.propDecidable _
noncomputable instance (a b : Num) : Decidable (feq a b) := Classical.propDecidable _

/-- Python unary minus (exact) -/
def neg : Num → Num
  | .nan => .nan
  | .inf s => .inf (!s)
  | .fin a => .fin (-a)

/-- `math.fabs`, and `abs` (exact) -/
noncomputable def fabs : Num → Num
  | .nan => .nan
  | .inf _ => .inf false
  | .fin a => .fin |a|

end Num

open Num

/-! ## Arithmetic -/

/-- A floating point arithmetic. -/
structure FP where
  /-- the float nearest to a real, in the rounding mode in force; used for `+ - * /` and literals -/
  rnd : ℝ → Num
  /-- libm `pow` on finite arguments with a non-exceptional result -/
  powr : ℝ → ℝ → Num
  /-- libm `exp` -/
  expr : ℝ → Num
  /-- libm `log` -/
  logr : ℝ → Num
  /-- libm `sqrt` -/
  sqrtr : ℝ → Num

namespace FP

variable (F : FP)

/-- a decimal literal -/
noncomputable def lit (q : ℚ) : Num := F.rnd (q : ℝ)

/-- Python `a + b` -/
noncomputable def add : Num → Num → Num
  | .fin a, .fin b => F.rnd (a + b)
  | .nan, _ => .nan
  | _, .nan => .nan
  | .inf m, .inf n => if m = n then .inf m else .nan
  | .inf m, .fin _ => .inf m
  | .fin _, .inf n => .inf n

/-- Python `a - b` -/
noncomputable def sub : Num → Num → Num
  | .fin a, .fin b => F.rnd (a - b)
  | .nan, _ => .nan
  | _, .nan => .nan
  | .inf m, .inf n => if m = n then .nan else .inf m
  | .inf m, .fin _ => .inf m
  | .fin _, .inf n => .inf (!n)

/-- Python `a * b` -/
noncomputable def mul : Num → Num → Num
  | .fin a, .fin b => F.rnd (a * b)
  | .nan, _ => .nan
  | _, .nan => .nan
  | .inf m, .inf n => .inf (m != n)
  | .inf m, .fin b => if b = 0 then .nan else .inf (m != decide (b < 0))
  | .fin a, .inf n => if a = 0 then .nan else .inf (n != decide (a < 0))

/-- Python `a / b`: a zero divisor raises -/
noncomputable def div : Num → Num → Py Num
  | a, .fin b =>
    if b = 0 then Py.raise .zeroDivision
    else match a with
      | .fin a => pure (F.rnd (a / b))
      | .nan => pure .nan
      | .inf m => pure (.inf (m != decide (b < 0)))
  | .nan, _ => pure .nan
  | _, .nan => pure .nan
  | .inf _, .inf _ => pure .nan
  | .fin _, .inf _ => pure (.fin 0)

/-- `b` is an odd integer -/
def IsOdd (b : ℝ) : Prop := ∃ k : ℤ, b = 2 * k + 1

/-- `b` is an integer -/
def IsInt (b : ℝ) : Prop := ∃ k : ℤ, b = k

/-- Python `a ** b` (CPython `float_pow`).

Simplification: a negative base with a fractional exponent gives a `complex` in Python; the next
comparison, `float()` or `math.*` call on it raises `TypeError`.  The model raises `TypeError` at once. -/
noncomputable def pow (a b : Num) : Py Num :=
  match b with
  | .fin b =>
    if b = 0 then pure (.fin 1) else
    match a with
    | .nan => pure .nan
    | .inf neg =>
      if 0 < b then pure (.inf (neg && decide (IsOdd b))) else pure (.fin 0)
    | .fin a =>
      if a = 0 then (if b < 0 then Py.raise .zeroDivision else pure (.fin 0))
      else if a < 0 ∧ ¬ IsInt b then Py.raise .type
      else match F.powr a b with
        | .inf _ => Py.raise .overflow
        | r => pure r
  | .nan => if Num.feq a (.fin 1) then pure (.fin 1) else pure .nan
  | .inf neg =>
    match a with
    | .nan => pure .nan
    | .inf _ => if neg then pure (.fin 0) else pure (.inf false)
    | .fin a =>
      if |a| = 1 then pure (.fin 1)
      else if (neg = false) ↔ (1 < |a|) then pure (.inf false) else pure (.fin 0)

/-- `math.exp` -/
noncomputable def exp : Num → Py Num
  | .nan => pure .nan
  | .inf neg => if neg then pure (.fin 0) else pure (.inf false)
  | .fin a => match F.expr a with
    | .inf _ => Py.raise .overflow
    | r => pure r

/-- `math.log` -/
noncomputable def log : Num → Py Num
  | .nan => pure .nan
  | .inf neg => if neg then Py.raise .value else pure (.inf false)
  | .fin a => if a ≤ 0 then Py.raise .value else pure (F.logr a)

/-- `math.sqrt` -/
noncomputable def sqrt : Num → Py Num
  | .nan => pure .nan
  | .inf neg => if neg then Py.raise .value else pure (.inf false)
  | .fin a => if a < 0 then Py.raise .value else pure (F.sqrtr a)

/-- Exact real arithmetic: no rounding, no overflow. -/
noncomputable def ideal : FP where
  rnd := .fin
  powr a b := .fin (a ^ b)
  expr a := .fin (Real.exp a)
  logr a := .fin (Real.log a)
  sqrtr a := .fin (Real.sqrt a)

end FP

/-! ## Lists, variables, loops -/

/-- `l[i]` for a non-negative `i`: an index past the end raises `IndexError` -/
def idx {α : Type} (l : List α) (i : ℕ) : Py α :=
  match l[i]? with
  | some a => pure a
  | none => Py.raise .index

/-- reading a local variable that may not have been assigned yet -/
def getVar {α : Type} : Option α → Py α
  | some a => pure a
  | none => Py.raise .unbound

/-- `for i in range(a, b): s = body(i, s)` -/
def forRange {σ : Type} (a b : ℕ) (s : σ) (body : ℕ → σ → Py σ) : Py σ :=
  (List.range' a (b - a)).foldlM (fun s i => body i s) s

/-- What one pass through a `while` loop asks for next. -/
inductive Ctl (σ : Type) where
  | next (s : σ)   -- evaluate the condition again
  | brk (s : σ)    -- leave the loop (`break`, or the condition was false)

/-- at most `n` passes; `Ctl.next` at the end means "still running" -/
def runN {σ : Type} (pass : σ → Py (Ctl σ)) : ℕ → σ → Py (Ctl σ)
  | 0, s => pure (.next s)
  | n + 1, s => do
    match ← pass s with
    | .next s' => runN pass n s'
    | .brk s' => pure (.brk s')

/-- the run has left the loop (normally, by an exception, or by a non-terminating pass) -/
def Finished {σ : Type} (x : Py (Ctl σ)) : Prop := ∀ s, x.out ≠ .ok (.next s)

/-- a `while` loop: run passes until one leaves the loop; if none does the code never returns -/
noncomputable def whileLoop {σ : Type} (pass : σ → Py (Ctl σ)) (s : σ) : Py σ :=
  if h : ∃ n, Finished (runN pass n s) then do
    match ← runN pass (Nat.find h) s with
    | .next s' => pure s'
    | .brk s' => pure s'
  else Py.diverge

/-! ## Values used as option flags -/

/-- A Python object handed over where the code compares with `is` (unit system, ice type hint). -/
inductive PyVal where
  | none
  | int (n : ℤ)
  | bool (b : Bool)
  | float (x : Num)
  | str (s : String)

/-- `v is n` for a small integer constant `n`: identity holds exactly for that `int` object
(`True is 1` and `1.0 is 1` are false).  CPython shares small integers, which is all that occurs here. -/
def PyVal.isInt (v : PyVal) (n : ℤ) : Prop := v = .int n

/-- `v is None` -/
def PyVal.isNone (v : PyVal) : Prop := v = .none

noncomputable instance (v : PyVal) (n : ℤ) : Decidable (v.isInt n) := Classical.propDecidable _
noncomputable instance (v : PyVal) : Decidable v.isNone := Classical.propDecidable _

end PyX
