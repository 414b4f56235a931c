# Formal model of pyXSteam

## What is modelled

The Python sources under `/repo/pyXSteam` are transcribed function by function into Lean 4
(`lean/Verif/Model/`).  The transcription is a *shallow embedding*: each Python function becomes a Lean
function returning `Py α`, a run that carries the log records emitted and ends in a value, an exception, or
non-termination.

| file | content | source |
|---|---|---|
| `Model/Base.lean` | floats, arithmetic, exceptions, logging, lists, `for`, `while` | the Python fragment used |
| `Model/Constants.lean` | constants | `Constants.py`, `IAPWS_R14.py:13-17` |
| `Model/UnitSystem.lean` | unit system selection (hand written) | `UnitConverter.py:14-34,220-229` |
| `Model/Units.lean` | the 28 conversions | `UnitConverter.py:36-218` |
| `Model/Kernels.lean` | 69 region/border/ice/heavy water equations with their coefficient tables | `Regions.py`, `RegionBorders.py`, `IAPWS_R14.py`, `IAPWS_R4.py` |
| `Model/Select.lean` | region selection | `RegionSelection.py` |
| `Model/Transport.lean` | viscosity, conductivity, surface tension | `TransportProperties.py` |
| `Model/Api.lean` | all 93 methods of `XSteam`, all 5 of `XSteam_HW` | `XSteam.py`, `XSteam_HW.py` |
| `Model/Calls.lean` | the 98 public calls as one inductive type `Call` with `Call.run` | same |
| `Model/Session.lean` | Python values as unit arguments, objects, histories of calls (hand written) | constructors and `UnitConverter.set_unitSystem` |

`Units`, `Kernels`, `Select`, `Transport` and `Api` are printed by `tools/py2lean.py`, which parses the
Python text (it does not import or run it).  The generated files are committed, carry a file:line citation per
definition, and *are* the model; the script is only a way of typing 2700 lines of coefficient tables without
typing errors.  Each definition can be compared with its citation side by side: one Lean `let`/`if`/`forRange`
per Python statement.

### Numbers

`Num` is a float: NaN, ±inf, or a finite real.  The arithmetic `F : FP` is a parameter: `F.rnd` is the rounding
of `+ - * /` and of literals, `F.powr/expr/logr/sqrtr` is libm.  Four kinds of theorem are proved.

* **for every `F`**: holds for IEEE doubles with any rounding and libm (control flow, NaN, exceptions, logs);
  sometimes with a small explicit side condition on `F` (e.g. "the literal 2.326 does not round to 0").
* **exact** (`FP.ideal`): no rounding; the mathematical content of the formulas.
* **finite precision**: `F` has finitely many values, is monotone, ...; for termination of loops.
* **relative error**: `F` has relative error at most ε; for error bounds.  `FP.Digits15` (roundings and `pow` right to
  10⁻¹⁵, used by C83 and C84) and `FP.Log14` (`log` right to 10⁻¹⁴) are hypotheses on `F`; both are proved for
  `FP.ideal` and for `FP.binary64`, whose libm is assumed to round correctly.

### Simplifications

* `-0.0` and `0.0` are identified.
* A negative base with fractional exponent gives `complex` in Python, and the next comparison, `float()` or
  `math.*` call raises `TypeError`; the model raises `TypeError` at once.
* Arguments are floats (Python ints are covered where they convert exactly).  Integer subexpressions of the
  code (`i`, `I1[i] - 1`) are exact integers; mixed int/float arithmetic converts the int exactly.
* A log record is (level, unformatted message); arguments and the counter `step_counter` that only appears in
  messages are dropped.
* Dead assignments (loop variable copies never read) do not appear in loop states.
* Multi-branch code after which execution continues is split off into definitions called `*.rest`; loop bodies
  are split off into `*.pass`.
* `is` comparisons with small ints are identity with that int (CPython small int cache).

### Not modelled

Matplotlib demos, `bin/`, `__main__`, packaging, the tests, the formatting of log messages, recursion limits,
memory, interrupts, threads (the code has no shared mutable state besides the unit system of an instance), and the
Python float parser beyond "a literal is rounded by `F.rnd`".

## Trusted base

Lean 4 kernel; the axioms `propext`, `Classical.choice`, `Quot.sound` (no others; checked by the gate and by
`#print axioms`); the correspondence between the cited Python lines and the Lean definitions; the meaning of the
Python fragment as given in `Base.lean`; the faithfulness of the specification statements.  No `sorry`, no own
axioms, no `native_decide`/`bv_decide`.

## Specifications

The statements do not use model definitions on both sides; what is "right" is written down separately in `Spec/`.

| file | content | from |
|---|---|---|
| `Spec/Units.lean`, `Spec/CallUnits.lean` | units: scale and offset per quantity; the quantity of every argument and result | unit tables of the documentation |
| `Spec/Ranges.lean` | argument ranges of the guarded methods | doc strings |
| `Spec/Binary.lean`, `Spec/Rough.lean` | binary64 numbers and rounding; its relative error | IEEE 754 |
| `Spec/IF97.lean` | potentials of the regions 1, 2, 3, 5 as lists of terms `n xᴵ yᴶ` | IF97 tables 2, 10-11, 30, 37-38 |
| `Spec/Thermo.lean`, `Spec/Slopes.lean` | what it means that properties come from a potential, by `HasDerivAt` | thermodynamics |
| `Spec/Saturation.lean`, `Spec/RegionPT.lean`, `Spec/RegionPH.lean` | saturation line as an implicit equation; maps of regions | IF97 section 8, figure 1 |
| `Spec/Ice.lean`, `Spec/IceCurves.lean` | melting and sublimation curves | IAPWS R14-08 |

The term lists of `Spec/IF97.lean` were transcribed from the tables as they stand in the sources (no copy of the standard is
in the sandbox), one list per potential, whereas the code repeats them in every property function; the theorems show that all
copies agree and that each function is the right combination of derivatives.

## How the proofs work

* **Control flow, every arithmetic** (`Lemmas/Monad`, `Props/RegionCodes`, `Flow`, `Guards`, `NanOut`, `NanCalls`, `Total`, `UnitLaw`,
  `Dispatch`): predicates on runs that are closed under bind, `if`, `for`, `while`.
* **Loops in finite precision** (`Lemmas/Bisect`, `Props/Total`, `T4Ends`): the brackets of the searches live in a finite set; a bracket
  too wide for floats to resolve gives NaN or an exception in the first pass.
* **Loops in exact arithmetic** (`Props/Solvers`, `Converge`, `Hot`): invariants, and convergence of bisection for a strictly
  monotone function with a bounded slope.
* **Sums over tables** (`Lemmas/Terms`, `Gibbs`, `GammaDefs`, `Props/Potential`, `ApiPotential`): derivatives of `Σ n xᴵ yᴶ` and the
  loops which add them up.
* **Saturation line** (`Lemmas/Quadratic`, `SatCurve`, `Props/Saturation`, `RegionPT`).
* **Signs of polynomials on a region** (`Lemmas/Kron`, `KronTerms`, `KronSat`, `Sign*`, `Stable`, `Props/Stability`, `Monotone`): a
  checker in Lean subdivides the region into rectangles and bounds the polynomial by integer arithmetic (Kronecker substitution:
  one big natural number per polynomial). It is proved sound once (`chk2_sound`) and evaluated by the kernel (`decide`);
  every point of the region lies in one of the rectangles, so this is a proof for all reals of the region.
* **Accuracy of the backward equations** (`Lemmas/Comp`, `LogCert`, `Back1`, `Back2`, `T1ph*`, `T1ps*`, `P1hs*`, `T2a*`, `T2b*`, `T2c*`, `Back2s`, `S2a*`, `S2b*`, `S2c*`,
  `Props/Backward`, `Backward2`): the same, for `B(f₁(x,y), f₂(x,y)) - g(x,y)` with a Taylor polynomial of the inner functions and a
  bound of the remainder on each rectangle; certificates (a tree of rectangles with the degrees to use) are data, checked by
  `checkC`, whose soundness is `checkC_sound`. The generator of the certificates is not trusted. Region 3 (`Comp3`, `Back3`, `Sat3`,
  `Fluid`, `T3*`, `V3*`, `Props/Backward3`) is done in density and temperature; rectangles without states of region 3 (outside the
  pressure range, or inside the dome of the two-phase region, see `Spec/Region3`) are dismissed by a condition that fails on all of the
  rectangle (`checkR_sound`).
* **Inequalities along the saturation line** (`Lemmas/Cells`, `CellsData`, `Props/Phases`, `RegionPH`, `RegionPS`).

Concrete cases stand beside the theorems; those that need facts from several files are collected in `Props/Cases.lean`.

## Findings (defects proved as theorems)

C27 `p_hrho` ignores its arguments; C28 `T5_prho` searches with the region 2 equation; C29 `T4_hs` raises `UnboundLocalError` in
gaps; C40 the critical density is converted as a pressure; C42 `uV_p` returns NaN silently;
C46 ice VII accepted to 751 K; C53/C54 borders classified differently by (p,h), (p,s) and (p,t); C56 a search which stops at once
for one enthalpy per isobar; C59 `t_hs` raises `ValueError` for wet steam of low enthalpy; C61 the 1997 equation of region 5 is used up to 50 MPa, where it
does not fit region 2; C74 `h_prho` refuses cold water, because the volume at 0 °C is not the smallest; C76 `h_prho` refuses region 5 above 2073.15 K and above
10 MPa; C81 `hL_t` and `hV_t` return -99999 kJ/kg just above 0 °C and just below the critical point, and `vL_t` and `vV_t` are computed from it. `Call.Defective` in `Spec/CallUnits.lean` lists the calls excepted from C05 with the reason.

## Tests against wrong programs

`seeded/LOG.jsonl`: each line is one wrong edit of the model in a scratch copy, the theorems which then failed, and those tightened
because they did not.

## Properties: plan

| id | what is modelled / how it is proved |
|---|---|
| C01 | exact arithmetic; case split on unit system, field arithmetic |
| C02 | any `F` whose conversion literals are non-zero numbers; case split |
| C03 | any `F` in which the literals 0 and 1 are exact |
| C04 | `PyVal` objects, session state machine with `set` operations; induction over histories |
| C05 | any `F`: monad laws; compound functions in exact arithmetic via C01 |
| C06 | session state machine over many instances; induction over histories |
| C07 | any `F` given B23/saturation calls; exact-arithmetic characterisation with an independent spec |
| C08-C11 | any `F`: walk over all paths with a "returns only codes in S (and logs)" predicate closed under bind/if |
| C12, C13 | any `F`: control flow |
| C14, C15 | exact arithmetic |
| C16 | any `F` for the [0,1] bound (it is enforced by the converter), exact for the formula |
| C17 | any `F` |
| C18 | exact: both directions of the IF97 quadratic |
| C19 | exact: via the inverse and sign analysis of the quadratic in each variable |
| C20-C23 | exact: potentials as finite sums over the source tables given once in a Spec file, `HasDerivAt` of a sum over a table |
| C24 | exact: corollary of C20-C22 |
| C25 | finite precision: measure on brackets |
| C26 | any `F`: loop invariant rule for `whileLoop` |
| C27-C29 | any `F` (C27), exact (C29): direct evaluation |
| C30 | any `F` |
| C31, C32 | exact: power function monotonicity |
| C33, C34 | any `F` for the checks, exact for positivity |
| C35, C42 | any `F` |
| C36 | any `F`: "never raises IndexError" predicate closed under the monad, all table lengths checked |
| C37, C38 | exact / any `F` |
| C39, C40 | any `F` / exact |
| C41 | exact: algebra and bounds |
| C43 | relative error arithmetic |
| C44, C47, C52 | exact: sign checker over the region |
| C45 | finite precision with a relative error of at most 10⁻⁶ (`FP.Grid`, `FP.Rough`, both proved for binary64) |
| C46 | exact: derivative of the melting curve |
| C48-C50, C55, C58, C62, C63 | exact: accuracy checker over the region |
| C51 | every arithmetic in SI units; exact in every unit system |
| C53, C54 | exact: monotonicity (C52), inequalities along the saturation line |
| C56 | exact: convergence of bisection |
| C57 | exact: C48, C49, C53-C56, C58 combined |
| C59 | exact: the first pass of the search |
| C60, C61 | exact: polynomial bounds on the isotherm 1073.15 K, limits from region 5 |
| C64, C65 | exact: the loops unrolled against Spec/Transport (`Props/Correlations`), positivity by bounds on the exponentials |
| C66, C67 | exact: C44, C47, C53, C64, C65 combined |
| C68, C69 | exact: certificates of sign for one-variable polynomials of degree 60 (`Lemmas/Univ`, `Lemmas/P3sat`), bounds along the borders of region 3 (`Lemmas/BarsHigh`) |
| C70 | exact: C53, C54, C68 and bounds for the volumes along the saturation line (`Lemmas/SatVolume`) |
| C71 | exact: C51, C53, C54, C57 composed |
| C72 | exact: C62, C63, C69 composed; boxes `Lemmas/BarsMid` for the enthalpies at the borders of region 3 |
| C73 | exact: the enthalpy of a liquid exceeds every tangent `g(p,T') + T' s` of its isobar; a chain of tangents (`Lemmas/HsTan`, checked by natural-number arithmetic in the kernel, `Lemmas/UnivNat`, `Lemmas/HsCells`) exceeds the equation of the saturated liquid; the 100 MPa isobar by `Lemmas/HsTop` and C48; slope of `T1_ph` by `Lemmas/T1phSlope` |
| C74–C76 | exact: sign of the thermal expansion `γ_π - τ γ_πτ` by certificates (`Lemmas/Expand1`, `Expand2`, `Expand5`), bounds on volumes at fixed temperatures (`Lemmas/Volumes`), a bisection that never visits its lower bound (`bisect_near`), `T4_p` beyond the critical pressure (`T4_p_high`) |
| C77 | exact: slope of the pressure of region 3 in temperature by certificates (`Lemmas/Density3`), so that the bisection has a single end |
| C78 | exact: region 2 at 1073.15 K compared with region 5 at 1073.2 K up to 50 MPa (`Lemmas/Joint2`), monotonicity in temperature, one isotherm of region 1 |
| C79 | exact: bounds of the two quartics of region_hs by real algebra, saturated-vapour enthalpy `h4_s` bounded piecewise from 6.7 kJ/(kg K) (`Lemmas/HsVapour`), region 5 on two isotherms and monotonicity, T2_ps at 0.000611 MPa from C58 |
| C80 | exact: existence of the state by following the isobar in density (temperature unique because the pressure increases with it, C77), enthalpies at its ends and pressures in the dome by certificates (`Lemmas/Isobar3`), then C62, C63, C72 and the tolerance of C26 |
| C81 | exact: equality of the runs, by C18 and the order of the two switch points; the wrong answers by bounds on `psat` and on the terms of `v3_ph` at -99999 kJ/kg |
| C82 | exact: derivatives of the numbers returned, through the unit conversions, from the derivatives of the six kernels (`Gamma.At`) |
| C83 | floating point: forward error analysis (`Lemmas/Approx.lean`) of the two solutions of the saturation equation, `B23p_T` and the conversions; every comparison of `region_pT` is decided as in exact arithmetic |
| C84 | floating point: relative errors through integer powers, products and sums of terms (`Lemmas/Rel.lean`), applied to the equations of regions 1 and 5 (`Lemmas/FloatPt.lean`), composed with C83 and the conversions |
