import Verif.Model.Calls

/-!
# Objects and histories

The only mutable state in the library is `_unit_system` of a `UnitConverter`
(pyXSteam/UnitConverter.py:31 is the only assignment outside constructors), and every `XSteam` /
`XSteam_HW` object owns its own converter (pyXSteam/XSteam.py:36, pyXSteam/XSteam_HW.py:26).
-/

namespace PyX

/-- all live objects, in the order of their creation: the unit system each one holds -/
abbrev World := List UnitSystem

/-- what a program can do with the library -/
inductive Op where
  /-- `XSteam(v)` or `XSteam_HW(v)` -/
  | new (v : PyVal)
  /-- `obj_i._unit_converter.set_unitSystem(v)` -/
  | set (i : ℕ) (v : PyVal)
  /-- `obj_i.method(args)` -/
  | call (i : ℕ) (c : Call)

/-- `XSteam.__init__`; pyXSteam/XSteam.py:34-39, pyXSteam/XSteam_HW.py:24-30 -/
noncomputable def XSteam.init (v : PyVal) : Py UnitSystem := do
  let u ← UnitConverter.init v
  logInfo "initialised pyXSteam with Unit System %s"
  pure u

/-- one operation: the new world and what the caller observes.
A constructor that raises yields no object; a setter that raises assigns nothing. -/
noncomputable def step (F : FP) (w : World) : Op → World × Py (Option Num)
  | .new v =>
    let r := XSteam.init v
    (match r.out with | .ok u => w ++ [u] | _ => w, r >>= fun _ => pure none)
  | .set i v =>
    match w[i]? with
    | none => (w, pure none)           -- no such object: nothing to call
    | some _ =>
      let r := UnitConverter.set_unitSystem v
      (match r.out with | .ok u => w.set i u | _ => w, r >>= fun _ => pure none)
  | .call i c =>
    match w[i]? with
    | none => (w, pure none)
    | some u => (w, c.run F u >>= fun x => pure (some x))

/-- the world after a history -/
noncomputable def runHistory (F : FP) (w : World) (h : List Op) : World :=
  h.foldl (fun w o => (step F w o).1) w

end PyX
