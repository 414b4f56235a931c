import Lean.Meta.Tactic.Simp.RegisterCommand
import Mathlib.Tactic.TypeStar

/-- evaluation of the embedded Python in exact arithmetic -/
register_simp_attr ideal

/-- "raises no IndexError and terminates" facts (`Verif/Props/Total.lean`) -/
register_simp_attr clean

/-- "a finite number or a log record" facts (`Verif/Props/Sound.lean`) -/
register_simp_attr sound

/-- "NaN in, NaN out" facts (`Verif/Props/NanOut.lean`) -/
register_simp_attr nanout

/-- exact conversions of finite values (`Verif/Lemmas/SI.lean`) -/
register_simp_attr si
