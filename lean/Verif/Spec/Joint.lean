import Mathlib.Topology.Order.Basic
import Verif.Model.Base

/-!
# A step of a computed quantity at a border
-/

namespace Spec.Joint

open PyX Filter Topology

/-- the call `f` returns `a` at `t₀`, and towards `t₀` from above its results approach `b` -/
def Step (f : ℝ → Py Num) (t₀ a b : ℝ) : Prop :=
  f t₀ = pure (.fin a) ∧ ∃ g : ℝ → ℝ, (∀ᶠ t in 𝓝[>] t₀, f t = pure (.fin (g t))) ∧ Tendsto g (𝓝[>] t₀) (𝓝 b)

end Spec.Joint
