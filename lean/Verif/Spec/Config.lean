import Verif.Model.Basic

/-!
# Specification of the configuration functions

Plain arithmetic: rounding and clamping, independent of the model.
-/

namespace FAS.Spec

/-- `n/d` rounded to the nearest integer, half up. -/
def roundDiv (n d : Nat) : Nat := (2 * n + d) / (2 * d)

/-- `roundDiv` is the nearest integer: `r - 1/2 ≤ n/d < r + 1/2`, multiplied by `2*d`. -/
theorem roundDiv_nearest (n d : Nat) (hd : 0 < d) :
    2 * d * roundDiv n d ≤ 2 * n + d ∧ 2 * n + d < 2 * d * roundDiv n d + 2 * d := by
  unfold roundDiv
  have h := Nat.div_add_mod (2 * n + d) (2 * d)
  have h2 := Nat.mod_lt (2 * n + d) (show 0 < 2 * d by omega)
  omega

/-- Ticks per microsecond. -/
def ticksPerUs (a : ArchId) : Nat := a.ticksPerS / 1000000

/-- `x` limited to `lo..hi`. -/
def clamp (lo hi x : Nat) : Nat := max lo (min hi x)

end FAS.Spec
