import Verif.Spec.Motion

/-!
# Specification of runs: refreshes, saved frames, classical time-stepping schemes

Written without reference to the model.
-/

set_option autoImplicit false

namespace SD.Spec

/-- With a refresh every `n` frames and at the starting frame, `g` is the latest refresh up to frame `f`. -/
def LatestRefresh (n start f g : ℕ) : Prop :=
  start ≤ g ∧ g ≤ f ∧ (n ∣ g ∨ g = start) ∧ ∀ h, g < h → h ≤ f → ¬ n ∣ h

/-- The frames `0, n, 2n, ...` below `N`, in order. -/
def everyNth (n N : ℕ) : List ℕ := (List.range ((N + n - 1) / n)).map fun j => n * j

/-- The classical fourth-order Runge-Kutta step for `x' = f t x`, of length `h` from `x` at time `t`. -/
noncomputable def classicalRk4 (f : ℝ → (Fin 3 → ℝ) → Fin 3 → ℝ) (t h : ℝ) (x : Fin 3 → ℝ) : Fin 3 → ℝ :=
  let k1 := f t x
  let k2 := f (t + h / 2) fun k => x k + h / 2 * k1 k
  let k3 := f (t + h / 2) fun k => x k + h / 2 * k2 k
  let k4 := f (t + h) fun k => x k + h * k3 k
  fun k => x k + h * ((k1 k + 2 * k2 k + 2 * k3 k + k4 k) / 6)

end SD.Spec
