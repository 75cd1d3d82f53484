import Verif.Spec.Converge

/-!
# Specification: runs that keep clear of contacts and of the edge of the near field
-/

set_option autoImplicit false

namespace SD.Spec

/-- In all configurations of the first `k` frames, also those inside a Runge-Kutta frame, no two beads touch, and none are
exactly at the range of the near field. -/
def Clears (W : World) (S : Settings) (bl tr : Vec3) (c : Config) (k : ℕ) : Prop :=
  ∀ j < k, ∀ s, runFrames W S bl tr (State.fresh c) j = some s → ∀ d, Visits W S bl tr j s d →
    Loose d.P ∧ (S.use_Minfinity_only = false → ¬ AtRange S.cutoff_factor d.P)

/-- The run of `k` frames from `c`, which ends in `s`, depends continuously on where the spheres start: from all places
within `r` of those of `c`, where `r` is small, the run goes through, and ends within a constant times `r` of `s`. -/
def Depends (W : World) (S : Settings) (bl tr : Vec3) (c : Config) (k : ℕ) (s : State) : Prop :=
  ∃ L ≥ 0, ∃ δ > 0, ∀ c', SameSizes c c' → Arrows c' → ∀ r ≤ δ,
    (∀ i < c.P.Ns, ∀ x, |c'.P.spherePos i x - c.P.spherePos i x| ≤ r) →
    ∃ s', runFrames W S bl tr (State.fresh c') k = some s' ∧ s'.error = false ∧
      ∀ i < c.P.Ns, ∀ x, |s'.posdata.P.spherePos i x - s.posdata.P.spherePos i x| ≤ L * r

end SD.Spec
