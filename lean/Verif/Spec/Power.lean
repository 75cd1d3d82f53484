import Verif.Spec.Solve

/-!
# Specification: the rate at which one set of loads works against another set of motions
-/

set_option autoImplicit false

open Finset

namespace SD.Spec

/-- Forces, torques and stresslets of `p` times velocities, angular velocities and rates of strain of `q`, summed over
the spheres, plus the total and the difference force of every dumbbell of `p` times the mean velocity and half the
velocity difference of its beads in `q`. -/
def power (Ns Nd : ℕ) (p q : Outputs) : ℝ :=
  ∑ i ∈ range Ns, ((∑ c, p.Fa.getD i 0 c * q.Ua.getD i 0 c) + (∑ c, p.Ta.getD i 0 c * q.Oa.getD i 0 c)
    + ∑ k, ∑ l, p.Sa.getD i 0 k l * q.Ea.getD i 0 k l)
  + ∑ i ∈ range Nd, ((∑ c, p.Fb.getD i 0 c * q.Ub.getD i 0 c) + ∑ c, p.DFb.getD i 0 c * q.HalfDUb.getD i 0 c)

/-- Every sphere and every dumbbell of `p`, in each way it can move, either moves as in `q` or is free of load. -/
def HeldOrFree (Ns Nd : ℕ) (p q : Outputs) : Prop :=
  (∀ i < Ns, (p.Ua.getD i 0 = q.Ua.getD i 0 ∨ p.Fa.getD i 0 = 0) ∧ (p.Oa.getD i 0 = q.Oa.getD i 0 ∨ p.Ta.getD i 0 = 0) ∧
    (p.Ea.getD i 0 = q.Ea.getD i 0 ∨ p.Sa.getD i 0 = 0)) ∧
  ∀ i < Nd, (p.Ub.getD i 0 = q.Ub.getD i 0 ∨ p.Fb.getD i 0 = 0) ∧
    (p.HalfDUb.getD i 0 = q.HalfDUb.getD i 0 ∨ p.DFb.getD i 0 = 0)

/-- Both describe the same motion. -/
def MovesAs (Ns : ℕ) (p q : Outputs) : Prop :=
  p.Ua = q.Ua ∧ p.Oa = q.Oa ∧ p.Ea.take Ns = q.Ea.take Ns ∧ p.Ub = q.Ub ∧ p.HalfDUb = q.HalfDUb

end SD.Spec
