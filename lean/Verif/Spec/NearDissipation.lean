import Verif.Spec.NearField

/-!
# Specification: the power spent on the near-field interaction of a pair

Written without reference to the model. The near-field loads of a pair of spheres are linear in their
motions; the power is load times motion, summed over all components of both spheres. By symmetry about the
line of centres it splits into four independent parts, each a quadratic form in two to six numbers.
-/

set_option autoImplicit false

namespace SD.Spec

/-- Sum over the components of the motion of a sphere. -/
def overComps (g : Comp → ℝ) : ℝ := (∑ i, g (.f i)) + (∑ i, g (.t i)) + ∑ p, g (.s p)

/-- Power spent by two neighbouring spheres of radii `a` and `b` against their near-field loads, at unit
viscosity. `d` is the unit vector from the first to the second, `w1` and `w2` their motions, `z1` and `z2`
the scalars for their own motions, `z12` those for the load on the first due to the motion of the second and
`z21` the other way round. -/
noncomputable def pairPower (z1 z2 z12 z21 : Scalars) (a b : ℝ) (d : Fin 3 → ℝ) (w1 w2 : Comp → ℝ) : ℝ :=
  overComps (fun c1 => overComps fun c2 => w1 c1 * nearSelf z1 a d c1 c2 * w1 c2)
    + overComps (fun c1 => overComps fun c2 => w2 c1 * nearSelf z2 b (fun i => -d i) c1 c2 * w2 c2)
    + 2 * overComps (fun c1 => overComps fun c2 => w1 c1 * nearPair z12 z21 True a b d c1 c2 * w2 c2)

/-- Motion along the line of centres: velocities `u1`, `u2` and axial strain rates `e1`, `e2`. -/
noncomputable def axialPower (z1 z2 z12 z21 : Scalars) (a b u1 u2 e1 e2 : ℝ) : ℝ :=
  Real.pi * (6 * (a * z1.XA * u1 ^ 2 + b * z2.XA * u2 ^ 2 + 2 * (a * z12.XA * u1 * u2))
    + 8 * (a ^ 2 * z1.XG * e1 * u1 - b ^ 2 * z2.XG * e2 * u2 + a ^ 2 * z12.XG * e1 * u2 - b ^ 2 * z21.XG * e2 * u1)
    + 10 * (a ^ 3 * z1.XM * e1 ^ 2 + b ^ 3 * z2.XM * e2 ^ 2 + 2 * (a ^ 3 * z12.XM * e1 * e2)))

/-- Rotation about the line of centres. -/
noncomputable def twistPower (z1 z2 z12 : Scalars) (a b o1 o2 : ℝ) : ℝ :=
  8 * Real.pi * (a ^ 3 * z1.XC * o1 ^ 2 + b ^ 3 * z2.XC * o2 ^ 2 + 2 * (a ^ 3 * z12.XC * o1 * o2))

/-- Motion across the line of centres: velocities `p1`, `p2`, surface velocities `q1`, `q2` of the rotation
and shear rates `s1`, `s2`. -/
noncomputable def shearPower (z1 z2 z12 z21 : Scalars) (a b p1 p2 q1 q2 s1 s2 : ℝ) : ℝ :=
  Real.pi * (6 * (a * z1.YA * p1 ^ 2 + b * z2.YA * p2 ^ 2 + 2 * (a * z12.YA * p1 * p2))
    + 8 * (a ^ 2 * z1.YB * q1 * p1 - b ^ 2 * z2.YB * q2 * p2 + a ^ 2 * z12.YB * q1 * p2 - b ^ 2 * z21.YB * q2 * p1)
    + 8 * (a ^ 3 * z1.YC * q1 ^ 2 + b ^ 3 * z2.YC * q2 ^ 2 + 2 * (a ^ 3 * z12.YC * q1 * q2))
    + 16 * (a ^ 2 * z1.YG * s1 * p1 - b ^ 2 * z2.YG * s2 * p2 + a ^ 2 * z12.YG * s1 * p2 - b ^ 2 * z21.YG * s2 * p1)
    - 32 * (a ^ 3 * z1.YH * s1 * q1 + b ^ 3 * z2.YH * s2 * q2 + a ^ 3 * z12.YH * s1 * q2 + b ^ 3 * z21.YH * s2 * q1)
    + 40 / 3 * (a ^ 3 * z1.YM * s1 ^ 2 + b ^ 3 * z2.YM * s2 ^ 2 + 2 * (a ^ 3 * z12.YM * s1 * s2)))

/-- Straining in the plane across the line of centres. -/
noncomputable def planePower (z1 z2 z12 : Scalars) (a b h1 h2 : ℝ) : ℝ :=
  20 / 3 * Real.pi * (a ^ 3 * z1.ZM * h1 ^ 2 + b ^ 3 * z2.ZM * h2 ^ 2 + 2 * (a ^ 3 * z12.ZM * h1 * h2))

/-- None of the four kinds of motion gains energy. -/
structure Dissipative (z1 z2 z12 z21 : Scalars) (a b : ℝ) : Prop where
  axial : ∀ u1 u2 e1 e2, 0 ≤ axialPower z1 z2 z12 z21 a b u1 u2 e1 e2
  twist : ∀ o1 o2, 0 ≤ twistPower z1 z2 z12 a b o1 o2
  shear : ∀ p1 p2 q1 q2 s1 s2, 0 ≤ shearPower z1 z2 z12 z21 a b p1 p2 q1 q2 s1 s2
  plane : ∀ h1 h2, 0 ≤ planePower z1 z2 z12 a b h1 h2

end SD.Spec
