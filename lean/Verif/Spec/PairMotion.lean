import Verif.Spec.TwoSphere
import Verif.Spec.Solve

/-!
# Specification: two spheres that move as a two-sphere solution says
-/

set_option autoImplicit false

namespace SD.Spec

/-- The scalars of the same two spheres, numbered the other way round. The axis then points the other way, so the
scalars of the odd tensors change sign. -/
def exchange (z : PairScalars) : PairScalars :=
  let turned (m : Fin 2 → Fin 2 → ℝ) : Fin 2 → Fin 2 → ℝ := quad (m 1 1) (m 1 0) (m 0 1) (m 0 0)
  let odd (m : Fin 2 → Fin 2 → ℝ) : Fin 2 → Fin 2 → ℝ := quad (-m 1 1) (-m 1 0) (-m 0 1) (-m 0 0)
  { XA := turned z.XA
    YA := turned z.YA
    YB := odd z.YB
    XC := turned z.XC
    YC := turned z.YC
    XG := odd z.XG
    YG := odd z.YG
    YH := turned z.YH
    XM := turned z.XM
    YM := turned z.YM
    ZM := turned z.ZM }

/-- Rows `p` and `q` of a list of vectors, in units of `c`. -/
noncomputable def two (l : List (Fin 3 → ℝ)) (p q : ℕ) (c : ℝ) : Fin 2 → Fin 3 → ℝ :=
  ![fun i => l.getD p 0 i / c, fun i => l.getD q 0 i / c]

/-- Rows `p` and `q` of a list of tensors, in units of `c`. -/
noncomputable def two3 (l : List (Fin 3 → Fin 3 → ℝ)) (p q : ℕ) (c : ℝ) : Fin 2 → Fin 3 → Fin 3 → ℝ :=
  ![fun i j => l.getD p 0 i j / c, fun i j => l.getD q 0 i j / c]

/-- Loads and motions of the spheres `p` and `q` are those of the two-sphere mobility problem with the scalars `z` and
the axis `d`, in units in which the radius `a` and the viscosity `mu` are 1. -/
def MovesLike (z : PairScalars) (mu a : ℝ) (d : Fin 3 → ℝ) (p q : ℕ) (o : Outputs) : Prop :=
  Mobility z d (two o.Fa p q (mu * a ^ 2)) (two o.Ta p q (mu * a ^ 3)) (two3 o.Ea p q 1)
    (two o.Ua p q a) (two o.Oa p q 1) (two3 o.Sa p q (mu * a ^ 3))

/-- Loads and motions of two spheres and of no dumbbells, with symmetric traceless tensors. -/
structure TwoRows (o : Outputs) : Prop where
  Fa : o.Fa.length = 2
  Ta : o.Ta.length = 2
  Sa : o.Sa.length = 2
  Fb : o.Fb = []
  DFb : o.DFb = []
  Ua : o.Ua.length = 2
  Oa : o.Oa.length = 2
  Ea : 2 ≤ o.Ea.length
  Ub : o.Ub = []
  HalfDUb : o.HalfDUb = []
  stress : ∀ x < 2, SymTraceless (o.Sa.getD x 0)
  strain : ∀ x < 2, SymTraceless (o.Ea.getD x 0)

/-- The power spent by the loads on the motions and by the stresslets on the rates of strain. -/
noncomputable def twoPower (F T : Fin 2 → Fin 3 → ℝ) (S : Fin 2 → Fin 3 → Fin 3 → ℝ) (U O : Fin 2 → Fin 3 → ℝ)
    (E : Fin 2 → Fin 3 → Fin 3 → ℝ) : ℝ :=
  ∑ x, (∑ i, F x i * U x i + ∑ i, T x i * O x i + ∑ i, ∑ j, S x i j * E x i j)

/-- Every motion that the two-sphere solution `z` allows costs energy. -/
def PairDissipates (z : PairScalars) : Prop :=
  ∀ d : Fin 3 → ℝ, dotp d d = 1 → ∀ F T E U O S, (∀ x, SymTraceless (E x)) → Mobility z d F T E U O S →
    (∃ x, U x ≠ 0 ∨ O x ≠ 0 ∨ E x ≠ 0) → 0 < twoPower F T S U O E

end SD.Spec
