import Verif.Spec.System

/-!
# Specification of near-field (lubrication) interactions

Written without reference to the model: the force, torque and stresslet on a sphere due to the motion of
itself or of a neighbour, in vector form, for given values of the eleven scalar resistance functions of
the pair (Jeffrey & Onishi; Kim & Karrila, chapter 11).
-/

set_option autoImplicit false

namespace SD.Spec

/-- The eleven scalar resistance functions of a pair, at one size ratio and separation. -/
structure Scalars where
  XA : ℝ
  YA : ℝ
  YB : ℝ
  XC : ℝ
  YC : ℝ
  XG : ℝ
  YG : ℝ
  YH : ℝ
  XM : ℝ
  YM : ℝ
  ZM : ℝ

/-- Scalar product. -/
def dotp (x y : Fin 3 → ℝ) : ℝ := x 0 * y 0 + x 1 * y 1 + x 2 * y 2

/-- Vector product. -/
def cross (x y : Fin 3 → ℝ) : Fin 3 → ℝ :=
  ![x 1 * y 2 - x 2 * y 1, x 2 * y 0 - x 0 * y 2, x 0 * y 1 - x 1 * y 0]

/-- Matrix times vector. -/
def app (E : Fin 3 → Fin 3 → ℝ) (x : Fin 3 → ℝ) : Fin 3 → ℝ := fun i => dotp (E i) x

/-- Unit vector. -/
def unit (j : Fin 3) : Fin 3 → ℝ := fun i => dlt i j

/-- Force on a sphere of radius `a` due to the velocity `U`: `X` along the line of centres `d`, `Y`
across. -/
noncomputable def nearForce (z : Scalars) (a : ℝ) (d U : Fin 3 → ℝ) (i : Fin 3) : ℝ :=
  6 * Real.pi * a * (z.XA * (dotp d U * d i) + z.YA * (U i - dotp d U * d i))

/-- Torque due to the velocity `U` and the angular velocity `O`. -/
noncomputable def nearTorque (z : Scalars) (a : ℝ) (d U O : Fin 3 → ℝ) (i : Fin 3) : ℝ :=
  4 * Real.pi * a ^ 2 * (z.YB * cross U d i)
    + 8 * Real.pi * a ^ 3 * (z.XC * (dotp d O * d i) + z.YC * (O i - dotp d O * d i))

/-- Stresslet due to the velocity `U`, the angular velocity `O` and the symmetric traceless rate of
strain `E`. -/
noncomputable def nearStress (z : Scalars) (a : ℝ) (d U O : Fin 3 → ℝ) (E : Fin 3 → Fin 3 → ℝ)
    (i j : Fin 3) : ℝ :=
  4 * Real.pi * a ^ 2 * (z.XG * ((d i * d j - dlt i j / 3) * dotp d U)
      + z.YG * (d i * U j + U i * d j - 2 * (d i * d j * dotp d U)))
    + 8 * Real.pi * a ^ 3 * (z.YH * (cross O d i * d j + d i * cross O d j))
    + 20 / 3 * Real.pi * a ^ 3 * (z.XM * (3 / 2 * ((d i * d j - dlt i j / 3) * dotp d (app E d)))
      + z.YM * (d i * app E d j + app E d i * d j - 2 * (d i * d j * dotp d (app E d)))
      + z.ZM * (E i j - d i * app E d j - app E d i * d j
          + 1 / 2 * ((d i * d j + dlt i j) * dotp d (app E d))))

/-- Forces, torques and stresslets in this order. -/
def order : Comp → ℕ
  | .f _ => 0
  | .t _ => 1
  | .s _ => 2

/-- Load component `c1` on a sphere of radius `a` due to the unit motion `c2`, for loads of at least the
order of the motion. `d` points from the sphere to its neighbour. -/
noncomputable def nearDirect (z : Scalars) (a : ℝ) (d : Fin 3 → ℝ) (c1 c2 : Comp) : ℝ :=
  match c1, c2 with
  | .f i, .f j => nearForce z a d (unit j) i
  | .t i, .f j => nearTorque z a d (unit j) 0 i
  | .t i, .t j => nearTorque z a d 0 (unit j) i
  | .s p, .f j => five (nearStress z a d (unit j) 0 0) p
  | .s p, .t j => five (nearStress z a d 0 (unit j) 0) p
  | .s p, .s q => five (nearStress z a d 0 0 (basis5 q)) p
  | _, _ => 0

/-- Load `c1` on a sphere due to its own motion `c2` in the presence of one neighbour. The loads of lower
order follow by reciprocity. -/
noncomputable def nearSelf (z : Scalars) (a : ℝ) (d : Fin 3 → ℝ) (c1 c2 : Comp) : ℝ :=
  if order c2 ≤ order c1 then nearDirect z a d c1 c2 else nearDirect z a d c2 c1

/-- Load `c1` on a sphere of radius `a` due to the motion `c2` of its neighbour of radius `b`; `d`
points from the sphere to the neighbour, `zab` are the scalars for the ratio `b/a` and `zba` those for
`a/b`. The loads of lower order follow by reciprocity from the view of the neighbour; `first` says from
whose view the loads of equal order are taken. -/
noncomputable def nearPair (zab zba : Scalars) (first : Prop) [Decidable first] (a b : ℝ)
    (d : Fin 3 → ℝ) (c1 c2 : Comp) : ℝ :=
  if order c2 < order c1 ∨ (order c2 = order c1 ∧ first) then nearDirect zab a d c1 c2
  else nearDirect zba b (fun i => -d i) c2 c1

/-- The near-field resistance of `n` beads. `link x y` is the unit vector from `x` to `y` and their scaled
distance if they are neighbours, and `scal g lam s` the scalars of a sphere's own motion (`g = 0`) or of
its neighbour's motion (`g = 1`). If `bb` is false, dumbbell beads do not feel each other's motion. For
loads of equal order the lower-numbered bead's view is taken. -/
noncomputable def systemNear (Ns n : ℕ) (bb : Bool) (radius : ℕ → ℝ) (scal : ℕ → ℝ → ℝ → Scalars)
    (link : ℕ → ℕ → Option ((Fin 3 → ℝ) × ℝ)) (x : ℕ) (c1 : Comp) (y : ℕ) (c2 : Comp) : ℝ :=
  if x = y then
    ∑ z ∈ Finset.range n, if z = x then 0 else
      match link x z with
      | none => 0
      | some (d, s) => nearSelf (scal 0 (radius z / radius x) s) (radius x) d c1 c2
  else if bb = false ∧ Ns ≤ x ∧ Ns ≤ y then 0
  else
    match link x y with
    | none => 0
    | some (d, s) => nearPair (scal 1 (radius y / radius x) s) (scal 1 (radius x / radius y) s) (x < y)
        (radius x) (radius y) d c1 c2

/-- Neighbours in an unbounded domain: centres closer than `2 k` average radii. -/
noncomputable def openLink (k : ℝ) (centre : ℕ → Fin 3 → ℝ) (radius : ℕ → ℝ) (x y : ℕ) :
    Option ((Fin 3 → ℝ) × ℝ) :=
  let r : Fin 3 → ℝ := fun i => centre y i - centre x i
  let m := (radius x + radius y) / 2
  if len r / m < 2 * k then some (fun i => r i / len r, len r / m) else none

/-- The size ratios of all close pairs are among the tabulated ones, within a relative tolerance of about
`1e-5`. -/
def Tabulated (lams : List ℝ) (P : PosData) (k : ℝ) : Prop :=
  ∀ x < beads P, ∀ y < beads P, (x = y ∨ openLink k (centre P) (radius P) x y ≠ none) →
    ∃ t ∈ lams, |t - radius P y / radius P x| ≤ 1 / 10 ^ 8 + 1 / 10 ^ 5 * |radius P y / radius P x|

/-- Reciprocal theorem for the scalars `zab` of a sphere of radius `a` next to one of radius `b`, and `zba`
the other way round. -/
structure Reciprocal (zab zba : Scalars) (a b : ℝ) : Prop where
  XA : a * zab.XA = b * zba.XA
  YA : a * zab.YA = b * zba.YA
  XC : a ^ 3 * zab.XC = b ^ 3 * zba.XC
  YC : a ^ 3 * zab.YC = b ^ 3 * zba.YC
  XM : a ^ 3 * zab.XM = b ^ 3 * zba.XM
  YM : a ^ 3 * zab.YM = b ^ 3 * zba.YM
  ZM : a ^ 3 * zab.ZM = b ^ 3 * zba.ZM

end SD.Spec
