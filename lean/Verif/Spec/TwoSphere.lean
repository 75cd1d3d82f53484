import Verif.Model.Midfield
import Verif.Spec.NearField

/-!
# Specification of the two-sphere problem

The tensors of Kim & Karrila, *Microhydrodynamics*, sections 7.2 and 11.3, in index notation. `d` is the unit
vector from the first sphere to the second.
-/

set_option autoImplicit false

namespace SD.Spec

/-- `A_ij` and `C_ij`. -/
def kkA (X Y : ℝ) (d : Fin 3 → ℝ) (i j : Fin 3) : ℝ :=
  X * (d i * d j) + Y * (dlt i j - d i * d j)

/-- `B_ij = Y ε_ijk d_k`. -/
def kkB (Y : ℝ) (d : Fin 3 → ℝ) (i j : Fin 3) : ℝ := Y * cross (unit j) d i

/-- `G_ijk`. -/
noncomputable def kkG (X Y : ℝ) (d : Fin 3 → ℝ) (i j k : Fin 3) : ℝ :=
  X * ((d i * d j - dlt i j / 3) * d k) + Y * (d i * dlt j k + d j * dlt i k - 2 * (d i * d j * d k))

/-- `H_ijk = Y (d_i ε_jkl d_l + d_j ε_ikl d_l)`. -/
def kkH (Y : ℝ) (d : Fin 3 → ℝ) (i j k : Fin 3) : ℝ :=
  Y * (d i * cross (unit k) d j + d j * cross (unit k) d i)

/-- `M_ijkl`. -/
noncomputable def kkM (X Y Z : ℝ) (d : Fin 3 → ℝ) (i j k l : Fin 3) : ℝ :=
  X * (3 / 2 * ((d i * d j - dlt i j / 3) * (d k * d l - dlt k l / 3)))
    + Y * (1 / 2 * (d i * dlt j l * d k + d j * dlt i l * d k + d i * dlt j k * d l + d j * dlt i k * d l
        - 4 * (d i * d j * d k * d l)))
    + Z * (1 / 2 * (dlt i k * dlt j l + dlt j k * dlt i l - dlt i j * dlt k l + d i * d j * dlt k l
        + dlt i j * d k * d l + d i * d j * d k * d l - d i * dlt j l * d k - d j * dlt i l * d k
        - d i * dlt j k * d l - d j * dlt i k * d l))

/-- A linear relation between vectors `X`, `Y` and strain rates `E` on one side, vectors `V`, `W` and stresslets
`S` on the other, for the two spheres, with the Kim & Karrila tensors of the scalars `z`. The couplings from
strain to vectors are the transposes of those from vectors to stresslets, times `σ`. -/
structure Coupled (σ : ℝ) (z : PairScalars) (d : Fin 3 → ℝ) (X Y : Fin 2 → Fin 3 → ℝ)
    (E : Fin 2 → Fin 3 → Fin 3 → ℝ) (V W : Fin 2 → Fin 3 → ℝ) (S : Fin 2 → Fin 3 → Fin 3 → ℝ) : Prop where
  first : ∀ α i, V α i = ∑ β, ((∑ j, kkA (z.XA α β) (z.YA α β) d i j * X β j)
    + (∑ j, kkB (z.YB β α) d j i * Y β j) + σ * ∑ j, ∑ k, kkG (z.XG β α) (z.YG β α) d j k i * E β j k)
  second : ∀ α i, W α i = ∑ β, ((∑ j, kkB (z.YB α β) d i j * X β j)
    + (∑ j, kkA (z.XC α β) (z.YC α β) d i j * Y β j) + σ * ∑ j, ∑ k, kkH (z.YH β α) d j k i * E β j k)
  third : ∀ α i j, S α i j = ∑ β, ((∑ k, kkG (z.XG α β) (z.YG α β) d i j k * X β k)
    + (∑ k, kkH (z.YH α β) d i j k * Y β k)
    + ∑ k, ∑ l, kkM (z.XM α β) (z.YM α β) (z.ZM α β) d i j k l * E β k l)

/-- The resistance problem `(F, T, S) = R (U, Ω, E)`. -/
def Resistance (z : PairScalars) (d : Fin 3 → ℝ) (U O : Fin 2 → Fin 3 → ℝ)
    (E : Fin 2 → Fin 3 → Fin 3 → ℝ) (F T : Fin 2 → Fin 3 → ℝ) (S : Fin 2 → Fin 3 → Fin 3 → ℝ) : Prop :=
  Coupled 1 z d U O E F T S

/-- The mobility problem `(U, Ω, S) = M (F, T, E)`. By the reciprocal theorem the coupling of `U` and `Ω` to `E`
is minus the transpose of that of `S` to `F` and `T`. -/
def Mobility (z : PairScalars) (d : Fin 3 → ℝ) (F T : Fin 2 → Fin 3 → ℝ)
    (E : Fin 2 → Fin 3 → Fin 3 → ℝ) (U O : Fin 2 → Fin 3 → ℝ) (S : Fin 2 → Fin 3 → Fin 3 → ℝ) : Prop :=
  Coupled (-1) z d F T E U O S

/-- The reciprocal theorem for the scalars of loads and motions of equal kind. -/
structure Balanced (z : PairScalars) : Prop where
  XA : z.XA 0 1 = z.XA 1 0
  YA : z.YA 0 1 = z.YA 1 0
  XC : z.XC 0 1 = z.XC 1 0
  YC : z.YC 0 1 = z.YC 1 0
  XM : z.XM 0 1 = z.XM 1 0
  YM : z.YM 0 1 = z.YM 1 0
  ZM : z.ZM 0 1 = z.ZM 1 0

/-- The forces the Fortran program applies in each case (`helen_fortran/2sphere.f` lines 79-89): the first number
is the sphere, the second the direction. -/
def caseForce : FCase → Fin 2 → Fin 3 → ℝ
  | .F11 => ![![1, 0, 0], ![0, 0, 0]]
  | .F12 => ![![0, 1, 0], ![0, 0, 0]]
  | .F21 => ![![0, 0, 0], ![1, 0, 0]]
  | .F22 => ![![0, 0, 0], ![0, 1, 0]]
  | _ => fun _ _ => 0

/-- The torques (`helen_fortran/2sphere.f` lines 90-99). -/
def caseTorque : FCase → Fin 2 → Fin 3 → ℝ
  | .T11 => ![![1, 0, 0], ![0, 0, 0]]
  | .T12 => ![![0, 1, 0], ![0, 0, 0]]
  | .T21 => ![![0, 0, 0], ![1, 0, 0]]
  | .T22 => ![![0, 0, 0], ![0, 1, 0]]
  | _ => fun _ _ => 0

/-- The strain rates (`helen_fortran/2sphere.f` lines 100-119): the first number is the sphere; 1 is extension
along the axis, 3 shear in the plane across the axis, 4 shear in a plane through the axis. -/
noncomputable def caseStrain : FCase → Fin 2 → Fin 3 → Fin 3 → ℝ
  | .E11 => ![![![1, 0, 0], ![0, -1 / 2, 0], ![0, 0, -1 / 2]], fun _ _ => 0]
  | .E13 => ![![![0, 0, 0], ![0, 0, 1], ![0, 1, 0]], fun _ _ => 0]
  | .E14 => ![![![0, 1, 0], ![1, 0, 0], ![0, 0, 0]], fun _ _ => 0]
  | .E21 => ![fun _ _ => 0, ![![1, 0, 0], ![0, -1 / 2, 0], ![0, 0, -1 / 2]]]
  | .E23 => ![fun _ _ => 0, ![![0, 0, 0], ![0, 0, 1], ![0, 1, 0]]]
  | .E24 => ![fun _ _ => 0, ![![0, 1, 0], ![1, 0, 0], ![0, 0, 0]]]
  | _ => fun _ _ _ => 0

/-- The numbers printed for one sphere: velocity, angular velocity and the components xx, yy, xy, xz, yz of the
stresslet. -/
def short1 (U O : Fin 3 → ℝ) (S : Fin 3 → Fin 3 → ℝ) : List ℝ :=
  [U 0, U 1, U 2, O 0, O 1, O 2, S 0 0, S 1 1, S 0 1, S 0 2, S 1 2]

/-- The printed line (`helen_fortran/2sphere.f` lines 377-382). -/
def short (U O : Fin 2 → Fin 3 → ℝ) (S : Fin 2 → Fin 3 → Fin 3 → ℝ) : List ℝ :=
  short1 (U 0) (O 0) (S 0) ++ short1 (U 1) (O 1) (S 1)

/-- The Fortran program solves the mobility problem with the scalars `z` for two spheres on the first axis. -/
def SolvesMobility (z : PairScalars) (run : FCase → ℕ → ℝ) : Prop :=
  ∀ c, ∃ U O S, Mobility z ![1, 0, 0] (caseForce c) (caseTorque c) (caseStrain c) U O S ∧
    ∀ i < 22, run c i = (short U O S).getD i 0

/-- The eleven condensed components of a load or motion. -/
noncomputable def comps (V W : Fin 3 → ℝ) (S : Fin 3 → Fin 3 → ℝ) : Comp → ℝ
  | .f i => V i
  | .t i => W i
  | .s p => five S p

/-- The eleven scalars of a table column. -/
def ofColumn (f : ℕ → ℝ) : Scalars where
  XA := f 0
  YA := f 1
  YB := f 2
  XC := f 3
  YC := f 4
  XG := f 5
  YG := f 6
  YH := f 7
  XM := f 8
  YM := f 9
  ZM := f 10

/-- The near-field resistance of two spheres, `systemNear` written out: `own x` and `other x` are the scalars of
sphere `x` for its own motion and its neighbour's. -/
noncomputable def twoNear (own other : Fin 2 → Scalars) (a : Fin 2 → ℝ) (d : Fin 3 → ℝ) (x y : Fin 2)
    (c1 c2 : Comp) : ℝ :=
  let dx : Fin 3 → ℝ := if x = 0 then d else fun i => -d i
  if x = y then nearSelf (own x) (a x) dx c1 c2
  else nearPair (other x) (other y) (x < y) (a x) (a y) dx c1 c2

end SD.Spec
