import Verif.Model.Minfinity
import Verif.Model.Timestep
import Mathlib.MeasureTheory.Integral.IntervalIntegral.Basic
import Mathlib.Analysis.SpecialFunctions.Pow.Real

/-!
# `functions/generate_Minfinity_periodic.py`

The far-field mobility matrix in a periodic box, by Ewald summation. Names are those of the code, in the
namespace `SD.Ewald`. A boolean such as `(i == j)` used as a number is `kron i j`. The sums over the grid
points, written as loops over numbered arrays, are sums over lists; the arrays `s_lmn`, `erfcs_lmn`
(computed by the callers as the norms of `r + X_lmn` and their `generate_erfcs`) are computed in place.
-/

set_option autoImplicit false

namespace SD.Ewald

/-! ## Derivatives of `r erfc(lambda r)` -/

/-- `DD_rerfclr`: `functions/generate_Minfinity_periodic.py` lines 25-40. -/
noncomputable def DD_rerfclr (ri rj ss erfc0 erfc1 erfc2 : ℝ) (i j : Fin 3) : ℝ :=
  (kron i j / ss - ri * rj / ss ^ 3) * erfc0
    + (kron i j + ri * rj / ss ^ 2) * erfc1
    + ri * rj / ss * erfc2

/-- `Lap_rerfclr`: `functions/generate_Minfinity_periodic.py` lines 44-46. -/
noncomputable def Lap_rerfclr (ss erfc0 erfc1 erfc2 : ℝ) : ℝ :=
  2 / ss * erfc0 + 4 * erfc1 + ss * erfc2

/-- `DDD_rerfclr`: `functions/generate_Minfinity_periodic.py` lines 52-59. -/
noncomputable def DDD_rerfclr (ri rj rl ss erfc0 erfc1 erfc2 erfc3 : ℝ) (i j l : Fin 3) : ℝ :=
  let a := -kron i j * rl - kron i l * rj - kron j l * ri + 3 * ri * rj * rl / ss ^ 2
  1 / ss ^ 3 * a * erfc0
    + 1 / ss ^ 2 * (-a) * erfc1
    + 1 / ss * (kron i j * rl + kron i l * rj + kron j l * ri) * erfc2
    + ri * rj * rl / ss ^ 2 * erfc3

/-- `DLap_rerfclr`: `functions/generate_Minfinity_periodic.py` lines 63-66. -/
noncomputable def DLap_rerfclr (rl ss erfc0 erfc1 erfc2 erfc3 : ℝ) : ℝ :=
  -2 * rl / ss ^ 3 * erfc0 + 2 * rl / ss ^ 2 * erfc1 + 5 * rl / ss * erfc2 + rl * erfc3

/-- `DDDD_rerfclr`: `functions/generate_Minfinity_periodic.py` lines 72-87. -/
noncomputable def DDDD_rerfclr (ri rj rl rm ss erfc0 erfc1 erfc2 erfc3 erfc4 : ℝ)
    (i j l m : Fin 3) : ℝ :=
  let kron_rr := kron i j * rl * rm + kron i l * rj * rm + kron l j * ri * rm + kron i m * rj * rl
    + kron j m * ri * rl + kron l m * ri * rj
  let kron3 := kron i j * kron l m + kron j l * kron i m + kron i l * kron j m
  let rirjrlrm := ri * rj * rl * rm
  let a := -kron3 / ss ^ 3 + 3 * kron_rr / ss ^ 5 - 15 * rirjrlrm / ss ^ 7
  a * erfc0
    + (-a * ss) * erfc1
    + (kron3 / ss - 3 * rirjrlrm / ss ^ 5) * erfc2
    + (kron_rr / ss ^ 2 - 2 * rirjrlrm / ss ^ 4) * erfc3
    + rirjrlrm / ss ^ 3 * erfc4

/-- `DDLap_rerfclr`: `functions/generate_Minfinity_periodic.py` lines 91-101. -/
noncomputable def DDLap_rerfclr (rl rm ss erfc0 erfc1 erfc2 erfc3 erfc4 : ℝ) (l m : Fin 3) : ℝ :=
  let kron_lm := kron l m
  let rlrm := rl * rm
  let a := -2 * kron_lm / ss ^ 3 + 6 * rlrm / ss ^ 5
  a * erfc0
    + (-a * ss) * erfc1
    + (-3 * rlrm / ss ^ 3 + 5 * kron_lm / ss) * erfc2
    + (5 * rlrm / ss ^ 2 + kron_lm) * erfc3
    + rlrm / ss * erfc4

/-- `LapLap_rerfclr`: `functions/generate_Minfinity_periodic.py` lines 105-108. -/
noncomputable def LapLap_rerfclr (ss erfc2 erfc3 erfc4 : ℝ) : ℝ :=
  12 / ss * erfc2 + 8 * erfc3 + ss * erfc4

/-- `DDDLap_rerfclr`: `functions/generate_Minfinity_periodic.py` lines 114-126. -/
noncomputable def DDDLap_rerfclr (ri rj rk ss erfc0 erfc1 erfc2 erfc3 erfc4 erfc5 : ℝ)
    (i j k : Fin 3) : ℝ :=
  let kron_r := kron i j * rk + kron i k * rj + kron j k * ri
  let a := 6 * kron_r / ss ^ 5 - 30 * ri * rj * rk / ss ^ 7
  let rirjrk := ri * rj * rk
  a * erfc0
    + (-a * ss) * erfc1
    + (-3 * kron_r / ss ^ 3 + 3 * rirjrk / ss ^ 5) * erfc2
    + (5 * kron_r / ss ^ 2 - 13 * rirjrk / ss ^ 4) * erfc3
    + (kron_r / ss + 4 * rirjrk / ss ^ 3) * erfc4
    + rirjrk / ss ^ 2 * erfc5

/-- `DLapLap_rerfclr`: `functions/generate_Minfinity_periodic.py` lines 130-136. -/
noncomputable def DLapLap_rerfclr (rk ss erfc2 erfc3 erfc4 erfc5 : ℝ) : ℝ :=
  -12 * rk / ss ^ 3 * erfc2
    + 12 * rk / ss ^ 2 * erfc3
    + 9 * rk / ss * erfc4
    + rk * erfc5

/-- `DDDDLap_rerfclr`: `functions/generate_Minfinity_periodic.py` lines 142-157. -/
noncomputable def DDDDLap_rerfclr (ri rj rk rl ss erfc0 erfc1 erfc2 erfc3 erfc4 erfc5 erfc6 : ℝ)
    (i j k l : Fin 3) : ℝ :=
  let kron_rr := kron i j * rk * rl + kron i k * rj * rl + kron k j * ri * rl + kron i l * rj * rk
    + kron j l * ri * rk + kron k l * ri * rj
  let kron3 := kron i j * kron k l + kron j k * kron i l + kron i k * kron j l
  let rirjrkrl := ri * rj * rk * rl
  let a := 6 * kron3 / ss ^ 5 - 30 * kron_rr / ss ^ 7 + 210 * rirjrkrl / ss ^ 9
  a * erfc0
    + (-a * ss) * erfc1
    + (-3 * kron3 / ss ^ 3 + 3 * kron_rr / ss ^ 5 + 15 * rirjrkrl / ss ^ 7) * erfc2
    + (5 * kron3 / ss ^ 2 - 13 * kron_rr / ss ^ 4 + 55 * rirjrkrl / ss ^ 6) * erfc3
    + (kron3 / ss + 4 * kron_rr / ss ^ 3 - 25 * rirjrkrl / ss ^ 5) * erfc4
    + (kron_rr / ss ^ 2 + 2 * rirjrkrl / ss ^ 4) * erfc5
    + rirjrkrl / ss ^ 3 * erfc6

/-- `DDLapLap_rerfclr`: `functions/generate_Minfinity_periodic.py` lines 161-169. -/
noncomputable def DDLapLap_rerfclr (rk rl ss erfc2 erfc3 erfc4 erfc5 erfc6 : ℝ) (k l : Fin 3) : ℝ :=
  let a := -12 * kron k l / ss ^ 3 + 36 * rk * rl / ss ^ 5
  a * erfc2
    + (-a) * ss * erfc3
    + (3 * rk * rl / ss ^ 3 + 9 * kron k l / ss) * erfc4
    + (9 * rk * rl / ss ^ 2 + kron k l) * erfc5
    + rk * rl / ss * erfc6

/-- `math.erfc`, used at `functions/generate_Minfinity_periodic.py` line 177: one minus the error
function, which is defined by its integral. -/
noncomputable def erfc (x : ℝ) : ℝ :=
  1 - 2 / Real.sqrt Real.pi * ∫ t in (0 : ℝ)..x, Real.exp (-t ^ 2)

/-- `generate_erfcs(s, lamb)`: `functions/generate_Minfinity_periodic.py` lines 174-184. -/
noncomputable def generate_erfcs (s lamb : ℝ) : Fin 7 → ℝ :=
  let E := 2 / Real.sqrt Real.pi * Real.exp (-s ^ 2 * lamb ^ 2) * lamb
  ![erfc (lamb * s),
    -E,
    2 * lamb ^ 2 * s * E,
    -2 * lamb ^ 2 * E * (2 * lamb ^ 2 * s ^ 2 - 1),
    4 * lamb ^ 4 * s * E * (2 * lamb ^ 2 * s ^ 2 - 3),
    -4 * lamb ^ 4 * E * (4 * lamb ^ 4 * s ^ 4 - 12 * lamb ^ 2 * s ^ 2 + 3),
    8 * lamb ^ 6 * s * E * (4 * lamb ^ 4 * s ^ 4 - 20 * lamb ^ 2 * s ^ 2 + 15)]

/-- `kron3tracelessmatrix[i][j][k][l]`: `functions/generate_Minfinity_periodic.py` lines 191-222. The
literals `ft = 1.3333333333333333` and `mtt = -0.6666666666666667` are 4/3 and -2/3. Only indices 0-2 are
used. -/
noncomputable def kron3traceless (i j k l : Fin 3) : ℝ :=
  kron i k * kron j l + kron i l * kron j k - 2 / 3 * (kron i j * kron k l)

/-! ## Derivatives of the real-space tensor -/

/-- `J`: `functions/generate_Minfinity_periodic.py` lines 226-229. -/
noncomputable def J (r : Vec3) (ss : ℝ) (i j : Fin 3) (e : Fin 7 → ℝ) : ℝ :=
  kron i j * Lap_rerfclr ss (e 0) (e 1) (e 2) - DD_rerfclr (r i) (r j) ss (e 0) (e 1) (e 2) i j

/-- `D_J`: `functions/generate_Minfinity_periodic.py` lines 249-258. -/
noncomputable def D_J (r : Vec3) (ss : ℝ) (l i j : Fin 3) (e : Fin 7 → ℝ) : ℝ :=
  kron i j * DLap_rerfclr (r l) ss (e 0) (e 1) (e 2) (e 3)
    - DDD_rerfclr (r i) (r j) (r l) ss (e 0) (e 1) (e 2) (e 3) i j l

/-- `R`: `functions/generate_Minfinity_periodic.py` lines 235-239. -/
noncomputable def R (r : Vec3) (ss : ℝ) (i j : Fin 3) (e : Fin 7 → ℝ) : ℝ :=
  let k := j + 1
  let l := j + 2;
  -(1 / 2) * (D_J r ss k i l e - D_J r ss l i k e)

/-- `K`: `functions/generate_Minfinity_periodic.py` lines 243-245. -/
noncomputable def K (r : Vec3) (ss : ℝ) (i j k : Fin 3) (e : Fin 7 → ℝ) : ℝ :=
  (1 / 2) * (D_J r ss k i j e + D_J r ss j i k e)

/-- `DD_J`: `functions/generate_Minfinity_periodic.py` lines 264-276. -/
noncomputable def DD_J (r : Vec3) (ss : ℝ) (m l i j : Fin 3) (e : Fin 7 → ℝ) : ℝ :=
  kron i j * DDLap_rerfclr (r l) (r m) ss (e 0) (e 1) (e 2) (e 3) (e 4) l m
    - DDDD_rerfclr (r i) (r j) (r l) (r m) ss (e 0) (e 1) (e 2) (e 3) (e 4) i j l m

/-- `D_R`: `functions/generate_Minfinity_periodic.py` lines 280-286. -/
noncomputable def D_R (r : Vec3) (ss : ℝ) (l i j : Fin 3) (e : Fin 7 → ℝ) : ℝ :=
  let m := j + 1
  let n := j + 2;
  -(1 / 2) * (DD_J r ss l m i n e - DD_J r ss l n i m e)

/-- `D_K`: `functions/generate_Minfinity_periodic.py` lines 290-293. -/
noncomputable def D_K (r : Vec3) (ss : ℝ) (l i j k : Fin 3) (e : Fin 7 → ℝ) : ℝ :=
  (1 / 2) * (DD_J r ss l k i j e + DD_J r ss l j i k e)

/-- `Lap_J`: `functions/generate_Minfinity_periodic.py` lines 297-303. -/
noncomputable def Lap_J (r : Vec3) (ss : ℝ) (i j : Fin 3) (e : Fin 7 → ℝ) : ℝ :=
  kron i j * LapLap_rerfclr ss (e 2) (e 3) (e 4)
    - DDLap_rerfclr (r i) (r j) ss (e 0) (e 1) (e 2) (e 3) (e 4) i j

/-- `DLap_J`: `functions/generate_Minfinity_periodic.py` lines 309-317. -/
noncomputable def DLap_J (r : Vec3) (ss : ℝ) (k i j : Fin 3) (e : Fin 7 → ℝ) : ℝ :=
  kron i j * DLapLap_rerfclr (r k) ss (e 2) (e 3) (e 4) (e 5)
    - DDDLap_rerfclr (r i) (r j) (r k) ss (e 0) (e 1) (e 2) (e 3) (e 4) (e 5) i j k

/-- `Lap_R`: `functions/generate_Minfinity_periodic.py` lines 321-326. -/
noncomputable def Lap_R (r : Vec3) (ss : ℝ) (i j : Fin 3) (e : Fin 7 → ℝ) : ℝ :=
  let k := j + 1
  let l := j + 2;
  -(1 / 2) * (DLap_J r ss k i l e - DLap_J r ss l i k e)

/-- `Lap_K`: `functions/generate_Minfinity_periodic.py` lines 330-333. -/
noncomputable def Lap_K (r : Vec3) (ss : ℝ) (i j k : Fin 3) (e : Fin 7 → ℝ) : ℝ :=
  (1 / 2) * (DLap_J r ss k i j e + DLap_J r ss j i k e)

/-- `DDLap_J`: `functions/generate_Minfinity_periodic.py` lines 339-349. -/
noncomputable def DDLap_J (r : Vec3) (ss : ℝ) (l k i j : Fin 3) (e : Fin 7 → ℝ) : ℝ :=
  kron i j * DDLapLap_rerfclr (r k) (r l) ss (e 2) (e 3) (e 4) (e 5) (e 6) k l
    - DDDDLap_rerfclr (r i) (r j) (r k) (r l) ss (e 0) (e 1) (e 2) (e 3) (e 4) (e 5) (e 6) i j k l

/-- `DLap_K`: `functions/generate_Minfinity_periodic.py` lines 353-357. -/
noncomputable def DLap_K (r : Vec3) (ss : ℝ) (l i j k : Fin 3) (e : Fin 7 → ℝ) : ℝ :=
  (1 / 2) * (DDLap_J r ss l k i j e + DDLap_J r ss l j i k e)

/-! ## Real-space tensors -/

/-- `ar`: `functions/generate_Minfinity_periodic.py` lines 364-373. -/
noncomputable def ar (r : Vec3) (s a1 a2 : ℝ) (i j : Fin 3) (e : Fin 7 → ℝ) (c mu : ℝ) : ℝ :=
  if s > eps10 then c * (J r s i j e + (a1 ^ 2 + a2 ^ 2) / 6 * Lap_J r s i j e)
  else kron i j / (6 * Real.pi * mu * a1)

/-- `btr`: `functions/generate_Minfinity_periodic.py` lines 377-383. -/
noncomputable def btr (r : Vec3) (s a1 _a2 : ℝ) (i j : Fin 3) (e : Fin 7 → ℝ) (c _mu : ℝ) : ℝ :=
  if s > eps10 then c * (R r s i j e + a1 ^ 2 / 6 * Lap_R r s i j e) else 0

/-- `cr`: `functions/generate_Minfinity_periodic.py` lines 387-394. -/
noncomputable def cr (r : Vec3) (s a1 _a2 : ℝ) (i j : Fin 3) (e : Fin 7 → ℝ) (c mu : ℝ) : ℝ :=
  if |r 0| + |r 1| + |r 2| ≤ eps10 then kron i j / (8 * Real.pi * mu * a1 ^ 3)
  else
    let k := i + 1
    let l := i + 2
    c * (1 / 2) * (D_R r s k l j e - D_R r s l k j e)

/-- `gtr`: `functions/generate_Minfinity_periodic.py` lines 398-405. -/
noncomputable def gtr (r : Vec3) (s a1 a2 : ℝ) (i j k : Fin 3) (e : Fin 7 → ℝ) (c _mu : ℝ) : ℝ :=
  if s > eps10 then -c * (K r s i j k e + (a1 ^ 2 / 6 + a2 ^ 2 / 10) * Lap_K r s i j k e) else 0

/-- `htr`: `functions/generate_Minfinity_periodic.py` lines 409-420. -/
noncomputable def htr (r : Vec3) (s _a1 a2 : ℝ) (i j k : Fin 3) (e : Fin 7 → ℝ) (c _mu : ℝ) : ℝ :=
  if |r 0| + |r 1| + |r 2| > eps10 then
    let l := i + 1
    let m := i + 2
    c * -(1 / 2) * ((D_K r s l m j k e + a2 ^ 2 / 6 * DLap_K r s l m j k e)
      - (D_K r s m l j k e + a2 ^ 2 / 6 * DLap_K r s m l j k e))
  else 0

/-- `mr`: `functions/generate_Minfinity_periodic.py` lines 424-433. -/
noncomputable def mr (r : Vec3) (s a1 a2 : ℝ) (i j k l : Fin 3) (e : Fin 7 → ℝ) (c mu : ℝ) : ℝ :=
  if s > eps10 then
    -(1 / 2) * c * ((D_K r s j i k l e + D_K r s i j k l e)
      + (a1 ^ 2 + a2 ^ 2) / 10 * (DLap_K r s j i k l e + DLap_K r s i j k l e))
  else 1 / 2 * kron3traceless i j k l / (20 / 3 * Real.pi * mu * a1 ^ 3)

/-! ## Wave-space tensors -/

/-- `Jtilde`: `functions/generate_Minfinity_periodic.py` lines 441-444. -/
noncomputable def Jtilde (ki kj ss : ℝ) (i j : Fin 3) (RR : ℝ) : ℝ :=
  -(kron i j * ss ^ 2 - ki * kj) * RR

/-- `DD_Jtilde`: `functions/generate_Minfinity_periodic.py` lines 448-451. -/
noncomputable def DD_Jtilde (kkm kkl kki kkj ss : ℝ) (i j : Fin 3) (RR : ℝ) : ℝ :=
  -kkm * kkl * Jtilde kki kkj ss i j RR

/-- `Lap_Jtilde`: `functions/generate_Minfinity_periodic.py` lines 455-458. -/
noncomputable def Lap_Jtilde (kki kkj ss : ℝ) (i j : Fin 3) (RR : ℝ) : ℝ :=
  -ss ^ 2 * Jtilde kki kkj ss i j RR

/-- `D_Ktilde`: `functions/generate_Minfinity_periodic.py` lines 462-466. -/
noncomputable def D_Ktilde (kkl kki kkj kkk ss : ℝ) (i j k : Fin 3) (RR : ℝ) : ℝ :=
  1 / 2 * (DD_Jtilde kkl kkk kki kkj ss i j RR + DD_Jtilde kkl kkj kki kkk ss i k RR)

/-- `DLap_Ktilde`: `functions/generate_Minfinity_periodic.py` lines 470-474. -/
noncomputable def DLap_Ktilde (kkl kki kkj kkk ss : ℝ) (i j k : Fin 3) (RR : ℝ) : ℝ :=
  1 / 2 * (kkk * kkl * ss ^ 2 * Jtilde kki kkj ss i j RR
    + kkl * kkj * ss ^ 2 * Jtilde kki kkk ss i k RR)

/-- `D_Rtilde`: `functions/generate_Minfinity_periodic.py` lines 478-488. -/
noncomputable def D_Rtilde (kk : Vec3) (ss : ℝ) (l i j : Fin 3) (RR : ℝ) : ℝ :=
  let m := j + 1
  let n := j + 2;
  -(1 / 2) * (DD_Jtilde (kk l) (kk m) (kk i) (kk n) ss i n RR
    - DD_Jtilde (kk l) (kk n) (kk i) (kk m) ss i m RR)

/-- `aktilde`: `functions/generate_Minfinity_periodic.py` lines 494-503. -/
noncomputable def aktilde (kk : Vec3) (ss a1 a2 : ℝ) (i j : Fin 3) (RR c : ℝ) : ℝ :=
  c * (Jtilde (kk i) (kk j) ss i j RR + (a1 ^ 2 + a2 ^ 2) / 6 * Lap_Jtilde (kk i) (kk j) ss i j RR)

/-- `cktilde`: `functions/generate_Minfinity_periodic.py` lines 507-513. -/
noncomputable def cktilde (kk : Vec3) (ss _a1 _a2 : ℝ) (i j : Fin 3) (RR c : ℝ) : ℝ :=
  let k := i + 1
  let l := i + 2
  c * (1 / 2) * (D_Rtilde kk ss k l j RR - D_Rtilde kk ss l k j RR)

/-- `htktilde`: `functions/generate_Minfinity_periodic.py` lines 517-529. -/
noncomputable def htktilde (kk : Vec3) (ss _a1 a2 : ℝ) (i j k : Fin 3) (RR c : ℝ) : ℝ :=
  let l := i + 1
  let m := i + 2
  c * -(1 / 2) * ((D_Ktilde (kk l) (kk m) (kk j) (kk k) ss m j k RR
      + a2 ^ 2 / 6 * DLap_Ktilde (kk l) (kk m) (kk j) (kk k) ss m j k RR)
    - (D_Ktilde (kk m) (kk l) (kk j) (kk k) ss l j k RR
      + a2 ^ 2 / 6 * DLap_Ktilde (kk m) (kk l) (kk j) (kk k) ss l j k RR))

/-- `mktilde`: `functions/generate_Minfinity_periodic.py` lines 533-545. -/
noncomputable def mktilde (kk : Vec3) (ss a1 a2 : ℝ) (i j k l : Fin 3) (RR c : ℝ) : ℝ :=
  -(1 / 2) * c * (D_Ktilde (kk j) (kk i) (kk k) (kk l) ss i k l RR
    + D_Ktilde (kk i) (kk j) (kk k) (kk l) ss j k l RR
    + (a1 ^ 2 + a2 ^ 2) / 10 * (DLap_Ktilde (kk j) (kk i) (kk k) (kk l) ss i k l RR
      + DLap_Ktilde (kk i) (kk j) (kk k) (kk l) ss j k l RR))

/-! ## The lattice -/

/-- What the pair functions need to know of the box: `L`, `lamb`, `X_lmn`, `K_lmn`
(`functions/generate_Minfinity_periodic.py` lines 826-868). -/
structure Lattice where
  L : ℝ
  lamb : ℝ
  X : List Vec3
  K : List Vec3

/-- `Xdash_lmn`: `functions/generate_Minfinity_periodic.py` lines 853-854. -/
noncomputable def Lattice.Xdash (W : Lattice) : List Vec3 := W.X.filter fun x => decide (norm3 x > 0)

/-- An entry of `RR_K`: `functions/generate_Minfinity_periodic.py` lines 870-872. -/
noncomputable def RRK (lamb ks : ℝ) : ℝ :=
  -8 * Real.pi / ks ^ 4 * (1 + ks ^ 2 / (4 * lamb ^ 2) + ks ^ 4 / (8 * lamb ^ 4))
    * Real.exp (-ks ^ 2 / (4 * lamb ^ 2))

/-- `np.dot(K_lmn[q], r)`: `functions/generate_Minfinity_periodic.py` line 570. -/
noncomputable def dot3 (x y : Vec3) : ℝ := x 0 * y 0 + x 1 * y 1 + x 2 * y 2

/-! ## Matrix elements -/

/-- `M11`: `functions/generate_Minfinity_periodic.py` lines 551-597. -/
noncomputable def M11 (W : Lattice) (i j : Fin 3) (r : Vec3) (s a1 a2 c mu : ℝ) : ℝ :=
  if s > eps10 then
    let sum_ar := (W.X.map fun x =>
      ar (r + x) (norm3 (r + x)) a1 a2 i j (generate_erfcs (norm3 (r + x)) W.lamb) c mu).sum
    let sum_ak := (W.K.map fun k =>
      Real.cos (dot3 k r) * aktilde k (norm3 k) a1 a2 i j (RRK W.lamb (norm3 k)) c).sum
    let sum_ak := 1 / W.L ^ 3 * sum_ak
    sum_ar + sum_ak
  else
    let a_aa := ar r s a1 a2 i j (generate_erfcs s W.lamb) c mu
    let sum_ar := (W.Xdash.map fun x =>
      ar x (norm3 x) a1 a1 i j (generate_erfcs (norm3 x) W.lamb) c mu).sum
    let sum_ak := (W.K.map fun k => aktilde k (norm3 k) a1 a1 i j (RRK W.lamb (norm3 k)) c).sum
    let sum_ak := sum_ak * (1 / W.L ^ 3)
    let a_k0 := c * kron i j * (8 * W.lamb / Real.sqrt Real.pi
      + (a1 ^ 2 + a2 ^ 2) / 6 * (-160 * W.lamb ^ 3 / (3 * Real.sqrt Real.pi)))
    a_aa + sum_ar + sum_ak - a_k0

/-- `M12`: `functions/generate_Minfinity_periodic.py` lines 601-619. -/
noncomputable def M12 (W : Lattice) (i j : Fin 3) (r : Vec3) (s a1 a2 c mu : ℝ) : ℝ :=
  if s > eps10 then
    (W.X.map fun x =>
      btr (r + x) (norm3 (r + x)) a1 a2 i j (generate_erfcs (norm3 (r + x)) W.lamb) c mu).sum
  else 0

/-- `M13`: `functions/generate_Minfinity_periodic.py` lines 623-639. -/
noncomputable def M13 (W : Lattice) (i j k : Fin 3) (r : Vec3) (s a1 a2 c mu : ℝ) : ℝ :=
  if s > eps10 then
    (W.X.map fun x =>
      gtr (r + x) (norm3 (r + x)) a1 a2 i j k (generate_erfcs (norm3 (r + x)) W.lamb) c mu).sum
  else 0

/-- `M22`: `functions/generate_Minfinity_periodic.py` lines 643-677. -/
noncomputable def M22 (W : Lattice) (i j : Fin 3) (r : Vec3) (s a1 a2 c mu : ℝ) : ℝ :=
  if s > eps10 then
    let sum_cr := (W.X.map fun x =>
      cr (r + x) (norm3 (r + x)) a1 a2 i j (generate_erfcs (norm3 (r + x)) W.lamb) c mu).sum
    let sum_ck := (W.K.map fun k =>
      Real.cos (dot3 k r) * cktilde k (norm3 k) a1 a2 i j (RRK W.lamb (norm3 k)) c).sum
    let sum_ck := sum_ck * (1 / W.L ^ 3)
    sum_cr + sum_ck
  else
    let c_aa := cr r s a1 a2 i j (generate_erfcs s W.lamb) c mu
    let sum_cr := (W.Xdash.map fun x =>
      cr x (norm3 x) a1 a1 i j (generate_erfcs (norm3 x) W.lamb) c mu).sum
    let sum_ck := (W.K.map fun k => cktilde k (norm3 k) a1 a1 i j (RRK W.lamb (norm3 k)) c).sum
    let sum_ck := sum_ck * (1 / W.L ^ 3)
    c_aa + sum_cr + sum_ck

/-- `M23`: `functions/generate_Minfinity_periodic.py` lines 681-711. -/
noncomputable def M23 (W : Lattice) (i j k : Fin 3) (r : Vec3) (s a1 a2 c mu : ℝ) : ℝ :=
  if s > eps10 then
    let sum_htr := (W.X.map fun x =>
      htr (r + x) (norm3 (r + x)) a1 a2 i j k (generate_erfcs (norm3 (r + x)) W.lamb) c mu).sum
    let sum_htk := (W.K.map fun q =>
      Real.cos (dot3 q r) * htktilde q (norm3 q) a1 a2 i j k (RRK W.lamb (norm3 q)) c).sum
    let sum_htk := sum_htk * (1 / W.L ^ 3)
    sum_htr + sum_htk
  else
    let sum_hr := (W.Xdash.map fun x =>
      htr x (norm3 x) a1 a1 i j k (generate_erfcs (norm3 x) W.lamb) c mu).sum
    let sum_hk := (W.K.map fun q => htktilde q (norm3 q) a1 a1 i j k (RRK W.lamb (norm3 q)) c).sum
    let sum_hk := sum_hk * (1 / W.L ^ 3)
    sum_hr + sum_hk

/-- `M33`: `functions/generate_Minfinity_periodic.py` lines 715-757. -/
noncomputable def M33 (W : Lattice) (i j k l : Fin 3) (r : Vec3) (s a1 a2 c mu : ℝ) : ℝ :=
  if s > eps10 then
    let sum_mr := (W.X.map fun x =>
      mr (r + x) (norm3 (r + x)) a1 a2 i j k l (generate_erfcs (norm3 (r + x)) W.lamb) c mu).sum
    let sum_mk := (W.K.map fun q =>
      Real.cos (dot3 q r) * mktilde q (norm3 q) a1 a2 i j k l (RRK W.lamb (norm3 q)) c).sum
    let sum_mk := sum_mk * (1 / W.L ^ 3)
    sum_mr + sum_mk
  else
    let m_aa := mr r s a1 a2 i j k l (generate_erfcs s W.lamb) c mu
    let sum_mr := (W.Xdash.map fun x =>
      mr x (norm3 x) a1 a1 i j k l (generate_erfcs (norm3 x) W.lamb) c mu).sum
    let sum_mk := (W.K.map fun q => mktilde q (norm3 q) a1 a1 i j k l (RRK W.lamb (norm3 q)) c).sum
    let sum_mk := sum_mk * (1 / W.L ^ 3)
    let m_k0 := c * ((-8 * W.lamb ^ 3 / (3 * Real.sqrt Real.pi)
      + (a1 ^ 2 + a2 ^ 2) / 10 * (168 * W.lamb ^ 5) / (5 * Real.sqrt Real.pi))
      * -3 * kron3traceless i j k l)
    m_aa + sum_mr + sum_mk - m_k0

/-- `con_M13_row`: `functions/generate_Minfinity_periodic.py` lines 761-772. -/
noncomputable def con_M13_row (W : Lattice) (i : Fin 3) (r : Vec3) (s a1 a2 c mu : ℝ) : Vec5 :=
  let A := M13 W i 0 0 r s a1 a2 c mu
  let B := M13 W i 1 1 r s a1 a2 c mu
  ![hs3p1 * A + hs3m1 * B,
    s2 * M13 W i 0 1 r s a1 a2 c mu,
    hs3m1 * A + hs3p1 * B,
    s2 * M13 W i 0 2 r s a1 a2 c mu,
    s2 * M13 W i 1 2 r s a1 a2 c mu]

/-- `con_M23_row`: `functions/generate_Minfinity_periodic.py` lines 776-787. -/
noncomputable def con_M23_row (W : Lattice) (i : Fin 3) (r : Vec3) (s a1 a2 c mu : ℝ) : Vec5 :=
  let A := M23 W i 0 0 r s a1 a2 c mu
  let B := M23 W i 1 1 r s a1 a2 c mu
  ![hs3p1 * A + hs3m1 * B,
    s2 * M23 W i 0 1 r s a1 a2 c mu,
    hs3m1 * A + hs3p1 * B,
    s2 * M23 W i 0 2 r s a1 a2 c mu,
    s2 * M23 W i 1 2 r s a1 a2 c mu]

/-! ## The pair loop -/

/-- The 3 by 3 block `[[M11(i, j, r, ...)]]` of `functions/generate_Minfinity_periodic.py` lines
978-985, 1079-1086, 1115-1122, 1148-1155, 1168-1175, 1187-1194. -/
noncomputable def blkM11 (W : Lattice) (r : Vec3) (s a1 a2 c mu : ℝ) (i j : ℕ) : ℝ :=
  M11 W (f3 i) (f3 j) r s a1 a2 c mu

/-- The sphere-sphere branch: `functions/generate_Minfinity_periodic.py` lines 968-1064. -/
noncomputable def minfSphereSphere (W : Lattice) (D : NDMat) (K : Coords) (r : Vec3)
    (s a1 a2 c mu : ℝ) : NDMat :=
  let D := writeAt D K.A 3 3 (blkM11 W r s a1 a2 c mu)
  let D := writeAt D K.Bt 3 3 fun i j => M12 W (f3 i) (f3 j) r s a1 a2 c mu
  let D := writeAt D K.C 3 3 fun i j => M22 W (f3 i) (f3 j) r s a1 a2 c mu
  let D := (List.range 3).foldl (fun D i =>
    writeAt D (K.Gt.1 + i, K.Gt.2) 1 5 fun _ j => con_M13_row W (f3 i) r s a1 a2 c mu (f5 j)) D
  let D := (List.range 3).foldl (fun D i =>
    writeAt D (K.Ht.1 + i, K.Ht.2) 1 5 fun _ j => con_M23_row W (f3 i) r s a1 a2 c mu (f5 j)) D
  let D := writeAt D K.M 5 5 fun i j =>
    condense55 (fun i j k l => M33 W i j k l r s a1 a2 c mu) (f5 i) (f5 j)
  if a1 = a2 then
    let D := writeAt D K.Bt21 3 3 fun i j => -D.get (K.Bt.1 + i) (K.Bt.2 + j)
    let D := writeAt D K.Gt21 3 5 fun i j => -D.get (K.Gt.1 + i) (K.Gt.2 + j)
    writeAt D K.Ht21 3 5 fun i j => D.get (K.Ht.1 + i) (K.Ht.2 + j)
  else
    let mr := -r
    let D := writeAt D K.Bt21 3 3 fun i j => M12 W (f3 i) (f3 j) mr s a2 a1 c mu
    let D := (List.range 3).foldl (fun D i =>
      writeAt D (K.Gt21.1 + i, K.Gt21.2) 1 5 fun _ j =>
        con_M13_row W (f3 i) mr s a2 a1 c mu (f5 j)) D
    (List.range 3).foldl (fun D i =>
      writeAt D (K.Ht21.1 + i, K.Ht21.2) 1 5 fun _ j =>
        con_M23_row W (f3 i) mr s a2 a1 c mu (f5 j)) D

/-- The sphere-bead branches: `functions/generate_Minfinity_periodic.py` lines 1066-1101 with the corners
`M14_c, M24_c, M34_c`, and lines 1103-1135 with `M15_c, M25_c, M35_c`. The sizes are passed to `M12` and `M13`
in the order `a1, a2`. Simplification: `M11` receives an array `erfcs` left over from an earlier pair; it uses
it only through `ar` at a distance of at most `1e-10`, which ignores it. -/
noncomputable def minfSphereBead (W : Lattice) (D : NDMat) (K1 K2 K3 : ℕ × ℕ) (r : Vec3)
    (s a1 a2 c mu : ℝ) : NDMat :=
  let mr := -r
  let D := writeAt D K1 3 3 (blkM11 W r s a1 a2 c mu)
  let D := writeAt D K2 3 3 fun i j => M12 W (f3 j) (f3 i) mr s a1 a2 c mu
  writeAt D K3 5 3 fun i j =>
    condense53 (fun i j k => M13 W i j k mr s a1 a2 c mu) (f5 i) (f3 j)

/-- The body of the pair loop: `functions/generate_Minfinity_periodic.py` lines 948-1194. The displacement is
rescaled as in the open case (lines 958-961). -/
noncomputable def minfStep (W : Lattice) (P : PosData) (c mu : ℝ) (bb : Bool) (D : NDMat)
    (uv : ℕ × ℕ) : NDMat :=
  let a1_index := uv.1
  let a2_index := uv.2
  let r0 := P.beadPos a1_index - P.beadPos a2_index
  let a1 := P.beadSize a1_index
  let a2 := P.beadSize a2_index
  let r := (minfRS r0 a1 a2).1
  let s := (minfRS r0 a1 a2).2
  let K := submatrix_coords_tuple a1_index a2_index P.Ns P.Nd
  if is_sphere a1_index P.Ns && is_sphere a2_index P.Ns then
    minfSphereSphere W D K r s a1 a2 c mu
  else if is_sphere a1_index P.Ns && is_dumbbell_bead_1 a2_index P.Ns P.Nd then
    minfSphereBead W D K.M14 K.M24 K.M34 r s a1 a2 c mu
  else if is_sphere a1_index P.Ns then
    minfSphereBead W D K.M15 K.M25 K.M35 r s a1 a2 c mu
  else if is_dumbbell_bead_1 a1_index P.Ns P.Nd && is_dumbbell_bead_1 a2_index P.Ns P.Nd then
    if bb || a1_index - P.Ns == a2_index - P.Ns then
      writeAt D K.M44 3 3 (blkM11 W r s a1 a2 c mu) else D
  else if is_dumbbell_bead_1 a1_index P.Ns P.Nd && is_dumbbell_bead_2 a2_index P.Ns P.Nd then
    if bb || a1_index - P.Ns == a2_index - P.Ns - P.Nd then
      writeAt D K.M45 3 3 (blkM11 W r s a1 a2 c mu) else D
  else
    if bb || a1_index - P.Ns - P.Nd == a2_index - P.Ns - P.Nd then
      writeAt D K.M55 3 3 (blkM11 W r s a1 a2 c mu) else D

/-- `generate_Minfinity_loop`: `functions/generate_Minfinity_periodic.py` lines 909-1199. -/
noncomputable def generate_Minfinity_loop (W : Lattice) (D0 : NDMat) (P : PosData) (c mu : ℝ)
    (bb : Bool) : NDMat :=
  symmetrise ((pairs (P.Ns + 2 * P.Nd)).foldl (minfStep W P c mu bb) D0)

/-! ## The grid of the box -/

/-- `X_lmn_canonical`: `functions/generate_Minfinity_periodic.py` lines 832-841, for
`how_far_to_reproduce_gridpoints = n`. -/
def gridpoints (n : ℕ) : List (Fin 3 → ℤ) :=
  let g : List ℤ := (List.range (2 * n + 1)).map fun k : ℕ => (k : ℤ) - (n : ℤ)
  g.flatMap fun ll => g.flatMap fun mm => g.map fun nn => ![ll, mm, nn]

/-- One row of `np.dot(X_lmn_canonical, B)`: `functions/generate_Minfinity_periodic.py` lines 847, 865. -/
noncomputable def gridVec (B : Mat3) (n : Fin 3 → ℤ) : Vec3 := vecMat3 (fun a => (n a : ℝ)) B

/-- `k_basis_vectors`: `functions/generate_Minfinity_periodic.py` lines 861-864. -/
noncomputable def k_basis_vectors (L : ℝ) (B : Mat3) : Mat3 := fun a i =>
  2 * Real.pi * (L ^ 3)⁻¹ * (![npCross (B 0) (B 2), npCross (B 2) (B 1), npCross (B 0) (B 1)] a) i

/-- The lattice of a box: `functions/generate_Minfinity_periodic.py` lines 825-868. The cube root is a real
power. `spi` is the square root of pi (`functions/shared.py` line 18). -/
noncomputable def boxLattice (n : ℕ) (bottom_left top_right Ot : Vec3) (Et : Mat3) : Lattice :=
  let d : Vec3 := fun i => top_right i - bottom_left i
  let L := (d 0 * d 1 * d 2) ^ (1 / 3 : ℝ)
  let B := shear_basis_vectors (basis_canonical d) d Ot Et
  let inside := fun x : Vec3 => decide (norm3 x ≤ 1.4142 * n * L)
  { L := L
    lamb := Real.sqrt Real.pi / L
    X := ((gridpoints n).map (gridVec B)).filter inside
    K := ((gridpoints n).filter fun g => inside (gridVec B g) && decide (norm3 (gridVec B g) > 0)).map
      (gridVec (k_basis_vectors L B)) }

/-- `generate_Minfinity_periodic`: `functions/generate_Minfinity_periodic.py` lines 790-905. Returned without
the human-readable name. -/
noncomputable def generate_Minfinity_periodic (n : ℕ) (P : PosData) (bottom_left top_right : Vec3)
    (mu : ℝ) (Ot : Vec3) (Et : Mat3) (bb : Bool) : NDMat :=
  let side := 11 * P.Ns + 6 * P.Nd
  let c := 1 / (8 * Real.pi * mu)
  let M := generate_Minfinity_loop (boxLattice n bottom_left top_right Ot Et)
    (NDMat.zeros side side) P c mu bb
  if P.Nd > 0 then
    let L := cooMatrix side (dumbbellLEntries P.Ns P.Nd)
    let R := L.transpose
    (L.dot M).dot R
  else M

end SD.Ewald
