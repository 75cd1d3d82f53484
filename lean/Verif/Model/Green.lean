import Verif.Model.SimTools
import Mathlib.Analysis.Real.Pi.Bounds

/-!
# Closed forms of `functions/generate_Minfinity.py`

Coordinate indices are `Fin 3`; a displacement is `Fin 3 → ℝ`. Division by zero does not occur where
the code calls these functions (each caller tests the distance first).
-/

set_option autoImplicit false

namespace SD

/-- `kronmatrix[i][j]`: `functions/generate_Minfinity.py` lines 18, 44. Only indices 0-2 are used by
the closed forms. -/
def kron (i j : Fin 3) : ℝ := if i = j then 1 else 0

/-- `kronkronmatrix[i][j][l][m]`: `functions/generate_Minfinity.py` lines 19-43, 45. The nested
literal is the identity block exactly where the first two indices agree. -/
def kronkron (i j l m : Fin 3) : ℝ := if i = j then kron l m else 0

/-- `levi(i, j, k)`: `functions/shared.py` lines 53-61. -/
def levi (i j k : Fin 3) : ℝ :=
  if i = j ∨ j = k ∨ k = i then 0
  else if (i, j, k) ∈ [((0 : Fin 3), (1 : Fin 3), (2 : Fin 3)), (1, 2, 0), (2, 0, 1)] then 1
  else -1

/-- `norm(x)`: `functions/shared.py` lines 47-50. The power 0.5 is the square root. -/
noncomputable def norm3 (x : Vec3) : ℝ := Real.sqrt (x 0 ^ 2 + x 1 ^ 2 + x 2 ^ 2)

/-- `J(ri, rj, i, j, ss)`: `functions/generate_Minfinity.py` lines 50-58. -/
noncomputable def oseenJ (ri rj : ℝ) (i j : Fin 3) (ss : ℝ) : ℝ := kron i j / ss + ri * rj / ss ^ 3

/-- `D_J(r, ss, l, i, j)`: `functions/generate_Minfinity.py` lines 86-89. -/
noncomputable def D_J (r : Vec3) (ss : ℝ) (l i j : Fin 3) : ℝ :=
  (-kron i j * r l + kron i l * r j + kron j l * r i) / ss ^ 3 - 3 * r i * r j * r l / ss ^ 5

/-- `R(r, ss, i, j)`: `functions/generate_Minfinity.py` lines 64-76. The filtered list
comprehension is a sum with the filter as a condition. -/
noncomputable def rotletR (r : Vec3) (ss : ℝ) (i j : Fin 3) : ℝ :=
  -(1 / 2) * ∑ k : Fin 3, ∑ l : Fin 3,
    if k ≠ l ∧ j ≠ k ∧ j ≠ l then levi j k l * D_J r ss k i l else 0

/-- `K(r, ss, i, j, k)`: `functions/generate_Minfinity.py` lines 80-82. -/
noncomputable def tensorK (r : Vec3) (ss : ℝ) (i j k : Fin 3) : ℝ :=
  (1 / 2) * (D_J r ss k i j + D_J r ss j i k)

/-- `DD_J(r, ss, m, l, i, j)`: `functions/generate_Minfinity.py` lines 95-107. -/
noncomputable def DD_J (r : Vec3) (ss : ℝ) (m l i j : Fin 3) : ℝ :=
  (-kronkron i j l m + kronkron i l j m + kronkron j l i m) / ss ^ 3
    - 3 * (-kron i j * r l * r m + kron i l * r j * r m + kron j l * r i * r m
        + kron i m * r j * r l + r i * kron j m * r l + r i * r j * kron l m) / ss ^ 5
    + 15 * r i * r j * r l * r m / ss ^ 7

/-- `D_R(r, ss, l, i, j)`: `functions/generate_Minfinity.py` lines 111-115. -/
noncomputable def D_R (r : Vec3) (ss : ℝ) (l i j : Fin 3) : ℝ :=
  -(1 / 2) * ∑ m : Fin 3, ∑ n : Fin 3,
    if m ≠ n ∧ m ≠ j ∧ n ≠ j then levi j m n * DD_J r ss l m i n else 0

/-- `D_K(r, ss, l, i, j, k)`: `functions/generate_Minfinity.py` lines 119-121. -/
noncomputable def D_K (r : Vec3) (ss : ℝ) (l i j k : Fin 3) : ℝ :=
  (1 / 2) * (DD_J r ss l k i j + DD_J r ss l j i k)

/-- `Lap_J(ri, rj, i, j, ss)`: `functions/generate_Minfinity.py` lines 125-127. -/
noncomputable def Lap_J (ri rj : ℝ) (i j : Fin 3) (ss : ℝ) : ℝ :=
  2 * kron i j / ss ^ 3 - 6 * ri * rj / ss ^ 5

/-- `DLap_J(r, ss, k, i, j)`: `functions/generate_Minfinity.py` lines 133-137. -/
noncomputable def DLap_J (r : Vec3) (ss : ℝ) (k i j : Fin 3) : ℝ :=
  (-6 / ss ^ 5) * (kron i j * r k + kron i k * r j + kron j k * r i)
    + (30 / ss ^ 7) * r i * r j * r k

/-- `Lap_R(r, ss, i, j)`: `functions/generate_Minfinity.py` lines 141-145 (the filter tests
`j != k` twice and never `j != l`, as in the code). -/
noncomputable def Lap_R (r : Vec3) (ss : ℝ) (i j : Fin 3) : ℝ :=
  -(1 / 2) * ∑ k : Fin 3, ∑ l : Fin 3,
    if k ≠ l ∧ j ≠ k ∧ j ≠ k then levi j k l * DLap_J r ss k i l else 0

/-- `Lap_K(r, ss, i, j, k)`: `functions/generate_Minfinity.py` lines 149-151. -/
noncomputable def Lap_K (r : Vec3) (ss : ℝ) (i j k : Fin 3) : ℝ := DLap_J r ss i j k

/-- `DLap_K(r, ss, l, i, j, k)`: `functions/generate_Minfinity.py` lines 157-169. -/
noncomputable def DLap_K (r : Vec3) (ss : ℝ) (l i j k : Fin 3) : ℝ :=
  (-6 / ss ^ 5) * (kronkron i j k l + kronkron i k j l + kronkron j k i l)
    - (210 / ss ^ 9) * r i * r j * r k * r l
    + (30 / ss ^ 7) * (kron i j * r k * r l + kron i k * r j * r l + kron j k * r i * r l
        + kron i l * r j * r k + kron j l * r i * r k + kron k l * r i * r j)

/-- The literal `1e-10` of the coincidence tests: `functions/generate_Minfinity.py` lines 175, 185,
195, 205, 218, 397. -/
noncomputable def eps10 : ℝ := 1 / 10 ^ 10

/-- `M11(ri, rj, s, a1, a2, i, j, c, mu)`: `functions/generate_Minfinity.py` lines 173-179. -/
noncomputable def M11 (ri rj s a1 a2 : ℝ) (i j : Fin 3) (c mu : ℝ) : ℝ :=
  if s > eps10 then c * (oseenJ ri rj i j s + (a1 ^ 2 + a2 ^ 2) / 6 * Lap_J ri rj i j s)
  else kron i j / (6 * Real.pi * mu * a1)

/-- `M12(r, s, a1, a2, i, j, c, mu)`: `functions/generate_Minfinity.py` lines 183-188. -/
noncomputable def M12 (r : Vec3) (s a1 _a2 : ℝ) (i j : Fin 3) (c _mu : ℝ) : ℝ :=
  if s > eps10 then c * (rotletR r s i j + a1 ^ 2 / 6 * Lap_R r s i j) else 0

/-- `M13(r, s, a1, a2, i, j, k, c, mu)`: `functions/generate_Minfinity.py` lines 192-199. -/
noncomputable def M13 (r : Vec3) (s a1 a2 : ℝ) (i j k : Fin 3) (c _mu : ℝ) : ℝ :=
  if s > eps10 then -c * (tensorK r s i j k + (a1 ^ 2 / 6 + a2 ^ 2 / 10) * Lap_K r s i j k) else 0

/-- `M22(r, s, a1, a2, i, j, c, mu)`: `functions/generate_Minfinity.py` lines 203-211. -/
noncomputable def M22 (r : Vec3) (s a1 _a2 : ℝ) (i j : Fin 3) (c mu : ℝ) : ℝ :=
  if |r 0| + |r 1| + |r 2| > eps10 then
    c * (1 / 2) * ∑ k : Fin 3, ∑ l : Fin 3,
      if k ≠ l ∧ i ≠ k ∧ i ≠ l then levi i k l * D_R r s k l j else 0
  else kron i j / (8 * Real.pi * mu * a1 ^ 3)

/-- `M23(r, s, a1, a2, i, j, k, c, mu)`: `functions/generate_Minfinity.py` lines 215-225. -/
noncomputable def M23 (r : Vec3) (s _a1 a2 : ℝ) (i j k : Fin 3) (c _mu : ℝ) : ℝ :=
  if |r 0| + |r 1| + |r 2| > eps10 then
    c * -(1 / 2) * ∑ l : Fin 3, ∑ m : Fin 3,
      if l ≠ m ∧ i ≠ l ∧ i ≠ m then
        levi i l m * (D_K r s l m j k + (a2 ^ 2 / 6) * DLap_K r s l m j k) else 0
  else 0

/-- `M33(r, s, a1, a2, i, j, k, l, c, mu)`: `functions/generate_Minfinity.py` lines 229-234. -/
noncomputable def M33 (r : Vec3) (s a1 a2 : ℝ) (i j k l : Fin 3) (c _mu : ℝ) : ℝ :=
  -(1 / 2) * c * ((D_K r s j i k l + D_K r s i j k l)
    + (a1 ^ 2 + a2 ^ 2) / 10 * (DLap_K r s j i k l + DLap_K r s i j k l))

/-- `con_M13_row(r, s, a1, a2, i, c, mu)`: `functions/generate_Minfinity.py` lines 238-249. -/
noncomputable def con_M13_row (r : Vec3) (s a1 a2 : ℝ) (i : Fin 3) (c mu : ℝ) : Vec5 :=
  let A := M13 r s a1 a2 i 0 0 c mu
  let B := M13 r s a1 a2 i 1 1 c mu
  ![hs3p1 * A + hs3m1 * B,
    s2 * M13 r s a1 a2 i 0 1 c mu,
    hs3m1 * A + hs3p1 * B,
    s2 * M13 r s a1 a2 i 0 2 c mu,
    s2 * M13 r s a1 a2 i 1 2 c mu]

/-- `con_M23_row(r, s, a1, a2, i, c, mu)`: `functions/generate_Minfinity.py` lines 253-264. -/
noncomputable def con_M23_row (r : Vec3) (s a1 a2 : ℝ) (i : Fin 3) (c mu : ℝ) : Vec5 :=
  let A := M23 r s a1 a2 i 0 0 c mu
  let B := M23 r s a1 a2 i 1 1 c mu
  ![hs3p1 * A + hs3m1 * B,
    s2 * M23 r s a1 a2 i 0 1 c mu,
    hs3m1 * A + hs3p1 * B,
    s2 * M23 r s a1 a2 i 0 2 c mu,
    s2 * M23 r s a1 a2 i 1 2 c mu]

/-- `cond_idx`: `functions/shared.py` line 21. -/
def cond_idx : Fin 5 → Fin 3 × Fin 3 := ![(0, 0), (0, 1), (1, 1), (0, 2), (1, 2)]

/-- `cond_E`: `functions/shared.py` lines 22-29. -/
noncomputable def cond_E : Fin 5 → Fin 5 → ℝ :=
  ![![hs3p1, 0, hs3m1, 0, 0],
    ![0, s2, 0, 0, 0],
    ![hs3m1, 0, hs3p1, 0, 0],
    ![0, 0, 0, s2, 0],
    ![0, 0, 0, 0, s2]]

/-- `cond_E @ T @ cond_E` with `T[i,j] = f(*cond_idx[i], *cond_idx[j])`:
`functions/generate_Minfinity.py` lines 401-406 and `functions/generate_R2Bexact.py` lines 449-453 and 490-496. -/
noncomputable def condense55 (f : Fin 3 → Fin 3 → Fin 3 → Fin 3 → ℝ) (p q : Fin 5) : ℝ :=
  ∑ u : Fin 5, (∑ t : Fin 5, cond_E p t *
    f (cond_idx t).1 (cond_idx t).2 (cond_idx u).1 (cond_idx u).2) * cond_E u q

/-- `cond_E @ T` with `T[i,j] = f(j, *cond_idx[i])`: `functions/generate_Minfinity.py` lines
450-454, 468-472. -/
noncomputable def condense53 (f : Fin 3 → Fin 3 → Fin 3 → ℝ) (p : Fin 5) (j : Fin 3) : ℝ :=
  ∑ t : Fin 5, cond_E p t * f j (cond_idx t).1 (cond_idx t).2

end SD
