import Verif.Model.R2B
import Mathlib.Analysis.SpecialFunctions.Log.Basic
import Mathlib.Topology.Algebra.InfiniteSum.Defs

/-!
# `find_resistance_scalars/functions_nearfield.py` and `generate_scalars_nearfield.py`

Simplifications: numbers are reals, `scipy.special.zeta(3, x)` is the sum it approximates, and the caching of
results is left out. The recurrences for `Pxa`, `Vxa` and for `Pxm`, `Vxm` have the same text except for the
starting values, as do those for `Pya`, `Qya`, `Vya`, for `Pyc`, `Qyc`, `Vyc` and for `Pym`, `Qym`, `Vym`; each
is modelled once, with the starting values as arguments. The file names in the citations below are those of
`find_resistance_scalars/functions_nearfield.py` unless another is given.
-/

set_option autoImplicit false

namespace SD.Nearfield

/-- `kron(i, j)`: `functions_nearfield.py` lines 36-39. -/
def kron (i j : ℕ) : ℝ := if i = j then 1 else 0

/-- `binom(n, k)`: `functions_nearfield.py` lines 42-45. -/
def binom (n k : ℕ) : ℝ := (n.choose k : ℝ)

/-- The `parity` argument of `intermediate_sum`. -/
inductive Parity
  | odd
  | even

/-- `sumover`: `functions_nearfield.py` lines 58-61 and 89-92, `range(1, N, 2)` and `range(2, N+1, 2)`. -/
def sumover (parity : Parity) (N : ℕ) : Finset ℕ :=
  match parity with
  | .odd => (Finset.range N).filter fun m => m % 2 = 1
  | .even => (Finset.Icc 2 N).filter fun m => m % 2 = 0

/-- `intermediate_sum`: `functions_nearfield.py` lines 48-68. -/
noncomputable def intermediate_sum (f0 : ℕ → ℝ → ℝ) (f1 f2 f3 : ℝ → ℝ) (parity : Parity) (lam : ℝ) (N : ℕ) :
    ℝ :=
  ∑ m ∈ sumover parity N, ((2 : ℝ) ^ (-(m : ℤ)) * (1 + lam) ^ (-(m : ℤ)) * f0 m lam - f1 lam
    - 2 * (m : ℝ)⁻¹ * f2 lam + 4 * (m : ℝ)⁻¹ * ((m : ℝ) + 2)⁻¹ * f3 lam)

/-- `intermediate_sum_no_f0_coeff`: `functions_nearfield.py` lines 71-98. -/
noncomputable def intermediate_sum_no_f0_coeff (f0 : ℕ → ℝ → ℝ) (f1 f2 f3 : ℝ → ℝ) (parity : Parity) (lam : ℝ)
    (N : ℕ) : ℝ :=
  ∑ m ∈ sumover parity N, (f0 m lam - f1 lam - 2 * (m : ℝ)⁻¹ * f2 lam
    + 4 * (m : ℝ)⁻¹ * ((m : ℝ) + 2)⁻¹ * f3 lam)

/-- `Z(lam)`: `functions_nearfield.py` lines 101-104. -/
def Z (_ : ℝ) : ℝ := 0

/-! ## Recurrences

`s` below is one less than the `s` of the code, whose `range(1, q+1)` is empty for `q < 1`. The branch `n = 0`
is never reached: the callers start at 1 or 2 and the sums over `s` start at 1 or 2. -/

mutual

/-- `Pxa`, with `c = 1`, and `Pxm`, with `c = 2`: `functions_nearfield.py` lines 109-123 and 707-721. -/
noncomputable def Px (c n : ℕ) (p q : ℤ) : ℝ :=
  if p = 0 ∧ q = 0 then kron c n
  else if hn : n = 0 then 0
  else ∑ s : Fin q.toNat, binom (n + (s + 1)) n
    * (n * (2 * n + 1) * (2 * n * ((s : ℕ) + 1) - n - ((s : ℕ) + 1) + 2)
        / (2 * (n + 1) * (2 * ((s : ℕ) + 1) - 1) * (n + ((s : ℕ) + 1)))
        * Px c (s + 1) (q - (s + 1)) (p - n + 1)
      - n * (2 * n - 1) / (2 * (n + 1)) * Px c (s + 1) (q - (s + 1)) (p - n - 1)
      - n * (4 * n ^ 2 - 1) / (2 * (n + 1) * (2 * ((s : ℕ) + 1) + 1))
        * Vx c (s + 1) (q - (s + 1) - 2) (p - n + 1))
termination_by (p.toNat + q.toNat, 0)
decreasing_by all_goals (simp_wf; first | (apply Prod.Lex.left; omega) | (left; omega) | omega)

/-- `Vxa`, with `c = 1`, and `Vxm`, with `c = 2`: `functions_nearfield.py` lines 126-135 and 724-733. -/
noncomputable def Vx (c n : ℕ) (p q : ℤ) : ℝ :=
  if p = 0 ∧ q = 0 then kron c n
  else Px c n p q - 2 * n / ((n + 1) * (2 * n + 3))
    * ∑ s : Fin q.toNat, binom (n + (s + 1)) n * Px c (s + 1) (q - (s + 1)) (p - n - 1)
termination_by (p.toNat + q.toNat, 1)
decreasing_by all_goals (simp_wf; first | (apply Prod.Lex.left; omega) | (left; omega) | omega)

end

mutual

/-- `Pya`, `Pyc` and `Pym`: `functions_nearfield.py` lines 213-229, 398-414 and 824-840. `cp` and `cq` are the
starting values of `P` and `Q`. -/
noncomputable def Py (cp cq : ℕ → ℝ) (n : ℕ) (p q : ℤ) : ℝ :=
  if p = 0 ∧ q = 0 then cp n
  else if hn : n = 0 then 0
  else ∑ s : Fin q.toNat, binom (n + (s + 1)) (n + 1)
    * ((2 * n + 1) / (2 * (n + 1))
        * (3 * (n + ((s : ℕ) + 1)) - (n * ((s : ℕ) + 1) + 1)
          * (2 * n * ((s : ℕ) + 1) - ((s : ℕ) + 1) - n + 2))
        / (((s : ℕ) + 1) * (n + ((s : ℕ) + 1)) * (2 * ((s : ℕ) + 1) - 1))
        * Py cp cq (s + 1) (q - (s + 1)) (p - n + 1)
      + n * (2 * n - 1) / (2 * (n + 1)) * Py cp cq (s + 1) (q - (s + 1)) (p - n - 1)
      + n * (4 * n ^ 2 - 1) / (2 * (n + 1) * (2 * ((s : ℕ) + 1) + 1))
        * Vy cp cq (s + 1) (q - (s + 1) - 2) (p - n + 1)
      - 2 * (4 * n ^ 2 - 1) / (3 * (n + 1)) * Qy cp cq (s + 1) (q - (s + 1) - 1) (p - n + 1))
termination_by (p.toNat + q.toNat, 0)
decreasing_by all_goals (simp_wf; first | (apply Prod.Lex.left; omega) | (left; omega) | omega)

/-- `Qya`, `Qyc` and `Qym`: `functions_nearfield.py` lines 232-243, 417-428 and 843-854. -/
noncomputable def Qy (cp cq : ℕ → ℝ) (n : ℕ) (p q : ℤ) : ℝ :=
  if p = 0 ∧ q = 0 then cq n
  else ∑ s : Fin q.toNat, binom (n + (s + 1)) (n + 1)
    * (((s : ℕ) + 1) / (n + 1) * Qy cp cq (s + 1) (q - (s + 1) - 1) (p - n)
      - 3 / (2 * n * ((s : ℕ) + 1) * (n + 1)) * Py cp cq (s + 1) (q - (s + 1)) (p - n))
termination_by (p.toNat + q.toNat, 0)
decreasing_by all_goals (simp_wf; first | (apply Prod.Lex.left; omega) | (left; omega) | omega)

/-- `Vya`, `Vyc` and `Vym`: `functions_nearfield.py` lines 246-255, 431-440 and 857-866. -/
noncomputable def Vy (cp cq : ℕ → ℝ) (n : ℕ) (p q : ℤ) : ℝ :=
  if p = 0 ∧ q = 0 then cp n
  else Py cp cq n p q + 2 * n / ((n + 1) * (2 * n + 3))
    * ∑ s : Fin q.toNat, binom (n + (s + 1)) (n + 1) * Py cp cq (s + 1) (q - (s + 1)) (p - n - 1)
termination_by (p.toNat + q.toNat, 1)
decreasing_by all_goals (simp_wf; first | (apply Prod.Lex.left; omega) | (left; omega) | omega)

end

mutual

/-- `Pzm`: `functions_nearfield.py` lines 939-955. `s` is two less than the `s` of the code. -/
noncomputable def Pzm (n : ℕ) (p q : ℤ) : ℝ :=
  if p = 0 ∧ q = 0 then kron 2 n
  else if hn : n = 0 then 0
  else ∑ s : Fin (q - 1).toNat, binom (n + (s + 2)) (n + 2)
    * (-(2 * (2 * n + 1) * (2 * n - 1) / (n + 1)) * Qzm (s + 2) (q - (s + 2) - 1) (p - n + 1)
      + n * (2 * n + 1) * (2 * n - 1) / (2 * (n + 1) * (2 * ((s : ℕ) + 2) + 1))
        * Vzm (s + 2) (q - (s + 2) - 2) (p - n + 1)
      + (2 * n + 1) / (n + 1)
        * (n * ((s : ℕ) + 2) * (n + ((s : ℕ) + 2) - 2 * n * ((s : ℕ) + 2) - 2)
          - 4 * (2 * n * ((s : ℕ) + 2) - 4 * ((s : ℕ) + 2) - 4 * n + 2))
        / (2 * ((s : ℕ) + 2) * (n + ((s : ℕ) + 2)) * (2 * ((s : ℕ) + 2) - 1))
        * Pzm (s + 2) (q - (s + 2)) (p - n + 1)
      + n * (2 * n - 1) / (2 * (n + 1)) * Pzm (s + 2) (q - (s + 2)) (p - n - 1))
termination_by (p.toNat + q.toNat, 0)
decreasing_by all_goals (simp_wf; first | (apply Prod.Lex.left; omega) | (left; omega) | omega)

/-- `Qzm`: `functions_nearfield.py` lines 958-969. -/
noncomputable def Qzm (n : ℕ) (p q : ℤ) : ℝ :=
  if p = 0 ∧ q = 0 then 0
  else ∑ s : Fin (q - 1).toNat, binom (n + (s + 2)) (n + 2)
    * (((s : ℕ) + 2) / (n + 1) * Qzm (s + 2) (q - (s + 2) - 1) (p - n)
      - 2 / (n * ((s : ℕ) + 2) * (n + 1)) * Pzm (s + 2) (q - (s + 2)) (p - n))
termination_by (p.toNat + q.toNat, 0)
decreasing_by all_goals (simp_wf; first | (apply Prod.Lex.left; omega) | (left; omega) | omega)

/-- `Vzm`: `functions_nearfield.py` lines 972-981. -/
noncomputable def Vzm (n : ℕ) (p q : ℤ) : ℝ :=
  if p = 0 ∧ q = 0 then kron 2 n
  else Pzm n p q + 2 * n / ((n + 1) * (2 * n + 3))
    * ∑ s : Fin (q - 1).toNat, binom (n + (s + 2)) (n + 2) * Pzm (s + 2) (q - (s + 2)) (p - n - 1)
termination_by (p.toNat + q.toNat, 1)
decreasing_by all_goals (simp_wf; first | (apply Prod.Lex.left; omega) | (left; omega) | omega)

end

/-- `Pxa(n, p, q)`: `functions_nearfield.py` lines 109-123. -/
noncomputable def Pxa : ℕ → ℤ → ℤ → ℝ := Px 1

/-- `Pya(n, p, q)`: `functions_nearfield.py` lines 213-229. -/
noncomputable def Pya : ℕ → ℤ → ℤ → ℝ := Py (kron 1) fun _ => 0

/-- `Qya(n, p, q)`: `functions_nearfield.py` lines 232-243. -/
noncomputable def Qya : ℕ → ℤ → ℤ → ℝ := Qy (kron 1) fun _ => 0

/-- `Pyc(n, p, q)`: `functions_nearfield.py` lines 398-414. -/
noncomputable def Pyc : ℕ → ℤ → ℤ → ℝ := Py (fun _ => 0) (kron 1)

/-- `Qyc(n, p, q)`: `functions_nearfield.py` lines 417-428. -/
noncomputable def Qyc : ℕ → ℤ → ℤ → ℝ := Qy (fun _ => 0) (kron 1)

/-- `Pxm(n, p, q)`: `functions_nearfield.py` lines 707-721. -/
noncomputable def Pxm : ℕ → ℤ → ℤ → ℝ := Px 2

/-- `Pym(n, p, q)`: `functions_nearfield.py` lines 824-840. -/
noncomputable def Pym : ℕ → ℤ → ℤ → ℝ := Py (kron 2) fun _ => 0

/-! ## The functions -/

/-- `Fxa(k, lam)`: `functions_nearfield.py` lines 138-141. -/
noncomputable def Fxa (k : ℕ) (lam : ℝ) : ℝ :=
  2 ^ k * ∑ q ∈ Finset.range (k + 1), Pxa 1 ((k : ℤ) - q) q * lam ^ q

/-- `G1xa(lam)`: `functions_nearfield.py` lines 144-147. -/
noncomputable def G1xa (lam : ℝ) : ℝ := 2 * lam ^ 2 * (1 + lam) ^ (-3 : ℤ)

/-- `G2xa(lam)`: `functions_nearfield.py` lines 150-153. -/
noncomputable def G2xa (lam : ℝ) : ℝ := 1 / 5 * lam * (1 + 7 * lam + lam ^ 2) * (1 + lam) ^ (-3 : ℤ)

/-- `G3xa(lam)`: `functions_nearfield.py` lines 156-159. -/
noncomputable def G3xa (lam : ℝ) : ℝ := 
  1 / 42 * (1 + 18 * lam - 29 * lam ^ 2 + 18 * lam ^ 3 + lam ^ 4) * (1 + lam) ^ (-3 : ℤ)

/-- `AX11(lam)`: `functions_nearfield.py` lines 162-174. -/
noncomputable def AX11 (lam : ℝ) : ℝ :=
  let M : ℕ := 100
  let truncation_m1_match := G3xa lam * 4 / M / (M + 2);
  1 - 1 / 4 * G1xa lam - G3xa lam - truncation_m1_match
    + intermediate_sum Fxa G1xa G2xa G3xa .even lam M

/-- `AX12(lam)`: `functions_nearfield.py` lines 177-186. -/
noncomputable def AX12 (lam : ℝ) : ℝ :=
  -2 / (1 + lam) * (1 / 4 * G1xa lam + 2 * G2xa lam * Real.log 2 - 2 * G3xa lam
    + intermediate_sum Fxa G1xa G2xa G3xa .odd lam 100)

/-- `X11A(xi, lam)`: `functions_nearfield.py` lines 189-197. -/
noncomputable def X11A (xi lam : ℝ) : ℝ :=
  let xiinv := xi⁻¹;
  G1xa lam * xiinv + G2xa lam * Real.log xiinv + AX11 lam + G3xa lam * xi * Real.log xiinv

/-- `X12A(xi, lam)`: `functions_nearfield.py` lines 200-208. -/
noncomputable def X12A (xi lam : ℝ) : ℝ :=
  let xiinv := xi⁻¹;
  -(G1xa lam * xiinv + G2xa lam * Real.log xiinv - 1 / 2 * (1 + lam) * AX12 lam
    + G3xa lam * xi * Real.log xiinv)

/-- `Fya(k, lam)`: `functions_nearfield.py` lines 258-261. -/
noncomputable def Fya (k : ℕ) (lam : ℝ) : ℝ :=
  2 ^ k * ∑ q ∈ Finset.range (k + 1), Pya 1 ((k : ℤ) - q) q * lam ^ q

/-- `G2ya(lam)`: `functions_nearfield.py` lines 264-267. -/
noncomputable def G2ya (lam : ℝ) : ℝ := 4 / 15 * lam * (2 + lam + 2 * lam ^ 2) * (1 + lam) ^ (-3 : ℤ)

/-- `G3ya(lam)`: `functions_nearfield.py` lines 270-273. -/
noncomputable def G3ya (lam : ℝ) : ℝ := 
  2 / 375 * (16 - 45 * lam + 58 * lam ^ 2 - 45 * lam ^ 3 + 16 * lam ^ 4) * (1 + lam) ^ (-3 : ℤ)

/-- `AY11(lam)`: `functions_nearfield.py` lines 276-283. -/
noncomputable def AY11 (lam : ℝ) : ℝ :=
  let M : ℕ := 100
  let truncation_m1_match := G3ya lam * 4 / M / (M + 2);
  1 - G3ya lam - truncation_m1_match + intermediate_sum Fya Z G2ya G3ya .even lam M

/-- `AY12(lam)`: `functions_nearfield.py` lines 286-296. -/
noncomputable def AY12 (lam : ℝ) : ℝ :=
  let M : ℕ := 100
  let truncation_m1_match := G3ya lam * 4 / (M - 1) / (M + 1);
  -2 / (1 + lam) * (2 * G2ya lam * Real.log 2 + 2 * G3ya lam - 4 * G3ya lam - truncation_m1_match
    + intermediate_sum Fya Z G2ya G3ya .odd lam M)

/-- `Y11A(xi, lam)`: `functions_nearfield.py` lines 299-306. -/
noncomputable def Y11A (xi lam : ℝ) : ℝ :=
  let xiinv := xi⁻¹;
  G2ya lam * Real.log xiinv + AY11 lam + G3ya lam * xi * Real.log xiinv

/-- `Y12A(xi, lam)`: `functions_nearfield.py` lines 309-316. -/
noncomputable def Y12A (xi lam : ℝ) : ℝ :=
  let xiinv := xi⁻¹;
  -(G2ya lam * Real.log xiinv - 1 / 2 * (1 + lam) * AY12 lam + G3ya lam * xi * Real.log xiinv)

/-- `Fyb(k, lam)`: `functions_nearfield.py` lines 321-324. -/
noncomputable def Fyb (k : ℕ) (lam : ℝ) : ℝ :=
  2 * 2 ^ k * ∑ q ∈ Finset.range (k + 1), Qya 1 ((k : ℤ) - q) q * lam ^ q

/-- `G2yb(lam)`: `functions_nearfield.py` lines 327-330. -/
noncomputable def G2yb (lam : ℝ) : ℝ := -1 / 5 * lam * (4 + lam) * (1 + lam) ^ (-2 : ℤ)

/-- `G3yb(lam)`: `functions_nearfield.py` lines 333-336. -/
noncomputable def G3yb (lam : ℝ) : ℝ := 
  -1 / 250 * (32 - 33 * lam + 83 * lam ^ 2 + 43 * lam ^ 3) * (1 + lam) ^ (-2 : ℤ)

/-- `BY11(lam)`: `functions_nearfield.py` lines 339-345. -/
noncomputable def BY11 (lam : ℝ) : ℝ :=
  2 * G2yb lam * Real.log 2 - 2 * G3yb lam + intermediate_sum Fyb Z G2yb G3yb .odd lam 100

/-- `BY12(lam)`: `functions_nearfield.py` lines 348-355. -/
noncomputable def BY12 (lam : ℝ) : ℝ :=
  -4 / (1 + lam) ^ 2 * (-G3yb lam + intermediate_sum Fyb Z G2yb G3yb .even lam 100)

/-- `Y11B(xi, lam)`: `functions_nearfield.py` lines 358-365. -/
noncomputable def Y11B (xi lam : ℝ) : ℝ :=
  let xiinv := xi⁻¹;
  G2yb lam * Real.log xiinv + BY11 lam + G3yb lam * xi * Real.log xiinv

/-- `Y12B(xi, lam)`: `functions_nearfield.py` lines 368-375. -/
noncomputable def Y12B (xi lam : ℝ) : ℝ :=
  let xiinv := xi⁻¹;
  -(G2yb lam * Real.log xiinv - 1 / 4 * (1 + lam) ^ 2 * BY12 lam + G3yb lam * xi * Real.log xiinv)

/-- `scipy.special.zeta(3, x)`, called in `functions_nearfield.py` lines 384 and 392. -/
noncomputable def zeta3 (x : ℝ) : ℝ := ∑' k : ℕ, 1 / ((k : ℝ) + x) ^ 3

/-- `X11C(xi, lam)`: `functions_nearfield.py` lines 380-385. -/
noncomputable def X11C (xi lam : ℝ) : ℝ :=
  let xiinv := xi⁻¹;
  lam ^ 3 / (1 + lam) ^ 3 * zeta3 (lam / (1 + lam)) - lam ^ 2 / (4 * (1 + lam)) * xi * Real.log xiinv

/-- `X12C(xi, lam)`: `functions_nearfield.py` lines 388-393. -/
noncomputable def X12C (xi lam : ℝ) : ℝ :=
  let xiinv := xi⁻¹;
  -lam ^ 3 / (1 + lam) ^ 3 * zeta3 1 + lam ^ 2 / (4 * (1 + lam)) * xi * Real.log xiinv

/-- `Fyc(k, lam)`: `functions_nearfield.py` lines 443-446. -/
noncomputable def Fyc (k : ℕ) (lam : ℝ) : ℝ :=
  2 ^ k * ∑ q ∈ Finset.range (k + 1), Qyc 1 ((k : ℤ) - q) q * lam ^ (q + k % 2)

/-- `G2yc(lam)`: `functions_nearfield.py` lines 449-452. -/
noncomputable def G2yc (lam : ℝ) : ℝ := 2 / 5 * lam * (1 + lam) ^ (-1 : ℤ)

/-- `G3yc(lam)`: `functions_nearfield.py` lines 455-458. -/
noncomputable def G3yc (lam : ℝ) : ℝ := 1 / 125 * (8 + 6 * lam + 33 * lam ^ 2) * (1 + lam) ^ (-1 : ℤ)

/-- `G4yc(lam)`: `functions_nearfield.py` lines 461-464. -/
noncomputable def G4yc (lam : ℝ) : ℝ := 1 / 10 * lam ^ 2 * (1 + lam) ^ (-1 : ℤ)

/-- `G5yc(lam)`: `functions_nearfield.py` lines 467-470. -/
noncomputable def G5yc (lam : ℝ) : ℝ := 1 / 500 * lam * (43 - 24 * lam + 43 * lam ^ 2) * (1 + lam) ^ (-1 : ℤ)

/-- `CY11(lam)`: `functions_nearfield.py` lines 473-478. -/
noncomputable def CY11 (lam : ℝ) : ℝ :=
  1 - G3yc lam + intermediate_sum Fyc Z G2yc G3yc .even lam 100

/-- `CY12(lam)`: `functions_nearfield.py` lines 481-488. -/
noncomputable def CY12 (lam : ℝ) : ℝ :=
  8 / (1 + lam) ^ 3 * (2 * G4yc lam * Real.log 2 - 2 * G5yc lam
    + intermediate_sum Fyc Z G4yc G5yc .odd lam 100)

/-- `Y11C(xi, lam)`: `functions_nearfield.py` lines 491-498. -/
noncomputable def Y11C (xi lam : ℝ) : ℝ :=
  let xiinv := xi⁻¹;
  G2yc lam * Real.log xiinv + CY11 lam + G3yc lam * xi * Real.log xiinv

/-- `Y12C(xi, lam)`: `functions_nearfield.py` lines 501-508. -/
noncomputable def Y12C (xi lam : ℝ) : ℝ :=
  let xiinv := xi⁻¹;
  G4yc lam * Real.log xiinv + (1 + lam) ^ 3 / 8 * CY12 lam + G5yc lam * xi * Real.log xiinv

/-- `Fxg(k, lam)`: `functions_nearfield.py` lines 513-516. -/
noncomputable def Fxg (k : ℕ) (lam : ℝ) : ℝ :=
  3 / 4 * 2 ^ k * ∑ q ∈ Finset.range (k + 1), Pxa 2 ((k : ℤ) - q) q * lam ^ q

/-- `G1xg(lam)`: `functions_nearfield.py` lines 519-522. -/
noncomputable def G1xg (lam : ℝ) : ℝ := 3 * lam ^ 2 / (1 + lam) ^ 3

/-- `G2xg(lam)`: `functions_nearfield.py` lines 525-528. -/
noncomputable def G2xg (lam : ℝ) : ℝ := 3 / 10 * (lam + 12 * lam ^ 2 - 4 * lam ^ 3) / (1 + lam) ^ 3

/-- `G3xg(lam)`: `functions_nearfield.py` lines 531-534. -/
noncomputable def G3xg (lam : ℝ) : ℝ := 
  1 / 140 * (5 + 181 * lam - 453 * lam ^ 2 + 566 * lam ^ 3 - 65 * lam ^ 4) / (1 + lam) ^ 3

/-- `GX11(lam)`: `functions_nearfield.py` lines 537-542. -/
noncomputable def GX11 (lam : ℝ) : ℝ :=
  1 / 4 * G1xg lam + 2 * G2xg lam * Real.log 2 - 2 * G3xg lam
    + intermediate_sum Fxg G1xg G2xg G3xg .odd lam 100

/-- `GX12(lam)`: `functions_nearfield.py` lines 545-551. -/
noncomputable def GX12 (lam : ℝ) : ℝ :=
  4 / (1 + lam) ^ 2 * (1 / 4 * G1xg lam + G3xg lam
    - intermediate_sum Fxg G1xg G2xg G3xg .even lam 100)

/-- `X11G(xi, lam)`: `functions_nearfield.py` lines 554-562. -/
noncomputable def X11G (xi lam : ℝ) : ℝ :=
  let xiinv := xi⁻¹;
  G1xg lam * xiinv + G2xg lam * Real.log xiinv + GX11 lam + G3xg lam * xi * Real.log xiinv

/-- `X12G(xi, lam)`: `functions_nearfield.py` lines 565-573. -/
noncomputable def X12G (xi lam : ℝ) : ℝ :=
  let xiinv := xi⁻¹;
  -G1xg lam * xiinv - G2xg lam * Real.log xiinv + 1 / 4 * (1 + lam) ^ 2 * GX12 lam
    - G3xg lam * xi * Real.log xiinv

/-- `Fyg(k, lam)`: `functions_nearfield.py` lines 578-581. -/
noncomputable def Fyg (k : ℕ) (lam : ℝ) : ℝ :=
  3 / 4 * 2 ^ k * ∑ q ∈ Finset.range (k + 1), Pya 2 ((k : ℤ) - q) q * lam ^ q

/-- `G2yg(lam)`: `functions_nearfield.py` lines 584-587. -/
noncomputable def G2yg (lam : ℝ) : ℝ := 1 / 10 * (4 * lam - lam ^ 2 + 7 * lam ^ 3) / (1 + lam) ^ 3

/-- `G3yg(lam)`: `functions_nearfield.py` lines 590-593. -/
noncomputable def G3yg (lam : ℝ) : ℝ := 
  1 / 500 * (32 - 179 * lam + 532 * lam ^ 2 - 356 * lam ^ 3 + 221 * lam ^ 4) / (1 + lam) ^ 3

/-- `GY11(lam)`: `functions_nearfield.py` lines 596-603. -/
noncomputable def GY11 (lam : ℝ) : ℝ :=
  2 * G2yg lam * Real.log 2 - 2 * G3yg lam + intermediate_sum Fyg Z G2yg G3yg .odd lam 100

/-- `GY12(lam)`: `functions_nearfield.py` lines 606-613. -/
noncomputable def GY12 (lam : ℝ) : ℝ :=
  4 / (1 + lam) ^ 2 * (G3yg lam - intermediate_sum Fyg Z G2yg G3yg .even lam 100)

/-- `Y11G(xi, lam)`: `functions_nearfield.py` lines 616-623. -/
noncomputable def Y11G (xi lam : ℝ) : ℝ :=
  let xiinv := xi⁻¹;
  G2yg lam * Real.log xiinv + GY11 lam + G3yg lam * xi * Real.log xiinv

/-- `Y12G(xi, lam)`: `functions_nearfield.py` lines 626-633. -/
noncomputable def Y12G (xi lam : ℝ) : ℝ :=
  let xiinv := xi⁻¹;
  -G2yg lam * Real.log xiinv + 1 / 4 * (1 + lam) ^ 2 * GY12 lam - G3yg lam * xi * Real.log xiinv

/-- `Fyh(k, lam)`: `functions_nearfield.py` lines 638-641. -/
noncomputable def Fyh (k : ℕ) (lam : ℝ) : ℝ :=
  -3 / 8 * 2 ^ k * ∑ q ∈ Finset.range (k + 1), Pyc 2 ((k : ℤ) - q) q * lam ^ (q + k % 2)

/-- `G2yh(lam)`: `functions_nearfield.py` lines 644-647. -/
noncomputable def G2yh (lam : ℝ) : ℝ := 1 / 10 * (2 * lam - lam ^ 2) / (1 + lam) ^ 2

/-- `G3yh(lam)`: `functions_nearfield.py` lines 650-652. -/
noncomputable def G3yh (lam : ℝ) : ℝ := 1 / 500 * (16 - 61 * lam + 180 * lam ^ 2 + 2 * lam ^ 3) / (1 + lam) ^ 2

/-- `G5yh(lam)`: `functions_nearfield.py` lines 655-657. -/
noncomputable def G5yh (lam : ℝ) : ℝ := 1 / 20 * (lam ^ 2 + 7 * lam ^ 3) / (1 + lam) ^ 2

/-- `G6yh(lam)`: `functions_nearfield.py` lines 660-662. -/
noncomputable def G6yh (lam : ℝ) : ℝ := 
  1 / 1000 * (43 * lam + 147 * lam ^ 2 - 185 * lam ^ 3 + 221 * lam ^ 4) / (1 + lam) ^ 2

/-- `HY11(lam)`: `functions_nearfield.py` lines 665-670. -/
noncomputable def HY11 (lam : ℝ) : ℝ :=
  -G3yh lam + intermediate_sum Fyh Z G2yh G3yh .even lam 100

/-- `HY12(lam)`: `functions_nearfield.py` lines 673-681. -/
noncomputable def HY12 (lam : ℝ) : ℝ :=
  8 / (1 + lam) ^ 3 * (2 * G5yh lam * Real.log 2 - 2 * G6yh lam
    + intermediate_sum Fyh Z G5yh G6yh .odd lam 100)

/-- `Y11H(xi, lam)`: `functions_nearfield.py` lines 684-691. -/
noncomputable def Y11H (xi lam : ℝ) : ℝ :=
  let xiinv := xi⁻¹;
  G2yh lam * Real.log xiinv + HY11 lam + G3yh lam * xi * Real.log xiinv

/-- `Y12H(xi, lam)`: `functions_nearfield.py` lines 694-701. -/
noncomputable def Y12H (xi lam : ℝ) : ℝ :=
  let xiinv := xi⁻¹;
  G5yh lam * Real.log xiinv + (1 + lam) ^ 3 / 8 * HY12 lam + G6yh lam * xi * Real.log xiinv

/-- `Fxm(k, lam)`: `functions_nearfield.py` lines 736-739. -/
noncomputable def Fxm (k : ℕ) (lam : ℝ) : ℝ :=
  2 ^ k * ∑ q ∈ Finset.range (k + 1), Pxm 2 ((k : ℤ) - q) q * lam ^ (q + k % 2)

/-- `G1xm(lam)`: `functions_nearfield.py` lines 742-745. -/
noncomputable def G1xm (lam : ℝ) : ℝ := 6 / 5 * lam ^ 2 / (1 + lam) ^ 3

/-- `G2xm(lam)`: `functions_nearfield.py` lines 748-751. -/
noncomputable def G2xm (lam : ℝ) : ℝ := 3 / 25 * (lam + 17 * lam ^ 2 - 9 * lam ^ 3) / (1 + lam) ^ 3

/-- `G3xm(lam)`: `functions_nearfield.py` lines 754-757. -/
noncomputable def G3xm (lam : ℝ) : ℝ := 
  1 / 350 * (5 + 272 * lam - 831 * lam ^ 2 + 1322 * lam ^ 3 - 415 * lam ^ 4) / (1 + lam) ^ 3

/-- `G4xm(lam)`: `functions_nearfield.py` lines 760-763. -/
noncomputable def G4xm (lam : ℝ) : ℝ := 6 / 5 * lam ^ 3 / (1 + lam) ^ 3

/-- `G5xm(lam)`: `functions_nearfield.py` lines 766-769. -/
noncomputable def G5xm (lam : ℝ) : ℝ := 3 / 25 * (-4 * lam ^ 2 + 17 * lam ^ 3 - 4 * lam ^ 4) / (1 + lam) ^ 3

/-- `G6xm(lam)`: `functions_nearfield.py` lines 772-775. -/
noncomputable def G6xm (lam : ℝ) : ℝ := 
  1 / 350 * (-65 * lam + 832 * lam ^ 2 - 1041 * lam ^ 3 + 832 * lam ^ 4 - 65 * lam ^ 5) / (1 + lam) ^ 3

/-- `MX11(lam)`: `functions_nearfield.py` lines 778-784. -/
noncomputable def MX11 (lam : ℝ) : ℝ :=
  -1 / 4 * G1xm lam - G3xm lam + 1 + intermediate_sum Fxm G1xm G2xm G3xm .even lam 100

/-- `MX12(lam)`: `functions_nearfield.py` lines 787-796. -/
noncomputable def MX12 (lam : ℝ) : ℝ :=
  8 / (1 + lam) ^ 3 * (1 / 4 * G4xm lam + 2 * G5xm lam * Real.log 2 - 2 * G6xm lam
    + intermediate_sum Fxm G4xm G5xm G6xm .odd lam 100)

/-- `X11M(xi, lam)`: `functions_nearfield.py` lines 799-807. -/
noncomputable def X11M (xi lam : ℝ) : ℝ :=
  let xiinv := xi⁻¹;
  G1xm lam * xiinv + G2xm lam * Real.log xiinv + MX11 lam + G3xm lam * xi * Real.log xiinv

/-- `X12M(xi, lam)`: `functions_nearfield.py` lines 810-818. -/
noncomputable def X12M (xi lam : ℝ) : ℝ :=
  let xiinv := xi⁻¹;
  G4xm lam * xiinv + G5xm lam * Real.log xiinv + 1 / 8 * (1 + lam) ^ 3 * MX12 lam
    + G6xm lam * xi * Real.log xiinv

/-- `Fym(k, lam)`: `functions_nearfield.py` lines 869-872. -/
noncomputable def Fym (k : ℕ) (lam : ℝ) : ℝ :=
  2 ^ k * ∑ q ∈ Finset.range (k + 1), Pym 2 ((k : ℤ) - q) q * lam ^ (q + k % 2)

/-- `G2ym(lam)`: `functions_nearfield.py` lines 875-878. -/
noncomputable def G2ym (lam : ℝ) : ℝ := 6 / 25 * (lam - lam ^ 2 + 4 * lam ^ 3) / (1 + lam) ^ 3

/-- `G3ym(lam)`: `functions_nearfield.py` lines 881-884. -/
noncomputable def G3ym (lam : ℝ) : ℝ := 
  1 / 625 * (24 - 201 * lam + 882 * lam ^ 2 - 1182 * lam ^ 3 + 591 * lam ^ 4) / (1 + lam) ^ 3

/-- `G5ym(lam)`: `functions_nearfield.py` lines 887-890. -/
noncomputable def G5ym (lam : ℝ) : ℝ := 3 / 50 * (7 * lam ^ 2 - 10 * lam ^ 3 + 7 * lam ^ 4) / (1 + lam) ^ 3

/-- `G6ym(lam)`: `functions_nearfield.py` lines 893-896. -/
noncomputable def G6ym (lam : ℝ) : ℝ := 
  3 / 2500 * lam * (221 - 728 * lam + 1902 * lam ^ 2 - 728 * lam ^ 3 + 221 * lam ^ 4) / (1 + lam) ^ 3

/-- `MY11(lam)`: `functions_nearfield.py` lines 899-904. -/
noncomputable def MY11 (lam : ℝ) : ℝ :=
  -G3ym lam + 1 + intermediate_sum Fym Z G2ym G3ym .even lam 130

/-- `MY12(lam)`: `functions_nearfield.py` lines 907-914. -/
noncomputable def MY12 (lam : ℝ) : ℝ :=
  8 / (1 + lam) ^ 3 * (2 * G5ym lam * Real.log 2 - 2 * G6ym lam
    + intermediate_sum Fym Z G5ym G6ym .odd lam 130)

/-- `Y11M(xi, lam)`: `functions_nearfield.py` lines 917-924. -/
noncomputable def Y11M (xi lam : ℝ) : ℝ :=
  let xiinv := xi⁻¹;
  G2ym lam * Real.log xiinv + MY11 lam + G3ym lam * xi * Real.log xiinv

/-- `Y12M(xi, lam)`: `functions_nearfield.py` lines 927-934. -/
noncomputable def Y12M (xi lam : ℝ) : ℝ :=
  let xiinv := xi⁻¹;
  G5ym lam * Real.log xiinv + 1 / 8 * (1 + lam) ^ 3 * MY12 lam + G6ym lam * xi * Real.log xiinv

/-- `Fzm_with_sum_coeff(k, lam)`: `functions_nearfield.py` lines 990-1002. (`Fzm`, lines 984-987, is not
used.) -/
noncomputable def Fzm_with_sum_coeff (k : ℕ) (lam : ℝ) : ℝ :=
  ∑ q ∈ Finset.range (k + 1), Pzm 2 ((k : ℤ) - q) q * (lam / (1 + lam)) ^ q * lam ^ (k % 2)
    * (1 + lam) ^ ((q : ℤ) - k)

/-- `G3zm(lam)`: `functions_nearfield.py` lines 1005-1008. -/
noncomputable def G3zm (lam : ℝ) : ℝ := -3 / 10 * (lam ^ 2 + lam ^ 4) / (1 + lam) ^ 3

/-- `MZ11(lam)`: `functions_nearfield.py` lines 1011-1018. -/
noncomputable def MZ11 (lam : ℝ) : ℝ :=
  -G3zm lam + 1 + intermediate_sum_no_f0_coeff Fzm_with_sum_coeff Z Z G3zm .even lam 150

/-- `MZ12(lam)`: `functions_nearfield.py` lines 1021-1030. -/
noncomputable def MZ12 (lam : ℝ) : ℝ :=
  8 / (1 + lam) ^ 3 * (2 * G3zm lam
    - intermediate_sum_no_f0_coeff Fzm_with_sum_coeff Z Z G3zm .odd lam 200)

/-- `Z11M(xi, lam)`: `functions_nearfield.py` lines 1033-1039. -/
noncomputable def Z11M (xi lam : ℝ) : ℝ :=
  let xiinv := xi⁻¹;
  MZ11 lam + G3zm lam * xi * Real.log xiinv

/-- `Z12M(xi, lam)`: `functions_nearfield.py` lines 1042-1048. -/
noncomputable def Z12M (xi lam : ℝ) : ℝ :=
  let xiinv := xi⁻¹;
  1 / 8 * (1 + lam) ^ 3 * MZ12 lam - G3zm lam * xi * Real.log xiinv

/-! ## The script -/

/-- `scalar_functions`: `find_resistance_scalars/generate_scalars_nearfield.py` lines 63-66. -/
noncomputable def scalar_functions : List (ℝ → ℝ → ℝ) :=
  [X11A, X12A, Y11A, Y12A, Y11B, Y12B, X11C, X12C, Y11C, Y12C, X11G, X12G, Y11G, Y12G, Y11H, Y12H,
    X11M, X12M, Y11M, Y12M, Z11M, Z12M]

open Classical in
/-- `lam_range_with_reciprocals`: `find_resistance_scalars/generate_scalars_nearfield.py` lines 71-73. -/
noncomputable def with_reciprocals (lam_range : List ℝ) : List ℝ :=
  (lam_range ++ (lam_range.map fun l => 1 / l).filter fun x => decide (x ∉ lam_range)).mergeSort
    fun a b => decide (a ≤ b)

/-- `XYZ_general_table[k, g, s, l]`, filled by the loop over `lam_range_with_reciprocals`, `s_dash_range` and
`scalar_functions`: `find_resistance_scalars/generate_scalars_nearfield.py` lines 78-93. Function number
`2 * k + g` goes to row `k`, column `g`. Entries outside the array are not used. The prints and the human-readable
copy are not modelled. -/
noncomputable def nearfield_table (s_dash_range lam_range : List ℝ) : ScalarTable where
  sDash := s_dash_range
  lam := with_reciprocals lam_range
  raw := fun k g n l =>
    if g < 2 ∧ 2 * k + g < scalar_functions.length then
      (scalar_functions.getD (2 * k + g) fun _ _ => 0) (s_dash_range.getD n 0 - 2)
        ((with_reciprocals lam_range).getD l 0)
    else 0

end SD.Nearfield
