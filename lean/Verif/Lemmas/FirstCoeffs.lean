import Verif.Lemmas.NearfieldSeries
import Mathlib.Tactic.NormNum
import Mathlib.Algebra.BigOperators.Fin

/-!
# The first values of the recurrences for the near-field functions
-/

set_option autoImplicit false

namespace SD.Nearfield

/-- The starting values of the recurrences. -/
def k0 : ℕ → ℝ := fun _ => 0
def k1 : ℕ → ℝ := kron 1
def k2 : ℕ → ℝ := kron 2

theorem px1_110 : Px 1 1 1 0 = 0 := by
  rw [Px, if_neg (by norm_num), dif_neg (by norm_num)]
  exact Finset.sum_eq_zero fun s _ => s.elim0

theorem px1_100 : Px 1 1 0 0 = 1 := by
  rw [Px, if_pos ⟨rfl, rfl⟩]; norm_num [kron]

theorem px1_101 : Px 1 1 0 1 = 3 / 2 := by
  rw [Px, if_neg (by norm_num), dif_neg (by norm_num)]
  change ∑ s : Fin 1, _ = _
  norm_num [Fin.sum_univ_succ, binom, Nat.choose, px1_100, Px_neg 1 1 0 (-2) (by norm_num), Vx_neg 1 1 (-2) 0 (by
    norm_num)]

theorem px1_120 : Px 1 1 2 0 = 0 := by
  rw [Px, if_neg (by norm_num), dif_neg (by norm_num)]
  exact Finset.sum_eq_zero fun s _ => s.elim0

theorem px1_111 : Px 1 1 1 1 = 9 / 4 := by
  rw [Px, if_neg (by norm_num), dif_neg (by norm_num)]
  change ∑ s : Fin 1, _ = _
  norm_num [Fin.sum_univ_succ, binom, Nat.choose, px1_101, Px_neg 1 1 0 (-1) (by norm_num), Vx_neg 1 1 (-2) 1 (by
    norm_num)]

theorem px1_200 : Px 1 2 0 0 = 0 := by
  rw [Px, if_pos ⟨rfl, rfl⟩]; norm_num [kron]

theorem px1_102 : Px 1 1 0 2 = 0 := by
  rw [Px, if_neg (by norm_num), dif_neg (by norm_num)]
  change ∑ s : Fin 2, _ = _
  norm_num [Fin.sum_univ_succ, binom, Nat.choose, px1_110, Px_neg 1 1 1 (-2) (by norm_num), Vx_neg 1 1 (-1) 0 (by
    norm_num), px1_200, Px_neg 1 2 0 (-2) (by norm_num), Vx_neg 1 2 (-2) 0 (by norm_num)]

theorem px1_130 : Px 1 1 3 0 = 0 := by
  rw [Px, if_neg (by norm_num), dif_neg (by norm_num)]
  exact Finset.sum_eq_zero fun s _ => s.elim0

theorem px1_121 : Px 1 1 2 1 = -1 / 2 := by
  rw [Px, if_neg (by norm_num), dif_neg (by norm_num)]
  change ∑ s : Fin 1, _ = _
  norm_num [Fin.sum_univ_succ, binom, Nat.choose, px1_102, px1_100, Vx_neg 1 1 (-2) 2 (by norm_num)]

theorem px1_201 : Px 1 2 0 1 = 0 := by
  rw [Px, if_neg (by norm_num), dif_neg (by norm_num)]
  change ∑ s : Fin 1, _ = _
  norm_num [Fin.sum_univ_succ, binom, Nat.choose, Px_neg 1 1 0 (-1) (by norm_num), Px_neg 1 1 0 (-3) (by norm_num),
    Vx_neg 1 1 (-2) (-1) (by norm_num)]

theorem px1_112 : Px 1 1 1 2 = 27 / 8 := by
  rw [Px, if_neg (by norm_num), dif_neg (by norm_num)]
  change ∑ s : Fin 2, _ = _
  norm_num [Fin.sum_univ_succ, binom, Nat.choose, px1_111, Px_neg 1 1 1 (-1) (by norm_num), Vx_neg 1 1 (-1) 1 (by
    norm_num), px1_201, Px_neg 1 2 0 (-1) (by norm_num), Vx_neg 1 2 (-2) 1 (by norm_num)]

theorem vx1_100 : Vx 1 1 0 0 = 1 := by
  rw [Vx, if_pos ⟨rfl, rfl⟩]; norm_num [kron]

theorem px1_210 : Px 1 2 1 0 = 0 := by
  rw [Px, if_neg (by norm_num), dif_neg (by norm_num)]
  exact Finset.sum_eq_zero fun s _ => s.elim0

theorem px1_300 : Px 1 3 0 0 = 0 := by
  rw [Px, if_pos ⟨rfl, rfl⟩]; norm_num [kron]

theorem px1_103 : Px 1 1 0 3 = -1 / 2 := by
  rw [Px, if_neg (by norm_num), dif_neg (by norm_num)]
  change ∑ s : Fin 3, _ = _
  norm_num [Fin.sum_univ_succ, binom, Nat.choose, px1_120, Px_neg 1 1 2 (-2) (by norm_num), vx1_100, px1_210, Px_neg 1
    2 1 (-2) (by norm_num), Vx_neg 1 2 (-1) 0 (by norm_num), px1_300, Px_neg 1 3 0 (-2) (by norm_num), Vx_neg 1 3 (-2)
    0 (by norm_num)]

theorem py1_110 : Py k1 k0 1 1 0 = 0 := by
  rw [Py, if_neg (by norm_num), dif_neg (by norm_num)]
  exact Finset.sum_eq_zero fun s _ => s.elim0

theorem py1_100 : Py k1 k0 1 0 0 = 1 := by
  rw [Py, if_pos ⟨rfl, rfl⟩]; simp [k0, k1, k2, kron]

theorem py1_101 : Py k1 k0 1 0 1 = 3 / 4 := by
  rw [Py, if_neg (by norm_num), dif_neg (by norm_num)]
  change ∑ s : Fin 1, _ = _
  norm_num [Fin.sum_univ_succ, binom, Nat.choose, py1_100, Py_neg k1 k0 1 0 (-2) (by norm_num), Vy_neg k1 k0 1 (-2) 0
    (by norm_num), Qy_neg k1 k0 1 (-1) 0 (by norm_num)]

theorem py1_120 : Py k1 k0 1 2 0 = 0 := by
  rw [Py, if_neg (by norm_num), dif_neg (by norm_num)]
  exact Finset.sum_eq_zero fun s _ => s.elim0

theorem py1_111 : Py k1 k0 1 1 1 = 9 / 16 := by
  rw [Py, if_neg (by norm_num), dif_neg (by norm_num)]
  change ∑ s : Fin 1, _ = _
  norm_num [Fin.sum_univ_succ, binom, Nat.choose, py1_101, Py_neg k1 k0 1 0 (-1) (by norm_num), Vy_neg k1 k0 1 (-2) 1
    (by norm_num), Qy_neg k1 k0 1 (-1) 1 (by norm_num)]

theorem qy1_100 : Qy k1 k0 1 0 0 = 0 := by
  rw [Qy, if_pos ⟨rfl, rfl⟩]; simp [k0, k1, k2, kron]

theorem py1_200 : Py k1 k0 2 0 0 = 0 := by
  rw [Py, if_pos ⟨rfl, rfl⟩]; simp [k0, k1, k2, kron]

theorem py1_102 : Py k1 k0 1 0 2 = 0 := by
  rw [Py, if_neg (by norm_num), dif_neg (by norm_num)]
  change ∑ s : Fin 2, _ = _
  norm_num [Fin.sum_univ_succ, binom, Nat.choose, py1_110, Py_neg k1 k0 1 1 (-2) (by norm_num), Vy_neg k1 k0 1 (-1) 0
    (by norm_num), qy1_100, py1_200, Py_neg k1 k0 2 0 (-2) (by norm_num), Vy_neg k1 k0 2 (-2) 0 (by norm_num), Qy_neg
    k1 k0 2 (-1) 0 (by norm_num)]

theorem py1_130 : Py k1 k0 1 3 0 = 0 := by
  rw [Py, if_neg (by norm_num), dif_neg (by norm_num)]
  exact Finset.sum_eq_zero fun s _ => s.elim0

theorem py1_121 : Py k1 k0 1 2 1 = 1 / 4 := by
  rw [Py, if_neg (by norm_num), dif_neg (by norm_num)]
  change ∑ s : Fin 1, _ = _
  norm_num [Fin.sum_univ_succ, binom, Nat.choose, py1_102, py1_100, Vy_neg k1 k0 1 (-2) 2 (by norm_num), Qy_neg k1 k0
    1 (-1) 2 (by norm_num)]

theorem qy1_101 : Qy k1 k0 1 0 1 = 0 := by
  rw [Qy, if_neg (by norm_num)]
  change ∑ s : Fin 1, _ = _
  norm_num [Fin.sum_univ_succ, binom, Nat.choose, Qy_neg k1 k0 1 (-1) (-1) (by norm_num), Py_neg k1 k0 1 0 (-1) (by
    norm_num)]

theorem py1_201 : Py k1 k0 2 0 1 = 0 := by
  rw [Py, if_neg (by norm_num), dif_neg (by norm_num)]
  change ∑ s : Fin 1, _ = _
  norm_num [Fin.sum_univ_succ, binom, Nat.choose, Py_neg k1 k0 1 0 (-1) (by norm_num), Py_neg k1 k0 1 0 (-3) (by
    norm_num), Vy_neg k1 k0 1 (-2) (-1) (by norm_num), Qy_neg k1 k0 1 (-1) (-1) (by norm_num)]

theorem py1_112 : Py k1 k0 1 1 2 = 27 / 64 := by
  rw [Py, if_neg (by norm_num), dif_neg (by norm_num)]
  change ∑ s : Fin 2, _ = _
  norm_num [Fin.sum_univ_succ, binom, Nat.choose, py1_111, Py_neg k1 k0 1 1 (-1) (by norm_num), Vy_neg k1 k0 1 (-1) 1
    (by norm_num), qy1_101, py1_201, Py_neg k1 k0 2 0 (-1) (by norm_num), Vy_neg k1 k0 2 (-2) 1 (by norm_num), Qy_neg
    k1 k0 2 (-1) 1 (by norm_num)]

theorem vy1_100 : Vy k1 k0 1 0 0 = 1 := by
  rw [Vy, if_pos ⟨rfl, rfl⟩]; simp [k0, k1, k2, kron]

theorem qy1_110 : Qy k1 k0 1 1 0 = 0 := by
  rw [Qy, if_neg (by norm_num)]
  exact Finset.sum_eq_zero fun s _ => s.elim0

theorem py1_210 : Py k1 k0 2 1 0 = 0 := by
  rw [Py, if_neg (by norm_num), dif_neg (by norm_num)]
  exact Finset.sum_eq_zero fun s _ => s.elim0

theorem qy1_200 : Qy k1 k0 2 0 0 = 0 := by
  rw [Qy, if_pos ⟨rfl, rfl⟩]; simp [k0, k1, k2, kron]

theorem py1_300 : Py k1 k0 3 0 0 = 0 := by
  rw [Py, if_pos ⟨rfl, rfl⟩]; simp [k0, k1, k2, kron]

theorem py1_103 : Py k1 k0 1 0 3 = 1 / 4 := by
  rw [Py, if_neg (by norm_num), dif_neg (by norm_num)]
  change ∑ s : Fin 3, _ = _
  norm_num [Fin.sum_univ_succ, binom, Nat.choose, py1_120, Py_neg k1 k0 1 2 (-2) (by norm_num), vy1_100, qy1_110,
    py1_210, Py_neg k1 k0 2 1 (-2) (by norm_num), Vy_neg k1 k0 2 (-1) 0 (by norm_num), qy1_200, py1_300, Py_neg k1 k0
    3 0 (-2) (by norm_num), Vy_neg k1 k0 3 (-2) 0 (by norm_num), Qy_neg k1 k0 3 (-1) 0 (by norm_num)]

theorem qy1_120 : Qy k1 k0 1 2 0 = 0 := by
  rw [Qy, if_neg (by norm_num)]
  exact Finset.sum_eq_zero fun s _ => s.elim0

theorem qy1_111 : Qy k1 k0 1 1 1 = -3 / 4 := by
  rw [Qy, if_neg (by norm_num)]
  change ∑ s : Fin 1, _ = _
  norm_num [Fin.sum_univ_succ, binom, Nat.choose, Qy_neg k1 k0 1 (-1) 0 (by norm_num), py1_100]

theorem qy1_102 : Qy k1 k0 1 0 2 = 0 := by
  rw [Qy, if_neg (by norm_num)]
  change ∑ s : Fin 2, _ = _
  norm_num [Fin.sum_univ_succ, binom, Nat.choose, Qy_neg k1 k0 1 0 (-1) (by norm_num), Py_neg k1 k0 1 1 (-1) (by
    norm_num), Qy_neg k1 k0 2 (-1) (-1) (by norm_num), Py_neg k1 k0 2 0 (-1) (by norm_num)]

theorem qy1_130 : Qy k1 k0 1 3 0 = 0 := by
  rw [Qy, if_neg (by norm_num)]
  exact Finset.sum_eq_zero fun s _ => s.elim0

theorem qy1_121 : Qy k1 k0 1 2 1 = -9 / 16 := by
  rw [Qy, if_neg (by norm_num)]
  change ∑ s : Fin 1, _ = _
  norm_num [Fin.sum_univ_succ, binom, Nat.choose, Qy_neg k1 k0 1 (-1) 1 (by norm_num), py1_101]

theorem qy1_112 : Qy k1 k0 1 1 2 = 0 := by
  rw [Qy, if_neg (by norm_num)]
  change ∑ s : Fin 2, _ = _
  norm_num [Fin.sum_univ_succ, binom, Nat.choose, qy1_100, py1_110, Qy_neg k1 k0 2 (-1) 0 (by norm_num), py1_200]

theorem qy1_103 : Qy k1 k0 1 0 3 = 0 := by
  rw [Qy, if_neg (by norm_num)]
  change ∑ s : Fin 3, _ = _
  norm_num [Fin.sum_univ_succ, binom, Nat.choose, Qy_neg k1 k0 1 1 (-1) (by norm_num), Py_neg k1 k0 1 2 (-1) (by
    norm_num), Qy_neg k1 k0 2 0 (-1) (by norm_num), Py_neg k1 k0 2 1 (-1) (by norm_num), Qy_neg k1 k0 3 (-1) (-1) (by
    norm_num), Py_neg k1 k0 3 0 (-1) (by norm_num)]

theorem qy2_110 : Qy k0 k1 1 1 0 = 0 := by
  rw [Qy, if_neg (by norm_num)]
  exact Finset.sum_eq_zero fun s _ => s.elim0

theorem qy2_101 : Qy k0 k1 1 0 1 = 0 := by
  rw [Qy, if_neg (by norm_num)]
  change ∑ s : Fin 1, _ = _
  norm_num [Fin.sum_univ_succ, binom, Nat.choose, Qy_neg k0 k1 1 (-1) (-1) (by norm_num), Py_neg k0 k1 1 0 (-1) (by
    norm_num)]

theorem qy2_120 : Qy k0 k1 1 2 0 = 0 := by
  rw [Qy, if_neg (by norm_num)]
  exact Finset.sum_eq_zero fun s _ => s.elim0

theorem py2_100 : Py k0 k1 1 0 0 = 0 := by
  rw [Py, if_pos ⟨rfl, rfl⟩]; simp [k0, k1, k2, kron]

theorem qy2_111 : Qy k0 k1 1 1 1 = 0 := by
  rw [Qy, if_neg (by norm_num)]
  change ∑ s : Fin 1, _ = _
  norm_num [Fin.sum_univ_succ, binom, Nat.choose, Qy_neg k0 k1 1 (-1) 0 (by norm_num), py2_100]

theorem qy2_102 : Qy k0 k1 1 0 2 = 0 := by
  rw [Qy, if_neg (by norm_num)]
  change ∑ s : Fin 2, _ = _
  norm_num [Fin.sum_univ_succ, binom, Nat.choose, Qy_neg k0 k1 1 0 (-1) (by norm_num), Py_neg k0 k1 1 1 (-1) (by
    norm_num), Qy_neg k0 k1 2 (-1) (-1) (by norm_num), Py_neg k0 k1 2 0 (-1) (by norm_num)]

theorem qy2_130 : Qy k0 k1 1 3 0 = 0 := by
  rw [Qy, if_neg (by norm_num)]
  exact Finset.sum_eq_zero fun s _ => s.elim0

theorem py2_101 : Py k0 k1 1 0 1 = 0 := by
  rw [Py, if_neg (by norm_num), dif_neg (by norm_num)]
  change ∑ s : Fin 1, _ = _
  norm_num [Fin.sum_univ_succ, binom, Nat.choose, py2_100, Py_neg k0 k1 1 0 (-2) (by norm_num), Vy_neg k0 k1 1 (-2) 0
    (by norm_num), Qy_neg k0 k1 1 (-1) 0 (by norm_num)]

theorem qy2_121 : Qy k0 k1 1 2 1 = 0 := by
  rw [Qy, if_neg (by norm_num)]
  change ∑ s : Fin 1, _ = _
  norm_num [Fin.sum_univ_succ, binom, Nat.choose, Qy_neg k0 k1 1 (-1) 1 (by norm_num), py2_101]

theorem qy2_100 : Qy k0 k1 1 0 0 = 1 := by
  rw [Qy, if_pos ⟨rfl, rfl⟩]; simp [k0, k1, k2, kron]

theorem py2_110 : Py k0 k1 1 1 0 = 0 := by
  rw [Py, if_neg (by norm_num), dif_neg (by norm_num)]
  exact Finset.sum_eq_zero fun s _ => s.elim0

theorem py2_200 : Py k0 k1 2 0 0 = 0 := by
  rw [Py, if_pos ⟨rfl, rfl⟩]; simp [k0, k1, k2, kron]

theorem qy2_112 : Qy k0 k1 1 1 2 = 1 / 2 := by
  rw [Qy, if_neg (by norm_num)]
  change ∑ s : Fin 2, _ = _
  norm_num [Fin.sum_univ_succ, binom, Nat.choose, qy2_100, py2_110, Qy_neg k0 k1 2 (-1) 0 (by norm_num), py2_200]

theorem qy2_103 : Qy k0 k1 1 0 3 = 0 := by
  rw [Qy, if_neg (by norm_num)]
  change ∑ s : Fin 3, _ = _
  norm_num [Fin.sum_univ_succ, binom, Nat.choose, Qy_neg k0 k1 1 1 (-1) (by norm_num), Py_neg k0 k1 1 2 (-1) (by
    norm_num), Qy_neg k0 k1 2 0 (-1) (by norm_num), Py_neg k0 k1 2 1 (-1) (by norm_num), Qy_neg k0 k1 3 (-1) (-1) (by
    norm_num), Py_neg k0 k1 3 0 (-1) (by norm_num)]

theorem px1_220 : Px 1 2 2 0 = 0 := by
  rw [Px, if_neg (by norm_num), dif_neg (by norm_num)]
  exact Finset.sum_eq_zero fun s _ => s.elim0

theorem px1_211 : Px 1 2 1 1 = 5 := by
  rw [Px, if_neg (by norm_num), dif_neg (by norm_num)]
  change ∑ s : Fin 1, _ = _
  norm_num [Fin.sum_univ_succ, binom, Nat.choose, px1_100, Px_neg 1 1 0 (-2) (by norm_num), Vx_neg 1 1 (-2) 0 (by
    norm_num)]

theorem px1_202 : Px 1 2 0 2 = 0 := by
  rw [Px, if_neg (by norm_num), dif_neg (by norm_num)]
  change ∑ s : Fin 2, _ = _
  norm_num [Fin.sum_univ_succ, binom, Nat.choose, Px_neg 1 1 1 (-1) (by norm_num), Px_neg 1 1 1 (-3) (by norm_num),
    Vx_neg 1 1 (-1) (-1) (by norm_num), Px_neg 1 2 0 (-1) (by norm_num), Px_neg 1 2 0 (-3) (by norm_num), Vx_neg 1 2
    (-2) (-1) (by norm_num)]

theorem px1_230 : Px 1 2 3 0 = 0 := by
  rw [Px, if_neg (by norm_num), dif_neg (by norm_num)]
  exact Finset.sum_eq_zero fun s _ => s.elim0

theorem px1_221 : Px 1 2 2 1 = 15 / 2 := by
  rw [Px, if_neg (by norm_num), dif_neg (by norm_num)]
  change ∑ s : Fin 1, _ = _
  norm_num [Fin.sum_univ_succ, binom, Nat.choose, px1_101, Px_neg 1 1 0 (-1) (by norm_num), Vx_neg 1 1 (-2) 1 (by
    norm_num)]

theorem px1_212 : Px 1 2 1 2 = 0 := by
  rw [Px, if_neg (by norm_num), dif_neg (by norm_num)]
  change ∑ s : Fin 2, _ = _
  norm_num [Fin.sum_univ_succ, binom, Nat.choose, px1_110, Px_neg 1 1 1 (-2) (by norm_num), Vx_neg 1 1 (-1) 0 (by
    norm_num), px1_200, Px_neg 1 2 0 (-2) (by norm_num), Vx_neg 1 2 (-2) 0 (by norm_num)]

theorem px1_203 : Px 1 2 0 3 = 0 := by
  rw [Px, if_neg (by norm_num), dif_neg (by norm_num)]
  change ∑ s : Fin 3, _ = _
  norm_num [Fin.sum_univ_succ, binom, Nat.choose, Px_neg 1 1 2 (-1) (by norm_num), Px_neg 1 1 2 (-3) (by norm_num),
    Vx_neg 1 1 0 (-1) (by norm_num), Px_neg 1 2 1 (-1) (by norm_num), Px_neg 1 2 1 (-3) (by norm_num), Vx_neg 1 2 (-1)
    (-1) (by norm_num), Px_neg 1 3 0 (-1) (by norm_num), Px_neg 1 3 0 (-3) (by norm_num), Vx_neg 1 3 (-2) (-1) (by
    norm_num)]

theorem py2_210 : Py k0 k1 2 1 0 = 0 := by
  rw [Py, if_neg (by norm_num), dif_neg (by norm_num)]
  exact Finset.sum_eq_zero fun s _ => s.elim0

theorem py2_201 : Py k0 k1 2 0 1 = 0 := by
  rw [Py, if_neg (by norm_num), dif_neg (by norm_num)]
  change ∑ s : Fin 1, _ = _
  norm_num [Fin.sum_univ_succ, binom, Nat.choose, Py_neg k0 k1 1 0 (-1) (by norm_num), Py_neg k0 k1 1 0 (-3) (by
    norm_num), Vy_neg k0 k1 1 (-2) (-1) (by norm_num), Qy_neg k0 k1 1 (-1) (-1) (by norm_num)]

theorem py2_220 : Py k0 k1 2 2 0 = 0 := by
  rw [Py, if_neg (by norm_num), dif_neg (by norm_num)]
  exact Finset.sum_eq_zero fun s _ => s.elim0

theorem py2_211 : Py k0 k1 2 1 1 = 0 := by
  rw [Py, if_neg (by norm_num), dif_neg (by norm_num)]
  change ∑ s : Fin 1, _ = _
  norm_num [Fin.sum_univ_succ, binom, Nat.choose, py2_100, Py_neg k0 k1 1 0 (-2) (by norm_num), Vy_neg k0 k1 1 (-2) 0
    (by norm_num), Qy_neg k0 k1 1 (-1) 0 (by norm_num)]

theorem py2_202 : Py k0 k1 2 0 2 = 0 := by
  rw [Py, if_neg (by norm_num), dif_neg (by norm_num)]
  change ∑ s : Fin 2, _ = _
  norm_num [Fin.sum_univ_succ, binom, Nat.choose, Py_neg k0 k1 1 1 (-1) (by norm_num), Py_neg k0 k1 1 1 (-3) (by
    norm_num), Vy_neg k0 k1 1 (-1) (-1) (by norm_num), Qy_neg k0 k1 1 0 (-1) (by norm_num), Py_neg k0 k1 2 0 (-1) (by
    norm_num), Py_neg k0 k1 2 0 (-3) (by norm_num), Vy_neg k0 k1 2 (-2) (-1) (by norm_num), Qy_neg k0 k1 2 (-1) (-1)
    (by norm_num)]

theorem py2_230 : Py k0 k1 2 3 0 = 0 := by
  rw [Py, if_neg (by norm_num), dif_neg (by norm_num)]
  exact Finset.sum_eq_zero fun s _ => s.elim0

theorem py2_221 : Py k0 k1 2 2 1 = 0 := by
  rw [Py, if_neg (by norm_num), dif_neg (by norm_num)]
  change ∑ s : Fin 1, _ = _
  norm_num [Fin.sum_univ_succ, binom, Nat.choose, py2_101, Py_neg k0 k1 1 0 (-1) (by norm_num), Vy_neg k0 k1 1 (-2) 1
    (by norm_num), Qy_neg k0 k1 1 (-1) 1 (by norm_num)]

theorem py2_212 : Py k0 k1 2 1 2 = -10 / 3 := by
  rw [Py, if_neg (by norm_num), dif_neg (by norm_num)]
  change ∑ s : Fin 2, _ = _
  norm_num [Fin.sum_univ_succ, binom, Nat.choose, py2_110, Py_neg k0 k1 1 1 (-2) (by norm_num), Vy_neg k0 k1 1 (-1) 0
    (by norm_num), qy2_100, py2_200, Py_neg k0 k1 2 0 (-2) (by norm_num), Vy_neg k0 k1 2 (-2) 0 (by norm_num), Qy_neg
    k0 k1 2 (-1) 0 (by norm_num)]

theorem py2_203 : Py k0 k1 2 0 3 = 0 := by
  rw [Py, if_neg (by norm_num), dif_neg (by norm_num)]
  change ∑ s : Fin 3, _ = _
  norm_num [Fin.sum_univ_succ, binom, Nat.choose, Py_neg k0 k1 1 2 (-1) (by norm_num), Py_neg k0 k1 1 2 (-3) (by
    norm_num), Vy_neg k0 k1 1 0 (-1) (by norm_num), Qy_neg k0 k1 1 1 (-1) (by norm_num), Py_neg k0 k1 2 1 (-1) (by
    norm_num), Py_neg k0 k1 2 1 (-3) (by norm_num), Vy_neg k0 k1 2 (-1) (-1) (by norm_num), Qy_neg k0 k1 2 0 (-1) (by
    norm_num), Py_neg k0 k1 3 0 (-1) (by norm_num), Py_neg k0 k1 3 0 (-3) (by norm_num), Vy_neg k0 k1 3 (-2) (-1) (by
    norm_num), Qy_neg k0 k1 3 (-1) (-1) (by norm_num)]

theorem px2_210 : Px 2 2 1 0 = 0 := by
  rw [Px, if_neg (by norm_num), dif_neg (by norm_num)]
  exact Finset.sum_eq_zero fun s _ => s.elim0

theorem px2_201 : Px 2 2 0 1 = 0 := by
  rw [Px, if_neg (by norm_num), dif_neg (by norm_num)]
  change ∑ s : Fin 1, _ = _
  norm_num [Fin.sum_univ_succ, binom, Nat.choose, Px_neg 2 1 0 (-1) (by norm_num), Px_neg 2 1 0 (-3) (by norm_num),
    Vx_neg 2 1 (-2) (-1) (by norm_num)]

theorem px2_220 : Px 2 2 2 0 = 0 := by
  rw [Px, if_neg (by norm_num), dif_neg (by norm_num)]
  exact Finset.sum_eq_zero fun s _ => s.elim0

theorem px2_100 : Px 2 1 0 0 = 0 := by
  rw [Px, if_pos ⟨rfl, rfl⟩]; norm_num [kron]

theorem px2_211 : Px 2 2 1 1 = 0 := by
  rw [Px, if_neg (by norm_num), dif_neg (by norm_num)]
  change ∑ s : Fin 1, _ = _
  norm_num [Fin.sum_univ_succ, binom, Nat.choose, px2_100, Px_neg 2 1 0 (-2) (by norm_num), Vx_neg 2 1 (-2) 0 (by
    norm_num)]

theorem px2_202 : Px 2 2 0 2 = 0 := by
  rw [Px, if_neg (by norm_num), dif_neg (by norm_num)]
  change ∑ s : Fin 2, _ = _
  norm_num [Fin.sum_univ_succ, binom, Nat.choose, Px_neg 2 1 1 (-1) (by norm_num), Px_neg 2 1 1 (-3) (by norm_num),
    Vx_neg 2 1 (-1) (-1) (by norm_num), Px_neg 2 2 0 (-1) (by norm_num), Px_neg 2 2 0 (-3) (by norm_num), Vx_neg 2 2
    (-2) (-1) (by norm_num)]

theorem px2_230 : Px 2 2 3 0 = 0 := by
  rw [Px, if_neg (by norm_num), dif_neg (by norm_num)]
  exact Finset.sum_eq_zero fun s _ => s.elim0

theorem px2_101 : Px 2 1 0 1 = 0 := by
  rw [Px, if_neg (by norm_num), dif_neg (by norm_num)]
  change ∑ s : Fin 1, _ = _
  norm_num [Fin.sum_univ_succ, binom, Nat.choose, px2_100, Px_neg 2 1 0 (-2) (by norm_num), Vx_neg 2 1 (-2) 0 (by
    norm_num)]

theorem px2_221 : Px 2 2 2 1 = 0 := by
  rw [Px, if_neg (by norm_num), dif_neg (by norm_num)]
  change ∑ s : Fin 1, _ = _
  norm_num [Fin.sum_univ_succ, binom, Nat.choose, px2_101, Px_neg 2 1 0 (-1) (by norm_num), Vx_neg 2 1 (-2) 1 (by
    norm_num)]

theorem px2_110 : Px 2 1 1 0 = 0 := by
  rw [Px, if_neg (by norm_num), dif_neg (by norm_num)]
  exact Finset.sum_eq_zero fun s _ => s.elim0

theorem px2_200 : Px 2 2 0 0 = 1 := by
  rw [Px, if_pos ⟨rfl, rfl⟩]; norm_num [kron]

theorem px2_212 : Px 2 2 1 2 = 5 := by
  rw [Px, if_neg (by norm_num), dif_neg (by norm_num)]
  change ∑ s : Fin 2, _ = _
  norm_num [Fin.sum_univ_succ, binom, Nat.choose, px2_110, Px_neg 2 1 1 (-2) (by norm_num), Vx_neg 2 1 (-1) 0 (by
    norm_num), px2_200, Px_neg 2 2 0 (-2) (by norm_num), Vx_neg 2 2 (-2) 0 (by norm_num)]

theorem px2_203 : Px 2 2 0 3 = 0 := by
  rw [Px, if_neg (by norm_num), dif_neg (by norm_num)]
  change ∑ s : Fin 3, _ = _
  norm_num [Fin.sum_univ_succ, binom, Nat.choose, Px_neg 2 1 2 (-1) (by norm_num), Px_neg 2 1 2 (-3) (by norm_num),
    Vx_neg 2 1 0 (-1) (by norm_num), Px_neg 2 2 1 (-1) (by norm_num), Px_neg 2 2 1 (-3) (by norm_num), Vx_neg 2 2 (-1)
    (-1) (by norm_num), Px_neg 2 3 0 (-1) (by norm_num), Px_neg 2 3 0 (-3) (by norm_num), Vx_neg 2 3 (-2) (-1) (by
    norm_num)]

theorem py3_210 : Py k2 k0 2 1 0 = 0 := by
  rw [Py, if_neg (by norm_num), dif_neg (by norm_num)]
  exact Finset.sum_eq_zero fun s _ => s.elim0

theorem py3_201 : Py k2 k0 2 0 1 = 0 := by
  rw [Py, if_neg (by norm_num), dif_neg (by norm_num)]
  change ∑ s : Fin 1, _ = _
  norm_num [Fin.sum_univ_succ, binom, Nat.choose, Py_neg k2 k0 1 0 (-1) (by norm_num), Py_neg k2 k0 1 0 (-3) (by
    norm_num), Vy_neg k2 k0 1 (-2) (-1) (by norm_num), Qy_neg k2 k0 1 (-1) (-1) (by norm_num)]

theorem py3_220 : Py k2 k0 2 2 0 = 0 := by
  rw [Py, if_neg (by norm_num), dif_neg (by norm_num)]
  exact Finset.sum_eq_zero fun s _ => s.elim0

theorem py3_100 : Py k2 k0 1 0 0 = 0 := by
  rw [Py, if_pos ⟨rfl, rfl⟩]; simp [k0, k1, k2, kron]

theorem py3_211 : Py k2 k0 2 1 1 = 0 := by
  rw [Py, if_neg (by norm_num), dif_neg (by norm_num)]
  change ∑ s : Fin 1, _ = _
  norm_num [Fin.sum_univ_succ, binom, Nat.choose, py3_100, Py_neg k2 k0 1 0 (-2) (by norm_num), Vy_neg k2 k0 1 (-2) 0
    (by norm_num), Qy_neg k2 k0 1 (-1) 0 (by norm_num)]

theorem py3_202 : Py k2 k0 2 0 2 = 0 := by
  rw [Py, if_neg (by norm_num), dif_neg (by norm_num)]
  change ∑ s : Fin 2, _ = _
  norm_num [Fin.sum_univ_succ, binom, Nat.choose, Py_neg k2 k0 1 1 (-1) (by norm_num), Py_neg k2 k0 1 1 (-3) (by
    norm_num), Vy_neg k2 k0 1 (-1) (-1) (by norm_num), Qy_neg k2 k0 1 0 (-1) (by norm_num), Py_neg k2 k0 2 0 (-1) (by
    norm_num), Py_neg k2 k0 2 0 (-3) (by norm_num), Vy_neg k2 k0 2 (-2) (-1) (by norm_num), Qy_neg k2 k0 2 (-1) (-1)
    (by norm_num)]

theorem py3_230 : Py k2 k0 2 3 0 = 0 := by
  rw [Py, if_neg (by norm_num), dif_neg (by norm_num)]
  exact Finset.sum_eq_zero fun s _ => s.elim0

theorem py3_101 : Py k2 k0 1 0 1 = 0 := by
  rw [Py, if_neg (by norm_num), dif_neg (by norm_num)]
  change ∑ s : Fin 1, _ = _
  norm_num [Fin.sum_univ_succ, binom, Nat.choose, py3_100, Py_neg k2 k0 1 0 (-2) (by norm_num), Vy_neg k2 k0 1 (-2) 0
    (by norm_num), Qy_neg k2 k0 1 (-1) 0 (by norm_num)]

theorem py3_221 : Py k2 k0 2 2 1 = 0 := by
  rw [Py, if_neg (by norm_num), dif_neg (by norm_num)]
  change ∑ s : Fin 1, _ = _
  norm_num [Fin.sum_univ_succ, binom, Nat.choose, py3_101, Py_neg k2 k0 1 0 (-1) (by norm_num), Vy_neg k2 k0 1 (-2) 1
    (by norm_num), Qy_neg k2 k0 1 (-1) 1 (by norm_num)]

theorem py3_110 : Py k2 k0 1 1 0 = 0 := by
  rw [Py, if_neg (by norm_num), dif_neg (by norm_num)]
  exact Finset.sum_eq_zero fun s _ => s.elim0

theorem qy3_100 : Qy k2 k0 1 0 0 = 0 := by
  rw [Qy, if_pos ⟨rfl, rfl⟩]; simp [k0, k1, k2, kron]

theorem py3_200 : Py k2 k0 2 0 0 = 1 := by
  rw [Py, if_pos ⟨rfl, rfl⟩]; simp [k0, k1, k2, kron]

theorem py3_212 : Py k2 k0 2 1 2 = -5 / 2 := by
  rw [Py, if_neg (by norm_num), dif_neg (by norm_num)]
  change ∑ s : Fin 2, _ = _
  norm_num [Fin.sum_univ_succ, binom, Nat.choose, py3_110, Py_neg k2 k0 1 1 (-2) (by norm_num), Vy_neg k2 k0 1 (-1) 0
    (by norm_num), qy3_100, py3_200, Py_neg k2 k0 2 0 (-2) (by norm_num), Vy_neg k2 k0 2 (-2) 0 (by norm_num), Qy_neg
    k2 k0 2 (-1) 0 (by norm_num)]

theorem py3_203 : Py k2 k0 2 0 3 = 0 := by
  rw [Py, if_neg (by norm_num), dif_neg (by norm_num)]
  change ∑ s : Fin 3, _ = _
  norm_num [Fin.sum_univ_succ, binom, Nat.choose, Py_neg k2 k0 1 2 (-1) (by norm_num), Py_neg k2 k0 1 2 (-3) (by
    norm_num), Vy_neg k2 k0 1 0 (-1) (by norm_num), Qy_neg k2 k0 1 1 (-1) (by norm_num), Py_neg k2 k0 2 1 (-1) (by
    norm_num), Py_neg k2 k0 2 1 (-3) (by norm_num), Vy_neg k2 k0 2 (-1) (-1) (by norm_num), Qy_neg k2 k0 2 0 (-1) (by
    norm_num), Py_neg k2 k0 3 0 (-1) (by norm_num), Py_neg k2 k0 3 0 (-3) (by norm_num), Vy_neg k2 k0 3 (-2) (-1) (by
    norm_num), Qy_neg k2 k0 3 (-1) (-1) (by norm_num)]

end SD.Nearfield
