import Verif.Lemmas.MinfEntry
import Verif.Lemmas.System
import Verif.Spec.Isotropy
import Mathlib.LinearAlgebra.Matrix.NonsingularInverse

/-!
# The far-field response commutes with rotations
-/

set_option autoImplicit false

namespace SD

open Spec

section Orth

variable {Q : Fin 3 → Fin 3 → ℝ} (hQ : Orthogonal Q)
include hQ

theorem orth_col (a b : Fin 3) : ∑ k, Q k a * Q k b = dlt a b := by
  have h1 : (Matrix.of Q) * (Matrix.of Q).transpose = 1 := by
    ext i j
    rw [Matrix.mul_apply]
    simpa [Matrix.one_apply, dlt] using hQ i j
  have h2 := mul_eq_one_comm.mp h1
  have := congrFun (congrFun h2 a) b
  rw [Matrix.mul_apply] at this
  simpa [Matrix.one_apply, dlt] using this

theorem det_sq : det3 Q * det3 Q = 1 := by
  have h1 : (Matrix.of Q) * (Matrix.of Q).transpose = 1 := by
    ext i j
    rw [Matrix.mul_apply]
    simpa [Matrix.one_apply, dlt] using hQ i j
  have h2 := congrArg Matrix.det h1
  rw [Matrix.det_mul, Matrix.det_transpose, Matrix.det_one, Matrix.det_fin_three] at h2
  simp only [Matrix.of_apply] at h2
  rw [← h2, det3]; ring

/-- Scalar product. -/
theorem dot_turn (x y : Fin 3 → ℝ) : ∑ i, turnVec Q x i * turnVec Q y i = ∑ i, x i * y i := by
  have c := orth_col hQ
  have c00 := c 0 0; have c01 := c 0 1; have c02 := c 0 2
  have c11 := c 1 1; have c12 := c 1 2; have c22 := c 2 2
  simp [Fin.sum_univ_three, dlt] at c00 c01 c02 c11 c12 c22
  simp only [turnVec, Fin.sum_univ_three]
  linear_combination x 0 * y 0 * c00 + (x 0 * y 1 + x 1 * y 0) * c01 + (x 0 * y 2 + x 2 * y 0) * c02
    + x 1 * y 1 * c11 + (x 1 * y 2 + x 2 * y 1) * c12 + x 2 * y 2 * c22

theorem len_turn (r : Fin 3 → ℝ) : len (turnVec Q r) = len r := by
  unfold len
  congr 1
  simpa [sq] using dot_turn hQ r r

/-- `Q` of its own `i`-th row is the `i`-th unit vector. -/
theorem turn_row (i : Fin 3) : turnVec Q (Q i) = dlt i := by
  funext j
  rw [turnVec, ← hQ i j]
  exact Finset.sum_congr rfl fun _ _ => mul_comm _ _

end Orth

/-- The volume spanned by three vectors. -/
def vol (x y z : Fin 3 → ℝ) : ℝ := ∑ i, ∑ j, ∑ k, eps i j k * x i * y j * z k

theorem vol_turn (Q : Fin 3 → Fin 3 → ℝ) (x y z : Fin 3 → ℝ) :
    vol (turnVec Q x) (turnVec Q y) (turnVec Q z) = det3 Q * vol x y z := by
  simp [vol, turnVec, Fin.sum_univ_three, eps, det3]
  ring

/-! ## Multilinear forms -/

def form2 (T : Fin 3 → Fin 3 → ℝ) (x y : Fin 3 → ℝ) : ℝ := ∑ i, ∑ j, T i j * x i * y j

def form3 (T : Fin 3 → Fin 3 → Fin 3 → ℝ) (x y z : Fin 3 → ℝ) : ℝ :=
  ∑ i, ∑ j, ∑ k, T i j k * x i * y j * z k

def form4 (T : Fin 3 → Fin 3 → Fin 3 → Fin 3 → ℝ) (x y z w : Fin 3 → ℝ) : ℝ :=
  ∑ i, ∑ j, ∑ k, ∑ l, T i j k l * x i * y j * z k * w l

theorem form2_unit (T : Fin 3 → Fin 3 → ℝ) (i j : Fin 3) : form2 T (dlt i) (dlt j) = T i j := by
  simp [form2, dlt]

theorem form3_unit (T : Fin 3 → Fin 3 → Fin 3 → ℝ) (i j k : Fin 3) :
    form3 T (dlt i) (dlt j) (dlt k) = T i j k := by
  simp [form3, dlt]

theorem form4_unit (T : Fin 3 → Fin 3 → Fin 3 → Fin 3 → ℝ) (i j k l : Fin 3) :
    form4 T (dlt i) (dlt j) (dlt k) (dlt l) = T i j k l := by
  simp [form4, dlt]

section Recover

variable {Q : Fin 3 → Fin 3 → ℝ} (hQ : Orthogonal Q)
include hQ

theorem form2_recover {T T' : Fin 3 → Fin 3 → ℝ} {c : ℝ}
    (h : ∀ x y, form2 T' (turnVec Q x) (turnVec Q y) = c * form2 T x y) (i j : Fin 3) :
    T' i j = c * ∑ a, ∑ b, Q i a * Q j b * T a b := by
  have := h (Q i) (Q j)
  rw [turn_row hQ, turn_row hQ, form2_unit] at this
  rw [this, form2]
  congr 1
  refine Finset.sum_congr rfl fun a _ => Finset.sum_congr rfl fun b _ => by ring

theorem form3_recover {T T' : Fin 3 → Fin 3 → Fin 3 → ℝ} {c : ℝ}
    (h : ∀ x y z, form3 T' (turnVec Q x) (turnVec Q y) (turnVec Q z) = c * form3 T x y z) (i j k : Fin 3) :
    T' i j k = c * ∑ a, ∑ b, ∑ d, Q i a * Q j b * Q k d * T a b d := by
  have := h (Q i) (Q j) (Q k)
  rw [turn_row hQ, turn_row hQ, turn_row hQ, form3_unit] at this
  rw [this, form3]
  congr 1
  refine Finset.sum_congr rfl fun a _ => Finset.sum_congr rfl fun b _ => Finset.sum_congr rfl fun d _ => by
    ring

theorem form4_recover {T T' : Fin 3 → Fin 3 → Fin 3 → Fin 3 → ℝ}
    (h : ∀ x y z w, form4 T' (turnVec Q x) (turnVec Q y) (turnVec Q z) (turnVec Q w) = form4 T x y z w)
    (i j k l : Fin 3) :
    T' i j k l = ∑ a, ∑ b, ∑ d, ∑ e, Q i a * Q j b * Q k d * Q l e * T a b d e := by
  have := h (Q i) (Q j) (Q k) (Q l)
  rw [turn_row hQ, turn_row hQ, turn_row hQ, turn_row hQ, form4_unit] at this
  rw [this, form4]
  refine Finset.sum_congr rfl fun a _ => Finset.sum_congr rfl fun b _ => Finset.sum_congr rfl fun d _ =>
    Finset.sum_congr rfl fun e _ => by ring

end Recover

/-- Scalar product. -/
def dt (x y : Fin 3 → ℝ) : ℝ := ∑ i, x i * y i

theorem form_FF (a b : ℝ) {r : Fin 3 → ℝ} (h : r ≠ 0) (x y : Fin 3 → ℝ) :
    form2 (fun i j => response a b (.force i) (.force j) r) x y
      = (1 / len r + (a ^ 2 + b ^ 2) / 6 * (2 / len r ^ 3)) * dt x y
        + (1 / len r ^ 3 - (a ^ 2 + b ^ 2) / 6 * (6 / len r ^ 5)) * dt r x * dt r y := by
  simp only [resp_FF a b _ _ h]
  simp [form2, oseenJ, Lap_J, kron, dt, Fin.sum_univ_three]
  ring

theorem resp_FT_closed (a b : ℝ) {r : Fin 3 → ℝ} (h : r ≠ 0) (i j : Fin 3) :
    response a b (.force i) (.torque j) r = (∑ k, eps i j k * r k) / len r ^ 3 := by
  rw [resp_FT a b _ _ h, rotletR_eq]
  fin_cases i <;> fin_cases j <;> simp [Fin.sum_univ_three, eps, D_J, kron] <;> ring

theorem resp_TT_closed (a b : ℝ) {r : Fin 3 → ℝ} (h : r ≠ 0) (i j : Fin 3) :
    response a b (.torque i) (.torque j) r
      = dlt i j / len r ^ 3 - 3 / 2 * (dlt i j * dt r r - r i * r j) / len r ^ 5 := by
  rw [resp_TT a b _ _ h]
  simp only [D_R_eq]
  fin_cases i <;> fin_cases j <;> simp [Fin.sum_univ_three, eps, DD_J, kron, kronkron, dlt, dt] <;> ring

theorem resp_TS_closed (a b : ℝ) {r : Fin 3 → ℝ} (h : r ≠ 0) (i j k : Fin 3) :
    response a b (.torque i) (.stress j k) r
      = 3 / 2 * (∑ m, (eps i j m * r m * r k + eps i k m * r m * r j)) / len r ^ 5 := by
  rw [resp_TS a b _ _ _ h]
  fin_cases i <;> fin_cases j <;> fin_cases k <;>
    simp [Fin.sum_univ_three, eps, D_K, DD_J, kron, kronkron] <;> ring

theorem form_FT (a b : ℝ) {r : Fin 3 → ℝ} (h : r ≠ 0) (x y : Fin 3 → ℝ) :
    form2 (fun i j => response a b (.force i) (.torque j) r) x y = vol x y r / len r ^ 3 := by
  simp only [resp_FT_closed a b h]
  simp only [form2, vol, Fin.sum_univ_three]
  ring

theorem form_TT (a b : ℝ) {r : Fin 3 → ℝ} (h : r ≠ 0) (x y : Fin 3 → ℝ) :
    form2 (fun i j => response a b (.torque i) (.torque j) r) x y
      = dt x y / len r ^ 3 - 3 / 2 * (dt x y * dt r r - dt r x * dt r y) / len r ^ 5 := by
  simp only [resp_TT_closed a b h]
  simp [form2, dlt, dt, Fin.sum_univ_three]
  ring

theorem form_FS (a b : ℝ) {r : Fin 3 → ℝ} (h : r ≠ 0) (x y z : Fin 3 → ℝ) :
    form3 (fun i j k => response a b (.force i) (.stress j k) r) x y z
      = -(dt y z * dt r x / len r ^ 3 - 3 * dt r x * dt r y * dt r z / len r ^ 5
        + (a ^ 2 / 6 + b ^ 2 / 10) * (-6 / len r ^ 5 * (dt x y * dt r z + dt x z * dt r y + dt y z * dt r x)
          + 30 / len r ^ 7 * (dt r x * dt r y * dt r z))) := by
  simp only [resp_FS a b _ _ _ h]
  simp [form3, tensorK, D_J, Lap_K, DLap_J, kron, dt, Fin.sum_univ_three]
  ring

theorem form_TS (a b : ℝ) {r : Fin 3 → ℝ} (h : r ≠ 0) (x y z : Fin 3 → ℝ) :
    form3 (fun i j k => response a b (.torque i) (.stress j k) r) x y z
      = 3 / 2 * (vol x y r * dt r z + vol x z r * dt r y) / len r ^ 5 := by
  simp only [resp_TS_closed a b h]
  simp only [form3, vol, dt, Fin.sum_univ_three]
  ring

/-- The form of `DD_J`. -/
noncomputable def ddForm (r : Fin 3 → ℝ) (s : ℝ) (w z x y : Fin 3 → ℝ) : ℝ :=
  (-(dt x y * dt z w) + dt x z * dt y w + dt y z * dt x w) / s ^ 3
    - 3 * (-(dt x y * dt r z * dt r w) + dt x z * dt r y * dt r w + dt y z * dt r x * dt r w
      + dt x w * dt r y * dt r z + dt r x * dt y w * dt r z + dt r x * dt r y * dt z w) / s ^ 5
    + 15 * (dt r x * dt r y * dt r z * dt r w) / s ^ 7

/-- The form of `DLap_K`. -/
noncomputable def dlForm (r : Fin 3 → ℝ) (s : ℝ) (w x y z : Fin 3 → ℝ) : ℝ :=
  -6 / s ^ 5 * (dt x y * dt z w + dt x z * dt y w + dt y z * dt x w)
    - 210 / s ^ 9 * (dt r x * dt r y * dt r z * dt r w)
    + 30 / s ^ 7 * (dt x y * dt r z * dt r w + dt x z * dt r y * dt r w + dt y z * dt r x * dt r w
      + dt x w * dt r y * dt r z + dt y w * dt r x * dt r z + dt z w * dt r x * dt r y)

theorem form_DD_J (r : Fin 3 → ℝ) (s : ℝ) (w z x y : Fin 3 → ℝ) :
    form4 (fun m l i j => DD_J r s m l i j) w z x y = ddForm r s w z x y := by
  simp [form4, DD_J, kron, kronkron, dt, ddForm, Fin.sum_univ_three]
  ring

theorem form_DLap_K (r : Fin 3 → ℝ) (s : ℝ) (w x y z : Fin 3 → ℝ) :
    form4 (fun l i j k => DLap_K r s l i j k) w x y z = dlForm r s w x y z := by
  simp [form4, DLap_K, kron, kronkron, dt, dlForm, Fin.sum_univ_three]
  ring

theorem form4_swap (T : Fin 3 → Fin 3 → Fin 3 → Fin 3 → ℝ) (x y z w : Fin 3 → ℝ) :
    form4 (fun i j k l => T j i k l) x y z w = form4 T y x z w := by
  unfold form4
  rw [Finset.sum_comm]
  refine Finset.sum_congr rfl fun a _ => Finset.sum_congr rfl fun b _ => Finset.sum_congr rfl fun d _ =>
    Finset.sum_congr rfl fun e _ => by ring

theorem form4_swap34 (T : Fin 3 → Fin 3 → Fin 3 → Fin 3 → ℝ) (x y z w : Fin 3 → ℝ) :
    form4 (fun i j k l => T i j l k) x y z w = form4 T x y w z := by
  unfold form4
  refine Finset.sum_congr rfl fun a _ => Finset.sum_congr rfl fun b _ => ?_
  rw [Finset.sum_comm]
  refine Finset.sum_congr rfl fun d _ => Finset.sum_congr rfl fun e _ => by ring

theorem form4_swap23 (T : Fin 3 → Fin 3 → Fin 3 → Fin 3 → ℝ) (x y z w : Fin 3 → ℝ) :
    form4 (fun i j k l => T i k j l) x y z w = form4 T x z y w := by
  unfold form4
  refine Finset.sum_congr rfl fun a _ => ?_
  rw [Finset.sum_comm]
  refine Finset.sum_congr rfl fun b _ => Finset.sum_congr rfl fun d _ => Finset.sum_congr rfl fun e _ => by
    ring

theorem form4_add (T U : Fin 3 → Fin 3 → Fin 3 → Fin 3 → ℝ) (x y z w : Fin 3 → ℝ) :
    form4 (fun i j k l => T i j k l + U i j k l) x y z w = form4 T x y z w + form4 U x y z w := by
  simp only [form4, add_mul, Finset.sum_add_distrib]

theorem form4_mul (c : ℝ) (T : Fin 3 → Fin 3 → Fin 3 → Fin 3 → ℝ) (x y z w : Fin 3 → ℝ) :
    form4 (fun i j k l => c * T i j k l) x y z w = c * form4 T x y z w := by
  simp only [form4, mul_assoc, Finset.mul_sum]

theorem form_D_K (r : Fin 3 → ℝ) (s : ℝ) (x y z w : Fin 3 → ℝ) :
    form4 (fun l i j k => D_K r s l i j k) x y z w
      = 1 / 2 * (ddForm r s x w y z + ddForm r s x z y w) := by
  have e1 : ∀ x y z w, form4 (fun l i j k => DD_J r s l j i k) x y z w = ddForm r s x z y w := by
    intro x y z w
    rw [form4_swap23 (fun l j i k => DD_J r s l j i k), form_DD_J]
  have e2 : form4 (fun l i j k => DD_J r s l k i j) x y z w = ddForm r s x w y z := by
    rw [form4_swap34 (fun l i k j => DD_J r s l k i j), e1]
  simp only [D_K]
  rw [form4_mul, form4_add, e1, e2]

theorem form_SS (a b : ℝ) {r : Fin 3 → ℝ} (h : r ≠ 0) (x y z w : Fin 3 → ℝ) :
    form4 (fun i j k l => response a b (.stress i j) (.stress k l) r) x y z w
      = -(1 / 2) * ((1 / 2 * (ddForm r (len r) y w x z + ddForm r (len r) y z x w)
          + 1 / 2 * (ddForm r (len r) x w y z + ddForm r (len r) x z y w))
        + (a ^ 2 + b ^ 2) / 10 * (dlForm r (len r) y x z w + dlForm r (len r) x y z w)) := by
  simp only [resp_SS a b _ _ _ _ h]
  rw [form4_mul, form4_add, form4_add, form4_mul, form4_add, form_D_K, form_DLap_K,
    form4_swap (fun i j k l => D_K r (len r) i j k l), form4_swap (fun i j k l => DLap_K r (len r) i j k l),
    form_D_K, form_DLap_K]

section Turn

variable {Q : Fin 3 → Fin 3 → ℝ} (hQ : Orthogonal Q)
include hQ

theorem dt_turn (x y : Fin 3 → ℝ) : dt (turnVec Q x) (turnVec Q y) = dt x y := dot_turn hQ x y

theorem turn_ne {r : Fin 3 → ℝ} (h : r ≠ 0) : turnVec Q r ≠ 0 := by
  intro e
  have := len_turn hQ r
  rw [e, len_zero] at this
  exact absurd this.symm (len_pos h).ne'

variable {r : Fin 3 → ℝ} (h : r ≠ 0) (a b : ℝ)
include h

theorem turn_FF (i j : Fin 3) : response a b (.force i) (.force j) (turnVec Q r)
    = ∑ c, ∑ d, Q i c * Q j d * response a b (.force c) (.force d) r := by
  have := form2_recover hQ (T := fun i j => response a b (.force i) (.force j) r)
    (T' := fun i j => response a b (.force i) (.force j) (turnVec Q r)) (c := 1)
    (fun x y => by rw [form_FF a b h, form_FF a b (turn_ne hQ h)]; simp only [dt_turn hQ, len_turn hQ]; ring) i j
  simpa using this

theorem turn_FT (i j : Fin 3) : response a b (.force i) (.torque j) (turnVec Q r)
    = det3 Q * ∑ c, ∑ d, Q i c * Q j d * response a b (.force c) (.torque d) r :=
  form2_recover hQ (T := fun i j => response a b (.force i) (.torque j) r)
    (T' := fun i j => response a b (.force i) (.torque j) (turnVec Q r))
    (fun x y => by rw [form_FT a b h, form_FT a b (turn_ne hQ h), vol_turn, len_turn hQ]; ring) i j

theorem turn_TT (i j : Fin 3) : response a b (.torque i) (.torque j) (turnVec Q r)
    = ∑ c, ∑ d, Q i c * Q j d * response a b (.torque c) (.torque d) r := by
  have := form2_recover hQ (T := fun i j => response a b (.torque i) (.torque j) r)
    (T' := fun i j => response a b (.torque i) (.torque j) (turnVec Q r)) (c := 1)
    (fun x y => by rw [form_TT a b h, form_TT a b (turn_ne hQ h)]; simp only [dt_turn hQ, len_turn hQ]; ring) i j
  simpa using this

theorem turn_FS (i j k : Fin 3) : response a b (.force i) (.stress j k) (turnVec Q r)
    = ∑ c, ∑ d, ∑ e, Q i c * Q j d * Q k e * response a b (.force c) (.stress d e) r := by
  have := form3_recover hQ (T := fun i j k => response a b (.force i) (.stress j k) r)
    (T' := fun i j k => response a b (.force i) (.stress j k) (turnVec Q r)) (c := 1)
    (fun x y z => by
      rw [form_FS a b h, form_FS a b (turn_ne hQ h)]; simp only [dt_turn hQ, len_turn hQ]; ring) i j k
  simpa using this

theorem turn_TS (i j k : Fin 3) : response a b (.torque i) (.stress j k) (turnVec Q r)
    = det3 Q * ∑ c, ∑ d, ∑ e, Q i c * Q j d * Q k e * response a b (.torque c) (.stress d e) r :=
  form3_recover hQ (T := fun i j k => response a b (.torque i) (.stress j k) r)
    (T' := fun i j k => response a b (.torque i) (.stress j k) (turnVec Q r))
    (fun x y z => by
      rw [form_TS a b h, form_TS a b (turn_ne hQ h)]; simp only [dt_turn hQ, len_turn hQ, vol_turn]; ring)
    i j k

theorem turn_SS (i j k l : Fin 3) : response a b (.stress i j) (.stress k l) (turnVec Q r)
    = ∑ c, ∑ d, ∑ e, ∑ f, Q i c * Q j d * Q k e * Q l f * response a b (.stress c d) (.stress e f) r :=
  form4_recover hQ (T := fun i j k l => response a b (.stress i j) (.stress k l) r)
    (T' := fun i j k l => response a b (.stress i j) (.stress k l) (turnVec Q r))
    (fun x y z w => by
      rw [form_SS a b h, form_SS a b (turn_ne hQ h)]
      simp only [ddForm, dlForm, dt_turn hQ, len_turn hQ]) i j k l

end Turn

/-! ## All kinds of load together -/

/-- Entry `l` of the turned load. -/
def turnLoad (Q : Fin 3 → Fin 3 → ℝ) (l : Load) (G : Load → ℝ) : ℝ :=
  match l with
  | .force i => ∑ a, Q i a * G (.force a)
  | .torque i => ∑ a, det3 Q * Q i a * G (.torque a)
  | .stress i j => ∑ a, ∑ b, Q i a * Q j b * G (.stress a b)

/-- Component `c` of a load. -/
noncomputable def proj (c : Comp) (G : Load → ℝ) : ℝ :=
  match c with
  | .f i => G (.force i)
  | .t i => G (.torque i)
  | .s p => ∑ j, ∑ k, basis5 p j k * G (.stress j k)

end SD
