import Verif.Lemmas.Erfc

/-!
# The real-space kernels of the model are the derivatives of the screened Green's function
-/

set_option autoImplicit false

namespace SD.Ewald

open Spec

/-- Diagonal part of the screened Green's function. -/
noncomputable def pJ (lamb : ℝ) : ℕ → ℝ → ℝ := bump 2 (scr lamb)

/-- The other part of the screened Green's function. -/
noncomputable def qJ (lamb : ℝ) (n : ℕ) (s : ℝ) : ℝ := -scr lamb (n + 2) s

theorem pJ_chain (lamb : ℝ) : Chain (pJ lamb) := (scr_chain lamb).bump 2

theorem qJ_chain (lamb : ℝ) : Chain (qJ lamb) := fun n s hs => by
  refine hd_congr ((scr_chain lamb (n + 2) s hs).fun_neg) (fun t => rfl) ?_
  unfold qJ; ring

theorem nearJ_eq (lamb : ℝ) (i j : Fin 3) {r : Vec3} (hr : r ≠ 0) :
    nearJ lamb i j r = T0 (pJ lamb) (qJ lamb) i j r :=
  stokesOp_radial (scr_chain lamb) (fun r _ => screened_eq lamb r) i j hr

/-- The jet of the screened Green's function. -/
theorem nearJ_jet (lamb : ℝ) (i j : Fin 3) :
    IsJet {r | r ≠ 0} (nearJ lamb i j) (T1 (pJ lamb) (qJ lamb) i j) (T2 (pJ lamb) (qJ lamb) i j)
      (T0 (lapP (pJ lamb) (qJ lamb)) (lapQ (qJ lamb)) i j)
      (T1 (lapP (pJ lamb) (qJ lamb)) (lapQ (qJ lamb)) i j)
      (T2 (lapP (pJ lamb) (qJ lamb)) (lapQ (qJ lamb)) i j) :=
  (T0_jet (pJ_chain lamb) (qJ_chain lamb) i j).congr isOpen_ne_zero (fun r hr => nearJ_eq lamb i j hr)
    (fun _ _ _ => rfl) (fun _ _ _ _ => rfl) (fun _ _ => rfl) (fun _ _ _ => rfl) (fun _ _ _ _ => rfl)

theorem scr_closed (lamb : ℝ) {s : ℝ} (hs : 0 < s) (e : Fin 7 → ℝ) (he : e = generate_erfcs s lamb) :
    scr lamb 1 s = e 0 / s + e 1 ∧
    scr lamb 2 s = -e 0 / s ^ 3 + e 1 / s ^ 2 + e 2 / s ∧
    scr lamb 3 s = 3 * e 0 / s ^ 5 - 3 * e 1 / s ^ 4 + e 3 / s ^ 2 ∧
    scr lamb 4 s = -15 * e 0 / s ^ 7 + 15 * e 1 / s ^ 6 - 3 * e 2 / s ^ 5 - 2 * e 3 / s ^ 4
      + e 4 / s ^ 3 ∧
    scr lamb 5 s = 105 * e 0 / s ^ 9 - 105 * e 1 / s ^ 8 + 30 * e 2 / s ^ 7 + 5 * e 3 / s ^ 6
      - 5 * e 4 / s ^ 5 + e 5 / s ^ 4 ∧
    scr lamb 6 s = -945 * e 0 / s ^ 11 + 945 * e 1 / s ^ 10 - 315 * e 2 / s ^ 9 + 30 * e 4 / s ^ 7
      - 9 * e 5 / s ^ 6 + e 6 / s ^ 5 := by
  subst he
  exact ⟨closed_eq lamb 1 hs, closed_eq lamb 2 hs, closed_eq lamb 3 hs, closed_eq lamb 4 hs,
    closed_eq lamb 5 hs, closed_eq lamb 6 hs⟩

section
variable (lamb : ℝ) {r : Vec3} (hr : r ≠ 0)
include hr

theorem J_eq (i j : Fin 3) :
    J r (len r) i j (generate_erfcs (len r) lamb) = T0 (pJ lamb) (qJ lamb) i j r := by
  have hs := len_pos hr
  generalize he : generate_erfcs (len r) lamb = e
  obtain ⟨c1, c2, -⟩ := scr_closed lamb hs e he.symm
  simp only [T0, pJ, qJ, bump, zero_add, Nat.cast_zero, c1, c2]
  generalize len r = s at hs
  simp only [J, Lap_rerfclr, DD_rerfclr, kron_eq]
  field_simp
  ring

theorem D_J_eq (l i j : Fin 3) :
    D_J r (len r) l i j (generate_erfcs (len r) lamb) = T1 (pJ lamb) (qJ lamb) i j l r := by
  have hs := len_pos hr
  generalize he : generate_erfcs (len r) lamb = e
  obtain ⟨c1, c2, c3, -⟩ := scr_closed lamb hs e he.symm
  simp only [T1, pJ, qJ, bump, zero_add, Nat.cast_one, Nat.reduceAdd, c2, c3]
  generalize len r = s at hs
  simp only [D_J, DLap_rerfclr, DDD_rerfclr, kron_eq]
  generalize dlt i j = d1
  generalize dlt i l = d2
  generalize dlt j l = d3
  generalize r i = ri
  generalize r j = rj
  generalize r l = rl
  field_simp
  ring

theorem DD_J_eq (m l i j : Fin 3) :
    DD_J r (len r) m l i j (generate_erfcs (len r) lamb) = T2 (pJ lamb) (qJ lamb) i j m l r := by
  have hs := len_pos hr
  generalize he : generate_erfcs (len r) lamb = e
  obtain ⟨c1, c2, c3, c4, -⟩ := scr_closed lamb hs e he.symm
  simp only [T2, pJ, qJ, bump, zero_add, Nat.cast_one, Nat.cast_ofNat, Nat.reduceAdd, c2, c3, c4]
  generalize len r = s at hs
  simp only [DD_J, DDLap_rerfclr, DDDD_rerfclr, kron_eq, dlt_comm l j]
  generalize dlt i j = d1
  generalize dlt i l = d2
  generalize dlt j l = d3
  generalize dlt i m = d4
  generalize dlt j m = d5
  generalize dlt l m = d6
  generalize r i = ri
  generalize r j = rj
  generalize r l = rl
  generalize r m = rm
  field_simp
  ring

theorem Lap_J_eq (i j : Fin 3) :
    Lap_J r (len r) i j (generate_erfcs (len r) lamb)
      = T0 (lapP (pJ lamb) (qJ lamb)) (lapQ (qJ lamb)) i j r := by
  have hs := len_pos hr
  generalize he : generate_erfcs (len r) lamb = e
  obtain ⟨c1, c2, c3, c4, -⟩ := scr_closed lamb hs e he.symm
  simp only [T0, lapP, lapQ, pJ, qJ, bump, zero_add, Nat.cast_zero, Nat.cast_one, Nat.cast_ofNat,
    Nat.reduceAdd, c2, c3, c4]
  generalize len r = s at hs
  simp only [Lap_J, LapLap_rerfclr, DDLap_rerfclr, kron_eq]
  generalize dlt i j = d1
  generalize r i = ri
  generalize r j = rj
  field_simp
  ring

theorem DLap_J_eq (k i j : Fin 3) :
    DLap_J r (len r) k i j (generate_erfcs (len r) lamb)
      = T1 (lapP (pJ lamb) (qJ lamb)) (lapQ (qJ lamb)) i j k r := by
  have hs := len_pos hr
  generalize he : generate_erfcs (len r) lamb = e
  obtain ⟨c1, c2, c3, c4, c5, -⟩ := scr_closed lamb hs e he.symm
  simp only [T1, lapP, lapQ, pJ, qJ, bump, zero_add, Nat.cast_zero, Nat.cast_one, Nat.cast_ofNat,
    Nat.reduceAdd, c2, c3, c4, c5]
  generalize len r = s at hs
  simp only [DLap_J, DLapLap_rerfclr, DDDLap_rerfclr, kron_eq]
  generalize dlt i j = d1
  generalize dlt i k = d2
  generalize dlt j k = d3
  generalize r i = ri
  generalize r j = rj
  generalize r k = rk
  field_simp
  ring

theorem DDLap_J_eq (l k i j : Fin 3) :
    DDLap_J r (len r) l k i j (generate_erfcs (len r) lamb)
      = T2 (lapP (pJ lamb) (qJ lamb)) (lapQ (qJ lamb)) i j l k r := by
  have hs := len_pos hr
  generalize he : generate_erfcs (len r) lamb = e
  obtain ⟨c1, c2, c3, c4, c5, c6⟩ := scr_closed lamb hs e he.symm
  simp only [T2, lapP, lapQ, pJ, qJ, bump, zero_add, Nat.cast_zero, Nat.cast_one, Nat.cast_ofNat,
    Nat.reduceAdd, c2, c3, c4, c5, c6]
  generalize len r = s at hs
  simp only [DDLap_J, DDLapLap_rerfclr, DDDDLap_rerfclr, kron_eq, dlt_comm k j]
  generalize dlt i j = d1
  generalize dlt i k = d2
  generalize dlt j k = d3
  generalize dlt i l = d4
  generalize dlt j l = d5
  generalize dlt k l = d6
  generalize r i = ri
  generalize r j = rj
  generalize r k = rk
  generalize r l = rl
  field_simp
  ring

end

end SD.Ewald
