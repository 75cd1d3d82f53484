import Verif.Lemmas.EwaldSelf
import Verif.Lemmas.Faxen

/-!
# The response through the Oseen tensor is the response in open space
-/

set_option autoImplicit false

namespace SD.Ewald

open Spec

theorem oseen_greenJet : GreenJet {r | r ≠ 0} oseen (fun i j l r => SD.D_J r (len r) l i j)
    (fun i j m l r => SD.DD_J r (len r) m l i j) (fun i j r => SD.Lap_J (r i) (r j) i j (len r))
    (fun i j l r => SD.DLap_J r (len r) l i j) (fun i j m l r => SD.DLap_K r (len r) m l i j) := by
  intro i j
  have h := oseen_jet i j
  refine h.congr isOpen_ne_zero (fun r _ => rfl) (fun r hr l => ?_) (fun r hr m l => ?_) (fun r hr => ?_)
    (fun r hr l => ?_) (fun r hr m l => ?_)
  · rw [← h.pd1 hr l, pd_oseen hr]
  · rw [← h.pd2 isOpen_ne_zero hr m l, pd_pd_oseen hr]
  · rw [← h.lap0 isOpen_ne_zero hr, lap_oseen hr]
  · rw [← h.lap1 isOpen_ne_zero hr l, pd_lap_oseen hr]
  · rw [← h.lap2 isOpen_ne_zero hr m l, pd_pd_lap_oseen hr]

theorem greenResponse_oseen (a b : ℝ) (l1 l2 : Load) {r : Vec3} (hr : r ≠ 0) :
    greenResponse oseen a b l1 l2 r = response a b l1 l2 r := by
  rw [greenResponse_jet isOpen_ne_zero oseen_greenJet a b l1 l2 hr]
  have o : ∀ i j, oseen i j r = oseenJ (r i) (r j) i j (len r) := by
    intro i j
    have := resp_FF 0 0 i j hr
    simpa [response, faxen, flow] using this
  cases l1 with
  | force i =>
    cases l2 with
    | force j => rw [resp_FF a b i j hr]; simp only [respVal, sized, o]; ring
    | torque j =>
      rw [resp_FT a b i j hr, rotletR_eq]
      have : ∑ k, ∑ l, eps j k l * SD.DLap_J r (len r) k i l = 0 :=
        eps_symm_sum _ _ fun k l => by rw [DLap_J_symm, DLap_J_symm', DLap_J_symm]
      simp only [respVal, sized, this]; ring
    | stress j k =>
      rw [resp_FS a b i j k hr]
      simp only [respVal, sized, tensorK, SD.Lap_K]
      rw [DLap_J_symm r (len r) k i j, DLap_J_symm' r (len r) k j i, DLap_J_symm r (len r) j k i,
        DLap_J_symm' r (len r) j i k]
      ring
  | torque i =>
    cases l2 with
    | force j =>
      rw [resp_TF a b i j hr, rotletR_eq]
      have : ∑ k, ∑ l, eps i k l * SD.DLap_J r (len r) k l j = 0 :=
        eps_symm_sum _ _ fun k l => by rw [DLap_J_symm']
      simp only [respVal, sized, this, D_J_symm r (len r) _ j _]; ring
    | torque j =>
      rw [resp_TT a b i j hr]
      simp only [respVal, sized, D_R_eq]; ring
    | stress j k =>
      rw [resp_TS a b i j k hr]
      have e : ∀ j k, ∑ l, ∑ m, eps i l m * SD.DLap_K r (len r) l k m j = 0 := fun j k =>
        eps_symm_sum _ _ fun l m => by
          rw [DLap_K_symm2, DLap_K_symm1, DLap_K_symm2]
      simp only [respVal, sized, SD.D_K, eps_two] at e ⊢
      linear_combination (-(b ^ 2 / 40)) * (e j k + e k j)
  | stress i j =>
    cases l2 with
    | force k =>
      rw [resp_SF a b i j k hr]
      simp only [respVal, sized, tensorK, SD.Lap_K]
      rw [D_J_symm r (len r) j i k, D_J_symm r (len r) i j k, DLap_J_symm r (len r) j i k,
        DLap_J_symm r (len r) i j k, DLap_J_symm' r (len r) j k i, DLap_J_symm' r (len r) i k j,
        DLap_J_symm r (len r) k j i]
      ring
    | torque k =>
      rw [resp_ST a b i j k hr]
      have e : ∀ i j, ∑ m, ∑ n, eps k m n * SD.DLap_K r (len r) j m i n = 0 := fun i j =>
        eps_symm_sum _ _ fun m n => by
          rw [DLap_K_symm2, DLap_K_symm3, DLap_K_symm2]
      have f : ∀ x y m n, SD.DD_J r (len r) x m y n = SD.DD_J r (len r) m x n y := by
        intro x y m n; rw [DD_J_symm', DD_J_symm]
      simp only [respVal, sized, SD.D_K, f i _ _ _, f j _ _ _, eps_two] at e ⊢
      linear_combination (-(a ^ 2 / 40)) * (e i j + e j i)
    | stress k l =>
      rw [resp_SS a b i j k l hr]
      have f1 : SD.DLap_K r (len r) j l i k = SD.DLap_K r (len r) j i k l := by
        rw [DLap_K_symm2, DLap_K_symm3]
      have f2 : SD.DLap_K r (len r) j k i l = SD.DLap_K r (len r) j i k l := by rw [DLap_K_symm2]
      have f3 : SD.DLap_K r (len r) i l j k = SD.DLap_K r (len r) i j k l := by
        rw [DLap_K_symm2, DLap_K_symm3]
      have f4 : SD.DLap_K r (len r) i k j l = SD.DLap_K r (len r) i j k l := by rw [DLap_K_symm2]
      simp only [respVal, sized, SD.D_K, f1, f2, f3, f4]
      ring

end SD.Ewald
