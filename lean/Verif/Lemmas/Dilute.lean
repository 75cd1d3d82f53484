import Verif.Lemmas.FarField

/-!
Bounds on the response of one sphere to the load on another one.
-/

set_option autoImplicit false

namespace SD

open Spec

theorem abs_comp_le (r : Vec3) (i : Fin 3) : |r i| ≤ len r := by
  unfold len
  apply Real.abs_le_sqrt
  rw [Fin.sum_univ_three]
  fin_cases i <;> simp <;> nlinarith [sq_nonneg (r 0), sq_nonneg (r 1), sq_nonneg (r 2)]

theorem kron_cases (i j : Fin 3) : kron i j = 0 ∨ kron i j = 1 := by
  unfold kron; split_ifs <;> simp

/-- A number in `[-1, 1]`. -/
def Small (x : ℝ) : Prop := |x| ≤ 1

theorem Small.mul {x y : ℝ} (hx : Small x) (hy : Small y) : Small (x * y) := by
  unfold Small at *
  rw [abs_mul]
  nlinarith [abs_nonneg x, abs_nonneg y]

theorem Small.kron (i j : Fin 3) : Small (kron i j) := by
  rcases kron_cases i j with h | h <;> simp [Small, h]

theorem Small.bds {x : ℝ} (h : Small x) : -1 ≤ x ∧ x ≤ 1 := abs_le.mp h

section
variable {r : Vec3} (h : r ≠ 0)
include h

/-- The direction of `r`. -/
theorem dir_small (i : Fin 3) : Small (r i / len r) := by
  have hs := len_pos h
  unfold Small
  rw [abs_div, abs_of_pos hs, div_le_one hs]
  exact abs_comp_le r i

theorem oseenJ_le (i j : Fin 3) : |oseenJ (r i) (r j) i j (len r)| ≤ 2 / len r := by
  have hs := len_pos h
  have e : oseenJ (r i) (r j) i j (len r)
      = (kron i j + (r i / len r) * (r j / len r)) / len r := by
    unfold oseenJ; field_simp
  rw [e, abs_div, abs_of_pos hs]
  gcongr
  have h1 := (Small.kron i j).bds
  have h2 := ((dir_small h i).mul (dir_small h j)).bds
  rw [abs_le]; constructor <;> linarith

theorem Lap_J_le (i j : Fin 3) : |Lap_J (r i) (r j) i j (len r)| ≤ 8 / len r ^ 3 := by
  have hs := len_pos h
  have e : Lap_J (r i) (r j) i j (len r)
      = (2 * kron i j - 6 * ((r i / len r) * (r j / len r))) / len r ^ 3 := by
    unfold Lap_J; field_simp
  rw [e, abs_div, abs_of_pos (pow_pos hs 3)]
  gcongr
  have h1 := (Small.kron i j).bds
  have h2 := ((dir_small h i).mul (dir_small h j)).bds
  rw [abs_le]; constructor <;> linarith

theorem D_J_le (l i j : Fin 3) : |D_J r (len r) l i j| ≤ 6 / len r ^ 2 := by
  have hs := len_pos h
  have e : D_J r (len r) l i j
      = (-(kron i j * (r l / len r)) + kron i l * (r j / len r) + kron j l * (r i / len r)
          - 3 * ((r i / len r) * (r j / len r) * (r l / len r))) / len r ^ 2 := by
    unfold D_J; field_simp
  rw [e, abs_div, abs_of_pos (pow_pos hs 2)]
  gcongr
  have d := dir_small h
  have h1 := ((Small.kron i j).mul (d l)).bds
  have h2 := ((Small.kron i l).mul (d j)).bds
  have h3 := ((Small.kron j l).mul (d i)).bds
  have h4 := (((d i).mul (d j)).mul (d l)).bds
  rw [abs_le]; constructor <;> linarith

theorem DLap_J_le (k i j : Fin 3) : |DLap_J r (len r) k i j| ≤ 48 / len r ^ 4 := by
  have hs := len_pos h
  have e : DLap_J r (len r) k i j
      = (-6 * (kron i j * (r k / len r)) - 6 * (kron i k * (r j / len r)) - 6 * (kron j k * (r i / len r))
          + 30 * ((r i / len r) * (r j / len r) * (r k / len r))) / len r ^ 4 := by
    unfold DLap_J; field_simp; ring
  rw [e, abs_div, abs_of_pos (pow_pos hs 4)]
  gcongr
  have d := dir_small h
  have h1 := ((Small.kron i j).mul (d k)).bds
  have h2 := ((Small.kron i k).mul (d j)).bds
  have h3 := ((Small.kron j k).mul (d i)).bds
  have h4 := (((d i).mul (d j)).mul (d k)).bds
  rw [abs_le]; constructor <;> linarith

theorem DD_J_le (m l i j : Fin 3) : |DD_J r (len r) m l i j| ≤ 36 / len r ^ 3 := by
  have hs := len_pos h
  have e : DD_J r (len r) m l i j
      = (-(kron i j * kron l m) + kron i l * kron j m + kron j l * kron i m
          - 3 * (-(kron i j * ((r l / len r) * (r m / len r))) + kron i l * ((r j / len r) * (r m / len r))
            + kron j l * ((r i / len r) * (r m / len r)) + kron i m * ((r j / len r) * (r l / len r))
            + kron j m * ((r i / len r) * (r l / len r)) + kron l m * ((r i / len r) * (r j / len r)))
          + 15 * ((r i / len r) * (r j / len r) * ((r l / len r) * (r m / len r)))) / len r ^ 3 := by
    unfold DD_J; simp only [kronkron_mul]; field_simp
  rw [e, abs_div, abs_of_pos (pow_pos hs 3)]
  gcongr
  have d := dir_small h
  have k := Small.kron
  have h1 := ((k i j).mul (k l m)).bds
  have h2 := ((k i l).mul (k j m)).bds
  have h3 := ((k j l).mul (k i m)).bds
  have h4 := ((k i j).mul ((d l).mul (d m))).bds
  have h5 := ((k i l).mul ((d j).mul (d m))).bds
  have h6 := ((k j l).mul ((d i).mul (d m))).bds
  have h7 := ((k i m).mul ((d j).mul (d l))).bds
  have h8 := ((k j m).mul ((d i).mul (d l))).bds
  have h9 := ((k l m).mul ((d i).mul (d j))).bds
  have h10 := (((d i).mul (d j)).mul ((d l).mul (d m))).bds
  rw [abs_le]; constructor <;> linarith

theorem DLap_K_le (l i j k : Fin 3) : |DLap_K r (len r) l i j k| ≤ 408 / len r ^ 5 := by
  have hs := len_pos h
  have e : DLap_K r (len r) l i j k
      = (-6 * (kron i j * kron k l + kron i k * kron j l + kron j k * kron i l)
          + 30 * (kron i j * ((r k / len r) * (r l / len r)) + kron i k * ((r j / len r) * (r l / len r))
            + kron j k * ((r i / len r) * (r l / len r)) + kron i l * ((r j / len r) * (r k / len r))
            + kron j l * ((r i / len r) * (r k / len r)) + kron k l * ((r i / len r) * (r j / len r)))
          - 210 * ((r i / len r) * (r j / len r) * ((r k / len r) * (r l / len r)))) / len r ^ 5 := by
    unfold DLap_K; simp only [kronkron_mul]; field_simp; ring
  rw [e, abs_div, abs_of_pos (pow_pos hs 5)]
  gcongr
  have d := dir_small h
  have q := Small.kron
  have h1 := ((q i j).mul (q k l)).bds
  have h2 := ((q i k).mul (q j l)).bds
  have h3 := ((q j k).mul (q i l)).bds
  have h4 := ((q i j).mul ((d k).mul (d l))).bds
  have h5 := ((q i k).mul ((d j).mul (d l))).bds
  have h6 := ((q j k).mul ((d i).mul (d l))).bds
  have h7 := ((q i l).mul ((d j).mul (d k))).bds
  have h8 := ((q j l).mul ((d i).mul (d k))).bds
  have h9 := ((q k l).mul ((d i).mul (d j))).bds
  have h10 := (((d i).mul (d j)).mul ((d k).mul (d l))).bds
  rw [abs_le]; constructor <;> linarith

end

/-- A contraction with the alternating symbol has two terms. -/
theorem eps_sum_le (i : Fin 3) (f : Fin 3 → Fin 3 → ℝ) {B : ℝ} (hf : ∀ k l, |f k l| ≤ B) :
    |∑ k, ∑ l, eps i k l * f k l| ≤ 2 * B := by
  have b : ∀ k l, -B ≤ f k l ∧ f k l ≤ B := fun k l => abs_le.mp (hf k l)
  simp only [Fin.sum_univ_three]
  fin_cases i <;> simp [eps] <;> rw [abs_le] <;> constructor <;>
    linarith [b 0 1, b 1 0, b 0 2, b 2 0, b 1 2, b 2 1, (b 0 1).1, (b 0 1).2, (b 1 0).1, (b 1 0).2,
      (b 0 2).1, (b 0 2).2, (b 2 0).1, (b 2 0).2, (b 1 2).1, (b 1 2).2, (b 2 1).1, (b 2 1).2]

theorem five_le (f : Fin 3 → Fin 3 → ℝ) {B : ℝ} (hf : ∀ k l, |f k l| ≤ B) (p : Fin 5) :
    |five f p| ≤ 2 * B := by
  have h3 : Real.sqrt 3 ≤ 2 := Real.sqrt_le_iff.mpr (by norm_num)
  have h31 : 1 ≤ Real.sqrt 3 := Real.le_sqrt_of_sq_le (by norm_num)
  have h2 : Real.sqrt 2 ≤ 2 := Real.sqrt_le_iff.mpr (by norm_num)
  have h20 := Real.sqrt_nonneg 2
  have b : ∀ k l, -B ≤ f k l ∧ f k l ≤ B := fun k l => abs_le.mp (hf k l)
  have hB : 0 ≤ B := le_trans (abs_nonneg _) (hf 0 0)
  have key : ∀ c x : ℝ, 0 ≤ c → c ≤ 2 → -B ≤ x ∧ x ≤ B → |c * x| ≤ 2 * B := by
    intro c x h0 h2 hx
    rw [abs_mul, abs_of_nonneg h0]
    have := abs_le.mpr hx
    nlinarith [abs_nonneg x]
  have key2 : ∀ u v x y : ℝ, 0 ≤ u → 0 ≤ v → u + v ≤ 2 → (-B ≤ x ∧ x ≤ B) → (-B ≤ y ∧ y ≤ B) →
      |u * x + v * y| ≤ 2 * B := by
    intro u v x y hu hv huv hx hy
    rw [abs_le]
    constructor <;> nlinarith [hx.1, hx.2, hy.1, hy.2]
  fin_cases p
  · exact key2 _ _ _ _ (by linarith) (by linarith) (by linarith) (b 0 0) (b 1 1)
  · exact key _ _ h20 h2 (b 0 1)
  · exact key2 _ _ _ _ (by linarith) (by linarith) (by linarith) (b 0 0) (b 1 1)
  · exact key _ _ h20 h2 (b 0 2)
  · exact key _ _ h20 h2 (b 1 2)

/-- Number of derivatives that go with a component of the load. -/
def lvl : Comp → ℕ
  | .f _ => 0
  | _ => 1

section
variable {r : Vec3} {a b : ℝ} (h : r ≠ 0) (ha : 0 < a) (hb : 0 < b) (hab : a + b ≤ len r)
include h ha hb hab

omit h in
theorem sq_sum_le : (a ^ 2 + b ^ 2) ≤ len r ^ 2 := by nlinarith

omit ha hb hab in
theorem rotletR_le (i j : Fin 3) : |rotletR r (len r) i j| ≤ 6 / len r ^ 2 := by
  rw [rotletR_eq, abs_mul]
  have := eps_sum_le j (fun k l => D_J r (len r) k i l) (fun k l => D_J_le h k i l)
  rw [show |(-(1 / 2) : ℝ)| = 1 / 2 by rw [abs_neg, abs_of_pos]; norm_num]
  linarith

omit ha hb hab in
theorem tensorK_le (i j k : Fin 3) : |tensorK r (len r) i j k| ≤ 6 / len r ^ 2 := by
  have h1 := abs_le.mp (D_J_le h k i j)
  have h2 := abs_le.mp (D_J_le h j i k)
  unfold tensorK
  rw [abs_le]; constructor <;> linarith

omit ha hb hab in
theorem D_K_le (l i j k : Fin 3) : |D_K r (len r) l i j k| ≤ 36 / len r ^ 3 := by
  have h1 := abs_le.mp (DD_J_le h l k i j)
  have h2 := abs_le.mp (DD_J_le h l j i k)
  unfold D_K
  rw [abs_le]; constructor <;> linarith

omit ha hb hab in
theorem D_R_le (l i j : Fin 3) : |D_R r (len r) l i j| ≤ 36 / len r ^ 3 := by
  rw [D_R_eq, abs_mul]
  have := eps_sum_le j (fun m n => DD_J r (len r) l m i n) (fun m n => DD_J_le h l m i n)
  rw [show |(-(1 / 2) : ℝ)| = 1 / 2 by rw [abs_neg, abs_of_pos]; norm_num]
  linarith

omit ha hb hab in
/-- A term with a finite-size factor of at most `len r ^ 2`. -/
theorem size_mul_le {q x C : ℝ} {n : ℕ} (hq0 : 0 ≤ q) (hq : q ≤ len r ^ 2)
    (hx : |x| ≤ C / len r ^ (n + 2)) : |q * x| ≤ C / len r ^ n := by
  have hs := len_pos h
  rw [abs_mul, abs_of_nonneg hq0]
  calc q * |x| ≤ len r ^ 2 * (C / len r ^ (n + 2)) := by gcongr
    _ = C / len r ^ n := by rw [pow_add]; field_simp

theorem resp_le : (∀ i j, |response a b (.force i) (.force j) r| ≤ 12 / len r) ∧
    (∀ i j, |response a b (.force i) (.torque j) r| ≤ 60 / len r ^ 2) ∧
    (∀ i j, |response a b (.torque i) (.force j) r| ≤ 60 / len r ^ 2) ∧
    (∀ i j k, |response a b (.force i) (.stress j k) r| ≤ 60 / len r ^ 2) ∧
    (∀ i j k, |response a b (.stress j k) (.force i) r| ≤ 60 / len r ^ 2) ∧
    (∀ i j, |response a b (.torque i) (.torque j) r| ≤ 80 / len r ^ 3) ∧
    (∀ i j k, |response a b (.torque i) (.stress j k) r| ≤ 80 / len r ^ 3) ∧
    (∀ i j k, |response a b (.stress j k) (.torque i) r| ≤ 80 / len r ^ 3) ∧
    (∀ i j k l, |response a b (.stress i j) (.stress k l) r| ≤ 80 / len r ^ 3) := by
  have hs := len_pos h
  have hsq := sq_sum_le ha hb hab
  have a2 := sq_nonneg a
  have b2 := sq_nonneg b
  have inv2 : 0 < 1 / len r ^ 2 := by positivity
  have inv3 : 0 < 1 / len r ^ 3 := by positivity
  have n2 : ∀ c : ℝ, c / len r ^ 2 = c * (1 / len r ^ 2) := fun c => by ring
  have n3 : ∀ c : ℝ, c / len r ^ 3 = c * (1 / len r ^ 3) := fun c => by ring
  refine ⟨?_, ?_, ?_, ?_, ?_, ?_, ?_, ?_, ?_⟩
  · intro i j
    rw [resp_FF a b i j h]
    have h1 := oseenJ_le h i j
    have h2 := size_mul_le h (q := (a ^ 2 + b ^ 2) / 6) (n := 1) (by positivity) (by linarith)
      (Lap_J_le h i j)
    rw [pow_one] at h2
    refine (abs_add_le _ _).trans ?_
    have : 12 / len r = 2 / len r + 10 / len r := by ring
    have : 8 / len r ≤ 10 / len r := by gcongr; norm_num
    linarith
  · intro i j
    rw [resp_FT a b i j h]
    refine (rotletR_le h i j).trans ?_
    gcongr; norm_num
  · intro i j
    rw [resp_TF a b i j h, abs_neg]
    refine (rotletR_le h j i).trans ?_
    gcongr; norm_num
  · intro i j k
    rw [resp_FS a b i j k h, abs_neg]
    have h1 := tensorK_le h i j k
    have h2 := size_mul_le h (q := a ^ 2 / 6 + b ^ 2 / 10) (n := 2) (by positivity) (by linarith)
      (DLap_J_le h i j k)
    refine (abs_add_le _ _).trans ?_
    rw [Lap_K]
    rw [n2] at h1 h2 ⊢
    linarith
  · intro i j k
    rw [resp_SF a b j k i h]
    have h1 := tensorK_le h i j k
    have h2 := size_mul_le h (q := b ^ 2 / 6 + a ^ 2 / 10) (n := 2) (by positivity) (by linarith)
      (DLap_J_le h i j k)
    refine (abs_add_le _ _).trans ?_
    rw [Lap_K]
    rw [n2] at h1 h2 ⊢
    linarith
  · intro i j
    rw [resp_TT a b i j h, abs_mul, abs_of_pos (by norm_num : (0 : ℝ) < 1 / 2)]
    have := eps_sum_le i (fun k l => D_R r (len r) k l j) (fun k l => D_R_le h k l j)
    rw [n3] at this ⊢
    linarith
  · intro i j k
    rw [resp_TS a b i j k h, abs_mul, abs_neg, abs_of_pos (by norm_num : (0 : ℝ) < 1 / 2)]
    have := eps_sum_le i (fun l m => D_K r (len r) l m j k) (fun l m => D_K_le h l m j k)
    rw [n3] at this ⊢
    linarith
  · intro i j k
    rw [resp_ST a b j k i h, abs_mul, abs_neg, abs_of_pos (by norm_num : (0 : ℝ) < 1 / 2)]
    have := eps_sum_le i (fun l m => D_K r (len r) l m j k) (fun l m => D_K_le h l m j k)
    rw [n3] at this ⊢
    linarith
  · intro i j k l
    rw [resp_SS a b i j k l h, abs_mul, abs_neg, abs_of_pos (by norm_num : (0 : ℝ) < 1 / 2)]
    have h1 := abs_le.mp (D_K_le h j i k l)
    have h2 := abs_le.mp (D_K_le h i j k l)
    have h3 := abs_le.mp (size_mul_le h (q := (a ^ 2 + b ^ 2)) (n := 3) (by positivity)
      (by linarith) (DLap_K_le h j i k l))
    have h4 := abs_le.mp (size_mul_le h (q := (a ^ 2 + b ^ 2)) (n := 3) (by positivity)
      (by linarith) (DLap_K_le h i j k l))
    rw [n3] at h1 h2 h3 h4 ⊢
    have : |D_K r (len r) j i k l + D_K r (len r) i j k l
        + (a ^ 2 + b ^ 2) / 10 * (DLap_K r (len r) j i k l + DLap_K r (len r) i j k l)|
        ≤ 160 * (1 / len r ^ 3) := by
      rw [abs_le]
      constructor <;> linarith
    linarith

/-- Every entry of the pair response decays with the distance at the rate of its order. -/
theorem pairMob_le (c1 c2 : Comp) :
    |pairMob a b c1 c2 r| ≤ 320 / len r ^ (1 + lvl c1 + lvl c2) := by
  have hs := len_pos h
  obtain ⟨h1, h2, h3, h4, h5, h6, h7, h8, h9⟩ := resp_le h ha hb hab
  have key : ∀ (x c : ℝ) (m : ℕ), x ≤ c / len r ^ m → c ≤ 320 → x ≤ 320 / len r ^ m := by
    intro x c m hx hc
    exact hx.trans (by gcongr)
  have d2 : ∀ (c : ℝ) (m : ℕ), 2 * (c / len r ^ m) = (2 * c) / len r ^ m := fun c m => by ring
  cases c1 <;> cases c2 <;> simp only [pairMob, respTo_s h, lvl] <;> (try simp only [respTo])
  · rename_i i j
    exact key _ _ 1 ((h1 i j).trans (by rw [pow_one])) (by norm_num)
  · rename_i i j
    exact key _ _ 2 (h2 i j) (by norm_num)
  · rename_i i q
    exact key _ _ 2 ((five_le _ (fun j k => h4 i j k) q).trans_eq (d2 _ _)) (by norm_num)
  · rename_i i j
    exact key _ _ 2 (h3 i j) (by norm_num)
  · rename_i i j
    exact key _ _ 3 (h6 i j) (by norm_num)
  · rename_i i q
    exact key _ _ 3 ((five_le _ (fun j k => h7 i j k) q).trans_eq (d2 _ _)) (by norm_num)
  · rename_i p j
    exact key _ _ 2 ((five_le _ (fun k l => h5 j k l) p).trans_eq (d2 _ _)) (by norm_num)
  · rename_i p j
    exact key _ _ 3 ((five_le _ (fun k l => h8 j k l) p).trans_eq (d2 _ _)) (by norm_num)
  · rename_i p q
    exact key _ _ 3 ((five_le _ (fun i j => five_le _ (fun k l => h9 i j k l) q) p).trans_eq
      (by rw [d2, d2])) (by norm_num)

end

end SD
