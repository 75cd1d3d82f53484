import Verif.Lemmas.EwaldPair

/-!
# The response in the box near zero separation
-/

set_option autoImplicit false

namespace SD.Ewald

open Spec Filter Topology

/-! ## Open space -/

/-- Diagonal part of the Stokes tensor of a radial field. -/
noncomputable def pOf (g : ℕ → ℝ → ℝ) : ℕ → ℝ → ℝ := bump 2 g

/-- Other part of the Stokes tensor of a radial field. -/
noncomputable def qOf (g : ℕ → ℝ → ℝ) (n : ℕ) (s : ℝ) : ℝ := -g (n + 2) s

theorem qOf_chain {g : ℕ → ℝ → ℝ} (h : Chain g) : Chain (qOf g) := fun n s hs => by
  refine hd_congr ((h (n + 2) s hs).fun_neg) (fun t => rfl) ?_
  unfold qOf; ring

theorem oseen_eq (i j : Fin 3) {r : Vec3} (hr : r ≠ 0) :
    oseen i j r = T0 (pOf freeChain) (qOf freeChain) i j r := by
  have hs := len_pos hr
  simp only [oseen, T0, pOf, qOf, bump, freeChain, freeCoeff]
  generalize len r = s at hs
  norm_num
  field_simp
  ring

theorem oseen_jet (i j : Fin 3) :
    IsJet {r | r ≠ 0} (oseen i j) (T1 (pOf freeChain) (qOf freeChain) i j)
      (T2 (pOf freeChain) (qOf freeChain) i j)
      (T0 (lapP (pOf freeChain) (qOf freeChain)) (lapQ (qOf freeChain)) i j)
      (T1 (lapP (pOf freeChain) (qOf freeChain)) (lapQ (qOf freeChain)) i j)
      (T2 (lapP (pOf freeChain) (qOf freeChain)) (lapQ (qOf freeChain)) i j) :=
  (T0_jet (freeChain_chain.bump 2) (qOf_chain freeChain_chain) i j).congr isOpen_ne_zero
    (fun r hr => oseen_eq i j hr)
    (fun _ _ _ => rfl) (fun _ _ _ _ => rfl) (fun _ _ => rfl) (fun _ _ _ => rfl) (fun _ _ _ _ => rfl)

/-- Response through the Stokes tensor of a radial field. -/
noncomputable def chainResp (g : ℕ → ℝ → ℝ) (a b : ℝ) (l1 l2 : Load) (y : Vec3) : ℝ :=
  respVal (fun i j => T0 (pOf g) (qOf g) i j y) (fun i j l => T1 (pOf g) (qOf g) i j l y)
      (fun i j m l => T2 (pOf g) (qOf g) i j m l y) l1 l2
    + (sized l1 * a ^ 2 + sized l2 * b ^ 2) *
      respVal (fun i j => T0 (lapP (pOf g) (qOf g)) (lapQ (qOf g)) i j y)
        (fun i j l => T1 (lapP (pOf g) (qOf g)) (lapQ (qOf g)) i j l y)
        (fun i j m l => T2 (lapP (pOf g) (qOf g)) (lapQ (qOf g)) i j m l y) l1 l2

theorem nearResp_chain (lamb a b : ℝ) (l1 l2 : Load) (y : Vec3) :
    nearResp lamb a b l1 l2 y = chainResp (scr lamb) a b l1 l2 y := rfl

theorem oseen_response (a b : ℝ) (l1 l2 : Load) {r : Vec3} (hr : r ≠ 0) :
    greenResponse oseen a b l1 l2 r = chainResp freeChain a b l1 l2 r := by
  rw [greenResponse_jet isOpen_ne_zero (fun i j => oseen_jet i j) a b l1 l2 hr]
  simp only [oseen_eq _ _ hr]
  rfl

theorem scr_response (lamb a b : ℝ) (l1 l2 : Load) (y : Vec3) :
    chainResp (scr lamb) a b l1 l2 y
      = chainResp freeChain a b l1 l2 y - chainResp (smoothChain lamb) a b l1 l2 y := by
  have hp : ∀ n s, pOf (scr lamb) n s = pOf freeChain n s + (-1) * pOf (smoothChain lamb) n s := by
    intro n s; simp only [pOf, bump, scr]; ring
  have hq : ∀ n s, qOf (scr lamb) n s = qOf freeChain n s + (-1) * qOf (smoothChain lamb) n s := by
    intro n s; simp only [qOf, scr]; ring
  have hP : ∀ n s, lapP (pOf (scr lamb)) (qOf (scr lamb)) n s = lapP (pOf freeChain) (qOf freeChain) n s
      + (-1) * lapP (pOf (smoothChain lamb)) (qOf (smoothChain lamb)) n s := by
    intro n s; simp only [lapP, bump, hp, hq]; ring
  have hQ : ∀ n s, lapQ (qOf (scr lamb)) n s = lapQ (qOf freeChain) n s
      + (-1) * lapQ (qOf (smoothChain lamb)) n s := by
    intro n s; simp only [lapQ, bump, hq]; ring
  have h0 : ∀ (p q p' q' p'' q'' : ℕ → ℝ → ℝ), (∀ n s, p n s = p' n s + (-1) * p'' n s) →
      (∀ n s, q n s = q' n s + (-1) * q'' n s) →
      respVal (fun i j => T0 p q i j y) (fun i j l => T1 p q i j l y) (fun i j m l => T2 p q i j m l y) l1 l2
      = respVal (fun i j => T0 p' q' i j y) (fun i j l => T1 p' q' i j l y)
          (fun i j m l => T2 p' q' i j m l y) l1 l2
        + (-1) * respVal (fun i j => T0 p'' q'' i j y) (fun i j l => T1 p'' q'' i j l y)
          (fun i j m l => T2 p'' q'' i j m l y) l1 l2 := by
    intro p q p' q' p'' q'' h h'
    rw [← respVal_mul, ← respVal_add]
    congr 1
    · funext i j; simp only [T0, h, h']; ring
    · funext i j l; simp only [T1, h, h']; ring
    · funext i j m l; simp only [T2, h, h']; ring
  unfold chainResp
  rw [h0 _ _ _ _ _ _ hp hq, h0 _ _ _ _ _ _ hP hQ]
  ring

/-! ## Continuity -/

theorem len_continuous : Continuous len := by unfold len; fun_prop

theorem respVal_tendsto {α : Type*} {F : Filter α} {G0 : α → Fin 3 → Fin 3 → ℝ}
    {G1 : α → Fin 3 → Fin 3 → Fin 3 → ℝ} {G2 : α → Fin 3 → Fin 3 → Fin 3 → Fin 3 → ℝ}
    {H0 : Fin 3 → Fin 3 → ℝ} {H1 : Fin 3 → Fin 3 → Fin 3 → ℝ} {H2 : Fin 3 → Fin 3 → Fin 3 → Fin 3 → ℝ}
    (h0 : ∀ i j, Tendsto (fun r => G0 r i j) F (𝓝 (H0 i j)))
    (h1 : ∀ i j l, Tendsto (fun r => G1 r i j l) F (𝓝 (H1 i j l)))
    (h2 : ∀ i j m l, Tendsto (fun r => G2 r i j m l) F (𝓝 (H2 i j m l))) (l1 l2 : Load) :
    Tendsto (fun r => respVal (G0 r) (G1 r) (G2 r) l1 l2) F (𝓝 (respVal H0 H1 H2 l1 l2)) := by
  cases l1 with
  | force i =>
    cases l2 with
    | force j => exact h0 i j
    | torque j => exact (tendsto_finsetSum _ fun k _ => tendsto_finsetSum _ fun l _ =>
        (h1 i l k).const_mul _).const_mul _
    | stress j k => exact ((h1 i j k).add (h1 i k j)).const_mul _
  | torque i =>
    cases l2 with
    | force j => exact (tendsto_finsetSum _ fun k _ => tendsto_finsetSum _ fun l _ =>
        (h1 l j k).const_mul _).const_mul _
    | torque j => exact (tendsto_finsetSum _ fun k _ => tendsto_finsetSum _ fun l _ =>
        (Tendsto.const_mul _ (tendsto_finsetSum _ fun m _ => tendsto_finsetSum _ fun n _ =>
          (h2 l n k m).const_mul _)).const_mul _).const_mul _
    | stress j k => exact (tendsto_finsetSum _ fun m _ => tendsto_finsetSum _ fun l _ =>
        (((h2 l j m k).add (h2 l k m j)).const_mul _).const_mul _).const_mul _
  | stress i j =>
    cases l2 with
    | force k => exact ((h1 i k j).add (h1 j k i)).const_mul _
    | torque k => exact (((tendsto_finsetSum _ fun m _ => tendsto_finsetSum _ fun n _ =>
        (h2 i n j m).const_mul _).const_mul _).add ((tendsto_finsetSum _ fun m _ =>
        tendsto_finsetSum _ fun n _ => (h2 j n i m).const_mul _).const_mul _)).const_mul _
    | stress k l => exact ((((h2 i k j l).add (h2 i l j k)).const_mul _).add
        (((h2 j k i l).add (h2 j l i k)).const_mul _)).const_mul _

/-- If all functions of the chain are continuous at the length of `y`, the response is continuous at `y`. -/
theorem chainResp_tendsto {g : ℕ → ℝ → ℝ} {y : Vec3} (h : ∀ n, ContinuousAt (g n) (len y)) (a b : ℝ)
    (l1 l2 : Load) : Tendsto (chainResp g a b l1 l2) (𝓝 y) (𝓝 (chainResp g a b l1 l2 y)) := by
  have hg : ∀ n, ContinuousAt (fun r => g n (len r)) y := fun n =>
    ContinuousAt.comp (f := len) (h n) len_continuous.continuousAt
  have hl : ContinuousAt len y := len_continuous.continuousAt
  have hc : ∀ i : Fin 3, ContinuousAt (fun r : Vec3 => r i) y := fun i => (continuous_apply i).continuousAt
  have hp : ∀ n, ContinuousAt (fun r => pOf g n (len r)) y := fun n => by
    unfold pOf bump
    exact ((hg (n + 1)).const_mul _).add ((hl.pow 2).mul (hg (n + 2)))
  have hq : ∀ n, ContinuousAt (fun r => qOf g n (len r)) y := fun n => (hg (n + 2)).neg
  have hP : ∀ n, ContinuousAt (fun r => lapP (pOf g) (qOf g) n (len r)) y := fun n => by
    unfold lapP bump
    exact (((hp (n + 1)).const_mul _).add ((hl.pow 2).mul (hp (n + 2)))).add ((hq n).const_mul _)
  have hQ : ∀ n, ContinuousAt (fun r => lapQ (qOf g) n (len r)) y := fun n => by
    unfold lapQ bump
    exact ((hq (n + 1)).const_mul _).add ((hl.pow 2).mul (hq (n + 2)))
  have t : ∀ (p q : ℕ → ℝ → ℝ), (∀ n, ContinuousAt (fun r => p n (len r)) y) →
      (∀ n, ContinuousAt (fun r => q n (len r)) y) →
      (∀ i j, ContinuousAt (T0 p q i j) y) ∧ (∀ i j l, ContinuousAt (T1 p q i j l) y) ∧
      (∀ i j m l, ContinuousAt (T2 p q i j m l) y) := by
    intro p q hp hq
    have p1 := hp 1
    have q0 := hq 0
    refine ⟨fun i j => ?_, fun i j l => ?_, fun i j m l => ?_⟩
    · exact ((hp 0).const_mul _).add (((hc i).mul (hc j)).mul (hq 0))
    · exact ((((hc l).mul (hp 1)).const_mul _).add
        ((((hc j).const_mul _).add ((hc i).const_mul _)).mul (hq 0))).add
        ((((hc i).mul (hc j)).mul (hc l)).mul (hq 1))
    · refine ((((((hp 1).const_mul _).add (((hc l).mul (hc m)).mul (hp 2))).const_mul _).add
        ((hq 0).const_mul _)).add (ContinuousAt.mul ?_ (hq 1))).add
        (((((hc i).mul (hc j)).mul (hc l)).mul (hc m)).mul (hq 2))
      exact ((((((hc j).const_mul _).mul (hc m)).add (((hc i).const_mul _).mul (hc m))).add
        (((hc j).const_mul _).mul (hc l))).add (((hc i).const_mul _).mul (hc l))).add
        (((hc i).const_mul _).mul (hc j))
  obtain ⟨t0, t1, t2⟩ := t _ _ hp hq
  obtain ⟨u0, u1, u2⟩ := t _ _ hP hQ
  unfold chainResp
  exact (respVal_tendsto t0 t1 t2 l1 l2).add ((respVal_tendsto u0 u1 u2 l1 l2).const_mul _)

theorem nearResp_tendsto (lamb a b : ℝ) (l1 l2 : Load) {y : Vec3} (hy : y ≠ 0) :
    Tendsto (nearResp lamb a b l1 l2) (𝓝 y) (𝓝 (nearResp lamb a b l1 l2 y)) :=
  chainResp_tendsto (fun n => (scr_chain lamb n _ (len_pos hy)).continuousAt) a b l1 l2

theorem smooth_tendsto (lamb a b : ℝ) (l1 l2 : Load) (y : Vec3) :
    Tendsto (chainResp (smoothChain lamb) a b l1 l2) (𝓝 y) (𝓝 (chainResp (smoothChain lamb) a b l1 l2 y)) :=
  chainResp_tendsto (fun n => (smoothChain_continuous lamb n).continuousAt) a b l1 l2

theorem waveResp_tendsto (lamb a b : ℝ) (l1 l2 : Load) (k y : Vec3) :
    Tendsto (fun r => waveResp lamb a b l1 l2 r k) (𝓝 y) (𝓝 (waveResp lamb a b l1 l2 y k)) := by
  have hi : Tendsto (fun r => inner3 k r) (𝓝 y) (𝓝 (inner3 k y)) := by
    have : Continuous fun r => inner3 k r := by unfold inner3; fun_prop
    exact this.continuousAt
  have hc := (Real.continuous_cos.tendsto _).comp hi
  have hs := (Real.continuous_sin.tendsto _).comp hi
  unfold waveResp
  refine (respVal_tendsto (fun i j => hc.mul_const _) (fun i j l => ?_) (fun i j m l => ?_) l1 l2).add
    (Tendsto.const_mul _ (respVal_tendsto (fun i j => ?_) (fun i j l => ?_) (fun i j m l => ?_) l1 l2))
  · exact ((hs.const_mul _).mul_const _).neg
  · exact ((hc.mul_const _).const_mul _).neg
  · exact ((hc.mul_const _).const_mul _).neg
  · exact ((hs.const_mul _).mul_const _).const_mul _
  · exact ((hc.mul_const _).const_mul _).const_mul _

theorem list_tendsto {α : Type*} {F : Filter Vec3} {f : α → Vec3 → ℝ} {d : α → ℝ} (X : List α)
    (h : ∀ x ∈ X, Tendsto (f x) F (𝓝 (d x))) :
    Tendsto (fun r => (X.map fun x => f x r).sum) F (𝓝 (X.map d).sum) := by
  induction X with
  | nil => simpa using tendsto_const_nhds
  | cons x X ih =>
    simp only [List.map_cons, List.sum_cons]
    exact (h x (by simp)).add (ih fun y hy => h y (by simp [hy]))

/-- The part of the response in the box that remains at zero separation. -/
noncomputable def rest (lamb V : ℝ) (X K : List Vec3) (a b : ℝ) (l1 l2 : Load) : ℝ :=
  (X.map fun x => nearResp lamb a b l1 l2 x).sum + 1 / V * (K.map fun k => waveResp lamb a b l1 l2 0 k).sum
    - chainResp (smoothChain lamb) a b l1 l2 0

/-- What the images and waves add to the response in open space, at vanishing separation. -/
theorem box_minus_open (lamb V : ℝ) {X X' : List Vec3} (hX : X.Perm (0 :: X')) (hX' : ∀ x ∈ X', x ≠ 0)
    (K : List Vec3) (a b : ℝ) (l1 l2 : Load) :
    Tendsto (fun r => greenResponse (boxJ lamb V X K) a b l1 l2 r - greenResponse oseen a b l1 l2 r)
      (𝓝[≠] 0) (𝓝 (rest lamb V X' K a b l1 l2)) := by
  have hU : ∀ᶠ r in 𝓝[≠] (0 : Vec3), r ∈ Clear X := by
    have h1 : ∀ᶠ r in 𝓝[≠] (0 : Vec3), r ∈ Clear X' := by
      refine eventually_nhdsWithin_of_eventually_nhds ((isOpen_clear X').mem_nhds ?_)
      intro x hx
      simpa using hX' x hx
    filter_upwards [h1, self_mem_nhdsWithin] with r hr h0 x hx
    rcases List.mem_cons.mp (hX.mem_iff.mp hx) with rfl | h
    · simpa using h0
    · exact hr x h
  have e : ∀ᶠ r in 𝓝[≠] (0 : Vec3),
      (X'.map fun x => nearResp lamb a b l1 l2 fun m => r m + x m).sum
        + 1 / V * (K.map fun k => waveResp lamb a b l1 l2 r k).sum
        - chainResp (smoothChain lamb) a b l1 l2 r
      = greenResponse (boxJ lamb V X K) a b l1 l2 r - greenResponse oseen a b l1 l2 r := by
    filter_upwards [hU, self_mem_nhdsWithin] with r hr h0
    rw [boxJ_response lamb V a b X K l1 l2 hr, oseen_response a b l1 l2 h0,
      (hX.map _).sum_eq, List.map_cons, List.sum_cons]
    simp only [Pi.zero_apply, add_zero]
    rw [nearResp_chain, scr_response]
    ring
  refine Tendsto.congr' e ?_
  refine ((list_tendsto X' fun x hx => ?_).add (Tendsto.const_mul _ (list_tendsto K fun k _ =>
    (waveResp_tendsto lamb a b l1 l2 k 0).mono_left nhdsWithin_le_nhds))).sub
    ((smooth_tendsto lamb a b l1 l2 0).mono_left nhdsWithin_le_nhds)
  have h1 := nearResp_tendsto lamb a b l1 l2 (hX' x hx)
  have h2 : Tendsto (fun r : Vec3 => fun m => r m + x m) (𝓝[≠] 0) (𝓝 x) := by
    have : ContinuousAt (fun r : Vec3 => fun m => r m + x m) 0 :=
      (continuous_pi fun m => (continuous_apply m).add continuous_const).continuousAt
    have h3 := this.tendsto
    simp only [Pi.zero_apply, zero_add] at h3
    exact h3.mono_left nhdsWithin_le_nhds
  exact h1.comp h2

/-! ## The smooth part at zero separation -/

theorem smooth_values (lamb : ℝ) :
    smoothChain lamb 1 0 = 4 * lamb / Real.sqrt Real.pi ∧
    smoothChain lamb 2 0 = -16 * lamb ^ 3 / (3 * Real.sqrt Real.pi) ∧
    smoothChain lamb 3 0 = 48 * lamb ^ 5 / (5 * Real.sqrt Real.pi) := by
  have hp : Real.sqrt Real.pi ≠ 0 := (Real.sqrt_pos.mpr Real.pi_pos).ne'
  refine ⟨?_, ?_, ?_⟩
  · rw [smoothChain_zero]; norm_num; field_simp; try ring
  · rw [smoothChain_zero]; norm_num; field_simp; try ring
  · rw [smoothChain_zero]; norm_num; field_simp; try ring

theorem len_zero : len (0 : Vec3) = 0 := by simp [len]

/-- The smooth response at zero separation. -/
theorem smooth_zero (lamb a b : ℝ) (l1 l2 : Load) :
    chainResp (smoothChain lamb) a b l1 l2 0 =
      match l1, l2 with
      | .force i, .force j => dlt i j * (8 * lamb / Real.sqrt Real.pi
          - (a ^ 2 + b ^ 2) / 6 * (160 * lamb ^ 3 / (3 * Real.sqrt Real.pi)))
      | .torque i, .torque j => dlt i j * (40 * lamb ^ 3 / (3 * Real.sqrt Real.pi))
      | .stress i j, .stress k l => kron3traceless i j k l * (8 * lamb ^ 3 / Real.sqrt Real.pi
          - (a ^ 2 + b ^ 2) / 10 * (504 * lamb ^ 5 / (5 * Real.sqrt Real.pi)))
      | _, _ => 0 := by
  obtain ⟨s1, s2, s3⟩ := smooth_values lamb
  have hp : Real.sqrt Real.pi ≠ 0 := (Real.sqrt_pos.mpr Real.pi_pos).ne'
  have P0 : pOf (smoothChain lamb) 0 0 = 8 * lamb / Real.sqrt Real.pi := by
    simp only [pOf, bump, s1]; norm_num; field_simp; try ring
  have P1 : pOf (smoothChain lamb) 1 0 = -64 * lamb ^ 3 / (3 * Real.sqrt Real.pi) := by
    simp only [pOf, bump, s2]; norm_num; field_simp; try ring
  have P2 : pOf (smoothChain lamb) 2 0 = 288 * lamb ^ 5 / (5 * Real.sqrt Real.pi) := by
    simp only [pOf, bump, s3]; norm_num; field_simp; try ring
  have Q0 : qOf (smoothChain lamb) 0 0 = 16 * lamb ^ 3 / (3 * Real.sqrt Real.pi) := by
    simp only [qOf, s2]; field_simp
  have Q1 : qOf (smoothChain lamb) 1 0 = -48 * lamb ^ 5 / (5 * Real.sqrt Real.pi) := by
    simp only [qOf, s3]; field_simp
  have L0 : lapP (pOf (smoothChain lamb)) (qOf (smoothChain lamb)) 0 0
      = -160 * lamb ^ 3 / (3 * Real.sqrt Real.pi) := by
    simp only [lapP, bump, P1, Q0]; norm_num; field_simp; try ring
  have L1 : lapP (pOf (smoothChain lamb)) (qOf (smoothChain lamb)) 1 0
      = 1344 * lamb ^ 5 / (5 * Real.sqrt Real.pi) := by
    simp only [lapP, bump, P2, Q1]; norm_num; field_simp; try ring
  have N0 : lapQ (qOf (smoothChain lamb)) 0 0 = -336 * lamb ^ 5 / (5 * Real.sqrt Real.pi) := by
    simp only [lapQ, bump, Q1]; norm_num; field_simp; try ring
  unfold chainResp
  simp only [T0, T1, T2, len_zero, Pi.zero_apply, zero_mul, mul_zero, add_zero, P0, P1, Q0, L0, L1, N0]
  cases l1 <;> cases l2 <;> simp only [respVal, sized, eps_two, mul_zero, add_zero, sub_zero,
    Finset.sum_const_zero]
  · ring
  · rename_i i j
    fin_cases i <;> fin_cases j <;> simp [dlt] <;> ring
  · rename_i i j k
    fin_cases i <;> fin_cases j <;> fin_cases k <;> simp [dlt] <;> ring
  · rename_i i j k
    fin_cases i <;> fin_cases j <;> fin_cases k <;> simp [dlt] <;> ring
  · rename_i i j k l
    simp only [kron3traceless, kron_eq]
    rw [dlt_comm l j, dlt_comm l i, dlt_comm k j, dlt_comm k i, dlt_comm j i, dlt_comm l k]
    generalize dlt i j = d1
    generalize dlt i k = d2
    generalize dlt i l = d3
    generalize dlt j k = d4
    generalize dlt j l = d5
    generalize dlt k l = d6
    field_simp
    ring

end SD.Ewald
