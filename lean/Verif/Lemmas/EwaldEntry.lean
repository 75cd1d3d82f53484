import Verif.Lemmas.EwaldLoop
import Verif.Lemmas.System

/-!
# Entries of the periodic matrix as responses through the Green's function of the box
-/

set_option autoImplicit false

namespace SD.Ewald

open Spec

/-! ## Reciprocity -/

theorem respVal_recip {G0 : Fin 3 → Fin 3 → ℝ} {G1 : Fin 3 → Fin 3 → Fin 3 → ℝ}
    {G2 : Fin 3 → Fin 3 → Fin 3 → Fin 3 → ℝ} (h0 : ∀ i j, G0 i j = G0 j i) (h1 : ∀ i j l, G1 i j l = G1 j i l)
    (h2 : ∀ i j m l, G2 i j m l = G2 j i m l) (h3 : ∀ i j m l, G2 i j m l = G2 i j l m) (l1 l2 : Load) :
    respVal G0 G1 G2 l1 l2 = turns l1 l2 * respVal G0 G1 G2 l2 l1 := by
  have h4 : ∀ i j m l, G2 i j m l = G2 j i l m := fun i j m l => by rw [h2, h3]
  cases l1 with
  | force i =>
    cases l2 with
    | force j => simp only [respVal, turns]; rw [h0]; ring
    | torque j => simp only [respVal, turns, eps_two]; rw [h1 i, h1 i]; ring
    | stress j k => simp only [respVal, turns]; rw [h1 i j, h1 i k]; ring
  | torque i =>
    cases l2 with
    | force j => simp only [respVal, turns, eps_two]; rw [h1 _ j, h1 _ j]; ring
    | torque j =>
      simp only [respVal, turns, eps_two]
      rw [h4 (i + 2) (j + 2), h4 (i + 2) (j + 1), h4 (i + 1) (j + 2), h4 (i + 1) (j + 1)]; ring
    | stress j k =>
      simp only [respVal, turns, eps_two]
      rw [h4 (i + 2) j, h4 (i + 2) k, h4 (i + 1) j, h4 (i + 1) k]; ring
  | stress i j =>
    cases l2 with
    | force k => simp only [respVal, turns]; rw [h1 i k, h1 j k]; ring
    | torque k =>
      simp only [respVal, turns, eps_two]
      rw [h4 i, h4 i, h4 j, h4 j]; ring
    | stress k l =>
      simp only [respVal, turns]
      rw [h4 i k, h4 i l, h4 j k, h4 j l]; ring

theorem turns_symm (l1 l2 : Load) : turns l1 l2 = turns l2 l1 := by cases l1 <;> cases l2 <;> rfl

theorem turns_sq (l1 l2 : Load) : turns l1 l2 * turns l1 l2 = 1 := by
  cases l1 <;> cases l2 <;> simp [turns]

theorem nearResp_recip (lamb a b : ℝ) (l1 l2 : Load) (y : Vec3) :
    nearResp lamb a b l1 l2 y = nearResp lamb b a l2 l1 (-y) := by
  have d : ∀ i j, dlt i j = dlt j i := fun i j => by unfold dlt; simp only [eq_comm]
  have t0 : ∀ p q i j, T0 p q i j y = T0 p q j i y := by
    intro p q i j; simp only [T0]; rw [d i j]; ring
  have t1 : ∀ p q i j l, T1 p q i j l y = T1 p q j i l y := by
    intro p q i j l; simp only [T1]; rw [d i j]; ring
  have t2 : ∀ p q i j m l, T2 p q i j m l y = T2 p q j i m l y := by
    intro p q i j m l; simp only [T2]; rw [d i j]; ring
  have t3 : ∀ p q i j m l, T2 p q i j m l y = T2 p q i j l m y := by
    intro p q i j m l; simp only [T2]; rw [d l m]; ring
  rw [nearResp_neg, turns_symm l2 l1]
  unfold nearResp
  rw [respVal_recip (fun i j => t0 _ _ i j) (fun i j l => t1 _ _ i j l) (fun i j m l => t2 _ _ i j m l)
      (fun i j m l => t3 _ _ i j m l) l1 l2,
    respVal_recip (fun i j => t0 _ _ i j) (fun i j l => t1 _ _ i j l) (fun i j m l => t2 _ _ i j m l)
      (fun i j m l => t3 _ _ i j m l) l1 l2]
  ring

theorem waveJ_symm (lamb : ℝ) (i j : Fin 3) (k : Vec3) : waveJ lamb i j k = waveJ lamb j i k := by
  have d : dlt i j = dlt j i := by unfold dlt; simp only [eq_comm]
  unfold waveJ; rw [d, mul_comm (k i)]

theorem waveResp_recip (lamb a b : ℝ) (l1 l2 : Load) (r k : Vec3) :
    waveResp lamb a b l1 l2 r k = waveResp lamb b a l2 l1 (-r) k := by
  rw [waveResp_neg, turns_symm l2 l1]
  unfold waveResp
  rw [respVal_recip (fun i j => by rw [waveJ_symm]) (fun i j l => by rw [waveJ_symm])
      (fun i j m l => by rw [waveJ_symm]) (fun i j m l => by ring) l1 l2,
    respVal_recip (fun i j => by rw [waveJ_symm]) (fun i j l => by rw [waveJ_symm])
      (fun i j m l => by rw [waveJ_symm]) (fun i j m l => by ring) l1 l2]
  ring

theorem clear_neg {X : List Vec3} (h : (X.map fun x => -x).Perm X) {r : Vec3} (hr : r ∈ Clear X) :
    -r ∈ Clear X := by
  intro x hx e
  have hx' : -x ∈ X := h.mem_iff.mp (List.mem_map_of_mem hx)
  refine hr (-x) hx' ?_
  funext m
  have := congrFun e m
  simp only [Pi.neg_apply, Pi.zero_apply] at this ⊢
  linarith

theorem image_recip {X : List Vec3} (h : (X.map fun x => -x).Perm X) (lamb a b : ℝ) (l1 l2 : Load) {r : Vec3}
    (hr : r ∈ Clear X) : greenResponse (imageSum lamb X) a b l1 l2 r
      = greenResponse (imageSum lamb X) b a l2 l1 (-r) := by
  rw [imageSum_response _ _ _ _ _ _ hr, imageSum_response _ _ _ _ _ _ (clear_neg h hr)]
  have e := sum_turn h (nearResp lamb b a l2 l1) r
  refine Eq.trans ?_ e.symm
  congr 1
  exact List.map_congr_left fun x _ => nearResp_recip lamb a b l1 l2 (r + x)

theorem box_recip {X : List Vec3} (h : (X.map fun x => -x).Perm X) (lamb V a b : ℝ) (K : List Vec3) (l1 l2 : Load)
    {r : Vec3} (hr : r ∈ Clear X) : greenResponse (boxJ lamb V X K) a b l1 l2 r
      = greenResponse (boxJ lamb V X K) b a l2 l1 (-r) := by
  rw [boxJ_response _ _ _ _ _ _ _ _ hr, boxJ_response _ _ _ _ _ _ _ _ (clear_neg h hr),
    ← imageSum_response _ _ _ _ _ _ hr, ← imageSum_response _ _ _ _ _ _ (clear_neg h hr), image_recip h _ _ _ _ _ hr]
  congr 3
  exact List.map_congr_left fun k _ => waveResp_recip lamb a b l1 l2 r k

/-! ## Stress loads are symmetric and traceless -/

theorem respVal_stress_symm (G0 : Fin 3 → Fin 3 → ℝ) (G1 : Fin 3 → Fin 3 → Fin 3 → ℝ)
    (G2 : Fin 3 → Fin 3 → Fin 3 → Fin 3 → ℝ) (l1 : Load) (j k : Fin 3) :
    respVal G0 G1 G2 l1 (.stress j k) = respVal G0 G1 G2 l1 (.stress k j) := by
  cases l1 <;> simp only [respVal, eps_two] <;> ring

theorem respVal_trace {G0 : Fin 3 → Fin 3 → ℝ} {G1 : Fin 3 → Fin 3 → Fin 3 → ℝ}
    {G2 : Fin 3 → Fin 3 → Fin 3 → Fin 3 → ℝ} (h1 : ∀ i, G1 i 0 0 + G1 i 1 1 + G1 i 2 2 = 0)
    (h2 : ∀ i m, G2 i 0 m 0 + G2 i 1 m 1 + G2 i 2 m 2 = 0) (l1 : Load) :
    respVal G0 G1 G2 l1 (.stress 0 0) + respVal G0 G1 G2 l1 (.stress 1 1)
      + respVal G0 G1 G2 l1 (.stress 2 2) = 0 := by
  cases l1 with
  | force i => simp only [respVal]; linear_combination -(h1 i)
  | torque i =>
    simp only [respVal, eps_two]
    linear_combination -(1 / 2) * h2 (i + 2) (i + 1) + 1 / 2 * h2 (i + 1) (i + 2)
  | stress i j => simp only [respVal]; linear_combination -(1 / 2) * h2 i j - 1 / 2 * h2 j i

theorem near_divergence (lamb : ℝ) (y : Vec3) :
    (∀ i, T1 (pJ lamb) (qJ lamb) i 0 0 y + T1 (pJ lamb) (qJ lamb) i 1 1 y + T1 (pJ lamb) (qJ lamb) i 2 2 y = 0) ∧
    (∀ i m, T2 (pJ lamb) (qJ lamb) i 0 m 0 y + T2 (pJ lamb) (qJ lamb) i 1 m 1 y
      + T2 (pJ lamb) (qJ lamb) i 2 m 2 y = 0) := by
  have h2 := len_sq y
  constructor
  · intro i
    simp only [T1, pJ, qJ, bump, dlt]
    rw [h2]
    fin_cases i <;> simp <;> ring
  · intro i m
    simp only [T2, pJ, qJ, bump, dlt]
    rw [h2]
    fin_cases i <;> fin_cases m <;> simp <;> ring

theorem near_lap_divergence (lamb : ℝ) (y : Vec3) :
    (∀ i, T1 (lapP (pJ lamb) (qJ lamb)) (lapQ (qJ lamb)) i 0 0 y
      + T1 (lapP (pJ lamb) (qJ lamb)) (lapQ (qJ lamb)) i 1 1 y
      + T1 (lapP (pJ lamb) (qJ lamb)) (lapQ (qJ lamb)) i 2 2 y = 0) ∧
    (∀ i m, T2 (lapP (pJ lamb) (qJ lamb)) (lapQ (qJ lamb)) i 0 m 0 y
      + T2 (lapP (pJ lamb) (qJ lamb)) (lapQ (qJ lamb)) i 1 m 1 y
      + T2 (lapP (pJ lamb) (qJ lamb)) (lapQ (qJ lamb)) i 2 m 2 y = 0) := by
  have h2 := len_sq y
  constructor
  · intro i
    simp only [T1, lapP, lapQ, pJ, qJ, bump, dlt]
    rw [h2]
    fin_cases i <;> simp <;> ring
  · intro i m
    simp only [T2, lapP, lapQ, pJ, qJ, bump, dlt]
    rw [h2]
    fin_cases i <;> fin_cases m <;> simp <;> ring

theorem near_traceless (lamb a b : ℝ) (l1 : Load) (y : Vec3) :
    SymTraceless fun j k => nearResp lamb a b l1 (.stress j k) y := by
  obtain ⟨h1, h2⟩ := near_divergence lamb y
  obtain ⟨h3, h4⟩ := near_lap_divergence lamb y
  constructor
  · intro j k
    simp only [nearResp, sized]
    rw [respVal_stress_symm, respVal_stress_symm _ _ _ _ j k]
  · simp only [nearResp, show ∀ j k, sized (.stress j k) = 1 / 10 from fun _ _ => rfl]
    generalize sized l1 = s
    linear_combination respVal_trace (G0 := fun i j => T0 (pJ lamb) (qJ lamb) i j y)
        (G1 := fun i j l => T1 (pJ lamb) (qJ lamb) i j l y)
        (G2 := fun i j m l => T2 (pJ lamb) (qJ lamb) i j m l y) h1 h2 l1
      + (s * a ^ 2 + 1 / 10 * b ^ 2) * respVal_trace
        (G0 := fun i j => T0 (lapP (pJ lamb) (qJ lamb)) (lapQ (qJ lamb)) i j y)
        (G1 := fun i j l => T1 (lapP (pJ lamb) (qJ lamb)) (lapQ (qJ lamb)) i j l y)
        (G2 := fun i j m l => T2 (lapP (pJ lamb) (qJ lamb)) (lapQ (qJ lamb)) i j m l y) h3 h4 l1

theorem wave_divergence (lamb : ℝ) (i : Fin 3) (k : Vec3) :
    k 0 * waveJ lamb i 0 k + k 1 * waveJ lamb i 1 k + k 2 * waveJ lamb i 2 k = 0 := by
  by_cases hk : k = 0
  · subst hk; simp
  · have h := len_pos hk
    have h2 := len_sq k
    have : k 0 * (dlt i 0 - k i * k 0 / len k ^ 2) + k 1 * (dlt i 1 - k i * k 1 / len k ^ 2)
        + k 2 * (dlt i 2 - k i * k 2 / len k ^ 2) = 0 := by
      have e : k 0 * (dlt i 0 - k i * k 0 / len k ^ 2) + k 1 * (dlt i 1 - k i * k 1 / len k ^ 2)
        + k 2 * (dlt i 2 - k i * k 2 / len k ^ 2)
        = k 0 * dlt i 0 + k 1 * dlt i 1 + k 2 * dlt i 2 - k i * ((k 0 ^ 2 + k 1 ^ 2 + k 2 ^ 2) / len k ^ 2) := by ring
      rw [e, ← h2, div_self (by positivity), mul_one]
      fin_cases i <;> simp [dlt]
    unfold waveJ
    linear_combination (8 * Real.pi / len k ^ 2
      * (1 + len k ^ 2 / (4 * lamb ^ 2) + len k ^ 4 / (8 * lamb ^ 4)) * Real.exp (-(len k ^ 2 / (4 * lamb ^ 2)))) * this

theorem wave_traceless (lamb a b : ℝ) (l1 : Load) (r k : Vec3) :
    SymTraceless fun i j => waveResp lamb a b l1 (.stress i j) r k := by
  have h := fun i => wave_divergence lamb i k
  constructor
  · intro i j
    simp only [waveResp, sized]
    rw [respVal_stress_symm, respVal_stress_symm _ _ _ _ i j]
  · simp only [waveResp, show ∀ j k, sized (.stress j k) = 1 / 10 from fun _ _ => rfl]
    generalize sized l1 = s
    linear_combination respVal_trace (G0 := fun i j => Real.cos (inner3 k r) * waveJ lamb i j k)
        (G1 := fun i j l => -(k l * Real.sin (inner3 k r) * waveJ lamb i j k))
        (G2 := fun i j m l => -(k m * k l * (Real.cos (inner3 k r) * waveJ lamb i j k)))
        (fun i => by linear_combination -Real.sin (inner3 k r) * h i)
        (fun i m => by linear_combination -Real.cos (inner3 k r) * k m * h i) l1
      + (s * a ^ 2 + 1 / 10 * b ^ 2) * respVal_trace
        (G0 := fun i j => -(len k ^ 2 * (Real.cos (inner3 k r) * waveJ lamb i j k)))
        (G1 := fun i j l => len k ^ 2 * (k l * Real.sin (inner3 k r) * waveJ lamb i j k))
        (G2 := fun i j m l => len k ^ 2 * (k m * k l * (Real.cos (inner3 k r) * waveJ lamb i j k)))
        (fun i => by linear_combination len k ^ 2 * Real.sin (inner3 k r) * h i)
        (fun i m => by linear_combination len k ^ 2 * Real.cos (inner3 k r) * k m * h i) l1

theorem symTraceless_sum (X : List Vec3) (f : Vec3 → Fin 3 → Fin 3 → ℝ) (h : ∀ x, SymTraceless (f x)) :
    SymTraceless fun j k => (X.map fun x => f x j k).sum := by
  induction X with
  | nil => exact ⟨fun _ _ => rfl, by simp⟩
  | cons x X ih =>
    refine ⟨fun i j => ?_, ?_⟩
    · simp only [List.map_cons, List.sum_cons]
      have := ih.1 i j
      simp only at this
      rw [(h x).1 i j, this]
    · simp only [List.map_cons, List.sum_cons]
      linear_combination (h x).2 + ih.2

theorem image_traceless (lamb a b : ℝ) (X : List Vec3) (l1 : Load) {r : Vec3} (hr : r ∈ Clear X) :
    SymTraceless fun j k => greenResponse (imageSum lamb X) a b l1 (.stress j k) r := by
  simp only [imageSum_response _ _ _ _ _ _ hr]
  exact symTraceless_sum X (fun x j k => nearResp lamb a b l1 (.stress j k) fun m => r m + x m)
    fun x => near_traceless lamb a b l1 _

theorem box_traceless (lamb V a b : ℝ) (X K : List Vec3) (l1 : Load) {r : Vec3} (hr : r ∈ Clear X) :
    SymTraceless fun j k => greenResponse (boxJ lamb V X K) a b l1 (.stress j k) r := by
  have h1 := image_traceless lamb a b X l1 hr
  have h2 := symTraceless_sum K (fun q j k => waveResp lamb a b l1 (.stress j k) r q)
    fun q => wave_traceless lamb a b l1 r q
  simp only [boxJ_response _ _ _ _ _ _ _ _ hr, ← imageSum_response _ _ _ _ _ _ hr]
  refine ⟨fun i j => ?_, ?_⟩
  · have e1 := h1.1 i j
    have e2 := h2.1 i j
    simp only at e1 e2 ⊢
    rw [e1, e2]
  · linear_combination h1.2 + 1 / V * h2.2

/-! ## Components -/

/-- A Green's function whose response to stresses is symmetric and traceless, and reciprocal. -/
structure Good (G : Green) (r : Vec3) : Prop where
  tr : ∀ a b l1, SymTraceless fun j k => greenResponse G a b l1 (.stress j k) r
  tr' : ∀ a b l1, SymTraceless fun j k => greenResponse G a b l1 (.stress j k) (-r)
  recip : ∀ a b l1 l2, greenResponse G a b l1 l2 r = greenResponse G b a l2 l1 (-r)

theorem image_good {X : List Vec3} (h : (X.map fun x => -x).Perm X) (lamb : ℝ) {r : Vec3} (hr : r ∈ Clear X) :
    Good (imageSum lamb X) r :=
  ⟨fun a b l1 => image_traceless lamb a b X l1 hr, fun a b l1 => image_traceless lamb a b X l1 (clear_neg h hr),
    fun a b l1 l2 => image_recip h lamb a b l1 l2 hr⟩

theorem box_good {X : List Vec3} (h : (X.map fun x => -x).Perm X) (lamb V : ℝ) (K : List Vec3) {r : Vec3}
    (hr : r ∈ Clear X) : Good (boxJ lamb V X K) r :=
  ⟨fun a b l1 => box_traceless lamb V a b X K l1 hr,
    fun a b l1 => box_traceless lamb V a b X K l1 (clear_neg h hr),
    fun a b l1 l2 => box_recip h lamb V a b K l1 l2 hr⟩

theorem greenTo_s {G : Green} {r : Vec3} (h : Good G r) (a b : ℝ) (l1 : Load) (q : Fin 5) :
    greenTo G a b l1 (.s q) r = five (fun j k => greenResponse G a b l1 (.stress j k) r) q :=
  basis5_contract _ (h.tr a b l1) q

theorem greenTo_s' {G : Green} {r : Vec3} (h : Good G r) (a b : ℝ) (l1 : Load) (q : Fin 5) :
    greenTo G a b l1 (.s q) (-r) = five (fun j k => greenResponse G a b l1 (.stress j k) (-r)) q :=
  basis5_contract _ (h.tr' a b l1) q

theorem greenMob_recip {G : Green} {r : Vec3} (h : Good G r) (a b : ℝ) (c1 c2 : Comp) :
    greenMob G a b c1 c2 r = greenMob G b a c2 c1 (-r) := by
  have e1 : ∀ l1 j, greenTo G a b l1 (.f j) r = greenResponse G a b l1 (.force j) r := fun _ _ => rfl
  have e2 : ∀ l1 j, greenTo G a b l1 (.t j) r = greenResponse G a b l1 (.torque j) r := fun _ _ => rfl
  have e1' : ∀ l1 j, greenTo G b a l1 (.f j) (-r) = greenResponse G b a l1 (.force j) (-r) := fun _ _ => rfl
  have e2' : ∀ l1 j, greenTo G b a l1 (.t j) (-r) = greenResponse G b a l1 (.torque j) (-r) := fun _ _ => rfl
  have e3 := fun l1 q => greenTo_s h a b l1 q
  have e3' := fun l1 q => greenTo_s' h b a l1 q
  have R := h.recip a b
  cases c1 <;> cases c2 <;> simp only [greenMob, e1, e2, e1', e2', e3, e3', R]
  rename_i p q
  fin_cases p <;> fin_cases q <;> simp [five] <;> ring

end SD.Ewald
