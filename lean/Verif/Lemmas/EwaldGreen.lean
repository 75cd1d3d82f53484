import Verif.Lemmas.EwaldKernels
import Verif.Lemmas.Faxen

/-!
# The Green's function of the box, its derivatives, and the response through it
-/

set_option autoImplicit false

namespace SD.Ewald

open Spec

/-! ## Waves -/

theorem inner3_hasPd (k r : Vec3) (l : Fin 3) : HasPd l (fun r => inner3 k r) (k l) r := by
  unfold inner3
  have := (((hasPd_coord r l 0).const_mul (k 0)).add ((hasPd_coord r l 1).const_mul (k 1))).add
    ((hasPd_coord r l 2).const_mul (k 2))
  simp only [Fin.sum_univ_three]
  refine HasPd.congr this ?_
  unfold dlt
  fin_cases l <;> simp

theorem cos_hasPd (k r : Vec3) (l : Fin 3) :
    HasPd l (fun r => Real.cos (inner3 k r)) (-(k l * Real.sin (inner3 k r))) r := by
  have h := HasDerivAt.cos (inner3_hasPd k r l)
  simp only [Function.update_eq_self] at h
  exact HasPd.congr h (by ring)

theorem sin_hasPd (k r : Vec3) (l : Fin 3) :
    HasPd l (fun r => Real.sin (inner3 k r)) (k l * Real.cos (inner3 k r)) r := by
  have h := HasDerivAt.sin (inner3_hasPd k r l)
  simp only [Function.update_eq_self] at h
  exact HasPd.congr h (by ring)

theorem wave_jet (k : Vec3) (A : ℝ) :
    IsJet Set.univ (fun r => Real.cos (inner3 k r) * A) (fun l r => -(k l * Real.sin (inner3 k r) * A))
      (fun m l r => -(k m * k l * (Real.cos (inner3 k r) * A)))
      (fun r => -(len k ^ 2 * (Real.cos (inner3 k r) * A)))
      (fun l r => len k ^ 2 * (k l * Real.sin (inner3 k r) * A))
      (fun m l r => len k ^ 2 * (k m * k l * (Real.cos (inner3 k r) * A))) := by
  refine ⟨fun r _ l => ?_, fun r _ m l => ?_, fun r _ => ?_, fun r _ l => ?_, fun r _ m l => ?_⟩
  · exact HasPd.congr ((cos_hasPd k r l).mul (hasPd_const r l A)) (by ring)
  · have := ((sin_hasPd k r m).const_mul (-(k l))).mul (hasPd_const r m A)
    have e : (fun r => -(k l * Real.sin (inner3 k r) * A)) = fun r => -k l * Real.sin (inner3 k r) * A := by
      funext r; ring
    rw [e]
    exact HasPd.congr this (by ring)
  · rw [len_sq, Fin.sum_univ_three]; ring
  · have := ((cos_hasPd k r l).const_mul (-(len k ^ 2))).mul (hasPd_const r l A)
    have e : (fun r => -(len k ^ 2 * (Real.cos (inner3 k r) * A)))
        = fun r => -len k ^ 2 * Real.cos (inner3 k r) * A := by
      funext r; ring
    rw [e]
    exact HasPd.congr this (by ring)
  · have := ((sin_hasPd k r m).const_mul (len k ^ 2 * k l)).mul (hasPd_const r m A)
    have e : (fun r => len k ^ 2 * (k l * Real.sin (inner3 k r) * A))
        = fun r => len k ^ 2 * k l * Real.sin (inner3 k r) * A := by
      funext r; ring
    rw [e]
    exact HasPd.congr this (by ring)

/-! ## The box -/

/-- Displacements that reach no image. -/
def Clear (X : List Vec3) : Set Vec3 := {r | ∀ x ∈ X, (fun m => r m + x m) ≠ 0}

theorem isOpen_clear (X : List Vec3) : IsOpen (Clear X) := by
  induction X with
  | nil => simp [Clear]
  | cons x X ih =>
    have e : Clear (x :: X) = {r : Vec3 | (fun m => r m + x m) ≠ 0} ∩ Clear X := by
      ext r; simp [Clear]
    rw [e]
    refine IsOpen.inter ?_ ih
    exact isOpen_ne.preimage (f := fun r : Vec3 => fun m => r m + x m) (by fun_prop)

/-- Jet of the image sum. -/
theorem imageSum_jet (lamb : ℝ) (X : List Vec3) (i j : Fin 3) :
    IsJet (Clear X) (imageSum lamb X i j)
      (fun l r => (X.map fun x => T1 (pJ lamb) (qJ lamb) i j l fun m => r m + x m).sum)
      (fun m l r => (X.map fun x => T2 (pJ lamb) (qJ lamb) i j m l fun m => r m + x m).sum)
      (fun r => (X.map fun x =>
        T0 (lapP (pJ lamb) (qJ lamb)) (lapQ (qJ lamb)) i j fun m => r m + x m).sum)
      (fun l r => (X.map fun x =>
        T1 (lapP (pJ lamb) (qJ lamb)) (lapQ (qJ lamb)) i j l fun m => r m + x m).sum)
      (fun m l r => (X.map fun x =>
        T2 (lapP (pJ lamb) (qJ lamb)) (lapQ (qJ lamb)) i j m l fun m => r m + x m).sum) :=
  IsJet.list_sum X fun x hx => ((nearJ_jet lamb i j).shift x).mono fun _ hr => hr x hx

/-- Jet of the wave sum. -/
theorem waveSum_jet (lamb V : ℝ) (K : List Vec3) (i j : Fin 3) :
    IsJet Set.univ (waveSum lamb V K i j)
      (fun l r => 1 / V * (K.map fun k => -(k l * Real.sin (inner3 k r) * waveJ lamb i j k)).sum)
      (fun m l r => 1 / V * (K.map fun k => -(k m * k l * (Real.cos (inner3 k r) * waveJ lamb i j k))).sum)
      (fun r => 1 / V * (K.map fun k => -(len k ^ 2 * (Real.cos (inner3 k r) * waveJ lamb i j k))).sum)
      (fun l r => 1 / V * (K.map fun k => len k ^ 2 * (k l * Real.sin (inner3 k r) * waveJ lamb i j k)).sum)
      (fun m l r => 1 / V * (K.map fun k =>
        len k ^ 2 * (k m * k l * (Real.cos (inner3 k r) * waveJ lamb i j k))).sum) :=
  (IsJet.list_sum K fun k _ => wave_jet k (waveJ lamb i j k)).const_mul (1 / V)

/-! ## The response through a Green's function with a jet -/

/-- A Green's function with derivatives. -/
def GreenJet (U : Set Vec3) (G : Green) (G1 : Fin 3 → Fin 3 → Fin 3 → Vec3 → ℝ)
    (G2 : Fin 3 → Fin 3 → Fin 3 → Fin 3 → Vec3 → ℝ) (g : Green) (g1 : Fin 3 → Fin 3 → Fin 3 → Vec3 → ℝ)
    (g2 : Fin 3 → Fin 3 → Fin 3 → Fin 3 → Vec3 → ℝ) : Prop :=
  ∀ i j, IsJet U (G i j) (G1 i j) (G2 i j) (g i j) (g1 i j) (g2 i j)

/-- `receive l1 (source G l2)` in terms of the derivatives of `G`: `G0 i j`, `G1 i j l`, `G2 i j m l`. -/
noncomputable def respVal (G0 : Fin 3 → Fin 3 → ℝ) (G1 : Fin 3 → Fin 3 → Fin 3 → ℝ)
    (G2 : Fin 3 → Fin 3 → Fin 3 → Fin 3 → ℝ) : Load → Load → ℝ
  | .force i, .force j => G0 i j
  | .force i, .torque j => -(1 / 2) * ∑ k, ∑ l, eps j k l * G1 i l k
  | .force i, .stress j k => -(1 / 2) * (G1 i j k + G1 i k j)
  | .torque i, .force j => 1 / 2 * ∑ k, ∑ l, eps i k l * G1 l j k
  | .torque i, .torque j =>
    1 / 2 * ∑ k, ∑ l, eps i k l * (-(1 / 2) * ∑ m, ∑ n, eps j m n * G2 l n k m)
  | .torque i, .stress j k => 1 / 2 * ∑ m, ∑ l, eps i m l * (-(1 / 2) * (G2 l j m k + G2 l k m j))
  | .stress i j, .force k => 1 / 2 * (G1 i k j + G1 j k i)
  | .stress i j, .torque k =>
    1 / 2 * (-(1 / 2) * (∑ m, ∑ n, eps k m n * G2 i n j m)
      + -(1 / 2) * (∑ m, ∑ n, eps k m n * G2 j n i m))
  | .stress i j, .stress k l =>
    1 / 2 * (-(1 / 2) * (G2 i k j l + G2 i l j k) + -(1 / 2) * (G2 j k i l + G2 j l i k))

theorem HasPd.sum {ι : Type*} {l : Fin 3} {f : ι → Vec3 → ℝ} {d : ι → ℝ} {r : Vec3} (s : Finset ι)
    (h : ∀ x ∈ s, HasPd l (f x) (d x) r) : HasPd l (fun r => ∑ x ∈ s, f x r) (∑ x ∈ s, d x) r :=
  HasDerivAt.fun_sum h

/-- `receive l1 (source G l2)` depends only on first and second derivatives. -/
theorem receive_source {U : Set Vec3} (hU : IsOpen U) {G : Green}
    {G1 : Fin 3 → Fin 3 → Fin 3 → Vec3 → ℝ} {G2 : Fin 3 → Fin 3 → Fin 3 → Fin 3 → Vec3 → ℝ}
    (h1 : ∀ r ∈ U, ∀ i j l, HasPd l (G i j) (G1 i j l r) r)
    (h2 : ∀ r ∈ U, ∀ i j m l, HasPd m (G1 i j l) (G2 i j m l r) r) {r : Vec3} (hr : r ∈ U) (l1 l2 : Load) :
    receive l1 (source G l2) r
      = respVal (fun i j => G i j r) (fun i j l => G1 i j l r) (fun i j m l => G2 i j m l r) l1 l2 := by
  have e1 : ∀ r ∈ U, ∀ i j l, Spec.pd l (G i j) r = G1 i j l r := fun r hr i j l => (h1 r hr i j l).pd
  -- the flow of a torque and of a stresslet, near `r`
  have eT : ∀ j m, ∀ r ∈ U, source G (.torque j) m r = -(1 / 2) * ∑ k, ∑ l, eps j k l * G1 m l k r := by
    intro j m r hr; simp only [source, e1 r hr]
  have eS : ∀ j k m, ∀ r ∈ U, source G (.stress j k) m r = -(1 / 2) * (G1 m j k r + G1 m k j r) := by
    intro j k m r hr; simp only [source, e1 r hr]
  have dF : ∀ j m x, Spec.pd x (source G (.force j) m) r = G1 m j x r := fun j m x => e1 r hr m j x
  have dT : ∀ j m x, Spec.pd x (source G (.torque j) m) r
      = -(1 / 2) * ∑ k, ∑ l, eps j k l * G2 m l x k r := by
    intro j m x
    rw [pd_congr_on hU hr (eT j m)]
    exact (HasPd.const_mul _ (HasPd.sum _ fun k _ => HasPd.sum _ fun l _ =>
      (h2 r hr m l x k).const_mul _)).pd
  have dS : ∀ j k m x, Spec.pd x (source G (.stress j k) m) r
      = -(1 / 2) * (G2 m j x k r + G2 m k x j r) := by
    intro j k m x
    rw [pd_congr_on hU hr (eS j k m)]
    exact (HasPd.const_mul _ ((h2 r hr m j x k).add (h2 r hr m k x j))).pd
  cases l1 <;> cases l2 <;> simp only [receive, respVal, dF, dT, dS]
  · rfl
  · exact eT _ _ r hr
  · exact eS _ _ _ r hr

theorem greenResponse_jet {U : Set Vec3} (hU : IsOpen U) {G g : Green}
    {G1 g1 : Fin 3 → Fin 3 → Fin 3 → Vec3 → ℝ} {G2 g2 : Fin 3 → Fin 3 → Fin 3 → Fin 3 → Vec3 → ℝ}
    (h : GreenJet U G G1 G2 g g1 g2) (a b : ℝ) (l1 l2 : Load) {r : Vec3} (hr : r ∈ U) :
    greenResponse G a b l1 l2 r
      = respVal (fun i j => G i j r) (fun i j l => G1 i j l r) (fun i j m l => G2 i j m l r) l1 l2
      + (sized l1 * a ^ 2 + sized l2 * b ^ 2)
        * respVal (fun i j => g i j r) (fun i j l => g1 i j l r) (fun i j m l => g2 i j m l r) l1 l2 := by
  unfold greenResponse
  have hg : ∀ i j, ∀ r ∈ U, Spec.lap (G i j) r = g i j r := fun i j r hr => (h i j).lap0 hU hr
  rw [receive_source hU (fun r hr i j l => (h i j).one r hr l) (fun r hr i j m l => (h i j).two r hr m l) hr,
    receive_source (G := fun i j => Spec.lap (G i j)) hU (G1 := g1) (G2 := g2)
      (fun r hr i j l => ((h i j).three r hr l).congr_on hU hr (hg i j))
      (fun r hr i j m l => (h i j).four r hr m l) hr]
  simp only [hg _ _ r hr]

/-- Linearity of the response in the Green's function. -/
theorem respVal_add (G0 G0' : Fin 3 → Fin 3 → ℝ) (G1 G1' : Fin 3 → Fin 3 → Fin 3 → ℝ)
    (G2 G2' : Fin 3 → Fin 3 → Fin 3 → Fin 3 → ℝ) (l1 l2 : Load) :
    respVal (fun i j => G0 i j + G0' i j) (fun i j l => G1 i j l + G1' i j l)
      (fun i j m l => G2 i j m l + G2' i j m l) l1 l2 = respVal G0 G1 G2 l1 l2 + respVal G0' G1' G2' l1 l2 := by
  cases l1 <;> cases l2 <;> simp only [respVal, Fin.sum_univ_three] <;> ring

theorem respVal_mul (c : ℝ) (G0 : Fin 3 → Fin 3 → ℝ) (G1 : Fin 3 → Fin 3 → Fin 3 → ℝ)
    (G2 : Fin 3 → Fin 3 → Fin 3 → Fin 3 → ℝ) (l1 l2 : Load) :
    respVal (fun i j => c * G0 i j) (fun i j l => c * G1 i j l)
      (fun i j m l => c * G2 i j m l) l1 l2 = c * respVal G0 G1 G2 l1 l2 := by
  cases l1 <;> cases l2 <;> simp only [respVal, Fin.sum_univ_three] <;> ring

theorem respVal_sum {α : Type*} (X : List α) (G0 : α → Fin 3 → Fin 3 → ℝ) (G1 : α → Fin 3 → Fin 3 → Fin 3 → ℝ)
    (G2 : α → Fin 3 → Fin 3 → Fin 3 → Fin 3 → ℝ) (l1 l2 : Load) :
    respVal (fun i j => (X.map fun x => G0 x i j).sum) (fun i j l => (X.map fun x => G1 x i j l).sum)
      (fun i j m l => (X.map fun x => G2 x i j m l).sum) l1 l2
      = (X.map fun x => respVal (G0 x) (G1 x) (G2 x) l1 l2).sum := by
  induction X with
  | nil =>
    have := respVal_mul 0 (fun _ _ => 0) (fun _ _ _ => 0) (fun _ _ _ _ => 0) l1 l2
    simpa using this
  | cons x X ih =>
    simp only [List.map_cons, List.sum_cons]
    rw [respVal_add, ih]

/-! ## The response in the box, term by term -/

/-- Response through one image. -/
noncomputable def nearResp (lamb a b : ℝ) (l1 l2 : Load) (y : Vec3) : ℝ :=
  respVal (fun i j => T0 (pJ lamb) (qJ lamb) i j y) (fun i j l => T1 (pJ lamb) (qJ lamb) i j l y)
      (fun i j m l => T2 (pJ lamb) (qJ lamb) i j m l y) l1 l2
    + (sized l1 * a ^ 2 + sized l2 * b ^ 2) *
      respVal (fun i j => T0 (lapP (pJ lamb) (qJ lamb)) (lapQ (qJ lamb)) i j y)
        (fun i j l => T1 (lapP (pJ lamb) (qJ lamb)) (lapQ (qJ lamb)) i j l y)
        (fun i j m l => T2 (lapP (pJ lamb) (qJ lamb)) (lapQ (qJ lamb)) i j m l y) l1 l2

/-- Response through one wave. -/
noncomputable def waveResp (lamb a b : ℝ) (l1 l2 : Load) (r k : Vec3) : ℝ :=
  respVal (fun i j => Real.cos (inner3 k r) * waveJ lamb i j k)
      (fun i j l => -(k l * Real.sin (inner3 k r) * waveJ lamb i j k))
      (fun i j m l => -(k m * k l * (Real.cos (inner3 k r) * waveJ lamb i j k))) l1 l2
    + (sized l1 * a ^ 2 + sized l2 * b ^ 2) *
      respVal (fun i j => -(len k ^ 2 * (Real.cos (inner3 k r) * waveJ lamb i j k)))
        (fun i j l => len k ^ 2 * (k l * Real.sin (inner3 k r) * waveJ lamb i j k))
        (fun i j m l => len k ^ 2 * (k m * k l * (Real.cos (inner3 k r) * waveJ lamb i j k))) l1 l2

theorem imageSum_response (lamb a b : ℝ) (X : List Vec3) (l1 l2 : Load) {r : Vec3} (hr : r ∈ Clear X) :
    greenResponse (imageSum lamb X) a b l1 l2 r
      = (X.map fun x => nearResp lamb a b l1 l2 fun m => r m + x m).sum := by
  rw [greenResponse_jet (isOpen_clear X) (fun i j => imageSum_jet lamb X i j) a b l1 l2 hr,
    show (fun i j => imageSum lamb X i j r)
      = fun i j => (X.map fun x => T0 (pJ lamb) (qJ lamb) i j fun m => r m + x m).sum by
      funext i j
      unfold imageSum
      congr 1
      exact List.map_congr_left fun x hx => nearJ_eq lamb i j (hr x hx),
    respVal_sum, respVal_sum, ← List.sum_map_mul_left, ← List.sum_map_add]
  rfl

theorem waveSum_response (lamb V a b : ℝ) (K : List Vec3) (l1 l2 : Load) (r : Vec3) :
    greenResponse (waveSum lamb V K) a b l1 l2 r
      = 1 / V * (K.map fun k => waveResp lamb a b l1 l2 r k).sum := by
  rw [greenResponse_jet isOpen_univ (fun i j => waveSum_jet lamb V K i j) a b l1 l2 (Set.mem_univ r),
    show (fun i j => waveSum lamb V K i j r)
      = fun i j => 1 / V * (K.map fun k => Real.cos (inner3 k r) * waveJ lamb i j k).sum from rfl,
    respVal_mul, respVal_mul, respVal_sum, respVal_sum, mul_left_comm, ← mul_add, ← List.sum_map_mul_left,
    ← List.sum_map_add]
  rfl

theorem boxJ_response (lamb V a b : ℝ) (X K : List Vec3) (l1 l2 : Load) {r : Vec3} (hr : r ∈ Clear X) :
    greenResponse (boxJ lamb V X K) a b l1 l2 r
      = (X.map fun x => nearResp lamb a b l1 l2 fun m => r m + x m).sum
        + 1 / V * (K.map fun k => waveResp lamb a b l1 l2 r k).sum := by
  rw [← imageSum_response lamb a b X l1 l2 hr, ← waveSum_response,
    show boxJ lamb V X K = fun i j r => imageSum lamb X i j r + waveSum lamb V K i j r from rfl,
    greenResponse_jet (isOpen_clear X) (fun i j => imageSum_jet lamb X i j) a b l1 l2 hr,
    greenResponse_jet isOpen_univ (fun i j => waveSum_jet lamb V K i j) a b l1 l2 (Set.mem_univ r),
    greenResponse_jet (isOpen_clear X) (fun i j => (imageSum_jet lamb X i j).add
      ((waveSum_jet lamb V K i j).mono (Set.subset_univ (Clear X)))) a b l1 l2 hr,
    respVal_add, respVal_add]
  ring

end SD.Ewald
