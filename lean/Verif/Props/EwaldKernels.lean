import Verif.Lemmas.EwaldOpen
import Mathlib.Analysis.Calculus.IteratedDeriv.Defs

/-!
# C50: the real-space and wave-space tensors of the periodic far field
-/

set_option autoImplicit false

namespace SD

open Spec

/-- The seven numbers of `generate_erfcs` are the derivatives of `s ↦ erfc(lamb s)` of orders 0 to 6. -/
theorem C50_erfc_derivatives (lamb : ℝ) (n : Fin 7) (s : ℝ) :
    Ewald.generate_erfcs s lamb n = iteratedDeriv n (fun s => cerf (lamb * s)) s := by
  have h0 : (fun s => Ewald.generate_erfcs s lamb 0) = iteratedDeriv 0 (fun s => cerf (lamb * s)) := by
    rw [iteratedDeriv_zero]
    funext s
    rw [← Ewald.erfc_eq_cerf]; rfl
  have step : ∀ (m : Fin 6), (fun s => Ewald.generate_erfcs s lamb m.castSucc)
      = iteratedDeriv m (fun s => cerf (lamb * s)) → (fun s => Ewald.generate_erfcs s lamb m.succ)
      = iteratedDeriv (m + 1) (fun s => cerf (lamb * s)) := by
    intro m hm
    rw [iteratedDeriv_succ, ← hm]
    funext s
    exact (Ewald.erfcs_deriv lamb s m).deriv.symm
  have h1 := step 0 h0
  have h2 := step 1 h1
  have h3 := step 2 h2
  have h4 := step 3 h3
  have h5 := step 4 h4
  have h6 := step 5 h5
  fin_cases n
  exacts [congrFun h0 s, congrFun h1 s, congrFun h2 s, congrFun h3 s, congrFun h4 s, congrFun h5 s, congrFun h6 s]

/-- `J` and its five companions in the code are the screened Green's function, its first and second derivatives,
its Laplacian, and the first and second derivatives of its Laplacian. -/
theorem C50_kernels (lamb : ℝ) {r : Vec3} (hr : r ≠ 0) (i j l m : Fin 3) :
    Ewald.J r (len r) i j (Ewald.generate_erfcs (len r) lamb) = nearJ lamb i j r ∧
    Ewald.D_J r (len r) l i j (Ewald.generate_erfcs (len r) lamb) = pd l (nearJ lamb i j) r ∧
    Ewald.DD_J r (len r) m l i j (Ewald.generate_erfcs (len r) lamb) = pd m (pd l (nearJ lamb i j)) r ∧
    Ewald.Lap_J r (len r) i j (Ewald.generate_erfcs (len r) lamb) = lap (nearJ lamb i j) r ∧
    Ewald.DLap_J r (len r) l i j (Ewald.generate_erfcs (len r) lamb) = pd l (lap (nearJ lamb i j)) r ∧
    Ewald.DDLap_J r (len r) m l i j (Ewald.generate_erfcs (len r) lamb)
      = pd m (pd l (lap (nearJ lamb i j))) r := by
  have h := Ewald.nearJ_jet lamb i j
  have hU := Ewald.isOpen_ne_zero
  refine ⟨?_, ?_, ?_, ?_, ?_, ?_⟩
  · rw [Ewald.J_eq lamb hr, Ewald.nearJ_eq lamb i j hr]
  · rw [Ewald.D_J_eq lamb hr, h.pd1 hr l]
  · rw [Ewald.DD_J_eq lamb hr, h.pd2 hU hr m l]
  · rw [Ewald.Lap_J_eq lamb hr, h.lap0 hU hr]
  · rw [Ewald.DLap_J_eq lamb hr, h.lap1 hU hr l]
  · rw [Ewald.DDLap_J_eq lamb hr, h.lap2 hU hr m l]

/-- The derived tensors: `R` and `K` are the flows of a point torque and stresslet, `Lap_R` and `Lap_K` the same
for the Laplacian, `D_R`, `D_K` and `DLap_K` their gradients. -/
theorem C50_multipoles (lamb : ℝ) {r : Vec3} (hr : r ≠ 0) (i j k l : Fin 3) :
    Ewald.R r (len r) i j (Ewald.generate_erfcs (len r) lamb) = source (nearJ lamb) (.torque j) i r ∧
    -Ewald.K r (len r) i j k (Ewald.generate_erfcs (len r) lamb) = source (nearJ lamb) (.stress j k) i r ∧
    Ewald.Lap_R r (len r) i j (Ewald.generate_erfcs (len r) lamb)
      = source (fun i j => lap (nearJ lamb i j)) (.torque j) i r ∧
    -Ewald.Lap_K r (len r) i j k (Ewald.generate_erfcs (len r) lamb)
      = source (fun i j => lap (nearJ lamb i j)) (.stress j k) i r ∧
    Ewald.D_R r (len r) l i j (Ewald.generate_erfcs (len r) lamb) = pd l (source (nearJ lamb) (.torque j) i) r ∧
    -Ewald.D_K r (len r) l i j k (Ewald.generate_erfcs (len r) lamb)
      = pd l (source (nearJ lamb) (.stress j k) i) r ∧
    -Ewald.DLap_K r (len r) l i j k (Ewald.generate_erfcs (len r) lamb)
      = pd l (source (fun i j => lap (nearJ lamb i j)) (.stress j k) i) r := by
  have hU := Ewald.isOpen_ne_zero
  have one : ∀ r : Vec3, r ≠ 0 → ∀ i j l, Ewald.HasPd l (nearJ lamb i j) (Ewald.T1 (Ewald.pJ lamb) (Ewald.qJ lamb) i j l r) r :=
    fun r hr i j l => (Ewald.nearJ_jet lamb i j).one r hr l
  have two : ∀ i j m l, Ewald.HasPd m (pd l (nearJ lamb i j))
      (Ewald.T2 (Ewald.pJ lamb) (Ewald.qJ lamb) i j m l r) r := fun i j m l =>
    ((Ewald.nearJ_jet lamb i j).two r hr m l).congr_on hU hr fun r hr => (one r hr i j l).pd
  have four : ∀ i j m l, Ewald.HasPd m (pd l (lap (nearJ lamb i j)))
      (Ewald.T2 (Ewald.lapP (Ewald.pJ lamb) (Ewald.qJ lamb)) (Ewald.lapQ (Ewald.qJ lamb)) i j m l r) r :=
    fun i j m l => ((Ewald.nearJ_jet lamb i j).four r hr m l).congr_on hU hr
      fun r hr => (Ewald.nearJ_jet lamb i j).lap1 hU hr l
  have k1 := fun l i j => (C50_kernels lamb hr i j l l).2.1
  have k5 := fun l i j => (C50_kernels lamb hr i j l l).2.2.2.2.1
  refine ⟨?_, ?_, ?_, ?_, ?_, ?_, ?_⟩
  · simp only [Ewald.R, source, k1, Ewald.eps_two]
  · simp only [Ewald.K, source, k1]; ring
  · simp only [Ewald.Lap_R, source, k5, Ewald.eps_two]
  · simp only [Ewald.Lap_K, source, k5]; ring
  · have e : source (nearJ lamb) (.torque j) i = fun r =>
        -(1 / 2) * (pd (j + 1) (nearJ lamb i (j + 2)) r - pd (j + 2) (nearJ lamb i (j + 1)) r) := by
      funext r; simp only [source, Ewald.eps_two]
    simp only [Ewald.D_R, Ewald.DD_J_eq lamb hr]
    rw [e]
    exact ((((two i (j + 2) l (j + 1)).sub (two i (j + 1) l (j + 2))).const_mul (-(1 / 2))).pd).symm
  · simp only [Ewald.D_K, Ewald.DD_J_eq lamb hr]
    change _ = pd l (fun r => -(1 / 2) * (pd k (nearJ lamb i j) r + pd j (nearJ lamb i k) r)) r
    rw [(((two i j l k).add (two i k l j)).const_mul (-(1 / 2))).pd]; ring
  · simp only [Ewald.DLap_K, Ewald.DDLap_J_eq lamb hr]
    change _ = pd l (fun r => -(1 / 2) * (pd k (lap (nearJ lamb i j)) r + pd j (lap (nearJ lamb i k)) r)) r
    rw [(((four i j l k).add (four i k l j)).const_mul (-(1 / 2))).pd]; ring

/-- The flow through the screened tensor is incompressible: the divergence the code's `D_J` gives vanishes, and so
does that of every wave. -/
theorem C50_incompressible (lamb : ℝ) {r : Vec3} (hr : r ≠ 0) (j : Fin 3) :
    ∑ i, Ewald.D_J r (len r) i i j (Ewald.generate_erfcs (len r) lamb) = 0 ∧
    ∑ i, r i * Ewald.Jtilde (r i) (r j) (len r) i j (Ewald.RRK lamb (len r)) = 0 := by
  have h2 := len_sq r
  constructor
  · simp only [Ewald.D_J_eq lamb hr, Ewald.T1, Ewald.pJ, Ewald.qJ, Ewald.bump, Fin.sum_univ_three, dlt]
    rw [h2]
    fin_cases j <;> simp <;> ring
  · simp only [Ewald.Jtilde, kron, Fin.sum_univ_three]
    rw [h2]
    fin_cases j <;> simp <;> ring

/-- Without screening the real-space tensor is that of unbounded fluid. -/
theorem C50_unscreened {r : Vec3} (hr : r ≠ 0) (i j : Fin 3) :
    Ewald.J r (len r) i j (Ewald.generate_erfcs (len r) 0) = oseen i j r := by
  have hs := len_pos hr
  have : Ewald.generate_erfcs (len r) 0 0 = 1 := by simp [Ewald.generate_erfcs, Ewald.erfc]
  have h1 : Ewald.generate_erfcs (len r) 0 1 = 0 := by simp [Ewald.generate_erfcs]
  have h2 : Ewald.generate_erfcs (len r) 0 2 = 0 := by simp [Ewald.generate_erfcs]
  simp only [Ewald.J, Ewald.Lap_rerfclr, Ewald.DD_rerfclr, this, h1, h2, oseen, kron, dlt]
  field_simp
  split_ifs <;> ring

/-- The wave-space tensor is the transverse projection with the strength of the smooth part, and its companions
are what differentiation makes of the wave. -/
theorem C50_waves (lamb : ℝ) (k r : Vec3) (i j l m : Fin 3) :
    Ewald.Jtilde (k i) (k j) (len k) i j (Ewald.RRK lamb (len k)) = waveJ lamb i j k ∧
    Real.cos (Ewald.dot3 k r) * Ewald.DD_Jtilde (k m) (k l) (k i) (k j) (len k) i j (Ewald.RRK lamb (len k))
      = pd m (pd l fun r => Real.cos (inner3 k r) * waveJ lamb i j k) r ∧
    Real.cos (Ewald.dot3 k r) * Ewald.Lap_Jtilde (k i) (k j) (len k) i j (Ewald.RRK lamb (len k))
      = lap (fun r => Real.cos (inner3 k r) * waveJ lamb i j k) r := by
  have h := Ewald.wave_jet k (waveJ lamb i j k)
  refine ⟨Ewald.Jtilde_eq lamb k i j, ?_, ?_⟩
  · rw [h.pd2 isOpen_univ (Set.mem_univ r) m l, Ewald.DD_Jtilde, Ewald.Jtilde_eq, Ewald.dot3_eq]; ring
  · rw [h.lap0 isOpen_univ (Set.mem_univ r), Ewald.Lap_Jtilde, Ewald.Jtilde_eq, Ewald.dot3_eq]; ring

/-- The displacement of the examples. -/
theorem demo_r : (![1, 2, 2] : Vec3) ≠ 0 := by
  intro h
  simpa using congrFun h 0

example : Ewald.J ![1, 2, 2] (len ![1, 2, 2]) 0 1 (Ewald.generate_erfcs (len ![1, 2, 2]) 3)
    = nearJ 3 0 1 ![1, 2, 2] := (C50_kernels 3 demo_r 0 1 0 0).1

/-- The length of the displacement of the examples. -/
theorem demo_len : len ![1, 2, 2] = 3 := by
  have : len ![1, 2, 2] = Real.sqrt (3 ^ 2) := by
    unfold len
    congr 1
    simp [Fin.sum_univ_three]
    norm_num
  rw [this]
  exact Real.sqrt_sq (by norm_num)

example : Ewald.J ![1, 2, 2] 3 0 1 (Ewald.generate_erfcs 3 0) = 2 / 27 := by
  have h := C50_unscreened demo_r 0 1
  rw [demo_len] at h
  rw [h]
  simp [oseen, demo_len, dlt]; norm_num

example : iteratedDeriv 1 (fun s => cerf (2 * s)) 0 = -(2 / Real.sqrt Real.pi * 2) := by
  have h := C50_erfc_derivatives 2 1 0
  simp [Ewald.generate_erfcs] at h
  simpa using h.symm

end SD
