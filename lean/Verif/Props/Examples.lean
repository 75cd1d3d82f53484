import Verif.Model.Examples
import Verif.Spec.Examples
import Verif.Spec.Converge
import Verif.Props.FallingPair
import Verif.Props.SymmetricRun
import Verif.Props.BoxArray
import Verif.Props.Power
import Verif.Props.Motion

/-!
# C99: what the example scripts of the documentation compute
-/

set_option autoImplicit false

open Finset

namespace SD

open Spec Cov Reorder Move Ship

variable {W : World} {S : Settings} {c : Config}

/-! ## A run of one frame -/

theorem program_one (hR : Runnable S c.P.Nd) (h1 : S.num_frames = 1) {o t : Option Saved}
    (h : program W S (State.fresh c) = some (o, t)) :
    ∃ u r, W.input_ftsuoe c 0 0.1 Vel.blank none = some u ∧
      timeStep W S u.bl u.tr 0 c Vel.blank (NDMat.zeros 1 1) true = some r ∧
      o = some ⟨[c, r.new], [r.forces]⟩ ∧ t = none := by
  obtain ⟨u, hu, h⟩ := Option.bind_eq_some_iff.mp h
  obtain ⟨s, hs, h⟩ := Option.bind_eq_some_iff.mp h
  rw [hR.start, h1] at hs
  obtain ⟨s0, e0, hs⟩ := run_prev hs
  obtain rfl := Option.some.inj e0
  rw [hR.start] at hs
  obtain ⟨-, r, hr, -, -, -, -, hp, hf, -⟩ := frame_some rfl hs
  have hreg : regen S 0 = true := by simp [regen]
  unfold frameStep velIn cacheIn at hr
  rw [hreg, if_pos (.inl rfl), if_pos rfl] at hr
  refine ⟨u, r, hu, hr, ?_⟩
  unfold savePositions at hp
  rw [if_pos ⟨hR.pos, Nat.zero_mod _, by rw [hR.first]⟩, if_pos hR.first.symm, h1, Option.bind_eq_bind, Option.bind_some] at hp
  have hp := Option.some.inj hp
  unfold saveForces at hf
  rw [if_pos ⟨hR.force, Nat.zero_mod _, by rw [hR.first]⟩, if_pos hR.first.symm] at hf
  have hf := Option.some.inj hf
  unfold finalSave at h
  rw [if_pos (.inl hR.force), ← hp, ← hf] at h
  have h := Prod.mk.inj (Option.some.inj h)
  exact ⟨h.1.symm, h.2.symm⟩

/-! ## A row of spheres -/

/-- The reflection that reverses a row. -/
def mirrorX : Fin 3 → Fin 3 → ℝ := ![![-1, 0, 0], ![0, 1, 0], ![0, 0, 1]]

theorem mirrorX_orth : Orthogonal mirrorX := by
  intro i j
  fin_cases i <;> fin_cases j <;> simp [mirrorX, Fin.sum_univ_three, dlt]

theorem mirrorX_turn (v : Vec3) : turnVec mirrorX v = ![-v 0, v 1, v 2] := by
  funext i
  fin_cases i <;> simp [turnVec, mirrorX, Fin.sum_univ_three]

/-- The order of `n` particles reversed. -/
def backwards (n : ℕ) : ℕ → ℕ := fun i => if i < n then n - 1 - i else i

theorem backwards_reorders (n : ℕ) : Reorders n (backwards n) where
  lt i hi := by unfold backwards; split_ifs; omega
  inj i hi j hj h := by unfold backwards at h; split_ifs at h; omega
  rest i hi := by unfold backwards; rw [if_neg (by omega)]

variable {o : Vec3} {a δ : ℝ}

theorem Spec.Row.lt {P : PosData} (h : Row P o a δ) {x : ℕ} : x < beads P ↔ x < P.Ns := by
  unfold beads
  rw [h.Nd, mul_zero, add_zero]

theorem Spec.Row.spot {P : PosData} (h : Row P o a δ) {x : ℕ} (hx : x < P.Ns) :
    centre P x = fun k => o k + x * δ * ![1, 0, 0] k := by
  rw [← h.place x hx]
  funext k
  simp [centre, hx]

theorem Spec.Row.equal {P : PosData} (h : Row P o a δ) : EqualBeads P a := by
  intro x hx
  rw [h.lt] at hx
  simp [radius, hx, h.size x hx]

theorem Spec.Row.image {P : PosData} (h : Row P o a δ) {Q : Fin 3 → Fin 3 → ℝ} {σ : ℕ → ℕ} (hQ : Orthogonal Q)
    (hσ : Reorders P.Ns σ) (hm : ∀ x < P.Ns, ∀ y < P.Ns, (fun k => ((x : ℝ) - y) * δ * ![1, 0, 0] k)
      = turnVec Q fun k => ((σ x : ℝ) - σ y) * δ * ![1, 0, 0] k) : SelfImage P Q σ fun i => i := by
  have bm : ∀ x < P.Ns, beadMap P.Ns P.Nd σ (fun i => i) x = σ x := fun x hx => by simp [beadMap, hx]
  refine ⟨hQ, hσ, by rw [h.Nd]; exact id_reorders 0, fun x hx y hy => ?_, fun x hx => ?_⟩
  · rw [h.lt] at hx hy
    rw [bm x hx, bm y hy, h.spot hx, h.spot hy, h.spot (hσ.lt x hx), h.spot (hσ.lt y hy)]
    have e : ∀ p q : ℝ, (fun k => o k + p * δ * (![1, 0, 0] : Vec3) k - (o k + q * δ * (![1, 0, 0] : Vec3) k))
        = fun k => (p - q) * δ * (![1, 0, 0] : Vec3) k := fun p q => by funext k; ring
    rw [e, e]
    exact hm x hx y hy
  · rw [h.lt] at hx
    have hs := hσ.lt x hx
    rw [bm x hx]
    simp [radius, hx, hs, h.size x hx, h.size _ hs]

theorem Spec.Row.reverse {P : PosData} (h : Row P o a δ) : SelfImage P mirrorX (backwards P.Ns) fun i => i := by
  refine h.image mirrorX_orth (backwards_reorders _) fun x hx y hy => ?_
  rw [mirrorX_turn]
  simp only [backwards, if_pos hx, if_pos hy]
  have e : ∀ z < P.Ns, ((P.Ns - 1 - z : ℕ) : ℝ) = P.Ns - 1 - z := fun z hz => by
    rw [Nat.cast_sub (by omega), Nat.cast_sub (by omega), Nat.cast_one]
  rw [e x hx, e y hy]
  funext k
  fin_cases k <;> simp
  ring

theorem Spec.Row.sideways {P : PosData} (h : Row P o a δ) : SelfImage P mirrorY (fun i => i) fun i => i := by
  refine h.image mirrorY_orth (id_reorders _) fun x _ y _ => ?_
  rw [mirrorY_turn]
  funext k
  fin_cases k <;> simp

theorem Spec.Row.upside {P : PosData} (h : Row P o a δ) : SelfImage P mirrorZ (fun i => i) fun i => i := by
  refine h.image mirrorZ_orth (id_reorders _) fun x _ y _ => ?_
  rw [mirrorZ_turn]
  funext k
  fin_cases k <;> simp

theorem Spec.Row.apart {P : PosData} (h : Row P o a δ) (hδ : 2.001 * a ≤ δ) (ha : 0 < a) : ¬ Touching P := by
  rintro ⟨x, hx, y, hy, hxy, hl⟩
  have e := h.equal
  rw [e x hx, e y hy] at hl
  rw [h.lt] at hx hy
  have h1 := le_len (fun i => centre P x i - centre P y i) 0
  rw [h.spot hx, h.spot hy] at h1 hl
  simp only [Matrix.cons_val_zero, mul_one] at h1
  have h2 : δ ≤ |o 0 + x * δ - (o 0 + y * δ)| := by
    rw [show o 0 + (x : ℝ) * δ - (o 0 + y * δ) = ((x : ℤ) - (y : ℤ) : ℤ) * δ by push_cast; ring, abs_mul]
    have hd : 0 < δ := by nlinarith
    have : (1 : ℝ) ≤ |(((x : ℤ) - (y : ℤ) : ℤ) : ℝ)| := by
      rw [← Int.cast_abs]
      have hz : (x : ℤ) - (y : ℤ) ≠ 0 := sub_ne_zero.mpr (by exact_mod_cast hxy)
      exact Int.cast_one.symm.le.trans (Int.cast_le.mpr (Int.one_le_abs hz))
    rw [abs_of_pos hd]
    nlinarith
  linarith

/-- In the first stage the spheres of a row move straight down or up, alike from both ends, and down on the whole. -/
theorem Spec.Row.stage {K : NDMat → Prop} {last : NDMat} {st : Stage} (h : Row c.P o a δ)
    (p : Pulled W S K c last true st) : ∃ w : ℕ → ℝ, (∀ i < c.P.Ns, st.out.Ua.getD i 0 = ![0, 0, w i]) ∧
      (∀ i < c.P.Ns, w i = w (c.P.Ns - 1 - i)) ∧ ∑ i ∈ range c.P.Ns, w i < 0 := by
  have iZ := p.image ⟨mirrorZ, fun i => i, -1⟩ h.upside (fun k => by
    rw [mirrorZ_turn]; fin_cases k <;> simp) (fun _ h => by simp at h)
  have iY := p.image ⟨mirrorY, fun i => i, 1⟩ h.sideways (fun k => by
    rw [mirrorY_turn]; fin_cases k <;> simp) (fun _ h => by simp at h)
  have iX := p.image ⟨mirrorX, backwards c.P.Ns, 1⟩ h.reverse (fun k => by
    rw [mirrorX_turn]; fin_cases k <;> simp) (fun _ h => by simp at h)
  simp only [mirrorX_turn, mirrorY_turn, mirrorZ_turn] at iX iY iZ
  have hU : ∀ i < c.P.Ns, st.out.Ua.getD i 0 = ![0, 0, st.out.Ua.getD i 0 2] := by
    intro i hi
    have h0 := congrFun (iZ i hi) 0
    have h1 := congrFun (iY i hi) 1
    simp at h0 h1
    funext k
    fin_cases k
    · simp; linarith
    · simp; linarith
    · simp
  refine ⟨fun i => st.out.Ua.getD i 0 2, hU, fun i hi => ?_, ?_⟩
  · have := congrFun (iX i hi) 2
    simpa [backwards, hi] using this
  · obtain ⟨R, sR, hs⟩ := p.solves
    have hrel : ∀ i < 11 * c.P.Ns + 6 * c.P.Nd, ∑ j ∈ range (11 * c.P.Ns + 6 * c.P.Nd),
        R.get i j * motions c.P.Ns c.P.Nd st.out j = loads c.P.Ns c.P.Nd st.out i := hs.rel
    have hload : ∀ i < c.P.Ns, ∀ k : Fin 3, loads c.P.Ns c.P.Nd st.out (3 * i + k) = ![0, 0, -1] k := fun i hi k => by
      unfold loads
      rw [pack_u _ _ _ _ _ hi, p.forces, replicate_getD hi]
    have hne : ∃ j < side c.P, motions c.P.Ns c.P.Nd st.out j ≠ 0 := by
      by_contra hn
      push Not at hn
      have := hrel (3 * 0 + 2) (by have := h.Ns; omega)
      rw [sum_eq_zero fun j hj => by rw [hn j (by simpa [side] using hj), mul_zero]] at this
      have e := hload 0 h.Ns 2
      simp at e this
      linarith
    have hpos := sR.pos _ hne
    have e : ∑ i ∈ range (side c.P), ∑ j ∈ range (side c.P),
        motions c.P.Ns c.P.Nd st.out i * R.get i j * motions c.P.Ns c.P.Nd st.out j
        = ∑ i ∈ range (11 * c.P.Ns + 6 * c.P.Nd), loads c.P.Ns c.P.Nd st.out i * motions c.P.Ns c.P.Nd st.out i := by
      refine sum_congr rfl fun i hi => ?_
      rw [← hrel i (mem_range.mp hi), sum_mul]
      exact sum_congr rfl fun j _ => by ring
    rw [e, sum_grand] at hpos
    have five0 : ∀ i, five (0 : Mat3) i = 0 := by intro i; fin_cases i <;> simp [five]
    have z : ∀ i ∈ range c.P.Ns,
        (∑ k : Fin 3, loads c.P.Ns c.P.Nd st.out (3 * i + k) * motions c.P.Ns c.P.Nd st.out (3 * i + k))
        + (∑ k : Fin 3, loads c.P.Ns c.P.Nd st.out (3 * c.P.Ns + (3 * i + k)) * motions c.P.Ns c.P.Nd st.out (3 * c.P.Ns + (3 * i + k)))
        + ∑ k : Fin 5, loads c.P.Ns c.P.Nd st.out (6 * c.P.Ns + (5 * i + k)) * motions c.P.Ns c.P.Nd st.out (6 * c.P.Ns + (5 * i + k))
        = -st.out.Ua.getD i 0 2 := by
      intro i hi
      have hi := mem_range.mp hi
      have z1 : ∀ k : Fin 3, loads c.P.Ns c.P.Nd st.out (3 * c.P.Ns + (3 * i + k)) = 0 := fun k => by
        unfold loads
        rw [pack_o _ _ _ _ _ hi, p.torques, replicate_getD hi]
        rfl
      have z2 : ∀ k : Fin 5, motions c.P.Ns c.P.Nd st.out (6 * c.P.Ns + (5 * i + k)) = 0 := fun k => by
        unfold motions
        rw [pack_e _ _ _ _ _ hi, p.strains, replicate_getD hi, five0]
      have z3 : ∀ k : Fin 3, motions c.P.Ns c.P.Nd st.out (3 * i + k) = st.out.Ua.getD i 0 k := fun k => by
        unfold motions
        rw [pack_u _ _ _ _ _ hi]
      simp only [z1, z2, z3, hload i hi, zero_mul, mul_zero, sum_const_zero, add_zero, Fin.sum_univ_three]
      simp
    rw [sum_congr rfl z, h.Nd, range_zero, sum_empty, add_zero, sum_neg_distrib] at hpos
    linarith

/-! ## Example (a) -/

theorem gravity_timestep (hW : Ships 1 .fte W) (h : ℝ) (f : ℝ) (last : NDMat) (reg : Bool) (lv : Vel) :
    generate_output_FTSUOE W (stepped S h) c f last reg lv = generate_output_FTSUOE W S c f last reg lv := by
  unfold generate_output_FTSUOE
  simp only [hW _ _ _ _ _, gravity_input]
  rfl

theorem stepped_steady (h : ℝ) (hc : Steady W S c) : Steady W (stepped S h) c :=
  ⟨hc.radii, hc.ratios, hc.allowed, hc.beads, hc.answers⟩

theorem stepped_runnable {n : ℕ} (h : ℝ) (hR : Runnable S n) : Runnable (stepped S h) n :=
  ⟨hR.scheme, hR.extract, hR.cutoff, hR.every, hR.start, hR.first, hR.pos, hR.force, hR.temp⟩

theorem zipWith_range {α β γ : Type} (f : α → β → γ) (g : ℕ → α) (k : ℕ → β) (n : ℕ) :
    List.zipWith f ((List.range n).map g) ((List.range n).map k) = (List.range n).map fun i => f (g i) (k i) := by
  simp [List.zipWith_map, List.zipWith_self]

theorem stokes_entry (U : ℝ) : dragEntry (-1) U = stokesRatio U := by
  unfold dragEntry stokesRatio
  have e : (6 * Real.pi * U = 0) = (U = 0) := by simp [Real.pi_ne_zero]
  simp only [mul_one, e]

theorem drag_of {c1 : Config} {F : Forces} {h : ℝ} {w : ℕ → ℝ} (h0 : c.P.Nd = 0) (e1 : c1.P.Ns = c.P.Ns) (e2 : c1.P.Nd = c.P.Nd)
    (hF : F.Fa = List.replicate c.P.Ns ![0, 0, -1]) (hs : Sunk c c1 h w) :
    drag_coefficient ⟨[c, c1], [F]⟩ = some ((List.range c.P.Ns).map fun i => stokesRatio (h * w i)) := by
  have hF' : F.Fa = (List.range c.P.Ns).map fun _ => ![0, 0, -1] := by
    rw [hF]; simp
  have hv : speeds_of_particles ⟨[c, c1], [F]⟩
      = some ((List.range c.P.Ns).map fun i k => (c1.P.spherePos i k - c.P.spherePos i k) / 1) := by
    have s0 : savedCentres c = (List.range c.P.Ns).map c.P.spherePos := by simp [savedCentres, h0]
    have s1 : savedCentres c1 = (List.range c.P.Ns).map c1.P.spherePos := by simp [savedCentres, e1, e2, h0]
    show some (List.zipWith _ (savedCentres c1) (savedCentres c)) = _
    rw [s0, s1, zipWith_range]
  unfold drag_coefficient
  rw [hv]
  show (if F.Fa.length = _ then _ else none) = _
  rw [if_pos (by rw [hF']; simp), hF', zipWith_range]
  refine congrArg some (List.map_congr_left fun i hi => ?_)
  rw [hs i (List.mem_range.mp hi)]
  simp only [Matrix.cons_val]
  rw [← stokes_entry]
  congr 1
  ring

theorem chain_runs {K : NDMat → Prop} (hW : Ships 1 .fte W) (hform : S.input_form = .fte) (hR : Runnable S c.P.Nd)
    (h1 : S.num_frames = 1) (hsch : S.scheme ≠ .rk4) (har : Arrows c) (hc : Row c.P o a δ) (hst : Steady W S c)
    (h0 : ¬ Touching c.P) (hserv : ∀ h, Serves W (stepped S h) K c) (hK : ∀ C, K C → Sound c.P C) :
    ∃ (F : Forces) (w : ℕ → ℝ), F.Fa = List.replicate c.P.Ns ![0, 0, -1] ∧ (∀ i < c.P.Ns, w i = w (c.P.Ns - 1 - i)) ∧
      ∑ i ∈ range c.P.Ns, w i < 0 ∧
      (∀ st, generate_output_FTSUOE W S c 0 (NDMat.zeros 1 1) true Vel.blank = some st →
        ∀ i < c.P.Ns, st.out.Ua.getD i 0 = ![0, 0, w i]) ∧ ∀ h, ∃ c1,
      program W (stepped S h) (State.fresh c) = some (some ⟨[c, c1], [F]⟩, none) ∧ Sunk c c1 h w ∧
      drag_coefficient ⟨[c, c1], [F]⟩ = some ((List.range c.P.Ns).map fun i => stokesRatio (h * w i)) := by
  have frame : ∀ h, ∃ (u : UserInput) (r : StepResult) (st : Stage) (v0 v : Vel), (∀ k, u.bl k - u.tr k = 0) ∧
      program W (stepped S h) (State.fresh c) = some (some ⟨[c, r.new], [r.forces]⟩, none) ∧
      timeStep W (stepped S h) u.bl u.tr 0 c Vel.blank (NDMat.zeros 1 1) true = some r ∧
      EulerParts W (stepped S h) u.bl u.tr 0 c Vel.blank (NDMat.zeros 1 1) true r st v0 v := by
    intro h
    have hr := steady_ready (stepped_steady h hst) ⟨rfl, rfl, rfl, rfl⟩ h0
    obtain ⟨d, hd⟩ := program_exists (K := K) (stepped_runnable h hR) har (show 0 < S.num_frames by omega) hr
      (fun u hu j hj s hs _ d hv => by
        have hj : j = 0 := by have : j < S.num_frames := hj; omega
        subst hj
        obtain rfl := Option.some.inj hs
        rcases visits_eq.mp hv with rfl | ⟨h4, -⟩
        · exact ⟨hr, hserv h⟩
        · exact absurd h4 hsch)
    obtain ⟨u, r, hu, hrr, ho, -⟩ := program_one (stepped_runnable h hR) h1 hd
    rcases timeStep_cases hrr with ⟨-, he⟩ | ⟨h4, -⟩
    · obtain ⟨st, v0, v, p⟩ := euler_parts he
      refine ⟨u, r, st, v0, v, fun k => ?_, by rw [hd, ho], hrr, p⟩
      rw [hW, gravity_input] at hu
      rw [← Option.some.inj hu]
      exact sub_self _
    · exact absurd h4 hsch
  obtain ⟨u, r, st, v0, v, -, -, -, p⟩ := frame S.timestep
  have hst0 : generate_output_FTSUOE W S c 0 (NDMat.zeros 1 1) true Vel.blank = some st := by
    have := p.stage
    rw [gravity_timestep hW] at this
    simpa using this
  have hp := gravity_pulled hW hform hR.extract hR.cutoff hc.Ns hc.Nd (steady_ready hst ⟨rfl, rfl, rfl, rfl⟩ h0)
    (equal_balanced _ hc.equal) (hserv S.timestep) hK (fun _ h => by simp at h) hst0
  obtain ⟨w, w1, w2, w3⟩ := hc.stage hp
  refine ⟨r.forces, w, ?_, w2, w3, fun st' h' => ?_, fun h => ?_⟩
  · rw [p.forces_eq]
    exact hp.forces
  · obtain rfl : st = st' := Option.some.inj (hst0.symm.trans h')
    exact w1
  · obtain ⟨u', r', st', v0', v', hb, hprog, ht, p'⟩ := frame h
    obtain rfl : st = st' := by
      have := p'.stage
      rw [gravity_timestep hW] at this
      have e : generate_output_FTSUOE W S c 0 (NDMat.zeros 1 1) true Vel.blank = some st' := by simpa using this
      exact Option.some.inj (hst0.symm.trans e)
    have ef : r'.forces = r.forces := by rw [p'.forces_eq, p.forces_eq]
    have hz := timeStep_sizes ht
    have hsunk : Sunk c r'.new h w := by
      intro i hi
      obtain ⟨new, rots, e1, -, e2, -⟩ := p'.spheres hc.Ns
      rw [wrapIf_nonperiodic (fun h => h hb)] at e2
      rw [if_pos (.inr (Nat.zero_sub _))] at e1
      rw [e2, e1]
      have ev : v0'.Ua i = ![0, 0, w i] := by
        rw [(stageVel_spheres p'.vel hi).1]
        unfold sphereVel
        rw [w1 i hi, hp.strains, hp.U, hp.O, replicate_getD hi]
        funext k
        fin_cases k <;> simp [affineFlow, cross, app, dotp]
      have ev' : v'.Ua i = ![0, 0, w i] := by
        rw [p'.flat]
        split
        · show zeroY v0'.Ua i = _
          unfold zeroY
          rw [ev]
          funext k
          fin_cases k <;> simp
        · exact ev
      funext k
      show c.P.spherePos i k + h * v'.Ua i k = _
      rw [ev']
    refine ⟨r'.new, by rw [← ef]; exact hprog, hsunk, drag_of hc.Nd hz.1 hz.2.1 ?_ hsunk⟩
    rw [p.forces_eq]
    exact hp.forces

/-- **C99** (rows of spheres). The program with input 1 in the form `fte` and the shipped table, for one Euler or
Adams-Bashforth frame, on spheres of one size in a horizontal row: it writes its file with every timestep. There are
velocities `w`, the same for every timestep, and the same as the solver finds, with which the spheres move straight down
or up. They are the same from both ends of the row, and their sum points down. The drag coefficients of example (a) are
those of the velocities times the timestep, because the script takes the timestep to be 1. -/
theorem C99_chain (hT : W.table = shippedTable) (hdrag : S.use_drag_Minfinity = false) (hW : Ships 1 .fte W)
    (hform : S.input_form = .fte) (hR : Runnable S c.P.Nd) (h1 : S.num_frames = 1) (hsch : S.scheme ≠ .rk4)
    (har : Arrows c) (hc : Row c.P o a δ) (ha : 1 / 10 ^ 8 < a) (hδ : 2.001 * a ≤ δ) :
    ∃ (F : Forces) (w : ℕ → ℝ), F.Fa = List.replicate c.P.Ns ![0, 0, -1] ∧ (∀ i < c.P.Ns, w i = w (c.P.Ns - 1 - i)) ∧
      ∑ i ∈ range c.P.Ns, w i < 0 ∧
      (∀ st, generate_output_FTSUOE W S c 0 (NDMat.zeros 1 1) true Vel.blank = some st →
        ∀ i < c.P.Ns, st.out.Ua.getD i 0 = ![0, 0, w i]) ∧ ∀ h, ∃ c1,
      program W (stepped S h) (State.fresh c) = some (some ⟨[c, c1], [F]⟩, none) ∧ Sunk c c1 h w ∧
      drag_coefficient ⟨[c, c1], [F]⟩ = some ((List.range c.P.Ns).map fun i => stokesRatio (h * w i)) := by
  have a0 : 0 < a := lt_trans (by norm_num) ha
  have hst : Steady W S c := shipped_steady hW hform (fun x hx => by rw [hc.equal x hx]; exact ha) (fun x hx y hy => by
      rw [hc.equal x hx, hc.equal y hy, div_self a0.ne', abs_one, mul_one, hT]
      exact ⟨1, by simp [shippedTable], by norm_num⟩)
    ⟨fun h => absurd hc.Ns (by omega), by simp⟩ (.inr hc.Nd) (by have := hc.Ns; omega) (by omega) (by omega)
    (show 1 ≤ 1 ∧ 1 ≤ 7 by omega)
  have h0 := hc.apart hδ a0
  refine chain_runs (K := Stiff c a 1) hW hform hR h1 hsch har hc hst h0 (fun h {_ _ _ _ _} =>
    shipped_serves (S := stepped S h) hT hdrag hR.cutoff a0 hc.equal (fun d f dt v r u hu => ?_)
      (steady_ready (stepped_steady h hst) ⟨rfl, rfl, rfl, rfl⟩ h0) ⟨rfl, rfl, rfl, rfl⟩) fun C hC => hC.sound
  rw [hW] at hu
  exact (shipped_box hu).1

theorem setup1_chain : Row setup1.config.P 0 1 4 := by
  refine ⟨by simp [SetupRows.config, setup1], rfl, fun i hi => ?_, fun i hi => ?_⟩
  · have hi : i < 15 := by simpa [SetupRows.config, setup1] using hi
    show ((List.range 15).map fun _ => (1 : ℝ)).getD i 0 = 1
    rw [List.getD_eq_getElem _ _ (by simpa using hi), List.getElem_map]
  · have hi : i < 15 := by simpa [SetupRows.config, setup1] using hi
    have : setup1.config.P.spherePos i = ![4 * (i : ℝ), 0, 0] := by simp [SetupRows.config, setup1, hi]
    rw [this]
    funext k
    fin_cases k <;> simp
    ring

/-- **C99** (example a). Setup 1 with input 1 in the form `fte`, for one frame of any timestep `h`, as example (a) of the
documentation runs it with `h = 1`: the script plots the eight drag coefficients from the middle sphere to the last. The
spheres on the other side of the middle have the same coefficients. -/
theorem C99_example_a (hT : W.table = shippedTable) (hdrag : S.use_drag_Minfinity = false) (hW : Ships 1 .fte W)
    (hform : S.input_form = .fte) (hR : Runnable S 0) (h1 : S.num_frames = 1) (hsch : S.scheme ≠ .rk4) :
    ∃ w : ℕ → ℝ, (∀ j ≤ 7, w (7 + j) = w (7 - j)) ∧ ∑ i ∈ range 15, w i < 0 ∧
      (∀ st, generate_output_FTSUOE W S setup1.config 0 (NDMat.zeros 1 1) true Vel.blank = some st →
        ∀ i < 15, st.out.Ua.getD i 0 = ![0, 0, w i]) ∧
      ∀ h, ∃ d, program W (stepped S h) (State.fresh setup1.config) = some (some d, none) ∧
        example_a d = some ((List.range 8).map fun j => stokesRatio (h * w (7 + j))) := by
  have hN : setup1.config.P.Ns = 15 := by simp [SetupRows.config, setup1]
  have har : Arrows setup1.config := defaultRots_arrows (P := setup1.config.P) fun i hi => by
    rw [setup1_chain.size i hi]; exact one_ne_zero
  obtain ⟨F, w, hF, h2, h3, h4, h5⟩ := C99_chain hT hdrag hW hform hR h1 hsch har setup1_chain (by norm_num) (by norm_num)
  rw [hN] at h2 h3 h4 hF
  refine ⟨w, fun j hj => ?_, h3, h4, fun h => ?_⟩
  · rw [h2 (7 + j) (by omega)]
    congr 1
    omega
  · obtain ⟨c1, hp, -, hd⟩ := h5 h
    refine ⟨_, hp, ?_⟩
    unfold example_a
    rw [hd, hN]
    show (if _ ∧ _ then _ else none) = _
    have e : (F.Fa.length + 1) / 2 = 8 := by rw [hF]; simp
    rw [e, if_pos ⟨by simp, rfl⟩]
    rfl

/-- **C99** (fifteen spheres). On a file with any other number of spheres the script of example (a) raises an
exception. -/
theorem C99_fifteen {d : Saved} {l : List (Option ℝ)} (h : example_a d = some l) :
    ∃ F, d.forces[0]? = some F ∧ F.Fa.length = 15 := by
  unfold example_a at h
  obtain ⟨F, hF, h⟩ := Option.bind_eq_some_iff.mp h
  obtain ⟨g, hg, h⟩ := Option.bind_eq_some_iff.mp h
  refine ⟨F, hF, ?_⟩
  unfold drag_coefficient at hg
  rw [hF, Option.bind_eq_bind, Option.bind_some] at hg
  obtain ⟨v, -, hg⟩ := Option.bind_eq_some_iff.mp hg
  split_ifs at hg with hl
  obtain rfl := Option.some.inj hg
  dsimp only at h
  split_ifs at h with hc
  obtain ⟨h1, h2⟩ := hc
  simp only [List.length_drop, List.length_zipWith] at h1
  omega

/-! ## Example (c) -/

/-- **C99** (volume fraction). On a file that starts with the cubic array of side `s`, example (c) plots at the place of
the volume fraction: the volume of eight unit spheres over that of the box. -/
theorem C99_fraction {s : ℝ} (hs : s ≠ 0) {d : Saved} (h : d.positions[0]? = some (cubicRows s).config) :
    example_c_phi d = some (8 * (4 / 3 * Real.pi * 1 ^ 3) / s ^ 3) := by
  have e : savedCentres (cubicRows s).config = (List.range 8).map (cubicRows s).config.P.spherePos := by
    simp [savedCentres, (cubic_brick s).Ns, (cubic_brick s).Nd]
  have x0 : (cubicRows s).config.P.spherePos 0 2 = -s / 4 := by
    simp [cubicRows, SetupRows.config, simple_cubic_8]
  have x1 : (cubicRows s).config.P.spherePos 1 2 = s / 4 := by
    simp [cubicRows, SetupRows.config, simple_cubic_8]
  unfold example_c_phi
  rw [h, Option.bind_eq_bind, Option.bind_some, e]
  show (if (2 * ((cubicRows s).config.P.spherePos 1 2 - (cubicRows s).config.P.spherePos 0 2)) ^ 3 = 0 then none else
    some (8 * 4 / 3 * Real.pi / (2 * ((cubicRows s).config.P.spherePos 1 2 - (cubicRows s).config.P.spherePos 0 2)) ^ 3)) = _
  rw [x0, x1, show 2 * (s / 4 - -s / 4) = s by ring, if_neg (pow_ne_zero 3 hs)]
  congr 1
  ring

theorem rest_wrap {s : ℝ} (hs : 0 < s) {x y : Vec3} (h : wrap_around x (simple_cubic_8_box s).1 (simple_cubic_8_box s).2 0 0 = some y)
    (k : Fin 3) : ∃ m : ℤ, y k = x k + m * s ∧ (-s / 2 ≤ x k → x k < s / 2 → m = 0) := by
  have hside : ∀ i, (simple_cubic_8_box s).1 i < (simple_cubic_8_box s).2 i := fun i => by
    simp only [simple_cubic_8_box]; linarith
  have hB : FoldedBox (fun i => (simple_cubic_8_box s).2 i - (simple_cubic_8_box s).1 i) 0 0
      (Ewald.boxBasis (simple_cubic_8_box s).1 (simple_cubic_8_box s).2 0 0) :=
    shear_basis_folded fun i => sub_pos.mpr (hside i)
  have hsp := (C30_simple_shear (fun i => sub_pos.mpr (hside i)) (show (0 : Fin 3) ≠ 2 by decide) rest_is_shear hB).1
  obtain ⟨y', h1, ⟨t, ht, h2⟩, ⟨m, h3⟩, -⟩ := C30_wrap hside hB hsp x
  obtain rfl : y = y' := Option.some.inj (h.symm.trans h1)
  have e : ∀ (v : Vec3) (k : Fin 3), combine (Ewald.boxBasis (simple_cubic_8_box s).1 (simple_cubic_8_box s).2 0 0) v k = v k * s := by
    intro v k
    simp only [combine, Sign.box_at_rest, simple_cubic_8_box, Fin.sum_univ_three]
    fin_cases k <;> simp <;> left <;> ring
  have a2 := congrFun h2 k
  have a3 := congrFun h3 k
  rw [e] at a2 a3
  refine ⟨-m k, by push_cast; linarith, fun q1 q2 => ?_⟩
  obtain ⟨t1, t2⟩ := ht k
  have b1 : ((m k : ℤ) : ℝ) < 1 := by
    by_contra hn
    have : s ≤ m k * s := by nlinarith
    nlinarith
  have b2 : (-1 : ℝ) < ((m k : ℤ) : ℝ) := by
    by_contra hn
    have : (m k : ℝ) * s ≤ -s := by nlinarith
    nlinarith
  have c1 : m k < 1 := by exact_mod_cast b1
  have c2 : -1 < m k := by exact_mod_cast b2
  omega

/-- The answer of input 2. -/
noncomputable def boxUser (P : PosData) : UserInput :=
  { defaultUserInput .fte P with
    inp := { (defaultUserInput .fte P).inp with Fa := List.replicate P.Ns (givenRow ![0, 0, -1]) }
    bl := (simple_cubic_8_box 8).1
    tr := (simple_cubic_8_box 8).2 }

theorem box_input (P : PosData) (f dt : ℝ) : input_ftsuoe 2 .fte P f dt = some (boxUser P) := by
  unfold input_ftsuoe boxUser
  simp

theorem box_periodic : ¬ ∀ k, (simple_cubic_8_box 8).1 k - (simple_cubic_8_box 8).2 k = 0 := fun hh => by
  have := hh 0
  norm_num [simple_cubic_8_box] at this

theorem box_wraps {st : Stage} (h1 : st.Ot = 0) (h2 : st.Et = 0) (x : ℕ → Vec3) :
    ∃ y, wrapIf (simple_cubic_8_box 8).1 (simple_cubic_8_box 8).2 st.Ot st.Et x = some y := by
  have hside : ∀ i, (simple_cubic_8_box 8).1 i < (simple_cubic_8_box 8).2 i := fun i => by
    norm_num [simple_cubic_8_box]
  have hB : FoldedBox (fun i => (simple_cubic_8_box 8).2 i - (simple_cubic_8_box 8).1 i) 0 0
      (Ewald.boxBasis (simple_cubic_8_box 8).1 (simple_cubic_8_box 8).2 0 0) :=
    shear_basis_folded fun i => sub_pos.mpr (hside i)
  have hsp := (C30_simple_shear (fun i => sub_pos.mpr (hside i)) (show (0 : Fin 3) ≠ 2 by decide) rest_is_shear hB).1
  unfold wrapIf
  rw [if_pos (show isPeriodic _ _ from box_periodic), h1, h2, if_pos fun i => by
    obtain ⟨y, hy, -⟩ := C30_wrap hside hB hsp (x i)
    rw [hy]; rfl]
  exact ⟨_, rfl⟩

theorem fte_strains {Ns Nd : ℕ} {R : NDMat} {x : Inputs} {p : Outputs} (h : solveFTE Ns Nd R x = some p) :
    x.Ea = p.Ea.map num33 := by
  unfold solveFTE at h
  obtain ⟨_, -, h⟩ := Option.bind_eq_some_iff.mp h
  obtain ⟨_, -, h⟩ := Option.bind_eq_some_iff.mp h
  obtain ⟨_, -, h⟩ := Option.bind_eq_some_iff.mp h
  obtain ⟨_, -, h⟩ := Option.bind_eq_some_iff.mp h
  obtain ⟨_, -, h⟩ := Option.bind_eq_some_iff.mp h
  obtain ⟨Ea, hE, h⟩ := Option.bind_eq_some_iff.mp h
  obtain ⟨_, -, h⟩ := Option.bind_eq_some_iff.mp h
  obtain ⟨_, -, h⟩ := Option.bind_eq_some_iff.mp h
  obtain rfl := Option.some.inj h
  exact floats33L_num hE

/-- **C99** (first sphere). What example (c) plots, for any file with two frames of any suspension with a sphere, with or
without dumbbells: `-6 π` times the distance that the first sphere has gone up in the first frame. -/
theorem C99_first_sphere {d : Saved} {c0 c1 : Config} {l : List Config} (hd : d.positions = c0 :: c1 :: l) (h0 : 0 < c0.P.Ns)
    (h1 : 0 < c1.P.Ns) : example_c_speed d = some (-6 * Real.pi * (c1.P.spherePos 0 2 - c0.P.spherePos 0 2)) := by
  have first : ∀ c : Config, 0 < c.P.Ns → ∃ m, savedCentres c = c.P.spherePos 0 :: m := fun c hc => by
    obtain ⟨n, hn⟩ := Nat.exists_eq_succ_of_ne_zero hc.ne'
    unfold savedCentres
    rw [hn, List.range_succ_eq_map]
    exact ⟨_, rfl⟩
  obtain ⟨m0, e0⟩ := first c0 h0
  obtain ⟨m1, e1⟩ := first c1 h1
  unfold example_c_speed speeds_of_particles
  rw [hd]
  show some (List.zipWith _ (savedCentres c1) (savedCentres c0)) >>= _ = _
  rw [e0, e1]
  show some (-((c1.P.spherePos 0 2 - c0.P.spherePos 0 2) / 1) * 6 * Real.pi) = _
  congr 1
  ring

/-- **C99** (files of periodic boxes). One Euler frame of spheres with input 2 in the form `fte`: whenever the grand
resistance matrix of the start can be made and is symmetric and positive definite, the program writes its file. -/
theorem C99_box_writes (hW : Ships 2 .fte W) (hform : S.input_form = .fte) (hR : Runnable S 0) (h1 : S.num_frames = 1)
    (hsch : S.scheme = .euler) (hN : 0 < c.P.Ns) (h0 : c.P.Nd = 0) (har : Arrows c)
    (hM : ∀ u, W.input_ftsuoe c 0 S.timestep Vel.blank none = some u → ∃ R C,
      generate_grand_resistance_matrix_periodic W S c.P (NDMat.zeros 1 1) true u = some (R, C) ∧ Sound c.P R) :
    ∃ d, program W S (State.fresh c) = some (some d, none) := by
  have hu : ∀ f dt lv X, W.input_ftsuoe c f dt lv X = some (boxUser c.P) := fun f dt lv X =>
    (hW c f dt lv X).trans (box_input c.P f dt)
  obtain ⟨R, C, hRC, sR⟩ := hM _ (hu _ _ _ _)
  have hz := shipped_sized (box_input c.P 0 0) (by omega)
  have hC := complete_fte (box_input c.P 0 0)
  have hEa : (boxUser c.P).inp.Ea ≠ [] := fun h => by
    have := hC.2.2.1.1
    rw [h] at this
    simp at this
    omega
  have hres : stageResistance W S c (NDMat.zeros 1 1) true (boxUser c.P) = some (R, C) := by
    unfold stageResistance
    rw [if_pos (show isPeriodic (boxUser c.P).bl (boxUser c.P).tr from box_periodic), if_neg hEa]
    exact hRC
  obtain ⟨X, hX⟩ := fte_exists hN sR.pos
  obtain ⟨out, ho⟩ := C09_spd_succeeds (form := .fte) ⟨fun h => absurd h (by omega), by simp⟩ hz sR.rows sR.cols
    (fun i _ j _ => sR.symm i j) sR.pos hC
  have hE : c.P.Ns ≤ out.Ea.length := by
    have := congrArg List.length (fte_strains (show solveFTE _ _ R (boxUser c.P).inp = some out from ho))
    rw [List.length_map] at this
    rw [← this]
    exact hC.2.2.1.1
  obtain ⟨st, hst, e1, e2, e3⟩ : ∃ st, generate_output_FTSUOE W S c ((0 : ℕ) : ℝ) (NDMat.zeros 1 1) true Vel.blank = some st ∧
      st.out = out ∧ st.Ot = 0 ∧ st.Et = 0 := by
    refine ⟨{ out := out, cache := C, U := 0, O := 0, centre := (boxUser c.P).centre, Ot := 0, Et := 0 }, ?_, rfl, rfl, rfl⟩
    unfold generate_output_FTSUOE
    rw [hu, Option.bind_eq_bind, Option.bind_some, hres, Option.bind_eq_bind, Option.bind_some]
    dsimp only
    rw [if_pos hform, hX, Option.bind_eq_bind, Option.bind_some, hu, Option.bind_eq_bind, Option.bind_some, hform, hR.extract, ho]
    rfl
  obtain ⟨v, hv⟩ := vel_exists (c := c) (st := st) (Ed := st.out.Ea) (by rw [e1]; exact hE) (fun h => absurd h (by omega))
  obtain ⟨r, hr⟩ : ∃ r, timeStep W S (boxUser c.P).bl (boxUser c.P).tr 0 c Vel.blank (NDMat.zeros 1 1) true = some r := by
    unfold timeStep
    rw [hsch]
    show ∃ r, stepEulerAb2 _ _ _ _ _ _ _ _ _ = some r
    unfold stepEulerAb2
    rw [hst, Option.bind_eq_bind, Option.bind_some, hv, Option.bind_eq_bind, Option.bind_some]
    dsimp only
    generalize (if S.fully_2d_problem = true then ({ v with Ua := zeroY v.Ua } : Vel) else v) = w
    rw [if_pos (show S.scheme = .euler ∨ 0 - S.start = 0 from .inl hsch),
      if_pos (show S.scheme = .euler ∨ 0 - S.start = 0 from .inl hsch), if_pos hN, if_neg (show ¬ 0 < c.P.Nd by omega)]
    obtain ⟨q, hq, -⟩ := spheres_exist har (euler_timestep c.P.spherePos w.Ua S.timestep) w.Oa S.timestep
    obtain ⟨y, hy⟩ := box_wraps e2 e3 (euler_timestep c.P.spherePos w.Ua S.timestep)
    have hy' : wrapIf (boxUser c.P).bl (boxUser c.P).tr st.Ot st.Et (euler_timestep c.P.spherePos w.Ua S.timestep) = some y := hy
    rw [hq, hy']
    exact ⟨_, rfl⟩
  have hsv := runnable_save hR
  obtain ⟨p, hp⟩ := savePositions_ok hsv (f := 0) (old := c) (new := r.new) (saved := none) (.inl rfl)
  obtain ⟨g, hg⟩ := saveForces_ok hsv (f := 0) (x := r.forces) (saved := none) (.inl rfl)
  obtain ⟨t, ht⟩ := saveTemp_ok hsv (f := 0) (p := p) (g := g) (t := none)
  have hreg : regen S 0 = true := by simp [regen]
  have hfr : frameStep W S (boxUser c.P).bl (boxUser c.P).tr 0 (State.fresh c) = some r := by
    unfold frameStep velIn cacheIn
    rw [hreg, if_pos (.inl rfl), if_pos rfl]
    exact hr
  refine ⟨⟨p, g⟩, ?_⟩
  unfold program
  refine Option.bind_eq_some_iff.mpr ⟨_, hu _ _ _ _, ?_⟩
  rw [hR.start, h1]
  refine Option.bind_eq_some_iff.mpr ⟨⟨r.new, r.error, r.cache, r.lastVel, some p, some g, t⟩, ?_, ?_⟩
  · show (runFrames W S _ _ (State.fresh c) 0).bind _ = _
    rw [show runFrames W S (boxUser c.P).bl (boxUser c.P).tr (State.fresh c) 0 = some (State.fresh c) from rfl, Option.bind_some,
      hR.start, frame_eq rfl hR.every, hfr, Option.bind_some]
    erw [hp]
    rw [Option.bind_some]
    erw [hg]
    rw [Option.bind_some]
    erw [ht]
    rfl
  · unfold finalSave
    rw [if_pos (.inl hR.force)]
    rfl

/-- **C99** (example c). Setup 3 with input 2 in the form `fte`, for one Euler or Adams-Bashforth frame, as example (c) of
the documentation runs it, whatever the matrices of the box: whenever the program writes a file, the script plots at the
volume fraction `π / 48`. What it plots there is `-6 π` times the vertical velocity `u` that the solver finds for the first
sphere and the timestep, because it takes the timestep to be 1, if that sphere stays in the box. If it leaves the box, and
has been put back, a multiple of the side 8 is added. -/
theorem C99_example_c (hW : Ships 2 .fte W) (hform : S.input_form = .fte) (hR : Runnable S 0) (h1 : S.num_frames = 1)
    (hsch : S.scheme ≠ .rk4) {d : Saved} {t : Option Saved}
    (h : program W S (State.fresh setup3.config) = some (some d, t)) :
    ∃ st, generate_output_FTSUOE W S setup3.config 0 (NDMat.zeros 1 1) true Vel.blank = some st ∧
      example_c_phi d = some (Real.pi / 48) ∧
      ∃ m : ℤ, example_c_speed d = some (-(S.timestep * st.out.Ua.getD 0 0 2 + m * 8) * 6 * Real.pi) ∧
        (-4 ≤ -2 + S.timestep * st.out.Ua.getD 0 0 2 → -2 + S.timestep * st.out.Ua.getD 0 0 2 < 4 → m = 0) := by
  obtain ⟨v, r, hv, hr, ho, -⟩ := program_one hR h1 h
  obtain rfl := Option.some.inj ho
  have eN : setup3.config.P.Ns = 8 := (cubic_brick 8).Ns
  have eD : setup3.config.P.Nd = 0 := rfl
  have hphi := C99_fraction (s := 8) (by norm_num) (d := ⟨[setup3.config, r.new], [r.forces]⟩) rfl
  rcases timeStep_cases hr with ⟨-, he⟩ | ⟨h4, -⟩
  swap
  · exact absurd h4 hsch
  obtain ⟨st, v0, w, p⟩ := euler_parts he
  have hst : generate_output_FTSUOE W S setup3.config 0 (NDMat.zeros 1 1) true Vel.blank = some st := by
    simpa using p.stage
  refine ⟨st, hst, ?_, ?_⟩
  · rw [hphi]
    congr 1
    ring
  · obtain ⟨u, R, u2, hu, -, -, hfte, hsol, eU, eO, -, eOt, eEt⟩ := output_some hst
    obtain ⟨X, -, hu2⟩ := hfte hform
    rw [hW, box_input] at hu2
    have hu2 := Option.some.inj hu2
    rw [hform] at hsol
    have hE := fte_strains (show solveFTE _ _ R u2.inp = some st.out from hsol)
    have i33 : Function.Injective num33 := fun a b h => num33_inj h
    have pE : st.out.Ea = List.replicate setup3.config.P.Ns 0 := by
      refine replicate_num i33 (Eq.trans ?_ hE)
      rw [← hu2]; rfl
    have zU : st.U = 0 := by rw [eU, ← hu2]; rfl
    have zO : st.O = 0 := by rw [eO, ← hu2]; rfl
    have zOt : st.Ot = 0 := by rw [eOt, ← hu2]; rfl
    have zEt : st.Et = 0 := by rw [eEt, ← hu2]; rfl
    have hv' : v.bl = (simple_cubic_8_box 8).1 ∧ v.tr = (simple_cubic_8_box 8).2 := by
      rw [hW, box_input] at hv
      rw [← Option.some.inj hv]
      exact ⟨rfl, rfl⟩
    obtain ⟨new, rots, e1, -, e2, -⟩ := p.spheres (by rw [eN]; norm_num)
    rw [if_pos (.inr (Nat.zero_sub _))] at e1
    rw [hv'.1, hv'.2] at e2
    have hwrap := (wrapIf_wrapped e2 0).2 box_periodic
    rw [zOt, zEt] at hwrap
    obtain ⟨m, hm, hm0⟩ := rest_wrap (by norm_num) hwrap 2
    have x0 : setup3.config.P.spherePos 0 2 = -2 := by
      simp [SetupRows.config, setup3, simple_cubic_8]; norm_num
    have ev : v0.Ua 0 2 = st.out.Ua.getD 0 0 2 := by
      rw [(stageVel_spheres p.vel (by rw [eN]; norm_num)).1]
      unfold sphereVel
      rw [pE, zU, zO, replicate_getD (by rw [eN]; norm_num)]
      simp [affineFlow, cross, app, dotp]
    have ew : w.Ua 0 2 = st.out.Ua.getD 0 0 2 := by
      rw [p.flat]
      split
      · show zeroY v0.Ua 0 2 = _
        unfold zeroY
        rw [if_neg (by decide), ev]
      · exact ev
    have en : new 0 2 = -2 + S.timestep * st.out.Ua.getD 0 0 2 := by
      rw [e1]
      show setup3.config.P.spherePos 0 2 + S.timestep * w.Ua 0 2 = _
      rw [x0, ew]
    rw [en] at hm hm0
    refine ⟨m, ?_, fun a b => hm0 (by linarith) (by linarith)⟩
    have hz := timeStep_sizes hr
    have s0 : savedCentres setup3.config = (List.range 8).map setup3.config.P.spherePos := by simp [savedCentres, eN, eD]
    have s1 : savedCentres r.new = (List.range 8).map r.new.P.spherePos := by
      simp [savedCentres, hz.1, hz.2.1, eN, eD]
    have hsp : speeds_of_particles ⟨[setup3.config, r.new], [r.forces]⟩
        = some ((List.range 8).map fun i k => (r.new.P.spherePos i k - setup3.config.P.spherePos i k) / 1) := by
      show some (List.zipWith _ (savedCentres r.new) (savedCentres setup3.config)) = _
      rw [s0, s1, zipWith_range]
    unfold example_c_speed
    rw [hsp]
    show some (-((r.new.P.spherePos 0 2 - setup3.config.P.spherePos 0 2) / 1) * 6 * Real.pi) = _
    rw [hm, x0]
    congr 1
    ring

/-- **C99** (example c, all spheres). With the matrices that the code makes for the box and a range of the near field
below `4 √2`, the velocity that the script reads off the first sphere is that of all eight. -/
theorem C99_example_c_all {n : ℕ} {T : ScalarTable} {input : Config → ℝ → ℝ → Vel → Option NDMat → Option UserInput} {bb : Bool}
    (hW : Ships 2 .fte (boxWorld n T input bb)) (hT : ∃ t ∈ T.lam, |t - 1| ≤ 1 / 10 ^ 8 + 1 / 10 ^ 5)
    (hform : S.input_form = .fte) (hR : Runnable S 0) (h1 : S.num_frames = 1) (hsch : S.scheme ≠ .rk4)
    (hk2 : S.cutoff_factor ^ 2 < 8) {d : Saved} {t : Option Saved}
    (h : program (boxWorld n T input bb) S (State.fresh setup3.config) = some (some d, t)) :
    ∃ (st : Stage) (u : ℝ) (m : ℤ),
      generate_output_FTSUOE (boxWorld n T input bb) S setup3.config 0 (NDMat.zeros 1 1) true Vel.blank = some st ∧
      (∀ i < 8, st.out.Ua.getD i 0 2 = u) ∧ example_c_phi d = some (Real.pi / 48) ∧
      example_c_speed d = some (-(S.timestep * u + m * 8) * 6 * Real.pi) ∧
      (-4 ≤ -2 + S.timestep * u → -2 + S.timestep * u < 4 → m = 0) := by
  obtain ⟨st, hst, h2, m, h3, h4⟩ := C99_example_c hW hform hR h1 hsch h
  exact ⟨st, _, m, hst, fun i hi => C96_example_c hW hT hform hR.extract hR.cutoff.le hk2 hst hi (by norm_num), h2, h3, h4⟩

/-! ## The hypotheses can be met -/

/-- Example (a) as shipped. -/
example : ∃ w : ℕ → ℝ, (∀ j ≤ 7, w (7 + j) = w (7 - j)) ∧ ∑ i ∈ range 15, w i < 0 ∧
    ∀ h, ∃ d, program (listedWorld 1 .fte) (stepped fallSettings h) (State.fresh setup1.config) = some (some d, none) ∧
      example_a d = some ((List.range 8).map fun j => stokesRatio (h * w (7 + j))) := by
  obtain ⟨w, h1, h2, -, h3⟩ := C99_example_a (W := listedWorld 1 .fte) (S := fallSettings) rfl rfl (listedWorld_ships 1 .fte) rfl
    (starSettings_ok 1 (.inl rfl) |> fun h => ⟨h.scheme, h.extract, h.cutoff, h.every, h.start, h.first, h.pos, h.force, h.temp⟩)
    rfl (by simp [fallSettings, starSettings, loneSettings])
  exact ⟨w, h1, h2, h3⟩

/-- A box in which the spheres do not feel each other. -/
noncomputable def deafWorld : World where
  table := dampT
  input_ftsuoe := fun c f dt _ _ => input_ftsuoe 2 .fte c.P f dt
  Minfinity_periodic := fun P _ _ _ _ _ => npDiag (List.replicate (side P) 1)
  R2Bexact_periodic := fun P _ _ _ _ _ _ => some (NDMat.zeros (side P) (side P))

theorem unit_inv (l : ℕ) : ∃ C, (npDiag (List.replicate l (1 : ℝ))).inv = some C ∧ C.rows = l ∧ C.cols = l ∧
    ∀ i j, C.get i j = if i = j ∧ i < l then 1 else 0 := by
  have hl : (npDiag (List.replicate l (1 : ℝ))).rows = l := List.length_replicate
  have h1 : (npDiag (List.replicate l (1 : ℝ))).toMatrix = 1 := by
    ext i j
    have hi : i.1 < l := i.2.trans_eq hl
    rw [Matrix.one_apply]
    simp only [Fin.ext_iff]
    simp [NDMat.toMatrix, npDiag, hi]
  unfold NDMat.inv
  rw [if_pos ⟨rfl, by rw [h1, Matrix.det_one]; exact one_ne_zero⟩, h1, inv_one]
  refine ⟨_, rfl, hl, hl, fun i j => ?_⟩
  dsimp only
  by_cases h : i = j
  · subst h
    by_cases hi : i < l
    · rw [dif_pos ⟨hi.trans_eq hl.symm, hi.trans_eq hl.symm⟩, if_pos ⟨rfl, hi⟩, Matrix.one_apply_eq]
    · rw [dif_neg fun h => hi (h.1.trans_eq hl), if_neg fun h => hi h.2]
  · rw [if_neg fun hh => h hh.1]
    split_ifs with hh
    · exact Matrix.one_apply_ne fun e => h (congrArg Fin.val e)
    · rfl

/-- A box of eight spheres, for which the program writes a file that the script can read. -/
example : ∃ d, program deafWorld fallSettings (State.fresh setup3.config) = some (some d, none) ∧
    example_c_phi d = some (Real.pi / 48) ∧ ∃ v, example_c_speed d = some v := by
  have hR : Runnable fallSettings 0 :=
    starSettings_ok 1 (.inl rfl) |> fun h => ⟨h.scheme, h.extract, h.cutoff, h.every, h.start, h.first, h.pos, h.force, h.temp⟩
  obtain ⟨d, hd⟩ := C99_box_writes (W := deafWorld) (S := fallSettings) (c := setup3.config) (fun _ _ _ _ _ => rfl) rfl hR rfl rfl
    (by decide) rfl (defaultRots_arrows (P := setup3.config.P) fun i hi => by
      rw [show setup3.config.P.sphereSize i = [1, 1, 1, 1, 1, 1, 1, 1].getD i 0 from rfl]
      have : i < 8 := hi
      interval_cases i <;> norm_num) (fun u _ => by
      obtain ⟨C, hC, h1, h2, h3⟩ := unit_inv (side setup3.config.P)
      have hg : ∀ i j, (C.add (NDMat.zeros (side setup3.config.P) (side setup3.config.P))).get i j
          = if i = j ∧ i < side setup3.config.P then 1 else 0 := fun i j => by
        show C.get i j + 0 = _
        rw [add_zero, h3]
      refine ⟨C.add (NDMat.zeros (side setup3.config.P) (side setup3.config.P)), C, ?_, h1, h2, fun i j => ?_, ?_⟩
      · unfold generate_grand_resistance_matrix_periodic
        rw [if_pos (show fallSettings.use_drag_Minfinity = false from rfl), if_pos rfl, show deafWorld.Minfinity_periodic setup3.config.P u.bl u.tr u.mu u.Ot u.Et
          = npDiag (List.replicate (side setup3.config.P) 1) from rfl, hC]
        rfl
      · rw [hg, hg]
        by_cases h : i = j
        · subst h; rfl
        · rw [if_neg fun hh => h hh.1, if_neg fun hh => h hh.1.symm]
      · refine posDef_iff.mpr fun v ⟨i, hi, hne⟩ => ?_
        have e : ∀ k ∈ Finset.range (side setup3.config.P), v k * mulVec (side setup3.config.P) (C.add (NDMat.zeros (side setup3.config.P)
            (side setup3.config.P))).get v k = v k ^ 2 := fun k hk => by
          unfold mulVec
          rw [Finset.sum_eq_single_of_mem k hk fun j _ hj => by rw [hg, if_neg fun hh => hj hh.1.symm, zero_mul], hg,
            if_pos ⟨rfl, Finset.mem_range.mp hk⟩]
          ring
        rw [Finset.sum_congr rfl e]
        exact Finset.sum_pos' (fun k _ => sq_nonneg _) ⟨i, Finset.mem_range.mpr hi, by positivity⟩)
  obtain ⟨_, _, h2, m, h3, _⟩ := C99_example_c (W := deafWorld) (S := fallSettings) (fun _ _ _ _ _ => rfl) rfl hR rfl
    (by simp [fallSettings, starSettings, loneSettings]) hd
  exact ⟨d, hd, h2, _, h3⟩

end SD
