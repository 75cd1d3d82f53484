import Verif.Lemmas.CovarianceParts
import Verif.Props.Isotropy

/-!
# C18 (grand resistance), C55, C56: changes of numbering, units and axes
-/

set_option autoImplicit false

namespace SD

open Spec Cov

/-! ## C55: units -/

/-- **C55** (far field). If all lengths are multiplied by `k`, torques and stresslets by `k` and forces by 1, then the
far-field mobility matrix gives velocities divided by `k`, and angular velocities and rates of strain divided by `k²`. -/
theorem C55_farfield {P : PosData} {k : ℝ} (hk : 0 < k) (hP : Sensible P) (hP' : Sensible (rescaled P k)) (mu : ℝ)
    (bb : Bool) {f f' : ℕ → ℝ} (hf : LoadsRescaled P.Ns P.Nd k f f') :
    MotionsRescaled P.Ns P.Nd k (mulVec (side P) (generate_Minfinity P mu bb).get f)
      (mulVec (side P) (generate_Minfinity (rescaled P k) mu bb).get f') :=
  (acts_motion hk).mp (far_dumb (P := P) (P' := rescaled P k) rfl rfl (Renum.id _ _) (far_rescaled hk hP hP') f f'
    ((acts_load hk).mpr hf))

/-- **C55** (near field). The lubrication corrections scale in the same way; the scalar tables are dimensionless and
the same pairs are close. -/
theorem C55_nearfield {T : ScalarTable} {P : PosData} {k : ℝ} (hk : 0 < k) (hP : Sensible P)
    (hP' : Sensible (rescaled P k)) {c : ℝ} (hc : 0 < c) (hT : Tabulated T.lam P c) (mu : ℝ) (bb : Bool) :
    ∃ N N', generate_R2Bexact T P c mu bb = some N ∧ generate_R2Bexact T (rescaled P k) c mu bb = some N' ∧
      ∀ v v', MotionsRescaled P.Ns P.Nd k v v' →
        LoadsRescaled P.Ns P.Nd k (mulVec (side P) N.get v) (mulVec (side P) N'.get v') := by
  obtain ⟨N, N', h1, h2, h3⟩ := near_dumb (P := P) (P' := rescaled P k) (mu := mu) rfl rfl (Renum.id _ _)
    (near_rescaled hk bb hP hP' hc hT)
  exact ⟨N, N', h1, h2, fun v v' hv => (acts_load hk).mp (h3 v v' ((acts_motion hk).mpr hv))⟩

/-- **C55** (grand resistance). In every mode (drag approximation, far field only, far field kept from an earlier
frame), the grand resistance matrix and the far-field part of the rescaled configuration exist and give the rescaled
loads. A far-field matrix kept from an earlier frame has to be that of a rescaled configuration, too. -/
theorem C55_grand {T : ScalarTable} {P : PosData} {k : ℝ} (hk : 0 < k) (hP : Sensible P)
    (hP' : Sensible (rescaled P k)) {c : ℝ} (hc : 0 < c) (hT : Tabulated T.lam P c) {last last' : NDMat}
    {reg dragM only bb : Bool} {mu : ℝ} {R C : NDMat}
    (hl : dragM = false → reg = false → ∀ v v', MotionsRescaled P.Ns P.Nd k v v' →
      LoadsRescaled P.Ns P.Nd k (mulVec (side P) last.get v) (mulVec (side P) last'.get v'))
    (h : generate_grand_resistance_matrix T P last reg c dragM only mu bb = some (R, C)) :
    ∃ R' C', generate_grand_resistance_matrix T (rescaled P k) last' reg c dragM only mu bb = some (R', C') ∧
      ∀ v v', MotionsRescaled P.Ns P.Nd k v v' →
        LoadsRescaled P.Ns P.Nd k (mulVec (side P) R.get v) (mulVec (side P) R'.get v') ∧
        LoadsRescaled P.Ns P.Nd k (mulVec (side P) C.get v) (mulVec (side P) C'.get v') := by
  obtain ⟨R', C', h1, h2⟩ := grand_acts (P := P) (P' := rescaled P k) (last' := last') rfl rfl (Renum.id _ _)
    (undo_load hk _ _) (undo_motion hk _ _) (fun _ => far_rescaled hk hP hP')
    (fun _ => near_rescaled hk bb hP hP' hc hT) (fun _ => drag_rescaled hk P)
    (fun e1 e2 v v' hv => (acts_load hk).mpr (hl e1 e2 v v' ((acts_motion hk).mp hv))) h
  exact ⟨R', C', h1, fun v v' hv => (h2 v v' ((acts_motion hk).mpr hv)).imp (acts_load hk).mp (acts_load hk).mp⟩

/-- Enlarged configurations stay sensible. -/
theorem rescaled_sensible {P : PosData} (hP : Sensible P) {k : ℝ} (hk : 1 ≤ k) : Sensible (rescaled P k) where
  radius_pos := by
    intro x hx
    rw [radius_rescaled]
    exact mul_pos (by linarith) (hP.radius_pos x hx)
  apart := by
    intro x hx y hy e
    have h := hP.apart x hx y hy e
    rw [centre_rescaled]
    have e2 : (fun i => k * centre P x i - k * centre P y i) = fun i => k * (fun i => centre P x i - centre P y i) i := by
      funext i; ring
    rw [e2, len_scale (by linarith)]
    have h0 : 0 ≤ len fun i => centre P x i - centre P y i := le_trans (by norm_num) h.le
    nlinarith

/-- Every load vector has a rescaled one. -/
example : ∃ f', MotionsRescaled 2 1 3 (mulVec (side demoP) (generate_Minfinity demoP 2 true).get fun i => i) f' := by
  obtain ⟨f', h⟩ := acts_total (Ns := 2) (Nd := 1) (loadK 3) (fun u => u) fun i => (i : ℝ)
  exact ⟨_, C55_farfield (k := 3) (by norm_num) demoP_sensible (rescaled_sensible demoP_sensible (by norm_num)) 2 true
    ((acts_load (by norm_num)).mp h)⟩

example := C55_nearfield (T := demoT) (k := 3) (by norm_num) demoP_sensible
  (rescaled_sensible demoP_sensible (by norm_num)) (c := 2) (by norm_num) (demoT_tabulated 2) 2 false

/-! ## C56: axes -/

/-- **C56** (near field). Turning (or reflecting) the configuration turns the lubrication corrections. -/
theorem C56_nearfield {T : ScalarTable} {P : PosData} (hP : Sensible P) {Q : Fin 3 → Fin 3 → ℝ} (hQ : Orthogonal Q)
    {c : ℝ} (hc : 0 < c) (hT : Tabulated T.lam P c) (mu : ℝ) (bb : Bool) :
    ∃ N N', generate_R2Bexact T P c mu bb = some N ∧ generate_R2Bexact T (turned P Q) c mu bb = some N' ∧
      ∀ v v', GrandTurned P.Ns P.Nd Q v v' →
        GrandTurned P.Ns P.Nd Q (mulVec (side P) N.get v) (mulVec (side P) N'.get v') := by
  obtain ⟨N, N', h1, h2, h3⟩ := near_dumb (P := P) (P' := turned P Q) (mu := mu) rfl rfl (Renum.id _ _)
    (near_turned hQ bb hP hc hT)
  exact ⟨N, N', h1, h2, fun v v' hv => acts_turn.mp (h3 v v' (acts_turn.mpr hv))⟩

/-- **C56** (far field), for the matrix that is returned: in dumbbell coordinates. -/
theorem C56_farfield {P : PosData} (hP : Sensible P) {Q : Fin 3 → Fin 3 → ℝ} (hQ : Orthogonal Q) (mu : ℝ) (bb : Bool)
    {f f' : ℕ → ℝ} (hf : GrandTurned P.Ns P.Nd Q f f') :
    GrandTurned P.Ns P.Nd Q (mulVec (side P) (generate_Minfinity P mu bb).get f)
      (mulVec (side P) (generate_Minfinity (turned P Q) mu bb).get f') :=
  acts_turn.mp (far_dumb (P := P) (P' := turned P Q) rfl rfl (Renum.id _ _) (far_turned hQ hP) f f' (acts_turn.mpr hf))

/-- **C56** (grand resistance). In every mode, the grand resistance matrix and the far-field part of the turned
configuration exist and give the turned loads for turned motions. -/
theorem C56_grand {T : ScalarTable} {P : PosData} (hP : Sensible P) {Q : Fin 3 → Fin 3 → ℝ} (hQ : Orthogonal Q)
    {c : ℝ} (hc : 0 < c) (hT : Tabulated T.lam P c) {last last' : NDMat}
    {reg dragM only bb : Bool} {mu : ℝ} {R C : NDMat}
    (hl : dragM = false → reg = false → ∀ v v', GrandTurned P.Ns P.Nd Q v v' →
      GrandTurned P.Ns P.Nd Q (mulVec (side P) last.get v) (mulVec (side P) last'.get v'))
    (h : generate_grand_resistance_matrix T P last reg c dragM only mu bb = some (R, C)) :
    ∃ R' C', generate_grand_resistance_matrix T (turned P Q) last' reg c dragM only mu bb = some (R', C') ∧
      ∀ v v', GrandTurned P.Ns P.Nd Q v v' →
        GrandTurned P.Ns P.Nd Q (mulVec (side P) R.get v) (mulVec (side P) R'.get v') ∧
        GrandTurned P.Ns P.Nd Q (mulVec (side P) C.get v) (mulVec (side P) C'.get v') := by
  obtain ⟨R', C', h1, h2⟩ := grand_acts (P := P) (P' := turned P Q) (last' := last') rfl rfl (Renum.id _ _)
    (undo_turnK hQ (Renum.id _ _)) (undo_turnK hQ (Renum.id _ _)) (fun _ => far_turned hQ hP)
    (fun _ => near_turned hQ bb hP hc hT) (fun _ => drag_turned P Q)
    (fun e1 e2 v v' hv => acts_turn.mpr (hl e1 e2 v v' (acts_turn.mp hv))) h
  exact ⟨R', C', h1, fun v v' hv => (h2 v v' (acts_turn.mpr hv)).imp acts_turn.mp acts_turn.mp⟩

example := C56_nearfield (T := demoT) demoP_sensible mirror_orth (c := 2) (by norm_num) (demoT_tabulated 2) 3 true
example : ∃ f', GrandTurned 2 1 demoQ (mulVec (side demoP) (generate_Minfinity demoP 3 true).get fun i => i) f' := by
  obtain ⟨f', h⟩ := acts_total (Ns := 2) (Nd := 1) (turnK demoQ) (fun u => u) fun i => (i : ℝ)
  exact ⟨_, C56_farfield demoP_sensible demoQ_orth 3 true (acts_turn.mp h)⟩

/-! ## C18: numbering -/

/-- **C18** (grand resistance, any table that satisfies the reciprocal theorem; it has to, see `C18_needs_reciprocity`, and
the tables of the project's scripts do, see `C18_grand`). In every mode, renumbering spheres by a permutation `σ` and dumbbells by a permutation `τ`
renumbers the loads that the grand resistance matrix gives for renumbered motions. -/
theorem C18_grand_of_reciprocal {T : ScalarTable} {P : PosData} (hP : Sensible P) {c : ℝ} (hc : 0 < c)
    (hT : Tabulated T.lam P c)
    (hrec : ∀ x < beads P, ∀ y < beads P, x ≠ y → ∀ s : ℝ,
      Reciprocal (tableScal T 1 (radius P y / radius P x) s) (tableScal T 1 (radius P x / radius P y) s)
        (radius P x) (radius P y))
    {σ τ : ℕ → ℕ} (hσ : ∀ i < P.Ns, σ i < P.Ns)
    (hτ : ∀ i < P.Nd, τ i < P.Nd) (iσ : ∀ i < P.Ns, ∀ j < P.Ns, σ i = σ j → i = j)
    (iτ : ∀ i < P.Nd, ∀ j < P.Nd, τ i = τ j → i = j) {last last' : NDMat}
    {reg dragM only bb : Bool} {mu : ℝ} {R C : NDMat}
    (hl : dragM = false → reg = false → ∀ v v', GrandRenumbered P.Ns P.Nd σ τ v v' →
      GrandRenumbered P.Ns P.Nd σ τ (mulVec (side P) last.get v) (mulVec (side P) last'.get v'))
    (h : generate_grand_resistance_matrix T P last reg c dragM only mu bb = some (R, C)) :
    ∃ R' C', generate_grand_resistance_matrix T (relabel P σ τ) last' reg c dragM only mu bb = some (R', C') ∧
      ∀ v v', GrandRenumbered P.Ns P.Nd σ τ v v' →
        GrandRenumbered P.Ns P.Nd σ τ (mulVec (side P) R.get v) (mulVec (side P) R'.get v') ∧
        GrandRenumbered P.Ns P.Nd σ τ (mulVec (side P) C.get v) (mulVec (side P) C'.get v') := by
  have hβ := renum_beadMap hσ hτ iσ iτ
  have dual : Dual oneK oneK := dual_diagK fun _ => one_mul 1
  have ud : Undo P.Ns P.Nd oneK (beadMap P.Ns P.Nd σ τ) := undo_diagK hβ (w' := fun _ => 1) fun _ => one_mul 1
  have far : ∀ f f', Acts P.Ns P.Nd oneK (beadMap P.Ns P.Nd σ τ) f f' →
      Acts P.Ns P.Nd oneK (beadMap P.Ns P.Nd σ τ) (mulVec (side P) (farB P mu bb).get f)
        (mulVec (side P) (farB (relabel P σ τ) mu bb).get f') := by
    intro f f' hf
    refine acts_mul hβ dual (fun x c1 y c2 hx hy => ?_) hf
    simp only [oneK, mix_diagK, one_mul]
    exact C18_farfield hP hσ hτ iσ iτ mu bb hx hy
  have near : NearActs T P (relabel P σ τ) c bb oneK oneK (beadMap P.Ns P.Nd σ τ) := by
    obtain ⟨B, B', e1, e2, e3⟩ := C18_nearfield_of_reciprocal hP hc hT hrec hσ hτ iσ iτ bb
    obtain ⟨M, f1, f2, f3, -⟩ := near_entry hP hc hT bb
    rw [e1] at f1
    obtain rfl := Option.some.inj f1
    have hT' : Tabulated T.lam (relabel P σ τ) c := by
      intro x hx y hy h
      have hx' := centre_relabel P hσ hτ hx
      have hy' := centre_relabel P hσ hτ hy
      rw [hx'.2, hy'.2]
      refine hT _ (hβ.lt hx) _ (hβ.lt hy) (h.imp (fun e => by rw [e]) fun h => ?_)
      unfold openLink at h ⊢
      rwa [hx'.1, hx'.2, hy'.1, hy'.2] at h
    obtain ⟨M', g1, g2, g3, -⟩ := near_entry (relabel_sensible hP hσ hτ iσ iτ) hc hT' bb
    have e2' : generate_R2Bexact_loop T (NDMat.zeros (side (relabel P σ τ)) (side (relabel P σ τ)))
        (relabel P σ τ).Ns (relabel P σ τ).Nd (relabel P σ τ).beadSize bb
        (close_particles (beads (relabel P σ τ)) (relabel P σ τ).beadPos (relabel P σ τ).beadSize c) = some B' := e2
    rw [e2'] at g1
    obtain rfl := Option.some.inj g1
    refine ⟨B, B', e1, ⟨f2, f3⟩, e2', ⟨g2, g3⟩, fun v v' hv => acts_mul hβ dual (fun x c1 y c2 hx hy => ?_) hv⟩
    simp only [oneK, mix_diagK, one_mul]
    exact e3 x c1 y c2 hx hy
  obtain ⟨R', C', h1, h2⟩ := grand_acts (P := P) (P' := relabel P σ τ) (last' := last') rfl rfl hβ ud ud
    (fun _ => far) (fun _ => near) (fun _ => drag_renum hσ hτ hβ)
    (fun e1 e2 v v' hv => acts_renum.mpr (hl e1 e2 v v' (acts_renum.mp hv))) h
  exact ⟨R', C', h1, fun v v' hv => (h2 v v' (acts_renum.mpr hv)).imp acts_renum.mp acts_renum.mp⟩

/-! ## The hypotheses can be met -/

/-- The example has a grand resistance matrix in the drag approximation with lubrication. -/
theorem demo_grand (T : ScalarTable) (hT : Tabulated T.lam demoP 2) :
    ∃ R C, generate_grand_resistance_matrix T demoP (NDMat.zeros 1 1) false 2 true false 3 true = some (R, C) := by
  obtain ⟨N, hN, -⟩ := C20_symmetric demoP_sensible (k := 2) (by norm_num) hT 3 true
  refine ⟨N.add (NDMat.smul 3 (npDiag (dragDiagonal demoP))), NDMat.smul 3 (npDiag (dragDiagonal demoP)), ?_⟩
  unfold generate_grand_resistance_matrix
  rw [if_neg (by simp), Option.bind_eq_bind, Option.bind_some, if_pos rfl, hN]
  rfl

example : ∃ R C R' C' : NDMat, generate_grand_resistance_matrix demoT demoP (NDMat.zeros 1 1) false 2 true false 3 true
      = some (R, C) ∧
    generate_grand_resistance_matrix demoT (turned demoP demoQ) (NDMat.zeros 1 1) false 2 true false 3 true
      = some (R', C') := by
  obtain ⟨R, C, h⟩ := demo_grand demoT (demoT_tabulated 2)
  obtain ⟨R', C', h', -⟩ := C56_grand (last' := NDMat.zeros 1 1) demoP_sensible demoQ_orth (by norm_num)
    (demoT_tabulated 2) (by simp) h
  exact ⟨R, C, R', C', h, h'⟩

example : ∃ R' C' : NDMat, generate_grand_resistance_matrix demoT (rescaled demoP 5) (NDMat.zeros 1 1) false 2 true
    false 3 true = some (R', C') := by
  obtain ⟨R, C, h⟩ := demo_grand demoT (demoT_tabulated 2)
  obtain ⟨R', C', h', -⟩ := C55_grand (k := 5) (last' := NDMat.zeros 1 1) (by norm_num) demoP_sensible
    (rescaled_sensible demoP_sensible (by norm_num)) (by norm_num) (demoT_tabulated 2) (by simp) h
  exact ⟨R', C', h'⟩

example : ∃ R' C' : NDMat, generate_grand_resistance_matrix recipT (relabel demoP (fun i => 1 - i) id) (NDMat.zeros 1 1)
    false 2 true false 3 true = some (R', C') := by
  obtain ⟨R, C, h⟩ := demo_grand recipT (demoT_tabulated 2)
  obtain ⟨R', C', h', -⟩ := C18_grand_of_reciprocal (T := recipT) (last' := NDMat.zeros 1 1) demoP_sensible (by norm_num) (demoT_tabulated 2)
    (fun x hx y hy _ s => recipT_recip 1 s x hx y hy) (σ := fun i => 1 - i) (τ := id)
    (by simp only [demoP]; intros; omega) (by simp [demoP]) (by simp only [demoP]; intros; omega) (by simp)
    (by simp) h
  exact ⟨R', C', h'⟩

end SD
