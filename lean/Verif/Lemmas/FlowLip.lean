import Verif.Lemmas.AnswerLip
import Verif.Spec.Converge
import Verif.Props.Progress

/-!
# The velocities of the spheres are locally Lipschitz functions of their places
-/

set_option autoImplicit false

namespace SD.Lip

open Spec Filter Topology Nearby Move

/-- The particles of `c`, anywhere. -/
def Locs (c : Config) : Type := { d : Config // SameSizes c d }

/-- The places of the spheres. -/
def posOf {c : Config} (d : Locs c) : Fin c.P.Ns → Vec3 := fun i => d.1.P.spherePos i

noncomputable instance (c : Config) : PseudoMetricSpace (Locs c) := PseudoMetricSpace.induced posOf inferInstance

theorem locs_dist {c : Config} (d e : Locs c) : dist d e = dist (posOf d) (posOf e) := rfl

theorem posOf_lipschitz (c : Config) : LipschitzWith 1 (posOf (c := c)) := LipschitzWith.of_dist_le_mul fun d e => by
  rw [locs_dist]; simp

/-- The spheres of `c` in the places `x`. -/
def rep {c : Config} (x : Fin c.P.Ns → Vec3) : Locs c :=
  ⟨⟨{ c.P with spherePos := fun i => if h : i < c.P.Ns then x ⟨i, h⟩ else 0 }, c.rots⟩, ⟨rfl, rfl, rfl, rfl⟩⟩

theorem posOf_rep {c : Config} (x : Fin c.P.Ns → Vec3) : posOf (rep x) = x := by
  funext i
  simp [posOf, rep]

section
variable {α : Type} [PseudoMetricSpace α] {c : Config} {t0 : α}

theorem locs_places (hd : c.P.Nd = 0) {f : α → Locs c} (hf : LL f t0) : Places (fun t => (f t).1.P) t0 := by
  refine ⟨fun t => by rw [(f t).2.Ns, (f t0).2.Ns], fun t => by rw [(f t).2.Nd, (f t0).2.Nd], fun t x _ => by
    rw [(same_beads (f t).2).2, (same_beads (f t0).2).2], fun x hx k => ?_⟩
  have hx' : x < c.P.Ns := by
    have := (f t0).2.Ns
    have := (f t0).2.Nd
    unfold beads at hx
    omega
  have h1 : LL (fun t => posOf (f t)) t0 := LL.comp (g := posOf) ⟨1, Set.univ, univ_mem, (posOf_lipschitz c).lipschitzOnWith⟩ hf
  have h2 := (h1.eval ⟨x, hx'⟩).eval k
  refine h2.congr (Eventually.of_forall fun t => ?_)
  show posOf (f t) ⟨x, hx'⟩ k = centre (f t).1.P x k
  unfold centre posOf
  rw [if_pos (by rw [(f t).2.Ns]; exact hx')]

theorem clear_eventually (hd : c.P.Nd = 0) {d0 : Locs c} (h : Loose d0.1.P) : ∀ᶠ d in 𝓝 d0, ¬ Touching d.1.P := by
  have hA : Places (fun d : Locs c => d.1.P) d0 := locs_places (f := fun d => d) hd (LL.id d0)
  have key : ∀ x < beads d0.1.P, ∀ y < beads d0.1.P, ∀ᶠ d : Locs c in 𝓝 d0, x ≠ y →
      2.001 * ((radius d0.1.P x + radius d0.1.P y) / 2) < len (fun i => centre d.1.P x i - centre d.1.P y i) := by
    intro x hx y hy
    by_cases hxy : x = y
    · exact Eventually.of_forall fun _ h => absurd hxy h
    have h1 := len_tendsto (gap_tendsto hA.approaches hx hy)
    exact (h1.eventually (lt_mem_nhds (h x hx y hy hxy))).mono fun _ h _ => h
  have all : ∀ᶠ d : Locs c in 𝓝 d0, ∀ x : Fin (beads d0.1.P), ∀ y : Fin (beads d0.1.P), x.1 ≠ y.1 →
      2.001 * ((radius d0.1.P x + radius d0.1.P y) / 2) < len (fun i => centre d.1.P x i - centre d.1.P y i) :=
    eventually_all.mpr fun x => eventually_all.mpr fun y => key x x.2 y y.2
  filter_upwards [all] with d hd'
  rintro ⟨x, hx, y, hy, hxy, h⟩
  have e := same_count hA.approaches d
  have := hd' ⟨x, by rw [← e]; exact hx⟩ ⟨y, by rw [← e]; exact hy⟩ hxy
  dsimp only at this
  rw [← hA.size d x (by rw [← e]; exact hx), ← hA.size d y (by rw [← e]; exact hy)] at this
  exact absurd h (not_lt.mpr this.le)

end

/-! ## Velocities -/

section
variable (W : World) (S : Settings) (c : Config) (u : UserInput)

/-- `out` solves for the places of `d` with the far field of the places of `q`. -/
def Solved (d q : Locs c) (out : Outputs) : Prop := ∃ C R,
  (generate_Minfinity q.1.P u.mu S.bead_bead_interactions).inv = some C ∧
  generate_grand_resistance_matrix W.table d.1.P C false S.cutoff_factor false S.use_Minfinity_only u.mu
    S.bead_bead_interactions = some (R, C) ∧
  solveForm S.input_form false c.P.Ns c.P.Nd R u.inp = some out

instance : Nonempty Outputs := ⟨⟨[], [], [], [], [], [], [], [], [], []⟩⟩

/-- The solution, where there is one. -/
noncomputable def outAt (d q : Locs c) : Outputs := Classical.epsilon (Solved W S c u d q)

/-- The velocities of the spheres, with the background flow at the places `z`. -/
noncomputable def velAt (p : Locs c × Locs c × (Fin c.P.Ns → Vec3)) : Fin c.P.Ns → Vec3 := fun i k =>
  (outAt W S c u p.1 p.2.1).Ua.getD i 0 k
    + affineFlow u.U u.O u.centre ((outAt W S c u p.1 p.2.1).Ea.getD i 0) (p.2.2 i) k

end

/-- What the lemmas below suppose. -/
structure Course (W : World) (S : Settings) (c : Config) (u : UserInput) (K : NDMat → Prop) : Prop where
  spheres : c.P.Nd = 0
  any : 0 < c.P.Ns
  steady : Steady W S c
  same : Unchanging W c u
  drag : S.use_drag_Minfinity = false
  cutoff : 0 < S.cutoff_factor
  ascending : Ascending W.table.sDash
  serves : ∀ h d, Ready W (stepped S h) d → SameSizes c d → Serves W (stepped S h) K d

section
variable {W : World} {S : Settings} {c : Config} {u : UserInput} {K : NDMat → Prop} (H : Course W S c u K)
include H

theorem Course.ready (h : ℝ) {d : Config} (hd : SameSizes c d) (ht : ¬ Touching d.P) : Ready W (stepped S h) d :=
  steady_ready (S := stepped S h) ⟨H.steady.radii, H.steady.ratios, H.steady.allowed, H.steady.beads, H.steady.answers⟩ hd ht

theorem Course.input {d : Config} (hd : SameSizes c d) (ht : ¬ Touching d.P) :
    Sized c.P.Ns c.P.Nd u.inp ∧ Complete S.input_form c.P.Ns c.P.Nd u.inp ∧ 0 < u.mu ∧ u.bl = u.tr := by
  obtain ⟨u', h1, h2, h3, h4, h5, -⟩ := H.steady.answers d hd ht 0 0 Vel.blank none
  obtain ⟨Ot, Et, h⟩ := H.same d 0 0 Vel.blank none hd
  rw [h] at h1
  obtain rfl := Option.some.inj h1
  exact ⟨h2, h3, h4, h5⟩

/-- The far field of spheres that do not touch. -/
theorem Course.far {q : Locs c} (hq : ¬ Touching q.1.P) :
    ∃ C, (generate_Minfinity q.1.P u.mu S.bead_bead_interactions).inv = some C ∧ K C := by
  obtain ⟨Ot, Et, hu⟩ := H.same q.1 0 (stepped S 0).timestep Vel.blank none q.2
  obtain ⟨R, C, h, -, hK⟩ := H.serves 0 q.1 (H.ready 0 q.2 hq) q.2 (f := 0) (lv := Vel.blank)
    (last := NDMat.zeros 1 1) (reg := true) hu (fun _ h => by simp at h)
  have := (grand_some h).1
  have hdr : (stepped S 0).use_drag_Minfinity = false := H.drag
  rw [hdr] at this
  rw [if_pos rfl, if_pos rfl] at this
  exact ⟨C, this, hK⟩

theorem Course.grand {d : Locs c} (hd : ¬ Touching d.1.P) {C : NDMat} (hC : K C) :
    ∃ R, generate_grand_resistance_matrix W.table d.1.P C false S.cutoff_factor false S.use_Minfinity_only u.mu
      S.bead_bead_interactions = some (R, C) ∧ Sound d.1.P R := by
  obtain ⟨Ot, Et, hu⟩ := H.same d.1 0 (stepped S 0).timestep Vel.blank none d.2
  obtain ⟨R, C', h, sR, -⟩ := H.serves 0 d.1 (H.ready 0 d.2 hd) d.2 (f := 0) (lv := Vel.blank)
    (last := C) (reg := false) hu (fun _ _ => hC)
  have hdr : (stepped S 0).use_drag_Minfinity = false := H.drag
  rw [hdr] at h
  have h1 := (grand_some h).1
  simp only [if_true, Bool.false_eq_true, if_false] at h1
  obtain rfl := Option.some.inj h1
  exact ⟨R, h, sR⟩

theorem Course.solved {d q : Locs c} (hd : ¬ Touching d.1.P) (hq : ¬ Touching q.1.P) :
    Solved W S c u d q (outAt W S c u d q) := by
  refine Classical.epsilon_spec ?_
  obtain ⟨C, hC, hK⟩ := H.far hq
  obtain ⟨R, hR, sR⟩ := H.grand hd hK
  obtain ⟨z, hc, -⟩ := H.input d.2 hd
  have e : side d.1.P = 11 * c.P.Ns + 6 * c.P.Nd := by unfold side; rw [d.2.Ns, d.2.Nd]
  obtain ⟨out, ho⟩ := C09_spd_succeeds (R := R) H.steady.allowed z (by rw [sR.rows, e]) (by rw [sR.cols, e])
    (fun i _ j _ => sR.symm i j) (by rw [← e]; exact sR.pos) hc
  exact ⟨out, C, R, hC, hR, ho⟩

omit H in
theorem solved_unique {d q : Locs c} {o o' : Outputs} (h : Solved W S c u d q o) (h' : Solved W S c u d q o') : o = o' := by
  obtain ⟨C, R, h1, h2, h3⟩ := h
  obtain ⟨C', R', h1', h2', h3'⟩ := h'
  rw [h1] at h1'
  obtain rfl := Option.some.inj h1'
  rw [h2] at h2'
  obtain ⟨rfl, -⟩ := Prod.mk.inj (Option.some.inj h2')
  rw [h3] at h3'
  exact Option.some.inj h3'

theorem Course.vel_ll2 {d0 q0 : Locs c} (hcl : Loose d0.1.P) (hcq : Loose q0.1.P)
    (hr : S.use_Minfinity_only = false → ¬ AtRange S.cutoff_factor d0.1.P) (z0 : Fin c.P.Ns → Vec3) :
    LL (velAt W S c u) (d0, q0, z0) := by
  have hnd := H.spheres
  have ht0 : ¬ Touching d0.1.P := (clear_eventually hnd hcl).self_of_nhds
  have hq0 : ¬ Touching q0.1.P := (clear_eventually hnd hcq).self_of_nhds
  have h0 : Sensible d0.1.P := (H.ready 0 d0.2 ht0).sensible
  have hs0 : Sensible q0.1.P := (H.ready 0 q0.2 hq0).sensible
  have hTab : Tabulated W.table.lam d0.1.P S.cutoff_factor := (H.ready 0 d0.2 ht0).tabulated
  have hA : Places (fun d : Locs c => d.1.P) d0 := locs_places (f := fun d => d) hnd (LL.id d0)
  have hAq : Places (fun d : Locs c => d.1.P) q0 := locs_places (f := fun d => d) hnd (LL.id q0)
  have e : ∀ d : Locs c, side d.1.P = 11 * c.P.Ns + 6 * c.P.Nd := fun d => by unfold side; rw [d.2.Ns, d.2.Nd]
  set n := 11 * c.P.Ns + 6 * c.P.Nd with hn
  -- far field
  have hC : ∀ q : Locs c, ∃ C, ¬ Touching q.1.P →
      (generate_Minfinity q.1.P u.mu S.bead_bead_interactions).inv = some C ∧ K C := fun q => by
    by_cases h : Touching q.1.P
    · exact ⟨NDMat.zeros 1 1, fun h' => absurd h h'⟩
    · obtain ⟨C, hC⟩ := H.far h
      exact ⟨C, fun _ => hC⟩
  choose C hC using hC
  have cll : ∀ i < n, ∀ j < n, LL (fun q => (C q).get i j) q0 := fun i hi j hj =>
    inv_ll (M := fun q : Locs c => generate_Minfinity q.1.P u.mu S.bead_bead_interactions) (n := n)
      (fun q => by rw [← e q]; exact Minfinity_dims _ _ _)
      (fun i hi j hj => far_ll hAq hs0 u.mu S.bead_bead_interactions (by rw [e]; exact hi) (by rw [e]; exact hj))
      ((clear_eventually hnd hcq).mono fun q hq => (hC q hq).1) hi hj
  -- the whole
  have hR : ∀ p : Locs c × Locs c, ∃ R, ¬ Touching p.1.1.P → ¬ Touching p.2.1.P →
      generate_grand_resistance_matrix W.table p.1.1.P (C p.2) false S.cutoff_factor false S.use_Minfinity_only u.mu
        S.bead_bead_interactions = some (R, C p.2) ∧ Sound p.1.1.P R := fun p => by
    by_cases h : Touching p.1.1.P
    · exact ⟨NDMat.zeros 1 1, fun h' => absurd h h'⟩
    by_cases h2 : Touching p.2.1.P
    · exact ⟨NDMat.zeros 1 1, fun _ h' => absurd h2 h'⟩
    obtain ⟨R, hR⟩ := H.grand h (hC p.2 h2).2
    exact ⟨R, fun _ _ => hR⟩
  choose R hR using hR
  let p0 : Locs c × Locs c × (Fin c.P.Ns → Vec3) := (d0, q0, z0)
  have f1 : LL (fun p : Locs c × Locs c × (Fin c.P.Ns → Vec3) => p.1) p0 := LL.fst p0
  have f2 : LL (fun p : Locs c × Locs c × (Fin c.P.Ns → Vec3) => p.2.1) p0 :=
    LL.comp (g := Prod.fst) (f := Prod.snd) (LL.fst _) (LL.snd p0)
  have f3 : LL (fun p : Locs c × Locs c × (Fin c.P.Ns → Vec3) => p.2.2) p0 :=
    LL.comp (g := Prod.snd) (f := Prod.snd) (LL.snd _) (LL.snd p0)
  have ev : ∀ᶠ p in 𝓝 p0, ¬ Touching p.1.1.P ∧ ¬ Touching p.2.1.1.P :=
    (f1.continuousAt.eventually (clear_eventually hnd hcl)).and (f2.continuousAt.eventually (clear_eventually hnd hcq))
  have rll : ∀ i < n, ∀ j < n, LL (fun p : Locs c × Locs c × (Fin c.P.Ns → Vec3) => (R (p.1, p.2.1)).get i j) p0 := by
    intro i hi j hj
    have hcll : LL (fun p : Locs c × Locs c × (Fin c.P.Ns → Vec3) => (C p.2.1).get i j) p0 :=
      LL.comp (g := fun q => (C q).get i j) (f := fun p : Locs c × Locs c × (Fin c.P.Ns → Vec3) => p.2.1) (cll i hi j hj) f2
    cases honly : S.use_Minfinity_only
    · have hN : ∀ d : Locs c, ∃ N, ¬ Touching d.1.P →
          generate_R2Bexact W.table d.1.P S.cutoff_factor u.mu S.bead_bead_interactions = some N := fun d => by
        by_cases h : Touching d.1.P
        · exact ⟨NDMat.zeros 1 1, fun h' => absurd h h'⟩
        · obtain ⟨N, hN, -⟩ := (grand_some (hR (d, q0) h hq0).1).2.1 honly
          exact ⟨N, fun _ => hN⟩
      choose N hN using hN
      have nll : LL (fun d => (N d).get i j) d0 := near_ll hA H.ascending h0 (hr honly) H.cutoff hTab u.mu
        S.bead_bead_interactions ((clear_eventually hnd hcl).mono fun d hd => hN d hd) (by rw [e]; exact hi)
        (by rw [e]; exact hj)
      refine ((LL.comp (g := fun d => (N d).get i j) (f := fun p : Locs c × Locs c × (Fin c.P.Ns → Vec3) => p.1) nll
        f1).add hcll).congr ?_
      filter_upwards [ev] with p hp
      obtain ⟨N', h1, h2⟩ := (grand_some (hR (p.1, p.2.1) hp.1 hp.2).1).2.1 honly
      have h3 := hN p.1 hp.1
      rw [h1] at h3
      obtain rfl := Option.some.inj h3
      rw [h2]
      rfl
    · refine hcll.congr ?_
      filter_upwards [ev] with p hp
      rw [(grand_some (hR (p.1, p.2.1) hp.1 hp.2).1).2.2 honly]
  have sol : ∀ᶠ p in 𝓝 p0, solveForm S.input_form false c.P.Ns c.P.Nd (R (p.1, p.2.1)) u.inp
      = some (outAt W S c u p.1 p.2.1) := by
    filter_upwards [ev] with p hp
    obtain ⟨C', R', h1, h2, h3⟩ := H.solved hp.1 hp.2
    rw [(hC p.2.1 hp.2).1] at h1
    obtain rfl := Option.some.inj h1
    rw [(hR (p.1, p.2.1) hp.1 hp.2).1] at h2
    obtain ⟨rfl, -⟩ := Prod.mk.inj (Option.some.inj h2)
    exact h3
  have mot : ∀ i < n, LL (fun p : Locs c × Locs c × (Fin c.P.Ns → Vec3) =>
      motion c.P.Ns c.P.Nd (outAt W S c u p.1 p.2.1) i) p0 := fun i hi =>
    answer_ll (R := fun p : Locs c × Locs c × (Fin c.P.Ns → Vec3) => R (p.1, p.2.1)) H.steady.allowed (H.input d0.2 ht0).1 (by
      filter_upwards [ev] with p hp
      have s := (hR (p.1, p.2.1) hp.1 hp.2).2
      exact ⟨by rw [s.rows, e], fun i _ j _ => s.symm i j⟩)
      (by have s := (hR (d0, q0) ht0 hq0).2.pos; rw [e] at s; exact s) rll sol hi
  have ull : ∀ (i : Fin c.P.Ns) k, LL (fun p : Locs c × Locs c × (Fin c.P.Ns → Vec3) =>
      (outAt W S c u p.1 p.2.1).Ua.getD i 0 k) p0 := by
    intro i k
    have hk := k.isLt
    have hi := i.isLt
    refine (mot (3 * i + k) (by omega)).congr (Eventually.of_forall fun p => ?_)
    simp only [motion]
    rw [pack_u _ _ _ _ _ hi]
  have ell : ∀ (i : Fin c.P.Ns) k l, LL (fun p : Locs c × Locs c × (Fin c.P.Ns → Vec3) =>
      (outAt W S c u p.1 p.2.1).Ea.getD i 0 k l) p0 := by
    intro i k l
    have hi := i.isLt
    obtain ⟨E, hE⟩ := strain_cases (form := S.input_form) (Ns := c.P.Ns) (Nd := c.P.Nd) (inp := u.inp) H.any
    by_cases hf : S.input_form = .fts
    · have h1 := uncondense_ll (f := fun p : Locs c × Locs c × (Fin c.P.Ns → Vec3) => fun r : Fin 5 =>
        motion c.P.Ns c.P.Nd (outAt W S c u p.1 p.2.1) (6 * c.P.Ns + (5 * i + r))) (t0 := p0)
        (fun r => mot _ (by have := r.isLt; omega)) k l
      refine h1.congr ?_
      filter_upwards [sol] with p hp
      rcases hE hp with ⟨-, h⟩ | ⟨h, -⟩
      · rw [h i hi]
      · exact absurd hf h
    · refine (LL.const (E.getD i 0 k l) p0).congr ?_
      filter_upwards [sol] with p hp
      rcases hE hp with ⟨h, -⟩ | ⟨-, h⟩
      · exact absurd h hf
      · rw [h]
  refine LL.pi fun i => LL.pi fun k => ?_
  have zll : ∀ m, LL (fun p : Locs c × Locs c × (Fin c.P.Ns → Vec3) => p.2.2 i m - u.centre m) p0 := fun m =>
    ((f3.eval i).eval m).sub_const _
  refine (ull i k).add (((LL.const (u.U k) p0).add (cross_ll (fun m => LL.const (u.O m) p0) zll k)).add ?_)
  unfold app
  exact dotp_ll (fun m => ell i k m) zll

theorem Course.vel_ll {d0 : Locs c} (hcl : Loose d0.1.P)
    (hr : S.use_Minfinity_only = false → ¬ AtRange S.cutoff_factor d0.1.P) (z0 : Fin c.P.Ns → Vec3) :
    LL (velAt W S c u) (d0, d0, z0) := H.vel_ll2 hcl hcl hr z0

end

end SD.Lip
