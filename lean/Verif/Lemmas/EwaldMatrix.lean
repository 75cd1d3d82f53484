import Verif.Lemmas.EwaldEntry
import Verif.Lemmas.EwaldOpen
import Verif.Props.EwaldSelf

/-!
# Every entry of the periodic matrix
-/

set_option autoImplicit false

namespace SD.Ewald

open Spec

theorem con_M13_row_five (W : Lattice) (i : Fin 3) (r : Vec3) (s a1 a2 c mu : ℝ) :
    con_M13_row W i r s a1 a2 c mu = five fun j k => M13 W i j k r s a1 a2 c mu := by
  funext p
  fin_cases p <;> simp [con_M13_row, five, hs3p1, hs3m1, s2] <;> ring

theorem con_M23_row_five (W : Lattice) (i : Fin 3) (r : Vec3) (s a1 a2 c mu : ℝ) :
    con_M23_row W i r s a1 a2 c mu = five fun j k => M23 W i j k r s a1 a2 c mu := by
  funext p
  fin_cases p <;> simp [con_M23_row, five, hs3p1, hs3m1, s2] <;> ring

/-- What the code writes for two distinct beads at displacement `r`; `ss`: both are spheres. -/
noncomputable def codeMob (W : Lattice) (ss : Bool) (a b : ℝ) (c1 c2 : Comp) (r : Vec3) : ℝ :=
  let G := boxJ W.lamb (W.L ^ 3) W.X W.K
  let I := imageSum W.lamb W.X
  match c1, c2 with
  | .f _, .f _ => greenMob G a b c1 c2 r
  | .t _, .t _ => greenMob G a b c1 c2 r
  | .s _, .s _ => greenMob G a b c1 c2 r
  | .t _, .s _ => greenMob G a (Real.sqrt (5 / 3) * b) c1 c2 r
  | .s _, .t _ => greenMob G (Real.sqrt (5 / 3) * a) b c1 c2 r
  | _, _ => if ss then greenMob I a b c1 c2 r else greenMob I b a c1 c2 r

theorem codeMob_recip {W : Lattice} (hW : (W.X.map fun x => -x).Perm W.X) (ss : Bool) (a b : ℝ) (c1 c2 : Comp)
    {r : Vec3} (hr : r ∈ Clear W.X) : codeMob W ss a b c1 c2 r = codeMob W ss b a c2 c1 (-r) := by
  have hG := box_good hW W.lamb (W.L ^ 3) W.K hr
  have hI := image_good hW W.lamb hr
  cases c1 <;> cases c2 <;> simp only [codeMob] <;>
    first
      | exact greenMob_recip hG _ _ _ _
      | (split_ifs <;> exact greenMob_recip hI _ _ _ _)

/-- Value of a block off the diagonal. -/
theorem pVal_pair {W : Lattice} (hW : (W.X.map fun x => -x).Perm W.X) (P : PosData) (c mu : ℝ) {x y : ℕ}
    {c1 c2 : Comp} (ha : 0 < P.beadSize x) (hb : 0 < P.beadSize y) (hx : HasRow P.Ns P.Nd x c1)
    (hy : HasRow P.Ns P.Nd y c2) (hd : 1 / 10 ^ 8 < len (P.beadPos x - P.beadPos y))
    (hA : Apart W.X (sep (P.beadPos x - P.beadPos y) (P.beadSize x) (P.beadSize y)))
    (hbf : before (kindOf P.Ns P.Nd x c1) x (kindOf P.Ns P.Nd y c2) y) :
    pVal W P c mu (kindOf P.Ns P.Nd x c1) x (kindOf P.Ns P.Nd y c2) y (idxOf c1) (idxOf c2)
      = c * codeMob W (decide (x < P.Ns ∧ y < P.Ns)) (P.beadSize x) (P.beadSize y) c1 c2
          (sep (P.beadPos x - P.beadPos y) (P.beadSize x) (P.beadSize y)) := by
  have hrs := sep_spec ha hb hd
  have hr : rr P x y = sep (P.beadPos x - P.beadPos y) (P.beadSize x) (P.beadSize y) := hrs.1
  have hs : ss P x y > 1 / 10 ^ 10 := by
    have : ss P x y = len (sep (P.beadPos x - P.beadPos y) (P.beadSize x) (P.beadSize y)) := hrs.2
    rw [this]; exact (sep_ne ha hb hd).2
  rw [← hr] at hA ⊢
  have hG := box_good hW W.lamb (W.L ^ 3) W.K hA.clear
  have hI := image_good hW W.lamb hA.clear
  have hA' : Apart W.X (-rr P x y) := by
    intro v hv
    have hv' : -v ∈ W.X := hW.mem_iff.mp (List.mem_map_of_mem hv)
    have := hA _ hv'
    have e : -rr P x y + v = -(rr P x y + -v) := by abel
    rw [e, norm3_neg]; exact this
  have i3 : ∀ i : Fin 3, f3 (i : ℕ) = i := fun i => Fin.ofNat_val_eq_self i
  have i5 : ∀ i : Fin 5, f5 (i : ℕ) = i := fun i => Fin.ofNat_val_eq_self i
  have hf : ∀ u i, kindOf P.Ns P.Nd u (.f i) = .F ∧ u < P.Ns ∨ (kindOf P.Ns P.Nd u (.f i) = .B1
      ∨ kindOf P.Ns P.Nd u (.f i) = .B2) ∧ ¬ u < P.Ns := by
    intro u i; simp only [kindOf]; split_ifs <;> simp [*]
  have kt : ∀ u i, kindOf P.Ns P.Nd u (.t i) = .T := fun _ _ => rfl
  have ks : ∀ u i, kindOf P.Ns P.Nd u (.s i) = .S := fun _ _ => rfl
  cases c1 with
  | f i =>
    cases c2 with
    | f j =>
      rcases hf x i with ⟨e, -⟩ | ⟨e | e, -⟩ <;> rcases hf y j with ⟨e', -⟩ | ⟨e' | e', -⟩ <;>
      · rw [e, e']
        simp only [pVal, idxOf, blkM11, i3, codeMob, greenMob, greenTo]
        exact C51_force_force W hA _ _ _ c mu hs i j
    | t j =>
      rw [kt] at hbf ⊢
      have hyN : y < P.Ns := hy
      rcases hf x i with ⟨e, h⟩ | ⟨e | e, h⟩ <;> rw [e] at hbf ⊢
      · simp only [pVal, idxOf, i3, codeMob, greenMob, greenTo, h, hyN, and_self, decide_true, if_true]
        exact C51_force_torque_partial W hA _ _ _ c mu hs i j
      · exact hbf.elim
      · exact hbf.elim
    | s q =>
      rw [ks] at hbf ⊢
      have hyN : y < P.Ns := hy
      rcases hf x i with ⟨e, h⟩ | ⟨e | e, h⟩ <;> rw [e] at hbf ⊢
      · simp only [pVal, idxOf, i3, i5, codeMob, greenMob, h, hyN, and_self, decide_true, if_true]
        rw [greenTo_s hI, con_M13_row_five, ← five_mul]
        simp only [C51_force_stress_partial W hA _ _ _ c mu hs]
      · exact hbf.elim
      · exact hbf.elim
  | t i =>
    rw [kt] at hbf ⊢
    cases c2 with
    | f j =>
      rcases hf y j with ⟨e, h⟩ | ⟨e | e, h⟩ <;> rw [e] at hbf ⊢
      · exact hbf.elim
      all_goals
        simp only [pVal, idxOf, i3, codeMob, greenMob, greenTo, h, and_false, decide_false, Bool.false_eq_true,
          if_false]
        rw [C51_force_torque_partial W hA' _ _ _ c mu hs, hI.recip]
    | t j =>
      rw [kt] at hbf ⊢
      simp only [pVal, idxOf, i3, codeMob, greenMob, greenTo]
      exact C51_torque_torque W hA _ _ _ c mu hs i j
    | s q =>
      rw [ks] at hbf ⊢
      simp only [pVal, idxOf, i3, i5, codeMob, greenMob]
      rw [greenTo_s hG, con_M23_row_five, ← five_mul]
      simp only [C51_torque_stress_partial W hA _ _ _ c mu hs]
  | s p =>
    rw [ks] at hbf ⊢
    cases c2 with
    | f j =>
      rcases hf y j with ⟨e, h⟩ | ⟨e | e, h⟩ <;> rw [e] at hbf ⊢
      · exact hbf.elim
      all_goals
        simp only [pVal, idxOf, i3, i5, codeMob, greenMob, greenTo, h, and_false, decide_false, Bool.false_eq_true,
          if_false]
        rw [condense53_five, ← five_mul]
        simp only [C51_force_stress_partial W hA' _ _ _ c mu hs, hI.recip]
    | t j => exact hbf.elim
    | s q =>
      rw [ks] at hbf ⊢
      simp only [pVal, idxOf, i5, codeMob, greenMob]
      rw [condense55_five, ← five_mul]
      simp only [greenTo_s hG, ← five_mul, C51_stress_stress W hA _ _ _ c mu hs]

/-! ## Blocks on the diagonal -/

theorem five_add (S T : Fin 3 → Fin 3 → ℝ) (p : Fin 5) :
    five (fun i j => S i j + T i j) p = five S p + five T p := by
  fin_cases p <;> simp [five] <;> ring

theorem five_sub (S T : Fin 3 → Fin 3 → ℝ) (p : Fin 5) :
    five (fun i j => S i j - T i j) p = five S p - five T p := by
  fin_cases p <;> simp [five] <;> ring

theorem five_tendsto {α : Type} {F : Filter α} {S : α → Fin 3 → Fin 3 → ℝ} {T : Fin 3 → Fin 3 → ℝ}
    (h : ∀ i j, Filter.Tendsto (fun r => S r i j) F (nhds (T i j))) (p : Fin 5) :
    Filter.Tendsto (fun r => five (S r) p) F (nhds (five T p)) := by
  fin_cases p <;> simp only [five] <;>
    first
      | exact ((h _ _).const_mul _).add ((h _ _).const_mul _)
      | exact (h _ _).const_mul _

theorem five_isolated (mu a : ℝ) (p q : Fin 5) :
    five (fun i j => five (fun k l => isolated mu a (.stress i j) (.stress k l)) q) p
      = selfMob mu a (.s p) (.s q) := by
  have h3 : Real.sqrt 3 ^ 2 = 3 := Real.sq_sqrt (by norm_num)
  have h2 : Real.sqrt 2 ^ 2 = 2 := Real.sq_sqrt (by norm_num)
  have e : ∀ i j k l, isolated mu a (.stress i j) (.stress k l)
      = 1 / (20 / 3 * Real.pi * mu * a ^ 3)
        * (1 / 2 * (dlt i k * dlt j l + dlt i l * dlt j k) - 1 / 3 * (dlt i j * dlt k l)) := by
    intro i j k l; simp only [isolated]; ring
  simp only [e, five_mul, selfMob]
  generalize 1 / (20 / 3 * Real.pi * mu * a ^ 3) = g
  fin_cases p <;> fin_cases q <;> simp [five, dlt] <;> ring_nf <;> (try simp only [h3, h2]) <;> ring_nf <;>
    simp

theorem clear_near {W : Lattice} (h : Proper W) : ∀ᶠ r in nhdsWithin (0 : Vec3) {0}ᶜ, r ∈ Clear W.X := by
  have h1 : ∀ᶠ r in nhds (0 : Vec3), ∀ x ∈ W.Xdash, (fun m => r m + x m) ≠ 0 := by
    have : ∀ X : List Vec3, (∀ x ∈ X, x ≠ 0) → ∀ᶠ r in nhds (0 : Vec3), ∀ x ∈ X, (fun m => r m + x m) ≠ 0 := by
      intro X
      induction X with
      | nil => intro _; exact Filter.Eventually.of_forall fun r x hx => by simp at hx
      | cons x X ih =>
        intro hX
        have hx : ∀ᶠ r in nhds (0 : Vec3), r ≠ -x :=
          (isOpen_ne).mem_nhds (by
            intro e
            exact hX x (by simp) (neg_eq_zero.mp e.symm))
        filter_upwards [hx, ih fun y hy => hX y (by simp [hy])] with r h1 h2
        intro y hy
        rcases List.mem_cons.mp hy with rfl | hy
        · intro e
          exact h1 (eq_neg_of_add_eq_zero_left e)
        · exact h2 y hy
    exact this W.Xdash (Xdash_ne_zero W)
  filter_upwards [self_mem_nhdsWithin, nhdsWithin_le_nhds h1] with r h2 h3
  intro x hx
  rcases List.mem_cons.mp (h.1.mem_iff.mp hx) with rfl | hx
  · intro e
    refine h2 ?_
    funext m
    have := congrFun e m
    simpa using this
  · exact h3 x hx

/-- What the images add to one component of a particle's own motion. -/
noncomputable def restMob (W : Lattice) (a b : ℝ) (c1 c2 : Comp) : ℝ :=
  let R := rest W.lamb (W.L ^ 3) W.Xdash W.K a b
  match c1, c2 with
  | .f i, .f j => R (.force i) (.force j)
  | .f i, .t j => R (.force i) (.torque j)
  | .f i, .s q => five (fun j k => R (.force i) (.stress j k)) q
  | .t i, .f j => R (.torque i) (.force j)
  | .t i, .t j => R (.torque i) (.torque j)
  | .t i, .s q => five (fun j k => R (.torque i) (.stress j k)) q
  | .s p, .f j => five (fun i k => R (.stress i k) (.force j)) p
  | .s p, .t j => five (fun i k => R (.stress i k) (.torque j)) p
  | .s p, .s q => five (fun i j => five (fun k l => R (.stress i j) (.stress k l)) q) p

theorem imagesAddComp_rest {W : Lattice} (h : Proper W) (hW : (W.X.map fun x => -x).Perm W.X) (a b : ℝ)
    (c1 c2 : Comp) : ImagesAddComp W.lamb (W.L ^ 3) W.X W.K a b c1 c2 (restMob W a b c1 c2) := by
  have L := fun l1 l2 => imagesAdd_rest h (W.L ^ 3) a b l1 l2
  unfold ImagesAdd at L
  unfold ImagesAddComp
  have hc : ∀ᶠ r in nhdsWithin (0 : Vec3) {0}ᶜ, r ≠ 0 ∧ Good (boxJ W.lamb (W.L ^ 3) W.X W.K) r := by
    filter_upwards [self_mem_nhdsWithin, clear_near h] with r h1 h2
    exact ⟨h1, box_good hW _ _ _ h2⟩
  cases c1 with
  | f i =>
    cases c2 with
    | f j => exact L _ _
    | t j => exact L _ _
    | s q =>
      refine (five_tendsto (fun j k => L (.force i) (.stress j k)) q).congr' ?_
      filter_upwards [hc] with r hr
      simp only [greenMob, pairMob, greenTo_s hr.2, respTo_s hr.1, five_sub]
  | t i =>
    cases c2 with
    | f j => exact L _ _
    | t j => exact L _ _
    | s q =>
      refine (five_tendsto (fun j k => L (.torque i) (.stress j k)) q).congr' ?_
      filter_upwards [hc] with r hr
      simp only [greenMob, pairMob, greenTo_s hr.2, respTo_s hr.1, five_sub]
  | s p =>
    cases c2 with
    | f j =>
      refine (five_tendsto (fun i k => L (.stress i k) (.force j)) p).congr' ?_
      filter_upwards [hc] with r hr
      simp only [greenMob, pairMob, greenTo, respTo, five_sub]
    | t j =>
      refine (five_tendsto (fun i k => L (.stress i k) (.torque j)) p).congr' ?_
      filter_upwards [hc] with r hr
      simp only [greenMob, pairMob, greenTo, respTo, five_sub]
    | s q =>
      refine (five_tendsto (fun i j => five_tendsto (fun k l => L (.stress i j) (.stress k l)) q) p).congr' ?_
      filter_upwards [hc] with r hr
      simp only [greenMob, pairMob, greenTo_s hr.2, respTo_s hr.1, five_sub]

/-- What the code writes for a bead and itself. -/
noncomputable def codeSelf (W : Lattice) (c mu a : ℝ) (c1 c2 : Comp) : ℝ :=
  match c1, c2 with
  | .f _, .f _ => selfMob mu a c1 c2 + c * restMob W a a c1 c2
  | .t i, .t j => selfMob mu a c1 c2 + c * restMob W a a c1 c2
      + c * (if i = j then 40 * W.lamb ^ 3 / (3 * Real.sqrt Real.pi) else 0)
  | .s _, .s _ => selfMob mu a c1 c2 + c * restMob W a a c1 c2
  | .t _, .s _ => c * restMob W a (Real.sqrt (5 / 3) * a) c1 c2
  | .s _, .t _ => c * restMob W a (Real.sqrt (5 / 3) * a) c2 c1
  | _, _ => 0

theorem codeSelf_symm {W : Lattice} (h : Proper W) (hW : (W.X.map fun x => -x).Perm W.X) (c mu a : ℝ)
    (c1 c2 : Comp) : codeSelf W c mu a c1 c2 = codeSelf W c mu a c2 c1 := by
  have key : ∀ c1 c2, restMob W a a c1 c2 = restMob W a a c2 c1 := by
    intro c1 c2
    have h1 := imagesAddComp_rest h hW a a c1 c2
    have h2 := imagesAddComp_rest h hW a a c2 c1
    refine tendsto_nhds_unique h1 ?_
    have ht : Filter.Tendsto (fun r : Vec3 => -r) (nhdsWithin 0 {0}ᶜ) (nhdsWithin 0 {0}ᶜ) := by
      refine tendsto_nhdsWithin_iff.mpr ⟨?_, ?_⟩
      · have : Filter.Tendsto (fun r : Vec3 => -r) (nhds 0) (nhds (-0)) := continuous_neg.tendsto 0
        rw [neg_zero] at this
        exact this.mono_left nhdsWithin_le_nhds
      · filter_upwards [self_mem_nhdsWithin] with r hr
        exact fun e => hr (neg_eq_zero.mp e)
    refine (h2.comp ht).congr' ?_
    filter_upwards [self_mem_nhdsWithin, clear_near h] with r h1 h2
    simp only [Function.comp]
    rw [greenMob_recip (box_good hW _ _ _ h2), pairMob_recip h1]
  cases c1 <;> cases c2 <;> simp only [codeSelf]
  all_goals
    rw [key, selfMob_symm]
  simp only [eq_comm]

/-- Value of a block on the diagonal. -/
theorem pVal_self {W : Lattice} (h : Proper W) (P : PosData) (c mu : ℝ) {x : ℕ} {c1 c2 : Comp}
    (hx : HasRow P.Ns P.Nd x c1) (hy : HasRow P.Ns P.Nd x c2)
    (hbf : before (kindOf P.Ns P.Nd x c1) x (kindOf P.Ns P.Nd x c2) x) :
    pVal W P c mu (kindOf P.Ns P.Nd x c1) x (kindOf P.Ns P.Nd x c2) x (idxOf c1) (idxOf c2)
      = codeSelf W c mu (P.beadSize x) c1 c2 := by
  have hr := rr_self P x
  have hs := ss_self P x
  have i3 : ∀ i : Fin 3, f3 (i : ℕ) = i := fun i => Fin.ofNat_val_eq_self i
  have i5 : ∀ i : Fin 5, f5 (i : ℕ) = i := fun i => Fin.ofNat_val_eq_self i
  have kt : ∀ u i, kindOf P.Ns P.Nd u (.t i) = .T := fun _ _ => rfl
  have ks : ∀ u i, kindOf P.Ns P.Nd u (.s i) = .S := fun _ _ => rfl
  have kf : ∀ i, kindOf P.Ns P.Nd x (.f i) =
    if x < P.Ns then .F else if x < P.Ns + P.Nd then .B1 else .B2 := fun _ => rfl
  have uq : ∀ {a b l1 l2 v}, ImagesAdd W.lamb (W.L ^ 3) W.X W.K a b l1 l2 v →
      v = rest W.lamb (W.L ^ 3) W.Xdash W.K a b l1 l2 := fun hv =>
    imagesAdd_unique hv (imagesAdd_rest h _ _ _ _ _)
  cases c1 with
  | f i =>
    cases c2 with
    | f j =>
      obtain ⟨v, hv, e⟩ := C52_force_force h (a := P.beadSize x) (mu := mu) (c := c) i j
      rw [uq hv] at e
      rw [kf, kf]
      split_ifs <;> simp only [pVal, idxOf, blkM11, i3, hs, hr, codeSelf, restMob] <;> rw [e] <;> rfl
    | t j =>
      rw [kf, kt, if_pos (show x < P.Ns from hy)] at *
      simp only [pVal, idxOf, i3, hs, hr, codeSelf, M12, if_neg not_gt_eps]
    | s q =>
      rw [kf, ks, if_pos (show x < P.Ns from hy)] at *
      simp only [pVal, idxOf, i3, i5, hs, hr, codeSelf]
      rw [con_M13_row_five]
      simp only [M13, if_neg not_gt_eps]
      fin_cases q <;> simp [five]
  | t i =>
    cases c2 with
    | f j => rw [kf, kt, if_pos (show x < P.Ns from hx)] at *; exact hbf.elim
    | t j =>
      obtain ⟨v, hv, e⟩ := C52_torque_torque_partial h (a := P.beadSize x) (mu := mu) (c := c) i j
      rw [uq hv] at e
      rw [kt, kt] at *
      simp only [pVal, idxOf, i3, hs, hr, codeSelf, restMob]
      rw [e]; rfl
    | s q =>
      rw [kt, ks] at *
      simp only [pVal, idxOf, i3, i5, hs, hr, codeSelf, restMob]
      rw [con_M23_row_five, ← five_mul]
      congr 1
      funext j k
      obtain ⟨v, hv, e⟩ := C52_torque_stress_partial h (a := P.beadSize x) (mu := mu) (c := c) i j k
      rw [uq hv] at e
      rw [e]; simp [isolated]
  | s p =>
    cases c2 with
    | f j => rw [kf, ks, if_pos (show x < P.Ns from hx)] at *; exact hbf.elim
    | t j => exact hbf.elim
    | s q =>
      rw [ks, ks]
      simp only [pVal, idxOf, i5, hs, hr, codeSelf, restMob]
      rw [condense55_five, ← five_isolated, ← five_mul, ← five_add]
      congr 1
      funext i j
      rw [← five_mul, ← five_add]
      congr 1
      funext k l
      obtain ⟨v, hv, e⟩ := C52_stress_stress h (a := P.beadSize x) (mu := mu) (c := c) i j k l
      rw [uq hv] at e
      exact e

/-! ## The matrix -/

/-- Beads whose interaction is left out: of different dumbbells, when bead-bead interactions are off. -/
def Silent (P : PosData) (bb : Bool) (x y : ℕ) : Prop :=
  bb = false ∧ P.Ns ≤ x ∧ P.Ns ≤ y ∧ x ≠ y ∧ x + P.Nd ≠ y ∧ y + P.Nd ≠ x

open Classical in
/-- What the code writes. -/
noncomputable def codeEntry (W : Lattice) (P : PosData) (c mu : ℝ) (bb : Bool) (x : ℕ) (c1 : Comp) (y : ℕ)
    (c2 : Comp) : ℝ :=
  if Silent P bb x y then 0
  else if x = y then codeSelf W c mu (P.beadSize x) c1 c2
  else c * codeMob W (decide (x < P.Ns ∧ y < P.Ns)) (P.beadSize x) (P.beadSize y) c1 c2
    (sep (P.beadPos x - P.beadPos y) (P.beadSize x) (P.beadSize y))

/-- Conditions on the box and the configuration. -/
structure Fits (W : Lattice) (P : PosData) : Prop where
  proper : Proper W
  symm : (W.X.map fun x => -x).Perm W.X
  size : ∀ x < P.Ns + 2 * P.Nd, 0 < P.beadSize x
  sep : ∀ x < P.Ns + 2 * P.Nd, ∀ y < P.Ns + 2 * P.Nd, x ≠ y → 1 / 10 ^ 8 < len (P.beadPos x - P.beadPos y)
  apart : ∀ x < P.Ns + 2 * P.Nd, ∀ y < P.Ns + 2 * P.Nd, x ≠ y →
    Apart W.X (Spec.sep (P.beadPos x - P.beadPos y) (P.beadSize x) (P.beadSize y))

theorem minf_upper {W : Lattice} {P : PosData} (hF : Fits W P) (c mu : ℝ) (bb : Bool) {x y : ℕ} {c1 c2 : Comp}
    (hx : HasRow P.Ns P.Nd x c1) (hy : HasRow P.Ns P.Nd y c2) (n m : ℕ)
    (hbf : before (kindOf P.Ns P.Nd x c1) x (kindOf P.Ns P.Nd y c2) y) :
    ((pairs (P.Ns + 2 * P.Nd)).foldl (minfStep W P c mu bb) (NDMat.zeros n m)).get (row P.Ns x c1) (row P.Ns y c2)
    = codeEntry W P c mu bb x c1 y c2 := by
  have ox := owns_kind hx
  have oy := owns_kind hy
  have hxn := owns_lt ox
  have hyn := owns_lt oy
  rw [row_eq hx, row_eq hy, minfLoop_get W hF.symm P c mu bb n m ox oy (idx_lt _ _ _ _) (idx_lt _ _ _ _) hbf]
  have hw : pWritten P bb (kindOf P.Ns P.Nd x c1) x (kindOf P.Ns P.Nd y c2) y (idxOf c1) (idxOf c2)
      ↔ ¬ Silent P bb x y := by
    unfold Silent
    generalize kindOf P.Ns P.Nd x c1 = kx at *
    generalize kindOf P.Ns P.Nd y c2 = ky at *
    cases kx <;> cases ky <;> simp only [owns, before] at ox oy hbf <;> cases bb <;> simp [pWritten] <;> omega
  unfold codeEntry
  by_cases hz : Silent P bb x y
  · rw [if_pos hz, if_neg (by rw [hw]; exact not_not.mpr hz)]
  · rw [if_neg hz, if_pos (hw.mpr hz)]
    by_cases e : x = y
    · subst e
      rw [if_pos rfl, pVal_self hF.proper P c mu hx hy hbf]
    · rw [if_neg e]
      exact pVal_pair hF.symm P c mu (hF.size x hxn) (hF.size y hyn) hx hy (hF.sep x hxn y hyn e)
        (hF.apart x hxn y hyn e) hbf

theorem codeEntry_symm {W : Lattice} {P : PosData} (hF : Fits W P) (c mu : ℝ) (bb : Bool) {x y : ℕ} {c1 c2 : Comp}
    (hx : x < P.Ns + 2 * P.Nd) (hy : y < P.Ns + 2 * P.Nd) :
    codeEntry W P c mu bb x c1 y c2 = codeEntry W P c mu bb y c2 x c1 := by
  unfold codeEntry
  have hsil : Silent P bb x y ↔ Silent P bb y x := by unfold Silent; tauto
  by_cases hz : Silent P bb x y
  · rw [if_pos hz, if_pos (hsil.mp hz)]
  rw [if_neg hz, if_neg (fun h => hz (hsil.mpr h))]
  by_cases e : x = y
  · subst e
    rw [if_pos rfl, if_pos rfl, codeSelf_symm hF.proper hF.symm]
  · rw [if_neg e, if_neg (Ne.symm e), codeMob_recip hF.symm _ _ _ _ _ (hF.apart x hx y hy e).clear]
    have e2 : P.beadPos y - P.beadPos x = -(P.beadPos x - P.beadPos y) := by abel
    rw [e2, sep_swap, decide_eq_decide.mpr (and_comm (a := x < P.Ns) (b := y < P.Ns))]

/-- Every entry of the periodic matrix in bead coordinates. -/
theorem minf_entry {W : Lattice} {P : PosData} (hF : Fits W P) (c mu : ℝ) (bb : Bool) {x y : ℕ} {c1 c2 : Comp}
    (hx : HasRow P.Ns P.Nd x c1) (hy : HasRow P.Ns P.Nd y c2) (n m : ℕ) :
    (generate_Minfinity_loop W (NDMat.zeros n m) P c mu bb).get (row P.Ns x c1) (row P.Ns y c2)
    = codeEntry W P c mu bb x c1 y c2 := by
  have hxn := owns_lt (owns_kind hx)
  have hyn := owns_lt (owns_kind hy)
  unfold generate_Minfinity_loop
  rcases before_total (owns_kind hx) (owns_kind hy) (idx_lt P.Ns P.Nd x c1) (idx_lt P.Ns P.Nd y c2)
    with ⟨h, hle⟩ | ⟨h, hle⟩
  · rw [← row_eq hx, ← row_eq hy] at hle
    rw [symmetrise_upper _ hle, minf_upper hF c mu bb hx hy n m h]
  · rw [← row_eq hx, ← row_eq hy] at hle
    rw [symmetrise_symm, symmetrise_upper _ hle, minf_upper hF c mu bb hy hx n m h]
    exact codeEntry_symm hF c mu bb hyn hxn

/-- The pair loop only looks at sizes and differences of positions. -/
theorem minfStep_congr {W : Lattice} {P P' : PosData} (h1 : P'.Ns = P.Ns) (h2 : P'.Nd = P.Nd)
    (h3 : P'.beadSize = P.beadSize)
    (h4 : ∀ x y, P'.beadPos x - P'.beadPos y = P.beadPos x - P.beadPos y) (c mu : ℝ) (bb : Bool) :
    minfStep W P' c mu bb = minfStep W P c mu bb := by
  funext D uv
  unfold minfStep
  dsimp only
  rw [h1, h2, h3, h4]

theorem minfStep_dims (W : Lattice) (P : PosData) (c mu : ℝ) (bb : Bool) (D : NDMat) (uv : ℕ × ℕ) :
    (minfStep W P c mu bb D uv).rows = D.rows ∧ (minfStep W P c mu bb D uv).cols = D.cols := by
  unfold minfStep minfSphereSphere minfSphereBead
  dsimp only
  have wr : ∀ (D : NDMat) rc h w f, (writeAt D rc h w f).rows = D.rows := fun _ _ _ _ _ => rfl
  have wc : ∀ (D : NDMat) rc h w f, (writeAt D rc h w f).cols = D.cols := fun _ _ _ _ _ => rfl
  have ite_r : ∀ (p : Prop) [Decidable p] (A B : NDMat),
      (if p then A else B).rows = if p then A.rows else B.rows := by intros; split_ifs <;> rfl
  have ite_c : ∀ (p : Prop) [Decidable p] (A B : NDMat),
      (if p then A else B).cols = if p then A.cols else B.cols := by intros; split_ifs <;> rfl
  have fr : ∀ (l : List ℕ) (f : NDMat → ℕ → NDMat) (D : NDMat), (∀ D a, (f D a).rows = D.rows) →
      (l.foldl f D).rows = D.rows := by
    intro l f D hf
    induction l generalizing D with
    | nil => rfl
    | cons a l ih => rw [List.foldl_cons, ih, hf]
  have fc : ∀ (l : List ℕ) (f : NDMat → ℕ → NDMat) (D : NDMat), (∀ D a, (f D a).cols = D.cols) →
      (l.foldl f D).cols = D.cols := by
    intro l f D hf
    induction l generalizing D with
    | nil => rfl
    | cons a l ih => rw [List.foldl_cons, ih, hf]
  constructor
  · simp only [ite_r, wr, fr, ite_self, implies_true]
  · simp only [ite_c, wc, fc, ite_self, implies_true]

theorem loop_dims (W : Lattice) (P : PosData) (c mu : ℝ) (bb : Bool) (D : NDMat) :
    (generate_Minfinity_loop W D P c mu bb).rows = D.rows ∧
    (generate_Minfinity_loop W D P c mu bb).cols = D.cols :=
  foldl_dims _ (minfStep_dims W P c mu bb) _ D

end SD.Ewald
