import Verif.Spec.BoxImage
import Verif.Lemmas.EwaldMatrix
import Verif.Lemmas.EwaldBox
import Verif.Lemmas.IsotropySystem
import Verif.Lemmas.Overlap

/-!
# Changes of sign of the axes, and the far field of a periodic box
-/

set_option autoImplicit false

namespace SD.Sign

open Spec Ewald

/-- The vector with the signs changed. -/
def flip (s r : Fin 3 → ℝ) : Fin 3 → ℝ := fun i => s i * r i

variable {s : Fin 3 → ℝ}

theorem _root_.SD.Spec.Signs.sq (h : Signs s) (i : Fin 3) : s i * s i = 1 := by rcases h i with e | e <;> rw [e] <;> norm_num

theorem flip_flip (h : Signs s) (r : Fin 3 → ℝ) : flip s (flip s r) = r := by
  funext i
  show s i * (s i * r i) = r i
  rw [← mul_assoc, h.sq, one_mul]

theorem len_flip (h : Signs s) (r : Fin 3 → ℝ) : len (flip s r) = len r := by
  unfold len
  congr 1
  refine Finset.sum_congr rfl fun i _ => ?_
  show (s i * r i) ^ 2 = r i ^ 2
  rw [mul_pow, pow_two (s i), h.sq, one_mul]

theorem dlt_flip (h : Signs s) (i j : Fin 3) : s i * s j * dlt i j = dlt i j := by
  unfold dlt
  split_ifs with e
  · rw [e, h.sq, one_mul]
  · rw [mul_zero]

/-! ## Derivatives -/

theorem pd_flip (h : Signs s) {f : (Fin 3 → ℝ) → ℝ} {c : ℝ} (hf : ∀ r, f (flip s r) = c * f r) (l : Fin 3)
    (r : Fin 3 → ℝ) : pd l f (flip s r) = s l * c * pd l f r := by
  unfold pd
  have e : (fun t => f (Function.update (flip s r) l t)) = fun t => c * f (Function.update r l (s l * t)) := by
    funext t
    rw [← hf]
    congr 1
    funext i
    by_cases hi : i = l
    · subst hi
      simp only [flip, Function.update_self]
      rw [← mul_assoc, h.sq, one_mul]
    · simp only [flip, Function.update_of_ne hi]
  rw [e, deriv_const_mul_field]
  have := deriv_comp_mul_left (s l) (fun t => f (Function.update r l t)) (flip s r l)
  rw [this]
  have e2 : s l * flip s r l = r l := by
    show s l * (s l * r l) = r l
    rw [← mul_assoc, h.sq, one_mul]
  rw [e2, smul_eq_mul]
  ring

theorem lap_flip (h : Signs s) {f : (Fin 3 → ℝ) → ℝ} {c : ℝ} (hf : ∀ r, f (flip s r) = c * f r)
    (r : Fin 3 → ℝ) : lap f (flip s r) = c * lap f r := by
  unfold lap
  rw [Finset.mul_sum]
  refine Finset.sum_congr rfl fun l _ => ?_
  rw [pd_flip h (fun r => pd_flip h hf l r) l r]
  linear_combination c * pd l (pd l f) r * h.sq l

/-! ## Green's functions -/

/-- A Green's function that respects the change of signs. -/
def Even (s : Fin 3 → ℝ) (G : Green) : Prop := ∀ i j r, G i j (flip s r) = s i * s j * G i j r

theorem nearJ_even (h : Signs s) (lam : ℝ) : Even s (nearJ lam) := by
  intro i j r
  have hf : ∀ r, screened lam (flip s r) = 1 * screened lam r := fun r => by
    unfold screened
    rw [len_flip h, one_mul]
  unfold nearJ stokesOp
  rw [lap_flip h hf, pd_flip h (fun r => pd_flip h hf j r) i r]
  linear_combination -lap (screened lam) r * dlt_flip h i j

theorem sum_perm {α : Type} {X Y : List α} (h : X.Perm Y) (f : α → ℝ) : (X.map f).sum = (Y.map f).sum :=
  (h.map f).sum_eq

theorem imageSum_even (h : Signs s) (lam : ℝ) {X : List (Fin 3 → ℝ)} (hX : (X.map (flip s)).Perm X) :
    Even s (imageSum lam X) := by
  intro i j r
  unfold imageSum
  rw [← sum_perm hX, List.map_map, ← List.sum_map_mul_left]
  congr 1
  refine List.map_congr_left fun x _ => ?_
  have e : (fun m => flip s r m + flip s x m) = flip s fun m => r m + x m := by
    funext m
    show s m * r m + s m * x m = s m * (r m + x m)
    ring
  show nearJ lam i j (fun m => flip s r m + flip s x m) = _
  rw [e, nearJ_even h lam]

theorem waveSum_even (h : Signs s) (lam V : ℝ) {K : List (Fin 3 → ℝ)} (hK : (K.map (flip s)).Perm K) :
    Even s (waveSum lam V K) := by
  intro i j r
  unfold waveSum
  rw [← sum_perm hK, List.map_map, mul_left_comm]
  congr 1
  rw [← List.sum_map_mul_left]
  congr 1
  refine List.map_congr_left fun k _ => ?_
  show Real.cos (inner3 (flip s k) (flip s r)) * waveJ lam i j (flip s k) = _
  have e : inner3 (flip s k) (flip s r) = inner3 k r := by
    unfold inner3
    refine Finset.sum_congr rfl fun m _ => ?_
    show s m * k m * (s m * r m) = k m * r m
    linear_combination k m * r m * h.sq m
  have e2 : waveJ lam i j (flip s k) = s i * s j * waveJ lam i j k := by
    unfold waveJ
    rw [len_flip h]
    show (dlt i j - s i * k i * (s j * k j) / len k ^ 2) * _ = _
    generalize (8 * Real.pi / len k ^ 2 * (1 + len k ^ 2 / (4 * lam ^ 2) + len k ^ 4 / (8 * lam ^ 4))
      * Real.exp (-(len k ^ 2 / (4 * lam ^ 2)))) = E
    linear_combination -E * dlt_flip h i j
  rw [e, e2]
  ring

theorem boxJ_even (h : Signs s) (lam V : ℝ) {X K : List (Fin 3 → ℝ)} (hX : (X.map (flip s)).Perm X)
    (hK : (K.map (flip s)).Perm K) : Even s (boxJ lam V X K) := by
  intro i j r
  unfold boxJ
  rw [imageSum_even h lam hX, waveSum_even h lam V hK]
  ring

/-! ## Loads -/

/-- The sign of a load. -/
def loadSign (s : Fin 3 → ℝ) : Load → ℝ
  | .force i => s i
  | .torque i => s 0 * s 1 * s 2 * s i
  | .stress i j => s i * s j

theorem eps_sign (h : Signs s) (j k l : Fin 3) : eps j k l * (s k * s l) = s 0 * s 1 * s 2 * s j * eps j k l := by
  have h0 := h.sq 0
  have h1 := h.sq 1
  have h2 := h.sq 2
  fin_cases j <;> fin_cases k <;> fin_cases l <;> simp [eps] <;>
    first
      | linear_combination -(s 1 * s 2) * h0
      | linear_combination (s 1 * s 2) * h0
      | linear_combination -(s 0 * s 2) * h1
      | linear_combination (s 0 * s 2) * h1
      | linear_combination -(s 0 * s 1) * h2
      | linear_combination (s 0 * s 1) * h2

theorem source_flip (h : Signs s) {G : Green} (hG : Even s G) (ld : Load) (m : Fin 3) (r : Fin 3 → ℝ) :
    source G ld m (flip s r) = s m * loadSign s ld * source G ld m r := by
  cases ld with
  | force j => exact hG m j r
  | torque j =>
    simp only [source, loadSign, Finset.mul_sum]
    refine Finset.sum_congr rfl fun k _ => Finset.sum_congr rfl fun l _ => ?_
    rw [pd_flip h (hG m l) k r]
    linear_combination -(1 / 2) * s m * pd k (G m l) r * eps_sign h j k l
  | stress j k =>
    simp only [source, loadSign]
    rw [pd_flip h (hG m j) k r, pd_flip h (hG m k) j r]
    ring

theorem receive_flip (h : Signs s) {u : Fin 3 → (Fin 3 → ℝ) → ℝ} {c : ℝ} (hu : ∀ m r, u m (flip s r) = s m * c * u m r)
    (ld : Load) (r : Fin 3 → ℝ) : receive ld u (flip s r) = loadSign s ld * c * receive ld u r := by
  cases ld with
  | force i => exact hu i r
  | torque i =>
    simp only [receive, loadSign, Finset.mul_sum]
    refine Finset.sum_congr rfl fun k _ => Finset.sum_congr rfl fun l _ => ?_
    rw [pd_flip h (hu l) k r]
    linear_combination 1 / 2 * c * pd k (u l) r * eps_sign h i k l
  | stress i j =>
    simp only [receive, loadSign]
    rw [pd_flip h (hu i) j r, pd_flip h (hu j) i r]
    ring

theorem response_flip (h : Signs s) {G : Green} (hG : Even s G) (a b : ℝ) (l1 l2 : Load) (r : Fin 3 → ℝ) :
    greenResponse G a b l1 l2 (flip s r) = loadSign s l1 * loadSign s l2 * greenResponse G a b l1 l2 r := by
  have hL : Even s fun i j => lap (G i j) := fun i j r => lap_flip h (hG i j) r
  unfold greenResponse
  rw [receive_flip h (fun m r => source_flip h hG l2 m r) l1 r, receive_flip h (fun m r => source_flip h hL l2 m r) l1 r]
  ring

/-! ## Components -/

/-- The sign of a component. -/
def compSign (s : Fin 3 → ℝ) : Comp → ℝ
  | .f i => s i
  | .t i => s 0 * s 1 * s 2 * s i
  | .s p => ![1, s 0 * s 1, 1, s 0 * s 2, s 1 * s 2] p

theorem compSign_sq (h : Signs s) (c : Comp) : compSign s c * compSign s c = 1 := by
  have h0 := h 0
  have h1 := h 1
  have h2 := h 2
  cases c with
  | f i => exact h.sq i
  | t i =>
    have hi := h i
    simp only [compSign]
    rcases h0 with e0 | e0 <;> rcases h1 with e1 | e1 <;> rcases h2 with e2 | e2 <;> rcases hi with e | e <;>
      rw [e0, e1, e2, e] <;> norm_num
  | s p =>
    fin_cases p <;> simp [compSign] <;> rcases h0 with e0 | e0 <;> rcases h1 with e1 | e1 <;>
      rcases h2 with e2 | e2 <;> simp [e0, e1, e2]

theorem basis5_sign (h : Signs s) (p : Fin 5) (i j : Fin 3) :
    basis5 p i j * (s i * s j) = compSign s (.s p) * basis5 p i j := by
  have h0 := h.sq 0
  have h1 := h.sq 1
  have h2 := h.sq 2
  fin_cases p <;> fin_cases i <;> fin_cases j <;> simp [basis5, compSign, h0, h1, h2] <;> ring

theorem five_sign (h : Signs s) (M : Fin 3 → Fin 3 → ℝ) (c : ℝ) (p : Fin 5) :
    five (fun i j => s i * s j * c * M i j) p = compSign s (.s p) * c * five M p := by
  have h0 := h.sq 0
  have h1 := h.sq 1
  fin_cases p <;> simp [five, compSign, h0, h1] <;> ring

theorem greenTo_flip (h : Signs s) {G : Green} (hG : Even s G) (a b : ℝ) (l : Load) (c : Comp) (r : Fin 3 → ℝ) :
    greenTo G a b l c (flip s r) = loadSign s l * compSign s c * greenTo G a b l c r := by
  cases c with
  | f j => exact response_flip h hG a b l (.force j) r
  | t j => exact response_flip h hG a b l (.torque j) r
  | s q =>
    simp only [greenTo, Finset.mul_sum]
    refine Finset.sum_congr rfl fun j _ => Finset.sum_congr rfl fun k _ => ?_
    rw [response_flip h hG a b l (.stress j k) r]
    show basis5 q j k * (loadSign s l * (s j * s k) * _) = _
    linear_combination loadSign s l * greenResponse G a b l (.stress j k) r * basis5_sign h q j k

theorem greenMob_flip (h : Signs s) {G : Green} (hG : Even s G) (a b : ℝ) (c1 c2 : Comp) (r : Fin 3 → ℝ) :
    greenMob G a b c1 c2 (flip s r) = compSign s c1 * compSign s c2 * greenMob G a b c1 c2 r := by
  cases c1 with
  | f i => exact greenTo_flip h hG a b (.force i) c2 r
  | t i => exact greenTo_flip h hG a b (.torque i) c2 r
  | s p =>
    simp only [greenMob]
    rw [← five_sign h]
    congr 1
    funext i j
    exact greenTo_flip h hG a b (.stress i j) c2 r

/-! ## As reflections -/

theorem signQ_orth (h : Signs s) : Orthogonal (signQ s) := by
  have h0 := h.sq 0
  have h1 := h.sq 1
  have h2 := h.sq 2
  intro i j
  fin_cases i <;> fin_cases j <;> simp [signQ, dlt, Fin.sum_univ_three, h0, h1, h2]

theorem turnVec_sign (s r : Fin 3 → ℝ) : turnVec (signQ s) r = flip s r := by
  funext k
  fin_cases k <;> simp [turnVec, signQ, flip, Fin.sum_univ_three]

theorem turnComp_sign (h : Signs s) (c : Comp) (F : Comp → ℝ) : turnComp (signQ s) c F = compSign s c * F c := by
  cases c with
  | f i => fin_cases i <;> simp [turnComp, signQ, compSign, Fin.sum_univ_three]
  | t i =>
    have : Spec.det3 (signQ s) = s 0 * s 1 * s 2 := by simp [Spec.det3, signQ]; ring
    simp only [turnComp, this]
    fin_cases i <;> simp [signQ, compSign, Fin.sum_univ_three]
  | s p =>
    have e : ∀ q, ∑ i, ∑ j, basis5 p i j * turnMat (signQ s) (basis5 q) i j
        = compSign s (.s p) * if q = p then 1 else 0 := by
      intro q
      rw [← Sph.basis5_dot p q, Finset.mul_sum]
      refine Finset.sum_congr rfl fun i _ => ?_
      rw [Finset.mul_sum]
      refine Finset.sum_congr rfl fun j _ => ?_
      have : turnMat (signQ s) (basis5 q) i j = s i * s j * basis5 q i j := by
        fin_cases i <;> fin_cases j <;> simp [turnMat, signQ, Fin.sum_univ_three]
      rw [this]
      linear_combination basis5 q i j * basis5_sign h p i j
    show ∑ q, _ * F (.s q) = _
    simp only [e, ite_mul, mul_ite, one_mul, zero_mul, mul_zero, mul_one, Finset.sum_ite_eq', Finset.mem_univ, if_true]

theorem pairMob_flip (h : Signs s) (a b : ℝ) (c1 c2 : Comp) {r : Fin 3 → ℝ} (hr : r ≠ 0) :
    pairMob a b c1 c2 (flip s r) = compSign s c1 * compSign s c2 * pairMob a b c1 c2 r := by
  rw [← turnVec_sign, pairMob_turn (signQ_orth h) hr]
  simp only [turnComp_sign h, mul_assoc]

theorem selfMob_flip (h : Signs s) (mu a : ℝ) (c1 c2 : Comp) :
    selfMob mu a c1 c2 = compSign s c1 * compSign s c2 * selfMob mu a c1 c2 := by
  conv_lhs => rw [turnComp_self (signQ_orth h)]
  simp only [turnComp_sign h, mul_assoc]

/-! ## What the code writes -/

theorem codeMob_flip (h : Signs s) {W : Lattice} (hX : (W.X.map (flip s)).Perm W.X) (hK : (W.K.map (flip s)).Perm W.K)
    (ss : Bool) (a b : ℝ) (c1 c2 : Comp) (r : Fin 3 → ℝ) :
    codeMob W ss a b c1 c2 (flip s r) = compSign s c1 * compSign s c2 * codeMob W ss a b c1 c2 r := by
  have hG := boxJ_even h W.lamb (W.L ^ 3) hX hK
  have hI := imageSum_even h W.lamb hX
  cases c1 <;> cases c2 <;> simp only [codeMob] <;>
    first
      | exact greenMob_flip h hG _ _ _ _ _
      | (split_ifs <;> exact greenMob_flip h hI _ _ _ _ _)

theorem restMob_flip (h : Signs s) {W : Lattice} (hp : Proper W) (hW : (W.X.map fun x => -x).Perm W.X)
    (hX : (W.X.map (flip s)).Perm W.X) (hK : (W.K.map (flip s)).Perm W.K) (a b : ℝ) (c1 c2 : Comp) :
    restMob W a b c1 c2 = compSign s c1 * compSign s c2 * restMob W a b c1 c2 := by
  have h1 := imagesAddComp_rest hp hW a b c1 c2
  have hG := boxJ_even h W.lamb (W.L ^ 3) hX hK
  have ht : Filter.Tendsto (flip s) (nhdsWithin 0 {0}ᶜ) (nhdsWithin 0 {0}ᶜ) := by
    refine tendsto_nhdsWithin_iff.mpr ⟨?_, ?_⟩
    · have hc : Continuous (flip s) := by unfold flip; fun_prop
      have := hc.tendsto 0
      have e : flip s 0 = 0 := by funext i; simp [flip]
      rw [e] at this
      exact this.mono_left nhdsWithin_le_nhds
    · filter_upwards [self_mem_nhdsWithin] with r hr
      intro e
      apply hr
      rw [Set.mem_singleton_iff] at e
      have := flip_flip h r
      rw [e] at this
      rw [Set.mem_singleton_iff, ← this]
      funext i; simp [flip]
  refine tendsto_nhds_unique (h1.comp ht) ((h1.const_mul (compSign s c1 * compSign s c2)).congr' ?_)
  filter_upwards [self_mem_nhdsWithin] with r hr
  simp only [Function.comp]
  rw [greenMob_flip h hG, pairMob_flip h _ _ _ _ hr]
  ring

theorem codeSelf_flip (h : Signs s) {W : Lattice} (hp : Proper W) (hW : (W.X.map fun x => -x).Perm W.X)
    (hX : (W.X.map (flip s)).Perm W.X) (hK : (W.K.map (flip s)).Perm W.K) (c mu a : ℝ) (c1 c2 : Comp) :
    codeSelf W c mu a c1 c2 = compSign s c1 * compSign s c2 * codeSelf W c mu a c1 c2 := by
  have hr := restMob_flip h hp hW hX hK
  have hs := selfMob_flip h mu a
  cases c1 with
  | f i => cases c2 with
    | f j =>
      simp only [codeSelf]
      linear_combination hs (.f i) (.f j) + c * hr a a (.f i) (.f j)
    | t j => simp [codeSelf]
    | s q => simp [codeSelf]
  | t i => cases c2 with
    | f j => simp [codeSelf]
    | t j =>
      simp only [codeSelf]
      by_cases e : i = j
      · subst e
        rw [if_pos rfl, compSign_sq h, one_mul]
      · rw [if_neg e]
        linear_combination hs (.t i) (.t j) + c * hr a a (.t i) (.t j)
    | s q =>
      simp only [codeSelf]
      linear_combination c * hr a (Real.sqrt (5 / 3) * a) (.t i) (.s q)
  | s p => cases c2 with
    | f j => simp [codeSelf]
    | t j =>
      simp only [codeSelf]
      linear_combination c * hr a (Real.sqrt (5 / 3) * a) (.t j) (.s p)
    | s q =>
      simp only [codeSelf]
      linear_combination hs (.s p) (.s q) + c * hr a a (.s p) (.s q)

/-! ## The images and waves of a box -/

/-- Signs of whole numbers. -/
def gridFlip (z : Fin 3 → ℤ) (n : Fin 3 → ℤ) : Fin 3 → ℤ := fun i => z i * n i

theorem gridpoints_flip (N : ℕ) {z : Fin 3 → ℤ} (hz : ∀ i, z i = 1 ∨ z i = -1) :
    ((gridpoints N).map (gridFlip z)).Perm (gridpoints N) := by
  have inv : ∀ n, gridFlip z (gridFlip z n) = n := fun n => by
    funext i
    show z i * (z i * n i) = n i
    rcases hz i with e | e <;> rw [e] <;> ring
  have inj : Function.Injective (gridFlip z) := fun a b h => by rw [← inv a, ← inv b, h]
  have le : ∀ (n : Fin 3 → ℤ) (a : Fin 3), (-(N : ℤ) ≤ n a ∧ n a ≤ N) → (-(N : ℤ) ≤ gridFlip z n a ∧ gridFlip z n a ≤ N) := by
    intro n a h
    show _ ≤ z a * n a ∧ z a * n a ≤ _
    rcases hz a with e | e <;> rw [e] <;> omega
  refine (List.perm_ext_iff_of_nodup ((gridpoints_nodup N).map inj) (gridpoints_nodup N)).mpr ?_
  intro n
  rw [List.mem_map, mem_gridpoints]
  constructor
  · rintro ⟨m, hm, rfl⟩ a
    exact le m a (mem_gridpoints.mp hm a)
  · intro h
    exact ⟨gridFlip z n, mem_gridpoints.mpr fun a => le n a (h a), inv n⟩

theorem grid_flip (N : ℕ) (B : Mat3) {z : Fin 3 → ℤ} (hz : ∀ i, z i = 1 ∨ z i = -1)
    (hB : ∀ n, gridVec B (gridFlip z n) = flip s (gridVec B n)) (q : (Fin 3 → ℤ) → Bool)
    (hq : ∀ n, q (gridFlip z n) = q n) :
    ((((gridpoints N).filter q).map (gridVec B)).map (flip s)).Perm (((gridpoints N).filter q).map (gridVec B)) := by
  have h1 := ((gridpoints_flip N hz).filter q).map (gridVec B)
  have e : (((gridpoints N).map (gridFlip z)).filter q).map (gridVec B)
      = (((gridpoints N).filter q).map (gridVec B)).map (flip s) := by
    rw [List.filter_map, List.map_map, List.map_map]
    have : (q ∘ gridFlip z) = q := funext hq
    rw [this]
    exact List.map_congr_left fun n _ => hB n
  rw [e] at h1
  exact h1

theorem box_at_rest (bl tr : Vec3) (k i : Fin 3) : boxBasis bl tr 0 0 k i = if k = i then tr i - bl i else 0 := by
  simp only [boxBasis, shear_basis_vectors, basis_canonical, npCross, matVec3, npMod]
  fin_cases k <;> fin_cases i <;> simp

/-- The images and waves of a box at rest respect every change of signs; those of any box the reversal. -/
theorem box_flip (h : Signs s) (n : ℕ) (bl tr Ot : Vec3) (Et : Mat3)
    (hs : BoxKeeps Ot Et s) :
    ((boxLattice n bl tr Ot Et).X.map (flip s)).Perm (boxLattice n bl tr Ot Et).X ∧
    ((boxLattice n bl tr Ot Et).K.map (flip s)).Perm (boxLattice n bl tr Ot Et).K := by
  rcases hs with hs | ⟨rfl, rfl⟩
  · rcases h 0 with e | e
    · have : flip s = id := by
        funext r i
        show s i * r i = r i
        rw [hs i, e, one_mul]
      rw [this, List.map_id, List.map_id]
      exact ⟨List.Perm.refl _, List.Perm.refl _⟩
    · have : flip s = fun x => -x := by
        funext r i
        show s i * r i = -r i
        rw [hs i, e, neg_one_mul]
      rw [this]
      exact ⟨boxLattice_X_symm n bl tr Ot Et, boxLattice_K_symm n bl tr Ot Et⟩
  · obtain ⟨z, hz⟩ : ∃ z : Fin 3 → ℤ, ∀ i, (z i = 1 ∨ z i = -1) ∧ (z i : ℝ) = s i := by
      refine ⟨fun i => if s i = 1 then 1 else -1, fun i => ?_⟩
      rcases h i with e | e
      · simp [e]
      · have : ¬ (-1 : ℝ) = 1 := by norm_num
        simp [e, this]
    have hB : ∀ m, gridVec (boxBasis bl tr 0 0) (gridFlip z m) = flip s (gridVec (boxBasis bl tr 0 0) m) := by
      intro m; funext i
      have hi := (hz i).2
      simp only [gridVec, vecMat3, box_at_rest, Fin.sum_univ_three, flip, gridFlip, Int.cast_mul]
      fin_cases i <;> simp at hi ⊢ <;> rw [hi] <;> ring
    have hlen : ∀ m, norm3 (gridVec (boxBasis bl tr 0 0) (gridFlip z m)) = norm3 (gridVec (boxBasis bl tr 0 0) m) :=
      fun m => by rw [hB, norm3_eq_len, norm3_eq_len, len_flip h]
    refine ⟨?_, ?_⟩
    · rw [boxLattice_X]
      exact grid_flip n _ (fun i => (hz i).1) hB _ fun m => by rw [hlen]
    · have hz' : ∀ i, (![z 1, z 0, z 2] : Fin 3 → ℤ) i = 1 ∨ (![z 1, z 0, z 2] : Fin 3 → ℤ) i = -1 := by
        intro i
        fin_cases i
        · exact (hz 1).1
        · exact (hz 0).1
        · exact (hz 2).1
      have hsq : ∀ i, ((z i : ℤ) : ℝ) * (z i : ℝ) = 1 := fun i => by rw [(hz i).2]; exact h.sq i
      show (((((gridpoints n).filter _).map (gridVec (k_basis_vectors _ (boxBasis bl tr 0 0))))).map (flip s)).Perm
        (((gridpoints n).filter _).map (gridVec (k_basis_vectors _ (boxBasis bl tr 0 0))))
      have hl2 : ∀ m, norm3 (gridVec (boxBasis bl tr 0 0) (gridFlip ![z 1, z 0, z 2] m))
          = norm3 (gridVec (boxBasis bl tr 0 0) m) := by
        intro m
        unfold norm3
        congr 1
        have h0 := hsq 0
        have h1 := hsq 1
        have h2 := hsq 2
        simp [gridVec, vecMat3, box_at_rest, Fin.sum_univ_three, gridFlip]
        linear_combination (m 0 * (tr 0 - bl 0)) ^ 2 * h1 + (m 1 * (tr 1 - bl 1)) ^ 2 * h0
          + (m 2 * (tr 2 - bl 2)) ^ 2 * h2
      refine grid_flip n _ hz' ?_ _ fun m => ?_
      · intro m; funext i
        have e0 := (hz 0).2
        have e1 := (hz 1).2
        have e2 := (hz 2).2
        fin_cases i <;>
          simp [gridVec, vecMat3, box_at_rest, Fin.sum_univ_three, flip, gridFlip, k_basis_vectors, npCross, ← e0, ← e1, ← e2] <;>
          ring
      · show (decide (norm3 (gridVec (boxBasis bl tr 0 0) (gridFlip ![z 1, z 0, z 2] m)) ≤ _)
          && decide (norm3 (gridVec (boxBasis bl tr 0 0) (gridFlip ![z 1, z 0, z 2] m)) > 0)) = _
        rw [hl2]
        rfl

end SD.Sign
