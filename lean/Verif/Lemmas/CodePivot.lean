import Verif.Lemmas.Pivot
import Verif.Lemmas.PivotAlg

/-!
# The shape shared by every conversion: `M - vecmat_mat_vecmat - vec_mat_cross` is a pivot
-/

set_option autoImplicit false

namespace SD

open Finset Spec

theorem NDMat.inv_some {M B : NDMat} (h : M.inv = some B) :
    M.rows = M.cols ∧ B.rows = M.rows ∧ B.cols = M.rows ∧
    (∀ p < M.rows, ∀ q < M.rows,
      ∑ r ∈ range M.rows, B.get p r * M.get r q = if p = q then 1 else 0) ∧
    (∀ p < M.rows, ∀ q < M.rows,
      ∑ r ∈ range M.rows, M.get p r * B.get r q = if p = q then 1 else 0) := by
  unfold NDMat.inv at h
  split_ifs at h with hc
  obtain ⟨hsq, hdet⟩ := hc
  obtain rfl := Option.some.inj h
  have hu : IsUnit M.toMatrix.det := Ne.isUnit hdet
  refine ⟨hsq, rfl, rfl, ?_, ?_⟩
  · intro p hp q hq
    have := congrFun (congrFun (Matrix.nonsing_inv_mul M.toMatrix hu) ⟨p, hp⟩) ⟨q, hq⟩
    rw [Matrix.mul_apply, Matrix.one_apply] at this
    simp only [Fin.mk.injEq] at this
    rw [← this, Finset.sum_range]
    refine Finset.sum_congr rfl fun r _ => ?_
    simp only [hp, r.2, and_self, dite_true]
    rfl
  · intro p hp q hq
    have := congrFun (congrFun (Matrix.mul_nonsing_inv M.toMatrix hu) ⟨p, hp⟩) ⟨q, hq⟩
    rw [Matrix.mul_apply, Matrix.one_apply] at this
    simp only [Fin.mk.injEq] at this
    rw [← this, Finset.sum_range]
    refine Finset.sum_congr rfl fun r _ => ?_
    simp only [hq, r.2, and_self, dite_true]
    rfl

theorem sum_Ico_shift (lo up : ℕ) (g : ℕ → ℝ) :
    ∑ r ∈ Ico lo up, g r = ∑ r ∈ range (up - lo), g (lo + r) := Finset.sum_Ico_eq_sum_range g lo up

theorem code_pivot (M B : NDMat) (vec1 vec2 : List NDMat) (starts : List ℕ) (k x n lo up : ℕ)
    (hm : ∀ a < k, starts.getD a 0 ≤ starts.getD (a + 1) 0)
    (h0 : starts.getD 0 0 = 0) (hk : starts.getD k 0 = n) (hx : x < k)
    (hlo : starts.getD x 0 = lo) (hup : starts.getD (x + 1) 0 = up)
    (hinv : (M.slice lo up lo up).inv = some B)
    (hv1c : ∀ a < k, (blk vec1 a).cols = up - lo)
    (hv1 : ∀ a < k, ∀ p < starts.getD (a + 1) 0 - starts.getD a 0, ∀ q < up - lo,
      (blk vec1 a).get p q = M.get (starts.getD a 0 + p) (lo + q))
    (hv2 : ∀ c < k, ∀ p < up - lo, ∀ q < starts.getD (c + 1) 0 - starts.getD c 0,
      (blk vec2 c).get p q = M.get (lo + p) (starts.getD c 0 + q)) :
    PivotEntries M.get
      ((M.sub (vecmat_mat_vecmat vec1 B vec2 n k starts)).sub
        (vec_mat_cross vec1 B vec2 n k starts x)).get
      (fun i j => B.get (i - lo) (j - lo)) lo up n := by
  obtain ⟨-, hBr, hBc, hBl, hBrr⟩ := NDMat.inv_some hinv
  have hrows : (M.slice lo up lo up).rows = up - lo := rfl
  rw [hrows] at hBr hBc hBl hBrr
  have hgetS : ∀ p q, (M.slice lo up lo up).get p q = M.get (lo + p) (lo + q) := fun _ _ => rfl
  simp only [hgetS] at hBl hBrr
  have hupn : up ≤ n := by
    rw [← hup, ← hk]
    exact mono_of_step (fun a => starts.getD a 0) k hm (by omega) le_rfl
  have hlu : lo ≤ up := by rw [← hlo, ← hup]; exact hm x hx
  have hget : ∀ i j, ((M.sub (vecmat_mat_vecmat vec1 B vec2 n k starts)).sub
        (vec_mat_cross vec1 B vec2 n k starts x)).get i j
      = M.get i j - (vecmat_mat_vecmat vec1 B vec2 n k starts).get i j
        - (vec_mat_cross vec1 B vec2 n k starts x).get i j := fun _ _ => rfl
  have hblk : ∀ i < n, ∃ a < k, (starts.getD a 0 ≤ i ∧ i < starts.getD (a + 1) 0) := fun i hi =>
    exists_block (fun a => starts.getD a 0) k n h0 hk hi
  have hinx : ∀ {a i}, a < k → (starts.getD a 0 ≤ i ∧ i < starts.getD (a + 1) 0) →
      (a = x ↔ i ∈ Ico lo up) := by
    intro a i ha hi
    rw [mem_Ico]
    constructor
    · rintro rfl; rw [← hlo, ← hup]; exact hi
    · intro h
      rw [← hlo, ← hup] at h
      exact block_unique (fun a => starts.getD a 0) k hm ha hx hi h
  -- products in terms of entries of `M`
  have hEB : ∀ {a i}, a < k → (starts.getD a 0 ≤ i ∧ i < starts.getD (a + 1) 0) → ∀ q < up - lo,
      (NDMat.dot (blk vec1 a) B).get (i - starts.getD a 0) q
        = ∑ r ∈ range (up - lo), M.get i (lo + r) * B.get r q := by
    intro a i ha hi q hq
    simp only [NDMat.dot, hv1c a ha]
    refine sum_congr rfl fun r hr => ?_
    rw [hv1 a ha _ (by omega) r (mem_range.mp hr), Nat.add_sub_cancel' hi.1]
  have hBC : ∀ {c j}, c < k → (starts.getD c 0 ≤ j ∧ j < starts.getD (c + 1) 0) → ∀ p,
      (NDMat.dot B (blk vec2 c)).get p (j - starts.getD c 0)
        = ∑ r ∈ range (up - lo), B.get p r * M.get (lo + r) j := by
    intro c j hc hj p
    simp only [NDMat.dot, hBc]
    refine sum_congr rfl fun r hr => ?_
    rw [hv2 c hc r (mem_range.mp hr) _ (by omega), Nat.add_sub_cancel' hj.1]
  have hEBC : ∀ {a c i j}, a < k → c < k → (starts.getD a 0 ≤ i ∧ i < starts.getD (a + 1) 0) →
      (starts.getD c 0 ≤ j ∧ j < starts.getD (c + 1) 0) →
      (NDMat.dot (NDMat.dot (blk vec1 a) B) (blk vec2 c)).get
        (i - starts.getD a 0) (j - starts.getD c 0)
        = ∑ r ∈ range (up - lo), (∑ q ∈ range (up - lo), M.get i (lo + q) * B.get q r)
            * M.get (lo + r) j := by
    intro a c i j ha hc hi hj
    have : (NDMat.dot (NDMat.dot (blk vec1 a) B) (blk vec2 c)).get
        (i - starts.getD a 0) (j - starts.getD c 0)
        = ∑ r ∈ range B.cols, (NDMat.dot (blk vec1 a) B).get (i - starts.getD a 0) r
            * (blk vec2 c).get r (j - starts.getD c 0) := rfl
    rw [this, hBc]
    refine sum_congr rfl fun r hr => ?_
    rw [hEB ha hi r (mem_range.mp hr), hv2 c hc r (mem_range.mp hr) _ (by omega),
      Nat.add_sub_cancel' hj.1]
  -- the triple product collapses when one side is in the pivot block
  have hcolL : ∀ i ∈ Ico lo up, ∀ j, ∑ r ∈ range (up - lo),
      (∑ q ∈ range (up - lo), M.get i (lo + q) * B.get q r) * M.get (lo + r) j = M.get i j := by
    intro i hi j
    rw [mem_Ico] at hi
    have h1 : ∀ r ∈ range (up - lo), (∑ q ∈ range (up - lo), M.get i (lo + q) * B.get q r)
        = if i - lo = r then 1 else 0 := by
      intro r hr
      have := hBrr (i - lo) (by omega) r (mem_range.mp hr)
      rwa [Nat.add_sub_cancel' hi.1] at this
    rw [sum_congr rfl fun r hr => by rw [h1 r hr],
      sum_ite_eq_one (mem_range.mpr (by omega)) (fun r => M.get (lo + r) j),
      Nat.add_sub_cancel' hi.1]
  have hcolR : ∀ j ∈ Ico lo up, ∀ i, ∑ r ∈ range (up - lo),
      (∑ q ∈ range (up - lo), M.get i (lo + q) * B.get q r) * M.get (lo + r) j = M.get i j := by
    intro j hj i
    rw [mem_Ico] at hj
    rw [← sum_assoc (range (up - lo)) (range (up - lo)) (fun q => M.get i (lo + q))
      (fun q r => B.get q r) (fun r => M.get (lo + r) j)]
    have h1 : ∀ q ∈ range (up - lo), (∑ r ∈ range (up - lo), B.get q r * M.get (lo + r) j)
        = if j - lo = q then 1 else 0 := by
      intro q hq
      have := hBl q (mem_range.mp hq) (j - lo) (by omega)
      rw [Nat.add_sub_cancel' hj.1] at this
      rw [this]; simp only [eq_comm]
    rw [sum_congr rfl fun q hq => by rw [h1 q hq, mul_comm],
      sum_ite_eq_one (mem_range.mpr (by omega)) (fun q => M.get i (lo + q)),
      Nat.add_sub_cancel' hj.1]
  refine ⟨hupn, ?_, ?_, ?_, ?_, ?_, ?_⟩
  · intro i hi j hj
    rw [mem_Ico] at hi hj
    rw [sum_Ico_shift]
    have := hBl (i - lo) (by omega) (j - lo) (by omega)
    rw [Nat.add_sub_cancel' hj.1] at this
    simp only [Nat.add_sub_cancel_left]
    rw [this]
    congr 1; simp only [eq_iff_iff]; omega
  · intro i hi j hj
    rw [mem_Ico] at hi hj
    rw [sum_Ico_shift]
    have := hBrr (i - lo) (by omega) (j - lo) (by omega)
    rw [Nat.add_sub_cancel' hi.1] at this
    simp only [Nat.add_sub_cancel_left]
    rw [this]
    congr 1; simp only [eq_iff_iff]; omega
  · intro i hi j hj
    have hi' := mem_Ico.mp hi
    have hj' := mem_Ico.mp hj
    obtain ⟨a, ha, hia⟩ := hblk i (by omega)
    obtain ⟨c, hc, hjc⟩ := hblk j (by omega)
    have hax := (hinx ha hia).mpr hi
    have hcx := (hinx hc hjc).mpr hj
    rw [hget, vecmat_get _ _ _ _ _ _ hm ha hc hia hjc, cross_get _ _ _ _ _ _ _ hm ha hc hia hjc,
      hEBC ha hc hia hjc, hcolL i hi]
    unfold crossVal
    rw [if_neg (by tauto), if_neg (by tauto), if_pos hax, hax, hcx, hlo]
    ring
  · intro i hi j hj hjP
    have hi' := mem_Ico.mp hi
    obtain ⟨a, ha, hia⟩ := hblk i (by omega)
    obtain ⟨c, hc, hjc⟩ := hblk j hj
    have hax := (hinx ha hia).mpr hi
    have hcx : c ≠ x := fun h => hjP ((hinx hc hjc).mp h)
    rw [hget, vecmat_get _ _ _ _ _ _ hm ha hc hia hjc, cross_get _ _ _ _ _ _ _ hm ha hc hia hjc,
      hEBC ha hc hia hjc, hcolL i hi]
    unfold crossVal
    rw [if_pos ⟨hax, hcx⟩, hBC hc hjc, hax, hlo, sum_Ico_shift]
    simp only [Nat.add_sub_cancel_left]
    ring
  · intro i hi hiP j hj
    have hj' := mem_Ico.mp hj
    obtain ⟨a, ha, hia⟩ := hblk i hi
    obtain ⟨c, hc, hjc⟩ := hblk j (by omega)
    have hcx := (hinx hc hjc).mpr hj
    have hax : a ≠ x := fun h => hiP ((hinx ha hia).mp h)
    rw [hget, vecmat_get _ _ _ _ _ _ hm ha hc hia hjc, cross_get _ _ _ _ _ _ _ hm ha hc hia hjc,
      hEBC ha hc hia hjc, hcolR j hj]
    unfold crossVal
    rw [if_neg (by tauto), if_pos ⟨hax, hcx⟩]
    rw [hcx, hlo, hEB ha hia _ (by omega), sum_Ico_shift]
    simp only [Nat.add_sub_cancel_left]
    ring
  · intro i hi hiP j hj hjP
    obtain ⟨a, ha, hia⟩ := hblk i hi
    obtain ⟨c, hc, hjc⟩ := hblk j hj
    have hax : a ≠ x := fun h => hiP ((hinx ha hia).mp h)
    have hcx : c ≠ x := fun h => hjP ((hinx hc hjc).mp h)
    rw [hget, vecmat_get _ _ _ _ _ _ hm ha hc hia hjc, cross_get _ _ _ _ _ _ _ hm ha hc hia hjc,
      hEBC ha hc hia hjc]
    unfold crossVal
    rw [if_neg (by tauto), if_neg (by tauto), if_neg (by tauto), sum_Ico_shift]
    simp only [Nat.add_sub_cancel_left, sum_Ico_shift]
    ring

/-- A principal block of a positive definite matrix can be inverted. -/
theorem inv_of_posDef (M : NDMat) (n lo up : ℕ) (hup : up ≤ n) (h : PosDef M.get n) :
    ∃ B, (M.slice lo up lo up).inv = some B := by
  unfold NDMat.inv
  rw [if_pos]
  · exact ⟨_, rfl⟩
  refine ⟨rfl, fun hdet => ?_⟩
  obtain ⟨v, hv0, hv⟩ := Matrix.exists_mulVec_eq_zero_iff.mpr hdet
  have hr : (M.slice lo up lo up).rows = up - lo := rfl
  have hlu : lo < up := by
    by_contra hcon
    apply hv0
    funext i
    have := i.2
    omega
  set w : ℕ → ℝ := fun i => if h : lo ≤ i ∧ i < up then v ⟨i - lo, by omega⟩ else 0 with hw
  have hwin : ∀ p : Fin (up - lo), w (lo + p) = v p := by
    intro p
    have := p.2
    rw [hw]
    simp only
    rw [dif_pos (by omega)]
    congr 1
    apply Fin.ext
    simp
  have hwout : ∀ i, ¬ (lo ≤ i ∧ i < up) → w i = 0 := by
    intro i hi; rw [hw]; simp only; rw [dif_neg hi]
  have hpos := h w (by
    by_contra hcon
    push Not at hcon
    apply hv0
    funext p
    rw [← hwin p]
    have := p.2
    exact hcon _ (by omega))
  apply absurd hpos
  rw [not_lt]
  apply le_of_eq
  apply sum_eq_zero
  intro i hi
  by_cases hiP : lo ≤ i ∧ i < up
  · have e1 : ∑ j ∈ range n, w i * M.get i j * w j
        = w i * ∑ j ∈ range n, M.get i j * w j := by
      rw [mul_sum]; exact sum_congr rfl fun j _ => by ring
    rw [e1, sum_split lo up n hup]
    have e2 : ∑ j ∈ range n \ Ico lo up, M.get i j * w j = 0 := by
      refine sum_eq_zero fun j hj => ?_
      rw [mem_sdiff, mem_Ico] at hj
      rw [hwout j hj.2, mul_zero]
    have e3 : ∑ j ∈ Ico lo up, M.get i j * w j = 0 := by
      rw [sum_Ico_shift, Finset.sum_range]
      have := congrFun hv ⟨i - lo, by omega⟩
      rw [Matrix.mulVec, Pi.zero_apply] at this
      rw [← this]
      refine Finset.sum_congr rfl fun p _ => ?_
      rw [hwin p]
      congr 1
      change M.get i (lo + p) = M.get (lo + (i - lo)) (lo + p)
      rw [Nat.add_sub_cancel' hiP.1]
    rw [e2, e3]; ring
  · exact sum_eq_zero fun j _ => by rw [hwout i hiP]; ring

end SD
