import Verif.Lemmas.EwaldSplitting
import Verif.Lemmas.EwaldLayers
import Verif.Spec.Splitting

/-!
# The Green's function of the infinite array, its derivatives, and its independence of the splitting
-/

set_option autoImplicit false

namespace SD.Ewald

open Spec Filter Topology

/-! ## Jets of sums over lattices -/

section
variable {B K : Mat3}

theorem _root_.SD.Ewald.IsJet.images (hB : Spans B) {f g : Vec3 → ℝ} {f1 g1 : Fin 3 → Vec3 → ℝ} {f2 g2 : Fin 3 → Fin 3 → Vec3 → ℝ}
    (h : IsJet {r | r ≠ 0} f f1 f2 g g1 g2) (q : Quick fun y : Unit × Vec3 => f y.2) (q1 : ∀ l, Quick fun y : Unit × Vec3 => f1 l y.2)
    (q2 : ∀ m l, Quick fun y : Unit × Vec3 => f2 m l y.2) (p : Quick fun y : Unit × Vec3 => g y.2)
    (p1 : ∀ l, Quick fun y : Unit × Vec3 => g1 l y.2) (p2 : ∀ m l, Quick fun y : Unit × Vec3 => g2 m l y.2) :
    IsJet (Off B) (fun r => ∑' n, f fun m => r m + gridVec B n m) (fun l r => ∑' n, f1 l fun m => r m + gridVec B n m)
      (fun m l r => ∑' n, f2 m l fun m => r m + gridVec B n m) (fun r => ∑' n, g fun m => r m + gridVec B n m)
      (fun l r => ∑' n, g1 l fun m => r m + gridVec B n m) (fun m l r => ∑' n, g2 m l fun m => r m + gridVec B n m) := by
  refine ⟨fun r hr l => images_pd hB (fun y hy => h.one y hy l) q (q1 l) hr,
    fun r hr m l => images_pd hB (fun y hy => h.two y hy m l) (q1 l) (q2 m l) hr, fun r hr => ?_,
    fun r hr l => images_pd hB (fun y hy => h.three y hy l) p (p1 l) hr,
    fun r hr m l => images_pd hB (fun y hy => h.four y hy m l) (p1 l) (p2 m l) hr⟩
  rw [← Summable.tsum_finsetSum fun l _ => images_summable hB (q2 l l) r]
  exact tsum_congr fun n => h.lap _ (hr n)

theorem _root_.SD.Ewald.IsJet.waves (hK : Spans K) {f g : Vec3 → Vec3 → ℝ} {f1 g1 : Fin 3 → Vec3 → Vec3 → ℝ}
    {f2 g2 : Fin 3 → Fin 3 → Vec3 → Vec3 → ℝ}
    (h : ∀ k, IsJet Set.univ (f k) (fun l => f1 l k) (fun m l => f2 m l k) (g k) (fun l => g1 l k) (fun m l => g2 m l k))
    (q : Quick fun y : Vec3 × Vec3 => f y.2 y.1) (q1 : ∀ l, Quick fun y : Vec3 × Vec3 => f1 l y.2 y.1)
    (q2 : ∀ m l, Quick fun y : Vec3 × Vec3 => f2 m l y.2 y.1) (p : Quick fun y : Vec3 × Vec3 => g y.2 y.1)
    (p1 : ∀ l, Quick fun y : Vec3 × Vec3 => g1 l y.2 y.1) (p2 : ∀ m l, Quick fun y : Vec3 × Vec3 => g2 m l y.2 y.1) :
    IsJet Set.univ (fun r => ∑' n, f (gridVec K n) r) (fun l r => ∑' n, f1 l (gridVec K n) r)
      (fun m l r => ∑' n, f2 m l (gridVec K n) r) (fun r => ∑' n, g (gridVec K n) r)
      (fun l r => ∑' n, g1 l (gridVec K n) r) (fun m l r => ∑' n, g2 m l (gridVec K n) r) := by
  refine ⟨fun r _ l => waves_pd hK (fun k r => (h k).one r (Set.mem_univ _) l) q (q1 l) r,
    fun r _ m l => waves_pd hK (fun k r => (h k).two r (Set.mem_univ _) m l) (q1 l) (q2 m l) r, fun r _ => ?_,
    fun r _ l => waves_pd hK (fun k r => (h k).three r (Set.mem_univ _) l) p (p1 l) r,
    fun r _ m l => waves_pd hK (fun k r => (h k).four r (Set.mem_univ _) m l) (p1 l) (p2 m l) r⟩
  rw [← Summable.tsum_finsetSum fun l _ => waves_summable hK (q2 l l) r]
  exact tsum_congr fun n => (h _).lap r (Set.mem_univ _)

end

/-- The response through a sum is the sum of the responses. -/
theorem respVal_tsum {α : Type*} {G0 : α → Fin 3 → Fin 3 → ℝ} {G1 : α → Fin 3 → Fin 3 → Fin 3 → ℝ}
    {G2 : α → Fin 3 → Fin 3 → Fin 3 → Fin 3 → ℝ} (h0 : ∀ i j, Summable fun x => G0 x i j)
    (h1 : ∀ i j l, Summable fun x => G1 x i j l) (h2 : ∀ i j m l, Summable fun x => G2 x i j m l) (l1 l2 : Load) :
    HasSum (fun x => respVal (G0 x) (G1 x) (G2 x) l1 l2)
      (respVal (fun i j => ∑' x, G0 x i j) (fun i j l => ∑' x, G1 x i j l) (fun i j m l => ∑' x, G2 x i j m l) l1 l2) := by
  have e : ∀ s : Finset α, ∑ x ∈ s, respVal (G0 x) (G1 x) (G2 x) l1 l2 = respVal (fun i j => ∑ x ∈ s, G0 x i j)
      (fun i j l => ∑ x ∈ s, G1 x i j l) (fun i j m l => ∑ x ∈ s, G2 x i j m l) l1 l2 := by
    intro s
    have := respVal_sum s.toList G0 G1 G2 l1 l2
    simp only [Finset.sum_map_toList] at this
    exact this.symm
  unfold HasSum
  simp only [e]
  exact respVal_tendsto (fun i j => (h0 i j).hasSum) (fun i j l => (h1 i j l).hasSum) (fun i j m l => (h2 i j m l).hasSum) l1 l2

/-! ## Decay of the derivatives -/

theorem T_quick {p q : ℕ → ℝ → ℝ} (hp : ∀ n, Quick fun y : Unit × Vec3 => p n (len y.2))
    (hq : ∀ n, Quick fun y : Unit × Vec3 => q n (len y.2)) :
    (∀ i j, Quick fun y : Unit × Vec3 => T0 p q i j y.2) ∧ (∀ i j l, Quick fun y : Unit × Vec3 => T1 p q i j l y.2)
      ∧ ∀ i j m l, Quick fun y : Unit × Vec3 => T2 p q i j m l y.2 := by
  have hc := mild_coord (β := Unit)
  refine ⟨fun i j => ?_, fun i j l => ?_, fun i j m l => ?_⟩
  · exact ((hp 0).const_mul _).add (((hc i).mul (hc j)).mul_quick (hq 0))
  · exact ((((hc l).mul_quick (hp 1)).const_mul _).add
      ((((mild_const _).mul (hc j)).add ((mild_const _).mul (hc i))).mul_quick (hq 0))).add
      ((((hc i).mul (hc j)).mul (hc l)).mul_quick (hq 1))
  · refine ((((((hp 1).const_mul _).add (((hc l).mul (hc m)).mul_quick (hp 2))).const_mul _).add
      ((hq 0).const_mul _)).add (Mild.mul_quick ?_ (hq 1))).add
      (((((hc i).mul (hc j)).mul (hc l)).mul (hc m)).mul_quick (hq 2))
    exact (((((((mild_const _).mul (hc j)).mul (hc m)).add (((mild_const _).mul (hc i)).mul (hc m))).add
      (((mild_const _).mul (hc j)).mul (hc l))).add (((mild_const _).mul (hc i)).mul (hc l))).add
      (((mild_const _).mul (hc i)).mul (hc j)))

theorem bump_quick {g : ℕ → ℝ → ℝ} (hg : ∀ n, Quick fun y : Unit × Vec3 => g n (len y.2)) (a : ℝ) (n : ℕ) :
    Quick fun y : Unit × Vec3 => bump a g n (len y.2) := by
  unfold bump
  exact ((hg (n + 1)).const_mul _).add ((mild_len.pow 2).mul_quick (hg (n + 2)))

section
variable {lam : ℝ} (hl : 0 < lam)
include hl

theorem pJ_quick (n : ℕ) : Quick fun y : Unit × Vec3 => pJ lam n (len y.2) := bump_quick (scr_quick hl) 2 n
theorem qJ_quick (n : ℕ) : Quick fun y : Unit × Vec3 => qJ lam n (len y.2) := (scr_quick hl (n + 2)).neg
theorem lapP_quick (n : ℕ) : Quick fun y : Unit × Vec3 => lapP (pJ lam) (qJ lam) n (len y.2) :=
  (bump_quick (pJ_quick hl) 3 n).add ((qJ_quick hl n).const_mul 2)
theorem lapQ_quick (n : ℕ) : Quick fun y : Unit × Vec3 => lapQ (qJ lam) n (len y.2) := bump_quick (qJ_quick hl) 7 n

theorem nearJ_images {B : Mat3} (hB : Spans B) (i j : Fin 3) :
    IsJet (Off B) (fun r => ∑' n, nearJ lam i j fun m => r m + gridVec B n m)
      (fun l r => ∑' n, T1 (pJ lam) (qJ lam) i j l fun m => r m + gridVec B n m)
      (fun m l r => ∑' n, T2 (pJ lam) (qJ lam) i j m l fun m => r m + gridVec B n m)
      (fun r => ∑' n, T0 (lapP (pJ lam) (qJ lam)) (lapQ (qJ lam)) i j fun m => r m + gridVec B n m)
      (fun l r => ∑' n, T1 (lapP (pJ lam) (qJ lam)) (lapQ (qJ lam)) i j l fun m => r m + gridVec B n m)
      (fun m l r => ∑' n, T2 (lapP (pJ lam) (qJ lam)) (lapQ (qJ lam)) i j m l fun m => r m + gridVec B n m) := by
  obtain ⟨t0, t1, t2⟩ := T_quick (pJ_quick hl) (qJ_quick hl)
  obtain ⟨u0, u1, u2⟩ := T_quick (lapP_quick hl) (lapQ_quick hl)
  refine ((T0_jet (pJ_chain lam) (qJ_chain lam) i j).images hB (t0 i j) (t1 i j) (t2 i j) (u0 i j) (u1 i j) (u2 i j)).congr
    (isOpen_off hB) (fun r hr => ?_) (fun _ _ _ => rfl) (fun _ _ _ _ => rfl) (fun _ _ => rfl) (fun _ _ _ => rfl) (fun _ _ _ _ => rfl)
  exact tsum_congr fun n => nearJ_eq lam i j (hr n)

theorem waveJ_waves {K : Mat3} (hK : Spans K) (i j : Fin 3) :
    IsJet Set.univ (fun r => ∑' n, Real.cos (inner3 (gridVec K n) r) * waveJ lam i j (gridVec K n))
      (fun l r => ∑' n, -(gridVec K n l * Real.sin (inner3 (gridVec K n) r) * waveJ lam i j (gridVec K n)))
      (fun m l r => ∑' n, -(gridVec K n m * gridVec K n l * (Real.cos (inner3 (gridVec K n) r) * waveJ lam i j (gridVec K n))))
      (fun r => ∑' n, -(len (gridVec K n) ^ 2 * (Real.cos (inner3 (gridVec K n) r) * waveJ lam i j (gridVec K n))))
      (fun l r => ∑' n, len (gridVec K n) ^ 2 * (gridVec K n l * Real.sin (inner3 (gridVec K n) r) * waveJ lam i j (gridVec K n)))
      (fun m l r => ∑' n, len (gridVec K n) ^ 2 * (gridVec K n m * gridVec K n l
        * (Real.cos (inner3 (gridVec K n) r) * waveJ lam i j (gridVec K n)))) := by
  have hJ := waveJ_quick (β := Vec3) hl i j
  have hc : Mild fun k : Vec3 × Vec3 => Real.cos (inner3 k.2 k.1) := mild_bounded fun _ => Real.abs_cos_le_one _
  have hs : Mild fun k : Vec3 × Vec3 => Real.sin (inner3 k.2 k.1) := mild_bounded fun _ => Real.abs_sin_le_one _
  have hk := mild_coord (β := Vec3)
  have hl2 := (mild_len (β := Vec3)).pow 2
  have a0 := hc.mul_quick hJ
  have a1 := fun l => ((hk l).mul hs).mul_quick hJ
  have a2 := fun m l => ((hk m).mul (hk l)).mul_quick a0
  exact IsJet.waves (f := fun k r => Real.cos (inner3 k r) * waveJ lam i j k)
    (f1 := fun l k r => -(k l * Real.sin (inner3 k r) * waveJ lam i j k))
    (f2 := fun m l k r => -(k m * k l * (Real.cos (inner3 k r) * waveJ lam i j k)))
    (g := fun k r => -(len k ^ 2 * (Real.cos (inner3 k r) * waveJ lam i j k)))
    (g1 := fun l k r => len k ^ 2 * (k l * Real.sin (inner3 k r) * waveJ lam i j k))
    (g2 := fun m l k r => len k ^ 2 * (k m * k l * (Real.cos (inner3 k r) * waveJ lam i j k))) hK
    (fun k => wave_jet k _) a0 (fun l => (a1 l).neg) (fun m l => (a2 m l).neg) (hl2.mul_quick a0).neg
    (fun l => hl2.mul_quick (a1 l)) (fun m l => hl2.mul_quick (a2 m l))

end

end SD.Ewald
