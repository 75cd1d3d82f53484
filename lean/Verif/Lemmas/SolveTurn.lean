import Verif.Lemmas.Power
import Verif.Props.Covariance
import Verif.Props.Superpose

/-!
# Symmetry and positivity of a transformed matrix, and transformed answers
-/

set_option autoImplicit false

open Finset

namespace SD

open Spec Cov

section
variable {Ns Nd : ℕ} {Kl Km : Comp → Comp → ℝ}

/-- Products of loads and motions are multiplied by `z`. -/
def Paired (Ns Nd : ℕ) (Kl Km : Comp → Comp → ℝ) (z : ℝ) : Prop :=
  ∀ f f' v v', Acts Ns Nd Kl (fun u => u) f f' → Acts Ns Nd Km (fun u => u) v v' →
    ∑ i ∈ range (11 * Ns + 6 * Nd), f' i * v' i = z * ∑ i ∈ range (11 * Ns + 6 * Nd), f i * v i

theorem paired_of {z : ℝ} (hf : ∀ F G : Comp → ℝ, ∑ i, mix Kl (.f i) F * mix Km (.f i) G = z * ∑ i, F (.f i) * G (.f i))
    (ht : ∀ F G : Comp → ℝ, ∑ i, mix Kl (.t i) F * mix Km (.t i) G = z * ∑ i, F (.t i) * G (.t i))
    (hs : ∀ F G : Comp → ℝ, ∑ i, mix Kl (.s i) F * mix Km (.s i) G = z * ∑ i, F (.s i) * G (.s i)) :
    Paired Ns Nd Kl Km z := by
  intro f f' v v' h h'
  rw [sum_rows, sum_rows, mul_add, mul_sum, mul_sum]
  congr 1
  · refine sum_congr rfl fun u hu => ?_
    have hu := mem_range.mp hu
    rw [← hf (fun d => f (row Ns u d)) fun d => v (row Ns u d)]
    exact sum_congr rfl fun k _ => by rw [h u (.f k) hu, h' u (.f k) hu]
  · refine sum_congr rfl fun u hu => ?_
    have hu := mem_range.mp hu
    rw [mul_add, ← ht (fun d => f (row Ns u d)) fun d => v (row Ns u d),
      ← hs (fun d => f (row Ns u d)) fun d => v (row Ns u d)]
    congr 1
    · exact sum_congr rfl fun k _ => by rw [h u (.t k) hu, h' u (.t k) hu]
    · exact sum_congr rfl fun k _ => by rw [h u (.s k) hu, h' u (.s k) hu]

theorem form_comm (n : ℕ) (M : ℕ → ℕ → ℝ) (v w : ℕ → ℝ) :
    ∑ i ∈ range n, ∑ j ∈ range n, w i * M i j * v j = ∑ i ∈ range n, mulVec n M v i * w i := by
  refine sum_congr rfl fun i _ => ?_
  rw [mulVec, sum_mul]
  exact sum_congr rfl fun j _ => by ring

variable {M M' : ℕ → ℕ → ℝ} {z : ℝ} (hd : Paired Ns Nd Kl Km z) (hu : Undo Ns Nd Km fun u => u)
  (hM : ∀ v v', Acts Ns Nd Km (fun u => u) v v' →
    Acts Ns Nd Kl (fun u => u) (mulVec (11 * Ns + 6 * Nd) M v) (mulVec (11 * Ns + 6 * Nd) M' v'))
include hd hu hM

theorem posDef_acts (hz : 0 < z) (h : PosDef M (11 * Ns + 6 * Nd)) : PosDef M' (11 * Ns + 6 * Nd) := by
  intro w' hw'
  obtain ⟨w, hw⟩ := hu.onto w'
  rw [form_comm, hd _ _ _ _ (hM w w' hw) hw, ← form_comm]
  refine mul_pos hz (h w ?_)
  by_contra h0
  push Not at h0
  obtain ⟨i, hi, hne⟩ := hw'
  obtain ⟨u, c, hc, rfl⟩ := row_surj hi
  apply hne
  rw [hw u c hc, mix_rows (Renum.id Ns Nd) (w := fun _ => 0) h0 hc, mix_zero]

theorem symm_acts (h : Symm M (11 * Ns + 6 * Nd)) : Symm M' (11 * Ns + 6 * Nd) := by
  intro i hi j hj
  have key : ∀ a < 11 * Ns + 6 * Nd, ∀ b < 11 * Ns + 6 * Nd, M' a b
      = ∑ i ∈ range (11 * Ns + 6 * Nd), mulVec (11 * Ns + 6 * Nd) M' (fun k => if k = b then 1 else 0) i
        * (fun k => if k = a then (1 : ℝ) else 0) i := by
    intro a ha b hb
    have e : ∀ i, mulVec (11 * Ns + 6 * Nd) M' (fun k => if k = b then 1 else 0) i = M' i b := by
      intro i
      simp [mulVec, mem_range.mpr hb]
    simp only [e]
    simp [mem_range.mpr ha]
  obtain ⟨v, hv⟩ := hu.onto fun k => if k = j then 1 else 0
  obtain ⟨w, hw⟩ := hu.onto fun k => if k = i then 1 else 0
  rw [key i hi j hj, key j hj i hi, hd _ _ _ _ (hM v _ hv) hw, hd _ _ _ _ (hM w _ hw) hv, ← form_comm, ← form_comm,
    sum_comm]
  congr 1
  refine sum_congr rfl fun a ha => sum_congr rfl fun b hb => ?_
  rw [h b (mem_range.mp hb) a (mem_range.mp ha)]
  ring

end

theorem paired_turn {Q : Fin 3 → Fin 3 → ℝ} (hQ : Orthogonal Q) (Ns Nd : ℕ) : Paired Ns Nd (turnK Q) (turnK Q) 1 := by
  have d := dual_turnK hQ
  exact paired_of (fun F G => by rw [d.f, one_mul]) (fun F G => by rw [d.t, one_mul]) fun F G => by rw [d.s, one_mul]

theorem paired_scale {k : ℝ} (hk : 0 < k) (Ns Nd : ℕ) : Paired Ns Nd (loadK k) (motionK k) (1 / k) := by
  refine paired_of (fun F G => ?_) (fun F G => ?_) fun F G => ?_
  all_goals
    rw [mul_sum]
    refine sum_congr rfl fun i _ => ?_
    simp only [loadK, motionK, mix_diagK, lengths]
    field_simp
    ring

/-! ## Grand vectors of the transformed answer -/

/-- The grand vector made from transformed lists. -/
theorem pack_rule {Ns Nd : ℕ} {K : Comp → Comp → ℝ} {u o ub hd : List Vec3} {e : List Mat3}
    {g h : Vec3 → Vec3 → Vec3} {w : Mat3 → Mat3 → Mat3}
    (hu : u.length = Ns) (ho : o.length = Ns) (he : Ns ≤ e.length) (hub : ub.length = Nd) (hhd : hd.length = Nd)
    (te : ∀ m ∈ e.take Ns, SymTraceless m)
    (gf : ∀ (v : Vec3) (i : Fin 3) (F : Comp → ℝ), (∀ j, F (.f j) = v j) → g v v i = mix K (.f i) F)
    (gt : ∀ (v : Vec3) (i : Fin 3) (F : Comp → ℝ), (∀ j, F (.t j) = v j) → h v v i = mix K (.t i) F)
    (gs : ∀ (m : Mat3) (p : Fin 5) (F : Comp → ℝ), SymTraceless m → (∀ j, F (.s j) = five m j) →
      five (w m m) p = mix K (.s p) F) :
    Acts Ns Nd K (fun u => u) (pack Ns Nd u o e ub hd)
      (pack Ns Nd (List.zipWith g u u) (List.zipWith h o o) (List.zipWith w e e) (List.zipWith g ub ub)
        (List.zipWith g hd hd)) := by
  intro x c hx
  cases c with
  | f i =>
    have hx : x < Ns + 2 * Nd := hx
    by_cases h1 : x < Ns
    · have r : ∀ j : Fin 3, row Ns x (.f j) = 3 * x + j := fun j => by simp only [row]; rw [if_pos h1]
      rw [r, pack_u _ _ _ _ _ h1, getD_zip (by omega) (by omega)]
      exact gf _ _ _ fun j => by rw [r, pack_u _ _ _ _ _ h1]
    by_cases h2 : x < Ns + Nd
    · have r : ∀ j : Fin 3, row Ns x (.f j) = 11 * Ns + (3 * (x - Ns) + j) := fun j => by
        simp only [row]; rw [if_neg h1]; omega
      have hb : x - Ns < Nd := by omega
      rw [r, pack_ub _ _ _ _ _ hb, getD_zip (by omega) (by omega)]
      exact gf _ _ _ fun j => by rw [r, pack_ub _ _ _ _ _ hb]
    · have r : ∀ j : Fin 3, row Ns x (.f j) = 11 * Ns + 3 * Nd + (3 * (x - Ns - Nd) + j) := fun j => by
        simp only [row]; rw [if_neg h1]; omega
      have hb : x - Ns - Nd < Nd := by omega
      rw [r, pack_hd _ _ _ _ _ hb, getD_zip (by omega) (by omega)]
      exact gf _ _ _ fun j => by rw [r, pack_hd _ _ _ _ _ hb]
  | t i =>
    have hx : x < Ns := hx
    have r : ∀ j : Fin 3, row Ns x (.t j) = 3 * Ns + (3 * x + j) := fun j => by simp only [row]; omega
    rw [r, pack_o _ _ _ _ _ hx, getD_zip (by omega) (by omega)]
    exact gt _ _ _ fun j => by rw [r, pack_o _ _ _ _ _ hx]
  | s p =>
    have hx : x < Ns := hx
    have r : ∀ j : Fin 5, row Ns x (.s j) = 6 * Ns + (5 * x + j) := fun j => by simp only [row]; omega
    rw [r, pack_e _ _ _ _ _ hx, getD_zip (by omega) (by omega)]
    exact gs _ _ _ (sym_getD he te hx) fun j => by rw [r, pack_e _ _ _ _ _ hx]

/-- The transformed answer obeys the relation of the transformed matrix. -/
theorem solves_rule {Ns Nd : ℕ} {R R' : NDMat} {Kl Km : Comp → Comp → ℝ} {p : Outputs} (m : Rule)
    (hs : Solves Ns Nd R p)
    (hR : ∀ v v', Acts Ns Nd Km (fun u => u) v v' →
      Acts Ns Nd Kl (fun u => u) (mulVec (11 * Ns + 6 * Nd) R.get v) (mulVec (11 * Ns + 6 * Nd) R'.get v'))
    (hm : Acts Ns Nd Km (fun u => u) (motions Ns Nd p) (motions Ns Nd (m.outputs p p)))
    (hl : Acts Ns Nd Kl (fun u => u) (loads Ns Nd p) (loads Ns Nd (m.outputs p p))) :
    Solves Ns Nd R' (m.outputs p p) where
  rel := by
    intro i hi
    have h1 := hR _ _ hm
    have e : ∀ i < 11 * Ns + 6 * Nd, mulVec (11 * Ns + 6 * Nd) R.get (motions Ns Nd p) i = loads Ns Nd p i :=
      fun i hi => hs.rel i hi
    exact acts_unique (acts_congr (Renum.id Ns Nd) h1 e fun _ _ => rfl) hl hi
  Fa := by simp [Rule.outputs, hs.Fa]
  Ta := by simp [Rule.outputs, hs.Ta]
  Sa := by simp [Rule.outputs, hs.Sa]
  Fb := by simp [Rule.outputs, hs.Fb]
  DFb := by simp [Rule.outputs, hs.DFb]
  Ua := by simp [Rule.outputs, hs.Ua]
  Oa := by simp [Rule.outputs, hs.Oa]
  Ea := by simp [Rule.outputs, hs.Ea]
  Ub := by simp [Rule.outputs, hs.Ub]
  HalfDUb := by simp [Rule.outputs, hs.HalfDUb]

/-- Solving the transformed problem with the transformed matrix. -/
theorem solve_acts {form : InputForm} {Ns Nd : ℕ} {R R' : NDMat} {Kl Km : Comp → Comp → ℝ} {x : Inputs} {p : Outputs}
    (m : Rule) (hf : formAllowed form Ns) (hx : Sized Ns Nd x) (hr : R.rows = 11 * Ns + 6 * Nd)
    (hr' : R'.rows = 11 * Ns + 6 * Nd) (hc' : R'.cols = 11 * Ns + 6 * Nd)
    (hS : Symm R.get (11 * Ns + 6 * Nd)) (hP : PosDef R.get (11 * Ns + 6 * Nd)) (tx : Traceless x)
    {z : ℝ} (hz : 0 < z) (hd : Paired Ns Nd Kl Km z) (hu : Undo Ns Nd Km fun u => u)
    (hR : ∀ v v', Acts Ns Nd Km (fun u => u) v v' →
      Acts Ns Nd Kl (fun u => u) (mulVec (11 * Ns + 6 * Nd) R.get v) (mulVec (11 * Ns + 6 * Nd) R'.get v'))
    (hm : ∀ p, Solves Ns Nd R p → Clean Ns p →
      Acts Ns Nd Km (fun u => u) (motions Ns Nd p) (motions Ns Nd (m.outputs p p)))
    (hl : ∀ p, Solves Ns Nd R p → Clean Ns p →
      Acts Ns Nd Kl (fun u => u) (loads Ns Nd p) (loads Ns Nd (m.outputs p p)))
    (tS : ∀ e, SymTraceless e → SymTraceless (m.S e e)) (tE : ∀ e, SymTraceless e → SymTraceless (m.E e e))
    (h : solveForm form false Ns Nd R x = some p) :
    ∃ q, solveForm form false Ns Nd R' (m.inputs x x) = some q ∧ SameMotion Ns (m.outputs p p) q := by
  obtain ⟨s, e⟩ := solve_echo hf hx hr hS h
  have t := out_traceless hf hx hr hS tx h
  have self : ∀ (g : Mat3 → Mat3 → Mat3) (l : List Mat3), (∀ m, SymTraceless m → SymTraceless (g m m)) →
      (∀ m ∈ l, SymTraceless m) → ∀ m ∈ List.zipWith g l l, SymTraceless m := by
    intro g l hg hl m hm
    rw [List.zipWith_self, List.mem_map] at hm
    obtain ⟨y, hy, rfl⟩ := hm
    exact hg y (hl y hy)
  refine solve_rule m hf hx hx hr' hc' (symm_acts hd hu hR hS) (posDef_acts hd hu hR hz hP) s s e e
    ⟨fun _ => Iff.rfl, fun _ => Iff.rfl⟩ ?_ (solves_rule m s hR (hm p s t) (hl p s t)) (self _ _ tS t.1) ?_
  · intro h0
    have c := C10_placeholders hx h
    rcases hf.1 h0 with rfl | rfl
    · exact ⟨c.2.2.2.2.2 h0, c.2.2.2.2.2 h0⟩
    · obtain ⟨_, _, _, _, _, _, _, g⟩ := c
      exact ⟨g, g⟩
  · have : (m.outputs p p).Ea.take Ns = List.zipWith m.E (p.Ea.take Ns) (p.Ea.take Ns) := by
      simp only [Rule.outputs, List.take_zipWith]
    rw [this]
    exact self _ _ tE t.2

theorem turnMat_clean {Q : Fin 3 → Fin 3 → ℝ} (hQ : Orthogonal Q) {S : Mat3} (hS : SymTraceless S) :
    SymTraceless (turnMat Q S) := by
  constructor
  · intro i j
    simp only [turnMat]
    rw [sum_comm]
    refine sum_congr rfl fun a _ => sum_congr rfl fun b _ => ?_
    rw [hS.1 b a]; ring
  · have e : turnMat Q S 0 0 + turnMat Q S 1 1 + turnMat Q S 2 2 = ∑ a, ∑ b, S a b * ∑ k, Q k a * Q k b := by
      simp only [turnMat, Fin.sum_univ_three]; ring
    rw [e]
    simp only [orth_col hQ]
    have := hS.2
    simpa [dlt, Fin.sum_univ_three] using this

theorem mul_clean (z : ℝ) {S : Mat3} (hS : SymTraceless S) : SymTraceless fun i j => z * S i j :=
  ⟨fun i j => by dsimp only; rw [hS.1 i j], by linear_combination z * hS.2⟩

/-- Sizes of the grand resistance matrix. -/
theorem grand_dims {T : ScalarTable} {P : PosData} {last : NDMat} {reg : Bool} {k : ℝ} {dragM only bb : Bool} {mu : ℝ}
    {R C : NDMat} (hP : Sensible P) (hk : 0 < k) (hT : Tabulated T.lam P k)
    (hl : dragM = false → reg = false → last.rows = side P ∧ last.cols = side P)
    (h : generate_grand_resistance_matrix T P last reg k dragM only mu bb = some (R, C)) :
    (R.rows = side P ∧ R.cols = side P) ∧ C.rows = side P ∧ C.cols = side P := by
  obtain ⟨h1, h2, h3⟩ := grand_some h
  have hC : C.rows = side P ∧ C.cols = side P := by
    cases dragM
    · rw [if_pos rfl] at h1
      cases reg
      · rw [if_neg (by simp)] at h1
        rw [← Option.some.inj h1]
        exact hl rfl rfl
      · rw [if_pos rfl] at h1
        obtain ⟨a, b, c, -⟩ := NDMat.inv_some h1
        have := Minfinity_dims P mu bb
        constructor <;> omega
    · rw [if_neg (by simp)] at h1
      rw [← Option.some.inj h1]
      exact ⟨dragDiagonal_length P, dragDiagonal_length P⟩
  refine ⟨?_, hC⟩
  cases only
  · obtain ⟨N, hN, rfl⟩ := h2 rfl
    obtain ⟨N', hN', a, b, -⟩ := C20_symmetric hP hk hT mu bb
    rw [hN] at hN'
    obtain rfl := Option.some.inj hN'
    exact ⟨a, b⟩
  · rw [h3 rfl]
    exact hC

end SD
