import Verif.Spec.Power
import Verif.Lemmas.SolveRule
import Verif.Props.NearField

/-!
# The power as a product of grand vectors
-/

set_option autoImplicit false

open Finset

namespace SD

open Spec

theorem sum_groups (k n : ℕ) (f : ℕ → ℝ) : ∑ j ∈ range (k * n), f j = ∑ i ∈ range n, ∑ c : Fin k, f (k * i + c) := by
  induction n with
  | zero => simp
  | succ n ih => rw [Nat.mul_succ, sum_range_add, ih, sum_range_succ, Fin.sum_univ_eq_sum_range (fun c => f (k * n + c)) k]

theorem sum_grand (Ns Nd : ℕ) (f : ℕ → ℝ) : ∑ j ∈ range (11 * Ns + 6 * Nd), f j
    = ∑ i ∈ range Ns, ((∑ c : Fin 3, f (3 * i + c)) + (∑ c : Fin 3, f (3 * Ns + (3 * i + c)))
        + ∑ c : Fin 5, f (6 * Ns + (5 * i + c)))
      + ∑ i ∈ range Nd, ((∑ c : Fin 3, f (11 * Ns + (3 * i + c))) + ∑ c : Fin 3, f (11 * Ns + 3 * Nd + (3 * i + c))) := by
  have e : 11 * Ns + 6 * Nd = 3 * Ns + 3 * Ns + 5 * Ns + 3 * Nd + 3 * Nd := by ring
  rw [e, sum_range_add, sum_range_add, sum_range_add, sum_range_add, sum_groups 3 Ns f,
    sum_groups 3 Ns fun x => f (3 * Ns + x), sum_groups 5 Ns fun x => f (3 * Ns + 3 * Ns + x),
    sum_groups 3 Nd fun x => f (3 * Ns + 3 * Ns + 5 * Ns + x), sum_groups 3 Nd fun x => f (3 * Ns + 3 * Ns + 5 * Ns + 3 * Nd + x),
    sum_add_distrib, sum_add_distrib, sum_add_distrib]
  have e1 : 3 * Ns + 3 * Ns = 6 * Ns := by ring
  have e2 : 6 * Ns + 5 * Ns = 11 * Ns := by ring
  rw [e1, e2]
  ring

theorem sym_getD {l : List Mat3} {n : ℕ} (hl : n ≤ l.length) (h : ∀ m ∈ l.take n, SymTraceless m) {i : ℕ} (hi : i < n) :
    SymTraceless (l.getD i 0) := by
  apply h
  rw [← getD_take _ _ _ _ hi, List.getD_eq_getElem _ _ (by simp; omega)]
  exact List.getElem_mem _

/-- The grand vectors of loads and of motions. -/
noncomputable def loads (Ns Nd : ℕ) (p : Outputs) : ℕ → ℝ := pack Ns Nd p.Fa p.Ta p.Sa p.Fb p.DFb
noncomputable def motions (Ns Nd : ℕ) (p : Outputs) : ℕ → ℝ := pack Ns Nd p.Ua p.Oa p.Ea p.Ub p.HalfDUb

variable {Ns Nd : ℕ} {R : NDMat} {p q : Outputs}

theorem power_pack (hS : Ns ≤ p.Sa.length) (hE : Ns ≤ q.Ea.length) (tS : ∀ m ∈ p.Sa.take Ns, SymTraceless m)
    (tE : ∀ m ∈ q.Ea.take Ns, SymTraceless m) :
    power Ns Nd p q = ∑ j ∈ range (11 * Ns + 6 * Nd), loads Ns Nd p j * motions Ns Nd q j := by
  rw [sum_grand]
  unfold power loads motions
  congr 1
  · refine sum_congr rfl fun i hi => ?_
    have hi := mem_range.mp hi
    congr 1
    · congr 1
      · exact sum_congr rfl fun c _ => by rw [pack_u _ _ _ _ _ hi, pack_u _ _ _ _ _ hi]
      · exact sum_congr rfl fun c _ => by rw [pack_o _ _ _ _ _ hi, pack_o _ _ _ _ _ hi]
    · rw [← power_five (sym_getD hS tS hi) (sym_getD hE tE hi)]
      exact sum_congr rfl fun c _ => by rw [pack_e _ _ _ _ _ hi, pack_e _ _ _ _ _ hi]
  · refine sum_congr rfl fun i hi => ?_
    have hi := mem_range.mp hi
    congr 1
    · exact sum_congr rfl fun c _ => by rw [pack_ub _ _ _ _ _ hi, pack_ub _ _ _ _ _ hi]
    · exact sum_congr rfl fun c _ => by rw [pack_hd _ _ _ _ _ hi, pack_hd _ _ _ _ _ hi]

/-- Stresslets and rates of strain are symmetric and traceless. -/
def Clean (Ns : ℕ) (p : Outputs) : Prop :=
  (∀ m ∈ p.Sa, SymTraceless m) ∧ ∀ m ∈ p.Ea.take Ns, SymTraceless m

theorem power_form (hp : Solves Ns Nd R p) (hq : Solves Ns Nd R q) (tp : Clean Ns p) (tq : Clean Ns q) :
    power Ns Nd p q = ∑ i ∈ range (11 * Ns + 6 * Nd), ∑ j ∈ range (11 * Ns + 6 * Nd),
      motions Ns Nd q i * R.get i j * motions Ns Nd p j := by
  rw [power_pack hp.Sa.ge hq.Ea (fun m hm => tp.1 m (List.mem_of_mem_take hm)) tq.2]
  refine sum_congr rfl fun i hi => ?_
  have h : _ = loads Ns Nd p i := hp.rel i (mem_range.mp hi)
  rw [← h, sum_mul]
  refine sum_congr rfl fun j _ => ?_
  rw [show pack Ns Nd p.Ua p.Oa p.Ea p.Ub p.HalfDUb j = motions Ns Nd p j from rfl]
  ring

/-- What works against the difference of two motions. -/
theorem power_diff (h : HeldOrFree Ns Nd p q) : power Ns Nd p q = power Ns Nd p p := by
  unfold power
  have v : ∀ {f u w : Vec3}, u = w ∨ f = 0 → ∑ c, f c * w c = ∑ c, f c * u c := by
    rintro f u w (rfl | rfl)
    · rfl
    · simp
  have m : ∀ {f u w : Mat3}, u = w ∨ f = 0 → ∑ c, ∑ d, f c d * w c d = ∑ c, ∑ d, f c d * u c d := by
    rintro f u w (rfl | rfl)
    · rfl
    · simp
  congr 1
  · refine sum_congr rfl fun i hi => ?_
    obtain ⟨a, b, c⟩ := h.1 i (mem_range.mp hi)
    rw [v a, v b, m c]
  · refine sum_congr rfl fun i hi => ?_
    obtain ⟨a, b⟩ := h.2 i (mem_range.mp hi)
    rw [v a, v b]

end SD
