import Verif.Lemmas.SolveRenum
import Verif.Props.SolveTurn
import Verif.Props.ShippedSolve

/-!
# C89: the answer does not depend on the order in which the particles are listed
-/

set_option autoImplicit false

namespace SD

open Spec Cov Reorder

/-- The table satisfies the reciprocal theorem for the pairs of beads of `P`. -/
def Spec.TableBalanced (T : ScalarTable) (P : PosData) : Prop :=
  ∀ x < beads P, ∀ y < beads P, x ≠ y → ∀ s : ℝ,
    Reciprocal (tableScal T 1 (radius P y / radius P x) s) (tableScal T 1 (radius P x / radius P y) s)
      (radius P x) (radius P y)

/-- Beads of one size are in balance with any table. -/
theorem equal_balanced (T : ScalarTable) {P : PosData} {a : ℝ} (hE : EqualBeads P a) : TableBalanced T P := by
  intro x hx y hy _ s
  rw [hE x hx, hE y hy]
  exact ⟨rfl, rfl, rfl, rfl, rfl, rfl, rfl⟩

theorem tabulated_relabel {lams : List ℝ} {P : PosData} {c : ℝ} {σ τ : ℕ → ℕ} (hσ : Reorders P.Ns σ)
    (hτ : Reorders P.Nd τ) (h : Tabulated lams P c) : Tabulated lams (relabel P σ τ) c := by
  have hβ := renum_map hσ hτ
  intro x hx y hy hl
  have hx' := centre_relabel P hσ.lt hτ.lt hx
  have hy' := centre_relabel P hσ.lt hτ.lt hy
  rw [hx'.2, hy'.2]
  refine h _ (hβ.lt hx) _ (hβ.lt hy) (hl.imp (fun e => by rw [e]) fun hl => ?_)
  unfold openLink at hl ⊢
  rwa [hx'.1, hx'.2, hy'.1, hy'.2] at hl

/-- **C89** (numbering). The grand resistance matrix of a configuration is built, in any mode, with a table that
satisfies the reciprocal theorem, and a problem is solved with it. List the spheres in the order `σ` and the dumbbells in
the order `τ`, with their inputs in the same order (in the forms with prescribed velocities, so that the particles that
have them still come first). Then the matrix can be built too, and the solution is the old one in that order. -/
theorem C89_renumber {T : ScalarTable} {P : PosData} (hP : Sensible P) {c : ℝ} (hc : 0 < c) (hT : Tabulated T.lam P c)
    (hrec : TableBalanced T P) {σ τ : ℕ → ℕ} (hσ : Reorders P.Ns σ) (hτ : Reorders P.Nd τ) {last last' : NDMat}
    {reg dragM only bb : Bool} {mu : ℝ} {R C : NDMat}
    (hl : dragM = false → reg = false → (∀ i j, last.get i j = last.get j i) ∧
      (last.rows = side P ∧ last.cols = side P) ∧ (last'.rows = side P ∧ last'.cols = side P) ∧
      ∀ v v', GrandRenumbered P.Ns P.Nd σ τ v v' →
        GrandRenumbered P.Ns P.Nd σ τ (mulVec (side P) last.get v) (mulVec (side P) last'.get v'))
    (h : generate_grand_resistance_matrix T P last reg c dragM only mu bb = some (R, C))
    (hpd : PosDef R.get (side P)) {form : InputForm} {x : Inputs} {p : Outputs} (hf : formAllowed form P.Ns)
    (hx : Sized P.Ns P.Nd x) (tx : Traceless x) (hk : form ≠ .fts → form ≠ .fte → KeepsFixed σ τ x)
    (hs : solveForm form false P.Ns P.Nd R x = some p) :
    ∃ R' C', generate_grand_resistance_matrix T (relabel P σ τ) last' reg c dragM only mu bb = some (R', C') ∧
      ∃ q, solveForm form false P.Ns P.Nd R' (reorderInputs σ τ x) = some q ∧
        SameMotion P.Ns (reorderOutputs σ τ p) q := by
  obtain ⟨R', C', h', hR⟩ := C18_grand_of_reciprocal (last' := last') hP hc hT hrec hσ.lt hτ.lt hσ.inj hτ.inj
    (fun a b => (hl a b).2.2.2) h
  obtain ⟨d1, -⟩ := grand_dims hP hc hT (fun a b => (hl a b).2.1) h
  obtain ⟨d2, -⟩ := grand_dims (relabel_sensible hP hσ.lt hτ.lt hσ.inj hτ.inj) hc (tabulated_relabel hσ hτ hT)
    (fun a b => (hl a b).2.2.1) h'
  exact ⟨R', C', h', solve_reorder hσ hτ hf hx d1.1 d2.1 d2.2
    (fun i _ j _ => (C25_symmetric hP hc hT (fun a b => (hl a b).1) h i j).1) hpd tx hk (fun v v' hv => (hR v v' hv).1) hs⟩

/-- **C89** (shipped table, beads of one size). Both problems can be solved, whatever the order, and the solutions
are the same in the two orders. -/
theorem C89_shipped {P : PosData} {a : ℝ} (ha : 0 < a) (hE : EqualBeads P a) (hP : Sensible P) (hS : Separate P)
    {k : ℝ} (hk : 0 < k) {mu : ℝ} (hmu : 0 < mu) {bb : Bool} (hbb : bb = true ∨ P.Nd = 0) (last : NDMat)
    {σ τ : ℕ → ℕ} (hσ : Reorders P.Ns σ) (hτ : Reorders P.Nd τ) {form : InputForm} {x : Inputs}
    (hf : formAllowed form P.Ns) (hx : Sized P.Ns P.Nd x) (tx : Traceless x) (hC : Complete form P.Ns P.Nd x)
    (hkf : form ≠ .fts → form ≠ .fte → KeepsFixed σ τ x) :
    ∃ R C R' C' p q, generate_grand_resistance_matrix shippedTable P last true k false false mu bb = some (R, C) ∧
      solveForm form false P.Ns P.Nd R x = some p ∧
      generate_grand_resistance_matrix shippedTable (relabel P σ τ) last true k false false mu bb = some (R', C') ∧
      solveForm form false P.Ns P.Nd R' (reorderInputs σ τ x) = some q ∧ SameMotion P.Ns (reorderOutputs σ τ p) q := by
  obtain ⟨R, C, h1, -, h2, h3⟩ := C86_solvable ha hE hP hS hk hmu hbb last
  obtain ⟨p, hp⟩ := h3 hf hx hC
  obtain ⟨R', C', g1, q, g2, g3⟩ := C89_renumber (last' := last) hP hk (equal_tabulated ha hE k)
    (equal_balanced shippedTable hE) hσ hτ (by simp) h1 h2 hf hx tx hkf hp
  exact ⟨R, C, R', C', p, q, h1, hp, g1, g2, g3⟩

/-! ## The hypotheses can be met -/

/-- The two dumbbells of the example exchanged. -/
def swap01 : ℕ → ℕ := fun i => if i = 0 then 1 else if i = 1 then 0 else i

theorem swap01_reorders {n : ℕ} (hn : 2 ≤ n) : Reorders n swap01 := by
  unfold swap01
  refine ⟨fun i hi => ?_, fun i hi j hj h => ?_, fun i hi => ?_⟩
  · split_ifs <;> omega
  · split_ifs at h <;> omega
  · split_ifs <;> omega

theorem id_reorders (n : ℕ) : Reorders n fun i => i := ⟨fun _ h => h, fun _ _ _ _ h => h, fun _ _ => rfl⟩

example : ∃ R C R' C' p q,
    generate_grand_resistance_matrix shippedTable starP (NDMat.zeros 0 0) true 5 false false 3 true = some (R, C) ∧
      solveForm .fte false 1 2 R starInp = some p ∧
      generate_grand_resistance_matrix shippedTable (relabel starP (fun i => i) swap01) (NDMat.zeros 0 0) true 5 false false
        3 true = some (R', C') ∧
      solveForm .fte false 1 2 R' (reorderInputs (fun i => i) swap01 starInp) = some q ∧
      SameMotion 1 (reorderOutputs (fun i => i) swap01 p) q ∧
      (reorderInputs (fun i => i) swap01 starInp).Fb = [num3 0, num3 ![1, 1, 0]] := by
  obtain ⟨R, C, R', C', p, q, h1, h2, h3, h4, h5⟩ := C89_shipped (a := 1) one_pos (fun x hx => starP_radius hx)
    starP_sensible starP_separate (k := 5) (by norm_num) (mu := 3) (by norm_num) (.inl rfl) (NDMat.zeros 0 0)
    (id_reorders 1) (swap01_reorders le_rfl) (form := .fte) ⟨by decide, by decide⟩ starInp_sized starInp_traceless
    starInp_complete (by simp)
  exact ⟨R, C, R', C', p, q, h1, h2, h3, h4, h5, by simp [reorderInputs, reorder, starInp, swap01]⟩

end SD
