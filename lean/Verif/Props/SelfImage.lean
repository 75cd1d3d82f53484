import Verif.Lemmas.SelfImage
import Verif.Lemmas.PairMotion
import Verif.Lemmas.Overlap
import Verif.Props.ShippedRun

/-!
# C92: the answer to a problem with a symmetry has the symmetry; two equal spheres fall side by side
-/

set_option autoImplicit false

namespace SD

open Spec Cov Reorder Move Ship
open Pair (pack_f)
open Sph (basis5_dot)

/-- **C92** (symmetric problems). The suspension looks the same after a rotation or reflection that may exchange
particles, and what is prescribed (in the form `fts` or `fte`) looks the same (`ε = 1`) or the opposite (`ε = -1`). Then
so do all forces, torques, stresslets and motions of the answer, in every mode, and the far-field part that is kept for
later frames keeps symmetric motions symmetric. -/
theorem C92_symmetric {T : ScalarTable} {P : PosData} (hP : Sensible P) {c : ℝ} (hc : 0 < c) (hT : Tabulated T.lam P c)
    (hrec : TableBalanced T P) {Q : Fin 3 → Fin 3 → ℝ} {σ τ : ℕ → ℕ} (hI : SelfImage P Q σ τ) {last : NDMat}
    {reg dragM only bb : Bool} {mu : ℝ} {R C : NDMat}
    (hl : dragM = false → reg = false → (∀ i j, last.get i j = last.get j i) ∧
      (last.rows = side P ∧ last.cols = side P) ∧ Commutes P Q σ τ last)
    (h : generate_grand_resistance_matrix T P last reg c dragM only mu bb = some (R, C))
    {form : InputForm} (hform : form = .fts ∨ form = .fte) {x : Inputs} {p : Outputs}
    (hf : formAllowed form P.Ns) (hx : Sized P.Ns P.Nd x) (hs : solveForm form false P.Ns P.Nd R x = some p) {ε : ℝ}
    (hg : GivenSame form P.Ns P.Nd ε Q σ τ (pack P.Ns P.Nd p.Fa p.Ta p.Sa p.Fb p.DFb)
      (pack P.Ns P.Nd p.Ua p.Oa p.Ea p.Ub p.HalfDUb)) :
    Echo form P.Ns P.Nd x p ∧
      GrandSame P.Ns P.Nd ε Q σ τ (pack P.Ns P.Nd p.Fa p.Ta p.Sa p.Fb p.DFb) ∧
      GrandSame P.Ns P.Nd ε Q σ τ (pack P.Ns P.Nd p.Ua p.Oa p.Ea p.Ub p.HalfDUb) ∧ Commutes P Q σ τ C := by
  obtain ⟨d1, -⟩ := grand_dims hP hc hT (fun a b => (hl a b).2.1) h
  obtain ⟨s, e⟩ := solve_echo hf hx d1.1
    (fun i _ j _ => (C25_symmetric hP hc hT (fun a b => (hl a b).1) h i j).1) hs
  obtain ⟨hR, hC⟩ := grand_image hI hP hc hT hrec (fun a b => (hl a b).2.2) h
  obtain ⟨a, b⟩ := same_answer hI hR hform d1.1
    (fun i _ j _ => (C25_symmetric hP hc hT (fun a b => (hl a b).1) h i j).1) hs s.rel hg
  exact ⟨e, a, b, hC⟩

/-! ## Two equal spheres -/

/-- Reflection in a point. -/
def negQ : Fin 3 → Fin 3 → ℝ := fun i j => if i = j then -1 else 0

theorem negQ_orth : Orthogonal negQ := by
  intro i j
  fin_cases i <;> fin_cases j <;> simp [negQ, dlt, Fin.sum_univ_three]

theorem turnVec_point (r : Fin 3 → ℝ) : turnVec negQ r = fun k => -r k := by
  funext k
  fin_cases k <;> simp [turnVec, negQ, Fin.sum_univ_three]

theorem turnComp_neg (c : Comp) (F : Comp → ℝ) :
    turnComp negQ c F = (match c with | .f _ => -1 | _ => 1) * F c := by
  cases c with
  | f i => fin_cases i <;> simp [turnComp, negQ, Fin.sum_univ_three]
  | t i =>
    have : Spec.det3 negQ = -1 := by simp [Spec.det3, negQ]
    simp only [turnComp, this]
    fin_cases i <;> simp [negQ, Fin.sum_univ_three]
  | s p =>
    have e : ∀ q, rep5 negQ p q = if q = p then 1 else 0 := by
      intro q
      unfold rep5
      have : turnMat negQ (basis5 q) = basis5 q := by
        funext i j
        fin_cases i <;> fin_cases j <;> simp [turnMat, negQ, Fin.sum_univ_three]
      rw [this]
      exact basis5_dot p q
    show ∑ q, rep5 negQ p q * F (.s q) = _
    simp only [e, ite_mul, zero_mul, one_mul, Finset.sum_ite_eq', Finset.mem_univ, if_true]

theorem twins_image {P : PosData} (h : Twins P) : SelfImage P negQ swap01 fun i => i := by
  have h2 : ∀ x, x < beads P ↔ x = 0 ∨ x = 1 := fun x => by unfold beads; rw [h.Ns, h.Nd]; omega
  have b0 : beadMap P.Ns P.Nd swap01 (fun i => i) 0 = 1 := by simp [beadMap, h.Ns, swap01]
  have b1 : beadMap P.Ns P.Nd swap01 (fun i => i) 1 = 0 := by simp [beadMap, h.Ns, swap01]
  refine ⟨negQ_orth, swap01_reorders (by rw [h.Ns]), id_reorders _, fun x hx y hy => ?_, fun x hx => ?_⟩
  · rcases (h2 x).mp hx with rfl | rfl <;> rcases (h2 y).mp hy with rfl | rfl <;>
      simp only [b0, b1, turnVec_point] <;> funext k <;> ring
  · have r0 : radius P 0 = P.sphereSize 0 := by simp [radius, h.Ns]
    have r1 : radius P 1 = P.sphereSize 1 := by simp [radius, h.Ns]
    rcases (h2 x).mp hx with rfl | rfl
    · rw [b0, r0, r1, h.size]
    · rw [b1, r0, r1, h.size]

/-- **C92** (two equal spheres). Load two equal spheres oppositely (`ε = 1`: opposite forces, equal torques and equal
stresslets or strains) or alike (`ε = -1`: equal forces, opposite torques, opposite stresslets or strains). Then they
move oppositely and turn alike, or move alike and turn oppositely. -/
theorem C92_pair {T : ScalarTable} {P : PosData} (hP : Sensible P) {c : ℝ} (hc : 0 < c) (hT : Tabulated T.lam P c)
    (h2 : Twins P) {last : NDMat} {reg dragM only bb : Bool} {mu : ℝ} {R C : NDMat}
    (hl : dragM = false → reg = false → (∀ i j, last.get i j = last.get j i) ∧
      (last.rows = side P ∧ last.cols = side P) ∧ Commutes P negQ swap01 (fun i => i) last)
    (h : generate_grand_resistance_matrix T P last reg c dragM only mu bb = some (R, C))
    {form : InputForm} (hform : form = .fts ∨ form = .fte) {x : Inputs} {p : Outputs}
    (hx : Sized P.Ns P.Nd x) (hs : solveForm form false P.Ns P.Nd R x = some p) {ε : ℝ} (hε : ε = 1 ∨ ε = -1)
    {F G : Vec3} {H : Mat3} (hF : x.Fa = [num3 F, num3 fun k => -(ε * F k)])
    (hG : x.Ta = [num3 G, num3 fun k => ε * G k])
    (hS : form = .fts → x.Sa = [num33 H, num33 fun i j => ε * H i j])
    (hE : form = .fte → x.Ea = [num33 H, num33 fun i j => ε * H i j]) :
    (∃ U O : Vec3, p.Ua = [U, fun k => -(ε * U k)] ∧ p.Oa = [O, fun k => ε * O k]) ∧
      Commutes P negQ swap01 (fun i => i) C := by
  have ee : ε * ε = 1 := by rcases hε with rfl | rfl <;> norm_num
  have hrec : TableBalanced T P := by
    refine equal_balanced T (a := P.sphereSize 0) fun y hy => ?_
    have : y = 0 ∨ y = 1 := by unfold beads at hy; rw [h2.Ns, h2.Nd] at hy; omega
    rcases this with rfl | rfl <;> simp [radius, h2.Ns, h2.size]
  have hI := twins_image h2
  have hf : formAllowed form P.Ns := by rw [h2.Ns]; rcases hform with rfl | rfl <;> simp [formAllowed]
  obtain ⟨d1, -⟩ := grand_dims hP hc hT (fun a b => (hl a b).2.1) h
  obtain ⟨s, e⟩ := solve_echo hf hx d1.1
    (fun i _ j _ => (C25_symmetric hP hc hT (fun a b => (hl a b).1) h i j).1) hs
  have b0 : beadMap P.Ns P.Nd swap01 (fun i => i) 0 = 1 := by simp [beadMap, h2.Ns, swap01]
  have b1 : beadMap P.Ns P.Nd swap01 (fun i => i) 1 = 0 := by simp [beadMap, h2.Ns, swap01]
  have l0 : 0 < P.Ns := by rw [h2.Ns]; norm_num
  have l1 : 1 < P.Ns := by rw [h2.Ns]; norm_num
  have pair : ∀ {α β : Type} {g : α → β} (_ : Function.Injective g) {a b : α} {l : List α}, [g a, g b] = l.map g → l = [a, b] := by
    intro α β g hg a b l hl
    exact (hg.list_map (by simpa using hl)).symm
  have i3 : Function.Injective num3 := fun a b h => num3_inj h
  have i33 : Function.Injective num33 := fun a b h => num33_inj h
  have rows : ∀ {u : ℕ} {k : Comp}, HasRow P.Ns P.Nd u k → u = 0 ∨ u = 1 := by
    intro u k hu
    have : u < P.Ns + 2 * P.Nd := owns_lt (owns_kind hu)
    rw [h2.Ns, h2.Nd] at this
    omega
  have hFa : p.Fa = [F, fun k => -(ε * F k)] := by
    rcases hform with rfl | rfl <;> exact pair i3 (hF.symm.trans e.1)
  have hTa : p.Ta = [G, fun k => ε * G k] := by
    rcases hform with rfl | rfl <;> exact pair i3 (hG.symm.trans e.2.1)
  have same : ∀ {z w ub hd : List Vec3} {q : List Mat3} {u : ℕ} {k : Comp}, HasRow P.Ns P.Nd u k →
      (SameAt P.Ns P.Nd ε negQ swap01 (fun i => i) (pack P.Ns P.Nd z w q ub hd) u k ↔
        comps (z.getD 1 0) (w.getD 1 0) (q.getD 1 0) k
          = ε * ((match k with | .f _ => -1 | _ => 1) * comps (z.getD 0 0) (w.getD 0 0) (q.getD 0 0) k)) := by
    intro z w ub hd q u k hu
    unfold SameAt
    rw [turnComp_neg]
    rcases rows hu with rfl | rfl
    · rw [b0, pack_f l0, pack_f l1]
      cases k <;> constructor <;> intro hh <;> rw [hh] <;> linear_combination (-1 : ℝ) * _ * ee
    · rw [b1, pack_f l0, pack_f l1]
  have hg : GivenSame form P.Ns P.Nd ε negQ swap01 (fun i => i) (pack P.Ns P.Nd p.Fa p.Ta p.Sa p.Fb p.DFb)
      (pack P.Ns P.Nd p.Ua p.Oa p.Ea p.Ub p.HalfDUb) := by
    intro u k hu
    have five_mul : ∀ (M : Mat3) i, five (fun i j => ε * M i j) i = ε * five M i := by
      intro M i; fin_cases i <;> simp [five] <;> ring
    cases k with
    | f i =>
      have : SameAt P.Ns P.Nd ε negQ swap01 (fun i => i) (pack P.Ns P.Nd p.Fa p.Ta p.Sa p.Fb p.DFb) u (.f i) := by
        rw [same hu, hFa]; simp [comps]
      rcases hform with rfl | rfl <;> exact this
    | t i =>
      have : SameAt P.Ns P.Nd ε negQ swap01 (fun i => i) (pack P.Ns P.Nd p.Fa p.Ta p.Sa p.Fb p.DFb) u (.t i) := by
        rw [same hu, hTa]; simp [comps]
      rcases hform with rfl | rfl <;> exact this
    | s i =>
      rcases hform with rfl | rfl
      · show SameAt P.Ns P.Nd ε negQ swap01 (fun i => i) (pack P.Ns P.Nd p.Fa p.Ta p.Sa p.Fb p.DFb) u (.s i)
        rw [same hu, pair i33 ((hS rfl).symm.trans e.2.2.1)]
        simp [comps, five_mul]
      · show SameAt P.Ns P.Nd ε negQ swap01 (fun i => i) (pack P.Ns P.Nd p.Ua p.Oa p.Ea p.Ub p.HalfDUb) u (.s i)
        rw [same hu, pair i33 ((hE rfl).symm.trans e.2.2.1)]
        simp [comps, five_mul]
  obtain ⟨-, -, hm, hC⟩ := C92_symmetric hP hc hT hrec hI hl h hform hf hx hs hg
  have two : ∀ l : List Vec3, l.length = P.Ns → l = [l.getD 0 0, l.getD 1 0] := by
    intro l hl
    rw [h2.Ns] at hl
    obtain ⟨a, b, rfl⟩ := List.length_eq_two.mp hl
    rfl
  refine ⟨⟨p.Ua.getD 0 0, p.Oa.getD 0 0, ?_, ?_⟩, hC⟩
  · have : p.Ua.getD 1 0 = fun k => -(ε * p.Ua.getD 0 0 k) := by
      funext k
      have := (same (k := .f k) (u := 0) (by simp [HasRow]; omega)).mp (hm 0 (.f k) (by simp [HasRow]; omega))
      simp only [comps] at this
      rw [this]; ring
    rw [← this]
    exact two _ s.Ua
  · have : p.Oa.getD 1 0 = fun k => ε * p.Oa.getD 0 0 k := by
      funext k
      have := (same (k := .t k) (u := 0) (by simpa [HasRow] using l0)).mp (hm 0 (.t k) (by simpa [HasRow] using l0))
      simp only [comps] at this
      rw [this]; ring
    rw [← this]
    exact two _ s.Oa

/-! ## The hypotheses can be met -/

/-- Two spheres pushed oppositely, turned alike and strained alike. -/
def pairInputs (F G : Vec3) (H : Mat3) : Inputs where
  Fa := [num3 F, num3 fun k => -(1 * F k)]
  Ta := [num3 G, num3 fun k => 1 * G k]
  Sa := [num33 0, num33 0]
  Fb := []
  DFb := []
  Ua := [num3 0, num3 0]
  Ea := [num33 H, num33 fun i j => 1 * H i j]
  Ub := []
  HalfDUb := []

/-- Two nearly touching spheres, the shipped table, any forces, torques and strains. -/
example (F G : Vec3) (H : Mat3) : ∃ R C p,
    generate_grand_resistance_matrix shippedTable (apartP 2.015) (NDMat.zeros 0 0) true 2 false false 1 true = some (R, C) ∧
      solveForm .fte false 2 0 R (pairInputs F G H) = some p ∧
      ∃ U O : Vec3, p.Ua = [U, fun k => -(1 * U k)] ∧ p.Oa = [O, fun k => 1 * O k] := by
  obtain ⟨R, C, h1, -, -, h3⟩ := C86_solvable (P := apartP 2.015) one_pos (apartP_equal _)
    (apartP_sensible (by norm_num)) (apartP_separate (by norm_num)) (k := 2) (by norm_num) one_pos (bb := true) (.inl rfl)
    (NDMat.zeros 0 0)
  have hx : Sized (apartP 2.015).Ns (apartP 2.015).Nd (pairInputs F G H) := ⟨rfl, rfl, rfl, rfl, rfl, rfl, rfl, rfl⟩
  have hf : formAllowed .fte (apartP 2.015).Ns := by simp [formAllowed, apartP]
  obtain ⟨p, hp⟩ := h3 hf hx (form := .fte) (by
    refine ⟨?_, ?_, ⟨le_rfl, ?_⟩, by simp [pairInputs], by simp [pairInputs]⟩ <;>
      simp [pairInputs, Given3, Given33, num3, num33])
  exact ⟨R, C, p, h1, hp, (C92_pair (apartP_sensible (by norm_num)) (by norm_num) (equal_tabulated one_pos (apartP_equal _) 2)
    ⟨rfl, rfl, rfl⟩ (fun _ h => absurd h (by simp)) h1 (.inr rfl) hx hp (.inl rfl) rfl rfl (fun h => absurd h (by simp))
    fun _ => rfl).1⟩

end SD
