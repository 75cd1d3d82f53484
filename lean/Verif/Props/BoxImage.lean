import Verif.Lemmas.BoxImage
import Verif.Props.SelfImage
import Verif.Props.LargeBoxMatrix
import Mathlib.Tactic.IntervalCases

/-!
# C96: symmetric suspensions in a periodic box
-/

set_option autoImplicit false

namespace SD

open Spec Cov Reorder Move
open Pair (pack_f)
open Sign (compSign turnComp_sign box_grand_image signQ_orth turnVec_sign)

/-- The conditions on the box, the particles and the table. -/
structure BoxReady (n : ℕ) (T : ScalarTable) (k : ℝ) (u : UserInput) (B : Mat3) (P : PosData) : Prop where
  boxed : Boxed n u.bl u.tr u.Ot u.Et P
  folded : FoldedBox (fun i => u.tr i - u.bl i) u.Ot u.Et B
  sensible : CellSensible B P
  cutoff : 0 ≤ k
  tabulated : CellTabulated B T.lam P k
  balanced : TableBalanced T P

theorem BoxReady.sides {n : ℕ} {T : ScalarTable} {k : ℝ} {u : UserInput} {B : Mat3} {P : PosData}
    (h : BoxReady n T k u B P) (i : Fin 3) : u.bl i < u.tr i :=
  lt_trans (by norm_num) (h.boxed.edges i)

theorem BoxReady.spans {n : ℕ} {T : ScalarTable} {k : ℝ} {u : UserInput} {B : Mat3} {P : PosData}
    (h : BoxReady n T k u B P) : Spans B := by
  obtain ⟨a, b, g, hab, hs⟩ := h.boxed.shear
  exact (C30_simple_shear (fun i => by linarith [h.sides i]) hab hs h.folded).1

section
variable {n : ℕ} {T : ScalarTable} {input : Config → ℝ → ℝ → Vel → Option NDMat → Option UserInput} {bb : Bool}
  {S : Settings} {P : PosData} {last : NDMat} {reg : Bool} {u : UserInput} {R C : NDMat} {B : Mat3}
  (hB : BoxReady n T S.cutoff_factor u B P) {s : Fin 3 → ℝ} (hs : Signs s) {σ τ : ℕ → ℕ}
  (hI : SelfImage P (signQ s) σ τ) (hb : BoxKeeps u.Ot u.Et s) (hlk : LinksKept B S.cutoff_factor P (signQ s) σ τ)
  (hl : reg = false → (∀ i j, last.get i j = last.get j i) ∧ last.rows = side P ∧ Commutes P (signQ s) σ τ last)
  (h : generate_grand_resistance_matrix_periodic (boxWorld n T input bb) S P last reg u = some (R, C))
  {form : InputForm} (hform : form = .fts ∨ form = .fte) {x : Inputs} {p : Outputs} (hx : Sized P.Ns P.Nd x)
include hB hs hI hb hlk hl h hform hx

/-- **C96** (symmetric problems in a box). The suspension, the box and the chosen images of close pairs look the same
after a change of signs of the axes that may exchange particles, and what is prescribed (in the form `fts` or `fte`)
looks the same (`ε = 1`) or the opposite (`ε = -1`). Then so do all forces, torques, stresslets and motions of the
answer, and the far-field part that is kept for later frames keeps symmetric motions symmetric. Reversal of all axes is
allowed in every box, other changes of signs in a box at rest. -/
theorem C96_symmetric (hf : formAllowed form P.Ns) (ho : solveForm form false P.Ns P.Nd R x = some p) {ε : ℝ}
    (hg : GivenSame form P.Ns P.Nd ε (signQ s) σ τ (pack P.Ns P.Nd p.Fa p.Ta p.Sa p.Fb p.DFb)
      (pack P.Ns P.Nd p.Ua p.Oa p.Ea p.Ub p.HalfDUb)) :
    Echo form P.Ns P.Nd x p ∧
      GrandSame P.Ns P.Nd ε (signQ s) σ τ (pack P.Ns P.Nd p.Fa p.Ta p.Sa p.Fb p.DFb) ∧
      GrandSame P.Ns P.Nd ε (signQ s) σ τ (pack P.Ns P.Nd p.Ua p.Oa p.Ea p.Ub p.HalfDUb) ∧
      Commutes P (signQ s) σ τ C := by
  obtain ⟨hR, hC⟩ := box_grand_image hs hI hB.folded hB.spans hB.boxed hB.sensible hB.cutoff hB.tabulated hB.balanced hb hlk
    (fun e => (hl e).2.2) h
  have hsy := C76_symmetric hB.sides hB.folded hB.spans hB.sensible hB.cutoff hB.tabulated (fun e => (hl e).1) h
  obtain ⟨-, h1, h2, h3⟩ := box_some h
  have hCr : C.rows = side P := by
    cases reg
    · obtain rfl := Option.some.inj h1
      exact (hl rfl).2.1
    · rw [if_pos rfl] at h1
      rw [(NDMat.inv_some h1).2.1]
      exact (Minfinity_periodic_dims n P _ _ _ _ _ bb).1
  have hr : R.rows = side P := by
    cases hU : S.use_Minfinity_only
    · obtain ⟨N, -, rfl⟩ := h2 hU
      exact hCr
    · rw [h3 hU]; exact hCr
  obtain ⟨so, e⟩ := solve_echo hf hx hr (fun i _ j _ => (hsy i j).1) ho
  obtain ⟨a, b⟩ := same_answer hI hR hform hr (fun i _ j _ => (hsy i j).1) ho so.rel hg
  exact ⟨e, a, b, hC⟩

/-- **C96** (spheres that fall). All spheres are pulled with the same force, without torques and without stresslets (or
strains). Then the velocities of a sphere and of the one that comes to its place belong to each other. -/
theorem C96_fall (hN : 0 < P.Ns) (hd : P.Nd = 0) (ho : solveForm form false P.Ns P.Nd R x = some p) {ε : ℝ} {F : Vec3}
    (hF : ∀ k, ε * (s k * F k) = F k) (hFa : x.Fa = List.replicate P.Ns (num3 F))
    (hTa : x.Ta = List.replicate P.Ns (num3 0)) (hSa : form = .fts → x.Sa = List.replicate P.Ns (num33 0))
    (hEa : form = .fte → x.Ea = List.replicate P.Ns (num33 0)) {i : ℕ} (hi : i < P.Ns) (k : Fin 3) :
    p.Ua.getD i 0 k = ε * (s k * p.Ua.getD (σ i) 0 k) ∧
      p.Oa.getD i 0 k = ε * (s 0 * s 1 * s 2 * s k * p.Oa.getD (σ i) 0 k) := by
  have hf : formAllowed form P.Ns := ⟨fun h0 => absurd hN (by omega), fun _ => by rcases hform with rfl | rfl <;> simp⟩
  have five0 : ∀ i, five (0 : Mat3) i = 0 := by intro i; fin_cases i <;> simp [five]
  have bm : ∀ v < P.Ns, beadMap P.Ns P.Nd σ τ v = σ v := fun v hv => by simp [beadMap, hv]
  have i3 : Function.Injective num3 := fun a b h => num3_inj h
  have i33 : Function.Injective num33 := fun a b h => num33_inj h
  have rep : ∀ {α β : Type} {g : α → β} (_ : Function.Injective g) {m : ℕ} {a : α} {l : List α},
      List.replicate m (g a) = l.map g → l = List.replicate m a :=
    fun hg _ _ _ h => (hg.list_map (by simpa using h)).symm
  have at' : ∀ {α : Type} {m j : ℕ} (_ : j < m) (a b : α), (List.replicate m a).getD j b = a := by
    intro α m j hj a b
    simp [List.getD, hj]
  have hsy := C76_symmetric hB.sides hB.folded hB.spans hB.sensible hB.cutoff hB.tabulated (fun e => (hl e).1) h
  have same : ∀ {z w ub hd : List Vec3} {q : List Mat3} {v : ℕ} {c : Comp}, v < P.Ns →
      (SameAt P.Ns P.Nd ε (signQ s) σ τ (pack P.Ns P.Nd z w q ub hd) v c ↔
        comps (z.getD v 0) (w.getD v 0) (q.getD v 0) c
          = ε * (compSign s c * comps (z.getD (σ v) 0) (w.getD (σ v) 0) (q.getD (σ v) 0) c)) := by
    intro z w ub hd q v c hv
    unfold SameAt
    rw [turnComp_sign hs, bm v hv, pack_f hv, pack_f (hI.spheres.lt v hv)]
  have key : Echo form P.Ns P.Nd x p → GivenSame form P.Ns P.Nd ε (signQ s) σ τ
      (pack P.Ns P.Nd p.Fa p.Ta p.Sa p.Fb p.DFb) (pack P.Ns P.Nd p.Ua p.Oa p.Ea p.Ub p.HalfDUb) := by
    intro e v c hv
    have hv' : v < P.Ns := by
      have : v < P.Ns + 2 * P.Nd := owns_lt (owns_kind hv)
      rw [hd] at this
      omega
    have hσ := hI.spheres.lt v hv'
    have pF : p.Fa = List.replicate P.Ns F := by
      rcases hform with rfl | rfl <;> exact rep i3 (hFa.symm.trans e.1)
    have pT : p.Ta = List.replicate P.Ns 0 := by
      rcases hform with rfl | rfl <;> exact rep i3 (hTa.symm.trans e.2.1)
    cases c with
    | f k =>
      have : SameAt P.Ns P.Nd ε (signQ s) σ τ (pack P.Ns P.Nd p.Fa p.Ta p.Sa p.Fb p.DFb) v (.f k) := by
        rw [same hv']
        simp only [comps, pF, at' hv', at' hσ, compSign]
        exact (hF k).symm
      rcases hform with rfl | rfl <;> exact this
    | t k =>
      have : SameAt P.Ns P.Nd ε (signQ s) σ τ (pack P.Ns P.Nd p.Fa p.Ta p.Sa p.Fb p.DFb) v (.t k) := by
        rw [same hv']
        simp only [comps, pT, at' hv', at' hσ, Pi.zero_apply, mul_zero]
      rcases hform with rfl | rfl <;> exact this
    | s k =>
      rcases hform with rfl | rfl
      · show SameAt P.Ns P.Nd ε (signQ s) σ τ (pack P.Ns P.Nd p.Fa p.Ta p.Sa p.Fb p.DFb) v (.s k)
        rw [same hv', rep i33 ((hSa rfl).symm.trans e.2.2.1)]
        simp only [comps, at' hv', at' hσ, five0, mul_zero]
      · show SameAt P.Ns P.Nd ε (signQ s) σ τ (pack P.Ns P.Nd p.Ua p.Oa p.Ea p.Ub p.HalfDUb) v (.s k)
        rw [same hv', rep i33 ((hEa rfl).symm.trans e.2.2.1)]
        simp only [comps, at' hv', at' hσ, five0, mul_zero]
  obtain ⟨-, h1, h2, h3⟩ := box_some h
  have hCr : C.rows = side P := by
    cases reg
    · obtain rfl := Option.some.inj h1
      exact (hl rfl).2.1
    · rw [if_pos rfl] at h1
      rw [(NDMat.inv_some h1).2.1]
      exact (Minfinity_periodic_dims n P _ _ _ _ _ bb).1
  have hr : R.rows = side P := by
    cases hU : S.use_Minfinity_only
    · obtain ⟨N, -, rfl⟩ := h2 hU
      exact hCr
    · rw [h3 hU]; exact hCr
  obtain ⟨-, e⟩ := solve_echo hf hx hr (fun i _ j _ => (hsy i j).1) ho
  obtain ⟨-, -, m, -⟩ := C96_symmetric hB hs hI hb hlk hl h hform hx hf ho (key e)
  have a := (same hi).mp (m i (.f k) (by simp [HasRow]; omega))
  have b := (same hi).mp (m i (.t k) (by simpa [HasRow] using hi))
  exact ⟨a, b⟩

end

/-! ## One sphere, two equal spheres -/

theorem signs_neg : Signs fun _ => -1 := fun _ => .inr rfl

theorem alone_image {P : PosData} (h1 : P.Ns = 1) (h0 : P.Nd = 0) {s : Fin 3 → ℝ} (hs : Signs s) :
    SelfImage P (signQ s) (fun i => i) fun i => i := by
  have e : ∀ x < beads P, x = 0 := fun x hx => by unfold beads at hx; omega
  have b : ∀ x, beadMap P.Ns P.Nd (fun i => i) (fun i => i) x = x := by
    intro x
    unfold beadMap
    dsimp only
    split_ifs <;> omega
  refine ⟨signQ_orth hs, id_reorders _, id_reorders _, fun x hx y hy => ?_, fun x hx => by rw [b]⟩
  rw [e x hx, e y hy, turnVec_sign]
  funext k
  simp [b, Sign.flip]

theorem alone_links {P : PosData} (h1 : P.Ns = 1) (h0 : P.Nd = 0) (B : Mat3) (k : ℝ) (Q : Mat3) (σ τ : ℕ → ℕ) :
    LinksKept B k P Q σ τ := by
  intro x hx y hy hxy
  unfold beads at hx hy
  omega

theorem twins_box {P : PosData} (h : Twins P) : SelfImage P (signQ fun _ => -1) swap01 fun i => i := by
  have e : (signQ fun _ => -1) = negQ := rfl
  rw [e]
  exact twins_image h

theorem twins_links {P : PosData} (h : Twins P) (B : Mat3) (k : ℝ) :
    LinksKept B k P (signQ fun _ => -1) swap01 fun i => i := by
  have h2 : ∀ x, x < beads P ↔ x = 0 ∨ x = 1 := fun x => by unfold beads; rw [h.Ns, h.Nd]; omega
  have b0 : beadMap P.Ns P.Nd swap01 (fun i => i) 0 = 1 := by simp [beadMap, h.Ns, swap01]
  have b1 : beadMap P.Ns P.Nd swap01 (fun i => i) 1 = 0 := by simp [beadMap, h.Ns, swap01]
  have st : ∀ {x y : ℕ}, x ≠ y → cellStep B (centre P) x y = fun m => -cellStep B (centre P) y x m := by
    intro x y hxy
    rcases Nat.lt_or_gt_of_ne hxy with g | g
    · rw [cellStep_lt g, cellStep_gt g]; funext m; simp
    · rw [cellStep_lt g, cellStep_gt g]
  have key : ∀ {x y : ℕ}, x ≠ y → cellLink B k (centre P) (radius P) x y
      = (cellLink B k (centre P) (radius P) y x).map fun p => (turnVec (signQ fun _ => -1) p.1, p.2) := by
    intro x y hxy
    have hl : len (cellStep B (centre P) x y) = len (cellStep B (centre P) y x) := by
      rw [st hxy]; exact len_neg _
    unfold cellLink
    dsimp only
    rw [hl, add_comm (radius P x)]
    split_ifs with g
    · rw [Option.map_some, st hxy]
      congr 2
      funext m
      rw [turnVec_sign]
      simp only [Sign.flip]
      ring
    · rfl
  intro x hx y hy hxy
  rcases (h2 x).mp hx with rfl | rfl <;> rcases (h2 y).mp hy with rfl | rfl
  · exact absurd rfl hxy
  · rw [b0, b1]; exact key hxy
  · rw [b0, b1]; exact key hxy
  · exact absurd rfl hxy

section
variable {n : ℕ} {T : ScalarTable} {input : Config → ℝ → ℝ → Vel → Option NDMat → Option UserInput} {bb : Bool}
  {S : Settings} {P : PosData} {last : NDMat} {u : UserInput} {R C : NDMat} {B : Mat3}
  (hB : BoxReady n T S.cutoff_factor u B P)
  (h : generate_grand_resistance_matrix_periodic (boxWorld n T input bb) S P last true u = some (R, C))
  {form : InputForm} (hform : form = .fts ∨ form = .fte) {x : Inputs} {p : Outputs} (hx : Sized P.Ns P.Nd x)
  (ho : solveForm form false P.Ns P.Nd R x = some p) {F : Vec3} (hFa : x.Fa = List.replicate P.Ns (num3 F))
  (hTa : x.Ta = List.replicate P.Ns (num3 0)) (hSa : form = .fts → x.Sa = List.replicate P.Ns (num33 0))
  (hEa : form = .fte → x.Ea = List.replicate P.Ns (num33 0))
include hB h hform hx ho hFa hTa hSa hEa

/-- **C96** (one sphere). A single sphere in a periodic box, sheared or not, that is pulled without torque (and without
stresslet or strain) does not turn. In a box at rest it moves along an axis if it is pulled along it. -/
theorem C96_alone (h1 : P.Ns = 1) (h0 : P.Nd = 0) :
    p.Oa.getD 0 0 = 0 ∧
      (u.Ot = 0 → u.Et = 0 → ∀ a, (∀ k, k ≠ a → F k = 0) → ∀ k, k ≠ a → p.Ua.getD 0 0 k = 0) := by
  constructor
  · funext k
    have := (C96_fall hB signs_neg (alone_image h1 h0 signs_neg) (.inl fun _ => rfl) (alone_links h1 h0 B _ _ _ _)
      (fun e => absurd e (by simp)) h hform hx (by omega) h0 ho (ε := -1) (F := F) (fun k => by ring) hFa hTa hSa hEa (i := 0)
      (by omega) k).2
    show p.Oa.getD 0 0 k = 0
    linarith
  · intro hO hE a hF k hk
    have hs : Signs fun j => if j = k then -1 else 1 := fun j => by by_cases e : j = k <;> simp [e]
    have := (C96_fall hB hs (alone_image h1 h0 hs) (.inr ⟨hO, hE⟩) (alone_links h1 h0 B _ _ _ _)
      (fun e => absurd e (by simp)) h hform hx (by omega) h0 ho (ε := 1) (F := F) (fun j => by
        by_cases e : j = k
        · rw [e, hF k hk]; ring
        · simp [e]) hFa hTa hSa hEa (i := 0)
      (by omega) k).1
    rw [if_pos rfl] at this
    linarith

/-- **C96** (two equal spheres). Two equal spheres in a periodic box, sheared or not, that are pulled alike without
torques (and without stresslets or strains) move alike and turn oppositely, wherever they are. -/
theorem C96_pair (h2 : Twins P) :
    p.Ua.getD 0 0 = p.Ua.getD 1 0 ∧ p.Oa.getD 0 0 = fun k => -p.Oa.getD 1 0 k := by
  have key := fun k => C96_fall hB signs_neg (twins_box h2) (.inl fun _ => rfl) (twins_links h2 B _)
      (fun e => absurd e (by simp)) h hform hx (by rw [h2.Ns]; norm_num) h2.Nd ho (ε := -1) (F := F) (fun k => by ring) hFa hTa
      hSa hEa (i := 0) (by rw [h2.Ns]; norm_num) k
  have e : swap01 0 = 1 := rfl
  simp only [e] at key
  constructor <;> funext k
  · linarith [(key k).1]
  · linarith [(key k).2]

end

/-! ## Eight spheres at the corners of a brick -/

/-- The corner opposite to `x` along axis `i`. -/
def across (i : Fin 3) (x : ℕ) : ℕ := if x < 8 then x ^^^ 2 ^ (2 - i.val) else x

theorem across_facts : (∀ i : Fin 3, ∀ x : Fin 8, across i x < 8) ∧
    (∀ i : Fin 3, ∀ x y : Fin 8, across i x = across i y → x = y) ∧
    (∀ i j : Fin 3, ∀ x : Fin 8, (across i x / 2 ^ (2 - j.val) % 2 = 1) ↔ (if j = i then ¬ x.val / 2 ^ (2 - j.val) % 2 = 1
      else x.val / 2 ^ (2 - j.val) % 2 = 1)) := by
  refine ⟨by decide, by decide, by decide⟩

theorem across_order : (∀ i : Fin 3, ∀ x y : Fin 8, (x.val / 2 ^ (2 - i.val) % 2 = 1 ↔ y.val / 2 ^ (2 - i.val) % 2 = 1) →
      (across i x < across i y ↔ x < y)) ∧
    (∀ i : Fin 3, ∀ x y : Fin 8, x ≠ y → (∀ j, j ≠ i → (x.val / 2 ^ (2 - j.val) % 2 = 1 ↔ y.val / 2 ^ (2 - j.val) % 2 = 1)) →
      (across i x < across i y ↔ y < x)) := by
  refine ⟨by decide, by decide⟩

theorem corner_across (i j : Fin 3) {x : ℕ} (hx : x < 8) :
    cornerSide j (across i x) = (if j = i then -1 else 1) * cornerSide j x := by
  have := across_facts.2.2 i j ⟨x, hx⟩
  simp only at this
  unfold cornerSide
  by_cases e : j = i
  · rw [if_pos e] at this
    rw [if_pos e]
    by_cases g : x / 2 ^ (2 - j.val) % 2 = 1
    · rw [if_pos g, if_neg (fun h => (this.mp h) g)]; ring
    · rw [if_neg g, if_pos (this.mpr g)]; ring
  · rw [if_neg e] at this
    rw [if_neg e]
    by_cases g : x / 2 ^ (2 - j.val) % 2 = 1
    · rw [if_pos g, if_pos (this.mpr g)]; ring
    · rw [if_neg g, if_neg (fun h => g (this.mp h))]; ring

theorem across_reorders (i : Fin 3) : Reorders 8 (across i) := by
  refine ⟨fun x hx => across_facts.1 i ⟨x, hx⟩, fun x hx y hy e => ?_, fun x hx => if_neg (by omega)⟩
  have := across_facts.2.1 i ⟨x, hx⟩ ⟨y, hy⟩ e
  simpa using this

/-- Reversal of one axis. -/
def flipAxis (i : Fin 3) : Fin 3 → ℝ := fun j => if j = i then -1 else 1

theorem flipAxis_signs (i : Fin 3) : Signs (flipAxis i) := fun j => by
  unfold flipAxis
  by_cases e : j = i <;> simp [e]

section
variable {P : PosData} {o a : Vec3} (hP : Brick P o a)
include hP

theorem brick_lt {x : ℕ} : x < beads P ↔ x < 8 := by unfold beads; rw [hP.Ns, hP.Nd]

theorem brick_centre {x : ℕ} (hx : x < 8) : centre P x = fun j => o j + cornerSide j x * a j := by
  rw [← hP.corner x hx]
  funext k
  simp [centre, hP.Ns, hx]

theorem brick_map (i : Fin 3) {x : ℕ} (hx : x < 8) : beadMap P.Ns P.Nd (across i) (fun i => i) x = across i x := by
  simp [beadMap, hP.Ns, hx]

theorem brick_radius {x : ℕ} (hx : x < 8) : radius P x = P.sphereSize 0 := by
  rw [← hP.size x hx]
  simp [radius, hP.Ns, hx]

theorem brick_image (i : Fin 3) : SelfImage P (signQ (flipAxis i)) (across i) fun i => i := by
  refine ⟨signQ_orth (flipAxis_signs i), by rw [hP.Ns]; exact across_reorders i, id_reorders _, fun x hx y hy => ?_,
    fun x hx => ?_⟩
  · rw [brick_lt hP] at hx hy
    rw [brick_map hP i hx, brick_map hP i hy, brick_centre hP hx, brick_centre hP hy, turnVec_sign,
      brick_centre hP (across_facts.1 i ⟨x, hx⟩), brick_centre hP (across_facts.1 i ⟨y, hy⟩)]
    funext j
    simp only [Sign.flip, corner_across i j hx, corner_across i j hy]
    unfold flipAxis
    by_cases e : j = i <;> simp [e] <;> ring
  · rw [brick_lt hP] at hx
    rw [brick_map hP i hx, brick_radius hP hx, brick_radius hP (across_facts.1 i ⟨x, hx⟩)]

omit hP in
theorem rest_box {L : Fin 3 → ℝ} {B : Mat3} (h : FoldedBox L 0 0 B) (k i : Fin 3) :
    B k i = if i = k then L k else 0 := by
  obtain ⟨⟨h1, h2⟩, m, hm⟩ := h k i
  have e : cross 0 (edge L k) i + app 0 (edge L k) i = 0 := by fin_cases i <;> simp [cross, app, dotp]
  rw [e] at hm
  have hL : 0 < L i := lt_of_le_of_lt h1 h2
  rw [hm] at h1 h2
  have h3 : (-1 : ℝ) < m := by
    by_contra c
    push Not at c
    nlinarith
  have h4 : (m : ℝ) < 1 := by
    by_contra c
    push Not at c
    nlinarith
  have h5 : m = 0 := by
    have a : -1 < m := by exact_mod_cast h3
    have b : m < 1 := by exact_mod_cast h4
    omega
  rw [h5] at hm
  have : B k i = edge L k i := by linarith [show ((0 : ℤ) : ℝ) * L i = 0 by simp]
  rw [this]
  rfl

omit hP in
/-- The image in the cell of a displacement between corners. -/
theorem fold_corner {L : Fin 3 → ℝ} {B : Mat3} (h : FoldedBox L 0 0 B) (hs : Spans B) (ha : ∀ j, 0 < a j)
    (hL : ∀ j, 4 * a j ≤ L j) {v : Vec3} (hv : ∀ j, v j = 0 ∨ v j = 2 * a j ∨ v j = -(2 * a j)) :
    cellImage B v = fun j => if v j = 2 * a j ∧ 4 * a j = L j then -(2 * a j) else v j := by
  have hp : ∀ j, 0 < L j := fun j => by linarith [ha j, hL j]
  have comb : ∀ c : Vec3, combine B c = fun j => c j * L j := by
    intro c
    funext j
    simp only [combine, rest_box h]
    fin_cases j <;> simp
  refine cellImage_eq hs ⟨fun j => (if v j = 2 * a j ∧ 4 * a j = L j then -(2 * a j) else v j) / L j, fun j => ?_, ?_⟩
    ⟨fun j => if v j = 2 * a j ∧ 4 * a j = L j then 1 else 0, ?_⟩
  · have := hp j
    have := ha j
    have := hL j
    rw [le_div_iff₀ (hp j), div_lt_iff₀ (hp j)]
    split_ifs with g
    · constructor <;> linarith
    · rcases hv j with e | e | e <;> rw [e] at g ⊢
      · constructor <;> linarith
      · have : 4 * a j < L j := lt_of_le_of_ne (hL j) fun c => g ⟨rfl, c⟩
        constructor <;> linarith
      · constructor <;> linarith
  · rw [comb]
    funext j
    rw [div_mul_cancel₀ _ (hp j).ne']
  · rw [comb]
    funext j
    dsimp only
    split_ifs with g
    · rw [g.1, ← g.2]; push_cast; ring
    · simp

omit hP in
theorem side_cases (j : Fin 3) (x y : ℕ) : (cornerSide j y - cornerSide j x = 0 ∧
      (x / 2 ^ (2 - j.val) % 2 = 1 ↔ y / 2 ^ (2 - j.val) % 2 = 1)) ∨
    ((cornerSide j y - cornerSide j x = 2 ∨ cornerSide j y - cornerSide j x = -2) ∧
      ¬ (x / 2 ^ (2 - j.val) % 2 = 1 ↔ y / 2 ^ (2 - j.val) % 2 = 1)) := by
  unfold cornerSide
  by_cases h1 : x / 2 ^ (2 - j.val) % 2 = 1 <;> by_cases h2 : y / 2 ^ (2 - j.val) % 2 = 1 <;> simp only [h1, h2] <;> norm_num

/-- Close corners keep their chosen images. -/
theorem brick_links {L : Fin 3 → ℝ} {B : Mat3} (h : FoldedBox L 0 0 B) (hs : Spans B) {k : ℝ} (hk : 0 ≤ k)
    (hf : BrickFits L a k) (i : Fin 3) : LinksKept B k P (signQ (flipAxis i)) (across i) fun i => i := by
  intro x hx y hy hxy
  rw [brick_lt hP] at hx hy
  have hx' := across_facts.1 i ⟨x, hx⟩
  have hy' := across_facts.1 i ⟨y, hy⟩
  simp only at hx' hy'
  have hxy' : across i x ≠ across i y := fun e => hxy ((across_reorders i).inj x hx y hy e)
  rw [brick_map hP i hx, brick_map hP i hy]
  set D : Vec3 := fun j => (cornerSide j y - cornerSide j x) * a j with hD
  have diff : ∀ {x y : ℕ}, x < 8 → y < 8 → (fun m => centre P y m - centre P x m)
      = fun j => (cornerSide j y - cornerSide j x) * a j := by
    intro x y hx hy
    rw [brick_centre hP hx, brick_centre hP hy]
    funext j
    ring
  have three : ∀ (x y : ℕ) j, (cornerSide j y - cornerSide j x) * a j = 0 ∨
      (cornerSide j y - cornerSide j x) * a j = 2 * a j ∨ (cornerSide j y - cornerSide j x) * a j = -(2 * a j) := by
    intro x y j
    rcases side_cases j x y with ⟨e, -⟩ | ⟨e | e, -⟩ <;> rw [e]
    · exact .inl (by ring)
    · exact .inr (.inl rfl)
    · exact .inr (.inr (by ring))
  have img : ∀ {x y : ℕ}, x < 8 → y < 8 → cellImage B (fun m => centre P y m - centre P x m)
      = fun j => if (cornerSide j y - cornerSide j x) * a j = 2 * a j ∧ 4 * a j = L j then -(2 * a j)
        else (cornerSide j y - cornerSide j x) * a j := by
    intro x y hx hy
    rw [diff hx hy]
    exact fold_corner h hs hf.pos hf.fits fun j => three x y j
  -- the length does not depend on the image
  have sq : ∀ {x y : ℕ}, x < 8 → y < 8 → ∀ j, cellStep B (centre P) x y j ^ 2 = ((cornerSide j y - cornerSide j x) * a j) ^ 2 := by
    intro x y hx hy j
    unfold cellStep
    split_ifs with c
    · rw [img hx hy]
      dsimp only
      split_ifs with g
      · rw [g.1]; ring
      · rfl
    · rw [img hy hx]
      dsimp only
      split_ifs with g
      · have : (cornerSide j y - cornerSide j x) * a j = -(2 * a j) := by linarith [g.1]
        rw [this]; ring
      · ring
  have sq' : ∀ j, cellStep B (centre P) (across i x) (across i y) j ^ 2 = cellStep B (centre P) x y j ^ 2 := by
    intro j
    rw [sq hx hy, sq hx' hy', corner_across i j hx, corner_across i j hy]
    split_ifs <;> ring
  have hl : len (cellStep B (centre P) (across i x) (across i y)) = len (cellStep B (centre P) x y) := by
    have : ∀ v w : Vec3, (∀ j, v j ^ 2 = w j ^ 2) → len v = len w := by
      intro v w g
      unfold len
      congr 1
      have g0 := g 0
      have g1 := g 1
      have g2 := g 2
      simp only [dotp, Fin.sum_univ_three]
      nlinarith
    exact this _ _ sq'
  have rx := (brick_radius hP hx).trans (brick_radius hP hx').symm
  have ry := (brick_radius hP hy).trans (brick_radius hP hy').symm
  unfold cellLink
  dsimp only
  rw [hl, rx, ry]
  split_ifs with g
  swap
  · rfl
  rw [Option.map_some]
  -- the steps are each other's images
  have step : cellStep B (centre P) x y = turnVec (signQ (flipAxis i)) (cellStep B (centre P) (across i x) (across i y)) := by
    rw [turnVec_sign]
    by_cases c1 : x / 2 ^ (2 - i.val) % 2 = 1 ↔ y / 2 ^ (2 - i.val) % 2 = 1
    · -- not apart along the axis
      have ho := across_order.1 i ⟨x, hx⟩ ⟨y, hy⟩ c1
      simp only [Fin.mk_lt_mk] at ho
      have z : ∀ j, cornerSide j (across i y) - cornerSide j (across i x) = cornerSide j y - cornerSide j x := by
        intro j
        rw [corner_across i j hx, corner_across i j hy]
        by_cases e : j = i
        · rcases side_cases j x y with ⟨e', -⟩ | ⟨-, e'⟩
          · rw [if_pos e]; linarith
          · rw [e] at e'; exact absurd c1 e'
        · rw [if_neg e]; ring
      have z' : ∀ j, cornerSide j (across i x) - cornerSide j (across i y) = cornerSide j x - cornerSide j y := by
        intro j; linarith [z j]
      have same : cellStep B (centre P) (across i x) (across i y) = cellStep B (centre P) x y := by
        unfold cellStep
        rw [img hx' hy', img hy' hx', img hx hy, img hy hx]
        simp only [z, z', ho]
      rw [same]
      funext j
      unfold Sign.flip flipAxis
      by_cases e : j = i
      · have : cellStep B (centre P) x y j = 0 := by
          have := sq hx hy j
          rcases side_cases j x y with ⟨e', -⟩ | ⟨-, e'⟩
          · rw [e'] at this
            exact pow_eq_zero_iff (two_ne_zero) |>.mp (by linarith)
          · rw [e] at e'; exact absurd c1 e'
        rw [this, mul_zero]
      · rw [if_neg e, one_mul]
    · by_cases c2 : ∀ j, j ≠ i → (x / 2 ^ (2 - j.val) % 2 = 1 ↔ y / 2 ^ (2 - j.val) % 2 = 1)
      · -- neighbours along the axis
        have ho := across_order.2 i ⟨x, hx⟩ ⟨y, hy⟩ (by simpa using hxy) c2
        simp only [Fin.mk_lt_mk] at ho
        have z : ∀ j, cornerSide j (across i x) - cornerSide j (across i y) = cornerSide j y - cornerSide j x := by
          intro j
          rw [corner_across i j hx, corner_across i j hy]
          by_cases e : j = i
          · rw [if_pos e]; ring
          · rcases side_cases j x y with ⟨e', -⟩ | ⟨-, e'⟩
            · rw [if_neg e]; linarith
            · exact absurd (c2 j e) e'
        have z' : ∀ j, cornerSide j (across i y) - cornerSide j (across i x) = cornerSide j x - cornerSide j y := by
          intro j; linarith [z j]
        have anti : cellStep B (centre P) (across i x) (across i y) = fun m => -cellStep B (centre P) x y m := by
          rcases Nat.lt_or_gt_of_ne hxy with c | c
          · rw [cellStep_lt c, cellStep_gt (show across i y < across i x by
              rcases Nat.lt_or_gt_of_ne hxy' with q | q
              · exact absurd (ho.mp q) (by omega)
              · exact q), img hx hy, img hy' hx']
            simp only [z]
          · rw [cellStep_gt c, cellStep_lt (ho.mpr c), img hy hx, img hx' hy']
            simp only [z', neg_neg]
        rw [anti]
        funext j
        unfold Sign.flip flipAxis
        by_cases e : j = i
        · rw [if_pos e]; ring
        · have : cellStep B (centre P) x y j = 0 := by
            have := sq hx hy j
            rcases side_cases j x y with ⟨e', -⟩ | ⟨-, e'⟩
            · rw [e'] at this
              exact pow_eq_zero_iff (two_ne_zero) |>.mp (by linarith)
            · exact absurd (c2 j e) e'
          dsimp only
          rw [if_neg e, this]; ring
      · -- diagonal neighbours have one nearest image
        push Not at c2
        obtain ⟨j0, hj0, c3⟩ := c2
        have c3 : ¬ (x / 2 ^ (2 - j0.val) % 2 = 1 ↔ y / 2 ^ (2 - j0.val) % 2 = 1) := by tauto
        have two : ∀ j, ¬ (x / 2 ^ (2 - j.val) % 2 = 1 ↔ y / 2 ^ (2 - j.val) % 2 = 1) →
            cellStep B (centre P) x y j ^ 2 = (2 * a j) ^ 2 := by
          intro j hj
          rw [sq hx hy]
          rcases side_cases j x y with ⟨-, e'⟩ | ⟨e' | e', -⟩
          · exact absurd e' hj
          · rw [e']
          · rw [e']; ring
        have far : ∀ i j, i ≠ j → ¬ (x / 2 ^ (2 - i.val) % 2 = 1 ↔ y / 2 ^ (2 - i.val) % 2 = 1) →
            ¬ (x / 2 ^ (2 - j.val) % 2 = 1 ↔ y / 2 ^ (2 - j.val) % 2 = 1) → 4 * a i < L i ∧ 4 * a j < L j := by
          intro i j hij hi hj
          rcases hf.ties i j hij with c | c
          · exact c
          · exfalso
            have h1 := two i hi
            have h2 := two j hj
            have h3 : (len (cellStep B (centre P) x y)) ^ 2 ≤ (2 * k) ^ 2 :=
              pow_le_pow_left₀ (Real.sqrt_nonneg _) g.1 2
            have h4 : (len (cellStep B (centre P) x y)) ^ 2 = cellStep B (centre P) x y 0 ^ 2
                + cellStep B (centre P) x y 1 ^ 2 + cellStep B (centre P) x y 2 ^ 2 := by
              have : ∀ v : Vec3, len v ^ 2 = v 0 ^ 2 + v 1 ^ 2 + v 2 ^ 2 := by
                intro v
                unfold len
                rw [Real.sq_sqrt (Finset.sum_nonneg fun i _ => sq_nonneg _), Fin.sum_univ_three]
              exact this _
            have q0 := sq_nonneg (cellStep B (centre P) x y 0)
            have q1 := sq_nonneg (cellStep B (centre P) x y 1)
            have q2 := sq_nonneg (cellStep B (centre P) x y 2)
            fin_cases i <;> fin_cases j <;> simp only [Fin.zero_eta, Fin.mk_one, Fin.reduceFinMk] at * <;>
              first | exact absurd rfl hij | linarith
        have none_tied : ∀ j, ¬ (x / 2 ^ (2 - j.val) % 2 = 1 ↔ y / 2 ^ (2 - j.val) % 2 = 1) → 4 * a j < L j := by
          intro j hj
          by_cases e : j = i
          · rw [e] at hj ⊢
            exact (far i j0 (Ne.symm hj0) hj c3).1
          · exact (far j i e hj c1).1
        have plain : ∀ {x' y' : ℕ}, x' < 8 → y' < 8 → (∀ j, 4 * a j < L j ∨ cornerSide j y' - cornerSide j x' = 0) →
            cellStep B (centre P) x' y' = fun j => (cornerSide j y' - cornerSide j x') * a j := by
          intro x' y' hx' hy' hn
          have no : ∀ (x y : ℕ) (j : Fin 3), (4 * a j < L j ∨ cornerSide j y - cornerSide j x = 0) →
              ¬ ((cornerSide j y - cornerSide j x) * a j = 2 * a j ∧ 4 * a j = L j) := by
            rintro x y j (q | q) ⟨q1, q2⟩
            · linarith
            · rw [q] at q1
              linarith [hf.pos j]
          unfold cellStep
          split_ifs
          · rw [img hx' hy']
            funext j
            rw [if_neg (no _ _ j (hn j))]
          · rw [img hy' hx']
            funext j
            dsimp only
            rw [if_neg (no _ _ j ((hn j).imp_right fun q => by linarith))]
            ring
        have cl : ∀ j, 4 * a j < L j ∨ cornerSide j y - cornerSide j x = 0 := by
          intro j
          rcases side_cases j x y with ⟨e', -⟩ | ⟨-, e'⟩
          · exact .inr e'
          · exact .inl (none_tied j e')
        rw [plain hx hy cl, plain hx' hy' fun j => (cl j).imp_right fun q => by
          rw [corner_across i j hx, corner_across i j hy, ← mul_sub, q, mul_zero]]
        funext j
        unfold Sign.flip flipAxis
        dsimp only
        rw [corner_across i j hx, corner_across i j hy]
        split_ifs <;> ring
  rw [step]
  congr 2
  funext m
  rw [turnVec_sign, turnVec_sign]
  simp only [Sign.flip]
  ring

end

theorem across_all {g : ℕ → ℝ} (h : ∀ i, ∀ x < 8, g x = g (across i x)) {x : ℕ} (hx : x < 8) : g x = g 0 := by
  have a : ∀ (i : Fin 3) (x y : ℕ), x < 8 → across i x = y → g x = g y := fun i x y hx e => by rw [h i x hx, e]
  have h1 : g 1 = g 0 := a 2 1 0 (by norm_num) (by decide)
  have h2 : g 2 = g 0 := a 1 2 0 (by norm_num) (by decide)
  have h4 : g 4 = g 0 := a 0 4 0 (by norm_num) (by decide)
  have h3 : g 3 = g 2 := a 2 3 2 (by norm_num) (by decide)
  have h5 : g 5 = g 4 := a 2 5 4 (by norm_num) (by decide)
  have h6 : g 6 = g 4 := a 1 6 4 (by norm_num) (by decide)
  have h7 : g 7 = g 6 := a 2 7 6 (by norm_num) (by decide)
  interval_cases x
  · rfl
  · exact h1
  · exact h2
  · exact h3.trans h2
  · exact h4
  · exact h5.trans h4
  · exact h6.trans h4
  · exact h7.trans (h6.trans h4)

/-- **C96** (brick). Eight equal spheres at the corners of a brick in a box at rest are pulled alike along an axis `e`,
without torques and without stresslets (or strains). Then their velocities along the axis are equal: after one Euler
step they are still level with each other. -/
theorem C96_brick {n : ℕ} {T : ScalarTable} {input : Config → ℝ → ℝ → Vel → Option NDMat → Option UserInput} {bb : Bool}
    {S : Settings} {P : PosData} {last : NDMat} {u : UserInput} {R C : NDMat} {B : Mat3}
    (hB : BoxReady n T S.cutoff_factor u B P)
    (h : generate_grand_resistance_matrix_periodic (boxWorld n T input bb) S P last true u = some (R, C))
    {form : InputForm} (hform : form = .fts ∨ form = .fte) {x : Inputs} {p : Outputs} (hx : Sized P.Ns P.Nd x)
    (ho : solveForm form false P.Ns P.Nd R x = some p) {F : Vec3} (hFa : x.Fa = List.replicate P.Ns (num3 F))
    (hTa : x.Ta = List.replicate P.Ns (num3 0)) (hSa : form = .fts → x.Sa = List.replicate P.Ns (num33 0))
    (hEa : form = .fte → x.Ea = List.replicate P.Ns (num33 0)) {o a : Vec3} (hP : Brick P o a) (hO : u.Ot = 0)
    (hE : u.Et = 0) (hf : BrickFits (fun i => u.tr i - u.bl i) a S.cutoff_factor) {e : Fin 3}
    (hF : ∀ k, k ≠ e → F k = 0) {i j : ℕ} (hi : i < 8) (hj : j < 8) : p.Ua.getD i 0 e = p.Ua.getD j 0 e := by
  have fold := hB.folded
  rw [hO, hE] at fold
  have key : ∀ (m : Fin 3) (z : ℕ), z < 8 → p.Ua.getD z 0 e = p.Ua.getD (across m z) 0 e := by
    intro m z hz
    by_cases c : m = e
    · have := (C96_fall hB (flipAxis_signs m) (brick_image hP m) (.inr ⟨hO, hE⟩) (brick_links hP fold hB.spans hB.cutoff hf m)
        (fun q => absurd q (by simp)) h hform hx (by rw [hP.Ns]; norm_num) hP.Nd ho (ε := -1) (F := F) (fun k => by
          unfold flipAxis
          by_cases q : k = m
          · rw [if_pos q]; ring
          · rw [hF k (c ▸ q)]; ring) hFa hTa hSa hEa (i := z) (by rw [hP.Ns]; exact hz) e).1
      rw [this, flipAxis, if_pos c.symm]; ring
    · have := (C96_fall hB (flipAxis_signs m) (brick_image hP m) (.inr ⟨hO, hE⟩) (brick_links hP fold hB.spans hB.cutoff hf m)
        (fun q => absurd q (by simp)) h hform hx (by rw [hP.Ns]; norm_num) hP.Nd ho (ε := 1) (F := F) (fun k => by
          unfold flipAxis
          by_cases q : k = m
          · rw [if_pos q, hF k (q ▸ c)]; ring
          · rw [if_neg q]; ring) hFa hTa hSa hEa (i := z) (by rw [hP.Ns]; exact hz) e).1
      rw [this, flipAxis, if_neg (Ne.symm c)]; ring
  exact (across_all (g := fun z => p.Ua.getD z 0 e) key hi).trans (across_all (g := fun z => p.Ua.getD z 0 e) key hj).symm

end SD
