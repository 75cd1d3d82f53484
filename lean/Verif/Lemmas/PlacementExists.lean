import Verif.Lemmas.Placement

/-!
Which placements can happen.
-/

set_option autoImplicit false

namespace SD

open Spec

theorem proposeSphere_first {w : ℕ → ℝ} {bl tr : Vec3} {out : List Vec3} {sizes : List ℝ} {a : ℝ}
    {n fuel k : ℕ} {p : Vec3} (e : random_point_in_box w k bl tr = p)
    (h : ∀ j < n, ∃ q b, out[j]? = some q ∧ sizes[j]? = some b ∧ Apart p a q b) :
    proposeSphere w bl tr out sizes a n (fuel + 1) k = .ok (p, k + 3) := by
  rw [proposeSphere, e, countClose_clear 0 h]
  rfl

/-- If the stream proposes the points of a valid placement one after the other, they are accepted. -/
theorem placeSpheres_script {w : ℕ → ℝ} {bl tr : Vec3} {sizes : List ℝ} {current fuel : ℕ} (ps : List Vec3)
    (rest : List ℝ) (i k : ℕ) (out : List Vec3) (hl : ps.length = rest.length)
    (hw : ∀ (m : ℕ) p, ps[m]? = some p → random_point_in_box w (k + 3 * m) bl tr = p)
    (hv : ∀ (m : ℕ) p a, ps[m]? = some p → rest[m]? = some a → ∀ j < current + i + m,
      ∃ q b, (out ++ ps)[j]? = some q ∧ sizes[j]? = some b ∧ Apart p a q b)
    (ho : out.length = current + i) :
    placeSpheres (fuel + 1) w bl tr sizes current rest i out k = .ok (out ++ ps, k + 3 * ps.length) := by
  induction rest generalizing ps i k out with
  | nil =>
    obtain rfl := List.length_eq_zero_iff.1 hl
    simp [placeSpheres, pure, Except.pure]
  | cons a rest ih =>
    obtain ⟨p, ps, rfl⟩ := List.exists_cons_of_length_eq_add_one hl
    rw [placeSpheres]
    refine bind_ok.2 ⟨_, proposeSphere_first (by simpa using hw 0 p rfl) (fun j hj => ?_), ?_⟩
    · obtain ⟨q, b, q1, q2, q3⟩ := hv 0 p a rfl rfl j (by omega)
      rw [List.getElem?_append_left (by omega)] at q1
      exact ⟨q, b, q1, q2, q3⟩
    · dsimp only
      rw [ih ps (i + 1) (k + 3) (out ++ [p]) (by simpa using hl) (fun m q hq => ?_)
        (fun m q b hq hb j hj => ?_) (by simp; omega)]
      · rw [List.append_assoc, List.singleton_append, List.length_cons]
        congr 2; omega
      · rw [show k + 3 + 3 * m = k + 3 * (m + 1) by ring]
        exact hw (m + 1) q (by simpa using hq)
      · rw [List.append_assoc, List.singleton_append]
        exact hv (m + 1) q b (by simpa using hq) (by simpa using hb) j (by omega)

/-- The number that makes a coordinate come out right. -/
noncomputable def share (lo hi x : ℝ) : ℝ := (x - lo) / (hi - lo)

theorem share_spec {lo hi x : ℝ} (h : lo ≤ x ∧ x < hi ∨ x = lo ∧ lo = hi) :
    0 ≤ share lo hi x ∧ share lo hi x < 1 ∧ lo + share lo hi x * (hi - lo) = x := by
  unfold share
  rcases h with ⟨h1, h2⟩ | ⟨rfl, rfl⟩
  · have hp : 0 < hi - lo := by linarith
    refine ⟨div_nonneg (by linarith) hp.le, (div_lt_one hp).2 (by linarith), ?_⟩
    rw [div_mul_cancel₀ _ hp.ne']; ring
  · simp

/-- A stream which proposes given points. -/
noncomputable def script (bl tr : Vec3) (ps : List Vec3) : ℕ → ℝ := fun k =>
  match ps[k / 3]? with
  | some p => share (bl (Fin.ofNat 3 (k % 3))) (tr (Fin.ofNat 3 (k % 3))) (p (Fin.ofNat 3 (k % 3)))
  | none => 0

/-- A point which the box can produce: `np.random.rand` never gives 1. -/
def Drawable (bl tr p : Vec3) : Prop := ∀ c, bl c ≤ p c ∧ p c < tr c ∨ p c = bl c ∧ bl c = tr c

theorem script_stream {bl tr : Vec3} {ps : List Vec3} (h : ∀ p ∈ ps, Drawable bl tr p) :
    Stream (script bl tr ps) := by
  intro k
  unfold script
  rcases hp : ps[k / 3]? with _ | p
  · simp
  · have := share_spec (h p (List.mem_of_getElem? hp) (Fin.ofNat 3 (k % 3)))
    exact ⟨this.1, this.2.1⟩

theorem script_draws {bl tr : Vec3} {ps : List Vec3} (h : ∀ p ∈ ps, Drawable bl tr p) {m : ℕ} {p : Vec3}
    (hp : ps[m]? = some p) : random_point_in_box (script bl tr ps) (0 + 3 * m) bl tr = p := by
  funext c
  have hc := c.isLt
  have e1 : (0 + 3 * m + (c : ℕ)) / 3 = m := by omega
  have e2 : Fin.ofNat 3 ((0 + 3 * m + (c : ℕ)) % 3) = c := by
    apply Fin.ext
    simp only [Fin.ofNat]
    omega
  simp only [random_point_in_box, script, e1, e2, hp]
  exact (share_spec (h p (List.mem_of_getElem? hp) c)).2.2

/-- If the stream proposes clear beads one dumbbell after the other, they are accepted. -/
theorem placeDumbbells_script {w : ℕ → ℝ} {A : DumbArgs} {fuel D : ℕ} (bs : List (Vec3 × Vec3))
    (rest : List ℝ) (i k : ℕ) (beads : List Vec3) (out : List (Vec3 × Vec3)) (hl : bs.length = rest.length)
    (hw : ∀ (m : ℕ) d, bs[m]? = some d → random_point_in_box w (k + D * m) A.bl A.tr = d.1 ∧
      A.inBox d.2 = true ∧ ∃ th ph, drawAngles w A.theta A.phi (k + D * m + 3) = (th, ph, k + D * (m + 1)) ∧
        bead2At d.1 A.dx th ph = d.2)
    (hv : ∀ (m : ℕ) d a, bs[m]? = some d → rest[m]? = some a →
      Clear A (beads ++ beadList bs) (i + m) a d.1 ∧ Clear A (beads ++ beadList bs) (i + m) a d.2)
    (hb : beads.length = 2 * i) :
    placeDumbbells (fuel + 1) w A rest i beads out k = .ok
      (out ++ bs.map (fun d => (fun c => 0.5 * (d.1 c + d.2 c), fun c => d.2 c - d.1 c)),
        k + D * bs.length) := by
  induction rest generalizing bs i k beads out with
  | nil =>
    obtain rfl := List.length_eq_zero_iff.1 hl
    simp [placeDumbbells, pure, Except.pure]
  | cons a rest ih =>
    obtain ⟨⟨b1, b2⟩, bs, rfl⟩ := List.exists_cons_of_length_eq_add_one hl
    rw [placeDumbbells]
    obtain ⟨w1, w2, th, ph, w3, w4⟩ := hw 0 (b1, b2) rfl
    obtain ⟨v1, v2⟩ := hv 0 (b1, b2) a rfl rfl
    have low : ∀ {p : Vec3}, Clear A (beads ++ beadList ((b1, b2) :: bs)) (i + 0) a p → Clear A beads i a p := by
      intro p hc
      refine ⟨hc.spheres, fun j hj => ?_⟩
      obtain ⟨q, b, q1, q2, q3⟩ := hc.beads j (by omega)
      rw [List.getElem?_append_left (by omega)] at q1
      exact ⟨q, b, q1, q2, q3⟩
    refine bind_ok.2 ⟨_, proposeDumbbell_first (by simpa using w1) (by simpa using w3) w4 (low v1) w2 (low v2), ?_⟩
    dsimp only
    rw [ih bs (i + 1) (k + D) (beads ++ [b1, b2]) _ (by simpa using hl) (fun m d hd => ?_)
      (fun m d b hd hb => ?_) (by simp; omega)]
    · rw [List.append_assoc, List.map_cons, List.singleton_append, List.length_cons]
      congr 2; ring
    · have := hw (m + 1) d (by simpa using hd)
      rw [show k + D * (m + 1) = k + D + D * m by ring,
        show k + D * (m + 1 + 1) = k + D + D * (m + 1) by ring] at this
      exact this
    · have := hv (m + 1) d b (by simpa using hd) (by simpa using hb)
      rw [show i + (m + 1) = i + 1 + m by ring] at this
      simpa [beadList] using this

end SD
