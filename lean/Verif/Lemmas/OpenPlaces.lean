import Verif.Lemmas.FlowLip

/-!
# Places near places that are neither touching nor at the range
-/

set_option autoImplicit false

namespace SD.Lip

open Spec Filter Topology Set Nearby

section
variable {S : Settings} {c : Config}

theorem gaps_eventually (hd : c.P.Nd = 0) {d0 : Locs c} {p : ℕ → ℕ → ℝ → Prop}
    (h : ∀ x < beads d0.1.P, ∀ y < beads d0.1.P, x ≠ y →
      ∀ᶠ r in 𝓝 (len fun i => centre d0.1.P x i - centre d0.1.P y i), p x y r) :
    ∀ᶠ d : Locs c in 𝓝 d0, ∀ x < beads d.1.P, ∀ y < beads d.1.P, x ≠ y → p x y (len fun i => centre d.1.P x i - centre d.1.P y i) := by
  have hA : Places (fun d : Locs c => d.1.P) d0 := locs_places (f := fun d => d) hd (LL.id d0)
  have key : ∀ x < beads d0.1.P, ∀ y < beads d0.1.P, ∀ᶠ d : Locs c in 𝓝 d0, x ≠ y →
      p x y (len fun i => centre d.1.P x i - centre d.1.P y i) := by
    intro x hx y hy
    by_cases hxy : x = y
    · exact Eventually.of_forall fun _ h => absurd hxy h
    have h1 := len_tendsto (gap_tendsto hA.approaches hx hy)
    exact (h1.eventually (h x hx y hy hxy)).mono fun _ h _ => h
  have all : ∀ᶠ d : Locs c in 𝓝 d0, ∀ x : Fin (beads d0.1.P), ∀ y : Fin (beads d0.1.P), x.1 ≠ y.1 →
      p x y (len fun i => centre d.1.P x i - centre d.1.P y i) :=
    eventually_all.mpr fun x => eventually_all.mpr fun y => key x x.2 y y.2
  filter_upwards [all] with d hd' x hx y hy hxy
  have e := same_count hA.approaches d
  exact hd' ⟨x, by rw [← e]; exact hx⟩ ⟨y, by rw [← e]; exact hy⟩ hxy

theorem clear_open (hd : c.P.Nd = 0) {d0 : Locs c} (h : Loose d0.1.P) : ∀ᶠ d in 𝓝 d0, Loose d.1.P := by
  refine (gaps_eventually hd (p := fun x y r => 2.001 * ((radius d0.1.P x + radius d0.1.P y) / 2) < r)
    fun x hx y hy hxy => lt_mem_nhds (h x hx y hy hxy)).mono fun d hd' x hx y hy hxy => ?_
  rw [(same_beads d.2).2, ← (same_beads d0.2).2]
  exact hd' x hx y hy hxy

theorem range_open (hd : c.P.Nd = 0) {d0 : Locs c} {k : ℝ} (h : ¬ AtRange k d0.1.P) : ∀ᶠ d in 𝓝 d0, ¬ AtRange k d.1.P := by
  refine (gaps_eventually hd (p := fun x y r => r ≠ 2 * k * ((radius d0.1.P x + radius d0.1.P y) / 2))
    fun x hx y hy hxy => isOpen_ne.mem_nhds fun e => h ⟨x, hx, y, hy, hxy, e⟩).mono ?_
  rintro d hd' ⟨x, hx, y, hy, hxy, e⟩
  rw [(same_beads d.2).2, ← (same_beads d0.2).2] at e
  exact hd' x hx y hy hxy e

/-- The configuration is neither touching nor at the range. -/
def Off (S : Settings) (P : PosData) : Prop := Loose P ∧ (S.use_Minfinity_only = false → ¬ AtRange S.cutoff_factor P)

theorem off_open (hd : c.P.Nd = 0) {d0 : Locs c} (h : Off S d0.1.P) : ∀ᶠ d in 𝓝 d0, Off S d.1.P := by
  cases e : S.use_Minfinity_only
  · filter_upwards [clear_open hd h.1, range_open hd (h.2 e)] with d h1 h2
    exact ⟨h1, fun _ => h2⟩
  · filter_upwards [clear_open hd h.1] with d h1
    exact ⟨h1, fun h => by simp [e] at h⟩

theorem loose_apart {P : PosData} (h : Loose P) : ¬ Touching P := by
  rintro ⟨x, hx, y, hy, hxy, hl⟩
  exact absurd hl (not_lt.mpr (h x hx y hy hxy).le)

end

end SD.Lip
