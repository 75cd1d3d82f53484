import Verif.Spec.Moved

/-!
# Specification: when a simulation keeps going
-/

set_option autoImplicit false

namespace SD.Spec

/-- What the solver needs at a configuration: spheres outside each other, covered by the tables, and complete inputs
without a periodic box. With dumbbells but no spheres there has to be a strain in the inputs. -/
structure Ready (W : World) (S : Settings) (c : Config) : Prop where
  sensible : Sensible c.P
  separate : Separate c.P
  tabulated : Tabulated W.table.lam c.P S.cutoff_factor
  allowed : formAllowed S.input_form c.P.Ns
  beads : S.bead_bead_interactions = true ∨ c.P.Nd = 0
  answers : ∀ f dt v r, ∃ u, W.input_ftsuoe c f dt v r = some u ∧ Sized c.P.Ns c.P.Nd u.inp ∧
    Complete S.input_form c.P.Ns c.P.Nd u.inp ∧ 0 < u.mu ∧ u.bl = u.tr ∧
    (c.P.Ns = 0 → 0 < c.P.Nd → u.inp.Ea ≠ [])

/-- The same particles, perhaps elsewhere. -/
structure SameSizes (c d : Config) : Prop where
  Ns : d.P.Ns = c.P.Ns
  Nd : d.P.Nd = c.P.Nd
  spheres : d.P.sphereSize = c.P.sphereSize
  dumbs : d.P.dumbSize = c.P.dumbSize

/-- Two beads are closer than 2.001 average radii. -/
def Touching (P : PosData) : Prop :=
  ∃ x < SD.Spec.beads P, ∃ y < SD.Spec.beads P, x ≠ y ∧
    len (fun i => centre P x i - centre P y i) < 2.001 * ((radius P x + radius P y) / 2)

/-- The particles and inputs are in order wherever the particles are: radii above the tolerance of the code, all
size ratios tabulated, an input form that fits, and a complete answer of the input function for every
configuration in which no beads touch. -/
structure Steady (W : World) (S : Settings) (c : Config) : Prop where
  radii : ∀ x < beads c.P, 1 / 10 ^ 8 < radius c.P x
  ratios : ∀ x < beads c.P, ∀ y < beads c.P, ∃ t ∈ W.table.lam,
    |t - radius c.P y / radius c.P x| ≤ 1 / 10 ^ 8 + 1 / 10 ^ 5 * |radius c.P y / radius c.P x|
  allowed : formAllowed S.input_form c.P.Ns
  beads : S.bead_bead_interactions = true ∨ c.P.Nd = 0
  answers : ∀ d, SameSizes c d → ¬ Touching d.P → ∀ f dt v r, ∃ u, W.input_ftsuoe d f dt v r = some u ∧
    Sized c.P.Ns c.P.Nd u.inp ∧
    Complete S.input_form c.P.Ns c.P.Nd u.inp ∧ 0 < u.mu ∧ u.bl = u.tr ∧
    (c.P.Ns = 0 → 0 < c.P.Nd → u.inp.Ea ≠ [])

/-- The orientation arrows of the spheres have a direction. -/
def Arrows (c : Config) : Prop := ∀ i < c.P.Ns, ∀ j, c.rots i j ≠ c.P.spherePos i

/-- The settings that a run needs: a known scheme (Adams-Bashforth only without dumbbells), intervals that
are not zero, everything saved from the first frame on. -/
structure Runnable (S : Settings) (Nd : ℕ) : Prop where
  scheme : S.scheme = .euler ∨ (S.scheme = .ab2 ∧ Nd = 0) ∨ S.scheme = .rk4
  extract : S.extract = false
  cutoff : 0 < S.cutoff_factor
  every : S.invert_m_every ≠ 0
  start : S.start = 0
  first : S.start_saving = 0
  pos : 0 < S.save_positions_every
  force : 0 < S.save_forces_every
  temp : 0 < S.save_to_temp_every

/-- The configurations inside a Runge-Kutta frame: half a step with the first velocities, half a step with the
second, a whole step with the third. -/
def Inner (W : World) (S : Settings) (bl tr : Vec3) (f : ℕ) (c : Config) (lv : Vel) (cache : NDMat) (reg : Bool)
    (d : Config) : Prop :=
  ∃ st1 v1 p1, generate_output_FTSUOE W S c f cache reg lv = some st1 ∧ stageVel c st1 st1.out.Ea = some v1 ∧
    rk4Move S bl tr c st1 v1 (S.timestep / 2) false = some p1 ∧ (d = p1.1 ∨
  ∃ st2 v2 p2, generate_output_FTSUOE W S p1.1 (f + 0.5) st1.cache (reg && S.rk4_each_stage) lv = some st2 ∧
    stageVel c st2 st1.out.Ea = some v2 ∧ rk4Move S bl tr c st2 v2 (S.timestep / 2) p1.2 = some p2 ∧ (d = p2.1 ∨
  ∃ st3 v3 p3, generate_output_FTSUOE W S p2.1 (f + 0.5) st1.cache (reg && S.rk4_each_stage) lv = some st3 ∧
    stageVel c st3 st3.out.Ea = some v3 ∧ rk4Move S bl tr c st3 v3 S.timestep p2.2 = some p3 ∧ d = p3.1))

/-- The configurations of frame `f` from the state `s`. -/
def Visits (W : World) (S : Settings) (bl tr : Vec3) (f : ℕ) (s : State) (d : Config) : Prop :=
  d = s.posdata ∨ S.scheme = .rk4 ∧
    Inner W S bl tr f s.posdata (if f = 0 ∨ f = S.start then Vel.blank else s.lastVel)
      (if f % S.invert_m_every = 0 ∨ f = S.start then NDMat.zeros 1 1 else s.cache)
      (decide (f % S.invert_m_every = 0 ∨ f = S.start)) d

end SD.Spec
