import Verif.Lemmas.UflDriver

/-! Steps and loop of Newton's method in `nitsche_ufl` and `nitsche_rigid_surface`. -/

namespace Verif.UflDriver

open Finset Verif.OneSided Verif.Snes Verif.Scalars Verif.Lemmas Spec

noncomputable section

variable {P : Params} {M : Mesh} {Q : Quad} {S : Support} {Fm : Forms} {o : Options} {lin : LinSolver}

/-! ### one step -/

/-- Distance of a dof to its prescribed value. -/
def off (Fm : Forms) (x : ℕ → ℝ) (c : ℕ) : ℝ := match Fm.bc c with
  | some g => x c - g
  | none => 0

/-- The dofs without prescribed value. -/
def free (P : Params) (M : Mesh) (Fm : Forms) : Finset ℕ := (range (numDofs P M)).filter (fun d => Fm.bc d = none)

theorem mem_free {d : ℕ} : d ∈ free P M Fm ↔ d < numDofs P M ∧ Fm.bc d = none := by
  unfold free; rw [mem_filter, mem_range]

theorem residual_free (hf : Fits P M Q S Fm) (x : ℕ → ℝ) {d : ℕ} (hd : d < numDofs P M) (hb : Fm.bc d = none) :
    residual P M Fm x d = (system P M Q S).res x d
      - ∑ c ∈ range (numDofs P M), (system P M Q S).mat x d c * off Fm x c := by
  unfold residual
  rw [hb]
  simp only
  rw [hf.F x d hd, system_res hf.dim]
  have key : ∀ f : ℕ → ℝ, (∀ c ∈ range (numDofs P M), f c = -((system P M Q S).mat x d c * off Fm x c)) →
      totalWork P M Q S (byNode P x) (unitDof P d) - (-1.0) * ∑ c ∈ range (numDofs P M), f c
        = totalWork P M Q S (byNode P x) (unitDof P d) - ∑ c ∈ range (numDofs P M), (system P M Q S).mat x d c * off Fm x c := by
    intro f h
    rw [sum_congr rfl h, sum_neg_distrib]
    norm_num
  refine key _ (fun c hc => ?_)
  unfold off tangent
  cases Fm.bc c with
  | none => simp
  | some g => simp only; rw [hf.J x d hd c (mem_range.mp hc), system_mat hf.dim]; ring

/-- The linear system of a Newton step. -/
theorem step_iff (hf : Fits P M Q S Fm) (x dx : ℕ → ℝ) :
    (∀ d < numDofs P M, ∑ c ∈ range (numDofs P M), jacobian P M Fm x d c * dx c = residual P M Fm x d)
      ↔ (∀ d < numDofs P M, ∀ g, Fm.bc d = some g → dx d = x d - g)
        ∧ ∀ d ∈ free P M Fm, ∑ c ∈ range (numDofs P M), (system P M Q S).mat x d c * dx c = (system P M Q S).res x d := by
  have hbc : ∀ d < numDofs P M, ∀ g, Fm.bc d = some g →
      ((∑ c ∈ range (numDofs P M), jacobian P M Fm x d c * dx c = residual P M Fm x d) ↔ dx d = x d - g) := by
    intro d hd g hg
    have e1 : ∑ c ∈ range (numDofs P M), jacobian P M Fm x d c * dx c = dx d := by
      rw [sum_eq_single d]
      · unfold jacobian; rw [if_neg (by simp [hg]), if_pos rfl]; norm_num
      · intro c _ hc
        unfold jacobian; rw [if_neg (by simp [hg]), if_neg (Ne.symm hc)]; norm_num
      · intro h; exact absurd (mem_range.mpr hd) h
    have e2 : residual P M Fm x d = x d - g := by
      unfold residual; rw [hg]; norm_num
    rw [e1, e2]
  have hfr : (∀ d < numDofs P M, ∀ g, Fm.bc d = some g → dx d = x d - g) → ∀ d ∈ free P M Fm,
      ((∑ c ∈ range (numDofs P M), jacobian P M Fm x d c * dx c = residual P M Fm x d)
        ↔ ∑ c ∈ range (numDofs P M), (system P M Q S).mat x d c * dx c = (system P M Q S).res x d) := by
    intro h d hd
    obtain ⟨hd, hb⟩ := mem_free.mp hd
    rw [residual_free hf x hd hb]
    have e : ∑ c ∈ range (numDofs P M), jacobian P M Fm x d c * dx c
        = ∑ c ∈ range (numDofs P M), (system P M Q S).mat x d c * dx c
          - ∑ c ∈ range (numDofs P M), (system P M Q S).mat x d c * off Fm x c := by
      rw [← sum_sub_distrib]
      refine sum_congr rfl (fun c hc => ?_)
      have hc := mem_range.mp hc
      unfold jacobian off
      cases hcb : Fm.bc c with
      | none =>
        rw [if_pos ⟨hb, rfl⟩]
        unfold tangent
        simp only
        rw [hf.J x d hd c hc, system_mat hf.dim]; ring
      | some g =>
        rw [if_neg (by simp), if_neg (by rintro rfl; rw [hb] at hcb; cases hcb), h c hc g hcb]
        simp only
        norm_num
    rw [e]
    constructor <;> intro h <;> linarith
  constructor
  · intro h
    have h1 : ∀ d < numDofs P M, ∀ g, Fm.bc d = some g → dx d = x d - g := fun d hd g hg => (hbc d hd g hg).mp (h d hd)
    exact ⟨h1, fun d hd => (hfr h1 d hd).mp (h d (mem_free.mp hd).1)⟩
  · rintro ⟨h1, h2⟩ d hd
    cases hb : Fm.bc d with
    | none => exact (hfr h1 d (mem_free.mpr ⟨hd, hb⟩)).mpr (h2 d (mem_free.mpr ⟨hd, hb⟩))
    | some g => exact (hbc d hd g hb).mpr (h1 d hd g hb)

/-! ### positive definite matrices -/

theorem admissible_of (hf : Fits P M Q S Fm) {v : ℕ → ℝ} (h : ∀ d, d ∉ free P M Fm → v d = 0) : Virtual P S (byNode P v) := by
  intro a ha i hi
  refine h _ (fun hm => ?_)
  have := (mem_free.mp hm).2
  rw [hf.bc a i hi] at this
  cases hfa : S.fixed a with
  | none => exact ha hfa
  | some g => rw [hfa] at this; cases this

theorem admissible_iff (hf : Fits P M Q S Fm) {v : ℕ → ℕ → ℝ} (h : Virtual P S v) {d : ℕ} {g : ℝ}
    (hb : Fm.bc d = some g) : v (d / P.dim) (d % P.dim) = 0 := by
  have hm := Nat.mod_lt d hf.dim
  refine h _ (fun hn => ?_) _ hm
  have := hf.bc (d / P.dim) (d % P.dim) hm
  rw [Nat.div_add_mod, hn, hb] at this
  cases this

theorem lower_pos (hf : Fits P M Q S Fm) (hst : Stiff P M Q S) (v : ℕ → ℝ) (h0 : ∀ d, d ∉ free P M Fm → v d = 0)
    (hne : ∃ d, v d ≠ 0) :
    0 < ∑ d ∈ range (numDofs P M), ∑ c ∈ range (numDofs P M), v d * lower P M Q S d c * v c := by
  rw [lower_quad hf.dim]
  obtain ⟨d, hd⟩ := hne
  have hm : d ∈ free P M Fm := by
    by_contra h; exact hd (h0 d h)
  have := hst (byNode P v) (admissible_of hf h0) ⟨d / P.dim, div_lt (mem_free.mp hm).1, d % P.dim, Nat.mod_lt d hf.dim, by
    unfold byNode; rwa [Nat.div_add_mod]⟩
  linarith

theorem mat_pos (hf : Fits P M Q S Fm) (hs : Sound Q S) (hst : Stiff P M Q S) (x v : ℕ → ℝ)
    (h0 : ∀ d, d ∉ free P M Fm → v d = 0) (hne : ∃ d, v d ≠ 0) :
    0 < ∑ d ∈ range (numDofs P M), ∑ c ∈ range (numDofs P M), v d * (system P M Q S).mat x d c * v c :=
  (lower_pos hf hst v h0 hne).trans_le (lower_le hf.dim hs _ (fun _ => PL.slope_range _) v)

/-- The linear systems have exactly one solution. -/
theorem step_solvable (hf : Fits P M Q S Fm) (hs : Sound Q S) (hst : Stiff P M Q S) (x : ℕ → ℝ) :
    ∃ dx : ℕ → ℝ, ∀ y : ℕ → ℝ,
      (∀ d < numDofs P M, ∑ c ∈ range (numDofs P M), jacobian P M Fm x d c * y c = residual P M Fm x d)
        ↔ ∀ d < numDofs P M, y d = dx d := by
  obtain ⟨dx, ⟨h1, h2⟩, huniq⟩ := posdef_solvable (N := numDofs P M) (F := free P M Fm) (fun d hd => (mem_free.mp hd).1)
    ((system P M Q S).mat x) (mat_pos hf hs hst x) ((system P M Q S).res x)
    (fun d => if d < numDofs P M then off Fm x d else 0)
  have hdx : ∀ d < numDofs P M, ∀ g, Fm.bc d = some g → dx d = x d - g := by
    intro d hd g hg
    rw [h1 d (fun hm => by have := (mem_free.mp hm).2; rw [hg] at this; cases this), if_pos hd]
    unfold off; rw [hg]
  refine ⟨dx, fun y => ?_⟩
  rw [step_iff hf]
  constructor
  · rintro ⟨hy1, hy2⟩ d hd
    have hcong : ∀ e, ∑ c ∈ range (numDofs P M), (system P M Q S).mat x e c * (if c < numDofs P M then y c else 0)
        = ∑ c ∈ range (numDofs P M), (system P M Q S).mat x e c * y c :=
      fun e => sum_congr rfl (fun c hc => by rw [if_pos (mem_range.mp hc)])
    have := huniq (fun c => if c < numDofs P M then y c else 0) ⟨?_, ?_⟩
    · have := congrFun this d
      rwa [if_pos hd] at this
    · intro e he
      change (if e < numDofs P M then y e else 0) = if e < numDofs P M then off Fm x e else 0
      by_cases hN : e < numDofs P M
      · rw [if_pos hN, if_pos hN]
        cases hb : Fm.bc e with
        | none => exact absurd (mem_free.mpr ⟨hN, hb⟩) he
        | some g => rw [hy1 e hN g hb]; unfold off; rw [hb]
      · rw [if_neg hN, if_neg hN]
    · intro e he
      rw [hcong, hy2 e he]
  · intro hy
    refine ⟨fun d hd g hg => by rw [hy d hd, hdx d hd g hg], fun d hd => ?_⟩
    rw [← h2 d hd]
    exact sum_congr rfl (fun c hc => by rw [hy c (mem_range.mp hc)])

/-! ### equilibrium -/

theorem total_expand (hd : 0 < P.dim) (u : ℕ → ℝ) (v : ℕ → ℝ) :
    totalWork P M Q S (byNode P u) (byNode P v) = ∑ d ∈ range (numDofs P M), v d * (system P M Q S).res u d := by
  refine (lin_total' hd (byNode P u) v).trans (sum_congr rfl (fun d _ => ?_))
  rw [system_res hd]

theorem tangent_expand (hd : 0 < P.dim) (u w v : ℕ → ℝ) :
    totalTangent P M Q S (byNode P u) (byNode P w) (byNode P v)
      = ∑ d ∈ range (numDofs P M), v d * ∑ c ∈ range (numDofs P M), (system P M Q S).mat u d c * w c := by
  have h1 : ∀ v, Lin (numDofs P M) (fun w => totalTangent P M Q S (byNode P u) (byNode P w) v) := fun v =>
    (lin_linWork hd v).add (Lin.quad _ _ (fun k _ => (((lin_normalStress hd k).sub
      ((lin_normalMove hd k).const_mul _)).const_mul _).mul_const _))
  have h2 : Lin (numDofs P M) (fun v => totalTangent P M Q S (byNode P u) (byNode P w) (byNode P v)) :=
    (lin_linWork' hd _).add (Lin.quad _ _ (fun k _ => (((lin_normalStress hd k).const_mul _).sub
      ((lin_normalMove hd k).const_mul _)).const_mul _))
  refine (h2 v).trans (sum_congr rfl (fun d _ => congrArg (v d * ·) ?_))
  refine (h1 _ w).trans (sum_congr rfl (fun c _ => ?_))
  simp only
  rw [system_mat hd, mul_comm]

/-- The dofs of a displacement given by node. -/
def flat (P : Params) (u : ℕ → ℕ → ℝ) (d : ℕ) : ℝ := u (d / P.dim) (d % P.dim)

theorem byNode_flat (u : ℕ → ℕ → ℝ) {a i : ℕ} (hi : i < P.dim) : byNode P (flat P u) a i = u a i := by
  have hd : 0 < P.dim := by omega
  unfold byNode flat
  rw [Nat.mul_add_div hd, Nat.div_eq_of_lt hi, Nat.mul_add_mod, Nat.mod_eq_of_lt hi, add_zero]

theorem grad_congr {u w : ℕ → ℕ → ℝ} (h : ∀ a < M.numNodes, ∀ i < P.dim, u a i = w a i) (k j : ℕ) {i : ℕ} (hi : i < P.dim) :
    nodalGrad M u k i j = nodalGrad M w k i j :=
  sum_congr rfl (fun a ha => by rw [h a (mem_range.mp ha) i hi])

theorem value_congr {u w : ℕ → ℕ → ℝ} (h : ∀ a < M.numNodes, ∀ i < P.dim, u a i = w a i) (k : ℕ) {i : ℕ} (hi : i < P.dim) :
    nodalValue M u k i = nodalValue M w k i :=
  sum_congr rfl (fun a ha => by rw [h a (mem_range.mp ha) i hi])

theorem traction_congr {u w : ℕ → ℕ → ℝ} (h : ∀ a < M.numNodes, ∀ i < P.dim, u a i = w a i) (k : ℕ) {i : ℕ} (hi : i < P.dim) :
    tractionAt P M Q u k i = tractionAt P M Q w k i :=
  traction_agree (v := valOf M u k) (w := valOf M w k) (fun i hi => ⟨value_congr h k hi, fun j => grad_congr h k j hi⟩) _ hi

theorem stress_congr (hd : 0 < P.dim) {u w : ℕ → ℕ → ℝ} (h : ∀ a < M.numNodes, ∀ i < P.dim, u a i = w a i) (k : ℕ) :
    normalStress P M Q u k = normalStress P M Q w k := by
  unfold normalStress approach; rw [traction_congr h k (by omega)]

theorem move_congr (hd : 0 < P.dim) {u w : ℕ → ℕ → ℝ} (h : ∀ a < M.numNodes, ∀ i < P.dim, u a i = w a i) (k : ℕ) :
    normalMove P M u k = normalMove P M w k := by
  unfold normalMove approach; rw [value_congr h k (by omega)]

theorem pressed_congr (hd : 0 < P.dim) {u w : ℕ → ℕ → ℝ} (h : ∀ a < M.numNodes, ∀ i < P.dim, u a i = w a i) (k : ℕ) :
    pressed P M Q S u k = pressed P M Q S w k := by
  unfold pressed; rw [stress_congr hd h, move_congr hd h]

theorem inner_congr {u w v z : ℕ → ℕ → ℝ} (h : ∀ a < M.numNodes, ∀ i < P.dim, u a i = w a i)
    (h' : ∀ a < M.numNodes, ∀ i < P.dim, v a i = z a i) : innerWork P M Q u v = innerWork P M Q w z := by
  unfold innerWork
  refine congrArg _ (funext fun k => ?_)
  refine sum_congr rfl (fun i hi => sum_congr rfl (fun j hj => ?_))
  have e : stress P.dim (shearModulus P.E P.nu) (lameFirst P.planeStrain P.E P.nu) (nodalGrad M u k) i j
      = stress P.dim (shearModulus P.E P.nu) (lameFirst P.planeStrain P.E P.nu) (nodalGrad M w k) i j :=
    stress_agree (v := valOf M u k) (w := valOf M w k) (fun i hi => ⟨value_congr h k hi, fun j => grad_congr h k j hi⟩)
      (mem_range.mp hi) (mem_range.mp hj)
  rw [e]
  unfold strain
  rw [grad_congr h' k j (mem_range.mp hi), grad_congr h' k i (mem_range.mp hj)]

theorem held_congr (c : ℝ) {u w v z : ℕ → ℕ → ℝ} (h : ∀ a < M.numNodes, ∀ i < P.dim, u a i = w a i)
    (h' : ∀ a < M.numNodes, ∀ i < P.dim, v a i = z a i) : heldWork P M Q S c u v = heldWork P M Q S c w z := by
  unfold heldWork
  refine congrArg List.sum (List.map_congr_left (fun g _ => congrArg _ (funext fun k => ?_)))
  have e1 : ∑ i ∈ range P.dim, tractionAt P M Q u k i * nodalValue M v k i
      = ∑ i ∈ range P.dim, tractionAt P M Q w k i * nodalValue M z k i :=
    sum_congr rfl (fun i hi => by rw [traction_congr h k (mem_range.mp hi), value_congr h' k (mem_range.mp hi)])
  have e2 : ∑ i ∈ range P.dim, tractionAt P M Q v k i * (nodalValue M u k i - c * g.2 i)
      = ∑ i ∈ range P.dim, tractionAt P M Q z k i * (nodalValue M w k i - c * g.2 i) :=
    sum_congr rfl (fun i hi => by rw [traction_congr h' k (mem_range.mp hi), value_congr h k (mem_range.mp hi)])
  have e3 : ∑ i ∈ range P.dim, (nodalValue M u k i - c * g.2 i) * nodalValue M v k i
      = ∑ i ∈ range P.dim, (nodalValue M w k i - c * g.2 i) * nodalValue M z k i :=
    sum_congr rfl (fun i hi => by rw [value_congr h k (mem_range.mp hi), value_congr h' k (mem_range.mp hi)])
  rw [e1, e2, e3]

theorem total_congr (hd : 0 < P.dim) {u w v z : ℕ → ℕ → ℝ} (h : ∀ a < M.numNodes, ∀ i < P.dim, u a i = w a i)
    (h' : ∀ a < M.numNodes, ∀ i < P.dim, v a i = z a i) : totalWork P M Q S u v = totalWork P M Q S w z := by
  unfold totalWork obstacleWork
  rw [inner_congr h h', held_congr 1 h h']
  simp only [stress_congr hd h, stress_congr hd h', pressed_congr hd h, move_congr hd h']

theorem linearised_eq (u w v : ℕ → ℕ → ℝ) : linearisedWork P M Q S u w v = totalTangent P M Q S u w v := by
  unfold linearisedWork totalTangent linWork PL.slope
  rw [quadSum_add, add_assoc]
  ring

theorem linearised_congr (hd : 0 < P.dim) (u : ℕ → ℕ → ℝ) {w y v z : ℕ → ℕ → ℝ} (h : ∀ a < M.numNodes, ∀ i < P.dim, w a i = y a i)
    (h' : ∀ a < M.numNodes, ∀ i < P.dim, v a i = z a i) : linearisedWork P M Q S u w v = linearisedWork P M Q S u y z := by
  unfold linearisedWork
  rw [inner_congr h h', held_congr 0 h h']
  simp only [stress_congr hd h, stress_congr hd h', move_congr hd h, move_congr hd h']

/-- AtRest in terms of the dofs. -/
theorem equilibrium_iff (hf : Fits P M Q S Fm) (u : ℕ → ℝ) : AtRest P M Q S (byNode P u)
    ↔ (∀ d < numDofs P M, ∀ g, Fm.bc d = some g → u d = g) ∧ ∀ d ∈ free P M Fm, (system P M Q S).res u d = 0 := by
  have hdof : ∀ d, P.dim * (d / P.dim) + d % P.dim = d := fun d => Nat.div_add_mod d P.dim
  constructor
  · rintro ⟨h1, h2⟩
    refine ⟨fun d hd g hg => ?_, fun d hd => ?_⟩
    · have hm := Nat.mod_lt d hf.dim
      have hb := hf.bc (d / P.dim) (d % P.dim) hm
      rw [hdof, hg] at hb
      cases hfa : S.fixed (d / P.dim) with
      | none => rw [hfa] at hb; cases hb
      | some f =>
        rw [hfa] at hb
        have := h1 (d / P.dim) (div_lt hd) f hfa (d % P.dim) hm
        unfold byNode at this
        rw [hdof] at this
        rw [this]
        exact (Option.some.inj hb).symm
    · have := h2 (unitDof P d) (admissible_of hf (fun e he => by
        rw [Pi.single_apply, if_neg]; rintro rfl; exact he hd))
      rwa [← system_res hf.dim] at this
  · rintro ⟨h1, h2⟩
    refine ⟨fun a ha g hg i hi => ?_, fun v hv => ?_⟩
    · exact h1 _ (dof_lt ha hi) _ (by rw [hf.bc a i hi, hg]; rfl)
    · rw [← total_congr hf.dim (fun _ _ _ _ => rfl) (fun a _ i hi => byNode_flat v hi), total_expand hf.dim]
      refine sum_eq_zero (fun d hd => ?_)
      cases hb : Fm.bc d with
      | none => rw [h2 d (mem_free.mpr ⟨mem_range.mp hd, hb⟩), mul_zero]
      | some g => unfold flat; rw [admissible_iff hf hv hb, zero_mul]

/-! ### norms -/

theorem norm2_nonneg (N : ℕ) (v : ℕ → ℝ) : 0 ≤ norm2 N v := Real.sqrt_nonneg _

theorem le_norm2 {N : ℕ} (v : ℕ → ℝ) {d : ℕ} (hd : d < N) : |v d| ≤ norm2 N v := by
  unfold norm2
  rw [← Real.sqrt_sq_eq_abs]
  exact Real.sqrt_le_sqrt (single_le_sum (f := fun d => v d ^ 2) (fun _ _ => sq_nonneg _) (mem_range.mpr hd))

theorem norm2_smul (N : ℕ) (c : ℝ) (v : ℕ → ℝ) : norm2 N (fun d => c * v d) = |c| * norm2 N v := by
  unfold norm2
  have : ∑ d ∈ range N, (c * v d) ^ 2 = c ^ 2 * ∑ d ∈ range N, v d ^ 2 := by
    rw [mul_sum]; exact sum_congr rfl (fun d _ => by ring)
  rw [this, Real.sqrt_mul (sq_nonneg c), Real.sqrt_sq_eq_abs]

theorem norm2_congr {N : ℕ} {v w : ℕ → ℝ} (h : ∀ d < N, v d = w d) : norm2 N v = norm2 N w := by
  unfold norm2
  rw [sum_congr rfl (fun d hd => by rw [h d (mem_range.mp hd)])]

theorem size_eq (v : ℕ → ℝ) : nodalSize P M (byNode P v) = norm2 (numDofs P M) v := by
  unfold nodalSize norm2 byNode numDofs
  rw [← Coefficients.sum_mul_range]
  refine congrArg _ (sum_congr rfl (fun a _ => sum_congr rfl (fun i _ => ?_)))
  rw [mul_comm]

theorem size_congr {u v : ℕ → ℕ → ℝ} (h : ∀ a < M.numNodes, ∀ i < P.dim, u a i = v a i) : nodalSize P M u = nodalSize P M v := by
  unfold nodalSize
  rw [sum_congr rfl (fun a ha => sum_congr rfl (fun i hi => by rw [h a (mem_range.mp ha) i (mem_range.mp hi)]))]

theorem norm2_triangle (N : ℕ) (v w : ℕ → ℝ) : norm2 N (fun d => v d + w d) ≤ norm2 N v + norm2 N w := by
  have key : ∀ v : ℕ → ℝ, norm2 N v = ‖(WithLp.toLp 2 (fun d : Fin N => v d) : EuclideanSpace ℝ (Fin N))‖ := by
    intro v
    rw [EuclideanSpace.norm_eq]
    unfold norm2
    rw [← Fin.sum_univ_eq_sum_range (fun d => v d ^ 2) N]
    simp
  rw [key, key, key]
  exact norm_add_le (WithLp.toLp 2 (fun d : Fin N => v d) : EuclideanSpace ℝ (Fin N)) (WithLp.toLp 2 (fun d : Fin N => w d))

theorem sum_le_norm2 (N : ℕ) (v r : ℕ → ℝ) {b : ℝ} (hr : ∀ d < N, v d ≠ 0 → |r d| ≤ b) (hb : 0 ≤ b) :
    |∑ d ∈ range N, v d * r d| ≤ N * b * norm2 N v := by
  refine (abs_sum_le_sum_abs _ _).trans ?_
  have : ∀ d ∈ range N, |v d * r d| ≤ norm2 N v * b := by
    intro d hd
    rw [abs_mul]
    by_cases h0 : v d = 0
    · rw [h0, abs_zero, zero_mul]; exact mul_nonneg (norm2_nonneg _ _) hb
    · exact mul_le_mul (le_norm2 v (mem_range.mp hd)) (hr d (mem_range.mp hd) h0) (abs_nonneg _) (norm2_nonneg _ _)
  refine (sum_le_sum this).trans_eq ?_
  rw [sum_const, card_range, nsmul_eq_mul]; ring

/-! ### the loop -/

/-- The test after an iteration. -/
def Done (P : Params) (M : Mesh) (Fm : Forms) (o : Options) (it : ℕ) (r0 : ℝ) (dx x : ℕ → ℝ) : Prop :=
  if o.criterion = "residual" then converged o r0 (norm2 (numDofs P M) (residual P M Fm x))
  else it ≠ 0 ∧ converged o r0 (norm2 (numDofs P M) dx)

theorem loop_done {fuel it : ℕ} {r0 : ℝ} {x dx : ℕ → ℝ} (h : lin (jacobian P M Fm x) (residual P M Fm x) = some dx)
    (hd : Done P M Fm o it (if it = 0 then norm2 (numDofs P M) dx else r0) dx (fun d => x d - o.relaxation * dx d)) :
    newtonLoop P M Fm o lin (fuel + 1) it r0 x = .ok (it + 1, true, fun d => x d - o.relaxation * dx d) := by
  unfold newtonLoop
  rw [h]
  simp only
  rw [if_pos]
  unfold Done at hd
  simpa using hd

theorem loop_next {fuel it : ℕ} {r0 : ℝ} {x dx : ℕ → ℝ} (h : lin (jacobian P M Fm x) (residual P M Fm x) = some dx)
    (hd : ¬ Done P M Fm o it (if it = 0 then norm2 (numDofs P M) dx else r0) dx (fun d => x d - o.relaxation * dx d)) :
    newtonLoop P M Fm o lin (fuel + 1) it r0 x = newtonLoop P M Fm o lin fuel (it + 1)
      (if it = 0 then norm2 (numDofs P M) dx else r0) (fun d => x d - o.relaxation * dx d) := by
  have e : (if it + 1 = 1 then norm2 (numDofs P M) dx else r0) = if it = 0 then norm2 (numDofs P M) dx else r0 := by
    simp
  rw [newtonLoop, h]
  simp only
  rw [if_neg, e]
  intro hc
  refine hd ?_
  unfold Done
  simpa using hc

/-- What holds when the loop reports convergence. -/
theorem loop_converged (fuel it : ℕ) (r0 : ℝ) (x : ℕ → ℝ) {n : ℕ} {y : ℕ → ℝ}
    (h : newtonLoop P M Fm o lin fuel it r0 x = .ok (n, true, y)) :
    ∃ z dx R, lin (jacobian P M Fm z) (residual P M Fm z) = some dx ∧ (y = fun d => z d - o.relaxation * dx d)
      ∧ (if o.criterion = "residual" then converged o R (norm2 (numDofs P M) (residual P M Fm y))
        else converged o R (norm2 (numDofs P M) dx))
      ∧ (it ≠ 0 → R = r0) ∧ (it = 0 → ∃ first, lin (jacobian P M Fm x) (residual P M Fm x) = some first ∧ R = norm2 (numDofs P M) first) := by
  induction fuel generalizing it r0 x with
  | zero => simp [newtonLoop] at h
  | succ fuel ih =>
    cases hl : lin (jacobian P M Fm x) (residual P M Fm x) with
    | none => unfold newtonLoop at h; rw [hl] at h; cases h
    | some dx =>
      by_cases hc : Done P M Fm o it (if it = 0 then norm2 (numDofs P M) dx else r0) dx (fun d => x d - o.relaxation * dx d)
      · rw [loop_done hl hc] at h
        injection h with h
        have h2 := (Prod.mk.inj (Prod.mk.inj h).2).2
        refine ⟨x, dx, if it = 0 then norm2 (numDofs P M) dx else r0, hl, h2.symm, ?_, fun h0 => if_neg h0, fun h0 => ⟨dx, rfl, if_pos h0⟩⟩
        rw [← h2]
        unfold Done at hc
        split
        · rename_i hr; rw [if_pos hr] at hc; exact hc
        · rename_i hr; rw [if_neg hr] at hc; exact hc.2
      · rw [loop_next hl hc] at h
        obtain ⟨z, dz, R, h1, h2, h3, h4, _⟩ := ih _ _ _ h
        have hR := h4 (by omega)
        refine ⟨z, dz, R, h1, h2, h3, fun h0 => ?_, fun h0 => ⟨dx, rfl, ?_⟩⟩
        · rw [hR, if_neg h0]
        · rw [hR, if_pos h0]

/-- Every iteration brings prescribed dofs closer to their value by the factor `1 - ω`. -/
theorem loop_prescribed (hf : Fits P M Q S Fm) (hlin : ExactSolver (numDofs P M) lin) (fuel it : ℕ) (r0 : ℝ) (x : ℕ → ℝ)
    {n : ℕ} {b : Bool} {y : ℕ → ℝ} (h : newtonLoop P M Fm o lin fuel it r0 x = .ok (n, b, y)) :
    ∃ j, n = it + j ∧ (b = true → 1 ≤ j) ∧ ∀ d < numDofs P M, ∀ g, Fm.bc d = some g →
      y d - g = (1 - o.relaxation) ^ j * (x d - g) := by
  induction fuel generalizing it r0 x with
  | zero =>
    simp only [newtonLoop, Except.ok.injEq, Prod.mk.injEq] at h
    obtain ⟨h1, h2, h3⟩ := h
    exact ⟨0, by omega, by simp [← h2], fun d _ g _ => by simp [h3]⟩
  | succ fuel ih =>
    cases hl : lin (jacobian P M Fm x) (residual P M Fm x) with
    | none => unfold newtonLoop at h; rw [hl] at h; cases h
    | some dx =>
      have hstep := ((step_iff hf x dx).mp (hlin.1 _ _ _ hl)).1
      have hd1 : ∀ d < numDofs P M, ∀ g, Fm.bc d = some g →
          (x d - o.relaxation * dx d) - g = (1 - o.relaxation) * (x d - g) := by
        intro d hd g hg; rw [hstep d hd g hg]; ring
      by_cases hc : Done P M Fm o it (if it = 0 then norm2 (numDofs P M) dx else r0) dx (fun d => x d - o.relaxation * dx d)
      · rw [loop_done hl hc] at h
        injection h with h
        obtain ⟨h1, h⟩ := Prod.mk.inj h
        have h2 := (Prod.mk.inj h).2
        refine ⟨1, h1.symm, fun _ => le_refl _, fun d hd g hg => ?_⟩
        rw [← h2, pow_one]
        exact hd1 d hd g hg
      · rw [loop_next hl hc] at h
        obtain ⟨j, hj, _, h3⟩ := ih _ _ _ h
        refine ⟨j + 1, by omega, fun _ => by omega, fun d hd g hg => ?_⟩
        rw [h3 d hd g hg, hd1 d hd g hg]; ring

/-- The step from `x` towards the solution `s`, if no contact point changes its state. -/
theorem step_to (hf : Fits P M Q S Fm) (hs : Sound Q S) (hst : Stiff P M Q S) (hlin : ExactSolver (numDofs P M) lin)
    {s x : ℕ → ℝ} (he : AtRest P M Q S (byNode P s)) (hsame : ContactKept P M Q S (byNode P x) (byNode P s)) :
    ∃ dx, lin (jacobian P M Fm x) (residual P M Fm x) = some dx ∧ ∀ d < numDofs P M, dx d = x d - s d := by
  obtain ⟨y, hy⟩ := step_solvable hf hs hst x
  have hne := hlin.2 _ _ ⟨y, hy⟩
  obtain ⟨dx, hdx⟩ := Option.ne_none_iff_exists'.mp hne
  have h1 := (hy dx).mp (hlin.1 _ _ _ hdx)
  obtain ⟨e1, e2⟩ := (equilibrium_iff hf s).mp he
  have h2 := (hy (fun d => x d - s d)).mp ((step_iff hf x _).mpr ⟨fun d hd g hg => by rw [e1 d hd g hg], fun d hd => by
    have := (system P M Q S).res_near x s
      (fun k => by rw [system_q hf.dim, system_q hf.dim]; exact (hsame _ (List.getElem_mem _)).1)
      (fun k => by rw [system_q hf.dim, system_q hf.dim]; exact (hsame _ (List.getElem_mem _)).2) d
    rw [e2 d hd, sub_zero] at this
    exact this.symm⟩)
  exact ⟨dx, hdx, fun d hd => by rw [h1 d hd, ← h2 d hd]⟩

/-- Contact points keep their state on the way from `x` to the solution. -/
theorem same_along (hd : 0 < P.dim) {s x y : ℕ → ℝ} {t : ℝ} (ht : 0 ≤ t) (ht1 : t ≤ 1)
    (hy : ∀ d < numDofs P M, y d = s d + t * (x d - s d)) (h : ContactKept P M Q S (byNode P x) (byNode P s)) :
    ContactKept P M Q S (byNode P y) (byNode P s) := by
  intro k hk
  have e : pressed P M Q S (byNode P y) k
      = (1 - t) * pressed P M Q S (byNode P s) k + t * pressed P M Q S (byNode P x) k := by
    have h1 : normalStress P M Q (byNode P y) k = (1 - t) * normalStress P M Q (byNode P s) k + t * normalStress P M Q (byNode P x) k := by
      have l := lin_normalStress (P := P) (M := M) (Q := Q) hd k
      have a := l y
      have b := l s
      have c := l x
      simp only at a b c
      rw [a, b, c, mul_sum, mul_sum, ← sum_add_distrib]
      exact sum_congr rfl (fun d hd => by rw [hy d (mem_range.mp hd)]; ring)
    have h2 : normalMove P M (byNode P y) k = (1 - t) * normalMove P M (byNode P s) k + t * normalMove P M (byNode P x) k := by
      have l := lin_normalMove (P := P) (M := M) hd k
      have a := l y
      have b := l s
      have c := l x
      simp only at a b c
      rw [a, b, c, mul_sum, mul_sum, ← sum_add_distrib]
      exact sum_congr rfl (fun d hd => by rw [hy d (mem_range.mp hd)]; ring)
    unfold pressed
    rw [h1, h2]; ring
  obtain ⟨h1, h2⟩ := h k hk
  rw [e]
  constructor
  · intro hn
    have := h1 hn
    rcases eq_or_lt_of_le ht with h0 | h0
    · rw [← h0]; linarith
    · have := mul_neg_of_pos_of_neg h0 this
      have := mul_nonpos_of_nonneg_of_nonpos (sub_nonneg.mpr ht1) hn.le
      linarith
  · intro hp
    have := h2 hp
    rcases eq_or_lt_of_le ht with h0 | h0
    · rw [← h0]; linarith
    · have := mul_pos h0 this
      have := mul_nonneg (sub_nonneg.mpr ht1) hp.le
      linarith

/-- The loop near the solution: iteration `it + 1` starts with error `(1-ω)^it e`. -/
theorem loop_near (hf : Fits P M Q S Fm) (hs : Sound Q S) (hst : Stiff P M Q S) (hlin : ExactSolver (numDofs P M) lin)
    (hcrit : o.criterion = "incremental") (ho : 0 < o.relaxation) (ho1 : o.relaxation ≤ 1) (hat : 0 < o.atol)
    {s x0 : ℕ → ℝ} (he : AtRest P M Q S (byNode P s)) (hsame : ContactKept P M Q S (byNode P x0) (byNode P s))
    (k : ℕ) (hk : 2 ≤ k)
    (hdone : (1 - o.relaxation) ^ (k - 1) < o.rtol
      ∨ (1 - o.relaxation) ^ (k - 1) * norm2 (numDofs P M) (fun d => x0 d - s d) < o.atol)
    (hmin : ∀ j, 2 ≤ j → j < k → ¬ ((1 - o.relaxation) ^ (j - 1) < o.rtol
      ∨ (1 - o.relaxation) ^ (j - 1) * norm2 (numDofs P M) (fun d => x0 d - s d) < o.atol))
    (fuel it : ℕ) (hit : it < k) (r0 : ℝ) (hr0 : it ≠ 0 → r0 = norm2 (numDofs P M) (fun d => x0 d - s d)) (x : ℕ → ℝ)
    (hx : ∀ d < numDofs P M, x d = s d + (1 - o.relaxation) ^ it * (x0 d - s d)) :
    ∃ y, (∀ d < numDofs P M, y d = s d + (1 - o.relaxation) ^ (min k (it + fuel)) * (x0 d - s d))
      ∧ newtonLoop P M Fm o lin fuel it r0 x = .ok (min k (it + fuel), decide (k ≤ it + fuel), y) := by
  have hq0 : 0 ≤ 1 - o.relaxation := by linarith
  have hq1 : 1 - o.relaxation ≤ 1 := by linarith
  induction fuel generalizing it r0 x with
  | zero =>
    refine ⟨x, ?_, ?_⟩
    · rw [add_zero, min_eq_right hit.le]; exact hx
    · unfold newtonLoop
      rw [add_zero, min_eq_right hit.le, decide_eq_false (by omega)]
  | succ fuel ih =>
    have hpw : (1 - o.relaxation) ^ it ≤ 1 := pow_le_one₀ hq0 hq1
    obtain ⟨dx, hdx, hval⟩ := step_to hf hs hst hlin he
      (same_along hf.dim (pow_nonneg hq0 it) hpw hx hsame)
    have hdxe : ∀ d < numDofs P M, dx d = (1 - o.relaxation) ^ it * (x0 d - s d) := by
      intro d hd; rw [hval d hd, hx d hd]; ring
    have hnorm : norm2 (numDofs P M) dx = (1 - o.relaxation) ^ it * norm2 (numDofs P M) (fun d => x0 d - s d) := by
      rw [norm2_congr hdxe, norm2_smul, abs_of_nonneg (pow_nonneg hq0 it)]
    set e0 := norm2 (numDofs P M) (fun d => x0 d - s d) with he0
    have hx' : ∀ d < numDofs P M, x d - o.relaxation * dx d = s d + (1 - o.relaxation) ^ (it + 1) * (x0 d - s d) := by
      intro d hd; rw [hx d hd, hdxe d hd]; ring
    have hr : (if it = 0 then norm2 (numDofs P M) dx else r0) = e0 := by
      split
      · rename_i h1
        rw [hnorm, h1, pow_zero, one_mul]
      · rename_i h1
        exact hr0 h1
    have hconv : it ≠ 0 → (converged o e0 (norm2 (numDofs P M) dx)
        ↔ ((1 - o.relaxation) ^ it < o.rtol ∨ (1 - o.relaxation) ^ it * e0 < o.atol)) := by
      intro _
      unfold converged
      rw [hnorm]
      by_cases hz : e0 = 0
      · constructor
        · intro _; right; rw [hz, mul_zero]; exact hat
        · intro _; right; rw [hz, mul_zero]; exact hat
      · rw [mul_div_assoc, div_self hz, mul_one]
        constructor
        · rintro (h | h)
          · exact Or.inl h.2
          · exact Or.inr h
        · rintro (h | h)
          · exact Or.inl ⟨hz, h⟩
          · exact Or.inr h
    have hdone' : Done P M Fm o it (if it = 0 then norm2 (numDofs P M) dx else r0) dx (fun d => x d - o.relaxation * dx d)
        ↔ it ≠ 0 ∧ converged o e0 (norm2 (numDofs P M) dx) := by
      unfold Done
      rw [hr, if_neg (by rw [hcrit]; decide)]
    by_cases hlast : it + 1 = k
    · have hit0 : it ≠ 0 := by omega
      rw [loop_done hdx (hdone'.mpr ⟨hit0, (hconv hit0).mpr (by rw [← hlast] at hdone; simpa using hdone)⟩)]
      refine ⟨fun d => x d - o.relaxation * dx d, ?_, ?_⟩
      · rw [show min k (it + (fuel + 1)) = it + 1 by omega]
        exact hx'
      · rw [show min k (it + (fuel + 1)) = it + 1 by omega, decide_eq_true (by omega)]
    · rw [loop_next hdx, hr]
      · obtain ⟨y, hy1, hy2⟩ := ih (it + 1) (by omega) e0 (fun _ => rfl) _ hx'
        refine ⟨y, ?_, ?_⟩
        · rw [show it + (fuel + 1) = it + 1 + fuel by omega]; exact hy1
        · rw [show it + (fuel + 1) = it + 1 + fuel by omega]; exact hy2
      · rw [hdone']
        rintro ⟨h1, h2⟩
        have := hmin (it + 1) (by omega) (by omega)
        rw [Nat.add_sub_cancel] at this
        exact this ((hconv h1).mp h2)

end

end Verif.UflDriver
