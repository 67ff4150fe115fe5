import Verif.Lemmas.TieDemos
import Verif.Props.ThermoDemo

/-!
C193–C195: the static demos for tied bodies.
-/

namespace Verif.TieData

open Verif.Spec Verif.Lemmas Verif.Packing Verif.Assembly Verif.Entities Verif.Kernels Finset

noncomputable section

variable {D : TieDemo}

/-! ### C193 -/

/-- C193: the demos that solve one linear system return the solution of the tied problem: it has the prescribed values, balances
the load, and is the only one to do so.  The tied points come first on every facet, no dof is prescribed at a cell with a tied
point, and the boundary values are lifted with the right sign or are zero. -/
theorem C193_static_partial (hD : TieDemoValid D) (hT : TiedFirst D.M) (hpos : PositiveOn D.numDofs D.bc (tiedWork D))
    (haway : AwayFromTie D.M D.V D.numDofs D.bc) (hsol : LinearSolver D.numDofs D.solve)
    (hl : D.lift = 1 ∨ ∀ d < D.numDofs, ∀ g, D.bc d = some g → g = 0) :
    ∃ u, D.run = some u ∧ InBalance D (loadWork D) u
      ∧ ∀ w, InBalance D (loadWork D) w → ∀ d < D.numDofs, w d = u d := by
  obtain ⟨A, b, h1, h2, h3, h4⟩ := run_raw hD hT
  have hA : ∀ d < D.numDofs, D.bc d ≠ none → ∀ c, A (d, c) = 0 ∧ A (c, d) = 0 := fun d hd hb c =>
    ⟨h3 _ _ (haway d hd hb c).1, h3 _ _ (haway d hd hb c).2⟩
  have hinv := bc_invertible (K := D.stiff) hA (fun v hv hne => lt_of_lt_of_eq (hpos v hv hne) (h2 v v).symm)
  have hz := hsol _ hinv (D.rhs fun d => b d + D.load d)
  rw [funext (rhs_eq hl _)] at hz
  obtain ⟨z1, z2⟩ := bc_solution hA hz
  have hbal : InBalance D (loadWork D) (D.solve (bcMatrix D.bc A D.stiff) (D.rhs fun d => b d + D.load d)) := by
    rw [funext (rhs_eq hl _)]
    refine ⟨fun d hd g hg => ?_, fun v hv => ?_⟩
    · rw [z1 d hd g hg]
      ring
    · have := tested z2 hv
      rw [← formOf_mat, h2] at this
      rw [this]
      exact sum_congr rfl (fun d hd => by rw [h4 d (mem_range.mp hd), zero_add])
  exact ⟨_, h1, hbal, fun w hw => balance_unique hD hT hpos hbal hw⟩

/-- C193, what the Python demos compute: lifted with `alpha = -1.0`, the free dofs get the solution for the opposite boundary
values. -/
theorem C193_opposite (hD : TieDemoValid D) (hT : TiedFirst D.M) (hpos : PositiveOn D.numDofs D.bc (tiedWork D))
    (haway : AwayFromTie D.M D.V D.numDofs D.bc) (hsol : LinearSolver D.numDofs D.solve) (hl : D.lift = -1) :
    ∃ u w, D.run = some u ∧ HasValues D.numDofs D.bc u ∧ InBalance (oppositeValues D) (loadWork D) w
      ∧ ∀ d < D.numDofs, D.bc d = none → u d = w d := by
  obtain ⟨A, b, h1, h2, h3, h4⟩ := run_raw hD hT
  have hA : ∀ d < D.numDofs, D.bc d ≠ none → ∀ c, A (d, c) = 0 ∧ A (c, d) = 0 := fun d hd hb c =>
    ⟨h3 _ _ (haway d hd hb c).1, h3 _ _ (haway d hd hb c).2⟩
  have hinv := bc_invertible (K := D.stiff) hA (fun v hv hne => lt_of_lt_of_eq (hpos v hv hne) (h2 v v).symm)
  have hz := hsol _ hinv (D.rhs fun d => b d + D.load d)
  set x := D.solve (bcMatrix D.bc A D.stiff) (D.rhs fun d => b d + D.load d) with hx
  have hval : ∀ d < D.numDofs, ∀ g, D.bc d = some g → x d = g := by
    intro d hd g hg
    have := hz d hd
    rw [row_prescribed (fun d hd hb c => (hA d hd hb c).1) hd (by rw [hg]; simp)] at this
    rw [this]
    simp [TieDemo.rhs, hg]
  have hfree : ∀ d < D.numDofs, D.bc d = none →
      ∑ c ∈ range D.numDofs, (D.stiff d c + A (d, c)) * (if D.bc c = none then x c else -x c) = b d + D.load d := by
    intro d hd hb
    have := hz d hd
    rw [row_free (fun d hd hb c => (hA d hd hb c).2) hb] at this
    have e : D.rhs (fun d => b d + D.load d) d = b d + D.load d
        + ∑ c ∈ range D.numDofs, (D.bc c).elim 0 (fun _ => D.stiff d c * x c) := by
      unfold TieDemo.rhs
      simp only [hb, Option.elim_none, hl]
      rw [neg_one_mul, sub_neg_eq_add]
      congr 1
      refine sum_congr rfl (fun c hc => ?_)
      cases hg : D.bc c with
      | none => rfl
      | some g => simp only [Option.elim_some]; rw [hval c (mem_range.mp hc) g hg]
    rw [e] at this
    have e2 : ∑ c ∈ range D.numDofs, (D.stiff d c + A (d, c)) * (if D.bc c = none then x c else -x c)
        = ∑ c ∈ range D.numDofs, (D.stiff d c + A (d, c)) * x c
          - 2 * ∑ c ∈ range D.numDofs, (D.bc c).elim 0 (fun _ => D.stiff d c * x c) := by
      rw [mul_sum, ← sum_sub_distrib]
      refine sum_congr rfl (fun c hc => ?_)
      cases hg : D.bc c with
      | none => simp
      | some g =>
        have h0 := (hA c (mem_range.mp hc) (by rw [hg]; simp) d).2
        simp only [reduceCtorEq, if_false, Option.elim_some]
        rw [h0]
        ring
    rw [e2]
    linarith
  refine ⟨x, fun c => if D.bc c = none then x c else -x c, h1, hval, ⟨fun d hd g hg => ?_, fun v hv => ?_⟩, fun d _ hb => ?_⟩
  · have hg' : (D.bc d).map (fun g => -g) = some g := hg
    obtain ⟨g', k1, k2⟩ := Option.map_eq_some_iff.mp hg'
    dsimp only
    rw [k1, if_neg (by simp), hval d hd g' k1, k2]
  · have hv' : Admissible D.numDofs D.bc v := fun d hd hb => hv d hd (by
      show (D.bc d).map _ ≠ none
      simpa using hb)
    have := tested hfree hv'
    rw [← formOf_mat, h2] at this
    show tiedWork D _ v = _
    rw [this]
    exact sum_congr rfl (fun d hd => by rw [h4 d (mem_range.mp hd), zero_add])
  · dsimp only
    rw [if_pos hb]

/-! ### C194 -/

section newton
open UflDriver (Options norm2 converged)

/-- The constructor of `MeshTieProblem`. -/
theorem problemStart_ok (hD : TieDemoValid D) (hp : D.p = .elasticity) :
    ∃ s, D.problemStart = some s ∧ TieReach D (fun _ => True) s := by
  obtain ⟨s, h1, ops, g, h2, h3, h4, h5, -⟩ := tie_generate hD D.problemCoefs (fun k hk => by
    rw [hp] at hk
    simp only [required, List.mem_cons, List.not_mem_nil, or_false] at hk
    rcases hk with rfl | rfl <;> rfl) (by
    rw [hp]
    show (if D.withU then _ else none) = none ∨ (if D.withU then _ else none) = _
    cases D.withU
    · exact Or.inl rfl
    · exact Or.inr rfl)
  rw [hp] at h1
  exact ⟨s, h1, ops, g, h2, h3, h4, h5, trivial⟩

/-- The residual. -/
theorem f_ok (hD : TieDemoValid D) (hp : D.p = .elasticity) (hT : TiedFirst D.M) {P : Gen ℝ → Prop} {s : State ℝ}
    (h : TieReach D P s) (u : ℕ → ℝ) : ∃ s' b, D.f u s = some (bcVector D.numDofs D.bc D.stiff u (-1.0) b, s')
      ∧ TieReach D (fun _ => True) s' ∧ ∀ v, ∑ d ∈ range D.numDofs, b d * v d = tiedWork D u v := by
  obtain ⟨ops, g, h1, h2, h3, h4, -⟩ := h
  have hok : (ops.foldl Tracked.step Tracked.new).Proper D.M.static (.upd .elasticity (D.solution u)) := by
    intro _
    refine ⟨g, by rw [← hp]; exact h3, by rw [h4.problem, hp], fun f hf => ?_, fun h => by cases h⟩
    obtain rfl := Option.some.inj hf
    rw [h4.space]
    exact ⟨rfl, rfl, func_packed hD.mesh (tieDemo_pos hD) _⟩
  obtain ⟨s', h8, h9⟩ := call_ok D.M.static (static_ok D.M) ops (.upd .elasticity (D.solution u)) h1 h2 hok
    (by simp [missingU, Verif.TieData.solution, TieDemo.solution])
  have hup : updateKernelData D.M.static (D.solution u) .elasticity s = .ok s' := h8
  have g1 : Given (D.solution u) (Verif.TieData.solution .elasticity) := by simp [Given, Verif.TieData.solution, TieDemo.solution]
  have hget : (ops.foldl Tracked.step Tracked.new).get .elasticity = some g := by rw [← hp]; exact h3
  have hr : TieReach D (fun g => SolutionIs D.M D.V u g) s' := by
    refine ⟨_, { g with sol := some (D.solution u) }, proper_append _ _ _ h1 hok, h9, ?_,
      ⟨h4.problem, h4.space, h4.gamma, h4.theta, h4.mat, h4.scalar⟩, D.solution u, rfl, ?_⟩
    · rw [List.foldl_append, hp]
      simp only [List.foldl_cons, List.foldl_nil, Tracked.step, if_pos g1, hget]
      rfl
    · show D.solution u (trigger g.p) = _
      rw [h4.problem, hp]
      rfl
  obtain ⟨A, b, k1, k2, k3, k4, g', k5, k6⟩ := tie_assembled hD hT hr
  obtain ⟨ops', g'', m1, m2, m3, m4, -⟩ := hr
  rw [hp] at k2
  refine ⟨s', fun d => b d + ∑ c ∈ range D.numDofs, D.stiff d c * u c, ?_, ⟨ops', g'', m1, m2, m3, m4, trivial⟩, fun v => ?_⟩
  · unfold TieDemo.f
    simp only [hup, Out.state, k2, Except.toOption, Option.bind_eq_bind, Option.bind_some]
    rfl
  · simp only [add_mul, sum_add_distrib]
    rw [k6 u k5 v, ← formOf_eq]
    unfold tiedWork
    ring

/-- The matrix. -/
theorem j_ok (hD : TieDemoValid D) (hp : D.p = .elasticity) (hT : TiedFirst D.M) (haway : AwayFromTie D.M D.V D.numDofs D.bc)
    {P : Gen ℝ → Prop} {s : State ℝ} (h : TieReach D P s) : ∃ A, D.j s = some (bcMatrix D.bc A D.stiff)
      ∧ (∀ d < D.numDofs, D.bc d ≠ none → ∀ c, A (d, c) = 0 ∧ A (c, d) = 0)
      ∧ ∀ u v, ∑ d ∈ range D.numDofs, ∑ c ∈ range D.numDofs, v d * (D.stiff d c + A (d, c)) * u c = tiedWork D u v := by
  obtain ⟨A, b, k1, -, k3, k4, -⟩ := tie_assembled hD hT h
  rw [hp] at k1
  refine ⟨A, ?_, fun d hd hb c => ⟨k4 _ _ (haway d hd hb c).1, k4 _ _ (haway d hd hb c).2⟩,
    fun u v => by rw [formOf_mat, k3]; rfl⟩
  unfold TieDemo.j
  simp only [k1, Except.toOption, Option.bind_eq_bind, Option.bind_some]
  rfl

/-- A vector tested with a unit vector. -/
theorem unit_test (N : ℕ) (b : ℕ → ℝ) {d : ℕ} (hd : d < N) : ∑ k ∈ range N, b k * (if k = d then 1 else 0) = b d := by
  rw [sum_eq_single_of_mem d (mem_range.mpr hd) (fun k _ hk => by rw [if_neg hk, mul_zero]), if_pos rfl, mul_one]

/-- The residual of a solution is zero. -/
theorem residual_zero {u b : ℕ → ℝ} (hb : ∀ v, ∑ d ∈ range D.numDofs, b d * v d = tiedWork D u v)
    (hu : InBalance D (fun _ => 0) u) : ∀ d < D.numDofs, bcVector D.numDofs D.bc D.stiff u (-1.0) b d = 0 := by
  intro d hd
  unfold bcVector
  dsimp only
  cases hg : D.bc d with
  | some g =>
    rw [Option.elim_some, hu.1 d hd g hg, sub_self, mul_zero]
  | none =>
    rw [Option.elim_none]
    have h0 : b d = 0 := by
      have := hu.2 (fun k => if k = d then 1 else 0) (fun k _ hk => by
        dsimp only
        rw [if_neg]
        rintro rfl
        exact hk hg)
      rw [← hb, unit_test D.numDofs b hd] at this
      exact this
    rw [h0, sum_eq_zero, mul_zero, sub_zero]
    intro c hc
    cases hg' : D.bc c with
    | none => rfl
    | some g => rw [Option.elim_some, hu.1 c (mem_range.mp hc) g hg', sub_self, mul_zero]

theorem norm2_zero (N : ℕ) {v : ℕ → ℝ} (h : ∀ d < N, v d = 0) : norm2 N v = 0 := by
  unfold norm2
  rw [sum_eq_zero (fun d hd => by rw [h d (mem_range.mp hd)]; ring), Real.sqrt_zero]

/-- The norm of the residual. -/
theorem residual_nearly {A : Arr (ℕ × ℕ)} (hA : ∀ d < D.numDofs, D.bc d ≠ none → ∀ c, A (d, c) = 0 ∧ A (c, d) = 0)
    (hform : ∀ u v, ∑ d ∈ range D.numDofs, ∑ c ∈ range D.numDofs, v d * (D.stiff d c + A (d, c)) * u c = tiedWork D u v)
    {u b : ℕ → ℝ} (hb : ∀ v, ∑ d ∈ range D.numDofs, b d * v d = tiedWork D u v) {tol : ℝ} :
    NearlyInBalance D (fun _ => 0) tol u ↔ norm2 D.numDofs (bcVector D.numDofs D.bc D.stiff u (-1.0) b) < tol := by
  have hpre : ∀ d < D.numDofs, ∀ g, D.bc d = some g → |u d - g| = |bcVector D.numDofs D.bc D.stiff u (-1.0) b d| := by
    intro d hd g hg
    unfold bcVector
    rw [hg, Option.elim_some]
    rw [show (-1.0 : ℝ) * (g - u d) = u d - g by norm_num]
  have hwork : ∀ w, HasValues D.numDofs D.bc w → (∀ d < D.numDofs, D.bc d = none → w d = u d) →
      ∀ v, Admissible D.numDofs D.bc v → tiedWork D w v - 0
        = ∑ d ∈ range D.numDofs, bcVector D.numDofs D.bc D.stiff u (-1.0) b d * v d := by
    intro w hw hwu v hv
    have e1 : tiedWork D w v = tiedWork D u v + ∑ d ∈ range D.numDofs, ∑ c ∈ range D.numDofs,
        v d * (D.stiff d c + A (d, c)) * (w c - u c) := by
      rw [← hform, ← hform, ← sum_add_distrib]
      refine sum_congr rfl (fun d _ => ?_)
      rw [← sum_add_distrib]
      exact sum_congr rfl (fun c _ => by ring)
    rw [e1, ← hb, sub_zero, ← sum_add_distrib]
    refine sum_congr rfl (fun d hd => ?_)
    by_cases hbd : D.bc d = none
    · unfold bcVector
      dsimp only
      rw [hbd, Option.elim_none]
      have e2 : ∑ c ∈ range D.numDofs, v d * (D.stiff d c + A (d, c)) * (w c - u c)
          = v d * ∑ c ∈ range D.numDofs, (D.bc c).elim 0 (fun g => D.stiff d c * (g - u c)) := by
        rw [mul_sum]
        refine sum_congr rfl (fun c hc => ?_)
        cases hg : D.bc c with
        | none => rw [hwu c (mem_range.mp hc) hg, Option.elim_none]; ring
        | some g =>
          rw [hw c (mem_range.mp hc) g hg, (hA c (mem_range.mp hc) (by rw [hg]; simp) d).2, Option.elim_some]
          ring
      rw [e2, show (-1.0 : ℝ) = -1 by norm_num]
      ring
    · rw [hv d (mem_range.mp hd) hbd]
      simp
  refine ⟨fun ⟨f, h1, h2, h3⟩ => ?_, fun hr => ⟨_, hr, hpre, hwork⟩⟩
  have hsq : ∀ d < D.numDofs, f d ^ 2 = bcVector D.numDofs D.bc D.stiff u (-1.0) b d ^ 2 := by
    intro d hd
    cases hg : D.bc d with
    | some g => rw [← sq_abs (f d), ← h2 d hd g hg, hpre d hd g hg, sq_abs]
    | none =>
      have hw : HasValues D.numDofs D.bc (fun c => (D.bc c).elim (u c) id) := fun c _ g hg => by
        dsimp only
        rw [hg]
        rfl
      have hwu : ∀ c < D.numDofs, D.bc c = none → (fun c => (D.bc c).elim (u c) id) c = u c := fun c _ hc => by
        dsimp only
        rw [hc]
        rfl
      have hv : Admissible D.numDofs D.bc (fun k => if k = d then 1 else 0) := fun k _ hk => by
        dsimp only
        rw [if_neg]
        rintro rfl
        exact hk hg
      have := (h3 _ hw hwu _ hv).symm.trans (hwork _ hw hwu _ hv)
      rw [unit_test _ f hd, unit_test _ _ hd] at this
      rw [this]
  unfold norm2
  rwa [← sum_congr rfl (fun d hd => hsq d (mem_range.mp hd))]

/-- One step from any displacement. -/
theorem newton_step (hD : TieDemoValid D) (hT : TiedFirst D.M) (hpos : PositiveOn D.numDofs D.bc (tiedWork D))
    (hsol : LinearSolver D.numDofs D.solve) {A : Arr (ℕ × ℕ)}
    (hA : ∀ d < D.numDofs, D.bc d ≠ none → ∀ c, A (d, c) = 0 ∧ A (c, d) = 0)
    (hform : ∀ u v, ∑ d ∈ range D.numDofs, ∑ c ∈ range D.numDofs, v d * (D.stiff d c + A (d, c)) * u c = tiedWork D u v)
    {u b : ℕ → ℝ} (hb : ∀ v, ∑ d ∈ range D.numDofs, b d * v d = tiedWork D u v) :
    InBalance D (fun _ => 0)
      (fun d => u d - D.solve (bcMatrix D.bc A D.stiff) (bcVector D.numDofs D.bc D.stiff u (-1.0) b) d) := by
  have hinv := bc_invertible (K := D.stiff) hA (fun v hv hne => lt_of_lt_of_eq (hpos v hv hne) (hform v v).symm)
  have hz := hsol _ hinv (bcVector D.numDofs D.bc D.stiff u (-1.0) b)
  obtain ⟨z1, z2⟩ := bc_solution hA hz
  refine ⟨fun d hd g hg => ?_, fun v hv => ?_⟩
  · dsimp only
    rw [z1 d hd g hg]
    norm_num
  · rw [tiedWork_sub hD hT]
    have := tested z2 hv
    rw [← formOf_mat, hform, hb] at this
    rw [this, sub_self]

/-- C194: with the criterion of the demos, DOLFINx's Newton solver converges from every displacement after at most one iteration;
after one, the result is the solution of the tied problem, and it is the only one.  If it does not iterate, what it was given misses
the solution by less than `atol`. -/
theorem C194_newton_partial (hD : TieDemoValid D) (hp : D.p = .elasticity) (hT : TiedFirst D.M)
    (hpos : PositiveOn D.numDofs D.bc (tiedWork D)) (haway : AwayFromTie D.M D.V D.numDofs D.bc)
    (hsol : LinearSolver D.numDofs D.solve) (o : Options) (hc : o.criterion = "residual") (ha : 0 < o.atol) (hm : 0 < o.maxIt)
    (hr : o.relaxation = 1) (u : ℕ → ℝ) :
    ∃ n u', D.newton o u = .ok (n, true, u') ∧ (n = 0 ∧ u' = u ∧ NearlyInBalance D (fun _ => 0) o.atol u
      ∨ n = 1 ∧ ¬NearlyInBalance D (fun _ => 0) o.atol u ∧ InBalance D (fun _ => 0) u'
        ∧ ∀ w, InBalance D (fun _ => 0) w → ∀ d < D.numDofs, w d = u' d) := by
  classical
  obtain ⟨s, h1, h2⟩ := problemStart_ok hD hp
  obtain ⟨s', b, h3, h4, h5⟩ := f_ok hD hp hT h2 u
  obtain ⟨A, h6, h7, h8⟩ := j_ok hD hp hT haway h4
  unfold TieDemo.newton
  rw [if_neg (by rw [hc]; decide), h1]
  dsimp only
  rw [h3]
  dsimp only
  by_cases hcon : converged o 0 (norm2 D.numDofs (bcVector D.numDofs D.bc D.stiff u (-1.0) b))
  · rw [if_pos ⟨hc, hcon⟩]
    refine ⟨0, u, rfl, Or.inl ⟨rfl, rfl, (residual_nearly h7 h8 h5).mpr ?_⟩⟩
    rcases hcon with hcon | hcon
    · exact absurd rfl hcon.1
    · exact hcon
  · rw [if_neg (fun h => hcon h.2)]
    obtain ⟨k, hk⟩ := Nat.exists_eq_succ_of_ne_zero (Nat.pos_iff_ne_zero.mp hm)
    rw [hk]
    set dx := D.solve (bcMatrix D.bc A D.stiff) (bcVector D.numDofs D.bc D.stiff u (-1.0) b) with hdx
    have hbal := newton_step hD hT hpos hsol h7 h8 h5
    rw [← hdx] at hbal
    have eu : (fun d => u d - o.relaxation * dx d) = fun d => u d - dx d := by
      funext d
      rw [hr, one_mul]
    obtain ⟨s'', b', k1, -, k3⟩ := f_ok hD hp hT h4 (fun d => u d - dx d)
    have hz := residual_zero k3 hbal
    have hloop : D.loop o (k + 1) 0 0 u (bcVector D.numDofs D.bc D.stiff u (-1.0) b, s') = .ok (1, true, fun d => u d - dx d) := by
      unfold TieDemo.loop
      rw [h6]
      dsimp only
      rw [← hdx, eu, k1]
      dsimp only
      rw [if_pos]
      rw [if_pos hc, norm2_zero _ hz]
      exact Or.inr ha
    rw [hloop]
    refine ⟨1, _, by simp, Or.inr ⟨rfl, ?_, hbal, fun w hw => balance_unique hD hT hpos hbal hw⟩⟩
    exact fun h => hcon (Or.inr ((residual_nearly h7 h8 h5).mp h))

/-- C194 with the options the demos set: at most one iteration, from every displacement; a displacement is accepted unchanged if
it misses balance and prescribed values by less than `1e-7`. -/
theorem C194_demo_partial (hD : TieDemoValid D) (hp : D.p = .elasticity) (hT : TiedFirst D.M)
    (hpos : PositiveOn D.numDofs D.bc (tiedWork D)) (haway : AwayFromTie D.M D.V D.numDofs D.bc)
    (hsol : LinearSolver D.numDofs D.solve) (u : ℕ → ℝ) :
    ∃ n u', D.newton demoOptions u = .ok (n, true, u') ∧ (n = 0 ∧ u' = u ∧ NearlyInBalance D (fun _ => 0) 1e-7 u
      ∨ n = 1 ∧ ¬NearlyInBalance D (fun _ => 0) 1e-7 u ∧ InBalance D (fun _ => 0) u'
        ∧ ∀ w, InBalance D (fun _ => 0) w → ∀ d < D.numDofs, w d = u' d) :=
  C194_newton_partial hD hp hT hpos haway hsol demoOptions rfl (by norm_num [demoOptions]) (by norm_num [demoOptions])
    (by norm_num [demoOptions]) u

/-- C194 with criterion `"incremental"`: two iterations, from every displacement, and the result is the solution. -/
theorem C194_incremental_partial (hD : TieDemoValid D) (hp : D.p = .elasticity) (hT : TiedFirst D.M)
    (hpos : PositiveOn D.numDofs D.bc (tiedWork D)) (haway : AwayFromTie D.M D.V D.numDofs D.bc)
    (hsol : LinearSolver D.numDofs D.solve) (o : Options) (hc : o.criterion = "incremental") (ha : 0 < o.atol) (hm : 1 < o.maxIt)
    (hr : o.relaxation = 1) (u : ℕ → ℝ) :
    ∃ u', D.newton o u = .ok (2, true, u') ∧ InBalance D (fun _ => 0) u' := by
  classical
  obtain ⟨s, h1, h2⟩ := problemStart_ok hD hp
  obtain ⟨s', b, h3, h4, h5⟩ := f_ok hD hp hT h2 u
  obtain ⟨A, h6, h7, h8⟩ := j_ok hD hp hT haway h4
  obtain ⟨k, hk⟩ : ∃ k, o.maxIt = k + 1 + 1 := ⟨o.maxIt - 2, by omega⟩
  set dx := D.solve (bcMatrix D.bc A D.stiff) (bcVector D.numDofs D.bc D.stiff u (-1.0) b) with hdx
  have hbal := newton_step hD hT hpos hsol h7 h8 h5
  rw [← hdx] at hbal
  have eu : ∀ u dx : ℕ → ℝ, (fun d => u d - o.relaxation * dx d) = fun d => u d - dx d := fun u dx => by
    funext d
    rw [hr, one_mul]
  obtain ⟨s'', b', k1, k2, k3⟩ := f_ok hD hp hT h4 (fun d => u d - dx d)
  obtain ⟨A', l1, l2, l3⟩ := j_ok hD hp hT haway k2
  set dx' := D.solve (bcMatrix D.bc A' D.stiff) (bcVector D.numDofs D.bc D.stiff (fun d => u d - dx d) (-1.0) b') with hdx'
  have hbal' := newton_step hD hT hpos hsol l2 l3 k3
  rw [← hdx'] at hbal'
  obtain ⟨s3, b3, m1, -, -⟩ := f_ok hD hp hT k2 (fun d => u d - dx d - dx' d)
  have hz : ∀ d < D.numDofs, dx' d = 0 := fun d hd => by
    have := balance_unique hD hT hpos hbal hbal' d hd
    linarith
  have loop2 : ∀ r0, D.loop o (k + 1) 1 r0 (fun d => u d - dx d)
      (bcVector D.numDofs D.bc D.stiff (fun d => u d - dx d) (-1.0) b', s'') = .ok (2, true, fun d => u d - dx d - dx' d) := by
    intro r0
    unfold TieDemo.loop
    rw [l1]
    dsimp only
    rw [← hdx', eu, m1]
    dsimp only
    rw [if_pos]
    rw [if_neg (by rw [hc]; decide), norm2_zero _ hz]
    exact ⟨by decide, Or.inr ha⟩
  have loop1 : D.loop o (k + 1 + 1) 0 0 u (bcVector D.numDofs D.bc D.stiff u (-1.0) b, s')
      = .ok (2, true, fun d => u d - dx d - dx' d) := by
    unfold TieDemo.loop
    rw [h6]
    dsimp only
    rw [← hdx, eu, k1]
    dsimp only
    rw [if_neg]
    · exact loop2 _
    · rw [if_neg (by rw [hc]; decide)]
      exact fun h => h.1 rfl
  refine ⟨_, ?_, hbal'⟩
  unfold TieDemo.newton
  rw [if_neg (by rw [hc]; decide), h1]
  dsimp only
  rw [h3]
  dsimp only
  rw [if_neg (fun h => by rw [hc] at h; exact absurd h.1 (by decide)), hk, loop1]
  simp

end newton

/-! ### C195 -/

theorem traction_symm {g : ℕ} {mu lam gamma h : ℝ} (n J J' : ℕ → ℝ) (G G' : ℕ → ℕ → ℝ) :
    elasticPart g mu lam gamma 1 h n J G J' G' = elasticPart g mu lam gamma 1 h n J' G' J G := by
  unfold elasticPart
  rw [one_mul, one_mul, ← sum_sub_distrib, ← sum_sub_distrib]
  congr 1
  exact sum_congr rfl (fun a _ => by ring)

theorem tieForm_symm (hθ : D.theta = 1) (u v : ℕ → ℝ) : tieForm D u v = tieForm D v u := by
  unfold tieForm elasticTie heatTie
  rw [hθ]
  split_ifs
  · congr 1
    funext i e cell f q
    unfold heatPart
    ring
  · congr 1
    funext i e cell f q
    exact traction_symm _ _ _ _ _

theorem tiedWork_symm (hθ : D.theta = 1) (hs : ∀ d < D.numDofs, ∀ c < D.numDofs, D.stiff d c = D.stiff c d) (u v : ℕ → ℝ) :
    tiedWork D u v = tiedWork D v u := by
  unfold tiedWork
  rw [tieForm_symm hθ]
  congr 1
  unfold formOf
  rw [sum_comm]
  exact sum_congr rfl (fun c hc => sum_congr rfl (fun d hd => by rw [hs d (mem_range.mp hd) c (mem_range.mp hc)]; ring))

theorem tiedWork_sub_right (hθ : D.theta = 1) (hs : ∀ d < D.numDofs, ∀ c < D.numDofs, D.stiff d c = D.stiff c d)
    (hD : TieDemoValid D) (hT : TiedFirst D.M) (u w v : ℕ → ℝ) :
    tiedWork D v (fun d => u d - w d) = tiedWork D v u - tiedWork D v w := by
  rw [tiedWork_symm hθ hs, tiedWork_sub hD hT, tiedWork_symm hθ hs u, tiedWork_symm hθ hs w]

/-- Solutions of symmetric problems have least energy. -/
theorem balance_least (hD : TieDemoValid D) (hT : TiedFirst D.M) (hpos : PositiveOn D.numDofs D.bc (tiedWork D)) (hθ : D.theta = 1)
    (hs : ∀ d < D.numDofs, ∀ c < D.numDofs, D.stiff d c = D.stiff c d) {r : (ℕ → ℝ) → ℝ}
    (hr : ∀ u w, r (fun d => w d - u d) = r w - r u) {u w : ℕ → ℝ} (hu : InBalance D r u) (hw : HasValues D.numDofs D.bc w)
    (hne : ∃ d < D.numDofs, w d ≠ u d) : tiedEnergy D r u < tiedEnergy D r w := by
  have had : Admissible D.numDofs D.bc (fun d => w d - u d) := by
    intro d hd hb
    obtain ⟨g, hg⟩ := Option.ne_none_iff_exists'.mp hb
    show w d - u d = 0
    rw [hu.1 d hd g hg, hw d hd g hg, sub_self]
  obtain ⟨d, hd, hne⟩ := hne
  have h1 := hpos _ had ⟨d, hd, sub_ne_zero.mpr hne⟩
  have h2 := hu.2 _ had
  rw [tiedWork_sub hD hT, tiedWork_sub_right hθ hs hD hT, tiedWork_sub_right hθ hs hD hT, tiedWork_symm hθ hs w u] at h1
  rw [tiedWork_sub_right hθ hs hD hT, hr] at h2
  unfold tiedEnergy
  linarith

/-- C195: with `theta = 1` the result of the demos that solve one linear system has less energy than every other displacement (or
temperature) with the prescribed values. -/
theorem C195_static_partial (hD : TieDemoValid D) (hT : TiedFirst D.M) (hpos : PositiveOn D.numDofs D.bc (tiedWork D))
    (haway : AwayFromTie D.M D.V D.numDofs D.bc) (hsol : LinearSolver D.numDofs D.solve)
    (hl : D.lift = 1 ∨ ∀ d < D.numDofs, ∀ g, D.bc d = some g → g = 0) (hθ : D.theta = 1)
    (hs : ∀ d < D.numDofs, ∀ c < D.numDofs, D.stiff d c = D.stiff c d) :
    ∃ u, D.run = some u ∧ HasValues D.numDofs D.bc u ∧ ∀ w, HasValues D.numDofs D.bc w → (∃ d < D.numDofs, w d ≠ u d) →
      tiedEnergy D (loadWork D) u < tiedEnergy D (loadWork D) w := by
  obtain ⟨u, h1, h2, -⟩ := C193_static_partial hD hT hpos haway hsol hl
  refine ⟨u, h1, h2.1, fun w hw hne => balance_least hD hT hpos hθ hs (fun u w => ?_) h2 hw hne⟩
  unfold loadWork
  rw [← sum_sub_distrib]
  exact sum_congr rfl (fun d _ => by ring)

/-- C195 for the demos with the Newton solver, if it iterates. -/
theorem C195_newton_partial (hD : TieDemoValid D) (hp : D.p = .elasticity) (hT : TiedFirst D.M)
    (hpos : PositiveOn D.numDofs D.bc (tiedWork D)) (haway : AwayFromTie D.M D.V D.numDofs D.bc)
    (hsol : LinearSolver D.numDofs D.solve) (o : UflDriver.Options) (hc : o.criterion = "residual") (ha : 0 < o.atol)
    (hm : 0 < o.maxIt) (hr : o.relaxation = 1) (hθ : D.theta = 1)
    (hs : ∀ d < D.numDofs, ∀ c < D.numDofs, D.stiff d c = D.stiff c d) (u : ℕ → ℝ)
    (hu : ¬NearlyInBalance D (fun _ => 0) o.atol u) :
    ∃ u', D.newton o u = .ok (1, true, u') ∧ HasValues D.numDofs D.bc u' ∧ ∀ w, HasValues D.numDofs D.bc w →
      (∃ d < D.numDofs, w d ≠ u' d) → tiedEnergy D (fun _ => 0) u' < tiedEnergy D (fun _ => 0) w := by
  obtain ⟨n, u', h1, h2⟩ := C194_newton_partial hD hp hT hpos haway hsol o hc ha hm hr u
  rcases h2 with ⟨-, -, h⟩ | ⟨rfl, -, h, -⟩
  · exact absurd h hu
  · exact ⟨u', h1, h.1, fun w hw hne => balance_least hD hT hpos hθ hs (fun _ _ => (sub_zero 0).symm) h hw hne⟩

/-- C195: the Newton solver and the solution of one linear system give the same displacement, if there is no load. -/
theorem C195_same_partial (hD : TieDemoValid D) (hp : D.p = .elasticity) (hT : TiedFirst D.M)
    (hpos : PositiveOn D.numDofs D.bc (tiedWork D)) (haway : AwayFromTie D.M D.V D.numDofs D.bc)
    (hsol : LinearSolver D.numDofs D.solve) (o : UflDriver.Options) (hc : o.criterion = "residual") (ha : 0 < o.atol)
    (hm : 0 < o.maxIt) (hr : o.relaxation = 1) (hl : D.lift = 1) (h0 : ∀ d < D.numDofs, D.load d = 0) (u : ℕ → ℝ)
    (hu : ¬NearlyInBalance D (fun _ => 0) o.atol u) :
    ∃ x y, D.run = some x ∧ D.newton o u = .ok (1, true, y) ∧ ∀ d < D.numDofs, x d = y d := by
  obtain ⟨x, h1, h2, -⟩ := C193_static_partial hD hT hpos haway hsol (Or.inl hl)
  have hz : loadWork D = fun _ => 0 := by
    funext v
    exact sum_eq_zero (fun d hd => by rw [h0 d (mem_range.mp hd), zero_mul])
  rw [hz] at h2
  obtain ⟨n, y, h3, h4⟩ := C194_newton_partial hD hp hT hpos haway hsol o hc ha hm hr u
  rcases h4 with ⟨-, -, h⟩ | ⟨rfl, -, -, h⟩
  · exact absurd h hu
  · exact ⟨x, y, h1, h3, h x h2⟩

/-! ### examples -/

/-- Two tied cells; for heat conduction dof 2 is joined to dof 1, for elasticity dof 4 to dof 2 and all dofs to the ground. -/
def exTD (p : Problem) (theta lift g : ℝ) (load : ℕ → ℝ) : TieDemo where
  M := exM 0
  V := exE (if p = .poisson then 1 else 2) fun _ => 1
  EQ := exE 1 fun _ => 1
  mat := fun _ _ => 1
  p := p
  gamma := 1
  theta := theta
  numDofs := if p = .poisson then 3 else 5
  stiff := fun d c => if p = .poisson then (if d = c ∧ 0 < d then 1 else if 0 < d ∧ 0 < c then -1 else 0)
    else (if d = c then 1 else 0)
  load := load
  bc := fun d => if d = (if p = .poisson then 2 else 4) then some g else none
  solve := exSolve (if p = .poisson then 3 else 5)
  lift := lift
  addTie := true
  withU := false

theorem exTD_valid {p : Problem} (hp : p = .poisson ∨ p = .elasticity) (theta lift g load) :
    TieDemoValid (exTD p theta lift g load) := by
  rcases hp with rfl | rfl
  · refine ⟨exM_valid 0, exE_valid 0 1 _, rfl, ?_, Or.inr ⟨rfl, rfl⟩⟩
    obtain ⟨h1, h2⟩ := exE_below 0 1 fun _ => 1
    exact ⟨fun i hi p hp a ha => le_trans (h1 i hi p hp a ha) (by show 2 * 1 ≤ 3; omega),
      fun c hc a ha => le_trans (h2 c hc a ha) (by show 2 * 1 ≤ 3; omega)⟩
  · refine ⟨exM_valid 0, exE_valid 0 2 _, rfl, ?_, Or.inl ⟨rfl, rfl⟩⟩
    obtain ⟨h1, h2⟩ := exE_below 0 2 fun _ => 1
    exact ⟨fun i hi p hp a ha => le_trans (h1 i hi p hp a ha) (by show 2 * 2 ≤ 5; omega),
      fun c hc a ha => le_trans (h2 c hc a ha) (by show 2 * 2 ≤ 5; omega)⟩

theorem exTD_heat (theta lift g load) (u v : ℕ → ℝ) : tiedWork (exTD .poisson theta lift g load) u v
    = (u 1 - u 2) * (v 1 - v 2) + (u 0 - u 1) * (v 0 - v 1) := by
  unfold tiedWork
  have f : formOf (exTD .poisson theta lift g load).numDofs (exTD .poisson theta lift g load).numDofs
      (exTD .poisson theta lift g load).stiff u v = (u 1 - u 2) * (v 1 - v 2) := by
    simp [formOf, exTD, sum_range_succ]
    ring
  have e : tieForm (exTD .poisson theta lift g load) u v = (u 0 - u 1) * (v 0 - v 1) := by
    have hmid : midValue (exE 1 fun _ => 1) 0 0 (fun _ => 1) = 1 := by simp [midValue, exE]
    have e2 : (exM 0).h 0 0 = 1 := rfl
    show heatTie (exM 0) (exE 1 fun _ => 1) (exE 1 fun _ => 1) (fun _ _ => 1) 1 theta u v = _
    unfold heatTie
    rw [exM_sum]
    unfold heatPart
    simp only [exE_jump, exE_grad, hmid, e2]
    simp
    ring
  rw [e, f]

theorem exTD_elastic (theta lift g load) (v : ℕ → ℝ) : ∑ d ∈ range 5, v d ^ 2 ≤ tiedWork (exTD .elasticity theta lift g load) v v := by
  unfold tiedWork
  have h1 : formOf (exTD .elasticity theta lift g load).numDofs (exTD .elasticity theta lift g load).numDofs
      (exTD .elasticity theta lift g load).stiff v v = ∑ d ∈ range 5, v d ^ 2 := by
    unfold formOf
    show ∑ d ∈ range 5, ∑ c ∈ range 5, v d * (if d = c then 1 else 0) * v c = _
    refine sum_congr rfl (fun d hd => ?_)
    rw [sum_eq_single_of_mem d hd (fun c _ hc => by rw [if_neg (Ne.symm hc)]; ring), if_pos rfl]
    ring
  rw [h1]
  refine le_add_of_nonneg_right ?_
  show 0 ≤ elasticTie (exM 0) (exE 2 fun _ => 1) (exE 1 fun _ => 1) (fun _ _ => 1) 1 theta v v
  have hmid : midValue (exE 1 fun _ => 1) 0 0 (fun _ => 1) = 1 := by simp [midValue, exE]
  have e2 : (exM 0).h 0 0 = 1 := rfl
  have e1 : (exM 0).gdim = 2 := rfl
  unfold elasticTie
  rw [exM_sum]
  unfold elasticPart
  simp only [exE_jump, hmid, e2, e1, sum_range_succ, sum_range_zero]
  simp [Elasticity.traction_eq, exE_grad]
  nlinarith [sq_nonneg (v 0 - v 2), sq_nonneg (v 1 - v 3)]

theorem exTD_positive {p : Problem} (hp : p = .poisson ∨ p = .elasticity) (theta lift g load) :
    PositiveOn (exTD p theta lift g load).numDofs (exTD p theta lift g load).bc (tiedWork (exTD p theta lift g load)) := by
  rcases hp with rfl | rfl
  · rintro v hv ⟨d, hd, hne⟩
    have h2 : v 2 = 0 := hv 2 (by show 2 < 3; omega) (by simp [exTD])
    have hd' : d < 3 := hd
    rw [exTD_heat, h2]
    by_contra hcon
    have h1 : v 1 = 0 := by nlinarith [sq_nonneg (v 1), sq_nonneg (v 0 - v 1)]
    rw [h1] at hcon
    have h0 : v 0 = 0 := by nlinarith [sq_nonneg (v 0)]
    interval_cases d
    · exact hne h0
    · exact hne h1
    · exact hne h2
  · rintro v - ⟨d, hd, hne⟩
    refine lt_of_lt_of_le ?_ (exTD_elastic theta lift g load v)
    exact sum_pos' (fun c _ => sq_nonneg _) ⟨d, mem_range.mpr hd, by positivity⟩

theorem exTD_away {p : Problem} (hp : p = .poisson ∨ p = .elasticity) (theta lift g load) :
    AwayFromTie (exTD p theta lift g load).M (exTD p theta lift g load).V (exTD p theta lift g load).numDofs
      (exTD p theta lift g load).bc := by
  intro d hd hb c
  have h2 : d = if p = .poisson then 2 else 4 := by
    by_contra h
    exact hb (if_neg h)
  rcases hp with rfl | rfl
  · have h2 : d = 2 := h2
    subst h2
    show ¬TiedDofs (exM 0) (exE 1 fun _ => 1) 2 c ∧ ¬TiedDofs (exM 0) (exE 1 fun _ => 1) c 2
    rw [exM_tiedDofs, exM_tiedDofs]
    omega
  · have h2 : d = 4 := h2
    subst h2
    exact ⟨fun h => absurd (exE2_tied h).1 (by omega), fun h => absurd (exE2_tied h).2 (by omega)⟩

/-- The hypotheses of C193 and C195 hold for demos with heat conduction and elasticity, with every load and every prescribed
value. -/
example (p : Problem) (hp : p = .poisson ∨ p = .elasticity) (g : ℝ) (load : ℕ → ℝ) : ∃ D : TieDemo, D.p = p ∧ D.load = load
    ∧ TieDemoValid D ∧ TiedFirst D.M ∧ PositiveOn D.numDofs D.bc (tiedWork D) ∧ AwayFromTie D.M D.V D.numDofs D.bc
    ∧ LinearSolver D.numDofs D.solve ∧ D.lift = 1 ∧ D.theta = 1
    ∧ (∀ d < D.numDofs, ∀ c < D.numDofs, D.stiff d c = D.stiff c d) ∧ (∃ d < D.numDofs, D.bc d = some g)
    ∧ ∃ d c, TiedDofs D.M D.V d c := by
  refine ⟨exTD p 1 1 g load, rfl, rfl, exTD_valid hp _ _ _ _, exM_first, exTD_positive hp _ _ _ _, exTD_away hp _ _ _ _,
    exSolve_solver _, rfl, rfl, fun d _ c _ => ?_, ⟨if p = .poisson then 2 else 4, ?_, if_pos rfl⟩, ?_⟩
  · rcases hp with rfl | rfl
    · simp only [exTD, if_true, eq_comm (a := d) (b := c)]
      by_cases h : c = d
      · subst h; rfl
      · simp [h, and_comm]
    · simp [exTD, eq_comm (a := d) (b := c)]
  · rcases hp with rfl | rfl <;> simp [exTD]
  · rcases hp with rfl | rfl
    · refine ⟨0, 1, ?_⟩
      show TiedDofs (exM 0) (exE 1 fun _ => 1) 0 1
      rw [exM_tiedDofs]
      omega
    · have ht := (exM_tied 0).1
      refine ⟨0, 0, 0, Nat.one_pos, 0, Nat.one_pos, ⟨1, Nat.one_lt_two, ht⟩, Or.inl ⟨0, 0, rfl, 0, Nat.one_pos, 0, ?_, rfl⟩,
        Or.inl ⟨0, 0, rfl, 0, Nat.one_pos, 0, ?_, rfl⟩⟩ <;> exact Nat.two_pos

/-- Those of C194 and C195 for the Newton solver with the options of the demos, which starts from zero and moves a dof by one. -/
example : ∃ D : TieDemo, TieDemoValid D ∧ D.p = .elasticity ∧ TiedFirst D.M ∧ PositiveOn D.numDofs D.bc (tiedWork D)
    ∧ AwayFromTie D.M D.V D.numDofs D.bc ∧ LinearSolver D.numDofs D.solve ∧ demoOptions.criterion = "residual"
    ∧ 0 < demoOptions.atol ∧ 0 < demoOptions.maxIt ∧ demoOptions.relaxation = 1 ∧ D.theta = 1 ∧ D.lift = 1
    ∧ (∀ d < D.numDofs, D.load d = 0) ∧ ¬NearlyInBalance D (fun _ => 0) demoOptions.atol (fun _ => 0) := by
  refine ⟨exTD .elasticity 1 1 1 fun _ => 0, exTD_valid (Or.inr rfl) _ _ _ _, rfl, exM_first, exTD_positive (Or.inr rfl) _ _ _ _,
    exTD_away (Or.inr rfl) _ _ _ _, exSolve_solver _, rfl, by norm_num [demoOptions], by norm_num [demoOptions],
    by norm_num [demoOptions], rfl, rfl, fun _ _ => rfl, ?_⟩
  rintro ⟨f, h1, h2, -⟩
  have h3 : |(0 : ℝ) - 1| = |f 4| := h2 4 (by show 4 < 5; omega) 1 rfl
  have h4 : f 4 ^ 2 ≤ ∑ d ∈ range 5, f d ^ 2 := single_le_sum (f := fun d => f d ^ 2) (fun d _ => sq_nonneg _) (mem_range.mpr (by omega))
  rw [← sq_abs, ← h3] at h4
  have h5 : (1 : ℝ) ≤ Real.sqrt (∑ d ∈ range 5, f d ^ 2) := Real.one_le_sqrt.mpr (by
    calc (1 : ℝ) = |(0 : ℝ) - 1| ^ 2 := by norm_num
      _ ≤ _ := h4)
  have h6 : Real.sqrt (∑ d ∈ range 5, f d ^ 2) < 1e-7 := h1
  norm_num at h6
  linarith

/-- C193 fails with `alpha = -1.0`, for every prescribed value other than zero: heat conduction without sources in two tied cells
and a dof with temperature `g`; they get the temperature `-g` instead of `g`. -/
theorem C193_lifting_violated (g : ℝ) (hg : g ≠ 0) : ∃ D : TieDemo, TieDemoValid D ∧ TiedFirst D.M
    ∧ PositiveOn D.numDofs D.bc (tiedWork D) ∧ AwayFromTie D.M D.V D.numDofs D.bc ∧ LinearSolver D.numDofs D.solve ∧ D.lift = -1
    ∧ (∀ d, D.load d = 0) ∧ D.bc 2 = some g ∧ InBalance D (loadWork D) (fun _ => g)
    ∧ ∃ u, D.run = some u ∧ u 0 = -g ∧ u 1 = -g ∧ u 2 = g ∧ ¬InBalance D (loadWork D) u := by
  set D := exTD .poisson 1 (-1) g fun _ => 0 with hD
  have v1 : TieDemoValid D := exTD_valid (Or.inl rfl) _ _ _ _
  have v2 := exTD_positive (Or.inl rfl) 1 (-1) g fun _ => 0
  have v3 := exTD_away (Or.inl rfl) 1 (-1) g fun _ => 0
  have hl : loadWork D = fun _ => 0 := by
    funext v
    exact sum_eq_zero (fun d _ => by show (0 : ℝ) * _ = 0; rw [zero_mul])
  have hbal : InBalance D (loadWork D) (fun _ => g) := by
    refine ⟨fun d hd g' hg' => ?_, fun v _ => ?_⟩
    · have : (if d = 2 then some g else none) = some g' := hg'
      split_ifs at this
      exact Option.some.inj this
    · rw [exTD_heat, hl]
      ring
  obtain ⟨u, w, h1, h2, h3, h4⟩ := C193_opposite v1 exM_first v2 v3 (exSolve_solver 3) rfl
  have hw2 : w 2 = -g := h3.1 2 (by show 2 < 3; omega) (-g) rfl
  have hbalw : InBalance (exTD .poisson 1 (-1) (-g) fun _ => 0) (fun _ => 0) w := by
    refine ⟨fun d hd g' hg' => ?_, fun v hv => ?_⟩
    · have : (if d = 2 then some (-g) else none) = some g' := hg'
      split_ifs at this with h
      rw [h, hw2]
      exact Option.some.inj this
    · have := h3.2 v (fun d hd hb => hv d hd (by
        have hb' : (if d = 2 then some g else none).map (fun g => -g) ≠ none := hb
        show (if d = 2 then some (-g) else none) ≠ none
        split_ifs at hb' ⊢ with h
        · simp
        · exact absurd rfl hb'))
      rw [hl] at this
      rw [exTD_heat]
      rw [← this]
      exact (exTD_heat 1 (-1) g (fun _ => 0) w v).symm
  have hbal' : InBalance (exTD .poisson 1 (-1) (-g) fun _ => 0) (fun _ => 0) (fun _ => -g) := by
    refine ⟨fun d hd g' hg' => ?_, fun v _ => ?_⟩
    · have : (if d = 2 then some (-g) else none) = some g' := hg'
      split_ifs at this
      exact Option.some.inj this
    · rw [exTD_heat]
      ring
  have key := balance_unique (exTD_valid (Or.inl rfl) 1 (-1) (-g) fun _ => 0) exM_first
    (exTD_positive (Or.inl rfl) 1 (-1) (-g) fun _ => 0) hbal' hbalw
  have u0 : u 0 = -g := (h4 0 (by show 0 < 3; omega) rfl).trans (key 0 (by show 0 < 3; omega))
  refine ⟨D, v1, exM_first, v2, v3, exSolve_solver 3, rfl, fun _ => rfl, rfl, hbal, u, h1, u0, ?_, ?_, fun hu => ?_⟩
  · exact (h4 1 (by show 1 < 3; omega) rfl).trans (key 1 (by show 1 < 3; omega))
  · exact h2 2 (by show 2 < 3; omega) g rfl
  · have := balance_unique v1 exM_first v2 hbal hu 0 (by show 0 < 3; omega)
    rw [u0] at this
    exact hg (by linarith)

/-- C193 fails if a value is prescribed at a cell with a tied point, whatever `alpha` is: the prescribed value one becomes two. -/
theorem C193_prescribed_violated (lift : ℝ) : ∃ D : TieDemo, TieDemoValid D ∧ TiedFirst D.M
    ∧ PositiveOn D.numDofs D.bc (tiedWork D) ∧ LinearSolver D.numDofs D.solve ∧ D.lift = lift ∧ (∀ d, D.load d = 0)
    ∧ D.bc 1 = some 1 ∧ 1 < D.numDofs ∧ ∃ u, D.run = some u ∧ u 1 = 2 := by
  set D : TieDemo := { exTD .poisson 1 lift 1 (fun _ => 0) with
    numDofs := 2, stiff := fun d c => if d = c then 1 else 0, bc := fun d => if d = 1 then some 1 else none, solve := exSolve 2 }
    with hD
  have v1 : TieDemoValid D := ⟨exM_valid 0, exE_valid 0 1 _, rfl, exE_below 0 1 fun _ => 1, Or.inr ⟨rfl, rfl⟩⟩
  have hwork : ∀ u v, tiedWork D u v = u 0 * v 0 + u 1 * v 1 + (u 0 - u 1) * (v 0 - v 1) := by
    intro u v
    unfold tiedWork
    have e : tieForm D u v = (u 0 - u 1) * (v 0 - v 1) := exD_heatTie u v
    rw [e]
    simp [hD, formOf, sum_range_succ]
    ring
  have v2 : PositiveOn D.numDofs D.bc (tiedWork D) := by
    rintro v - ⟨d, hd, hne⟩
    have hd' : d < 2 := hd
    rw [hwork]
    interval_cases d
    · have := mul_self_pos.mpr hne
      nlinarith [mul_self_nonneg (v 1), mul_self_nonneg (v 0 - v 1)]
    · have := mul_self_pos.mpr hne
      nlinarith [mul_self_nonneg (v 0), mul_self_nonneg (v 0 - v 1)]
  refine ⟨D, v1, exM_first, v2, exSolve_solver 2, rfl, fun _ => rfl, rfl, Nat.one_lt_two, ?_⟩
  obtain ⟨A, b, h1, h2, -, h4⟩ := run_raw v1 exM_first
  refine ⟨_, h1, ?_⟩
  have hA : ∀ u v : ℕ → ℝ, ∑ d ∈ range 2, ∑ c ∈ range 2, v d * ((if d = c then 1 else 0) + A (d, c)) * u c
      = u 0 * v 0 + u 1 * v 1 + (u 0 - u 1) * (v 0 - v 1) := fun u v => (h2 u v).trans (hwork u v)
  have a00 := hA (fun d => if d = 0 then 1 else 0) (fun d => if d = 0 then 1 else 0)
  have a01 := hA (fun d => if d = 1 then 1 else 0) (fun d => if d = 0 then 1 else 0)
  have a10 := hA (fun d => if d = 0 then 1 else 0) (fun d => if d = 1 then 1 else 0)
  simp [sum_range_succ] at a00 a01 a10
  have b0 : b 0 = 0 := h4 0 (by show 0 < 2; omega)
  set B := bcMatrix D.bc A D.stiff with hB
  set f := D.rhs (fun d => b d + D.load d) with hf
  have B00 : B (0, 0) = 2 := by
    simp [hB, bcMatrix, hD]
    linarith
  have B01 : B (0, 1) = -1 := by simp [hB, bcMatrix, hD, a01]
  have B10 : B (1, 0) = -1 := by simp [hB, bcMatrix, hD, a10]
  have B11 : B (1, 1) = 1 := by simp [hB, bcMatrix, hD]
  have f0 : f 0 = 0 := by
    have : D.load 0 = 0 := rfl
    simp [hf, TieDemo.rhs, hD, b0, sum_range_succ, exTD]
  have f1 : f 1 = 1 := by
    simp [hf, TieDemo.rhs, hD]
  have hs := exSolve_solver 2 B (fun b => ⟨fun d => if d = 0 then b 0 + b 1 else b 0 + 2 * b 1, fun d hd => by
    interval_cases d
    · simp [sum_range_succ, B00, B01]; ring
    · simp [sum_range_succ, B10, B11]; ring⟩) f
  have e0 := hs 0 (by omega)
  have e1 := hs 1 (by omega)
  simp only [sum_range_succ, sum_range_zero, B00, B01, B10, B11, f0, f1] at e0 e1
  show exSolve 2 B f 1 = 2
  linarith

end

end Verif.TieData
