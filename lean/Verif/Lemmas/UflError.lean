import Verif.Lemmas.UflNewton

/-! What a converged run of Newton's method in `nitsche_ufl` and `nitsche_rigid_surface` has found. -/

namespace Verif.UflDriver

open Finset Verif.OneSided Verif.Snes Verif.Scalars Verif.Lemmas Spec

noncomputable section

variable {P : Params} {M : Mesh} {Q : Quad} {S : Support} {Fm : Forms} {o : Options} {lin : LinSolver}

theorem update_of (hf : Fits P M Q S Fm) {x dx : ℕ → ℝ}
    (h : ∀ d < numDofs P M, ∑ c ∈ range (numDofs P M), jacobian P M Fm x d c * dx c = residual P M Fm x d) :
    IsUpdate P M Q S (byNode P x) (byNode P dx) := by
  obtain ⟨h1, h2⟩ := (step_iff hf x dx).mp h
  refine ⟨fun a ha g hg i hi => ?_, fun v hv => ?_⟩
  · exact h1 _ (dof_lt ha hi) _ (by rw [hf.bc a i hi, hg]; rfl)
  · have e1 := linearised_congr (P := P) (M := M) (Q := Q) (S := S) hf.dim (byNode P x) (fun _ _ _ _ => rfl)
      (fun a _ i hi => byNode_flat (P := P) (a := a) v hi) (w := byNode P dx) (z := v)
    have e2 := total_congr (P := P) (M := M) (Q := Q) (S := S) hf.dim (fun _ _ _ _ => rfl)
      (fun a _ i hi => byNode_flat (P := P) (a := a) v hi) (u := byNode P x) (z := v)
    rw [← e1, ← e2, linearised_eq, tangent_expand hf.dim, total_expand hf.dim]
    refine sum_congr rfl (fun d hd => ?_)
    cases hb : Fm.bc d with
    | none => rw [h2 d (mem_free.mpr ⟨mem_range.mp hd, hb⟩)]
    | some g => unfold flat; rw [admissible_iff hf hv hb, zero_mul, zero_mul]

theorem small_of (hf : Fits P M Q S Fm) (hlin : ExactSolver (numDofs P M) lin) {x : ℕ → ℝ} {R r : ℝ}
    (h : converged o R r) (hR : ∃ first, lin (jacobian P M Fm x) (residual P M Fm x) = some first ∧ R = norm2 (numDofs P M) first) :
    Tolerated P M Q S o.atol o.rtol (byNode P x) r := by
  rcases h with ⟨h0, h⟩ | h
  · obtain ⟨first, h1, h2⟩ := hR
    refine Or.inr ⟨byNode P first, update_of hf (hlin.1 _ _ _ h1), ?_⟩
    rw [size_eq, ← h2]
    have : 0 < R := lt_of_le_of_ne (by rw [h2]; exact norm2_nonneg _ _) (Ne.symm h0)
    rwa [div_lt_iff₀ this] at h
  · exact Or.inl h

/-- A converged run is close to a displacement with the prescribed values that is almost in equilibrium. -/
theorem converged_near (hf : Fits P M Q S Fm) : ∃ C, 0 ≤ C ∧ ∀ (o : Options) (lin : LinSolver) (x : ℕ → ℝ) (n : ℕ) (y : ℕ → ℝ),
    ExactSolver (numDofs P M) lin → newtonSolve P M Fm o lin x = .ok (n, true, y) →
    ∃ δ, 0 ≤ δ ∧ Tolerated P M Q S o.atol o.rtol (byNode P x) δ ∧ ∃ p : ℕ → ℝ,
      (∀ d < numDofs P M, ∀ g, Fm.bc d = some g → p d = g)
      ∧ (∀ d < numDofs P M, |y d - p d| ≤ (1 + |1 - o.relaxation|) * δ)
      ∧ ∀ d ∈ free P M Fm, |(system P M Q S).res p d| ≤ C * δ := by
  obtain ⟨C1, hC1, hstep⟩ := (system P M Q S).step_bound
  obtain ⟨C2, hC2, hlip⟩ := (system P M Q S).res_lip
  obtain ⟨C3, hC3, hmat⟩ := (system P M Q S).mat_bound
  refine ⟨2 * C1 + (1 + numDofs P M * C3 + C2), by positivity, fun o lin x n y hlin h => ?_⟩
  have hRes : ∀ δ, norm2 (numDofs P M) (residual P M Fm y) = δ → ∃ p : ℕ → ℝ,
      (∀ d < numDofs P M, ∀ g, Fm.bc d = some g → p d = g)
      ∧ (∀ d < numDofs P M, |y d - p d| ≤ (1 + |1 - o.relaxation|) * δ)
      ∧ ∀ d ∈ free P M Fm, |(system P M Q S).res p d| ≤ (2 * C1 + (1 + numDofs P M * C3 + C2)) * δ := by
    rintro δ rfl
    set δ := norm2 (numDofs P M) (residual P M Fm y)
    have hδ : 0 ≤ δ := norm2_nonneg _ _
    have hoff : ∀ d < numDofs P M, |off Fm y d| ≤ δ := by
      intro d hd
      cases hb : Fm.bc d with
      | none => unfold off; rw [hb]; simpa using hδ
      | some g =>
        have := le_norm2 (residual P M Fm y) hd
        have e : residual P M Fm y d = off Fm y d := by
          unfold residual off; rw [hb]; norm_num
        rwa [e] at this
    have hlipy := hlip (fun d => y d - off Fm y d) y δ (fun d hd => by
      rw [sub_sub_cancel_left, abs_neg]; exact hoff d hd)
    refine ⟨fun d => y d - off Fm y d, fun d hd g hg => ?_, fun d hd => ?_, fun d hd => ?_⟩
    · change y d - off Fm y d = g
      unfold off; rw [hg]; ring
    · rw [sub_sub_cancel]
      have := mul_nonneg (abs_nonneg (1 - o.relaxation)) hδ
      linarith [hoff d hd]
    · obtain ⟨hN, hb⟩ := mem_free.mp hd
      have h1 := hlipy d hN
      have h2 := le_norm2 (residual P M Fm y) hN
      rw [residual_free hf y hN hb] at h2
      have h3 : |∑ c ∈ range (numDofs P M), (system P M Q S).mat y d c * off Fm y c| ≤ numDofs P M * C3 * δ := by
        refine (abs_sum_le_sum_abs _ _).trans ?_
        have : ∀ c ∈ range (numDofs P M), |(system P M Q S).mat y d c * off Fm y c| ≤ C3 * δ := by
          intro c hc
          rw [abs_mul]
          exact mul_le_mul (hmat _ (fun _ => PL.slope_range _) d hN c (mem_range.mp hc)) (hoff c (mem_range.mp hc))
            (abs_nonneg _) hC3
        refine (sum_le_sum this).trans_eq ?_
        rw [sum_const, card_range, nsmul_eq_mul]; ring
      have hC1δ := mul_nonneg hC1 hδ
      rw [abs_le] at h1 h2 h3 ⊢
      constructor <;> linarith [h1.1, h1.2, h2.1, h2.2, h3.1, h3.2]
  unfold newtonSolve at h
  split at h
  · cases h
  rename_i hcr
  split at h
  · rename_i hc
    injection h with h
    have h2 := (Prod.mk.inj (Prod.mk.inj h).2).2
    obtain ⟨_, hc⟩ := hc
    rw [h2] at hc
    refine ⟨_, norm2_nonneg _ _, Or.inl ?_, hRes _ rfl⟩
    rcases hc with hc | hc
    · exact absurd rfl hc.1
    · exact hc
  · cases hl : newtonLoop P M Fm o lin o.maxIt 0 0 x with
    | error e => rw [hl] at h; cases h
    | ok t =>
      obtain ⟨n', b, y'⟩ := t
      rw [hl] at h
      simp only at h
      split at h
      · cases h
      injection h with h
      obtain ⟨h1, h⟩ := Prod.mk.inj h
      obtain ⟨hb, h2⟩ := Prod.mk.inj h
      subst h1 hb h2
      obtain ⟨z, dx, R, e1, e2, e3, _, e5⟩ := loop_converged _ _ _ _ hl
      have hsm := fun r (hr : converged o R r) => small_of (P := P) (M := M) (Q := Q) (S := S) hf hlin hr (e5 rfl)
      split at e3
      · exact ⟨_, norm2_nonneg _ _, hsm _ e3, hRes _ rfl⟩
      · refine ⟨_, norm2_nonneg _ _, hsm _ e3, fun d => z d - 1 * dx d, ?_, ?_, ?_⟩
        · intro d hd g hg
          change z d - 1 * dx d = g
          rw [((step_iff hf z dx).mp (hlin.1 _ _ _ e1)).1 d hd g hg]; ring
        · intro d hd
          rw [e2]
          have : (fun d => z d - o.relaxation * dx d) d - (z d - 1 * dx d) = (1 - o.relaxation) * dx d := by ring
          rw [this, abs_mul]
          have h1 := mul_le_mul_of_nonneg_left (le_norm2 dx hd) (abs_nonneg (1 - o.relaxation))
          have h2 := norm2_nonneg (numDofs P M) dx
          linarith
        · intro d hd
          have h1 := hstep z dx 1 _ (fun c hc => le_norm2 dx hc) d (mem_free.mp hd).1
            (((step_iff hf z dx).mp (hlin.1 _ _ _ e1)).2 d hd).symm
          rw [abs_one] at h1
          have h2 := norm2_nonneg (numDofs P M) dx
          have h3 : 0 ≤ (1 + numDofs P M * C3 + C2) * norm2 (numDofs P M) dx := by positivity
          change |(system P M Q S).res (fun d => z d - 1 * dx d) d| ≤ C1 * (1 + 1) * norm2 (numDofs P M) dx at h1
          linarith

/-- A converged run is almost in equilibrium. -/
theorem converged_work (hf : Fits P M Q S Fm) : ∃ C, ∀ (o : Options) (lin : LinSolver) (x : ℕ → ℝ) (n : ℕ) (y : ℕ → ℝ),
    ExactSolver (numDofs P M) lin → newtonSolve P M Fm o lin x = .ok (n, true, y) →
    ∃ δ, Tolerated P M Q S o.atol o.rtol (byNode P x) δ ∧ (∀ a < M.numNodes, ∀ g, S.fixed a = some g → ∀ i < P.dim,
        |byNode P y a i - g i| ≤ (1 + |1 - o.relaxation|) * δ)
      ∧ ∀ v, Virtual P S v → |totalWork P M Q S (byNode P y) v| ≤ C * (1 + |1 - o.relaxation|) * δ * nodalSize P M v := by
  obtain ⟨C, hC, hnear⟩ := converged_near hf
  obtain ⟨C2, hC2, hlip⟩ := (system P M Q S).res_lip
  refine ⟨numDofs P M * (C + C2), fun o lin x n y hlin h => ?_⟩
  obtain ⟨δ, hδ, hs, p, hp1, hp2, hp3⟩ := hnear o lin x n y hlin h
  refine ⟨δ, hs, fun a ha g hg i hi => ?_, fun v hv => ?_⟩
  · have := hp2 _ (dof_lt ha hi)
    rwa [hp1 _ (dof_lt ha hi) _ (by rw [hf.bc a i hi, hg]; rfl)] at this
  have e2 := total_congr (P := P) (M := M) (Q := Q) (S := S) hf.dim (fun _ _ _ _ => rfl)
    (fun a _ i hi => byNode_flat (P := P) (a := a) v hi) (u := byNode P y) (z := v)
  have e3 := size_congr (P := P) (M := M) (v := v) (fun a _ i hi => byNode_flat (P := P) (a := a) v hi)
  rw [← e2, ← e3, total_expand hf.dim, size_eq]
  have hw : (0:ℝ) ≤ 1 + |1 - o.relaxation| := by positivity
  have := sum_le_norm2 (numDofs P M) (flat P v) ((system P M Q S).res y) (b := (C + C2) * (1 + |1 - o.relaxation|) * δ) (by
    intro d hd hne
    have hfr : d ∈ free P M Fm := by
      refine mem_free.mpr ⟨hd, ?_⟩
      cases hb : Fm.bc d with
      | none => rfl
      | some g => exact absurd (admissible_iff hf hv hb) hne
    have h1 := hp3 d hfr
    have h2 := hlip y p _ hp2 d hd
    have h3 : 0 ≤ C * (|1 - o.relaxation| * δ) := by positivity
    rw [abs_le] at h1 h2 ⊢
    constructor <;> nlinarith [h1.1, h1.2, h2.1, h2.2]) (by positivity)
  refine this.trans_eq ?_
  ring

theorem norm2_le {N : ℕ} {v : ℕ → ℝ} {b : ℝ} (hb : 0 ≤ b) (h : ∀ d < N, |v d| ≤ b) : norm2 N v ≤ N * b := by
  unfold norm2
  rw [Real.sqrt_le_left (by positivity)]
  have : ∀ d ∈ range N, v d ^ 2 ≤ b ^ 2 := fun d hd => sq_le_sq' (by linarith [abs_le.mp (h d (mem_range.mp hd))]) (abs_le.mp (h d (mem_range.mp hd))).2
  refine (sum_le_sum this).trans ?_
  rw [sum_const, card_range, nsmul_eq_mul, mul_pow]
  rcases Nat.eq_zero_or_pos N with h0 | h0
  · simp [h0]
  · have : (1:ℝ) ≤ N := by exact_mod_cast h0
    nlinarith [sq_nonneg b, mul_nonneg (sub_nonneg.mpr this) (sq_nonneg b)]

/-- Exactly one equilibrium. -/
theorem equilibrium_unique (hf : Fits P M Q S Fm) (hs : Sound Q S) (hst : Stiff P M Q S) :
    ∃ s : ℕ → ℝ, AtRest P M Q S (byNode P s)
      ∧ ∀ w, AtRest P M Q S w → ∀ a < M.numNodes, ∀ i < P.dim, w a i = byNode P s a i := by
  obtain ⟨s, ⟨h1, h2⟩, huniq⟩ := (system P M Q S).exists_unique (F := free P M Fm) (fun d hd => (mem_free.mp hd).1)
    (lower P M Q S) (lower_pos hf hst) (fun m hm v _ => lower_le hf.dim hs m hm v)
    (fun d => if d < numDofs P M then (Fm.bc d).getD 0 else 0)
  obtain ⟨C2, _, hlip⟩ := (system P M Q S).res_lip
  refine ⟨s, (equilibrium_iff hf s).mpr ⟨fun d hd g hg => ?_, h2⟩, fun w hw a ha i hi => ?_⟩
  · rw [h1 d (fun hm => by have := (mem_free.mp hm).2; rw [hg] at this; cases this), if_pos hd, hg]; rfl
  · have hw' : AtRest P M Q S (byNode P (flat P w)) := by
      refine ⟨fun a ha g hg i hi => (byNode_flat w hi).trans (hw.1 a ha g hg i hi), fun v hv => ?_⟩
      rw [total_congr hf.dim (w := w) (v := v) (z := v) (fun a _ i hi => byNode_flat w hi) (fun _ _ _ _ => rfl), hw.2 v hv]
    obtain ⟨e1, e2⟩ := (equilibrium_iff hf _).mp hw'
    have := huniq (fun d => if d < numDofs P M then flat P w d else 0) ⟨fun d hd => ?_, fun d hd => ?_⟩
    · have := congrFun this (P.dim * a + i)
      rw [if_pos (dof_lt ha hi)] at this
      rw [← byNode_flat w hi]; exact this
    · change (if d < numDofs P M then flat P w d else 0) = if d < numDofs P M then (Fm.bc d).getD 0 else 0
      by_cases hN : d < numDofs P M
      · rw [if_pos hN, if_pos hN]
        cases hb : Fm.bc d with
        | none => exact absurd (mem_free.mpr ⟨hN, hb⟩) hd
        | some g => rw [e1 d hN g hb]; rfl
      · rw [if_neg hN, if_neg hN]
    · have h3 := hlip (fun d => if d < numDofs P M then flat P w d else 0) (flat P w) 0 (fun c hc => by
        change |(if c < numDofs P M then flat P w c else 0) - flat P w c| ≤ 0
        rw [if_pos (show c < numDofs P M from hc), sub_self, abs_zero]) d (mem_free.mp hd).1
      rw [mul_zero, e2 d hd, sub_zero] at h3
      exact abs_eq_zero.mp (le_antisymm h3 (abs_nonneg _))

/-- A converged run is close to the equilibrium. -/
theorem converged_close (hf : Fits P M Q S Fm) (hs : Sound Q S) (hst : Stiff P M Q S) :
    ∃ C, ∀ (o : Options) (lin : LinSolver) (x : ℕ → ℝ) (n : ℕ) (y s : ℕ → ℝ), ExactSolver (numDofs P M) lin →
      AtRest P M Q S (byNode P s) → newtonSolve P M Fm o lin x = .ok (n, true, y) →
      ∃ δ, Tolerated P M Q S o.atol o.rtol (byNode P x) δ
        ∧ norm2 (numDofs P M) (fun d => y d - s d) ≤ C * (1 + |1 - o.relaxation|) * δ := by
  obtain ⟨C, hC, hnear⟩ := converged_near hf
  obtain ⟨C2, hC2, hlip⟩ := (system P M Q S).res_lip
  obtain ⟨m, hm, hstrong⟩ := (system P M Q S).strong (F := free P M Fm) (fun d hd => (mem_free.mp hd).1)
    (lower P M Q S) (lower_pos hf hst) (fun m hm v _ => lower_le hf.dim hs m hm v)
  refine ⟨numDofs P M * C / m + numDofs P M, fun o lin x n y s hlin hes h => ?_⟩
  obtain ⟨δ, hδ, hsm, p, hp1, hp2, hp3⟩ := hnear o lin x n y hlin h
  obtain ⟨e1, e2⟩ := (equilibrium_iff hf s).mp hes
  refine ⟨δ, hsm, ?_⟩
  set p' : ℕ → ℝ := fun d => if d < numDofs P M then p d else s d with hp'
  have hpp : ∀ d < numDofs P M, p' d = p d := fun d hd => if_pos hd
  have hres : ∀ d < numDofs P M, (system P M Q S).res p' d = (system P M Q S).res p d := by
    intro d hd
    have := hlip p' p 0 (fun c hc => by rw [hpp c hc, sub_self, abs_zero]) d hd
    rw [mul_zero] at this
    exact sub_eq_zero.mp (abs_eq_zero.mp (le_antisymm this (abs_nonneg _)))
  have hoff : ∀ d, d ∉ free P M Fm → p' d = s d := by
    intro d hd
    by_cases hN : d < numDofs P M
    · cases hb : Fm.bc d with
      | none => exact absurd (mem_free.mpr ⟨hN, hb⟩) hd
      | some g => rw [hpp d hN, hp1 d hN g hb, e1 d hN g hb]
    · exact if_neg hN
  have key := hstrong p' s hoff
  have hsum : ∑ d ∈ range (system P M Q S).N, ((system P M Q S).res p' d - (system P M Q S).res s d) * (p' d - s d)
      ≤ numDofs P M * (C * δ) * norm2 (numDofs P M) (fun d => p' d - s d) := by
    refine le_trans (le_abs_self _) ?_
    have := sum_le_norm2 (numDofs P M) (fun d => p' d - s d)
      (fun d => (system P M Q S).res p' d - (system P M Q S).res s d) (b := C * δ) (by
        intro d hd hne
        have hfr : d ∈ free P M Fm := by
          by_contra hn; exact hne (sub_eq_zero.mpr (hoff d hn))
        rw [e2 d hfr, sub_zero, hres d hd]
        exact hp3 d hfr) (by positivity)
    refine le_trans (le_of_eq ?_) this
    refine congrArg _ (sum_congr rfl (fun d _ => mul_comm _ _))
  have hsq : ∑ d ∈ range (system P M Q S).N, (p' d - s d) ^ 2 = norm2 (numDofs P M) (fun d => p' d - s d) ^ 2 := by
    unfold norm2
    rw [Real.sq_sqrt (sum_nonneg (fun _ _ => sq_nonneg _))]
    rfl
  rw [hsq] at key
  have hps : norm2 (numDofs P M) (fun d => p' d - s d) ≤ numDofs P M * C / m * δ := by
    have h0 := norm2_nonneg (numDofs P M) (fun d => p' d - s d)
    set t := norm2 (numDofs P M) (fun d => p' d - s d)
    rcases eq_or_lt_of_le h0 with h0 | h0
    · rw [← h0]; positivity
    · have : m * t ^ 2 ≤ numDofs P M * (C * δ) * t := key.trans hsum
      have h2 : m * t ≤ numDofs P M * (C * δ) := by
        by_contra hcon
        push Not at hcon
        have := mul_lt_mul_of_pos_right hcon h0
        nlinarith
      rw [div_mul_eq_mul_div, le_div_iff₀ hm]
      linarith
  have hyp : norm2 (numDofs P M) (fun d => y d - p' d) ≤ numDofs P M * ((1 + |1 - o.relaxation|) * δ) :=
    norm2_le (by positivity) (fun d hd => by rw [hpp d hd]; exact hp2 d hd)
  have htri := norm2_triangle (numDofs P M) (fun d => y d - p' d) (fun d => p' d - s d)
  simp only [sub_add_sub_cancel] at htri
  have : numDofs P M * C / m * δ ≤ numDofs P M * C / m * ((1 + |1 - o.relaxation|) * δ) := by
    refine mul_le_mul_of_nonneg_left ?_ (by positivity)
    have := mul_nonneg (abs_nonneg (1 - o.relaxation)) hδ
    linarith
  nlinarith

/-- Prescribed values of any run. -/
theorem solve_prescribed (hf : Fits P M Q S Fm) (hlin : ExactSolver (numDofs P M) lin) {x : ℕ → ℝ} {n : ℕ} {b : Bool} {y : ℕ → ℝ}
    (h : newtonSolve P M Fm o lin x = .ok (n, b, y)) (a : ℕ) (ha : a < M.numNodes) (g : ℕ → ℝ) (hg : S.fixed a = some g)
    (i : ℕ) (hi : i < P.dim) : byNode P y a i - g i = (1 - o.relaxation) ^ n * (byNode P x a i - g i) := by
  unfold newtonSolve at h
  split at h
  · cases h
  split at h
  · injection h with h
    obtain ⟨h1, h⟩ := Prod.mk.inj h
    rw [← h1, ← (Prod.mk.inj h).2, pow_zero, one_mul]
  · cases hl : newtonLoop P M Fm o lin o.maxIt 0 0 x with
    | error e => rw [hl] at h; cases h
    | ok t =>
      obtain ⟨n', b', y'⟩ := t
      rw [hl] at h
      simp only at h
      split at h
      · cases h
      injection h with h
      obtain ⟨h1, h⟩ := Prod.mk.inj h
      obtain ⟨hb, h2⟩ := Prod.mk.inj h
      subst h1 hb h2
      obtain ⟨j, hj, _, hall⟩ := loop_prescribed hf hlin _ _ _ _ hl
      rw [hj, zero_add]
      exact hall _ (dof_lt ha hi) _ (by rw [hf.bc a i hi, hg]; rfl)

/-- There is an exact linear solver. -/
theorem exists_solver (N : ℕ) : ∃ lin, ExactSolver N lin := by
  classical
  refine ⟨fun A b => if h : ∃ x : ℕ → ℝ, ∀ d < N, ∑ c ∈ range N, A d c * x c = b d then some h.choose else none, ?_, ?_⟩
  · intro A b x h
    simp only at h
    split at h
    · rename_i hx
      injection h with h
      rw [← h]; exact hx.choose_spec
    · cases h
  · rintro A b ⟨x, hx⟩
    simp only
    rw [dif_pos ⟨x, (hx x).mpr (fun _ _ => rfl)⟩]
    simp

/-- A run from near the solution. -/
theorem solve_near (hf : Fits P M Q S Fm) (hs : Sound Q S) (hst : Stiff P M Q S) (hlin : ExactSolver (numDofs P M) lin)
    (hcrit : o.criterion = "incremental") (ho : 0 < o.relaxation) (ho1 : o.relaxation ≤ 1) (hat : 0 < o.atol)
    {s x : ℕ → ℝ} (he : AtRest P M Q S (byNode P s)) (hsame : ContactKept P M Q S (byNode P x) (byNode P s))
    (k : ℕ) (hk : IsLeast (MayStop o.relaxation o.atol o.rtol (norm2 (numDofs P M) (fun d => x d - s d))) k) :
    if k ≤ o.maxIt then ∃ y, newtonSolve P M Fm o lin x = .ok (k, true, y)
        ∧ ∀ d < numDofs P M, y d - s d = (1 - o.relaxation) ^ k * (x d - s d)
    else if o.errorOnNonconvergence then newtonSolve P M Fm o lin x = .error "RuntimeError"
    else ∃ y, newtonSolve P M Fm o lin x = .ok (o.maxIt, false, y)
        ∧ ∀ d < numDofs P M, y d - s d = (1 - o.relaxation) ^ o.maxIt * (x d - s d) := by
  obtain ⟨y, hy, hl⟩ := loop_near hf hs hst hlin hcrit ho ho1 hat he hsame k hk.1.1 hk.1.2 (fun j hj hjk hc => Nat.not_le_of_lt hjk (hk.2 ⟨hj, hc⟩)) o.maxIt 0 (lt_of_lt_of_le Nat.two_pos hk.1.1) 0
    (fun h => absurd rfl h) x (fun d _ => by rw [pow_zero]; ring)
  rw [zero_add] at hl hy
  have hsolve : newtonSolve P M Fm o lin x = if decide (k ≤ o.maxIt) = false ∧ o.errorOnNonconvergence then .error "RuntimeError"
      else .ok (min k o.maxIt, decide (k ≤ o.maxIt), y) := by
    unfold newtonSolve
    rw [if_neg (by rw [hcrit]; simp), if_neg (by rw [hcrit]; simp), hl]
  rw [hsolve]
  split_ifs with h1 h2 h3 h4
  · simp [h1] at h2
  · rw [min_eq_left h1, decide_eq_true h1]
    rw [min_eq_left h1] at hy
    exact ⟨y, rfl, fun d hd => by rw [hy d hd]; ring⟩
  · rfl
  · exact absurd ⟨decide_eq_false h1, h3⟩ h4
  · rename_i h5; exact absurd h5.2 h3
  · rw [min_eq_right (by omega), decide_eq_false h1]
    rw [min_eq_right (by omega)] at hy
    exact ⟨y, rfl, fun d hd => by rw [hy d hd]; ring⟩

theorem tolerated_congr (hd : 0 < P.dim) {u w : ℕ → ℕ → ℝ} {at' rt δ : ℝ}
    (h : ∀ a < M.numNodes, ∀ i < P.dim, u a i = w a i) (ht : Tolerated P M Q S at' rt u δ) : Tolerated P M Q S at' rt w δ := by
  rcases ht with ht | ⟨first, ⟨h1, h2⟩, h3⟩
  · exact Or.inl ht
  · refine Or.inr ⟨first, ⟨fun a ha g hg i hi => ?_, fun v hv => ?_⟩, h3⟩
    · rw [← h a ha i hi]; exact h1 a ha g hg i hi
    · rw [← total_congr hd h (fun _ _ _ _ => rfl), ← h2 v hv]
      unfold linearisedWork
      simp only [pressed_congr hd h]

theorem same_congr (hd : 0 < P.dim) {u u' w w' : ℕ → ℕ → ℝ} (h : ∀ a < M.numNodes, ∀ i < P.dim, u a i = u' a i)
    (h' : ∀ a < M.numNodes, ∀ i < P.dim, w a i = w' a i) (hs : ContactKept P M Q S u w) : ContactKept P M Q S u' w' := by
  intro k hk
  rw [← pressed_congr hd h, ← pressed_congr hd h']
  exact hs k hk

/-- A run from near the solution, by node. -/
theorem solve_near_nodal (hf : Fits P M Q S Fm) (hs : Sound Q S) (hst : Stiff P M Q S) (hlin : ExactSolver (numDofs P M) lin)
    (hcrit : o.criterion = "incremental") (ho : 0 < o.relaxation) (ho1 : o.relaxation ≤ 1) (hat : 0 < o.atol)
    {w t : ℕ → ℕ → ℝ} {x : ℕ → ℝ} (he : AtRest P M Q S w) (hx : ∀ a < M.numNodes, ∀ i < P.dim, byNode P x a i = t a i)
    (hsame : ContactKept P M Q S t w) (k : ℕ)
    (hk : IsLeast (MayStop o.relaxation o.atol o.rtol (nodalSize P M (fun a i => t a i - w a i))) k) :
    if k ≤ o.maxIt then ∃ y, newtonSolve P M Fm o lin x = .ok (k, true, y)
        ∧ ∀ a < M.numNodes, ∀ i < P.dim, byNode P y a i - w a i = (1 - o.relaxation) ^ k * (t a i - w a i)
    else if o.errorOnNonconvergence then newtonSolve P M Fm o lin x = .error "RuntimeError"
    else ∃ y, newtonSolve P M Fm o lin x = .ok (o.maxIt, false, y)
        ∧ ∀ a < M.numNodes, ∀ i < P.dim, byNode P y a i - w a i = (1 - o.relaxation) ^ o.maxIt * (t a i - w a i) := by
  have hw : ∀ a < M.numNodes, ∀ i < P.dim, w a i = byNode P (flat P w) a i := fun a _ i hi => (byNode_flat w hi).symm
  have he' : AtRest P M Q S (byNode P (flat P w)) := by
    refine ⟨fun a ha g hg i hi => (byNode_flat w hi).trans (he.1 a ha g hg i hi), fun v hv => ?_⟩
    rw [← total_congr hf.dim hw (fun _ _ _ _ => rfl), he.2 v hv]
  have hsame' := same_congr hf.dim (fun a ha i hi => (hx a ha i hi).symm) hw hsame
  have hsz : nodalSize P M (fun a i => t a i - w a i) = norm2 (numDofs P M) (fun d => x d - flat P w d) := by
    rw [← size_eq]
    refine size_congr (fun a ha i hi => ?_)
    rw [← hx a ha i hi, hw a ha i hi]; rfl
  rw [hsz] at hk
  have := solve_near hf hs hst hlin hcrit ho ho1 hat he' hsame' k hk
  have hval : ∀ (j : ℕ) (y : ℕ → ℝ), (∀ d < numDofs P M, y d - flat P w d = (1 - o.relaxation) ^ j * (x d - flat P w d)) →
      ∀ a < M.numNodes, ∀ i < P.dim, byNode P y a i - w a i = (1 - o.relaxation) ^ j * (t a i - w a i) := by
    intro j y h a ha i hi
    rw [← hx a ha i hi, hw a ha i hi]
    exact h _ (dof_lt ha hi)
  split_ifs at this ⊢ with h1 h2
  · obtain ⟨y, e1, e2⟩ := this
    exact ⟨y, e1, hval k y e2⟩
  · exact this
  · obtain ⟨y, e1, e2⟩ := this
    exact ⟨y, e1, hval _ y e2⟩

end

end Verif.UflDriver
