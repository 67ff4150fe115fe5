import Verif.Props.Newton

/-!
A Newton solve, possibly by a solver used before, whose first step leads to a zero of the residual.
-/

namespace Verif.Newton

variable {V B M C : Type} [AddCommGroup V] [Module ℝ V]

theorem solve_near_step (P : Problem V B M C) (rank0 : Bool) (s : St V B C) (hpre : ∀ x, P.pre x = x)
    (hpost : ∀ x, P.post x = x) (hrelax : s.relax ≠ none) (hcrit : s.opts.crit = .residual)
    (hmax : 1 ≤ s.opts.maxIt) (hatol : 0 < s.opts.atol) (hrtol : 0 < s.opts.rtol) (c0 : C) (hc0 : c0 = P.coefficients s.x s.coeffs)
    (dx : V) (its : ℕ) (reason : ℤ)
    (hlin : P.linSolve (P.jacobian s.x c0) (P.residual s.x c0) (s.dx.getD 0) = (dx, its, reason)) (hreason : 0 < reason)
    (x1 : V) (hx1 : x1 = s.x + (-1 : ℝ) • dx) (hzero : P.normB (P.residual x1 (P.coefficients x1 c0)) = 0)
    (hnn : 0 ≤ P.normB (P.residual s.x c0)) (hne : P.normV dx ≠ 0) :
    (∃ s', solve P rank0 .function s = (s', .ok (1, true)) ∧ s'.x = x1)
    ∨ (∃ s', solve P rank0 .function s = (s', .ok (0, true)) ∧ s'.x = s.x ∧ s.initialResidual ≠ 0
      ∧ P.normB (P.residual s.x c0) < s.opts.atol) := by
  rw [solve_function _ _ _ (Or.inr (Or.inl hrelax))]
  obtain ⟨opts, it, kr, ir, lr, relax, dx0, x, cf, b, nr, nl⟩ := s
  obtain ⟨maxIt, rtol, atol, crit, eon⟩ := opts
  dsimp only at *
  subst hcrit hc0
  obtain ⟨r, rfl⟩ : ∃ r, relax = some r := by
    cases relax with
    | none => exact absurd rfl hrelax
    | some r => exact ⟨r, rfl⟩
  obtain ⟨m, rfl⟩ : ∃ m, maxIt = m + 1 := ⟨maxIt - 1, by omega⟩
  have e1 : updateSolution 1.0 dx x = x1 := by
    rw [hx1]
    unfold updateSolution
    congr 2
    norm_num
  have hls : ∀ st : St V B C, P.normB st.b = 0 →
      lineSearch P x dx (P.normB (P.residual x (P.coefficients x cf))) 8 1.0 st = some (1.0, st) := by
    intro st hst
    unfold lineSearch
    rw [if_neg (by rw [hst]; exact not_lt.mpr hnn)]
  have hck : ∀ st : St V B C, st.relax ≠ none → st.opts.rtol = rtol → st.opts.atol = atol → st.initialResidual ≠ 0 →
      checkConvergence rank0 st 0 = .ok (0, true) := by
    intro st h1 h2 h3 h4
    unfold checkConvergence
    rw [if_neg (fun h => h1 h.2)]
    simp only [if_neg h4, h2, h3, zero_div, hrtol, hatol, decide_true, Bool.and_self]
  have hbody : ∀ st : St V B C, st.opts = ⟨m + 1, rtol, atol, .residual, eon⟩ → st.x = x → st.coeffs = P.coefficients x cf →
      st.b = P.residual x (P.coefficients x cf) → st.dx = dx0 → st.iteration = 0 →
      ∃ s', body P rank0 (P.normB (P.residual x (P.coefficients x cf))) st = (s', .ok (true, 0)) ∧ s'.x = x1 ∧ s'.iteration = 1
        ∧ s'.opts = st.opts := by
    intro st k1 k2 k3 k4 k5 k6
    unfold body
    rw [k2, k3, k4, k5]
    simp only [hlin]
    rw [if_neg (by push Not; exact hreason)]
    rw [e1]
    rw [hls _ (by unfold evaluate; dsimp only; rw [hpost]; exact hzero)]
    unfold evaluate testConvergence
    simp only [k6, if_true, zero_add, k1, hpost, k3]
    simp only [hzero]
    rw [hck _ (by simp) rfl rfl hne]
    exact ⟨_, rfl, rfl, rfl, rfl⟩
  obtain ⟨conv, k1, k0⟩ := checkConvergence_ok rank0 (⟨⟨m + 1, rtol, atol, .residual, eon⟩, 0, 0, ir, -1, some r, dx0, x,
    P.coefficients x cf, P.residual x (P.coefficients x cf), nr + 1, nl⟩ : St V B C)
    (P.normB (P.residual x (P.coefficients x cf))) (Or.inr (by simp))
  unfold solveInner
  dsimp only
  rw [hpre, k1]
  dsimp only
  cases conv with
  | true =>
    right
    have k := k0.mp rfl
    unfold newtonLoop
    rw [if_neg (by simp)]
    refine ⟨⟨⟨m + 1, rtol, atol, .residual, eon⟩, 0, 0, ir, P.normB (P.residual x (P.coefficients x cf)), some r, dx0, x,
      P.coefficients x cf, P.residual x (P.coefficients x cf), nr + 1, nl⟩, ?_, rfl, k.1, k.2.2⟩
    simp only [Bool.true_eq_false, false_and, if_false]
  | false =>
    left
    obtain ⟨s', h1, h2, h3, h4⟩ := hbody ⟨⟨m + 1, rtol, atol, .residual, eon⟩, 0, 0, ir,
      P.normB (P.residual x (P.coefficients x cf)), some r, dx0, x, P.coefficients x cf,
      P.residual x (P.coefficients x cf), nr + 1, nl⟩ rfl rfl rfl rfl rfl rfl
    refine ⟨s', ?_, h2⟩
    unfold newtonLoop
    rw [if_pos ⟨rfl, Nat.succ_pos m⟩, h1]
    dsimp only
    unfold newtonLoop
    rw [if_neg (by simp)]
    simp [h3]

end Verif.Newton
