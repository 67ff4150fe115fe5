import Verif.Spec.Newton
import Mathlib.Tactic.Linarith
import Mathlib.Tactic.NormNum
import Mathlib.Tactic.Ring
import Mathlib.Tactic.IntervalCases

namespace Verif.Newton

open Spec

variable {V B M C : Type} [AddCommGroup V] [Module ℝ V]

theorem updateSolution_eq (r : ℝ) (dx x : V) : updateSolution r dx x = x - r • dx := by
  simp [updateSolution, sub_eq_add_neg]

/-- The adaptive relaxation loop ends, at a factor `2^-k'` with `k ≤ k' ≤ 6`. -/
theorem lineSearch_spec (P : Problem V B M C) (xCopy dx : V) (resOld : ℝ) :
    ∀ (fuel k : ℕ) (s : St V B C), k ≤ 6 → 7 ≤ fuel + k →
      (∃ c, s.coeffs = P.coefficients (xCopy - ((1 / 2 : ℝ) ^ k) • dx) c) →
      s.x = P.post (xCopy - ((1 / 2 : ℝ) ^ k) • dx) →
      s.b = P.residual s.x s.coeffs →
      ∃ (k' : ℕ) (s' : St V B C), k ≤ k' ∧ k' ≤ 6 ∧
        lineSearch P xCopy dx resOld fuel ((1 / 2 : ℝ) ^ k) s = some ((1 / 2 : ℝ) ^ k', s') ∧
        (∃ c, s'.coeffs = P.coefficients (xCopy - ((1 / 2 : ℝ) ^ k') • dx) c) ∧
        s'.x = P.post (xCopy - ((1 / 2 : ℝ) ^ k') • dx) ∧
        s'.b = P.residual s'.x s'.coeffs ∧
        (P.normB s'.b ≤ resOld ∨ k' = 6) ∧
        s' = { s with x := s'.x, coeffs := s'.coeffs, b := s'.b, nRes := s.nRes + (k' - k) } := by
  intro fuel
  induction fuel with
  | zero => intro k s hk hf; omega
  | succ fuel ih =>
    intro k s hk hf hc hx hb
    unfold lineSearch
    by_cases hlt : resOld < P.normB s.b
    · rw [if_pos hlt]
      have hrel : (0.5 : ℝ) * (1 / 2) ^ k = (1 / 2) ^ (k + 1) := by rw [pow_succ]; ring
      by_cases hk6 : k = 6
      · have : (0.5 : ℝ) * (1 / 2) ^ k < 1e-2 := by subst hk6; norm_num
        refine ⟨k, s, le_refl _, hk, ?_, hc, hx, hb, Or.inr hk6, ?_⟩
        · simp only [if_pos this, Option.some.injEq, Prod.mk.injEq, and_true]
          ring
        · simp
      · have hk5 : k ≤ 5 := by omega
        have hnot : ¬ ((0.5 : ℝ) * (1 / 2) ^ k < 1e-2) := by
          interval_cases k <;> norm_num
        simp only [if_neg hnot]
        rw [hrel, updateSolution_eq]
        obtain ⟨k', s', h1, h2, h3, h4, h5, h6, h7, h8⟩ := ih (k + 1)
          (evaluate P s (xCopy - ((1 / 2 : ℝ) ^ (k + 1)) • dx)) (by omega) (by omega)
          ⟨_, rfl⟩ rfl rfl
        refine ⟨k', s', by omega, h2, h3, h4, h5, h6, h7, ?_⟩
        rw [h8]
        simp only [evaluate, St.mk.injEq, true_and, and_true]
        omega
    · rw [if_neg hlt]
      exact ⟨k, s, le_refl _, hk, rfl, hc, hx, hb, Or.inl (not_lt.mp hlt), by simp⟩

omit [AddCommGroup V] [Module ℝ V] in
/-- The convergence test decides `Accepts`, provided the relaxation attribute exists. -/
theorem checkConvergence_ok (rank0 : Bool) (s : St V B C) (r : ℝ)
    (h : rank0 = false ∨ s.relax ≠ none) :
    ∃ conv, checkConvergence rank0 s r = .ok (r, conv) ∧
      (conv = true ↔ s.initialResidual ≠ 0 ∧ r / s.initialResidual < s.opts.rtol ∧
        r < s.opts.atol) := by
  unfold checkConvergence
  have : ¬ (rank0 = true ∧ s.relax = none) := by
    rintro ⟨h1, h2⟩; rcases h with h | h <;> simp_all
  simp only [if_neg this]
  refine ⟨_, rfl, ?_⟩
  by_cases h0 : s.initialResidual = 0
  · simp [h0]
  · simp [h0]

theorem testConvergence_ok (P : Problem V B M C) (rank0 : Bool) (s : St V B C)
    (h : rank0 = false ∨ s.relax ≠ none) (hit : 1 ≤ s.iteration) :
    ∃ r conv, testConvergence P rank0 s = .ok (r, conv) ∧ (conv = true ↔ Accepts P s) := by
  unfold testConvergence Accepts
  cases hc : s.opts.crit with
  | residual =>
    obtain ⟨conv, h1, h2⟩ := checkConvergence_ok rank0 s (P.normB s.b) h
    exact ⟨_, conv, h1, h2⟩
  | incremental =>
    by_cases hi : s.iteration = 1
    · exact ⟨1, false, by simp [hi], by simp [hi]⟩
    · obtain ⟨conv, h1, h2⟩ := checkConvergence_ok rank0 s (P.normV (s.dx.getD 0)) h
      refine ⟨P.normV (s.dx.getD 0), conv, by simp [hi, h1], ?_⟩
      rw [h2]
      constructor
      · intro h; exact ⟨by omega, h⟩
      · intro h; exact h.2

/-- One pass of the loop body: either the Krylov assertion fails or it is a damped Newton step. -/
theorem body_spec (P : Problem V B M C) (rank0 : Bool) (s : St V B C) :
    (∃ s1, body P rank0 (P.normB s.b) s = (s1, .error .assertionError) ∧
      ¬ 0 < (P.linSolve (P.jacobian s.x s.coeffs) s.b (s.dx.getD 0)).2.2 ∧
      s1.x = s.x ∧ s1.iteration = s.iteration ∧ s1.opts = s.opts ∧ s1.nLin = s.nLin + 1 ∧
      s1.nRes = s.nRes) ∨
    ∃ s' conv, body P rank0 (P.normB s.b) s = (s', .ok (conv, P.normB s'.b)) ∧
      NewtonStep P s s' ∧ (conv = true ↔ Accepts P s') := by
  rcases hls : P.linSolve (P.jacobian s.x s.coeffs) s.b (s.dx.getD 0) with ⟨dx, its, reason⟩
  by_cases hr : reason > 0
  · right
    let s1 : St V B C := { s with relax := some 1.0, dx := some dx, krylov := s.krylov + its, nLin := s.nLin + 1, iteration := s.iteration + 1 }
    let s2 := evaluate P s1 (s.x - ((1 / 2 : ℝ) ^ 0) • dx)
    obtain ⟨k, s3, h1, h2, h3, ⟨c, h4⟩, h5, h6, h7, h8⟩ :=
      lineSearch_spec P s.x dx (P.normB s.b) 8 0 s2 (by omega) (by omega) ⟨_, rfl⟩ rfl rfl
    have e1 : ((1 / 2 : ℝ) ^ 0) = 1.0 := by norm_num
    have e2 : evaluate P s1 (updateSolution 1.0 dx s.x) = s2 := by
      rw [updateSolution_eq]; simp only [s2, e1]
    let s4 : St V B C := { s3 with relax := some ((1 / 2 : ℝ) ^ k) }
    let s5 : St V B C := if s4.iteration = 1 then { s4 with initialResidual := P.normV dx } else s4
    have hs3it : s3.iteration = s.iteration + 1 := by rw [h8]; simp [s2, s1, evaluate]
    have hs3ir : s3.initialResidual = s.initialResidual := by rw [h8]; simp [s2, s1, evaluate]
    have hs5 : s5 = { s4 with initialResidual :=
        if s.iteration = 0 then P.normV dx else s.initialResidual } := by
      simp only [s5, s4, hs3it]
      by_cases h0 : s.iteration = 0
      · simp [h0]
      · simp [h0, ← hs3ir]
    obtain ⟨r, conv, ht, hacc⟩ := testConvergence_ok P rank0 s5
      (Or.inr (by rw [hs5]; simp [s4])) (by rw [hs5]; simp [s4, hs3it])
    refine ⟨{ s5 with lastResidual := r }, conv, ?_, ?_, ?_⟩
    · have hb5 : s5.b = s3.b := by rw [hs5]
      rw [e1] at h3
      unfold body
      simp only [hls, hr, not_true_eq_false, if_false]
      change (match lineSearch P s.x dx (P.normB s.b) 8 1.0 (evaluate P s1 (updateSolution 1.0 dx s.x)) with
        | none => _
        | some (relax, s) => _) = _
      rw [e2, h3]
      change (match testConvergence P rank0 s5 with
        | .error e => (s5, Except.error e)
        | .ok (r, conv) => ({ s5 with lastResidual := r }, Except.ok (conv, P.normB s3.b))) = _
      rw [ht, hb5]
    · refine ⟨dx, its, reason, k, c, hls, hr, h2, ?_⟩
      have hs3 : s3.nRes = s.nRes + 1 + k ∧ s3.nLin = s.nLin + 1 ∧ s3.krylov = s.krylov + its ∧
          s3.opts = s.opts ∧ s3.dx = some dx := by
        rw [h8]; simp [s2, s1, evaluate]
      rw [hs5]
      exact ⟨h5, h4, h6, h7, rfl, hs3.2.2.2.2, hs3.1, hs3.2.1, hs3it, hs3.2.2.1, hs3.2.2.2.1, rfl⟩
    · rw [hacc]; rfl
  · left
    refine ⟨{ s with relax := some 1.0, dx := some dx, krylov := s.krylov + its, nLin := s.nLin + 1 }, ?_, by simpa using hr, ?_⟩
    · unfold body
      simp only [hls, hr, not_false_eq_true, if_true]
    · simp

theorem newtonLoop_spec (P : Problem V B M C) (rank0 : Bool) :
    ∀ (fuel : ℕ) (conv : Bool) (s : St V B C), s.opts.maxIt < fuel + s.iteration → 
      s.iteration ≤ s.opts.maxIt → (conv = true ↔ Accepts P s) →
      (∃ s' conv' n, newtonLoop P rank0 fuel conv (P.normB s.b) s = (s', .ok conv') ∧
        Chain P n s s' ∧ s.iteration + n ≤ s.opts.maxIt ∧ (conv' = true ↔ Accepts P s') ∧
        (conv' = false → s.iteration + n = s.opts.maxIt)) ∨
      (∃ s' s'' n, newtonLoop P rank0 fuel conv (P.normB s.b) s = (s'', .error .assertionError) ∧
        Chain P n s s' ∧ s.iteration + n < s.opts.maxIt ∧ s''.x = s'.x ∧
        s''.nLin = s'.nLin + 1 ∧ s''.nRes = s'.nRes ∧ s''.opts = s'.opts ∧
        ¬ 0 < (P.linSolve (P.jacobian s'.x s'.coeffs) s'.b (s'.dx.getD 0)).2.2) := by
  intro fuel
  induction fuel with
  | zero => intro conv s h1 h2; omega
  | succ fuel ih =>
    intro conv s hfuel hle hconv
    unfold newtonLoop
    by_cases hc : conv = false ∧ s.iteration < s.opts.maxIt
    · simp only [if_pos hc]
      have hna : ¬ Accepts P s := by rw [← hconv]; simp [hc.1]
      rcases body_spec P rank0 s with ⟨s1, h1, h2, h3, h4, h5, h6, h7⟩ | ⟨s', conv', h1, h2, h3⟩
      · right
        refine ⟨s, s1, 0, by rw [h1], Chain.nil s, by omega, h3, h6, h7, h5, h2⟩
      · rw [h1]
        have hit : s'.iteration = s.iteration + 1 := by
          obtain ⟨_, _, _, _, _, h⟩ := h2; exact h.2.2.2.2.2.2.2.2.2.2.2.1
        have hop : s'.opts = s.opts := by
          obtain ⟨_, _, _, _, _, h⟩ := h2; exact h.2.2.2.2.2.2.2.2.2.2.2.2.2.1
        rcases ih conv' s' (by rw [hop, hit]; omega) (by rw [hop, hit]; omega) h3 with
          ⟨t, cv, n, e1, e2, e3, e4, e5⟩ | ⟨t, t', n, e1, e2, e3, e4⟩
        · left
          rw [hop, hit] at e3 e5
          exact ⟨t, cv, n + 1, e1, Chain.cons hna h2 e2, by omega, e4, fun h => by
            have := e5 h; omega⟩
        · right
          rw [hop, hit] at e3
          exact ⟨t, t', n + 1, e1, Chain.cons hna h2 e2, by omega, e4⟩
    · left
      rw [if_neg hc]
      refine ⟨s, conv, 0, rfl, Chain.nil s, by omega, hconv, fun h => ?_⟩
      have : ¬ s.iteration < s.opts.maxIt := fun h' => hc ⟨h, h'⟩
      omega

theorem Spec.Chain.opts {P : Problem V B M C} {n : ℕ} {s s' : St V B C} (h : Chain P n s s') :
    s'.opts = s.opts := by
  induction h with
  | nil => rfl
  | cons _ hs _ ih => obtain ⟨_, _, _, _, _, h⟩ := hs; rw [ih]; exact h.2.2.2.2.2.2.2.2.2.2.2.2.2.1

theorem Spec.Chain.iteration {P : Problem V B M C} {n : ℕ} {s s' : St V B C} (h : Chain P n s s') :
    s'.iteration = s.iteration + n := by
  induction h with
  | nil => rfl
  | cons _ hs _ ih =>
    obtain ⟨_, _, _, _, _, h⟩ := hs
    have := h.2.2.2.2.2.2.2.2.2.2.2.1
    omega

theorem Spec.Chain.nLin {P : Problem V B M C} {n : ℕ} {s s' : St V B C} (h : Chain P n s s') :
    s'.nLin = s.nLin + n := by
  induction h with
  | nil => rfl
  | cons _ hs _ ih =>
    obtain ⟨_, _, _, _, _, h⟩ := hs
    have := h.2.2.2.2.2.2.2.2.2.2.1
    omega

theorem Spec.Chain.nRes {P : Problem V B M C} {n : ℕ} {s s' : St V B C} (h : Chain P n s s') :
    s.nRes + n ≤ s'.nRes ∧ s'.nRes ≤ s.nRes + 7 * n := by
  induction h with
  | nil => simp
  | cons _ hs _ ih =>
    obtain ⟨_, _, _, _, _, h⟩ := hs
    have h1 := h.2.2.2.2.2.2.2.2.2.1
    have h2 := h.2.2.1
    omega

theorem Spec.Chain.inSync {P : Problem V B M C} {n : ℕ} {s s' : St V B C} (h : Chain P n s s')
    (h0 : InSync P s) : InSync P s' := by
  induction h with
  | nil => exact h0
  | cons _ hs _ ih => obtain ⟨_, _, _, _, _, h⟩ := hs; exact ih h.2.2.2.2.2.1

/-- The whole of `_solve`. -/
theorem solveInner_spec (P : Problem V B M C) (rank0 : Bool) (s : St V B C) :
    ∃ s0, Started P s s0 ∧
    ((rank0 = true ∧ s.relax = none ∧ s.opts.crit = .residual ∧
        solveInner P rank0 s = (s0, .error .attributeError)) ∨
     (¬ (rank0 = true ∧ s.relax = none ∧ s.opts.crit = .residual) ∧
      ((∃ s' n conv, Chain P n s0 s' ∧ n ≤ s.opts.maxIt ∧ (conv = true ↔ Accepts P s') ∧
        (conv = false → n = s.opts.maxIt) ∧
        solveInner P rank0 s = (s', if conv = false ∧ s.opts.errorOnNonconvergence = true
          then .error .runtimeError else .ok (n, conv))) ∨
       (∃ s' s'' n, Chain P n s0 s' ∧ n < s.opts.maxIt ∧ s''.x = s'.x ∧
        s''.nLin = s'.nLin + 1 ∧ s''.nRes = s'.nRes ∧ s''.opts = s'.opts ∧
        ¬ 0 < (P.linSolve (P.jacobian s'.x s'.coeffs) s'.b (s'.dx.getD 0)).2.2 ∧
        solveInner P rank0 s = (s'', .error .assertionError))))) := by
  let sA : St V B C := { s with iteration := 0, krylov := 0, lastResidual := -1, coeffs := P.coefficients s.x s.coeffs, x := P.pre s.x, b := P.residual (P.pre s.x) (P.coefficients s.x s.coeffs), nRes := s.nRes + 1 }
  have hstart : Started P s sA := by
    refine ⟨rfl, rfl, rfl, rfl, rfl, rfl, rfl, rfl, rfl, rfl, rfl⟩
  -- the loop from a state that differs from sA only in `lastResidual`
  have key : ∀ (r : ℝ) (conv : Bool), (conv = true ↔ Accepts P sA) →
      ∀ (hsolve : solveInner P rank0 s =
        match newtonLoop P rank0 (s.opts.maxIt + 1) conv (P.normB sA.b) { sA with lastResidual := r } with
        | (s, .error e) => (s, .error e)
        | (s, .ok conv) =>
          if conv = false ∧ s.opts.errorOnNonconvergence = true then (s, .error .runtimeError)
          else (s, .ok (s.iteration, conv))),
      ∃ s0, Started P s s0 ∧
      ((∃ s' n conv, Chain P n s0 s' ∧ n ≤ s.opts.maxIt ∧ (conv = true ↔ Accepts P s') ∧
        (conv = false → n = s.opts.maxIt) ∧
        solveInner P rank0 s = (s', if conv = false ∧ s.opts.errorOnNonconvergence = true
          then .error .runtimeError else .ok (n, conv))) ∨
       (∃ s' s'' n, Chain P n s0 s' ∧ n < s.opts.maxIt ∧ s''.x = s'.x ∧
        s''.nLin = s'.nLin + 1 ∧ s''.nRes = s'.nRes ∧ s''.opts = s'.opts ∧
        ¬ 0 < (P.linSolve (P.jacobian s'.x s'.coeffs) s'.b (s'.dx.getD 0)).2.2 ∧
        solveInner P rank0 s = (s'', .error .assertionError))) := by
    intro r conv hconv hsolve
    refine ⟨{ sA with lastResidual := r }, hstart, ?_⟩
    rcases newtonLoop_spec P rank0 (s.opts.maxIt + 1) conv { sA with lastResidual := r }
      (by simp [sA]) (by simp [sA]) hconv with
      ⟨s', conv', n, e1, e2, e3, e4, e5⟩ | ⟨s', s'', n, e1, e2, e3, e4, e5, e6, e7, e8⟩
    · left
      have hi := e2.iteration
      have ho := e2.opts
      simp only [sA, zero_add] at e3 e5 hi ho
      refine ⟨s', n, conv', e2, e3, e4, e5, ?_⟩
      rw [hsolve]
      change (match newtonLoop P rank0 (s.opts.maxIt + 1) conv (P.normB sA.b) { sA with lastResidual := r } with
        | (s, .error e) => _ | (s, .ok conv) => _) = _
      change newtonLoop P rank0 (s.opts.maxIt + 1) conv (P.normB sA.b) { sA with lastResidual := r } = _ at e1
      rw [e1]
      simp only [ho, hi]
      split_ifs <;> rfl
    · right
      simp only [sA, zero_add] at e3
      refine ⟨s', s'', n, e2, e3, e4, e5, e6, e7, e8, ?_⟩
      rw [hsolve]
      change newtonLoop P rank0 (s.opts.maxIt + 1) conv (P.normB sA.b) { sA with lastResidual := r } = _ at e1
      rw [e1]
  cases hc : s.opts.crit with
  | residual =>
    by_cases hbad : rank0 = true ∧ s.relax = none
    · refine ⟨sA, hstart, Or.inl ⟨hbad.1, hbad.2, rfl, ?_⟩⟩
      unfold solveInner
      simp only [hc]
      simp [checkConvergence, hbad.1, hbad.2, sA]
    · obtain ⟨conv, h1, h2⟩ := checkConvergence_ok rank0 sA (P.normB sA.b) (by
        by_cases h : rank0 = true
        · right; intro h'; exact hbad ⟨h, h'⟩
        · left; simpa using h)
      obtain ⟨s0, hs0, h⟩ := key (P.normB sA.b) conv (by
        rw [h2]; simp only [Accepts, sA, hc]) (by
        unfold solveInner
        simp only [hc]
        change (match (match checkConvergence rank0 sA (P.normB sA.b) with
          | .error e => (sA, Except.error e)
          | .ok (r, conv) => ({ sA with lastResidual := r }, Except.ok conv)) with
          | (s, .error e) => _ | (s, .ok conv) => _) = _
        rw [h1]
        rfl)
      exact ⟨s0, hs0, Or.inr ⟨fun h' => hbad ⟨h'.1, h'.2.1⟩, h⟩⟩
  | incremental =>
    obtain ⟨s0, hs0, h⟩ := key (-1) false (by simp [Accepts, sA, hc]) (by
        unfold solveInner
        simp only [hc]
        rfl)
    exact ⟨s0, hs0, Or.inr ⟨fun h' => by simp at h', h⟩⟩

end Verif.Newton
