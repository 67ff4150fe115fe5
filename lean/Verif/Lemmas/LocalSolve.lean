import Mathlib.Tactic.Positivity
import Mathlib.Tactic.GCongr
import Mathlib.Tactic.FieldSimp
import Mathlib.Tactic.Linarith
import Verif.Props.Newton

/-!
A Newton solve from near a solution, when the error after a full step is at most a multiple of the square of the error
before: only full steps are made, and the solve converges.
-/

namespace Verif.Newton

variable {V B M C : Type} [AddCommGroup V] [Module ℝ V]

/-- The behaviour near a solution: `e x` is the error of `x`. -/
structure Near (P : Problem V B M C) (Good : C → Prop) (e : V → ℝ) (δ a L Cq : ℝ) : Prop where
  pre : ∀ x, P.pre x = x
  post : ∀ x, P.post x = x
  nonneg : ∀ x, 0 ≤ e x
  normB : ∀ b, 0 ≤ P.normB b
  good : ∀ x c, Good c → Good (P.coefficients x c)
  upper : ∀ x c, Good c → e x < δ → P.normB (P.residual x (P.coefficients x c)) ≤ L * e x
  lower : ∀ x c, Good c → e x < δ → a * e x ≤ P.normB (P.residual x (P.coefficients x c))
  step : ∀ x c dx0, Good c → e x < δ → ∃ dx its reason,
    P.linSolve (P.jacobian x (P.coefficients x c)) (P.residual x (P.coefficients x c)) dx0 = (dx, its, reason)
      ∧ 0 < reason ∧ e (x + (-1 : ℝ) • dx) ≤ Cq * e x ^ 2 ∧ e x - Cq * e x ^ 2 ≤ P.normV dx

/-- The state is up to date: vector and coefficients are those of the current `x`. -/
structure InStep (P : Problem V B M C) (Good : C → Prop) (s : St V B C) : Prop where
  coeffs : ∃ c, Good c ∧ s.coeffs = P.coefficients s.x c
  b : s.b = P.residual s.x s.coeffs
  relax : s.relax ≠ none
  crit : s.opts.crit = .residual

section

variable {P : Problem V B M C} {Good : C → Prop} {e : V → ℝ} {δ a L Cq : ℝ}

theorem InStep.good (H : Near P Good e δ a L Cq) {s : St V B C} (h : InStep P Good s) : Good s.coeffs := by
  obtain ⟨c, h1, h2⟩ := h.coeffs
  rw [h2]
  exact H.good _ _ h1

theorem body_near (H : Near P Good e δ a L Cq) {D : ℝ} (hL : 0 ≤ L) (hD : D ≤ δ)
    (hmono : ∀ r, 0 ≤ r → r < D → L * (Cq * r ^ 2) ≤ a * r) (hsmall : ∀ r, 0 ≤ r → r < D → Cq * r ^ 2 < δ)
    (rank0 : Bool) {s : St V B C} (hs : InStep P Good s) (he : e s.x < D) :
    ∃ s' conv dx, body P rank0 (P.normB s.b) s = (s', .ok (conv, P.normB s'.b)) ∧ InStep P Good s' ∧ s'.opts = s.opts
      ∧ s'.iteration = s.iteration + 1 ∧ s'.nRes = s.nRes + 1 ∧ s'.nLin = s.nLin + 1
      ∧ e s'.x ≤ Cq * e s.x ^ 2 ∧ e s.x - Cq * e s.x ^ 2 ≤ P.normV dx
      ∧ s'.initialResidual = (if s.iteration = 0 then P.normV dx else s.initialResidual)
      ∧ (conv = true ↔ s'.initialResidual ≠ 0 ∧ P.normB s'.b / s'.initialResidual < s.opts.rtol ∧ P.normB s'.b < s.opts.atol) := by
  obtain ⟨c, hc1, hc2⟩ := hs.coeffs
  have hg := hs.good H
  obtain ⟨dx, its, reason, h1, h2, h3, h4⟩ := H.step s.x c (s.dx.getD 0) hc1 (he.trans_le hD)
  rw [← hc2] at h1
  obtain ⟨x1, hx1⟩ : ∃ x1, x1 = s.x + (-1 : ℝ) • dx := ⟨_, rfl⟩
  rw [← hx1] at h3
  have e1 : updateSolution 1.0 dx s.x = x1 := by
    rw [hx1]
    unfold updateSolution
    congr 2
    norm_num
  have hx1δ : e x1 < δ := h3.trans_lt (hsmall _ (H.nonneg _) he)
  have hle : P.normB (P.residual x1 (P.coefficients x1 s.coeffs)) ≤ P.normB s.b := by
    refine (H.upper x1 s.coeffs hg hx1δ).trans ((mul_le_mul_of_nonneg_left h3 hL).trans ((hmono _ (H.nonneg _) he).trans ?_))
    have := H.lower s.x c hc1 (he.trans_le hD)
    rwa [← hc2, ← hs.b] at this
  have hls : ∀ st : St V B C, P.normB st.b ≤ P.normB s.b → lineSearch P s.x dx (P.normB s.b) 8 1.0 st = some (1.0, st) := by
    intro st hst
    unfold lineSearch
    rw [if_neg (not_lt.mpr hst)]
  obtain ⟨s2, hs2⟩ : ∃ s2 : St V B C, s2 = { s with relax := some 1.0, dx := some dx, krylov := s.krylov + its, nLin := s.nLin + 1,
                                                    iteration := s.iteration + 1, x := x1, coeffs := P.coefficients x1 s.coeffs,
                                                    b := P.residual x1 (P.coefficients x1 s.coeffs), nRes := s.nRes + 1,
                                                    initialResidual := if s.iteration = 0 then P.normV dx else s.initialResidual } :=
    ⟨_, rfl⟩
  obtain ⟨conv, k1, k0⟩ := checkConvergence_ok rank0 s2 (P.normB s2.b) (Or.inr (by rw [hs2]; simp))
  have ht : testConvergence P rank0 s2 = .ok (P.normB s2.b, conv) := by
    unfold testConvergence
    rw [show s2.opts.crit = .residual by rw [hs2]; exact hs.crit]
    exact k1
  refine ⟨{ s2 with lastResidual := P.normB s2.b }, conv, dx, ?_, ⟨⟨s.coeffs, hg, ?_⟩, ?_, ?_, ?_⟩, ?_, ?_, ?_, ?_, ?_, h4, ?_, ?_⟩
  · unfold body
    simp only [hs.b ▸ h1]
    rw [if_neg (by push Not; exact h2)]
    rw [e1]
    rw [hls _ (by unfold evaluate; dsimp only; rw [H.post]; exact hle)]
    unfold evaluate
    dsimp only
    rw [H.post]
    have e2 : (if s.iteration + 1 = 1 then
        ({ s with relax := some 1.0, dx := some dx, krylov := s.krylov + its, nLin := s.nLin + 1,
                  iteration := s.iteration + 1, x := x1, coeffs := P.coefficients x1 s.coeffs,
                  b := P.residual x1 (P.coefficients x1 s.coeffs), nRes := s.nRes + 1,
                  initialResidual := P.normV dx } : St V B C)
        else { s with relax := some 1.0, dx := some dx, krylov := s.krylov + its, nLin := s.nLin + 1,
                      iteration := s.iteration + 1, x := x1, coeffs := P.coefficients x1 s.coeffs,
                      b := P.residual x1 (P.coefficients x1 s.coeffs), nRes := s.nRes + 1 }) = s2 := by
      rw [hs2]
      by_cases h0 : s.iteration = 0
      · rw [if_pos (by omega), if_pos h0]
      · rw [if_neg (by omega), if_neg h0]
    rw [e2, ht]
    dsimp only
    rw [hs2]
  all_goals first | (rw [hs2]; done) | (rw [hs2]; simp; done) | skip
  · rw [hs2]; exact hs.crit
  · rw [hs2]; exact h3
  · rw [k0, hs2]

/-- The loop. `n` iterations suffice, if then the residual is small enough for both tests. -/
theorem loop_near (H : Near P Good e δ a L Cq) {D : ℝ} (hL : 0 ≤ L) (hD : D ≤ δ)
    (hmono : ∀ r, 0 ≤ r → r < D → L * (Cq * r ^ 2) ≤ a * r) (hsmall : ∀ r, 0 ≤ r → r < D → Cq * r ^ 2 < δ)
    (rank0 : Bool) (E : ℕ → ℝ) (hE : ∀ k, E k < D) (hE1 : ∀ k r, 0 ≤ r → r ≤ E k → Cq * r ^ 2 ≤ E (k + 1))
    (n : ℕ) {rtol atol R0 : ℝ} (hR0 : 0 < R0) (h1 : L * E n < rtol * R0) (h2 : L * E n < atol) :
    ∀ (fuel k : ℕ) (conv : Bool) (s : St V B C), InStep P Good s → s.opts.rtol = rtol → s.opts.atol = atol → n ≤ s.opts.maxIt →
      s.iteration = k → 0 < k → k ≤ n → n < fuel + k → s.initialResidual = R0 → e s.x ≤ E k → (conv = false → k < n) →
      ∃ s' m, newtonLoop P rank0 fuel conv (P.normB s.b) s = (s', .ok true) ∧ InStep P Good s' ∧ s'.iteration = k + m ∧ k + m ≤ n
        ∧ s'.nRes = s.nRes + m ∧ s'.nLin = s.nLin + m ∧ e s'.x ≤ E (k + m) ∧ s'.opts = s.opts := by
  intro fuel
  induction fuel with
  | zero => intro k conv s _ _ _ _ _ _ h3 h4; omega
  | succ fuel ih =>
    intro k conv s hs hrt hat hmax hk hk0 hkn hfuel hR he hcv
    unfold newtonLoop
    cases conv with
    | true =>
      rw [if_neg (by simp)]
      exact ⟨s, 0, rfl, hs, hk, by omega, rfl, rfl, he, rfl⟩
    | false =>
      have hkn' := hcv rfl
      rw [if_pos ⟨rfl, by omega⟩]
      obtain ⟨s', conv', dx, t1, t2, t3, t4, t5, t6, t7, t8, t9, t10⟩ := body_near H hL hD hmono hsmall rank0 hs (he.trans_lt (hE k))
      rw [t1]
      dsimp only
      have hir : s'.initialResidual = R0 := by rw [t9, if_neg (by omega), hR]
      have hes : e s'.x ≤ E (k + 1) := t7.trans (hE1 k _ (H.nonneg _) he)
      obtain ⟨s'', m, u1, u2, u3, u4, u5, u6, u7, u8⟩ := ih (k + 1) conv' s' t2 (by rw [t3, hrt]) (by rw [t3, hat]) (by rw [t3]; exact hmax)
        (by rw [t4, hk]) (by omega) (by omega) (by omega) hir hes (by
          intro hc
          by_contra hn
          obtain rfl : n = k + 1 := by omega
          obtain ⟨c, hc1, hc2⟩ := t2.coeffs
          have hup : P.normB s'.b ≤ L * E (k + 1) := by
            have := H.upper s'.x c hc1 ((hes.trans_lt (hE _)).trans_le hD)
            rw [← hc2, ← t2.b] at this
            exact this.trans (mul_le_mul_of_nonneg_left hes hL)
          rw [t10.mpr ⟨by rw [hir]; exact hR0.ne', by rw [hir, div_lt_iff₀ hR0, hrt]; exact hup.trans_lt h1,
            by rw [hat]; exact hup.trans_lt h2⟩] at hc
          cases hc)
      exact ⟨s'', m + 1, u1, u2, by omega, by omega, by omega, by omega, by rw [show k + (m + 1) = k + 1 + m by ring]; exact u7, u8.trans t3⟩

/-- A solve from near the solution converges. -/
theorem solve_near (H : Near P Good e δ a L Cq) (hδ : 0 < δ) (ha : 0 < a) (hL : 0 ≤ L) (hCq : 0 ≤ Cq) :
    ∃ ε > 0, ∃ Q > 0, ∃ Bq > 0, ∀ (rank0 : Bool) (s : St V B C), Good s.coeffs → s.relax ≠ none → s.opts.crit = .residual →
      e s.x < ε → 0 < e s.x → ∀ n, 0 < n → n ≤ s.opts.maxIt → Q * (1 / 2) ^ 2 ^ n < s.opts.rtol → Q * (1 / 2) ^ 2 ^ n < s.opts.atol →
      ∃ s' k, solve P rank0 .function s = (s', .ok (k, true)) ∧ k ≤ n ∧ s'.nRes = s.nRes + 1 + k ∧ s'.nLin = s.nLin + k
        ∧ Bq * e s'.x ≤ (1 / 2) ^ 2 ^ k := by
  obtain ⟨Bq, hBq⟩ : ∃ Bq, Bq = Cq + L * Cq / a + 1 / δ + 1 := ⟨_, rfl⟩
  have hp1 : 0 ≤ L * Cq / a := by positivity
  have hp2 : 0 < 1 / δ := by positivity
  have hB0 : 0 < Bq := by rw [hBq]; positivity
  obtain ⟨D, hD⟩ : ∃ D, D = 1 / Bq := ⟨_, rfl⟩
  have hD0 : 0 < D := by rw [hD]; positivity
  have hDB : D * Bq = 1 := by rw [hD]; field_simp
  have hDδ : D ≤ δ := by
    rw [hD, div_le_iff₀ hB0]
    have : δ * (1 / δ) = 1 := by field_simp
    have hB1 : 1 / δ ≤ Bq := by rw [hBq]; linarith
    calc 1 = δ * (1 / δ) := this.symm
      _ ≤ δ * Bq := mul_le_mul_of_nonneg_left hB1 hδ.le
  have hCB : Cq ≤ Bq := by rw [hBq]; linarith
  have hLB : L * Cq / a ≤ Bq := by rw [hBq]; linarith
  have hmono : ∀ r, 0 ≤ r → r < D → L * (Cq * r ^ 2) ≤ a * r := by
    intro r hr hrD
    have h1 : L * Cq ≤ Bq * a := (div_le_iff₀ ha).mp hLB
    have h2 : r * Bq ≤ 1 := by rw [← hDB]; exact mul_le_mul_of_nonneg_right hrD.le hB0.le
    calc L * (Cq * r ^ 2) = L * Cq * r * r := by ring
      _ ≤ Bq * a * r * r := by gcongr
      _ = a * r * (r * Bq) := by ring
      _ ≤ a * r * 1 := by gcongr
      _ = a * r := mul_one _
  have hstep : ∀ r, 0 ≤ r → Cq * r ^ 2 ≤ Bq * r ^ 2 := fun r _ => mul_le_mul_of_nonneg_right hCB (sq_nonneg _)
  have hsmall : ∀ r, 0 ≤ r → r < D → Cq * r ^ 2 < δ := by
    intro r hr hrD
    refine lt_of_lt_of_le ?_ hDδ
    refine (hstep r hr).trans_lt ?_
    have h2 : r * Bq ≤ 1 := by rw [← hDB]; exact mul_le_mul_of_nonneg_right hrD.le hB0.le
    calc Bq * r ^ 2 = r * (r * Bq) := by ring
      _ ≤ r * 1 := by gcongr
      _ < D := by rwa [mul_one]
  obtain ⟨Q, hQ⟩ : ∃ Q, Q = 4 * L + L * D + 1 := ⟨_, rfl⟩
  refine ⟨D / 2, by positivity, Q, by rw [hQ]; positivity, Bq, hB0, ?_⟩
  intro rank0 s hg hrelax hcrit hclose hpos n hn hmax hrt hat
  obtain ⟨r0, hr0⟩ : ∃ r0, r0 = e s.x := ⟨_, rfl⟩
  rw [← hr0] at hclose hpos
  -- the bounds of the errors
  obtain ⟨q, hq⟩ : ∃ q, q = Bq * r0 := ⟨_, rfl⟩
  have hq0 : 0 < q := by rw [hq]; positivity
  have hq1 : q ≤ 1 / 2 := by
    rw [hq]
    have : Bq * r0 ≤ Bq * (D / 2) := by gcongr
    have e2 : Bq * (D / 2) = 1 / 2 := by rw [← hDB]; ring
    linarith
  have hrq : r0 = D * q := by rw [hq, ← mul_assoc, hDB, one_mul]
  obtain ⟨E, hE⟩ : ∃ E : ℕ → ℝ, E = fun k => D * q ^ 2 ^ k := ⟨_, rfl⟩
  have hqk : ∀ k, q ^ 2 ^ k ≤ q := fun k => by
    have := pow_le_pow_of_le_one hq0.le (by linarith) (Nat.one_le_two_pow (n := k))
    rwa [pow_one] at this
  have hED : ∀ k, E k < D := by
    intro k
    rw [hE]
    have : q ^ 2 ^ k < 1 := (hqk k).trans_lt (by linarith)
    exact mul_lt_of_lt_one_right hD0 this
  have hE1 : ∀ k r, 0 ≤ r → r ≤ E k → Cq * r ^ 2 ≤ E (k + 1) := by
    intro k r hr hrE
    refine (hstep r hr).trans ?_
    rw [hE] at hrE ⊢
    dsimp only at hrE ⊢
    calc Bq * r ^ 2 ≤ Bq * (D * q ^ 2 ^ k) ^ 2 := by gcongr
      _ = D * Bq * (D * (q ^ 2 ^ k) ^ 2) := by ring
      _ = D * q ^ 2 ^ (k + 1) := by rw [hDB, one_mul, ← pow_mul, ← pow_succ]
  have hEh : ∀ k, E k ≤ D * (1 / 2) ^ 2 ^ k := fun k => by rw [hE]; dsimp only; gcongr
  have hEr : ∀ k, E k ≤ 2 * r0 * (1 / 2) ^ 2 ^ k := by
    intro k
    rw [hE, hrq]
    dsimp only
    obtain ⟨j, hj⟩ : ∃ j, 2 ^ k = j + 1 := ⟨2 ^ k - 1, by have := Nat.one_le_two_pow (n := k); omega⟩
    rw [hj, pow_succ, pow_succ]
    have : q ^ j ≤ (1 / 2 : ℝ) ^ j := by gcongr
    calc D * (q ^ j * q) = D * q * q ^ j := by ring
      _ ≤ D * q * (1 / 2) ^ j := by gcongr
      _ = 2 * (D * q) * ((1 / 2) ^ j * (1 / 2)) := by ring
  -- the first evaluation
  rw [solve_function _ _ _ (Or.inr (Or.inl hrelax))]
  obtain ⟨s1, hs1⟩ : ∃ s1 : St V B C, s1 = { s with iteration := 0, krylov := 0, lastResidual := -1,
                                                    coeffs := P.coefficients s.x s.coeffs, x := s.x,
                                                    b := P.residual s.x (P.coefficients s.x s.coeffs), nRes := s.nRes + 1 } :=
    ⟨_, rfl⟩
  obtain ⟨conv, k1, k0⟩ := checkConvergence_ok rank0 s1 (P.normB s1.b) (Or.inr (by rw [hs1]; exact hrelax))
  obtain ⟨s2, hs2⟩ : ∃ s2 : St V B C, s2 = { s1 with lastResidual := P.normB s1.b } := ⟨_, rfl⟩
  have hx2 : s2.x = s.x := by rw [hs2, hs1]
  have hin : InStep P Good s2 := by
    rw [hs2, hs1]
    exact ⟨⟨s.coeffs, hg, rfl⟩, rfl, hrelax, hcrit⟩
  have hopt : s2.opts = s.opts := by rw [hs2, hs1]
  have hres2 : s2.nRes = s.nRes + 1 := by rw [hs2, hs1]
  have hlin2 : s2.nLin = s.nLin := by rw [hs2, hs1]
  have hloop : ∃ s' k, newtonLoop P rank0 (s.opts.maxIt + 1) conv (P.normB s2.b) s2 = (s', .ok true) ∧ s'.iteration = k ∧ k ≤ n
      ∧ s'.nRes = s.nRes + 1 + k ∧ s'.nLin = s.nLin + k ∧ e s'.x ≤ E k := by
    cases conv with
    | true =>
      unfold newtonLoop
      rw [if_neg (by simp)]
      refine ⟨s2, 0, rfl, by rw [hs2, hs1], by omega, hres2, hlin2, ?_⟩
      rw [hx2, ← hr0, hE]
      simp only [pow_zero, pow_one]
      exact hrq.le
    | false =>
      unfold newtonLoop
      rw [if_pos ⟨rfl, by rw [hopt, show s2.iteration = 0 by rw [hs2, hs1]]; omega⟩]
      obtain ⟨s', conv', dx, t1, t2, t3, t4, t5, t6, t7, t8, t9, t10⟩ := body_near H hL hDδ hmono hsmall rank0 hin
        (by rw [hx2, ← hr0]; linarith)
      have hi0 : s2.iteration = 0 := by rw [hs2, hs1]
      rw [hi0, if_pos rfl] at t9
      rw [hx2, ← hr0] at t7 t8
      rw [t1]
      dsimp only
      have hhalf : r0 / 2 ≤ P.normV dx := by
        refine le_trans ?_ t8
        have h3 := hstep r0 hpos.le
        have h4 : Bq * r0 ^ 2 = q * r0 := by rw [hq]; ring
        have h5 : q * r0 ≤ 1 / 2 * r0 := by gcongr
        linarith
      have hR0 : 0 < P.normV dx := by linarith
      have hLE1 : L * E n < s.opts.rtol * P.normV dx := by
        have h6 : L * E n ≤ L * (2 * r0 * (1 / 2) ^ 2 ^ n) := by gcongr; exact hEr n
        have h7 : 4 * L * (1 / 2) ^ 2 ^ n < s.opts.rtol := by
          refine lt_of_le_of_lt ?_ hrt
          gcongr
          rw [hQ]
          have : 0 ≤ L * D := by positivity
          linarith
        calc L * E n ≤ 4 * L * (1 / 2) ^ 2 ^ n * (r0 / 2) := by linarith
          _ < s.opts.rtol * (r0 / 2) := by gcongr
          _ ≤ s.opts.rtol * P.normV dx := by
            have : 0 ≤ s.opts.rtol := le_trans (by positivity) h7.le
            gcongr
      have hLE2 : L * E n < s.opts.atol := by
        refine lt_of_le_of_lt ?_ hat
        have h6 : L * E n ≤ L * (D * (1 / 2) ^ 2 ^ n) := by gcongr; exact hEh n
        refine h6.trans ?_
        rw [← mul_assoc]
        gcongr
        rw [hQ]
        linarith
      have hes : e s'.x ≤ E 1 := by
        refine t7.trans (hE1 0 r0 hpos.le ?_)
        rw [hE]
        simp only [pow_zero, pow_one]
        exact hrq.le
      obtain ⟨s'', m, u1, u2, u3, u4, u5, u6, u7, u8⟩ := loop_near H hL hDδ hmono hsmall rank0 E hED hE1 n hR0 hLE1 hLE2
        s.opts.maxIt 1 conv' s' t2 (by rw [t3, hopt]) (by rw [t3, hopt]) (by rw [t3, hopt]; exact hmax) (by rw [t4, hi0]) one_pos
        (by omega) (by omega) t9 hes (by
          intro hc
          by_contra hn'
          obtain rfl : n = 1 := by omega
          obtain ⟨c, hc1, hc2⟩ := t2.coeffs
          have hup : P.normB s'.b ≤ L * E 1 := by
            have := H.upper s'.x c hc1 ((hes.trans_lt (hED _)).trans_le hDδ)
            rw [← hc2, ← t2.b] at this
            exact this.trans (mul_le_mul_of_nonneg_left hes hL)
          rw [t10.mpr ⟨by rw [t9]; exact hR0.ne', by rw [t9, div_lt_iff₀ hR0, hopt]; exact hup.trans_lt hLE1,
            by rw [hopt]; exact hup.trans_lt hLE2⟩] at hc
          cases hc)
      exact ⟨s'', 1 + m, u1, u3, u4, by omega, by omega, u7⟩
  obtain ⟨s', k, h1, h2, h3, h4, h5, h6⟩ := hloop
  refine ⟨s', k, ?_, h3, h4, h5, ?_⟩
  · have hsin : solveInner P rank0 s = match newtonLoop P rank0 (s.opts.maxIt + 1) conv (P.normB s2.b) s2 with
        | (s, .error er) => (s, .error er)
        | (s, .ok conv) =>
          if conv = false ∧ s.opts.errorOnNonconvergence = true then (s, .error .runtimeError)
          else (s, .ok (s.iteration, conv)) := by
      unfold solveInner
      dsimp only
      rw [H.pre, hcrit]
      dsimp only
      have e3 : ({ s with iteration := 0, krylov := 0, lastResidual := -1, coeffs := P.coefficients s.x s.coeffs, x := s.x,
                          b := P.residual s.x (P.coefficients s.x s.coeffs), nRes := s.nRes + 1 } : St V B C) = s1 := hs1.symm
      have e4 : P.normB (P.residual s.x (P.coefficients s.x s.coeffs)) = P.normB s1.b := by rw [hs1]
      rw [e3, e4, k1]
      dsimp only
      rw [hs2, hs1]
      rfl
    rw [hsin, h1]
    simp [h2]
  · calc Bq * e s'.x ≤ Bq * E k := by gcongr
      _ ≤ Bq * (D * (1 / 2) ^ 2 ^ k) := by gcongr; exact hEh k
      _ = D * Bq * (1 / 2) ^ 2 ^ k := by ring
      _ = (1 / 2) ^ 2 ^ k := by rw [hDB, one_mul]

end

end Verif.Newton
