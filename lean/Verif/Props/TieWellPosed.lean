import Verif.Lemmas.Zarantonello
import Verif.Spec.TieWellPosed
import Verif.Props.TieSystem

/-!
Property C146: tied problems have exactly one solution.
-/

namespace Verif.TieData

open Verif.Spec Verif.Lemmas Verif.Packing Verif.Assembly Verif.Entities Verif.Kernels Verif.ContactProblem Finset

noncomputable section

variable {M : TieMesh} {E EQ : TieElement} {mat : Key → ℕ → ℝ} {gamma theta : ℝ} {g : Gen ℝ}

open Classical in
/-- Sums over tied points are monotone. -/
theorem tieSum_nonneg (hwt : ∀ i < M.numPairs, ∀ x ∈ M.facets i, ∀ q < M.nq, 0 < tieWeight M x.1 x.2 q)
    {F : ℕ → ℕ → ℕ → ℕ → ℕ → ℝ}
    (hF : ∀ i < M.numPairs, ∀ e < M.localFacets i, ∀ cell f, (M.facets i)[e]? = some (cell, f) → ∀ q < M.nq,
      Tied M i e q → 0 ≤ F i e cell f q) : 0 ≤ tieSum M F := by
  refine sum_nonneg (fun i hi => sum_nonneg (fun e he => ?_))
  rcases h : (M.facets i)[e]? with _ | ⟨cell, f⟩
  · simp
  · rw [Option.elim_some]
    refine sum_nonneg (fun q hq => ?_)
    split_ifs with ht
    · exact mul_nonneg (hwt i (mem_range.mp hi) _ (List.mem_of_getElem? h) q (mem_range.mp hq)).le
        (hF i (mem_range.mp hi) e (mem_range.mp he) cell f h q (mem_range.mp hq) ht)
    · exact le_refl _

open Classical in
/-- A sum of nonnegative terms over tied points is zero only if every term is. -/
theorem tieSum_zeroed (hwt : ∀ i < M.numPairs, ∀ x ∈ M.facets i, ∀ q < M.nq, 0 < tieWeight M x.1 x.2 q)
    {F : ℕ → ℕ → ℕ → ℕ → ℕ → ℝ}
    (hF : ∀ i < M.numPairs, ∀ e < M.localFacets i, ∀ cell f, (M.facets i)[e]? = some (cell, f) → ∀ q < M.nq,
      Tied M i e q → 0 ≤ F i e cell f q) (h0 : tieSum M F = 0) :
    ∀ i < M.numPairs, ∀ e < M.localFacets i, ∀ cell f, (M.facets i)[e]? = some (cell, f) → ∀ q < M.nq,
      Tied M i e q → F i e cell f q = 0 := by
  intro i hi e he cell f hf q hq ht
  have hp : ∀ i ∈ range M.numPairs, ∀ e ∈ range (M.localFacets i), 0 ≤ ((M.facets i)[e]?).elim 0 (fun p => ∑ q ∈ range M.nq,
      if Tied M i e q then tieWeight M p.1 p.2 q * F i e p.1 p.2 q else 0) := by
    intro i hi e he
    rcases h : (M.facets i)[e]? with _ | ⟨cell, f⟩
    · simp
    · rw [Option.elim_some]
      refine sum_nonneg (fun q hq => ?_)
      split_ifs with ht
      · exact mul_nonneg (hwt i (mem_range.mp hi) _ (List.mem_of_getElem? h) q (mem_range.mp hq)).le
          (hF i (mem_range.mp hi) e (mem_range.mp he) cell f h q (mem_range.mp hq) ht)
      · exact le_refl _
  have h1 := (sum_eq_zero_iff_of_nonneg (fun i hi => sum_nonneg (hp i hi))).mp h0 i (mem_range.mpr hi)
  have h2 := (sum_eq_zero_iff_of_nonneg (hp i (mem_range.mpr hi))).mp h1 e (mem_range.mpr he)
  rw [hf, Option.elim_some] at h2
  have h3 := (sum_eq_zero_iff_of_nonneg (fun q hq => ?_)).mp h2 q (mem_range.mpr hq)
  · rw [if_pos ht] at h3
    exact (mul_eq_zero.mp h3).resolve_left (hwt i hi _ (List.mem_of_getElem? hf) q hq).ne'
  · split_ifs with ht
    · exact mul_nonneg (hwt i hi _ (List.mem_of_getElem? hf) q (mem_range.mp hq)).le
        (hF i hi e he cell f hf q (mem_range.mp hq) ht)
    · exact le_refl _

open Classical in
theorem tieSum_add (M : TieMesh) (F G : ℕ → ℕ → ℕ → ℕ → ℕ → ℝ) :
    tieSum M (fun i e c f q => F i e c f q + G i e c f q) = tieSum M F + tieSum M G := by
  unfold tieSum
  rw [← sum_add_distrib]
  refine sum_congr rfl (fun i _ => ?_)
  rw [← sum_add_distrib]
  refine sum_congr rfl (fun e _ => ?_)
  cases (M.facets i)[e]? with
  | none => simp
  | some p =>
    simp only [Option.elim_some]
    rw [← sum_add_distrib]
    exact sum_congr rfl (fun q _ => by split_ifs <;> ring)

open Classical in
theorem tieSum_smul (M : TieMesh) (r : ℝ) (F : ℕ → ℕ → ℕ → ℕ → ℕ → ℝ) :
    tieSum M (fun i e c f q => r * F i e c f q) = r * tieSum M F := by
  unfold tieSum
  rw [mul_sum]
  refine sum_congr rfl (fun i _ => ?_)
  rw [mul_sum]
  refine sum_congr rfl (fun e _ => ?_)
  cases (M.facets i)[e]? with
  | none => simp
  | some p =>
    simp only [Option.elim_some]
    rw [mul_sum]
    exact sum_congr rfl (fun q _ => by split_ifs <;> ring)

/-- Completing the square at a point. -/
theorem tie_square {k : ℕ} {κ gamma theta h : ℝ} (hγ : 0 < gamma) (hh : 0 < h) (J t : ℕ → ℝ) :
    1 / 2 * κ * (∑ a ∈ range k, (-t a + gamma / h * J a) * J a - theta * ∑ a ∈ range k, t a * J a)
      = 1 / 2 * κ * (gamma / h) * ∑ a ∈ range k, (J a - (1 + theta) * h / (2 * gamma) * t a) ^ 2
        + -((1 + theta) ^ 2 / (8 * gamma)) * (h * κ * ∑ a ∈ range k, t a ^ 2) := by
  simp only [mul_sum, ← sum_sub_distrib, ← sum_add_distrib]
  refine sum_congr rfl (fun a _ => ?_)
  field_simp
  ring

/-- The matrix of the bodies together with the tie is positive definite. -/
theorem tie_positive {k N : ℕ} {F : Finset ℕ} {K : ℕ → ℕ → ℝ} (hγ : 0 < gamma)
    (hh : ∀ i < M.numPairs, ∀ e < M.localFacets i, 0 < M.h i e)
    (hwt : ∀ i < M.numPairs, ∀ x ∈ M.facets i, ∀ q < M.nq, 0 < tieWeight M x.1 x.2 q)
    (κ : ℕ → ℕ → ℝ) (hκ : ∀ i < M.numPairs, ∀ x ∈ M.facets i, 0 < κ x.1 x.2)
    (t : (ℕ → ℝ) → ℕ → ℕ → ℕ → ℕ → ℕ → ℕ → ℝ) {T Q : (ℕ → ℝ) → ℝ}
    (hT : ∀ v, T v = tieSum M (fun i e cell f q => M.h i e * κ cell f * ∑ a ∈ range k, t v i e cell f q a ^ 2))
    (hQ : ∀ v, Q v = tieSum M (fun i e cell f q => 1 / 2 * κ cell f
      * (∑ a ∈ range k, (-t v i e cell f q a + gamma / M.h i e * tieJumpAt M E i e cell f v q a) * tieJumpAt M E i e cell f v q a
        - theta * ∑ a ∈ range k, t v i e cell f q a * tieJumpAt M E i e cell f v q a)))
    (hK : TieCoercive M E k T gamma theta N F K) (v : ℕ → ℝ) (hv : ∀ d, d ∉ F → v d = 0) (hne : ∃ d, v d ≠ 0) :
    0 < ∑ d ∈ range N, ∑ c ∈ range N, v d * K d c * v c + Q v := by
  obtain ⟨c, hc, hK⟩ := hK
  obtain ⟨k1, k2, k3⟩ := hK v hv
  set V := ∑ d ∈ range N, ∑ c ∈ range N, v d * K d c * v c with hV
  set S : ℕ → ℕ → ℕ → ℕ → ℕ → ℝ := fun i e cell f q => 1 / 2 * κ cell f * (gamma / M.h i e)
    * ∑ a ∈ range k, (tieJumpAt M E i e cell f v q a - (1 + theta) * M.h i e / (2 * gamma) * t v i e cell f q a) ^ 2 with hS
  have hS0 : ∀ i < M.numPairs, ∀ e < M.localFacets i, ∀ cell f, (M.facets i)[e]? = some (cell, f) → ∀ q < M.nq,
      Tied M i e q → 0 ≤ S i e cell f q := by
    intro i hi e he cell f hf q _ _
    have h1 := hκ i hi _ (List.mem_of_getElem? hf)
    have h2 := div_pos hγ (hh i hi e he)
    exact mul_nonneg (mul_pos (mul_pos (by norm_num) h1) h2).le (sum_nonneg (fun _ _ => sq_nonneg _))
  have hT0 : ∀ i < M.numPairs, ∀ e < M.localFacets i, ∀ cell f, (M.facets i)[e]? = some (cell, f) → ∀ q < M.nq,
      Tied M i e q → 0 ≤ M.h i e * κ cell f * ∑ a ∈ range k, t v i e cell f q a ^ 2 := by
    intro i hi e he cell f hf q _ _
    exact mul_nonneg (mul_pos (hh i hi e he) (hκ i hi _ (List.mem_of_getElem? hf))).le (sum_nonneg (fun _ _ => sq_nonneg _))
  have hQ' : Q v = tieSum M S + -((1 + theta) ^ 2 / (8 * gamma)) * T v := by
    rw [hQ, hT, ← tieSum_smul, ← tieSum_add]
    unfold tieSum
    refine sum_congr rfl (fun i hi => sum_congr rfl (fun e he => ?_))
    rcases (M.facets i)[e]? with _ | ⟨cell, f⟩
    · rfl
    · simp only [Option.elim_some]
      refine sum_congr rfl (fun q _ => ?_)
      rw [hS, tie_square hγ (hh i (mem_range.mp hi) e (mem_range.mp he))]
  have hSn := tieSum_nonneg hwt hS0
  have hTn : 0 ≤ T v := by rw [hT]; exact tieSum_nonneg hwt hT0
  have hcoef : 0 ≤ (1 + theta) ^ 2 / (8 * gamma) := by positivity
  rw [hQ']
  by_contra hcon
  push Not at hcon
  have hV0 : V = 0 := by
    rcases k1.eq_or_lt with h | h
    · exact h.symm
    · have := mul_pos (sub_pos.mpr hc) h
      linarith
  rw [hV0] at hcon k2
  rw [mul_zero] at k2
  have hCT : (1 + theta) ^ 2 / (8 * gamma) * T v = 0 := le_antisymm k2 (mul_nonneg hcoef hTn)
  have hSz : tieSum M S = 0 := by linarith
  obtain ⟨d, hd⟩ := hne
  refine hd (k3 hV0 (fun i hi e he cell f hf q hq ht a ha => ?_) d)
  have h1 := hκ i hi _ (List.mem_of_getElem? hf)
  have h2 := hh i hi e he
  have h3 := tieSum_zeroed hwt hS0 hSz i hi e he cell f hf q hq ht
  have h4 := (mul_eq_zero.mp h3).resolve_left (mul_pos (mul_pos (by norm_num) h1) (div_pos hγ h2)).ne'
  have h5 := pow_eq_zero_iff two_ne_zero |>.mp
    ((sum_eq_zero_iff_of_nonneg (fun _ _ => sq_nonneg _)).mp h4 a (mem_range.mpr ha))
  have h6 : (1 + theta) * t v i e cell f q a = 0 := by
    rcases mul_eq_zero.mp hCT with h | h
    · have : 1 + theta = 0 := by
        rcases div_eq_zero_iff.mp h with h | h
        · exact pow_eq_zero_iff two_ne_zero |>.mp h
        · linarith
      rw [this, zero_mul]
    · rw [hT] at h
      have h7 := tieSum_zeroed hwt hT0 h i hi e he cell f hf q hq ht
      have h8 := (mul_eq_zero.mp h7).resolve_left (mul_pos h2 h1).ne'
      rw [pow_eq_zero_iff two_ne_zero |>.mp
        ((sum_eq_zero_iff_of_nonneg (fun _ _ => sq_nonneg _)).mp h8 a (mem_range.mpr ha)), mul_zero]
  have h9 : (1 + theta) * M.h i e / (2 * gamma) * t v i e cell f q a = 0 := by
    have : (1 + theta) * M.h i e / (2 * gamma) * t v i e cell f q a
        = M.h i e / (2 * gamma) * ((1 + theta) * t v i e cell f q a) := by ring
    rw [this, h6, mul_zero]
  linarith

/-- The form of two elastic bodies at a point, tested with the function itself. -/
theorem elasticTie_self (u : ℕ → ℝ) : elasticTie M E EQ mat gamma theta u u
    = tieSum M (fun i e cell f q => 1 / 2 * (fun _ _ => 1 : ℕ → ℕ → ℝ) cell f
      * (∑ a ∈ range M.gdim, (-traction M.gdim (midValue EQ cell f (mat .mu)) (midValue EQ cell f (mat .lam))
            (tieMeanGrad M E i e cell f u q) (tieOutward M cell f q) a + gamma / M.h i e * tieJumpAt M E i e cell f u q a)
          * tieJumpAt M E i e cell f u q a
        - theta * ∑ a ∈ range M.gdim, traction M.gdim (midValue EQ cell f (mat .mu)) (midValue EQ cell f (mat .lam))
            (tieMeanGrad M E i e cell f u q) (tieOutward M cell f q) a * tieJumpAt M E i e cell f u q a)) := by
  simp only [mul_one]
  rfl

theorem heatTie_self (u : ℕ → ℝ) : heatTie M E EQ mat gamma theta u u
    = tieSum M (fun i e cell f q => 1 / 2 * (fun cell f => midValue EQ cell f (mat .kdt)) cell f
      * (∑ a ∈ range 1, (-(∑ b ∈ range M.gdim, tieMeanGrad M E i e cell f u q 0 b * tieOutward M cell f q b)
            + gamma / M.h i e * tieJumpAt M E i e cell f u q a) * tieJumpAt M E i e cell f u q a
        - theta * ∑ a ∈ range 1, (∑ b ∈ range M.gdim, tieMeanGrad M E i e cell f u q 0 b * tieOutward M cell f q b)
            * tieJumpAt M E i e cell f u q a)) := by
  simp only [sum_range_one]
  unfold heatTie
  congr 1
  funext i e cell f q
  unfold heatPart
  ring

theorem sum_split (N : ℕ) (v : ℕ → ℝ) (K : ℕ → ℕ → ℝ) (A : Arr (ℕ × ℕ)) :
    ∑ d ∈ range N, ∑ c ∈ range N, v d * (K d c + A (d, c)) * v c
      = ∑ d ∈ range N, ∑ c ∈ range N, v d * K d c * v c + ∑ d ∈ range N, ∑ c ∈ range N, v d * A (d, c) * v c := by
  rw [← sum_add_distrib]
  refine sum_congr rfl (fun d _ => ?_)
  rw [← sum_add_distrib]
  exact sum_congr rfl (fun c _ => by ring)

/-- C146: with the matrix `assemble_matrix` builds for tied elastic bodies (also with thermal stress) added to the
matrix `K` of the bodies, every load `r` and all values `u0` of the dofs that are not free give exactly one
displacement.  Bodies may float: only motions that do not jump at the tied points need be excluded.  The tied points
come first on every facet (C117). -/
theorem C146_elasticity_partial (hM : TieMesh.Valid M) (hE : TieElement.Valid M E) (N : ℕ) (hN : TieDofsBelow M E N)
    (hT : TiedFirst M) (p : Problem) (hp : p ≠ .poisson) (ops : List (Op ℝ)) (hops : ProperHistory M.static Tracked.new ops)
    (hg : (ops.foldl Tracked.step Tracked.new).get p = some g) (G : GeneratedFor M E EQ p mat gamma theta g)
    (hγ : 0 < gamma) (hh : ∀ i < M.numPairs, ∀ e < M.localFacets i, 0 < M.h i e)
    (hwt : ∀ i < M.numPairs, ∀ x ∈ M.facets i, ∀ q < M.nq, 0 < tieWeight M x.1 x.2 q)
    (F : Finset ℕ) (hF : ∀ d ∈ F, d < N) (K : ℕ → ℕ → ℝ)
    (hK : TieCoercive M E M.gdim (tieTractionSquare M E EQ mat) gamma theta N F K) (r u0 : ℕ → ℝ) :
    ∃ s A, run M.static State.init ops = some s ∧ M.assembleMatrix E p s 0 = .ok A
      ∧ ∃! u : ℕ → ℝ, (∀ d, d ∉ F → u d = u0 d) ∧ ∀ d ∈ F, ∑ c ∈ range N, (K d c + A (d, c)) * u c = r d := by
  have key : ∃ s A, run M.static State.init ops = some s ∧ M.assembleMatrix E p s 0 = .ok A
      ∧ ∀ v : ℕ → ℝ, ∑ d ∈ range N, ∑ c ∈ range N, v d * A (d, c) * v c = elasticTie M E EQ mat gamma theta v v := by
    cases p with
    | elasticity =>
      obtain ⟨s, h1, ⟨A, h2, h3⟩, -⟩ := C117_elasticity_partial hM hE N hN hT ops hops hg G
      exact ⟨s, A, h1, h2, fun v => h3 v v⟩
    | thermo =>
      obtain ⟨s, h1, ⟨A, h2, h3⟩, -⟩ := C117_thermo_partial hM hE N hN hT ops hops hg G
      exact ⟨s, A, h1, h2, fun v => h3 v v⟩
    | poisson => exact absurd rfl hp
  obtain ⟨s, A, h1, h2, h3⟩ := key
  refine ⟨s, A, h1, h2, posdef_solvable hF (fun d c => K d c + A (d, c)) (fun v hv hne => ?_) r u0⟩
  rw [sum_split, h3]
  refine tie_positive hγ hh hwt (fun _ _ => 1) (fun _ _ _ _ => one_pos)
    (fun v i e cell f q a => traction M.gdim (midValue EQ cell f (mat .mu)) (midValue EQ cell f (mat .lam))
      (tieMeanGrad M E i e cell f v q) (tieOutward M cell f q) a) (fun v => ?_) elasticTie_self hK v hv hne
  simp only [mul_one]
  rfl

/-- C146 for heat conduction. -/
theorem C146_heat_partial (hM : TieMesh.Valid M) (hE : TieElement.Valid M E) (N : ℕ) (hN : TieDofsBelow M E N)
    (hT : TiedFirst M) (ops : List (Op ℝ)) (hops : ProperHistory M.static Tracked.new ops)
    (hg : (ops.foldl Tracked.step Tracked.new).get .poisson = some g) (G : GeneratedFor M E EQ .poisson mat gamma theta g)
    (hγ : 0 < gamma) (hh : ∀ i < M.numPairs, ∀ e < M.localFacets i, 0 < M.h i e)
    (hwt : ∀ i < M.numPairs, ∀ x ∈ M.facets i, ∀ q < M.nq, 0 < tieWeight M x.1 x.2 q)
    (hk : ∀ i < M.numPairs, ∀ x ∈ M.facets i, 0 < midValue EQ x.1 x.2 (mat .kdt))
    (F : Finset ℕ) (hF : ∀ d ∈ F, d < N) (K : ℕ → ℕ → ℝ)
    (hK : TieCoercive M E 1 (tieFluxSquare M E EQ mat) gamma theta N F K) (r u0 : ℕ → ℝ) :
    ∃ s A, run M.static State.init ops = some s ∧ M.assembleMatrix E .poisson s 0 = .ok A
      ∧ ∃! u : ℕ → ℝ, (∀ d, d ∉ F → u d = u0 d) ∧ ∀ d ∈ F, ∑ c ∈ range N, (K d c + A (d, c)) * u c = r d := by
  obtain ⟨s, h1, ⟨A, h2, h3⟩, -⟩ := C117_heat_partial hM hE N hN hT ops hops hg G
  refine ⟨s, A, h1, h2, posdef_solvable hF (fun d c => K d c + A (d, c)) (fun v hv hne => ?_) r u0⟩
  rw [sum_split, h3]
  refine tie_positive hγ hh hwt (fun cell f => midValue EQ cell f (mat .kdt)) hk
    (fun v i e cell f q _ => ∑ b ∈ range M.gdim, tieMeanGrad M E i e cell f v q 0 b * tieOutward M cell f q b)
    (fun v => ?_) heatTie_self hK v hv hne
  simp only [sum_range_one]
  rfl

/-! ### C147: consistency -/

open Classical in
theorem tieSum_congr {F F' : ℕ → ℕ → ℕ → ℕ → ℕ → ℝ}
    (h : ∀ i < M.numPairs, ∀ e < M.localFacets i, ∀ cell f, (M.facets i)[e]? = some (cell, f) → ∀ q < M.nq,
      Tied M i e q → F i e cell f q = F' i e cell f q) : tieSum M F = tieSum M F' := by
  unfold tieSum
  refine sum_congr rfl (fun i hi => sum_congr rfl (fun e he => ?_))
  rcases hf : (M.facets i)[e]? with _ | ⟨cell, f⟩
  · rfl
  · simp only [Option.elim_some]
    refine sum_congr rfl (fun q hq => ?_)
    split_ifs with ht
    · rw [h i (mem_range.mp hi) e (mem_range.mp he) cell f hf q (mem_range.mp hq) ht]
    · rfl

theorem elasticTie_noJump {u : ℕ → ℝ} (hu : NoJump M E M.gdim u) (v : ℕ → ℝ) :
    elasticTie M E EQ mat gamma theta u v = -(1 / 2) * tieTractionWork M E EQ mat u v := by
  unfold elasticTie tieTractionWork
  rw [← tieSum_smul]
  refine tieSum_congr (fun i hi e he cell f hf q hq ht => ?_)
  have hJ := hu i hi e he cell f hf q hq ht
  unfold elasticPart
  rw [sum_eq_zero (s := range M.gdim) (f := fun a => traction M.gdim _ _ (tieMeanGrad M E i e cell f v q) _ a
    * tieJumpAt M E i e cell f u q a) (fun a ha => by rw [hJ a (mem_range.mp ha), mul_zero])]
  simp only [mul_sum, mul_zero, sub_zero]
  refine sum_congr rfl (fun a ha => ?_)
  rw [hJ a (mem_range.mp ha)]
  ring

theorem heatTie_noJump {u : ℕ → ℝ} (hu : NoJump M E 1 u) (v : ℕ → ℝ) :
    heatTie M E EQ mat gamma theta u v = -(1 / 2) * tieFluxWork M E EQ mat u v := by
  unfold heatTie tieFluxWork
  rw [← tieSum_smul]
  refine tieSum_congr (fun i hi e he cell f hf q hq ht => ?_)
  unfold heatPart
  rw [hu i hi e he cell f hf q hq ht 0 one_pos]
  ring

/-- C147 for tied elastic bodies: at a displacement that does not jump at the tied points, the vector is minus half the
virtual work of the mean traction on the jump, and so is the matrix times the displacement, for every gamma, theta and
mesh size. -/
theorem C147_elasticity_partial (hM : TieMesh.Valid M) (hE : TieElement.Valid M E) (N : ℕ) (hN : TieDofsBelow M E N)
    (hT : TiedFirst M) (ops : List (Op ℝ)) (hops : ProperHistory M.static Tracked.new ops)
    (hg : (ops.foldl Tracked.step Tracked.new).get .elasticity = some g)
    (G : GeneratedFor M E EQ .elasticity mat gamma theta g) (u : ℕ → ℝ) (hu : NoJump M E M.gdim u) :
    ∃ s A b, run M.static State.init ops = some s ∧ M.assembleMatrix E .elasticity s 0 = .ok A
      ∧ M.assembleVector E .elasticity s 0 = .ok b
      ∧ (∀ v : ℕ → ℝ, ∑ d ∈ range N, (∑ c ∈ range N, A (d, c) * u c) * v d = -(1 / 2) * tieTractionWork M E EQ mat u v)
      ∧ (SolutionIs M E u g → ∀ v : ℕ → ℝ, ∑ d ∈ range N, b d * v d = -(1 / 2) * tieTractionWork M E EQ mat u v) := by
  obtain ⟨s, h1, ⟨A, h2, h3⟩, b, h4, h5⟩ := C117_elasticity_partial hM hE N hN hT ops hops hg G
  refine ⟨s, A, b, h1, h2, h4, fun v => ?_, fun hs v => ?_⟩
  · rw [← elasticTie_noJump (gamma := gamma) (theta := theta) hu v, ← h3 u v]
    refine sum_congr rfl (fun d _ => ?_)
    rw [sum_mul]
    exact sum_congr rfl (fun c _ => by ring)
  · rw [h5 u hs v, elasticTie_noJump hu]

/-- C147 for heat conduction: at a temperature that does not jump at the tied points. -/
theorem C147_heat_partial (hM : TieMesh.Valid M) (hE : TieElement.Valid M E) (N : ℕ) (hN : TieDofsBelow M E N)
    (hT : TiedFirst M) (ops : List (Op ℝ)) (hops : ProperHistory M.static Tracked.new ops)
    (hg : (ops.foldl Tracked.step Tracked.new).get .poisson = some g)
    (G : GeneratedFor M E EQ .poisson mat gamma theta g) (u : ℕ → ℝ) (hu : NoJump M E 1 u) :
    ∃ s A b, run M.static State.init ops = some s ∧ M.assembleMatrix E .poisson s 0 = .ok A
      ∧ M.assembleVector E .poisson s 0 = .ok b
      ∧ (∀ v : ℕ → ℝ, ∑ d ∈ range N, (∑ c ∈ range N, A (d, c) * u c) * v d = -(1 / 2) * tieFluxWork M E EQ mat u v)
      ∧ (SolutionIs M E u g → ∀ v : ℕ → ℝ, ∑ d ∈ range N, b d * v d = -(1 / 2) * tieFluxWork M E EQ mat u v) := by
  obtain ⟨s, h1, ⟨A, h2, h3⟩, b, h4, h5⟩ := C117_heat_partial hM hE N hN hT ops hops hg G
  refine ⟨s, A, b, h1, h2, h4, fun v => ?_, fun hs v => ?_⟩
  · rw [← heatTie_noJump (gamma := gamma) (theta := theta) hu v, ← h3 u v]
    refine sum_congr rfl (fun d _ => ?_)
    rw [sum_mul]
    exact sum_congr rfl (fun c _ => by ring)
  · rw [h5 u hs v, heatTie_noJump hu]

/-! ### examples -/

/-- The element of the example with a gradient on the facet. -/
def exEg (bs : ℕ) : TieElement := { exE bs (fun _ => 1) with dphi := fun j _ _ => if j = 0 then 1 else 0 }

/-- Facets and points of the example. -/
theorem exM_point {i e cell f q : ℕ} (hi : i < (exM 0).numPairs) (he : e < (exM 0).localFacets i)
    (hf : ((exM 0).facets i)[e]? = some (cell, f)) (hq : q < (exM 0).nq) :
    i = 0 ∧ e = 0 ∧ cell = 0 ∧ f = 0 ∧ (q = 0 ∨ q = 1) := by
  have hi' : i < 1 := hi
  have he' : e < 1 := he
  have hq' : q < 2 := hq
  obtain rfl : i = 0 := by omega
  obtain rfl : e = 0 := by omega
  have : some ((0 : ℕ), (0 : ℕ)) = some (cell, f) := hf
  simp at this
  omega

theorem exM_jump (bs q a : ℕ) (v : ℕ → ℝ) : tieJumpAt (exM 0) (exEg bs) 0 0 0 0 v q a = v a - v (bs + a) := by
  simp [tieJumpAt, tieValue, tieOpposite, oppositeCell, exEg, exE, exM]

theorem exM_grad (bs q a b : ℕ) (v : ℕ → ℝ) :
    tieMeanGrad (exM 0) (exEg bs) 0 0 0 0 v q a b = (if b = 0 then v a else 0) / 2 := by
  by_cases hb : b = 0
  · subst hb
    simp [tieMeanGrad, tieGrad, tieOppositeGrad, exEg, exE, exM]
  · have h1 : ¬(0 = b) := fun h => hb h.symm
    simp [tieMeanGrad, tieGrad, tieOppositeGrad, exEg, exE, exM, h1, hb]

theorem exM_out (q b : ℕ) : tieOutward (exM 0) 0 0 q b = if b = 0 then 1 else 0 := by
  by_cases hb : b = 0
  · subst hb
    simp [tieOutward, exM]
  · have h1 : ¬(0 = b) := fun h => hb h.symm
    simp [tieOutward, exM, h1, hb]

open Classical in
theorem exM_sum (F : ℕ → ℕ → ℕ → ℕ → ℕ → ℝ) : tieSum (exM 0) F = F 0 0 0 0 0 + F 0 0 0 0 1 := by
  have h : tieSum (exM 0) F = ∑ q ∈ range 2, if Tied (exM 0) 0 0 q then tieWeight (exM 0) 0 0 q * F 0 0 0 0 q else 0 := by
    simp [tieSum, exM]
  have hw : ∀ q, tieWeight (exM 0) 0 0 q = 1 := fun q => by simp [tieWeight, exM]
  rw [h, sum_range_succ, sum_range_one, if_pos (exM_tied 0).2.1, if_pos (exM_tied 0).1, hw, hw]
  ring

/-- The hypotheses of C146 hold for heat conduction with two cells, all dofs free, a matrix which is zero for the second
cell (it floats), gamma = 10 and every theta between -1 and 1. -/
example (theta : ℝ) (h1 : -1 ≤ theta) (h2 : theta ≤ 1) (u T : ℕ → ℝ) :
    ∃ ops g, TieMesh.Valid (exM 0) ∧ TieElement.Valid (exM 0) (exEg 1) ∧ TieDofsBelow (exM 0) (exEg 1) 2 ∧ TiedFirst (exM 0)
      ∧ ProperHistory (exM 0).static Tracked.new ops
      ∧ (ops.foldl Tracked.step Tracked.new).get .poisson = some g
      ∧ GeneratedFor (exM 0) (exEg 1) (exE 1 fun _ => 1) .poisson (fun _ _ => 1) 10 theta g
      ∧ (∀ i < (exM 0).numPairs, ∀ e < (exM 0).localFacets i, 0 < (exM 0).h i e)
      ∧ (∀ i < (exM 0).numPairs, ∀ x ∈ (exM 0).facets i, ∀ q < (exM 0).nq, 0 < tieWeight (exM 0) x.1 x.2 q)
      ∧ (∀ i < (exM 0).numPairs, ∀ x ∈ (exM 0).facets i, 0 < midValue (exE 1 fun _ => 1) x.1 x.2 (fun _ => 1))
      ∧ (∀ d ∈ ({0, 1} : Finset ℕ), d < 2)
      ∧ TieCoercive (exM 0) (exEg 1) 1 (tieFluxSquare (exM 0) (exEg 1) (exE 1 fun _ => 1) (fun _ _ => 1)) 10 theta 2 {0, 1}
        (fun d c => if d = 0 ∧ c = 0 then 1 else 0)
      ∧ NoJump (exM 0) (exEg 1) 1 (fun _ => 3)
      ∧ tieFluxWork (exM 0) (exEg 1) (exE 1 fun _ => 1) (fun _ _ => 1) (fun _ => 3) (fun d => if d = 0 then 1 else 0) = 3 := by
  obtain ⟨g1, g2, g3, -⟩ := generate_once (exM_valid 0) (exEg 1) (exE 1 fun _ => 1)
    (exE 1 fun _ => 1) .poisson rfl rfl rfl (fun _ _ => 1) u T 10 theta
  refine ⟨_, _, exM_valid 0, exE_valid 0 1 fun _ => 1, exE_below 0 1 fun _ => 1, exM_first, g1, g2, g3, ?_, ?_, ?_, by decide,
    ⟨1 / 2, by norm_num, fun v hv => ?_⟩, ?_, ?_⟩
  · simp [exM]
  · intro i _ x _ q _
    simp [exM, tieWeight]
  · intro i _ x _
    simp [exE, midValue]
  · have hmid : midValue (exE 1 fun _ => 1) 0 0 (fun _ => 1) = 1 := by simp [midValue, exE]
    have hV : ∑ d ∈ range 2, ∑ c ∈ range 2, v d * (if d = 0 ∧ c = 0 then 1 else 0) * v c = v 0 ^ 2 := by
      simp [sum_range_succ]; ring
    have hF : tieFluxSquare (exM 0) (exEg 1) (exE 1 fun _ => 1) (fun _ _ => 1) v = v 0 ^ 2 / 2 := by
      unfold tieFluxSquare
      have e1 : (exM 0).gdim = 2 := rfl
      have e2 : (exM 0).h 0 0 = 1 := rfl
      rw [exM_sum, e1, e2, hmid]
      simp only [exM_grad, exM_out, sum_range_succ, sum_range_zero]
      simp
      ring
    rw [hV, hF]
    refine ⟨sq_nonneg _, ?_, fun h0 hJ d => ?_⟩
    · have h3 : (1 + theta) ^ 2 ≤ 4 := by nlinarith
      nlinarith [sq_nonneg (v 0), mul_le_mul_of_nonneg_right h3 (sq_nonneg (v 0))]
    · have h3 : v 0 = 0 := pow_eq_zero_iff two_ne_zero |>.mp h0
      have h4 := hJ 0 Nat.one_pos 0 Nat.one_pos 0 0 rfl 0 Nat.two_pos (exM_tied 0).2.1 0 one_pos
      rw [exM_jump] at h4
      by_cases hd : d = 0
      · rw [hd, h3]
      · by_cases hd1 : d = 1
        · have h5 : v (1 + 0) = 0 := by linarith
          rw [hd1]
          exact h5
        · exact hv d (by simp [hd, hd1])
  · intro i hi e he cell f hf q hq _ a _
    obtain ⟨rfl, rfl, rfl, rfl, -⟩ := exM_point hi he hf hq
    rw [exM_jump, sub_self]
  · have hmid : midValue (exE 1 fun _ => 1) 0 0 (fun _ => 1) = 1 := by simp [midValue, exE]
    unfold tieFluxWork
    have e1 : (exM 0).gdim = 2 := rfl
    rw [exM_sum, e1, hmid]
    simp only [exM_grad, exM_out, exM_jump, sum_range_succ, sum_range_zero]
    norm_num

/-- The same for elasticity. -/
example (theta : ℝ) (h1 : -1 ≤ theta) (h2 : theta ≤ 1) (u T : ℕ → ℝ) :
    ∃ ops g, TieElement.Valid (exM 0) (exEg 2) ∧ TieDofsBelow (exM 0) (exEg 2) 4
      ∧ ProperHistory (exM 0).static Tracked.new ops
      ∧ (ops.foldl Tracked.step Tracked.new).get .elasticity = some g
      ∧ GeneratedFor (exM 0) (exEg 2) (exE 1 fun _ => 1) .elasticity (fun _ _ => 1) 10 theta g
      ∧ (∀ d ∈ range 4, d < 4)
      ∧ TieCoercive (exM 0) (exEg 2) (exM 0).gdim (tieTractionSquare (exM 0) (exEg 2) (exE 1 fun _ => 1) (fun _ _ => 1)) 10 theta 4
        (range 4) (fun d c => if d = c ∧ d < 2 then 1 else 0) := by
  obtain ⟨g1, g2, g3, -⟩ := generate_once (exM_valid 0) (exEg 2) (exE 1 fun _ => 1)
    (exE 1 fun _ => 1) .elasticity rfl rfl rfl (fun _ _ => 1) u T 10 theta
  refine ⟨_, _, exE_valid 0 2 fun _ => 1, exE_below 0 2 fun _ => 1, g1, g2, g3, fun d => mem_range.mp,
    ⟨1 / 2, by norm_num, fun v hv => ?_⟩⟩
  have hmid : midValue (exE 1 fun _ => 1) 0 0 (fun _ => 1) = 1 := by simp [midValue, exE]
  have hV : ∑ d ∈ range 4, ∑ c ∈ range 4, v d * (if d = c ∧ d < 2 then 1 else 0) * v c = v 0 ^ 2 + v 1 ^ 2 := by
    simp [sum_range_succ]; ring
  have hF : tieTractionSquare (exM 0) (exEg 2) (exE 1 fun _ => 1) (fun _ _ => 1) v = 9 / 2 * v 0 ^ 2 + v 1 ^ 2 / 2 := by
    unfold tieTractionSquare
    have e1 : (exM 0).gdim = 2 := rfl
    have e2 : (exM 0).h 0 0 = 1 := rfl
    rw [exM_sum, e1, e2, hmid]
    simp [Elasticity.traction_eq, exM_grad, exM_out, sum_range_succ]
    ring
  rw [hV, hF]
  refine ⟨by positivity, ?_, fun h0 hJ d => ?_⟩
  · have h3 : (1 + theta) ^ 2 ≤ 4 := by nlinarith
    nlinarith [mul_le_mul_of_nonneg_right h3 (sq_nonneg (v 0)), mul_le_mul_of_nonneg_right h3 (sq_nonneg (v 1)),
      sq_nonneg (v 0), sq_nonneg (v 1)]
  · have h3 : v 0 = 0 := by nlinarith [sq_nonneg (v 0), sq_nonneg (v 1)]
    have h4 : v 1 = 0 := by nlinarith [sq_nonneg (v 0), sq_nonneg (v 1)]
    have hJ' : ∀ a < 2, v a - v (2 + a) = 0 := by
      intro a ha
      have := hJ 0 Nat.one_pos 0 Nat.one_pos 0 0 rfl 0 Nat.two_pos (exM_tied 0).2.1 a ha
      rwa [exM_jump] at this
    have h5 := hJ' 0 (by norm_num)
    have h6 := hJ' 1 (by norm_num)
    by_cases hd : d < 4
    · interval_cases d
      · exact h3
      · exact h4
      · show v (2 + 0) = 0
        linarith
      · show v (2 + 1) = 0
        linarith
    · exact hv d (by simpa using hd)

end

end Verif.TieData
