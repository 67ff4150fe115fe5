import Mathlib.Topology.Instances.Real.Lemmas
import Mathlib.Topology.Algebra.Monoid
import Mathlib.Topology.Order.Compact
import Verif.Props.Snes

/-! Property C187: the displacement `snes_solver` returns does not depend on the solver and the distribution. -/

namespace Verif.Snes

open Finset Verif.OneSided Verif.Distributed Spec

noncomputable section

variable {P : Params} {M N : Mesh} {top bottom bottom' : ℤ} {solve solve' : Solver} {v v' : DVec}

theorem same_work (h : SameMesh M N) (u w : ℕ → ℕ → ℝ) : bodyWork P M u w = bodyWork P N u w := by
  have hg : ∀ u, nodalGrad M u = nodalGrad N u := by
    intro u; funext k i j; simp only [nodalGrad, h.numNodes, h.dphi]
  unfold bodyWork quadSum
  rw [h.wt, hg, hg]
  exact (h.points.map _).sum_eq

theorem lower_le_upper (hp : -P.planeLoc ≤ 10000000) {a i : ℕ} (hi : i < P.dim) :
    lower P M (P.dim * a + i) ≤ upper P M (P.dim * a + i) := by
  rw [upper_eq hi]
  by_cases hl : i = P.dim - 1
  · rw [hl, lower_last (by omega)]; linarith
  · rw [lower_side (by omega)]; linarith

theorem bounded_clamp (lo up x y : ℝ) : boundedResidual lo up x (x - y) = x - min up (max lo y) := by
  unfold boundedResidual
  rw [min_sub_sub_left, max_sub_sub_left]

open Classical in
/-- C187: with exact solves, runs of `snes_solver` with different solvers (options), contact values and distributions of
the same body over processes return the same displacement. -/
theorem C187_unique (hbody : SameMesh M N) (h : snesSolver P M top bottom solve = .ok v)
    (hs : SolvesWithBounds M.owner (numDofs P M) 0 solve) (h' : snesSolver P N top bottom' solve' = .ok v')
    (hs' : SolvesWithBounds N.owner (numDofs P N) 0 solve') (hsup : Supported P M top) (hE : 0 < P.E) (hnu : 0 ≤ P.nu)
    (hnu' : P.nu < 1 / 2) (hw : ∀ k, 0 ≤ M.wt k) (hp : -P.planeLoc ≤ 10000000) :
    ∀ a < M.numNodes, ∀ i < P.dim, nodal P M v a i = nodal P N v' a i := by
  obtain ⟨_, hr⟩ := run_ok h hs
  obtain ⟨_, hr'⟩ := run_ok h' hs'
  set u := nodal P M v with hu
  set u' := nodal P N v' with hu'
  have hlow : ∀ g, lower P N g = lower P M g := fun g => by rw [lower, lower, hbody.x]
  have hupp : ∀ g, upper P N g = upper P M g := fun g => by rw [upper, upper, hbody.x]
  have hpre : withPrescribed P N top u' = withPrescribed P M top u' := by
    funext a i; simp only [withPrescribed, hbody.facets top a]
  have hforce : ∀ w a i, nodalForce P N w a i = nodalForce P M w a i := fun w a i => (same_work hbody _ _).symm
  have hr' : ∀ a < M.numNodes, ∀ i < P.dim,
      |boundedResidual (lower P M (P.dim * a + i)) (upper P M (P.dim * a + i)) (u' a i)
        (if OnFacet M top a then u' a i - (if i = P.dim - 1 then P.disp else 0)
          else nodalForce P M (withPrescribed P M top u') a i)| ≤ 0 := by
    intro a ha i hi
    have := hr' a (hbody.numNodes ▸ ha) i hi
    rw [hlow, hupp, hpre, hforce] at this
    by_cases hf : OnFacet M top a
    · rw [if_pos hf]; rwa [if_pos ((hbody.facets top a).mp hf)] at this
    · rw [if_neg hf]; rwa [if_neg (fun hn => hf ((hbody.facets top a).mpr hn))] at this
  have hin : ∀ {w : ℝ} {F : ℝ} {a i : ℕ}, i < P.dim →
      |boundedResidual (lower P M (P.dim * a + i)) (upper P M (P.dim * a + i)) w F| ≤ 0 →
      lower P M (P.dim * a + i) ≤ w ∧ w ≤ upper P M (P.dim * a + i) := by
    intro w F a i hi hb
    have h1 := bounded_ge hb
    have h2 := (bounded_le hb).1
    have h3 := lower_le_upper (M := M) (a := a) hp hi
    rw [add_zero] at h2
    refine ⟨?_, h2⟩
    rcases h1 with h1 | h1
    · linarith
    · linarith [h1.1]
  set w := withPrescribed P M top u with hwd
  set w' := withPrescribed P M top u' with hwd'
  have hzero : ∀ a, OnFacet M top a → ∀ i < P.dim, (w - w') a i = 0 := by
    intro a hf i _
    rw [Pi.sub_apply, Pi.sub_apply, hwd, hwd', withPrescribed, withPrescribed, if_pos hf, if_pos hf, sub_self]
  have hle : bodyWork P M (w - w') (w - w') ≤ 0 := by
    have e1 : bodyWork P M (w - w') (w - w') = bodyWork P M w (w - w') + -1 * bodyWork P M w' (w - w') := by
      rw [work_symm w, work_symm w', ← work_smul, ← work_add]
      congr 1
      rw [neg_one_smul]; exact sub_eq_add_neg w w'
    rw [e1, work_expand, work_expand, mul_sum, ← sum_add_distrib]
    refine sum_nonpos (fun a ha => ?_)
    rw [mul_sum, ← sum_add_distrib]
    refine sum_nonpos (fun i hi => ?_)
    have ha := mem_range.mp ha
    have hi := mem_range.mp hi
    by_cases hf : OnFacet M top a
    · rw [hzero a hf i hi]; simp
    · have b := hr a ha i hi
      have b' := hr' a ha i hi
      obtain ⟨c1, c2⟩ := hin hi b
      obtain ⟨c1', c2'⟩ := hin hi b'
      rw [if_neg hf] at b b'
      have s := bounded_step b c1' c2'
      have s' := bounded_step b' c1 c2
      have ew : w a i = u a i := by rw [hwd, withPrescribed, if_neg hf]
      have ew' : w' a i = u' a i := by rw [hwd', withPrescribed, if_neg hf]
      rw [Pi.sub_apply, Pi.sub_apply, ew, ew']
      rw [zero_mul, neg_zero] at s s'
      linarith
  have hw0 : bodyEnergy P M (w - w') = 0 := by
    have := work_nonneg (M := M) hE hnu hnu' hw (w - w')
    rw [bodyEnergy, le_antisymm hle this, mul_zero]
  have hsame := hsup (w - w') hzero hw0
  intro a ha i hi
  by_cases hf : OnFacet M top a
  · have b := hr a ha i hi
    have b' := hr' a ha i hi
    rw [if_pos hf, bounded_clamp] at b b'
    have b := abs_eq_zero.mp (le_antisymm b (abs_nonneg _))
    have b' := abs_eq_zero.mp (le_antisymm b' (abs_nonneg _))
    linarith
  · have := hsame a ha i hi
    rw [Pi.sub_apply, Pi.sub_apply, hwd, hwd', withPrescribed, withPrescribed, if_neg hf, if_neg hf] at this
    linarith

/-! ### existence -/

theorem work_continuous (P : Params) (M : Mesh) : Continuous (fun u : ℕ → ℕ → ℝ => bodyWork P M u u) := by
  have h : (fun u : ℕ → ℕ → ℝ => bodyWork P M u u) = fun u => ∑ a ∈ range M.numNodes, ∑ i ∈ range P.dim,
      u a i * ∑ b ∈ range M.numNodes, ∑ j ∈ range P.dim, u b j * nodalForce P M (unit a i) b j := by
    funext u
    rw [work_expand]
    refine sum_congr rfl (fun a _ => sum_congr rfl (fun i _ => ?_))
    rw [nodalForce_eq, work_symm, work_expand]
  rw [h]
  have hc : ∀ a i, Continuous (fun u : ℕ → ℕ → ℝ => u a i) := fun a i =>
    (continuous_apply i).comp (continuous_apply a)
  refine continuous_finset_sum _ (fun a _ => continuous_finset_sum _ (fun i _ => (hc a i).mul ?_))
  exact continuous_finset_sum _ (fun b _ => continuous_finset_sum _ (fun j _ => (hc b j).mul_const _))

/-- A quadratic that is not negative for small positive arguments has no negative slope at zero. -/
theorem slope_nonneg {F K t : ℝ} (ht : 0 < t) (h : ∀ s, 0 ≤ s → s ≤ t → 0 ≤ s * F + s * s * K) : 0 ≤ F := by
  by_contra hF
  rw [not_le] at hF
  set s := min t (-F / (|K| + 1) / 2) with hs
  have hK : 0 < |K| + 1 := by positivity
  have hq : 0 < -F / (|K| + 1) / 2 := by have := div_pos (neg_pos.mpr hF) hK; linarith
  have hs0 : 0 < s := lt_min ht hq
  have h1 := h s hs0.le (min_le_left _ _)
  have h2 : s * (|K| + 1) ≤ -F / 2 := by
    calc s * (|K| + 1) ≤ -F / (|K| + 1) / 2 * (|K| + 1) := mul_le_mul_of_nonneg_right (min_le_right _ _) hK.le
      _ = -F / 2 := by field_simp
  have h3 : s * K ≤ s * (|K| + 1) := mul_le_mul_of_nonneg_left (by linarith [le_abs_self K]) hs0.le
  have h4 : s * F + s * s * K = s * (F + s * K) := by ring
  rw [h4] at h1
  have h5 := nonneg_of_mul_nonneg_right h1 hs0
  linarith

/-- C187: exact runs exist: for every mesh and all arguments that pass the assertions of `snes_solver` there is a
displacement an exact solver may return. -/
theorem C187_exists (hm : M.markerDim = M.tdim - 1) (ht : M.tdim = P.dim) (hd : P.dim = 2 ∨ P.dim = 3)
    (hp : -P.planeLoc ≤ 10000000) (top bottom : ℤ) :
    ∃ (solve : Solver) (v : DVec), SolvesWithBounds M.owner (numDofs P M) 0 solve
      ∧ snesSolver P M top bottom solve = .ok v := by
  classical
  have hd0 : 0 < P.dim := by omega
  -- the box of the free dofs, with the prescribed values at the others
  let lo : ℕ → ℕ → ℝ := fun a i => if i < P.dim then
    (if OnFacet M top a then (if i = P.dim - 1 then P.disp else 0) else lower P M (P.dim * a + i)) else 0
  let up : ℕ → ℕ → ℝ := fun a i => if i < P.dim then
    (if OnFacet M top a then (if i = P.dim - 1 then P.disp else 0) else upper P M (P.dim * a + i)) else 0
  have hlu : ∀ a i, lo a i ≤ up a i := by
    intro a i
    simp only [lo, up]
    by_cases hi : i < P.dim
    · rw [if_pos hi, if_pos hi]
      by_cases hf : OnFacet M top a
      · rw [if_pos hf, if_pos hf]
      · rw [if_neg hf, if_neg hf]; exact lower_le_upper hp hi
    · rw [if_neg hi, if_neg hi]
  let B : Set (ℕ → ℕ → ℝ) := Set.pi Set.univ (fun a => Set.pi Set.univ (fun i => Set.Icc (lo a i) (up a i)))
  have hB : IsCompact B := isCompact_univ_pi (fun a => isCompact_univ_pi (fun i => isCompact_Icc))
  have hmem : ∀ u, u ∈ B ↔ ∀ a i, lo a i ≤ u a i ∧ u a i ≤ up a i := by
    intro u
    simp only [B, Set.mem_pi, Set.mem_univ, true_implies, Set.mem_Icc]
  obtain ⟨u, huB, hmin⟩ := hB.exists_isMinOn ⟨lo, (hmem lo).mpr (fun a i => ⟨le_refl _, hlu a i⟩)⟩
    (work_continuous P M).continuousOn
  have hin := (hmem u).mp huB
  -- the returned vector: `u` at free nodes, the clamped prescribed value at the others
  let y : ℕ → ℕ → ℝ := fun a i => if OnFacet M top a
    then min (upper P M (P.dim * a + i)) (max (lower P M (P.dim * a + i)) (if i = P.dim - 1 then P.disp else 0)) else u a i
  let x : DVec := fun _ g => y (g / P.dim) (g % P.dim)
  have hx : ∀ a, ∀ i < P.dim, nodal P M x a i = y a i := by
    intro a i hi
    obtain ⟨d1, d2⟩ := dof_div (P := P) (a := a) hi
    simp only [nodal, x, d1, d2]
  have hpre : ∀ a < M.numNodes, ∀ i < P.dim, withPrescribed P M top (nodal P M x) a i = u a i := by
    intro a _ i hi
    unfold withPrescribed
    by_cases hf : OnFacet M top a
    · rw [if_pos hf]
      have := hin a i
      simp only [lo, up, if_pos hi, if_pos hf] at this
      linarith [this.1, this.2]
    · rw [if_neg hf, hx a i hi]
      simp only [y, if_neg hf]
  refine ⟨_, _, solverOf_solves M.owner (numDofs P M) 0 x, solverOf_ok (bottom := bottom) hm ht hd x (fun a ha i hi => ?_)⟩
  rw [hx a i hi]
  by_cases hf : OnFacet M top a
  · rw [if_pos hf, bounded_clamp]
    simp only [y, if_pos hf, sub_self, abs_zero, le_refl]
  · rw [if_neg hf]
    have hF : nodalForce P M (withPrescribed P M top (nodal P M x)) a i = nodalForce P M u a i := work_congr' _ hpre
    rw [hF]
    simp only [y, if_neg hf]
    have hb := hin a i
    simp only [lo, up, if_pos hi, if_neg hf] at hb
    -- moving one free dof within its bounds does not lower the energy
    have hmove : ∀ s, lower P M (P.dim * a + i) ≤ u a i + s → u a i + s ≤ upper P M (P.dim * a + i) →
        0 ≤ s * nodalForce P M u a i + s * s * (1 / 2 * bodyWork P M (unit a i) (unit a i)) := by
      intro s h1 h2
      have hmemB : u + s • unit a i ∈ B := by
        rw [hmem]
        intro b j
        by_cases hbj : b = a ∧ j = i
        · obtain ⟨rfl, rfl⟩ := hbj
          simp only [lo, up, if_pos hi, if_neg hf, Pi.add_apply, Pi.smul_apply, unit, smul_eq_mul]
          simp only [and_self, if_true, mul_one]
          exact ⟨h1, h2⟩
        · have : (u + s • unit a i) b j = u b j := by simp [unit, hbj]
          rw [this]; exact hin b j
      have h3 : bodyWork P M u u ≤ bodyWork P M (u + s • unit a i) (u + s • unit a i) := hmin hmemB
      have h4 := energy_step (P := P) (M := M) u (u + s • unit a i)
      rw [add_sub_cancel_left] at h4
      unfold bodyEnergy at h4
      have h5 : bodyWork P M (s • unit a i) (s • unit a i) = s * s * bodyWork P M (unit a i) (unit a i) := by
        rw [work_smul, work_symm, work_smul]; ring
      rw [work_smul, h5] at h4
      rw [nodalForce_eq]
      linarith
    set F := nodalForce P M u a i
    have hup : u a i < upper P M (P.dim * a + i) → 0 ≤ F := fun hlt =>
      slope_nonneg (K := 1 / 2 * bodyWork P M (unit a i) (unit a i)) (sub_pos.mpr hlt)
        (fun s h0 h1 => hmove s (by linarith [hb.1]) (by linarith))
    have hdn : lower P M (P.dim * a + i) < u a i → F ≤ 0 := fun hlt => by
      have := slope_nonneg (F := -F) (K := 1 / 2 * bodyWork P M (unit a i) (unit a i)) (sub_pos.mpr hlt)
        (fun s h0 h1 => by
          have := hmove (-s) (by linarith) (by linarith [hb.2])
          nlinarith)
      linarith
    have : boundedResidual (lower P M (P.dim * a + i)) (upper P M (P.dim * a + i)) (u a i) F = 0 := by
      unfold boundedResidual
      rcases lt_or_eq_of_le hb.2 with h1 | h1
      · have hF0 := hup h1
        rcases lt_or_eq_of_le hb.1 with h2 | h2
        · have hF1 : F = 0 := le_antisymm (hdn h2) hF0
          rw [hF1, min_eq_right (by linarith), max_eq_right (by linarith)]
        · rw [← h2, sub_self, min_eq_left hF0, max_eq_right (by linarith)]
      · rw [h1, sub_self]
        refine max_eq_left ?_
        rcases lt_or_eq_of_le hb.1 with h2 | h2
        · exact (min_le_right _ _).trans (hdn h2)
        · exact (min_le_left _ _).trans (by rw [← h1, ← h2, sub_self])
    rw [this, abs_zero]

/-- The hypotheses of C187: the example body is held by the facet with value 1. -/
example : Supported exArgs (exMesh 1 0) 1 := by
  intro w hw0 hE a ha i hi
  change a < 3 at ha
  change i < 2 at hi
  by_cases h2 : a = 2
  · subst h2
    have e0 : w 0 0 = 0 := hw0 0 ((ex_onFacet _ _ _).mpr (Or.inl rfl)) 0 (by norm_num [exArgs])
    have e1 : w 0 1 = 0 := hw0 0 ((ex_onFacet _ _ _).mpr (Or.inl rfl)) 1 (by norm_num [exArgs])
    have e2 : w 1 0 = 0 := hw0 1 ((ex_onFacet _ _ _).mpr (Or.inr rfl)) 0 (by norm_num [exArgs])
    have e3 : w 1 1 = 0 := hw0 1 ((ex_onFacet _ _ _).mpr (Or.inr rfl)) 1 (by norm_num [exArgs])
    rw [bodyEnergy, ex_work] at hE
    norm_num [stressWork, stress, strain, nodalGrad, sum_range_succ, exMesh, e0, e1, e2, e3] at hE
    have h0 : w 2 0 = 0 := by nlinarith [sq_nonneg (w 2 0), sq_nonneg (w 2 1)]
    have h1 : w 2 1 = 0 := by nlinarith [sq_nonneg (w 2 0), sq_nonneg (w 2 1)]
    interval_cases i
    · exact h0
    · exact h1
  · have h : a = 0 ∨ a = 1 := by omega
    exact hw0 a ((ex_onFacet _ _ _).mpr h) i hi

/-- The example body on two processes, where the second has no cells and owns the dofs of the last node. -/
example : SameMesh (exMesh 1 0) { exMesh 1 0 with procs := 2, owner := fun g => g / 4, cells := fun p => if p = 0 then [0] else [] } where
  numNodes := rfl
  x := rfl
  facets := fun _ _ => Iff.rfl
  points := by
    have : meshPoints { exMesh 1 0 with procs := 2, owner := fun g => g / 4, cells := fun p => if p = 0 then [0] else [] }
        = meshPoints (exMesh 1 0) := rfl
    rw [this]
  wt := rfl
  dphi := rfl

end

end Verif.Snes
