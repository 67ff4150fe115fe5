import Verif.Lemmas.Beam
import Verif.Props.UflDriver

/-!
Property C210: the two ways of solving the beam of `new_demo_nitsche_euler_bernoulli.py`.
-/

namespace Verif.Beam

open Finset Verif.OneSided Verif.Snes Verif.UflDriver Verif.Scalars Verif.Lemmas Spec

noncomputable section

variable {P : Params} {M : Mesh} {Q : Quad} {rho : ℝ} {left : ℤ} {lin : LinSolver}

/-- C210: for a clamped beam and an exact linear solver, the linear solver and Newton's method both end without error
with the same displacement, which is the only one at rest, and Newton's method takes two iterations. -/
theorem C210_same (hdim : P.dim = 2) (hc : Clamped P M Q left) (hlin : ExactSolver (numDofs P M) lin) :
    ∃ u w, solveBeam P M Q rho left true lin = .ok (none, u) ∧ solveBeam P M Q rho left false lin = .ok (some 2, w)
      ∧ (∀ a < M.numNodes, ∀ i < P.dim, byNode P w a i = byNode P u a i)
      ∧ BeamAtRest P M Q left rho (byNode P u)
      ∧ ∀ z, BeamAtRest P M Q left rho z → ∀ a < M.numNodes, ∀ i < P.dim, z a i = byNode P u a i := by
  have hd : 0 < P.dim := by omega
  obtain ⟨s, hs⟩ := solves_unique (P := P) (M := M) (Q := Q) (left := left) hd hc
    (fun d => topLoadWork M Q rho (unitDof P d)) (fun _ => 0)
  have hrest : Solves P M Q left (fun d => topLoadWork M Q rho (unitDof P d)) (fun _ => 0) s := (hs s).2 (fun _ _ => rfl)
  -- the linear problem
  obtain ⟨u, hu⟩ := Option.ne_none_iff_exists'.mp (hlin.2 (linearMat P M Q left) (linearRhs P M Q rho left)
    ⟨s, fun y => (linear_iff hdim y).trans (hs y)⟩)
  have hus : ∀ d < numDofs P M, u d = s d := (hs u).1 ((linear_iff hdim u).1 (hlin.1 _ _ _ hu))
  -- steps of Newton's method
  have hstep : ∀ x : ℕ → ℝ, ∃ dx, lin (jacobian P M (beamForms P M Q rho left) x)
      (UflDriver.residual P M (beamForms P M Q rho left) x) = some dx ∧ ∀ d < numDofs P M, dx d = x d - s d := by
    intro x
    have hiff : ∀ y : ℕ → ℝ, Solves P M Q left (fun d => (∑ c ∈ range (numDofs P M), stiffness P M Q left d c * x c)
          - topLoadWork M Q rho (unitDof P d)) x y ↔ ∀ d < numDofs P M, y d = x d - s d := by
      intro y
      have h1 : Solves P M Q left (fun d => (∑ c ∈ range (numDofs P M), stiffness P M Q left d c * x c)
          - topLoadWork M Q rho (unitDof P d)) x y
          ↔ Solves P M Q left (fun d => topLoadWork M Q rho (unitDof P d)) (fun _ => 0) (fun d => x d - y d) := by
        unfold Solves
        simp only [mul_sub, sum_sub_distrib]
        refine and_congr (forall_congr' fun d => forall_congr' fun _ => forall_congr' fun _ => ?_)
          (forall_congr' fun d => forall_congr' fun _ => ?_)
        · constructor <;> intro h <;> linarith
        · constructor <;> intro h <;> linarith
      rw [h1, hs]
      exact forall_congr' fun d => forall_congr' fun _ => by constructor <;> intro h <;> linarith
    obtain ⟨dx, hdx⟩ := Option.ne_none_iff_exists'.mp (hlin.2 (jacobian P M (beamForms P M Q rho left) x)
      (UflDriver.residual P M (beamForms P M Q rho left) x)
      ⟨fun d => x d - s d, fun y => (newton_iff hdim x y).trans (hiff y)⟩)
    exact ⟨dx, hdx, (hiff dx).1 ((newton_iff hdim x dx).1 (hlin.1 _ _ _ hdx))⟩
  obtain ⟨dx, h1, h1'⟩ := hstep (fun _ => 0)
  obtain ⟨dy, h2, h2'⟩ := hstep (fun d => 0 - beamOptions.relaxation * dx d)
  have hrel : beamOptions.relaxation = 1 := by norm_num [beamOptions]
  have hdy : ∀ d < numDofs P M, dy d = 0 := by
    intro d hN
    rw [h2' d hN, h1' d hN, hrel]
    ring
  have hcrit : ¬ beamOptions.criterion = "residual" := by decide
  have hnd : ¬ Done P M (beamForms P M Q rho left) beamOptions 0 (if 0 = 0 then norm2 (numDofs P M) dx else 0) dx
      (fun d => 0 - beamOptions.relaxation * dx d) := by
    unfold Done
    rw [if_neg hcrit]
    exact fun h => h.1 rfl
  have hdn : Done P M (beamForms P M Q rho left) beamOptions 1 (if 1 = 0 then norm2 (numDofs P M) dy else
      (if 0 = 0 then norm2 (numDofs P M) dx else 0)) dy
      (fun d => 0 - beamOptions.relaxation * dx d - beamOptions.relaxation * dy d) := by
    unfold Done
    rw [if_neg hcrit]
    refine ⟨by norm_num, Or.inr ?_⟩
    have : norm2 (numDofs P M) dy = 0 := by
      unfold norm2
      rw [sum_eq_zero (fun d hdr => by rw [hdy d (mem_range.mp hdr)]; norm_num), Real.sqrt_zero]
    rw [this]
    norm_num [beamOptions]
  have hloop : newtonLoop P M (beamForms P M Q rho left) beamOptions lin 50 0 0 (fun _ => 0)
      = .ok (2, true, fun d => 0 - beamOptions.relaxation * dx d - beamOptions.relaxation * dy d) := by
    rw [loop_next (fuel := 49) h1 hnd, loop_done (fuel := 48) h2 hdn]
  have hnewton : newtonSolve P M (beamForms P M Q rho left) beamOptions lin (fun _ => 0)
      = .ok (2, true, fun d => 0 - beamOptions.relaxation * dx d - beamOptions.relaxation * dy d) := by
    unfold newtonSolve
    rw [if_neg (fun h => h.2 rfl), if_neg (fun h => hcrit h.1)]
    rw [show beamOptions.maxIt = 50 from rfl, hloop]
    dsimp only
    rw [if_neg (fun h => Bool.noConfusion h.1)]
  refine ⟨u, fun d => 0 - beamOptions.relaxation * dx d - beamOptions.relaxation * dy d, ?_, ?_, fun a ha i hi => ?_, ?_,
    fun z hz a ha i hi => ?_⟩
  · unfold solveBeam
    rw [if_pos rfl, hu]
  · unfold solveBeam
    rw [if_neg (by decide), hnewton]
    dsimp only
    rw [if_neg (by decide)]
  · unfold byNode
    have hN := UflDriver.dof_lt (P := P) (M := M) ha hi
    dsimp only
    rw [hus _ hN, h1' _ hN, hdy _ hN, hrel]
    ring
  · rw [atRest_iff hdim, hs]
    exact hus
  · have hz' : ∀ a < M.numNodes, ∀ i < P.dim, z a i = byNode P (flat P z) a i := fun a _ i hi => (byNode_flat z hi).symm
    have hrz : BeamAtRest P M Q left rho (byNode P (flat P z)) := by
      refine ⟨fun a ha g hg i hi => ?_, fun v hv => ?_⟩
      · rw [← hz' a ha i hi]
        exact hz.1 a ha g hg i hi
      · rw [← hz.2 v hv, inner_congr hz' (fun _ _ _ _ => rfl), held_congr 1 hz' (fun _ _ _ _ => rfl)]
    have h3 := (hs _).1 ((atRest_iff hdim _).1 hrz)
    have hN := UflDriver.dof_lt (P := P) (M := M) ha hi
    rw [hz' a ha i hi]
    unfold byNode
    rw [h3 _ hN, hus _ hN]

/-- The strains of a displacement without elastic energy vanish. -/
theorem stressWork_zero {d : ℕ} {mu lam : ℝ} (hmu : 0 < mu) (hlam : 0 ≤ lam) (G : ℕ → ℕ → ℝ)
    (h : stressWork d mu lam G G ≤ 0) : ∀ i < d, ∀ j < d, strain G i j = 0 := by
  rw [stressWork_eq, mul_assoc lam] at h
  have h1 : ∀ i ∈ range d, 0 ≤ ∑ j ∈ range d, strain G i j * strain G i j :=
    fun _ _ => sum_nonneg (fun _ _ => mul_self_nonneg _)
  have h2 := mul_nonneg hlam (mul_self_nonneg (∑ k ∈ range d, strain G k k))
  have h3 : ∑ i ∈ range d, ∑ j ∈ range d, strain G i j * strain G i j = 0 := by
    apply le_antisymm _ (sum_nonneg h1)
    by_contra h'
    have := mul_pos (mul_pos two_pos hmu) (not_le.1 h')
    linarith
  intro i hi j hj
  have h4 := (sum_eq_zero_iff_of_nonneg h1).1 h3 i (mem_range.mpr hi)
  exact mul_self_eq_zero.1 ((sum_eq_zero_iff_of_nonneg (fun _ _ => mul_self_nonneg _)).1 h4 j (mem_range.mpr hj))

theorem quadSum_nonneg' {ks : List ℕ} {wt f : ℕ → ℝ} (hw : ∀ k ∈ ks, 0 < wt k) (hf : ∀ k ∈ ks, 0 ≤ f k) :
    0 ≤ quadSum ks wt f ∧ (quadSum ks wt f ≤ 0 → ∀ k ∈ ks, f k ≤ 0) := by
  unfold quadSum
  induction ks with
  | nil => simp
  | cons a l ih =>
    obtain ⟨ih1, ih2⟩ := ih (fun k hk => hw k (List.mem_cons_of_mem _ hk)) (fun k hk => hf k (List.mem_cons_of_mem _ hk))
    have ha := hw a List.mem_cons_self
    have hfa := mul_nonneg ha.le (hf a List.mem_cons_self)
    rw [List.map_cons, List.sum_cons]
    refine ⟨by linarith, fun h k hk => ?_⟩
    rcases List.mem_cons.1 hk with rfl | hk
    · by_contra h'
      have := mul_pos ha (not_le.1 h')
      linarith
    · exact ih2 (by linarith) k hk

/-- C210: a beam without free motion is clamped, if the condition is enforced strongly, or with the skew symmetric
method of Nitsche (`theta = -1`) and any positive parameter `gamma`. -/
theorem C210_clamped (hmu : 0 < shearModulus P.E P.nu) (hlam : 0 ≤ lameFirst P.planeStrain P.E P.nu)
    (hw : ∀ k ∈ Q.cells, 0 < Q.wt k) (hw' : ∀ k ∈ Q.dirichlet, 0 < Q.wt k ∧ 0 < Q.circ k)
    (hskew : P.nitscheBc = true → P.theta = -1 ∧ 0 < P.gamma ∧ 0 < P.E) (hfree : NoFreeMotion P M Q left) :
    Clamped P M Q left := by
  rintro v hv ⟨a, ha, i, hi, hne⟩
  obtain ⟨i1, i2⟩ := quadSum_nonneg' (f := fun k => stressWork P.dim (shearModulus P.E P.nu)
    (lameFirst P.planeStrain P.E P.nu) (nodalGrad M v k) (nodalGrad M v k)) hw
    (fun k _ => stressWork_nonneg hmu.le hlam _)
  have hheld : 0 ≤ heldWork P M Q (clamp P M Q left) 0 v v ∧ (heldWork P M Q (clamp P M Q left) 0 v v ≤ 0 →
      P.nitscheBc = true → ∀ k ∈ Q.dirichlet, ∀ i < P.dim, nodalValue M v k i = 0) := by
    unfold heldWork clamp
    split
    · rename_i hn
      obtain ⟨ht, hg, hE⟩ := hskew hn
      simp only [List.map_cons, List.map_nil, List.sum_cons, List.sum_nil, add_zero, mul_zero, sub_zero]
      have e : ∀ k, (-∑ i ∈ range P.dim, tractionAt P M Q v k i * nodalValue M v k i
          - P.theta * ∑ i ∈ range P.dim, tractionAt P M Q v k i * nodalValue M v k i
          + P.gamma * P.E / (2 * Q.circ k) * ∑ i ∈ range P.dim, nodalValue M v k i * nodalValue M v k i)
          = P.gamma * P.E / (2 * Q.circ k) * ∑ i ∈ range P.dim, nodalValue M v k i * nodalValue M v k i := by
        intro k
        rw [ht]
        ring
      simp only [e]
      have hpen : ∀ k ∈ Q.dirichlet, 0 < P.gamma * P.E / (2 * Q.circ k) := fun k hk => by
        have := (hw' k hk).2
        positivity
      have hnn : ∀ k, 0 ≤ ∑ i ∈ range P.dim, nodalValue M v k i * nodalValue M v k i :=
        fun k => sum_nonneg (fun _ _ => mul_self_nonneg _)
      obtain ⟨j1, j2⟩ := quadSum_nonneg' (ks := Q.dirichlet) (wt := Q.wt) (f := fun k => P.gamma * P.E / (2 * Q.circ k)
        * ∑ i ∈ range P.dim, nodalValue M v k i * nodalValue M v k i) (fun k hk => (hw' k hk).1)
        (fun k hk => mul_nonneg (hpen k hk).le (hnn k))
      refine ⟨j1, fun h _ k hk i hi => ?_⟩
      have h1 := j2 h k hk
      have h2 : ∑ i ∈ range P.dim, nodalValue M v k i * nodalValue M v k i = 0 := by
        apply le_antisymm _ (hnn k)
        by_contra h'
        have := mul_pos (hpen k hk) (not_le.1 h')
        linarith
      exact mul_self_eq_zero.1 ((sum_eq_zero_iff_of_nonneg (fun _ _ => mul_self_nonneg _)).1 h2 i (mem_range.mpr hi))
    · rename_i hn
      exact ⟨le_refl _, fun _ h => absurd h hn⟩
  by_contra hle
  rw [not_lt] at hle
  have hi1 : 0 ≤ innerWork P M Q v v := i1
  refine hne (hfree v hv (fun k hk => ?_) (hheld.2 (by linarith)) a ha i hi)
  exact stressWork_zero hmu hlam _ (i2 (by have := hheld.1; unfold innerWork at hle; linarith) k hk)

/-! ### the hypotheses can be met -/

/-- A triangle clamped at its vertical side and loaded on its bottom: strongly, or with the skew symmetric method and a
quadrature point at each of the two clamped corners. -/
def exBeam (n : Bool) : Params := ⟨2, false, 3, 1 / 2, -1, 10, 0, 0, n⟩

/-- The triangle of `exMesh`, with points 3 and 4 at the clamped corners. -/
def exBeamMesh : Mesh := { exMesh 3 with phi := fun k a => if k = 3 then (if a = 0 then 1 else 0) else if k = 4 then (if a = 1 then 1 else 0) else (exMesh 3).phi k a }

def exBeamQuad : Quad := { exQuad [0] with dirichlet := [3, 4] }

theorem exBeam_free (n : Bool) : NoFreeMotion (exBeam n) exBeamMesh exBeamQuad 1 := by
  intro v hv hs hn
  have h01 : ∀ i < 2, v 0 i = 0 ∧ v 1 i = 0 := by
    intro i hi
    cases n with
    | true =>
      have h3 := hn rfl 3 (by simp [exBeamQuad]) i hi
      have h4 := hn rfl 4 (by simp [exBeamQuad]) i hi
      simp [nodalValue, exBeamMesh, exMesh] at h3 h4
      exact ⟨h3, h4⟩
    | false =>
      have hon : ∀ a, a = 0 ∨ a = 1 → (clamp (exBeam false) exBeamMesh exBeamQuad 1).fixed a ≠ none := by
        intro a ha
        have : OnFacet exBeamMesh 1 a := (ex_top 3 a).2 ha
        simp [clamp, exBeam, this]
      exact ⟨hv 0 (hon 0 (Or.inl rfl)) i hi, hv 1 (hon 1 (Or.inr rfl)) i hi⟩
  have g : ∀ i j, nodalGrad exBeamMesh v 0 i j = v 0 i * (if j = 1 then 1 / 3 else 0)
      + v 1 i * (if j = 0 then -1 / 4 else -1 / 3) + v 2 i * (if j = 0 then 1 / 4 else 0) :=
    fun i j => ex_grad (m := 3) (Or.inl rfl) v (k := 0) (by norm_num) i j
  have hs' := hs 0 (by simp [exBeamQuad, exQuad])
  have s0 := hs' 0 (by simp [exBeam]) 0 (by simp [exBeam])
  have s1 := hs' 0 (by simp [exBeam]) 1 (by simp [exBeam])
  simp only [strain, g, (h01 0 (by norm_num)).1, (h01 0 (by norm_num)).2, (h01 1 (by norm_num)).1,
    (h01 1 (by norm_num)).2] at s0 s1
  norm_num at s0 s1
  intro a ha i hi
  change a < 3 at ha
  change i < 2 at hi
  interval_cases a
  · exact (h01 i hi).1
  · exact (h01 i hi).2
  · interval_cases i
    · exact s0
    · exact s1

/-- Hypotheses of C210: strongly clamped and with Nitsche's method. -/
example (n : Bool) (rho : ℝ) : ∃ lin u w, solveBeam (exBeam n) exBeamMesh exBeamQuad rho 1 true lin = .ok (none, u)
    ∧ solveBeam (exBeam n) exBeamMesh exBeamQuad rho 1 false lin = .ok (some 2, w)
    ∧ ∀ a < 3, ∀ i < 2, byNode (exBeam n) w a i = byNode (exBeam n) u a i := by
  obtain ⟨lin, hlin⟩ := exists_solver (numDofs (exBeam n) exBeamMesh)
  have hc : Clamped (exBeam n) exBeamMesh exBeamQuad 1 := C210_clamped (by norm_num [exBeam, shearModulus])
    (by norm_num [exBeam, lameFirst]) (by simp [exBeamQuad, exQuad])
    (by simp [exBeamQuad, exQuad])
    (fun _ => by norm_num [exBeam]) (exBeam_free n)
  obtain ⟨u, w, h1, h2, h3, -, -⟩ := C210_same (rho := rho) rfl hc hlin
  exact ⟨lin, u, w, h1, h2, h3⟩

end

end Verif.Beam
