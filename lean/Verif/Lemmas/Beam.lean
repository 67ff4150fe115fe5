import Verif.Spec.Beam
import Verif.Lemmas.UflNewton

/-! Lemmas for C210. -/

namespace Verif.Beam

open Finset Verif.OneSided Verif.Snes Verif.UflDriver Verif.Scalars Verif.Lemmas Spec

noncomputable section

variable {P : Params} {M : Mesh} {Q : Quad} {rho : ℝ} {left : ℤ} {lin : LinSolver}

/-- Work of stresses and clamp. -/
def work (P : Params) (M : Mesh) (Q : Quad) (left : ℤ) (u v : ℕ → ℕ → ℝ) : ℝ :=
  innerWork P M Q u v + heldWork P M Q (clamp P M Q left) 0 u v

/-- The weak clamp prescribes zero. -/
theorem held_zero (u v : ℕ → ℕ → ℝ) :
    heldWork P M Q (clamp P M Q left) 1 u v = heldWork P M Q (clamp P M Q left) 0 u v := by
  unfold heldWork
  refine congrArg List.sum (List.map_congr_left (fun h hh => ?_))
  have hz : h.2 = fun _ => 0 := by
    simp only [clamp] at hh
    split at hh
    · rw [List.mem_singleton] at hh
      rw [hh]
    · cases hh
  simp only [hz, mul_zero]

theorem lin_work (v : ℕ → ℕ → ℝ) : Lin (numDofs P M) (fun u => work P M Q left (byNode P u) v) :=
  (lin_inner v).add (lin_held v)

theorem lin_work' (u : ℕ → ℕ → ℝ) : Lin (numDofs P M) (fun v => work P M Q left u (byNode P v)) :=
  (lin_inner' u).add (lin_held' 0 u)

theorem lin_load (hd : P.dim = 2) : Lin (numDofs P M) (fun v => topLoadWork M Q rho (byNode P v)) :=
  Lin.quad _ _ (fun k _ => (lin_value k (by omega)).const_mul _)

theorem penalty_eq (k : ℕ) : penalty P Q k = P.gamma * P.E / (2 * Q.circ k) := by
  unfold penalty
  rw [mul_comm P.E]

theorem beamA_eq {c d : ℕ} (hc : c < numDofs P M) (hd : d < numDofs P M) :
    beamA P Q (basis P M c) (basis P M d) = work P M Q left (unitDof P c) (unitDof P d) := by
  have hA := fun k => basis_agree hd k
  have hB := fun k => basis_agree hc k
  unfold beamA work
  rw [inner_eq' hB hA]
  congr 1
  unfold heldWork clamp
  split
  · simp only [List.map_cons, List.map_nil, List.sum_cons, List.sum_nil, add_zero, mul_zero, sub_zero]
    refine integral_congr Q (fun k _ => (dirichletJ_eq _ _ (hA k) (hB k)).trans ?_)
    rw [penalty_eq]
    rfl
  · simp

theorem load_eq (hdim : P.dim = 2) {d : ℕ} (hd : d < numDofs P M) :
    integral Q Q.contact (fun k => dotV P.dim (surfaceLoad rho) (basis P M d k).val) = topLoadWork M Q rho (unitDof P d) := by
  unfold topLoadWork
  rw [← integral_quadSum]
  refine integral_congr Q (fun k _ => ?_)
  have h := (basis_agree hd k 1 (by omega)).1
  unfold dotV surfaceLoad
  rw [hdim, sum_range_succ, sum_range_succ, sum_range_zero, h]
  simp [valOf]

theorem beamF_eq (hdim : P.dim = 2) (x : ℕ → ℝ) {d : ℕ} (hd : d < numDofs P M) :
    beamF P Q rho (field P M x) (basis P M d)
      = work P M Q left (byNode P x) (unitDof P d) - topLoadWork M Q rho (unitDof P d) := by
  have hA := fun k => basis_agree hd k
  unfold beamF work
  rw [integral_zero', load_eq hdim hd, inner_eq (byNode P x) (field P M x) (fun _ => rfl) hA]
  have e3 : (if P.nitscheBc = true then integral Q Q.dirichlet (fun k =>
        dirichletF P (Q.n k) (fun _ => 0) (penalty P Q k) (field P M x k) (basis P M d k)) else 0)
      = heldWork P M Q (clamp P M Q left) 0 (byNode P x) (unitDof P d) := by
    unfold heldWork clamp
    split
    · simp only [List.map_cons, List.map_nil, List.sum_cons, List.sum_nil, add_zero]
      refine integral_congr Q (fun k _ => (dirichletF_eq _ _ _ _ (hA k) (fun _ => 0 * 0) (fun i _ => by ring)).trans ?_)
      rw [penalty_eq]
      rfl
    · simp
  rw [e3]
  ring

theorem beam_bc (a i : ℕ) (hi : i < P.dim) :
    beamBc P M left (P.dim * a + i) = ((clamp P M Q left).fixed a).map (fun g => g i) := by
  unfold beamBc clamp
  have hb := onFacet_iff (P := P) (M := M) left (a := a) hi
  by_cases h1 : P.nitscheBc = true
  · simp [h1]
  · by_cases h2 : OnFacet M left a
    · simp [h1, h2, hb.mpr h2]
    · have : bcDof P M left (P.dim * a + i) = false := by simpa using fun h => h2 (hb.mp h)
      simp [h1, h2, this]

theorem bc_zero {d : ℕ} {g : ℝ} (h : beamBc P M left d = some g) : g = 0 := by
  unfold beamBc at h
  split at h
  · cases h
  · split at h
    · cases h
      rfl
    · cases h

/-- Dofs that are not clamped. -/
def open' (P : Params) (M : Mesh) (left : ℤ) : Finset ℕ := (range (numDofs P M)).filter (fun d => beamBc P M left d = none)

theorem mem_open {d : ℕ} : d ∈ open' P M left ↔ d < numDofs P M ∧ beamBc P M left d = none := by
  unfold open'
  rw [mem_filter, mem_range]

/-- The entries of the stiffness matrix. -/
def stiffness (P : Params) (M : Mesh) (Q : Quad) (left : ℤ) (d c : ℕ) : ℝ :=
  work P M Q left (unitDof P c) (unitDof P d)

theorem work_expand (x : ℕ → ℝ) (d : ℕ) :
    work P M Q left (byNode P x) (unitDof P d) = ∑ c ∈ range (numDofs P M), stiffness P M Q left d c * x c :=
  (lin_work (unitDof P d) x).trans (sum_congr rfl (fun c _ => mul_comm _ _))

theorem virtual_of (hd : 0 < P.dim) {v : ℕ → ℝ} (h : ∀ d, d ∉ open' P M left → v d = 0) :
    Virtual P (clamp P M Q left) (byNode P v) := by
  intro a ha i hi
  refine h _ (fun hm => ?_)
  have := (mem_open.mp hm).2
  rw [beam_bc (Q := Q) a i hi] at this
  cases hfa : (clamp P M Q left).fixed a with
  | none => exact ha hfa
  | some g => rw [hfa] at this; cases this

theorem stiffness_pos (hd : 0 < P.dim) (hc : Clamped P M Q left) (v : ℕ → ℝ) (h0 : ∀ d, d ∉ open' P M left → v d = 0)
    (hne : ∃ d, v d ≠ 0) :
    0 < ∑ d ∈ range (numDofs P M), ∑ c ∈ range (numDofs P M), v d * stiffness P M Q left d c * v c := by
  rw [show (∑ d ∈ range (numDofs P M), ∑ c ∈ range (numDofs P M), v d * stiffness P M Q left d c * v c)
    = work P M Q left (byNode P v) (byNode P v) from
      bilin (f := fun u v => work P M Q left (byNode P u) (byNode P v)) (fun v => lin_work _) (fun u => lin_work' _) v]
  obtain ⟨d, hdv⟩ := hne
  have hm : d ∈ open' P M left := by
    by_contra h; exact hdv (h0 d h)
  exact hc (byNode P v) (virtual_of hd h0) ⟨d / P.dim, div_lt (mem_open.mp hm).1, d % P.dim, Nat.mod_lt d hd, by
    unfold byNode; rwa [Nat.div_add_mod]⟩

/-- What the linear systems say. -/
def Solves (P : Params) (M : Mesh) (Q : Quad) (left : ℤ) (r : ℕ → ℝ) (u0 y : ℕ → ℝ) : Prop :=
  (∀ d < numDofs P M, d ∉ open' P M left → y d = u0 d)
  ∧ ∀ d ∈ open' P M left, ∑ c ∈ range (numDofs P M), stiffness P M Q left d c * y c = r d

theorem solves_unique (hd : 0 < P.dim) (hc : Clamped P M Q left) (r u0 : ℕ → ℝ) :
    ∃ s : ℕ → ℝ, ∀ y : ℕ → ℝ, Solves P M Q left r u0 y ↔ ∀ d < numDofs P M, y d = s d := by
  obtain ⟨s, ⟨h1, h2⟩, huniq⟩ := posdef_solvable (N := numDofs P M) (F := open' P M left) (fun d hd => (mem_open.mp hd).1)
    (stiffness P M Q left) (stiffness_pos hd hc) r (fun d => if d < numDofs P M then u0 d else 0)
  refine ⟨s, fun y => ⟨?_, fun hy => ⟨fun d hN hm => ?_, fun d hm => ?_⟩⟩⟩
  · rintro ⟨hy1, hy2⟩ d hN
    have := huniq (fun c => if c < numDofs P M then y c else 0) ⟨fun e he => ?_, fun e he => ?_⟩
    · have := congrFun this d
      rwa [if_pos hN] at this
    · dsimp only
      by_cases hN : e < numDofs P M
      · rw [if_pos hN, if_pos hN, hy1 e hN he]
      · rw [if_neg hN, if_neg hN]
    · rw [← hy2 e he]
      exact sum_congr rfl (fun c hc => by dsimp only; rw [if_pos (mem_range.mp hc)])
  · rw [hy d hN, h1 d hm, if_pos hN]
  · rw [← h2 d hm]
    exact sum_congr rfl (fun c hc => by rw [hy c (mem_range.mp hc)])

/-- The matrix with clamped dofs left out. -/
theorem mat_iff {b r u0 : ℕ → ℝ} (hb1 : ∀ d < numDofs P M, d ∉ open' P M left → b d = u0 d)
    (hb2 : ∀ d ∈ open' P M left, b d = r d
      - ∑ c ∈ range (numDofs P M), (if c ∈ open' P M left then 0 else stiffness P M Q left d c * u0 c)) (y : ℕ → ℝ) :
    (∀ d < numDofs P M, ∑ c ∈ range (numDofs P M), linearMat P M Q left d c * y c = b d) ↔ Solves P M Q left r u0 y := by
  have hbc : ∀ d < numDofs P M, d ∉ open' P M left → ∑ c ∈ range (numDofs P M), linearMat P M Q left d c * y c = y d := by
    intro d hd hm
    have hne : ¬ beamBc P M left d = none := fun h => hm (mem_open.mpr ⟨hd, h⟩)
    rw [sum_eq_single d]
    · unfold linearMat; rw [if_neg (fun h => hne h.1), if_pos rfl]; norm_num
    · intro c _ hc
      unfold linearMat; rw [if_neg (fun h => hne h.1), if_neg (Ne.symm hc)]; norm_num
    · intro h; exact absurd (mem_range.mpr hd) h
  have hfr : (∀ d < numDofs P M, d ∉ open' P M left → y d = u0 d) → ∀ d ∈ open' P M left,
      ∑ c ∈ range (numDofs P M), linearMat P M Q left d c * y c
        = ∑ c ∈ range (numDofs P M), stiffness P M Q left d c * y c
          - ∑ c ∈ range (numDofs P M), (if c ∈ open' P M left then 0 else stiffness P M Q left d c * u0 c) := by
    intro h d hm
    obtain ⟨hd, hn⟩ := mem_open.mp hm
    rw [← sum_sub_distrib]
    refine sum_congr rfl (fun c hc => ?_)
    have hcN := mem_range.mp hc
    unfold linearMat
    by_cases hcm : c ∈ open' P M left
    · rw [if_pos ⟨hn, (mem_open.mp hcm).2⟩, if_pos hcm, beamA_eq (left := left) hcN hd, sub_zero]
      rfl
    · rw [if_neg (fun h => hcm (mem_open.mpr ⟨hcN, h.2⟩)), if_neg (by rintro rfl; exact hcm hm), if_neg hcm, h c hcN hcm]
      norm_num
  constructor
  · intro h
    have h1 : ∀ d < numDofs P M, d ∉ open' P M left → y d = u0 d := fun d hd hm => by
      rw [← hbc d hd hm, h d hd, hb1 d hd hm]
    refine ⟨h1, fun d hm => ?_⟩
    have h2 := h d (mem_open.mp hm).1
    rw [hfr h1 d hm, hb2 d hm] at h2
    linarith
  · rintro ⟨h1, h2⟩ d hd
    by_cases hm : d ∈ open' P M left
    · rw [hfr h1 d hm, hb2 d hm, h2 d hm]
    · rw [hbc d hd hm, hb1 d hd hm, h1 d hd hm]

theorem not_open {d : ℕ} (hd : d < numDofs P M) (hm : d ∉ open' P M left) : beamBc P M left d = some 0 := by
  cases h : beamBc P M left d with
  | none => exact absurd (mem_open.mpr ⟨hd, h⟩) hm
  | some g => rw [bc_zero h]

/-- The system of `LinearProblem`. -/
theorem linear_iff (hdim : P.dim = 2) (y : ℕ → ℝ) :
    (∀ d < numDofs P M, ∑ c ∈ range (numDofs P M), linearMat P M Q left d c * y c = linearRhs P M Q rho left d)
      ↔ Solves P M Q left (fun d => topLoadWork M Q rho (unitDof P d)) (fun _ => 0) y := by
  apply mat_iff
  · intro d hd hm
    unfold linearRhs
    rw [not_open hd hm]
  · intro d hm
    obtain ⟨hd, hn⟩ := mem_open.mp hm
    unfold linearRhs
    rw [hn]
    dsimp only
    congr 1
    · unfold beamL
      rw [integral_zero', load_eq hdim hd, zero_add]
    · refine sum_congr rfl (fun c hc => ?_)
      by_cases hcm : c ∈ open' P M left
      · rw [if_pos hcm, (mem_open.mp hcm).2]
      · rw [if_neg hcm, not_open (mem_range.mp hc) hcm]
        simp

/-- A step of Newton's method. -/
theorem newton_iff (hdim : P.dim = 2) (x y : ℕ → ℝ) :
    (∀ d < numDofs P M, ∑ c ∈ range (numDofs P M), jacobian P M (beamForms P M Q rho left) x d c * y c
        = residual P M (beamForms P M Q rho left) x d)
      ↔ Solves P M Q left (fun d => (∑ c ∈ range (numDofs P M), stiffness P M Q left d c * x c)
          - topLoadWork M Q rho (unitDof P d)) x y := by
  rw [show jacobian P M (beamForms P M Q rho left) x = linearMat P M Q left from rfl]
  apply mat_iff
  · intro d hd hm
    unfold UflDriver.residual
    rw [show (beamForms P M Q rho left).bc d = some 0 from not_open hd hm]
    norm_num
  · intro d hm
    obtain ⟨hd, hn⟩ := mem_open.mp hm
    unfold UflDriver.residual
    rw [show (beamForms P M Q rho left).bc d = none from hn]
    dsimp only
    rw [show (beamForms P M Q rho left).F (field P M x) (basis P M d) = beamF P Q rho (field P M x) (basis P M d) from rfl,
      beamF_eq (left := left) hdim x hd, work_expand]
    rw [sub_eq_add_neg _ (-1.0 * _), sub_eq_add_neg _ (∑ c ∈ range (numDofs P M), ite _ _ _)]
    congr 1
    rw [neg_mul_eq_neg_mul, ← sum_neg_distrib, mul_sum]
    refine sum_congr rfl (fun c hc => ?_)
    have hcN := mem_range.mp hc
    by_cases hcm : c ∈ open' P M left
    · rw [if_pos hcm, show (beamForms P M Q rho left).bc c = none from (mem_open.mp hcm).2]
      norm_num
    · rw [if_neg hcm, show (beamForms P M Q rho left).bc c = some 0 from not_open hcN hcm]
      dsimp only
      rw [show tangent P M (beamForms P M Q rho left) x d c = beamA P Q (basis P M c) (basis P M d) from rfl,
        beamA_eq (left := left) hcN hd]
      unfold stiffness
      norm_num

/-- Equilibrium is the linear system. -/
theorem atRest_iff (hdim : P.dim = 2) (y : ℕ → ℝ) : BeamAtRest P M Q left rho (byNode P y)
    ↔ Solves P M Q left (fun d => topLoadWork M Q rho (unitDof P d)) (fun _ => 0) y := by
  have hd : 0 < P.dim := by omega
  have hdof : ∀ d, P.dim * (d / P.dim) + d % P.dim = d := fun d => Nat.div_add_mod d P.dim
  have hW : ∀ v, innerWork P M Q (byNode P y) v + heldWork P M Q (clamp P M Q left) 1 (byNode P y) v
      = work P M Q left (byNode P y) v := fun v => by rw [held_zero]; rfl
  unfold BeamAtRest
  simp only [hW]
  constructor
  · rintro ⟨h1, h2⟩
    refine ⟨fun d hN hm => ?_, fun d hm => ?_⟩
    · have hb := not_open hN hm
      have hb' := beam_bc (P := P) (M := M) (Q := Q) (left := left) (d / P.dim) (d % P.dim) (Nat.mod_lt d hd)
      rw [hdof, hb] at hb'
      cases hfa : (clamp P M Q left).fixed (d / P.dim) with
      | none => rw [hfa] at hb'; cases hb'
      | some g =>
        rw [hfa] at hb'
        have := h1 _ (div_lt hN) g hfa (d % P.dim) (Nat.mod_lt d hd)
        unfold byNode at this
        rw [hdof] at this
        rw [this]
        simpa using hb'.symm
    · rw [← work_expand]
      refine h2 _ (virtual_of hd (fun c hc => ?_))
      exact Pi.single_eq_of_ne (by rintro rfl; exact hc hm) 1
  · rintro ⟨h1, h2⟩
    refine ⟨fun a ha g hg i hi => ?_, fun v hv => ?_⟩
    · have hb := beam_bc (P := P) (M := M) (Q := Q) (left := left) a i hi
      rw [hg] at hb
      have hm : P.dim * a + i ∉ open' P M left := fun hm => by
        have := (mem_open.mp hm).2
        rw [hb] at this
        cases this
      unfold byNode
      rw [h1 _ (UflDriver.dof_lt ha hi) hm]
      exact (bc_zero hb).symm
    · have hv' : ∀ a < M.numNodes, ∀ i < P.dim, v a i = byNode P (flat P v) a i := fun a _ i hi => (byNode_flat v hi).symm
      have e1 : work P M Q left (byNode P y) v = work P M Q left (byNode P y) (byNode P (flat P v)) := by
        unfold work
        rw [inner_congr (fun _ _ _ _ => rfl) hv', held_congr 0 (fun _ _ _ _ => rfl) hv']
      have e2 : topLoadWork M Q rho v = topLoadWork M Q rho (byNode P (flat P v)) := by
        unfold topLoadWork
        exact congrArg _ (funext fun k => by rw [value_congr hv' k (by omega)])
      rw [e1, e2]
      refine (lin_work' (byNode P y) (flat P v)).trans (Eq.trans ?_ (lin_load hdim (flat P v)).symm)
      refine sum_congr rfl (fun d hdr => ?_)
      have hN := mem_range.mp hdr
      by_cases hm : d ∈ open' P M left
      · have := h2 d hm
        rw [← work_expand] at this
        exact congrArg _ this
      · have hb := beam_bc (P := P) (M := M) (Q := Q) (left := left) (d / P.dim) (d % P.dim) (Nat.mod_lt d hd)
        rw [hdof, not_open hN hm] at hb
        have : flat P v d = 0 := by
          refine hv (d / P.dim) (fun hn => ?_) (d % P.dim) (Nat.mod_lt d hd)
          rw [hn] at hb
          cases hb
        rw [this, zero_mul, zero_mul]

end

end Verif.Beam
