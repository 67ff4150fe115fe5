import Verif.Props.TieRotation
import Verif.Props.Units
import Verif.Spec.TieUnits

/-!
Property C154: the vector and the matrix for tied bodies and the units of length and stress.
-/

namespace Verif.TieData

open Verif.Spec Verif.Packing Verif.Assembly Verif.Kernels Verif.Geometry Finset
open Verif.ContactProblem (System norm_times unit_inv unit_weight unit_outward UnitPoint)

noncomputable section

variable {M : TieMesh} {E EQ ET : TieElement} {mat : Key → ℕ → ℝ} {gamma theta a k : ℝ}

theorem unitTie_inv (ha : 0 < a) (hG : TieGeometryContract M) {cell r : ℕ}
    (hK : ∃ K, LeftInverse M.gdim M.tdim K (tieJacobian M cell r)) {j b : ℕ} (hj : j < M.tdim) (hb : b < M.gdim) :
    M.inv (tieJacobian (tieInUnits a M) cell r) j b = 1 / a * M.inv (tieJacobian M cell r) j b :=
  unit_inv (Y := shape M) ha (shape_contract hG) hK hj hb

theorem unitTie_weight (ha : 0 < a) (hD : TieSurfaceFactorIsArea M) (cell f q : ℕ) :
    tieWeight (tieInUnits a M) cell f q = a ^ (M.tdim - 1) * tieWeight M cell f q :=
  unit_weight (Y := shape M) ha hD cell f q

theorem unitTie_outward (ha : 0 < a) (hG : TieGeometryContract M) {cell f q : ℕ}
    (hK : ∃ K, LeftInverse M.gdim M.tdim K (tieJacobian M cell (M.off f + q))) {c : ℕ} (hc : c < M.gdim) :
    tieOutward (tieInUnits a M) cell f q c = tieOutward M cell f q c :=
  unit_outward (Y := shape M) ha (shape_contract hG) hK hc

/-! ### tied points -/

theorem unitTie_gapNorm (ha : 0 < a) (i e q : ℕ) : gapNorm (tieInUnits a M) i e q = a * gapNorm M i e q :=
  norm_times (g := M.gdim) ha (x := fun c => M.gap i ((e * M.nq + q) * M.gdim + c)) (fun _ _ => rfl)

theorem unitTie_tied (ha : 0 < a) (h : SameTinyGaps a M) {i e q : ℕ} (hi : i < M.numPairs) (he : e < M.localFacets i)
    (hq : q < M.nq) : Tied (tieInUnits a M) i e q ↔ Tied M i e q := by
  have e1 : ∑ c ∈ range M.gdim, a * M.gap i ((e * M.nq + q) * M.gdim + c) * M.ny i ((e * M.nq + q) * M.gdim + c)
      = a * ∑ c ∈ range M.gdim, M.gap i ((e * M.nq + q) * M.gdim + c) * M.ny i ((e * M.nq + q) * M.gdim + c) := by
    rw [mul_sum]
    exact sum_congr rfl (fun c _ => mul_assoc _ _ _)
  unfold Tied
  rw [unitTie_gapNorm ha, ← h i hi e he q hq]
  show (∃ e' < M.localFacets i, a * gapNorm M i e q ≤ a * M.h i e') ∧ (_ ∨ 7 / 10 * (a * gapNorm M i e q)
    ≤ |∑ c ∈ range M.gdim, a * M.gap i ((e * M.nq + q) * M.gdim + c) * M.ny i ((e * M.nq + q) * M.gdim + c)|) ↔ _
  rw [e1, abs_mul, abs_of_pos ha, mul_left_comm, mul_le_mul_iff_right₀ ha]
  simp only [mul_le_mul_iff_right₀ ha]

theorem unitTie_first (ha : 0 < a) (hS : SameTinyGaps a M) (h : TiedFirst M) : TiedFirst (tieInUnits a M) := by
  intro i hi e he q q' hq hq' ht
  exact (unitTie_tied ha hS hi he (hq.trans hq')).mpr (h i hi e he q q' hq hq' ((unitTie_tied ha hS hi he hq').mp ht))

theorem unitTie_valid (hM : TieMesh.Valid M) : TieMesh.Valid (tieInUnits a M) :=
  ⟨hM.dim, hM.cell, hM.loc, hM.cells, hM.order, hM.affine⟩

/-! ### functions -/

theorem unitTie_jump (i e cell f : ℕ) (u : ℕ → ℝ) (q c : ℕ) :
    tieJumpAt (tieInUnits a M) (spaceInUnits a E) i e cell f u q c = tieJumpAt M E i e cell f u q c := rfl

theorem unitTie_meanGrad (ha : 0 < a) (hG : TieGeometryContract M) {cell f q : ℕ}
    (hK : ∃ K, LeftInverse M.gdim M.tdim K (tieJacobian M cell (M.off f + q))) (i e : ℕ) (u : ℕ → ℝ) (c : ℕ) {b : ℕ}
    (hb : b < M.gdim) :
    tieMeanGrad (tieInUnits a M) (spaceInUnits a E) i e cell f u q c b = 1 / a * tieMeanGrad M E i e cell f u q c b := by
  show (∑ m ∈ range E.nd, (∑ j ∈ range M.tdim, M.inv (tieJacobian (tieInUnits a M) cell (M.off f + q)) j b
    * E.dphi j (M.off f + q) m) * u (E.bs * E.dofs cell m + c)
    + ∑ m ∈ range E.nd, E.grad i (oppositeCell M i e q) (e * M.nq + q) m b / a
      * u (E.bs * E.dofs (oppositeCell M i e q) m + c)) / 2 = _
  unfold tieMeanGrad tieGrad tieOppositeGrad
  rw [mul_div_assoc', mul_add, mul_sum, mul_sum]
  congr 2
  · refine sum_congr rfl (fun m _ => ?_)
    rw [← mul_assoc, mul_sum]
    congr 1
    refine sum_congr rfl (fun j hj => ?_)
    rw [unitTie_inv ha hG hK (mem_range.mp hj) hb, mul_assoc]
  · exact sum_congr rfl (fun m _ => by ring)

theorem jump_times (i e cell f : ℕ) (u : ℕ → ℝ) (q c : ℕ) :
    tieJumpAt M E i e cell f (fun d => a * u d) q c = a * tieJumpAt M E i e cell f u q c := by
  unfold tieJumpAt tieValue tieOpposite
  rw [mul_sub, mul_sum, mul_sum]
  exact congrArg₂ _ (sum_congr rfl (fun m _ => by ring)) (sum_congr rfl (fun m _ => by ring))

theorem meanGrad_times (i e cell f : ℕ) (u : ℕ → ℝ) (q c b : ℕ) :
    tieMeanGrad M E i e cell f (fun d => a * u d) q c b = a * tieMeanGrad M E i e cell f u q c b := by
  unfold tieMeanGrad tieGrad tieOppositeGrad
  rw [mul_div_assoc', mul_add, mul_sum, mul_sum]
  congr 2 <;> exact sum_congr rfl (fun m _ => by ring)

theorem unitTie_mid (cell f : ℕ) (key : Key) (h : key ≠ .alpha) :
    midValue (spaceInUnits a EQ) cell f (matInUnits k mat key) = k * midValue EQ cell f (mat key) := by
  unfold midValue matInUnits
  simp only [if_neg h]
  rw [mul_sum]
  exact sum_congr rfl (fun m _ => mul_left_comm _ _ _)

theorem unitTie_midAlpha (cell f : ℕ) :
    midValue (spaceInUnits a EQ) cell f (matInUnits k mat .alpha) = midValue EQ cell f (mat .alpha) := by
  unfold midValue matInUnits
  simp only [if_true]
  rfl

/-! ### forms -/

theorem tieSum_unit (ha : 0 < a) (hD : TieSurfaceFactorIsArea M) (hS : SameTinyGaps a M) (x : ℝ)
    (F F' : ℕ → ℕ → ℕ → ℕ → ℕ → ℝ)
    (h : ∀ i < M.numPairs, ∀ e < M.localFacets i, ∀ cell f, (M.facets i)[e]? = some (cell, f) → ∀ q < M.nq,
      F' i e cell f q = x * F i e cell f q) : tieSum (tieInUnits a M) F' = x * a ^ (M.tdim - 1) * tieSum M F := by
  have f1 : (tieInUnits a M).numPairs = M.numPairs := rfl
  have f2 : (tieInUnits a M).localFacets = M.localFacets := rfl
  have f3 : (tieInUnits a M).facets = M.facets := rfl
  have f4 : (tieInUnits a M).nq = M.nq := rfl
  unfold tieSum
  rw [f1, f2, f3, f4, mul_sum]
  refine sum_congr rfl (fun i hi => ?_)
  rw [mul_sum]
  refine sum_congr rfl (fun e he => ?_)
  cases hf : (M.facets i)[e]? with
  | none => rw [Option.elim_none, Option.elim_none, mul_zero]
  | some p =>
    rw [Option.elim_some, Option.elim_some, mul_sum]
    refine sum_congr rfl (fun q hq => ?_)
    have hT := unitTie_tied ha hS (mem_range.mp hi) (mem_range.mp he) (mem_range.mp hq)
    by_cases ht : Tied M i e q
    · rw [if_pos ht, if_pos (hT.mpr ht), unitTie_weight ha hD,
        h i (mem_range.mp hi) e (mem_range.mp he) p.1 p.2 hf q (mem_range.mp hq)]
      ring
    · rw [if_neg ht, if_neg (fun h => ht (hT.mp h)), mul_zero]

theorem unit_traction {g : ℕ} (mu lam c : ℝ) {n n' : ℕ → ℝ} {D D' : ℕ → ℕ → ℝ}
    (hn : ∀ b < g, n' b = n b) (h : ∀ b < g, ∀ d < g, D' b d = c * D b d) :
    ∀ b < g, traction g (k * mu) (k * lam) D' n' b = k * c * traction g mu lam D n b :=
  UnitPoint.trac (law := .frictionless) (a := 0) (k := k)
    (p := ⟨g, mu, lam, 0, 0, fun _ => 0, fun _ => 0, fun _ => 0, n, fun _ _ => 0⟩)
    (p' := ⟨g, k * mu, k * lam, 0, 0, fun _ => 0, fun _ => 0, fun _ => 0, n', fun _ _ => 0⟩)
    ⟨rfl, rfl, rfl, by simp, by simp, rfl, rfl, by simp, hn⟩ h

theorem unit_elasticPart {g : ℕ} (ha : 0 < a) (mu lam gamma theta h : ℝ) {n n' J K : ℕ → ℝ} {D D' B B' : ℕ → ℕ → ℝ}
    (hn : ∀ b < g, n' b = n b) (hD : ∀ b < g, ∀ d < g, D' b d = 1 / a * D b d)
    (hB : ∀ b < g, ∀ d < g, B' b d = 1 / a * B b d) :
    elasticPart g (k * mu) (k * lam) (k * gamma) theta (a * h) n' J D' K B'
      = k / a * elasticPart g mu lam gamma theta h n J D K B := by
  have t1 := unit_traction (k := k) mu lam (1 / a) hn hD
  have t2 := unit_traction (k := k) mu lam (1 / a) hn hB
  unfold elasticPart
  have e1 : ∑ b ∈ range g, (-traction g (k * mu) (k * lam) D' n' b + k * gamma / (a * h) * J b) * K b
      = k / a * ∑ b ∈ range g, (-traction g mu lam D n b + gamma / h * J b) * K b := by
    rw [mul_sum]
    refine sum_congr rfl (fun b hb => ?_)
    rw [t1 b (mem_range.mp hb), mul_div_mul_comm]
    ring
  have e2 : ∑ b ∈ range g, traction g (k * mu) (k * lam) B' n' b * J b
      = k / a * ∑ b ∈ range g, traction g mu lam B n b * J b := by
    rw [mul_sum]
    refine sum_congr rfl (fun b hb => ?_)
    rw [t2 b (mem_range.mp hb)]
    ring
  rw [e1, e2]
  ring

theorem unit_elasticTie (ha : 0 < a) (hG : TieGeometryContract M) (hD : TieSurfaceFactorIsArea M) (hI : TieCellsInvertible M)
    (hS : SameTinyGaps a M) (u v : ℕ → ℝ) :
    elasticTie (tieInUnits a M) (spaceInUnits a E) (spaceInUnits a EQ) (matInUnits k mat) (k * gamma) theta u v
      = k / a * a ^ (M.tdim - 1) * elasticTie M E EQ mat gamma theta u v := by
  refine tieSum_unit ha hD hS _ _ _ (fun i hi e he cell f hf q hq => ?_)
  have hK := hI i hi e he cell f hf q hq
  rw [unitTie_mid cell f .mu (by simp), unitTie_mid cell f .lam (by simp)]
  exact unit_elasticPart ha _ _ gamma theta _ (fun b hb => unitTie_outward ha hG hK hb)
    (fun b _ d hd => unitTie_meanGrad ha hG hK i e u b hd) (fun b _ d hd => unitTie_meanGrad ha hG hK i e v b hd)

theorem elasticTie_times (u v : ℕ → ℝ) :
    elasticTie M E EQ mat gamma theta (fun d => a * u d) v = a * elasticTie M E EQ mat gamma theta u v := by
  unfold elasticTie tieSum
  rw [mul_sum]
  refine sum_congr rfl (fun i _ => ?_)
  rw [mul_sum]
  refine sum_congr rfl (fun e _ => ?_)
  cases (M.facets i)[e]? with
  | none => rw [Option.elim_none, Option.elim_none, mul_zero]
  | some p =>
    rw [Option.elim_some, Option.elim_some, mul_sum]
    refine sum_congr rfl (fun q _ => ?_)
    split
    · rw [mul_left_comm]
      congr 1
      unfold elasticPart
      have t : ∀ b < M.gdim, traction M.gdim (midValue EQ p.1 p.2 (mat .mu)) (midValue EQ p.1 p.2 (mat .lam))
          (tieMeanGrad M E i e p.1 p.2 (fun d => a * u d) q) (tieOutward M p.1 p.2 q) b
          = a * traction M.gdim (midValue EQ p.1 p.2 (mat .mu)) (midValue EQ p.1 p.2 (mat .lam))
          (tieMeanGrad M E i e p.1 p.2 u q) (tieOutward M p.1 p.2 q) b := by
        have := unit_traction (g := M.gdim) (k := 1) (midValue EQ p.1 p.2 (mat .mu)) (midValue EQ p.1 p.2 (mat .lam)) a
          (n := tieOutward M p.1 p.2 q) (fun _ _ => rfl) (fun b _ d _ => meanGrad_times (a := a) (M := M) (E := E) i e p.1 p.2 u q b d)
        simpa using this
      have e1 : ∀ y : ℕ → ℝ, ∑ b ∈ range M.gdim, (-traction M.gdim (midValue EQ p.1 p.2 (mat .mu)) (midValue EQ p.1 p.2 (mat .lam))
          (tieMeanGrad M E i e p.1 p.2 (fun d => a * u d) q) (tieOutward M p.1 p.2 q) b
            + gamma / M.h i e * tieJumpAt M E i e p.1 p.2 (fun d => a * u d) q b) * y b
          = a * ∑ b ∈ range M.gdim, (-traction M.gdim (midValue EQ p.1 p.2 (mat .mu)) (midValue EQ p.1 p.2 (mat .lam))
          (tieMeanGrad M E i e p.1 p.2 u q) (tieOutward M p.1 p.2 q) b
            + gamma / M.h i e * tieJumpAt M E i e p.1 p.2 u q b) * y b := by
        intro y
        rw [mul_sum]
        refine sum_congr rfl (fun b hb => ?_)
        rw [t b (mem_range.mp hb), jump_times]
        ring
      have e2 : ∀ y : ℕ → ℝ, ∑ b ∈ range M.gdim, y b * tieJumpAt M E i e p.1 p.2 (fun d => a * u d) q b
          = a * ∑ b ∈ range M.gdim, y b * tieJumpAt M E i e p.1 p.2 u q b := by
        intro y
        rw [mul_sum]
        refine sum_congr rfl (fun b hb => ?_)
        rw [jump_times]
        ring
      dsimp only
      rw [e1, e2]
      ring
    · rw [mul_zero]

theorem unit_heatTie (ha : 0 < a) (hG : TieGeometryContract M) (hD : TieSurfaceFactorIsArea M) (hI : TieCellsInvertible M)
    (hS : SameTinyGaps a M) (u v : ℕ → ℝ) :
    heatTie (tieInUnits a M) (spaceInUnits a E) (spaceInUnits a EQ) (matInUnits k mat) gamma theta u v
      = k / a * a ^ (M.tdim - 1) * heatTie M E EQ mat gamma theta u v := by
  refine tieSum_unit ha hD hS _ _ _ (fun i hi e he cell f hf q hq => ?_)
  have hK := hI i hi e he cell f hf q hq
  have f : ∀ w : ℕ → ℝ, ∑ b ∈ range M.gdim, tieMeanGrad (tieInUnits a M) (spaceInUnits a E) i e cell f w q 0 b
      * tieOutward (tieInUnits a M) cell f q b = 1 / a * ∑ b ∈ range M.gdim, tieMeanGrad M E i e cell f w q 0 b * tieOutward M cell f q b := by
    intro w
    rw [mul_sum]
    refine sum_congr rfl (fun b hb => ?_)
    rw [unitTie_meanGrad ha hG hK i e w 0 (mem_range.mp hb), unitTie_outward ha hG hK (mem_range.mp hb), mul_assoc]
  rw [unitTie_mid cell _ .kdt (by simp)]
  show heatPart M.gdim _ gamma theta (a * M.h i e) _ _ _ _ _ = _
  unfold heatPart
  rw [f u, f v, unitTie_jump, unitTie_jump, div_mul_eq_div_div]
  ring

theorem unit_thermalTie (ha : 0 < a) (hG : TieGeometryContract M) (hD : TieSurfaceFactorIsArea M) (hI : TieCellsInvertible M)
    (hS : SameTinyGaps a M) (T v : ℕ → ℝ) :
    thermalTie (tieInUnits a M) (spaceInUnits a E) (spaceInUnits a EQ) (spaceInUnits a ET) (matInUnits k mat) T v
      = k * a ^ (M.tdim - 1) * thermalTie M E EQ ET mat T v := by
  refine tieSum_unit ha hD hS _ _ _ (fun i hi e he cell f hf q hq => ?_)
  have hK := hI i hi e he cell f hf q hq
  rw [unitTie_mid cell f .mu (by simp), unitTie_mid cell f .lam (by simp), unitTie_midAlpha]
  show thermalPart M.gdim _ _ _ _ _ _ = _
  unfold thermalPart
  have f : ∑ b ∈ range M.gdim, tieOutward (tieInUnits a M) cell f q b * tieJumpAt (tieInUnits a M) (spaceInUnits a E) i e cell f v q b
      = ∑ b ∈ range M.gdim, tieOutward M cell f q b * tieJumpAt M E i e cell f v q b := by
    refine sum_congr rfl (fun b hb => ?_)
    rw [unitTie_outward ha hG hK (mem_range.mp hb), unitTie_jump]
  rw [f]
  show 1 / 2 * (_ * _) * ((tieValue M ET cell _ T q 0 + tieOpposite M ET i e T q 0) / 2) * _ = _
  ring

/-! ### from forms to vectors and matrices -/

theorem times_vector {N : ℕ} {b b' : ℕ → ℝ} {x : ℝ} (h : ∀ v : ℕ → ℝ, ∑ d ∈ range N, b' d * v d = x * ∑ d ∈ range N, b d * v d) :
    ∀ d < N, b' d = x * b d := by
  intro d hd
  have := h (fun k => if k = d then 1 else 0)
  simpa [hd] using this

theorem times_matrix {N : ℕ} {A A' : ℕ × ℕ → ℝ} {x : ℝ}
    (h : ∀ u v : ℕ → ℝ, ∑ d ∈ range N, ∑ c ∈ range N, v d * A' (d, c) * u c
      = x * ∑ d ∈ range N, ∑ c ∈ range N, v d * A (d, c) * u c) :
    ∀ d < N, ∀ c < N, A' (d, c) = x * A (d, c) := by
  intro d hd c hc
  have := h (fun k => if k = c then 1 else 0) (fun k => if k = d then 1 else 0)
  simpa [hd, hc] using this

/-! ### C154 -/

section

variable (hM : TieMesh.Valid M) (hE : TieElement.Valid M E) (N : ℕ) (hN : TieDofsBelow M E N) (hT : TiedFirst M)
  (hG : TieGeometryContract M) (hD : TieSurfaceFactorIsArea M) (hI : TieCellsInvertible M) (ha : 0 < a)
  (hS : SameTinyGaps a M)
  {ops ops' : List (Op ℝ)} (hops : ProperHistory M.static Tracked.new ops)
  (hops' : ProperHistory (tieInUnits a M).static Tracked.new ops') {g g' : Gen ℝ}
include hM hE hN hT hG hD hI ha hS hops hops'

/-- C154: tied elastic bodies with lengths `a` times and stresses `k` times as large: the matrix is a force per length,
the vector a force.  (Partial: the same gaps are at most `1e-7`, see `C154_violated`; on every facet the points that are
not tied come last, see C117.) -/
theorem C154_elasticity_partial (hg : (ops.foldl Tracked.step Tracked.new).get .elasticity = some g)
    (G : GeneratedFor M E EQ .elasticity mat gamma theta g)
    (hg' : (ops'.foldl Tracked.step Tracked.new).get .elasticity = some g')
    (G' : GeneratedFor (tieInUnits a M) (spaceInUnits a E) (spaceInUnits a EQ) .elasticity (matInUnits k mat) (k * gamma) theta g') :
    ∃ (t t' : State ℝ) (A A' : Arr (ℕ × ℕ)) (b b' : Arr ℕ),
      run M.static State.init ops = some t ∧ run (tieInUnits a M).static State.init ops' = some t'
      ∧ M.assembleMatrix E .elasticity t 0 = .ok A
      ∧ (tieInUnits a M).assembleMatrix (spaceInUnits a E) .elasticity t' 0 = .ok A'
      ∧ M.assembleVector E .elasticity t 0 = .ok b
      ∧ (tieInUnits a M).assembleVector (spaceInUnits a E) .elasticity t' 0 = .ok b'
      ∧ (∀ d < N, ∀ c < N, A' (d, c) = k / a * a ^ (M.tdim - 1) * A (d, c))
      ∧ ∀ u, SolutionIs M E u g → SolutionIs (tieInUnits a M) (spaceInUnits a E) (fun d => a * u d) g' →
          ∀ d < N, b' d = k * a ^ (M.tdim - 1) * b d := by
  obtain ⟨t, h1, ⟨A, h2, h3⟩, b, h4, h5⟩ := C117_elasticity_partial hM hE _ hN hT ops hops hg G
  obtain ⟨t', k1, ⟨A', k2, k3⟩, b', k4, k5⟩ := C117_elasticity_partial (unitTie_valid hM)
    (E := spaceInUnits a E) hE N hN (unitTie_first ha hS hT) ops' hops' hg' G'
  refine ⟨t, t', A, A', b, b', h1, k1, h2, k2, h4, k4, times_matrix (fun u v => ?_), fun u hu hu' => times_vector (fun v => ?_)⟩
  · rw [k3, h3, unit_elasticTie ha hG hD hI hS]
  · rw [k5 _ hu', h5 u hu, unit_elasticTie ha hG hD hI hS, elasticTie_times]
    field_simp

/-- C154 for heat conduction with lengths `a` times and conductivities `k` times as large. -/
theorem C154_heat_partial (hg : (ops.foldl Tracked.step Tracked.new).get .poisson = some g)
    (G : GeneratedFor M E EQ .poisson mat gamma theta g)
    (hg' : (ops'.foldl Tracked.step Tracked.new).get .poisson = some g')
    (G' : GeneratedFor (tieInUnits a M) (spaceInUnits a E) (spaceInUnits a EQ) .poisson (matInUnits k mat) gamma theta g') :
    ∃ (t t' : State ℝ) (A A' : Arr (ℕ × ℕ)) (b b' : Arr ℕ),
      run M.static State.init ops = some t ∧ run (tieInUnits a M).static State.init ops' = some t'
      ∧ M.assembleMatrix E .poisson t 0 = .ok A
      ∧ (tieInUnits a M).assembleMatrix (spaceInUnits a E) .poisson t' 0 = .ok A'
      ∧ M.assembleVector E .poisson t 0 = .ok b
      ∧ (tieInUnits a M).assembleVector (spaceInUnits a E) .poisson t' 0 = .ok b'
      ∧ (∀ d < N, ∀ c < N, A' (d, c) = k / a * a ^ (M.tdim - 1) * A (d, c))
      ∧ ∀ u, SolutionIs M E u g → SolutionIs (tieInUnits a M) (spaceInUnits a E) u g' →
          ∀ d < N, b' d = k / a * a ^ (M.tdim - 1) * b d := by
  obtain ⟨t, h1, ⟨A, h2, h3⟩, b, h4, h5⟩ := C117_heat_partial hM hE _ hN hT ops hops hg G
  obtain ⟨t', k1, ⟨A', k2, k3⟩, b', k4, k5⟩ := C117_heat_partial (unitTie_valid hM)
    (E := spaceInUnits a E) hE N hN (unitTie_first ha hS hT) ops' hops' hg' G'
  refine ⟨t, t', A, A', b, b', h1, k1, h2, k2, h4, k4, times_matrix (fun u v => ?_), fun u hu hu' => times_vector (fun v => ?_)⟩
  · rw [k3, h3, unit_heatTie ha hG hD hI hS]
  · rw [k5 u hu', h5 u hu, unit_heatTie ha hG hD hI hS]

/-- C154 for thermo-elasticity: temperature and thermal expansion keep their units. -/
theorem C154_thermo_partial (hg : (ops.foldl Tracked.step Tracked.new).get .thermo = some g)
    (G : GeneratedFor M E EQ .thermo mat gamma theta g)
    (hg' : (ops'.foldl Tracked.step Tracked.new).get .thermo = some g')
    (G' : GeneratedFor (tieInUnits a M) (spaceInUnits a E) (spaceInUnits a EQ) .thermo (matInUnits k mat) (k * gamma) theta g') :
    ∃ (t t' : State ℝ) (A A' : Arr (ℕ × ℕ)) (b b' : Arr ℕ),
      run M.static State.init ops = some t ∧ run (tieInUnits a M).static State.init ops' = some t'
      ∧ M.assembleMatrix E .thermo t 0 = .ok A
      ∧ (tieInUnits a M).assembleMatrix (spaceInUnits a E) .thermo t' 0 = .ok A'
      ∧ M.assembleVector E .thermo t 0 = .ok b
      ∧ (tieInUnits a M).assembleVector (spaceInUnits a E) .thermo t' 0 = .ok b'
      ∧ (∀ d < N, ∀ c < N, A' (d, c) = k / a * a ^ (M.tdim - 1) * A (d, c))
      ∧ ∀ u, SolutionIs M E u g → SolutionIs (tieInUnits a M) (spaceInUnits a E) (fun d => a * u d) g' →
          ∀ (ET : TieElement) (T : ℕ → ℝ), TieElement.Valid M ET → TemperatureIs M ET T g →
          TemperatureIs (tieInUnits a M) (spaceInUnits a ET) T g' →
          ∀ d < N, b' d = k * a ^ (M.tdim - 1) * b d := by
  obtain ⟨t, h1, ⟨A, h2, h3⟩, b, h4, h5⟩ := C117_thermo_partial hM hE _ hN hT ops hops hg G
  obtain ⟨t', k1, ⟨A', k2, k3⟩, b', k4, k5⟩ := C117_thermo_partial (unitTie_valid hM)
    (E := spaceInUnits a E) hE N hN (unitTie_first ha hS hT) ops' hops' hg' G'
  refine ⟨t, t', A, A', b, b', h1, k1, h2, k2, h4, k4, times_matrix (fun u v => ?_),
    fun u hu hu' ET T hET hTm hTm' => times_vector (fun v => ?_)⟩
  · rw [k3, h3, unit_elasticTie ha hG hD hI hS]
  · rw [k5 _ hu' (spaceInUnits a ET) T hET hTm', h5 u hu ET T hET hTm, unit_elasticTie ha hG hD hI hS, elasticTie_times,
      unit_thermalTie ha hG hD hI hS]
    field_simp

end

/-! ### examples -/

/-- The two triangles of `exTied`, their gap vector being `(r, 0)`: along the surfaces. -/
def exApart (r : ℝ) : TieMesh := { exTied with gap := fun _ d => if d = 0 then r else 0 }

theorem exTied_valid : TieMesh.Valid exTied := by
  refine ⟨by decide, by simp [exTied], by simp [exTied], by simp [exTied], ?_, by simp [exTied]⟩
  intro c c' h h'
  show c + 1 < c' + 1
  omega

theorem exTied_contract : TieGeometryContract exTied :=
  ⟨ContactProblem.exTriangles_contract.inv, ContactProblem.exTriangles_contract.det, ContactProblem.exTriangles_contract.sums⟩

theorem exLinear_valid (bs : ℕ) : TieElement.Valid exTied (exLinear bs) := by
  intro c i c' i' hc hi hc' hi' h
  have h1 : c < 1 := hc
  have h2 : c' < 1 := hc'
  have h' : 3 * c + i = 3 * c' + i' := h
  show 3 * (c + 1) + i = 3 * (c' + 1) + i'
  omega

theorem exTied_below (bs : ℕ) : TieDofsBelow exTied (exLinear bs) (bs * 6) := by
  constructor
  · intro i hi x hx a ha
    obtain rfl : x = (0, 2) := List.mem_singleton.mp hx
    have ha' : a < 3 := ha
    show bs * (3 * 0 + a) + bs ≤ bs * 6
    nlinarith [Nat.zero_le bs]
  · intro c hc a ha
    have ha' : a < 3 := ha
    have hc' : c < 1 := hc
    obtain rfl : c = 0 := by omega
    show bs * (3 * 1 + a) + bs ≤ bs * 6
    nlinarith [Nat.zero_le bs]

theorem exApart_first (r : ℝ) : TiedFirst (exApart r) := by
  intro i hi e he q q' h1 h2 _
  have : q < 1 := h2
  omega

theorem exApart_norm {r : ℝ} (hr : 0 ≤ r) : gapNorm (exApart r) 0 0 0 = r := by
  have : gapNorm (exApart r) 0 0 0 = Real.sqrt (∑ a ∈ range 2, (if (0 * 1 + 0) * 2 + a = 0 then r else 0) ^ 2) := rfl
  rw [this]
  simp [sum_range_succ, Real.sqrt_sq hr]

/-- A gap along the surface of more than `1e-7` is not tied. -/
theorem exApart_open {r : ℝ} (hr : 1 / 10 ^ 7 < r) : ¬ Tied (exApart r) 0 0 0 := by
  have h0 : 0 ≤ r := le_trans (by norm_num) hr.le
  rintro ⟨-, h | h⟩
  · rw [exApart_norm h0] at h
    linarith
  · rw [exApart_norm h0] at h
    simp [exApart, exTied, sum_range_succ] at h
    have : (0 : ℝ) < 1 / 10 ^ 7 := by norm_num
    linarith

/-- The same gap in a unit of length in which it is at most `1e-7` is tied. -/
theorem exApart_tied {r a : ℝ} (h0 : 0 ≤ r) (h1 : r ≤ 1) (ha : 0 < a) (h : a * r ≤ 1 / 10 ^ 7) :
    Tied (tieInUnits a (exApart r)) 0 0 0 := by
  refine ⟨⟨0, by simp [tieInUnits, exApart, exTied], ?_⟩, Or.inl ?_⟩
  · rw [unitTie_gapNorm ha, exApart_norm h0]
    show a * r ≤ a * 1
    nlinarith
  · rw [unitTie_gapNorm ha, exApart_norm h0]
    exact h

theorem exTied_area : TieSurfaceFactorIsArea exTied := ContactProblem.exTriangles_area

theorem exTied_tiny : SameTinyGaps (1 / 1000) exTied := by
  intro i hi e he q hq
  obtain rfl : e = 0 := Nat.lt_one_iff.mp he
  obtain rfl : q = 0 := Nat.lt_one_iff.mp hq
  have h : gapNorm exTied i 0 0 = 1 / 4 := by
    have : gapNorm exTied i 0 0 = Real.sqrt (∑ a ∈ range 2, (if (0 * 1 + 0) * 2 + a = 1 then (1 / 4 : ℝ) else 0) ^ 2) := rfl
    rw [this]
    simp [sum_range_succ]
  rw [h]
  norm_num

/-- The hypotheses of C154 hold for two tied triangles and every problem, in metres and in kilometres. -/
example (p : Problem) (mat : Key → ℕ → ℝ) (u u' T : ℕ → ℝ) (gamma gamma' k theta : ℝ) :
    ∃ bs ops ops' g g', TieMesh.Valid exTied ∧ TieElement.Valid exTied (exLinear bs)
      ∧ TieDofsBelow exTied (exLinear bs) (bs * 6) ∧ TiedFirst exTied ∧ Tied exTied 0 0 0
      ∧ TieGeometryContract exTied ∧ TieSurfaceFactorIsArea exTied ∧ TieCellsInvertible exTied ∧ SameTinyGaps (1 / 1000) exTied
      ∧ ProperHistory exTied.static Tracked.new ops ∧ ProperHistory (tieInUnits (1 / 1000) exTied).static Tracked.new ops'
      ∧ (ops.foldl Tracked.step Tracked.new).get p = some g ∧ (ops'.foldl Tracked.step Tracked.new).get p = some g'
      ∧ GeneratedFor exTied (exLinear bs) (exLinear 1) p mat gamma theta g
      ∧ GeneratedFor (tieInUnits (1 / 1000) exTied) (spaceInUnits (1 / 1000) (exLinear bs))
          (spaceInUnits (1 / 1000) (exLinear 1)) p (matInUnits k mat) gamma' theta g'
      ∧ SolutionIs exTied (exLinear bs) u g
      ∧ SolutionIs (tieInUnits (1 / 1000) exTied) (spaceInUnits (1 / 1000) (exLinear bs)) u' g'
      ∧ (p = .thermo → TemperatureIs exTied (exLinear 1) T g
        ∧ TemperatureIs (tieInUnits (1 / 1000) exTied) (spaceInUnits (1 / 1000) (exLinear 1)) T g') := by
  obtain ⟨a1, a2, a3, a4, a5⟩ := generate_once exTied_valid (exLinear (comps exTied.static p)) (exLinear 1) (exLinear 1) p rfl rfl rfl
    mat u T gamma theta
  obtain ⟨b1, b2, b3, b4, b5⟩ := generate_once (unitTie_valid (a := 1 / 1000) exTied_valid)
    (spaceInUnits (1 / 1000) (exLinear (comps exTied.static p))) (spaceInUnits (1 / 1000) (exLinear 1))
    (spaceInUnits (1 / 1000) (exLinear 1)) p rfl rfl rfl (matInUnits k mat) u' T gamma' theta
  refine ⟨comps exTied.static p, _, _, _, _, exTied_valid, exLinear_valid _, exTied_below _, ?_, exTied_tied, exTied_contract,
    exTied_area, ContactProblem.exTriangles_invertible, exTied_tiny, a1, b1, a2, b2, a3, b3, a4, b4, fun h => ⟨a5 h, b5 h⟩⟩
  intro i hi e he q q' h1 h2 _
  have : q < 1 := h2
  omega

/-- A temperature of one on the first triangle and zero on the other. -/
def exHot (d : ℕ) : ℝ := if d < 3 then 1 else 0

theorem exApart_heat {r a : ℝ} (h0 : 0 ≤ r) (h1 : r ≤ 1) (ha : 0 < a) (h : a * r ≤ 1 / 10 ^ 7) (k gamma theta : ℝ) :
    heatTie (tieInUnits a (exApart r)) (spaceInUnits a (exLinear 1)) (spaceInUnits a (exLinear 1)) (matInUnits k (fun _ _ => 1))
      gamma theta exHot exHot = 1 / 2 * k * gamma := by
  have w : tieWeight (tieInUnits a (exApart r)) 0 2 0 = a := by
    rw [unitTie_weight ha (M := exApart r) ContactProblem.exTriangles_area]
    show a ^ 1 * tieWeight exTied 0 2 0 = a
    have : tieWeight exTied 0 2 0 = 1 := by
      simp [tieWeight, tieJacobian, exTied, ContactProblem.exTriangles, ContactProblem.exDirection, sum_range_succ]
    rw [this, pow_one, mul_one]
  have j : tieJumpAt (tieInUnits a (exApart r)) (spaceInUnits a (exLinear 1)) 0 0 0 2 exHot 0 0 = 1 := by
    simp [tieJumpAt, tieValue, tieOpposite, oppositeCell, tieInUnits, spaceInUnits, exApart, exTied, exLinear, exHot, sum_range_succ]
    norm_num
  have g : ∀ b, tieMeanGrad (tieInUnits a (exApart r)) (spaceInUnits a (exLinear 1)) 0 0 0 2 exHot 0 0 b = 0 := by
    intro b
    simp [tieMeanGrad, tieGrad, tieOppositeGrad, oppositeCell, tieInUnits, spaceInUnits, exApart, exTied, exLinear, exHot, sum_range_succ]
  have m : midValue (spaceInUnits a (exLinear 1)) 0 2 (matInUnits k (fun _ _ => 1) .kdt) = k := by
    rw [unitTie_mid 0 2 .kdt (by simp)]
    simp [midValue, exLinear, sum_range_succ]
    norm_num
  have e : ∀ F, tieSum (tieInUnits a (exApart r)) F = tieWeight (tieInUnits a (exApart r)) 0 2 0 * F 0 0 0 2 0 := by
    intro F
    unfold tieSum
    show ∑ i ∈ range 1, ∑ e ∈ range 1, Option.elim (([(0, 2)] : List (ℕ × ℕ))[e]?) 0 (fun p => ∑ q ∈ range 1, _) = _
    simp [exApart_tied h0 h1 ha h]
  unfold heatTie
  rw [e, w, m, j]
  unfold heatPart
  simp only [g, zero_mul, sum_const_zero]
  show a * (1 / 2 * k * ((-0 + gamma / (a * 1) * 1) * 1 - theta * 0 * 1)) = _
  field_simp
  ring

theorem exApart_none {r : ℝ} (hr : 1 / 10 ^ 7 < r) (F : ℕ → ℕ → ℕ → ℕ → ℕ → ℝ) : tieSum (exApart r) F = 0 := by
  unfold tieSum
  show ∑ i ∈ range 1, ∑ e ∈ range 1, Option.elim (([(0, 2)] : List (ℕ × ℕ))[e]?) 0 (fun p => ∑ q ∈ range 1, _) = _
  simp [exApart_open hr]

/-- C154 does not hold for every gap: where the closest point lies at a distance of more than `1e-7` along the surface the
matrix is zero, while in a unit of length in which that distance is at most `1e-7` it is not. -/
theorem C154_violated {r a k gamma theta : ℝ} (hr : 1 / 10 ^ 7 < r) (h1 : r ≤ 1) (ha : 0 < a) (h : a * r ≤ 1 / 10 ^ 7)
    (hk : 0 < k) (hgamma : 0 < gamma) :
    TieMesh.Valid (exApart r) ∧ TieElement.Valid (exApart r) (exLinear 1) ∧ TieDofsBelow (exApart r) (exLinear 1) 6
    ∧ TiedFirst (exApart r) ∧ TieGeometryContract (exApart r) ∧ TieSurfaceFactorIsArea (exApart r) ∧ TieCellsInvertible (exApart r)
    ∧ ∃ (ops ops' : List (Op ℝ)) (g g' : Gen ℝ) (t t' : State ℝ) (A A' : Arr (ℕ × ℕ)),
      ProperHistory (exApart r).static Tracked.new ops ∧ ProperHistory (tieInUnits a (exApart r)).static Tracked.new ops'
      ∧ (ops.foldl Tracked.step Tracked.new).get .poisson = some g
      ∧ (ops'.foldl Tracked.step Tracked.new).get .poisson = some g'
      ∧ GeneratedFor (exApart r) (exLinear 1) (exLinear 1) .poisson (fun _ _ => 1) gamma theta g
      ∧ GeneratedFor (tieInUnits a (exApart r)) (spaceInUnits a (exLinear 1)) (spaceInUnits a (exLinear 1)) .poisson
          (matInUnits k (fun _ _ => 1)) gamma theta g'
      ∧ run (exApart r).static State.init ops = some t ∧ run (tieInUnits a (exApart r)).static State.init ops' = some t'
      ∧ (exApart r).assembleMatrix (exLinear 1) .poisson t 0 = .ok A
      ∧ (tieInUnits a (exApart r)).assembleMatrix (spaceInUnits a (exLinear 1)) .poisson t' 0 = .ok A'
      ∧ (∀ d < 6, ∀ c < 6, A (d, c) = 0) ∧ ∃ d < 6, ∃ c < 6, A' (d, c) ≠ 0 := by
  have h0 : 0 ≤ r := le_trans (by norm_num) hr.le
  have hV : TieMesh.Valid (exApart r) := ⟨exTied_valid.dim, exTied_valid.cell, exTied_valid.loc, exTied_valid.cells,
    exTied_valid.order, exTied_valid.affine⟩
  have hG : TieGeometryContract (exApart r) := ⟨exTied_contract.inv, exTied_contract.det, exTied_contract.sums⟩
  have hE : TieElement.Valid (exApart r) (exLinear 1) := exLinear_valid 1
  have hB : TieDofsBelow (exApart r) (exLinear 1) 6 := exTied_below 1
  have hF' : TiedFirst (tieInUnits a (exApart r)) := by
    intro i hi e he q q' h1 h2 _
    have : q < 1 := h2
    omega
  obtain ⟨a1, a2, a3, -, -⟩ := generate_once hV (exLinear 1) (exLinear 1) (exLinear 1) .poisson rfl rfl rfl
    (fun _ _ => 1) (fun _ => 0) (fun _ => 0) gamma theta
  obtain ⟨b1, b2, b3, -, -⟩ := generate_once (unitTie_valid (a := a) hV) (spaceInUnits a (exLinear 1)) (spaceInUnits a (exLinear 1))
    (spaceInUnits a (exLinear 1)) .poisson rfl rfl rfl (matInUnits k (fun _ _ => 1)) (fun _ => 0) (fun _ => 0) gamma theta
  obtain ⟨t, c1, ⟨A, c2, c3⟩, -⟩ := C117_heat_partial hV hE 6 hB (exApart_first r) _ a1 a2 a3
  obtain ⟨t', d1, ⟨A', d2, d3⟩, -⟩ := C117_heat_partial (unitTie_valid (a := a) hV) (E := spaceInUnits a (exLinear 1)) hE 6 hB hF' _ b1 b2 b3
  refine ⟨hV, hE, hB, exApart_first r, hG, ContactProblem.exTriangles_area, ContactProblem.exTriangles_invertible,
    _, _, _, _, t, t', A, A', a1, b1, a2, b2, a3, b3, c1, d1, c2, d2, ?_, ?_⟩
  · have z := times_matrix (N := 6) (A := A) (A' := A) (x := 0) (fun u v => by
      rw [c3, zero_mul]
      exact exApart_none hr _)
    intro d hd c hc
    rw [z d hd c hc, zero_mul]
  · by_contra hno
    push Not at hno
    have e := d3 exHot exHot
    rw [exApart_heat h0 h1 ha h] at e
    have z : ∑ d ∈ range 6, ∑ c ∈ range 6, exHot d * A' (d, c) * exHot c = 0 :=
      sum_eq_zero (fun d hd => sum_eq_zero (fun c hc => by
        rw [hno d (mem_range.mp hd) c (mem_range.mp hc), mul_zero, zero_mul]))
    rw [z] at e
    have : 0 < 1 / 2 * k * gamma := by positivity
    linarith

/-- The hypotheses of `C154_violated`: a gap of `2e-7` metres against kilometres. -/
example : (1 : ℝ) / 10 ^ 7 < 2 / 10 ^ 7 ∧ (2 : ℝ) / 10 ^ 7 ≤ 1 ∧ (0 : ℝ) < 1 / 1000 ∧ (1 : ℝ) / 1000 * (2 / 10 ^ 7) ≤ 1 / 10 ^ 7
    ∧ (0 : ℝ) < 1 ∧ (0 : ℝ) < 10 := by norm_num

end

end Verif.TieData
