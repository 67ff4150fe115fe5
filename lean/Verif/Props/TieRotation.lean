import Verif.Props.TieSystem
import Verif.Props.Rotation
import Verif.Spec.TieRotation

/-!
Property C151: the vector and the matrix for tied bodies do not depend on the coordinate system.
-/

namespace Verif.TieData

open Verif.Spec Verif.Packing Verif.Assembly Verif.Kernels Verif.Geometry Finset
open Verif.ContactProblem (System rotVec_inner rotVec_add rotVec_sub rotVec_smul rotVec_congr rot_combination rot_inner rot_norm
  rot_jacobian rot_inv rot_weight rot_outward rot_outer rotDofs_at rotGrad_add unitBack rot_unitBack sum_unitBack RotPoint
  exQ exDirection)

noncomputable section

variable {M : TieMesh} {E EQ ET : TieElement} {Q : ℕ → ℕ → ℝ} {s : ℕ → ℝ} {mat : Key → ℕ → ℝ} {gamma theta : ℝ}

/-! ### the geometry, by the lemmas for contact problems -/

/-- A contact problem with the geometry of a tie. -/
def shape (M : TieMesh) : System Unit where
  numPairs := M.numPairs
  nq := M.nq
  nd := 0
  gdim := M.gdim
  tdim := M.tdim
  cell := M.cell
  affine := M.affine
  off := M.off
  phi := fun _ _ => 0
  dphi := fun _ _ _ => 0
  weights := M.weights
  nref := M.nref
  geo := M.geo
  cphi := M.cphi
  inv := M.inv
  det := M.det
  facets := M.facets
  localFacets := M.localFacets
  map := fun _ _ _ => 0
  subCell := M.subCell
  space := ⟨0, 0, 0, fun _ _ => 0, fun _ _ => 0, fun _ => 0⟩
  basis := fun _ _ _ _ => 0
  raytracing := fun _ => false
  gap := fun _ _ => ⟨0, 0, fun _ _ => 0⟩
  nx := fun _ _ => ⟨0, 0, fun _ _ => 0⟩
  ny := fun _ _ => ⟨0, 0, fun _ _ => 0⟩

theorem shape_contract (hG : TieGeometryContract M) : GeometryContract (shape M) := ⟨hG.inv, hG.det, hG.sums⟩

theorem rotTie_inv (O : Orthogonal M.gdim Q) (hG : TieGeometryContract M) (h3 : M.gdim ≤ 3) {cell r : ℕ}
    (hK : ∃ K, LeftInverse M.gdim M.tdim K (tieJacobian M cell r)) {j b : ℕ} (hj : j < M.tdim) (hb : b < M.gdim) :
    M.inv (tieJacobian (rotatedTie Q s M) cell r) j b = rotVec M.gdim Q (M.inv (tieJacobian M cell r) j) b :=
  rot_inv (Y := shape M) (s := s) O (shape_contract hG) h3 hK hj hb

theorem rotTie_weight (O : Orthogonal M.gdim Q) (hG : TieGeometryContract M) (h3 : M.gdim ≤ 3) (cell f q : ℕ) :
    tieWeight (rotatedTie Q s M) cell f q = tieWeight M cell f q :=
  rot_weight (Y := shape M) (s := s) O (shape_contract hG) h3 cell f q

theorem rotTie_outward (O : Orthogonal M.gdim Q) (hG : TieGeometryContract M) (h3 : M.gdim ≤ 3) {cell f q : ℕ}
    (hK : ∃ K, LeftInverse M.gdim M.tdim K (tieJacobian M cell (M.off f + q))) {a : ℕ} (ha : a < M.gdim) :
    tieOutward (rotatedTie Q s M) cell f q a = rotVec M.gdim Q (tieOutward M cell f q) a :=
  rot_outward (Y := shape M) (s := s) O (shape_contract hG) h3 hK ha

/-! ### tied points -/

theorem rotTie_row (x : ℕ → ℝ) (r : ℕ) {g a : ℕ} (ha : a < g) :
    rotVec g Q (fun c => x ((r * g + a) / g * g + c)) ((r * g + a) % g) = rotVec g Q (fun c => x (r * g + c)) a := by
  have hg : 0 < g := by omega
  rw [mul_comm r g, Nat.mul_add_div hg, Nat.div_eq_of_lt ha, add_zero, Nat.mul_add_mod, Nat.mod_eq_of_lt ha, mul_comm r g]

theorem rotTie_gapNorm (O : Orthogonal M.gdim Q) (i e q : ℕ) : gapNorm (rotatedTie Q s M) i e q = gapNorm M i e q :=
  congrArg Real.sqrt (rot_norm O (x := fun a => M.gap i ((e * M.nq + q) * M.gdim + a))
    (fun _ ha => rotTie_row (M.gap i) (e * M.nq + q) ha))

theorem rotTie_tied (O : Orthogonal M.gdim Q) (i e q : ℕ) : Tied (rotatedTie Q s M) i e q ↔ Tied M i e q := by
  unfold Tied
  rw [rotTie_gapNorm O]
  have := rot_inner O (x := fun a => M.gap i ((e * M.nq + q) * M.gdim + a))
    (y := fun a => M.ny i ((e * M.nq + q) * M.gdim + a))
    (fun _ ha => rotTie_row (Q := Q) (M.gap i) (e * M.nq + q) ha) (fun _ ha => rotTie_row (Q := Q) (M.ny i) (e * M.nq + q) ha)
  have h' : ∑ a ∈ range (rotatedTie Q s M).gdim, (rotatedTie Q s M).gap i ((e * (rotatedTie Q s M).nq + q) * (rotatedTie Q s M).gdim + a)
      * (rotatedTie Q s M).ny i ((e * (rotatedTie Q s M).nq + q) * (rotatedTie Q s M).gdim + a)
      = ∑ a ∈ range M.gdim, M.gap i ((e * M.nq + q) * M.gdim + a) * M.ny i ((e * M.nq + q) * M.gdim + a) := this
  rw [h']
  rfl

theorem rotTie_first (O : Orthogonal M.gdim Q) (h : TiedFirst M) : TiedFirst (rotatedTie Q s M) := by
  intro i hi e he q q' hq hq' ht
  exact (rotTie_tied O i e q').mpr (h i hi e he q q' hq hq' ((rotTie_tied O i e q).mp ht))

theorem rotTie_valid (hM : TieMesh.Valid M) : TieMesh.Valid (rotatedTie Q s M) :=
  ⟨hM.dim, hM.cell, hM.loc, hM.cells, hM.order, hM.affine⟩

/-! ### functions -/

/-- The physical gradient of basis function `k`. -/
theorem rotTie_basis (O : Orthogonal M.gdim Q) (hG : TieGeometryContract M) (h3 : M.gdim ≤ 3) {cell f q : ℕ}
    (hK : ∃ K, LeftInverse M.gdim M.tdim K (tieJacobian M cell (M.off f + q))) (k : ℕ) {b : ℕ} (hb : b < M.gdim) :
    ∑ j ∈ range M.tdim, M.inv (tieJacobian (rotatedTie Q s M) cell (M.off f + q)) j b * E.dphi j (M.off f + q) k
      = rotVec M.gdim Q (fun d => ∑ j ∈ range M.tdim, M.inv (tieJacobian M cell (M.off f + q)) j d
        * E.dphi j (M.off f + q) k) b := by
  rw [show (fun d => ∑ j ∈ range M.tdim, M.inv (tieJacobian M cell (M.off f + q)) j d * E.dphi j (M.off f + q) k)
    = fun d => ∑ j ∈ range M.tdim, E.dphi j (M.off f + q) k * M.inv (tieJacobian M cell (M.off f + q)) j d from
    funext fun d => sum_congr rfl (fun j _ => mul_comm _ _), ← rot_combination]
  refine sum_congr rfl (fun j hj => ?_)
  rw [rotTie_inv O hG h3 hK (mem_range.mp hj) hb, mul_comm]

theorem rot_outer' {g n : ℕ} (x y : ℕ → ℕ → ℝ) (a b : ℕ) :
    ∑ k ∈ range n, rotVec g Q (y k) b * rotVec g Q (x k) a = rotGrad g Q (fun c d => ∑ k ∈ range n, y k d * x k c) a b := by
  rw [show (fun c d => ∑ k ∈ range n, y k d * x k c) = fun c d => ∑ k ∈ range n, x k c * y k d from
    funext fun c => funext fun d => sum_congr rfl (fun k _ => mul_comm _ _), ← rot_outer]
  exact sum_congr rfl (fun k _ => mul_comm _ _)

section vector

variable (hb : E.bs = M.gdim)
include hb

theorem rotTie_jump (i e cell f : ℕ) (u : ℕ → ℝ) (q : ℕ) {a : ℕ} (ha : a < M.gdim) :
    tieJumpAt (rotatedTie Q s M) (rotatedSpace M.gdim Q E) i e cell f (rotDofs M.gdim Q u) q a
      = rotVec M.gdim Q (tieJumpAt M E i e cell f u q) a := by
  have e1 : tieJumpAt M E i e cell f u q = fun a => tieValue M E cell f u q a - tieOpposite M E i e u q a := rfl
  rw [e1, rotVec_sub]
  show ∑ k ∈ range E.nd, E.phi (M.off f + q) k * rotDofs M.gdim Q u (E.bs * E.dofs cell k + a)
    - ∑ k ∈ range E.nd, E.basis i (e * M.nq + q) k * rotDofs M.gdim Q u (E.bs * E.dofs (oppositeCell M i e q) k + a) = _
  rw [hb]
  simp only [rotDofs_at u _ ha]
  rw [rot_combination, rot_combination]
  unfold tieValue tieOpposite
  rw [hb]

theorem rotTie_meanGrad (O : Orthogonal M.gdim Q) (hG : TieGeometryContract M) (h3 : M.gdim ≤ 3) {cell f q : ℕ}
    (hK : ∃ K, LeftInverse M.gdim M.tdim K (tieJacobian M cell (M.off f + q))) (i e : ℕ) (u : ℕ → ℝ) {a b : ℕ}
    (ha : a < M.gdim) (hb' : b < M.gdim) :
    tieMeanGrad (rotatedTie Q s M) (rotatedSpace M.gdim Q E) i e cell f (rotDofs M.gdim Q u) q a b
      = rotGrad M.gdim Q (tieMeanGrad M E i e cell f u q) a b := by
  have e1 : rotGrad M.gdim Q (tieMeanGrad M E i e cell f u q) a b
      = (rotGrad M.gdim Q (tieGrad M E cell f u q) a b + rotGrad M.gdim Q (tieOppositeGrad M E i e u q) a b) / 2 := by
    rw [← rotGrad_add]
    unfold rotGrad tieMeanGrad
    simp only [sum_div]
    exact sum_congr rfl (fun c _ => sum_congr rfl (fun d _ => by ring))
  rw [e1]
  show (∑ k ∈ range E.nd, (∑ j ∈ range M.tdim, M.inv (tieJacobian (rotatedTie Q s M) cell (M.off f + q)) j b
    * E.dphi j (M.off f + q) k) * rotDofs M.gdim Q u (E.bs * E.dofs cell k + a)
    + ∑ k ∈ range E.nd, rotVec M.gdim Q (E.grad i (oppositeCell M i e q) (e * M.nq + q) k) b
      * rotDofs M.gdim Q u (E.bs * E.dofs (oppositeCell M i e q) k + a)) / 2 = _
  rw [hb]
  simp only [rotTie_basis O hG h3 hK _ hb', rotDofs_at u _ ha]
  rw [rot_outer' (fun k c => u (M.gdim * E.dofs cell k + c)),
    rot_outer' (fun k c => u (M.gdim * E.dofs (oppositeCell M i e q) k + c))]
  unfold tieGrad tieOppositeGrad
  rw [hb]

end vector

section scalar

theorem rotTie_value0 (cell f : ℕ) (u : ℕ → ℝ) (q a : ℕ) :
    tieValue (rotatedTie Q s M) (rotatedSpace M.gdim Q E) cell f u q a = tieValue M E cell f u q a := rfl

theorem rotTie_opposite0 (i e : ℕ) (u : ℕ → ℝ) (q a : ℕ) :
    tieOpposite (rotatedTie Q s M) (rotatedSpace M.gdim Q E) i e u q a = tieOpposite M E i e u q a := rfl

theorem rotTie_jump0 (i e cell f : ℕ) (u : ℕ → ℝ) (q a : ℕ) :
    tieJumpAt (rotatedTie Q s M) (rotatedSpace M.gdim Q E) i e cell f u q a = tieJumpAt M E i e cell f u q a := rfl

theorem rotTie_meanGrad0 (O : Orthogonal M.gdim Q) (hG : TieGeometryContract M) (h3 : M.gdim ≤ 3) {cell f q : ℕ}
    (hK : ∃ K, LeftInverse M.gdim M.tdim K (tieJacobian M cell (M.off f + q))) (i e : ℕ) (u : ℕ → ℝ) (a : ℕ) {b : ℕ}
    (hb' : b < M.gdim) :
    tieMeanGrad (rotatedTie Q s M) (rotatedSpace M.gdim Q E) i e cell f u q a b
      = rotVec M.gdim Q (tieMeanGrad M E i e cell f u q a) b := by
  have e1 : rotVec M.gdim Q (tieMeanGrad M E i e cell f u q a) b
      = (rotVec M.gdim Q (tieGrad M E cell f u q a) b + rotVec M.gdim Q (tieOppositeGrad M E i e u q a) b) / 2 := by
    rw [← rotVec_add]
    unfold rotVec tieMeanGrad
    simp only [sum_div]
    exact sum_congr rfl (fun c _ => by ring)
  rw [e1]
  show (∑ k ∈ range E.nd, (∑ j ∈ range M.tdim, M.inv (tieJacobian (rotatedTie Q s M) cell (M.off f + q)) j b
    * E.dphi j (M.off f + q) k) * u (E.bs * E.dofs cell k + a)
    + ∑ k ∈ range E.nd, rotVec M.gdim Q (E.grad i (oppositeCell M i e q) (e * M.nq + q) k) b
      * u (E.bs * E.dofs (oppositeCell M i e q) k + a)) / 2 = _
  simp only [rotTie_basis O hG h3 hK _ hb']
  have e2 : ∀ (w : ℕ → ℝ) (x : ℕ → ℕ → ℝ), ∑ k ∈ range E.nd, rotVec M.gdim Q (x k) b * w k
      = rotVec M.gdim Q (fun d => ∑ k ∈ range E.nd, x k d * w k) b := by
    intro w x
    rw [show (fun d => ∑ k ∈ range E.nd, x k d * w k) = fun d => ∑ k ∈ range E.nd, w k * x k d from
      funext fun d => sum_congr rfl (fun k _ => mul_comm _ _), ← rot_combination]
    exact sum_congr rfl (fun k _ => mul_comm _ _)
  rw [e2 (fun k => u (E.bs * E.dofs cell k + a)), e2 (fun k => u (E.bs * E.dofs (oppositeCell M i e q) k + a))]
  rfl

end scalar

/-! ### forms -/

theorem rot_traction {g : ℕ} (O : Orthogonal g Q) (mu lam : ℝ) {n n' : ℕ → ℝ} {D D' : ℕ → ℕ → ℝ}
    (hn : ∀ a < g, n' a = rotVec g Q n a) (h : ∀ a < g, ∀ b < g, D' a b = rotGrad g Q D a b) :
    ∀ a < g, traction g mu lam D' n' a = rotVec g Q (traction g mu lam D n) a := by
  have z : ∀ a < g, (0 : ℝ) = rotVec g Q (fun _ => 0) a := fun a _ => by simp [rotVec]
  exact RotPoint.trac (p := ⟨g, mu, lam, 0, 0, fun _ => 0, fun _ => 0, fun _ => 0, n, fun _ _ => 0⟩)
    (p' := ⟨g, mu, lam, 0, 0, fun _ => 0, fun _ => 0, fun _ => 0, n', fun _ _ => 0⟩)
    ⟨rfl, rfl, rfl, rfl, rfl, z, z, z, hn⟩ O h

theorem rot_elasticPart {g : ℕ} (O : Orthogonal g Q) (mu lam gamma theta h : ℝ) {n n' J J' K K' : ℕ → ℝ}
    {D D' B B' : ℕ → ℕ → ℝ} (hn : ∀ a < g, n' a = rotVec g Q n a) (hJ : ∀ a < g, J' a = rotVec g Q J a)
    (hD : ∀ a < g, ∀ b < g, D' a b = rotGrad g Q D a b) (hK : ∀ a < g, K' a = rotVec g Q K a)
    (hB : ∀ a < g, ∀ b < g, B' a b = rotGrad g Q B a b) :
    elasticPart g mu lam gamma theta h n' J' D' K' B' = elasticPart g mu lam gamma theta h n J D K B := by
  unfold elasticPart
  have t1 := rot_traction O mu lam hn hD
  have t2 := rot_traction O mu lam hn hB
  have e1 : ∀ (x y : ℕ → ℝ) (w : ℕ → ℝ), ∑ a ∈ range g, (-x a + gamma / h * y a) * w a
      = -(∑ a ∈ range g, x a * w a) + gamma / h * ∑ a ∈ range g, y a * w a := by
    intro x y w
    rw [mul_sum, ← sum_neg_distrib, ← sum_add_distrib]
    exact sum_congr rfl (fun a _ => by ring)
  rw [e1, e1, rot_inner O t1 hK, rot_inner O hJ hK, rot_inner O t2 hJ]

theorem tieSum_rot (O : Orthogonal M.gdim Q) (hG : TieGeometryContract M) (h3 : M.gdim ≤ 3) (F F' : ℕ → ℕ → ℕ → ℕ → ℕ → ℝ)
    (h : ∀ i < M.numPairs, ∀ e < M.localFacets i, ∀ cell f, (M.facets i)[e]? = some (cell, f) → ∀ q < M.nq,
      F' i e cell f q = F i e cell f q) : tieSum (rotatedTie Q s M) F' = tieSum M F := by
  have f1 : (rotatedTie Q s M).numPairs = M.numPairs := rfl
  have f2 : (rotatedTie Q s M).localFacets = M.localFacets := rfl
  have f3 : (rotatedTie Q s M).facets = M.facets := rfl
  have f4 : (rotatedTie Q s M).nq = M.nq := rfl
  unfold tieSum
  rw [f1, f2, f3, f4]
  refine sum_congr rfl (fun i hi => sum_congr rfl (fun e he => ?_))
  cases hf : (M.facets i)[e]? with
  | none => rw [Option.elim_none, Option.elim_none]
  | some p =>
    rw [Option.elim_some, Option.elim_some]
    refine sum_congr rfl (fun q hq => ?_)
    by_cases ht : Tied M i e q
    · rw [if_pos ht, if_pos ((rotTie_tied O i e q).mpr ht), rotTie_weight O hG h3,
        h i (mem_range.mp hi) e (mem_range.mp he) p.1 p.2 hf q (mem_range.mp hq)]
    · rw [if_neg ht, if_neg (fun h => ht ((rotTie_tied O i e q).mp h))]

theorem rot_elasticTie (O : Orthogonal M.gdim Q) (hG : TieGeometryContract M) (h3 : M.gdim ≤ 3) (hI : TieCellsInvertible M)
    (hb : E.bs = M.gdim) (u v : ℕ → ℝ) :
    elasticTie (rotatedTie Q s M) (rotatedSpace M.gdim Q E) (rotatedSpace M.gdim Q EQ) mat gamma theta
      (rotDofs M.gdim Q u) (rotDofs M.gdim Q v) = elasticTie M E EQ mat gamma theta u v := by
  refine tieSum_rot O hG h3 _ _ (fun i hi e he cell f hf q hq => ?_)
  have hK := hI i hi e he cell f hf q hq
  exact rot_elasticPart O _ _ gamma theta _ (fun a ha => rotTie_outward O hG h3 hK ha)
    (fun a ha => rotTie_jump hb i e cell f u q ha) (fun a ha b hb' => rotTie_meanGrad hb O hG h3 hK i e u ha hb')
    (fun a ha => rotTie_jump hb i e cell f v q ha) (fun a ha b hb' => rotTie_meanGrad hb O hG h3 hK i e v ha hb')

theorem rot_heatTie (O : Orthogonal M.gdim Q) (hG : TieGeometryContract M) (h3 : M.gdim ≤ 3) (hI : TieCellsInvertible M)
    (u v : ℕ → ℝ) :
    heatTie (rotatedTie Q s M) (rotatedSpace M.gdim Q E) (rotatedSpace M.gdim Q EQ) mat gamma theta u v
      = heatTie M E EQ mat gamma theta u v := by
  refine tieSum_rot O hG h3 _ _ (fun i hi e he cell f hf q hq => ?_)
  have hK := hI i hi e he cell f hf q hq
  have hn : ∀ a < M.gdim, tieOutward (rotatedTie Q s M) cell f q a = rotVec M.gdim Q (tieOutward M cell f q) a :=
    fun a ha => rotTie_outward O hG h3 hK ha
  have hD : ∀ w : ℕ → ℝ, ∀ b < M.gdim, tieMeanGrad (rotatedTie Q s M) (rotatedSpace M.gdim Q E) i e cell f w q 0 b
      = rotVec M.gdim Q (tieMeanGrad M E i e cell f w q 0) b := fun w b hb => rotTie_meanGrad0 O hG h3 hK i e w 0 hb
  show heatPart M.gdim _ gamma theta _ _ _ _ _ _ = _
  unfold heatPart
  rw [rot_inner O (hD u) hn, rot_inner O (hD v) hn]
  rfl

theorem rot_thermalTie (O : Orthogonal M.gdim Q) (hG : TieGeometryContract M) (h3 : M.gdim ≤ 3) (hI : TieCellsInvertible M)
    (hb : E.bs = M.gdim) (T v : ℕ → ℝ) :
    thermalTie (rotatedTie Q s M) (rotatedSpace M.gdim Q E) (rotatedSpace M.gdim Q EQ) (rotatedSpace M.gdim Q ET) mat T
      (rotDofs M.gdim Q v) = thermalTie M E EQ ET mat T v := by
  refine tieSum_rot O hG h3 _ _ (fun i hi e he cell f hf q hq => ?_)
  have hK := hI i hi e he cell f hf q hq
  show thermalPart M.gdim _ _ _ _ _ _ = _
  unfold thermalPart
  rw [rot_inner O (fun a ha => rotTie_outward O hG h3 hK ha) (fun a ha => rotTie_jump hb i e cell f v q ha)]
  rfl

/-! ### from forms to vectors and matrices -/

theorem rot_vector {g m : ℕ} (hg : 0 < g) (O : Orthogonal g Q) {b b' : ℕ → ℝ} {F F' : (ℕ → ℝ) → ℝ}
    (h : ∀ v, ∑ d ∈ range (g * m), b d * v d = F v) (h' : ∀ v, ∑ d ∈ range (g * m), b' d * v d = F' v)
    (hF : ∀ v, F' (rotDofs g Q v) = F v) : ∀ d < g * m, b' d = rotDofs g Q b d := by
  intro d hd
  have k := h' (rotDofs g Q (unitBack g Q d))
  rw [hF, ← h, sum_unitBack hg b hd] at k
  simp only [rot_unitBack hg O] at k
  simp only [mul_ite, mul_one, mul_zero, sum_ite_eq', mem_range, hd, if_true] at k
  rw [k]
  rfl

theorem rot_matrix {g m : ℕ} (hg : 0 < g) (O : Orthogonal g Q) {A A' : ℕ × ℕ → ℝ} {F F' : (ℕ → ℝ) → (ℕ → ℝ) → ℝ}
    (h : ∀ u v : ℕ → ℝ, ∑ d ∈ range (g * m), ∑ c ∈ range (g * m), v d * A (d, c) * u c = F u v)
    (h' : ∀ u v : ℕ → ℝ, ∑ d ∈ range (g * m), ∑ c ∈ range (g * m), v d * A' (d, c) * u c = F' u v)
    (hF : ∀ u v, F' (rotDofs g Q u) (rotDofs g Q v) = F u v) :
    ∀ d < g * m, ∀ c < g * m, A' (d, c) = rotDofs g Q (fun k => rotDofs g Q (fun l => A (k, l)) c) d := by
  intro d hd c hc
  have k := h' (rotDofs g Q (unitBack g Q c)) (rotDofs g Q (unitBack g Q d))
  rw [hF, ← h] at k
  have e1 : ∑ x ∈ range (g * m), ∑ y ∈ range (g * m), rotDofs g Q (unitBack g Q d) x * A' (x, y)
      * rotDofs g Q (unitBack g Q c) y = A' (d, c) := by
    simp only [rot_unitBack hg O]
    simp [hd, hc]
  have e2 : ∀ x, ∑ y ∈ range (g * m), unitBack g Q d x * A (x, y) * unitBack g Q c y
      = rotDofs g Q (fun l => A (x, l)) c * unitBack g Q d x := by
    intro x
    have := sum_unitBack (Q := Q) hg (fun y => A (x, y)) hc
    rw [show rotDofs g Q (fun l => A (x, l)) c = _ from this.symm, sum_mul]
    exact sum_congr rfl (fun y _ => by ring)
  rw [e1, sum_congr rfl (fun x _ => e2 x), sum_unitBack hg _ hd] at k
  exact k

theorem same_vector {N : ℕ} {b b' : ℕ → ℝ} (h : ∀ v : ℕ → ℝ, ∑ d ∈ range N, b' d * v d = ∑ d ∈ range N, b d * v d) :
    ∀ d < N, b' d = b d := by
  intro d hd
  have := h (fun k => if k = d then 1 else 0)
  simpa [hd] using this

theorem same_matrix {N : ℕ} {A A' : ℕ × ℕ → ℝ}
    (h : ∀ u v : ℕ → ℝ, ∑ d ∈ range N, ∑ c ∈ range N, v d * A' (d, c) * u c = ∑ d ∈ range N, ∑ c ∈ range N, v d * A (d, c) * u c) :
    ∀ d < N, ∀ c < N, A' (d, c) = A (d, c) := by
  intro d hd c hc
  have := h (fun k => if k = c then 1 else 0) (fun k => if k = d then 1 else 0)
  simpa [hd, hc] using this

/-! ### C151 -/

section

variable (hM : TieMesh.Valid M) (hE : TieElement.Valid M E) (m : ℕ) (hN : TieDofsBelow M E (E.bs * m)) (hT : TiedFirst M)
  (h3 : M.gdim ≤ 3) (hG : TieGeometryContract M) (hI : TieCellsInvertible M) (O : Orthogonal M.gdim Q)
  {ops ops' : List (Op ℝ)} (hops : ProperHistory M.static Tracked.new ops)
  (hops' : ProperHistory (rotatedTie Q s M).static Tracked.new ops') {g g' : Gen ℝ}
include hM hE hN hT h3 hG hI O hops hops'

/-- C151: tied elastic bodies, seen from a coordinate system which is rotated by `Q` and shifted by `s`: the matrix
is `Q A Qᵀ`, and the vector is rotated if the solution is.  (Partial: on every facet the points that are not tied come
last, see C117.) -/
theorem C151_elasticity_partial (hg : (ops.foldl Tracked.step Tracked.new).get .elasticity = some g)
    (G : GeneratedFor M E EQ .elasticity mat gamma theta g)
    (hg' : (ops'.foldl Tracked.step Tracked.new).get .elasticity = some g')
    (G' : GeneratedFor (rotatedTie Q s M) (rotatedSpace M.gdim Q E) (rotatedSpace M.gdim Q EQ) .elasticity mat gamma theta g') :
    ∃ (t t' : State ℝ) (A A' : Arr (ℕ × ℕ)) (b b' : Arr ℕ),
      run M.static State.init ops = some t ∧ run (rotatedTie Q s M).static State.init ops' = some t'
      ∧ M.assembleMatrix E .elasticity t 0 = .ok A
      ∧ (rotatedTie Q s M).assembleMatrix (rotatedSpace M.gdim Q E) .elasticity t' 0 = .ok A'
      ∧ M.assembleVector E .elasticity t 0 = .ok b
      ∧ (rotatedTie Q s M).assembleVector (rotatedSpace M.gdim Q E) .elasticity t' 0 = .ok b'
      ∧ (∀ d < M.gdim * m, ∀ c < M.gdim * m,
          A' (d, c) = rotDofs M.gdim Q (fun k => rotDofs M.gdim Q (fun l => A (k, l)) c) d)
      ∧ ∀ u, SolutionIs M E u g → SolutionIs (rotatedTie Q s M) (rotatedSpace M.gdim Q E) (rotDofs M.gdim Q u) g' →
          ∀ d < M.gdim * m, b' d = rotDofs M.gdim Q b d := by
  have hb : E.bs = M.gdim := (assembled' hM ops hops hg G).1
  rw [hb] at hN
  obtain ⟨t, h1, ⟨A, h2, h3'⟩, b, h4, h5⟩ := C117_elasticity_partial hM hE _ hN hT ops hops hg G
  obtain ⟨t', k1, ⟨A', k2, k3⟩, b', k4, k5⟩ := C117_elasticity_partial (rotTie_valid hM)
    (E := rotatedSpace M.gdim Q E) hE (M.gdim * m) hN (rotTie_first O hT) ops' hops' hg' G'
  exact ⟨t, t', A, A', b, b', h1, k1, h2, k2, h4, k4,
    rot_matrix hM.dim O h3' k3 (fun u v => rot_elasticTie O hG h3 hI hb u v),
    fun u hu hu' => rot_vector hM.dim O (h5 u hu) (k5 _ hu') (fun v => rot_elasticTie O hG h3 hI hb u v)⟩

/-- C151 for heat conduction: matrix and vector are the same. -/
theorem C151_heat_partial (hg : (ops.foldl Tracked.step Tracked.new).get .poisson = some g)
    (G : GeneratedFor M E EQ .poisson mat gamma theta g)
    (hg' : (ops'.foldl Tracked.step Tracked.new).get .poisson = some g')
    (G' : GeneratedFor (rotatedTie Q s M) (rotatedSpace M.gdim Q E) (rotatedSpace M.gdim Q EQ) .poisson mat gamma theta g') :
    ∃ (t t' : State ℝ) (A A' : Arr (ℕ × ℕ)) (b b' : Arr ℕ),
      run M.static State.init ops = some t ∧ run (rotatedTie Q s M).static State.init ops' = some t'
      ∧ M.assembleMatrix E .poisson t 0 = .ok A
      ∧ (rotatedTie Q s M).assembleMatrix (rotatedSpace M.gdim Q E) .poisson t' 0 = .ok A'
      ∧ M.assembleVector E .poisson t 0 = .ok b
      ∧ (rotatedTie Q s M).assembleVector (rotatedSpace M.gdim Q E) .poisson t' 0 = .ok b'
      ∧ (∀ d < m, ∀ c < m, A' (d, c) = A (d, c))
      ∧ ∀ u, SolutionIs M E u g → SolutionIs (rotatedTie Q s M) (rotatedSpace M.gdim Q E) u g' →
          ∀ d < m, b' d = b d := by
  have hb : E.bs = 1 := (assembled' hM ops hops hg G).1
  rw [hb, one_mul] at hN
  obtain ⟨t, h1, ⟨A, h2, h3'⟩, b, h4, h5⟩ := C117_heat_partial hM hE _ hN hT ops hops hg G
  obtain ⟨t', k1, ⟨A', k2, k3⟩, b', k4, k5⟩ := C117_heat_partial (rotTie_valid hM)
    (E := rotatedSpace M.gdim Q E) hE m hN (rotTie_first O hT) ops' hops' hg' G'
  refine ⟨t, t', A, A', b, b', h1, k1, h2, k2, h4, k4, same_matrix (fun u v => ?_), fun u hu hu' => same_vector (fun v => ?_)⟩
  · rw [k3, h3', rot_heatTie O hG h3 hI]
  · rw [k5 u hu', h5 u hu, rot_heatTie O hG h3 hI]

/-- C151 for thermo-elasticity: the temperature is a scalar and is not rotated. -/
theorem C151_thermo_partial (hg : (ops.foldl Tracked.step Tracked.new).get .thermo = some g)
    (G : GeneratedFor M E EQ .thermo mat gamma theta g)
    (hg' : (ops'.foldl Tracked.step Tracked.new).get .thermo = some g')
    (G' : GeneratedFor (rotatedTie Q s M) (rotatedSpace M.gdim Q E) (rotatedSpace M.gdim Q EQ) .thermo mat gamma theta g') :
    ∃ (t t' : State ℝ) (A A' : Arr (ℕ × ℕ)) (b b' : Arr ℕ),
      run M.static State.init ops = some t ∧ run (rotatedTie Q s M).static State.init ops' = some t'
      ∧ M.assembleMatrix E .thermo t 0 = .ok A
      ∧ (rotatedTie Q s M).assembleMatrix (rotatedSpace M.gdim Q E) .thermo t' 0 = .ok A'
      ∧ M.assembleVector E .thermo t 0 = .ok b
      ∧ (rotatedTie Q s M).assembleVector (rotatedSpace M.gdim Q E) .thermo t' 0 = .ok b'
      ∧ (∀ d < M.gdim * m, ∀ c < M.gdim * m,
          A' (d, c) = rotDofs M.gdim Q (fun k => rotDofs M.gdim Q (fun l => A (k, l)) c) d)
      ∧ ∀ u, SolutionIs M E u g → SolutionIs (rotatedTie Q s M) (rotatedSpace M.gdim Q E) (rotDofs M.gdim Q u) g' →
          ∀ (ET : TieElement) (T : ℕ → ℝ), TieElement.Valid M ET → TemperatureIs M ET T g →
          TemperatureIs (rotatedTie Q s M) (rotatedSpace M.gdim Q ET) T g' →
          ∀ d < M.gdim * m, b' d = rotDofs M.gdim Q b d := by
  have hb : E.bs = M.gdim := (assembled' hM ops hops hg G).1
  rw [hb] at hN
  obtain ⟨t, h1, ⟨A, h2, h3'⟩, b, h4, h5⟩ := C117_thermo_partial hM hE _ hN hT ops hops hg G
  obtain ⟨t', k1, ⟨A', k2, k3⟩, b', k4, k5⟩ := C117_thermo_partial (rotTie_valid hM)
    (E := rotatedSpace M.gdim Q E) hE (M.gdim * m) hN (rotTie_first O hT) ops' hops' hg' G'
  exact ⟨t, t', A, A', b, b', h1, k1, h2, k2, h4, k4,
    rot_matrix hM.dim O h3' k3 (fun u v => rot_elasticTie O hG h3 hI hb u v),
    fun u hu hu' ET T hET hTm hTm' => rot_vector hM.dim O (h5 u hu ET T hET hTm)
      (k5 _ hu' (rotatedSpace M.gdim Q ET) T hET hTm') (fun v => by
        rw [rot_elasticTie O hG h3 hI hb u v, rot_thermalTie O hG h3 hI hb T v])⟩

end

/-! ### an example -/

/-- Two linear triangles tied along their edge on the `x` axis: one quadrature point in the middle of the edge, with a
gap of 1/4 along the normal. -/
def exTied : TieMesh where
  numPairs := 1
  nq := 1
  gdim := 2
  tdim := 2
  cell := .triangle
  affine := true
  off := fun _ => 0
  weights := fun _ _ => 1
  nref := fun _ j => if j = 1 then -1 else 0
  geo := ⟨3, fun k => if k = 3 ∨ k = 7 ∨ k = 12 then 1 else if k = 16 then -1 else 0, fun c n => 3 * c + n⟩
  cphi := fun _ j n => if n = 0 then -1 else if n = j then 1 else 0
  inv := ContactProblem.exTriangles.inv
  det := ContactProblem.exTriangles.det
  facets := fun _ => [(0, 2)]
  localFacets := fun _ => 1
  closest := fun _ _ => 0
  subCell := fun _ => 0
  parentCell := fun c => c + 1
  numCells := 1
  gap := fun _ r => if r = 1 then 1 / 4 else 0
  ny := fun _ r => if r = 1 then 1 else 0
  h := fun _ _ => 1

/-- Linear functions on the two triangles. -/
def exLinear (bs : ℕ) : TieElement where
  nd := 3
  bs := bs
  phi := fun _ k => if k = 2 then 0 else 1 / 2
  dphi := fun j _ k => if k = 0 then -1 else if k = j + 1 then 1 else 0
  phi0 := fun _ k => if k = 2 then 0 else 1 / 2
  dofs := fun c k => 3 * c + k
  sub := fun c k => 3 * c + k
  basis := fun _ _ k => if k = 2 then 0 else 1 / 2
  grad := fun _ _ _ k b => if k = 0 then (if b = 0 then -1 else 1) else if k = 1 then (if b = 0 then 1 else 0)
    else if b = 0 then 0 else -1

theorem exTied_tied : Tied exTied 0 0 0 := by
  have h : gapNorm exTied 0 0 0 = 1 / 4 := by
    have : gapNorm exTied 0 0 0 = Real.sqrt (∑ a ∈ range 2, (if (0 * 1 + 0) * 2 + a = 1 then (1 / 4 : ℝ) else 0) ^ 2) := rfl
    rw [this]
    simp [sum_range_succ]
  refine ⟨⟨0, by simp [exTied], ?_⟩, Or.inr ?_⟩
  · rw [h]
    show (1 / 4 : ℝ) ≤ 1
    norm_num
  · rw [h]
    simp [exTied, sum_range_succ]
    norm_num

/-- The hypotheses of C151 hold for two tied triangles and every problem, rotated by 90 degrees and shifted. -/
example (p : Problem) (mat : Key → ℕ → ℝ) (u T s : ℕ → ℝ) (gamma theta : ℝ) :
    ∃ bs ops ops' g g', TieMesh.Valid exTied ∧ TieElement.Valid exTied (exLinear bs)
      ∧ TieDofsBelow exTied (exLinear bs) (bs * 6) ∧ TiedFirst exTied ∧ Tied exTied 0 0 0
      ∧ exTied.gdim ≤ 3 ∧ TieGeometryContract exTied ∧ TieCellsInvertible exTied ∧ Orthogonal exTied.gdim exQ
      ∧ ProperHistory exTied.static Tracked.new ops ∧ ProperHistory (rotatedTie exQ s exTied).static Tracked.new ops'
      ∧ (ops.foldl Tracked.step Tracked.new).get p = some g ∧ (ops'.foldl Tracked.step Tracked.new).get p = some g'
      ∧ GeneratedFor exTied (exLinear bs) (exLinear 1) p mat gamma theta g
      ∧ GeneratedFor (rotatedTie exQ s exTied) (rotatedSpace exTied.gdim exQ (exLinear bs))
          (rotatedSpace exTied.gdim exQ (exLinear 1)) p mat gamma theta g'
      ∧ SolutionIs exTied (exLinear bs) u g
      ∧ SolutionIs (rotatedTie exQ s exTied) (rotatedSpace exTied.gdim exQ (exLinear bs)) (rotDofs exTied.gdim exQ u) g'
      ∧ (p = .thermo → TemperatureIs exTied (exLinear 1) T g
        ∧ TemperatureIs (rotatedTie exQ s exTied) (rotatedSpace exTied.gdim exQ (exLinear 1)) T g') := by
  have hv : TieMesh.Valid exTied := by
    refine ⟨by decide, by simp [exTied], by simp [exTied], by simp [exTied], ?_, by simp [exTied]⟩
    intro c c' h h'
    show c + 1 < c' + 1
    omega
  have hG : TieGeometryContract exTied := by
    have h := ContactProblem.exTriangles_contract
    exact ⟨h.inv, h.det, h.sums⟩
  obtain ⟨a1, a2, a3, a4, a5⟩ := generate_once hv (exLinear (comps exTied.static p)) (exLinear 1) (exLinear 1) p rfl rfl rfl
    mat u T gamma theta
  obtain ⟨b1, b2, b3, b4, b5⟩ := generate_once (rotTie_valid (Q := exQ) (s := s) hv)
    (rotatedSpace 2 exQ (exLinear (comps exTied.static p))) (rotatedSpace 2 exQ (exLinear 1)) (rotatedSpace 2 exQ (exLinear 1)) p
    rfl rfl rfl mat (rotDofs 2 exQ u) T gamma theta
  refine ⟨comps exTied.static p, _, _, _, _, hv, ?_, ⟨?_, ?_⟩, ?_, exTied_tied, by decide, hG, ?_, ?_, a1, b1, a2, b2, a3, b3, a4, b4,
    fun h => ⟨a5 h, b5 h⟩⟩
  · intro c i c' i' hc hi hc' hi' h
    have h1 : c < 1 := hc
    have h2 : c' < 1 := hc'
    have h' : 3 * c + i = 3 * c' + i' := h
    show 3 * (c + 1) + i = 3 * (c' + 1) + i'
    omega
  · intro i hi x hx a ha
    obtain rfl : x = (0, 2) := List.mem_singleton.mp hx
    have ha' : a < 3 := ha
    show comps exTied.static p * (3 * 0 + a) + comps exTied.static p ≤ comps exTied.static p * 6
    nlinarith [Nat.zero_le (comps exTied.static p)]
  · intro c hc a ha
    have ha' : a < 3 := ha
    have hc' : c < 1 := hc
    obtain rfl : c = 0 := by omega
    show comps exTied.static p * (3 * 1 + a) + comps exTied.static p ≤ comps exTied.static p * 6
    nlinarith [Nat.zero_le (comps exTied.static p)]
  · intro i hi e he q q' h1 h2 _
    have : q < 1 := h2
    omega
  · exact ContactProblem.exTriangles_invertible
  · intro a ha b hb
    have ha' : a < 2 := ha
    have hb' : b < 2 := hb
    interval_cases a <;> interval_cases b <;> simp [exTied, exQ, sum_range_succ]

end

end Verif.TieData
