import Verif.Lemmas.Driver
import Verif.Lemmas.SystemForm
import Verif.Lemmas.SystemJacobian
import Verif.Model.OneSidedDriver
import Verif.Props.Assembly
import Verif.Props.Dispatch
import Verif.Props.Packing
import Verif.Props.RigidKernels
import Verif.Spec.OneSidedDriver

/-!
Lemmas for the one-sided drivers: the rows of coefficients, and the assembled vector and matrix as a form.
-/

namespace Verif.OneSidedDriver

open Verif.ContactProblem Verif.Spec Verif.Kernels Verif.Assembly Finset

noncomputable section

/-! ### one quadrature point -/

/-- The row `r` holds the data of point `p`, displacement `U` and gradient `D` at quadrature point `q`. -/
structure PointRow (s : RigidDims) (const : Bool) (r w : ℕ → ℝ) (q : ℕ) (p : ObstaclePoint) (U : ℕ → ℝ)
    (D : ℕ → ℕ → ℝ) : Prop where
  g : p.g = s.g
  mu : r 0 = p.mu
  lam : r 1 = p.lam
  h : r 2 = p.h
  normal : ∀ a < s.g, s.normal const r w q a = p.normal a
  gap : s.dotN const r w q (fun a => r (s.oGap + q * s.g + a)) = p.clearance
  u : ∀ a < s.g, r (s.oU + q * s.g + a) = U a
  grad : ∀ a < s.g, ∀ b < s.g, r (s.oGrad + (q * s.g + a) * s.g + b) = D a b

section
variable {s : RigidDims} {const : Bool} {r w : ℕ → ℝ} {q : ℕ} {p : ObstaclePoint} {U : ℕ → ℝ} {D : ℕ → ℕ → ℝ}

theorem PointRow.dot (R : PointRow s const r w q p U D) {x y : ℕ → ℝ} (h : ∀ a < s.g, x a = y a) :
    s.dotN const r w q x = p.dot y := by
  unfold RigidDims.dotN ObstaclePoint.dot
  rw [R.g]
  exact sum_congr rfl (fun a ha => by rw [h a (mem_range.mp ha), R.normal a (mem_range.mp ha)])

theorem PointRow.stress (R : PointRow s const r w q p U D) : s.dotN const r w q (s.trac r p.nPhys q) = p.stress D := by
  refine R.dot (fun a ha => ?_)
  unfold RigidDims.trac
  rw [R.g, R.mu, R.lam]
  exact traction_congr _ _ _ ha R.grad

theorem PointRow.pressure (R : PointRow s const r w q p U D) :
    s.pressure const r w p.nPhys q = p.switch (w 0) U D := by
  unfold RigidDims.pressure ObstaclePoint.switch
  rw [R.stress, R.gap, R.dot R.u, R.h]

/-- Contact stress of a basis function. -/
def sv (s : RigidDims) (const : Bool) (r w np : ℕ → ℝ) (dphi : ℕ → ℕ → ℕ → ℝ) (q i n : ℕ) : ℝ :=
  s.dotN const r w q (traction s.g (r 0) (r 1) (fun a b => if a = n then dphi q i b else 0) np)

/-- Its component in contact direction. -/
def vn (s : RigidDims) (const : Bool) (r w : ℕ → ℝ) (phi : ℕ → ℕ → ℝ) (q i n : ℕ) : ℝ :=
  s.dotN const r w q (fun a => if a = n then phi q i else 0)

theorem PointRow.sum_vn (R : PointRow s const r w q p U D) (phi : ℕ → ℕ → ℝ) (V : ℕ → ℕ → ℝ) :
    ∑ i ∈ range s.nd, ∑ n ∈ range s.g, vn s const r w phi q i n * V i n
      = p.dot (fun a => ∑ i ∈ range s.nd, phi q i * V i a) := by
  have h1 : ∀ i, ∀ n ∈ range s.g, vn s const r w phi q i n = phi q i * p.normal n := by
    intro i n hn
    unfold vn RigidDims.dotN
    rw [sum_eq_single_of_mem n hn (fun a _ ha => by dsimp only; rw [if_neg ha, zero_mul])]
    dsimp only
    rw [if_pos rfl, R.normal n (mem_range.mp hn)]
  unfold ObstaclePoint.dot
  rw [R.g, sum_congr rfl (fun i _ => sum_congr rfl (fun n hn => by rw [h1 i n hn])), sum_comm]
  refine sum_congr rfl (fun n _ => ?_)
  rw [sum_mul]
  exact sum_congr rfl (fun i _ => by ring)

theorem PointRow.sum_sv (R : PointRow s const r w q p U D) (dphi : ℕ → ℕ → ℕ → ℝ) (V : ℕ → ℕ → ℝ) :
    ∑ i ∈ range s.nd, ∑ n ∈ range s.g, sv s const r w p.nPhys dphi q i n * V i n
      = p.stress (fun a b => ∑ i ∈ range s.nd, dphi q i b * V i a) := by
  unfold ObstaclePoint.stress
  have h2 : ∀ a < s.g, traction p.g p.mu p.lam (fun a b => ∑ i ∈ range s.nd, dphi q i b * V i a) p.nPhys a
      = ∑ i ∈ range s.nd, ∑ n ∈ range s.g, traction s.g (r 0) (r 1) (fun a b => if a = n then dphi q i b else 0)
          p.nPhys a * V i n := by
    intro a ha
    have h := traction_sum (range s.nd ×ˢ range s.g) s.g (r 0) (r 1)
      (fun k a b => if a = k.2 then dphi q k.1 b else 0) p.nPhys (fun k => V k.1 k.2) ha
    rw [sum_product] at h
    rw [← h, R.g, R.mu, R.lam]
    refine traction_congr _ _ _ ha (fun a ha b _ => ?_)
    rw [sum_product]
    refine sum_congr rfl (fun i _ => ?_)
    rw [sum_eq_single_of_mem a (mem_range.mpr ha)]
    · simp
    · intro n _ hn
      simp only [if_neg (fun h : a = n => hn h.symm), zero_mul]
  have h3 : ∀ a < s.g, ∑ i ∈ range s.nd, ∑ n ∈ range s.g,
      traction s.g (r 0) (r 1) (fun a b => if a = n then dphi q i b else 0) p.nPhys a * V i n
        = traction p.g p.mu p.lam (fun a b => ∑ i ∈ range s.nd, dphi q i b * V i a) p.nPhys a :=
    fun a ha => (h2 a ha).symm
  rw [← R.dot h3]
  unfold sv RigidDims.dotN
  simp only [sum_mul]
  rw [sum_comm]
  refine Eq.symm ?_
  rw [sum_comm]
  refine Eq.trans (sum_congr rfl (fun i _ => sum_comm)) ?_
  rw [sum_comm]
  exact sum_congr rfl (fun n _ => sum_congr rfl (fun i _ => sum_congr rfl (fun a _ => by ring)))

theorem sum2_add (m n : ℕ) (f g : ℕ → ℕ → ℝ) :
    ∑ i ∈ range m, ∑ j ∈ range n, (f i j + g i j) = ∑ i ∈ range m, ∑ j ∈ range n, f i j + ∑ i ∈ range m, ∑ j ∈ range n, g i j := by
  simp only [sum_add_distrib]

theorem sum2_mul (m n : ℕ) (c : ℝ) (f : ℕ → ℕ → ℝ) :
    ∑ i ∈ range m, ∑ j ∈ range n, c * f i j = c * ∑ i ∈ range m, ∑ j ∈ range n, f i j := by
  simp only [mul_sum]

/-- The residual of a point, tested. -/
theorem PointRow.sum_form (R : PointRow s const r w q p U D) (phi : ℕ → ℕ → ℝ) (dphi : ℕ → ℕ → ℕ → ℝ) (V : ℕ → ℕ → ℝ) :
    ∑ i ∈ range s.nd, ∑ n ∈ range s.g, s.form const phi dphi r w p.nPhys q i n * V i n
      = p.form (w 0) (w 1) U D (fun a => ∑ i ∈ range s.nd, phi q i * V i a)
          (fun a b => ∑ i ∈ range s.nd, dphi q i b * V i a) := by
  have e : ∀ i n, s.form const phi dphi r w p.nPhys q i n * V i n
      = (-w 1 * (p.h / w 0) * p.stress D + min 0 (p.switch (w 0) U D) * w 1) * (sv s const r w p.nPhys dphi q i n * V i n)
        + (-(min 0 (p.switch (w 0) U D) * (w 0 / p.h))) * (vn s const r w phi q i n * V i n) := by
    intro i n
    unfold RigidDims.form
    rw [R.stress, R.pressure, R.h]
    unfold sv vn
    ring
  simp only [e]
  rw [sum2_add, sum2_mul, sum2_mul, R.sum_sv, R.sum_vn]
  unfold ObstaclePoint.form
  ring

/-- The matrix of a point, applied and tested. -/
theorem PointRow.sum_tangent (R : PointRow s const r w q p U D) (hγ : 0 < w 0) (hh : 0 < p.h) (phi : ℕ → ℕ → ℝ)
    (dphi : ℕ → ℕ → ℕ → ℝ) (V W : ℕ → ℕ → ℝ) :
    ∑ i ∈ range s.nd, ∑ n ∈ range s.g, (∑ j ∈ range s.nd, ∑ l ∈ range s.g,
        (-w 1 * (r 2 / w 0) * sv s const r w p.nPhys dphi q j l * sv s const r w p.nPhys dphi q i n
          + Scalars.dRMinus (s.dotN const r w q (s.trac r p.nPhys q)
              + w 0 / r 2 * (s.dotN const r w q (fun a => r (s.oGap + q * s.g + a))
                - s.dotN const r w q (fun a => r (s.oU + q * s.g + a))))
            * (r 2 / w 0 * sv s const r w p.nPhys dphi q j l - vn s const r w phi q j l)
            * (w 1 * sv s const r w p.nPhys dphi q i n - w 0 / r 2 * vn s const r w phi q i n)) * W j l) * V i n
      = p.tangent (w 0) (w 1) U D (fun a => ∑ i ∈ range s.nd, phi q i * W i a)
          (fun a b => ∑ i ∈ range s.nd, dphi q i b * W i a) (fun a => ∑ i ∈ range s.nd, phi q i * V i a)
          (fun a b => ∑ i ∈ range s.nd, dphi q i b * V i a) := by
  rw [R.stress, R.gap, R.dot R.u, R.h]
  have hd : Scalars.dRMinus (p.stress D + w 0 / p.h * (p.clearance - p.dot U))
      = if p.switch (w 0) U D < 0 then 1 else 0 := by
    have : p.switch (w 0) U D < 0 ↔ p.stress D + w 0 / p.h * (p.clearance - p.dot U) < 0 := by
      have e : p.stress D + w 0 / p.h * (p.clearance - p.dot U) = w 0 / p.h * p.switch (w 0) U D := by
        unfold ObstaclePoint.switch
        field_simp
      rw [e]
      have hp : 0 < w 0 / p.h := div_pos hγ hh
      constructor
      · intro h; exact mul_neg_of_pos_of_neg hp h
      · intro h; by_contra hn; exact absurd (mul_nonneg hp.le (not_lt.mp hn)) (not_le.mpr h)
    unfold Scalars.dRMinus
    simp only [this]
  rw [hd]
  generalize hk : (if p.switch (w 0) U D < 0 then (1 : ℝ) else 0) = k
  have e : ∀ i n, (∑ j ∈ range s.nd, ∑ l ∈ range s.g,
        (-w 1 * (p.h / w 0) * sv s const r w p.nPhys dphi q j l * sv s const r w p.nPhys dphi q i n
          + k * (p.h / w 0 * sv s const r w p.nPhys dphi q j l - vn s const r w phi q j l)
            * (w 1 * sv s const r w p.nPhys dphi q i n - w 0 / p.h * vn s const r w phi q i n)) * W j l) * V i n
      = (-w 1 * (p.h / w 0) * p.stress (fun a b => ∑ i ∈ range s.nd, dphi q i b * W i a)
          + k * (p.h / w 0 * p.stress (fun a b => ∑ i ∈ range s.nd, dphi q i b * W i a)
            - p.dot (fun a => ∑ i ∈ range s.nd, phi q i * W i a)) * w 1) * (sv s const r w p.nPhys dphi q i n * V i n)
        + (-(k * (p.h / w 0 * p.stress (fun a b => ∑ i ∈ range s.nd, dphi q i b * W i a)
            - p.dot (fun a => ∑ i ∈ range s.nd, phi q i * W i a)) * (w 0 / p.h))) * (vn s const r w phi q i n * V i n) := by
    intro i n
    rw [← R.sum_sv dphi W, ← R.sum_vn phi W]
    have e2 : ∀ j l, (-w 1 * (p.h / w 0) * sv s const r w p.nPhys dphi q j l * sv s const r w p.nPhys dphi q i n
          + k * (p.h / w 0 * sv s const r w p.nPhys dphi q j l - vn s const r w phi q j l)
            * (w 1 * sv s const r w p.nPhys dphi q i n - w 0 / p.h * vn s const r w phi q i n)) * W j l
        = (-w 1 * (p.h / w 0) * sv s const r w p.nPhys dphi q i n + k * (p.h / w 0)
            * (w 1 * sv s const r w p.nPhys dphi q i n - w 0 / p.h * vn s const r w phi q i n))
            * (sv s const r w p.nPhys dphi q j l * W j l)
          + (-(k * (w 1 * sv s const r w p.nPhys dphi q i n - w 0 / p.h * vn s const r w phi q i n)))
            * (vn s const r w phi q j l * W j l) := fun j l => by ring
    simp only [e2]
    rw [sum2_add, sum2_mul, sum2_mul]
    ring
  simp only [e]
  rw [sum2_add, sum2_mul, sum2_mul, R.sum_sv, R.sum_vn]
  unfold ObstaclePoint.tangent
  rw [← hk]
  split <;> ring

end

/-! ### the kernels keep to their blocks -/

theorem stays_of_adds {k : Arr (ℕ × ℕ) → Arr (ℕ × ℕ)} {δ : Arr (ℕ × ℕ)} (h : Adds k δ) (blocks size : ℕ) :
    StaysInBlocks blocks size k := by
  intro a a' ha m h1 h2
  rw [h a m, h a' m, ha m h1 h2]

theorem rigidRhs_adds (D : KD) (cn : Bool) (junk c w : ℕ → ℝ) : ∃ δ, Adds (rigidRhs D cn junk c w) δ := by
  have h : Adds (rigidRhs D cn junk c w) _ := Adds.forEach (List.range D.nq) (body := rigidRhsPoint D cn junk c w)
    (fun q _ => Adds.loop D.nd (fun j _ => Adds.loop D.bs (fun l _ => Adds.acc (0, l + j * D.bs) _)))
  exact ⟨_, h⟩

theorem rigidJac_adds (D : KD) (cn : Bool) (junk c w : ℕ → ℝ) : ∃ δ, Adds (rigidJac D cn junk c w) δ := by
  have h : Adds (rigidJac D cn junk c w) _ := Adds.forEach (List.range D.nq) (body := rigidJacPoint D cn junk c w)
    (fun q _ => Adds.loop D.nd (fun j _ => Adds.loop D.bs (fun l _ => Adds.loop D.nd (fun i _ => Adds.loop D.bs
      (fun b _ => Adds.acc (0, mIdx D i b j l) _)))))
  exact ⟨_, h⟩

/-! ### one facet -/

section
variable {Y : System Unit}

theorem kd_affine (hY : System.Valid Y) (ml cell f : ℕ) : AffineConst (Y.kd ml cell f) := by
  intro ha q
  have := hY.affine ha f q
  show Y.inv (Y.geo.jac cell (Y.cphi (Y.off f + q))) = Y.inv (Y.geo.jac cell (Y.cphi (Y.off f)))
    ∧ Y.det f (Y.geo.jac cell (Y.cphi (Y.off f + q))) = Y.det f (Y.geo.jac cell (Y.cphi (Y.off f)))
  rw [this]
  exact ⟨rfl, rfl⟩

theorem kernel_rhs (hY : System.Valid Y) (D : Data) (hD : D.Y = Y) (const : Bool) (w : ℕ → ℝ) (row : ℕ → ℝ)
    (cell f links : ℕ) (qs : List ℕ) :
    kernel D const w .rhs row cell f links qs = rigidRhs (Y.kd 0 cell f) const D.junk row w := by
  subst hD
  have h := (C55_rigid .rhs ⟨D.Y.cell, D.Y.gdim, D.Y.gdim, false⟩ (D.Y.kd 0 cell f) const D.junk _).mpr
    ⟨⟨hY.cell.1, hY.cell.2.1, hY.cell.2.2, rfl, Nat.div_self hY.dim⟩, Or.inl ⟨rfl, rfl⟩⟩
  unfold kernel
  funext A
  rw [h]

theorem kernel_jac (hY : System.Valid Y) (D : Data) (hD : D.Y = Y) (const : Bool) (w : ℕ → ℝ) (row : ℕ → ℝ)
    (cell f links : ℕ) (qs : List ℕ) :
    kernel D const w .jac row cell f links qs = rigidJac (Y.kd 0 cell f) const D.junk row w := by
  subst hD
  have h := (C55_rigid .jac ⟨D.Y.cell, D.Y.gdim, D.Y.gdim, false⟩ (D.Y.kd 0 cell f) const D.junk _).mpr
    ⟨⟨hY.cell.1, hY.cell.2.1, hY.cell.2.2, rfl, Nat.div_self hY.dim⟩, Or.inr ⟨rfl, rfl⟩⟩
  unfold kernel
  funext A
  rw [h]

/-- The element vector of a facet, tested. -/
theorem facet_form (hY : System.Valid Y) (const : Bool) (junk r w : ℕ → ℝ) (cell f : ℕ) (hconst : const = false ∨ Y.affine = true)
    (pt : ℕ → ObstaclePoint) (u v : ℕ → ℝ)
    (hp : ∀ q < Y.nq, (pt q).nPhys = outwardAt Y cell f q ∧
      PointRow ⟨Y.nq, Y.nd, Y.gdim⟩ const r w q (pt q) (valueAt Y cell f u q) (gradAt Y cell f u q)) :
    ∑ i ∈ range Y.nd, ∑ n ∈ range Y.gdim, rigidRhs (Y.kd 0 cell f) const junk r w 0 (0, i * Y.gdim + n)
        * v (Y.gdim * Y.space.parent cell i + n)
      = ∑ q ∈ range Y.nq, areaAt Y cell f q * (pt q).form (w 0) (w 1) (valueAt Y cell f u q) (gradAt Y cell f u q)
          (valueAt Y cell f v q) (gradAt Y cell f v q) := by
  have e : ∀ i ∈ range Y.nd, ∀ n ∈ range Y.gdim,
      rigidRhs (Y.kd 0 cell f) const junk r w 0 (0, i * Y.gdim + n) * v (Y.gdim * Y.space.parent cell i + n)
        = ∑ q ∈ range Y.nq, areaAt Y cell f q * ((⟨Y.nq, Y.nd, Y.gdim⟩ : RigidDims).form const (facetPhi (Y.kd 0 cell f))
            (facetGrad (Y.kd 0 cell f)) r w (outwardAt Y cell f q) q i n * v (Y.gdim * Y.space.parent cell i + n)) := by
    intro i hi n hn
    have h := C78_rigid_partial (Y.kd 0 cell f) (kd_affine hY 0 cell f) const junk r w rfl hconst 0 i n
      (mem_range.mp hi) (mem_range.mp hn)
    have h' : rigidRhs (Y.kd 0 cell f) const junk r w 0 (0, i * Y.gdim + n) = _ := h
    rw [h', show (0 : Arr (ℕ × ℕ)) (0, i * (Y.kd 0 cell f).bs + n) = 0 from rfl, zero_add, sum_mul]
    refine sum_congr rfl (fun q _ => ?_)
    show |Y.det f (jacobianAt Y cell (Y.off f + q))| * Y.weights f q * _ * _ = areaAt Y cell f q * (_ * _)
    unfold areaAt
    have hn' : facetNormal (Y.kd 0 cell f) q = outwardAt Y cell f q := rfl
    rw [hn']
    show _ * (⟨Y.nq, Y.nd, Y.gdim⟩ : RigidDims).form _ _ _ _ _ _ _ _ _ * _ = _
    ring
  rw [sum_congr rfl (fun i hi => sum_congr rfl (fun n hn => e i hi n hn))]
  rw [sum_congr rfl (fun i _ => sum_comm), sum_comm]
  refine sum_congr rfl (fun q hq => ?_)
  simp only [← mul_sum]
  congr 1
  obtain ⟨hn, R⟩ := hp q (mem_range.mp hq)
  rw [← hn]
  exact R.sum_form (facetPhi (Y.kd 0 cell f)) (facetGrad (Y.kd 0 cell f)) (fun i n => v (Y.gdim * Y.space.parent cell i + n))

theorem rSignV_sv (D : KD) (haff : AffineConst D) (hbs : D.bs = D.gdim) (cn : Bool) (junk c w : ℕ → ℝ) (q i n : ℕ)
    (ha : cn = false ∨ D.affine = true) (hn : n < D.bs) :
    rSignV D cn junk c w q i n = sv D.rdims cn c w (facetNormal D q) (facetGrad D) q i n := by
  have hn' : n < D.gdim := hbs ▸ hn
  rw [facetNormal_eq haff, facetGrad_eq haff, rSignV_eq D hbs cn junk c w q i n ha hn, sv, Spec.RigidDims.dotN]
  refine sum_congr rfl (fun a ha => ?_)
  rw [rN_eq, sigB, Elasticity.sigmaNBasis_traction _ _ _ _ _ _ _ _ _ _ hn' (mem_range.mp ha)]
  rfl

theorem rN_vn (D : KD) (hbs : D.bs = D.gdim) (cn : Bool) (c w : ℕ → ℝ) (q i n : ℕ) (hn : n < D.bs) :
    rN D cn c w q n * D.ph q i = vn D.rdims cn c w (facetPhi D) q i n := by
  have hn' : n < D.gdim := hbs ▸ hn
  have : D.rdims.g = D.gdim := rfl
  simp only [vn, Spec.RigidDims.dotN, this, ite_mul, zero_mul, sum_ite_eq', mem_range.mpr hn', if_true, facetPhi_eq]
  rw [rN_eq]; ring

/-- The element matrix of a facet, applied and tested. -/
theorem facet_tangent (hY : System.Valid Y) (const : Bool) (junk r w : ℕ → ℝ) (cell f : ℕ) (hconst : const = false ∨ Y.affine = true)
    (hγ : 0 < w 0) (pt : ℕ → ObstaclePoint) (u y v : ℕ → ℝ)
    (hp : ∀ q < Y.nq, (pt q).nPhys = outwardAt Y cell f q ∧ 0 < (pt q).h ∧
      PointRow ⟨Y.nq, Y.nd, Y.gdim⟩ const r w q (pt q) (valueAt Y cell f u q) (gradAt Y cell f u q)) :
    ∑ i ∈ range Y.nd, ∑ n ∈ range Y.gdim, (∑ s ∈ range (Y.gdim * Y.nd),
        rigidJac (Y.kd 0 cell f) const junk r w 0 (0, (i * Y.gdim + n) * (Y.gdim * Y.nd) + s)
          * y (Y.gdim * Y.space.parent cell (s / Y.gdim) + s % Y.gdim)) * v (Y.gdim * Y.space.parent cell i + n)
      = ∑ q ∈ range Y.nq, areaAt Y cell f q * (pt q).tangent (w 0) (w 1) (valueAt Y cell f u q) (gradAt Y cell f u q)
          (valueAt Y cell f y q) (gradAt Y cell f y q) (valueAt Y cell f v q) (gradAt Y cell f v q) := by
  obtain ⟨K, hK⟩ : ∃ K : KD, K = Y.kd 0 cell f := ⟨_, rfl⟩
  have haff : AffineConst K := hK ▸ kd_affine hY 0 cell f
  have hbs : K.bs = K.gdim := by rw [hK]; rfl
  have hg : K.bs = Y.gdim := by rw [hK]; rfl
  have hnd : K.nd = Y.nd := by rw [hK]; rfl
  have hnq : K.nq = Y.nq := by rw [hK]; rfl
  have hcn : const = false ∨ K.affine = true := by rw [hK]; exact hconst
  have e : ∀ i ∈ range Y.nd, ∀ n ∈ range Y.gdim,
      (∑ s ∈ range (Y.gdim * Y.nd), rigidJac (Y.kd 0 cell f) const junk r w 0 (0, (i * Y.gdim + n) * (Y.gdim * Y.nd) + s)
          * y (Y.gdim * Y.space.parent cell (s / Y.gdim) + s % Y.gdim)) * v (Y.gdim * Y.space.parent cell i + n)
        = ∑ q ∈ range Y.nq, areaAt Y cell f q * ((∑ j ∈ range Y.nd, ∑ l ∈ range Y.gdim,
          (-w 1 * (r 2 / w 0) * sv K.rdims const r w (facetNormal K q) (facetGrad K) q j l
              * sv K.rdims const r w (facetNormal K q) (facetGrad K) q i n
            + Scalars.dRMinus (K.rdims.dotN const r w q (K.rdims.trac r (facetNormal K q) q)
              + w 0 / r 2 * (K.rdims.dotN const r w q (fun a => r (K.rdims.oGap + q * K.rdims.g + a))
                - K.rdims.dotN const r w q (fun a => r (K.rdims.oU + q * K.rdims.g + a))))
            * (r 2 / w 0 * sv K.rdims const r w (facetNormal K q) (facetGrad K) q j l - vn K.rdims const r w (facetPhi K) q j l)
            * (w 1 * sv K.rdims const r w (facetNormal K q) (facetGrad K) q i n
              - w 0 / r 2 * vn K.rdims const r w (facetPhi K) q i n))
            * y (Y.gdim * Y.space.parent cell j + l)) * v (Y.gdim * Y.space.parent cell i + n)) := by
    intro i hi n hn
    have hi' := mem_range.mp hi
    have hn' := mem_range.mp hn
    have key := blockApply_eq K 0 (List.range K.nq) _ _ (rigidJac_blocks K const junk r w)
      (fun _ s => y (Y.gdim * Y.space.parent cell (s / Y.gdim) + s % Y.gdim)) 0 i n (by omega) (by omega) (by omega)
      (fun q _ k k' j l hk _ _ _ _ => absurd hk (by omega))
    rw [Spec.blockApply] at key
    simp only [range_zero, sum_empty, add_zero, if_true] at key
    rw [hg, hnd, Nat.mul_comm Y.nd Y.gdim, list_sum_range, hnq] at key
    rw [hK] at key
    rw [key, sum_mul]
    refine sum_congr rfl (fun q _ => ?_)
    rw [← hK]
    unfold comb
    simp only [range_zero, sum_empty, add_zero, zero_add, range_one, sum_singleton]
    rw [hnd, hg, ← mul_assoc (areaAt Y cell f q), mul_sum]
    congr 1
    refine sum_congr rfl (fun j hj => ?_)
    rw [mul_sum]
    refine sum_congr rfl (fun l hl => ?_)
    have hl' := mem_range.mp hl
    have h0 : 0 < Y.gdim := by omega
    have hdiv : (j * Y.gdim + l) / Y.gdim = j := by
      rw [Nat.mul_comm, Nat.mul_add_div h0, Nat.div_eq_of_lt hl', Nat.add_zero]
    have hmod : (j * Y.gdim + l) % Y.gdim = l := by
      rw [Nat.mul_comm, Nat.mul_add_mod, Nat.mod_eq_of_lt hl']
    rw [hdiv, hmod, rigJ, rSignV_sv K haff hbs const junk r w q j l hcn (by omega),
      rSignV_sv K haff hbs const junk r w q i n hcn (by omega), rN_vn K hbs const r w q j l (by omega),
      rN_vn K hbs const r w q i n (by omega), rSignU_eq, rGap_eq, rUn_eq, ← facetNormal_eq haff, rW0, det_eq haff]
    have hw : |K.det (K.qStart + q)| * K.weights q = areaAt Y cell f q := by
      rw [hK]; unfold areaAt; exact mul_comm _ _
    rw [hw]
    unfold rGam rGamInv
    rw [← mul_assoc]
  rw [sum_congr rfl (fun i hi => sum_congr rfl (fun n hn => e i hi n hn))]
  rw [sum_congr rfl (fun i _ => sum_comm), sum_comm]
  refine sum_congr rfl (fun q hq => ?_)
  simp only [← mul_sum]
  congr 1
  obtain ⟨hn, hh, R⟩ := hp q (mem_range.mp hq)
  have hn2 : facetNormal K q = (pt q).nPhys := by rw [hn, hK]; rfl
  rw [hn2]
  have hs : K.rdims = ⟨Y.nq, Y.nd, Y.gdim⟩ := by rw [hK]; rfl
  rw [hs]
  have h := R.sum_tangent hγ hh (facetPhi K) (facetGrad K) (fun i n => v (Y.gdim * Y.space.parent cell i + n))
    (fun i n => y (Y.gdim * Y.space.parent cell i + n))
  refine Eq.trans h ?_
  rw [hK]
  rfl

end

/-! ### the assembled vector and matrix -/

section
variable {D : Data}

theorem assembler_bounded (Y : System Unit) : (assembler Y).Bounded := by
  intro i _
  exact le_of_eq rfl

theorem assembler_links (Y : System Unit) (i : ℕ) : IsLinkedCells (assembler Y).cellOf ((assembler Y).map i) [] :=
  ⟨List.Pairwise.nil, fun c => ⟨fun h => absurd h List.not_mem_nil, fun ⟨f, h, _⟩ => absurd h List.not_mem_nil⟩⟩

/-- The rows of `c` hold the data `pt` of the quadrature points and the displacement `u`. -/
def RowsFor (D : Data) (const : Bool) (w : ℕ → ℝ) (c : Mat) (pt : ℕ → ℕ → ℕ → ℕ → ObstaclePoint) (u : ℕ → ℝ) : Prop :=
  ∀ e < D.Y.localFacets 0, ∀ cell f, (D.Y.facets 0)[e]? = some (cell, f) → ∀ q < D.Y.nq,
    (pt e cell f q).nPhys = outwardAt D.Y cell f q ∧ 0 < (pt e cell f q).h ∧
    PointRow ⟨D.Y.nq, D.Y.nd, D.Y.gdim⟩ const (dataRow (flat c) c.cols e) w q (pt e cell f q)
      (valueAt D.Y cell f u q) (gradAt D.Y cell f u q)

theorem facet_some (hY : System.Valid D.Y) {e : ℕ} (he : e < D.Y.localFacets 0) :
    ∃ p ∈ D.Y.facets 0, (D.Y.facets 0)[e]? = some p ∧ (D.Y.facets 0).getD e (0, 0) = p := by
  have hl : e < (D.Y.facets 0).length := lt_of_lt_of_le he (hY.loc 0 hY.pairs)
  exact ⟨(D.Y.facets 0)[e], List.getElem_mem hl, List.getElem?_eq_getElem hl, List.getD_eq_getElem _ _ hl⟩

theorem contactVector_ok (hY : System.Valid D.Y) (const : Bool) (w : ℕ → ℝ) (c : Mat) :
    assembleVector (assembler D.Y) (kernel D const w .rhs) (flat c) c.cols 0 = .ok (contactVector D const w c)
    ∧ ∀ d, contactVector D const w c d = ∑ e ∈ range (D.Y.localFacets 0),
      scatter D.Y.nd D.Y.gdim D.Y.space.parent ((D.Y.facets 0).getD e (0, 0)).1
        (fun p => rigidRhs (D.Y.kd 0 ((D.Y.facets 0).getD e (0, 0)).1 ((D.Y.facets 0).getD e (0, 0)).2) const D.junk
          (dataRow (flat c) c.cols e) w 0 (0, p)) d := by
  obtain ⟨b, hb, hv⟩ := C43_vector (assembler D.Y) (assembler_bounded D.Y) rfl (kernel D const w .rhs)
    (fun row cell f n q => by
      rw [kernel_rhs hY D rfl]
      obtain ⟨δ, h⟩ := rigidRhs_adds (D.Y.kd 0 cell f) const D.junk row w
      exact stays_of_adds h _ _) (flat c) c.cols (fun _ => []) (fun i _ => assembler_links D.Y i) 0
  have e : contactVector D const w c = b := by unfold contactVector; rw [hb]
  rw [e]
  refine ⟨hb, fun d => ?_⟩
  rw [hv d, show (0 : Arr ℕ) d = 0 from rfl, zero_add]
  refine sum_congr rfl (fun i _ => ?_)
  unfold facetVector
  rw [List.length_nil, range_zero, sum_empty, add_zero]
  unfold element
  rw [kernel_rhs hY D rfl]
  rfl

theorem contactMatrix_ok (hY : System.Valid D.Y) (const : Bool) (w : ℕ → ℝ) (c : Mat) :
    assembleMatrix (addValues D.Y.gdim) (assembler D.Y) (kernel D const w .jac) (flat c) c.cols 0
      = .ok (contactMatrix D const w c)
    ∧ ∀ d d', contactMatrix D const w c (d, d') = ∑ e ∈ range (D.Y.localFacets 0),
      scatter2 D.Y.nd D.Y.gdim D.Y.space.parent ((D.Y.facets 0).getD e (0, 0)).1 ((D.Y.facets 0).getD e (0, 0)).1
        (fun p => rigidJac (D.Y.kd 0 ((D.Y.facets 0).getD e (0, 0)).1 ((D.Y.facets 0).getD e (0, 0)).2) const D.junk
          (dataRow (flat c) c.cols e) w 0 (0, p)) d d' := by
  obtain ⟨A, hA, hv⟩ := C45_matrix (assembler D.Y) (assembler_bounded D.Y) rfl (kernel D const w .jac)
    (fun row cell f n q => by
      rw [kernel_jac hY D rfl]
      obtain ⟨δ, h⟩ := rigidJac_adds (D.Y.kd 0 cell f) const D.junk row w
      exact stays_of_adds h _ _) (flat c) c.cols (fun _ => []) (fun i _ => assembler_links D.Y i) 0
  have hA' : assembleMatrix (addValues D.Y.gdim) (assembler D.Y) (kernel D const w .jac) (flat c) c.cols 0 = .ok A := hA
  have e : contactMatrix D const w c = A := by unfold contactMatrix; rw [hA']
  rw [e]
  refine ⟨hA', fun d d' => ?_⟩
  rw [hv d d', show (0 : Arr (ℕ × ℕ)) (d, d') = 0 from rfl, zero_add]
  refine sum_congr rfl (fun i _ => ?_)
  unfold facetMatrix
  rw [List.length_nil, range_zero, sum_empty, add_zero]
  unfold element
  rw [kernel_jac hY D rfl]
  rfl

theorem vector_tested (hY : System.Valid D.Y) (const : Bool) (hconst : const = false ∨ D.Y.affine = true) (w : ℕ → ℝ) (c : Mat)
    (pt : ℕ → ℕ → ℕ → ℕ → ObstaclePoint) (u v : ℕ → ℝ) (hR : RowsFor D const w c pt u) (N : ℕ) (hN : SurfaceBelow D.Y N) :
    ∑ d ∈ range N, contactVector D const w c d * v d = obstacleForm D.Y pt (w 0) (w 1) u v := by
  simp only [(contactVector_ok hY const w c).2, sum_mul]
  rw [sum_comm]
  unfold obstacleForm overSurface
  refine sum_congr rfl (fun e he => ?_)
  obtain ⟨p, hp, h1, h2⟩ := facet_some hY (mem_range.mp he)
  rw [h1, h2, Option.elim_some, scatter_dot _ _ _ _ _ _ _ (fun j hj => hN p hp j hj)]
  exact facet_form hY const D.junk _ w p.1 p.2 hconst (pt e p.1 p.2) u v
    (fun q hq => by obtain ⟨a, _, b⟩ := hR e (mem_range.mp he) p.1 p.2 h1 q hq; exact ⟨a, b⟩)

theorem matrix_tested (hY : System.Valid D.Y) (const : Bool) (hconst : const = false ∨ D.Y.affine = true) (w : ℕ → ℝ) (hγ : 0 < w 0)
    (c : Mat) (pt : ℕ → ℕ → ℕ → ℕ → ObstaclePoint) (u y v : ℕ → ℝ) (hR : RowsFor D const w c pt u) (N : ℕ)
    (hN : SurfaceBelow D.Y N) :
    ∑ d ∈ range N, (∑ d' ∈ range N, contactMatrix D const w c (d, d') * y d') * v d
      = obstacleTangent D.Y pt (w 0) (w 1) u y v := by
  have e1 : ∀ d, ∑ d' ∈ range N, contactMatrix D const w c (d, d') * y d'
      = ∑ e ∈ range (D.Y.localFacets 0), scatter D.Y.nd D.Y.gdim D.Y.space.parent ((D.Y.facets 0).getD e (0, 0)).1
        (fun p => ∑ s ∈ range (D.Y.gdim * D.Y.nd),
          rigidJac (D.Y.kd 0 ((D.Y.facets 0).getD e (0, 0)).1 ((D.Y.facets 0).getD e (0, 0)).2) const D.junk
            (dataRow (flat c) c.cols e) w 0 (0, p * (D.Y.gdim * D.Y.nd) + s)
            * y (D.Y.gdim * D.Y.space.parent ((D.Y.facets 0).getD e (0, 0)).1 (s / D.Y.gdim) + s % D.Y.gdim)) d := by
    intro d
    simp only [(contactMatrix_ok hY const w c).2, sum_mul]
    rw [sum_comm]
    refine sum_congr rfl (fun e he => ?_)
    obtain ⟨p, hp, h1, h2⟩ := facet_some hY (mem_range.mp he)
    rw [h2]
    exact scatter2_apply _ _ _ _ _ _ _ _ _ (fun j hj => hN p hp j hj)
  simp only [e1, sum_mul]
  rw [sum_comm]
  unfold obstacleTangent overSurface
  refine sum_congr rfl (fun e he => ?_)
  obtain ⟨p, hp, h1, h2⟩ := facet_some hY (mem_range.mp he)
  rw [h1, h2, Option.elim_some, scatter_dot _ _ _ _ _ _ _ (fun j hj => hN p hp j hj)]
  exact facet_tangent hY const D.junk _ w p.1 p.2 hconst hγ (pt e p.1 p.2) u y v
    (fun q hq => hR e (mem_range.mp he) p.1 p.2 h1 q hq)

end

/-! ### the rows -/

/-- Two arrays side by side. -/
def join (a b : Mat) : Mat := ⟨a.rows, a.cols + b.cols, fun r c => if c < a.cols then a.v r c else b.v r (c - a.cols)⟩

theorem join_left {a b : Mat} {r c : ℕ} (h : c < a.cols) : (join a b).v r c = a.v r c := if_pos h

theorem join_right (a b : Mat) (r c : ℕ) : (join a b).v r (a.cols + c) = b.v r c := by
  show (if a.cols + c < a.cols then _ else b.v r (a.cols + c - a.cols)) = _
  rw [if_neg (by omega), Nat.add_sub_cancel_left]

theorem hstack_two {a b : Mat} (h : a.rows = b.rows) : hstack [a, b] = .ok (join a b) := by
  show hstack2 a b = _
  unfold hstack2
  rw [if_pos h]
  rfl

theorem hstack_cons {a b : Mat} {l : List Mat} {m : Mat} (hl : hstack (b :: l) = .ok m) (h : a.rows = m.rows) :
    hstack (a :: b :: l) = .ok (join a m) := by
  have : hstack (a :: b :: l) = match hstack (b :: l) with
    | .ok b => hstack2 a b
    | .error e => .error e := rfl
  rw [this, hl]
  show hstack2 a m = _
  unfold hstack2
  rw [if_pos h]
  rfl

section
variable {Y : System Unit}

theorem owned_length (hY : System.Valid Y) : ((owned Y).facets 0).length = Y.localFacets 0 := by
  show ((Y.facets 0).take (Y.localFacets 0)).length = _
  rw [List.length_take]
  exact min_eq_left (hY.loc 0 hY.pairs)

theorem owned_valid (hY : System.Valid Y) : System.Valid (owned Y) where
  pairs := hY.pairs
  dim := hY.dim
  points := hY.points
  cell := hY.cell
  loc := fun i hi => by
    show _ ≤ ((Y.facets i).take (Y.localFacets i)).length
    rw [List.length_take]
    exact le_min le_rfl (hY.loc i hi)
  gap := hY.gap
  nx := hY.nx
  ny := hY.ny
  space := hY.space
  search := hY.search
  cells := hY.cells
  shared := hY.shared
  affine := hY.affine

theorem owned_get {e : ℕ} (he : e < ((owned Y).facets 0).length) {p : ℕ × ℕ} (hp : (Y.facets 0)[e]? = some p) :
    ((owned Y).facets 0)[e] = p := by
  have h1 : ((owned Y).facets 0)[e]? = some p := by
    show ((Y.facets 0).take (Y.localFacets 0))[e]? = _
    have : e < Y.localFacets 0 := by
      have h : e < ((Y.facets 0).take (Y.localFacets 0)).length := he
      rw [List.length_take] at h
      omega
    rw [List.getElem?_take, if_pos this, hp]
  rw [List.getElem?_eq_getElem he] at h1
  exact Option.some.inj h1

theorem packDG0_eq (hY : System.Valid Y) (f : ℕ → ℝ) :
    (packDG0 Y f).rows = Y.localFacets 0 ∧ (packDG0 Y f).cols = 1 ∧
    ∀ e < Y.localFacets 0, ∀ p, (Y.facets 0)[e]? = some p → (packDG0 Y f).v e 0 = f p.1 := by
  obtain ⟨c, hc, hv⟩ := Coefficients.C35_values ⟨1, 1, 1, 1, fun c _ => c, f⟩ 1 ⟨one_pos, one_pos, rfl, Or.inr rfl⟩ .exteriorFacet
    ((owned Y).entities 0) ((owned Y).facets 0) (entityList (owned Y) 0) 1 (fun _ => 0) (fun _ _ _ => 1) false Y.affine
    (fun _ _ U => U) (by simp) (by simp)
  have e : packDG0 Y f = toMat ((owned Y).facets 0).length (1 * 1 * 1) c := by
    unfold packDG0; rw [hc]
  rw [e]
  refine ⟨owned_length hY, rfl, fun k hk p hp => ?_⟩
  have hk' : k < ((owned Y).facets 0).length := by rw [owned_length hY]; exact hk
  have h := hv k hk' 0 one_pos 0 (by norm_num)
  rw [owned_get hk' hp] at h
  show c (k * 1 + 0) = _
  have e2 : (1 * 1 * 1 * k + 1 * 1 * 0 + 0) = k * 1 + 0 := by ring
  have h' : c (1 * 1 * 1 * k + 1 * 1 * 0 + 0) = _ := h
  rw [e2] at h'
  rw [h']
  simp [Coefficients.Spec.value, Coefficients.Spec.dof]

theorem packVal_owned (hY : System.Valid Y) (u : ℕ → ℝ) :
    ((owned Y).packVal u 0).rows = Y.localFacets 0 ∧ ((owned Y).packVal u 0).cols = Y.nq * Y.gdim
    ∧ ∀ e < Y.localFacets 0, ∀ cell f, (Y.facets 0)[e]? = some (cell, f) → ∀ q < Y.nq, ∀ a < Y.gdim,
      ((owned Y).packVal u 0).v e (q * Y.gdim + a) = valueAt Y cell f u q a := by
  obtain ⟨h1, h2, h3⟩ := packVal_eq (owned_valid hY) u 0
  refine ⟨h1.trans (owned_length hY), h2, fun e he cell f hp q hq a ha => ?_⟩
  have he' : e < ((owned Y).facets 0).length := by rw [owned_length hY]; exact he
  have h := h3 e he' q hq a ha
  rw [owned_get he' hp] at h
  exact h

theorem packGrad_owned (hY : System.Valid Y) (u : ℕ → ℝ) :
    ((owned Y).packGrad u 0).rows = Y.localFacets 0 ∧ ((owned Y).packGrad u 0).cols = Y.nq * Y.gdim * Y.gdim
    ∧ ∀ e < Y.localFacets 0, ∀ cell f, (Y.facets 0)[e]? = some (cell, f) → ∀ q < Y.nq, ∀ a < Y.gdim, ∀ b < Y.gdim,
      ((owned Y).packGrad u 0).v e ((q * Y.gdim + a) * Y.gdim + b) = gradAt Y cell f u q a b := by
  obtain ⟨h1, h2, h3⟩ := packGrad_eq (owned_valid hY) u 0
  refine ⟨h1.trans (owned_length hY), h2, fun e he cell f hp q hq a ha b hb => ?_⟩
  have he' : e < ((owned Y).facets 0).length := by rw [owned_length hY]; exact he
  have h := h3 e he' q hq a ha b hb
  rw [owned_get he' hp] at h
  exact h

end

/-! ### the plane -/

section
variable {D : Data}

theorem mu_eq (P : OneSided.Params) : P.mu = P.E / (2 * (1 + P.nu)) := rfl

theorem lmbda_eq (P : OneSided.Params) : P.lmbda
    = if P.planeStrain then P.E * P.nu / ((1 + P.nu) * (1 - 2 * P.nu)) else P.E * P.nu / ((1 + P.nu) * (1 - P.nu)) := rfl

theorem packSize_eq (hY : System.Valid D.Y) : (packSize D).rows = D.Y.localFacets 0 ∧ (packSize D).cols = 1 ∧
    ∀ e < D.Y.localFacets 0, ∀ p, (D.Y.facets 0)[e]? = some p → (packSize D).v e 0 = D.size p.1 := by
  refine ⟨owned_length hY, rfl, fun e he p hp => ?_⟩
  have he' : e < ((owned D.Y).facets 0).length := by rw [owned_length hY]; exact he
  show D.size (((owned D.Y).facets 0).getD e (0, 0)).1 = _
  rw [List.getD_eq_getElem _ _ he', owned_get he' hp]

/-- What the rows of the plane driver are. -/
def planeMat (D : Data) (x : ℕ → ℝ) : Mat :=
  join (join (join (packDG0 D.Y (fun _ => D.P.mu)) (packDG0 D.Y (fun _ => D.P.lmbda))) (join (packSize D) (packPlane D)))
    (join ((owned D.Y).packVal x 0) ((owned D.Y).packGrad x 0))

theorem planeCoeffs_ok (hY : System.Valid D.Y) : planeCoeffs D = .ok
    (join (join (packDG0 D.Y (fun _ => D.P.mu)) (packDG0 D.Y (fun _ => D.P.lmbda))) (join (packSize D) (packPlane D))) := by
  unfold planeCoeffs
  have hm := packDG0_eq hY (fun _ => D.P.mu)
  have hl := packDG0_eq hY (fun _ => D.P.lmbda)
  rw [hstack_two (hm.1.trans hl.1.symm)]
  exact hstack_cons (hstack_two (packSize_eq hY).1) (hm.1.trans (packSize_eq hY).1.symm)

theorem planeRows_ok (hY : System.Valid D.Y) (x : ℕ → ℝ) : planeRows D x = .ok (planeMat D x) := by
  unfold planeRows
  rw [planeCoeffs_ok hY]
  have hv := packVal_owned hY x
  have hg := packGrad_owned hY x
  exact hstack_cons (hstack_two (hv.1.trans hg.1.symm)) ((packDG0_eq hY (fun _ => D.P.mu)).1.trans hv.1.symm)

/-- The leading columns shared by the rows of both drivers. -/
theorem plane_rows (hY : System.Valid D.Y) (x : ℕ → ℝ) (hh : ∀ p ∈ D.Y.facets 0, 0 < D.size p.1) :
    RowsFor D true (planeConsts D) (planeMat D x) (planePoint D.Y D.P D.size D.qp) x := by
  intro e he cell f hp q hq
  obtain ⟨m1, m2, m3⟩ := packDG0_eq hY (fun _ => D.P.mu)
  obtain ⟨l1, l2, l3⟩ := packDG0_eq hY (fun _ => D.P.lmbda)
  obtain ⟨s1, s2, s3⟩ := packSize_eq hY
  obtain ⟨v1, v2, v3⟩ := packVal_owned hY x
  obtain ⟨g1, g2, g3⟩ := packGrad_owned hY x
  have p2 : (packPlane D).cols = D.Y.nq * D.Y.gdim := rfl
  have c1 : (join (packDG0 D.Y (fun _ => D.P.mu)) (packDG0 D.Y (fun _ => D.P.lmbda))).cols = 2 := by
    show _ + _ = _; rw [m2, l2]
  have c2 : (join (packSize D) (packPlane D)).cols = 1 + D.Y.nq * D.Y.gdim := by
    show _ + _ = _; rw [s2, p2]
  have c3 : (join (join (packDG0 D.Y (fun _ => D.P.mu)) (packDG0 D.Y (fun _ => D.P.lmbda)))
      (join (packSize D) (packPlane D))).cols = 3 + D.Y.nq * D.Y.gdim := by
    show _ + _ = _; rw [c1, c2]; omega
  have c4 : (planeMat D x).cols = 3 + D.Y.nq * D.Y.gdim + (D.Y.nq * D.Y.gdim + D.Y.nq * D.Y.gdim * D.Y.gdim) := by
    show _ + (_ + _) = _; rw [c3, v2, g2]
  have hdim := hY.dim
  have hqa : ∀ a < D.Y.gdim, q * D.Y.gdim + a < D.Y.nq * D.Y.gdim := by intro a ha; nlinarith
  have hqab : ∀ a < D.Y.gdim, ∀ b < D.Y.gdim, (q * D.Y.gdim + a) * D.Y.gdim + b < D.Y.nq * D.Y.gdim * D.Y.gdim := by
    intro a ha b hb
    have := hqa a ha
    nlinarith
  have r0 : dataRow (flat (planeMat D x)) (planeMat D x).cols e 0 = D.P.mu := by
    rw [dataRow_flat _ _ (by omega)]
    unfold planeMat
    rw [join_left (by omega), join_left (by omega), join_left (by omega), m3 e he _ hp]
  have r1 : dataRow (flat (planeMat D x)) (planeMat D x).cols e 1 = D.P.lmbda := by
    rw [dataRow_flat _ _ (by omega)]
    unfold planeMat
    rw [join_left (by omega), join_left (by omega)]
    have h := join_right (packDG0 D.Y (fun _ => D.P.mu)) (packDG0 D.Y (fun _ => D.P.lmbda)) e 0
    rw [m2] at h
    rw [h, l3 e he _ hp]
  have r2 : dataRow (flat (planeMat D x)) (planeMat D x).cols e 2 = D.size cell := by
    rw [dataRow_flat _ _ (by omega)]
    unfold planeMat
    rw [join_left (by omega)]
    have h := join_right (join (packDG0 D.Y (fun _ => D.P.mu)) (packDG0 D.Y (fun _ => D.P.lmbda)))
      (join (packSize D) (packPlane D)) e 0
    rw [c1] at h
    rw [h, join_left (by omega), s3 e he _ hp]
  have rg : ∀ a < D.Y.gdim, dataRow (flat (planeMat D x)) (planeMat D x).cols e (3 + q * D.Y.gdim + a)
      = if a + 1 = D.Y.gdim then -D.P.planeLoc - D.qp ((e * D.Y.nq + q) * D.Y.gdim + a) else 0 := by
    intro a ha
    have := hqa a ha
    rw [dataRow_flat _ _ (by omega)]
    unfold planeMat
    rw [join_left (by omega)]
    have h := join_right (join (packDG0 D.Y (fun _ => D.P.mu)) (packDG0 D.Y (fun _ => D.P.lmbda)))
      (join (packSize D) (packPlane D)) e (1 + (q * D.Y.gdim + a))
    rw [c1, show 2 + (1 + (q * D.Y.gdim + a)) = 3 + q * D.Y.gdim + a by ring] at h
    have h2 := join_right (packSize D) (packPlane D) e (q * D.Y.gdim + a)
    rw [s2] at h2
    rw [h, h2]
    show Packing.packGapPlane _ _ _ _ _ (e * (D.Y.nq * D.Y.gdim) + (q * D.Y.gdim + a)) = _
    rw [← Nat.add_assoc, Packing.C30_gap_plane _ _ _ _ _ _ _ _ he hq ha]
  refine ⟨rfl, hh _ (List.mem_of_getElem? hp), ⟨rfl, ?_, ?_, ?_, ?_, ?_, ?_, ?_⟩⟩
  · rw [r0, mu_eq]; rfl
  · rw [r1, lmbda_eq]; rfl
  · rw [r2]; rfl
  · intro a ha
    show -planeConsts D (a + 2) = if a + 1 = D.Y.gdim then -1 else 0
    have hdim := hY.dim
    unfold planeConsts
    rw [if_neg (by omega), if_neg (by omega)]
    have ha' : a < D.Y.gdim := ha
    by_cases h : a + 1 = D.Y.gdim
    · rw [if_pos (by omega), if_pos h]
    · rw [if_neg (by omega), if_neg h, neg_zero]
  · show ∑ a ∈ range D.Y.gdim, dataRow (flat (planeMat D x)) (planeMat D x).cols e (3 + q * D.Y.gdim + a)
        * -planeConsts D (a + 2) = D.qp ((e * D.Y.nq + q) * D.Y.gdim + (D.Y.gdim - 1)) - (-D.P.planeLoc)
    have hdim := hY.dim
    rw [sum_eq_single_of_mem (D.Y.gdim - 1) (mem_range.mpr (by omega))]
    · rw [rg _ (by omega), if_pos (by omega)]
      unfold planeConsts
      rw [if_neg (by omega), if_neg (by omega), if_pos (by omega)]
      ring
    · intro a ha h
      have ha' := mem_range.mp ha
      rw [rg a ha', if_neg (by omega), zero_mul]
  · intro a ha
    have ha' : a < D.Y.gdim := ha
    have := hqa a ha'
    show dataRow _ _ _ (3 + D.Y.nq * D.Y.gdim + q * D.Y.gdim + a) = _
    rw [dataRow_flat _ _ (by omega)]
    unfold planeMat
    have h := join_right (join (join (packDG0 D.Y (fun _ => D.P.mu)) (packDG0 D.Y (fun _ => D.P.lmbda)))
      (join (packSize D) (packPlane D))) (join ((owned D.Y).packVal x 0) ((owned D.Y).packGrad x 0)) e (q * D.Y.gdim + a)
    rw [c3, ← Nat.add_assoc] at h
    rw [h, join_left (by omega), v3 e he cell f hp q hq a ha']
  · intro a ha b hb
    have ha' : a < D.Y.gdim := ha
    have hb' : b < D.Y.gdim := hb
    have := hqab a ha' b hb'
    show dataRow _ _ _ (3 + D.Y.nq * D.Y.gdim + D.Y.nq * D.Y.gdim + (q * D.Y.gdim + a) * D.Y.gdim + b) = _
    rw [dataRow_flat _ _ (by omega)]
    unfold planeMat
    have h := join_right (join (join (packDG0 D.Y (fun _ => D.P.mu)) (packDG0 D.Y (fun _ => D.P.lmbda)))
      (join (packSize D) (packPlane D))) (join ((owned D.Y).packVal x 0) ((owned D.Y).packGrad x 0)) e
      (D.Y.nq * D.Y.gdim + ((q * D.Y.gdim + a) * D.Y.gdim + b))
    rw [c3, ← Nat.add_assoc, ← Nat.add_assoc] at h
    have h2 := join_right ((owned D.Y).packVal x 0) ((owned D.Y).packGrad x 0) e ((q * D.Y.gdim + a) * D.Y.gdim + b)
    rw [v2] at h2
    rw [h, h2, g3 e he cell f hp q hq a ha' b hb']

/-! ### the rigid surface -/

/-- The columns of the coefficients of the surface driver which do not change. -/
structure SurfaceFixed (D : Data) (c : Mat) : Prop where
  rows : c.rows = D.Y.localFacets 0
  cols : c.cols = 3 + D.Y.nq * D.Y.gdim + (D.Y.nq * D.Y.gdim + D.Y.nq * D.Y.gdim * D.Y.gdim) + D.Y.nq * D.Y.gdim
  mu : ∀ e < D.Y.localFacets 0, c.v e 0 = D.P.mu
  lam : ∀ e < D.Y.localFacets 0, c.v e 1 = D.P.lmbda
  h : ∀ e < D.Y.localFacets 0, ∀ p, (D.Y.facets 0)[e]? = some p → c.v e 2 = D.size p.1
  gap : ∀ e < D.Y.localFacets 0, ∀ k < D.Y.nq * D.Y.gdim, c.v e (3 + k) = (D.Y.gap () 0).v e k
  ny : ∀ e < D.Y.localFacets 0, ∀ k < D.Y.nq * D.Y.gdim,
    c.v e (3 + D.Y.nq * D.Y.gdim + (D.Y.nq * D.Y.gdim + D.Y.nq * D.Y.gdim * D.Y.gdim) + k) = (D.Y.ny () 0).v e k

theorem surfaceRows_ok (hY : System.Valid D.Y) : ∃ c, surfaceRows D = .ok c ∧ SurfaceFixed D c := by
  obtain ⟨m1, m2, m3⟩ := packDG0_eq hY (fun _ => D.P.mu)
  obtain ⟨l1, l2, l3⟩ := packDG0_eq hY (fun _ => D.P.lmbda)
  obtain ⟨s1, s2, s3⟩ := packDG0_eq hY D.size
  obtain ⟨v1, v2, -⟩ := packVal_owned hY (fun _ => 0)
  obtain ⟨g1, g2, -⟩ := packGrad_owned hY (fun _ => 0)
  obtain ⟨p1, p2⟩ := hY.gap () 0 hY.pairs
  obtain ⟨n1, n2⟩ := hY.ny () 0 hY.pairs
  obtain ⟨M, hM⟩ : ∃ M, M = packDG0 D.Y (fun _ => D.P.mu) := ⟨_, rfl⟩
  obtain ⟨L, hL⟩ : ∃ L, L = packDG0 D.Y (fun _ => D.P.lmbda) := ⟨_, rfl⟩
  obtain ⟨S, hS⟩ : ∃ S, S = packDG0 D.Y D.size := ⟨_, rfl⟩
  obtain ⟨U, hU⟩ : ∃ U, U = (owned D.Y).packVal (fun _ => 0) 0 := ⟨_, rfl⟩
  obtain ⟨G, hG⟩ : ∃ G, G = (owned D.Y).packGrad (fun _ => 0) 0 := ⟨_, rfl⟩
  unfold surfaceRows
  rw [← hM] at m1 m2 m3 ⊢
  rw [← hL] at l1 l2 l3 ⊢
  rw [← hS] at s1 s2 s3 ⊢
  rw [← hU] at v1 v2 ⊢
  rw [← hG] at g1 g2 ⊢
  rw [hstack_two (m1.trans l1.symm)]
  refine ⟨_, hstack_cons (hstack_cons (hstack_cons (hstack_cons (hstack_two (g1.trans n1.symm))
    (v1.trans g1.symm)) (p1.trans v1.symm)) (s1.trans p1.symm)) (m1.trans s1.symm), ?_⟩
  have c1 : (join M L).cols = 2 := by show _ + _ = _; rw [m2, l2]
  constructor
  · exact m1
  · show M.cols + L.cols + (S.cols + ((D.Y.gap () 0).cols + (U.cols + (G.cols + (D.Y.ny () 0).cols)))) = _
    rw [m2, l2, s2, p2, v2, g2, n2]
    omega
  · intro e he
    obtain ⟨p, -, hp, -⟩ := facet_some hY he
    rw [join_left (by omega), join_left (by omega), m3 e he p hp]
  · intro e he
    obtain ⟨p, -, hp, -⟩ := facet_some hY he
    have h := join_right M L e 0
    rw [m2] at h
    rw [join_left (by omega), h, l3 e he p hp]
  · intro e he p hp
    have h := join_right (join M L) (join S (join (D.Y.gap () 0) (join U (join G (D.Y.ny () 0))))) e 0
    rw [c1] at h
    rw [h, join_left (by omega), s3 e he p hp]
  · intro e he k hk
    have h := join_right (join M L) (join S (join (D.Y.gap () 0) (join U (join G (D.Y.ny () 0))))) e (1 + k)
    rw [c1, show 2 + (1 + k) = 3 + k by ring] at h
    have h2 := join_right S (join (D.Y.gap () 0) (join U (join G (D.Y.ny () 0)))) e k
    rw [s2] at h2
    rw [h, h2, join_left (by omega)]
  · intro e he k hk
    have h := join_right (join M L) (join S (join (D.Y.gap () 0) (join U (join G (D.Y.ny () 0))))) e
      (1 + (D.Y.nq * D.Y.gdim + (D.Y.nq * D.Y.gdim + (D.Y.nq * D.Y.gdim * D.Y.gdim + k))))
    rw [c1, show 2 + (1 + (D.Y.nq * D.Y.gdim + (D.Y.nq * D.Y.gdim + (D.Y.nq * D.Y.gdim * D.Y.gdim + k))))
      = 3 + D.Y.nq * D.Y.gdim + (D.Y.nq * D.Y.gdim + D.Y.nq * D.Y.gdim * D.Y.gdim) + k by ring] at h
    have h2 := join_right S (join (D.Y.gap () 0) (join U (join G (D.Y.ny () 0)))) e
      (D.Y.nq * D.Y.gdim + (D.Y.nq * D.Y.gdim + (D.Y.nq * D.Y.gdim * D.Y.gdim + k)))
    rw [s2] at h2
    have h3 := join_right (D.Y.gap () 0) (join U (join G (D.Y.ny () 0))) e
      (D.Y.nq * D.Y.gdim + (D.Y.nq * D.Y.gdim * D.Y.gdim + k))
    rw [p2] at h3
    have h4 := join_right U (join G (D.Y.ny () 0)) e (D.Y.nq * D.Y.gdim * D.Y.gdim + k)
    rw [v2] at h4
    have h5 := join_right G (D.Y.ny () 0) e k
    rw [g2] at h5
    rw [h, h2, h3, h4, h5]

theorem surfaceOffset_eq (hY : System.Valid D.Y) : surfaceOffset D = 3 + D.Y.nq * D.Y.gdim := by
  unfold surfaceOffset
  rw [(packDG0_eq hY _).2.1, (packDG0_eq hY _).2.1, (packDG0_eq hY _).2.1, (hY.gap () 0 hY.pairs).2]

/-- `pack_coefficients` overwrites the displacement columns and keeps the others. -/
theorem surfaceUpdate_ok (hY : System.Valid D.Y) (x : ℕ → ℝ) {c : Mat} (hc : SurfaceFixed D c) :
    SurfaceFixed D (surfaceUpdate D x c) ∧
    (∀ e < D.Y.localFacets 0, ∀ k < D.Y.nq * D.Y.gdim,
      (surfaceUpdate D x c).v e (3 + D.Y.nq * D.Y.gdim + k) = ((owned D.Y).packVal x 0).v e k) ∧
    ∀ e < D.Y.localFacets 0, ∀ k < D.Y.nq * D.Y.gdim * D.Y.gdim,
      (surfaceUpdate D x c).v e (3 + D.Y.nq * D.Y.gdim + D.Y.nq * D.Y.gdim + k) = ((owned D.Y).packGrad x 0).v e k := by
  obtain ⟨v1, v2, -⟩ := packVal_owned hY x
  obtain ⟨g1, g2, -⟩ := packGrad_owned hY x
  obtain ⟨U, hU⟩ : ∃ U, U = (owned D.Y).packVal x 0 := ⟨_, rfl⟩
  obtain ⟨G, hG⟩ : ∃ G, G = (owned D.Y).packGrad x 0 := ⟨_, rfl⟩
  have ho := surfaceOffset_eq hY
  have hcols := hc.cols
  have hrows := hc.rows
  rw [← hU] at v1 v2
  rw [← hG] at g1 g2
  have e1 : assign c c.rows (surfaceOffset D) (surfaceOffset D + U.cols) U
      = .ok (put c c.rows (surfaceOffset D) (surfaceOffset D + U.cols) U.v) :=
    assign_eq le_rfl (by omega) (by omega) (v1.trans hrows.symm) (by omega)
  have e2 : assign (put c c.rows (surfaceOffset D) (surfaceOffset D + U.cols) U.v) c.rows (surfaceOffset D + U.cols)
      (surfaceOffset D + U.cols + G.cols) G
      = .ok (put (put c c.rows (surfaceOffset D) (surfaceOffset D + U.cols) U.v) c.rows (surfaceOffset D + U.cols)
          (surfaceOffset D + U.cols + G.cols) G.v) :=
    assign_eq le_rfl (by omega) (by show _ ≤ c.cols; omega) (g1.trans hrows.symm) (by omega)
  have e : surfaceUpdate D x c = put (put c c.rows (surfaceOffset D) (surfaceOffset D + U.cols) U.v) c.rows
      (surfaceOffset D + U.cols) (surfaceOffset D + U.cols + G.cols) G.v := by
    unfold surfaceUpdate
    dsimp only
    rw [← hU, ← hG, e1]
    dsimp only
    show (match assign (put c c.rows (surfaceOffset D) (surfaceOffset D + U.cols) U.v) c.rows _ _ G with
      | .error _ => _ | .ok c => c) = _
    rw [e2]
  rw [e, ← hU, ← hG, ho, v2, g2]
  have old : ∀ r k, (k < 3 + D.Y.nq * D.Y.gdim ∨ 3 + D.Y.nq * D.Y.gdim + (D.Y.nq * D.Y.gdim + D.Y.nq * D.Y.gdim * D.Y.gdim) ≤ k) →
      (put (put c c.rows (3 + D.Y.nq * D.Y.gdim) (3 + D.Y.nq * D.Y.gdim + D.Y.nq * D.Y.gdim) U.v) c.rows
        (3 + D.Y.nq * D.Y.gdim + D.Y.nq * D.Y.gdim)
        (3 + D.Y.nq * D.Y.gdim + D.Y.nq * D.Y.gdim + D.Y.nq * D.Y.gdim * D.Y.gdim) G.v).v r k = c.v r k := by
    intro r k hk
    unfold put
    dsimp only
    rw [if_neg (by omega), if_neg (by omega)]
  refine ⟨⟨hrows, hcols, ?_, ?_, ?_, ?_, ?_⟩, ?_, ?_⟩
  · intro e he; rw [old _ _ (by omega), hc.mu e he]
  · intro e he; rw [old _ _ (by omega), hc.lam e he]
  · intro e he p hp; rw [old _ _ (by omega), hc.h e he p hp]
  · intro e he k hk; rw [old _ _ (by omega), hc.gap e he k hk]
  · intro e he k hk; rw [old _ _ (by omega), hc.ny e he k hk]
  · intro e he k hk
    unfold put
    dsimp only
    rw [if_neg (by omega), if_pos (by omega)]
    congr 1
    omega
  · intro e he k hk
    unfold put
    dsimp only
    rw [if_pos (by omega)]
    congr 1
    omega

theorem surface_rows (hY : System.Valid D.Y) (x : ℕ → ℝ) {c : Mat} (hc : SurfaceFixed D c)
    (hh : ∀ p ∈ D.Y.facets 0, 0 < D.size p.1) :
    RowsFor D false (surfaceConsts D) (surfaceUpdate D x c) (surfacePoint D.Y D.P D.size) x := by
  intro e he cell f hp q hq
  obtain ⟨F, hu, hg⟩ := surfaceUpdate_ok hY x hc
  obtain ⟨-, -, v3⟩ := packVal_owned hY x
  obtain ⟨-, -, g3⟩ := packGrad_owned hY x
  generalize surfaceUpdate D x c = M at F hu hg ⊢
  have hdim := hY.dim
  have hcols := F.cols
  have hqa : ∀ a < D.Y.gdim, q * D.Y.gdim + a < D.Y.nq * D.Y.gdim := by intro a ha; nlinarith
  have hqab : ∀ a < D.Y.gdim, ∀ b < D.Y.gdim, (q * D.Y.gdim + a) * D.Y.gdim + b < D.Y.nq * D.Y.gdim * D.Y.gdim := by
    intro a ha b hb
    have := hqa a ha
    nlinarith
  have rn : ∀ a < D.Y.gdim, dataRow (flat M) M.cols e
      (3 + D.Y.nq * D.Y.gdim + D.Y.nq * D.Y.gdim + D.Y.nq * D.Y.gdim * D.Y.gdim + q * D.Y.gdim + a)
        = (D.Y.ny () 0).v e (q * D.Y.gdim + a) := by
    intro a ha
    have := hqa a ha
    rw [dataRow_flat _ _ (by omega), ← F.ny e he _ this]
    congr 1
    omega
  refine ⟨rfl, hh _ (List.mem_of_getElem? hp), ⟨rfl, ?_, ?_, ?_, ?_, ?_, ?_, ?_⟩⟩
  · rw [dataRow_flat _ _ (by omega), F.mu e he, mu_eq]; rfl
  · rw [dataRow_flat _ _ (by omega), F.lam e he, lmbda_eq]; rfl
  · rw [dataRow_flat _ _ (by omega), F.h e he _ hp]; rfl
  · intro a ha
    exact congrArg Neg.neg (rn a ha)
  · show ∑ a ∈ range D.Y.gdim, dataRow (flat M) M.cols e (3 + q * D.Y.gdim + a) * -dataRow (flat M) M.cols e
        (3 + D.Y.nq * D.Y.gdim + D.Y.nq * D.Y.gdim + D.Y.nq * D.Y.gdim * D.Y.gdim + q * D.Y.gdim + a)
      = ∑ a ∈ range D.Y.gdim, (D.Y.gap () 0).v e (q * D.Y.gdim + a) * -(D.Y.ny () 0).v e (q * D.Y.gdim + a)
    refine sum_congr rfl (fun a ha => ?_)
    have ha' := mem_range.mp ha
    have := hqa a ha'
    rw [rn a ha', dataRow_flat _ _ (by omega), Nat.add_assoc 3, F.gap e he _ this]
  · intro a ha
    have ha' : a < D.Y.gdim := ha
    have := hqa a ha'
    show dataRow _ _ _ (3 + D.Y.nq * D.Y.gdim + q * D.Y.gdim + a) = _
    rw [dataRow_flat _ _ (by omega), Nat.add_assoc (3 + D.Y.nq * D.Y.gdim), hu e he _ this, v3 e he cell f hp q hq a ha']
  · intro a ha b hb
    have ha' : a < D.Y.gdim := ha
    have hb' : b < D.Y.gdim := hb
    have := hqab a ha' b hb'
    show dataRow _ _ _ (3 + D.Y.nq * D.Y.gdim + D.Y.nq * D.Y.gdim + (q * D.Y.gdim + a) * D.Y.gdim + b) = _
    rw [dataRow_flat _ _ (by omega), Nat.add_assoc (3 + D.Y.nq * D.Y.gdim + D.Y.nq * D.Y.gdim), hg e he _ this,
      g3 e he cell f hp q hq a ha' b hb']

end

end

end Verif.OneSidedDriver
