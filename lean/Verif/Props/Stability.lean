import Verif.Lemmas.Energy
import Verif.Props.RigidKernels
import Verif.Props.MeshTieKernels

/-!
Properties C99 and C100: the choice of theta.  With theta = 1 the element matrices are symmetric, with
theta = -1 they are positive semidefinite for every positive gamma.
-/

namespace Verif.Kernels

open Verif.Scalars Verif.Spec Finset

noncomputable section

/-! ### C99 -/

/-- C99: with theta = 1 the frictionless matrices of a facet form a symmetric matrix. -/
theorem C99_frictionless (D : KD) (links : ℕ) (qs : List ℕ) (w c : ℕ → ℝ) (hw : w 1 = 1) :
    BlockSymmetric (D.nd * D.bs) links (unbiasedJac D c w links qs 0) :=
  blockSymmetric_of (unbiasedJac_blocks D c w links qs)
    (fun q B i b B' j l => by simp only [unbJ, hw]; ring)

/-- C99: the same for Tresca friction, for unit contact normals. -/
theorem C99_tresca (D : KD) (links : ℕ) (qs : List ℕ) (w c : ℕ → ℝ) (hbs : D.bs = D.gdim)
    (h23 : D.gdim = 2 ∨ D.gdim = 3) (hu : ∀ q ∈ qs, D.dims.UnitNormal c q) (hw : w 1 = 1) :
    BlockSymmetric (D.nd * D.bs) links (trescaJac D c w links qs 0) := by
  refine blockSymmetric_of (trescaJac_blocks D c w links qs hbs (by omega) hu) ?_
  intro q B i b B' j l
  have e : ∀ B i b B' j l, ∑ m ∈ range D.bs, yT D c w q B' j l m * (TF D c q B i b m - 1 * gam c w * ST D c q B i b m) =
      ∑ m ∈ range D.bs, ∑ n ∈ range D.bs,
        dBallProjection (vec3 D.bs (ptU D c w q)) (gam c w * c 2) D.bs (n * D.bs + m)
          * (xT D c w q B' j l n * xT D c w q B i b m) := by
    intro B i b B' j l
    refine sum_congr rfl (fun m _ => ?_)
    rw [yT, sum_mul]
    exact sum_congr rfl (fun n _ => by simp only [xT]; ring)
  have hs : ∑ m ∈ range D.bs, ∑ n ∈ range D.bs,
        dBallProjection (vec3 D.bs (ptU D c w q)) (gam c w * c 2) D.bs (n * D.bs + m)
          * (xT D c w q B' j l n * xT D c w q B i b m) = ∑ m ∈ range D.bs, ∑ n ∈ range D.bs,
        dBallProjection (vec3 D.bs (ptU D c w q)) (gam c w * c 2) D.bs (n * D.bs + m)
          * (xT D c w q B i b n * xT D c w q B' j l m) := by
    rw [sum_comm]
    refine sum_congr rfl (fun m hm => sum_congr rfl (fun n hn => ?_))
    rw [dBall_symm _ _ (mem_range.mp hm) (mem_range.mp hn)]; ring
  have h2 : ∑ m ∈ range D.bs, ST D c q B' j l m * ST D c q B i b m =
      ∑ m ∈ range D.bs, ST D c q B i b m * ST D c q B' j l m := sum_congr rfl (fun _ _ => mul_comm _ _)
  simp only [friJ, hw, e]
  rw [hs, h2]

/-- C99: the same for a rigid surface. -/
theorem C99_rigid (D : KD) (const : Bool) (junk c w : ℕ → ℝ) (hγ : w 0 ≠ 0) (hh : c 2 ≠ 0) (hw : w 1 = 1) :
    BlockSymmetric (D.nd * D.bs) 0 (rigidJac D const junk c w 0) :=
  blockSymmetric_of (rigidJac_blocks D const junk c w)
    (fun q B i b B' j l => by
      simp only [rigJ, hw, rGam, rGamInv]
      field_simp)

/-- The hypotheses hold for the example facet in sliding contact. -/
example : exw 1 = 1 ∧ exw 0 ≠ 0 ∧ exRig 0 2 ≠ 0 ∧ exD.bs = exD.gdim ∧ (exD.gdim = 2 ∨ exD.gdim = 3)
    ∧ exD.dims.UnitNormal (exRow 0) 0 := by
  have hg : exD.dims.g = 2 := rfl
  refine ⟨by simp [exw], by simp [exw], by simp [exRig], rfl, Or.inl rfl, ?_⟩
  simp only [Dims.UnitNormal, hg, sum_range_succ, sum_range_zero, ex_normal 0 (by omega),
    ex_normal 1 (by omega)]
  norm_num

/-! ### C100 -/

theorem list_sum_nonneg {α : Type} (l : List α) (f : α → ℝ) (h : ∀ x ∈ l, 0 ≤ f x) : 0 ≤ (l.map f).sum :=
  List.sum_nonneg (by
    intro y hy
    obtain ⟨x, hx, rfl⟩ := List.mem_map.mp hy
    exact h x hx)

theorem dRPlus_cases (x : ℝ) : dRPlus x = 0 ∨ dRPlus x = 1 := by
  unfold dRPlus; split <;> simp

theorem dRMinus_cases (x : ℝ) : dRMinus x = 0 ∨ dRMinus x = 1 := by
  unfold dRMinus; split <;> simp

/-- C100: with theta = -1 the frictionless matrices are positive semidefinite, for every positive gamma and
h, whatever the contact status, when the quadrature weights are not negative and every point has one linked
cell. -/
theorem C100_frictionless (D : KD) (haff : AffineConst D) (links : ℕ) (qs : List ℕ) (w c : ℕ → ℝ)
    (hbs : D.bs = D.gdim) (hγ : 0 < w 0) (hh : 0 < c 3) (hθ : w 1 = -1)
    (hone : ∀ q ∈ qs, OneLink D.dims links c q) (hwt : ∀ q ∈ qs, 0 ≤ facetWeight D q) (v : ℕ → ℕ → ℝ) :
    0 ≤ energy (D.nd * D.bs) links (unbiasedJac D c w links qs 0) v := by
  rw [facetWeight_eq haff] at hwt
  rw [energy_eq D links qs _ _ (unbiasedJac_blocks D c w links qs) v
    (fun q hq k k' i b j l hk hk' hne hi hb hj hl => unbJ_cross hbs (hone q hq) hk hk' hne hi hb hj hl)]
  refine list_sum_nonneg _ _ (fun q hq => ?_)
  rw [unbJ_energy, hθ]
  refine mul_nonneg (hwt q hq) ?_
  have hg : 0 < gam c w := div_pos hh hγ
  have hgi : 0 < gamInv c w := div_pos hγ hh
  have h1 : gamInv c w * gam c w = 1 := by
    have := hγ.ne'; have := hh.ne'; simp only [gam, gamInv]; field_simp
  set N := comb D links (NF D c q) v
  set S := comb D links (SF D c q) v
  rcases dRPlus_cases ((jumpN D c q - gap D c q) - gam c w * signU D c q) with h | h <;> rw [h]
  · have := mul_nonneg hg.le (mul_self_nonneg S)
    nlinarith
  · have e : 0.5 * gamInv c w * 1 * (N - gam c w * S) * (N - gam c w * -1 * S) - 0.5 * -1 * gam c w * S * S =
        0.5 * (gamInv c w * (N * N)) + 0.5 * gam c w * (S * S) * (1 - gamInv c w * gam c w) := by ring
    rw [e, h1]
    have := mul_nonneg hgi.le (mul_self_nonneg N)
    nlinarith

/-- C100 for Tresca friction: for unit contact normals. -/
theorem C100_tresca (D : KD) (haff : AffineConst D) (links : ℕ) (qs : List ℕ) (w c : ℕ → ℝ)
    (hbs : D.bs = D.gdim) (h23 : D.gdim = 2 ∨ D.gdim = 3) (hγ : 0 < w 0) (hh : 0 < c 3) (hθ : w 1 = -1)
    (hone : ∀ q ∈ qs, OneLink D.dims links c q) (hu : ∀ q ∈ qs, D.dims.UnitNormal c q)
    (hwt : ∀ q ∈ qs, 0 ≤ facetWeight D q) (v : ℕ → ℕ → ℝ) :
    0 ≤ energy (D.nd * D.bs) links (trescaJac D c w links qs 0) v := by
  rw [facetWeight_eq haff] at hwt
  have h23' : D.bs = 2 ∨ D.bs = 3 := by rw [hbs]; exact h23
  rw [energy_eq D links qs _ _ (trescaJac_blocks D c w links qs hbs (by omega) hu) v
    (fun q hq k k' i b j l hk hk' hne hi hb hj hl => friJ_cross hbs (hone q hq) _ hk hk' hne hi hb hj hl
      (fun h m => by simp [yT, xT, TF_zero h, ST]))]
  refine list_sum_nonneg _ _ (fun q hq => ?_)
  rw [friJ_energy, hθ]
  refine mul_nonneg (hwt q hq) ?_
  have hg : 0 < gam c w := div_pos hh hγ
  have hgi : 0 < gamInv c w := div_pos hγ hh
  have h1 : gamInv c w * (gam c w * gam c w) = gam c w := by
    have := hγ.ne'; have := hh.ne'; simp only [gam, gamInv]; field_simp
  obtain ⟨T, hT⟩ : ∃ T : ℕ → ℝ, ∀ n, comb D links (fun B i b => TF D c q B i b n) v = T n := ⟨_, fun _ => rfl⟩
  obtain ⟨S, hS⟩ : ∃ S : ℕ → ℝ, ∀ n, comb D links (fun B i b => ST D c q B i b n) v = S n := ⟨_, fun _ => rfl⟩
  have key := skew_form h23' (ptU D c w q) (gam c w * c 2) T (fun n => gam c w * S n)
  have e1 : ∑ m ∈ range D.bs, (gam c w * S m) ^ 2 = gam c w * gam c w * ∑ m ∈ range D.bs, S m ^ 2 := by
    rw [mul_sum]; exact sum_congr rfl (fun _ _ => by ring)
  rw [e1] at key
  have e2 : ∀ m n, (T n - gam c w * S n) * (T m - -1 * gam c w * S m) =
      (T n - gam c w * S n) * (T m + gam c w * S m) := fun m n => by ring
  simp only [hT, hS, e2]
  have := mul_nonneg hgi.le key
  rw [mul_add, ← mul_assoc, h1] at this
  set Q := ∑ m ∈ range D.bs, ∑ n ∈ range D.bs,
    dBallProjection (vec3 D.bs (ptU D c w q)) (gam c w * c 2) D.bs (n * D.bs + m)
      * ((T n - gam c w * S n) * (T m + gam c w * S m))
  set Z := ∑ m ∈ range D.bs, S m ^ 2
  nlinarith

/-- C100 for a rigid surface. -/
theorem C100_rigid (D : KD) (const : Bool) (junk c w : ℕ → ℝ)
    (hγ : 0 < w 0) (hh : 0 < c 2) (hθ : w 1 = -1) (hwt : ∀ q < D.nq, 0 ≤ D.weights q) (v : ℕ → ℕ → ℝ) :
    0 ≤ energy (D.nd * D.bs) 0 (rigidJac D const junk c w 0) v := by
  rw [energy_eq D 0 _ _ _ (rigidJac_blocks D const junk c w) v
    (fun q hq k k' i b j l hk => absurd hk (by omega))]
  refine list_sum_nonneg _ _ (fun q hq => ?_)
  have hw0 : 0 ≤ rW0 D q := mul_nonneg (abs_nonneg _) (hwt q (List.mem_range.mp hq))
  have hg : 0 < rGam c w := div_pos hγ hh
  have hgi : 0 < rGamInv c w := div_pos hh hγ
  have h1 : rGam c w * rGamInv c w = 1 := by
    have := hγ.ne'; have := hh.ne'; simp only [rGam, rGamInv]; field_simp
  set d := dRMinus (rSignU D const c w q + rGam c w * (rGap D const c w q - rUn D const c w q)) with hd
  rw [rank_two_energy D 0 (fun _ i n => rN D const c w q n * D.ph q i)
    (fun _ i n => rSignV D const junk c w q i n) (rW0 D q * d * rGam c w)
    (rW0 D q * d) (-(rW0 D q * d)) (rW0 D q * rGamInv c w * (1 - d)) v
    (J := fun B i b B' j l => rigJ D const junk c w q B i b B' j l)
    (fun B i n B' j l => by
      simp only [rigJ, hθ, ← hd]
      linear_combination (rW0 D q * d * rSignV D const junk c w q j l * (rN D const c w q n * D.ph q i)) * -h1)]
  set X := comb D 0 (fun _ i n => rN D const c w q n * D.ph q i) v
  set Y := comb D 0 (fun _ i n => rSignV D const junk c w q i n) v
  have hd01 : 0 ≤ d ∧ d ≤ 1 := by
    rcases dRMinus_cases (rSignU D const c w q + rGam c w * (rGap D const c w q - rUn D const c w q)) with h | h <;>
      rw [hd, h] <;> norm_num
  have a1 : 0 ≤ rW0 D q * d * rGam c w * X ^ 2 :=
    mul_nonneg (mul_nonneg (mul_nonneg hw0 hd01.1) hg.le) (sq_nonneg _)
  have a2 : 0 ≤ rW0 D q * rGamInv c w * (1 - d) * Y ^ 2 :=
    mul_nonneg (mul_nonneg (mul_nonneg hw0 hgi.le) (by linarith [hd01.2])) (sq_nonneg _)
  linarith

theorem absM_energy (D : KD) (links : ℕ) (w0 gam : ℝ) (J : ℕ → ℕ → ℕ → ℝ) (S : ℕ → ℕ → ℕ → ℕ → ℝ)
    (v : ℕ → ℕ → ℝ) :
    comb D links (fun B i b => comb D links (fun B' j l => absM w0 gam (-1) J S B i b B' j l) v) v =
      w0 * gam * ∑ a ∈ range D.bs, comb D links (fun B i n => if a = n then J B i n else 0) v ^ 2 := by
  have e : comb D links (fun B i b => comb D links (fun B' j l => absM w0 gam (-1) J S B i b B' j l) v) v =
      comb D links (fun B i b => comb D links (fun B' j l =>
        (w0 * gam) * ∑ a ∈ range D.bs, (if a = l then J B' j l else 0) * (if a = b then J B i b else 0)
        + ((-(0.5 * w0)) * ∑ a ∈ range D.bs, S B' j l a * (if a = b then J B i b else 0)
          + 0.5 * w0 * ∑ a ∈ range D.bs, (if a = l then J B' j l else 0) * S B i b a)) v) v := by
    refine comb_congr D links v (fun B i b _ _ hb => comb_congr D links v (fun B' j l _ _ hl => ?_))
    simp only [mul_ite, ite_mul, mul_zero, zero_mul, sum_ite_eq', mem_range.mpr hb, mem_range.mpr hl, if_true]
    rw [absM]
    by_cases h : b = l
    · subst h; simp only [if_true]; ring
    · simp only [if_neg h]; ring
  rw [e]
  simp only [comb_add, comb_smul, comb_sum]
  have h1 : ∀ a, comb D links (fun B i b => comb D links (fun B' j l =>
      (if a = l then J B' j l else 0) * (if a = b then J B i b else 0)) v) v =
      comb D links (fun B i n => if a = n then J B i n else 0) v ^ 2 := fun a => by
    rw [comb_mul D links (fun B i n => if a = n then J B i n else 0) (fun B i n => if a = n then J B i n else 0)]
    ring
  have h2 : ∀ a, comb D links (fun B i b => comb D links (fun B' j l =>
      S B' j l a * (if a = b then J B i b else 0)) v) v = comb D links (fun B i b => comb D links (fun B' j l =>
      (if a = l then J B' j l else 0) * S B i b a) v) v := fun a => by
    rw [comb_mul D links (fun B j l => S B j l a) (fun B i n => if a = n then J B i n else 0),
      comb_mul D links (fun B i n => if a = n then J B i n else 0) (fun B j l => S B j l a), mul_comm]
  simp only [h1, h2]
  ring

/-- C100 for tied elasticity. -/
theorem C100_tie (D : KD) (haff : AffineConst D) (links : ℕ) (qs : List ℕ) (w c : ℕ → ℝ) (th : Bool)
    (hbs : D.bs = D.gdim) (hγ : 0 < w 0) (hh : 0 < c 2) (hθ : w 1 = -1)
    (hone : ∀ q ∈ qs, TieOneLink (D.tdims th) links c q) (hwt : ∀ q ∈ qs, 0 ≤ facetWeight D q)
    (v : ℕ → ℕ → ℝ) :
    0 ≤ energy (D.nd * D.bs) links (tieJac D (offsets (tieStrides D th)) c w links qs 0) v := by
  rw [facetWeight_eq haff] at hwt
  rw [energy_eq D links qs _ _ (tieJac_blocks D (tOff D th) c w links qs) v
    (fun q hq k k' i b j l hk hk' hne hi hb hj hl => tieM_cross hbs (hone q hq) w hk hk' hne hi hb hj hl)]
  refine list_sum_nonneg _ _ (fun q hq => ?_)
  simp only [tieM, hθ]
  rw [absM_energy]
  have h0 : 0 ≤ tieW0 D q := by
    have := hwt q hq
    rw [KD.w0] at this
    rw [tieW0, mul_assoc]; linarith
  exact mul_nonneg (mul_nonneg h0 (div_pos hγ hh).le) (sum_nonneg (fun _ _ => sq_nonneg _))

/-- C100 for tied heat conduction: with a conductivity that is not negative. -/
theorem C100_heat (D : KD) (haff : AffineConst D) (links : ℕ) (qs : List ℕ) (w c : ℕ → ℝ)
    (h1 : D.bs = 1) (hγ : 0 < w 0) (hh : 0 < c 0) (hk : 0 ≤ c 1) (hθ : w 1 = -1)
    (hone : ∀ q ∈ qs, TieOneLink D.pdims links c q) (hwt : ∀ q ∈ qs, 0 ≤ facetWeight D q)
    (v : ℕ → ℕ → ℝ) :
    0 ≤ energy D.nd links (poisJac D (offsets (poissonStrides D)) c w links qs 0) v := by
  rw [facetWeight_eq haff] at hwt
  have hN : D.nd = D.nd * D.bs := by rw [h1, mul_one]
  rw [hN, energy_eq D links qs _ _ (poisJac_blocks D h1 (pOff D) c w links qs) v
    (fun q hq k k' i b j l hk hk' hne hi hb hj hl => poisM_cross (hone q hq) w hk hk' hne hi hj)]
  refine list_sum_nonneg _ _ (fun q hq => ?_)
  simp only [poisM, hθ]
  rw [absM_energy]
  have h0 : 0 ≤ poisW0 D c q := by
    have := hwt q hq
    rw [KD.w0] at this
    rw [poisW0]
    exact mul_nonneg (by rw [mul_assoc]; linarith) hk
  exact mul_nonneg (mul_nonneg h0 (div_pos hγ hh).le) (sum_nonneg (fun _ _ => sq_nonneg _))

/-- gamma 10, theta -1. -/
def exwSkew (m : ℕ) : ℝ := if m = 0 then 10 else -1

/-- The hypotheses of C100 hold for the example facets. -/
example : exwSkew 1 = -1 ∧ 0 < exwSkew 0 ∧ 0 < exRow 0 3 ∧ 0 < exRig 0 2 ∧ 0 ≤ facetWeight exD 0
    ∧ OneLink exD.dims 1 (exRow 0) 0 ∧ TieOneLink (exD.tdims false) 1 (exTie 0) 0 ∧ 0 < exTie 0 2
    ∧ TieOneLink exP.pdims 1 (exPois 0) 0 ∧ 0 < exPois 0 0 ∧ 0 ≤ exPois 0 1 := by
  refine ⟨by simp [exwSkew], by simp [exwSkew], by simp [exRow], by simp [exRig],
    by simp [facetWeight, exD], ex_one _ _, ⟨0, fun k i hk hne => absurd (by omega : k = 0) hne⟩,
    by simp [exTie], ⟨0, fun k i hk hne => absurd (by omega : k = 0) hne⟩, by simp [exPois],
    by simp [exPois]⟩

end

end Verif.Kernels
