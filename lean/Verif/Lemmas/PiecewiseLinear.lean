import Verif.Lemmas.Zarantonello

/-!
Systems of piecewise linear equations `K u - l + ∑_k a_k min(0, q_k(u)) w_k = 0` with affine functions `q_k`, and
Newton's method for them.
-/

namespace Verif.Lemmas

open Finset

noncomputable section

/-- A system of piecewise linear equations for `N` unknowns. -/
structure PL (ι : Type) where
  N : ℕ
  K : ℕ → ℕ → ℝ
  l : ℕ → ℝ
  a : ι → ℝ
  q0 : ι → ℝ
  r : ι → ℕ → ℝ
  w : ι → ℕ → ℝ

namespace PL

variable {ι : Type} [Fintype ι] (S : PL ι)

def q (u : ℕ → ℝ) (k : ι) : ℝ := S.q0 k + ∑ c ∈ range S.N, S.r k c * u c

def res (u : ℕ → ℝ) (d : ℕ) : ℝ :=
  ∑ c ∈ range S.N, S.K d c * u c - S.l d + ∑ k, S.a k * min 0 (S.q u k) * S.w k d

/-- Matrix for the slopes `m` of the switches. -/
def matOf (m : ι → ℝ) (d c : ℕ) : ℝ := S.K d c + ∑ k, S.a k * m k * S.r k c * S.w k d

/-- Slope of `min 0`: one half at zero. -/
def slope (q : ℝ) : ℝ := if q < 0 then 1 else if 0 < q then 0 else 1 / 2

def mat (u : ℕ → ℝ) : ℕ → ℕ → ℝ := S.matOf (fun k => slope (S.q u k))

theorem slope_range (q : ℝ) : 0 ≤ slope q ∧ slope q ≤ 1 := by
  unfold slope
  split_ifs <;> norm_num

theorem min_slope (x y : ℝ) : ∃ m, 0 ≤ m ∧ m ≤ 1 ∧ min 0 x - min 0 y = m * (x - y) := by
  rcases le_total x 0 with hx | hx <;> rcases le_total y 0 with hy | hy
  · exact ⟨1, by norm_num, le_refl _, by rw [min_eq_right hx, min_eq_right hy]; ring⟩
  · rcases eq_or_ne x y with h | h
    · exact ⟨1, by norm_num, le_refl _, by rw [h]; ring⟩
    · have hxy : 0 < y - x := lt_of_le_of_ne (by linarith) (by intro h'; apply h; linarith)
      refine ⟨-x / (y - x), by apply div_nonneg <;> linarith, by rw [div_le_one hxy]; linarith, ?_⟩
      rw [min_eq_right hx, min_eq_left hy]
      field_simp
      ring
  · rcases eq_or_ne x y with h | h
    · exact ⟨1, by norm_num, le_refl _, by rw [h]; ring⟩
    · have hxy : 0 < x - y := lt_of_le_of_ne (by linarith) (by intro h'; apply h; linarith)
      refine ⟨-y / (x - y), by apply div_nonneg <;> linarith, by rw [div_le_one hxy]; linarith, ?_⟩
      rw [min_eq_left hx, min_eq_right hy]
      field_simp
      ring
  · exact ⟨0, le_refl _, by norm_num, by rw [min_eq_left hx, min_eq_left hy]; ring⟩

theorem q_sub (u v : ℕ → ℝ) (k : ι) : S.q u k - S.q v k = ∑ c ∈ range S.N, S.r k c * (u c - v c) := by
  unfold q
  rw [add_sub_add_left_eq_sub, ← sum_sub_distrib]
  exact sum_congr rfl (fun c _ => by ring)

/-- Difference of residuals, for slopes `m` of the switches between `u` and `v`. -/
theorem res_sub (u v : ℕ → ℝ) (m : ι → ℝ) (hm : ∀ k, min 0 (S.q u k) - min 0 (S.q v k) = m k * (S.q u k - S.q v k)) (d : ℕ) :
    S.res u d - S.res v d = ∑ c ∈ range S.N, S.matOf m d c * (u c - v c) := by
  unfold res matOf
  have e : ∑ k, S.a k * min 0 (S.q u k) * S.w k d - ∑ k, S.a k * min 0 (S.q v k) * S.w k d
      = ∑ c ∈ range S.N, (∑ k, S.a k * m k * S.r k c * S.w k d) * (u c - v c) := by
    rw [← sum_sub_distrib]
    simp only [sum_mul]
    rw [sum_comm]
    refine sum_congr rfl (fun k _ => ?_)
    have : S.a k * min 0 (S.q u k) * S.w k d - S.a k * min 0 (S.q v k) * S.w k d
        = S.a k * S.w k d * (min 0 (S.q u k) - min 0 (S.q v k)) := by ring
    rw [this, hm, S.q_sub, mul_sum, mul_sum]
    exact sum_congr rfl (fun c _ => by ring)
  simp only [add_mul, sum_add_distrib]
  rw [← e]
  have e2 : ∑ c ∈ range S.N, S.K d c * (u c - v c) = ∑ c ∈ range S.N, S.K d c * u c - ∑ c ∈ range S.N, S.K d c * v c := by
    rw [← sum_sub_distrib]
    exact sum_congr rfl (fun c _ => by ring)
  rw [e2]; ring

/-- Where no switch leaves its side, the residual is the Jacobian at `u` applied to the difference. -/
theorem res_near (u v : ℕ → ℝ) (h1 : ∀ k, S.q v k < 0 → S.q u k < 0) (h2 : ∀ k, 0 < S.q v k → 0 < S.q u k) (d : ℕ) :
    S.res u d - S.res v d = ∑ c ∈ range S.N, S.mat u d c * (u c - v c) := by
  refine S.res_sub u v _ (fun k => ?_) d
  unfold slope
  rcases lt_trichotomy (S.q v k) 0 with hv | hv | hv
  · have hu := h1 k hv
    rw [if_pos hu, min_eq_right hu.le, min_eq_right hv.le]; ring
  · rw [hv, min_self]
    split_ifs with h3 h4
    · rw [min_eq_right h3.le]; ring
    · rw [min_eq_left h4.le]; ring
    · rw [show S.q u k = 0 by linarith [not_lt.mp h3, not_lt.mp h4]]; simp
  · have hu := h2 k hv
    rw [if_neg (not_lt.mpr hu.le), if_pos hu, min_eq_left hu.le, min_eq_left hv.le]; ring

/-- Bound of the matrices. -/
theorem mat_bound : ∃ C, 0 ≤ C ∧ ∀ m : ι → ℝ, (∀ k, 0 ≤ m k ∧ m k ≤ 1) → ∀ d < S.N, ∀ c < S.N, |S.matOf m d c| ≤ C := by
  refine ⟨∑ d ∈ range S.N, ∑ c ∈ range S.N, (|S.K d c| + ∑ k, |S.a k * S.r k c * S.w k d|), ?_, ?_⟩
  · exact sum_nonneg (fun d _ => sum_nonneg (fun c _ => add_nonneg (abs_nonneg _) (sum_nonneg (fun k _ => abs_nonneg _))))
  · intro m hm d hd c hc
    have h1 : |S.matOf m d c| ≤ |S.K d c| + ∑ k, |S.a k * S.r k c * S.w k d| := by
      unfold matOf
      refine (abs_add_le _ _).trans (add_le_add_right ((abs_sum_le_sum_abs _ _).trans (sum_le_sum (fun k _ => ?_))) _)
      have e : S.a k * m k * S.r k c * S.w k d = m k * (S.a k * S.r k c * S.w k d) := by ring
      rw [e, abs_mul, abs_of_nonneg (hm k).1]
      exact mul_le_of_le_one_left (abs_nonneg _) (hm k).2
    refine h1.trans ?_
    have hpos : ∀ d ∈ range S.N, 0 ≤ ∑ c ∈ range S.N, (|S.K d c| + ∑ k, |S.a k * S.r k c * S.w k d|) := fun d _ =>
      sum_nonneg (fun c _ => add_nonneg (abs_nonneg _) (sum_nonneg (fun k _ => abs_nonneg _)))
    refine le_trans ?_ (single_le_sum hpos (mem_range.mpr hd))
    exact single_le_sum (f := fun c => |S.K d c| + ∑ k, |S.a k * S.r k c * S.w k d|)
      (fun c _ => add_nonneg (abs_nonneg _) (sum_nonneg (fun k _ => abs_nonneg _))) (mem_range.mpr hc)

/-- Residual after a relaxed Newton step, in terms of the step. -/
theorem step_bound : ∃ C, 0 ≤ C ∧ ∀ (u dx : ℕ → ℝ) (om δ : ℝ), (∀ c < S.N, |dx c| ≤ δ) → ∀ d < S.N,
    S.res u d = ∑ c ∈ range S.N, S.mat u d c * dx c → |S.res (fun c => u c - om * dx c) d| ≤ C * (1 + |om|) * δ := by
  obtain ⟨C, hC0, hC⟩ := S.mat_bound
  refine ⟨S.N * C, by positivity, fun u dx om δ hδ d hd h => ?_⟩
  have hb : ∀ m : ι → ℝ, (∀ k, 0 ≤ m k ∧ m k ≤ 1) → |∑ c ∈ range S.N, S.matOf m d c * dx c| ≤ S.N * C * δ := by
    intro m hm
    refine (abs_sum_le_sum_abs _ _).trans ?_
    have : ∀ c ∈ range S.N, |S.matOf m d c * dx c| ≤ C * δ := by
      intro c hc
      rw [abs_mul]
      exact mul_le_mul (hC m hm d hd c (mem_range.mp hc)) (hδ c (mem_range.mp hc)) (abs_nonneg _) hC0
    refine (sum_le_sum this).trans_eq ?_
    rw [sum_const, card_range, nsmul_eq_mul]; ring
  choose m hm0 hm1 hm using fun k => min_slope (S.q u k) (S.q (fun c => u c - om * dx c) k)
  have e := S.res_sub u (fun c => u c - om * dx c) m hm d
  have e2 : ∑ c ∈ range S.N, S.matOf m d c * (u c - (u c - om * dx c)) = om * ∑ c ∈ range S.N, S.matOf m d c * dx c := by
    rw [mul_sum]; exact sum_congr rfl (fun c _ => by ring)
  rw [e2] at e
  have e3 : S.res (fun c => u c - om * dx c) d
      = ∑ c ∈ range S.N, S.mat u d c * dx c - om * ∑ c ∈ range S.N, S.matOf m d c * dx c := by linarith
  rw [e3]
  refine (abs_sub _ _).trans ?_
  rw [abs_mul]
  have b1 := hb (fun k => slope (S.q u k)) (fun k => slope_range _)
  have b2 := mul_le_mul_of_nonneg_left (hb m (fun k => ⟨hm0 k, hm1 k⟩)) (abs_nonneg om)
  change |∑ c ∈ range S.N, S.mat u d c * dx c| ≤ _ at b1
  linarith

/-- The residual is Lipschitz continuous. -/
theorem res_lip : ∃ C, 0 ≤ C ∧ ∀ (u v : ℕ → ℝ) (δ : ℝ), (∀ c < S.N, |u c - v c| ≤ δ) → ∀ d < S.N,
    |S.res u d - S.res v d| ≤ C * δ := by
  obtain ⟨C, hC0, hC⟩ := S.mat_bound
  refine ⟨S.N * C, by positivity, fun u v δ hδ d hd => ?_⟩
  choose m hm0 hm1 hm using fun k => min_slope (S.q u k) (S.q v k)
  rw [S.res_sub u v m hm d]
  refine (abs_sum_le_sum_abs _ _).trans ?_
  have : ∀ c ∈ range S.N, |S.matOf m d c * (u c - v c)| ≤ C * δ := by
    intro c hc
    rw [abs_mul]
    exact mul_le_mul (hC m (fun k => ⟨hm0 k, hm1 k⟩) d hd c (mem_range.mp hc)) (hδ c (mem_range.mp hc)) (abs_nonneg _) hC0
  refine (sum_le_sum this).trans_eq ?_
  rw [sum_const, card_range, nsmul_eq_mul]; ring

/-- Exactly one solution with given values of the dofs not in `F`, if the matrices are positive definite, uniformly in
the slopes. -/
theorem exists_unique {F : Finset ℕ} (hF : ∀ d ∈ F, d < S.N) (B : ℕ → ℕ → ℝ)
    (hB : ∀ v : ℕ → ℝ, (∀ d, d ∉ F → v d = 0) → (∃ d, v d ≠ 0) → 0 < ∑ d ∈ range S.N, ∑ c ∈ range S.N, v d * B d c * v c)
    (hlow : ∀ m : ι → ℝ, (∀ k, 0 ≤ m k ∧ m k ≤ 1) → ∀ v : ℕ → ℝ, (∀ d, d ∉ F → v d = 0) →
      ∑ d ∈ range S.N, ∑ c ∈ range S.N, v d * B d c * v c ≤ ∑ d ∈ range S.N, ∑ c ∈ range S.N, v d * S.matOf m d c * v c)
    (u0 : ℕ → ℝ) : ∃! u : ℕ → ℝ, (∀ d, d ∉ F → u d = u0 d) ∧ ∀ d ∈ F, S.res u d = 0 := by
  obtain ⟨μ, hμ, hmb⟩ : ∃ m, 0 < m ∧ ∀ x : EuclideanSpace ℝ F, m * ‖x‖ ^ 2
      ≤ ∑ d ∈ range S.N, ∑ c ∈ range S.N, extend 0 x d * B d c * extend 0 x c := by
    refine coercive_const _ ?_ ?_ ?_
    · have hc : ∀ d, Continuous (fun x : EuclideanSpace ℝ F => extend 0 x d) := fun d => (extend_lip 0 d).continuous
      exact continuous_finsetSum _ (fun d _ => continuous_finsetSum _ (fun c _ => ((hc d).mul_const _).mul (hc c)))
    · intro r x
      rw [extend_smul, mul_sum]
      refine sum_congr rfl (fun d _ => ?_)
      rw [mul_sum]
      exact sum_congr rfl (fun c _ => by ring)
    · intro x hx
      exact hB (extend 0 x) (fun d hd => extend_off _ _ hd) (extend_ne hx)
  let A : EuclideanSpace ℝ F → EuclideanSpace ℝ F := fun x => WithLp.toLp 2 (fun d : F => S.res (extend u0 x) d)
  have hmono : ∀ x y, μ * ‖x - y‖ ^ 2 ≤ inner ℝ (A x - A y) (x - y) := by
    intro x y
    choose m hm0 hm1 hm using fun k => min_slope (S.q (extend u0 x) k) (S.q (extend u0 y) k)
    have hsub : A x - A y = WithLp.toLp 2 (fun d : F => ∑ c ∈ range S.N, S.matOf m d c * extend 0 (x - y) c) := by
      ext d
      show S.res (extend u0 x) d - S.res (extend u0 y) d = _
      rw [S.res_sub _ _ m hm]
      refine sum_congr rfl (fun c _ => ?_)
      rw [← extend_sub u0 x y]
    refine (hmb (x - y)).trans ((hlow m (fun k => ⟨hm0 k, hm1 k⟩) _ (fun d hd => extend_off _ _ hd)).trans_eq ?_)
    rw [hsub, inner_extend hF (fun d => ∑ c ∈ range S.N, S.matOf m d c * extend 0 (x - y) c)]
    refine sum_congr rfl (fun d _ => ?_)
    rw [sum_mul]
    exact sum_congr rfl (fun c _ => by ring)
  have hmin : ∀ f : EuclideanSpace ℝ F → ℝ, Lip f → Lip (fun x => min 0 (f x)) := by
    intro f hf
    obtain ⟨C, hC⟩ := hf
    refine ⟨C, fun x y => ?_⟩
    obtain ⟨m, h0, h1, h⟩ := min_slope (f x) (f y)
    rw [h, abs_mul, abs_of_nonneg h0]
    exact (mul_le_of_le_one_left (abs_nonneg _) h1).trans (hC x y)
  have hcomp : ∀ d : F, Lip (fun x => A x d) := by
    intro d
    show Lip (fun x : EuclideanSpace ℝ F => S.res (extend u0 x) d)
    unfold res
    refine ((Lip.sum _ (fun c _ => (extend_lip u0 c).const_mul _)).sub (Lip.const _)).add (Lip.sum _ (fun k _ => ?_))
    refine Lip.mul_const (Lip.const_mul (hmin _ ?_) _) _
    exact (Lip.const _).add (Lip.sum _ (fun c _ => (extend_lip u0 c).const_mul _))
  obtain ⟨L, hL⟩ := Lip.vector hcomp
  obtain ⟨x, hx⟩ := zarantonello A hμ hmono (fun x y => by rw [← dist_eq_norm x y]; exact hL x y) 0
  have hsol : ∀ d : F, S.res (extend u0 x) d = 0 := fun d => congrFun (congrArg WithLp.ofLp hx) d
  refine ⟨extend u0 x, ⟨fun d hd => extend_off _ _ hd, fun d hd => hsol ⟨d, hd⟩⟩, ?_⟩
  rintro u ⟨h1, h2⟩
  obtain ⟨y, rfl⟩ := extend_of u0 u h1
  have hy : A y = 0 := by
    ext d
    exact h2 d d.2
  have := hmono y x
  rw [hy, hx, sub_self, inner_zero_left] at this
  have h0 : ‖y - x‖ ^ 2 ≤ 0 := by nlinarith
  have : y = x := by
    have := pow_eq_zero_iff (two_ne_zero) |>.mp (le_antisymm h0 (by positivity))
    exact sub_eq_zero.mp (norm_eq_zero.mp this)
  rw [this]

/-- The residual is strongly monotone in the dofs in `F`. -/
theorem strong {F : Finset ℕ} (hF : ∀ d ∈ F, d < S.N) (B : ℕ → ℕ → ℝ)
    (hB : ∀ v : ℕ → ℝ, (∀ d, d ∉ F → v d = 0) → (∃ d, v d ≠ 0) → 0 < ∑ d ∈ range S.N, ∑ c ∈ range S.N, v d * B d c * v c)
    (hlow : ∀ m : ι → ℝ, (∀ k, 0 ≤ m k ∧ m k ≤ 1) → ∀ v : ℕ → ℝ, (∀ d, d ∉ F → v d = 0) →
      ∑ d ∈ range S.N, ∑ c ∈ range S.N, v d * B d c * v c ≤ ∑ d ∈ range S.N, ∑ c ∈ range S.N, v d * S.matOf m d c * v c) :
    ∃ m, 0 < m ∧ ∀ u v : ℕ → ℝ, (∀ d, d ∉ F → u d = v d) →
      m * ∑ d ∈ range S.N, (u d - v d) ^ 2 ≤ ∑ d ∈ range S.N, (S.res u d - S.res v d) * (u d - v d) := by
  obtain ⟨μ, hμ, hmb⟩ : ∃ m, 0 < m ∧ ∀ x : EuclideanSpace ℝ F, m * ‖x‖ ^ 2
      ≤ ∑ d ∈ range S.N, ∑ c ∈ range S.N, extend 0 x d * B d c * extend 0 x c := by
    refine coercive_const _ ?_ ?_ ?_
    · have hc : ∀ d, Continuous (fun x : EuclideanSpace ℝ F => extend 0 x d) := fun d => (extend_lip 0 d).continuous
      exact continuous_finsetSum _ (fun d _ => continuous_finsetSum _ (fun c _ => ((hc d).mul_const _).mul (hc c)))
    · intro r x
      rw [extend_smul, mul_sum]
      refine sum_congr rfl (fun d _ => ?_)
      rw [mul_sum]
      exact sum_congr rfl (fun c _ => by ring)
    · intro x hx
      exact hB (extend 0 x) (fun d hd => extend_off _ _ hd) (extend_ne hx)
  refine ⟨μ, hμ, fun u v huv => ?_⟩
  obtain ⟨x, hx⟩ := extend_of (F := F) 0 (fun d => u d - v d) (fun d hd => by simp [huv d hd])
  have hn : ‖x‖ ^ 2 = ∑ d ∈ range S.N, (u d - v d) ^ 2 := by
    rw [← real_inner_self_eq_norm_sq]
    have e : x = WithLp.toLp 2 (fun d : F => extend 0 x d) := by
      ext d
      simp [extend]
    conv_lhs => rw [e]
    have := inner_extend hF (fun d => extend 0 x d) x
    rw [← e] at this ⊢
    rw [this, hx]
    exact sum_congr rfl (fun d _ => by ring)
  choose m hm0 hm1 hm using fun k => min_slope (S.q u k) (S.q v k)
  rw [← hn]
  refine (hmb x).trans ((hlow m (fun k => ⟨hm0 k, hm1 k⟩) _ (fun d hd => extend_off _ _ hd)).trans_eq ?_)
  rw [hx]
  refine sum_congr rfl (fun d _ => ?_)
  rw [S.res_sub u v m hm, sum_mul]
  exact sum_congr rfl (fun c _ => by ring)

end PL

end

end Verif.Lemmas
