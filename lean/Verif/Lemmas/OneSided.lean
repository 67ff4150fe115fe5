import Verif.Model.OneSided
import Verif.Spec.OneSided
import Verif.Lemmas.Scalars
import Verif.Lemmas.KernelDerivative
import Mathlib.Tactic.Ring
import Mathlib.Tactic.Linarith

/-! Facts about the one-sided forms. -/

namespace Verif.OneSided

open Finset Verif.Scalars

noncomputable section

/-- The field `u + t w`. -/
def line (u w : Field) (t : ℝ) : Field := fun k =>
  ⟨fun i => (u k).val i + t * (w k).val i, fun i j => (u k).grad i j + t * (w k).grad i j⟩

/-! ### the model's tensors are the textbook ones -/

theorem eps_strain : eps = Spec.strain := by
  funext G i j; simp only [eps, Spec.strain]; ring

theorem two_lit : (2.0 : ℝ) = 2 := by norm_num

theorem sigma_stress : sigma = Spec.stress := by
  funext d mu lam G i j
  simp only [sigma, Spec.stress, eps_strain, two_lit]
  split <;> ring

theorem sigN_traction : sigN = Spec.traction := by
  funext d mu lam G n i
  simp only [sigN, Spec.traction, sigma_stress]

theorem dotV_n2 {d : ℕ} (hd : 0 < d) (a : ℕ → ℝ) : dotV d a (n2 d) = Spec.approach d a := by
  simp only [dotV, n2, Spec.approach, mul_ite, mul_zero, mul_neg, mul_one]
  rw [sum_ite_eq', if_pos (mem_range.mpr (by omega))]

theorem elastic_work (P : Params) (u v : Val) :
    elastic P u v = Spec.stressWork P.dim P.mu P.lmbda u.grad v.grad := by
  simp only [elastic, innerM, Spec.stressWork, sigma_stress, eps_strain]

theorem sigmaN_eq {P : Params} (hd : 0 < P.dim) (n : ℕ → ℝ) (v : Val) :
    sigmaN P n v = Spec.approach P.dim (Spec.traction P.dim P.mu P.lmbda v.grad n) := by
  rw [sigmaN, dotV_n2 hd, sigN_traction]

theorem integral_quadSum (Q : Quad) (ks : List ℕ) (f : ℕ → ℝ) : integral Q ks f = Spec.quadSum ks Q.wt f := rfl

theorem integral_congr (Q : Quad) {ks : List ℕ} {f g : ℕ → ℝ} (h : ∀ k ∈ ks, f k = g k) :
    integral Q ks f = integral Q ks g :=
  Kernels.list_sum_congr ks _ _ (fun k hk => by rw [h k hk])

theorem integral_zero (Q : Quad) (ks : List ℕ) : integral Q ks (fun _ => 0) = 0 := by
  simp [integral]

theorem integral_neg (Q : Quad) (ks : List ℕ) (f : ℕ → ℝ) :
    integral Q ks (fun k => -f k) = -integral Q ks f := by
  induction ks with
  | nil => simp [integral]
  | cons a l ih =>
    simp only [integral, List.map_cons, List.sum_cons] at ih ⊢
    rw [ih]; ring

theorem integral_nonneg {Q : Quad} {ks : List ℕ} {f : ℕ → ℝ} (hw : ∀ k ∈ ks, 0 ≤ Q.wt k)
    (hf : ∀ k ∈ ks, 0 ≤ f k) : 0 ≤ integral Q ks f :=
  List.sum_nonneg (by
    intro y hy
    obtain ⟨x, hx, rfl⟩ := List.mem_map.mp hy
    exact mul_nonneg (hw x hx) (hf x hx))

/-! ### linearity -/

theorem eps_line (G H : ℕ → ℕ → ℝ) (t : ℝ) (i j : ℕ) :
    eps (fun i j => G i j + t * H i j) i j = eps G i j + t * eps H i j := by
  simp only [eps]; ring

theorem sigma_line (d : ℕ) (mu lam : ℝ) (G H : ℕ → ℕ → ℝ) (t : ℝ) (i j : ℕ) :
    sigma d mu lam (fun i j => G i j + t * H i j) i j = sigma d mu lam G i j + t * sigma d mu lam H i j := by
  simp only [sigma, eps_line, sum_add_distrib, ← mul_sum, two_lit]; ring

theorem sigN_line (d : ℕ) (mu lam : ℝ) (G H : ℕ → ℕ → ℝ) (n : ℕ → ℝ) (t : ℝ) (i : ℕ) :
    sigN d mu lam (fun i j => G i j + t * H i j) n i = sigN d mu lam G n i + t * sigN d mu lam H n i := by
  simp only [sigN, sigma_line, mul_sum, ← sum_add_distrib]
  exact sum_congr rfl (fun j _ => by ring)

theorem dotV_line (d : ℕ) (a b c : ℕ → ℝ) (t : ℝ) :
    dotV d (fun i => a i + t * b i) c = dotV d a c + t * dotV d b c := by
  simp only [dotV, mul_sum, ← sum_add_distrib]
  exact sum_congr rfl (fun j _ => by ring)

theorem dotV_comm (d : ℕ) (a b : ℕ → ℝ) : dotV d a b = dotV d b a :=
  sum_congr rfl (fun _ _ => mul_comm _ _)

theorem sigmaN_line (P : Params) (n : ℕ → ℝ) (u w : Field) (t : ℝ) (k : ℕ) :
    sigmaN P n (line u w t k) = sigmaN P n (u k) + t * sigmaN P n (w k) := by
  have : sigN P.dim P.mu P.lmbda (line u w t k).grad n = fun i =>
      sigN P.dim P.mu P.lmbda (u k).grad n i + t * sigN P.dim P.mu P.lmbda (w k).grad n i := by
    funext i; exact sigN_line ..
  rw [sigmaN, this, dotV_line]; rfl

theorem elastic_line (P : Params) (u w : Field) (v : Val) (t : ℝ) (k : ℕ) :
    elastic P (line u w t k) v = elastic P (u k) v + t * elastic P (w k) v := by
  simp only [elastic, innerM, mul_sum, ← sum_add_distrib]
  refine sum_congr rfl (fun i _ => sum_congr rfl (fun j _ => ?_))
  have := sigma_line P.dim P.mu P.lmbda (u k).grad (w k).grad t i j
  simp only [line]
  rw [this]; ring

theorem dirichletF_line (P : Params) (n ud : ℕ → ℝ) (pen : ℝ) (u w : Field) (v : Val) (t : ℝ) (k : ℕ) :
    dirichletF P n ud pen (line u w t k) v = dirichletF P n ud pen (u k) v + t * dirichletJ P n pen (w k) v := by
  have h1 : sigN P.dim P.mu P.lmbda (line u w t k).grad n = fun i =>
      sigN P.dim P.mu P.lmbda (u k).grad n i + t * sigN P.dim P.mu P.lmbda (w k).grad n i := by
    funext i; exact sigN_line ..
  have h2 : (fun i => (line u w t k).val i - ud i) = fun i => ((u k).val i - ud i) + t * (w k).val i := by
    funext i; simp only [line]; ring
  simp only [dirichletF, dirichletJ]
  rw [h1, h2, dotV_line, dotV_line, dotV_comm P.dim (sigN P.dim P.mu P.lmbda v.grad n) _, dotV_line,
    dotV_comm P.dim (sigN P.dim P.mu P.lmbda v.grad n) (fun i => (u k).val i - ud i),
    dotV_comm P.dim (sigN P.dim P.mu P.lmbda v.grad n) (w k).val]
  ring

theorem half_sign {q : ℝ} (h : q ≠ 0) : 0.5 * (1 - uflSign q) = dRMinus q := by
  rcases lt_or_gt_of_ne h with h | h
  · simp [uflSign, dRMinus, h]; norm_num
  · simp [uflSign, dRMinus, h, not_lt.mpr h.le]

theorem half_sign_range (q : ℝ) : 0 ≤ 0.5 * (1 - uflSign q) ∧ 0.5 * (1 - uflSign q) ≤ 1 := by
  unfold uflSign
  split
  · norm_num
  · split <;> norm_num

/-! ### derivatives -/

theorem hasDerivAt_integral (Q : Quad) (ks : List ℕ) (f : ℕ → ℝ → ℝ) (f' : ℕ → ℝ) (t : ℝ)
    (h : ∀ k ∈ ks, HasDerivAt (f k) (f' k) t) :
    HasDerivAt (fun s => integral Q ks (fun k => f k s)) (integral Q ks f') t :=
  Kernels.hasDerivAt_list_sum ks _ _ t (fun k hk => (h k hk).const_mul (Q.wt k))

theorem hasDerivAt_affine (a b t : ℝ) : HasDerivAt (fun s : ℝ => a + s * b) b t := by
  have := ((hasDerivAt_id t).mul_const b).const_add a
  simpa using this

theorem hasDerivAt_elastic (P : Params) (u w : Field) (v : Val) (k : ℕ) :
    HasDerivAt (fun t => elastic P (line u w t k) v) (elastic P (w k) v) 0 := by
  simp only [elastic_line]; exact hasDerivAt_affine _ _ _

theorem hasDerivAt_dirichlet (P : Params) (n ud : ℕ → ℝ) (pen : ℝ) (u w : Field) (v : Val) (k : ℕ) :
    HasDerivAt (fun t => dirichletF P n ud pen (line u w t k) v) (dirichletJ P n pen (w k) v) 0 := by
  simp only [dirichletF_line]; exact hasDerivAt_affine _ _ _

theorem hasDerivAt_contact (P : Params) (n : ℕ → ℝ) (gs g : ℝ) (u w : Field) (v : Val) (k : ℕ)
    (hq : sigmaN P n (u k) + gs * (g - dotV P.dim (u k).val (n2 P.dim)) ≠ 0) :
    HasDerivAt (fun t => contactF P n gs g (line u w t k) v) (contactJ P n gs g (u k) (w k) v) 0 := by
  have hd : ∀ t, dotV P.dim (line u w t k).val (n2 P.dim) =
      dotV P.dim (u k).val (n2 P.dim) + t * dotV P.dim (w k).val (n2 P.dim) := fun t => dotV_line ..
  have hpy : pyRMinus = rMinus := rfl
  simp only [contactF, contactJ, sigmaN_line, hd, hpy]
  obtain ⟨s, hs⟩ : ∃ s, sigmaN P n (u k) = s := ⟨_, rfl⟩
  obtain ⟨s', hs'⟩ : ∃ s, sigmaN P n (w k) = s := ⟨_, rfl⟩
  obtain ⟨m, hm⟩ : ∃ s, dotV P.dim (u k).val (n2 P.dim) = s := ⟨_, rfl⟩
  obtain ⟨m', hm'⟩ : ∃ s, dotV P.dim (w k).val (n2 P.dim) = s := ⟨_, rfl⟩
  simp only [hs, hs', hm, hm'] at hq ⊢
  have hlin : HasDerivAt (fun t : ℝ => s + t * s' + gs * (g - (m + t * m'))) (s' - gs * m') 0 := by
    have := hasDerivAt_affine (s + gs * (g - m)) (s' - gs * m') 0
    refine this.congr_of_eventuallyEq (Filter.Eventually.of_forall (fun t => ?_))
    simp only; ring
  have hr := hasDerivAt_rMinus_comp hlin (by simpa using hq)
  have h1 := ((hasDerivAt_affine s s' 0).const_mul (P.theta / gs)).mul_const (sigmaN P n v)
  have h2 := (hr.const_mul (1 / gs)).mul_const (P.theta * sigmaN P n v - gs * dotV P.dim v.val (n2 P.dim))
  refine (h1.neg.add h2).congr_deriv ?_
  have e : s + 0 * s' + gs * (g - (m + 0 * m')) = s + gs * (g - m) := by ring
  rw [e, ← half_sign hq]
  ring

/-! ### consistency -/

theorem contactF_signorini {P : Params} (hd : 0 < P.dim) (n : ℕ → ℝ) {gs g : ℝ} (hgs : 0 < gs) (u v : Val)
    (h : Spec.Signorini (Spec.approach P.dim u.val) g
      (Spec.approach P.dim (Spec.traction P.dim P.mu P.lmbda u.grad n))) :
    contactF P n gs g u v =
      -(Spec.approach P.dim (Spec.traction P.dim P.mu P.lmbda u.grad n) * Spec.approach P.dim v.val) := by
  simp only [contactF, sigmaN_eq hd, dotV_n2 hd]
  set s := Spec.approach P.dim (Spec.traction P.dim P.mu P.lmbda u.grad n)
  set m := Spec.approach P.dim u.val
  have hr : pyRMinus (s + gs * (g - m)) = s := by
    obtain ⟨h1, h2, h3⟩ := h
    rw [show pyRMinus (s + gs * (g - m)) = rMinus (s + gs * (g - m)) from rfl]
    rcases mul_eq_zero.mp h3 with h | h
    · have : g - m = 0 := by linarith
      rw [this, mul_zero, add_zero, rMinus_of_nonpos h2]
    · rw [h, zero_add, rMinus_of_nonneg (mul_nonneg hgs.le (by linarith))]
  rw [hr]
  have := hgs.ne'
  field_simp
  ring

theorem dirichletF_consistent (P : Params) (n ud : ℕ → ℝ) (pen : ℝ) (u v : Val)
    (h : ∀ i < P.dim, u.val i = ud i) :
    dirichletF P n ud pen u v = -∑ i ∈ range P.dim, Spec.traction P.dim P.mu P.lmbda u.grad n i * v.val i := by
  have h0 : ∀ a : ℕ → ℝ, dotV P.dim a (fun i => u.val i - ud i) = 0 := fun a =>
    sum_eq_zero (fun i hi => by simp only [h i (mem_range.mp hi)]; ring)
  simp only [dirichletF, h0, dotV_comm P.dim (fun i => u.val i - ud i), sigN_traction]
  simp [dotV]

/-! ### symmetry and positivity -/

theorem stressWork_eq (d : ℕ) (mu lam : ℝ) (G H : ℕ → ℕ → ℝ) :
    Spec.stressWork d mu lam G H =
      2 * mu * (∑ i ∈ range d, ∑ j ∈ range d, Spec.strain G i j * Spec.strain H i j)
        + lam * (∑ k ∈ range d, Spec.strain G k k) * (∑ k ∈ range d, Spec.strain H k k) := by
  simp only [Spec.stressWork, Spec.stress, add_mul, sum_add_distrib, ite_mul, zero_mul]
  congr 1
  · simp only [mul_sum, mul_assoc]
  · rw [mul_sum (range d) (fun k => Spec.strain H k k)]
    refine sum_congr rfl (fun i hi => ?_)
    rw [sum_ite_eq, if_pos hi]

theorem stressWork_comm (d : ℕ) (mu lam : ℝ) (G H : ℕ → ℕ → ℝ) :
    Spec.stressWork d mu lam G H = Spec.stressWork d mu lam H G := by
  rw [stressWork_eq, stressWork_eq]
  have : ∑ i ∈ range d, ∑ j ∈ range d, Spec.strain G i j * Spec.strain H i j =
      ∑ i ∈ range d, ∑ j ∈ range d, Spec.strain H i j * Spec.strain G i j :=
    sum_congr rfl (fun _ _ => sum_congr rfl (fun _ _ => mul_comm _ _))
  rw [this]; ring

theorem stressWork_nonneg {d : ℕ} {mu lam : ℝ} (hmu : 0 ≤ mu) (hlam : 0 ≤ lam) (G : ℕ → ℕ → ℝ) :
    0 ≤ Spec.stressWork d mu lam G G := by
  rw [stressWork_eq]
  have h1 : 0 ≤ ∑ i ∈ range d, ∑ j ∈ range d, Spec.strain G i j * Spec.strain G i j :=
    sum_nonneg (fun _ _ => sum_nonneg (fun _ _ => mul_self_nonneg _))
  have h2 := mul_self_nonneg (∑ k ∈ range d, Spec.strain G k k)
  have := mul_nonneg (mul_nonneg zero_le_two hmu) h1
  have := mul_nonneg hlam h2
  rw [mul_assoc lam]
  linarith

theorem contactJ_symm (P : Params) (hθ : P.theta = 1) (n : ℕ → ℝ) (gs g : ℝ) (u du v : Val) :
    contactJ P n gs g u du v = contactJ P n gs g u v du := by
  simp only [contactJ, hθ]; ring

theorem dirichletJ_symm (P : Params) (hθ : P.theta = 1) (n : ℕ → ℝ) (pen : ℝ) (du v : Val) :
    dirichletJ P n pen du v = dirichletJ P n pen v du := by
  simp only [dirichletJ, hθ, dotV_comm P.dim du.val v.val]; ring

theorem contactJ_nonneg (P : Params) (hθ : P.theta = -1) (n : ℕ → ℝ) {gs : ℝ} (hgs : 0 < gs) (g : ℝ) (u v : Val) :
    0 ≤ contactJ P n gs g u v v := by
  simp only [contactJ, hθ]
  obtain ⟨h0, h1⟩ := half_sign_range (sigmaN P n u + gs * (g - dotV P.dim u.val (n2 P.dim)))
  set c := 0.5 * (1 - uflSign (sigmaN P n u + gs * (g - dotV P.dim u.val (n2 P.dim)))) with hc
  set s := sigmaN P n v
  set m := dotV P.dim v.val (n2 P.dim)
  have e : -(-1 / gs * s * s) + 1 / gs * 0.5 * (1 - uflSign (sigmaN P n u + gs * (g - dotV P.dim u.val (n2 P.dim))))
      * (s - gs * m) * (-1 * s - gs * m) = (1 - c) * (s * s) / gs + c * (gs * (m * m)) := by
    rw [show 1 / gs * 0.5 * (1 - uflSign (sigmaN P n u + gs * (g - dotV P.dim u.val (n2 P.dim)))) = 1 / gs * c by
      rw [hc]; ring]
    have := hgs.ne'
    field_simp
    ring
  rw [e]
  exact add_nonneg (div_nonneg (mul_nonneg (by linarith) (mul_self_nonneg _)) hgs.le)
    (mul_nonneg h0 (mul_nonneg hgs.le (mul_self_nonneg _)))

theorem dirichletJ_nonneg (P : Params) (hθ : P.theta = -1) (n : ℕ → ℝ) {pen : ℝ} (hp : 0 ≤ pen) (v : Val) :
    0 ≤ dirichletJ P n pen v v := by
  have : dirichletJ P n pen v v = pen * dotV P.dim v.val v.val := by
    simp only [dirichletJ, hθ]; ring
  rw [this]
  exact mul_nonneg hp (sum_nonneg (fun _ _ => mul_self_nonneg _))

end

end Verif.OneSided
