import Verif.Model.Elasticity
import Verif.Spec.Elasticity
import Verif.Lib.Radix
import Mathlib.Tactic.Ring
import Mathlib.Tactic.Linarith
import Mathlib.Algebra.BigOperators.Ring.Finset

namespace Verif

open Finset

/-- A scalar accumulator is a sum. -/
theorem loop_acc (n : ℕ) (f : ℕ → ℝ) (a : ℝ) :
    loop n (fun i s => s + f i) a = a + ∑ i ∈ range n, f i := by
  induction n with
  | zero => simp
  | succ n ih => rw [loop_succ, ih, sum_range_succ, add_assoc]

end Verif

namespace Verif.Elasticity

open Finset

theorem covariantNormal_eq (tdim : ℕ) (K : ℕ → ℕ → ℝ) (nref : ℕ → ℝ) (i : ℕ) :
    covariantNormal tdim K nref i = ∑ j ∈ range tdim, K j i * nref j := by
  simp [covariantNormal, loop_acc]

theorem gradV_eq (tdim : ℕ) (K : ℕ → ℕ → ℝ) (dphi : ℕ → ℕ → ℝ) (i j : ℕ) :
    gradV tdim K dphi i j = ∑ k ∈ range tdim, K k j * dphi k i := by
  simp [gradV, loop_acc]

theorem strainTrace_eq (tdim : ℕ) (K : ℕ → ℕ → ℝ) (dphi : ℕ → ℕ → ℝ) (j l : ℕ) :
    strainTrace tdim K dphi j l = gradV tdim K dphi j l := rfl

theorem normalStrain_eq (tdim bs : ℕ) (K : ℕ → ℕ → ℝ) (dphi : ℕ → ℕ → ℝ) (nSurf nPhys : ℕ → ℝ)
    (j l : ℕ) :
    normalStrain tdim bs K dphi nSurf nPhys j l =
      ∑ s ∈ range bs, gradV tdim K dphi j s * (nPhys s * nSurf l + nPhys l * nSurf s) := by
  simp only [normalStrain, loop_acc, zero_add, gradV_eq, sum_mul]
  rw [sum_comm]

theorem sigmaNBasis_eq (tdim bs : ℕ) (K : ℕ → ℕ → ℝ) (dphi : ℕ → ℕ → ℝ) (n : ℕ → ℝ) (mu lam : ℝ)
    (i j l : ℕ) :
    sigmaNBasis tdim bs K dphi n mu lam i j l =
      (if l = j then mu * ∑ s ∈ range bs, gradV tdim K dphi i s * n s else 0)
        + (lam * gradV tdim K dphi i j * n l + mu * n j * gradV tdim K dphi i l) := by
  simp only [sigmaNBasis, loop_acc, zero_add]

theorem sigmaNU_eq (gdim : ℕ) (gradU n : ℕ → ℝ) (mu lam : ℝ) (i : ℕ) :
    sigmaNU gdim gradU n mu lam i =
      ∑ j ∈ range gdim, (mu * (gradU (j * gdim + i) + gradU (i * gdim + j)) * n j
        + lam * gradU (j * gdim + j) * n i) := by
  simp only [sigmaNU, loop_acc, zero_add]

theorem traction_eq (d : ℕ) (mu lam : ℝ) (G : ℕ → ℕ → ℝ) (n : ℕ → ℝ) (i : ℕ) (hi : i < d) :
    Spec.traction d mu lam G n i =
      ∑ j ∈ range d, mu * (G j i + G i j) * n j + lam * (∑ k ∈ range d, G k k) * n i := by
  simp only [Spec.traction, Spec.stress, Spec.strain, add_mul, sum_add_distrib, ite_mul, zero_mul]
  rw [sum_ite_eq, if_pos (mem_range.mpr hi)]
  congr 1
  · exact sum_congr rfl (fun j _ => by ring)
  · congr 2; exact sum_congr rfl (fun j _ => by ring)

theorem sigmaNU_traction (gdim : ℕ) (gradU n : ℕ → ℝ) (mu lam : ℝ) (i : ℕ) (hi : i < gdim) :
    sigmaNU gdim gradU n mu lam i =
      Spec.traction gdim mu lam (fun a b => gradU (a * gdim + b)) n i := by
  rw [traction_eq _ _ _ _ _ _ hi, sigmaNU_eq, sum_add_distrib, mul_sum, sum_mul]

/-- Traction of the basis function `i e_j`: its gradient has row `j` equal to the gradient of the
scalar basis function. -/
theorem sigmaNBasis_traction (tdim bs : ℕ) (K : ℕ → ℕ → ℝ) (dphi : ℕ → ℕ → ℝ) (n : ℕ → ℝ)
    (mu lam : ℝ) (i j l : ℕ) (hj : j < bs) (hl : l < bs) :
    sigmaNBasis tdim bs K dphi n mu lam i j l =
      Spec.traction bs mu lam (fun a b => if a = j then gradV tdim K dphi i b else 0) n l := by
  rw [traction_eq _ _ _ _ _ _ hl, sigmaNBasis_eq]
  have h1 : ∑ k ∈ range bs, (if k = j then gradV tdim K dphi i k else 0) = gradV tdim K dphi i j := by
    rw [sum_ite_eq', if_pos (mem_range.mpr hj)]
  rw [h1]
  have h2 : ∑ s ∈ range bs, mu * ((if s = j then gradV tdim K dphi i l else 0)
      + (if l = j then gradV tdim K dphi i s else 0)) * n s
      = mu * gradV tdim K dphi i l * n j
        + (if l = j then mu * ∑ s ∈ range bs, gradV tdim K dphi i s * n s else 0) := by
    have : ∀ s ∈ range bs, mu * ((if s = j then gradV tdim K dphi i l else 0)
      + (if l = j then gradV tdim K dphi i s else 0)) * n s
      = (if s = j then mu * gradV tdim K dphi i l * n s else 0)
        + (if l = j then mu * (gradV tdim K dphi i s * n s) else 0) := by
      intro s _; split <;> split <;> ring
    rw [sum_congr rfl this, sum_add_distrib, sum_ite_eq', if_pos (mem_range.mpr hj)]
    by_cases h : l = j <;> simp [h, mul_sum]
  rw [h2]; ring

/-- Tractions add up. -/
theorem traction_sum {ι : Type} (s : Finset ι) (d : ℕ) (mu lam : ℝ) (G : ι → ℕ → ℕ → ℝ) (u : ι → ℝ)
    (n : ℕ → ℝ) (i : ℕ) (hi : i < d) :
    Spec.traction d mu lam (fun a b => ∑ t ∈ s, G t a b * u t) n i =
      ∑ t ∈ s, Spec.traction d mu lam (G t) n i * u t := by
  simp only [traction_eq _ _ _ _ _ _ hi]
  simp only [add_mul, sum_mul, mul_sum, mul_add, sum_add_distrib]
  congr 1
  · congr 1
    · rw [sum_comm]; exact sum_congr rfl (fun t _ => sum_congr rfl (fun j _ => by ring))
    · rw [sum_comm]; exact sum_congr rfl (fun t _ => sum_congr rfl (fun j _ => by ring))
  · rw [sum_comm]; exact sum_congr rfl (fun t _ => sum_congr rfl (fun j _ => by ring))

/-- `compute_sigma_n_u` of an interpolated displacement. -/
theorem sigmaNU_interp (gdim tdim nd : ℕ) (K : ℕ → ℕ → ℝ) (dphi : ℕ → ℕ → ℝ) (n : ℕ → ℝ)
    (mu lam : ℝ) (U : ℕ → ℕ → ℝ) (gradU : ℕ → ℝ)
    (h : ∀ a b, a < gdim → b < gdim →
      gradU (a * gdim + b) = ∑ i ∈ range nd, gradV tdim K dphi i b * U i a)
    (j : ℕ) (hj : j < gdim) :
    sigmaNU gdim gradU n mu lam j =
      ∑ i ∈ range nd, ∑ m ∈ range gdim, sigmaNBasis tdim gdim K dphi n mu lam i m j * U i m := by
  rw [sigmaNU_traction _ _ _ _ _ _ hj]
  have e1 : Spec.traction gdim mu lam (fun a b => gradU (a * gdim + b)) n j =
      Spec.traction gdim mu lam (fun a b => ∑ t ∈ range nd ×ˢ range gdim,
        (if a = t.2 then gradV tdim K dphi t.1 b else 0) * U t.1 t.2) n j := by
    have key : ∀ a b, a < gdim → b < gdim → gradU (a * gdim + b) =
        ∑ t ∈ range nd ×ˢ range gdim,
        (if a = t.2 then gradV tdim K dphi t.1 b else 0) * U t.1 t.2 := by
      intro a b ha hb
      rw [h a b ha hb, sum_product]
      refine sum_congr rfl (fun i _ => ?_)
      simp only [ite_mul, zero_mul]
      rw [sum_ite_eq, if_pos (mem_range.mpr ha)]
    rw [traction_eq _ _ _ _ _ _ hj, traction_eq _ _ _ _ _ _ hj]
    congr 1
    · refine sum_congr rfl (fun s hs => ?_)
      have hs := mem_range.mp hs
      rw [key s j hs hj, key j s hj hs]
    · congr 2
      refine sum_congr rfl (fun s hs => ?_)
      have hs := mem_range.mp hs
      exact key s s hs hs
  rw [e1, traction_sum _ _ _ _ _ _ _ _ hj, sum_product]
  refine sum_congr rfl (fun i _ => sum_congr rfl (fun m hm => ?_))
  rw [sigmaNBasis_traction _ _ _ _ _ _ _ _ _ _ (mem_range.mp hm) hj]

/-- The normal strain basis contracted as in the kernels is the normal component of the basis
traction. -/
theorem normal_component (tdim bs : ℕ) (K : ℕ → ℕ → ℝ) (dphi : ℕ → ℕ → ℝ) (nSurf nPhys : ℕ → ℝ)
    (mu lam : ℝ) (i j : ℕ) (hj : j < bs) :
    lam * strainTrace tdim K dphi i j * (∑ s ∈ range bs, nPhys s * nSurf s)
        + mu * normalStrain tdim bs K dphi nSurf nPhys i j =
      ∑ l ∈ range bs, sigmaNBasis tdim bs K dphi nPhys mu lam i j l * nSurf l := by
  simp only [sigmaNBasis_eq, normalStrain_eq, strainTrace_eq, add_mul, ite_mul, zero_mul,
    sum_add_distrib, sum_ite_eq', mem_range.mpr hj, if_true, mul_add, mul_sum, sum_mul]
  have e1 : ∑ x ∈ range bs, lam * gradV tdim K dphi i j * (nPhys x * nSurf x) =
      ∑ x ∈ range bs, lam * gradV tdim K dphi i j * nPhys x * nSurf x :=
    sum_congr rfl (fun _ _ => by ring)
  have e2 : ∑ x ∈ range bs, mu * (gradV tdim K dphi i x * (nPhys x * nSurf j)) =
      ∑ x ∈ range bs, mu * (gradV tdim K dphi i x * nPhys x) * nSurf j :=
    sum_congr rfl (fun _ _ => by ring)
  have e3 : ∑ x ∈ range bs, mu * (gradV tdim K dphi i x * (nPhys j * nSurf x)) =
      ∑ x ∈ range bs, mu * nPhys j * gradV tdim K dphi i x * nSurf x :=
    sum_congr rfl (fun _ _ => by ring)
  rw [e1, e2, e3]; ring

/-- Traction of an interpolated gradient. -/
theorem traction_interp {ι : Type} (s : Finset ι) (d : ℕ) (mu lam : ℝ) (gr U : ι → ℕ → ℝ)
    (G : ℕ → ℕ → ℝ) (n : ℕ → ℝ) (j : ℕ) (hj : j < d)
    (h : ∀ a b, a < d → b < d → G a b = ∑ t ∈ s, gr t b * U t a) :
    Spec.traction d mu lam G n j = ∑ t ∈ s, ∑ m ∈ range d,
      Spec.traction d mu lam (fun a b => if a = m then gr t b else 0) n j * U t m := by
  have key : ∀ a b, a < d → b < d → G a b =
      ∑ t ∈ s ×ˢ range d, (if a = t.2 then gr t.1 b else 0) * U t.1 t.2 := by
    intro a b ha hb
    rw [h a b ha hb, sum_product]
    refine sum_congr rfl (fun i _ => ?_)
    simp only [ite_mul, zero_mul]
    rw [sum_ite_eq, if_pos (mem_range.mpr ha)]
  have e1 : Spec.traction d mu lam G n j = Spec.traction d mu lam
      (fun a b => ∑ t ∈ s ×ˢ range d, (if a = t.2 then gr t.1 b else 0) * U t.1 t.2) n j := by
    rw [traction_eq _ _ _ _ _ _ hj, traction_eq _ _ _ _ _ _ hj]
    congr 1
    · refine sum_congr rfl (fun s hs => ?_)
      have hs := mem_range.mp hs
      rw [key s j hs hj, key j s hj hs]
    · congr 2
      refine sum_congr rfl (fun s hs => ?_)
      have hs := mem_range.mp hs
      exact key s s hs hs
  rw [e1, traction_sum _ _ _ _ _ _ _ _ hj, sum_product]

/-- `compute_sigma_n_opp` is the traction of the basis function `(i, j) e_k` of a linked cell. -/
theorem sigmaNOpp_traction (nd gdim nq q : ℕ) (gr n : ℕ → ℝ) (mu lam : ℝ) (i j k l : ℕ)
    (hk : k < gdim) (hl : l < gdim) :
    sigmaNOpp nd gdim nq q gr n mu lam i j k l =
      Spec.traction gdim mu lam (fun a b => if a = k then
        gr (i * nq * nd * gdim + j * nq * gdim + q * gdim + b) else 0) n l := by
  have h := sigmaNBasis_traction 1 gdim
    (fun _ b => gr (i * nq * nd * gdim + j * nq * gdim + q * gdim + b)) (fun _ _ => 1) n mu lam 0 k l
    hk hl
  have e : ∀ b, gradV 1 (fun _ b => gr (i * nq * nd * gdim + j * nq * gdim + q * gdim + b))
      (fun _ _ => 1) 0 b = gr (i * nq * nd * gdim + j * nq * gdim + q * gdim + b) := by
    intro b; rw [gradV_eq]; simp
  simp only [e] at h
  rw [← h, sigmaNBasis_eq]
  simp only [sigmaNOpp, loop_acc, zero_add, e]

theorem traction_smul (d : ℕ) (mu lam : ℝ) (G : ℕ → ℕ → ℝ) (x : ℝ) (n : ℕ → ℝ) (i : ℕ) (hi : i < d) :
    Spec.traction d mu lam (fun a b => G a b * x) n i = Spec.traction d mu lam G n i * x := by
  have := traction_sum {()} d mu lam (fun _ : Unit => G) (fun _ => x) n i hi
  simpa using this

theorem traction_add (d : ℕ) (mu lam : ℝ) (G H : ℕ → ℕ → ℝ) (n : ℕ → ℝ) (i : ℕ) (hi : i < d) :
    Spec.traction d mu lam (fun a b => G a b + H a b) n i =
      Spec.traction d mu lam G n i + Spec.traction d mu lam H n i := by
  simp only [traction_eq _ _ _ _ _ _ hi, mul_add, add_mul, sum_add_distrib]
  ring

end Verif.Elasticity
