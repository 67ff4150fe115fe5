import Verif.Lemmas.Elasticity
import Verif.Lib.Puts
import Mathlib.Tactic.NormNum

/-! C56, C57: tractions. -/

namespace Verif.Elasticity

open Finset

/-- C56: `compute_sigma_n_u` is the Cauchy traction `2 μ ε n + λ tr(ε) n` of the gradient stored row
by row, and depends linearly on the gradient. -/
theorem C56_traction (gdim : ℕ) (gradU gradW n : ℕ → ℝ) (mu lam t : ℝ) (i : ℕ) (hi : i < gdim) :
    sigmaNU gdim gradU n mu lam i =
        Spec.traction gdim mu lam (fun a b => gradU (a * gdim + b)) n i
      ∧ sigmaNU gdim (fun m => gradU m + t * gradW m) n mu lam i =
          sigmaNU gdim gradU n mu lam i + t * sigmaNU gdim gradW n mu lam i := by
  refine ⟨sigmaNU_traction _ _ _ _ _ _ hi, ?_⟩
  simp only [sigmaNU_eq, mul_sum, ← sum_add_distrib]
  exact sum_congr rfl (fun j _ => by ring)

/-- C56: `compute_sigma_n_basis` holds the traction of every basis function `φ_i e_j`, so the
traction of an interpolated displacement is the combination of the basis tractions with the dof
values. -/
theorem C56_basis (gdim tdim nd : ℕ) (K : ℕ → ℕ → ℝ) (dphi : ℕ → ℕ → ℝ) (n : ℕ → ℝ)
    (mu lam : ℝ) :
    (∀ i j l, j < gdim → l < gdim → sigmaNBasis tdim gdim K dphi n mu lam i j l =
      Spec.traction gdim mu lam
        (fun a b => if a = j then ∑ k ∈ range tdim, K k b * dphi k i else 0) n l)
    ∧ ∀ (U : ℕ → ℕ → ℝ) (gradU : ℕ → ℝ),
      (∀ a b, a < gdim → b < gdim → gradU (a * gdim + b) =
        ∑ i ∈ range nd, (∑ k ∈ range tdim, K k b * dphi k i) * U i a) →
      ∀ j, j < gdim → sigmaNU gdim gradU n mu lam j =
        ∑ i ∈ range nd, ∑ m ∈ range gdim, sigmaNBasis tdim gdim K dphi n mu lam i m j * U i m := by
  refine ⟨?_, ?_⟩
  · intro i j l hj hl
    rw [sigmaNBasis_traction _ _ _ _ _ _ _ _ _ _ hj hl]
    simp only [gradV_eq]
  · intro U gradU h j hj
    apply sigmaNU_interp gdim tdim nd K dphi n mu lam U gradU _ j hj
    simpa only [gradV_eq] using h

/-- C56: `λ tr n_dot + μ epsn`, the way the kernels combine the results of
`compute_normal_strain_basis`, is the component along `n_surf` of the traction of the basis
function. -/
theorem C56_normal (gdim tdim : ℕ) (K : ℕ → ℕ → ℝ) (dphi : ℕ → ℕ → ℝ) (nSurf nPhys : ℕ → ℝ)
    (mu lam : ℝ) (i j : ℕ) (hj : j < gdim) :
    lam * strainTrace tdim K dphi i j * (∑ s ∈ range gdim, nPhys s * nSurf s)
        + mu * normalStrain tdim gdim K dphi nSurf nPhys i j =
      ∑ l ∈ range gdim, Spec.traction gdim mu lam
        (fun a b => if a = j then ∑ k ∈ range tdim, K k b * dphi k i else 0) nPhys l * nSurf l := by
  rw [normal_component _ _ _ _ _ _ _ _ _ _ hj]
  refine sum_congr rfl (fun l hl => ?_)
  rw [(C56_basis gdim tdim 0 K dphi nPhys mu lam).1 i j l hj (mem_range.mp hl)]

/-- C56: `compute_sigma_n_opp` holds at `(i, j, k, l)` component `l` of the traction of the test
function `j e_k` of link `i`, from the gradients packed for that link, function and point. -/
theorem C56_opposite (nd gdim nq q : ℕ) (gradV n : ℕ → ℝ) (mu lam : ℝ) (i j k l : ℕ)
    (hk : k < gdim) (hl : l < gdim) :
    sigmaNOpp nd gdim nq q gradV n mu lam i j k l =
      Spec.traction gdim mu lam
        (fun a b => if a = k then gradV (((i * nd + j) * nq + q) * gdim + b) else 0) n l := by
  have h := sigmaNBasis_traction 1 gdim (fun _ b => gradV (((i * nd + j) * nq + q) * gdim + b))
    (fun _ _ => 1) n mu lam 0 k l hk hl
  have hg : ∀ b, Elasticity.gradV 1 (fun _ b => gradV (((i * nd + j) * nq + q) * gdim + b))
      (fun _ _ => 1) 0 b = gradV (((i * nd + j) * nq + q) * gdim + b) := by
    intro b; simp [gradV_eq]
  simp only [hg] at h
  rw [← h, sigmaNBasis_eq]
  simp only [sigmaNOpp, loop_acc, zero_add, hg]
  have e : i * nq * nd * gdim + j * nq * gdim + q * gdim = ((i * nd + j) * nq + q) * gdim := by ring
  rw [e]

/-- Uniaxial stretch in the plane, normal `e_0`: traction `(2 μ + λ, 0)`. -/
example : sigmaNU 2 (fun m => if m = 0 then 1 else 0) (fun i => if i = 0 then 1 else 0) 3 5 0 = 11
    ∧ sigmaNU 2 (fun m => if m = 0 then 1 else 0) (fun i => if i = 0 then 1 else 0) 3 5 1 = 0 := by
  constructor
  · norm_num [sigmaNU_eq, sum_range_succ]
  · norm_num [sigmaNU_eq, sum_range_succ]

/-- C57: `compute_contact_forces` stores at facet `f`, point `q`, component `j` the traction of the
gradient and normal packed for the same facet and point (row major in facet, point, entry). -/
theorem C57_slices (gradU nx : ℕ → ℝ) (nq nf gdim : ℕ) (mu lam : ℝ) (f q j : ℕ)
    (hf : f < nf) (hq : q < nq) (hj : j < gdim) :
    contactForces gradU nx nq nf gdim mu lam ((f * nq + q) * gdim + j) =
      Spec.traction gdim mu lam (fun a b => gradU (((f * nq + q) * gdim + a) * gdim + b))
        (fun a => nx ((f * nq + q) * gdim + a)) j := by
  have hp : Puts (loop nf (fun f => loop nq (fun q =>
      let fOffset := nq * gdim * f
      let sig := sigmaNU gdim (fun m => gradU (fOffset * gdim + q * gdim * gdim + m))
        (fun m => nx (fOffset + q * gdim + m)) mu lam
      loop gdim (fun j (sign : Arr ℕ) => sign.put (f * nq * gdim + q * gdim + j) (sig j)))))
      (fun m v => ∃ f, f < nf ∧ ∃ q, q < nq ∧ ∃ j, j < gdim ∧ (m = f * nq * gdim + q * gdim + j ∧
        v = sigmaNU gdim (fun m => gradU (nq * gdim * f * gdim + q * gdim * gdim + m))
          (fun m => nx (nq * gdim * f + q * gdim + m)) mu lam j)) :=
    Puts.loop nf (fun f _ => Puts.loop nq (fun q _ => Puts.loop gdim (fun j _ => Puts.put _ _)))
  have hidx : ∀ f q j, f * nq * gdim + q * gdim + j = (f * nq + q) * gdim + j := by
    intro f q j; ring
  have key : contactForces gradU nx nq nf gdim mu lam ((f * nq + q) * gdim + j) =
      sigmaNU gdim (fun m => gradU (nq * gdim * f * gdim + q * gdim * gdim + m))
          (fun m => nx (nq * gdim * f + q * gdim + m)) mu lam j := by
    apply hp.value ⟨f, hf, q, hq, j, hj, (hidx f q j).symm, rfl⟩
    rintro w ⟨f', hf', q', hq', j', hj', e, rfl⟩
    rw [hidx, radix3_inj hq hj hq' hj'] at e
    obtain ⟨rfl, rfl, rfl⟩ := e
    rfl
  rw [key, sigmaNU_traction _ _ _ _ _ _ hj]
  have e1 : ∀ a b, nq * gdim * f * gdim + q * gdim * gdim + (a * gdim + b) =
      ((f * nq + q) * gdim + a) * gdim + b := by intro a b; ring
  have e2 : ∀ a, nq * gdim * f + q * gdim + a = (f * nq + q) * gdim + a := by intro a; ring
  simp only [e1, e2]

/-- C57 has content: two facets, two points; the forces of the last point come from the last
gradient. -/
example : contactForces (fun m => m) (fun _ => 1) 2 2 1 1 0 3 = 6 := by
  have := C57_slices (fun m => (m : ℝ)) (fun _ => 1) 2 2 1 1 0 1 1 0 (by norm_num) (by norm_num)
    (by norm_num)
  norm_num [traction_eq, sum_range_succ] at this
  exact_mod_cast this

end Verif.Elasticity
