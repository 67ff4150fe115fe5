import Verif.Model.Geometry
import Verif.Spec.Geometry
import Verif.Lemmas.Elasticity
import Mathlib.Algebra.BigOperators.Field
import Mathlib.Data.List.GetD
import Mathlib.Algebra.BigOperators.Ring.Finset
import Mathlib.Algebra.Order.BigOperators.Ring.Finset
import Mathlib.Tactic.Linarith
import Mathlib.Tactic.FieldSimp
import Mathlib.Tactic.Ring
import Mathlib.Tactic.NormNum
import Mathlib.Tactic.IntervalCases
import Mathlib.Tactic.Positivity
import Mathlib.Tactic.LinearCombination

/-! C66 (facet normals), C67 (circumradius), C68 (pull back), C11 (geometry nodes of entities). -/

namespace Verif.Geometry

open Finset Verif.Kernels

noncomputable section

theorem loop_update {α : Type} (n : ℕ) (f : ℕ → α) (old : ℕ → α) (q : ℕ) :
    loop n (fun p J => Function.update J p (f p)) old q = if q < n then f q else old q := by
  induction n with
  | zero => simp
  | succ n ih =>
    rw [loop_succ]
    by_cases h : q = n
    · subst h; rw [Function.update_self, if_pos (by omega)]
    · rw [Function.update_of_ne h, ih]
      by_cases h' : q < n
      · rw [if_pos h', if_pos (by omega)]
      · rw [if_neg h', if_neg (by omega)]

theorem loop_update_succ {α : Type} (n : ℕ) (f : ℕ → α) (old : ℕ → α) (q : ℕ) :
    loop n (fun p J => Function.update J (p + 1) (f p)) old q
      = if 0 < q ∧ q ≤ n then f (q - 1) else old q := by
  induction n with
  | zero => simp; intro h h'; omega
  | succ n ih =>
    rw [loop_succ]
    by_cases h : q = n + 1
    · subst h; rw [Function.update_self, if_pos (by omega)]; rfl
    · rw [Function.update_of_ne h, ih]
      by_cases h' : 0 < q ∧ q ≤ n
      · rw [if_pos h', if_pos (by omega)]
      · rw [if_neg h', if_neg (by omega)]

/-! ### C68 -/

/-- The coordinate map of the cell is affine: node 0 is the image of the origin, the Jacobian is
constant. -/
structure AffineMap (C : Cmap) (geo : ℕ → ℕ → ℝ) : Prop where
  push : ∀ X, ∀ i < C.gdim, push C geo X i = geo 0 i + ∑ d ∈ range C.tdim, jac C geo (fun _ => 0) i d * X d
  jac : ∀ X, jac C geo X = jac C geo (fun _ => 0)

theorem AffineMap.of {C : Cmap} {geo : ℕ → ℕ → ℝ} (h : IsAffine C.gdim C.tdim C.ndofs geo C.phi C.dphi) :
    AffineMap C geo := ⟨h.point, h.jac⟩

theorem pullBack_affine (C : Cmap) (det : (ℕ → ℕ → ℝ) → ℝ) (library : (ℕ → ℝ) → ℕ → ℝ) (geo : ℕ → ℕ → ℝ)
    (n : ℕ) (X : ℕ → ℕ → ℝ) (old : PullBack) (haff : C.affine = true) (hA : AffineMap C geo)
    (hinv : LeftInverse C.gdim C.tdim (C.inv (jac C geo (fun _ => 0))) (jac C geo (fun _ => 0)))
    (p : ℕ) (hp : p < n) :
    let r := pullBack C det library geo n (fun p => push C geo (X p)) old
    (∀ d < C.tdim, r.X p d = X p d) ∧ r.J p = jac C geo (X p) ∧ r.K p = C.inv (jac C geo (X p)) ∧
      r.detJ p = det (jac C geo (X p)) := by
  intro r
  have hr : r = pullBack C det library geo n (fun p => push C geo (X p)) old := rfl
  rw [pullBack, if_pos haff] at hr
  have key : ∀ {α : Type} (a : α) (o : ℕ → α),
      loop (n - 1) (fun p J => Function.update J (p + 1) a) (Function.update o 0 a) p = a := by
    intro α a o
    rw [loop_update_succ (f := fun _ => a)]
    by_cases h : p = 0
    · subst h; simp
    · rw [if_pos (by omega)]
  refine ⟨fun d hd => ?_, ?_, ?_, ?_⟩
  · rw [hr]
    dsimp only
    rw [loop_update (f := fun p i => ∑ j ∈ range C.gdim,
      C.inv (jac C geo (fun _ => 0)) i j * (push C geo (X p) j - geo 0 j)), if_pos hp]
    rw [sum_congr rfl (fun j hj => by
      rw [hA.push _ j (mem_range.mp hj), add_sub_cancel_left, mul_sum])]
    rw [sum_comm]
    rw [sum_congr rfl (fun e he => by
      rw [sum_congr rfl (fun j _ => (mul_assoc _ _ (X p e)).symm), ← sum_mul,
        hinv d hd e (mem_range.mp he)])]
    simp [hd]
  · rw [hA.jac (X p), hr]; exact key _ _
  · rw [hA.jac (X p), hr]; exact key _ _
  · rw [hA.jac (X p), hr]; exact key _ _

/-- C68: on affine cells, pulling back the push forward of reference points returns these points,
and every point gets the Jacobian, inverse and determinant of the cell. -/
theorem C68_affine (C : Cmap) (det : (ℕ → ℕ → ℝ) → ℝ) (library : (ℕ → ℝ) → ℕ → ℝ) (geo : ℕ → ℕ → ℝ)
    (n : ℕ) (X : ℕ → ℕ → ℝ) (old : PullBack) (haff : C.affine = true) (hA : IsAffine C.gdim C.tdim C.ndofs geo C.phi C.dphi)
    (hinv : LeftInverse C.gdim C.tdim (C.inv (jacobian C.ndofs geo (C.dphi (fun _ => 0)))) (jacobian C.ndofs geo (C.dphi (fun _ => 0))))
    (p : ℕ) (hp : p < n) :
    let r := pullBack C det library geo n (fun p => cellPoint C.ndofs geo (C.phi (X p))) old
    (∀ d < C.tdim, r.X p d = X p d) ∧ r.J p = jacobian C.ndofs geo (C.dphi (X p)) ∧ r.K p = C.inv (jacobian C.ndofs geo (C.dphi (X p))) ∧
      r.detJ p = det (jacobian C.ndofs geo (C.dphi (X p))) :=
  pullBack_affine C det library geo n X old haff (.of hA) hinv p hp

theorem pullBack_nonaffine (C : Cmap) (det : (ℕ → ℕ → ℝ) → ℝ) (library : (ℕ → ℝ) → ℕ → ℝ)
    (geo : ℕ → ℕ → ℝ) (n : ℕ) (x : ℕ → ℕ → ℝ) (old : PullBack) (haff : C.affine = false)
    (p : ℕ) (hp : p < n) :
    let r := pullBack C det library geo n x old
    r.X p = library (x p) ∧ r.J p = jac C geo (library (x p)) ∧
      r.K p = C.inv (jac C geo (library (x p))) ∧ r.detJ p = det (jac C geo (library (x p))) := by
  intro r
  have hr : r = pullBack C det library geo n x old := rfl
  rw [pullBack, if_neg (by simp [haff])] at hr
  have hX : loop n (fun p X => Function.update X p (library (x p))) old.X p = library (x p) := by
    rw [loop_update (f := fun p => library (x p)), if_pos hp]
  refine ⟨by rw [hr]; exact hX, ?_, ?_, ?_⟩ <;> rw [hr] <;> dsimp only
  · refine (loop_update n _ _ p).trans ?_
    rw [if_pos hp, hX]
  · refine (loop_update n _ _ p).trans ?_
    rw [if_pos hp, hX]
  · refine (loop_update n _ _ p).trans ?_
    rw [if_pos hp, hX]

/-- C68: on non-affine cells the Jacobian, inverse and determinant are those at the reference point
the library found for that point. -/
theorem C68_nonaffine_jacobians (C : Cmap) (det : (ℕ → ℕ → ℝ) → ℝ) (library : (ℕ → ℝ) → ℕ → ℝ)
    (geo : ℕ → ℕ → ℝ) (n : ℕ) (x : ℕ → ℕ → ℝ) (old : PullBack) (haff : C.affine = false)
    (p : ℕ) (hp : p < n) :
    let r := pullBack C det library geo n x old
    r.X p = library (x p) ∧ r.J p = jacobian C.ndofs geo (C.dphi (library (x p))) ∧
      r.K p = C.inv (jacobian C.ndofs geo (C.dphi (library (x p)))) ∧ r.detJ p = det (jacobian C.ndofs geo (C.dphi (library (x p)))) :=
  pullBack_nonaffine C det library geo n x old haff p hp

/-- Newton iterates of the non-affine pull back, from the origin. -/
def iter (C : Cmap) (geo : ℕ → ℕ → ℝ) (x : ℕ → ℝ) : ℕ → ℕ → ℝ
  | 0 => fun _ => 0
  | k + 1 => fun i => iter C geo x k i + increment C geo x (iter C geo x k) i

/-- The increment at `X` is below the tolerance. -/
def Small (C : Cmap) (geo : ℕ → ℕ → ℝ) (x : ℕ → ℝ) (tol : ℝ) (X : ℕ → ℝ) : Prop :=
  Real.sqrt (∑ i ∈ range C.tdim, increment C geo x X i ^ 2) < tol

theorem newton_spec (C : Cmap) (geo : ℕ → ℕ → ℝ) (x : ℕ → ℝ) (tol : ℝ) (n k : ℕ) :
    (∃ m < n, (∀ j < m, ¬ Small C geo x tol (iter C geo x (k + j))) ∧
        Small C geo x tol (iter C geo x (k + m)) ∧
        newtonPullBack C geo x tol n (iter C geo x k) = .ok (iter C geo x (k + m + 1))) ∨
    ((∀ m < n, ¬ Small C geo x tol (iter C geo x (k + m))) ∧
        newtonPullBack C geo x tol n (iter C geo x k) = .error .notConverged) := by
  induction n generalizing k with
  | zero => right; exact ⟨fun m hm => absurd hm (by omega), rfl⟩
  | succ n ih =>
    have e : (fun i => increment C geo x (iter C geo x k) i + iter C geo x k i) = iter C geo x (k + 1) := by
      funext i; rw [add_comm]; rfl
    have hs : (Real.sqrt (∑ i ∈ range C.tdim, increment C geo x (iter C geo x k) i
        * increment C geo x (iter C geo x k) i) < tol) ↔ Small C geo x tol (iter C geo x k) := by
      rw [Small]; simp only [sq]
    rw [newtonPullBack, e]
    by_cases h : Small C geo x tol (iter C geo x k)
    · left
      exact ⟨0, by omega, fun j hj => absurd hj (by omega), h, by rw [if_pos (hs.mpr h)]⟩
    · rw [if_neg (fun h' => h (hs.mp h'))]
      rcases ih (k + 1) with ⟨m, hm, h1, h2, h3⟩ | ⟨h1, h2⟩
      · left
        refine ⟨m + 1, by omega, fun j hj => ?_, ?_, ?_⟩
        · rcases j with _ | j
          · exact h
          · have := h1 j (by omega)
            rwa [show k + 1 + j = k + (j + 1) by omega] at this
        · rwa [show k + 1 + m = k + (m + 1) by omega] at h2
        · rw [h3, show k + 1 + m + 1 = k + (m + 1) + 1 by omega]
      · right
        refine ⟨fun m hm => ?_, h2⟩
        rcases m with _ | m
        · exact h
        · have := h1 m (by omega)
          rwa [show k + 1 + m = k + (m + 1) by omega] at this

theorem newton_pull_back (C : Cmap) (geo : ℕ → ℕ → ℝ) (x : ℕ → ℝ) (tol : ℝ) (maxIt : ℕ) :
    (∃ m < maxIt, (∀ j < m, ¬ Small C geo x tol (iter C geo x j)) ∧
        Small C geo x tol (iter C geo x m) ∧
        pullBackNonaffine C geo x tol maxIt = .ok (iter C geo x (m + 1))) ∨
    ((∀ m < maxIt, ¬ Small C geo x tol (iter C geo x m)) ∧
        pullBackNonaffine C geo x tol maxIt = .error .notConverged) := by
  have := newton_spec C geo x tol maxIt 0
  simp only [Nat.zero_add] at this
  exact this

theorem iter_eq (C : Cmap) (geo : ℕ → ℕ → ℝ) (x : ℕ → ℝ) (k : ℕ) :
    iter C geo x k = newtonIterate C.gdim C.ndofs geo C.phi C.dphi C.inv x k := by
  induction k with
  | zero => rfl
  | succ k ih => funext i; rw [iter, newtonIterate, ih]; rfl

/-- C68: the Newton pull back returns the iterate reached with the first increment below the
tolerance, and raises exactly when none of the allowed iterations has one. -/
theorem C68_newton (C : Cmap) (geo : ℕ → ℕ → ℝ) (x : ℕ → ℝ) (tol : ℝ) (maxIt : ℕ) :
    let X := newtonIterate C.gdim C.ndofs geo C.phi C.dphi C.inv x
    let size := fun m => Real.sqrt (∑ i ∈ range C.tdim,
      newtonStep C.gdim C.ndofs geo C.phi C.dphi C.inv x (X m) i ^ 2)
    (∃ m < maxIt, (∀ j < m, tol ≤ size j) ∧ size m < tol ∧
        pullBackNonaffine C geo x tol maxIt = .ok (X (m + 1))) ∨
    ((∀ m < maxIt, tol ≤ size m) ∧ pullBackNonaffine C geo x tol maxIt = .error .notConverged) := by
  have h := newton_pull_back C geo x tol maxIt
  simp only [Small, not_lt, iter_eq] at h
  exact h

theorem increment_affine (C : Cmap) (geo : ℕ → ℕ → ℝ) (hA : AffineMap C geo)
    (hinv : LeftInverse C.gdim C.tdim (C.inv (jac C geo (fun _ => 0))) (jac C geo (fun _ => 0)))
    (X Y : ℕ → ℝ) (d : ℕ) (hd : d < C.tdim) :
    increment C geo (push C geo X) Y d = X d - Y d := by
  rw [increment, hA.jac]
  rw [sum_congr rfl (fun j hj => by
    rw [hA.push X j (mem_range.mp hj), hA.push Y j (mem_range.mp hj), add_sub_add_left_eq_sub,
      ← sum_sub_distrib, mul_sum])]
  rw [sum_comm]
  rw [sum_congr rfl (fun e he => by
    rw [sum_congr rfl (fun j _ => show _ = C.inv (jac C geo (fun _ => 0)) d j * jac C geo (fun _ => 0) j e
      * (X e - Y e) by ring), ← sum_mul, hinv d hd e (mem_range.mp he)])]
  simp [hd]

theorem newton_affine_aux (C : Cmap) (geo : ℕ → ℕ → ℝ) (hA : AffineMap C geo)
    (hinv : LeftInverse C.gdim C.tdim (C.inv (jac C geo (fun _ => 0))) (jac C geo (fun _ => 0)))
    (X : ℕ → ℝ) (tol : ℝ) (htol : 0 < tol) (maxIt : ℕ) (hmax : 2 ≤ maxIt) :
    ∃ Y, pullBackNonaffine C geo (push C geo X) tol maxIt = .ok Y ∧ ∀ d < C.tdim, Y d = X d := by
  have hit : ∀ k, ∀ d < C.tdim, iter C geo (push C geo X) (k + 1) d = X d := by
    intro k d hd
    rw [iter]
    dsimp only
    rw [increment_affine C geo hA hinv X _ d hd]; ring
  rcases newton_pull_back C geo (push C geo X) tol maxIt with ⟨m, _, _, _, h⟩ | ⟨h, _⟩
  · exact ⟨_, h, hit m⟩
  · refine absurd ?_ (h 1 (by omega))
    rw [Small, sum_eq_zero, Real.sqrt_zero]
    · exact htol
    · intro d hd
      rw [increment_affine C geo hA hinv X _ d (mem_range.mp hd), hit 0 d (mem_range.mp hd), sub_self]
      norm_num

/-- C68: if the map happens to be affine, the Newton pull back finds the exact reference point as
soon as two iterations are allowed. -/
theorem C68_newton_affine (C : Cmap) (geo : ℕ → ℕ → ℝ) (hA : IsAffine C.gdim C.tdim C.ndofs geo C.phi C.dphi)
    (hinv : LeftInverse C.gdim C.tdim (C.inv (jacobian C.ndofs geo (C.dphi (fun _ => 0)))) (jacobian C.ndofs geo (C.dphi (fun _ => 0))))
    (X : ℕ → ℝ) (tol : ℝ) (htol : 0 < tol) (maxIt : ℕ) (hmax : 2 ≤ maxIt) :
    ∃ Y, pullBackNonaffine C geo (cellPoint C.ndofs geo (C.phi X)) tol maxIt = .ok Y ∧ ∀ d < C.tdim, Y d = X d :=
  newton_affine_aux C geo (.of hA) hinv X tol htol maxIt hmax

/-- The linear triangle in the plane; the inverse is by Cramer's rule. -/
def p1Triangle (gdim : ℕ) : Cmap where
  gdim := gdim
  tdim := 2
  ndofs := 3
  affine := true
  phi := fun X j => if j = 0 then 1 - X 0 - X 1 else X (j - 1)
  dphi := fun _ d j => if j = 0 then -1 else if j = d + 1 then 1 else 0
  inv := fun J a i =>
    let D := J 0 0 * J 1 1 - J 0 1 * J 1 0
    if a = 0 then (if i = 0 then J 1 1 / D else - J 0 1 / D)
    else (if i = 0 then - J 1 0 / D else J 0 0 / D)

theorem p1Triangle_affine (gdim : ℕ) (geo : ℕ → ℕ → ℝ) : AffineMap (p1Triangle gdim) geo where
  push X i _ := by
    simp [push, jac, p1Triangle, sum_range_succ]; ring
  jac X := rfl

theorem p1Triangle_inv (J : ℕ → ℕ → ℝ) (hD : J 0 0 * J 1 1 - J 0 1 * J 1 0 ≠ 0) :
    LeftInverse 2 2 ((p1Triangle 2).inv J) J := by
  intro a ha b hb
  simp only [p1Triangle, sum_range_succ, sum_range_zero]
  generalize h : J 0 0 * J 1 1 - J 0 1 * J 1 0 = D at *
  interval_cases a <;> interval_cases b <;> simp <;> field_simp <;> (try rw [← h]) <;> ring

/-- The hypotheses of the affine theorems are met by the triangle (0,0), (2,1), (0,3). -/
example : ∃ (C : Cmap) (geo : ℕ → ℕ → ℝ), C.affine = true ∧ AffineMap C geo ∧
    LeftInverse C.gdim C.tdim (C.inv (jac C geo (fun _ => 0))) (jac C geo (fun _ => 0)) := by
  refine ⟨p1Triangle 2, fun j i => if j = 1 then (if i = 0 then 2 else 1) else if j = 2 then
    (if i = 0 then 0 else 3) else 0, rfl, p1Triangle_affine 2 _, ?_⟩
  refine p1Triangle_inv _ ?_
  simp [jac, p1Triangle, sum_range_succ]

/-! ### C66 -/

theorem covariant_dot (gdim tdim : ℕ) (K J : ℕ → ℕ → ℝ) (h : LeftInverse gdim tdim K J) (nref t : ℕ → ℝ) :
    ∑ i ∈ range gdim, Elasticity.covariantNormal tdim K nref i * (∑ d ∈ range tdim, J i d * t d)
      = ∑ d ∈ range tdim, nref d * t d := by
  simp only [Elasticity.covariantNormal_eq, sum_mul, mul_sum]
  rw [sum_comm]
  refine sum_congr rfl (fun a ha => ?_)
  rw [sum_comm]
  rw [sum_congr rfl (fun b hb => by
    rw [sum_congr rfl (fun i _ => show _ = K b i * J i a * (nref b * t a) by ring), ← sum_mul,
      h b (mem_range.mp hb) a (mem_range.mp ha)])]
  simp [mem_range.mp ha]

theorem covariant_norm_pos (gdim tdim : ℕ) (K J : ℕ → ℕ → ℝ) (h : LeftInverse gdim tdim K J)
    (nref : ℕ → ℝ) (hn : ∃ d < tdim, nref d ≠ 0) :
    0 < ∑ i ∈ range gdim, Elasticity.covariantNormal tdim K nref i ^ 2 := by
  by_contra hle
  have h0 : ∑ i ∈ range gdim, Elasticity.covariantNormal tdim K nref i ^ 2 = 0 :=
    le_antisymm (not_lt.mp hle) (sum_nonneg (fun i _ => sq_nonneg _))
  rw [sum_eq_zero_iff_of_nonneg (fun i _ => sq_nonneg _)] at h0
  have h1 : ∑ d ∈ range tdim, nref d * nref d = 0 := by
    rw [← covariant_dot gdim tdim K J h nref nref]
    exact sum_eq_zero (fun i hi => by rw [pow_eq_zero_iff two_ne_zero |>.mp (h0 i hi), zero_mul])
  rw [sum_eq_zero_iff_of_nonneg (fun i _ => mul_self_nonneg _)] at h1
  obtain ⟨d, hd, hne⟩ := hn
  exact hne (mul_self_eq_zero.mp (h1 d (mem_range.mpr hd)))

/-- C66: the covariant push forward of a reference normal is the physical facet normal, for every
left invertible Jacobian (also of surfaces in space). -/
theorem C66_normal (gdim tdim : ℕ) (K J : ℕ → ℕ → ℝ) (h : LeftInverse gdim tdim K J)
    (nref : ℕ → ℝ) (hn : ∃ d < tdim, nref d ≠ 0) :
    IsFacetNormal gdim tdim J nref (Elasticity.physicalFacetNormal gdim tdim K nref) := by
  have hpos := covariant_norm_pos gdim tdim K J h nref hn
  set S := ∑ i ∈ range gdim, Elasticity.covariantNormal tdim K nref i ^ 2 with hS
  have e : ∀ i, Elasticity.physicalFacetNormal gdim tdim K nref i
      = Elasticity.covariantNormal tdim K nref i / Real.sqrt S := by
    intro i
    rw [Elasticity.physicalFacetNormal, loop_acc, zero_add]
  have hs : 0 < Real.sqrt S := Real.sqrt_pos.mpr hpos
  have hdot : ∀ t : ℕ → ℝ, ∑ i ∈ range gdim, Elasticity.physicalFacetNormal gdim tdim K nref i
      * (∑ d ∈ range tdim, J i d * t d) = (∑ d ∈ range tdim, nref d * t d) / Real.sqrt S := by
    intro t
    rw [← covariant_dot gdim tdim K J h nref t, sum_div]
    exact sum_congr rfl (fun i _ => by rw [e, div_mul_eq_mul_div])
  refine ⟨?_, fun t ht => by rw [hdot, ht, zero_div], fun t ht => by rw [hdot]; exact div_pos ht hs⟩
  rw [sum_congr rfl (fun i _ => by rw [e, div_pow]), ← sum_div, Real.sq_sqrt hpos.le]
  exact div_self hpos.ne'

theorem push_forward_aux (C : Cmap) (geo : ℕ → ℕ → ℝ) (x nref : ℕ → ℝ) (hn : ∃ d < C.tdim, nref d ≠ 0)
    (hinv : ∀ X, (C.affine = true ∧ X = fun _ => 0) ∨ pullBackNonaffine C geo x 1e-8 10 = .ok X →
      LeftInverse C.gdim C.tdim (C.inv (jac C geo X)) (jac C geo X)) :
    (C.affine = true → ∃ n, pushForwardFacetNormal C geo x nref = .ok n ∧
      IsFacetNormal C.gdim C.tdim (jac C geo (fun _ => 0)) nref n) ∧
    (C.affine = false →
      (∃ X n, pullBackNonaffine C geo x 1e-8 10 = .ok X ∧ pushForwardFacetNormal C geo x nref = .ok n ∧
        IsFacetNormal C.gdim C.tdim (jac C geo X) nref n) ∨
      (pullBackNonaffine C geo x 1e-8 10 = .error .notConverged ∧
        pushForwardFacetNormal C geo x nref = .error .notConverged)) := by
  constructor
  · intro ha
    rw [pushForwardFacetNormal, if_pos ha]
    exact ⟨_, rfl, C66_normal _ _ _ _ (hinv _ (.inl ⟨ha, rfl⟩)) nref hn⟩
  · intro ha
    rw [pushForwardFacetNormal, if_neg (by simp [ha])]
    rcases newton_pull_back C geo x 1e-8 10 with ⟨m, _, _, _, h⟩ | ⟨_, h⟩
    · left
      have hX := hinv _ (.inr h)
      rw [h]
      exact ⟨_, _, rfl, rfl, C66_normal _ _ _ _ hX nref hn⟩
    · right
      rw [h]
      exact ⟨rfl, rfl⟩

/-- C66: `push_forward_facet_normal` on affine cells returns the physical facet normal; on non-affine
cells it returns the one at the reference point found by the pull back, or raises when the pull back
does not converge.  Only the Jacobian at the point used must be invertible. -/
theorem C66_push_forward (C : Cmap) (geo : ℕ → ℕ → ℝ) (x nref : ℕ → ℝ) (hn : ∃ d < C.tdim, nref d ≠ 0)
    (hinv : ∀ X, (C.affine = true ∧ X = fun _ => 0) ∨ pullBackNonaffine C geo x 1e-8 10 = .ok X →
      LeftInverse C.gdim C.tdim (C.inv (jacobian C.ndofs geo (C.dphi X))) (jacobian C.ndofs geo (C.dphi X))) :
    (C.affine = true → ∃ n, pushForwardFacetNormal C geo x nref = .ok n ∧
      IsFacetNormal C.gdim C.tdim (jacobian C.ndofs geo (C.dphi (fun _ => 0))) nref n) ∧
    (C.affine = false →
      (∃ X n, pullBackNonaffine C geo x 1e-8 10 = .ok X ∧ pushForwardFacetNormal C geo x nref = .ok n ∧
        IsFacetNormal C.gdim C.tdim (jacobian C.ndofs geo (C.dphi X)) nref n) ∨
      (pullBackNonaffine C geo x 1e-8 10 = .error .notConverged ∧
        pushForwardFacetNormal C geo x nref = .error .notConverged)) :=
  push_forward_aux C geo x nref hn hinv

/-- A non-trivial invertible Jacobian and normal. -/
example : ∃ (K J : ℕ → ℕ → ℝ) (nref : ℕ → ℝ), LeftInverse 2 2 K J ∧ ∃ d < 2, nref d ≠ 0 :=
  ⟨(p1Triangle 2).inv (fun i d => if i = 0 ∧ d = 1 then 0 else i + d + 1), _, fun _ => 1,
    p1Triangle_inv (fun i d => if i = 0 ∧ d = 1 then 0 else i + d + 1) (by norm_num),
    0, by norm_num, by norm_num⟩

/-- The bilinear quadrilateral in the plane; the inverse is by Cramer's rule. -/
def q1Quad : Cmap where
  gdim := 2
  tdim := 2
  ndofs := 4
  affine := false
  phi := fun X j => if j = 0 then (1 - X 0) * (1 - X 1) else if j = 1 then X 0 * (1 - X 1)
    else if j = 2 then (1 - X 0) * X 1 else X 0 * X 1
  dphi := fun X d j => if d = 0 then (if j = 0 then -(1 - X 1) else if j = 1 then 1 - X 1
    else if j = 2 then -X 1 else X 1)
    else (if j = 0 then -(1 - X 0) else if j = 1 then -X 0 else if j = 2 then 1 - X 0 else X 0)
  inv := (p1Triangle 2).inv

/-- Nodes (0,0), (1,0), (0,1), (3,2): not a parallelogram. -/
def exQuad (j i : ℕ) : ℝ :=
  if j = 1 then (if i = 0 then 1 else 0) else if j = 2 then (if i = 0 then 0 else 1)
  else if j = 3 then (if i = 0 then 3 else 2) else 0

theorem exQuad_jac (X : ℕ → ℝ) : jac q1Quad exQuad X 0 0 = 1 + 2 * X 1 ∧ jac q1Quad exQuad X 0 1 = 2 * X 0
    ∧ jac q1Quad exQuad X 1 0 = X 1 ∧ jac q1Quad exQuad X 1 1 = 1 + X 0 := by
  refine ⟨?_, ?_, ?_, ?_⟩ <;> simp [jac, q1Quad, exQuad, sum_range_succ] <;> ring

/-- C66 on a non-affine cell: a quadrilateral that is not a parallelogram, whose Jacobian is singular at some
points of the plane, and the point (0, 1/2) of one of its sides: the pull back converges there, and the
Jacobian is invertible at the point found. -/
example : (∃ X, jac q1Quad exQuad X 0 0 * jac q1Quad exQuad X 1 1 - jac q1Quad exQuad X 0 1 * jac q1Quad exQuad X 1 0 = 0)
    ∧ (∃ X, pullBackNonaffine q1Quad exQuad (fun i => if i = 1 then 1 / 2 else 0) 1e-8 10 = .ok X)
    ∧ ∀ X, (q1Quad.affine = true ∧ X = fun _ => 0)
        ∨ pullBackNonaffine q1Quad exQuad (fun i => if i = 1 then 1 / 2 else 0) 1e-8 10 = .ok X →
      LeftInverse q1Quad.gdim q1Quad.tdim (q1Quad.inv (jacobian q1Quad.ndofs exQuad (q1Quad.dphi X)))
        (jacobian q1Quad.ndofs exQuad (q1Quad.dphi X)) := by
  have h0 : ∀ i, increment q1Quad exQuad (fun i => if i = 1 then 1 / 2 else 0) (fun _ => 0) i
      = if i = 0 then 0 else 1 / 2 := by
    intro i
    obtain ⟨a, b, c, d⟩ := exQuad_jac (fun _ => 0)
    show ∑ j ∈ range 2, (p1Triangle 2).inv (jac q1Quad exQuad (fun _ => 0)) i j * _ = _
    simp only [p1Triangle, a, b, c, d]
    by_cases hi : i = 0 <;> simp [hi, push, q1Quad, exQuad]
  have h1 : ∀ i, increment q1Quad exQuad (fun i => if i = 1 then 1 / 2 else 0)
      (fun i => increment q1Quad exQuad (fun i => if i = 1 then 1 / 2 else 0) (fun _ => 0) i + 0) i = 0 := by
    intro i
    simp only [h0]
    rw [increment]
    refine sum_eq_zero (fun j hj => ?_)
    have hj : j < 2 := mem_range.mp hj
    have : push q1Quad exQuad (fun i => (if i = 0 then 0 else 1 / 2) + 0) j = if j = 1 then 1 / 2 else 0 := by
      interval_cases j <;> simp [push, q1Quad, exQuad, sum_range_succ]
    rw [this, sub_self, mul_zero]
  have hres : pullBackNonaffine q1Quad exQuad (fun i => if i = 1 then 1 / 2 else 0) 1e-8 10
      = .ok (fun i => if i = 0 then 0 else 1 / 2) := by
    rw [pullBackNonaffine, newtonPullBack, if_neg, newtonPullBack, if_pos]
    · congr 1; funext i; rw [h1, h0, zero_add, add_zero]
    · simp only [h1]; norm_num
    · simp only [h0]
      show ¬ Real.sqrt (∑ i ∈ range 2, _) < _
      simp only [sum_range_succ, sum_range_zero]
      norm_num
      rw [show (4 : ℝ) = 2 ^ 2 by norm_num, Real.sqrt_sq (by norm_num)]
      norm_num
  refine ⟨⟨fun i => if i = 0 then -1 else 0, ?_⟩, ⟨_, hres⟩, ?_⟩
  · obtain ⟨a, b, c, d⟩ := exQuad_jac (fun i => if i = 0 then -1 else 0)
    rw [a, b, c, d]; norm_num
  · rintro X (⟨h, _⟩ | h)
    · cases h
    · rw [hres] at h
      obtain rfl : _ = X := by injection h
      refine p1Triangle_inv _ ?_
      obtain ⟨a, b, c, d⟩ := exQuad_jac (fun i => if i = 0 then 0 else 1 / 2)
      show jac q1Quad exQuad _ 0 0 * jac q1Quad exQuad _ 1 1 - jac q1Quad exQuad _ 0 1 * jac q1Quad exQuad _ 1 0 ≠ 0
      rw [a, b, c, d]; norm_num

/-! ### C67 -/

theorem sqrt_eq_of_sq {S R : ℝ} (hR : 0 ≤ R) (h : R ^ 2 = S) : Real.sqrt S = R := by
  rw [← h, Real.sqrt_sq hR]

theorem edgeSq_nonneg (gdim : ℕ) (geo : ℕ → ℕ → ℝ) (a b : ℕ) : 0 ≤ edgeSq gdim geo a b :=
  sum_nonneg (fun _ _ => sq_nonneg _)

/-- Triangles in any dimension, for a determinant whose square is the Gram determinant. -/
theorem triangle_circumradius (gdim : ℕ) (geo : ℕ → ℕ → ℝ) (D : ℝ) (h0 : D ≠ 0)
    (hD : D ^ 2 = (∑ i ∈ range gdim, (geo 1 i - geo 0 i) ^ 2) * (∑ i ∈ range gdim, (geo 2 i - geo 0 i) ^ 2)
      - (∑ i ∈ range gdim, (geo 1 i - geo 0 i) * (geo 2 i - geo 0 i)) ^ 2) :
    ∃ R, computeCircumradius .triangle gdim D geo = .ok R ∧ IsCircumradius gdim 2 geo R := by
  set U := ∑ i ∈ range gdim, (geo 1 i - geo 0 i) ^ 2 with hU
  set V := ∑ i ∈ range gdim, (geo 2 i - geo 0 i) ^ 2 with hV
  set d := ∑ i ∈ range gdim, (geo 1 i - geo 0 i) * (geo 2 i - geo 0 i) with hd
  have hS : ∀ a b : ℝ, ∑ i ∈ range gdim, (a * (geo 1 i - geo 0 i) + b * (geo 2 i - geo 0 i)) ^ 2
      = a ^ 2 * U + 2 * a * b * d + b ^ 2 * V := by
    intro a b
    rw [hU, hV, hd, mul_sum, mul_sum, mul_sum, ← sum_add_distrib, ← sum_add_distrib]
    exact sum_congr rfl (fun i _ => by ring)
  have e01 : edgeSq gdim geo 0 1 = U := sum_congr rfl (fun i _ => by ring)
  have e20 : edgeSq gdim geo 2 0 = V := rfl
  have e12 : edgeSq gdim geo 1 2 = U - 2 * d + V := by
    have := hS 1 (-1)
    rw [show U - 2 * d + V = 1 ^ 2 * U + 2 * 1 * -1 * d + (-1) ^ 2 * V by ring, ← this]
    exact sum_congr rfl (fun i _ => by ring)
  have n01 := edgeSq_nonneg gdim geo 0 1
  have n20 := edgeSq_nonneg gdim geo 2 0
  have n12 := edgeSq_nonneg gdim geo 1 2
  rw [computeCircumradius]
  refine ⟨_, rfl, ?_⟩
  set R := Real.sqrt (edgeSq gdim geo 0 1) * Real.sqrt (edgeSq gdim geo 1 2) *
    Real.sqrt (edgeSq gdim geo 2 0) / (4 * (1 / 2 * |D|)) with hR
  have hRn : 0 ≤ R := by positivity
  have hR2 : R ^ 2 = U * V * (U - 2 * d + V) / (4 * D ^ 2) := by
    rw [hR, div_pow, mul_pow, mul_pow, Real.sq_sqrt n01, Real.sq_sqrt n12, Real.sq_sqrt n20, mul_pow,
      mul_pow, sq_abs, e01, e12, e20]
    field_simp
    ring
  have hD2 : D ^ 2 ≠ 0 := pow_ne_zero 2 h0
  set al := V * (U - d) / (2 * D ^ 2) with hal
  set be := U * (V - d) / (2 * D ^ 2) with hbe
  refine ⟨fun j => if j = 0 then 1 - al - be else if j = 1 then al else be,
    fun i => geo 0 i + al * (geo 1 i - geo 0 i) + be * (geo 2 i - geo 0 i), ?_, ?_, ?_⟩
  · simp [sum_range_succ]; ring
  · intro i _
    simp [sum_range_succ]; ring
  · have hdist : ∀ j, ∀ a b : ℝ, (∀ i, geo 0 i + al * (geo 1 i - geo 0 i) + be * (geo 2 i - geo 0 i) - geo j i
          = a * (geo 1 i - geo 0 i) + b * (geo 2 i - geo 0 i)) →
        R ^ 2 = a ^ 2 * U + 2 * a * b * d + b ^ 2 * V →
        dist gdim (fun i => geo 0 i + al * (geo 1 i - geo 0 i) + be * (geo 2 i - geo 0 i)) (geo j) = R := by
      intro j a b h1 h2
      rw [dist, sum_congr rfl (fun i _ => by rw [h1 i]), hS]
      exact sqrt_eq_of_sq hRn h2
    intro j hj
    generalize hG : D ^ 2 = G at *
    interval_cases j
    · refine hdist 0 al be (fun i => by ring) ?_
      rw [hR2, hal, hbe]
      field_simp
      rw [hD]
      ring
    · refine hdist 1 (al - 1) be (fun i => by ring) ?_
      rw [hR2, hal, hbe]
      field_simp
      rw [hD]
      ring
    · refine hdist 2 al (be - 1) (fun i => by ring) ?_
      rw [hR2, hal, hbe]
      field_simp
      rw [hD]
      ring

theorem tetra_gram (U V W a b c p q r : ℝ) (hp : p = U * (V + W - 2 * b)) (hq : q = V * (U + W - 2 * c))
    (hr : r = W * (U + V - 2 * a)) :
    2 * (p * q + q * r + r * p) - p ^ 2 - q ^ 2 - r ^ 2 =
      4 * (U ^ 2 * (V * W - b ^ 2) + V ^ 2 * (W * U - c ^ 2) + W ^ 2 * (U * V - a ^ 2)
        + 2 * U * V * (b * c - a * W) + 2 * V * W * (c * a - b * U) + 2 * W * U * (a * b - c * V)) := by
  subst hp hq hr; ring

/-- Tetrahedra in space. -/
theorem tetra_circumradius (geo : ℕ → ℕ → ℝ) (D : ℝ) (h0 : D ≠ 0)
    (hD : D = (geo 1 0 - geo 0 0) * ((geo 2 1 - geo 0 1) * (geo 3 2 - geo 0 2) - (geo 3 1 - geo 0 1) * (geo 2 2 - geo 0 2))
      - (geo 2 0 - geo 0 0) * ((geo 1 1 - geo 0 1) * (geo 3 2 - geo 0 2) - (geo 3 1 - geo 0 1) * (geo 1 2 - geo 0 2))
      + (geo 3 0 - geo 0 0) * ((geo 1 1 - geo 0 1) * (geo 2 2 - geo 0 2) - (geo 2 1 - geo 0 1) * (geo 1 2 - geo 0 2))) :
    ∃ R, computeCircumradius .tetrahedron 3 D geo = .ok R ∧ IsCircumradius 3 3 geo R := by
  have n01 := edgeSq_nonneg 3 geo 0 1
  have n02 := edgeSq_nonneg 3 geo 0 2
  have n03 := edgeSq_nonneg 3 geo 0 3
  have n23 := edgeSq_nonneg 3 geo 2 3
  have n13 := edgeSq_nonneg 3 geo 1 3
  have n12 := edgeSq_nonneg 3 geo 1 2
  rw [computeCircumradius]
  refine ⟨_, rfl, ?_⟩
  set p := Real.sqrt (edgeSq 3 geo 0 1) * Real.sqrt (edgeSq 3 geo 2 3) with hp
  set q := Real.sqrt (edgeSq 3 geo 0 2) * Real.sqrt (edgeSq 3 geo 1 3) with hq
  set r := Real.sqrt (edgeSq 3 geo 0 3) * Real.sqrt (edgeSq 3 geo 1 2) with hr
  have hp2 : p ^ 2 = edgeSq 3 geo 0 1 * edgeSq 3 geo 2 3 := by
    rw [hp, mul_pow, Real.sq_sqrt n01, Real.sq_sqrt n23]
  have hq2 : q ^ 2 = edgeSq 3 geo 0 2 * edgeSq 3 geo 1 3 := by
    rw [hq, mul_pow, Real.sq_sqrt n02, Real.sq_sqrt n13]
  have hr2 : r ^ 2 = edgeSq 3 geo 0 3 * edgeSq 3 geo 1 2 := by
    rw [hr, mul_pow, Real.sq_sqrt n03, Real.sq_sqrt n12]
  clear_value p q r
  -- edges from node 0
  generalize hu0 : geo 1 0 - geo 0 0 = u0 at *
  generalize hu1 : geo 1 1 - geo 0 1 = u1 at *
  generalize hu2 : geo 1 2 - geo 0 2 = u2 at *
  generalize hv0 : geo 2 0 - geo 0 0 = v0 at *
  generalize hv1 : geo 2 1 - geo 0 1 = v1 at *
  generalize hv2 : geo 2 2 - geo 0 2 = v2 at *
  generalize hw0 : geo 3 0 - geo 0 0 = w0 at *
  generalize hw1 : geo 3 1 - geo 0 1 = w1 at *
  generalize hw2 : geo 3 2 - geo 0 2 = w2 at *
  obtain ⟨U, hU⟩ : ∃ U, U = u0 ^ 2 + u1 ^ 2 + u2 ^ 2 := ⟨_, rfl⟩
  obtain ⟨V, hV⟩ : ∃ V, V = v0 ^ 2 + v1 ^ 2 + v2 ^ 2 := ⟨_, rfl⟩
  obtain ⟨W, hW⟩ : ∃ W, W = w0 ^ 2 + w1 ^ 2 + w2 ^ 2 := ⟨_, rfl⟩
  obtain ⟨a, ha⟩ : ∃ a, a = u0 * v0 + u1 * v1 + u2 * v2 := ⟨_, rfl⟩
  obtain ⟨b, hb⟩ : ∃ b, b = v0 * w0 + v1 * w1 + v2 * w2 := ⟨_, rfl⟩
  obtain ⟨c, hc⟩ : ∃ c, c = w0 * u0 + w1 * u1 + w2 * u2 := ⟨_, rfl⟩
  have e01 : edgeSq 3 geo 0 1 = U := by
    rw [hU, ← hu0, ← hu1, ← hu2]; simp [edgeSq, sum_range_succ]; ring
  have e02 : edgeSq 3 geo 0 2 = V := by
    rw [hV, ← hv0, ← hv1, ← hv2]; simp [edgeSq, sum_range_succ]; ring
  have e03 : edgeSq 3 geo 0 3 = W := by
    rw [hW, ← hw0, ← hw1, ← hw2]; simp [edgeSq, sum_range_succ]; ring
  have e23 : edgeSq 3 geo 2 3 = V + W - 2 * b := by
    rw [hV, hW, hb, ← hw0, ← hw1, ← hw2, ← hv0, ← hv1, ← hv2]; simp [edgeSq, sum_range_succ]; ring
  have e13 : edgeSq 3 geo 1 3 = U + W - 2 * c := by
    rw [hU, hW, hc, ← hw0, ← hw1, ← hw2, ← hu0, ← hu1, ← hu2]; simp [edgeSq, sum_range_succ]; ring
  have e12 : edgeSq 3 geo 1 2 = U + V - 2 * a := by
    rw [hU, hV, ha, ← hv0, ← hv1, ← hv2, ← hu0, ← hu1, ← hu2]; simp [edgeSq, sum_range_succ]; ring
  -- the centre
  obtain ⟨N0, hN0⟩ : ∃ N, N = U * (v1 * w2 - v2 * w1) + V * (w1 * u2 - w2 * u1) + W * (u1 * v2 - u2 * v1) := ⟨_, rfl⟩
  obtain ⟨N1, hN1⟩ : ∃ N, N = U * (v2 * w0 - v0 * w2) + V * (w2 * u0 - w0 * u2) + W * (u2 * v0 - u0 * v2) := ⟨_, rfl⟩
  obtain ⟨N2, hN2⟩ : ∃ N, N = U * (v0 * w1 - v1 * w0) + V * (w0 * u1 - w1 * u0) + W * (u0 * v1 - u1 * v0) := ⟨_, rfl⟩
  have hNN : N0 ^ 2 + N1 ^ 2 + N2 ^ 2 = U ^ 2 * (V * W - b ^ 2) + V ^ 2 * (W * U - c ^ 2)
      + W ^ 2 * (U * V - a ^ 2) + 2 * U * V * (b * c - a * W) + 2 * V * W * (c * a - b * U)
      + 2 * W * U * (a * b - c * V) := by
    have c1 : V * W - b ^ 2 = (v1 * w2 - v2 * w1) ^ 2 + (v2 * w0 - v0 * w2) ^ 2 + (v0 * w1 - v1 * w0) ^ 2 := by
      rw [hV, hW, hb]; ring
    have c2 : W * U - c ^ 2 = (w1 * u2 - w2 * u1) ^ 2 + (w2 * u0 - w0 * u2) ^ 2 + (w0 * u1 - w1 * u0) ^ 2 := by
      rw [hU, hW, hc]; ring
    have c3 : U * V - a ^ 2 = (u1 * v2 - u2 * v1) ^ 2 + (u2 * v0 - u0 * v2) ^ 2 + (u0 * v1 - u1 * v0) ^ 2 := by
      rw [hU, hV, ha]; ring
    have c4 : b * c - a * W = (v1 * w2 - v2 * w1) * (w1 * u2 - w2 * u1)
        + (v2 * w0 - v0 * w2) * (w2 * u0 - w0 * u2) + (v0 * w1 - v1 * w0) * (w0 * u1 - w1 * u0) := by
      rw [hW, ha, hb, hc]; ring
    have c5 : c * a - b * U = (w1 * u2 - w2 * u1) * (u1 * v2 - u2 * v1)
        + (w2 * u0 - w0 * u2) * (u2 * v0 - u0 * v2) + (w0 * u1 - w1 * u0) * (u0 * v1 - u1 * v0) := by
      rw [hU, ha, hb, hc]; ring
    have c6 : a * b - c * V = (u1 * v2 - u2 * v1) * (v1 * w2 - v2 * w1)
        + (u2 * v0 - u0 * v2) * (v2 * w0 - v0 * w2) + (u0 * v1 - u1 * v0) * (v0 * w1 - v1 * w0) := by
      rw [hV, ha, hb, hc]; ring
    rw [c1, c2, c3, c4, c5, c6, hN0, hN1, hN2]; ring
  have hP : (p + q + r) * (p + q - r) * (p - q + r) * (-p + q + r) = 4 * (N0 ^ 2 + N1 ^ 2 + N2 ^ 2) := by
    rw [hNN, ← tetra_gram U V W a b c (p ^ 2) (q ^ 2) (r ^ 2) (by rw [hp2, e01, e23])
      (by rw [hq2, e02, e13]) (by rw [hr2, e03, e12])]
    ring
  set R := Real.sqrt ((p + q + r) * (p + q - r) * (p - q + r) * (-p + q + r)) / (24 * (|D| * (1 / 6))) with hR
  have hRn : 0 ≤ R := by positivity
  have hR2 : R ^ 2 = (N0 / (2 * D)) ^ 2 + (N1 / (2 * D)) ^ 2 + (N2 / (2 * D)) ^ 2 := by
    rw [hR, hP, div_pow, Real.sq_sqrt (by positivity), mul_pow, mul_pow, sq_abs]
    field_simp
    ring
  have du : 2 * (N0 / (2 * D) * u0 + N1 / (2 * D) * u1 + N2 / (2 * D) * u2) = U := by
    have : N0 * u0 + N1 * u1 + N2 * u2 = U * D := by rw [hN0, hN1, hN2, hD]; ring
    field_simp; linarith
  have dv : 2 * (N0 / (2 * D) * v0 + N1 / (2 * D) * v1 + N2 / (2 * D) * v2) = V := by
    have : N0 * v0 + N1 * v1 + N2 * v2 = V * D := by rw [hN0, hN1, hN2, hD]; ring
    field_simp; linarith
  have dw : 2 * (N0 / (2 * D) * w0 + N1 / (2 * D) * w1 + N2 / (2 * D) * w2) = W := by
    have : N0 * w0 + N1 * w1 + N2 * w2 = W * D := by rw [hN0, hN1, hN2, hD]; ring
    field_simp; linarith
  generalize N0 / (2 * D) = o0 at *
  generalize N1 / (2 * D) = o1 at *
  generalize N2 / (2 * D) = o2 at *
  -- barycentric coordinates by Cramer's rule
  set al := (o0 * (v1 * w2 - w1 * v2) - v0 * (o1 * w2 - w1 * o2) + w0 * (o1 * v2 - v1 * o2)) / D with hal
  set be := (u0 * (o1 * w2 - w1 * o2) - o0 * (u1 * w2 - w1 * u2) + w0 * (u1 * o2 - o1 * u2)) / D with hbe
  set ga := (u0 * (v1 * o2 - o1 * v2) - v0 * (u1 * o2 - o1 * u2) + o0 * (u1 * v2 - v1 * u2)) / D with hga
  have x0 : o0 = al * u0 + be * v0 + ga * w0 := by
    rw [hal, hbe, hga]; field_simp; rw [hD]; ring
  have x1 : o1 = al * u1 + be * v1 + ga * w1 := by
    rw [hal, hbe, hga]; field_simp; rw [hD]; ring
  have x2 : o2 = al * u2 + be * v2 + ga * w2 := by
    rw [hal, hbe, hga]; field_simp; rw [hD]; ring
  clear_value al be ga
  refine ⟨fun j => if j = 0 then 1 - al - be - ga else if j = 1 then al else if j = 2 then be else ga,
    fun i => geo 0 i + (if i = 0 then o0 else if i = 1 then o1 else o2), ?_, ?_, ?_⟩
  · simp [sum_range_succ]; ring
  · intro i hi
    interval_cases i
    · simp [sum_range_succ]; rw [x0, ← hu0, ← hv0, ← hw0]; ring
    · simp [sum_range_succ]; rw [x1, ← hu1, ← hv1, ← hw1]; ring
    · simp [sum_range_succ]; rw [x2, ← hu2, ← hv2, ← hw2]; ring
  · intro j hj
    refine sqrt_eq_of_sq hRn ?_
    rw [hR2]
    interval_cases j
    · simp [sum_range_succ]
    · have : ∑ i ∈ range 3, (geo 0 i + (if i = 0 then o0 else if i = 1 then o1 else o2) - geo 1 i) ^ 2
          = (o0 - u0) ^ 2 + (o1 - u1) ^ 2 + (o2 - u2) ^ 2 := by
        simp [sum_range_succ, ← hu0, ← hu1, ← hu2]; ring
      rw [this]; rw [hU] at du; linear_combination du
    · have : ∑ i ∈ range 3, (geo 0 i + (if i = 0 then o0 else if i = 1 then o1 else o2) - geo 2 i) ^ 2
          = (o0 - v0) ^ 2 + (o1 - v1) ^ 2 + (o2 - v2) ^ 2 := by
        simp [sum_range_succ, ← hv0, ← hv1, ← hv2]; ring
      rw [this]; rw [hV] at dv; linear_combination dv
    · have : ∑ i ∈ range 3, (geo 0 i + (if i = 0 then o0 else if i = 1 then o1 else o2) - geo 3 i) ^ 2
          = (o0 - w0) ^ 2 + (o1 - w1) ^ 2 + (o2 - w2) ^ 2 := by
        simp [sum_range_succ, ← hw0, ← hw1, ← hw2]; ring
      rw [this]; rw [hW] at dw; linear_combination dw

/-- A linear simplex element: derivatives of the barycentric coordinates. -/
structure IsP1 (C : Cmap) : Prop where
  ndofs : C.ndofs = C.tdim + 1
  dphi : ∀ X, ∀ d < C.tdim, ∀ j, C.dphi X d j = if j = 0 then -1 else if j = d + 1 then 1 else 0

theorem jac_p1 (C : Cmap) (h : IsP1 C) (geo : ℕ → ℕ → ℝ) (X : ℕ → ℝ) (i d : ℕ) (hd : d < C.tdim) :
    jac C geo X i d = geo (d + 1) i - geo 0 i := by
  rw [jac, h.ndofs, sum_range_succ']
  rw [sum_congr rfl (fun j _ => by
    rw [h.dphi X d hd, if_neg (Nat.succ_ne_zero j)])]
  rw [h.dphi X d hd 0, if_pos rfl]
  have : ∑ x ∈ range C.tdim, geo (x + 1) i * (if x + 1 = d + 1 then (1 : ℝ) else 0) = geo (d + 1) i := by
    rw [sum_eq_single d]
    · simp
    · intro b _ hb; rw [if_neg (by omega), mul_zero]
    · intro h'; exact absurd (mem_range.mpr hd) h'
  rw [this]; ring

theorem gram_pos (gdim : ℕ) (geo : ℕ → ℕ → ℝ) (h : Nondegenerate gdim 2 geo) :
    0 < (∑ i ∈ range gdim, (geo 1 i - geo 0 i) ^ 2) * (∑ i ∈ range gdim, (geo 2 i - geo 0 i) ^ 2)
      - (∑ i ∈ range gdim, (geo 1 i - geo 0 i) * (geo 2 i - geo 0 i)) ^ 2 := by
  set U := ∑ i ∈ range gdim, (geo 1 i - geo 0 i) ^ 2 with hU
  set V := ∑ i ∈ range gdim, (geo 2 i - geo 0 i) ^ 2 with hV
  set d := ∑ i ∈ range gdim, (geo 1 i - geo 0 i) * (geo 2 i - geo 0 i) with hd
  have hS : ∀ a b : ℝ, ∑ i ∈ range gdim, (a * (geo 1 i - geo 0 i) + b * (geo 2 i - geo 0 i)) ^ 2
      = a ^ 2 * U + 2 * a * b * d + b ^ 2 * V := by
    intro a b
    rw [hU, hV, hd, mul_sum, mul_sum, mul_sum, ← sum_add_distrib, ← sum_add_distrib]
    exact sum_congr rfl (fun i _ => by ring)
  have hzero : ∀ a b : ℝ, a ^ 2 * U + 2 * a * b * d + b ^ 2 * V = 0 → a = 0 ∧ b = 0 := by
    intro a b hz
    rw [← hS, sum_eq_zero_iff_of_nonneg (fun _ _ => sq_nonneg _)] at hz
    have := h (fun j => if j = 0 then a else b) (fun i hi => by
      have := pow_eq_zero_iff two_ne_zero |>.mp (hz i (mem_range.mpr hi))
      simpa [sum_range_succ] using this)
    exact ⟨by simpa using this 0 (by omega), by simpa using this 1 (by omega)⟩
  have hVn : V ≠ 0 := by
    intro h0
    have := (hzero 0 1 (by rw [h0]; ring)).2
    norm_num at this
  have hVp : 0 < V := lt_of_le_of_ne (sum_nonneg (fun _ _ => sq_nonneg _)) (Ne.symm hVn)
  have hge : 0 ≤ V ^ 2 * U + 2 * V * (-d) * d + (-d) ^ 2 * V := by
    rw [← hS]; exact sum_nonneg (fun _ _ => sq_nonneg _)
  have hne : V ^ 2 * U + 2 * V * (-d) * d + (-d) ^ 2 * V ≠ 0 := fun h0 => hVn (hzero _ _ h0).1
  have hpos := lt_of_le_of_ne hge (Ne.symm hne)
  have : V ^ 2 * U + 2 * V * (-d) * d + (-d) ^ 2 * V = V * (U * V - d ^ 2) := by ring
  rw [this] at hpos
  exact (mul_pos_iff_of_pos_left hVp).mp hpos

theorem det_ne (geo : ℕ → ℕ → ℝ) (h : Nondegenerate 3 3 geo) (u v w : ℕ → ℝ)
    (hu : u = fun i => geo 1 i - geo 0 i) (hv : v = fun i => geo 2 i - geo 0 i)
    (hw : w = fun i => geo 3 i - geo 0 i) :
    u 0 * (v 1 * w 2 - w 1 * v 2) - v 0 * (u 1 * w 2 - w 1 * u 2) + w 0 * (u 1 * v 2 - v 1 * u 2) ≠ 0 := by
  have hc : ∀ a b c : ℝ, (∀ i < 3, a * u i + b * v i + c * w i = 0) → a = 0 ∧ b = 0 ∧ c = 0 := by
    intro a b c habc
    have := h (fun j => if j = 0 then a else if j = 1 then b else c) (fun i hi => by
      have := habc i hi
      rw [hu, hv, hw] at this
      simpa [sum_range_succ] using this)
    exact ⟨by simpa using this 0 (by omega), by simpa using this 1 (by omega),
      by simpa using this 2 (by omega)⟩
  intro hD
  clear hu hv hw
  have c2 := hc (v 0 * w 1 - v 1 * w 0) (w 0 * u 1 - w 1 * u 0) (u 0 * v 1 - u 1 * v 0) (by
    intro i hi; interval_cases i
    · ring
    · ring
    · linear_combination hD)
  have c1 := hc (v 2 * w 0 - v 0 * w 2) (w 2 * u 0 - w 0 * u 2) (u 2 * v 0 - u 0 * v 2) (by
    intro i hi; interval_cases i
    · ring
    · linear_combination hD
    · ring)
  have c0 := hc (v 1 * w 2 - v 2 * w 1) (w 1 * u 2 - w 2 * u 1) (u 1 * v 2 - u 2 * v 1) (by
    intro i hi; interval_cases i
    · linear_combination hD
    · ring
    · ring)
  have d0 := hc (v 0) (-(u 0)) 0 (by
    intro i hi; interval_cases i
    · ring
    · linear_combination -c2.2.2
    · linear_combination c1.2.2)
  have d1 := hc (v 1) (-(u 1)) 0 (by
    intro i hi; interval_cases i
    · linear_combination c2.2.2
    · ring
    · linear_combination -c0.2.2)
  have d2 := hc (v 2) (-(u 2)) 0 (by
    intro i hi; interval_cases i
    · linear_combination -c1.2.2
    · linear_combination c0.2.2
    · ring)
  have := hc 1 0 0 (by
    intro i hi
    have e0 : u 0 = 0 := neg_eq_zero.mp d0.2.1
    have e1 : u 1 = 0 := neg_eq_zero.mp d1.2.1
    have e2 : u 2 = 0 := neg_eq_zero.mp d2.2.1
    interval_cases i
    · rw [e0]; ring
    · rw [e1]; ring
    · rw [e2]; ring)
  exact one_ne_zero this.1

/-- Meshes `pack_circumradius` is meant for. -/
def SimplexMesh (cell : CellType) (C : Cmap) : Prop :=
  (cell = .triangle ∧ C.tdim = 2 ∧ (C.gdim = 2 ∨ C.gdim = 3)) ∨
  (cell = .tetrahedron ∧ C.tdim = 3 ∧ C.gdim = 3)

theorem circumradius_cell (cell : CellType) (C : Cmap) (hm : SimplexMesh cell C) (hp : IsP1 C)
    (geo : ℕ → ℕ → ℝ) (X : ℕ → ℝ) (hn : Nondegenerate C.gdim C.tdim geo) :
    ∃ R, computeCircumradius cell C.gdim (jacDet C.tdim C.gdim (jac C geo X)) geo = .ok R ∧
      IsCircumradius C.gdim C.tdim geo R := by
  rcases hm with ⟨rfl, ht, hg⟩ | ⟨rfl, ht, hg⟩
  · have hj := jac_p1 C hp geo X
    rw [ht] at hj hn ⊢
    have hG := gram_pos C.gdim geo hn
    rcases hg with hg | hg
    · rw [hg] at hG ⊢
      have hD : jacDet 2 2 (jac C geo X) ^ 2 = (∑ i ∈ range 2, (geo 1 i - geo 0 i) ^ 2) *
          (∑ i ∈ range 2, (geo 2 i - geo 0 i) ^ 2)
          - (∑ i ∈ range 2, (geo 1 i - geo 0 i) * (geo 2 i - geo 0 i)) ^ 2 := by
        rw [jacDet, if_pos ⟨rfl, rfl⟩, hj 0 0 (by omega), hj 0 1 (by omega), hj 1 0 (by omega),
          hj 1 1 (by omega)]
        simp only [sum_range_succ, sum_range_zero]
        ring
      refine triangle_circumradius 2 geo _ (fun h0 => ?_) hD
      rw [h0] at hD
      rw [← hD] at hG
      norm_num at hG
    · rw [hg] at hG ⊢
      have hD : jacDet 2 3 (jac C geo X) = Real.sqrt ((∑ i ∈ range 3, (geo 1 i - geo 0 i) ^ 2) *
          (∑ i ∈ range 3, (geo 2 i - geo 0 i) ^ 2)
          - (∑ i ∈ range 3, (geo 1 i - geo 0 i) * (geo 2 i - geo 0 i)) ^ 2) := by
        rw [jacDet, if_neg (by omega), if_neg (by omega)]
        simp only [hj _ 0 (by omega : 0 < 2), hj _ 1 (by omega : 1 < 2)]
        congr 1
        simp only [sum_range_succ, sum_range_zero]
        ring
      rw [hD]
      exact triangle_circumradius 3 geo _ (Real.sqrt_pos.mpr hG).ne' (Real.sq_sqrt hG.le)
  · have hj := jac_p1 C hp geo X
    rw [ht, hg] at hn
    rw [ht] at hj
    rw [ht, hg]
    have hD : jacDet 3 3 (jac C geo X) =
        (geo 1 0 - geo 0 0) * ((geo 2 1 - geo 0 1) * (geo 3 2 - geo 0 2) - (geo 3 1 - geo 0 1) * (geo 2 2 - geo 0 2))
        - (geo 2 0 - geo 0 0) * ((geo 1 1 - geo 0 1) * (geo 3 2 - geo 0 2) - (geo 3 1 - geo 0 1) * (geo 1 2 - geo 0 2))
        + (geo 3 0 - geo 0 0) * ((geo 1 1 - geo 0 1) * (geo 2 2 - geo 0 2) - (geo 2 1 - geo 0 1) * (geo 1 2 - geo 0 2)) := by
      rw [jacDet, if_neg (by omega), if_pos ⟨rfl, rfl⟩]
      simp only [hj _ 0 (by omega : 0 < 3), hj _ 1 (by omega : 1 < 3), hj _ 2 (by omega : 2 < 3)]
    refine tetra_circumradius geo _ ?_ hD
    rw [hD]
    exact det_ne geo hn _ _ _ rfl rfl rfl

/-- C67: for every list of facets of an affine mesh of non-degenerate triangles or tetrahedra, the
packed values are the circumradii of the facets' cells, one per facet, in order. -/
theorem C67_circumradius (cell : CellType) (C : Cmap) (hm : SimplexMesh cell C) (hp : IsP1 C)
    (haff : C.affine = true) (q : ℕ → ℕ → ℝ) (geo : ℕ → ℕ → ℕ → ℝ) (facets : List (ℕ × ℕ))
    (hn : ∀ p ∈ facets, Nondegenerate C.gdim C.tdim (geo p.1)) :
    ∃ Rs, packCircumradius cell C q geo facets = .ok Rs ∧
      List.Forall₂ (fun p R => IsCircumradius C.gdim C.tdim (geo p.1) R) facets Rs := by
  have hcell : checkCellType cell = .ok () := by
    rcases hm with ⟨rfl, _⟩ | ⟨rfl, _⟩ <;> rfl
  rw [packCircumradius, haff, hcell]
  simp only [Bool.not_true, Bool.false_eq_true, if_false]
  clear hcell
  induction facets with
  | nil => exact ⟨[], rfl, .nil⟩
  | cons p l ih =>
    obtain ⟨R, h1, h2⟩ := circumradius_cell cell C hm hp (geo p.1) (q p.2) (hn p (List.mem_cons_self ..))
    obtain ⟨Rs, h3, h4⟩ := ih (fun p hp => hn p (List.mem_cons_of_mem _ hp))
    refine ⟨R :: Rs, ?_, .cons h2 h4⟩
    rw [List.mapM_cons, h1, h3]
    rfl

/-- The circumradius is unique, so `C67_circumradius` determines the packed values. -/
theorem C67_unique (gdim n : ℕ) (geo : ℕ → ℕ → ℝ) (R R' : ℝ) (h : IsCircumradius gdim n geo R)
    (h' : IsCircumradius gdim n geo R') : R = R' := by
  obtain ⟨w, c, hw, hc, hd⟩ := h
  obtain ⟨w', c', hw', hc', hd'⟩ := h'
  have hR : 0 ≤ R := (hd 0 (by omega)) ▸ Real.sqrt_nonneg _
  have hR' : 0 ≤ R' := (hd' 0 (by omega)) ▸ Real.sqrt_nonneg _
  have s : ∀ j ≤ n, ∑ i ∈ range gdim, (c i - geo j i) ^ 2 = R ^ 2 := fun j hj => by
    rw [← hd j hj, dist, Real.sq_sqrt (sum_nonneg (fun _ _ => sq_nonneg _))]
  have s' : ∀ j ≤ n, ∑ i ∈ range gdim, (c' i - geo j i) ^ 2 = R' ^ 2 := fun j hj => by
    rw [← hd' j hj, dist, Real.sq_sqrt (sum_nonneg (fun _ _ => sq_nonneg _))]
  -- averaging |c - x_j|² over weights with sum one at a point of the span
  have avg : ∀ (c z w : ℕ → ℝ) (S : ℝ), (∀ j ≤ n, ∑ i ∈ range gdim, (c i - geo j i) ^ 2 = S) →
      ∑ j ∈ range (n + 1), w j = 1 → (∀ i < gdim, z i = ∑ j ∈ range (n + 1), w j * geo j i) →
      ∑ j ∈ range (n + 1), w j * ∑ i ∈ range gdim, (z i - geo j i) ^ 2
        = S - ∑ i ∈ range gdim, (c i - z i) ^ 2 := by
    intro c z w S hS hw hz
    have e : ∀ j, ∑ i ∈ range gdim, (z i - geo j i) ^ 2 = ∑ i ∈ range gdim, (c i - geo j i) ^ 2
        - 2 * ∑ i ∈ range gdim, (c i - z i) * (z i - geo j i) - ∑ i ∈ range gdim, (c i - z i) ^ 2 := by
      intro j
      rw [mul_sum, ← sum_sub_distrib, ← sum_sub_distrib]
      exact sum_congr rfl (fun i _ => by ring)
    have z0 : ∑ j ∈ range (n + 1), w j * ∑ i ∈ range gdim, (c i - z i) * (z i - geo j i) = 0 := by
      simp only [mul_sum]
      rw [sum_comm]
      refine sum_eq_zero (fun i hi => ?_)
      rw [sum_congr rfl (fun j _ => show _ = (c i - z i) * (w j * z i - w j * geo j i) by ring), ← mul_sum,
        sum_sub_distrib, ← sum_mul, hw, ← hz i (mem_range.mp hi)]
      ring
    rw [sum_congr rfl (fun j hj => show _ = w j * (S - ∑ i ∈ range gdim, (c i - z i) ^ 2)
      - 2 * (w j * ∑ i ∈ range gdim, (c i - z i) * (z i - geo j i)) by
        rw [e j, hS j (by have := mem_range.mp hj; omega)]; ring)]
    rw [sum_sub_distrib, ← sum_mul, hw, ← mul_sum, z0]
    ring
  have key : R ^ 2 = R' ^ 2 := by
    -- all |c' - x_j|² equal R'², so the average is R'²
    have a1 := avg c c' w' (R ^ 2) s hw' hc'
    have a2 := avg c' c w (R' ^ 2) s' hw hc
    rw [sum_congr rfl (fun j hj => by rw [s' j (by have := mem_range.mp hj; omega)]), ← sum_mul, hw',
      one_mul] at a1
    rw [sum_congr rfl (fun j hj => by rw [s j (by have := mem_range.mp hj; omega)]), ← sum_mul, hw,
      one_mul] at a2
    have p1 : 0 ≤ ∑ i ∈ range gdim, (c i - c' i) ^ 2 := sum_nonneg (fun _ _ => sq_nonneg _)
    have p2 : 0 ≤ ∑ i ∈ range gdim, (c' i - c i) ^ 2 := sum_nonneg (fun _ _ => sq_nonneg _)
    linarith
  exact (sq_eq_sq₀ hR hR').mp key

/-- C67: non-affine meshes and cells that are not triangles or tetrahedra raise. -/
theorem C67_raises (cell : CellType) (C : Cmap) (q : ℕ → ℕ → ℝ) (geo : ℕ → ℕ → ℕ → ℝ)
    (facets : List (ℕ × ℕ)) (hne : facets ≠ [])
    (h : C.affine = false ∨ (cell ≠ .triangle ∧ cell ≠ .tetrahedron)) :
    packCircumradius cell C q geo facets = .error .invalidArgument := by
  rw [packCircumradius]
  rcases h with h | ⟨h1, h2⟩
  · rw [h]; rfl
  · split
    · rfl
    · cases hc : checkCellType cell with
      | error e => rfl
      | ok _ =>
        obtain ⟨p, l, rfl⟩ := List.exists_cons_of_ne_nil hne
        dsimp only
        rw [List.mapM_cons]
        have : ∀ D x, computeCircumradius cell C.gdim D x = .error .invalidArgument := by
          intro D x
          cases cell <;> first | rfl | exact absurd rfl h1 | exact absurd rfl h2
        rw [this]
        rfl

/-- The unit right triangle meets the hypotheses. -/
example : SimplexMesh .triangle (p1Triangle 2) ∧ IsP1 (p1Triangle 2) ∧ (p1Triangle 2).affine = true ∧
    Nondegenerate 2 2 (fun j i => if j = i + 1 then 1 else 0) := by
  refine ⟨Or.inl ⟨rfl, rfl, Or.inl rfl⟩, ⟨rfl, fun _ _ _ _ => rfl⟩, rfl, fun a h j hj => ?_⟩
  have := h j hj
  interval_cases j <;> simpa [sum_range_succ] using this

/-! ### C11 -/

theorem row_spec (M : EntityMesh) (i : ℕ) (idx : ℤ) (out : ℕ → ℤ) (m : ℕ) :
    entityRow M i idx out m = if 0 ≤ idx ∧ i * M.n ≤ m ∧ m < (i + 1) * M.n then
      (M.xdofs ((M.e2c idx.toNat).headD 0)
        (M.closure ((M.c2e ((M.e2c idx.toNat).headD 0)).idxOf idx.toNat) (m - i * M.n)) : ℤ)
      else out m := by
  rw [entityRow]
  by_cases h : idx < 0
  · rw [if_pos h, if_neg (by omega)]
  · rw [if_neg h]
    generalize (M.e2c idx.toNat).headD 0 = cell
    generalize (M.c2e cell).idxOf idx.toNat = l
    have : ∀ k, loop k (fun j out => Function.update out (i * M.n + j) (M.xdofs cell (M.closure l j) : ℤ)) out m
        = if i * M.n ≤ m ∧ m < i * M.n + k then (M.xdofs cell (M.closure l (m - i * M.n)) : ℤ) else out m := by
      intro k
      induction k with
      | zero => rw [loop_zero, if_neg (by omega)]
      | succ k ih =>
        rw [loop_succ]
        by_cases hm : m = i * M.n + k
        · subst hm; rw [Function.update_self, if_pos (by omega)]
          rw [Nat.add_sub_cancel_left]
        · rw [Function.update_of_ne hm, ih]
          by_cases h' : i * M.n ≤ m ∧ m < i * M.n + k
          · rw [if_pos h', if_pos (by omega)]
          · rw [if_neg h', if_neg (by omega)]
    rw [this]
    have e : (i + 1) * M.n = i * M.n + M.n := by ring
    by_cases h' : i * M.n ≤ m ∧ m < i * M.n + M.n
    · rw [if_pos h', if_pos ⟨by omega, h'.1, by omega⟩]
    · rw [if_neg h', if_neg (by omega)]

/-- C11: row `i` of `entities_to_geometry_dofs` lists the geometry nodes of the closure of entity `i`
in the order of the element, seen from a cell that contains the entity; rows of negative entities are
-1; the rows have equal length. -/
theorem C11_geometry_dofs (M : EntityMesh) (entities : List ℤ) (i : ℕ) (hi : i < entities.length)
    (hconn : ∀ e : ℕ, (e : ℤ) ∈ entities → M.e2c e ≠ [] ∧ ∀ c ∈ M.e2c e, e ∈ M.c2e c) :
    let r := entitiesToGeometryDofs M entities
    r.2 i = i * M.n ∧ r.2 (i + 1) = (i + 1) * M.n ∧
    (∀ e : ℕ, entities[i] = e → ∃ cell ∈ M.e2c e, ∃ l, (M.c2e cell)[l]? = some e ∧
      ∀ j < M.n, r.1 (i * M.n + j) = M.xdofs cell (M.closure l j)) ∧
    (entities[i] < 0 → ∀ j < M.n, r.1 (i * M.n + j) = -1) := by
  intro r
  have hoff : ∀ k ≤ entities.length, r.2 k = k * M.n := by
    intro k hk
    show loop entities.length (fun i o => Function.update o (i + 1) ((i + 1) * M.n)) (fun _ => 0) k = _
    rw [loop_update_succ (f := fun i => (i + 1) * M.n)]
    by_cases h : 0 < k
    · rw [if_pos ⟨h, hk⟩, Nat.sub_add_cancel h]
    · obtain rfl : k = 0 := by omega
      simp
  have hdata : ∀ j < M.n, r.1 (i * M.n + j) = if 0 ≤ entities[i] then
      (M.xdofs ((M.e2c entities[i].toNat).headD 0)
        (M.closure ((M.c2e ((M.e2c entities[i].toNat).headD 0)).idxOf entities[i].toNat) j) : ℤ) else -1 := by
    intro j hj
    have key : ∀ k, k ≤ entities.length → loop k (fun i out => entityRow M i (entities.getD i 0) out)
        (fun _ => -1) (i * M.n + j) = if i < k ∧ 0 ≤ entities[i] then
      (M.xdofs ((M.e2c entities[i].toNat).headD 0)
        (M.closure ((M.c2e ((M.e2c entities[i].toNat).headD 0)).idxOf entities[i].toNat) j) : ℤ) else -1 := by
      intro k
      induction k with
      | zero => intro _; rw [loop_zero, if_neg (by omega)]
      | succ k ih =>
        intro hk
        rw [loop_succ, row_spec]
        by_cases hik : i = k
        · subst hik
          rw [List.getD_eq_getElem _ _ hi, ih (by omega)]
          have e : (i + 1) * M.n = i * M.n + M.n := by ring
          by_cases h0 : 0 ≤ entities[i]
          · rw [if_pos ⟨h0, by omega, by omega⟩, if_pos ⟨by omega, h0⟩, Nat.add_sub_cancel_left]
          · rw [if_neg (fun h => h0 h.1), if_neg (fun h => h0 h.2), if_neg (fun h => h0 h.2)]
        · rw [if_neg, ih (by omega)]
          · by_cases h : i < k ∧ 0 ≤ entities[i]
            · rw [if_pos h, if_pos ⟨by omega, h.2⟩]
            · rw [if_neg h, if_neg (fun h' => h ⟨by omega, h'.2⟩)]
          · rintro ⟨_, h1, h2⟩
            rcases Nat.lt_or_gt_of_ne hik with h | h
            · have : (i + 1) * M.n ≤ k * M.n := Nat.mul_le_mul_right _ h
              have e : (i + 1) * M.n = i * M.n + M.n := by ring
              omega
            · have : (k + 1) * M.n ≤ i * M.n := Nat.mul_le_mul_right _ h
              omega
    have := key entities.length (le_refl _)
    rw [show r.1 (i * M.n + j) = _ from this]
    by_cases h0 : 0 ≤ entities[i]
    · rw [if_pos ⟨hi, h0⟩, if_pos h0]
    · rw [if_neg (fun h => h0 h.2), if_neg h0]
  refine ⟨hoff i hi.le, hoff (i + 1) hi, ?_, ?_⟩
  · intro e he
    obtain ⟨h1, h2⟩ := hconn e (he ▸ List.getElem_mem hi)
    obtain ⟨c, l, hl⟩ := List.exists_cons_of_ne_nil h1
    have hc := h2 c (by rw [hl]; exact List.mem_cons_self ..)
    refine ⟨c, by rw [hl]; exact List.mem_cons_self .., (M.c2e c).idxOf e, ?_, fun j hj => ?_⟩
    · rw [List.getElem?_eq_getElem (List.idxOf_lt_length_iff.mpr hc), List.getElem_idxOf]
    · rw [hdata j hj, he, if_pos (by omega), Int.toNat_natCast, hl]
      rfl
  · intro hneg j hj
    rw [hdata j hj, if_neg (by omega)]

/-- Two triangles sharing facet 1; one facet and one negative entry. -/
example : ∃ M : EntityMesh, M.n = 2 ∧ ∀ e : ℕ, (e : ℤ) ∈ [(1 : ℤ), -1] →
    M.e2c e ≠ [] ∧ ∀ c ∈ M.e2c e, e ∈ M.c2e c := by
  refine ⟨⟨fun _ => [0, 1], fun c => if c = 0 then [0, 1, 2] else [3, 4, 1], fun c j => c + j,
    fun l j => (l + j + 1) % 3, 2⟩, rfl, ?_⟩
  intro e he
  have : e = 1 := by simp at he; omega
  subst this
  refine ⟨by simp, ?_⟩
  intro c hc
  simp at hc
  rcases hc with rfl | rfl <;> simp

end

end Verif.Geometry
