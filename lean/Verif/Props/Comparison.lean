import Verif.Spec.Comparison
import Mathlib.Analysis.InnerProductSpace.PiL2
import Mathlib.Tactic.Linarith
import Mathlib.Tactic.NormNum
import Mathlib.Tactic.Ring
import Mathlib.Tactic.Positivity

/-!
Property C216: the demos which compare two solvers accept solutions which agree in L².
-/

namespace Verif.Comparison

open Finset

noncomputable section

/-- Sums over the cells of all processes are sums over the mesh. -/
theorem reduce_eq {L : Level} {cells : Finset ℕ} (h : Owned L cells) (f : ℕ → ℕ → ℝ) :
    L.allreduce (L.assembleScalar f) = ∑ c ∈ cells, ∑ q ∈ range L.nq, L.weight c q * f c q := by
  have e : ∀ p ∈ range L.procs, L.assembleScalar f p
      = ∑ c ∈ (L.cells p).toFinset, ∑ q ∈ range L.nq, L.weight c q * f c q := fun p hp => by
    rw [Level.assembleScalar, List.sum_toFinset _ (h.nodup p (mem_range.mp hp))]
  rw [Level.allreduce, sum_congr rfl e, ← sum_biUnion]
  · refine sum_congr ?_ (fun _ _ => rfl)
    ext c
    simp [h.all c]
  · intro p hp q hq hpq
    rw [Function.onFun, Finset.disjoint_left]
    intro c hc hc'
    exact h.once p (mem_range.mp (mem_coe.mp hp)) q (mem_range.mp (mem_coe.mp hq)) hpq c (List.mem_toFinset.mp hc)
      (List.mem_toFinset.mp hc')

theorem value_diff (L : Level) (u1 u2 : ℕ → ℕ → ℝ) (c q k : ℕ) :
    ∑ j ∈ range L.ndofs, L.phi c q j * diff u1 u2 (L.dof c j) k = L.value u1 c q k - L.value u2 c q k := by
  rw [Level.value, Level.value, ← sum_sub_distrib]
  exact sum_congr rfl (fun j _ => by rw [diff]; ring)

/-- C216: the numbers computed are the norm of the difference and the norm of the second solution on the whole mesh, for
every number of processes and every distribution of the cells. -/
theorem C216_norms {L : Level} {cells : Finset ℕ} (h : Owned L cells) (u1 u2 : ℕ → ℕ → ℝ) :
    L.error u1 u2 = l2norm L cells (diff u1 u2) ∧ L.norm u2 = l2norm L cells u2 := by
  constructor
  · rw [Level.error, l2norm, reduce_eq h]
    congr 1
    refine sum_congr rfl (fun c _ => sum_congr rfl (fun q _ => ?_))
    rw [Level.errorAt]
    congr 1
    exact sum_congr rfl (fun k _ => by rw [value_diff]; ring)
  · rw [Level.norm, l2norm, reduce_eq h]
    congr 1
    refine sum_congr rfl (fun c _ => sum_congr rfl (fun q _ => ?_))
    rw [Level.normAt]
    congr 1
    exact sum_congr rfl (fun k _ => by rw [Level.value]; ring)

/-- C216: a comparison ends without an error if and only if on the finest level the norm of the difference is below
1e-4 and below a thousandth of the norm of the second solution.  The coarser levels do not matter, and with a second
solution of norm zero the comparison fails. -/
theorem C216_accepts {L : Level} {cells : Finset ℕ} (h : Owned L cells) (u1 u2 : ℕ → ℕ → ℝ)
    (coarse : List (Level × (ℕ → ℕ → ℝ) × (ℕ → ℕ → ℝ))) :
    (compare (coarse ++ [(L, u1, u2)]) = .ok ↔
      l2norm L cells (diff u1 u2) < 1e-4 ∧ l2norm L cells (diff u1 u2) < 1e-3 * l2norm L cells u2)
    ∧ (compare (coarse ++ [(L, u1, u2)]) ≠ .ok → compare (coarse ++ [(L, u1, u2)]) = .assertion)
    ∧ (l2norm L cells u2 = 0 → compare (coarse ++ [(L, u1, u2)]) = .assertion) := by
  obtain ⟨h1, h2⟩ := C216_norms h u1 u2
  have hl : ((coarse ++ [(L, u1, u2)]).map entry).getLast? = some (entry (L, u1, u2)) := by simp
  have p1 : 0 ≤ l2norm L cells (diff u1 u2) := Real.sqrt_nonneg _
  have p2 : 0 ≤ l2norm L cells u2 := Real.sqrt_nonneg _
  rw [compare, hl]
  dsimp only [entry]
  rw [h1, h2]
  generalize l2norm L cells (diff u1 u2) = a at *
  generalize l2norm L cells u2 = b at *
  have key : (npDiv a b).lt 1e-3 ↔ a < 1e-3 * b := by
    unfold npDiv
    by_cases hb : b = 0
    · rw [if_pos hb, hb]
      split_ifs <;> simp only [Num.lt, false_iff, not_lt] <;> linarith
    · have hb' : 0 < b := lt_of_le_of_ne p2 (Ne.symm hb)
      rw [if_neg hb]
      exact div_lt_iff₀ hb'
  refine ⟨?_, ?_, ?_⟩
  · by_cases c1 : (npDiv a b).lt 1e-3
    · by_cases c2 : a < 1e-4
      · rw [if_neg (not_not.mpr c1), if_neg (not_not.mpr c2)]
        exact ⟨fun _ => ⟨c2, key.mp c1⟩, fun _ => rfl⟩
      · rw [if_neg (not_not.mpr c1), if_pos c2]
        exact ⟨nofun, fun h => absurd h.1 c2⟩
    · rw [if_pos c1]
      exact ⟨nofun, fun h => absurd (key.mpr h.2) c1⟩
  · split_ifs <;> simp
  · intro hb
    rw [if_pos]
    rw [key, hb]
    linarith

/-- Values at the quadrature points, scaled by the roots of the weights, as a vector of Mathlib. -/
def scaled (L : Level) (cells : Finset ℕ) (w : ℕ → ℕ → ℝ) : EuclideanSpace ℝ (cells × Fin L.nq × Fin L.gdim) :=
  WithLp.toLp 2 (fun i => Real.sqrt (L.weight i.1 i.2.1) * ∑ j ∈ range L.ndofs, L.phi i.1 i.2.1 j * w (L.dof i.1 j) i.2.2)

theorem norm_scaled {L : Level} {cells : Finset ℕ} (hw : ∀ c ∈ cells, ∀ q < L.nq, 0 ≤ L.weight c q) (w : ℕ → ℕ → ℝ) :
    l2norm L cells w = ‖scaled L cells w‖ := by
  rw [EuclideanSpace.norm_eq, l2norm]
  congr 1
  rw [Fintype.sum_prod_type, ← Finset.sum_coe_sort cells]
  refine sum_congr rfl (fun c _ => ?_)
  rw [Fintype.sum_prod_type, ← Fin.sum_univ_eq_sum_range
    (fun q => L.weight c q * ∑ k ∈ range L.gdim, (∑ j ∈ range L.ndofs, L.phi c q j * w (L.dof c j) k) ^ 2)]
  refine sum_congr rfl (fun q _ => ?_)
  rw [← Fin.sum_univ_eq_sum_range (fun k => (∑ j ∈ range L.ndofs, L.phi c q j * w (L.dof c j) k) ^ 2), mul_sum]
  refine sum_congr rfl (fun k _ => ?_)
  rw [scaled, Real.norm_eq_abs, sq_abs, mul_pow, Real.sq_sqrt (hw c c.2 q q.2)]

theorem scaled_diff (L : Level) (cells : Finset ℕ) (u v : ℕ → ℕ → ℝ) :
    scaled L cells (diff u v) = scaled L cells u - scaled L cells v := by
  ext i
  simp only [scaled, PiLp.sub_apply, diff]
  rw [← mul_sub, ← sum_sub_distrib]
  congr 1
  exact sum_congr rfl (fun j _ => by ring)

/-- C216: if the comparison with a reference solution `u2` is passed by two solutions `u1` and `v1`, these differ by less
than 2e-4, and by less than two thousandths of the norm of the reference; and the norm of a solution which is accepted
is that of the reference up to a thousandth. -/
theorem C216_transitive {L : Level} {cells : Finset ℕ} (h : Owned L cells)
    (hw : ∀ c ∈ cells, ∀ q < L.nq, 0 ≤ L.weight c q) (u1 v1 u2 : ℕ → ℕ → ℝ)
    (hu : compare [(L, u1, u2)] = .ok) (hv : compare [(L, v1, u2)] = .ok) :
    l2norm L cells (diff u1 v1) < 2e-4 ∧ l2norm L cells (diff u1 v1) < 2e-3 * l2norm L cells u2
    ∧ |l2norm L cells u1 - l2norm L cells u2| < 1e-3 * l2norm L cells u2 := by
  obtain ⟨a1, a2⟩ := (C216_accepts h u1 u2 []).1.mp hu
  obtain ⟨b1, b2⟩ := (C216_accepts h v1 u2 []).1.mp hv
  simp only [norm_scaled hw, scaled_diff] at *
  have t1 := norm_sub_le_norm_sub_add_norm_sub (scaled L cells u1) (scaled L cells u2) (scaled L cells v1)
  have t2 := abs_norm_sub_norm_le (scaled L cells u1) (scaled L cells u2)
  rw [norm_sub_rev (scaled L cells u2)] at t1
  refine ⟨by linarith, by linarith, by linarith⟩

/-- Two cells with one quadrature point each on two processes. -/
def exLevel : Level := ⟨1, 1, 1, fun _ _ => 1, fun _ _ _ => 1, fun c _ => c, 2, fun p => [p]⟩

theorem exLevel_owned : Owned exLevel {0, 1} := by
  refine ⟨fun p _ => by simp [exLevel], fun p _ q _ hpq c hc hc' => ?_, fun c => ?_⟩
  · simp [exLevel] at hc hc'; omega
  · simp only [exLevel, List.mem_singleton]
    constructor
    · intro h
      have : c = 0 ∨ c = 1 := by simpa using h
      exact ⟨c, by rcases this with rfl | rfl <;> norm_num, rfl⟩
    · rintro ⟨p, hp, rfl⟩
      have : c = 0 ∨ c = 1 := by omega
      simpa using this

/-- Solutions which are accepted: `u2 = 1` and `u1 = 1 + 1e-5` on `exLevel`. -/
example : compare [(exLevel, fun _ _ => 1 + 1e-5, fun _ _ => 1)] = .ok
    ∧ (∀ c ∈ ({0, 1} : Finset ℕ), ∀ q < exLevel.nq, 0 ≤ exLevel.weight c q) := by
  refine ⟨(C216_accepts exLevel_owned _ _ []).1.mpr ?_, fun _ _ _ _ => by simp [exLevel]⟩
  have e1 : l2norm exLevel {0, 1} (diff (fun _ _ => 1 + 1e-5) (fun _ _ => 1)) = Real.sqrt (2 * 1e-5 ^ 2) := by
    unfold l2norm
    congr 1
    rw [Finset.sum_pair (by norm_num)]
    simp [exLevel, diff]; norm_num
  have e2 : l2norm exLevel {0, 1} (fun _ _ => 1) = Real.sqrt 2 := by
    unfold l2norm
    congr 1
    rw [Finset.sum_pair (by norm_num)]
    simp [exLevel]; norm_num
  have h2 : (1 : ℝ) ≤ Real.sqrt 2 := Real.le_sqrt_of_sq_le (by norm_num)
  have h3 : Real.sqrt (2 * 1e-5 ^ 2) < 1e-4 := by
    rw [Real.sqrt_lt' (by norm_num)]; norm_num
  rw [e1, e2]
  exact ⟨h3, by linarith⟩

end

end Verif.Comparison
