import Mathlib.Data.Real.Basic
import Mathlib.Algebra.BigOperators.Group.Finset.Basic
import Mathlib.Algebra.BigOperators.Ring.Finset

/-! Mixed radix index arithmetic for flat arrays (`i * bs + n`). -/

open Finset

namespace Verif

theorem radix_inj {b i n j m : ℕ} (hn : n < b) (hm : m < b) :
    i * b + n = j * b + m ↔ i = j ∧ n = m := by
  constructor
  · intro h
    have hb : 0 < b := by omega
    have h1 : (i * b + n) / b = i := by
      rw [Nat.mul_comm, Nat.mul_add_div hb, Nat.div_eq_of_lt hn, Nat.add_zero]
    have h2 : (j * b + m) / b = j := by
      rw [Nat.mul_comm, Nat.mul_add_div hb, Nat.div_eq_of_lt hm, Nat.add_zero]
    have : i = j := by rw [← h1, ← h2, h]
    subst this
    exact ⟨rfl, by omega⟩
  · rintro ⟨rfl, rfl⟩; rfl

theorem radix_lt {b i n a : ℕ} (hi : i < a) (hn : n < b) : i * b + n < a * b := by
  calc i * b + n < i * b + b := by omega
    _ = (i + 1) * b := by rw [Nat.add_mul, Nat.one_mul]
    _ ≤ a * b := Nat.mul_le_mul_right b (by omega)

variable {M : Type} [AddCommMonoid M]

theorem sum_pick {n i0 : ℕ} (h : i0 < n) (f : ℕ → M) :
    ∑ i ∈ range n, (if i0 = i then f i else 0) = f i0 := by
  rw [Finset.sum_ite_eq]; simp [h]

theorem sum_pick' {n i0 : ℕ} (h : i0 < n) (f : ℕ → M) :
    ∑ i ∈ range n, (if i = i0 then f i else 0) = f i0 := by
  rw [Finset.sum_ite_eq']; simp [h]

/-- Exactly one iteration of a double loop writes position `i0 * b + n0`. -/
theorem sum_radix {a b i0 n0 : ℕ} (hi : i0 < a) (hn : n0 < b) (f : ℕ → ℕ → M) :
    ∑ i ∈ range a, ∑ n ∈ range b, (if i0 * b + n0 = i * b + n then f i n else 0) = f i0 n0 := by
  have : ∀ i ∈ range a, ∑ n ∈ range b, (if i0 * b + n0 = i * b + n then f i n else 0)
      = if i0 = i then f i n0 else 0 := by
    intro i _
    by_cases h : i0 = i
    · subst h
      rw [if_pos rfl, ← sum_pick hn (fun n => f i0 n)]
      refine sum_congr rfl (fun n hn' => ?_)
      have := radix_inj (i := i0) (j := i0) hn (mem_range.mp hn')
      simp only [true_and] at this
      simp only [this]
    · rw [if_neg h]
      refine sum_eq_zero (fun n hn' => ?_)
      rw [if_neg]
      rw [radix_inj hn (mem_range.mp hn')]
      tauto
  rw [sum_congr rfl this, sum_pick hi (fun i => f i n0)]

/-- `(n + i * b)` variant (component first, as in the kernels). -/
theorem sum_radix' {a b i0 n0 : ℕ} (hi : i0 < a) (hn : n0 < b) (f : ℕ → ℕ → M) :
    ∑ i ∈ range a, ∑ n ∈ range b, (if n0 + i0 * b = n + i * b then f i n else 0) = f i0 n0 := by
  rw [← sum_radix hi hn f]
  refine sum_congr rfl (fun i _ => sum_congr rfl (fun n _ => ?_))
  rw [Nat.add_comm n0, Nat.add_comm n]

theorem radix3_inj {b d i q k i' q' k' : ℕ} (hq : q < b) (hk : k < d) (hq' : q' < b) (hk' : k' < d) :
    (i * b + q) * d + k = (i' * b + q') * d + k' ↔ i = i' ∧ q = q' ∧ k = k' := by
  rw [radix_inj hk hk', radix_inj hq hq', and_assoc]

theorem sum3 {a b d i0 q0 k0 : ℕ} (hi : i0 < a) (hq : q0 < b) (hk : k0 < d) (f : ℕ → ℕ → ℕ → M) :
    ∑ i ∈ range a, ∑ q ∈ range b, ∑ k ∈ range d,
      (if (i0 * b + q0) * d + k0 = (i * b + q) * d + k then f i q k else 0) = f i0 q0 k0 := by
  rw [sum_eq_single_of_mem i0 (mem_range.mpr hi), sum_eq_single_of_mem q0 (mem_range.mpr hq),
    sum_eq_single_of_mem k0 (mem_range.mpr hk), if_pos rfl]
  · intro k hk' hne
    rw [if_neg]
    rw [radix3_inj hq hk hq (mem_range.mp hk')]
    intro h; exact hne h.2.2.symm
  · intro q hq' hne
    refine sum_eq_zero (fun k hk' => ?_)
    rw [if_neg]
    rw [radix3_inj hq hk (mem_range.mp hq') (mem_range.mp hk')]
    intro h; exact hne h.2.1.symm
  · intro i hi' hne
    refine sum_eq_zero (fun q hq' => sum_eq_zero (fun k hk' => ?_))
    rw [if_neg]
    rw [radix3_inj hq hk (mem_range.mp hq') (mem_range.mp hk')]
    intro h; exact hne h.1.symm

end Verif
