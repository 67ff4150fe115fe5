import Verif.Model.Coefficients
import Verif.Lib.Radix
import Verif.Lib.Puts
import Verif.Lemmas.Ghosting
import Verif.Lemmas.Entities

namespace Verif.Coefficients

open Verif.Entities Verif.Ghosting Verif.Packing Finset

variable {M : Type} [AddCommMonoid M]

theorem sum_mul_range (a b : ℕ) (f : ℕ → M) :
    ∑ i ∈ range a, ∑ j ∈ range b, f (i * b + j) = ∑ s ∈ range (a * b), f s := by
  induction a with
  | zero => simp
  | succ a ih => rw [sum_range_succ, ih, Nat.succ_mul, Finset.sum_range_add]

/-- Scalar element or no blocks: component `l + r` determines `(r, l)`. -/
theorem sum_comp {bs vs comp : ℕ} (h1 : bs = 1 ∨ vs = 1) (hc : comp < bs * vs) (f : ℕ → ℕ → M) :
    ∑ r ∈ range bs, ∑ l ∈ range vs, (if comp = l + r then f r l else 0) =
      f (comp % bs) (comp / bs) := by
  rcases h1 with rfl | rfl
  · simp only [Nat.one_mul] at hc
    simp only [range_one, sum_singleton, Nat.add_zero, Nat.mod_one, Nat.div_one]
    exact sum_pick hc (fun l => f 0 l)
  · simp only [Nat.mul_one] at hc
    simp only [range_one, sum_singleton, Nat.zero_add, Nat.mod_eq_of_lt hc, Nat.div_eq_of_lt hc]
    exact sum_pick hc (fun r => f r 0)

theorem comp_lt {bs vs l r : ℕ} (h1 : bs = 1 ∨ vs = 1) (hl : l < vs) (hr : r < bs) :
    l + r < bs * vs := by
  rcases h1 with rfl | rfl <;> simp <;> omega

theorem flatten_getD_odd (l : List (ℕ × ℕ)) (k : ℕ) (d : ℕ) (hk : k < l.length) :
    (flatten l).getD (2 * k + 1) d = (l[k]).2 := by
  induction l generalizing k with
  | nil => simp at hk
  | cons p l ih =>
    obtain ⟨c, f⟩ := p
    cases k with
    | zero => simp [flatten]
    | succ k =>
      have := ih k (by simpa using hk)
      have e : 2 * (k + 1) + 1 = 2 * k + 1 + 1 + 1 := by ring
      rw [e]
      simp only [flatten, List.getD_cons_succ, List.getElem_cons_succ]
      exact this

/-- Pick `(i0, q0)` in the outer loops of the packers. -/
theorem sum_pick_iq {n nq W i0 q0 w0 : ℕ} (hi : i0 < n) (hq : q0 < nq) (hw : w0 < W)
    {D : Type} (s : Finset D) (idx : D → ℕ) (f : ℕ → ℕ → D → M) (hidx : ∀ d ∈ s, idx d < W) :
    ∑ i ∈ range n, ∑ d ∈ s, ∑ q ∈ range nq,
      (if (i0 * nq + q0) * W + w0 = (i * nq + q) * W + idx d then f i q d else 0) =
    ∑ d ∈ s, (if w0 = idx d then f i0 q0 d else 0) := by
  rw [sum_eq_single_of_mem i0 (mem_range.mpr hi)]
  · refine sum_congr rfl (fun d hd => ?_)
    rw [sum_eq_single_of_mem q0 (mem_range.mpr hq)]
    · have := radix3_inj (i := i0) (i' := i0) hq hw hq (hidx d hd)
      simp only [true_and] at this
      simp only [this]
    · intro q hq' hne
      rw [if_neg]
      rw [radix3_inj hq hw (mem_range.mp hq') (hidx d hd)]
      intro h; exact hne h.2.1.symm
  · intro i hi' hne
    refine sum_eq_zero (fun d hd => sum_eq_zero (fun q hq' => ?_))
    rw [if_neg]
    rw [radix3_inj hq hw (mem_range.mp hq') (hidx d hd)]
    intro h; exact hne h.1.symm

end Verif.Coefficients
