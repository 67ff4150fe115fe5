import Verif.Props.Stability
import Verif.Lemmas.SystemForm

/-! Lemmas for C119: the quadratic form of the matrices for tied bodies. -/

namespace Verif.Kernels

open Verif.Scalars Verif.Spec Verif.ContactProblem Finset

noncomputable section

theorem comb_dofSet (D : KD) (links : ℕ) (F : ℕ → ℕ → ℕ → ℝ) (W : ℕ → ℕ → ℝ) :
    comb D links F W = ∑ k ∈ dofSet links D.nd D.bs, F k.1 k.2.1 k.2.2 * W k.1 (k.2.1 * D.bs + k.2.2) :=
  (sum_dofSet links D.nd D.bs (fun B i n => F B i n * W B (i * D.bs + n))).symm

theorem comb_swap (D : KD) (links : ℕ) (F : ℕ → ℕ → ℕ → ℕ → ℕ → ℕ → ℝ) (v : ℕ → ℕ → ℝ) :
    comb D links (fun B i b => comb D links (fun B' j l => F B i b B' j l) v) v
      = comb D links (fun B i b => comb D links (fun B' j l => F B' j l B i b) v) v := by
  simp only [comb_dofSet, sum_mul]
  rw [sum_comm]
  exact sum_congr rfl (fun k _ => sum_congr rfl (fun k' _ => by ring))

theorem comb_anti (D : KD) (links : ℕ) (F : ℕ → ℕ → ℕ → ℕ → ℕ → ℕ → ℝ) (v : ℕ → ℕ → ℝ)
    (h : ∀ B i b B' j l, F B i b B' j l = -F B' j l B i b) :
    comb D links (fun B i b => comb D links (fun B' j l => F B i b B' j l) v) v = 0 := by
  have h1 := comb_swap D links F v
  have h2 : comb D links (fun B i b => comb D links (fun B' j l => F B' j l B i b) v) v
      = -1 * comb D links (fun B i b => comb D links (fun B' j l => F B i b B' j l) v) v := by
    rw [← comb_smul]
    refine comb_congr D links v (fun B i b _ _ _ => ?_)
    rw [← comb_smul]
    exact comb_congr D links v (fun B' j l _ _ _ => by rw [h B' j l B i b]; ring)
  linarith

/-- With theta = -1 the consistency terms cancel and the penalty is a sum of squares, when at every point the
test functions of one linked cell at most are not zero. -/
theorem tie_energy (D : KD) (links : ℕ) (qs : List ℕ) (A : Arr (ℕ × ℕ)) (w0 gam : ℕ → ℝ)
    (J : ℕ → ℕ → ℕ → ℕ → ℝ) (S : ℕ → ℕ → ℕ → ℕ → ℕ → ℝ)
    (hA : BlockValues D links qs A (fun q B i b B' j l => absM (w0 q) (gam q) (-1) (J q) (S q) B i b B' j l))
    (hone : ∀ q ∈ qs, ∃ k0, ∀ k < links, k ≠ k0 → ∀ i < D.nd, ∀ n < D.bs, J q (k + 1) i n = 0)
    (hw : ∀ q ∈ qs, 0 ≤ w0 q * gam q) (v : ℕ → ℕ → ℝ) : 0 ≤ energy (D.nd * D.bs) links A v := by
  have hB : BlockValues D links qs A (fun q B i b B' j l => if B = 0 ∨ B' = 0 ∨ B = B' then
      absM (w0 q) (gam q) (-1) (J q) (S q) B i b B' j l else 0) := by
    intro i b j l hi hb hj hl
    obtain ⟨h1, h2⟩ := hA i b j l hi hb hj hl
    refine ⟨by simpa using h1, fun k hk => ?_⟩
    obtain ⟨h3, h4, h5⟩ := h2 k hk
    exact ⟨by simpa using h3, by simpa using h4, by simpa using h5⟩
  rw [energy_eq D links qs A _ hB v (fun q _ k k' i b j l _ _ hne _ _ _ _ => if_neg (by omega))]
  refine list_sum_nonneg _ _ (fun q hq => ?_)
  obtain ⟨k0, hk0⟩ := hone q hq
  have e : ∀ B i b B' j l, B < links + 1 → i < D.nd → b < D.bs → B' < links + 1 → j < D.nd → l < D.bs →
      (if B = 0 ∨ B' = 0 ∨ B = B' then absM (w0 q) (gam q) (-1) (J q) (S q) B i b B' j l else 0)
      = (w0 q * gam q) * ∑ a ∈ range D.bs, (if a = l then J q B' j l else 0) * (if a = b then J q B i b else 0)
        + if B = 0 ∨ B' = 0 ∨ B = B' then
          w0 q * (0.5 * S q B i b l * J q B' j l - 0.5 * S q B' j l b * J q B i b) else 0 := by
    intro B i b B' j l hB hi hb hB' hj hl
    simp only [mul_ite, ite_mul, mul_zero, zero_mul, sum_ite_eq', mem_range.mpr hb, mem_range.mpr hl, if_true]
    by_cases hm : B = 0 ∨ B' = 0 ∨ B = B'
    · rw [if_pos hm, if_pos hm, absM]
      by_cases h : b = l
      · subst h; simp only [if_true]; ring
      · simp only [if_neg h]; ring
    · rw [if_neg hm, if_neg hm]
      have z : J q B i b = 0 ∨ J q B' j l = 0 := by
        obtain ⟨k, rfl⟩ : ∃ k, B = k + 1 := ⟨B - 1, by omega⟩
        obtain ⟨k', rfl⟩ : ∃ k', B' = k' + 1 := ⟨B' - 1, by omega⟩
        by_cases hk : k = k0
        · exact Or.inr (hk0 k' (by omega) (by omega) j hj l hl)
        · exact Or.inl (hk0 k (by omega) hk i hi b hb)
      rcases z with z | z <;> rw [z] <;> simp
  rw [comb_congr D links v (fun B i b h1 h2 h3 => comb_congr D links v (fun B' j l h4 h5 h6 =>
    e B i b B' j l h1 h2 h3 h4 h5 h6))]
  simp only [comb_add, comb_smul, comb_sum]
  rw [comb_anti D links (fun B i b B' j l => if B = 0 ∨ B' = 0 ∨ B = B' then
          w0 q * (0.5 * S q B i b l * J q B' j l - 0.5 * S q B' j l b * J q B i b) else 0) v (by
    intro B i b B' j l
    by_cases hm : B = 0 ∨ B' = 0 ∨ B = B'
    · rw [if_pos hm, if_pos (by tauto)]; ring
    · rw [if_neg hm, if_neg (by rintro (h | h | h) <;> simp [h] at hm)]; ring), add_zero]
  refine mul_nonneg (hw q hq) (sum_nonneg (fun a _ => ?_))
  rw [comb_mul D links (fun B i n => if a = n then J q B i n else 0) (fun B i n => if a = n then J q B i n else 0)]
  exact mul_self_nonneg _

end

end Verif.Kernels
