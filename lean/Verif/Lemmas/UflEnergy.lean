import Verif.Spec.UflEnergy
import Verif.Lemmas.UflError

/-!
The energy along a line: linear part, quadratic part and the contact terms.
-/

namespace Verif.UflDriver

open Finset Verif.OneSided Verif.Snes Verif.Spec

noncomputable section

variable {P : Params} {M : Mesh} {Q : Quad} {S : Support}

/-- `u + t z`. -/
def line (u z : ℕ → ℕ → ℝ) (t : ℝ) (a i : ℕ) : ℝ := u a i + t * z a i

theorem value_line (u z : ℕ → ℕ → ℝ) (t : ℝ) (k i : ℕ) :
    nodalValue M (line u z t) k i = nodalValue M u k i + t * nodalValue M z k i := by
  unfold nodalValue line
  rw [mul_sum, ← sum_add_distrib]
  exact sum_congr rfl (fun a _ => by ring)

theorem grad_line (u z : ℕ → ℕ → ℝ) (t : ℝ) (k i j : ℕ) :
    nodalGrad M (line u z t) k i j = nodalGrad M u k i j + t * nodalGrad M z k i j := by
  unfold nodalGrad line
  rw [mul_sum, ← sum_add_distrib]
  exact sum_congr rfl (fun a _ => by ring)

theorem grad_line' (u z : ℕ → ℕ → ℝ) (t : ℝ) (k : ℕ) :
    nodalGrad M (line u z t) k = fun i j => nodalGrad M u k i j + t * nodalGrad M z k i j := by
  funext i j
  exact grad_line u z t k i j

theorem strain_line (u z : ℕ → ℕ → ℝ) (t : ℝ) (k i j : ℕ) :
    strain (nodalGrad M (line u z t) k) i j = strain (nodalGrad M u k) i j + t * strain (nodalGrad M z k) i j := by
  unfold strain
  rw [grad_line, grad_line]
  ring

theorem stress_line (n : ℕ) (mu lam : ℝ) (u z : ℕ → ℕ → ℝ) (t : ℝ) (k i j : ℕ) :
    stress n mu lam (nodalGrad M (line u z t) k) i j
      = stress n mu lam (nodalGrad M u k) i j + t * stress n mu lam (nodalGrad M z k) i j := by
  unfold stress
  simp only [strain_line, sum_add_distrib, ← mul_sum]
  split <;> ring

theorem traction_line (u z : ℕ → ℕ → ℝ) (t : ℝ) (k i : ℕ) :
    tractionAt P M Q (line u z t) k i = tractionAt P M Q u k i + t * tractionAt P M Q z k i := by
  unfold tractionAt traction
  rw [mul_sum, ← sum_add_distrib]
  refine sum_congr rfl (fun j _ => ?_)
  rw [stress_line]
  ring

theorem normalStress_line (u z : ℕ → ℕ → ℝ) (t : ℝ) (k : ℕ) :
    normalStress P M Q (line u z t) k = normalStress P M Q u k + t * normalStress P M Q z k := by
  unfold normalStress approach
  rw [traction_line]
  ring

theorem normalMove_line (u z : ℕ → ℕ → ℝ) (t : ℝ) (k : ℕ) :
    normalMove P M (line u z t) k = normalMove P M u k + t * normalMove P M z k := by
  unfold normalMove approach
  rw [value_line]
  ring

theorem pressed_line (u z : ℕ → ℕ → ℝ) (t : ℝ) (k : ℕ) :
    pressed P M Q S (line u z t) k
      = pressed P M Q S u k + t * (normalStress P M Q z k - S.stiff k * normalMove P M z k) := by
  unfold pressed
  rw [normalStress_line, normalMove_line]
  ring

theorem inner_line (u z : ℕ → ℕ → ℝ) (t : ℝ) :
    innerWork P M Q (line u z t) (line u z t) / 2
      = innerWork P M Q u u / 2 + t * innerWork P M Q u z + t ^ 2 / 2 * innerWork P M Q z z := by
  have key : innerWork P M Q (line u z t) (line u z t)
      = innerWork P M Q u u + t * innerWork P M Q u z + t * innerWork P M Q z u + t ^ 2 * innerWork P M Q z z := by
    unfold innerWork
    rw [← quadSum_smul, ← quadSum_smul, ← quadSum_smul, ← quadSum_add, ← quadSum_add, ← quadSum_add]
    refine congrArg _ (funext fun k => ?_)
    unfold stressWork
    simp only [mul_sum, ← sum_add_distrib]
    refine sum_congr rfl (fun i _ => sum_congr rfl (fun j _ => ?_))
    rw [stress_line, strain_line]
    ring
  rw [key, inner_comm z u]
  ring

theorem sum_map_smul {α : Type} (l : List α) (f : α → ℝ) (c : ℝ) : (l.map (fun a => c * f a)).sum = c * (l.map f).sum := by
  induction l with
  | nil => simp
  | cons a l ih => simp only [List.map_cons, List.sum_cons, ih]; ring

theorem held_line (hθ : P.theta = 1) (u z : ℕ → ℕ → ℝ) (t : ℝ) :
    heldEnergy P M Q S (line u z t)
      = heldEnergy P M Q S u + t * heldWork P M Q S 1 u z + t ^ 2 / 2 * heldWork P M Q S 0 z z := by
  unfold heldEnergy heldWork
  rw [← sum_map_smul, ← sum_map_smul, ← sum_map_add, ← sum_map_add]
  refine congrArg List.sum (List.map_congr_left (fun h _ => ?_))
  rw [← quadSum_smul, ← quadSum_smul, ← quadSum_add, ← quadSum_add]
  refine congrArg _ (funext fun k => ?_)
  simp only [← sum_neg_distrib, mul_sum, ← sum_add_distrib, ← sum_sub_distrib]
  refine sum_congr rfl (fun i _ => ?_)
  rw [traction_line, value_line, hθ]
  ring

/-- What is left of `min 0 ² / 2` after the linear part. -/
def bend (a δ : ℝ) : ℝ := (min 0 (a + δ) ^ 2 - min 0 a ^ 2) / 2 - min 0 a * δ

theorem bend_nonneg (a δ : ℝ) : 0 ≤ bend a δ := by
  unfold bend
  rcases le_total a 0 with h | h <;> rcases le_total (a + δ) 0 with h' | h'
  · rw [min_eq_right h, min_eq_right h']; nlinarith [sq_nonneg δ]
  · rw [min_eq_right h, min_eq_left h']; nlinarith
  · rw [min_eq_left h, min_eq_right h']; nlinarith
  · rw [min_eq_left h, min_eq_left h']; norm_num

theorem bend_le (a δ : ℝ) : bend a δ ≤ δ ^ 2 / 2 := by
  unfold bend
  rcases le_total a 0 with h | h <;> rcases le_total (a + δ) 0 with h' | h'
  · rw [min_eq_right h, min_eq_right h']; nlinarith [sq_nonneg δ]
  · rw [min_eq_right h, min_eq_left h']; nlinarith [sq_nonneg (a + δ)]
  · rw [min_eq_left h, min_eq_right h']; nlinarith
  · rw [min_eq_left h, min_eq_left h']; nlinarith [sq_nonneg δ]

theorem obstacle_line (hθ : P.theta = 1) (u z : ℕ → ℕ → ℝ) (t : ℝ) :
    pressEnergy P M Q S (line u z t)
      = pressEnergy P M Q S u + t * obstacleWork P M Q S u z
        - t ^ 2 / 2 * quadSum Q.contact Q.wt (fun k => 1 / S.stiff k * normalStress P M Q z k ^ 2)
        + quadSum Q.contact Q.wt (fun k => 1 / S.stiff k
          * bend (pressed P M Q S u k) (t * (normalStress P M Q z k - S.stiff k * normalMove P M z k))) := by
  unfold pressEnergy obstacleWork
  rw [sub_eq_add_neg, ← neg_mul, ← quadSum_smul, ← quadSum_smul, ← quadSum_add, ← quadSum_add, ← quadSum_add]
  refine congrArg _ (funext fun k => ?_)
  rw [pressed_line, normalStress_line, hθ]
  unfold bend
  rw [show 1 / (2 * S.stiff k) = 1 / S.stiff k * (1 / 2) by rw [one_div, one_div, mul_inv]; ring,
    show -(1 / S.stiff k) = -1 * (1 / S.stiff k) by ring]
  generalize 1 / S.stiff k = g
  ring

/-- The energy along a line. -/
theorem energy_line (hθ : P.theta = 1) (u z : ℕ → ℕ → ℝ) (t : ℝ) :
    supportedEnergy P M Q S (line u z t) = supportedEnergy P M Q S u + t * totalWork P M Q S u z
      + t ^ 2 / 2 * (innerWork P M Q z z + heldWork P M Q S 0 z z
        - quadSum Q.contact Q.wt (fun k => 1 / S.stiff k * normalStress P M Q z k ^ 2))
      + quadSum Q.contact Q.wt (fun k => 1 / S.stiff k
          * bend (pressed P M Q S u k) (t * (normalStress P M Q z k - S.stiff k * normalMove P M z k))) := by
  unfold supportedEnergy totalWork
  rw [inner_line, held_line hθ, obstacle_line hθ]
  ring

theorem quadSum_le {ks : List ℕ} {wt f g : ℕ → ℝ} (h : ∀ k ∈ ks, wt k * f k ≤ wt k * g k) :
    quadSum ks wt f ≤ quadSum ks wt g := by
  unfold quadSum
  exact List.sum_le_sum h

theorem bend_sum_nonneg (hs : Sound Q S) (f g : ℕ → ℝ) :
    0 ≤ quadSum Q.contact Q.wt (fun k => 1 / S.stiff k * bend (f k) (g k)) := by
  have : quadSum Q.contact Q.wt (fun _ => 0) = 0 := by simp [quadSum]
  rw [← this]
  refine quadSum_le (fun k hk => ?_)
  rw [mul_zero]
  exact mul_nonneg (hs k hk).1 (mul_nonneg (one_div_nonneg.mpr (hs k hk).2.le) (bend_nonneg _ _))

/-- Displacements that agree at the nodes have the same energy. -/
theorem energy_congr (hd : 0 < P.dim) {v w : ℕ → ℕ → ℝ}
    (h : ∀ a < M.numNodes, ∀ i < P.dim, v a i = w a i) : supportedEnergy P M Q S v = supportedEnergy P M Q S w := by
  have e2 : heldEnergy P M Q S v = heldEnergy P M Q S w := by
    unfold heldEnergy
    refine congrArg List.sum (List.map_congr_left (fun g _ => congrArg _ (funext fun k => ?_)))
    have t1 : ∑ i ∈ range P.dim, tractionAt P M Q v k i * (nodalValue M v k i - g.2 i)
        = ∑ i ∈ range P.dim, tractionAt P M Q w k i * (nodalValue M w k i - g.2 i) :=
      sum_congr rfl (fun i hi => by rw [value_congr h k (mem_range.mp hi), traction_congr h k (mem_range.mp hi)])
    have t2 : ∑ i ∈ range P.dim, (nodalValue M v k i - g.2 i) ^ 2 = ∑ i ∈ range P.dim, (nodalValue M w k i - g.2 i) ^ 2 :=
      sum_congr rfl (fun i hi => by rw [value_congr h k (mem_range.mp hi)])
    rw [t1, t2]
  unfold supportedEnergy pressEnergy
  rw [inner_congr h h, e2]
  simp only [stress_congr hd h, pressed_congr hd h]

/-- A body is at rest exactly at the displacement of least energy. -/
theorem rest_iff_least (hd : 0 < P.dim) (hθ : P.theta = 1) (hs : Sound Q S) (hst : Stiff P M Q S) (u : ℕ → ℕ → ℝ) :
    AtRest P M Q S u ↔ LeastEnergy P M Q S u := by
  have hstiff : ∀ v, Virtual P S v → (∃ a < M.numNodes, ∃ i < P.dim, v a i ≠ 0) →
      0 < innerWork P M Q v v + heldWork P M Q S 0 v v
        - quadSum Q.contact Q.wt (fun k => 1 / S.stiff k * normalStress P M Q v k ^ 2) := by
    intro v h1 h2
    have := hst v h1 h2
    rw [hθ, show ((1 : ℝ) + 1) ^ 2 / 4 = 1 by norm_num, one_mul] at this
    linarith
  constructor
  · rintro ⟨h1, h2⟩
    refine ⟨h1, fun v hv hne => ?_⟩
    obtain ⟨z, hz⟩ : ∃ z : ℕ → ℕ → ℝ, z = fun a i => if a < M.numNodes then v a i - u a i else 0 := ⟨_, rfl⟩
    have hzv : Virtual P S z := by
      intro a ha i hi
      rw [hz]
      simp only
      split
      · rename_i hlt
        obtain ⟨g, hg⟩ := Option.ne_none_iff_exists'.mp ha
        rw [hv a hlt g hg i hi, h1 a hlt g hg i hi, sub_self]
      · rfl
    have e : supportedEnergy P M Q S v = supportedEnergy P M Q S (line u z 1) := energy_congr hd (fun a ha i _ => by
      unfold line
      rw [hz]
      simp only [ha, if_true]
      ring)
    have hpos := hstiff z hzv (by
      obtain ⟨a, ha, i, hi, h⟩ := hne
      refine ⟨a, ha, i, hi, ?_⟩
      rw [hz]
      simp only [ha, if_true]
      exact sub_ne_zero.mpr h)
    rw [e, energy_line hθ, h2 z hzv]
    have := bend_sum_nonneg hs (pressed P M Q S u)
      (fun k => 1 * (normalStress P M Q z k - S.stiff k * normalMove P M z k))
    linarith
  · rintro ⟨h1, h2⟩
    refine ⟨h1, fun z hz => ?_⟩
    obtain ⟨c, hc⟩ : ∃ c, c = (innerWork P M Q z z + heldWork P M Q S 0 z z
        - quadSum Q.contact Q.wt (fun k => 1 / S.stiff k * normalStress P M Q z k ^ 2)) / 2
      + quadSum Q.contact Q.wt (fun k => 1 / S.stiff k
          * ((normalStress P M Q z k - S.stiff k * normalMove P M z k) ^ 2 / 2)) := ⟨_, rfl⟩
    have hle : ∀ t : ℝ, 0 ≤ t * totalWork P M Q S u z + t ^ 2 * c := by
      intro t
      have hheld : Held P M S (line u z t) := by
        intro a ha g hg i hi
        unfold line
        rw [hz a (by rw [hg]; simp) i hi, h1 a ha g hg i hi]
        ring
      have h3 : supportedEnergy P M Q S u ≤ supportedEnergy P M Q S (line u z t) := by
        by_cases hne : ∃ a < M.numNodes, ∃ i < P.dim, line u z t a i ≠ u a i
        · exact (h2 _ hheld hne).le
        · push Not at hne
          exact (energy_congr hd hne).ge
      rw [energy_line hθ] at h3
      have h4 : quadSum Q.contact Q.wt (fun k => 1 / S.stiff k
          * bend (pressed P M Q S u k) (t * (normalStress P M Q z k - S.stiff k * normalMove P M z k)))
          ≤ t ^ 2 * quadSum Q.contact Q.wt (fun k => 1 / S.stiff k
          * ((normalStress P M Q z k - S.stiff k * normalMove P M z k) ^ 2 / 2)) := by
        rw [← quadSum_smul]
        refine quadSum_le (fun k hk => mul_le_mul_of_nonneg_left ?_ (hs k hk).1)
        rw [← mul_assoc, mul_comm (t ^ 2), mul_assoc]
        refine mul_le_mul_of_nonneg_left ((bend_le _ _).trans (le_of_eq (by ring))) (one_div_nonneg.mpr (hs k hk).2.le)
      rw [hc]
      linarith
    by_contra hne
    have hcp : 0 < |c| + 1 := by positivity
    have := hle (-totalWork P M Q S u z / (2 * (|c| + 1)))
    have e : -totalWork P M Q S u z / (2 * (|c| + 1)) * totalWork P M Q S u z
        + (-totalWork P M Q S u z / (2 * (|c| + 1))) ^ 2 * c
        = totalWork P M Q S u z ^ 2 / (4 * (|c| + 1) ^ 2) * (c - 2 * (|c| + 1)) := by
      field_simp
      ring
    rw [e] at this
    have h5 : 0 < totalWork P M Q S u z ^ 2 / (4 * (|c| + 1) ^ 2) := by positivity
    have h6 : c - 2 * (|c| + 1) < 0 := by linarith [le_abs_self c, abs_nonneg c]
    linarith [mul_neg_of_pos_of_neg h5 h6]

end

end Verif.UflDriver
