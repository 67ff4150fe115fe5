import Verif.Lemmas.Coulomb
import Verif.Props.LocalNewton
import Verif.Spec.Quadratic

/-!
The remainder of the linearisation of the contact form is quadratic near a displacement (for C205).
-/

namespace Verif.ContactProblem

open Verif.Spec Verif.Packing Verif.Assembly Verif.Kernels Verif.Lemmas Finset

noncomputable section

variable {G : Type} {Y : System G}

/-! ### the projection onto a ball -/

theorem abs_le_vecLength {g : ℕ} (x : ℕ → ℝ) {a : ℕ} (ha : a < g) : |x a| ≤ vecLength g x := by
  rw [vecLength, ← Real.sqrt_sq_eq_abs]
  exact Real.sqrt_le_sqrt (single_le_sum (f := fun a => x a ^ 2) (fun a _ => sq_nonneg _) (mem_range.mpr ha))

theorem vecLength_le {g : ℕ} {x : ℕ → ℝ} {B : ℝ} (hB : 0 ≤ B) (h : ∀ a < g, |x a| ≤ B) : vecLength g x ≤ g * B := by
  have h1 : ∑ a ∈ range g, x a ^ 2 ≤ (∑ a ∈ range g, |x a|) ^ 2 := by
    have := sum_sq_le_sq_sum_of_nonneg (s := range g) (f := fun a => |x a|) (fun a _ => abs_nonneg _)
    simpa only [sq_abs] using this
  refine (Real.sqrt_le_sqrt h1).trans ?_
  rw [Real.sqrt_sq (sum_nonneg (fun _ _ => abs_nonneg _))]
  refine (sum_le_sum (fun a ha => h a (mem_range.mp ha))).trans ?_
  rw [sum_const, card_range, nsmul_eq_mul]

/-- The radial map `r x / |x|`, with its derivative in `x` and `r` at `(z, r)`: the remainder at `(z0, r0)`. -/
theorem radial_remainder {g : ℕ} (z z0 : ℕ → ℝ) {r r0 : ℝ} (hr : 0 ≤ r) (hz : r ≤ vecLength g z) (h0 : 0 < vecLength g z)
    (h1 : 0 < vecLength g z0) {a : ℕ} (ha : a < g) :
    |r0 * z0 a / vecLength g z0 - r * z a / vecLength g z
        - (r / vecLength g z * (z0 a - z a)
          - r * (∑ b ∈ range g, z b * (z0 b - z b)) * z a / vecLength g z ^ 3)
        - z a / vecLength g z * (r0 - r)|
      ≤ 3 * vecLength g (fun b => z0 b - z b) ^ 2 / vecLength g z
        + |r0 - r| * (2 * vecLength g (fun b => z0 b - z b) / vecLength g z) := by
  have za := abs_le_vecLength z ha
  have z0a := abs_le_vecLength z0 ha
  have da := abs_le_vecLength (fun b => z0 b - z b) ha
  have n2 := vecLength_sq g z
  have m2 := vecLength_sq g z0
  have d2 := vecLength_sq g (fun b => z0 b - z b)
  have cs := dot_vecLength g z z0
  have dn := vecLength_nonneg g (fun b => z0 b - z b)
  have e1 : ∑ b ∈ range g, (z0 b - z b) ^ 2
      = ∑ b ∈ range g, z0 b ^ 2 + ∑ b ∈ range g, z b ^ 2 - 2 * ∑ b ∈ range g, z b * z0 b := by
    rw [mul_sum, ← sum_add_distrib, ← sum_sub_distrib]
    exact sum_congr rfl (fun b _ => by ring)
  have e2 : ∑ b ∈ range g, z b * (z0 b - z b) = ∑ b ∈ range g, z b * z0 b - ∑ b ∈ range g, z b ^ 2 := by
    rw [← sum_sub_distrib]
    exact sum_congr rfl (fun b _ => by ring)
  rw [e1, n2, m2] at d2
  rw [e2, n2]
  revert za z0a da d2 cs dn h0 h1 hz
  generalize vecLength g z = n
  generalize vecLength g z0 = m
  generalize vecLength g (fun b => z0 b - z b) = d
  generalize ∑ b ∈ range g, z b * z0 b = s
  generalize z a = x
  generalize z0 a = y
  intro hz h0 h1 za z0a da d2 cs dn
  have hnm : |m - n| ≤ d := by
    rw [abs_le]
    constructor <;> nlinarith
  -- the difference of the directions
  have hdir : |y / m - x / n| ≤ 2 * d / n := by
    have e : y / m - x / n = (m * (y - x) - (m - n) * y) / (m * n) := by field_simp; ring
    rw [e, abs_div, abs_of_pos (mul_pos h1 h0), div_le_div_iff₀ (mul_pos h1 h0) h0]
    have h2 : |m * (y - x) - (m - n) * y| ≤ 2 * d * m := by
      refine (abs_sub _ _).trans ?_
      rw [abs_mul, abs_mul, abs_of_pos h1]
      have := mul_le_mul hnm z0a (abs_nonneg _) dn
      have := mul_le_mul_of_nonneg_left da h1.le
      linarith
    nlinarith
  have hcos : |s - m * n| ≤ d ^ 2 / 2 := by
    rw [abs_le]
    constructor <;> nlinarith [sq_nonneg (m - n)]
  have hx : |x / n| ≤ 1 := by
    rw [abs_div, abs_of_pos h0]; exact (div_le_one h0).mpr za
  have key : r0 * y / m - r * x / n - (r / n * (y - x) - r * (s - n ^ 2) * x / n ^ 3) - x / n * (r0 - r)
      = r * ((n - m) / n * (y / m - x / n)) + r / n ^ 2 * ((s - m * n) * (x / n)) + (r0 - r) * (y / m - x / n) := by
    field_simp
    ring
  rw [key]
  have b1 : |r * ((n - m) / n * (y / m - x / n))| ≤ 2 * d ^ 2 / n := by
    rw [abs_mul, abs_mul, abs_div, abs_of_pos h0, abs_of_nonneg hr, abs_sub_comm n m]
    have h3 : r * (|m - n| / n * |y / m - x / n|) ≤ n * (d / n * (2 * d / n)) := by
      have : |m - n| / n ≤ d / n := div_le_div_of_nonneg_right hnm h0.le
      exact mul_le_mul hz (mul_le_mul this hdir (abs_nonneg _) (by positivity)) (by positivity) h0.le
    refine h3.trans_eq ?_
    field_simp
  have b2 : |r / n ^ 2 * ((s - m * n) * (x / n))| ≤ d ^ 2 / n := by
    rw [abs_mul, abs_mul, abs_of_nonneg (by positivity : 0 ≤ r / n ^ 2)]
    have h4 : r / n ^ 2 ≤ 1 / n := by
      rw [div_le_div_iff₀ (by positivity) h0]; nlinarith
    have h5 : |s - m * n| * |x / n| ≤ d ^ 2 / 2 * 1 := mul_le_mul hcos hx (abs_nonneg _) (by positivity)
    have h6 := mul_le_mul h4 h5 (by positivity) (by positivity)
    refine h6.trans ?_
    rw [mul_one, one_div_mul_eq_div]
    exact div_le_div_of_nonneg_right (by nlinarith [sq_nonneg d]) h0.le
  have b3 : |(r0 - r) * (y / m - x / n)| ≤ |r0 - r| * (2 * d / n) := by
    rw [abs_mul]; exact mul_le_mul_of_nonneg_left hdir (abs_nonneg _)
  refine ((abs_add_le _ _).trans (add_le_add ((abs_add_le _ _).trans (add_le_add b1 b2)) b3)).trans_eq ?_
  ring

/-! ### functions with quadratic remainder -/

/-- Near `x0` the value `f x0` differs from `f x + df x` by a multiple of the square of the distance. -/
def Rem {X : Type*} [PseudoMetricSpace X] (x0 : X) (f df : X → ℝ) : Prop :=
  ∃ C, ∀ᶠ x in nhds x0, |f x0 - f x - df x| ≤ C * dist x x0 ^ 2

section

variable {X : Type} [PseudoMetricSpace X] {x0 : X} {f g df dg : X → ℝ}

theorem Rem.zero (h : ∀ᶠ x in nhds x0, f x0 - f x - df x = 0) : Rem x0 f df :=
  ⟨0, by filter_upwards [h] with x hx; rw [hx]; simp⟩

theorem Rem.add (hf : Rem x0 f df) (hg : Rem x0 g dg) : Rem x0 (fun x => f x + g x) (fun x => df x + dg x) := by
  obtain ⟨C, hC⟩ := hf
  obtain ⟨C', hC'⟩ := hg
  refine ⟨C + C', ?_⟩
  filter_upwards [hC, hC'] with x h h'
  have e : f x0 + g x0 - (f x + g x) - (df x + dg x) = (f x0 - f x - df x) + (g x0 - g x - dg x) := by ring
  rw [e, add_mul]
  exact (abs_add_le _ _).trans (add_le_add h h')

theorem Rem.const_mul (hf : Rem x0 f df) (c : ℝ) : Rem x0 (fun x => c * f x) (fun x => c * df x) := by
  obtain ⟨C, hC⟩ := hf
  refine ⟨|c| * C, ?_⟩
  filter_upwards [hC] with x h
  rw [← mul_sub, ← mul_sub, abs_mul, mul_assoc]
  exact mul_le_mul_of_nonneg_left h (abs_nonneg _)

theorem Rem.mul_const (hf : Rem x0 f df) (c : ℝ) : Rem x0 (fun x => f x * c) (fun x => df x * c) := by
  simpa only [mul_comm] using hf.const_mul c

theorem Rem.sub (hf : Rem x0 f df) (hg : Rem x0 g dg) : Rem x0 (fun x => f x - g x) (fun x => df x - dg x) := by
  have := hf.add (hg.const_mul (-1))
  simpa only [neg_one_mul, ← sub_eq_add_neg] using this

theorem Rem.sum {ι : Type*} (s : Finset ι) {F dF : ι → X → ℝ} (h : ∀ i ∈ s, Rem x0 (F i) (dF i)) :
    Rem x0 (fun x => ∑ i ∈ s, F i x) (fun x => ∑ i ∈ s, dF i x) := by
  classical
  induction s using Finset.induction_on with
  | empty => exact Rem.zero (Filter.Eventually.of_forall (fun x => by simp))
  | insert a s ha ih =>
    simp only [sum_insert ha]
    exact (h a (mem_insert_self _ _)).add (ih (fun i hi => h i (mem_insert_of_mem hi)))

theorem Rem.congr (hf : Rem x0 f df) (h0 : f x0 = g x0) (h1 : ∀ᶠ x in nhds x0, f x = g x ∧ df x = dg x) : Rem x0 g dg := by
  obtain ⟨C, hC⟩ := hf
  refine ⟨C, ?_⟩
  filter_upwards [hC, h1] with x h h1
  rw [← h0, ← h1.1, ← h1.2]
  exact h

/-- The positive part of a function which is affine: no remainder. -/
theorem Rem.posPart (hf : Lip f) (h : ∀ x, f x0 = f x + df x) :
    Rem x0 (fun x => max 0 (f x)) (fun x => step (f x) * df x) := by
  have hc := hf.continuous.continuousAt (x := x0)
  rcases lt_trichotomy (f x0) 0 with h0 | h0 | h0
  · refine Rem.zero ?_
    filter_upwards [hc.eventually_lt continuousAt_const h0] with x hx
    rw [max_eq_left h0.le, max_eq_left hx.le, step, if_neg (not_lt.mpr hx.le)]
    ring
  · refine Rem.zero (Filter.Eventually.of_forall (fun x => ?_))
    have := h x
    rw [h0, max_self, step]
    split
    · rename_i h1
      rw [max_eq_right h1.le]; linarith
    · rename_i h1
      rw [max_eq_left (not_lt.mp h1)]; ring
  · refine Rem.zero ?_
    filter_upwards [continuousAt_const.eventually_lt hc h0] with x hx
    rw [max_eq_right h0.le, max_eq_right hx.le, step, if_pos hx, h x]
    ring

theorem vecLength_cont {g : ℕ} {z : X → ℕ → ℝ} (hz : ∀ a < g, Lip (fun x => z x a)) :
    Continuous (fun x => vecLength g (z x)) :=
  (continuous_finsetSum _ (fun a ha => ((hz a (mem_range.mp ha)).continuous.pow 2))).sqrt

/-- The distance of the values. -/
theorem vecLength_lip {g : ℕ} {z : X → ℕ → ℝ} (hz : ∀ a < g, Lip (fun x => z x a)) :
    ∃ L, 0 ≤ L ∧ ∀ x y, vecLength g (fun b => z x b - z y b) ≤ L * dist x y := by
  choose! C hC using hz
  have hS : ∀ a < g, C a ≤ ∑ a ∈ range g, |C a| := fun a ha =>
    (le_abs_self _).trans (single_le_sum (f := fun a => |C a|) (fun _ _ => abs_nonneg _) (mem_range.mpr ha))
  have hS0 : 0 ≤ ∑ a ∈ range g, |C a| := sum_nonneg (fun _ _ => abs_nonneg _)
  refine ⟨g * ∑ a ∈ range g, |C a|, by positivity, fun x y => ?_⟩
  rw [mul_assoc]
  refine vecLength_le (mul_nonneg hS0 dist_nonneg) (fun a ha => (hC a ha x y).trans ?_)
  exact mul_le_mul_of_nonneg_right (hS a ha) dist_nonneg

/-- The radial map of functions with bounded differences. -/
theorem radial_rem {g : ℕ} {z : X → ℕ → ℝ} {r : X → ℝ} (hz : ∀ a < g, Lip (fun x => z x a)) (hr : Lip r) :
    ∃ C, ∀ x : X, 1e-14 ≤ r x → r x ≤ vecLength g (z x) → 0 < vecLength g (z x0) → ∀ a < g,
      |r x0 * z x0 a / vecLength g (z x0) - r x * z x a / vecLength g (z x)
        - (r x / vecLength g (z x) * (z x0 a - z x a)
          - r x * (∑ b ∈ range g, z x b * (z x0 b - z x b)) * z x a / vecLength g (z x) ^ 3)
        - z x a / vecLength g (z x) * (r x0 - r x)| ≤ C * dist x x0 ^ 2 := by
  obtain ⟨L, hL0, hL⟩ := vecLength_lip hz
  obtain ⟨R, hR⟩ := hr
  refine ⟨(3 * L ^ 2 + |R| * (2 * L)) / 1e-14, fun x h1 h2 h3 a ha => ?_⟩
  have hn : (0 : ℝ) < 1e-14 := by norm_num
  have hl : (1e-14 : ℝ) ≤ vecLength g (z x) := h1.trans h2
  refine (radial_remainder (z x) (z x0) (hn.le.trans h1) h2 (hn.trans_le hl) h3 ha).trans ?_
  have hd := hL x0 x
  have hrd : |r x0 - r x| ≤ |R| * dist x x0 := by
    refine (hR x0 x).trans ?_
    rw [dist_comm]
    exact mul_le_mul_of_nonneg_right (le_abs_self _) dist_nonneg
  rw [dist_comm x0 x] at hd
  have dn := vecLength_nonneg g (fun b => z x0 b - z x b)
  have hD := dist_nonneg (x := x) (y := x0)
  revert hd hrd dn hl hD
  generalize vecLength g (fun b => z x0 b - z x b) = d
  generalize vecLength g (z x) = n
  generalize |r x0 - r x| = ρ
  generalize dist x x0 = D
  intro hl hd hrd dn hD
  have a1 : 3 * d ^ 2 / n ≤ 3 * (L * D) ^ 2 / 1e-14 := by
    refine div_le_div₀ (by positivity) ?_ hn hl
    have := pow_le_pow_left₀ dn hd 2
    linarith
  have a2 : ρ * (2 * d / n) ≤ |R| * D * (2 * (L * D) / 1e-14) := by
    refine mul_le_mul hrd ?_ (by positivity) (by positivity)
    exact div_le_div₀ (by positivity) (by linarith) hn hl
  refine (add_le_add a1 a2).trans_eq ?_
  ring

/-- The projection onto a ball of fixed radius: the remainder is quadratic, also on the sphere. -/
theorem ball_rem {g : ℕ} {z : X → ℕ → ℝ} {r : ℝ} (hr : r = 0 ∨ 1e-14 ≤ r) (hz : ∀ a < g, Lip (fun x => z x a))
    {dz : X → ℕ → ℝ} (hd : ∀ x, ∀ a < g, dz x a = z x0 a - z x a) {a : ℕ} (ha : a < g) :
    Rem x0 (fun x => ball g (z x) r a) (fun x => cutSlope g (z x) r (dz x) a) := by
  have hn : (0 : ℝ) < 1e-14 := by norm_num
  rcases hr with rfl | hr
  · refine Rem.zero (Filter.Eventually.of_forall (fun x => ?_))
    have hb : ∀ y : ℕ → ℝ, ball g y 0 a = 0 := by
      intro y
      unfold ball
      split
      · rename_i h
        have h0 : vecLength g y = 0 := le_antisymm h (vecLength_nonneg g y)
        have := abs_le_vecLength y ha
        rw [h0] at this
        exact abs_eq_zero.mp (le_antisymm this (abs_nonneg _))
      · simp
    simp only [hb, cutSlope, if_pos hn, sub_zero]
  · have hr0 : 0 < r := hn.trans_le hr
    have hcut : ∀ x, cutSlope g (z x) r (dz x) a
        = if vecLength g (z x) < r then z x0 a - z x a
          else r / vecLength g (z x) * (z x0 a - z x a)
            - r * (∑ b ∈ range g, z x b * (z x0 b - z x b)) * z x a / vecLength g (z x) ^ 3 := by
      intro x
      have e : ∑ b ∈ range g, z x b * dz x b = ∑ b ∈ range g, z x b * (z x0 b - z x b) :=
        sum_congr rfl (fun b hb => by rw [hd x b (mem_range.mp hb)])
      rw [cutSlope, if_neg (not_lt.mpr hr), ballSlope, hd x a ha, e]
      rfl
    have hball : ∀ x, ball g (z x) r a = if vecLength g (z x) ≤ r then z x a else r * z x a / vecLength g (z x) :=
      fun x => rfl
    have hout : ∀ x, r ≤ vecLength g (z x) → ball g (z x) r a = r * z x a / vecLength g (z x) := by
      intro x hx
      rw [hball]
      split
      · rename_i h
        have e : vecLength g (z x) = r := le_antisymm h hx
        rw [e, mul_comm, mul_div_assoc, div_self hr0.ne', mul_one]
      · rfl
    obtain ⟨C, hC⟩ := radial_rem (x0 := x0) hz (Lip.const r)
    have hcont := (vecLength_cont hz).continuousAt (x := x0)
    have hq : r ≤ vecLength g (z x0) → ∀ x, r ≤ vecLength g (z x) →
        |ball g (z x0) r a - ball g (z x) r a - cutSlope g (z x) r (dz x) a| ≤ C * dist x x0 ^ 2 := by
      intro h0 x hx
      have := hC x hr hx (hr0.trans_le h0) a ha
      rw [hout x0 h0, hout x hx, hcut, if_neg (not_lt.mpr hx)]
      simpa using this
    rcases lt_trichotomy (vecLength g (z x0)) r with h0 | h0 | h0
    · refine Rem.zero ?_
      filter_upwards [hcont.eventually_lt continuousAt_const h0] with x hx
      rw [hball, hball, hcut, if_pos h0.le, if_pos hx.le, if_pos hx]
      ring
    · refine ⟨max C 0, Filter.Eventually.of_forall (fun x => ?_)⟩
      by_cases hx : vecLength g (z x) < r
      · dsimp only
        rw [hball, hball, hcut, if_pos h0.le, if_pos hx.le, if_pos hx]
        rw [sub_self, abs_zero]
        positivity
      · exact (hq h0.ge x (not_lt.mp hx)).trans (mul_le_mul_of_nonneg_right (le_max_left _ _) (sq_nonneg _))
    · refine ⟨C, ?_⟩
      filter_upwards [continuousAt_const.eventually_lt hcont h0] with x hx
      exact hq h0.le x hx.le

/-- The projection onto a ball of variable radius, away from the sphere. -/
theorem ball_rem_radius {g : ℕ} {z : X → ℕ → ℝ} {r dr : X → ℝ} (hr0 : 1e-14 < r x0) (hr : Lip r)
    (hdr : ∀ᶠ x in nhds x0, dr x = r x0 - r x) (hz : ∀ a < g, Lip (fun x => z x a)) (hne : vecLength g (z x0) ≠ r x0)
    {dz : X → ℕ → ℝ} (hd : ∀ x, ∀ a < g, dz x a = z x0 a - z x a) {a : ℕ} (ha : a < g) :
    Rem x0 (fun x => ball g (z x) (r x) a)
      (fun x => cutSlope g (z x) (r x) (dz x) a + ballRadiusSlope g (z x) (r x) a * dr x) := by
  have hn : (0 : ℝ) < 1e-14 := by norm_num
  have hcont := (vecLength_cont hz).continuousAt (x := x0)
  have hrc := hr.continuous.continuousAt (x := x0)
  have hcut : ∀ x, 1e-14 < r x → cutSlope g (z x) (r x) (dz x) a
      = if vecLength g (z x) < r x then z x0 a - z x a
        else r x / vecLength g (z x) * (z x0 a - z x a)
          - r x * (∑ b ∈ range g, z x b * (z x0 b - z x b)) * z x a / vecLength g (z x) ^ 3 := by
    intro x hx
    have e : ∑ b ∈ range g, z x b * dz x b = ∑ b ∈ range g, z x b * (z x0 b - z x b) :=
      sum_congr rfl (fun b hb => by rw [hd x b (mem_range.mp hb)])
    rw [cutSlope, if_neg (not_lt.mpr hx.le), ballSlope, hd x a ha, e]
    rfl
  have hball : ∀ x, ball g (z x) (r x) a = if vecLength g (z x) ≤ r x then z x a else r x * z x a / vecLength g (z x) :=
    fun x => rfl
  have hrad : ∀ x, ballRadiusSlope g (z x) (r x) a = if r x < vecLength g (z x) then z x a / vecLength g (z x) else 0 :=
    fun x => rfl
  rcases lt_or_gt_of_ne hne with h0 | h0
  · refine Rem.zero ?_
    filter_upwards [hcont.eventually_lt hrc h0, continuousAt_const.eventually_lt hrc hr0] with x hx hx'
    rw [hball, hball, hcut x hx', hrad, if_pos h0.le, if_pos hx.le, if_pos hx, if_neg (not_lt.mpr hx.le)]
    ring
  · obtain ⟨C, hC⟩ := radial_rem (x0 := x0) hz hr
    refine ⟨C, ?_⟩
    filter_upwards [hrc.eventually_lt hcont h0, continuousAt_const.eventually_lt hrc hr0, hdr] with x hx hx' hdx
    have := hC x hx'.le hx.le (hn.trans (hr0.trans h0)) a ha
    rw [hball, hball, hcut x hx', hrad, if_neg (not_le.mpr h0), if_neg (not_le.mpr hx), if_neg (not_lt.mpr hx.le),
      if_pos hx, hdx]
    refine le_trans (le_of_eq ?_) this
    congr 1
    ring

/-- The form of a point. -/
theorem point_rem {p : ContactPoint} {law : Law} {gamma : ℝ} (theta : ℝ) {J K : X → ℕ → ℝ} {D E : X → ℕ → ℕ → ℝ}
    (hJ : ∀ a, Lip (fun x => J x a)) (hD : ∀ a b, Lip (fun x => D x a b))
    (hK : ∀ x, ∀ a < p.g, J x0 a = J x a + K x a) (hE : ∀ x, ∀ a < p.g, ∀ b < p.g, D x0 a b = D x a b + E x a b)
    (hreg : p.Regular law gamma (J x0) (D x0)) (J' : ℕ → ℝ) (D' : ℕ → ℕ → ℝ) :
    Rem x0 (fun x => p.form law gamma theta (J x) (D x) J' D')
      (fun x => p.dForm cutSlope law gamma theta (J x) (D x) (K x) (E x) J' D') := by
  have hdJ : Lip (fun x => p.dot (J x)) := dot_lip (fun a _ => hJ a)
  have hT : Lip (fun x => p.dot (p.trac (D x))) := dot_lip (fun a ha => trac_lip hD ha)
  have hTt : ∀ a < p.g, Lip (fun x => p.tang (p.trac (D x)) a) := fun a ha => tang_lip (fun a ha => trac_lip hD ha) ha
  have hP : Lip (fun x => p.pressure gamma (J x) (D x)) := (hdJ.sub (Lip.const _)).sub (hT.const_mul _)
  have hS : ∀ a < p.g, Lip (fun x => p.slip gamma (J x) (D x) a) := fun a ha =>
    (tang_lip (fun a _ => hJ a) ha).sub ((hTt a ha).const_mul _)
  have hN : Rem x0 (fun x => p.normalPart gamma theta (J x) (D x) J' D')
      (fun x => p.dNormalPart gamma theta (J x) (D x) (K x) (E x) J' D') := by
    unfold ContactPoint.normalPart ContactPoint.dNormalPart
    refine Rem.sub ?_ ?_
    · exact ((Rem.posPart hP (fun x => pressure_sum (hK x) (hE x) gamma)).const_mul _).mul_const _
    · refine Rem.mul_const (Rem.const_mul (Rem.zero (Filter.Eventually.of_forall (fun x => ?_))) _) _
      rw [dot_plus (trac_plus (hE x))]; ring
  unfold ContactPoint.form ContactPoint.dForm
  refine hN.add ?_
  by_cases hlf : law = .frictionless
  · simp only [if_pos hlf]
    exact Rem.zero (Filter.Eventually.of_forall (fun x => by ring))
  simp only [if_neg hlf]
  unfold ContactPoint.frictionPart ContactPoint.dFrictionPart
  refine Rem.sub (Rem.const_mul (Rem.sum _ (fun a ha => Rem.mul_const ?_ _)) _)
    (Rem.const_mul (Rem.sum _ (fun a ha => Rem.mul_const ?_ _)) _)
  · have ha' := mem_range.mp ha
    cases law with
    | frictionless => exact absurd rfl hlf
    | tresca =>
      exact ball_rem hreg hS (fun x b hb => by rw [slip_sum (hK x) (hE x) gamma b hb]; ring) ha'
    | coulomb =>
      have hz : ∀ a < p.g, Lip (fun x => p.slip gamma (J x) (D x) a - (p.dot p.gap - p.dot (J x)) * p.tang p.oldNormal a) :=
        fun a ha => (hS a ha).sub (((Lip.const _).sub hdJ).mul_const _)
      have hdz : ∀ x, ∀ b < p.g, p.slip gamma (K x) (E x) b + p.dot (K x) * p.tang p.oldNormal b
          = (p.slip gamma (J x0) (D x0) b - (p.dot p.gap - p.dot (J x0)) * p.tang p.oldNormal b)
            - (p.slip gamma (J x) (D x) b - (p.dot p.gap - p.dot (J x)) * p.tang p.oldNormal b) := by
        intro x b hb
        rw [slip_sum (hK x) (hE x) gamma b hb, dot_plus (hK x)]; ring
      have hn : (0 : ℝ) < 1e-14 := by norm_num
      have hb0 : ∀ y : ℕ → ℝ, ball p.g y 0 a = 0 := by
        intro y
        obtain ⟨ρ, h1, h2⟩ := ball_factor p.g y (le_refl (0 : ℝ))
        rw [min_eq_right (vecLength_nonneg _ _)] at h2
        rw [h1]
        rcases mul_eq_zero.mp h2 with h | h
        · rw [h, zero_mul]
        · have := abs_le_vecLength y ha'
          rw [h] at this
          rw [abs_eq_zero.mp (le_antisymm this (abs_nonneg _)), mul_zero]
      show Rem x0 (fun x => ball p.g _ _ a) (fun x => cutSlope p.g _ _ _ a + ballRadiusSlope p.g _ _ a * (p.fric * _))
      rcases hreg with h | h | ⟨h, hne⟩
      · refine Rem.zero (Filter.Eventually.of_forall (fun x => ?_))
        simp only [h, zero_mul, mul_zero, hb0, cutSlope, if_pos hn]
        ring
      · refine Rem.zero ?_
        filter_upwards [hP.continuous.continuousAt.eventually_lt continuousAt_const h] with x hx
        simp only [max_eq_left h.le, max_eq_left (show p.pressure gamma (J x) (D x) ≤ 0 from hx.le), mul_zero, hb0, cutSlope,
          if_pos hn, step, if_neg (not_lt.mpr (show p.pressure gamma (J x) (D x) ≤ 0 from hx.le)), zero_mul]
        ring
      · have hP0 : 0 < p.pressure gamma (J x0) (D x0) ∨ p.pressure gamma (J x0) (D x0) < 0 := by
          rcases lt_trichotomy (p.pressure gamma (J x0) (D x0)) 0 with h0 | h0 | h0
          · exact Or.inr h0
          · rw [h0, mul_zero] at h; linarith
          · exact Or.inl h0
        rcases hP0 with h0 | h0
        · have hm : max 0 (p.pressure gamma (J x0) (D x0)) = p.pressure gamma (J x0) (D x0) := max_eq_right h0.le
          refine ball_rem_radius (by rw [hm]; exact h) ((Lip.posPart hP).const_mul _) ?_ hz (by rw [hm]; exact hne) hdz ha'
          filter_upwards [continuousAt_const.eventually_lt hP.continuous.continuousAt h0] with x hx
          have hx' : 0 < p.pressure gamma (J x) (D x) := hx
          rw [hm, max_eq_right hx'.le, step, if_pos hx', pressure_sum (hK x) (hE x) gamma]
          ring
        · refine Rem.zero ?_
          filter_upwards [hP.continuous.continuousAt.eventually_lt continuousAt_const h0] with x hx
          have hx' : p.pressure gamma (J x) (D x) < 0 := hx
          simp only [max_eq_left h0.le, max_eq_left hx'.le, mul_zero, hb0, cutSlope,
            if_pos hn, step, if_neg (not_lt.mpr hx'.le), zero_mul]
          ring
  · refine Rem.zero (Filter.Eventually.of_forall (fun x => ?_))
    rw [tang_plus (trac_plus (hE x)) a (mem_range.mp ha)]
    ring

/-- The form of a contact problem. -/
theorem form_rem {U : X → ℕ → ℝ} (hU : ∀ d, Lip (fun x => U x d)) {t : Tracked G} {law : Law} {gamma : ℝ} (theta : ℝ)
    (hreg : RegularContact Y t law gamma (U x0)) (v : ℕ → ℝ) :
    Rem x0 (fun x => contactForm Y t law gamma theta (U x) v)
      (fun x => contactTangent Y t cutSlope law gamma theta (U x) (fun d => U x0 d - U x d) v) := by
  unfold contactForm contactTangent
  refine Rem.sum _ (fun i hi => Rem.sum _ (fun e he => ?_))
  cases hf : (Y.facets i)[e]? with
  | none => exact Rem.zero (Filter.Eventually.of_forall (fun x => by simp))
  | some c =>
    obtain ⟨cell, f⟩ := c
    simp only [Option.elim_some]
    refine Rem.sum _ (fun q hq => ?_)
    by_cases hk : 0 ≤ Y.map t.cur i (e * Y.nq + q)
    · simp only [if_pos hk]
      refine Rem.const_mul (point_rem theta (J := fun x => jumpAt Y t.cur i e cell f (U x) q)
        (K := fun x => jumpAt Y t.cur i e cell f (fun d => U x0 d - U x d) q)
        (D := fun x a b => gradAt Y cell f (U x) q a b + (pointAt Y t i e cell f q).grad0 a b)
        (E := fun x => gradAt Y cell f (fun d => U x0 d - U x d) q) (fun a => jumpAt_lip hU _ _ _ _ _ _ a)
        (fun a b => (gradAt_lip hU _ _ _ a b).add (Lip.const _)) (fun x a _ => ?_) (fun x a _ b _ => ?_)
        (hreg i (mem_range.mp hi) e (mem_range.mp he) cell f hf q (mem_range.mp hq) hk) _ _) _
      · have := jumpAt_line (Y := Y) t.cur i e cell f (U x) (fun d => U x0 d - U x d) q a 1
        simp only [one_mul, add_sub_cancel] at this
        exact this
      · have := gradAt_line (Y := Y) cell f (U x) (fun d => U x0 d - U x d) q a b 1
        simp only [one_mul, add_sub_cancel] at this
        rw [this]
        ring
    · simp only [if_neg hk]
      exact Rem.zero (Filter.Eventually.of_forall (fun x => by simp))

end

end

end Verif.ContactProblem
