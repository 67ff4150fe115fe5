import Verif.Spec.Wedges
import Verif.Props.ContactMeshes
import Mathlib.Tactic.FieldSimp
import Mathlib.Tactic.LinearCombination

/-! Sums over quadrature points of a surface, and the resultant of tractions that obey Coulomb's law on a slope. -/

namespace Verif.Wedges

open Finset Verif.ContactMeshes Verif.Spec.Wedges

noncomputable section

/-- Weighted sum over the points with a tag. -/
def total (S : Surfaces) (tag : ℕ) (f : ℕ → ℝ) : ℝ :=
  ∑ r ∈ range S.size, ((S.pts r tag).map (fun k => S.wt k * f k)).sum

theorem total_lin (S : Surfaces) (tag : ℕ) (a b : ℝ) (f g : ℕ → ℝ) :
    total S tag (fun k => a * f k + b * g k) = a * total S tag f + b * total S tag g := by
  unfold total
  rw [mul_sum, mul_sum, ← sum_add_distrib]
  refine sum_congr rfl fun r _ => ?_
  induction S.pts r tag with
  | nil => simp
  | cons x l ih => simp only [List.map_cons, List.sum_cons, ih]; ring

theorem total_congr (S : Surfaces) (tag : ℕ) {f g : ℕ → ℝ} (h : ∀ k, IsPoint S tag k → f k = g k) :
    total S tag f = total S tag g := by
  unfold total
  refine sum_congr rfl fun r hr => ?_
  congr 1
  refine List.map_congr_left fun k hk => ?_
  rw [h k ⟨r, mem_range.1 hr, hk⟩]

theorem list_nonneg {l : List ℕ} {f : ℕ → ℝ} (h : ∀ k ∈ l, 0 ≤ f k) : 0 ≤ (l.map f).sum := by
  apply List.sum_nonneg
  intro x hx
  obtain ⟨k, hk, rfl⟩ := List.mem_map.1 hx
  exact h k hk

theorem list_zero {l : List ℕ} {f : ℕ → ℝ} (h : ∀ k ∈ l, 0 ≤ f k) : (l.map f).sum = 0 ↔ ∀ k ∈ l, f k = 0 := by
  induction l with
  | nil => simp
  | cons x l ih =>
    have h1 := h x (by simp)
    have h2 := list_nonneg (fun k hk => h k (List.mem_cons_of_mem _ hk))
    have ih := ih (fun k hk => h k (List.mem_cons_of_mem _ hk))
    simp only [List.map_cons, List.sum_cons, List.mem_cons, forall_eq_or_imp, ← ih]
    constructor
    · intro h; constructor <;> linarith
    · rintro ⟨a, b⟩; rw [a, b]; ring

theorem total_nonneg {S : Surfaces} (hw : ∀ k, 0 ≤ S.wt k) (tag : ℕ) {f : ℕ → ℝ} (h : ∀ k, IsPoint S tag k → 0 ≤ f k) :
    0 ≤ total S tag f :=
  sum_nonneg fun r hr => list_nonneg fun k hk => mul_nonneg (hw k) (h k ⟨r, mem_range.1 hr, hk⟩)

theorem total_zero {S : Surfaces} (hw : ∀ k, 0 ≤ S.wt k) (tag : ℕ) {f : ℕ → ℝ} (h : ∀ k, IsPoint S tag k → 0 ≤ f k) :
    total S tag f = 0 ↔ ∀ k, IsPoint S tag k → 0 < S.wt k → f k = 0 := by
  unfold total
  have hn : ∀ r ∈ range S.size, ∀ k ∈ S.pts r tag, 0 ≤ S.wt k * f k :=
    fun r hr k hk => mul_nonneg (hw k) (h k ⟨r, mem_range.1 hr, hk⟩)
  rw [sum_eq_zero_iff_of_nonneg fun r hr => list_nonneg (hn r hr)]
  constructor
  · rintro h0 k ⟨r, hr, hk⟩ hpos
    have := (list_zero (hn r (mem_range.2 hr))).1 (h0 r (mem_range.2 hr)) k hk
    rcases mul_eq_zero.1 this with h | h
    · exact absurd h hpos.ne'
    · exact h
  · intro h0 r hr
    refine (list_zero (hn r hr)).2 fun k hk => ?_
    rcases (hw k).eq_or_lt with h | h
    · rw [← h, zero_mul]
    · rw [h0 k ⟨r, mem_range.1 hr, hk⟩ h, mul_zero]

theorem reaction_total (mu lmbda : ℝ) (S : Surfaces) (G : ℕ → ℕ → ℕ → ℝ) (tag : ℕ) :
    reaction mu lmbda S G tag ex = total S tag (fun k => traction mu lmbda S G k 0) ∧
      reaction mu lmbda S G tag ey = total S tag (fun k => traction mu lmbda S G k 1) := by
  constructor <;> simp [reaction, total, OneSided.dotV, sum_range_succ, ex, ey]

/-- A surface with normal `ε (s, -c)` and tractions that obey Coulomb's law. -/
structure Slope (fric t c ε : ℝ) (S : Surfaces) (τ : ℕ → ℕ → ℝ) (tag : ℕ) : Prop where
  weight : ∀ k, 0 ≤ S.wt k
  c_pos : 0 < c
  unit : c ^ 2 + (t * c) ^ 2 = 1
  sign : ε ^ 2 = 1
  normal : ∀ k, IsPoint S tag k → S.n k 0 = ε * (t * c) ∧ S.n k 1 = -ε * c
  law : ∀ k, IsPoint S tag k → Coulomb fric (S.n k) (τ k)

/-- Tangential traction, counted uphill for the upper wedge and downhill for the lower one. -/
def shear (t c ε : ℝ) (τ : ℕ → ℝ) : ℝ := ε * (τ 0 * c + τ 1 * (t * c))

variable {fric t c ε : ℝ} {S : Surfaces} {τ : ℕ → ℕ → ℝ} {tag : ℕ}

theorem Slope.split (h : Slope fric t c ε S τ tag) {k : ℕ} (hk : IsPoint S tag k) :
    ε * τ k 0 = -pressure (S.n k) (τ k) * (t * c) + shear t c ε (τ k) * c ∧
      ε * τ k 1 = pressure (S.n k) (τ k) * c + shear t c ε (τ k) * (t * c) := by
  obtain ⟨h0, h1⟩ := h.normal k hk
  simp only [pressure, shear, h0, h1]
  constructor
  · linear_combination (-(ε * τ k 0)) * h.unit
  · linear_combination (-(ε * τ k 1)) * h.unit

theorem Slope.tang (h : Slope fric t c ε S τ tag) {k : ℕ} (hk : IsPoint S tag k) :
    tangential (S.n k) (τ k) 0 = ε * shear t c ε (τ k) * c ∧
      tangential (S.n k) (τ k) 1 = ε * shear t c ε (τ k) * (t * c) := by
  obtain ⟨h0, h1⟩ := h.normal k hk
  simp only [tangential, pressure, shear, h0, h1]
  constructor
  · linear_combination (-(τ k 0) * (t * c) ^ 2 + τ k 1 * t * c ^ 2 - (τ k 0 * c + τ k 1 * (t * c)) * c) * h.sign - τ k 0 * h.unit
  · linear_combination (τ k 0 * t * c ^ 2 - τ k 1 * c ^ 2 - (τ k 0 * c + τ k 1 * (t * c)) * (t * c)) * h.sign - τ k 1 * h.unit

theorem Slope.bound (h : Slope fric t c ε S τ tag) (hf : 0 ≤ fric) {k : ℕ} (hk : IsPoint S tag k) :
    0 ≤ pressure (S.n k) (τ k) ∧ |shear t c ε (τ k)| ≤ fric * pressure (S.n k) (τ k) := by
  obtain ⟨hp, hl⟩ := h.law k hk
  refine ⟨hp, abs_le_of_sq_le_sq ?_ (mul_nonneg hf hp)⟩
  obtain ⟨h0, h1⟩ := h.tang hk
  rw [h0, h1] at hl
  have : (ε * shear t c ε (τ k) * c) ^ 2 + (ε * shear t c ε (τ k) * (t * c)) ^ 2 = shear t c ε (τ k) ^ 2 := by
    linear_combination (ε ^ 2 * shear t c ε (τ k) ^ 2) * h.unit + shear t c ε (τ k) ^ 2 * h.sign
  linarith

/-- The resultant of Coulomb tractions: it points in a sector, and to the border of the sector exactly for full slip. -/
theorem Slope.resultant (h : Slope fric t c ε S τ tag) (hf : 0 ≤ fric) (ht : 0 < t) (hft : fric * t < 1) :
    (|total S tag (fun k => τ k 1)| = 0 ↔ ¬ Pressed S τ tag) ∧
      (Pressed S τ tag →
        |total S tag (fun k => τ k 0)| / |total S tag (fun k => τ k 1)| ≤ (fric + t) / (1 - fric * t) ∧
        (|total S tag (fun k => τ k 0)| / |total S tag (fun k => τ k 1)| = (fric + t) / (1 - fric * t) ↔
          ∀ k, IsPoint S tag k → 0 < S.wt k → shear t c ε (τ k) = -(fric * pressure (S.n k) (τ k)))) := by
  obtain ⟨r, hr⟩ : ∃ r, r = (fric + t) / (1 - fric * t) := ⟨_, rfl⟩
  rw [← hr]
  have hd : 0 < 1 - fric * t := by linarith
  have hr1 : r * (1 - fric * t) = fric + t := by rw [hr]; field_simp
  have hft0 : 0 ≤ fric * t := mul_nonneg hf ht.le
  have hr0 : 0 < r := by rw [hr]; positivity
  have hrge : fric + t ≤ r := by nlinarith
  have hc := h.c_pos
  have hε : |ε| = 1 := by rw [← sq_eq_sq₀ (abs_nonneg _) zero_le_one, sq_abs, h.sign, one_pow]
  obtain ⟨X, hX⟩ : ∃ X, X = total S tag (fun k => ε * τ k 0) := ⟨_, rfl⟩
  obtain ⟨Y, hY⟩ : ∃ Y, Y = total S tag (fun k => ε * τ k 1) := ⟨_, rfl⟩
  have habs : ∀ i, |total S tag (fun k => τ k i)| = |total S tag (fun k => ε * τ k i)| := by
    intro i
    have := total_lin S tag ε 0 (fun k => τ k i) (fun _ => 0)
    simp only [zero_mul, add_zero] at this
    rw [this, abs_mul, hε, one_mul]
  rw [habs 0, habs 1, ← hX, ← hY]
  have hYp : ∀ k, IsPoint S tag k → pressure (S.n k) (τ k) * (c * (1 - fric * t)) ≤ ε * τ k 1 := by
    intro k hk
    obtain ⟨hp, hq⟩ := h.bound hf hk
    rw [(h.split hk).2]
    have := (abs_le.1 hq).1
    nlinarith [mul_le_mul_of_nonneg_right this (mul_pos ht hc).le]
  have hY0 : ∀ k, IsPoint S tag k → 0 ≤ ε * τ k 1 := fun k hk =>
    (mul_nonneg (h.bound hf hk).1 (mul_pos hc hd).le).trans (hYp k hk)
  have hYn : 0 ≤ Y := hY ▸ total_nonneg h.weight tag hY0
  have hYz : Y = 0 ↔ ¬ Pressed S τ tag := by
    rw [hY, total_zero h.weight tag hY0]
    constructor
    · rintro h0 ⟨k, hk, hw, hp⟩
      have := hYp k hk
      rw [h0 k hk hw] at this
      exact absurd this (not_le.2 (mul_pos hp (mul_pos hc hd)))
    · intro h0 k hk hw
      obtain ⟨hp, hq⟩ := h.bound hf hk
      have hp0 : pressure (S.n k) (τ k) = 0 := by
        by_contra hne
        exact h0 ⟨k, hk, hw, lt_of_le_of_ne hp (Ne.symm hne)⟩
      have hq0 : shear t c ε (τ k) = 0 := by
        rw [hp0, mul_zero] at hq
        exact abs_eq_zero.1 (le_antisymm hq (abs_nonneg _))
      rw [(h.split hk).2, hp0, hq0]; ring
  refine ⟨by rw [abs_eq_zero]; exact hYz, fun hpr => ?_⟩
  have hYpos : 0 < Y := lt_of_le_of_ne hYn (fun h0 => hYz.1 h0.symm hpr)
  rw [abs_of_pos hYpos]
  -- rY + X and rY - X as sums
  have h1 : r * Y + X = total S tag (fun k => (r * (t * c) + c) * (shear t c ε (τ k) + fric * pressure (S.n k) (τ k))) := by
    rw [hX, hY]
    have := total_lin S tag r 1 (fun k => ε * τ k 1) (fun k => ε * τ k 0)
    rw [one_mul] at this
    rw [← this]
    refine total_congr S tag fun k hk => ?_
    obtain ⟨a, b⟩ := h.split hk
    simp only [a, b]
    linear_combination (pressure (S.n k) (τ k) * c) * hr1
  have h1p : ∀ k, IsPoint S tag k → 0 ≤ (r * (t * c) + c) * (shear t c ε (τ k) + fric * pressure (S.n k) (τ k)) := by
    intro k hk
    have := (abs_le.1 (h.bound hf hk).2).1
    exact mul_nonneg (by positivity) (by linarith)
  have h2 : 0 < r * Y - X := by
    have hn : ∀ k, IsPoint S tag k →
        pressure (S.n k) (τ k) * (c * (2 * t)) ≤ r * (ε * τ k 1) + -1 * (ε * τ k 0) := by
      intro k hk
      obtain ⟨hp, hq⟩ := h.bound hf hk
      obtain ⟨a, b⟩ := h.split hk
      rw [a, b]
      obtain ⟨q1, q2⟩ := abs_le.1 hq
      obtain ⟨p, hpp⟩ : ∃ p, p = pressure (S.n k) (τ k) := ⟨_, rfl⟩
      obtain ⟨q, hqq⟩ : ∃ q, q = shear t c ε (τ k) := ⟨_, rfl⟩
      rw [← hpp] at hp q1 q2 ⊢
      rw [← hqq] at q1 q2 ⊢
      have e : r * (p * c + q * (t * c)) + -1 * (-p * (t * c) + q * c) - p * (c * (2 * t))
          = c * (p * (r - t) + q * (r * t - 1)) := by ring
      have : 0 ≤ p * (r - t) + q * (r * t - 1) := by
        rcases le_total 0 (r * t - 1) with hs | hs
        · have : -(fric * p) * (r * t - 1) ≤ q * (r * t - 1) := mul_le_mul_of_nonneg_right q1 hs
          have : p * (r - t) + -(fric * p) * (r * t - 1) = p * (2 * fric) := by linear_combination p * hr1
          have : 0 ≤ p * (2 * fric) := by positivity
          linarith
        · have : fric * p * (r * t - 1) ≤ q * (r * t - 1) := mul_le_mul_of_nonpos_right q2 hs
          have e2 : p * (r - t) + fric * p * (r * t - 1) = p * (r - t - fric + r * (fric * t)) := by ring
          have : 0 ≤ p * (r - t - fric + r * (fric * t)) :=
            mul_nonneg hp (by have := mul_nonneg hr0.le hft0; linarith)
          linarith
      have := mul_nonneg hc.le this
      linarith
    have e : r * Y - X = total S tag (fun k => r * (ε * τ k 1) + -1 * (ε * τ k 0)) := by
      rw [hX, hY, total_lin]; ring
    have h0 : ∀ k, IsPoint S tag k → 0 ≤ r * (ε * τ k 1) + -1 * (ε * τ k 0) := fun k hk =>
      (mul_nonneg (h.bound hf hk).1 (by positivity)).trans (hn k hk)
    rw [e]
    refine lt_of_le_of_ne (total_nonneg h.weight tag h0) fun hz => ?_
    obtain ⟨k, hk, hw, hp⟩ := hpr
    have := hn k hk
    rw [(total_zero h.weight tag h0).1 hz.symm k hk hw] at this
    exact absurd this (not_le.2 (by positivity))
  have h1n : 0 ≤ r * Y + X := h1 ▸ total_nonneg h.weight tag h1p
  have hz := total_zero h.weight tag h1p
  rw [← h1] at hz
  have hcoef : 0 < r * (t * c) + c := by positivity
  rw [div_le_iff₀ hYpos, div_eq_iff hYpos.ne', abs_le]
  refine ⟨⟨by linarith, by linarith⟩, ?_⟩
  have e1 : |X| = r * Y ↔ r * Y + X = 0 := by
    constructor
    · intro hh
      rcases abs_cases X with ⟨a, _⟩ | ⟨a, _⟩ <;> linarith
    · intro hh
      rw [show X = -(r * Y) by linarith, abs_neg, abs_of_pos (mul_pos hr0 hYpos)]
  rw [e1, hz]
  refine forall_congr' fun k => forall_congr' fun hk => forall_congr' fun hw => ?_
  rw [mul_eq_zero, or_iff_right hcoef.ne']
  constructor <;> intro <;> linarith

end

end Verif.Wedges
