import Verif.Lemmas.Quadratic
import Verif.Props.CoulombWellPosed

/-!
Property C205: Newton's method converges quadratically, also with friction.
-/

namespace Verif.ContactProblem

open Verif.Spec Verif.Packing Verif.Assembly Verif.Kernels Verif.Lemmas Finset

noncomputable section

variable {G : Type} {Y : System G}

/-- From the bound for one step to sequences of steps. -/
theorem quadratic_of_step {s : State G} {N : ℕ} {F : Finset ℕ} {K : ℕ → ℕ → ℝ} {l us : ℕ → ℝ} {ε C : ℝ} (hε : 0 < ε)
    (hC : 0 ≤ C) (h : ∀ u u' : ℕ → ℝ, (∀ d, d ∉ F → u d = us d) → (∀ d ∈ F, |u d - us d| < ε) →
      ContactNewtonStep Y s N F K l u u' → ∀ d, |u' d - us d| ≤ C * ∑ c ∈ F, (u c - us c) ^ 2) :
    NewtonQuadratic Y s N F K l us := by
  obtain ⟨B, hB⟩ : ∃ B, B = C * (F.card + 1) + 1 := ⟨_, rfl⟩
  have hB0 : 0 < B := by rw [hB]; positivity
  have hCB : C ≤ B := by rw [hB]; nlinarith [Nat.cast_nonneg (α := ℝ) F.card]
  refine ⟨min ε (1 / (2 * B)), lt_min hε (by positivity), B, hB0, ?_, ?_⟩
  · intro u u' h1 h2 h3 d
    refine (h u u' h1 (fun d hd => (h2 d hd).trans_le (min_le_left _ _)) h3 d).trans ?_
    exact mul_le_mul_of_nonneg_right hCB (sum_nonneg (fun _ _ => sq_nonneg _))
  · intro u h1 h2 h3
    have key : ∀ k, (∀ d, d ∉ F → u k d = us d) ∧ ∃ e, 0 ≤ e ∧ (∀ d, |u k d - us d| ≤ e) ∧ e < ε ∧ B * e ≤ (1 / 2) ^ 2 ^ k := by
      intro k
      induction k with
      | zero =>
        refine ⟨h1, ?_⟩
        obtain ⟨e, he0, he1, he2⟩ : ∃ e, 0 ≤ e ∧ (∀ d ∈ F, |u 0 d - us d| ≤ e) ∧ e < min ε (1 / (2 * B)) := by
          rcases F.eq_empty_or_nonempty with hF | hF
          · refine ⟨0, le_rfl, fun d hd => ?_, lt_min hε (by positivity)⟩
            rw [hF] at hd; exact absurd hd (notMem_empty d)
          · obtain ⟨d, hd, hm⟩ := exists_max_image F (fun d => |u 0 d - us d|) hF
            exact ⟨|u 0 d - us d|, abs_nonneg _, hm, h2 d hd⟩
        refine ⟨e, he0, fun d => ?_, he2.trans_le (min_le_left _ _), ?_⟩
        · by_cases hd : d ∈ F
          · exact he1 d hd
          · rw [h1 d hd, sub_self, abs_zero]; exact he0
        · have := (he2.trans_le (min_le_right _ _)).le
          rw [le_div_iff₀ (by positivity)] at this
          simp only [pow_zero, pow_one]
          linarith
      | succ k ih =>
        obtain ⟨k1, e, k2, k3, k4, k5⟩ := ih
        have hst := h (u k) (u (k + 1)) k1 (fun d _ => (k3 d).trans_lt k4) (h3 k)
        have hsum : ∑ c ∈ F, (u k c - us c) ^ 2 ≤ F.card * e ^ 2 := by
          refine (sum_le_sum (fun c _ => ?_)).trans_eq (by rw [sum_const, nsmul_eq_mul])
          rw [← sq_abs]; exact pow_le_pow_left₀ (abs_nonneg _) (k3 c) 2
        have hBe : B * e ≤ 1 / 2 := by
          refine k5.trans ?_
          have : (1 / 2 : ℝ) ^ 2 ^ k ≤ (1 / 2) ^ 1 :=
            pow_le_pow_of_le_one (by norm_num) (by norm_num) (Nat.one_le_two_pow)
          simpa using this
        refine ⟨?_, B * e ^ 2, by positivity, fun d => (hst d).trans ?_, ?_, ?_⟩
        · intro d hd
          obtain ⟨_, _, _, _, _, _, h5, _⟩ := h3 k
          rw [h5 d hd, k1 d hd]
        · have := mul_le_mul_of_nonneg_left hsum hC
          rw [hB]
          nlinarith [sq_nonneg e, mul_nonneg hC (sq_nonneg e)]
        · nlinarith
        · have e1 : (1 / 2 : ℝ) ^ 2 ^ (k + 1) = ((1 / 2) ^ 2 ^ k) ^ 2 := by rw [← pow_mul, pow_succ]
          rw [e1]
          have := pow_le_pow_left₀ (mul_nonneg hB0.le k2) k5 2
          refine le_trans (le_of_eq ?_) this
          ring
    intro k d
    obtain ⟨-, e, -, h5, -, h6⟩ := key k
    exact (mul_le_mul_of_nonneg_left (h5 d) hB0.le).trans h6

/-- The core: a matrix which is positive definite with constant `m`, and a quadratic remainder. -/
theorem quadratic_core (hY : System.Valid Y) (ops : List (Op G)) (hops : ∀ op ∈ ops, OpShaped Y.static op)
    (g : G) (law : Law) (hlaw : lastLaw ops none = some law)
    (h23 : law ≠ .frictionless → (Y.gdim = 2 ∨ Y.gdim = 3) ∧ UnitNormals Y ((Tracked.new g).history ops))
    (gamma theta : ℝ) (hconsts : lastConsts ops none = some (gamma, theta))
    (s : State G) (hs : s = history Y.static ops (init Y.static g)) (hc : s.coeffs ≠ none)
    (N : ℕ) (hN : DofsBelow Y N) (F : Finset ℕ) (hF : ∀ d ∈ F, d < N) (K : ℕ → ℕ → ℝ) {m : ℝ} (hm : 0 < m)
    (hmb : ∀ (u : ℕ → ℝ) (x : EuclideanSpace ℝ F), m * ‖x‖ ^ 2
      ≤ ∑ d ∈ range N, ∑ c ∈ range N, extend 0 x d * K d c * extend 0 x c
        + contactTangent Y ((Tracked.new g).history ops) cutSlope law gamma theta u (extend 0 x) (extend 0 x))
    (l us : ℕ → ℝ) (hsol : SolvesContact Y s N F K l us)
    (hreg : RegularContact Y ((Tracked.new g).history ops) law gamma us) : NewtonQuadratic Y s N F K l us := by
  obtain ⟨b, hb1, hb⟩ := vector_of hY ops hops g law hlaw (fun h => (h23 h).1) gamma theta hconsts s hs hc N hN
  obtain ⟨x0, hx0⟩ := extend_of (F := F) us us (fun _ _ => rfl)
  have hrem : ∀ d, Rem x0 (fun x => contactForm Y ((Tracked.new g).history ops) law gamma theta (extend us x)
        (fun c => if c = d then 1 else 0))
      (fun x => contactTangent Y ((Tracked.new g).history ops) cutSlope law gamma theta (extend us x)
        (fun c => extend us x0 c - extend us x c) (fun c => if c = d then 1 else 0)) :=
    fun d => form_rem (extend_lip us) theta (by rw [hx0]; exact hreg) _
  choose C hC using hrem
  have hall : ∀ᶠ x in nhds x0, ∀ d ∈ F, |contactForm Y ((Tracked.new g).history ops) law gamma theta (extend us x0)
        (fun c => if c = d then 1 else 0)
      - contactForm Y ((Tracked.new g).history ops) law gamma theta (extend us x) (fun c => if c = d then 1 else 0)
      - contactTangent Y ((Tracked.new g).history ops) cutSlope law gamma theta (extend us x)
        (fun c => extend us x0 c - extend us x c) (fun c => if c = d then 1 else 0)| ≤ C d * dist x x0 ^ 2 := by
    rw [Filter.eventually_all_finset]
    exact fun d _ => hC d
  obtain ⟨δ, hδ, hball⟩ := Metric.eventually_nhds_iff.mp hall
  obtain ⟨S, hS⟩ : ∃ S, S = ∑ d ∈ F, |C d| := ⟨_, rfl⟩
  have hS0 : 0 ≤ S := by rw [hS]; exact sum_nonneg (fun _ _ => abs_nonneg _)
  refine quadratic_of_step (ε := δ / (F.card + 1)) (C := S / m) (by positivity) (by positivity) ?_
  intro u u' hu hclose hstep d0
  obtain ⟨s', b', A, t1, t2, t3, t4, t5⟩ := hstep
  obtain ⟨ss, bs, q1, q2, q3⟩ := hsol
  obtain ⟨s2, m1, m2⟩ := hb1 u
  obtain rfl : s2 = s' := Except.ok.inj (m1.symm.trans t1)
  obtain rfl : b' = b u := Except.ok.inj (t2.symm.trans m2)
  obtain ⟨s4, n1, n2⟩ := hb1 us
  obtain rfl : s4 = ss := Except.ok.inj (n1.symm.trans q1)
  obtain rfl : bs = b us := Except.ok.inj (q2.symm.trans n2)
  have hA : ∀ w v : ℕ → ℝ, ∑ d ∈ range N, ∑ c ∈ range N, v d * A (d, c) * w c
      = contactTangent Y ((Tracked.new g).history ops) cutSlope law gamma theta u w v := by
    obtain ⟨s3, A3, p1, p2, p3⟩ := C131_matrix hY ops hops g law hlaw h23 gamma theta hconsts s hs hc N hN u
    obtain rfl : s3 = s2 := Except.ok.inj (p1.symm.trans t1)
    obtain rfl : A3 = A := Except.ok.inj (p2.symm.trans t3)
    exact p3
  obtain ⟨x, hx⟩ := extend_of (F := F) us u hu
  obtain ⟨y, hy⟩ := extend_of (F := F) us u' (fun d hd => (t4 d hd).trans (hu d hd))
  have hcoord : ∀ d : F, (x - x0) d = u d - us d := by
    intro d
    have e1 : x d = u d := by rw [← hx]; unfold extend; rw [dif_pos d.2]
    have e2 : x0 d = us d := by
      have := congrFun hx0 d
      unfold extend at this
      rwa [dif_pos d.2] at this
    show x d - x0 d = _
    rw [e1, e2]
  have hdist : dist x x0 < δ := by
    rw [dist_eq_norm, EuclideanSpace.norm_eq]
    have hd : ∀ d : F, |(x - x0) d| ≤ δ / (F.card + 1) := fun d => by rw [hcoord]; exact (hclose d d.2).le
    have h3 : ∑ d : F, ‖(x - x0) d‖ ^ 2 ≤ (∑ d : F, |(x - x0) d|) ^ 2 := by
      have := sum_sq_le_sq_sum_of_nonneg (s := (Finset.univ : Finset F)) (f := fun d => |(x - x0) d|) (fun d _ => abs_nonneg _)
      simpa only [Real.norm_eq_abs] using this
    refine lt_of_le_of_lt ((Real.sqrt_le_sqrt h3).trans_eq (Real.sqrt_sq (sum_nonneg (fun _ _ => abs_nonneg _)))) ?_
    refine lt_of_le_of_lt (sum_le_sum (fun d _ => hd d)) ?_
    rw [sum_const, nsmul_eq_mul, card_univ, Fintype.card_coe, mul_div_assoc', div_lt_iff₀ (by positivity)]
    nlinarith
  have hsq : dist x x0 ^ 2 = ∑ c ∈ F, (u c - us c) ^ 2 := by
    rw [dist_eq_norm, EuclideanSpace.real_norm_sq_eq, ← sum_coe_sort F (fun d => (u d - us d) ^ 2)]
    exact sum_congr rfl (fun d _ => by rw [hcoord])
  have hq := hball hdist
  rw [hx0, hx] at hq
  -- the error after the step
  have hrow : ∀ d ∈ F, ∑ c ∈ range N, (K d c + A (d, c)) * (u' c - us c)
      = b us d - b u d - ∑ c ∈ range N, A (d, c) * (us c - u c) := by
    intro d hd
    have e1 := t5 d hd
    have e2 := q3 d hd
    have e3 : ∑ c ∈ range N, (K d c + A (d, c)) * (u' c - us c)
        = ∑ c ∈ range N, (K d c + A (d, c)) * (u' c - u c)
          + (∑ c ∈ range N, K d c * u c - ∑ c ∈ range N, K d c * us c - ∑ c ∈ range N, A (d, c) * (us c - u c)) := by
      rw [← sum_sub_distrib, ← sum_sub_distrib, ← sum_add_distrib]
      exact sum_congr rfl (fun c _ => by ring)
    rw [e3, e1]
    linarith
  have hrowb : ∀ d ∈ F, |∑ c ∈ range N, (K d c + A (d, c)) * (u' c - us c)| ≤ C d * dist x x0 ^ 2 := by
    intro d hd
    have h5 := hq d hd
    rw [← hb, ← hb, ← hA] at h5
    rw [hrow d hd]
    simpa [hF d hd] using h5
  have hext : extend 0 (y - x0) = fun d => u' d - us d := by
    rw [← extend_sub us y x0, hy, hx0]
  have h6 := hmb u (y - x0)
  rw [← hA, hext] at h6
  have e7 : ∑ d ∈ range N, ∑ c ∈ range N, (u' d - us d) * K d c * (u' c - us c)
        + ∑ d ∈ range N, ∑ c ∈ range N, (u' d - us d) * A (d, c) * (u' c - us c)
      = ∑ d ∈ F, (u' d - us d) * ∑ c ∈ range N, (K d c + A (d, c)) * (u' c - us c) := by
    rw [← sum_add_distrib]
    refine Eq.trans (sum_congr rfl (fun d _ => ?_)) (sum_subset (fun d hd => mem_range.mpr (hF d hd)) (fun d _ hd => ?_)).symm
    · rw [← sum_add_distrib, mul_sum]
      exact sum_congr rfl (fun c _ => by ring)
    · rw [(t4 d hd).trans (hu d hd), sub_self, zero_mul]
  rw [e7] at h6
  have hco : ∀ d ∈ F, |u' d - us d| ≤ ‖y - x0‖ := by
    intro d hd
    have := PiLp.norm_apply_le (y - x0) ⟨d, hd⟩
    have e8 := congrFun hext d
    unfold extend at e8
    rw [dif_pos hd] at e8
    rw [← e8]
    exact this
  have h7 : m * ‖y - x0‖ ^ 2 ≤ ‖y - x0‖ * (S * dist x x0 ^ 2) := by
    refine h6.trans ?_
    rw [hS, sum_mul, mul_sum]
    refine sum_le_sum (fun d hd => ?_)
    refine (le_abs_self _).trans ?_
    rw [abs_mul]
    refine mul_le_mul (hco d hd) ((hrowb d hd).trans ?_) (abs_nonneg _) (norm_nonneg _)
    exact mul_le_mul_of_nonneg_right (le_abs_self _) (sq_nonneg _)
  have h8 : ‖y - x0‖ ≤ S / m * dist x x0 ^ 2 := by
    rw [div_mul_eq_mul_div, le_div_iff₀ hm]
    rcases (norm_nonneg (y - x0)).eq_or_lt with h | h
    · rw [← h, zero_mul]; positivity
    · refine le_of_mul_le_mul_left ?_ h
      nlinarith
  rw [hsq] at h8
  by_cases hd : d0 ∈ F
  · exact (hco d0 hd).trans h8
  · rw [(t4 d0 hd).trans (hu d0 hd), sub_self, abs_zero]
    exact (norm_nonneg _).trans h8

/-- The Newton step is possible and unique, if the linear systems are solvable. -/
theorem step_of_solvable (hY : System.Valid Y) (ops : List (Op G)) (hops : ∀ op ∈ ops, OpShaped Y.static op)
    (g : G) (law : Law) (hlaw : lastLaw ops none = some law) (h23 : law ≠ .frictionless → (Y.gdim = 2 ∨ Y.gdim = 3))
    (gamma theta : ℝ) (hconsts : lastConsts ops none = some (gamma, theta))
    (s : State G) (hs : s = history Y.static ops (init Y.static g)) (hc : s.coeffs ≠ none)
    (N : ℕ) (hN : DofsBelow Y N) (F : Finset ℕ) (K : ℕ → ℕ → ℝ)
    (h : ∀ u r : ℕ → ℝ, ∃ (s' : State G) (A : Arr (ℕ × ℕ)), updateContactData Y.static (Y.du u) s = .ok s'
      ∧ Y.assembleMatrix s' 0 = .ok A
      ∧ ∃! w : ℕ → ℝ, (∀ d, d ∉ F → w d = 0) ∧ ∀ d ∈ F, ∑ c ∈ range N, (K d c + A (d, c)) * w c = r d)
    (l u : ℕ → ℝ) : ∃! u', ContactNewtonStep Y s N F K l u u' := by
  obtain ⟨b, hb1, -⟩ := vector_of hY ops hops g law hlaw h23 gamma theta hconsts s hs hc N hN
  obtain ⟨s', k1, k2⟩ := hb1 u
  obtain ⟨s2, A, h1, h2, w, ⟨hw1, hw2⟩, hw3⟩ := h u (fun d => -(∑ c ∈ range N, K d c * u c - l d + b u d))
  obtain rfl : s2 = s' := Except.ok.inj (h1.symm.trans k1)
  refine ⟨fun d => u d + w d, ⟨s2, b u, A, h1, k2, h2, fun d hd => by simp only [hw1 d hd, add_zero],
    fun d hd => ?_⟩, ?_⟩
  · simpa using hw2 d hd
  · rintro u' ⟨s3, b', A', p1, p2, p3, p4, p5⟩
    obtain rfl : s3 = s2 := Except.ok.inj (p1.symm.trans h1)
    obtain rfl : b' = b u := Except.ok.inj (p2.symm.trans k2)
    obtain rfl : A' = A := Except.ok.inj (p3.symm.trans h2)
    have := hw3 (fun d => u' d - u d) ⟨fun d hd => by simp only [p4 d hd, sub_self], p5⟩
    funext d
    have := congrFun this d
    linarith

/-- C205: without friction and with Tresca friction Newton's method is possible from every displacement, and converges to
a solution quadratically from near it, also if the solution has points at the switch between open and closed or between
stick and slip. -/
theorem C205_tresca (hY : System.Valid Y) (ops : List (Op G)) (hops : ∀ op ∈ ops, OpShaped Y.static op)
    (g : G) (law : Law) (hlaw : lastLaw ops none = some law) (hl : law ≠ .coulomb)
    (gamma theta : ℝ) (hγ : 0 < gamma) (hconsts : lastConsts ops none = some (gamma, theta))
    (s : State G) (hs : s = history Y.static ops (init Y.static g)) (hc : s.coeffs ≠ none)
    (hh : ∀ i < Y.numPairs, ∀ e < Y.localFacets i, 0 < ((Tracked.new g).history ops).h i e 0)
    (hwt : ∀ i < Y.numPairs, ∀ p ∈ Y.facets i, ∀ q < Y.nq, 0 ≤ weightAt Y p.1 p.2 q)
    (N : ℕ) (hN : DofsBelow Y N) (F : Finset ℕ) (hF : ∀ d ∈ F, d < N) (K : ℕ → ℕ → ℝ)
    (hK : Coercive Y ((Tracked.new g).history ops) law gamma theta N F K)
    (hT : law = .tresca → (Y.gdim = 2 ∨ Y.gdim = 3) ∧ UnitNormals Y ((Tracked.new g).history ops))
    (l us : ℕ → ℝ) (hsol : SolvesContact Y s N F K l us)
    (hreg : RegularContact Y ((Tracked.new g).history ops) law gamma us) :
    (∀ u, ∃! u', ContactNewtonStep Y s N F K l u u') ∧ NewtonQuadratic Y s N F K l us := by
  constructor
  · exact step_of_solvable hY ops hops g law hlaw (fun h => (friction_dim hl hT h).1) gamma theta hconsts s hs hc N hN F K
      (C144_solvable hY ops hops g law hlaw hl gamma theta hγ hconsts s hs hc hh hwt N hN F hF K hK hT) l
  · obtain ⟨m, hm, hmb⟩ := coercive_bound hK
    refine quadratic_core hY ops hops g law hlaw (friction_dim hl hT) gamma theta hconsts s hs hc N hN F hF K hm ?_ l us hsol hreg
    intro u x
    have hB : Bounded Y ((Tracked.new g).history ops) .frictionless := ⟨hY.loc, (fun h => nomatch h), hh, hwt⟩
    have h5 := contactTangent_lower hB hl hγ theta u (extend 0 x)
    have := hmb x
    linarith

/-- C205: with Coulomb friction Newton's method is possible from every displacement, and converges to a solution
quadratically from near it, if friction is small (the condition of C204) and no point of the solution is at the switch
from stick to slip. -/
theorem C205_coulomb (hY : System.Valid Y) (ops : List (Op G)) (hops : ∀ op ∈ ops, OpShaped Y.static op)
    (g : G) (hlaw : lastLaw ops none = some .coulomb) (h23 : Y.gdim = 2 ∨ Y.gdim = 3)
    (gamma theta : ℝ) (hγ : 0 < gamma) (hconsts : lastConsts ops none = some (gamma, theta))
    (s : State G) (hs : s = history Y.static ops (init Y.static g)) (hc : s.coeffs ≠ none)
    (hf : ∀ i < Y.numPairs, ∀ e < Y.localFacets i, 0 ≤ ((Tracked.new g).history ops).fric i e 0)
    (hh : ∀ i < Y.numPairs, ∀ e < Y.localFacets i, 0 < ((Tracked.new g).history ops).h i e 0)
    (hwt : ∀ i < Y.numPairs, ∀ p ∈ Y.facets i, ∀ q < Y.nq, 0 ≤ weightAt Y p.1 p.2 q)
    (N : ℕ) (hN : DofsBelow Y N) (F : Finset ℕ) (hF : ∀ d ∈ F, d < N) (K : ℕ → ℕ → ℝ)
    (hK : CoulombCoercive Y ((Tracked.new g).history ops) gamma theta N F K)
    (hU : UnitNormals Y ((Tracked.new g).history ops))
    (l us : ℕ → ℝ) (hsol : SolvesContact Y s N F K l us)
    (hreg : RegularContact Y ((Tracked.new g).history ops) .coulomb gamma us) :
    (∀ u, ∃! u', ContactNewtonStep Y s N F K l u u') ∧ NewtonQuadratic Y s N F K l us := by
  constructor
  · exact step_of_solvable hY ops hops g .coulomb hlaw (fun _ => h23) gamma theta hconsts s hs hc N hN F K
      (C204_solvable hY ops hops g hlaw h23 gamma theta hγ hconsts s hs hc hf hh hwt N hN F hF K hK hU) l
  · obtain ⟨m, hm, hmb⟩ := coulomb_bound hK
    refine quadratic_core hY ops hops g .coulomb hlaw (fun _ => ⟨h23, hU⟩) gamma theta hconsts s hs hc N hN F hF K hm ?_ l us
      hsol hreg
    intro u x
    have h5 := coulombTangent_lower (⟨hY.loc, hf, hh, hwt⟩ : CoulombBounded Y ((Tracked.new g).history ops)) hγ theta u
      (extend 0 x)
    have := hmb x
    linarith

/-! ### examples -/

/-- Every displacement is the solution for some load. -/
theorem exSolves (ops : List (Op Unit)) (hsh : ∀ op ∈ ops, OpShaped exY.static op) (law : Law)
    (hlaw : lastLaw ops none = some law) (gamma theta : ℝ) (hconsts : lastConsts ops none = some (gamma, theta))
    (hcr : ((Tracked.new ()).history ops).created = true) (us : ℕ → ℝ) :
    ∃ l, SolvesContact exY (history exY.static ops (init exY.static ())) 4 {1, 2, 3} (fun d c => if d = c then 100 else 0) l us := by
  have hc : (history exY.static ops (init exY.static ())).coeffs ≠ none := by
    rcases C38_size (static_shaped exY_valid) _ hsh () with ⟨h, -⟩ | ⟨-, cs, h, -⟩
    · rw [hcr] at h; cases h
    · rw [h]; simp
  obtain ⟨ss, bs, h1, h2, -⟩ := C114_form exY_valid ops hsh () law hlaw (fun _ => Or.inl rfl) gamma theta hconsts
    _ rfl hc 4 exY_below us 0
  exact ⟨fun d => ∑ c ∈ range 4, (if d = c then 100 else 0) * us c + bs d, ss, bs, h1, h2, fun d _ => by ring⟩

/-- The hypotheses of `C205_tresca` which are not those of C144 hold for the example with Tresca friction and every
displacement `us`; at the displacement which is `1/10` at dof 2 the point is at the switch from stick to slip. -/
example (theta : ℝ) : (∀ us, (∃ l, SolvesContact exY (history exY.static (exSysOpsT theta) (init exY.static ())) 4 {1, 2, 3}
      (fun d c => if d = c then 100 else 0) l us)
      ∧ RegularContact exY ((Tracked.new ()).history (exSysOpsT theta)) .tresca 10 us)
    ∧ vecLength 2 ((pointAt exY ((Tracked.new ()).history (exSysOpsT theta)) 0 0 0 2 0).slip 10
        (jumpAt exY () 0 0 0 2 (fun d => if d = 2 then 1 / 10 else 0) 0)
        (gradAt exY 0 2 (fun d => if d = 2 then 1 / 10 else 0) 0))
      = (pointAt exY ((Tracked.new ()).history (exSysOpsT theta)) 0 0 0 2 0).h / 10
        * (pointAt exY ((Tracked.new ()).history (exSysOpsT theta)) 0 0 0 2 0).fric := by
  refine ⟨fun us => ⟨exSolves _ ?_ .tresca rfl 10 theta rfl ?_ us, ?_⟩, ?_⟩
  · simp [exSysOpsT, OpShaped, ScalarShaped, System.static, exY]
  · simp [exSysOpsT, Tracked.history, Tracked.call]
  · intro i hi e he cell f hf q hq hk
    simp [ContactPoint.Regular, pointAt, exSysOpsT, Tracked.history, Tracked.call, vals]
    norm_num
  · simp [vecLength, ContactPoint.slip, ContactPoint.dot, ContactPoint.tang, ContactPoint.trac, pointAt,
      contactNormalAt, outwardAt, gradAt, exY, exSysOpsT, Tracked.history, Tracked.call, vals,
      sum_range_succ, Elasticity.traction_eq, jumpAt, valueAt, oppositeAt]

/-- The hypotheses of `C205_coulomb` which are not those of C204 hold for the example with Coulomb friction: for the
displacement zero, at which the point sticks, and for the displacement which is one at dof 2, at which it slips. -/
example (us : ℕ → ℝ) (hus : us = 0 ∨ us = fun d => if d = 2 then 1 else 0) :
    (∃ l, SolvesContact exY (history exY.static (exCoulombOps (1 / 10) (-1)) (init exY.static ())) 4 {1, 2, 3}
      (fun d c => if d = c then 100 else 0) l us)
    ∧ RegularContact exY ((Tracked.new ()).history (exCoulombOps (1 / 10) (-1))) .coulomb 10 us
    ∧ UnitNormals exY ((Tracked.new ()).history (exCoulombOps (1 / 10) (-1))) := by
  refine ⟨exSolves _ ?_ .coulomb rfl 10 (-1) rfl ?_ us, ?_, ?_⟩
  · simp [exCoulombOps, OpShaped, ScalarShaped, System.static, exY]
  · simp [exCoulombOps, Tracked.history, Tracked.call]
  · intro i hi e he cell f hf q hq hk
    obtain rfl : q = 0 := Nat.lt_one_iff.mp hq
    obtain rfl : i = 0 := Nat.lt_one_iff.mp hi
    obtain rfl : e = 0 := Nat.lt_one_iff.mp he
    obtain ⟨rfl, rfl⟩ : 0 = cell ∧ 2 = f := by simpa [exY] using hf
    right; right
    rcases hus with rfl | rfl <;>
    · norm_num [vecLength, ContactPoint.pressure, ContactPoint.trial, ContactPoint.slip, ContactPoint.dot, ContactPoint.tang,
        ContactPoint.trac, pointAt, contactNormalAt, outwardAt, gradAt, exY, exCoulombOps, Tracked.history, Tracked.call, vals,
        sum_range_succ, Elasticity.traction_eq, jumpAt, valueAt, oppositeAt]
  · intro i hi e he q hq hk
    obtain rfl : q = 0 := Nat.lt_one_iff.mp hq
    simp [contactNormalAt, outwardAt, exY, sum_range_succ]

end

end Verif.ContactProblem
