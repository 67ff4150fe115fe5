import Verif.Props.ForceBalance
import Verif.Spec.FrictionLimit

/-!
C224: a body on a flat interface is not held by more than the friction coefficient times the force that presses it.
-/

namespace Verif.ContactProblem

open Verif.Spec Verif.Packing Verif.Assembly Verif.Hertz Finset

variable {G : Type} {Y : System G}

theorem ball_le (g : ℕ) (x : ℕ → ℝ) {α : ℝ} (hα : 0 ≤ α) {a : ℕ} (ha : a < g) : |ball g x α a| ≤ α := by
  refine le_trans ?_ (ball_norm g x hα)
  rw [← Real.sqrt_sq_eq_abs]
  exact Real.sqrt_le_sqrt (single_le_sum (f := fun a => ball g x α a ^ 2) (fun _ _ => sq_nonneg _) (mem_range.mpr ha))

/-- Form of a point for a test function of gradient zero. -/
theorem form_rigid (p : ContactPoint) (law : Law) (gamma theta : ℝ) (J : ℕ → ℝ) (D : ℕ → ℕ → ℝ) (T : ℕ → ℝ) (S : ℕ → ℕ → ℝ)
    (hS : ∀ a < p.g, ∀ b < p.g, S a b = 0) :
    p.form law gamma theta J D T S = 1 / 2 * (gamma / p.h) * max 0 (p.pressure gamma J D) * p.dot T
      + if law = .frictionless then 0 else 1 / 2 * (gamma / p.h) * ∑ a ∈ range p.g, p.projected law gamma J D a * p.tang T a := by
  have tr : ∀ a < p.g, p.trac S a = 0 := fun a ha => trac_zero p hS ha
  have d2 : p.dot (p.trac S) = 0 := sum_eq_zero (fun a ha => by rw [tr a (mem_range.mp ha), zero_mul])
  have t2 : ∀ a < p.g, p.tang (p.trac S) a = 0 := fun a ha => by rw [ContactPoint.tang, d2, tr a ha]; ring
  have e1 : ∑ a ∈ range p.g, p.projected law gamma J D a * (p.tang T a - theta * (p.h / gamma) * p.tang (p.trac S) a)
      = ∑ a ∈ range p.g, p.projected law gamma J D a * p.tang T a :=
    sum_congr rfl (fun a ha => by rw [t2 a (mem_range.mp ha), mul_zero, sub_zero])
  have e2 : ∑ a ∈ range p.g, p.tang (p.trac D) a * p.tang (p.trac S) a = 0 :=
    sum_eq_zero (fun a ha => by rw [t2 a (mem_range.mp ha), mul_zero])
  rw [ContactPoint.form, ContactPoint.normalPart, ContactPoint.frictionPart, d2, e1, e2]
  simp only [mul_zero, sub_zero]

/-- A point with contact normal `s` times axis `m`: work for a movement along it and along another axis `n`. -/
theorem point_limit (p : ContactPoint) (law : Law) (hlaw : law = .coulomb ∨ law = .frictionless) {gamma : ℝ} (hg : 0 < gamma)
    (hh : 0 < p.h) (hf : 0 ≤ p.fric) (theta : ℝ) (J : ℕ → ℝ) (D : ℕ → ℕ → ℝ) {m n : ℕ} (hm : m < p.g) (hn : n < p.g)
    (hmn : n ≠ m) {s r : ℝ} (hs : s ^ 2 = 1) (hr : r ^ 2 = 1) (hnorm : ∀ a < p.g, p.normal a = if a = m then s else 0)
    (Tm Tn : ℕ → ℝ) (hTm : ∀ a < p.g, Tm a = if a = m then r else 0) (hTn : ∀ a < p.g, Tn a = if a = n then r else 0)
    (Sm Sn : ℕ → ℕ → ℝ) (hSm : ∀ a < p.g, ∀ b < p.g, Sm a b = 0) (hSn : ∀ a < p.g, ∀ b < p.g, Sn a b = 0) :
    0 ≤ s * r * p.form law gamma theta J D Tm Sm
    ∧ |p.form law gamma theta J D Tn Sn| ≤ p.fric * (s * r * p.form law gamma theta J D Tm Sm) := by
  obtain ⟨N, hN⟩ : ∃ N, N = 1 / 2 * (gamma / p.h) * max 0 (p.pressure gamma J D) := ⟨_, rfl⟩
  have hN0 : 0 ≤ N := by rw [hN]; positivity
  have dm : p.dot Tm = r * s := by
    rw [ContactPoint.dot, sum_eq_single_of_mem m (mem_range.mpr hm), hTm m hm, hnorm m hm, if_pos rfl, if_pos rfl]
    intro a ha hne
    rw [hTm a (mem_range.mp ha), if_neg hne, zero_mul]
  have dn : p.dot Tn = 0 := by
    refine sum_eq_zero (fun a ha => ?_)
    rw [hTn a (mem_range.mp ha), hnorm a (mem_range.mp ha)]
    by_cases h : a = n
    · rw [if_neg (by omega : ¬a = m), mul_zero]
    · rw [if_neg h, zero_mul]
  have tm : ∀ a < p.g, p.tang Tm a = 0 := by
    intro a ha
    rw [ContactPoint.tang, dm, hTm a ha, hnorm a ha]
    split
    · linear_combination (-r) * hs
    · ring
  have tn : ∀ a < p.g, p.tang Tn a = if a = n then r else 0 := by
    intro a ha
    rw [ContactPoint.tang, dn, hTn a ha]
    ring
  have fm : p.form law gamma theta J D Tm Sm = N * (r * s) := by
    rw [form_rigid p law gamma theta J D Tm Sm hSm, ← hN, dm,
      sum_eq_zero (fun a ha => by rw [tm a (mem_range.mp ha), mul_zero])]
    simp
  have hsr : s * r * (N * (r * s)) = N := by linear_combination (N * r ^ 2) * hs + N * hr
  rw [fm, hsr]
  refine ⟨hN0, ?_⟩
  rw [form_rigid p law gamma theta J D Tn Sn hSn, dn, mul_zero, zero_add]
  rcases hlaw with rfl | rfl
  · rw [if_neg (by simp), sum_eq_single_of_mem n (mem_range.mpr hn), tn n hn, if_pos rfl]
    · have hb := ball_le p.g (fun a => p.slip gamma J D a - (p.dot p.gap - p.dot J) * p.tang p.oldNormal a)
        (mul_nonneg hf (le_max_left 0 (p.pressure gamma J D))) hn
      have hpr : p.projected .coulomb gamma J D n = ball p.g
        (fun a => p.slip gamma J D a - (p.dot p.gap - p.dot J) * p.tang p.oldNormal a)
        (p.fric * max 0 (p.pressure gamma J D)) n := rfl
      rw [hpr]
      have hr1 : |r| = 1 := by
        rw [← Real.sqrt_sq_eq_abs, hr, Real.sqrt_one]
      rw [abs_mul (1 / 2 * (gamma / p.h)), abs_mul _ r, hr1, mul_one, abs_of_nonneg (by positivity : (0 : ℝ) ≤ 1 / 2 * (gamma / p.h)), hN]
      calc 1 / 2 * (gamma / p.h) * |_| ≤ 1 / 2 * (gamma / p.h) * (p.fric * max 0 (p.pressure gamma J D)) :=
            mul_le_mul_of_nonneg_left hb (by positivity)
        _ = _ := by ring
    · intro a ha hne
      rw [tn a (mem_range.mp ha), if_neg hne, mul_zero]
  · rw [if_pos rfl, abs_zero]
    exact mul_nonneg hf hN0

theorem shift_in {B : Finset ℕ} {cell : ℕ} (h : CellIn Y B cell) (n : ℕ) {k a : ℕ} (hk : k < Y.nd) (ha : a < Y.gdim) :
    shiftOf Y.gdim n B (Y.gdim * Y.space.parent cell k + a) = if a = n then 1 else 0 := by
  rw [shiftOf, dof_mod _ ha]
  simp [h k hk a ha]

theorem shift_out {B : Finset ℕ} {cell : ℕ} (h : CellOut Y B cell) (n : ℕ) {k a : ℕ} (hk : k < Y.nd) (ha : a < Y.gdim) :
    shiftOf Y.gdim n B (Y.gdim * Y.space.parent cell k + a) = 0 := by
  rw [shiftOf]
  simp [h k hk a ha]

section

variable {t : Tracked G} (hunit : SumsToOne Y t.cur) {i e cell f q : ℕ} (hi : i < Y.numPairs) (he : e < Y.localFacets i)
  (hf : (Y.facets i)[e]? = some (cell, f)) (hq : q < Y.nq) (hl : 0 ≤ Y.map t.cur i (e * Y.nq + q)) {B : Finset ℕ}

include hunit hi he hf hq in
theorem value_in (h : CellIn Y B cell) (n : ℕ) {a : ℕ} (ha : a < Y.gdim) :
    valueAt Y cell f (shiftOf Y.gdim n B) q a = if a = n then 1 else 0 := by
  obtain ⟨h1, -, -⟩ := hunit i hi e he cell f hf q hq
  unfold valueAt
  rw [sum_congr rfl (fun k hk => by rw [shift_in h n (mem_range.mp hk) ha]), ← sum_mul, h1, one_mul]

theorem value_out (h : CellOut Y B cell) (n : ℕ) {a : ℕ} (ha : a < Y.gdim) :
    valueAt Y cell f (shiftOf Y.gdim n B) q a = 0 :=
  sum_eq_zero (fun k hk => by rw [shift_out h n (mem_range.mp hk) ha, mul_zero])

include hunit hi he hf hq hl in
theorem opposite_in (h : CellIn Y B (linkedCell Y t.cur i e q)) (n : ℕ) {a : ℕ} (ha : a < Y.gdim) :
    oppositeAt Y t.cur i e (shiftOf Y.gdim n B) q a = if a = n then 1 else 0 := by
  obtain ⟨-, -, h1⟩ := hunit i hi e he cell f hf q hq
  unfold oppositeAt
  rw [sum_congr rfl (fun k hk => by
    show _ * shiftOf Y.gdim n B (Y.gdim * Y.space.parent (linkedCell Y t.cur i e q) k + a) = _
    rw [shift_in h n (mem_range.mp hk) ha]), ← sum_mul, h1 hl, one_mul]

theorem opposite_out (h : CellOut Y B (linkedCell Y t.cur i e q)) (n : ℕ) {a : ℕ} (ha : a < Y.gdim) :
    oppositeAt Y t.cur i e (shiftOf Y.gdim n B) q a = 0 := by
  refine sum_eq_zero (fun k hk => ?_)
  show _ * shiftOf Y.gdim n B (Y.gdim * Y.space.parent (linkedCell Y t.cur i e q) k + a) = _
  rw [shift_out h n (mem_range.mp hk) ha, mul_zero]

include hunit hi he hf hq in
theorem grad_shift (h : CellIn Y B cell ∨ CellOut Y B cell) (n : ℕ) {a : ℕ} (ha : a < Y.gdim) (b : ℕ) :
    gradAt Y cell f (shiftOf Y.gdim n B) q a b = 0 := by
  obtain ⟨-, h2, -⟩ := hunit i hi e he cell f hf q hq
  unfold gradAt
  rcases h with h | h
  · rw [sum_congr rfl (fun k hk => by rw [shift_in h n (mem_range.mp hk) ha]), ← sum_mul, sum_comm,
      sum_eq_zero (fun j hj => by rw [← mul_sum, h2 j (mem_range.mp hj), mul_zero]), zero_mul]
  · exact sum_eq_zero (fun k hk => by rw [shift_out h n (mem_range.mp hk) ha, mul_zero])

end

/-- On a flat interface contact pushes a body away from it, and holds it along another axis `n` with at most the
friction coefficient times that force, at every displacement. -/
theorem flat_push {t : Tracked G} (hunit : SumsToOne Y t.cur) (law : Law)
    (hlaw : law = .coulomb ∨ law = .frictionless) {gamma : ℝ} (hg : 0 < gamma) (theta : ℝ) {B : Finset ℕ} {m : ℕ} {s mu : ℝ}
    (hflat : FlatContact Y t B m s) (hmu : FrictionBelow Y t mu) (x : ℕ → ℝ) {n : ℕ} (hn : n < Y.gdim) (hmn : n ≠ m) :
    0 ≤ -s * contactPush Y t law gamma theta x B m
    ∧ |contactPush Y t law gamma theta x B n| ≤ mu * (-s * contactPush Y t law gamma theta x B m) := by
  have hs : s ^ 2 = 1 := by rcases hflat.side with rfl | rfl <;> norm_num
  have key : ∀ i < Y.numPairs, ∀ e < Y.localFacets i, ∀ cell f, (Y.facets i)[e]? = some (cell, f) → ∀ q < Y.nq,
      0 ≤ Y.map t.cur i (e * Y.nq + q) →
      ∀ Fm Fn, Fm = weightAt Y cell f q * (pointAt Y t i e cell f q).form law gamma theta (jumpAt Y t.cur i e cell f x q)
          (fun a b => gradAt Y cell f x q a b + (pointAt Y t i e cell f q).grad0 a b)
          (jumpAt Y t.cur i e cell f (shiftOf Y.gdim m B) q) (gradAt Y cell f (shiftOf Y.gdim m B) q) →
        Fn = weightAt Y cell f q * (pointAt Y t i e cell f q).form law gamma theta (jumpAt Y t.cur i e cell f x q)
          (fun a b => gradAt Y cell f x q a b + (pointAt Y t i e cell f q).grad0 a b)
          (jumpAt Y t.cur i e cell f (shiftOf Y.gdim n B) q) (gradAt Y cell f (shiftOf Y.gdim n B) q) →
        0 ≤ s * Fm ∧ |Fn| ≤ mu * (s * Fm) := by
    intro i hi e he cell f hf q hq hl Fm Fn hFm hFn
    obtain ⟨k1, k2, k3, k4⟩ := hmu i hi e he cell f hf q hq hl
    have side : ∀ r : ℝ, r ^ 2 = 1 → CellIn Y B cell ∨ CellOut Y B cell →
        (∀ a < Y.gdim, contactNormalAt Y t.cur i e q a = if a = m then s * r else 0) →
        (∀ n, ∀ a < Y.gdim, jumpAt Y t.cur i e cell f (shiftOf Y.gdim n B) q a = if a = n then r else 0) →
        0 ≤ s * Fm ∧ |Fn| ≤ mu * (s * Fm) := by
      intro r hr hio hnorm hjump
      have hsr : (s * r) ^ 2 = 1 := by rw [mul_pow, hs, hr, one_mul]
      have hgr := fun n a (ha : a < Y.gdim) b => grad_shift (B := B) hunit hi he hf hq hio n ha b
      obtain ⟨p1, p2⟩ := point_limit (pointAt Y t i e cell f q) law hlaw hg k2 k3 theta (jumpAt Y t.cur i e cell f x q)
        (fun a b => gradAt Y cell f x q a b + (pointAt Y t i e cell f q).grad0 a b) hflat.axis hn hmn hsr hr hnorm _ _
        (hjump m) (hjump n) _ _ (fun a ha b _ => hgr m a ha b) (fun a ha b _ => hgr n a ha b)
      have e1 : s * r * r = s := by rw [mul_assoc, ← pow_two, hr, mul_one]
      rw [e1] at p1 p2
      obtain ⟨A, hA⟩ : ∃ A, A = (pointAt Y t i e cell f q).form law gamma theta (jumpAt Y t.cur i e cell f x q)
          (fun a b => gradAt Y cell f x q a b + (pointAt Y t i e cell f q).grad0 a b)
          (jumpAt Y t.cur i e cell f (shiftOf Y.gdim m B) q) (gradAt Y cell f (shiftOf Y.gdim m B) q) := ⟨_, rfl⟩
      rw [← hA] at p1 p2 hFm
      have p3 : (pointAt Y t i e cell f q).fric * (s * A) ≤ mu * (s * A) := mul_le_mul_of_nonneg_right k4 p1
      have e2 : s * Fm = weightAt Y cell f q * (s * A) := by rw [hFm]; ring
      rw [e2]
      refine ⟨mul_nonneg k1 p1, ?_⟩
      rw [hFn, abs_mul, abs_of_nonneg k1]
      calc weightAt Y cell f q * _ ≤ weightAt Y cell f q * (mu * (s * A)) := mul_le_mul_of_nonneg_left (p2.trans p3) k1
        _ = _ := by ring
    have none' : CellIn Y B cell ∨ CellOut Y B cell →
        (∀ n, ∀ a < Y.gdim, jumpAt Y t.cur i e cell f (shiftOf Y.gdim n B) q a = 0) →
        0 ≤ s * Fm ∧ |Fn| ≤ mu * (s * Fm) := by
      intro hio hjump
      have hgr := fun n a (ha : a < Y.gdim) b => grad_shift (B := B) hunit hi he hf hq hio n ha b
      have z : ∀ n, (pointAt Y t i e cell f q).form law gamma theta (jumpAt Y t.cur i e cell f x q)
          (fun a b => gradAt Y cell f x q a b + (pointAt Y t i e cell f q).grad0 a b)
          (jumpAt Y t.cur i e cell f (shiftOf Y.gdim n B) q) (gradAt Y cell f (shiftOf Y.gdim n B) q) = 0 :=
        fun n => form_away (hjump n) (fun a ha b _ => hgr n a ha b) law gamma theta _ _
      rw [hFm, hFn, z m, z n]
      simp
    rcases hflat.point i hi e he cell f hf q hq hl with ⟨h1, h2, h3⟩ | ⟨h1, h2, h3⟩ | ⟨h1, h2⟩ | ⟨h1, h2⟩
    · refine side 1 (by norm_num) (Or.inl h1) (fun a ha => by rw [h3 a ha, mul_one]) (fun n a ha => ?_)
      rw [jumpAt, value_in hunit hi he hf hq h1 n ha, opposite_out h2 n ha, sub_zero]
    · refine side (-1) (by norm_num) (Or.inr h1) (fun a ha => by rw [h3 a ha, mul_neg_one]) (fun n a ha => ?_)
      rw [jumpAt, value_out h1 n ha, opposite_in hunit hi he hf hq hl h2 n ha]
      split <;> ring
    · refine none' (Or.inl h1) (fun n a ha => ?_)
      rw [jumpAt, value_in hunit hi he hf hq h1 n ha, opposite_in hunit hi he hf hq hl h2 n ha, sub_self]
    · refine none' (Or.inr h1) (fun n a ha => ?_)
      rw [jumpAt, value_out h1 n ha, opposite_out h2 n ha, sub_self]
  have em : -s * contactPush Y t law gamma theta x B m
      = s * contactForm Y t law gamma theta x (shiftOf Y.gdim m B) := by
    rw [contactPush]
    ring
  rw [em, contactPush, abs_neg]
  unfold contactForm
  simp only [mul_sum]
  constructor
  · refine sum_nonneg (fun i hi => sum_nonneg (fun e he => ?_))
    cases hf : (Y.facets i)[e]? with
    | none => simp
    | some c =>
      obtain ⟨cell, f⟩ := c
      simp only [Option.elim_some, mul_sum]
      refine sum_nonneg (fun q hq => ?_)
      split
      · rename_i hl
        exact (key i (mem_range.mp hi) e (mem_range.mp he) cell f hf q (mem_range.mp hq) hl _ _ rfl rfl).1
      · simp
  · refine (abs_sum_le_sum_abs _ _).trans (sum_le_sum (fun i hi => ?_))
    refine (abs_sum_le_sum_abs _ _).trans (sum_le_sum (fun e he => ?_))
    cases hf : (Y.facets i)[e]? with
    | none => simp
    | some c =>
      obtain ⟨cell, f⟩ := c
      simp only [Option.elim_some, mul_sum]
      refine (abs_sum_le_sum_abs _ _).trans (sum_le_sum (fun q hq => ?_))
      split
      · rename_i hl
        exact (key i (mem_range.mp hi) e (mem_range.mp he) cell f hf q (mem_range.mp hq) hl _ _ rfl rfl).2
      · simp

/-- C224: in a load step reported as converged, a body which rests on a flat interface and is held by friction only carries
along it at most the friction coefficient times the load that presses it on the interface, up to a multiple
of the tolerance. With a larger load Newton's method does not report convergence, nor with one which pulls the body off. -/
theorem C224_limit (hY : System.Valid Y) (Z : Setting G) (hN : DofsBelow Y Z.numDofs) (opts : Newton.Opts)
    (hcrit : opts.crit = .residual) (rank0 : Bool) (P0 : Phase) (as : List Action)
    (hphases : ∀ Q, .begin Q ∈ .begin P0 :: as →
      PhaseShaped Y.static Q ∧ (Q.law ≠ .frictionless → Y.gdim = 2 ∨ Y.gdim = 3))
    (out : List Report × Option DriverErr) (hout : out = actions Y Z rank0 (.begin P0 :: as) (newRun Y Z opts))
    (i : ℕ) (R : Report) (hR : out.1[i]? = some R) (hconv : R.converged = true) (Q : Phase) (φ : Packed) (S : PhaseStep)
    (hS : (inEffect P0 (P0.fric.elim (fun _ _ _ => 0) vals) as)[i]? = some (Q, φ, S))
    (hlaw : Q.law = .coulomb ∨ Q.law = .frictionless) (hg : 0 < Q.gamma) (hunit : SumsToOne Y (Z.place R.before))
    (B : Finset ℕ) (hB : B ⊆ range Z.numDofs) (m n : ℕ) (hn : n < Y.gdim) (hmn : n ≠ m) (s mu : ℝ) (hmu0 : 0 ≤ mu)
    (hflat : FlatContact Y
      (stepData Y Z.place (vals Q.mu) (vals Q.lam) φ (vals Q.h) R.before (totalAfter out.1 (i - 1))) B m s)
    (hmu : FrictionBelow Y
      (stepData Y Z.place (vals Q.mu) (vals Q.lam) φ (vals Q.h) R.before (totalAfter out.1 (i - 1))) mu)
    (hfree : ∀ d ∈ B, d % Y.gdim = m ∨ d % Y.gdim = n → S.load.bc d = none)
    (Pm Pn : ℝ) (hPm : BodyWithLoad Y.gdim S.load B m Pm) (hPn : BodyWithLoad Y.gdim S.load B n Pn) :
    -(opts.atol * balanceFactor Y.gdim S.load Z.numDofs (fun c => R.before c + R.du c) B m) ≤ s * Pm
    ∧ |Pn| ≤ mu * (s * Pm)
      + opts.atol * (balanceFactor Y.gdim S.load Z.numDofs (fun c => R.before c + R.du c) B n
        + mu * balanceFactor Y.gdim S.load Z.numDofs (fun c => R.before c + R.du c) B m) := by
  obtain ⟨Q', φ', S', hS', -, hb⟩ := (C219_phases hY Z hN opts hcrit rank0 P0 as hphases out hout).2 i R hR
  rw [hS] at hS'
  simp only [Option.some.injEq, Prod.mk.injEq] at hS'
  obtain ⟨rfl, rfl, rfl⟩ := hS'
  have hb := hb hconv
  obtain ⟨h1, h2⟩ := flat_push (t := stepData Y Z.place (vals Q.mu) (vals Q.lam) φ (vals Q.h) R.before
    (totalAfter out.1 (i - 1))) hunit Q.law hlaw hg Q.theta hflat hmu R.du hn hmn
  have bm := body_balance hb hB hPm
  have bn := body_balance hb hB hPn
  rw [supportPush_free (Y := Y) _ _ _ _ _ _ _ _ _ (fun d hd hdn => hfree d hd (Or.inl hdn)), zero_add] at bm
  rw [supportPush_free (Y := Y) _ _ _ _ _ _ _ _ _ (fun d hd hdn => hfree d hd (Or.inr hdn)), zero_add] at bn
  obtain ⟨Fm, hFm⟩ : ∃ F, F = contactPush Y (stepData Y Z.place (vals Q.mu) (vals Q.lam) φ (vals Q.h) R.before
    (totalAfter out.1 (i - 1))) Q.law Q.gamma Q.theta R.du B m := ⟨_, rfl⟩
  obtain ⟨Fn, hFn⟩ : ∃ F, F = contactPush Y (stepData Y Z.place (vals Q.mu) (vals Q.lam) φ (vals Q.h) R.before
    (totalAfter out.1 (i - 1))) Q.law Q.gamma Q.theta R.du B n := ⟨_, rfl⟩
  rw [← hFm] at bm h1 h2
  rw [← hFn] at bn h2
  have k1 : |Pn| ≤ |Fn + Pn| + |Fn| := by
    have : Pn = (Fn + Pn) - Fn := by ring
    calc |Pn| = |(Fn + Pn) - Fn| := by rw [← this]
      _ ≤ _ := abs_sub _ _
  have hs1 : |s| = 1 := by rcases hflat.side with h | h <;> rw [h] <;> norm_num
  have k2 : -s * Fm ≤ s * Pm + |Fm + Pm| := by
    have : -(s * (Fm + Pm)) ≤ |s * (Fm + Pm)| := neg_le_abs _
    rw [abs_mul, hs1, one_mul] at this
    linarith
  have k3 := mul_le_mul_of_nonneg_left (k2.trans (add_le_add_right bm (s * Pm))) hmu0
  rw [mul_add] at k3
  exact ⟨by linarith, by rw [mul_add]; linarith⟩

/-- Without friction contact along a flat interface does not hold a body back, at any displacement. -/
theorem flat_slide {t : Tracked G} (hunit : SumsToOne Y t.cur) (gamma theta : ℝ) {B : Finset ℕ} {m : ℕ} {s : ℝ}
    (hflat : FlatContact Y t B m s) (x : ℕ → ℝ) {n : ℕ} (hmn : n ≠ m) :
    contactPush Y t .frictionless gamma theta x B n = 0 := by
  rw [contactPush, neg_eq_zero]
  unfold contactForm
  refine sum_eq_zero (fun i hi => sum_eq_zero (fun e he => ?_))
  cases hf : (Y.facets i)[e]? with
  | none => rfl
  | some c =>
    obtain ⟨cell, f⟩ := c
    rw [Option.elim_some]
    refine sum_eq_zero (fun q hq => ?_)
    have hi := mem_range.mp hi
    have he := mem_range.mp he
    have hq := mem_range.mp hq
    by_cases hl : 0 ≤ Y.map t.cur i (e * Y.nq + q)
    · rw [if_pos hl]
      have side : CellIn Y B cell ∨ CellOut Y B cell →
          (∀ a < Y.gdim, jumpAt Y t.cur i e cell f (shiftOf Y.gdim n B) q a * contactNormalAt Y t.cur i e q a = 0) →
          weightAt Y cell f q * (pointAt Y t i e cell f q).form .frictionless gamma theta (jumpAt Y t.cur i e cell f x q)
            (fun a b => gradAt Y cell f x q a b + (pointAt Y t i e cell f q).grad0 a b)
            (jumpAt Y t.cur i e cell f (shiftOf Y.gdim n B) q) (gradAt Y cell f (shiftOf Y.gdim n B) q) = 0 := by
        intro hio hjump
        have hd : (pointAt Y t i e cell f q).dot (jumpAt Y t.cur i e cell f (shiftOf Y.gdim n B) q) = 0 :=
          sum_eq_zero (fun a ha => hjump a (mem_range.mp ha))
        rw [form_rigid _ _ _ _ _ _ _ _ (fun a ha b _ => grad_shift (B := B) hunit hi he hf hq hio n ha b), if_pos rfl, hd,
          mul_zero, add_zero, mul_zero]
      have cross : ∀ r s : ℝ, ∀ a : ℕ, (if a = n then r else 0) * (if a = m then s else 0) = 0 := by
        intro r s a
        by_cases h : a = n
        · rw [if_neg (by omega : ¬a = m), mul_zero]
        · rw [if_neg h, zero_mul]
      rcases hflat.point i hi e he cell f hf q hq hl with ⟨h1, h2, h3⟩ | ⟨h1, h2, h3⟩ | ⟨h1, h2⟩ | ⟨h1, h2⟩
      · refine side (Or.inl h1) (fun a ha => ?_)
        rw [jumpAt, value_in hunit hi he hf hq h1 n ha, opposite_out h2 n ha, sub_zero, h3 a ha, cross]
      · refine side (Or.inr h1) (fun a ha => ?_)
        rw [jumpAt, value_out h1 n ha, opposite_in hunit hi he hf hq hl h2 n ha, h3 a ha, zero_sub, neg_mul, cross, neg_zero]
      · refine side (Or.inl h1) (fun a ha => ?_)
        rw [jumpAt, value_in hunit hi he hf hq h1 n ha, opposite_in hunit hi he hf hq hl h2 n ha, sub_self, zero_mul]
      · refine side (Or.inr h1) (fun a ha => ?_)
        rw [jumpAt, value_out h1 n ha, opposite_out h2 n ha, sub_self, zero_mul]
    · rw [if_neg hl]

/-- C224 without friction: a body which rests on a flat interface and is not held along it carries no load along it, however
much it is pressed, whatever the signs of parameters and weights. -/
theorem C224_frictionless (hY : System.Valid Y) (Z : Setting G) (hN : DofsBelow Y Z.numDofs) (opts : Newton.Opts)
    (hcrit : opts.crit = .residual) (rank0 : Bool) (P0 : Phase) (as : List Action)
    (hphases : ∀ Q, .begin Q ∈ .begin P0 :: as →
      PhaseShaped Y.static Q ∧ (Q.law ≠ .frictionless → Y.gdim = 2 ∨ Y.gdim = 3))
    (out : List Report × Option DriverErr) (hout : out = actions Y Z rank0 (.begin P0 :: as) (newRun Y Z opts))
    (i : ℕ) (R : Report) (hR : out.1[i]? = some R) (hconv : R.converged = true) (Q : Phase) (φ : Packed) (S : PhaseStep)
    (hS : (inEffect P0 (P0.fric.elim (fun _ _ _ => 0) vals) as)[i]? = some (Q, φ, S))
    (hlaw : Q.law = .frictionless) (hunit : SumsToOne Y (Z.place R.before))
    (B : Finset ℕ) (hB : B ⊆ range Z.numDofs) (m n : ℕ) (hmn : n ≠ m) (s : ℝ)
    (hflat : FlatContact Y
      (stepData Y Z.place (vals Q.mu) (vals Q.lam) φ (vals Q.h) R.before (totalAfter out.1 (i - 1))) B m s)
    (hfree : ∀ d ∈ B, d % Y.gdim = n → S.load.bc d = none) (Pn : ℝ) (hPn : BodyWithLoad Y.gdim S.load B n Pn) :
    |Pn| ≤ opts.atol * balanceFactor Y.gdim S.load Z.numDofs (fun c => R.before c + R.du c) B n := by
  obtain ⟨Q', φ', S', hS', -, hb⟩ := (C219_phases hY Z hN opts hcrit rank0 P0 as hphases out hout).2 i R hR
  rw [hS] at hS'
  simp only [Option.some.injEq, Prod.mk.injEq] at hS'
  obtain ⟨rfl, rfl, rfl⟩ := hS'
  have hb := hb hconv
  rw [hlaw] at hb
  have bn := body_balance hb hB hPn
  rwa [supportPush_free (Y := Y) _ _ _ _ _ _ _ _ _ (fun d hd hdn => hfree d hd hdn), zero_add,
    flat_slide hunit Q.gamma Q.theta hflat R.du hmn, zero_add] at bn

/-! ### a computation which meets the hypotheses -/

section

/-- Vertical contact force at dof 1, with or without slip. -/
theorem exStick_form1 (t : Tracked Unit) (ht : t.h 0 0 0 = 1) (hg : ∀ a < 2, ∀ b < 2, t.gradU 0 0 ((0 * 2 + a) * 2 + b) = 0)
    (x : ℕ → ℝ) : contactForm exYc t .coulomb 2 1 x (unit 1) = -max 0 (2 - x 1 + x 3) := by
  obtain ⟨P, hP⟩ : ∃ P, P = pointAt exYc t 0 0 0 2 0 := ⟨_, rfl⟩
  have hPg : P.g = 2 := by rw [hP]; rfl
  have z : ∀ (u : ℕ → ℝ) (a b : ℕ), gradAt exYc 0 2 u 0 a b = 0 := by
    intro u a b
    simp [gradAt, exYc]
  obtain ⟨Du, hDu⟩ : ∃ Du : ℕ → ℕ → ℝ, Du = fun a b => gradAt exYc 0 2 x 0 a b + P.grad0 a b := ⟨_, rfl⟩
  have hDu0 : ∀ a < P.g, ∀ b < P.g, Du a b = 0 := by
    intro a ha b hb
    rw [hPg] at ha hb
    rw [hDu, hP]
    show gradAt exYc 0 2 x 0 a b + _ = _
    rw [z, zero_add]
    exact hg a ha b hb
  have dz : P.dot (P.trac Du) = 0 :=
    sum_eq_zero (fun a ha => by rw [trac_zero P hDu0 (mem_range.mp ha), zero_mul])
  obtain ⟨J, hJ⟩ : ∃ J, J = jumpAt exYc t.cur 0 0 0 2 x 0 := ⟨_, rfl⟩
  obtain ⟨T, hT⟩ : ∃ T, T = jumpAt exYc t.cur 0 0 0 2 (unit 1) 0 := ⟨_, rfl⟩
  obtain ⟨E, hE⟩ : ∃ E, E = gradAt exYc 0 2 (unit 1) 0 := ⟨_, rfl⟩
  have e1 : contactForm exYc t .coulomb 2 1 x (unit 1) = P.form .coulomb 2 1 J Du T E := by
    have hw : weightAt exYc 0 2 0 = 1 := by simp [weightAt, exYc, exY]
    rw [← one_mul (P.form _ _ _ _ _ _ _), ← hw, hP, hJ, hT, hE, hDu, hP]
    unfold contactForm
    simp [exYc, exY]
  have hn0 : P.normal 0 = 0 := by rw [hP]; simp [pointAt, contactNormalAt, exYc, exY]
  have hn1 : P.normal 1 = -1 := by rw [hP]; simp [pointAt, contactNormalAt, exYc, exY]
  have hdot : ∀ y : ℕ → ℝ, P.dot y = -y 1 := by
    intro y
    rw [ContactPoint.dot, hPg, sum_range_succ, sum_range_succ, sum_range_zero, hn0, hn1]
    ring
  have hh : P.h = 1 := by rw [hP]; exact ht
  have hgap : P.gap 1 = 2 := by rw [hP]; simp [pointAt, exYc, exY]
  have hJ1 : J 1 = x 1 - x 3 := by rw [hJ]; simp [jumpAt, valueAt, oppositeAt, exYc, exY]
  have hT0 : T 0 = 0 := by rw [hT]; simp [jumpAt, valueAt, oppositeAt, exYc, exY, unit]
  have hT1 : T 1 = 1 := by rw [hT]; simp [jumpAt, valueAt, oppositeAt, exYc, exY, unit]
  have hpr : P.pressure 2 J Du = 2 - x 1 + x 3 := by
    rw [ContactPoint.pressure, dz, hdot, hdot, hJ1, hgap]
    ring
  have ht0 : P.tang T 0 = 0 := by rw [ContactPoint.tang, hT0, hn0]; ring
  have ht1 : P.tang T 1 = 0 := by rw [ContactPoint.tang, hdot, hT1, hn1]; ring
  rw [e1, form_rigid P .coulomb 2 1 J Du T E (fun a _ b _ => by rw [hE]; exact z _ a b), if_neg (by simp), hpr, hdot, hT1, hh, hPg,
    sum_range_succ, sum_range_succ, sum_range_zero, ht0, ht1]
  ring

/-- The lower body is held. -/
def exHeld (d : ℕ) : Option ℝ := if d < 2 then none else some 0

/-- A block pressed down by `g` and pushed sideways by `f`. -/
noncomputable def exShove (f g : ℝ) : PhaseStep :=
  ⟨exHeld, ⟨fun _ d => if d = 0 then -f else if d = 1 then g else 0, fun _ _ _ => 0, exHeld⟩, exSame, 0.1⟩

theorem exShove_flat (t : Tracked Unit) : FlatContact exYc t {0, 1} 1 (-1) where
  axis := by decide
  side := Or.inr rfl
  point i hi e he cell f hf q hq _ := by
    left
    obtain rfl : i = 0 := by have : i < 1 := hi; omega
    obtain rfl : e = 0 := by have : e < 1 := he; omega
    obtain rfl : q = 0 := by have : q < 1 := hq; omega
    obtain ⟨rfl, rfl⟩ : 0 = cell ∧ 2 = f := by simpa [exYc, exY] using hf
    refine ⟨fun k hk a ha => ?_, fun k hk a ha => ?_, fun a ha => ?_⟩
    · have ha : a < 2 := ha
      show 2 * 0 + a ∈ _
      simp only [Finset.mem_insert, Finset.mem_singleton]
      omega
    · have ha : a < 2 := ha
      show 2 * 1 + a ∉ _
      simp only [Finset.mem_insert, Finset.mem_singleton]
      omega
    · have ha : a < 2 := ha
      interval_cases a <;> simp [contactNormalAt, exYc, exY]

theorem exShove_below (U Uold : ℕ → ℝ) : FrictionBelow exYc
    (stepData exYc exSinkSetting.place (vals exStickPhase.mu) (vals exStickPhase.lam) (fun _ _ _ => 1) (vals exStickPhase.h) U Uold)
    1 := by
  intro i hi e he cell f hf q hq _
  refine ⟨?_, ?_, ?_, ?_⟩
  · simp [weightAt, exYc, exY]
  · show (0 : ℝ) < 1
    norm_num
  · show (0 : ℝ) ≤ 1
    norm_num
  · show (1 : ℝ) ≤ 1
    norm_num

/-- Hypotheses of `C224_limit` are met by a block pressed down by 3/2 and pushed sideways by 1, which friction holds. -/
example : PhaseShaped exYc.static exStickPhase
    ∧ ∃ out R, out = actions exYc exSinkSetting true [.begin exStickPhase, .step (exShove 1 (3 / 2))] (newRun exYc exSinkSetting exOpts)
      ∧ out.2 = none ∧ out.1[0]? = some R ∧ R.converged = true
      ∧ (inEffect exStickPhase (exStickPhase.fric.elim (fun _ _ _ => 0) vals) [.step (exShove 1 (3 / 2))])[0]?
        = some (exStickPhase, fun _ _ _ => 1, exShove 1 (3 / 2))
      ∧ SumsToOne exYc (exSinkSetting.place R.before)
      ∧ (∀ d ∈ ({0, 1} : Finset ℕ), d % exYc.gdim = 1 ∨ d % exYc.gdim = 0 → (exShove 1 (3 / 2)).load.bc d = none)
      ∧ BodyWithLoad exYc.gdim (exShove 1 (3 / 2)).load {0, 1} 1 (-(3 / 2))
      ∧ BodyWithLoad exYc.gdim (exShove 1 (3 / 2)).load {0, 1} 0 1 := by
  obtain ⟨out, hout⟩ : ∃ out, out = actions exYc exSinkSetting true [.begin exStickPhase, .step (exShove 1 (3 / 2))]
    (newRun exYc exSinkSetting exOpts) := ⟨_, rfl⟩
  have hph : ∀ Q, Action.begin Q ∈ [Action.begin exStickPhase, .step (exShove 1 (3 / 2))] →
      PhaseShaped exYc.static Q ∧ (Q.law ≠ .frictionless → exYc.gdim = 2 ∨ exYc.gdim = 3) := by
    intro Q hQ
    obtain rfl : Q = exStickPhase := by simpa using hQ
    exact ⟨exStickPhase_shaped, fun _ => Or.inl rfl⟩
  obtain ⟨r, hr⟩ : ∃ r, r = beginPhase exYc exStickPhase (newRun exYc exSinkSetting exOpts) := ⟨_, rfl⟩
  have H : BeforeStep exYc exSinkSetting (vals exStickPhase.mu) (vals exStickPhase.lam) (fun _ _ _ => 1) (vals exStickPhase.h)
      .coulomb 2 1 true exOpts (fun _ => 0) (beginPhase exYc exStickPhase (newRun exYc exSinkSetting exOpts)) :=
    firstPhase_ok exYc_valid exStickPhase_shaped
  rw [← hr] at H
  have hx : r.solver.x = fun _ => 0 := by rw [hr]; rfl
  have hp : ∀ d, presetBc (exShove 1 (3 / 2)).preset r.solver.x d = 0 := by
    intro d
    rw [hx]
    show presetBc exHeld (fun _ => 0) d = 0
    unfold presetBc exHeld
    split <;> rfl
  obtain ⟨R, r', x, h1, -⟩ := shift_step (S := exShove 1 (3 / 2)) rfl (fun d => if d = 0 then 1 else if d = 1 then 1 / 2 else 0)
    (fun x => |x 0| ≤ 2 - x 1 ∧ x 2 = 0 ∧ x 3 = 0) H (fun _ _ _ _ => rfl)
    (fun x hx d hd hb => by
      obtain ⟨k0, k2, k3⟩ := hx
      interval_cases d
      · rw [exStick_form _ rfl rfl (fun a ha b hb => exGrad_zero r.u ha hb) x (by rw [k2, k3]; simpa using k0)]
        have e : (exShove 1 (3 / 2)).load.bulk (fun c => r.u c + x c) 0 = -1 := by simp [exShove]
        rw [e, k2, if_pos rfl]
        ring
      · rw [exStick_form1 _ rfl (fun a ha b hb => exGrad_zero r.u ha hb) x, k3,
          max_eq_right (by linarith [abs_nonneg (x 0)])]
        have e : (exShove 1 (3 / 2)).load.bulk (fun c => r.u c + x c) 1 = 3 / 2 := by simp [exShove]
        rw [e, if_neg (by norm_num), if_pos rfl]
        ring
      · cases hb
      · cases hb)
    (fun d hd v hb => by
      interval_cases d
      · cases hb
      · cases hb
      · exact Option.some.inj hb
      · exact Option.some.inj hb)
    ⟨by rw [hp, hp]; norm_num, hp 2, hp 3⟩
    (fun y hy => ⟨by
      rw [hy 0 (by norm_num), hy 1 (by norm_num), if_pos rfl, if_neg (by norm_num), if_pos rfl]
      norm_num, hy 2 (by norm_num), hy 3 (by norm_num)⟩)
    (Or.inr ⟨0, by norm_num, by rw [hp, if_pos rfl]; norm_num⟩)
  have hrun : out = ([R], none) := by
    rw [hout, actions, ← hr, actions, h1]
    rfl
  refine ⟨exStickPhase_shaped, out, R, hout, by rw [hrun], by rw [hrun]; rfl, ?_, rfl, ?_, ?_, ?_, ?_⟩
  · exact (C219_ended exYc_valid exSinkSetting exYc_below4 exOpts rfl rfl true exStickPhase _ hph out hout).1 R
      (by rw [hrun]; exact List.mem_cons_self)
  · simp [SumsToOne, exYc, exY]
  · intro d hd _
    simp only [Finset.mem_insert, Finset.mem_singleton] at hd
    rcases hd with rfl | rfl <;> rfl
  · rw [show exYc.gdim = 2 from rfl]
    intro u
    rw [show ({d ∈ ({0, 1} : Finset ℕ) | d % 2 = 1}) = {1} by decide, sum_singleton, neg_neg]
    simp [exShove]
  · rw [show exYc.gdim = 2 from rfl]
    intro u
    rw [show ({d ∈ ({0, 1} : Finset ℕ) | d % 2 = 0}) = {0} by decide, sum_singleton]
    simp [exShove]

/-- Hypotheses of `C224_frictionless` are met by a block pressed down by 3/2 without friction. -/
example : PhaseShaped exYc.static exSinkPhase
    ∧ ∃ out R, out = actions exYc exSinkSetting true [.begin exSinkPhase, .step (exShove 0 (3 / 2))] (newRun exYc exSinkSetting exOpts)
      ∧ out.2 = none ∧ out.1[0]? = some R ∧ R.converged = true
      ∧ (inEffect exSinkPhase (exSinkPhase.fric.elim (fun _ _ _ => 0) vals) [.step (exShove 0 (3 / 2))])[0]?
        = some (exSinkPhase, fun _ _ _ => 0, exShove 0 (3 / 2))
      ∧ SumsToOne exYc (exSinkSetting.place R.before)
      ∧ (∀ d ∈ ({0, 1} : Finset ℕ), d % exYc.gdim = 0 → (exShove 0 (3 / 2)).load.bc d = none)
      ∧ BodyWithLoad exYc.gdim (exShove 0 (3 / 2)).load {0, 1} 0 0
      ∧ ∀ t, FlatContact exYc t {0, 1} 1 (-1) := by
  obtain ⟨out, hout⟩ : ∃ out, out = actions exYc exSinkSetting true [.begin exSinkPhase, .step (exShove 0 (3 / 2))]
    (newRun exYc exSinkSetting exOpts) := ⟨_, rfl⟩
  have hph : ∀ Q, Action.begin Q ∈ [Action.begin exSinkPhase, .step (exShove 0 (3 / 2))] →
      PhaseShaped exYc.static Q ∧ (Q.law ≠ .frictionless → exYc.gdim = 2 ∨ exYc.gdim = 3) := by
    intro Q hQ
    obtain rfl : Q = exSinkPhase := by simpa using hQ
    exact ⟨exSinkPhase_shaped, fun _ => Or.inl rfl⟩
  obtain ⟨r, hr⟩ : ∃ r, r = beginPhase exYc exSinkPhase (newRun exYc exSinkSetting exOpts) := ⟨_, rfl⟩
  have H : BeforeStep exYc exSinkSetting (vals exSinkPhase.mu) (vals exSinkPhase.lam) (fun _ _ _ => 0) (vals exSinkPhase.h)
      .frictionless 2 1 true exOpts (fun _ => 0) (beginPhase exYc exSinkPhase (newRun exYc exSinkSetting exOpts)) :=
    firstPhase_ok exYc_valid exSinkPhase_shaped
  rw [← hr] at H
  have hx : r.solver.x = fun d => if d = 1 then -1 / 100 else 0 := by rw [hr]; rfl
  have hp : ∀ d < 2, presetBc (exShove 0 (3 / 2)).preset r.solver.x d = if d = 1 then -1 / 100 else 0 := by
    intro d hd
    rw [hx]
    show presetBc exHeld _ d = _
    unfold presetBc exHeld
    rw [if_pos hd]
    rfl
  have slide : ∀ t : Tracked Unit, ∀ x : ℕ → ℝ, contactForm exYc t .frictionless 2 1 x (unit 0) = 0 := by
    intro t x
    have h := flat_slide (Y := exYc) (t := t) (by simp [SumsToOne, exYc, exY]) 2 1 (exShove_flat t) x (n := 0) (by norm_num)
    rw [contactPush, neg_eq_zero] at h
    refine Eq.trans (congrArg _ ?_) h
    funext d
    show unit 0 d = shiftOf 2 0 {0, 1} d
    rw [shiftOf, unit]
    refine if_congr ?_ rfl rfl
    simp only [Finset.mem_insert, Finset.mem_singleton]
    omega
  obtain ⟨R, r', x, h1, -⟩ := shift_step (S := exShove 0 (3 / 2)) rfl (fun d => if d = 1 then 1 / 2 else 0)
    (fun x => x 0 = 0 ∧ x 1 ≤ 2 ∧ x 3 = 0) H (fun _ _ _ _ => rfl)
    (fun x hx d hd hb => by
      obtain ⟨k0, k1, k3⟩ := hx
      interval_cases d
      · rw [slide]
        have e : (exShove 0 (3 / 2)).load.bulk (fun c => r.u c + x c) 0 = 0 := by simp [exShove]
        rw [e, k0, if_neg (by norm_num)]
        ring
      · rw [exSink_form _ rfl (fun a ha b hb => exGrad_zero r.u ha hb), max_eq_right (by linarith)]
        have e : (exShove 0 (3 / 2)).load.bulk (fun c => r.u c + x c) 1 = 3 / 2 := by simp [exShove]
        rw [e, k3, if_pos rfl]
        ring
      · cases hb
      · cases hb)
    (fun d hd v hb => by
      interval_cases d
      · cases hb
      · cases hb
      · exact Option.some.inj hb
      · exact Option.some.inj hb)
    ⟨by rw [hp 0 (by norm_num), if_neg (by norm_num)], by rw [hp 1 (by norm_num), if_pos rfl]; norm_num, rfl⟩
    (fun y hy => ⟨by rw [hy 0 (by norm_num), if_neg (by norm_num)], by
      rw [hy 1 (by norm_num), if_pos rfl]
      norm_num, hy 3 (by norm_num)⟩)
    (Or.inr ⟨1, by norm_num, by rw [hp 1 (by norm_num), if_pos rfl, if_pos rfl]; norm_num⟩)
  have hrun : out = ([R], none) := by
    rw [hout, actions, ← hr, actions, h1]
    rfl
  refine ⟨exSinkPhase_shaped, out, R, hout, by rw [hrun], by rw [hrun]; rfl, ?_, rfl, ?_, ?_, ?_, exShove_flat⟩
  · exact (C219_ended exYc_valid exSinkSetting exYc_below4 exOpts rfl rfl true exSinkPhase _ hph out hout).1 R
      (by rw [hrun]; exact List.mem_cons_self)
  · simp [SumsToOne, exYc, exY]
  · intro d hd _
    simp only [Finset.mem_insert, Finset.mem_singleton] at hd
    rcases hd with rfl | rfl <;> rfl
  · rw [show exYc.gdim = 2 from rfl]
    intro u
    rw [show ({d ∈ ({0, 1} : Finset ℕ) | d % 2 = 0}) = {0} by decide, sum_singleton]
    simp [exShove]

end

end Verif.ContactProblem
