import Verif.Props.FrictionLimit
import Verif.Spec.TrescaLimit

/-!
C225: what Tresca friction carries along a flat interface. The bound holds with the linked points as area in contact; the code
does not ask whether the surfaces touch there.
-/

namespace Verif.ContactProblem

open Verif.Spec Verif.Packing Verif.Assembly Verif.Hertz Finset

variable {G : Type} {Y : System G}

/-- A point with contact normal along axis `m`, moved along another axis: at most half of Tresca's bound. -/
theorem point_tresca (p : ContactPoint) {gamma : ℝ} (hg : 0 < gamma)
    (hh : 0 < p.h) (hf : 0 ≤ p.fric) (theta : ℝ) (J : ℕ → ℝ) (D : ℕ → ℕ → ℝ) {m n : ℕ} (hn : n < p.g)
    (hmn : n ≠ m) {s r : ℝ} (hr : r ^ 2 = 1) (hnorm : ∀ a < p.g, p.normal a = if a = m then s else 0)
    (Tn : ℕ → ℝ) (hTn : ∀ a < p.g, Tn a = if a = n then r else 0) (Sn : ℕ → ℕ → ℝ) (hSn : ∀ a < p.g, ∀ b < p.g, Sn a b = 0) :
    |p.form .tresca gamma theta J D Tn Sn| ≤ 1 / 2 * p.fric := by
  have dn : p.dot Tn = 0 := by
    refine sum_eq_zero (fun a ha => ?_)
    rw [hTn a (mem_range.mp ha), hnorm a (mem_range.mp ha)]
    by_cases h : a = n
    · rw [if_neg (by omega : ¬a = m), mul_zero]
    · rw [if_neg h, zero_mul]
  have tn : ∀ a < p.g, p.tang Tn a = if a = n then r else 0 := by
    intro a ha
    rw [ContactPoint.tang, dn, hTn a ha]
    ring
  have hr1 : |r| = 1 := by
    rw [← Real.sqrt_sq_eq_abs, hr, Real.sqrt_one]
  have hb := ball_le p.g (p.slip gamma J D) (by positivity : 0 ≤ p.h / gamma * p.fric) hn
  have hpr : p.projected .tresca gamma J D n = ball p.g (p.slip gamma J D) (p.h / gamma * p.fric) n := rfl
  rw [form_rigid p .tresca gamma theta J D Tn Sn hSn, dn, mul_zero, zero_add, if_neg (by simp),
    sum_eq_single_of_mem n (mem_range.mpr hn), tn n hn, if_pos rfl, hpr, abs_mul (1 / 2 * (gamma / p.h)), abs_mul _ r, hr1, mul_one,
    abs_of_nonneg (by positivity : (0 : ℝ) ≤ 1 / 2 * (gamma / p.h))]
  · calc 1 / 2 * (gamma / p.h) * |_| ≤ 1 / 2 * (gamma / p.h) * (p.h / gamma * p.fric) :=
          mul_le_mul_of_nonneg_left hb (by positivity)
      _ = 1 / 2 * p.fric := by field_simp
  · intro a ha hne
    rw [tn a (mem_range.mp ha), if_neg hne, mul_zero]

/-- On a flat interface Tresca friction holds a body with at most its capacity, at every displacement. -/
theorem tresca_push {t : Tracked G} (hunit : SumsToOne Y t.cur) {gamma : ℝ} (hg : 0 < gamma) (theta : ℝ) {B : Finset ℕ}
    {m : ℕ} {s mu : ℝ} (hflat : FlatContact Y t B m s) (hmu : FrictionBelow Y t mu) (x : ℕ → ℝ) {n : ℕ} (hn : n < Y.gdim)
    (hmn : n ≠ m) : |contactPush Y t .tresca gamma theta x B n| ≤ trescaCapacity Y t B := by
  rw [contactPush, abs_neg]
  unfold contactForm trescaCapacity
  refine (abs_sum_le_sum_abs _ _).trans (sum_le_sum (fun i hi => ?_))
  refine (abs_sum_le_sum_abs _ _).trans (sum_le_sum (fun e he => ?_))
  cases hf : (Y.facets i)[e]? with
  | none => simp
  | some c =>
    obtain ⟨cell, f⟩ := c
    simp only [Option.elim_some]
    refine (abs_sum_le_sum_abs _ _).trans (sum_le_sum (fun q hq => ?_))
    have hi := mem_range.mp hi
    have he := mem_range.mp he
    have hq := mem_range.mp hq
    by_cases hl : 0 ≤ Y.map t.cur i (e * Y.nq + q)
    · rw [if_pos hl]
      obtain ⟨k1, k2, k3, -⟩ := hmu i hi e he cell f hf q hq hl
      have low : ∀ P : Prop, ∀ _ : Decidable P, (0 : ℝ) ≤ if P then 1 / 2 * (weightAt Y cell f q * t.fric i e 0) else 0 := by
        intro P _
        split
        · positivity
        · exact le_rfl
      have side : ∀ r : ℝ, r ^ 2 = 1 → CellIn Y B cell ∨ CellOut Y B cell → ∀ s : ℝ,
          (∀ a < Y.gdim, contactNormalAt Y t.cur i e q a = if a = m then s else 0) →
          (∀ a < Y.gdim, jumpAt Y t.cur i e cell f (shiftOf Y.gdim n B) q a = if a = n then r else 0) →
          |weightAt Y cell f q * (pointAt Y t i e cell f q).form .tresca gamma theta (jumpAt Y t.cur i e cell f x q)
            (fun a b => gradAt Y cell f x q a b + (pointAt Y t i e cell f q).grad0 a b)
            (jumpAt Y t.cur i e cell f (shiftOf Y.gdim n B) q) (gradAt Y cell f (shiftOf Y.gdim n B) q)|
          ≤ 1 / 2 * (weightAt Y cell f q * t.fric i e 0) := by
        intro r hr hio s hnorm hjump
        have p1 := point_tresca (pointAt Y t i e cell f q) hg k2 k3 theta (jumpAt Y t.cur i e cell f x q)
          (fun a b => gradAt Y cell f x q a b + (pointAt Y t i e cell f q).grad0 a b) hn hmn hr hnorm _ hjump _
          (fun a ha b _ => grad_shift (B := B) hunit hi he hf hq hio n ha b)
        rw [abs_mul, abs_of_nonneg k1]
        calc weightAt Y cell f q * _ ≤ weightAt Y cell f q * (1 / 2 * t.fric i e 0) := mul_le_mul_of_nonneg_left p1 k1
          _ = _ := by ring
      have none' : CellIn Y B cell ∨ CellOut Y B cell →
          (∀ a < Y.gdim, jumpAt Y t.cur i e cell f (shiftOf Y.gdim n B) q a = 0) →
          (pointAt Y t i e cell f q).form .tresca gamma theta (jumpAt Y t.cur i e cell f x q)
            (fun a b => gradAt Y cell f x q a b + (pointAt Y t i e cell f q).grad0 a b)
            (jumpAt Y t.cur i e cell f (shiftOf Y.gdim n B) q) (gradAt Y cell f (shiftOf Y.gdim n B) q) = 0 :=
        fun hio hjump => form_away hjump (fun a ha b _ => grad_shift (B := B) hunit hi he hf hq hio n ha b) .tresca gamma theta _ _
      rcases hflat.point i hi e he cell f hf q hq hl with ⟨h1, h2, h3⟩ | ⟨h1, h2, h3⟩ | ⟨h1, h2⟩ | ⟨h1, h2⟩
      · rw [if_pos ⟨hl, Or.inl ⟨h1, h2⟩⟩]
        refine side 1 (by norm_num) (Or.inl h1) s h3 (fun a ha => ?_)
        rw [jumpAt, value_in hunit hi he hf hq h1 n ha, opposite_out h2 n ha, sub_zero]
      · rw [if_pos ⟨hl, Or.inr ⟨h1, h2⟩⟩]
        refine side (-1) (by norm_num) (Or.inr h1) (-s) h3 (fun a ha => ?_)
        rw [jumpAt, value_out h1 n ha, opposite_in hunit hi he hf hq hl h2 n ha]
        split <;> ring
      · rw [none' (Or.inl h1) (fun a ha => by
          rw [jumpAt, value_in hunit hi he hf hq h1 n ha, opposite_in hunit hi he hf hq hl h2 n ha, sub_self]), mul_zero, abs_zero]
        exact low _ _
      · rw [none' (Or.inr h1) (fun a ha => by
          rw [jumpAt, value_out h1 n ha, opposite_out h2 n ha, sub_self]), mul_zero, abs_zero]
        exact low _ _
    · rw [if_neg hl, if_neg (fun h => hl h.1), abs_zero]

/-- C225, with linked points in place of points at which the surfaces touch: in a load step reported as converged, a body which
is held along a flat interface by Tresca friction only carries at most the integral of Tresca's bound over the linked points
between it and others, up to a multiple of the tolerance. -/
theorem C225_limit_partial (hY : System.Valid Y) (Z : Setting G) (hN : DofsBelow Y Z.numDofs) (opts : Newton.Opts)
    (hcrit : opts.crit = .residual) (rank0 : Bool) (P0 : Phase) (as : List Action)
    (hphases : ∀ Q, .begin Q ∈ .begin P0 :: as →
      PhaseShaped Y.static Q ∧ (Q.law ≠ .frictionless → Y.gdim = 2 ∨ Y.gdim = 3))
    (out : List Report × Option DriverErr) (hout : out = actions Y Z rank0 (.begin P0 :: as) (newRun Y Z opts))
    (i : ℕ) (R : Report) (hR : out.1[i]? = some R) (hconv : R.converged = true) (Q : Phase) (φ : Packed) (S : PhaseStep)
    (hS : (inEffect P0 (P0.fric.elim (fun _ _ _ => 0) vals) as)[i]? = some (Q, φ, S))
    (hlaw : Q.law = .tresca) (hg : 0 < Q.gamma) (hunit : SumsToOne Y (Z.place R.before))
    (B : Finset ℕ) (hB : B ⊆ range Z.numDofs) (m n : ℕ) (hn : n < Y.gdim) (hmn : n ≠ m) (s mu : ℝ)
    (hflat : FlatContact Y
      (stepData Y Z.place (vals Q.mu) (vals Q.lam) φ (vals Q.h) R.before (totalAfter out.1 (i - 1))) B m s)
    (hmu : FrictionBelow Y
      (stepData Y Z.place (vals Q.mu) (vals Q.lam) φ (vals Q.h) R.before (totalAfter out.1 (i - 1))) mu)
    (hfree : ∀ d ∈ B, d % Y.gdim = n → S.load.bc d = none) (Pn : ℝ) (hPn : BodyWithLoad Y.gdim S.load B n Pn) :
    |Pn| ≤ trescaCapacity Y
        (stepData Y Z.place (vals Q.mu) (vals Q.lam) φ (vals Q.h) R.before (totalAfter out.1 (i - 1))) B
      + opts.atol * balanceFactor Y.gdim S.load Z.numDofs (fun c => R.before c + R.du c) B n := by
  obtain ⟨Q', φ', S', hS', -, hb⟩ := (C219_phases hY Z hN opts hcrit rank0 P0 as hphases out hout).2 i R hR
  rw [hS] at hS'
  simp only [Option.some.injEq, Prod.mk.injEq] at hS'
  obtain ⟨rfl, rfl, rfl⟩ := hS'
  have hb := hb hconv
  rw [hlaw] at hb
  have h2 := tresca_push (t := stepData Y Z.place (vals Q.mu) (vals Q.lam) φ (vals Q.h) R.before
    (totalAfter out.1 (i - 1))) hunit hg Q.theta hflat hmu R.du hn hmn
  have bn := body_balance hb hB hPn
  rw [supportPush_free (Y := Y) _ _ _ _ _ _ _ _ _ (fun d hd hdn => hfree d hd hdn), zero_add] at bn
  obtain ⟨Fn, hFn⟩ : ∃ F, F = contactPush Y (stepData Y Z.place (vals Q.mu) (vals Q.lam) φ (vals Q.h) R.before
    (totalAfter out.1 (i - 1))) .tresca Q.gamma Q.theta R.du B n := ⟨_, rfl⟩
  rw [← hFn] at bn h2
  have k1 : |Pn| ≤ |Fn + Pn| + |Fn| := by
    have : Pn = (Fn + Pn) - Fn := by ring
    calc |Pn| = |(Fn + Pn) - Fn| := by rw [← this]
      _ ≤ _ := abs_sub _ _
  linarith

/-! ### a body held by friction which touches nothing -/

section

/-- Horizontal friction force at dof 0 with Tresca's bound 4, in stick. -/
theorem exTresca_form (t : Tracked Unit) (ht : t.h 0 0 0 = 1) (hfr : t.fric 0 0 0 = 4)
    (hg : ∀ a < 2, ∀ b < 2, t.gradU 0 0 ((0 * 2 + a) * 2 + b) = 0) (x : ℕ → ℝ) (hx : |x 0 - x 2| ≤ 2) :
    contactForm exYc t .tresca 2 1 x (unit 0) = x 0 - x 2 := by
  obtain ⟨P, hP⟩ : ∃ P, P = pointAt exYc t 0 0 0 2 0 := ⟨_, rfl⟩
  have hPg : P.g = 2 := by rw [hP]; rfl
  have z : ∀ (u : ℕ → ℝ) (a b : ℕ), gradAt exYc 0 2 u 0 a b = 0 := by
    intro u a b
    simp [gradAt, exYc]
  obtain ⟨Du, hDu⟩ : ∃ Du : ℕ → ℕ → ℝ, Du = fun a b => gradAt exYc 0 2 x 0 a b + P.grad0 a b := ⟨_, rfl⟩
  have hDu0 : ∀ a < P.g, ∀ b < P.g, Du a b = 0 := by
    intro a ha b hb
    rw [hPg] at ha hb
    rw [hDu, hP]
    show gradAt exYc 0 2 x 0 a b + _ = _
    rw [z, zero_add]
    exact hg a ha b hb
  have tr : ∀ a < 2, P.trac Du a = 0 := fun a ha => trac_zero P hDu0 (by omega)
  have dz : P.dot (P.trac Du) = 0 :=
    sum_eq_zero (fun a ha => by rw [trac_zero P hDu0 (mem_range.mp ha), zero_mul])
  have tz : ∀ a < 2, P.tang (P.trac Du) a = 0 := fun a ha => by rw [ContactPoint.tang, dz, tr a ha]; ring
  obtain ⟨J, hJ⟩ : ∃ J, J = jumpAt exYc t.cur 0 0 0 2 x 0 := ⟨_, rfl⟩
  obtain ⟨T, hT⟩ : ∃ T, T = jumpAt exYc t.cur 0 0 0 2 (unit 0) 0 := ⟨_, rfl⟩
  obtain ⟨E, hE⟩ : ∃ E, E = gradAt exYc 0 2 (unit 0) 0 := ⟨_, rfl⟩
  have e1 : contactForm exYc t .tresca 2 1 x (unit 0) = P.form .tresca 2 1 J Du T E := by
    have hw : weightAt exYc 0 2 0 = 1 := by simp [weightAt, exYc, exY]
    rw [← one_mul (P.form _ _ _ _ _ _ _), ← hw, hP, hJ, hT, hE, hDu, hP]
    unfold contactForm
    simp [exYc, exY]
  have hn0 : P.normal 0 = 0 := by rw [hP]; simp [pointAt, contactNormalAt, exYc, exY]
  have hn1 : P.normal 1 = -1 := by rw [hP]; simp [pointAt, contactNormalAt, exYc, exY]
  have hdot : ∀ y : ℕ → ℝ, P.dot y = -y 1 := by
    intro y
    rw [ContactPoint.dot, hPg, sum_range_succ, sum_range_succ, sum_range_zero, hn0, hn1]
    ring
  have htang : ∀ y : ℕ → ℝ, P.tang y 0 = y 0 ∧ P.tang y 1 = 0 := by
    intro y
    rw [ContactPoint.tang, ContactPoint.tang, hdot, hn0, hn1]
    constructor <;> ring
  have hh : P.h = 1 := by rw [hP]; exact ht
  have hf : P.fric = 4 := by rw [hP]; exact hfr
  have hJ0 : J 0 = x 0 - x 2 := by rw [hJ]; simp [jumpAt, valueAt, oppositeAt, exYc, exY]
  have hT0 : T 0 = 1 := by rw [hT]; simp [jumpAt, valueAt, oppositeAt, exYc, exY, unit]
  have hT1 : T 1 = 0 := by rw [hT]; simp [jumpAt, valueAt, oppositeAt, exYc, exY, unit]
  have hs0 : P.slip 2 J Du 0 = x 0 - x 2 := by
    rw [ContactPoint.slip, tz 0 (by norm_num), (htang J).1, hJ0]
    ring
  have hs1 : P.slip 2 J Du 1 = 0 := by
    rw [ContactPoint.slip, tz 1 (by norm_num), (htang J).2]
    ring
  have hproj : ∀ a, P.projected .tresca 2 J Du a = P.slip 2 J Du a := by
    intro a
    rw [ContactPoint.projected, ball, if_pos]
    rw [hPg, sum_range_succ, sum_range_succ, sum_range_zero, hs0, hs1, hf, hh, zero_add]
    rw [show (x 0 - x 2) ^ 2 + (0 : ℝ) ^ 2 = (x 0 - x 2) ^ 2 by ring, Real.sqrt_sq_eq_abs]
    exact hx.trans (by norm_num)
  rw [e1, form_rigid P .tresca 2 1 J Du T E (fun a _ b _ => by rw [hE]; exact z _ a b), if_neg (by simp), hdot T, hT1, hPg,
    sum_range_succ, sum_range_succ, sum_range_zero, hproj, hproj, hs0, hs1, (htang T).1, hT0, hh]
  ring

/-- Tresca friction with bound 4. -/
noncomputable def exTrescaPhase : Phase :=
  ⟨.tresca, fun _ => ⟨1, 1, fun _ _ => 3⟩, fun _ => ⟨1, 1, fun _ _ => 5⟩, some fun _ => ⟨1, 1, fun _ _ => 4⟩,
    fun _ => ⟨1, 1, fun _ _ => 1⟩, 2, 1, id⟩

theorem exTrescaPhase_shaped : PhaseShaped exYc.static exTrescaPhase := by
  refine ⟨?_, ?_, ?_, ?_⟩ <;> simp [exTrescaPhase, ScalarShaped, System.static, exYc, exY]

/-- The lower body is held, the upper one is lifted by 5 and can move sideways. -/
def exHoverBc (d : ℕ) : Option ℝ := if d = 0 then none else if d = 1 then some 5 else some 0

/-- It is pushed sideways by 1. -/
noncomputable def exHover : PhaseStep := ⟨exHoverBc, ⟨fun _ d => if d = 0 then -1 else 0, fun _ _ _ => 0, exHoverBc⟩, exSame, 0.1⟩

theorem exHover_below (U Uold : ℕ → ℝ) : FrictionBelow exYc
    (stepData exYc exSinkSetting.place (vals exTrescaPhase.mu) (vals exTrescaPhase.lam) (fun _ _ _ => 4) (vals exTrescaPhase.h) U Uold)
    4 := by
  intro i hi e he cell f hf q hq _
  refine ⟨?_, ?_, ?_, ?_⟩
  · simp [weightAt, exYc, exY]
  · show (0 : ℝ) < 1
    norm_num
  · show (0 : ℝ) ≤ 4
    norm_num
  · show (4 : ℝ) ≤ 4
    norm_num

theorem exHover_run : ∃ out R, out = actions exYc exSinkSetting true [.begin exTrescaPhase, .step exHover]
      (newRun exYc exSinkSetting exOpts)
    ∧ out = ([R], none) ∧ R.converged = true := by
  obtain ⟨out, hout⟩ : ∃ out, out = actions exYc exSinkSetting true [.begin exTrescaPhase, .step exHover]
    (newRun exYc exSinkSetting exOpts) := ⟨_, rfl⟩
  have hph : ∀ Q, Action.begin Q ∈ [Action.begin exTrescaPhase, .step exHover] →
      PhaseShaped exYc.static Q ∧ (Q.law ≠ .frictionless → exYc.gdim = 2 ∨ exYc.gdim = 3) := by
    intro Q hQ
    obtain rfl : Q = exTrescaPhase := by simpa using hQ
    exact ⟨exTrescaPhase_shaped, fun _ => Or.inl rfl⟩
  obtain ⟨r, hr⟩ : ∃ r, r = beginPhase exYc exTrescaPhase (newRun exYc exSinkSetting exOpts) := ⟨_, rfl⟩
  have H : BeforeStep exYc exSinkSetting (vals exTrescaPhase.mu) (vals exTrescaPhase.lam) (fun _ _ _ => 4) (vals exTrescaPhase.h)
      .tresca 2 1 true exOpts (fun _ => 0) (beginPhase exYc exTrescaPhase (newRun exYc exSinkSetting exOpts)) :=
    firstPhase_ok exYc_valid exTrescaPhase_shaped
  rw [← hr] at H
  have hx : r.solver.x = fun _ => 0 := by rw [hr]; rfl
  have hp0 : presetBc exHover.preset r.solver.x 0 = 0 := by rw [hx]; rfl
  obtain ⟨R, r', x, h1, -⟩ := shift_step (S := exHover) rfl (fun d => if d = 0 then 1 else if d = 1 then 5 else 0)
    (fun x => |x 0| ≤ 2 ∧ x 2 = 0) H (fun _ _ _ _ => rfl)
    (fun x hx d hd hb => by
      obtain ⟨k0, k2⟩ := hx
      interval_cases d
      · rw [exTresca_form _ rfl rfl (fun a ha b hb => exGrad_zero r.u ha hb) x (by rw [k2]; simpa using k0)]
        have e : exHover.load.bulk (fun c => r.u c + x c) 0 = -1 := by simp [exHover]
        rw [e, k2, if_pos rfl]
        ring
      · cases hb
      · cases hb
      · cases hb)
    (fun d hd v hb => by
      interval_cases d
      · cases hb
      · exact Option.some.inj hb
      · exact Option.some.inj hb
      · exact Option.some.inj hb)
    ⟨by rw [hp0]; norm_num, rfl⟩
    (fun y hy => ⟨by
      rw [hy 0 (by norm_num), if_pos rfl]
      norm_num, hy 2 (by norm_num)⟩)
    (Or.inr ⟨0, by norm_num, by rw [hp0, if_pos rfl]; norm_num⟩)
  have hrun : out = ([R], none) := by
    rw [hout, actions, ← hr, actions, h1]
    rfl
  exact ⟨out, R, hout, hrun, (C219_ended exYc_valid exSinkSetting exYc_below4 exOpts rfl rfl true exTrescaPhase _ hph out hout).1 R
      (by rw [hrun]; exact List.mem_cons_self)⟩

theorem exHover_load : BodyWithLoad exYc.gdim exHover.load {0, 1} 0 1 := by
  rw [show exYc.gdim = 2 from rfl]
  intro u
  rw [show ({d ∈ ({0, 1} : Finset ℕ) | d % 2 = 0}) = {0} by decide, sum_singleton]
  simp [exHover]

theorem exHover_free : ∀ d ∈ ({0, 1} : Finset ℕ), d % exYc.gdim = 0 → exHover.load.bc d = none := by
  intro d hd hn
  simp only [Finset.mem_insert, Finset.mem_singleton] at hd
  rcases hd with rfl | rfl
  · rfl
  · exact absurd (show 1 % 2 = 0 from hn) (by norm_num)

/-- Hypotheses of `C225_limit_partial` are met. -/
example : PhaseShaped exYc.static exTrescaPhase
    ∧ ∃ out R, out = actions exYc exSinkSetting true [.begin exTrescaPhase, .step exHover] (newRun exYc exSinkSetting exOpts)
      ∧ out.1[0]? = some R ∧ R.converged = true
      ∧ (inEffect exTrescaPhase (exTrescaPhase.fric.elim (fun _ _ _ => 0) vals) [.step exHover])[0]?
        = some (exTrescaPhase, fun _ _ _ => 4, exHover)
      ∧ SumsToOne exYc (exSinkSetting.place R.before)
      ∧ (∀ d ∈ ({0, 1} : Finset ℕ), d % exYc.gdim = 0 → exHover.load.bc d = none)
      ∧ BodyWithLoad exYc.gdim exHover.load {0, 1} 0 1
      ∧ ∀ t, FlatContact exYc t {0, 1} 1 (-1) := by
  obtain ⟨out, R, h1, h2, h3⟩ := exHover_run
  exact ⟨exTrescaPhase_shaped, out, R, h1, by rw [h2]; rfl, h3, rfl, by simp [SumsToOne, exYc, exY], exHover_free, exHover_load,
    exShove_flat⟩

/-- C225 is violated: a load step is reported as converged in which friction holds a body against the load 1, although
the body is more than 2 away from the other one at every linked point. -/
theorem C225_apart_violated : ∃ out R,
    out = actions exYc exSinkSetting true [.begin exTrescaPhase, .step exHover] (newRun exYc exSinkSetting exOpts)
    ∧ out.1 = [R] ∧ R.converged = true ∧ BodyWithLoad exYc.gdim exHover.load {0, 1} 0 1
    ∧ (∀ i < exYc.numPairs, ∀ e < exYc.localFacets i, ∀ cell f, (exYc.facets i)[e]? = some (cell, f) → ∀ q < exYc.nq,
      2 < distanceAt exYc (stepData exYc exSinkSetting.place (vals exTrescaPhase.mu) (vals exTrescaPhase.lam) (fun _ _ _ => 4)
        (vals exTrescaPhase.h) R.before (totalAfter out.1 (0 - 1))) i e cell f R.du q)
    ∧ |contactPush exYc (stepData exYc exSinkSetting.place (vals exTrescaPhase.mu) (vals exTrescaPhase.lam) (fun _ _ _ => 4)
        (vals exTrescaPhase.h) R.before (totalAfter out.1 (0 - 1))) .tresca 2 1 R.du {0, 1} 0 + 1| ≤ 1e-8 := by
  obtain ⟨out, R, h1, h2, h3⟩ := exHover_run
  have hR : out.1[0]? = some R := by rw [h2]; rfl
  have hph : ∀ Q, Action.begin Q ∈ [Action.begin exTrescaPhase, .step exHover] →
      PhaseShaped exYc.static Q ∧ (Q.law ≠ .frictionless → exYc.gdim = 2 ∨ exYc.gdim = 3) := by
    intro Q hQ
    obtain rfl : Q = exTrescaPhase := by simpa using hQ
    exact ⟨exTrescaPhase_shaped, fun _ => Or.inl rfl⟩
  obtain ⟨Q', φ', S', hS', -, hb⟩ := (C219_phases exYc_valid exSinkSetting exYc_below4 exOpts rfl true exTrescaPhase _ hph out h1).2 0 R hR
  obtain ⟨rfl, rfl, rfl⟩ : exTrescaPhase = Q' ∧ (fun _ _ _ => 4) = φ' ∧ exHover = S' := by
    have e := Option.some.inj ((show some (exTrescaPhase, (fun _ _ _ => 4 : Packed), exHover) = some (Q', φ', S') from hS'))
    exact ⟨(Prod.mk.inj e).1, (Prod.mk.inj (Prod.mk.inj e).2).1, (Prod.mk.inj (Prod.mk.inj e).2).2⟩
  have hb := hb h3
  have d1 : |R.du 1 - 5| < 1e-8 := hb.1 1 (by decide) 5 rfl
  have d3 : |R.du 3 - 0| < 1e-8 := hb.1 3 (by decide) 0 rfl
  refine ⟨out, R, h1, by rw [h2], h3, exHover_load, ?_, ?_⟩
  · intro i hi e he cell f hf q hq
    obtain rfl : i = 0 := by have : i < 1 := hi; omega
    obtain rfl : e = 0 := by have : e < 1 := he; omega
    obtain rfl : q = 0 := by have : q < 1 := hq; omega
    obtain ⟨rfl, rfl⟩ : 0 = cell ∧ 2 = f := by simpa [exYc, exY] using hf
    have e : ∀ t : Tracked Unit, distanceAt exYc t 0 0 0 2 R.du 0 = R.du 1 - R.du 3 - 2 := by
      intro t
      simp [distanceAt, ContactPoint.dot, pointAt, contactNormalAt, jumpAt, valueAt, oppositeAt, exYc, exY, sum_range_succ]
      ring
    rw [e]
    have := abs_lt.mp d1
    have := abs_lt.mp d3
    norm_num at *
    linarith
  · have bn := body_balance hb (B := {0, 1}) (by decide) exHover_load
    rw [supportPush_free (Y := exYc) _ _ _ _ _ _ _ _ _ exHover_free, zero_add] at bn
    refine bn.trans (le_of_eq ?_)
    have e1 : ({d ∈ unsupported exHover.load {0, 1} | d % exYc.gdim = 0}) = {0} := by
      ext d
      simp only [unsupported, mem_filter, Finset.mem_insert, Finset.mem_singleton]
      constructor
      · rintro ⟨⟨rfl | rfl, -⟩, hd⟩
        · rfl
        · exact absurd (show 1 % 2 = 0 from hd) (by norm_num)
      · rintro rfl
        exact ⟨⟨Or.inl rfl, rfl⟩, rfl⟩
    have e2 : balanceFactor exYc.gdim exHover.load exSinkSetting.numDofs (fun c => R.before c + R.du c) {0, 1} 0 = 1 := by
      unfold balanceFactor
      rw [e1]
      simp [exHover]
    rw [e2]
    show (1e-8 : ℝ) * 1 = 1e-8
    norm_num

end

end Verif.ContactProblem
