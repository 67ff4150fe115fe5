import Verif.Props.SlidingBlock
import Verif.Props.TrescaLimit

/-!
C226 for Tresca friction: a sliding body is held with exactly the capacity of C225.
-/

namespace Verif.ContactProblem

open Verif.Spec Verif.Packing Verif.Assembly Verif.Hertz Finset

variable {G : Type} {Y : System G}

/-- A sliding point in two dimensions with contact normal `s` times axis `m`. -/
theorem point_slideT (p : ContactPoint) (hp : p.g = 2) {gamma : ℝ} (hg : 0 < gamma) (hh : 0 < p.h) (theta : ℝ) (hf : 0 ≤ p.fric)
    (J : ℕ → ℝ) (D : ℕ → ℕ → ℝ) {m n : ℕ}
    (hm : m < p.g) (hn : n < p.g) (hmn : n ≠ m) {s r d : ℝ} (hs : s ^ 2 = 1) (hr : r ^ 2 = 1) (hd : d ^ 2 = 1)
    (hnorm : ∀ a < p.g, p.normal a = if a = m then s else 0)
    (hslide : p.h / gamma * p.fric < d * r * p.slip gamma J D n)
    (Tn : ℕ → ℝ) (hTn : ∀ a < p.g, Tn a = if a = n then r else 0)
    (Sn : ℕ → ℕ → ℝ) (hSn : ∀ a < p.g, ∀ b < p.g, Sn a b = 0) :
    p.form .tresca gamma theta J D Tn Sn = d * (1 / 2 * p.fric) := by
  have hdot : ∀ y : ℕ → ℝ, p.dot y = y m * s := by
    intro y
    rw [ContactPoint.dot, sum_eq_single_of_mem m (mem_range.mpr hm), hnorm m hm, if_pos rfl]
    intro a ha hne
    rw [hnorm a (mem_range.mp ha), if_neg hne, mul_zero]
  have htm : ∀ y : ℕ → ℝ, p.tang y m = 0 := by
    intro y
    rw [ContactPoint.tang, hdot, hnorm m hm, if_pos rfl]
    linear_combination (-y m) * hs
  have htn : ∀ y : ℕ → ℝ, p.tang y n = y n := by
    intro y
    rw [ContactPoint.tang, hnorm n hn, if_neg hmn, mul_zero, sub_zero]
  obtain ⟨A, hA⟩ : ∃ A : ℕ → ℝ, A = p.slip gamma J D := ⟨_, rfl⟩
  obtain ⟨α, hα⟩ : ∃ α, α = p.h / gamma * p.fric := ⟨_, rfl⟩
  have hα0 : 0 ≤ α := by rw [hα]; positivity
  have hAm : A m = 0 := by
    rw [hA, ContactPoint.slip, htm, htm]
    ring
  have hAn : α < d * r * A n := by rw [hα, hA]; exact hslide
  have two : ∀ F : ℕ → ℝ, ∑ a ∈ range p.g, F a = F m + F n := by
    intro F
    have hm' := hm
    have hn' := hn
    rw [hp] at hm' hn'
    rw [hp, sum_range_succ, sum_range_succ, sum_range_zero, zero_add]
    interval_cases m <;> interval_cases n <;> first | exact absurd rfl hmn | ring
  have hdr : (d * r) ^ 2 = 1 := by rw [mul_pow, hd, hr, one_mul]
  have hnrm : Real.sqrt (∑ b ∈ range p.g, A b ^ 2) = d * r * A n := by
    rw [two, hAm, show (0 : ℝ) ^ 2 + A n ^ 2 = (d * r * A n) ^ 2 by rw [mul_pow, hdr]; ring]
    exact Real.sqrt_sq (hα0.trans hAn.le)
  have hproj : p.projected .tresca gamma J D n = α * (d * r) := by
    have : p.projected .tresca gamma J D n = ball p.g A α n := by rw [hA, hα]; rfl
    rw [this, ball, hnrm, if_neg (not_le.mpr hAn)]
    have hne : d * r * A n ≠ 0 := (lt_of_le_of_lt hα0 hAn).ne'
    rw [div_eq_iff hne]
    linear_combination (-(α * A n)) * hdr
  rw [form_rigid p .tresca gamma theta J D Tn Sn hSn, hdot, hTn m hm, if_neg (Ne.symm hmn), if_neg (by simp), two, htm, htn,
    hTn n hn, if_pos rfl, hproj, hα]
  have hk : gamma / p.h * (p.h / gamma) = 1 := by field_simp
  linear_combination (1 / 2 * p.fric * d * r ^ 2) * hk + (1 / 2 * p.fric * d) * hr

/-- Friction on a sliding body, in two dimensions. -/
theorem slide_tresca (hdim : Y.gdim = 2) {t : Tracked G} (hunit : SumsToOne Y t.cur) {gamma : ℝ} (hg : 0 < gamma) (theta : ℝ)
    {B : Finset ℕ} {m : ℕ} {s d mu : ℝ} (hd : d = 1 ∨ d = -1) (hflat : FlatContact Y t B m s) (hne : 0 < Y.nd)
    (hmu : FrictionBelow Y t mu) (x : ℕ → ℝ) {n : ℕ} (hn : n < Y.gdim) (hmn : n ≠ m) (hslide : SlidesTresca Y t gamma x B n d) :
    contactPush Y t .tresca gamma theta x B n = -(d * trescaCapacity Y t B) := by
  have hs : s ^ 2 = 1 := by rcases hflat.side with rfl | rfl <;> norm_num
  have hd2 : d ^ 2 = 1 := by rcases hd with rfl | rfl <;> norm_num
  have excl : ∀ c, CellIn Y B c → CellOut Y B c → False := fun c h1 h2 =>
    h2 0 hne 0 (by omega) (h1 0 hne 0 (by omega))
  rw [contactPush, neg_inj]
  unfold contactForm trescaCapacity
  simp only [mul_sum]
  refine sum_congr rfl (fun i hi => sum_congr rfl (fun e he => ?_))
  cases hf : (Y.facets i)[e]? with
  | none => simp
  | some c =>
    obtain ⟨cell, f⟩ := c
    simp only [Option.elim_some, mul_sum]
    refine sum_congr rfl (fun q hq => ?_)
    have hi := mem_range.mp hi
    have he := mem_range.mp he
    have hq := mem_range.mp hq
    by_cases hl : 0 ≤ Y.map t.cur i (e * Y.nq + q)
    · rw [if_pos hl]
      obtain ⟨-, k2, k3, -⟩ := hmu i hi e he cell f hf q hq hl
      obtain ⟨sl1, sl2⟩ := hslide i hi e he cell f hf q hq hl
      have side : ∀ r : ℝ, r ^ 2 = 1 → CellIn Y B cell ∨ CellOut Y B cell →
          (∀ a < Y.gdim, contactNormalAt Y t.cur i e q a = if a = m then s * r else 0) →
          t.h i e 0 / gamma * t.fric i e 0 < d * r * slipAt Y t gamma i e cell f x q n →
          (∀ a < Y.gdim, jumpAt Y t.cur i e cell f (shiftOf Y.gdim n B) q a = if a = n then r else 0) →
          weightAt Y cell f q * (pointAt Y t i e cell f q).form .tresca gamma theta (jumpAt Y t.cur i e cell f x q)
            (fun a b => gradAt Y cell f x q a b + (pointAt Y t i e cell f q).grad0 a b)
            (jumpAt Y t.cur i e cell f (shiftOf Y.gdim n B) q) (gradAt Y cell f (shiftOf Y.gdim n B) q)
          = d * (1 / 2 * (weightAt Y cell f q * t.fric i e 0)) := by
        intro r hr hio hnorm hsl hjump
        have hsr : (s * r) ^ 2 = 1 := by rw [mul_pow, hs, hr, one_mul]
        have p1 := point_slideT (pointAt Y t i e cell f q) hdim hg k2 theta k3 (jumpAt Y t.cur i e cell f x q)
          (fun a b => gradAt Y cell f x q a b + (pointAt Y t i e cell f q).grad0 a b) hflat.axis hn hmn hsr hr hd2 hnorm hsl _
          hjump _ (fun a ha b _ => grad_shift (B := B) hunit hi he hf hq hio n ha b)
        have hfp : (pointAt Y t i e cell f q).fric = t.fric i e 0 := rfl
        rw [p1, hfp]
        ring
      have none' : CellIn Y B cell ∨ CellOut Y B cell →
          (∀ a < Y.gdim, jumpAt Y t.cur i e cell f (shiftOf Y.gdim n B) q a = 0) →
          (pointAt Y t i e cell f q).form .tresca gamma theta (jumpAt Y t.cur i e cell f x q)
            (fun a b => gradAt Y cell f x q a b + (pointAt Y t i e cell f q).grad0 a b)
            (jumpAt Y t.cur i e cell f (shiftOf Y.gdim n B) q) (gradAt Y cell f (shiftOf Y.gdim n B) q) = 0 :=
        fun hio hjump => form_away hjump (fun a ha b _ => grad_shift (B := B) hunit hi he hf hq hio n ha b) .tresca gamma theta _ _
      rcases hflat.point i hi e he cell f hf q hq hl with ⟨h1, h2, h3⟩ | ⟨h1, h2, h3⟩ | ⟨h1, h2⟩ | ⟨h1, h2⟩
      · rw [if_pos ⟨hl, Or.inl ⟨h1, h2⟩⟩]
        refine side 1 (by norm_num) (Or.inl h1) (fun a ha => by rw [h3 a ha, mul_one]) (by rw [mul_one]; exact sl1 ⟨h1, h2⟩)
          (fun a ha => ?_)
        rw [jumpAt, value_in hunit hi he hf hq h1 n ha, opposite_out h2 n ha, sub_zero]
      · rw [if_pos ⟨hl, Or.inr ⟨h1, h2⟩⟩]
        refine side (-1) (by norm_num) (Or.inr h1) (fun a ha => by rw [h3 a ha, mul_neg_one])
          (by rw [mul_neg_one]; exact sl2 ⟨h1, h2⟩) (fun a ha => ?_)
        rw [jumpAt, value_out h1 n ha, opposite_in hunit hi he hf hq hl h2 n ha]
        split <;> ring
      · rw [none' (Or.inl h1) (fun a ha => by
          rw [jumpAt, value_in hunit hi he hf hq h1 n ha, opposite_in hunit hi he hf hq hl h2 n ha, sub_self]),
          if_neg (fun h => h.2.elim (fun h => excl _ h2 h.2) (fun h => excl _ h1 h.1)), mul_zero, mul_zero]
      · rw [none' (Or.inr h1) (fun a ha => by
          rw [jumpAt, value_out h1 n ha, opposite_out h2 n ha, sub_self]),
          if_neg (fun h => h.2.elim (fun h => excl _ h.1 h1) (fun h => excl _ h.2 h2)), mul_zero, mul_zero]
    · rw [if_neg hl, if_neg (fun h => hl h.1), mul_zero]

/-- C226 for Tresca friction: in a load step reported as converged in which a body slides along a flat interface in direction
`d`, the load along it is the integral of Tresca's bound over the linked points between the body and others, in direction `d`. -/
theorem C226_tresca (hY : System.Valid Y) (hdim : Y.gdim = 2) (hne : 0 < Y.nd) (Z : Setting G) (hN : DofsBelow Y Z.numDofs)
    (opts : Newton.Opts) (hcrit : opts.crit = .residual) (rank0 : Bool) (P0 : Phase) (as : List Action)
    (hphases : ∀ Q, .begin Q ∈ .begin P0 :: as → PhaseShaped Y.static Q)
    (out : List Report × Option DriverErr) (hout : out = actions Y Z rank0 (.begin P0 :: as) (newRun Y Z opts))
    (i : ℕ) (R : Report) (hR : out.1[i]? = some R) (hconv : R.converged = true) (Q : Phase) (φ : Packed) (S : PhaseStep)
    (hS : (inEffect P0 (P0.fric.elim (fun _ _ _ => 0) vals) as)[i]? = some (Q, φ, S))
    (hlaw : Q.law = .tresca) (hg : 0 < Q.gamma) (hunit : SumsToOne Y (Z.place R.before))
    (B : Finset ℕ) (hB : B ⊆ range Z.numDofs) (m n : ℕ) (hn : n < Y.gdim) (hmn : n ≠ m) (s d mu : ℝ)
    (hd : d = 1 ∨ d = -1) (t : Tracked G)
    (ht : t = stepData Y Z.place (vals Q.mu) (vals Q.lam) φ (vals Q.h) R.before (totalAfter out.1 (i - 1)))
    (hflat : FlatContact Y t B m s) (hmu : FrictionBelow Y t mu) (hslide : SlidesTresca Y t Q.gamma R.du B n d)
    (hfree : ∀ d ∈ B, d % Y.gdim = n → S.load.bc d = none) (Pn : ℝ) (hPn : BodyWithLoad Y.gdim S.load B n Pn) :
    |Pn - d * trescaCapacity Y t B|
      ≤ opts.atol * balanceFactor Y.gdim S.load Z.numDofs (fun c => R.before c + R.du c) B n := by
  obtain ⟨Q', φ', S', hS', -, hb⟩ := (C219_phases hY Z hN opts hcrit rank0 P0 as
    (fun Q hQ => ⟨hphases Q hQ, fun _ => Or.inl hdim⟩) out hout).2 i R hR
  rw [hS] at hS'
  simp only [Option.some.injEq, Prod.mk.injEq] at hS'
  obtain ⟨rfl, rfl, rfl⟩ := hS'
  have hb := hb hconv
  rw [hlaw, ← ht] at hb
  have h2 := slide_tresca hdim (t := t) (by rw [ht]; exact hunit) hg Q.theta hd hflat hne hmu R.du hn hmn hslide
  have bn := body_balance hb hB hPn
  rw [supportPush_free (Y := Y) _ _ _ _ _ _ _ _ _ (fun d hd hdn => hfree d hd hdn), zero_add, h2] at bn
  rwa [sub_eq_neg_add]

/-! ### a body which slides -/

section

theorem exSlipT_at (t : Tracked Unit) (hg : ∀ a < 2, ∀ b < 2, t.gradU 0 0 ((0 * 2 + a) * 2 + b) = 0) (x : ℕ → ℝ) :
    slipAt exYc t 2 0 0 0 2 x 0 0 = x 0 - x 2 := by
  obtain ⟨P, hP⟩ : ∃ P, P = pointAt exYc t 0 0 0 2 0 := ⟨_, rfl⟩
  have hPg : P.g = 2 := by rw [hP]; rfl
  have z : ∀ (u : ℕ → ℝ) (a b : ℕ), gradAt exYc 0 2 u 0 a b = 0 := by
    intro u a b
    simp [gradAt, exYc]
  obtain ⟨Du, hDu⟩ : ∃ Du : ℕ → ℕ → ℝ, Du = fun a b => gradAt exYc 0 2 x 0 a b + P.grad0 a b := ⟨_, rfl⟩
  have hDu0 : ∀ a < P.g, ∀ b < P.g, Du a b = 0 := by
    intro a ha b hb
    rw [hPg] at ha hb
    rw [hDu, hP]
    show gradAt exYc 0 2 x 0 a b + _ = _
    rw [z, zero_add]
    exact hg a ha b hb
  have tr : ∀ a < 2, P.trac Du a = 0 := fun a ha => trac_zero P hDu0 (by omega)
  have dz : P.dot (P.trac Du) = 0 :=
    sum_eq_zero (fun a ha => by rw [trac_zero P hDu0 (mem_range.mp ha), zero_mul])
  obtain ⟨J, hJ⟩ : ∃ J, J = jumpAt exYc t.cur 0 0 0 2 x 0 := ⟨_, rfl⟩
  have hn0 : P.normal 0 = 0 := by rw [hP]; simp [pointAt, contactNormalAt, exYc, exY]
  have hJ0 : J 0 = x 0 - x 2 := by rw [hJ]; simp [jumpAt, valueAt, oppositeAt, exYc, exY]
  have e2 : slipAt exYc t 2 0 0 0 2 x 0 0 = P.slip 2 J Du 0 := by
    rw [hJ, hDu, hP]; rfl
  rw [e2, ContactPoint.slip, ContactPoint.tang, ContactPoint.tang, dz, tr 0 (by norm_num), hn0, hJ0]
  ring

theorem exSlipT_slides (t : Tracked Unit) (ht : t.h 0 0 0 = 1) (hfr : t.fric 0 0 0 = 4)
    (hg : ∀ a < 2, ∀ b < 2, t.gradU 0 0 ((0 * 2 + a) * 2 + b) = 0) (x : ℕ → ℝ) (hx : 2 < x 0 - x 2) :
    SlidesTresca exYc t 2 x {0, 1} 0 1 := by
  intro i hi e he cell f hf q hq _
  obtain rfl : i = 0 := by have : i < 1 := hi; omega
  obtain rfl : e = 0 := by have : e < 1 := he; omega
  obtain rfl : q = 0 := by have : q < 1 := hq; omega
  obtain ⟨rfl, rfl⟩ : 0 = cell ∧ 2 = f := by simpa [exYc, exY] using hf
  rw [exSlipT_at t hg x, ht, hfr]
  refine ⟨fun _ => by rw [one_mul]; linarith, fun h => ?_⟩
  exact absurd (show 2 * 0 + 0 ∈ ({0, 1} : Finset ℕ) by simp) (h.1 0 (by decide) 0 (by decide))

theorem exSlipT_capacity (t : Tracked Unit) (hfr : t.fric 0 0 0 = 4) : trescaCapacity exYc t {0, 1} = 2 := by
  have hb : Between exYc {0, 1} 0 (linkedCell exYc t.cur 0 0 0) := by
    rcases (exShove_flat t).point 0 (by decide) 0 (by decide) 0 2 rfl 0 (by decide) (le_refl (0 : ℤ)) with h | h | h | h
    · exact Or.inl ⟨h.1, h.2.1⟩
    · exact Or.inr ⟨h.1, h.2.1⟩
    · exact absurd (show 2 * 1 + 0 ∈ ({0, 1} : Finset ℕ) from h.2 0 (by decide) 0 (by decide)) (by decide)
    · exact absurd (show 2 * 0 + 0 ∈ ({0, 1} : Finset ℕ) by decide) (h.1 0 (by decide) 0 (by decide))
  have hw : weightAt exYc 0 2 0 = 1 := by simp [weightAt, exYc, exY]
  unfold trescaCapacity
  show ∑ i ∈ range 1, ∑ e ∈ range 1, _ = _
  rw [sum_range_one, sum_range_one]
  show ∑ q ∈ range 1, _ = _
  rw [sum_range_one]
  refine (if_pos ⟨le_refl (0 : ℤ), hb⟩).trans ?_
  show 1 / 2 * (weightAt exYc 0 2 0 * t.fric 0 0 0) = 2
  rw [hw, hfr]
  norm_num

theorem exSlipT_below (t : Tracked Unit) (ht : t.h 0 0 0 = 1) (hfr : t.fric 0 0 0 = 4) : FrictionBelow exYc t 4 := by
  intro i hi e he cell f hf q hq _
  obtain rfl : i = 0 := by have : i < 1 := hi; omega
  obtain rfl : e = 0 := by have : e < 1 := he; omega
  rw [ht, hfr]
  refine ⟨by simp [weightAt, exYc, exY], by norm_num, by norm_num, le_rfl⟩

theorem exSlipT_form (t : Tracked Unit) (ht : t.h 0 0 0 = 1) (hfr : t.fric 0 0 0 = 4)
    (hg : ∀ a < 2, ∀ b < 2, t.gradU 0 0 ((0 * 2 + a) * 2 + b) = 0) (x : ℕ → ℝ) (hx : 2 < x 0 - x 2) :
    contactForm exYc t .tresca 2 1 x (unit 0) = 2 := by
  have h := slide_tresca (Y := exYc) rfl (t := t) (by simp [SumsToOne, exYc, exY]) (by norm_num : (0 : ℝ) < 2) 1 (Or.inl rfl)
    (exShove_flat t) (by decide) (exSlipT_below t ht hfr) x (n := 0) (by decide) (by norm_num) (exSlipT_slides t ht hfr hg x hx)
  have e : shiftOf exYc.gdim 0 {0, 1} = unit 0 := by
    funext d
    show shiftOf 2 0 {0, 1} d = unit 0 d
    rw [shiftOf, unit]
    refine if_congr ?_ rfl rfl
    simp only [Finset.mem_insert, Finset.mem_singleton]
    omega
  rw [contactPush, e, exSlipT_capacity t hfr] at h
  linarith

/-- As `exTrescaPhase`, with an initial guess which moves the bodies apart sideways. -/
noncomputable def exSlipPhase : Phase :=
  { exTrescaPhase with guess := fun _ d => if d = 0 then 5 else if d = 2 then -1 else 0 }

theorem exSlipPhase_shaped : PhaseShaped exYc.static exSlipPhase := exTrescaPhase_shaped

/-- The block is held at its height and pushed sideways by 2. -/
noncomputable def exSlipStep : PhaseStep :=
  ⟨fun _ => none, ⟨fun _ d => if d = 0 then -2 else 0, fun _ _ _ => 0, fun d => if d = 0 then none else some 0⟩, exSame, 0.1⟩

/-- Hypotheses of `C226_tresca` are met by a body which slides. -/
example : PhaseShaped exYc.static exSlipPhase
    ∧ ∃ out R, out = actions exYc exSinkSetting true [.begin exSlipPhase, .step exSlipStep] (newRun exYc exSinkSetting exOpts)
      ∧ out.1[0]? = some R ∧ R.converged = true
      ∧ (inEffect exSlipPhase (exSlipPhase.fric.elim (fun _ _ _ => 0) vals) [.step exSlipStep])[0]?
        = some (exSlipPhase, fun _ _ _ => 4, exSlipStep)
      ∧ SumsToOne exYc (exSinkSetting.place R.before)
      ∧ (∃ t, t = stepData exYc exSinkSetting.place (vals exSlipPhase.mu) (vals exSlipPhase.lam) (fun _ _ _ => 4)
          (vals exSlipPhase.h) R.before (totalAfter out.1 (0 - 1))
        ∧ FlatContact exYc t {0, 1} 1 (-1) ∧ FrictionBelow exYc t 4 ∧ SlidesTresca exYc t exSlipPhase.gamma R.du {0, 1} 0 1)
      ∧ (∀ d ∈ ({0, 1} : Finset ℕ), d % exYc.gdim = 0 → exSlipStep.load.bc d = none)
      ∧ BodyWithLoad exYc.gdim exSlipStep.load {0, 1} 0 2 := by
  obtain ⟨out, hout⟩ : ∃ out, out = actions exYc exSinkSetting true [.begin exSlipPhase, .step exSlipStep]
    (newRun exYc exSinkSetting exOpts) := ⟨_, rfl⟩
  have hph : ∀ Q, Action.begin Q ∈ [Action.begin exSlipPhase, .step exSlipStep] →
      PhaseShaped exYc.static Q ∧ (Q.law ≠ .frictionless → exYc.gdim = 2 ∨ exYc.gdim = 3) := by
    intro Q hQ
    obtain rfl : Q = exSlipPhase := by simpa using hQ
    exact ⟨exSlipPhase_shaped, fun _ => Or.inl rfl⟩
  obtain ⟨r, hr⟩ : ∃ r, r = beginPhase exYc exSlipPhase (newRun exYc exSinkSetting exOpts) := ⟨_, rfl⟩
  have H : BeforeStep exYc exSinkSetting (vals exSlipPhase.mu) (vals exSlipPhase.lam) (fun _ _ _ => 4) (vals exSlipPhase.h)
      .tresca 2 1 true exOpts (fun _ => 0) (beginPhase exYc exSlipPhase (newRun exYc exSinkSetting exOpts)) :=
    firstPhase_ok exYc_valid exSlipPhase_shaped
  rw [← hr] at H
  have hp : presetBc exSlipStep.preset r.solver.x = fun d => if d = 0 then 5 else if d = 2 then -1 else 0 := by
    rw [hr]
    rfl
  obtain ⟨R, r', x, h1, -, hW, hx', -⟩ := shift_step (S := exSlipStep) rfl (fun d => if d = 0 then 5 else 0)
    (fun x => x 0 = 5 ∧ x 2 ≤ 0) H (fun _ _ _ _ => rfl)
    (fun x hx d hd hb => by
      obtain ⟨k0, k2⟩ := hx
      interval_cases d
      · rw [exSlipT_form _ rfl rfl (fun a ha b hb => exGrad_zero r.u ha hb) x (by rw [k0]; linarith)]
        have e : exSlipStep.load.bulk (fun c => r.u c + x c) 0 = -2 := by simp [exSlipStep]
        rw [e, k0, if_pos rfl]
        ring
      · cases hb
      · cases hb
      · cases hb)
    (fun d hd v hb => by
      interval_cases d
      · cases hb
      · exact Option.some.inj hb
      · exact Option.some.inj hb
      · exact Option.some.inj hb)
    (by rw [hp]; norm_num)
    (fun y hy => ⟨hy 0 (by norm_num), le_of_eq ((hy 2 (by norm_num)).trans (by norm_num))⟩)
    (Or.inr ⟨2, by norm_num, by rw [hp]; norm_num⟩)
  have hrun : out = ([R], none) := by
    rw [hout, actions, ← hr, actions, h1]
    rfl
  have hdu : ∀ d, R.du d = x d := by
    intro d
    have e := congrFun ((phaseStep_du h1).symm.trans hx') d
    have e : (0.1 : ℝ) * R.du d = 0.1 * x d := e
    linarith
  refine ⟨exSlipPhase_shaped, out, R, hout, by rw [hrun]; rfl, ?_, rfl, ?_, ⟨_, rfl, exShove_flat _, exSlipT_below _ rfl rfl, ?_⟩, ?_, ?_⟩
  · exact (C219_ended exYc_valid exSinkSetting exYc_below4 exOpts rfl rfl true exSlipPhase _ hph out hout).1 R
      (by rw [hrun]; exact List.mem_cons_self)
  · simp [SumsToOne, exYc, exY]
  · refine exSlipT_slides _ rfl rfl (fun a ha b hb => exGrad_zero R.before ha hb) R.du ?_
    obtain ⟨k0, k2⟩ := hW
    rw [hdu, hdu, k0]
    linarith
  · intro d hd hn
    simp only [Finset.mem_insert, Finset.mem_singleton] at hd
    rcases hd with rfl | rfl
    · rfl
    · exact absurd (show 1 % 2 = 0 from hn) (by norm_num)
  · rw [show exYc.gdim = 2 from rfl]
    intro u
    rw [show ({d ∈ ({0, 1} : Finset ℕ) | d % 2 = 0}) = {0} by decide, sum_singleton]
    simp [exSlipStep]

end

end Verif.ContactProblem
