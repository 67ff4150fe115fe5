import Verif.Props.FrictionLimit
import Verif.Spec.SlidingBlock

/-!
C226: friction opposes the sliding of a block with exactly its coefficient times the pressing force.
-/

namespace Verif.ContactProblem

open Verif.Spec Verif.Packing Verif.Assembly Verif.Hertz Finset

variable {G : Type} {Y : System G}

/-- A sliding point in two dimensions with contact normal `s` times axis `m`. -/
theorem point_slide (p : ContactPoint) (hp : p.g = 2) (gamma theta : ℝ) (hf : 0 ≤ p.fric) (J : ℕ → ℝ) (D : ℕ → ℕ → ℝ) {m n : ℕ}
    (hm : m < p.g) (hn : n < p.g) (hmn : n ≠ m) {s r d : ℝ} (hs : s ^ 2 = 1) (hr : r ^ 2 = 1) (hd : d ^ 2 = 1)
    (hnorm : ∀ a < p.g, p.normal a = if a = m then s else 0)
    (hslide : p.fric * max 0 (p.pressure gamma J D)
      < d * r * (p.slip gamma J D n - (p.dot p.gap - p.dot J) * p.tang p.oldNormal n))
    (Tm Tn : ℕ → ℝ) (hTm : ∀ a < p.g, Tm a = if a = m then r else 0) (hTn : ∀ a < p.g, Tn a = if a = n then r else 0)
    (Sm Sn : ℕ → ℕ → ℝ) (hSm : ∀ a < p.g, ∀ b < p.g, Sm a b = 0) (hSn : ∀ a < p.g, ∀ b < p.g, Sn a b = 0) :
    p.form .coulomb gamma theta J D Tn Sn = d * (p.fric * (s * r * p.form .coulomb gamma theta J D Tm Sm)) := by
  have hdot : ∀ y : ℕ → ℝ, p.dot y = y m * s := by
    intro y
    rw [ContactPoint.dot, sum_eq_single_of_mem m (mem_range.mpr hm), hnorm m hm, if_pos rfl]
    intro a ha hne
    rw [hnorm a (mem_range.mp ha), if_neg hne, mul_zero]
  have htm : ∀ y : ℕ → ℝ, p.tang y m = 0 := by
    intro y
    rw [ContactPoint.tang, hdot, hnorm m hm, if_pos rfl]
    linear_combination (-y m) * hs
  have htn : ∀ y : ℕ → ℝ, p.tang y n = y n := by
    intro y
    rw [ContactPoint.tang, hnorm n hn, if_neg hmn, mul_zero, sub_zero]
  obtain ⟨A, hA⟩ : ∃ A : ℕ → ℝ, A = fun a => p.slip gamma J D a - (p.dot p.gap - p.dot J) * p.tang p.oldNormal a := ⟨_, rfl⟩
  obtain ⟨α, hα⟩ : ∃ α, α = p.fric * max 0 (p.pressure gamma J D) := ⟨_, rfl⟩
  have hα0 : 0 ≤ α := by rw [hα]; exact mul_nonneg hf (le_max_left _ _)
  have hAm : A m = 0 := by
    rw [hA]
    show p.slip gamma J D m - _ = 0
    rw [ContactPoint.slip, htm, htm, htm]
    ring
  have hAn : α < d * r * A n := by rw [hα, hA]; exact hslide
  have two : ∀ F : ℕ → ℝ, ∑ a ∈ range p.g, F a = F m + F n := by
    intro F
    have hm' := hm
    have hn' := hn
    rw [hp] at hm' hn'
    rw [hp, sum_range_succ, sum_range_succ, sum_range_zero, zero_add]
    interval_cases m <;> interval_cases n <;> first | exact absurd rfl hmn | ring
  have hdr : (d * r) ^ 2 = 1 := by rw [mul_pow, hd, hr, one_mul]
  have hnrm : Real.sqrt (∑ b ∈ range p.g, A b ^ 2) = d * r * A n := by
    rw [two, hAm, show (0 : ℝ) ^ 2 + A n ^ 2 = (d * r * A n) ^ 2 by rw [mul_pow, hdr]; ring]
    exact Real.sqrt_sq (hα0.trans hAn.le)
  have hproj : p.projected .coulomb gamma J D n = α * (d * r) := by
    have : p.projected .coulomb gamma J D n = ball p.g A α n := by rw [hA, hα]; rfl
    rw [this, ball, hnrm, if_neg (not_le.mpr hAn)]
    have hne : d * r * A n ≠ 0 := (lt_of_le_of_lt hα0 hAn).ne'
    rw [div_eq_iff hne]
    linear_combination (-(α * A n)) * hdr
  have fm : p.form .coulomb gamma theta J D Tm Sm = 1 / 2 * (gamma / p.h) * max 0 (p.pressure gamma J D) * (r * s) := by
    rw [form_rigid p .coulomb gamma theta J D Tm Sm hSm, hdot, hTm m hm, if_pos rfl, if_neg (by simp), two, htm, htn, hTm n hn,
      if_neg hmn]
    ring
  rw [fm, form_rigid p .coulomb gamma theta J D Tn Sn hSn, hdot, hTn m hm, if_neg (Ne.symm hmn), if_neg (by simp), two, htm, htn,
    hTn n hn, if_pos rfl, hproj, hα]
  obtain ⟨M, hM⟩ : ∃ M, M = max 0 (p.pressure gamma J D) := ⟨_, rfl⟩
  obtain ⟨k, hk⟩ : ∃ k, k = gamma / p.h := ⟨_, rfl⟩
  rw [← hM, ← hk]
  linear_combination (1 / 2 * k * p.fric * M * d * r ^ 2) * (-hs)

/-- Contact forces on a sliding body, in two dimensions. -/
theorem slide_push (hdim : Y.gdim = 2) {t : Tracked G} (hunit : SumsToOne Y t.cur) (gamma theta : ℝ) {B : Finset ℕ} {m : ℕ}
    {s d mu : ℝ} (hmu0 : 0 ≤ mu) (hd : d = 1 ∨ d = -1) (hflat : FlatContact Y t B m s) (hmu : FrictionIs Y t mu) (x : ℕ → ℝ) {n : ℕ}
    (hn : n < Y.gdim) (hmn : n ≠ m) (hslide : SlidesAlong Y t gamma x B n d) :
    contactPush Y t .coulomb gamma theta x B n = d * mu * s * contactPush Y t .coulomb gamma theta x B m := by
  have hs : s ^ 2 = 1 := by rcases hflat.side with rfl | rfl <;> norm_num
  have hd2 : d ^ 2 = 1 := by rcases hd with rfl | rfl <;> norm_num
  rw [contactPush, contactPush, mul_neg, neg_inj]
  unfold contactForm
  simp only [mul_sum]
  refine sum_congr rfl (fun i hi => sum_congr rfl (fun e he => ?_))
  cases hf : (Y.facets i)[e]? with
  | none => simp
  | some c =>
    obtain ⟨cell, f⟩ := c
    simp only [Option.elim_some, mul_sum]
    refine sum_congr rfl (fun q hq => ?_)
    have hi := mem_range.mp hi
    have he := mem_range.mp he
    have hq := mem_range.mp hq
    by_cases hl : 0 ≤ Y.map t.cur i (e * Y.nq + q)
    · rw [if_pos hl, if_pos hl]
      have hfr : t.fric i e 0 = mu := hmu i hi e he q hq hl
      obtain ⟨sl1, sl2⟩ := hslide i hi e he cell f hf q hq hl
      have side : ∀ r : ℝ, r ^ 2 = 1 → CellIn Y B cell ∨ CellOut Y B cell →
          (∀ a < Y.gdim, contactNormalAt Y t.cur i e q a = if a = m then s * r else 0) →
          slideBound Y t gamma i e cell f x q < d * r * slideAt Y t gamma i e cell f x q n →
          (∀ n, ∀ a < Y.gdim, jumpAt Y t.cur i e cell f (shiftOf Y.gdim n B) q a = if a = n then r else 0) →
          weightAt Y cell f q * (pointAt Y t i e cell f q).form .coulomb gamma theta (jumpAt Y t.cur i e cell f x q)
            (fun a b => gradAt Y cell f x q a b + (pointAt Y t i e cell f q).grad0 a b)
            (jumpAt Y t.cur i e cell f (shiftOf Y.gdim n B) q) (gradAt Y cell f (shiftOf Y.gdim n B) q)
          = d * mu * s * (weightAt Y cell f q * (pointAt Y t i e cell f q).form .coulomb gamma theta
            (jumpAt Y t.cur i e cell f x q)
            (fun a b => gradAt Y cell f x q a b + (pointAt Y t i e cell f q).grad0 a b)
            (jumpAt Y t.cur i e cell f (shiftOf Y.gdim m B) q) (gradAt Y cell f (shiftOf Y.gdim m B) q)) := by
        intro r hr hio hnorm hsl hjump
        have hsr : (s * r) ^ 2 = 1 := by rw [mul_pow, hs, hr, one_mul]
        have hgr := fun n a (ha : a < Y.gdim) b => grad_shift (B := B) hunit hi he hf hq hio n ha b
        have hfp : (pointAt Y t i e cell f q).fric = mu := hfr
        have p1 := point_slide (pointAt Y t i e cell f q) hdim gamma theta (by rw [hfp]; exact hmu0) (jumpAt Y t.cur i e cell f x q)
          (fun a b => gradAt Y cell f x q a b + (pointAt Y t i e cell f q).grad0 a b) hflat.axis hn hmn hsr hr hd2 hnorm hsl _ _
          (hjump m) (hjump n) _ _ (fun a ha b _ => hgr m a ha b) (fun a ha b _ => hgr n a ha b)
        have e1 : s * r * r = s := by rw [mul_assoc, ← pow_two, hr, mul_one]
        rw [p1, e1, hfp]
        ring
      have none' : CellIn Y B cell ∨ CellOut Y B cell →
          (∀ n, ∀ a < Y.gdim, jumpAt Y t.cur i e cell f (shiftOf Y.gdim n B) q a = 0) →
          ∀ n, (pointAt Y t i e cell f q).form .coulomb gamma theta (jumpAt Y t.cur i e cell f x q)
            (fun a b => gradAt Y cell f x q a b + (pointAt Y t i e cell f q).grad0 a b)
            (jumpAt Y t.cur i e cell f (shiftOf Y.gdim n B) q) (gradAt Y cell f (shiftOf Y.gdim n B) q) = 0 :=
        fun hio hjump n => form_away (hjump n) (fun a ha b _ => grad_shift (B := B) hunit hi he hf hq hio n ha b) .coulomb gamma theta _ _
      rcases hflat.point i hi e he cell f hf q hq hl with ⟨h1, h2, h3⟩ | ⟨h1, h2, h3⟩ | ⟨h1, h2⟩ | ⟨h1, h2⟩
      · refine side 1 (by norm_num) (Or.inl h1) (fun a ha => by rw [h3 a ha, mul_one]) (by rw [mul_one]; exact sl1 ⟨h1, h2⟩)
          (fun n a ha => ?_)
        rw [jumpAt, value_in hunit hi he hf hq h1 n ha, opposite_out h2 n ha, sub_zero]
      · refine side (-1) (by norm_num) (Or.inr h1) (fun a ha => by rw [h3 a ha, mul_neg_one])
          (by rw [mul_neg_one]; exact sl2 ⟨h1, h2⟩) (fun n a ha => ?_)
        rw [jumpAt, value_out h1 n ha, opposite_in hunit hi he hf hq hl h2 n ha]
        split <;> ring
      · have z := none' (Or.inl h1) (fun n a ha => by
          rw [jumpAt, value_in hunit hi he hf hq h1 n ha, opposite_in hunit hi he hf hq hl h2 n ha, sub_self])
        rw [z, z, mul_zero, mul_zero]
      · have z := none' (Or.inr h1) (fun n a ha => by
          rw [jumpAt, value_out h1 n ha, opposite_out h2 n ha, sub_self])
        rw [z, z, mul_zero, mul_zero]
    · rw [if_neg hl, if_neg hl, mul_zero]

/-- C226: in a load step reported as converged in which a body slides along a flat interface in direction `d`, the load along
the interface is the friction coefficient times the load which presses the body on it, in direction `d`: friction opposes sliding. -/
theorem C226_sliding (hY : System.Valid Y) (hdim : Y.gdim = 2) (Z : Setting G) (hN : DofsBelow Y Z.numDofs) (opts : Newton.Opts)
    (hcrit : opts.crit = .residual) (rank0 : Bool) (P0 : Phase) (as : List Action)
    (hphases : ∀ Q, .begin Q ∈ .begin P0 :: as → PhaseShaped Y.static Q)
    (out : List Report × Option DriverErr) (hout : out = actions Y Z rank0 (.begin P0 :: as) (newRun Y Z opts))
    (i : ℕ) (R : Report) (hR : out.1[i]? = some R) (hconv : R.converged = true) (Q : Phase) (φ : Packed) (S : PhaseStep)
    (hS : (inEffect P0 (P0.fric.elim (fun _ _ _ => 0) vals) as)[i]? = some (Q, φ, S))
    (hlaw : Q.law = .coulomb) (hunit : SumsToOne Y (Z.place R.before))
    (B : Finset ℕ) (hB : B ⊆ range Z.numDofs) (m n : ℕ) (hn : n < Y.gdim) (hmn : n ≠ m) (s d mu : ℝ) (hmu0 : 0 ≤ mu)
    (hd : d = 1 ∨ d = -1) (t : Tracked G)
    (ht : t = stepData Y Z.place (vals Q.mu) (vals Q.lam) φ (vals Q.h) R.before (totalAfter out.1 (i - 1)))
    (hflat : FlatContact Y t B m s) (hmu : FrictionIs Y t mu) (hslide : SlidesAlong Y t Q.gamma R.du B n d)
    (hfree : ∀ d ∈ B, d % Y.gdim = m ∨ d % Y.gdim = n → S.load.bc d = none)
    (Pm Pn : ℝ) (hPm : BodyWithLoad Y.gdim S.load B m Pm) (hPn : BodyWithLoad Y.gdim S.load B n Pn) :
    |Pn - d * (mu * (s * Pm))|
      ≤ opts.atol * (balanceFactor Y.gdim S.load Z.numDofs (fun c => R.before c + R.du c) B n
        + mu * balanceFactor Y.gdim S.load Z.numDofs (fun c => R.before c + R.du c) B m) := by
  obtain ⟨Q', φ', S', hS', -, hb⟩ := (C219_phases hY Z hN opts hcrit rank0 P0 as
    (fun Q hQ => ⟨hphases Q hQ, fun _ => Or.inl hdim⟩) out hout).2 i R hR
  rw [hS] at hS'
  simp only [Option.some.injEq, Prod.mk.injEq] at hS'
  obtain ⟨rfl, rfl, rfl⟩ := hS'
  have hb := hb hconv
  rw [hlaw, ← ht] at hb
  have h2 := slide_push hdim (t := t) (by rw [ht]; exact hunit) Q.gamma Q.theta hmu0 hd hflat hmu R.du hn hmn hslide
  have bm := body_balance hb hB hPm
  have bn := body_balance hb hB hPn
  rw [supportPush_free (Y := Y) _ _ _ _ _ _ _ _ _ (fun d hd hdn => hfree d hd (Or.inl hdn)), zero_add] at bm
  rw [supportPush_free (Y := Y) _ _ _ _ _ _ _ _ _ (fun d hd hdn => hfree d hd (Or.inr hdn)), zero_add] at bn
  obtain ⟨Fm, hFm⟩ : ∃ F, F = contactPush Y t .coulomb Q.gamma Q.theta R.du B m := ⟨_, rfl⟩
  rw [h2, ← hFm] at bn
  rw [← hFm] at bm
  have hds : |d * mu * s| = mu := by
    rcases hd with rfl | rfl <;> rcases hflat.side with h | h <;> rw [h] <;> simp [abs_of_nonneg hmu0]
  have e : Pn - d * (mu * (s * Pm)) = (d * mu * s * Fm + Pn) - d * mu * s * (Fm + Pm) := by ring
  rw [e, mul_add opts.atol]
  refine (abs_sub _ _).trans (add_le_add bn ?_)
  rw [abs_mul, hds]
  calc mu * |Fm + Pm| ≤ mu * (opts.atol * _) := mul_le_mul_of_nonneg_left bm hmu0
    _ = _ := by ring

/-! ### a block which slides -/

section

theorem phaseStep_du {Z : Setting G} {rank0 : Bool} {S : PhaseStep} {r r' : Run G} {R : Report}
    (h : phaseStep Y Z rank0 S r = .ok (R, r')) : r'.solver.x = fun d => S.factor * R.du d := by
  unfold phaseStep at h
  split at h
  · cases h
  · dsimp only at h
    split at h
    · cases h
    · split at h
      · cases h
      · obtain ⟨rfl, rfl⟩ := Prod.mk.inj (Except.ok.inj h)
        rfl

theorem exSlip_pt (t : Tracked Unit) (ht : t.h 0 0 0 = 1) (hfr : t.fric 0 0 0 = 1)
    (hg : ∀ a < 2, ∀ b < 2, t.gradU 0 0 ((0 * 2 + a) * 2 + b) = 0) (x : ℕ → ℝ) :
    slideBound exYc t 2 0 0 0 2 x 0 = max 0 (2 - x 1 + x 3) ∧ slideAt exYc t 2 0 0 0 2 x 0 0 = x 0 - x 2 := by
  obtain ⟨P, hP⟩ : ∃ P, P = pointAt exYc t 0 0 0 2 0 := ⟨_, rfl⟩
  have hPg : P.g = 2 := by rw [hP]; rfl
  have z : ∀ (u : ℕ → ℝ) (a b : ℕ), gradAt exYc 0 2 u 0 a b = 0 := by
    intro u a b
    simp [gradAt, exYc]
  obtain ⟨Du, hDu⟩ : ∃ Du : ℕ → ℕ → ℝ, Du = fun a b => gradAt exYc 0 2 x 0 a b + P.grad0 a b := ⟨_, rfl⟩
  have hDu0 : ∀ a < P.g, ∀ b < P.g, Du a b = 0 := by
    intro a ha b hb
    rw [hPg] at ha hb
    rw [hDu, hP]
    show gradAt exYc 0 2 x 0 a b + _ = _
    rw [z, zero_add]
    exact hg a ha b hb
  have tr : ∀ a < 2, P.trac Du a = 0 := fun a ha => trac_zero P hDu0 (by omega)
  have dz : P.dot (P.trac Du) = 0 :=
    sum_eq_zero (fun a ha => by rw [trac_zero P hDu0 (mem_range.mp ha), zero_mul])
  have tz : ∀ a < 2, P.tang (P.trac Du) a = 0 := fun a ha => by rw [ContactPoint.tang, dz, tr a ha]; ring
  obtain ⟨J, hJ⟩ : ∃ J, J = jumpAt exYc t.cur 0 0 0 2 x 0 := ⟨_, rfl⟩
  have hn0 : P.normal 0 = 0 := by rw [hP]; simp [pointAt, contactNormalAt, exYc, exY]
  have hn1 : P.normal 1 = -1 := by rw [hP]; simp [pointAt, contactNormalAt, exYc, exY]
  have hdot : ∀ y : ℕ → ℝ, P.dot y = -y 1 := by
    intro y
    rw [ContactPoint.dot, hPg, sum_range_succ, sum_range_succ, sum_range_zero, hn0, hn1]
    ring
  have htang : ∀ y : ℕ → ℝ, P.tang y 0 = y 0 := by
    intro y
    rw [ContactPoint.tang, hdot, hn0]
    ring
  have hold : P.oldNormal = P.normal := by rw [hP]; rfl
  have hh : P.h = 1 := by rw [hP]; exact ht
  have hgap : P.gap 1 = 2 := by rw [hP]; simp [pointAt, exYc, exY]
  have hJ0 : J 0 = x 0 - x 2 := by rw [hJ]; simp [jumpAt, valueAt, oppositeAt, exYc, exY]
  have hJ1 : J 1 = x 1 - x 3 := by rw [hJ]; simp [jumpAt, valueAt, oppositeAt, exYc, exY]
  have hpr : P.pressure 2 J Du = 2 - x 1 + x 3 := by
    rw [ContactPoint.pressure, dz, hdot, hdot, hJ1, hgap]
    ring
  have e1 : slideBound exYc t 2 0 0 0 2 x 0 = t.fric 0 0 0 * max 0 (P.pressure 2 J Du) := by
    rw [hJ, hDu, hP]; rfl
  have e2 : slideAt exYc t 2 0 0 0 2 x 0 0 = P.slip 2 J Du 0 - (P.dot P.gap - P.dot J) * P.tang P.oldNormal 0 := by
    rw [hJ, hDu, hP]; rfl
  rw [e1, e2, hpr, hfr, ContactPoint.slip, tz 0 (by norm_num), htang, hold, htang, hn0, hJ0]
  constructor <;> ring

theorem exSlip_slides (t : Tracked Unit) (ht : t.h 0 0 0 = 1) (hfr : t.fric 0 0 0 = 1)
    (hg : ∀ a < 2, ∀ b < 2, t.gradU 0 0 ((0 * 2 + a) * 2 + b) = 0) (x : ℕ → ℝ) (hx : max 0 (2 - x 1 + x 3) < x 0 - x 2) :
    SlidesAlong exYc t 2 x {0, 1} 0 1 := by
  intro i hi e he cell f hf q hq _
  obtain rfl : i = 0 := by have : i < 1 := hi; omega
  obtain rfl : e = 0 := by have : e < 1 := he; omega
  obtain rfl : q = 0 := by have : q < 1 := hq; omega
  obtain ⟨rfl, rfl⟩ : 0 = cell ∧ 2 = f := by simpa [exYc, exY] using hf
  obtain ⟨k1, k2⟩ := exSlip_pt t ht hfr hg x
  rw [k1, k2]
  refine ⟨fun _ => by rw [one_mul]; exact hx, fun h => ?_⟩
  exact absurd (show 2 * 0 + 0 ∈ ({0, 1} : Finset ℕ) by simp) (h.1 0 (by decide) 0 (by decide))

theorem exSlip_form (t : Tracked Unit) (ht : t.h 0 0 0 = 1) (hfr : t.fric 0 0 0 = 1)
    (hg : ∀ a < 2, ∀ b < 2, t.gradU 0 0 ((0 * 2 + a) * 2 + b) = 0) (x : ℕ → ℝ) (hx : max 0 (2 - x 1 + x 3) < x 0 - x 2) :
    contactForm exYc t .coulomb 2 1 x (unit 0) = max 0 (2 - x 1 + x 3) := by
  have h := slide_push (Y := exYc) rfl (t := t) (by simp [SumsToOne, exYc, exY]) 2 1 (mu := 1) zero_le_one (Or.inl rfl)
    (exShove_flat t) (fun i hi e he q hq _ => by
      obtain rfl : i = 0 := by have : i < 1 := hi; omega
      obtain rfl : e = 0 := by have : e < 1 := he; omega
      exact hfr) x (n := 0) (by decide) (by norm_num) (exSlip_slides t ht hfr hg x hx)
  have e : ∀ n < 2, shiftOf exYc.gdim n {0, 1} = unit n := by
    intro n hn
    funext d
    show shiftOf 2 n {0, 1} d = unit n d
    rw [shiftOf, unit]
    refine if_congr ?_ rfl rfl
    simp only [Finset.mem_insert, Finset.mem_singleton]
    omega
  rw [contactPush, contactPush, e 0 (by norm_num), e 1 (by norm_num), exStick_form1 t ht hg x] at h
  linarith

/-- The initial guess moves the block to the right, and the lower body to the left. -/
noncomputable def exSlidePhase : Phase :=
  ⟨.coulomb, fun _ => ⟨1, 1, fun _ _ => 3⟩, fun _ => ⟨1, 1, fun _ _ => 5⟩, some fun _ => ⟨1, 1, fun _ _ => 1⟩,
    fun _ => ⟨1, 1, fun _ _ => 1⟩, 2, 1, fun _ d => if d = 0 then 5 else if d = 1 then 1 / 2 else if d = 2 then -1 else 0⟩

theorem exSlidePhase_shaped : PhaseShaped exYc.static exSlidePhase := by
  refine ⟨?_, ?_, ?_, ?_⟩ <;> simp [exSlidePhase, ScalarShaped, System.static, exYc, exY]

/-- A block pressed down by 3/2 and pushed sideways by 3/2; the guess is not changed before the solve. -/
noncomputable def exSlideStep : PhaseStep := ⟨fun _ => none, (exShove (3 / 2) (3 / 2)).load, exSame, 0.1⟩

/-- Hypotheses of `C226_sliding` are met by a block which slides. -/
example : PhaseShaped exYc.static exSlidePhase
    ∧ ∃ out R, out = actions exYc exSinkSetting true [.begin exSlidePhase, .step exSlideStep] (newRun exYc exSinkSetting exOpts)
      ∧ out.1[0]? = some R ∧ R.converged = true
      ∧ (inEffect exSlidePhase (exSlidePhase.fric.elim (fun _ _ _ => 0) vals) [.step exSlideStep])[0]?
        = some (exSlidePhase, fun _ _ _ => 1, exSlideStep)
      ∧ SumsToOne exYc (exSinkSetting.place R.before)
      ∧ (∃ t, t = stepData exYc exSinkSetting.place (vals exSlidePhase.mu) (vals exSlidePhase.lam) (fun _ _ _ => 1)
          (vals exSlidePhase.h) R.before (totalAfter out.1 (0 - 1))
        ∧ FlatContact exYc t {0, 1} 1 (-1) ∧ FrictionIs exYc t 1 ∧ SlidesAlong exYc t exSlidePhase.gamma R.du {0, 1} 0 1)
      ∧ (∀ d ∈ ({0, 1} : Finset ℕ), d % exYc.gdim = 1 ∨ d % exYc.gdim = 0 → exSlideStep.load.bc d = none)
      ∧ BodyWithLoad exYc.gdim exSlideStep.load {0, 1} 1 (-(3 / 2))
      ∧ BodyWithLoad exYc.gdim exSlideStep.load {0, 1} 0 (3 / 2) := by
  obtain ⟨out, hout⟩ : ∃ out, out = actions exYc exSinkSetting true [.begin exSlidePhase, .step exSlideStep]
    (newRun exYc exSinkSetting exOpts) := ⟨_, rfl⟩
  have hph : ∀ Q, Action.begin Q ∈ [Action.begin exSlidePhase, .step exSlideStep] →
      PhaseShaped exYc.static Q ∧ (Q.law ≠ .frictionless → exYc.gdim = 2 ∨ exYc.gdim = 3) := by
    intro Q hQ
    obtain rfl : Q = exSlidePhase := by simpa using hQ
    exact ⟨exSlidePhase_shaped, fun _ => Or.inl rfl⟩
  obtain ⟨r, hr⟩ : ∃ r, r = beginPhase exYc exSlidePhase (newRun exYc exSinkSetting exOpts) := ⟨_, rfl⟩
  have H : BeforeStep exYc exSinkSetting (vals exSlidePhase.mu) (vals exSlidePhase.lam) (fun _ _ _ => 1) (vals exSlidePhase.h)
      .coulomb 2 1 true exOpts (fun _ => 0) (beginPhase exYc exSlidePhase (newRun exYc exSinkSetting exOpts)) :=
    firstPhase_ok exYc_valid exSlidePhase_shaped
  rw [← hr] at H
  have hp : presetBc exSlideStep.preset r.solver.x
      = fun d => if d = 0 then 5 else if d = 1 then 1 / 2 else if d = 2 then -1 else 0 := by
    rw [hr]
    rfl
  obtain ⟨R, r', x, h1, -, hW, hx', -⟩ := shift_step (S := exSlideStep) rfl (fun d => if d = 0 then 5 else if d = 1 then 1 / 2 else 0)
    (fun x => x 0 = 5 ∧ x 1 = 1 / 2 ∧ x 2 ≤ 0 ∧ x 3 = 0) H (fun _ _ _ _ => rfl)
    (fun x hx d hd hb => by
      obtain ⟨k0, k1, k2, k3⟩ := hx
      interval_cases d
      · have hm : max 0 (2 - x 1 + x 3) = 3 / 2 := by rw [k1, k3]; norm_num
        rw [exSlip_form _ rfl rfl (fun a ha b hb => exGrad_zero r.u ha hb) x (by rw [hm, k0]; linarith), hm]
        have e : exSlideStep.load.bulk (fun c => r.u c + x c) 0 = -(3 / 2) := by simp [exSlideStep, exShove]
        rw [e, k0, if_pos rfl]
        ring
      · have hm : max 0 (2 - x 1 + x 3) = 3 / 2 := by rw [k1, k3]; norm_num
        rw [exStick_form1 _ rfl (fun a ha b hb => exGrad_zero r.u ha hb) x, hm]
        have e : exSlideStep.load.bulk (fun c => r.u c + x c) 1 = 3 / 2 := by simp [exSlideStep, exShove]
        rw [e, k1, if_neg (by norm_num), if_pos rfl]
        ring
      · cases hb
      · cases hb)
    (fun d hd v hb => by
      interval_cases d
      · cases hb
      · cases hb
      · exact Option.some.inj hb
      · exact Option.some.inj hb)
    (by rw [hp]; norm_num)
    (fun y hy => ⟨hy 0 (by norm_num), (hy 1 (by norm_num)).trans (by norm_num), le_of_eq ((hy 2 (by norm_num)).trans (by norm_num)),
      (hy 3 (by norm_num)).trans (by norm_num)⟩)
    (Or.inr ⟨2, by norm_num, by rw [hp]; norm_num⟩)
  have hrun : out = ([R], none) := by
    rw [hout, actions, ← hr, actions, h1]
    rfl
  have hdu : ∀ d, R.du d = x d := by
    intro d
    have e := congrFun ((phaseStep_du h1).symm.trans hx') d
    have e : (0.1 : ℝ) * R.du d = 0.1 * x d := e
    linarith
  refine ⟨exSlidePhase_shaped, out, R, hout, by rw [hrun]; rfl, ?_, rfl, ?_, ⟨_, rfl, exShove_flat _, ?_, ?_⟩, ?_, ?_, ?_⟩
  · exact (C219_ended exYc_valid exSinkSetting exYc_below4 exOpts rfl rfl true exSlidePhase _ hph out hout).1 R
      (by rw [hrun]; exact List.mem_cons_self)
  · simp [SumsToOne, exYc, exY]
  · intro i hi e he q hq _
    rfl
  · refine exSlip_slides _ rfl rfl (fun a ha b hb => exGrad_zero R.before ha hb) R.du ?_
    obtain ⟨k0, k1, k2, k3⟩ := hW
    rw [hdu, hdu, hdu, hdu, k0, k1, k3]
    norm_num
    linarith
  · intro d hd _
    simp only [Finset.mem_insert, Finset.mem_singleton] at hd
    rcases hd with rfl | rfl <;> rfl
  · rw [show exYc.gdim = 2 from rfl]
    intro u
    rw [show ({d ∈ ({0, 1} : Finset ℕ) | d % 2 = 1}) = {1} by decide, sum_singleton, neg_neg]
    simp [exSlideStep, exShove]
  · rw [show exYc.gdim = 2 from rfl]
    intro u
    rw [show ({d ∈ ({0, 1} : Finset ℕ) | d % 2 = 0}) = {0} by decide, sum_singleton]
    simp [exSlideStep, exShove]

end

end Verif.ContactProblem
