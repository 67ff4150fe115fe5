import Verif.Props.Phases
import Verif.Spec.LoadSchedule

/-!
C220: the load schedule of `demo_nitsche_unbiased.py`.
-/

namespace Verif.ContactProblem

open Verif.Spec Verif.Packing Verif.Assembly Finset

variable {G : Type} {Y : System G} {Z : Setting G}

theorem loadSteps_actions (lin : (ℕ × ℕ → ℝ) → (ℕ → ℝ) → (ℕ → ℝ) → (ℕ → ℝ) × ℕ × ℤ) (rank0 : Bool) (Ls : List LoadCase)
    (r : Run G) : loadSteps Y { Z with linSolve := lin } rank0 Ls r
      = actions Y Z rank0 (Ls.map fun L => .step ⟨fun _ => none, L, lin, 0.1⟩) r := by
  induction Ls generalizing r with
  | nil => rfl
  | cons L Ls ih =>
    have e : loadStep Y { Z with linSolve := lin } rank0 L r = phaseStep Y Z rank0 ⟨fun _ => none, L, lin, 0.1⟩ r := rfl
    rw [loadSteps, List.map_cons, actions, e]
    generalize phaseStep Y Z rank0 ⟨fun _ => none, L, lin, 0.1⟩ r = x
    rcases x with e | ⟨R, r'⟩
    · rfl
    · dsimp only
      rw [ih]

theorem startRun_begin (lin : (ℕ × ℕ → ℝ) → (ℕ → ℝ) → (ℕ → ℝ) → (ℕ → ℝ) × ℕ × ℤ) (law : Law) (mu lam fric h : ℕ → Mat)
    (gamma theta : ℝ) (opts : Newton.Opts) :
    startRun Y { Z with linSolve := lin } ⟨law, some mu, some lam, some fric, some (Y.packGrad fun _ => 0),
        some (Y.du fun _ => 0), h, gamma, theta⟩ opts
      = beginPhase Y ⟨law, mu, lam, some fric, h, gamma, theta, id⟩ (newRun Y Z opts) := rfl

theorem inEffect_loads (P : Phase) (f : Packed) (lin : (ℕ × ℕ → ℝ) → (ℕ → ℝ) → (ℕ → ℝ) → (ℕ → ℝ) × ℕ × ℤ)
    (Ls : List LoadCase) : inEffect P f (Ls.map fun L => .step ⟨fun _ => none, L, lin, 0.1⟩)
      = Ls.map (fun L => (P, f, (⟨fun _ => none, L, lin, 0.1⟩ : PhaseStep))) := by
  induction Ls with
  | nil => rfl
  | cons L Ls ih => rw [List.map_cons, inEffect, ih]; rfl

theorem foldl_bc (D : Supports) (g : ℕ → ℕ → ℝ) (d k : ℕ) (l : List ℕ) (v : Option ℝ)
    (hk : D.dofs k d = true) (ho : ∀ j ∈ l, j ≠ k → D.dofs j d = false)
    (h : k ∈ l ∨ v = some (g k (D.comp d))) :
    l.foldl (fun v k => if D.dofs k d then some (g k (D.comp d)) else v) v = some (g k (D.comp d)) := by
  induction l generalizing v with
  | nil =>
    rcases h with h | h
    · simp at h
    · exact h
  | cons j l ih =>
    rw [List.foldl_cons]
    by_cases hj : j = k
    · subst hj
      exact ih _ (fun i hi => ho i (List.mem_cons_of_mem _ hi)) (Or.inr (by rw [if_pos hk]))
    · refine ih _ (fun i hi => ho i (List.mem_cons_of_mem _ hi)) ?_
      rw [if_neg (by rw [ho j List.mem_cons_self hj]; simp)]
      rcases h with h | h
      · rcases List.mem_cons.mp h with rfl | h
        · exact absurd rfl hj
        · exact Or.inl h
      · exact Or.inr h

theorem supportBc_only {D : Supports} {k d : ℕ} (h : OnlyIn D k d) (g : ℕ → ℕ → ℝ) :
    supportBc D g d = some (g k (D.comp d)) :=
  foldl_bc D g d k _ none h.2.1 (fun j hj => h.2.2 j (List.mem_range.mp hj)) (Or.inl (List.mem_range.mpr h.1))

theorem foldl_bc_none (D : Supports) (g : ℕ → ℕ → ℝ) (d : ℕ) (l : List ℕ) (ho : ∀ j ∈ l, D.dofs j d = false)
    (v : Option ℝ) : l.foldl (fun v k => if D.dofs k d then some (g k (D.comp d)) else v) v = v := by
  induction l generalizing v with
  | nil => rfl
  | cons j l ih =>
    rw [List.foldl_cons, ih (fun i hi => ho i (List.mem_cons_of_mem _ hi)), if_neg (by rw [ho j List.mem_cons_self]; simp)]

/-- C220: what the program sets: strongly imposed values are increments, weakly imposed ones totals, and they
describe the same proportional loading. -/
theorem C220_values (D : Supports) (hD : 0 < D.num) (n : ℕ) (i k a : ℕ) :
    (∑ j ∈ range i, scheduleValue D true n j k a = proportional D n i k a)
    ∧ scheduleValue D false n i k a = proportional D n (i + 1) k a
    ∧ (0 < n → proportional D n n k a = D.disp k a) := by
  refine ⟨?_, ?_, fun hn => ?_⟩
  · simp only [scheduleValue, proportional, hD, decide_true, Bool.and_self, if_true, sum_const, card_range, nsmul_eq_mul]
    ring
  · simp only [scheduleValue, proportional, Bool.false_and, Bool.false_eq_true, if_false]
    push_cast
    ring
  · have : (n : ℝ) ≠ 0 := by exact_mod_cast hn.ne'
    rw [proportional, div_self this, one_mul]

theorem schedule_get {D : Supports} {strong : (ℕ → ℝ) → ℕ → ℝ} {weak : (ℕ → ℕ → ℝ) → (ℕ → ℝ) → ℕ → ℝ}
    {strongJ weakJ : (ℕ → ℝ) → ℕ → ℕ → ℝ} {lifting : Bool} {n i : ℕ} (hi : i < n) :
    (schedule D strong weak strongJ weakJ lifting n)[i]? = some (scheduleCase D strong weak strongJ weakJ lifting n i) := by
  simp [schedule, hi]

/-- C220: with strongly imposed displacements, if the program ends without an exception, all load steps were done, and
after each of them the supports have the displacement of proportional loading up to `1e-7` per step, at the end the one
asked for; elsewhere the equations of the load step hold up to `1e-7`. -/
theorem C220_strong (hY : System.Valid Y) (Z : Setting G) (hN : DofsBelow Y Z.numDofs)
    (law : Law) (h23 : law ≠ .frictionless → Y.gdim = 2 ∨ Y.gdim = 3) (gamma theta : ℝ) (mu lam fric h : ℕ → Mat)
    (hshape : PhaseShaped Y.static ⟨law, mu, lam, some fric, h, gamma, theta, id⟩) (rank0 : Bool)
    (D : Supports) (strong : (ℕ → ℝ) → ℕ → ℝ) (weak : (ℕ → ℕ → ℝ) → (ℕ → ℝ) → ℕ → ℝ) (strongJ weakJ : (ℕ → ℝ) → ℕ → ℕ → ℝ)
    (n : ℕ) (out : List Report × Option DriverErr)
    (hout : out = loadSteps Y Z rank0 (schedule D strong weak strongJ weakJ true n) (startRun Y Z
      ⟨law, some mu, some lam, some fric, some (Y.packGrad fun _ => 0), some (Y.du fun _ => 0), h, gamma, theta⟩ scheduleOpts))
    (hend : out.2 = none) :
    out.1.length = n
    ∧ (∀ i ≤ n, ∀ k d, d < Z.numDofs → OnlyIn D k d →
        |totalAfter out.1 i d - proportional D n i k (D.comp d)| ≤ i * 1e-7)
    ∧ (0 < n → ∀ k d, d < Z.numDofs → OnlyIn D k d → |totalAfter out.1 n d - D.disp k (D.comp d)| ≤ n * 1e-7)
    ∧ ∀ (i : ℕ) (R : Report), out.1[i]? = some R → R.before = totalAfter out.1 i ∧ R.converged = true
      ∧ Balanced Y (stepData Y Z.place (vals mu) (vals lam) (vals fric) (vals h) R.before (totalAfter out.1 (i - 1)))
          law gamma theta ⟨strong, strongJ, supportBc D fun k a => D.disp k a / n⟩ Z.numDofs R.before R.du 1e-7 := by
  obtain ⟨P, hP⟩ : ∃ P : Phase, P = ⟨law, mu, lam, some fric, h, gamma, theta, id⟩ := ⟨_, rfl⟩
  obtain ⟨as, has⟩ : ∃ as, as = (schedule D strong weak strongJ weakJ true n).map
    (fun L => Action.step ⟨fun _ => none, L, Z.linSolve, 0.1⟩) := ⟨_, rfl⟩
  have hstart : startRun Y Z ⟨law, some mu, some lam, some fric, some (Y.packGrad fun _ => 0), some (Y.du fun _ => 0), h,
      gamma, theta⟩ scheduleOpts = beginPhase Y P (newRun Y Z scheduleOpts) := by rw [hP]; rfl
  have hout' : out = actions Y Z rank0 (.begin P :: as) (newRun Y Z scheduleOpts) := by
    rw [hout, hstart, has]
    exact loadSteps_actions Z.linSolve rank0 _ _
  have hph : ∀ Q, .begin Q ∈ .begin P :: as → PhaseShaped Y.static Q ∧ (Q.law ≠ .frictionless → Y.gdim = 2 ∨ Y.gdim = 3) := by
    intro Q hQ
    rcases List.mem_cons.mp hQ with h | h
    · rw [Action.begin.inj h, hP]
      exact ⟨hshape, h23⟩
    · rw [has] at h
      simp at h
  have hcase : ∀ i < n, scheduleCase D strong weak strongJ weakJ true n i
      = ⟨strong, strongJ, supportBc D (scheduleValue D true n i)⟩ := fun i _ => rfl
  have hval : ∀ i k, k < D.num → scheduleValue D true n i k = fun a => D.disp k a / n := by
    intro i k hk
    funext a
    simp [scheduleValue, Nat.zero_lt_of_lt hk]
  have hbceq : ∀ i, supportBc D (scheduleValue D true n i) = supportBc D fun k a => D.disp k a / n := by
    intro i
    by_cases h0 : D.num = 0
    · funext d
      simp [supportBc, h0]
    · have : scheduleValue D true n i = fun k a => D.disp k a / n := by
        funext k a
        simp [scheduleValue, Nat.pos_of_ne_zero h0]
      rw [this]
  have hin : ∀ i < n, (inEffect P (P.fric.elim (fun _ _ _ => 0) vals) as)[i]?
      = some (P, P.fric.elim (fun _ _ _ => 0) vals,
        ⟨fun _ => none, ⟨strong, strongJ, supportBc D fun k a => D.disp k a / n⟩, Z.linSolve, 0.1⟩) := by
    intro i hi
    rw [has, inEffect_loads, List.getElem?_map, schedule_get hi, Option.map_some, hcase i hi, hbceq]
  obtain ⟨hconv, hlen⟩ := C219_ended hY Z hN scheduleOpts rfl rfl rank0 P as hph out hout'
  have hlen : out.1.length = n := by
    rw [hlen hend, has, inEffect_loads]
    simp [schedule]
  have htot : ∀ i ≤ n, ∀ k d, d < Z.numDofs → OnlyIn D k d →
      |totalAfter out.1 i d - proportional D n i k (D.comp d)| ≤ i * 1e-7 := by
    intro i hi k d hd hk
    have := C219_prescribed hY Z hN scheduleOpts rfl rank0 P as hph out hout' i (by omega)
      (fun j _ R hR => hconv R (List.mem_of_getElem? hR)) d hd (fun _ => D.disp k (D.comp d) / n) (by
        intro j hj Q φ S hS
        rw [hin j (by omega)] at hS
        obtain ⟨-, h2⟩ := Prod.mk.inj (Option.some.inj hS)
        obtain ⟨-, rfl⟩ := Prod.mk.inj h2
        exact supportBc_only hk (fun k a => D.disp k a / n))
    rw [sum_const, card_range, nsmul_eq_mul] at this
    rw [proportional, div_mul_eq_mul_div, ← mul_div_assoc'] at *
    exact this
  refine ⟨hlen, htot, fun hn k d hd hk => ?_, fun i R hR => ?_⟩
  · have := htot n le_rfl k d hd hk
    rw [(C220_values D (Nat.zero_lt_of_lt hk.1) n 0 k (D.comp d)).2.2 hn] at this
    exact this
  · obtain ⟨-, h2⟩ := C219_phases hY Z hN scheduleOpts rfl rank0 P as hph out hout'
    obtain ⟨Q, φ, S, hS, hb, hbal⟩ := h2 i R hR
    have hi : i < n := by
      have := (List.getElem?_eq_some_iff.mp hR).1
      omega
    have hc := hconv R (List.mem_of_getElem? hR)
    rw [hin i hi] at hS
    obtain ⟨rfl, h2⟩ := Prod.mk.inj (Option.some.inj hS)
    obtain ⟨rfl, rfl⟩ := Prod.mk.inj h2
    have := hbal hc
    rw [hP] at this
    exact ⟨hb, hc, this⟩

/-- C220: with weakly imposed displacements, if the program ends without an exception, all load steps were done and
solve the equations in which the supports have the displacement of proportional loading, at the end the one asked for,
up to `1e-7`. -/
theorem C220_weak (hY : System.Valid Y) (Z : Setting G) (hN : DofsBelow Y Z.numDofs)
    (law : Law) (h23 : law ≠ .frictionless → Y.gdim = 2 ∨ Y.gdim = 3) (gamma theta : ℝ) (mu lam fric h : ℕ → Mat)
    (hshape : PhaseShaped Y.static ⟨law, mu, lam, some fric, h, gamma, theta, id⟩) (rank0 : Bool)
    (D : Supports) (strong : (ℕ → ℝ) → ℕ → ℝ) (weak : (ℕ → ℕ → ℝ) → (ℕ → ℝ) → ℕ → ℝ) (strongJ weakJ : (ℕ → ℝ) → ℕ → ℕ → ℝ)
    (n : ℕ) (out : List Report × Option DriverErr)
    (hout : out = loadSteps Y Z rank0 (schedule D strong weak strongJ weakJ false n) (startRun Y Z
      ⟨law, some mu, some lam, some fric, some (Y.packGrad fun _ => 0), some (Y.du fun _ => 0), h, gamma, theta⟩ scheduleOpts))
    (hend : out.2 = none) :
    out.1.length = n
    ∧ ∀ (i : ℕ) (R : Report), out.1[i]? = some R → R.before = totalAfter out.1 i ∧ R.converged = true
      ∧ Balanced Y (stepData Y Z.place (vals mu) (vals lam) (vals fric) (vals h) R.before (totalAfter out.1 (i - 1)))
          law gamma theta ⟨weak (proportional D n (i + 1)), weakJ, fun _ => none⟩ Z.numDofs R.before R.du 1e-7
      ∧ (i + 1 = n → Balanced Y (stepData Y Z.place (vals mu) (vals lam) (vals fric) (vals h) R.before (totalAfter out.1 (i - 1)))
          law gamma theta ⟨weak D.disp, weakJ, fun _ => none⟩ Z.numDofs R.before R.du 1e-7) := by
  obtain ⟨P, hP⟩ : ∃ P : Phase, P = ⟨law, mu, lam, some fric, h, gamma, theta, id⟩ := ⟨_, rfl⟩
  obtain ⟨as, has⟩ : ∃ as, as = (schedule D strong weak strongJ weakJ false n).map
    (fun L => Action.step ⟨fun _ => none, L, Z.linSolve, 0.1⟩) := ⟨_, rfl⟩
  have hstart : startRun Y Z ⟨law, some mu, some lam, some fric, some (Y.packGrad fun _ => 0), some (Y.du fun _ => 0), h,
      gamma, theta⟩ scheduleOpts = beginPhase Y P (newRun Y Z scheduleOpts) := by rw [hP]; rfl
  have hout' : out = actions Y Z rank0 (.begin P :: as) (newRun Y Z scheduleOpts) := by
    rw [hout, hstart, has]
    exact loadSteps_actions Z.linSolve rank0 _ _
  have hph : ∀ Q, .begin Q ∈ .begin P :: as → PhaseShaped Y.static Q ∧ (Q.law ≠ .frictionless → Y.gdim = 2 ∨ Y.gdim = 3) := by
    intro Q hQ
    rcases List.mem_cons.mp hQ with h | h
    · rw [Action.begin.inj h, hP]
      exact ⟨hshape, h23⟩
    · rw [has] at h
      simp at h
  have hval : ∀ i, scheduleValue D false n i = proportional D n (i + 1) := by
    intro i
    funext k a
    simp only [scheduleValue, proportional, Bool.false_and, Bool.false_eq_true, if_false]
    push_cast
    ring
  have hin : ∀ i < n, (inEffect P (P.fric.elim (fun _ _ _ => 0) vals) as)[i]?
      = some (P, P.fric.elim (fun _ _ _ => 0) vals,
        ⟨fun _ => none, ⟨weak (proportional D n (i + 1)), weakJ, fun _ => none⟩, Z.linSolve, 0.1⟩) := by
    intro i hi
    rw [has, inEffect_loads, List.getElem?_map, schedule_get hi, Option.map_some, ← hval]
    rfl
  obtain ⟨hconv, hlen⟩ := C219_ended hY Z hN scheduleOpts rfl rfl rank0 P as hph out hout'
  have hlen : out.1.length = n := by
    rw [hlen hend, has, inEffect_loads]
    simp [schedule]
  refine ⟨hlen, fun i R hR => ?_⟩
  obtain ⟨-, h2⟩ := C219_phases hY Z hN scheduleOpts rfl rank0 P as hph out hout'
  obtain ⟨Q, φ, S, hS, hb, hbal⟩ := h2 i R hR
  have hi : i < n := by
    have := (List.getElem?_eq_some_iff.mp hR).1
    omega
  have hc := hconv R (List.mem_of_getElem? hR)
  rw [hin i hi] at hS
  obtain ⟨rfl, h2⟩ := Prod.mk.inj (Option.some.inj hS)
  obtain ⟨rfl, rfl⟩ := Prod.mk.inj h2
  have := hbal hc
  rw [hP] at this
  refine ⟨hb, hc, this, fun hn => ?_⟩
  have e : proportional D n (i + 1) = D.disp := by
    funext k a
    have hn0 : (n : ℝ) ≠ 0 := by
      have : 0 < n := by omega
      exact_mod_cast this.ne'
    rw [hn, proportional, div_self hn0, one_mul]
  rw [e] at this
  exact this

/-- Two supports: dofs 0 and 1, moved by (0, -1), and the others but 4, which do not move. -/
def exSupports : Supports where
  num := 2
  disp := fun k a => if k = 0 ∧ a = 1 then -1 else 0
  dofs := fun k d => if k = 0 then decide (d ≤ 1) else decide (1 < d) && decide (d ≠ 4)
  comp := fun d => d % 2

/-- Hypotheses of `C220_strong` are met by a computation with five load steps; the first support reaches -1. -/
example : ∃ (mu lam fric h : ℕ → Mat) (out : List Report × Option DriverErr),
    PhaseShaped exY.static ⟨.coulomb, mu, lam, some fric, h, 10, 1, id⟩ ∧ out = loadSteps exY { exSetting with linSolve := exSame } true
      (schedule exSupports exSpring (fun _ => exSpring) exSpringK exSpringK true 5)
      (startRun exY { exSetting with linSolve := exSame } ⟨.coulomb, some mu, some lam, some fric, some (exY.packGrad fun _ => 0),
        some (exY.du fun _ => 0), h, 10, 1⟩ scheduleOpts)
    ∧ out.2 = none ∧ |totalAfter out.1 5 1 - (-1)| ≤ 5 * 1e-7 := by
  obtain ⟨mu, lam, fric, h, sh⟩ : ∃ mu lam fric h : ℕ → Mat,
      PhaseShaped exY.static ⟨.coulomb, mu, lam, some fric, h, 10, 1, id⟩ := ⟨_, _, _, _, (exPhase_shaped .coulomb).2⟩
  obtain ⟨P, hP⟩ : ∃ P : Phase, P = ⟨.coulomb, mu, lam, some fric, h, 10, 1, id⟩ := ⟨_, rfl⟩
  rw [← hP] at sh
  have hid : P.guess = id := by rw [hP]
  obtain ⟨as, has⟩ : ∃ as, as = (schedule exSupports exSpring (fun _ => exSpring) exSpringK exSpringK true 5).map
    (fun L => Action.step ⟨fun _ => none, L, exSame, 0.1⟩) := ⟨_, rfl⟩
  have ho : scheduleOpts.crit = .residual ∧ 0 < scheduleOpts.atol ∧ 0 < scheduleOpts.rtol ∧ 1 ≤ scheduleOpts.maxIt :=
    ⟨rfl, by norm_num [scheduleOpts], by norm_num [scheduleOpts], by norm_num [scheduleOpts]⟩
  have hs : ∀ S, .step S ∈ as → ExStep S := by
    intro S hS
    rw [has] at hS
    obtain ⟨L, hL, hLS⟩ := List.mem_map.mp hS
    obtain rfl := Action.step.inj hLS
    obtain ⟨i, -, rfl⟩ := List.mem_map.mp hL
    refine ⟨rfl, rfl, rfl, ?_, fun d _ h4 => ?_, rfl⟩
    · exact foldl_bc_none exSupports _ 4 _ (fun j _ => by
        by_cases hj : j = 0 <;> simp [exSupports, hj]) none
    · show supportBc exSupports (scheduleValue exSupports true 5 i) d ≠ none
      by_cases h1 : d ≤ 1
      · rw [supportBc_only (k := 0) ⟨by simp [exSupports], by simp [exSupports, h1], fun j _ hj => by
          simp [exSupports, hj, h1]⟩]
        simp
      · rw [supportBc_only (k := 1) ⟨by simp [exSupports], by simp [exSupports, h4]; omega, fun j hj hj1 => by
          have h2 : j < 2 := hj
          obtain rfl : j = 0 := by omega
          simp [exSupports]; omega⟩]
        simp
  have hb : ∀ Q, .begin Q ∈ as → PhaseShaped exY.static Q := by
    intro Q hQ
    rw [has] at hQ
    simp at hQ
  obtain ⟨S, bs, hbs⟩ : ∃ S bs, as = .step S :: bs := ⟨_, _, has.trans rfl⟩
  have H := firstPhase_ok (rank0 := true) (opts := scheduleOpts) (Z := exSetting) exY_valid sh
  obtain ⟨R, r', hR, hc, H', hne'⟩ := exStep_converges (hs S (by rw [hbs]; simp)) ho H (Or.inr (by
    show P.guess (fun _ => 0) 4 ≠ 1 - 0
    rw [hid]
    norm_num))
  have h1 := exActions_converge ho bs (fun Q hQ => hb Q (by rw [hbs]; simp [hQ])) (fun S hS => hs S (by rw [hbs]; simp [hS]))
    P _ _ r' H' hne'
  have e1 : actions exY exSetting true as (beginPhase exY P (newRun exY exSetting scheduleOpts))
      = (R :: (actions exY exSetting true bs r').1, (actions exY exSetting true bs r').2) := by
    rw [hbs, actions, hR]
  have hstart : startRun exY { exSetting with linSolve := exSame } ⟨.coulomb, some mu, some lam, some fric, some (exY.packGrad fun _ => 0),
        some (exY.du fun _ => 0), h, 10, 1⟩ scheduleOpts
      = beginPhase exY P (newRun exY exSetting scheduleOpts) := by rw [hP]; exact startRun_begin _ _ _ _ _ _ _ _ _
  obtain ⟨out, hout⟩ : ∃ out, out = loadSteps exY { exSetting with linSolve := exSame } true
      (schedule exSupports exSpring (fun _ => exSpring) exSpringK exSpringK true 5)
      (startRun exY { exSetting with linSolve := exSame } ⟨.coulomb, some mu, some lam, some fric, some (exY.packGrad fun _ => 0),
        some (exY.du fun _ => 0), h, 10, 1⟩ scheduleOpts) := ⟨_, rfl⟩
  have k1 : out.2 = none := by
    rw [hout, hstart, loadSteps_actions, ← has, e1]
    exact h1
  rw [hP] at sh
  refine ⟨mu, lam, fric, h, out, sh, hout, k1, ?_⟩
  have := (C220_strong exY_valid { exSetting with linSolve := exSame } exY_below6 .coulomb (fun _ => Or.inl rfl) 10 1 mu lam fric h
    sh true exSupports exSpring (fun _ => exSpring) exSpringK exSpringK 5 out hout k1).2.2.1
    (by norm_num) 0 1 (by norm_num [exSetting]) ⟨by simp [exSupports], by simp [exSupports], fun j _ hj => by
          simp [exSupports, hj]⟩
  simpa [exSupports] using this

/-! The weak schedule: two bodies which do not meet, on springs. -/

/-- The example system, without points opposite each other. -/
def exApart : System Unit := { exY with map := fun _ _ _ => -1 }

theorem exApart_valid : System.Valid exApart where
  pairs := by decide
  dim := by decide
  points := by decide
  cell := by simp [exApart, exY]
  loc := by simp [exApart, exY]
  gap := by simp [exApart, exY]
  nx := by simp [exApart, exY]
  ny := by simp [exApart, exY]
  space := ⟨rfl, rfl⟩
  search := by simp [exApart, exY]
  cells := by simp [exApart, exY]
  shared := by simp [exApart, exY]
  affine := by simp [exApart, exY]

theorem exApart_form (t : Tracked Unit) (law : Law) (gamma theta : ℝ) (u v : ℕ → ℝ) :
    contactForm exApart t law gamma theta u v = 0 := by
  unfold contactForm
  refine sum_eq_zero (fun i _ => sum_eq_zero (fun e _ => ?_))
  cases (exApart.facets i)[e]? with
  | none => rfl
  | some c =>
    refine sum_eq_zero (fun q _ => ?_)
    rw [if_neg (by simp [exApart])]

/-- All dofs are tied to the first support by springs. -/
def exTied (g : ℕ → ℕ → ℝ) (u : ℕ → ℝ) (d : ℕ) : ℝ := u d - g 0 (d % 2)

theorem exTied_converges {mu lam fric h : Packed} {law : Law} {gamma theta : ℝ} {S : PhaseStep} (v : ℕ → ℕ → ℝ)
    (hS : S = ⟨fun _ => none, ⟨exTied v, exSpringK, fun _ => none⟩, exSame, 0.1⟩)
    {opts : Newton.Opts} (ho : opts.crit = .residual ∧ 0 < opts.atol ∧ 0 < opts.rtol ∧ 1 ≤ opts.maxIt)
    (hN : DofsBelow exApart 6)
    {uold : ℕ → ℝ} {r : Run Unit} (H : BeforeStep exApart exSetting mu lam fric h law gamma theta true opts uold r)
    (hne : r.solver.initialResidual ≠ 0 ∨ r.solver.x 1 ≠ v 0 1 - r.u 1) :
    ∃ R r', phaseStep exApart exSetting true S r = .ok (R, r') ∧ R.converged = true
      ∧ BeforeStep exApart exSetting mu lam fric h law gamma theta true opts r.u r' ∧ r'.solver.initialResidual ≠ 0 := by
  obtain ⟨hready, hopts, ops, hops, hlaw, hconsts, hco, hsame⟩ := id H
  obtain ⟨Z', hZ'⟩ : ∃ Z' : Setting Unit, Z' = { exSetting with linSolve := S.linSolve } := ⟨_, rfl⟩
  obtain ⟨r0, hr0⟩ : ∃ r0, r0 = { r.solver with x := presetBc S.preset r.solver.x } := ⟨_, rfl⟩
  have hn : Z'.numDofs = 6 := by rw [hZ']; rfl
  obtain ⟨g, hg⟩ : ∃ g : ℕ → ℝ, g = fun d => v 0 (d % 2) - r.u d := ⟨_, rfl⟩
  have hlin : S.linSolve = exSame := by rw [hS]
  have hfree : ∀ d, S.load.bc d = none := by intro d; rw [hS]
  have hbulk : S.load.bulk = exTied v := by rw [hS]
  have hpre : S.preset = fun _ => none := by rw [hS]
  have hres : ∀ x c, Reached exApart ops (exSetting.place fun _ => 0) c → ∀ d < 6,
      (driverProblem exApart Z' S.load r.u).residual x ((driverProblem exApart Z' S.load r.u).coefficients x c) d
        = x d - g d := by
    intro x c hc d hd
    show driverResidual exApart Z' S.load r.u x (driverCoefficients exApart x c) d = _
    unfold driverResidual
    dsimp only
    rw [hfree d, Option.elim_none, driver_entry exApart_valid hops hlaw (fun _ => Or.inl rfl) hconsts hsame.created hN
      hc x hd, exApart_form, hbulk, hg, sum_eq_zero (fun c _ => by rw [hfree c, Option.elim_none])]
    simp [exTied]
    ring
  obtain ⟨s', n, hsolve, hir⟩ := solve_shift (driverProblem exApart Z' S.load r.u) 6 g
    (Reached exApart ops (exSetting.place fun _ => 0))
    (fun x c hc => reached_coefficients x c hc) hres
    (fun A b d => by show Z'.linSolve A b d = _; rw [hZ', hlin]; rfl) (fun _ => rfl) (fun _ => rfl)
    (fun b => by rw [← hn]; rfl) (fun b => by rw [← hn]; rfl) true r0 (by rw [hr0]; exact hready)
    (by rw [hr0]; exact ⟨[], by simp [updates, hco]⟩) (by rw [hr0]; show r.solver.opts.crit = _; rw [hopts]; exact ho.1)
    (by rw [hr0]; show 0 < r.solver.opts.atol; rw [hopts]; exact ho.2.1)
    (by rw [hr0]; show 0 < r.solver.opts.rtol; rw [hopts]; exact ho.2.2.1)
    (by rw [hr0]; show 1 ≤ r.solver.opts.maxIt; rw [hopts]; exact ho.2.2.2)
    (by
      rcases hne with h | h
      · left; rw [hr0]; exact h
      · refine Or.inr ⟨1, by norm_num, ?_⟩
        rw [hr0, hg]
        show presetBc S.preset r.solver.x 1 ≠ _
        rw [presetBc, hpre]
        exact h)
  have hok := phaseStep_ok exApart_valid (fun _ => Or.inl rfl) hN ho.1 (S := S) H
  rcases hok with ⟨e, he⟩ | ⟨R, r', hR, -, -, hB, -⟩
  · unfold phaseStep at he
    rw [← hZ', ← hr0, hsolve] at he
    dsimp only at he
    split at he
    · cases he
    · split at he <;> cases he
  · refine ⟨R, r', hR, ?_, hB, ?_⟩
    all_goals
      unfold phaseStep at hR
      rw [← hZ', ← hr0, hsolve] at hR
      dsimp only at hR
      split at hR
      · cases hR
      · split at hR
        · cases hR
        · obtain ⟨rfl, rfl⟩ := Prod.mk.inj (Except.ok.inj hR)
          first
          | rfl
          | exact hir

theorem exTied_actions {opts : Newton.Opts} (ho : opts.crit = .residual ∧ 0 < opts.atol ∧ 0 < opts.rtol ∧ 1 ≤ opts.maxIt)
    (hN : DofsBelow exApart 6) (as : List Action)
    (hs : ∀ a ∈ as, ∃ v, a = .step ⟨fun _ => none, ⟨exTied v, exSpringK, fun _ => none⟩, exSame, 0.1⟩)
    {mu lam fric h : Packed} {law : Law} {gamma theta : ℝ} (uold : ℕ → ℝ) (r : Run Unit)
    (H : BeforeStep exApart exSetting mu lam fric h law gamma theta true opts uold r)
    (hne : r.solver.initialResidual ≠ 0) : (actions exApart exSetting true as r).2 = none := by
  induction as generalizing uold r with
  | nil => rfl
  | cons a as ih =>
    obtain ⟨v, rfl⟩ := hs a List.mem_cons_self
    obtain ⟨R, r', hR, -, H', hne'⟩ := exTied_converges v rfl ho hN H (Or.inl hne)
    rw [actions, hR]
    exact ih (fun b hb => hs b (List.mem_cons_of_mem _ hb)) r.u r' H' hne'

/-- Hypotheses of `C220_weak` are met by a computation with five load steps. -/
example : DofsBelow exApart 6 ∧ ∃ (mu lam fric h : ℕ → Mat) (out : List Report × Option DriverErr),
    PhaseShaped exApart.static ⟨.coulomb, mu, lam, some fric, h, 10, 1, id⟩
    ∧ out = loadSteps exApart { exSetting with linSolve := exSame } true
      (schedule exSupports exSpring exTied exSpringK exSpringK false 5)
      (startRun exApart { exSetting with linSolve := exSame } ⟨.coulomb, some mu, some lam, some fric,
        some (exApart.packGrad fun _ => 0), some (exApart.du fun _ => 0), h, 10, 1⟩ scheduleOpts)
    ∧ out.2 = none ∧ out.1.length = 5 := by
  have hN : DofsBelow exApart 6 := exY_below6
  obtain ⟨mu, lam, fric, h, sh⟩ : ∃ mu lam fric h : ℕ → Mat,
      PhaseShaped exApart.static ⟨.coulomb, mu, lam, some fric, h, 10, 1, id⟩ := by
    refine ⟨fun _ => ⟨1, 1, fun _ _ => 3⟩, fun _ => ⟨1, 1, fun _ _ => 5⟩, fun _ => ⟨1, 1, fun _ _ => 0.3⟩,
      fun _ => ⟨1, 1, fun _ _ => 1⟩, ?_, ?_, ?_, ?_⟩ <;> simp [ScalarShaped, System.static, exApart, exY]
  obtain ⟨P, hP⟩ : ∃ P : Phase, P = ⟨.coulomb, mu, lam, some fric, h, 10, 1, id⟩ := ⟨_, rfl⟩
  rw [← hP] at sh
  have ho : scheduleOpts.crit = .residual ∧ 0 < scheduleOpts.atol ∧ 0 < scheduleOpts.rtol ∧ 1 ≤ scheduleOpts.maxIt :=
    ⟨rfl, by norm_num [scheduleOpts], by norm_num [scheduleOpts], by norm_num [scheduleOpts]⟩
  obtain ⟨Ls, hLs⟩ : ∃ Ls, Ls = schedule exSupports exSpring exTied exSpringK exSpringK false 5 := ⟨_, rfl⟩
  obtain ⟨L, Ms, hM, hL, hMs⟩ : ∃ L Ms, Ls = L :: Ms
      ∧ L = ⟨exTied (scheduleValue exSupports false 5 0), exSpringK, fun _ => none⟩
      ∧ ∀ M ∈ Ms, ∃ v, M = ⟨exTied v, exSpringK, fun _ => none⟩ := by
    refine ⟨_, (List.map (scheduleCase exSupports exSpring exTied exSpringK exSpringK false 5) [1, 2, 3, 4]),
      hLs.trans rfl, rfl, fun M hM => ?_⟩
    obtain ⟨i, -, rfl⟩ := List.mem_map.mp hM
    exact ⟨_, rfl⟩
  have H := firstPhase_ok (rank0 := true) (opts := scheduleOpts) (Z := exSetting) exApart_valid sh
  obtain ⟨R, r', hR, -, H', hne'⟩ := exTied_converges (scheduleValue exSupports false 5 0) (by rw [← hL]) ho hN H (Or.inr (by
    have hx : (beginPhase exApart P (newRun exApart exSetting scheduleOpts)).solver.x = fun _ => 0 := by rw [hP]; rfl
    have hu : (beginPhase exApart P (newRun exApart exSetting scheduleOpts)).u = fun _ => 0 := rfl
    rw [hx, hu]
    norm_num [scheduleValue, exSupports]))
  have h1 := exTied_actions ho hN (Ms.map fun L => .step ⟨fun _ => none, L, exSame, 0.1⟩) (fun a ha => by
    obtain ⟨M, hM, rfl⟩ := List.mem_map.mp ha
    obtain ⟨v, rfl⟩ := hMs M hM
    exact ⟨v, rfl⟩) _ r' H' hne'
  have hstart : startRun exApart { exSetting with linSolve := exSame } ⟨.coulomb, some mu, some lam, some fric,
        some (exApart.packGrad fun _ => 0), some (exApart.du fun _ => 0), h, 10, 1⟩ scheduleOpts
      = beginPhase exApart P (newRun exApart exSetting scheduleOpts) := by
    rw [hP]; exact startRun_begin _ _ _ _ _ _ _ _ _
  rw [hP] at sh
  obtain ⟨out, hout⟩ : ∃ out, out = loadSteps exApart { exSetting with linSolve := exSame } true
      (schedule exSupports exSpring exTied exSpringK exSpringK false 5)
      (startRun exApart { exSetting with linSolve := exSame } ⟨.coulomb, some mu, some lam, some fric,
        some (exApart.packGrad fun _ => 0), some (exApart.du fun _ => 0), h, 10, 1⟩ scheduleOpts) := ⟨_, rfl⟩
  have k1 : out.2 = none := by
    rw [hout, hstart, loadSteps_actions, ← hLs, hM, List.map_cons, actions, hR]
    exact h1
  exact ⟨hN, mu, lam, fric, h, out, sh, hout, k1, (C220_weak exApart_valid { exSetting with linSolve := exSame } hN .coulomb
    (fun _ => Or.inl rfl) 10 1 mu lam fric h sh true exSupports exSpring exTied exSpringK exSpringK 5 out hout k1).1⟩

end Verif.ContactProblem
