import Verif.Lemmas.Driver

/-!
Properties C139–C141: load steps with the Newton solver.
-/

namespace Verif.ContactProblem

open Verif.Spec Verif.Packing Verif.Assembly Verif.Kernels Finset

noncomputable section

variable {G : Type} {Y : System G}

/-! ### the form does not depend on the increment packed last -/

/-- Two records of a history which differ at most in the packed increment. -/
structure SameData (t t' : Tracked G) : Prop where
  created : t'.created = t.created
  cur : t'.cur = t.cur
  prev : t'.prev = t.prev
  mu : t'.mu = t.mu
  lam : t'.lam = t.lam
  fric : t'.fric = t.fric
  h : t'.h = t.h
  gradU : t'.gradU = t.gradU

theorem SameData.refl (t : Tracked G) : SameData t t := ⟨rfl, rfl, rfl, rfl, rfl, rfl, rfl, rfl⟩

theorem SameData.trans {t t' t'' : Tracked G} (h : SameData t t') (k : SameData t' t'') : SameData t t'' :=
  ⟨k.created.trans h.created, k.cur.trans h.cur, k.prev.trans h.prev, k.mu.trans h.mu, k.lam.trans h.lam,
    k.fric.trans h.fric, k.h.trans h.h, k.gradU.trans h.gradU⟩

theorem SameData.form {t t' : Tracked G} (h : SameData t t') (law : Law) (gamma theta : ℝ) (u v : ℕ → ℝ) :
    contactForm Y t' law gamma theta u v = contactForm Y t law gamma theta u v := by
  obtain ⟨h0, h1, h2, h3, h4, h5, h6, h7⟩ := h
  obtain ⟨a0, a1, a2, a3, a4, a5, a6, a7, a8, a9, a10⟩ := t
  obtain ⟨b0, b1, b2, b3, b4, b5, b6, b7, b8, b9, b10⟩ := t'
  dsimp only at h0 h1 h2 h3 h4 h5 h6 h7
  subst h0 h1 h2 h3 h4 h5 h6 h7
  rfl

theorem SameData.update (t : Tracked G) (du : Du G) : SameData t (t.call (.updateData du)) := by
  show SameData t (if t.created then t.setDu du else t)
  split
  · exact ⟨rfl, rfl, rfl, rfl, rfl, rfl, rfl, rfl⟩
  · exact SameData.refl t

theorem history_snoc (S : Static G) (ops : List (Op G)) (op : Op G) (s : State G) :
    history S (ops ++ [op]) s = after (call S op (history S ops s)) := by
  unfold history
  rw [List.foldl_append]
  rfl

theorem tracked_snoc (t : Tracked G) (ops : List (Op G)) (op : Op G) :
    t.history (ops ++ [op]) = (t.history ops).call op := by
  unfold Tracked.history
  rw [List.foldl_append]
  rfl

/-- Calls of `update_contact_data`. -/
def updates (Y : System G) (us : List (ℕ → ℝ)) : List (Op G) := us.map (fun u => .updateData (Y.du u))

theorem SameData.updates (ops : List (Op G)) (us : List (ℕ → ℝ)) (t : Tracked G) :
    SameData (t.history ops) (t.history (ops ++ updates Y us)) := by
  unfold Tracked.history
  rw [List.foldl_append]
  generalize ops.foldl Tracked.call t = t0
  induction us generalizing t0 with
  | nil => exact SameData.refl t0
  | cons u us ih => exact (SameData.update t0 (Y.du u)).trans (ih _)

theorem updates_shaped (hY : System.Valid Y) {ops : List (Op G)} (hops : ∀ op ∈ ops, OpShaped Y.static op)
    (us : List (ℕ → ℝ)) : ∀ op ∈ ops ++ updates Y us, OpShaped Y.static op := by
  intro op hop
  rcases List.mem_append.mp hop with h | h
  · exact hops op h
  · obtain ⟨u, -, rfl⟩ := List.mem_map.mp h
    exact du_shaped hY u

theorem updates_law (ops : List (Op G)) (us : List (ℕ → ℝ)) (l : Option Law) :
    lastLaw (ops ++ updates Y us) l = lastLaw ops l := by
  induction ops generalizing l with
  | nil =>
    induction us with
    | nil => rfl
    | cons u us ih => exact ih
  | cons o ops ih => cases o <;> exact ih _

theorem updates_consts (ops : List (Op G)) (us : List (ℕ → ℝ)) (l : Option (ℝ × ℝ)) :
    lastConsts (ops ++ updates Y us) l = lastConsts ops l := by
  induction ops generalizing l with
  | nil =>
    induction us with
    | nil => rfl
    | cons u us ih => exact ih
  | cons o ops ih => cases o <;> exact ih _

/-- The contact problem after `ops` and any number of `update_contact_data`. -/
def Reached (Y : System G) (ops : List (Op G)) (g : G) (c : State G) : Prop :=
  ∃ us, c = history Y.static (ops ++ updates Y us) (init Y.static g)

theorem reached_coefficients {ops : List (Op G)} {g : G} (x : ℕ → ℝ) (c : State G) (h : Reached Y ops g c) :
    Reached Y ops g (driverCoefficients Y x c) := by
  obtain ⟨us, rfl⟩ := h
  refine ⟨us ++ [x], ?_⟩
  unfold updates
  rw [List.map_append]
  have e : us.map (fun u => Op.updateData (Y.du u)) ++ [x].map (fun u => Op.updateData (Y.du u))
      = us.map (fun u => Op.updateData (Y.du u)) ++ [Op.updateData (Y.du x)] := rfl
  rw [e, ← List.append_assoc, history_snoc]
  rfl

section

variable {law : Law} {gamma theta : ℝ} {ops : List (Op G)} {g : G} {N : ℕ}

/-- After generating, `update_contact_data` and `assemble_vector` succeed, and the result is the form. -/
theorem driver_vector (hY : System.Valid Y) (hops : ∀ op ∈ ops, OpShaped Y.static op)
    (hlaw : lastLaw ops none = some law) (h23 : law ≠ .frictionless → Y.gdim = 2 ∨ Y.gdim = 3)
    (hconsts : lastConsts ops none = some (gamma, theta))
    (hc : ((Tracked.new g).history ops).created = true) (hN : DofsBelow Y N)
    {c : State G} (h : Reached Y ops g c) (x : ℕ → ℝ) :
    updateContactData Y.static (Y.du x) c = .ok (driverCoefficients Y x c)
    ∧ Y.assembleVector (driverCoefficients Y x c) 0 = .ok (contactVector Y (driverCoefficients Y x c))
    ∧ ∀ v : ℕ → ℝ, ∑ d ∈ range N, contactVector Y (driverCoefficients Y x c) d * v d
      = contactForm Y ((Tracked.new g).history ops) law gamma theta x v := by
  obtain ⟨us, rfl⟩ := h
  have hs := SameData.updates (Y := Y) ops us (Tracked.new g)
  have hcs : (history Y.static (ops ++ updates Y us) (init Y.static g)).coeffs ≠ none := by
    rcases C38_size (static_shaped hY) _ (updates_shaped hY hops us) g with ⟨h1, -⟩ | ⟨-, cs, h1, -⟩
    · rw [hs.created, hc] at h1; cases h1
    · rw [h1]; simp
  have hv := fun v => C114_form hY _ (updates_shaped hY hops us) g law ((updates_law ops us none).trans hlaw) h23
    gamma theta ((updates_consts ops us none).trans hconsts) _ rfl hcs N hN x v
  obtain ⟨s', b, h1, h2, -⟩ := hv 0
  have e1 : driverCoefficients Y x (history Y.static (ops ++ updates Y us) (init Y.static g)) = s' := by
    unfold driverCoefficients
    rw [h1]
    rfl
  have e2 : contactVector Y s' = b := by
    unfold contactVector
    rw [h2]
  rw [e1, e2]
  refine ⟨h1, h2, fun v => ?_⟩
  obtain ⟨s2, b2, k1, k2, k3⟩ := hv v
  obtain rfl : s2 = s' := Except.ok.inj (k1.symm.trans h1)
  obtain rfl : b2 = b := Except.ok.inj (k2.symm.trans h2)
  rw [k3, hs.form]

end

/-! ### a converged solve -/

theorem abs_sum_le {N : ℕ} (R v : ℕ → ℝ) : |∑ d ∈ range N, R d * v d| ≤ norm2 N R * magnitude N v := by
  unfold norm2 magnitude
  rw [← Real.sqrt_mul (sum_nonneg (fun d _ => sq_nonneg _)), ← Real.sqrt_sq_eq_abs]
  exact Real.sqrt_le_sqrt (sum_mul_sq_le_sq_mul_sq _ _ _)

theorem abs_le_norm2 {N : ℕ} (R : ℕ → ℝ) {d : ℕ} (hd : d < N) : |R d| ≤ norm2 N R := by
  unfold norm2
  rw [← Real.sqrt_sq_eq_abs]
  exact Real.sqrt_le_sqrt (single_le_sum (f := fun d => R d ^ 2) (fun d _ => sq_nonneg _) (mem_range.mpr hd))

theorem driverResidual_bc (Y : System G) {Z : Setting G} {L : LoadCase} {u x : ℕ → ℝ} {s : State G} {d : ℕ} {g : ℝ}
    (h : L.bc d = some g) : driverResidual Y Z L u x s d = x d - g := by
  unfold driverResidual
  simp only [h, Option.elim_some]
  norm_num

theorem driverResidual_free (Y : System G) {Z : Setting G} {L : LoadCase} {u x : ℕ → ℝ} {s : State G} {d : ℕ}
    (h : L.bc d = none) : driverResidual Y Z L u x s d = contactVector Y s d + (L.bulk (fun c => u c + x c) d
      + ∑ c ∈ range Z.numDofs, (L.bc c).elim 0 (fun g => L.stiff (fun c => u c + x c) d c * (g - x c))) := by
  unfold driverResidual
  simp only [h, Option.elim_none]
  norm_num
  ring

/-- A state of a solve with a small residual satisfies the equations of the load step. -/
theorem balanced_of_small (hY : System.Valid Y) {ops : List (Op G)} (hops : ∀ op ∈ ops, OpShaped Y.static op)
    {g : G} {law : Law} (hlaw : lastLaw ops none = some law) (h23 : law ≠ .frictionless → Y.gdim = 2 ∨ Y.gdim = 3)
    {gamma theta : ℝ} (hconsts : lastConsts ops none = some (gamma, theta))
    (hc : ((Tracked.new g).history ops).created = true)
    {Z : Setting G} (hN : DofsBelow Y Z.numDofs) {L : LoadCase} {u : ℕ → ℝ}
    {t : Newton.St (ℕ → ℝ) (ℕ → ℝ) (State G)} (hf : Newton.Fresh (driverProblem Y Z L u) (Reached Y ops g) t)
    {tol : ℝ} (hn : norm2 Z.numDofs t.b < tol) :
    Balanced Y ((Tracked.new g).history ops) law gamma theta L Z.numDofs u t.x tol := by
  obtain ⟨c, ⟨us, hus⟩, hc1, hb⟩ := hf
  obtain ⟨x, hx⟩ : ∃ x, x = t.x := ⟨_, rfl⟩
  rw [← hx] at hc1 hb ⊢
  have hc2 : t.coeffs = driverCoefficients Y x c := hc1
  obtain ⟨-, -, hv⟩ := driver_vector hY hops hlaw h23 hconsts hc hN ⟨us, hus⟩ x
  rw [← hc2] at hv
  have hn : norm2 Z.numDofs (driverResidual Y Z L u x t.coeffs) < tol := by
    rw [hb] at hn
    exact hn
  refine ⟨fun d hd g hg => ?_, fun v hz => ?_⟩
  · have := abs_le_norm2 (driverResidual Y Z L u x t.coeffs) hd
    rw [driverResidual_bc Y hg] at this
    exact this.trans_lt hn
  · have e : ∑ d ∈ range Z.numDofs, driverResidual Y Z L u x t.coeffs d * v d
        = ∑ d ∈ range Z.numDofs, (L.bulk (fun c => u c + x c) d
        + ∑ c ∈ range Z.numDofs, (L.bc c).elim 0 (fun g => L.stiff (fun c => u c + x c) d c * (g - x c))) * v d
      + contactForm Y ((Tracked.new g).history ops) law gamma theta x v := by
      rw [← hv v, ← sum_add_distrib]
      refine sum_congr rfl (fun d hd => ?_)
      cases hb : L.bc d with
      | some g => rw [hz d (mem_range.mp hd) (by rw [hb]; simp)]; ring
      | none => rw [driverResidual_free Y hb]; ring
    rw [← e]
    exact (abs_sum_le _ _).trans (mul_le_mul_of_nonneg_right hn.le (Real.sqrt_nonneg _))

/-- C139: if the Newton solver, working on a contact problem with any history of calls, reports convergence by
the residual criterion, then the increment it returns satisfies the equations of the load step up to `atol`:
the prescribed values are attained, and bulk forces and Nitsche's contact form (for the detection, the
materials, the law and the displacement of earlier steps in force) balance for every virtual displacement. The
contact problem is left with the data of that increment. Whatever the forms, the linear solver, the initial
guess and the number of halvings. -/
theorem C139_converged (hY : System.Valid Y) (ops : List (Op G)) (hops : ∀ op ∈ ops, OpShaped Y.static op)
    (g : G) (law : Law) (hlaw : lastLaw ops none = some law) (h23 : law ≠ .frictionless → Y.gdim = 2 ∨ Y.gdim = 3)
    (gamma theta : ℝ) (hconsts : lastConsts ops none = some (gamma, theta))
    (hc : ((Tracked.new g).history ops).created = true)
    (Z : Setting G) (hN : DofsBelow Y Z.numDofs) (L : LoadCase) (u : ℕ → ℝ) (rank0 : Bool)
    (s : Newton.St (ℕ → ℝ) (ℕ → ℝ) (State G)) (hs : s.coeffs = history Y.static ops (init Y.static g))
    (hready : Newton.Ready rank0 s) (hcrit : s.opts.crit = .residual) (n : ℕ)
    (h : (Newton.solve (driverProblem Y Z L u) rank0 .function s).2 = .ok (n, true)) :
    Balanced Y ((Tracked.new g).history ops) law gamma theta L Z.numDofs u
      (Newton.solve (driverProblem Y Z L u) rank0 .function s).1.x s.opts.atol
    ∧ ∃ us : List (ℕ → ℝ), (Newton.solve (driverProblem Y Z L u) rank0 .function s).1.coeffs
      = history Y.static (ops ++ us.map (fun w => .updateData (Y.du w))
        ++ [.updateData (Y.du (Newton.solve (driverProblem Y Z L u) rank0 .function s).1.x)]) (init Y.static g) := by
  have h1 := Newton.solve_fresh (P := driverProblem Y Z L u) (I := Reached Y ops g) (fun _ => rfl)
    (fun x c hc => reached_coefficients x c hc) (fun _ => rfl) rank0 s ⟨[], by rw [hs]; simp [updates]⟩
  have h2 := (Newton.C60_converged_partial _ rank0 s n hready h).2.1 hcrit
  generalize (Newton.solve (driverProblem Y Z L u) rank0 .function s).1 = t at *
  refine ⟨balanced_of_small hY hops hlaw h23 hconsts hc hN h1 h2.2.1, ?_⟩
  obtain ⟨c, ⟨us, hus⟩, hc1, hb⟩ := h1
  refine ⟨us, ?_⟩
  rw [hc1, hus]
  show _ = List.foldl _ _ (ops ++ updates Y us ++ _)
  rw [List.foldl_append]
  rfl

/-! ### the loop over load steps -/

/-- What holds before a load step: the contact problem has a history in which everything was generated and the
last detection was done at `r.u`, the one before at `uold`. -/
structure BeforeStep (Y : System G) (Z : Setting G) (mu lam fric h : Packed) (law : Law) (gamma theta : ℝ)
    (rank0 : Bool) (opts : Newton.Opts) (uold : ℕ → ℝ) (r : Run G) : Prop where
  ready : Newton.Ready rank0 r.solver
  opts : r.solver.opts = opts
  hist : ∃ ops, (∀ op ∈ ops, OpShaped Y.static op) ∧ lastLaw ops none = some law
    ∧ lastConsts ops none = some (gamma, theta)
    ∧ r.solver.coeffs = history Y.static ops (init Y.static (Z.place fun _ => 0))
    ∧ SameData (stepData Y Z.place mu lam fric h r.u uold) ((Tracked.new (Z.place fun _ => 0)).history ops)

section

variable {Z : Setting G} {mu lam fric h : Packed} {law : Law} {gamma theta : ℝ} {rank0 : Bool} {opts : Newton.Opts}

/-- The contact problem raises nothing in a load step, and the next one can start. -/
theorem loadStep_ok (hY : System.Valid Y) (h23 : law ≠ .frictionless → Y.gdim = 2 ∨ Y.gdim = 3)
    (hN : DofsBelow Y Z.numDofs) (hcrit : opts.crit = .residual) {L : LoadCase} {uold : ℕ → ℝ} {r : Run G}
    (H : BeforeStep Y Z mu lam fric h law gamma theta rank0 opts uold r) :
    (∃ e, loadStep Y Z rank0 L r = .error (.newton e))
    ∨ ∃ R r', loadStep Y Z rank0 L r = .ok (R, r') ∧ R.before = r.u ∧ r'.u = (fun d => r.u d + R.du d)
      ∧ BeforeStep Y Z mu lam fric h law gamma theta rank0 opts r.u r'
      ∧ (R.converged = true → Balanced Y (stepData Y Z.place mu lam fric h r.u uold) law gamma theta L Z.numDofs
        r.u R.du opts.atol) := by
  obtain ⟨hready, hopts, ops, hops, hlaw, hconsts, hco, hsame⟩ := H
  have hcr : ((Tracked.new (Z.place fun _ => 0)).history ops).created = true := hsame.created
  have hfresh := Newton.solve_fresh (P := driverProblem Y Z L r.u) (I := Reached Y ops (Z.place fun _ => 0)) (fun _ => rfl)
    (fun x c hc => reached_coefficients x c hc) (fun _ => rfl) rank0 r.solver ⟨[], by rw [hco]; simp [updates]⟩
  have hbal := fun n hn => (C139_converged hY ops hops _ law hlaw h23 gamma theta hconsts hcr Z hN L r.u rank0 r.solver hco
    hready (by rw [hopts]; exact hcrit) n hn).1
  have hre := fun n c hn => Newton.solve_ready (driverProblem Y Z L r.u) rank0 r.solver n c hready hn
  unfold loadStep
  generalize Newton.solve (driverProblem Y Z L r.u) rank0 .function r.solver = out at *
  obtain ⟨s, res⟩ := out
  cases res with
  | error e => exact Or.inl ⟨e, rfl⟩
  | ok p =>
    obtain ⟨n, conv⟩ := p
    right
    dsimp only at hfresh hbal hre ⊢
    obtain ⟨us, hus⟩ := hfresh.inv (fun x c hc => reached_coefficients x c hc)
    obtain ⟨x, hx⟩ : ∃ x, x = s.x := ⟨_, rfl⟩
    rw [← hx] at hbal ⊢
    obtain ⟨u', hu'⟩ : ∃ u' : ℕ → ℝ, u' = fun d => r.u d + x d := ⟨_, rfl⟩
    rw [← hu']
    obtain ⟨ops1, hops1⟩ : ∃ ops1, ops1 = ops ++ updates Y us := ⟨_, rfl⟩
    rw [← hops1] at hus
    have sh1 : ∀ op ∈ ops1, OpShaped Y.static op := by rw [hops1]; exact updates_shaped hY hops us
    have sd1 : SameData (stepData Y Z.place mu lam fric h r.u uold) ((Tracked.new (Z.place fun _ => 0)).history ops1) := by
      rw [hops1]; exact hsame.trans (SameData.updates ops us _)
    have G1 := good_history (static_shaped hY) ops1 sh1 (good_init Y.static (Z.place fun _ => 0))
    have hgu : GradShaped Y.static (Y.packGrad u') := (du_shaped hY u').grad
    obtain ⟨c2, k2, G2⟩ := good_updateDetection (static_shaped hY) (fun _ => Z.place u') hgu G1 sd1.created
    obtain ⟨c3, k3, -⟩ := good_updateData (static_shaped hY) (du_shaped hY (fun d => 0.1 * x d)) G2 sd1.created
    rw [hus, k2]
    dsimp only
    rw [k3]
    dsimp only
    refine ⟨_, _, rfl, rfl, ?_, ⟨?_, ?_, ops1 ++ [.updateDetection (fun _ => Z.place u') (Y.packGrad u')]
      ++ [.updateData (Y.du (fun d => 0.1 * x d))], ?_, ?_, ?_, ?_, ?_⟩, ?_⟩
    · exact hu'
    · have := (hre n conv rfl).1
      rcases this with h | h | h
      · exact Or.inl h
      · exact Or.inr (Or.inl h)
      · exact Or.inr (Or.inr h)
    · exact ((hre n conv rfl).2).trans hopts
    · intro op hop
      simp only [List.mem_append, List.mem_singleton] at hop
      rcases hop with (hop | rfl) | rfl
      · exact sh1 op hop
      · exact hgu
      · exact du_shaped hY _
    · have e1 : lastLaw ops1 none = some law := by rw [hops1, updates_law, hlaw]
      exact (updates_law (Y := Y) _ [fun d => 0.1 * x d] none).trans ((lastLaw_detection ops1 _ _ none).trans e1)
    · have e1 : lastConsts ops1 none = some (gamma, theta) := by rw [hops1, updates_consts, hconsts]
      exact (updates_consts (Y := Y) _ [fun d => 0.1 * x d] none).trans ((lastConsts_detection ops1 _ _ none).trans e1)
    · have e2 : call Y.static (.updateDetection (fun _ => Z.place u') (Y.packGrad u'))
          (history Y.static ops1 (init Y.static (Z.place fun _ => 0))) = .ok c2 := k2
      have e3 : call Y.static (.updateData (Y.du (fun d => 0.1 * x d))) c2 = .ok c3 := k3
      rw [history_snoc, history_snoc, e2]
      unfold after
      dsimp only
      rw [e3]
    · rw [tracked_snoc, tracked_detection ops1 _ _ _ sd1.created]
      refine SameData.trans ?_ (SameData.update _ _)
      refine ⟨sd1.created, ?_, sd1.cur, sd1.mu, sd1.lam, sd1.fric, sd1.h, ?_⟩
      · exact rfl
      · exact rfl
    · intro hconv
      dsimp only at hconv
      subst hconv
      have hb := hbal n rfl
      refine ⟨hopts ▸ hb.1, fun v hv => ?_⟩
      have := hb.2 v hv
      rw [hsame.form, hopts] at this
      exact this

/-- Reports of the loop. -/
theorem loadSteps_ok (hY : System.Valid Y) (h23 : law ≠ .frictionless → Y.gdim = 2 ∨ Y.gdim = 3)
    (hN : DofsBelow Y Z.numDofs) (hcrit : opts.crit = .residual) (Ls : List LoadCase) (uold : ℕ → ℝ) (r : Run G)
    (H : BeforeStep Y Z mu lam fric h law gamma theta rank0 opts uold r) :
    (∀ e, (loadSteps Y Z rank0 Ls r).2 ≠ some (.contact e))
    ∧ ∀ (i : ℕ) (R : Report) (L : LoadCase), (loadSteps Y Z rank0 Ls r).1[i]? = some R → Ls[i]? = some L →
      R.before = (fun d => r.u d + totalAfter (loadSteps Y Z rank0 Ls r).1 i d)
      ∧ (R.converged = true → Balanced Y (stepData Y Z.place mu lam fric h R.before
          (if i = 0 then uold else fun d => r.u d + totalAfter (loadSteps Y Z rank0 Ls r).1 (i - 1) d))
          law gamma theta L Z.numDofs R.before R.du opts.atol) := by
  induction Ls generalizing uold r with
  | nil => exact ⟨fun e h => by simp [loadSteps] at h, fun i R L h => by simp [loadSteps] at h⟩
  | cons L0 Ls ih =>
    rcases loadStep_ok hY h23 hN hcrit (L := L0) H with ⟨e, he⟩ | ⟨R0, r', he, hbf, hru, H', hbal⟩
    · unfold loadSteps
      rw [he]
      exact ⟨fun e' h => by simp at h, fun i R L h => by simp at h⟩
    · obtain ⟨i1, i2⟩ := ih r.u r' H'
      have e1 : loadSteps Y Z rank0 (L0 :: Ls) r
          = (R0 :: (loadSteps Y Z rank0 Ls r').1, (loadSteps Y Z rank0 Ls r').2) := by
        rw [loadSteps, he]
      rw [e1]
      refine ⟨i1, fun i R L hR hL => ?_⟩
      have tot : ∀ k d, r.u d + totalAfter (R0 :: (loadSteps Y Z rank0 Ls r').1) (k + 1) d
          = r'.u d + totalAfter (loadSteps Y Z rank0 Ls r').1 k d := by
        intro k d
        rw [hru]
        simp only [totalAfter, List.take_succ_cons, List.map_cons, List.sum_cons]
        ring
      cases i with
      | zero =>
        simp only [List.getElem?_cons_zero, Option.some.injEq] at hR hL
        subst hR hL
        rw [hbf]
        refine ⟨by simp [totalAfter], fun hc => ?_⟩
        rw [if_pos rfl]
        exact hbal hc
      | succ k =>
        rw [List.getElem?_cons_succ] at hR hL
        obtain ⟨j1, j2⟩ := i2 k R L hR hL
        refine ⟨by rw [j1]; funext d; rw [tot], fun hc => ?_⟩
        have := j2 hc
        rw [if_neg (by omega), Nat.add_sub_cancel]
        cases k with
        | zero =>
          rw [if_pos rfl] at this
          have z : (fun d => r.u d + totalAfter (R0 :: (loadSteps Y Z rank0 Ls r').1) 0 d) = r.u := by
            funext d; simp [totalAfter]
          rw [z]
          exact this
        | succ m =>
          rw [if_neg (by omega), Nat.add_sub_cancel] at this
          have z : (fun d => r.u d + totalAfter (R0 :: (loadSteps Y Z rank0 Ls r').1) (m + 1) d)
              = fun d => r'.u d + totalAfter (loadSteps Y Z rank0 Ls r').1 m d := by
            funext d; rw [tot]
          rw [z]
          exact this

end

/-- C140: a computation in load steps: the contact problem raises no exception, every step starts from the sum
of the increments of the steps before, and in every step for which the solver reports convergence by the
residual criterion, the increment satisfies the equations of that step up to `atol`, for the contact detected
on the geometry moved by that sum (and the normals of the detection before, for Coulomb friction) and with its
stresses. For all loads, forms, linear solvers, numbers of steps. -/
theorem C140_load_steps (hY : System.Valid Y) (Z : Setting G) (hN : DofsBelow Y Z.numDofs)
    (law : Law) (h23 : law ≠ .frictionless → Y.gdim = 2 ∨ Y.gdim = 3) (gamma theta : ℝ)
    (mu lam fric h : ℕ → Mat) (du : Option (Du G))
    (hshape : OpShaped Y.static (.generate ⟨law, some mu, some lam, some fric, some (Y.packGrad fun _ => 0), du, h, gamma, theta⟩))
    (opts : Newton.Opts) (hcrit : opts.crit = .residual) (rank0 : Bool) (Ls : List LoadCase)
    (out : List Report × Option DriverErr)
    (hout : out = loadSteps Y Z rank0 Ls (startRun Y Z
      ⟨law, some mu, some lam, some fric, some (Y.packGrad fun _ => 0), du, h, gamma, theta⟩ opts)) :
    (∀ e, out.2 ≠ some (.contact e))
    ∧ ∀ (i : ℕ) (R : Report) (L : LoadCase), out.1[i]? = some R → Ls[i]? = some L →
      R.before = totalAfter out.1 i
      ∧ (R.converged = true → Balanced Y
          (stepData Y Z.place (vals mu) (vals lam) (vals fric) (vals h) R.before (totalAfter out.1 (i - 1)))
          law gamma theta L Z.numDofs R.before R.du opts.atol) := by
  obtain ⟨a, ha⟩ : ∃ a : GenArgs G,
      a = ⟨law, some mu, some lam, some fric, some (Y.packGrad fun _ => 0), du, h, gamma, theta⟩ := ⟨_, rfl⟩
  rw [← ha] at hshape hout
  have H : BeforeStep Y Z (vals mu) (vals lam) (vals fric) (vals h) law gamma theta rank0 opts (fun _ => 0)
      (startRun Y Z a opts) := by
    refine ⟨Or.inr (Or.inl (by simp [startRun])), rfl, [.generate a], by simpa using hshape, by rw [ha]; rfl,
      by rw [ha]; rfl, rfl, ?_⟩
    show SameData _ ((Tracked.new (Z.place fun _ => 0)).call (.generate a))
    rw [ha]
    unfold Tracked.call
    dsimp only
    cases du with
    | none => exact ⟨rfl, rfl, rfl, rfl, rfl, rfl, rfl, rfl⟩
    | some du => exact ⟨rfl, rfl, rfl, rfl, rfl, rfl, rfl, rfl⟩
  obtain ⟨h1, h2⟩ := loadSteps_ok hY h23 hN hcrit Ls _ _ H
  rw [← hout] at h1 h2
  refine ⟨h1, fun i R L hR hL => ?_⟩
  obtain ⟨k1, k2⟩ := h2 i R L hR hL
  have z : ∀ n, (fun d => (startRun Y Z a opts).u d + totalAfter out.1 n d) = totalAfter out.1 n := by
    intro n
    funext d
    simp [startRun]
  rw [z] at k1 k2
  refine ⟨k1, fun hc => ?_⟩
  have := k2 hc
  cases i with
  | zero =>
    have z0 : totalAfter out.1 (0 - 1) = fun _ => 0 := by funext d; simp [totalAfter]
    rw [z0]
    exact this
  | succ k => exact this

/-! ### the last iteration -/

section

variable {p : ContactPoint} {T : ℕ → ℝ} {S : ℕ → ℕ → ℝ}

theorem dForm_away (hT : ∀ a < p.g, T a = 0) (hS : ∀ a < p.g, ∀ b < p.g, S a b = 0) (Sl : Slope) (law : Law)
    (gamma theta : ℝ) (J : ℕ → ℝ) (D : ℕ → ℕ → ℝ) (K : ℕ → ℝ) (E : ℕ → ℕ → ℝ) :
    p.dForm Sl law gamma theta J D K E T S = 0 := by
  have d1 : p.dot T = 0 := sum_eq_zero (fun a ha => by rw [hT a (mem_range.mp ha), zero_mul])
  have tr : ∀ a < p.g, p.trac S a = 0 := fun a ha => trac_zero p hS ha
  have d2 : p.dot (p.trac S) = 0 := sum_eq_zero (fun a ha => by rw [tr a (mem_range.mp ha), zero_mul])
  have t1 : ∀ a < p.g, p.tang T a = 0 := fun a ha => by rw [ContactPoint.tang, d1, hT a ha]; ring
  have t2 : ∀ a < p.g, p.tang (p.trac S) a = 0 := fun a ha => by rw [ContactPoint.tang, d2, tr a ha]; ring
  rw [ContactPoint.dForm, ContactPoint.dNormalPart, ContactPoint.dFrictionPart, d1, d2,
    sum_eq_zero (fun a ha => by rw [t1 a (mem_range.mp ha), t2 a (mem_range.mp ha)]; ring),
    sum_eq_zero (fun a ha => by rw [t2 a (mem_range.mp ha)]; ring)]
  simp

end

/-- The unit vector of dof `d`. -/
def unit (d : ℕ) : ℕ → ℝ := fun c => if c = d then 1 else 0

theorem contactTangent_away {t : Tracked G} {d : ℕ} (h : AwayFromContact Y t d) (Sl : Slope) (law : Law)
    (gamma theta : ℝ) (u w : ℕ → ℝ) : contactTangent Y t Sl law gamma theta u w (unit d) = 0 := by
  unfold contactTangent
  refine sum_eq_zero (fun i hi => sum_eq_zero (fun e he => ?_))
  cases hf : (Y.facets i)[e]? with
  | none => rw [Option.elim_none]
  | some c =>
    obtain ⟨cell, f⟩ := c
    rw [Option.elim_some]
    refine sum_eq_zero (fun q hq => ?_)
    obtain ⟨h1, h2⟩ := h i (mem_range.mp hi) e (mem_range.mp he) cell f hf
    split
    · rename_i hl
      dsimp only
      rw [dForm_away (fun a ha => ?_) (fun a ha b _ => ?_), mul_zero]
      · have e1 : valueAt Y cell f (unit d) q a = 0 := sum_eq_zero (fun k hk => by
          rw [unit, if_neg (h1 k (mem_range.mp hk) a ha), mul_zero])
        have e2 : oppositeAt Y t.cur i e (unit d) q a = 0 := sum_eq_zero (fun k hk => by
          rw [unit, if_neg (h2 q (mem_range.mp hq) hl k (mem_range.mp hk) a ha), mul_zero])
        rw [jumpAt, e1, e2, sub_zero]
      · exact sum_eq_zero (fun k hk => by rw [unit, if_neg (h1 k (mem_range.mp hk) a ha), mul_zero])
    · rfl

theorem SameData.tangent {t t' : Tracked G} (h : SameData t t') (Sl : Slope) (law : Law) (gamma theta : ℝ)
    (u w v : ℕ → ℝ) :
    contactTangent Y t' Sl law gamma theta u w v = contactTangent Y t Sl law gamma theta u w v := by
  obtain ⟨h0, h1, h2, h3, h4, h5, h6, h7⟩ := h
  obtain ⟨a0, a1, a2, a3, a4, a5, a6, a7, a8, a9, a10⟩ := t
  obtain ⟨b0, b1, b2, b3, b4, b5, b6, b7, b8, b9, b10⟩ := t'
  dsimp only at h0 h1 h2 h3 h4 h5 h6 h7
  subst h0 h1 h2 h3 h4 h5 h6 h7
  rfl

section

variable {law : Law} {gamma theta : ℝ} {ops : List (Op G)} {g : G} {N : ℕ}

/-- Entries of the contact vector. -/
theorem driver_entry (hY : System.Valid Y) (hops : ∀ op ∈ ops, OpShaped Y.static op)
    (hlaw : lastLaw ops none = some law) (h23 : law ≠ .frictionless → Y.gdim = 2 ∨ Y.gdim = 3)
    (hconsts : lastConsts ops none = some (gamma, theta))
    (hc : ((Tracked.new g).history ops).created = true) (hN : DofsBelow Y N)
    {c : State G} (h : Reached Y ops g c) (x : ℕ → ℝ) {d : ℕ} (hd : d < N) :
    contactVector Y (driverCoefficients Y x c) d
      = contactForm Y ((Tracked.new g).history ops) law gamma theta x (unit d) := by
  rw [← (driver_vector hY hops hlaw h23 hconsts hc hN h x).2.2 (unit d)]
  simp [unit, hd]

/-- Rows of the contact matrix. -/
theorem driver_row (hY : System.Valid Y) (hops : ∀ op ∈ ops, OpShaped Y.static op)
    (hlaw : lastLaw ops none = some law)
    (h23 : law ≠ .frictionless → (Y.gdim = 2 ∨ Y.gdim = 3) ∧ UnitNormals Y ((Tracked.new g).history ops))
    (hconsts : lastConsts ops none = some (gamma, theta))
    (hc : ((Tracked.new g).history ops).created = true) (hN : DofsBelow Y N)
    {c : State G} (h : Reached Y ops g c) (x w : ℕ → ℝ) {d : ℕ} (hd : d < N) :
    ∑ k ∈ range N, contactMatrix Y (driverCoefficients Y x c) (d, k) * w k
      = contactTangent Y ((Tracked.new g).history ops) cutSlope law gamma theta x w (unit d) := by
  obtain ⟨us, rfl⟩ := h
  have hs := SameData.updates (Y := Y) ops us (Tracked.new g)
  have hcs : (history Y.static (ops ++ updates Y us) (init Y.static g)).coeffs ≠ none := by
    rcases C38_size (static_shaped hY) _ (updates_shaped hY hops us) g with ⟨h1, -⟩ | ⟨-, cs, h1, -⟩
    · rw [hs.created, hc] at h1; cases h1
    · rw [h1]; simp
  have hun : law ≠ .frictionless →
      (Y.gdim = 2 ∨ Y.gdim = 3) ∧ UnitNormals Y ((Tracked.new g).history (ops ++ updates Y us)) := by
    intro hl
    refine ⟨(h23 hl).1, ?_⟩
    intro i hi e he q hq
    rw [hs.cur]
    exact (h23 hl).2 i hi e he q hq
  obtain ⟨s', A, h1, h2, h3⟩ := C131_matrix hY _ (updates_shaped hY hops us) g law ((updates_law ops us none).trans hlaw) hun
    gamma theta ((updates_consts ops us none).trans hconsts) _ rfl hcs N hN x
  have e1 : driverCoefficients Y x (history Y.static (ops ++ updates Y us) (init Y.static g)) = s' := by
    unfold driverCoefficients
    rw [h1]
    rfl
  have e2 : contactMatrix Y s' = A := by
    unfold contactMatrix
    rw [h2]
  rw [e1, e2, ← hs.tangent, ← h3 w (unit d)]
  simp [unit, hd]

/-- An exact Newton step without change of status ends with zero residual. -/
theorem settled (hY : System.Valid Y) (hops : ∀ op ∈ ops, OpShaped Y.static op)
    (hlaw : lastLaw ops none = some law)
    (h23 : law ≠ .frictionless → (Y.gdim = 2 ∨ Y.gdim = 3) ∧ UnitNormals Y ((Tracked.new g).history ops))
    (hconsts : lastConsts ops none = some (gamma, theta))
    (hc : ((Tracked.new g).history ops).created = true) {Z : Setting G} (hN : DofsBelow Y Z.numDofs)
    {L : LoadCase} {K : ℕ → ℕ → ℝ} {l : ℕ → ℝ} (hL : LinearBulk L Z.numDofs K l)
    (hbc : ∀ d < Z.numDofs, L.bc d ≠ none → AwayFromContact Y ((Tracked.new g).history ops) d)
    {c : State G} (h : Reached Y ops g c) {u x dx : ℕ → ℝ} {s : State G} (hs : s = driverCoefficients Y x c)
    (hdx : ∀ d < Z.numDofs, ∑ k ∈ range Z.numDofs, driverJacobian Y L u x s (d, k) * dx k = driverResidual Y Z L u x s d)
    (hst : SameStatus Y ((Tracked.new g).history ops) law gamma x (fun d => x d + -dx d)) {d : ℕ} (hd : d < Z.numDofs) :
    driverResidual Y Z L u (fun d => x d + -dx d) (driverCoefficients Y (fun d => x d + -dx d) s) d = 0 := by
  obtain ⟨y, hy⟩ : ∃ y : ℕ → ℝ, y = fun d => x d + -dx d := ⟨_, rfl⟩
  have hyd : ∀ d, y d = x d + -dx d := fun d => by rw [hy]
  rw [← hy] at hst ⊢
  have hrow := fun (w : ℕ → ℝ) {d : ℕ} (hd : d < Z.numDofs) =>
    driver_row hY hops hlaw h23 hconsts hc hN h x w hd
  rw [← hs] at hrow
  have hR : Reached Y ops g s := by rw [hs]; exact reached_coefficients x c h
  -- prescribed dofs
  have hpre : ∀ d < Z.numDofs, ∀ g', L.bc d = some g' → dx d = x d - g' := by
    intro d hd g' hg
    have hz : ∀ k < Z.numDofs, contactMatrix Y s (d, k) = 0 := by
      intro k hk
      have := hrow (unit k) hd
      rw [contactTangent_away (hbc d hd (by rw [hg]; simp))] at this
      simpa [unit, hk] using this
    have := hdx d hd
    rw [driverResidual_bc Y hg] at this
    rw [← this, sum_eq_single_of_mem d (mem_range.mpr hd) (fun k hk hkd => ?_)]
    · unfold driverJacobian
      simp [hg]
    · unfold driverJacobian
      simp only [hg, reduceCtorEq, false_and, if_false, Ne.symm hkd, hz k (mem_range.mp hk), zero_mul]
  cases hb : L.bc d with
  | some g' =>
    rw [driverResidual_bc Y hb, hyd, hpre d hd g' hb]
    ring
  | none =>
    have h1 := hdx d hd
    rw [driverResidual_free Y hb] at h1 ⊢
    have ev : contactVector Y s d = contactForm Y ((Tracked.new g).history ops) law gamma theta x (unit d) := by
      rw [hs]
      exact driver_entry hY hops hlaw (fun hl => (h23 hl).1) hconsts hc hN h x hd
    have ev' : contactVector Y (driverCoefficients Y y s) d
        = contactForm Y ((Tracked.new g).history ops) law gamma theta y (unit d) :=
      driver_entry hY hops hlaw (fun hl => (h23 hl).1) hconsts hc hN hR y hd
    have eA : contactForm Y ((Tracked.new g).history ops) law gamma theta y (unit d)
        = contactForm Y ((Tracked.new g).history ops) law gamma theta x (unit d)
          - ∑ k ∈ range Z.numDofs, contactMatrix Y s (d, k) * dx k := by
      rw [hy] at hst ⊢
      rw [contactForm_affine _ law gamma theta x (fun d => -dx d) (unit d) hst, ← hrow (fun d => -dx d) hd]
      simp only [mul_neg, sum_neg_distrib]
      ring
    have lift : ∑ k ∈ range Z.numDofs, (L.bc k).elim 0 (fun g => L.stiff (fun c => u c + y c) d k * (g - y k)) = 0 := by
      refine sum_eq_zero (fun k hk => ?_)
      cases hk' : L.bc k with
      | none => rfl
      | some g' =>
        rw [Option.elim_some, hyd, hpre k (mem_range.mp hk) g' hk']
        ring
    have bulk : L.bulk (fun c => u c + y c) d = L.bulk (fun c => u c + x c) d - ∑ k ∈ range Z.numDofs, K d k * dx k := by
      rw [hL.1 _ d hd, hL.1 _ d hd]
      have : ∑ k ∈ range Z.numDofs, K d k * (u k + y k)
          = ∑ k ∈ range Z.numDofs, K d k * (u k + x k) - ∑ k ∈ range Z.numDofs, K d k * dx k := by
        rw [← sum_sub_distrib]
        exact sum_congr rfl (fun k _ => by rw [hyd]; ring)
      rw [this]
      ring
    have jac : ∑ k ∈ range Z.numDofs, driverJacobian Y L u x s (d, k) * dx k
        = ∑ k ∈ range Z.numDofs, contactMatrix Y s (d, k) * dx k + ∑ k ∈ range Z.numDofs, K d k * dx k
          + ∑ k ∈ range Z.numDofs, (L.bc k).elim 0 (fun g => L.stiff (fun c => u c + x c) d k * (g - x k)) := by
      rw [← sum_add_distrib, ← sum_add_distrib]
      refine sum_congr rfl (fun k hk => ?_)
      have hk2 := mem_range.mp hk
      unfold driverJacobian
      cases hk' : L.bc k with
      | none =>
        simp only [hb, hk', ne_eq, not_true_eq_false, and_false, and_self, if_true, if_false, Option.elim_none,
          hL.2 _ d hd k hk2]
        ring
      | some g' =>
        simp only [hb, hk', ne_eq, not_true_eq_false, and_false, reduceCtorEq, if_false, Option.elim_some,
          hL.2 _ d hd k hk2, hpre k hk2 g' hk']
        ring
    rw [jac] at h1
    rw [lift, bulk, ev', eA, ← ev]
    linarith

end

/-- C141: the iteration ends as soon as the contact status no longer changes. If the bulk is linearly elastic,
the prescribed dofs are not at the contact surface, and in the state `s` of a solve (the contact data and the
residual are those of the iterate) the linear solver solves its system and no point changes its status from
`x` to `x - dx`, then the full step is taken, the new residual is zero, and the residual criterion accepts it
(for positive tolerances, unless the reference `initial_residual` is zero). -/
theorem C141_settled (hY : System.Valid Y) (ops : List (Op G)) (hops : ∀ op ∈ ops, OpShaped Y.static op)
    (g : G) (law : Law) (hlaw : lastLaw ops none = some law)
    (h23 : law ≠ .frictionless → (Y.gdim = 2 ∨ Y.gdim = 3) ∧ UnitNormals Y ((Tracked.new g).history ops))
    (gamma theta : ℝ) (hconsts : lastConsts ops none = some (gamma, theta))
    (hc : ((Tracked.new g).history ops).created = true)
    (Z : Setting G) (hN : DofsBelow Y Z.numDofs) (L : LoadCase) (u : ℕ → ℝ)
    (K : ℕ → ℕ → ℝ) (l : ℕ → ℝ) (hL : LinearBulk L Z.numDofs K l)
    (hbc : ∀ d < Z.numDofs, L.bc d ≠ none → AwayFromContact Y ((Tracked.new g).history ops) d)
    (rank0 : Bool) (s : Newton.St (ℕ → ℝ) (ℕ → ℝ) (State G)) (us : List (ℕ → ℝ))
    (hcoeffs : s.coeffs = history Y.static (ops ++ us.map (fun w => .updateData (Y.du w)) ++ [.updateData (Y.du s.x)])
      (init Y.static g))
    (hb : s.b = driverResidual Y Z L u s.x s.coeffs)
    (A : ℕ × ℕ → ℝ) (hA : A = driverJacobian Y L u s.x s.coeffs) (dx : ℕ → ℝ)
    (hdx : dx = (Z.linSolve A s.b (s.dx.getD 0)).1) (hsol : SolvesExactly Z A s.b (s.dx.getD 0))
    (hst : SameStatus Y ((Tracked.new g).history ops) law gamma s.x (fun d => s.x d + -dx d))
    (hcrit : s.opts.crit = .residual) (hatol : 0 < s.opts.atol) (hrtol : 0 < s.opts.rtol)
    (href : if s.iteration = 0 then norm2 Z.numDofs dx ≠ 0 else s.initialResidual ≠ 0) :
    ∃ s', Newton.body (driverProblem Y Z L u) rank0 (norm2 Z.numDofs s.b) s = (s', .ok (true, 0))
      ∧ s'.x = (fun d => s.x d + -dx d) ∧ (∀ d < Z.numDofs, s'.b d = 0)
      ∧ s'.b = driverResidual Y Z L u s'.x s'.coeffs ∧ s'.iteration = s.iteration + 1 := by
  obtain ⟨c, hcd⟩ : ∃ c, c = history Y.static (ops ++ updates Y us) (init Y.static g) := ⟨_, rfl⟩
  have hco : s.coeffs = driverCoefficients Y s.x c := by
    rw [hcoeffs, history_snoc, hcd]
    rfl
  obtain ⟨hreason, hsolve⟩ := hsol
  rw [← hdx, hA, hb] at hsolve
  have hres := fun {d : ℕ} (hd : d < Z.numDofs) => settled (u := u) hY hops hlaw h23 hconsts hc hN hL hbc ⟨us, hcd⟩ hco hsolve hst hd
  have hx1 : Newton.updateSolution 1.0 dx s.x = fun d => s.x d + -dx d := by
    funext d
    show s.x d + (-1.0) * dx d = _
    norm_num
  obtain ⟨y, hy⟩ : ∃ y : ℕ → ℝ, y = fun d => s.x d + -dx d := ⟨_, rfl⟩
  rw [← hy] at hx1 hres ⊢
  obtain ⟨P, hP⟩ : ∃ P, P = driverProblem Y Z L u := ⟨_, rfl⟩
  have hlin : P.linSolve (P.jacobian s.x s.coeffs) s.b (s.dx.getD 0)
      = (dx, (Z.linSolve A s.b (s.dx.getD 0)).2.1, (Z.linSolve A s.b (s.dx.getD 0)).2.2) := by
    rw [hP, hdx, hA]
    rfl
  obtain ⟨its, hits⟩ : ∃ its, its = (Z.linSolve A s.b (s.dx.getD 0)).2.1 := ⟨_, rfl⟩
  obtain ⟨reason, hre⟩ : ∃ reason, reason = (Z.linSolve A s.b (s.dx.getD 0)).2.2 := ⟨_, rfl⟩
  rw [← hits, ← hre] at hlin
  rw [← hre] at hreason
  have hnB : ∀ b, P.normB b = norm2 Z.numDofs b := fun b => by rw [hP]; rfl
  have hnV : ∀ b, P.normV b = norm2 Z.numDofs b := fun b => by rw [hP]; rfl
  obtain ⟨s2, hs2⟩ : ∃ s2 : Newton.St (ℕ → ℝ) (ℕ → ℝ) (State G), s2 = ⟨s.opts, s.iteration + 1, s.krylov + its,
    s.initialResidual, s.lastResidual, some 1.0, some dx, y, driverCoefficients Y y s.coeffs,
    driverResidual Y Z L u y (driverCoefficients Y y s.coeffs), s.nRes + 1, s.nLin + 1⟩ := ⟨_, rfl⟩
  have hev : Newton.evaluate P ⟨s.opts, s.iteration + 1, s.krylov + its, s.initialResidual, s.lastResidual, some 1.0,
      some dx, s.x, s.coeffs, s.b, s.nRes, s.nLin + 1⟩ (Newton.updateSolution 1.0 dx s.x) = s2 := by
    rw [hx1, hs2, hP]
    rfl
  have hz : norm2 Z.numDofs s2.b = 0 := by
    unfold norm2
    rw [sum_eq_zero (fun d hd => ?_), Real.sqrt_zero]
    rw [hs2]
    show driverResidual Y Z L u y (driverCoefficients Y y s.coeffs) d ^ 2 = 0
    rw [hres (mem_range.mp hd)]
    norm_num
  have hls : Newton.lineSearch P s.x dx (norm2 Z.numDofs s.b) 8 1.0 s2 = some (1.0, s2) := by
    unfold Newton.lineSearch
    rw [if_neg]
    rw [hnB, hz]
    exact not_lt.mpr (Real.sqrt_nonneg _)
  obtain ⟨s5, hs5⟩ : ∃ s5 : Newton.St (ℕ → ℝ) (ℕ → ℝ) (State G), s5 = { s2 with
      initialResidual := if s.iteration = 0 then norm2 Z.numDofs dx else s.initialResidual } := ⟨_, rfl⟩
  have hir : s5.initialResidual ≠ 0 := by
    rw [hs5]
    dsimp only
    split
    · rename_i h0; rw [if_pos h0] at href; exact href
    · rename_i h0; rw [if_neg h0] at href; exact href
  have ht : Newton.testConvergence P rank0 s5 = .ok (0, true) := by
    have hcr : s5.opts.crit = .residual := by rw [hs5, hs2]; exact hcrit
    unfold Newton.testConvergence
    rw [hcr]
    dsimp only
    have hb5 : P.normB s5.b = 0 := by rw [hnB, hs5]; exact hz
    rw [hb5]
    obtain ⟨conv, k1, k2⟩ := Newton.checkConvergence_ok rank0 s5 0 (Or.inr (by rw [hs5, hs2]; simp))
    rw [k1]
    have : conv = true := k2.mpr ⟨hir, by rw [zero_div, hs5, hs2]; exact hrtol, by rw [hs5, hs2]; exact hatol⟩
    rw [this]
  refine ⟨{ s5 with lastResidual := 0 }, ?_, ?_, ?_, ?_, ?_⟩
  · rw [← hP]
    unfold Newton.body
    simp only [hlin]
    rw [if_neg (not_not.mpr hreason), hev, hls]
    dsimp only
    have e5 : (if ({ s2 with relax := some 1.0 } : Newton.St (ℕ → ℝ) (ℕ → ℝ) (State G)).iteration = 1
        then { s2 with relax := some 1.0, initialResidual := P.normV dx } else { s2 with relax := some 1.0 }) = s5 := by
      rw [hs5, hs2, hnV]
      by_cases h0 : s.iteration = 0
      · simp [h0]
      · simp [h0]
    rw [hnB, hz]
    have e6 := e5
    dsimp only at e6
    rw [e6, ht]
  · rw [hs5, hs2]
  · intro d hd
    rw [hs5, hs2]
    exact hres hd
  · rw [hs5, hs2]
  · rw [hs5, hs2]

end

end Verif.ContactProblem
