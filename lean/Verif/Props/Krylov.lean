import Mathlib.Data.List.Induction
import Verif.Spec.Krylov

/-!
Properties C123–C126: options of the linear solver of `NewtonSolver`.
-/

namespace Verif.Krylov

/-! ### the table after a call -/

theorem prefix_inj {a b : String} (h : kspPrefix ++ a = kspPrefix ++ b) : a = b := by
  have := congrArg String.toList h
  simp at this
  exact String.toList_inj.mp this

theorem prefix_ne (a : String) : kspPrefix ++ a ≠ "matptap_via" := by
  intro h
  have := congrArg String.toList h
  simp [kspPrefix] at this

theorem ordinary_iff (k : String) : Ordinary k ↔ k ∉ globalKeys ∧ k ∉ pcKeys := by
  simp [Ordinary, globalKeys, pcKeys]

theorem sort_prefixes (d : Dict) : ∀ o : Opts, (sortOptions o d).1.prefixes = o.prefixes := by
  induction d with
  | nil => intro o; rfl
  | cons p rest ih =>
    intro o
    obtain ⟨k, v⟩ := p
    unfold sortOptions
    split
    · exact ih o
    · split
      · exact ih o
      · rw [ih]; rfl

theorem sort_other (d : Dict) (x : String) (h : ∀ p ∈ d, Ordinary p.1 → x ≠ kspPrefix ++ p.1) :
    ∀ o : Opts, o.prefixes = [kspPrefix] → (sortOptions o d).1.db x = o.db x := by
  induction d with
  | nil => intro o _; rfl
  | cons p rest ih =>
    intro o ho
    obtain ⟨k, v⟩ := p
    have ih' := ih (fun p hp => h p (List.mem_cons_of_mem _ hp))
    unfold sortOptions
    split
    · exact ih' o ho
    · split
      · exact ih' o ho
      · rename_i h1 h2
        rw [ih' (o.set k v) ho]
        have := h (k, v) List.mem_cons_self ((ordinary_iff k).mpr ⟨h1, h2⟩)
        simp [Opts.set, put, ho, this]

theorem sort_named (d : Dict) (hd : IsDict d) {k : String} {v : Val} (hk : Ordinary k) (hm : (k, v) ∈ d) :
    ∀ o : Opts, o.prefixes = [kspPrefix] → (sortOptions o d).1.db (kspPrefix ++ k) = some v := by
  induction d with
  | nil => simp at hm
  | cons p rest ih =>
    intro o ho
    obtain ⟨k', v'⟩ := p
    obtain ⟨hnot, hrest⟩ := List.nodup_cons.mp hd
    unfold sortOptions
    rcases List.mem_cons.mp hm with h | h
    · cases h
      obtain ⟨h1, h2⟩ := (ordinary_iff k).mp hk
      rw [if_neg h1, if_neg h2, sort_other rest _ (fun p hp _ e => hnot ?_) (o.set k v) ho]
      · simp [Opts.set, put, ho]
      · rw [prefix_inj e]
        exact List.mem_map.mpr ⟨p, hp, rfl⟩
    · split
      · exact ih hrest h o ho
      · split
        · exact ih hrest h o ho
        · exact ih hrest h _ ho

theorem sort_global (d : Dict) (o : Opts) : ((sortOptions o d).2.1 : Dict) = d.filter (fun p => p.1 ∈ globalKeys) := by
  induction d generalizing o with
  | nil => rfl
  | cons p rest ih =>
    obtain ⟨k, v⟩ := p
    unfold sortOptions
    split
    · rename_i h; simp [h, ih]
    · rename_i h
      split <;> simp [h, ih]

theorem sort_pc (d : Dict) (o : Opts) : ((sortOptions o d).2.2 : Dict)
    = d.filter (fun p => p.1 ∈ pcKeys ∧ p.1 ∉ globalKeys) := by
  induction d generalizing o with
  | nil => rfl
  | cons p rest ih =>
    obtain ⟨k, v⟩ := p
    unfold sortOptions
    split
    · rename_i h; simp [h, ih]
    · rename_i h
      split <;> rename_i h' <;> simp [h, h', ih]

/-- Storing entries without prefix. -/
theorem fold_set (d : Dict) : ∀ o : Opts, o.prefixes = [] →
    (d.foldl (fun o p => o.set p.1 p.2) o).prefixes = []
    ∧ ∀ x, (∀ p ∈ d, p.1 ≠ x) → (d.foldl (fun o p => o.set p.1 p.2) o).db x = o.db x := by
  induction d with
  | nil => intro o ho; exact ⟨ho, fun _ _ => rfl⟩
  | cons p rest ih =>
    intro o ho
    obtain ⟨h1, h2⟩ := ih (o.set p.1 p.2) ho
    refine ⟨h1, fun x hx => ?_⟩
    show (rest.foldl _ (o.set p.1 p.2)).db x = _
    rw [h2 x (fun p' hp' => hx p' (List.mem_cons_of_mem _ hp'))]
    have : x ≠ p.1 := (hx p List.mem_cons_self).symm
    simp [Opts.set, put, ho, this]

/-- The table after `set_krylov_options`. -/
theorem table_after (d : Dict) (hd : IsDict d) (o : Opts) (ho : o.prefixes = []) (s : Solver) :
    (setKrylovOptions d o s).1.prefixes = []
    ∧ (∀ k v, Ordinary k → (k, v) ∈ d → (setKrylovOptions d o s).1.db (kspPrefix ++ k) = some v)
    ∧ ∀ k, (∀ p ∈ d, p.1 ≠ k) → (setKrylovOptions d o s).1.db (kspPrefix ++ k) = o.db (kspPrefix ++ k) := by
  have hp : (o.push kspPrefix).prefixes = [kspPrefix] := by simp [Opts.push, ho]
  have hpop : (sortOptions (o.push kspPrefix) d).1.pop.prefixes = [] := by
    show (sortOptions (o.push kspPrefix) d).1.prefixes.dropLast = []
    rw [sort_prefixes, hp]; rfl
  obtain ⟨h1, h2⟩ := fold_set (sortOptions (o.push kspPrefix) d).2.1 _ hpop
  have hg : ∀ k, ∀ p ∈ (sortOptions (o.push kspPrefix) d).2.1, p.1 ≠ kspPrefix ++ k := by
    intro k p hp' e
    rw [sort_global] at hp'
    have := (List.mem_filter.mp hp').2
    simp [globalKeys] at this
    exact prefix_ne k (e ▸ this)
  refine ⟨h1, fun k v hk hm => ?_, fun k hk => ?_⟩
  · refine (h2 _ (hg k)).trans ?_
    exact sort_named d hd hk hm _ hp
  · refine (h2 _ (hg k)).trans ?_
    refine (sort_other d _ (fun p hp' _ e => hk p hp' (prefix_inj e).symm) _ hp).trans ?_
    rfl

theorem step_opts (p : Program) (c : Call) :
    ∃ s, (p.step c).opts = (setKrylovOptions c.options p.opts s).1
      ∧ (p.step c).solvers c.id = (setKrylovOptions c.options p.opts s).2
      ∧ s.mat = (p.solvers c.id).mat ∧ s.vec = (p.solvers c.id).vec
      ∧ ∀ k, s.ksp k = none ∨ s.ksp k = (p.solvers c.id).ksp k := by
  cases c with
  | set i d => exact ⟨p.solvers i, rfl, by simp [Program.step, Call.id]; rfl, rfl, rfl, fun _ => Or.inr rfl⟩
  | update i d =>
    exact ⟨{ p.solvers i with ksp := fun _ => none, levels := none, cycles := none }, rfl,
      by simp [Program.step, Call.id, updateKrylovSolver]; rfl, rfl, rfl, fun _ => Or.inl rfl⟩

theorem run_prefixes (cs : List Call) (hd : ∀ c ∈ cs, IsDict c.options) :
    (Program.start.run cs).opts.prefixes = [] := by
  induction cs using List.reverseRecOn with
  | nil => rfl
  | append_singleton cs c ih =>
    rw [Program.run, List.foldl_append]
    obtain ⟨s, h, -⟩ := step_opts (Program.start.run cs) c
    show ((Program.start.run cs).step c).opts.prefixes = []
    rw [h]
    exact (table_after _ (hd c (by simp)) _ (ih (fun c' h' => hd c' (by simp [h']))) s).1

theorem last_concat (cs : List Call) (c : Call) (k : String) (v : Val) :
    LastGiven (cs ++ [c]) k v ↔ (k, v) ∈ c.options ∨ ((∀ p ∈ c.options, p.1 ≠ k) ∧ LastGiven cs k v) := by
  constructor
  · rintro ⟨b, c', a, h, hm, ha⟩
    rcases List.eq_nil_or_concat a with rfl | ⟨a', x, rfl⟩
    · have := List.append_inj' h rfl
      obtain ⟨-, h'⟩ := this
      cases h'
      exact Or.inl hm
    · have h' : cs ++ [c] = (b ++ c' :: a') ++ [x] := by rw [h]; simp
      obtain ⟨h1, h2⟩ := List.append_inj' h' rfl
      cases h2
      refine Or.inr ⟨ha c (by simp), b, c', a', h1, hm, fun y hy => ha y (by simp [hy])⟩
  · rintro (h | ⟨h, b, c', a, rfl, hm, ha⟩)
    · exact ⟨cs, c, [], rfl, h, by simp⟩
    · refine ⟨b, c', a ++ [c], by simp, hm, fun y hy => ?_⟩
      rcases List.mem_append.mp hy with h' | h'
      · exact ha y h'
      · rw [List.mem_singleton.mp h']; exact h

/-- The table holds the value given last, to whichever solver. -/
theorem run_db (cs : List Call) (hd : ∀ c ∈ cs, IsDict c.options) (k : String) (hk : Ordinary k) :
    (∀ v, LastGiven cs k v → (Program.start.run cs).opts.db (kspPrefix ++ k) = some v)
    ∧ (NeverGiven cs k → (Program.start.run cs).opts.db (kspPrefix ++ k) = none) := by
  induction cs using List.reverseRecOn with
  | nil =>
    refine ⟨?_, fun _ => rfl⟩
    rintro v ⟨b, c, a, h, -⟩
    simp at h
  | append_singleton cs c ih =>
    have hd' : ∀ c ∈ cs, IsDict c.options := fun c' h' => hd c' (by simp [h'])
    obtain ⟨ih1, ih2⟩ := ih hd'
    have e : Program.start.run (cs ++ [c]) = (Program.start.run cs).step c := by
      rw [Program.run, List.foldl_append]; rfl
    rw [e]
    obtain ⟨s, h, -⟩ := step_opts (Program.start.run cs) c
    rw [h]
    obtain ⟨-, t1, t2⟩ := table_after _ (hd c (by simp)) _ (run_prefixes cs hd') s
    refine ⟨fun v hv => ?_, fun hn => ?_⟩
    · rcases (last_concat cs c k v).mp hv with h' | ⟨h', h''⟩
      · exact t1 k v hk h'
      · rw [t2 k h']; exact ih1 v h''
    · rw [t2 k (hn c (by simp))]
      exact ih2 (fun c' hc' => hn c' (by simp [hc']))

/-- After a call every object of the solver has the entries of the table. -/
theorem ksp_after (d : Dict) (o : Opts) (s : Solver) (k : String) :
    (setKrylovOptions d o s).2.ksp k = ((setKrylovOptions d o s).1.db (kspPrefix ++ k)).or (s.ksp k)
    ∧ (setKrylovOptions d o s).2.mat k = ((setKrylovOptions d o s).1.db (kspPrefix ++ k)).or (s.mat k)
    ∧ (setKrylovOptions d o s).2.vec k = ((setKrylovOptions d o s).1.db (kspPrefix ++ k)).or (s.vec k) := ⟨rfl, rfl, rfl⟩

/-- An option that was never given is set nowhere. -/
theorem run_unset (cs : List Call) (hd : ∀ c ∈ cs, IsDict c.options) (k : String) (hk : Ordinary k)
    (hn : NeverGiven cs k) (i : Nat) : ((Program.start.run cs).solvers i).ksp k = none := by
  induction cs using List.reverseRecOn with
  | nil => rfl
  | append_singleton cs c ih =>
    have hd' : ∀ c ∈ cs, IsDict c.options := fun c' h' => hd c' (by simp [h'])
    have hn' : NeverGiven cs k := fun c' hc' => hn c' (by simp [hc'])
    have e : Program.start.run (cs ++ [c]) = (Program.start.run cs).step c := by
      rw [Program.run, List.foldl_append]; rfl
    have hdb := (run_db (cs ++ [c]) hd k hk).2 hn
    rw [e] at hdb ⊢
    obtain ⟨s, h, h2, -, -, h3⟩ := step_opts (Program.start.run cs) c
    by_cases hi : i = c.id
    · rw [hi, h2, (ksp_after _ _ _ k).1, ← h, hdb]
      rcases h3 k with h' | h'
      · rw [h']; rfl
      · rw [h', ← hi, ih hd' hn']; rfl
    · show (if i = c.id then _ else _ : Solver).ksp k = none
      rw [if_neg hi]
      exact ih hd' hn'

/-- The solver that was called last has every ordinary option as given last. -/
theorem called_last (cs : List Call) (c : Call) (hd : ∀ c' ∈ cs ++ [c], IsDict c'.options) (k : String) (hk : Ordinary k)
    (v : Val) (hv : LastGiven (cs ++ [c]) k v) :
    ((Program.start.run (cs ++ [c])).solvers c.id).ksp k = some v
    ∧ ((Program.start.run (cs ++ [c])).solvers c.id).mat k = some v
    ∧ ((Program.start.run (cs ++ [c])).solvers c.id).vec k = some v := by
  have hdb := (run_db (cs ++ [c]) hd k hk).1 v hv
  have e : Program.start.run (cs ++ [c]) = (Program.start.run cs).step c := by
    rw [Program.run, List.foldl_append]; rfl
  rw [e] at hdb ⊢
  obtain ⟨s, h, h2, -⟩ := step_opts (Program.start.run cs) c
  obtain ⟨k1, k2, k3⟩ := ksp_after c.options (Program.start.run cs).opts s k
  rw [h2, k1, k2, k3, ← h, hdb]
  exact ⟨rfl, rfl, rfl⟩

/-! ### C123 -/

/-- C123: in a program with one solver, after any sequence of calls every option of linear solver, matrix and
vector has the value given last, and options never given are not set. -/
theorem C123_options (cs : List Call) (hd : ∀ c ∈ cs, IsDict c.options) (i : Nat) (hi : ∀ c ∈ cs, c.id = i)
    (k : String) (hk : Ordinary k) :
    (∀ v, LastGiven cs k v → ((Program.start.run cs).solvers i).ksp k = some v
      ∧ ((Program.start.run cs).solvers i).mat k = some v ∧ ((Program.start.run cs).solvers i).vec k = some v)
    ∧ (NeverGiven cs k → ((Program.start.run cs).solvers i).ksp k = none) := by
  refine ⟨fun v hv => ?_, fun hn => run_unset cs hd k hk hn i⟩
  rcases List.eq_nil_or_concat cs with rfl | ⟨cs', c, hcs⟩
  · obtain ⟨b, c, a, h, -⟩ := hv
    simp at h
  · rw [List.concat_eq_append] at hcs
    subst hcs
    rw [← hi c (by simp)]
    exact called_last cs' c hd k hk v hv

/-- A dictionary for a direct solver, and one for multigrid. -/
def exDirect : Dict := [("ksp_type", some "preonly"), ("pc_type", some "lu")]
def exGamg : Dict := [("pc_type", some "gamg"), ("pc_mg_levels", some "4"), ("ksp_rtol", some "1e-5")]

/-- The hypotheses of C123 hold for two calls. -/
example : (∀ c ∈ [Call.set 0 exGamg, .update 0 exDirect], IsDict c.options)
    ∧ (∀ c ∈ [Call.set 0 exGamg, .update 0 exDirect], c.id = 0) ∧ Ordinary "ksp_rtol"
    ∧ LastGiven [Call.set 0 exGamg, .update 0 exDirect] "ksp_rtol" (some "1e-5") := by
  refine ⟨by simp [IsDict, Call.options, exGamg, exDirect], by simp [Call.id], by simp [Ordinary], [], _, _, rfl, ?_, ?_⟩
  · simp [Call.options, exGamg]
  · rintro c hc ⟨a, b⟩ h
    rw [List.mem_singleton.mp hc] at h
    simp [Call.options, exDirect] at h
    rcases h with ⟨rfl, -⟩ | ⟨rfl, -⟩ <;> simp

/-! ### C124 -/

/-- C124 is violated: `update_krylov_solver`, documented to create a solver "with different set of options", keeps
every option of an earlier call which it is not given again. -/
theorem C124_violated (i : Nat) (d d' : Dict) (hd : IsDict d) (hd' : IsDict d') (k : String) (v : Val)
    (hk : Ordinary k) (hm : (k, v) ∈ d) (hn : ∀ p ∈ d', p.1 ≠ k) :
    ((Program.start.run [.set i d, .update i d']).solvers i).ksp k = some v := by
  refine (called_last [.set i d] (.update i d') ?_ k hk v ⟨[], .set i d, [.update i d'], rfl, hm, ?_⟩).1
  · intro c hc
    simp at hc
    rcases hc with rfl | rfl
    · exact hd
    · exact hd'
  · intro c hc
    rw [List.mem_singleton.mp hc]
    exact hn

/-- The tolerance for multigrid stays when a direct solver is asked for. -/
example : ((Program.start.run [.set 0 exGamg, .update 0 exDirect]).solvers 0).ksp "ksp_rtol" = some (some "1e-5") :=
  C124_violated 0 exGamg exDirect (by simp [IsDict, exGamg]) (by simp [IsDict, exDirect]) _ _ (by simp [Ordinary])
    (by simp [exGamg]) (by simp [exDirect])

/-- C124, what holds: if `update_krylov_solver` is given every option that was ever given before, the new solver has
exactly the options given. -/
theorem C124_partial (cs : List Call) (i : Nat) (d : Dict) (hd : ∀ c ∈ cs, IsDict c.options) (hd' : IsDict d)
    (hall : ∀ c ∈ cs, ∀ p ∈ c.options, Ordinary p.1 → ∃ v, (p.1, v) ∈ d) (k : String) (hk : Ordinary k) (v : Val) :
    ((Program.start.run (cs ++ [.update i d])).solvers i).ksp k = some v ↔ (k, v) ∈ d := by
  have hdd : ∀ c ∈ cs ++ [Call.update i d], IsDict c.options := by
    intro c hc
    rcases List.mem_append.mp hc with h | h
    · exact hd c h
    · rw [List.mem_singleton.mp h]; exact hd'
  have named : ∀ v, (k, v) ∈ d → ((Program.start.run (cs ++ [.update i d])).solvers i).ksp k = some v :=
    fun v hv => (called_last cs (.update i d) hdd k hk v ((last_concat ..).mpr (Or.inl hv))).1
  refine ⟨fun h => ?_, named v⟩
  by_cases hx : ∃ v', (k, v') ∈ d
  · obtain ⟨v', hv'⟩ := hx
    rw [named v' hv'] at h
    cases h
    exact hv'
  · exfalso
    have hn : NeverGiven (cs ++ [.update i d]) k := by
      intro c hc p hp e
      rcases List.mem_append.mp hc with h' | h'
      · obtain ⟨w, hw⟩ := hall c h' p hp (e ▸ hk)
        exact hx ⟨w, e ▸ hw⟩
      · rw [List.mem_singleton.mp h'] at hp
        exact hx ⟨p.2, e ▸ hp⟩
    rw [run_unset _ hdd k hk hn i] at h
    cases h

/-- The hypotheses of C124_partial hold when the direct solver is also given the tolerance. -/
example : IsDict (("ksp_rtol", some "1e-8") :: exDirect)
    ∧ ∀ c ∈ [Call.set 0 exGamg], ∀ p ∈ c.options, Ordinary p.1 → ∃ v, (p.1, v) ∈ ("ksp_rtol", some "1e-8") :: exDirect := by
  constructor
  · simp [IsDict, exDirect]
  · rintro c hc ⟨a, b⟩ h hk
    rw [List.mem_singleton.mp hc] at h
    simp [Call.options, exGamg] at h
    rcases h with ⟨rfl, -⟩ | ⟨rfl, -⟩ | ⟨rfl, -⟩
    · exact ⟨some "lu", by simp [exDirect]⟩
    · exact absurd rfl hk.2.1
    · exact ⟨some "1e-8", by simp⟩

/-! ### C125 -/

/-- C125 is violated: options given to one solver take effect in another one at its next call. -/
theorem C125_violated (i j : Nat) (d d' : Dict) (hd : IsDict d) (hd' : IsDict d') (k : String) (v : Val)
    (hk : Ordinary k) (hm : (k, v) ∈ d) (hn : ∀ p ∈ d', p.1 ≠ k) :
    ((Program.start.run [.set j d, .set i d']).solvers i).ksp k = some v := by
  refine (called_last [.set j d] (.set i d') ?_ k hk v ⟨[], .set j d, [.set i d'], rfl, hm, ?_⟩).1
  · intro c hc
    simp at hc
    rcases hc with rfl | rfl
    · exact hd
    · exact hd'
  · intro c hc
    rw [List.mem_singleton.mp hc]
    exact hn

/-- Solver 0, asked for a direct solve, gets the tolerance of solver 1. -/
example : ((Program.start.run [.set 1 exGamg, .set 0 exDirect]).solvers 0).ksp "ksp_rtol" = some (some "1e-5") :=
  C125_violated 0 1 exGamg exDirect (by simp [IsDict, exGamg]) (by simp [IsDict, exDirect]) _ _ (by simp [Ordinary])
    (by simp [exGamg]) (by simp [exDirect])

/-- C125, what holds: whatever other solvers were given before and after, a solver has the options named in its last
call as given there. -/
theorem C125_partial (before after : List Call) (c : Call) (hd : ∀ c' ∈ before ++ c :: after, IsDict c'.options)
    (hafter : ∀ c' ∈ after, c'.id ≠ c.id) (k : String) (hk : Ordinary k) (v : Val) (hv : (k, v) ∈ c.options) :
    ((Program.start.run (before ++ c :: after)).solvers c.id).ksp k = some v := by
  induction after using List.reverseRecOn with
  | nil => exact (called_last before c hd k hk v ((last_concat ..).mpr (Or.inl hv))).1
  | append_singleton as x ih =>
    have e : before ++ c :: (as ++ [x]) = (before ++ c :: as) ++ [x] := by simp
    have e' : Program.start.run (before ++ c :: (as ++ [x])) = (Program.start.run (before ++ c :: as)).step x := by
      rw [e, Program.run, List.foldl_append]; rfl
    rw [e']
    have hne : c.id ≠ x.id := fun h => hafter x (by simp) h.symm
    show (if c.id = x.id then _ else _ : Solver).ksp k = some v
    rw [if_neg hne]
    refine ih (fun c' hc' => hd c' ?_) (fun c' hc' => hafter c' (by simp [hc']))
    rw [e]; exact List.mem_append_left _ hc'

/-! ### C126 -/

theorem get_of_mem {d : Dict} (hd : IsDict d) {k : String} {v : Val} (hm : (k, v) ∈ d) : d.get k = v := by
  induction d with
  | nil => simp at hm
  | cons p rest ih =>
    obtain ⟨hnot, hrest⟩ := List.nodup_cons.mp hd
    unfold Dict.get
    rcases List.mem_cons.mp hm with h | h
    · subst h; simp
    · have hne : p.1 ≠ k := fun e => hnot (e ▸ List.mem_map_of_mem (f := Prod.fst) h)
      rw [List.find?_cons_of_neg (by simpa using hne)]
      exact ih hrest h

theorem get_of_not_mem {d : Dict} {k : String} (hm : ∀ p ∈ d, p.1 ≠ k) : d.get k = none := by
  unfold Dict.get
  rw [List.find?_eq_none.mpr (by simpa using hm)]
  rfl

theorem pc_get (d : Dict) (hd : IsDict d) (o : Opts) {k : String} (hk : k ∈ pcKeys) (hg : k ∉ globalKeys) :
    (∀ v, (k, v) ∈ d → ((sortOptions o d).2.2 : Dict).get k = v)
    ∧ ((∀ p ∈ d, p.1 ≠ k) → ((sortOptions o d).2.2 : Dict).get k = none) := by
  rw [sort_pc]
  refine ⟨fun v hv => get_of_mem ?_ (List.mem_filter.mpr ⟨hv, by simp [hk, hg]⟩), fun h =>
    get_of_not_mem (fun p hp => h p (List.mem_filter.mp hp).1)⟩
  exact List.Nodup.sublist (List.Sublist.map _ List.filter_sublist) hd

/-- C126 is violated: `pc_mg_cycles` without `pc_mg_levels` has no effect. -/
theorem C126_violated (d : Dict) (hd : IsDict d) (hn : ∀ p ∈ d, p.1 ≠ "pc_mg_levels") (o : Opts) (s : Solver) :
    (setKrylovOptions d o s).2.cycles = s.cycles ∧ (setKrylovOptions d o s).2.levels = s.levels := by
  have h := (pc_get d hd (o.push kspPrefix) (k := "pc_mg_levels") (by simp [pcKeys]) (by simp [globalKeys])).2 hn
  simp [setKrylovOptions, h]

/-- A dictionary with `pc_mg_cycles` alone. -/
example : IsDict [("pc_type", some "gamg"), ("pc_mg_cycles", some "w")]
    ∧ ∀ p ∈ [("pc_type", some "gamg"), ("pc_mg_cycles", some "w")], p.1 ≠ "pc_mg_levels" := by
  simp [IsDict]

/-- C126, what holds: number of levels and kind of cycle are set if both are given, the levels except for `gamg`. -/
theorem C126_partial (d : Dict) (hd : IsDict d) (l : String) (hl : ("pc_mg_levels", some l) ∈ d) (o : Opts) (s : Solver) :
    (∀ c, ("pc_mg_cycles", some c) ∈ d → (setKrylovOptions d o s).2.cycles = some (some c))
    ∧ ((setKrylovOptions d o s).2.ksp "pc_type" ≠ some (some "gamg") → (setKrylovOptions d o s).2.levels = some (some l)) := by
  have h := (pc_get d hd (o.push kspPrefix) (k := "pc_mg_levels") (by simp [pcKeys]) (by simp [globalKeys])).1 _ hl
  refine ⟨fun c hc => ?_, fun ht => ?_⟩
  · have h' := (pc_get d hd (o.push kspPrefix) (k := "pc_mg_cycles") (by simp [pcKeys]) (by simp [globalKeys])).1 _ hc
    simp [setKrylovOptions, h, h']
  · show (if _ ≠ none ∧ (setKrylovOptions d o s).2.ksp "pc_type" ≠ some (some "gamg") then _ else _) = _
    rw [h]
    exact if_pos ⟨by simp, ht⟩

/-- The hypotheses hold for classical multigrid. -/
example : IsDict [("pc_type", some "mg"), ("pc_mg_levels", some "3"), ("pc_mg_cycles", some "w")] := by
  simp [IsDict]

end Verif.Krylov
