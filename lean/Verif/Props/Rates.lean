import Verif.Spec.Rates

/-!
C218: refinement levels and convergence rates of the convergence studies.
-/

namespace Verif.Rates

noncomputable section

variable {S : Type}

theorem loop_eq (double : S → S) (solve : Input S → Level) : ∀ (n s : ℕ) (res : ℝ) (seg : S),
    loop double solve (List.range' s n) res seg
      = (List.range n).map (fun k => ((⟨s + k, res / 2 ^ k, double^[k] seg⟩ : Input S),
          solve ⟨s + k, res / 2 ^ k, double^[k] seg⟩))
  | 0, _, _, _ => rfl
  | n + 1, s, res, seg => by
    rw [List.range'_succ, List.range_succ_eq_map, List.map_cons, List.map_map, loop, loop_eq double solve n]
    simp only [pow_zero, div_one, Nat.add_zero, Function.iterate_zero, id]
    congr 1
    refine List.map_congr_left (fun k _ => ?_)
    have e : 0.5 * res / 2 ^ k = res / 2 ^ (k + 1) := by rw [pow_succ]; ring
    simp only [Function.comp, e, Nat.succ_eq_add_one, Function.iterate_succ_apply, Nat.add_assoc, Nat.add_comm 1 k]

theorem double1_iterate (k n : ℕ) : double1^[k] n = n * 2 ^ k := by
  induction k generalizing n with
  | zero => simp
  | succ k ih => rw [Function.iterate_succ_apply, ih, double1, pow_succ]; ring

theorem double2_iterate (k : ℕ) (n : ℕ × ℕ) : double2^[k] n = (n.1 * 2 ^ k, n.2 * 2 ^ k) := by
  induction k generalizing n with
  | zero => simp
  | succ k ih => rw [Function.iterate_succ_apply, ih, double2, pow_succ]; congr 1 <;> ring

theorem ceil1 : 2 * ⌈(5 : ℝ) / (1.2 * 0.7)⌉₊ = 12 := by
  have : ⌈(5 : ℝ) / (1.2 * 0.7)⌉₊ = 6 := (Nat.ceil_eq_iff (by norm_num)).mpr ⟨by norm_num, by norm_num⟩
  rw [this]

theorem ceil2 : 2 * ⌈(5 : ℝ) / 1.2⌉₊ = 10 := by
  have : ⌈(5 : ℝ) / 1.2⌉₊ = 5 := (Nat.ceil_eq_iff (by norm_num)).mpr ⟨by norm_num, by norm_num⟩
  rw [this]

/-- The report of a study. -/
theorem study_eq (double : S → S) (tdim : ℕ) (solve : Input S → Level) (res : ℝ) (seg : S) (runs : ℕ) :
    study double tdim solve res seg (runs + 1 : ℕ) = .ok
      ((List.range (runs + 1)).map (fun k => (⟨k + 1, res / 2 ^ k, double^[k] seg⟩ : Input S)),
        ⟨(List.range (runs + 1)).map (fun k => (solve ⟨k + 1, res / 2 ^ k, double^[k] seg⟩).error),
          (List.range (runs + 1)).map (fun k => (solve ⟨k + 1, res / 2 ^ k, double^[k] seg⟩).dofs),
          (List.range runs).map (fun k =>
            ((Num.val (solve ⟨k + 1, res / 2 ^ k, double^[k] seg⟩).error).log.sub
                (Num.val (solve ⟨k + 1 + 1, res / 2 ^ (k + 1), double^[k + 1] seg⟩).error).log).div
              ((size tdim (solve ⟨k + 1, res / 2 ^ k, double^[k] seg⟩).dofs).log.sub
                (size tdim (solve ⟨k + 1 + 1, res / 2 ^ (k + 1), double^[k + 1] seg⟩).dofs).log))⟩) := by
  unfold study
  have ht : ((runs + 1 : ℕ) : ℤ).toNat = runs + 1 := Int.toNat_natCast _
  simp only [ht, loop_eq, Nat.add_comm 1]
  rw [if_neg (by simp)]
  simp only [List.map_map]
  congr 3
  refine List.map_congr_left (fun k hk => ?_)
  have hk' : k < runs := List.mem_range.mp hk
  have hd : ∀ x : ℕ → Num, (logDiff (runs + 1) x).getD k .nan = (x k).log.sub (x (k + 1)).log := by
    intro x
    unfold logDiff
    rw [List.getD_eq_getElem?_getD]
    simp [hk', Nat.add_comm 1]
  rw [hd, hd]
  have h1 : k < runs + 1 := by omega
  have h2 : k + 1 < runs + 1 := by omega
  simp [List.getD_eq_getElem?_getD, h1, h2]

/-- The logarithm of the mesh size. -/
theorem log_size (d : ℕ) {n : ℕ} (hn : 0 < n) :
    (size d n).log = .val (-(1 / (d : ℝ) * Real.log n)) := by
  have hn' : (0 : ℝ) < n := Nat.cast_pos.mpr hn
  have hp : (0 : ℝ) < (n : ℝ) ^ ((1 : ℝ) / d) := Real.rpow_pos_of_pos hn' _
  unfold size Num.div
  simp only [if_neg hp.ne']
  unfold Num.log
  simp only
  rw [if_pos (by positivity), one_div, Real.log_inv, Real.log_rpow hn']

/-- The rate of two levels is their order. -/
theorem rate_order {d n n' : ℕ} {e e' : ℝ} (hd : 0 < d) (hn : 0 < n) (hn' : 0 < n') (hne : n ≠ n') (he : 0 < e)
    (he' : 0 < e') :
    ∃ p : ℝ, ((Num.val e).log.sub (Num.val e').log).div ((size d n).log.sub (size d n').log) = .val p
      ∧ p * (Real.log n' - Real.log n) = d * (Real.log e - Real.log e') := by
  have hnR : (0 : ℝ) < n := Nat.cast_pos.mpr hn
  have hnR' : (0 : ℝ) < n' := Nat.cast_pos.mpr hn'
  have hl : Real.log n' - Real.log n ≠ 0 := by
    intro h
    have := Real.log_injOn_pos (Set.mem_Ioi.mpr hnR') (Set.mem_Ioi.mpr hnR) (sub_eq_zero.mp h)
    exact hne (Nat.cast_injective this).symm
  have hdR : (0 : ℝ) < d := Nat.cast_pos.mpr hd
  have hq : -(1 / (d : ℝ) * Real.log n) - -(1 / (d : ℝ) * Real.log n') = (Real.log n' - Real.log n) / d := by ring
  refine ⟨(Real.log e - Real.log e') / ((Real.log n' - Real.log n) / d), ?_, by field_simp⟩
  rw [log_size d hn, log_size d hn']
  simp only [Num.log, if_pos he, if_pos he', Num.sub, Num.div]
  rw [hq, if_neg (div_ne_zero hl hdR.ne')]

theorem isOrder_iff {d n n' : ℕ} {e e' p : ℝ} (hd : 0 < d) (hn : 0 < n) (hn' : 0 < n') (he : 0 < e) (he' : 0 < e') :
    IsOrder d n n' e e' p ↔ p * (Real.log n' - Real.log n) = d * (Real.log e - Real.log e') := by
  have hnR : (0 : ℝ) < n := Nat.cast_pos.mpr hn
  have hnR' : (0 : ℝ) < n' := Nat.cast_pos.mpr hn'
  have hdR : (0 : ℝ) < d := Nat.cast_pos.mpr hd
  have hb : 0 < (n : ℝ) ^ (-(1 : ℝ) / d) := Real.rpow_pos_of_pos hnR _
  have hb' : 0 < (n' : ℝ) ^ (-(1 : ℝ) / d) := Real.rpow_pos_of_pos hnR' _
  have hr := Real.rpow_pos_of_pos (div_pos hb hb') p
  unfold IsOrder
  rw [← Real.log_injOn_pos.eq_iff (Set.mem_Ioi.mpr (div_pos he he')) (Set.mem_Ioi.mpr hr), Real.log_rpow (div_pos hb hb'),
    Real.log_div he.ne' he'.ne', Real.log_div hb.ne' hb'.ne', Real.log_rpow hnR, Real.log_rpow hnR']
  constructor
  · intro h
    rw [h]
    field_simp
    ring
  · intro h
    have h2 : Real.log e - Real.log e' = p * (Real.log n' - Real.log n) / d := by
      rw [h]; field_simp
    rw [h2]
    field_simp
    ring

/-- The levels of a study. -/
def Levels (d : ℕ) (rep : Report) : Prop :=
  rep.rates.length = rep.errors.length - 1 ∧ rep.dofs.length = rep.errors.length ∧
  ∀ (k n n' : ℕ) (e e' : ℝ), rep.dofs[k]? = some n → rep.dofs[k + 1]? = some n' → rep.errors[k]? = some e →
    rep.errors[k + 1]? = some e' →
    rep.rates[k]? = some (((Num.val e).log.sub (Num.val e').log).div ((size d n).log.sub (size d n').log))

theorem study_levels {double : S → S} {d : ℕ} {solve : Input S → Level} {res : ℝ} {seg : S} {runs : ℤ}
    {ins : List (Input S)} {rep : Report} (h : study double d solve res seg runs = .ok (ins, rep)) : Levels d rep := by
  rcases Nat.eq_zero_or_pos runs.toNat with h0 | h0
  · unfold study at h
    simp only [h0, List.range'_zero, loop, List.isEmpty_nil, if_true] at h
    exact absurd h (by simp)
  · obtain ⟨r, hr⟩ : ∃ r : ℕ, runs = (r + 1 : ℕ) := ⟨runs.toNat - 1, by omega⟩
    rw [hr, study_eq] at h
    have h2 := (Prod.mk.inj (Except.ok.inj h)).2
    subst h2
    refine ⟨by simp, by simp, fun k n n' e e' h1 h2 h3 h4 => ?_⟩
    simp only [List.getElem?_map, Option.map_eq_some_iff] at h1 h2 h3 h4
    obtain ⟨a1, b1, c1⟩ := h1
    obtain ⟨a2, b2, c2⟩ := h2
    obtain ⟨a3, b3, c3⟩ := h3
    obtain ⟨a4, b4, c4⟩ := h4
    obtain ⟨l1, rfl⟩ := List.getElem?_eq_some_iff.mp b1
    obtain ⟨l2, rfl⟩ := List.getElem?_eq_some_iff.mp b2
    obtain ⟨l3, rfl⟩ := List.getElem?_eq_some_iff.mp b3
    obtain ⟨l4, rfl⟩ := List.getElem?_eq_some_iff.mp b4
    simp only [List.getElem_range] at c1 c2 c3 c4
    subst c1 c2 c3 c4
    have hk : k < r := by simp at l2; omega
    simp [hk]

theorem dim_pos (threed : Bool) : 0 < dim threed := by cases threed <;> decide

/-- C218: the levels of the studies.  With at least one run, level `k` of `runs` is computed with the resolution and the numbers
of segments of a uniform refinement and has a file name of its own; errors and numbers of dofs are reported level by
level, and there is one rate for each pair of consecutive levels. -/
theorem C218_levels (threed simplex : Bool) (runs : ℕ) (hr : 0 < runs) :
    (∀ solve, ∃ rep, unsplitDomain threed solve runs = .ok ((List.range runs).map unsplitInput, rep)
      ∧ rep.errors = (List.range runs).map (fun k => (solve (unsplitInput k)).error)
      ∧ rep.dofs = (List.range runs).map (fun k => (solve (unsplitInput k)).dofs) ∧ rep.rates.length = runs - 1)
    ∧ (∀ solve, ∃ rep, testMeshtie threed simplex solve runs = .ok ((List.range runs).map (meshtieInput simplex), rep)
      ∧ rep.errors = (List.range runs).map (fun k => (solve (meshtieInput simplex k)).error)
      ∧ rep.dofs = (List.range runs).map (fun k => (solve (meshtieInput simplex k)).dofs) ∧ rep.rates.length = runs - 1) := by
  obtain ⟨r, rfl⟩ : ∃ r, runs = r + 1 := ⟨runs - 1, by omega⟩
  constructor
  · intro solve
    unfold unsplitDomain
    rw [study_eq, ceil1]
    simp only [double1_iterate]
    exact ⟨_, rfl, rfl, rfl, by simp⟩
  · intro solve
    unfold testMeshtie
    rw [study_eq, ceil1, ceil2]
    simp only [double2_iterate]
    exact ⟨_, rfl, rfl, rfl, by simp⟩

/-- C218: without a run both raise. -/
theorem C218_none (threed simplex : Bool) (runs : ℤ) (hr : runs ≤ 0) (solve : Input ℕ → Level) (solve' : Input (ℕ × ℕ) → Level) :
    unsplitDomain threed solve runs = .error .unbound ∧ testMeshtie threed simplex solve' runs = .error .unbound := by
  have h0 : runs.toNat = 0 := Int.toNat_of_nonpos hr
  unfold unsplitDomain testMeshtie study
  simp [h0, loop]

theorem Reported.levels {threed : Bool} {rep : Report} (h : Reported threed rep) : Levels (dim threed) rep := by
  rcases h with ⟨solve, runs, ins, h⟩ | ⟨simplex, solve, runs, ins, h⟩
  · exact study_levels h
  · exact study_levels h

section

variable {threed : Bool} {rep : Report} (h : Reported threed rep) {k n n' : ℕ} {e e' : ℝ}
  (h1 : rep.dofs[k]? = some n) (h2 : rep.dofs[k + 1]? = some n') (h3 : rep.errors[k]? = some e)
  (h4 : rep.errors[k + 1]? = some e') (hn : 0 < n) (he : 0 < e) (he' : 0 < e')

include h h1 h2 h3 h4 hn he he'

/-- C218: the rate reported for two consecutive levels with different numbers of dofs and positive errors is their order of
convergence. -/
theorem C218_order (hn' : 0 < n') (hne : n ≠ n') :
    ∃ p : ℝ, rep.rates[k]? = some (.val p) ∧ ∀ q, IsOrder (dim threed) n n' e e' q ↔ q = p := by
  obtain ⟨p, hp, hp2⟩ := rate_order (dim_pos threed) hn hn' hne he he'
  refine ⟨p, by rw [h.levels.2.2 k n n' e e' h1 h2 h3 h4, hp], fun q => ?_⟩
  rw [isOrder_iff (dim_pos threed) hn hn' he he']
  constructor
  · intro hq
    rw [← hp2] at hq
    refine mul_right_cancel₀ (fun h0 => hne ?_) hq
    have := Real.log_injOn_pos (Set.mem_Ioi.mpr (Nat.cast_pos.mpr hn' : (0 : ℝ) < n'))
      (Set.mem_Ioi.mpr (Nat.cast_pos.mpr hn : (0 : ℝ) < n)) (sub_eq_zero.mp h0)
    exact (Nat.cast_injective this).symm
  · rintro rfl; exact hp2

/-- C218: on finer levels the rate is positive exactly if the error got smaller, and it measures the order of a method: if the
errors of both levels are between `c h ^ p` and `C h ^ p`, the rate differs from `p` by at most `log (C / c)` over the logarithm
of the quotient of the mesh sizes; it is `p` if the errors are `C h ^ p`. -/
theorem C218_rate (hlt : n < n') :
    ∃ r : ℝ, rep.rates[k]? = some (.val r) ∧ (0 < r ↔ e' < e) ∧ (r = 0 ↔ e' = e)
      ∧ ∀ c C p : ℝ, 0 < c → c * ((n : ℝ) ^ (-(1 : ℝ) / dim threed)) ^ p ≤ e → e ≤ C * ((n : ℝ) ^ (-(1 : ℝ) / dim threed)) ^ p →
        c * ((n' : ℝ) ^ (-(1 : ℝ) / dim threed)) ^ p ≤ e' → e' ≤ C * ((n' : ℝ) ^ (-(1 : ℝ) / dim threed)) ^ p →
        |r - p| ≤ Real.log (C / c)
          / Real.log ((n : ℝ) ^ (-(1 : ℝ) / dim threed) / (n' : ℝ) ^ (-(1 : ℝ) / dim threed)) := by
  have hn' : 0 < n' := by omega
  obtain ⟨r, hr, hr2⟩ := rate_order (dim_pos threed) hn hn' hlt.ne he he'
  have hnR : (0 : ℝ) < n := Nat.cast_pos.mpr hn
  have hnR' : (0 : ℝ) < n' := Nat.cast_pos.mpr hn'
  have hdR : (0 : ℝ) < dim threed := Nat.cast_pos.mpr (dim_pos threed)
  have hl : 0 < Real.log n' - Real.log n := sub_pos.mpr (Real.log_lt_log hnR (Nat.cast_lt.mpr hlt))
  refine ⟨r, by rw [h.levels.2.2 k n n' e e' h1 h2 h3 h4, hr], ?_, ?_, ?_⟩
  · rw [← Real.log_lt_log_iff he' he, ← mul_pos_iff_of_pos_right hl, hr2, mul_pos_iff_of_pos_left hdR, sub_pos]
  · constructor
    · intro h0
      rw [h0, zero_mul] at hr2
      have := (mul_eq_zero.mp hr2.symm).resolve_left hdR.ne'
      exact Real.log_injOn_pos (Set.mem_Ioi.mpr he') (Set.mem_Ioi.mpr he) (sub_eq_zero.mp this).symm
    · intro h0
      rw [h0, sub_self, mul_zero] at hr2
      exact (mul_eq_zero.mp hr2).resolve_right hl.ne'
  · intro c C p hc a1 a2 a3 a4
    have hb : 0 < (n : ℝ) ^ (-(1 : ℝ) / dim threed) := Real.rpow_pos_of_pos hnR _
    have hb' : 0 < (n' : ℝ) ^ (-(1 : ℝ) / dim threed) := Real.rpow_pos_of_pos hnR' _
    have hq := Real.rpow_pos_of_pos hb p
    have hq' := Real.rpow_pos_of_pos hb' p
    have hC : 0 < C := (mul_pos_iff_of_pos_right hq).mp (he.trans_le a2)
    have eL : Real.log ((n : ℝ) ^ (-(1 : ℝ) / dim threed) / (n' : ℝ) ^ (-(1 : ℝ) / dim threed))
        = (Real.log n' - Real.log n) / dim threed := by
      rw [Real.log_div hb.ne' hb'.ne', Real.log_rpow hnR, Real.log_rpow hnR']
      ring
    have l1 := Real.log_le_log (mul_pos hc hq) a1
    have l2 := Real.log_le_log he a2
    have l3 := Real.log_le_log (mul_pos hc hq') a3
    have l4 := Real.log_le_log he' a4
    rw [Real.log_mul hc.ne' hq.ne', Real.log_rpow hb, Real.log_rpow hnR] at l1
    rw [Real.log_mul hC.ne' hq.ne', Real.log_rpow hb, Real.log_rpow hnR] at l2
    rw [Real.log_mul hc.ne' hq'.ne', Real.log_rpow hb', Real.log_rpow hnR'] at l3
    rw [Real.log_mul hC.ne' hq'.ne', Real.log_rpow hb', Real.log_rpow hnR'] at l4
    rw [eL, le_div_iff₀ (div_pos hl hdR), Real.log_div hC.ne' hc.ne', ← abs_of_pos (div_pos hl hdR), ← abs_mul]
    have e1 : (r - p) * ((Real.log n' - Real.log n) / dim threed)
        = (Real.log e - Real.log e') - p * ((Real.log n' - Real.log n) / dim threed) := by
      have : r * ((Real.log n' - Real.log n) / dim threed) = Real.log e - Real.log e' := by
        rw [← mul_div_assoc, hr2]; field_simp
      rw [sub_mul, this]
    have e2 : p * (-1 / (dim threed : ℝ) * Real.log n) - p * (-1 / (dim threed : ℝ) * Real.log n')
        = p * ((Real.log n' - Real.log n) / dim threed) := by ring
    rw [e1]
    refine abs_le.mpr ⟨?_, ?_⟩ <;> linarith

end

section

variable {threed : Bool} {rep : Report} (h : Reported threed rep) {k n n' : ℕ} {e e' : ℝ}
  (h1 : rep.dofs[k]? = some n) (h2 : rep.dofs[k + 1]? = some n') (h3 : rep.errors[k]? = some e)
  (h4 : rep.errors[k + 1]? = some e')

include h h1 h2 h3 h4

/-- C218: where there is no order of convergence no number is reported: levels with the same number of dofs have the rate NaN
if the errors are the same, otherwise infinity with the sign of the change; a level without an error has the rate infinity,
two of them NaN. -/
theorem C218_degenerate (hn : 0 < n) :
    (n = n' → 0 < e → 0 < e' → (e = e' → rep.rates[k]? = some .nan) ∧ (e' < e → rep.rates[k]? = some .pinf)
      ∧ (e < e' → rep.rates[k]? = some .ninf))
    ∧ (n < n' → (0 < e → e' = 0 → rep.rates[k]? = some .pinf) ∧ (e = 0 → 0 < e' → rep.rates[k]? = some .ninf)
      ∧ (e = 0 → e' = 0 → rep.rates[k]? = some .nan)) := by
  rw [h.levels.2.2 k n n' e e' h1 h2 h3 h4]
  refine ⟨fun hnn he he' => ?_, fun hlt => ?_⟩
  · subst hnn
    rw [log_size _ hn]
    simp only [Num.log, if_pos he, if_pos he', Num.sub, Num.div, sub_self, if_true]
    refine ⟨fun hee => ?_, fun hlt => ?_, fun hlt => ?_⟩
    · rw [hee, sub_self, if_pos rfl]
    · have := sub_pos.mpr (Real.log_lt_log he' hlt)
      rw [if_neg this.ne', if_pos this]
    · have := sub_neg.mpr (Real.log_lt_log he hlt)
      rw [if_neg this.ne, if_neg this.le.not_gt]
  · have hn' : 0 < n' := by omega
    have hdR : (0 : ℝ) < dim threed := Nat.cast_pos.mpr (dim_pos threed)
    have hl : 0 < Real.log n' - Real.log n := sub_pos.mpr (Real.log_lt_log (Nat.cast_pos.mpr hn) (Nat.cast_lt.mpr hlt))
    have hq : -(1 / (dim threed : ℝ) * Real.log n) - -(1 / (dim threed : ℝ) * Real.log n')
        = (Real.log n' - Real.log n) / dim threed := by ring
    have hpos := div_pos hl hdR
    rw [log_size _ hn, log_size _ hn']
    refine ⟨fun he he' => ?_, fun he he' => ?_, fun he he' => ?_⟩
    · subst he'
      simp only [Num.log, if_pos he, lt_irrefl, if_false, if_true, Num.sub, Num.div]
      rw [hq, if_pos hpos.le]
    · subst he
      simp only [Num.log, if_pos he', lt_irrefl, if_false, if_true, Num.sub, Num.div]
      rw [hq, if_pos hpos.le]
    · subst he he'
      simp only [Num.log, lt_irrefl, if_false, if_true, Num.sub, Num.div]

end

/-- The hypotheses of C218 hold for a study with two runs: errors `1` and `1 / 4`, `100` and `400` dofs in two dimensions; the
rate is two. -/
example : ∃ rep, unsplitDomain false (fun i => if i.i = 1 then ⟨100, 1⟩ else ⟨400, 1 / 4⟩) 2 = .ok ([unsplitInput 0, unsplitInput 1], rep)
    ∧ rep.dofs[0]? = some 100 ∧ rep.dofs[0 + 1]? = some 400 ∧ rep.errors[0]? = some 1 ∧ rep.errors[0 + 1]? = some (1 / 4)
    ∧ IsOrder 2 100 400 1 (1 / 4) 2 := by
  obtain ⟨rep, h1, h2, h3, -⟩ := (C218_levels false false 2 (by decide)).1 (fun i => if i.i = 1 then ⟨100, 1⟩ else ⟨400, 1 / 4⟩)
  refine ⟨rep, h1, ?_, ?_, ?_, ?_, ?_⟩
  · rw [h3]; rfl
  · rw [h3]; rfl
  · rw [h2]; rfl
  · rw [h2]; rfl
  · rw [isOrder_iff (by decide) (by decide) (by decide) (by norm_num) (by norm_num)]
    have e : (400 : ℕ) = 4 * 100 := by decide
    rw [e, Nat.cast_mul, Real.log_mul (by norm_num) (by norm_num), Real.log_div (by norm_num) (by norm_num)]
    push_cast
    rw [Real.log_one]
    ring

/-- A study which stops to refine: the rate is NaN. -/
example : ∃ rep ins, unsplitDomain false (fun _ => ⟨100, 1⟩) 2 = .ok (ins, rep) ∧ rep.rates[0]? = some .nan := by
  obtain ⟨rep, h1, h2, h3, -⟩ := (C218_levels false false 2 (by decide)).1 (fun _ => ⟨100, 1⟩)
  exact ⟨rep, _, h1, ((C218_degenerate (threed := false) (Or.inl ⟨_, _, _, h1⟩) (k := 0) (n := 100) (n' := 100) (e := 1) (e' := 1)
    (by rw [h3]; rfl) (by rw [h3]; rfl) (by rw [h2]; rfl) (by rw [h2]; rfl) (by decide)).1 rfl one_pos one_pos).1 rfl⟩

end

end Verif.Rates
