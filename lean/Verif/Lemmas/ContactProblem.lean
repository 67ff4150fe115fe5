import Verif.Spec.ContactProblem
import Mathlib.Tactic.Linarith
import Mathlib.Tactic.Ring

/-! Lemmas about the numpy assignments and the loops of `ContactProblem`. -/

namespace Verif.ContactProblem

open Verif.Spec

noncomputable section

variable {G : Type}

/-- Write a block. -/
def put (m : Mat) (h lo hi : ℕ) (d : ℕ → ℕ → ℝ) : Mat :=
  ⟨m.rows, m.cols, fun r c => if r < h ∧ lo ≤ c ∧ c < hi then d r (c - lo) else m.v r c⟩

theorem assign_eq {m : Mat} {h lo hi : ℕ} {d : Mat} (hh : h ≤ m.rows) (h1 : lo ≤ hi) (h2 : hi ≤ m.cols)
    (hr : d.rows = h) (hc : d.cols = hi - lo) : assign m h lo hi d = .ok (put m h lo hi d.v) := by
  unfold assign put
  dsimp only
  have e1 : min h m.rows = h := by omega
  have e2 : min lo m.cols = lo := by omega
  have e3 : max lo (min hi m.cols) = hi := by omega
  rw [e1, e2, e3, if_pos ⟨Or.inl hr, Or.inl hc⟩]
  congr 2
  funext r c
  by_cases hb : r < h ∧ lo ≤ c ∧ c < hi
  · rw [if_pos hb, if_pos hb]
    obtain ⟨h3, h4, h5⟩ := hb
    congr 1
    · split <;> omega
    · split <;> omega
  · rw [if_neg hb, if_neg hb]

theorem assignCol_eq {m : Mat} {j : ℕ} {d : Mat} (hj : j < m.cols) (hc : 0 < d.cols)
    (hr : d.rows = m.rows) : assignCol m j d = .ok (put m m.rows j (j + 1) (fun r _ => d.v r 0)) := by
  unfold assignCol put
  rw [if_neg (by omega), if_pos (Or.inl hr)]
  congr 2
  funext r c
  by_cases hb : r < m.rows ∧ c = j
  · rw [if_pos hb]
    refine Eq.trans ?_ (if_pos (⟨hb.1, by omega, by omega⟩ : r < m.rows ∧ j ≤ c ∧ c < j + 1)).symm
    congr 1
    split <;> omega
  · rw [if_neg hb]
    exact (if_neg (by omega : ¬(r < m.rows ∧ j ≤ c ∧ c < j + 1))).symm

/-- Change the coefficients only. -/
def withCoeffs (s : State G) (cs : ℕ → Mat) : State G := { s with coeffs := some cs }

theorem setCoeffs_eq {s : State G} {cs : ℕ → Mat} (hs : s.coeffs = some cs) {i h lo hi : ℕ} {d : Mat}
    (hh : h ≤ (cs i).rows) (h1 : lo ≤ hi) (h2 : hi ≤ (cs i).cols)
    (hr : d.rows = h) (hc : d.cols = hi - lo) :
    setCoeffs s i h lo hi d = .ok (withCoeffs s (Function.update cs i (put (cs i) h lo hi d.v))) := by
  unfold setCoeffs
  rw [hs]
  dsimp only
  rw [assign_eq hh h1 h2 hr hc]
  rfl

theorem setCol_eq {s : State G} {cs : ℕ → Mat} (hs : s.coeffs = some cs) {i j : ℕ} {d : Mat}
    (hj : j < (cs i).cols) (hc : 0 < d.cols) (hr : d.rows = (cs i).rows) :
    setCol s i j d
      = .ok (withCoeffs s (Function.update cs i (put (cs i) (cs i).rows j (j + 1) (fun r _ => d.v r 0)))) := by
  unfold setCol
  rw [hs]
  dsimp only
  rw [assignCol_eq hj hc hr]
  rfl

@[simp] theorem bind_ok {α β ε : Type} (a : α) (f : α → Except ε β) : (Except.ok a : Except ε α).bind f = f a := rfl

@[simp] theorem bind_error {α β ε : Type} (e : ε) (f : α → Except ε β) :
    (Except.error e : Except ε α).bind f = .error e := rfl

theorem forIn_append {α : Type} (l l' : List α) (body : α → State G → Res G) (s : State G) :
    forIn (l ++ l') body s = (forIn l body s).bind (forIn l' body) := by
  induction l generalizing s with
  | nil => rfl
  | cons x l ih =>
    rw [List.cons_append, forIn, forIn]
    cases h : body x s with
    | error e => rfl
    | ok s' => simp only [bind_ok]; exact ih s'

/-- Invariant rule for loops. -/
theorem forRange_ok (P : ℕ → State G → Prop) (n : ℕ) (body : ℕ → State G → Res G) (s : State G) (h0 : P 0 s)
    (hstep : ∀ i < n, ∀ s, P i s → ∃ s', body i s = .ok s' ∧ P (i + 1) s') :
    ∃ s', forRange n body s = .ok s' ∧ P n s' := by
  unfold forRange
  have key : ∀ k ≤ n, ∃ s', forIn (List.range k) body s = .ok s' ∧ P k s' := by
    intro k
    induction k with
    | zero => intro _; exact ⟨s, rfl, h0⟩
    | succ k ih =>
      intro hk
      obtain ⟨s1, h1, h1'⟩ := ih (by omega)
      obtain ⟨s2, h2, h2'⟩ := hstep k (by omega) s1 h1'
      refine ⟨s2, ?_, h2'⟩
      rw [List.range_succ, forIn_append, h1, bind_ok, forIn, h2, bind_ok, forIn]
  exact key n (le_refl _)

/-- A loop whose body rewrites the array of its own pair. -/
theorem forRange_coeffs (n : ℕ) (body : ℕ → State G → Res G) (s : State G) (cs : ℕ → Mat) (hs : s.coeffs = some cs)
    (F : ℕ → Mat → Mat)
    (hbody : ∀ i < n, ∀ s' cs', s' = withCoeffs s cs' → cs' i = cs i →
      body i s' = .ok (withCoeffs s (Function.update cs' i (F i (cs i))))) :
    forRange n body s = .ok (withCoeffs s (fun i => if i < n then F i (cs i) else cs i)) := by
  obtain ⟨s', h1, h2⟩ := forRange_ok (fun k s' => s' = withCoeffs s (fun i => if i < k then F i (cs i) else cs i))
    n body s (by simp [withCoeffs, ← hs]) (fun i hi s' h => by
      refine ⟨_, hbody i hi s' _ h (by simp), ?_⟩
      congr 1
      funext j
      by_cases hj : j = i
      · subst hj; simp
      · rw [Function.update_of_ne hj]
        by_cases h : j < i
        · rw [if_pos h, if_pos (by omega)]
        · rw [if_neg h, if_neg (by omega)])
  rw [h1, h2]

theorem foldl_max_const (n c : ℕ) (f : ℕ → ℕ) (hn : 0 < n) (h : ∀ i < n, f i = c) :
    (List.range n).foldl (fun m i => max m (f i)) 0 = c := by
  have key : ∀ k ≤ n, (List.range k).foldl (fun m i => max m (f i)) 0 = if k = 0 then 0 else c := by
    intro k
    induction k with
    | zero => intro _; rfl
    | succ k ih =>
      intro hk
      rw [List.range_succ, List.foldl_append, ih (by omega), List.foldl_cons, List.foldl_nil, h k (by omega)]
      split <;> simp
  rw [key n (le_refl _), if_neg (by omega)]

theorem maxLinks_eq {S : Static G} (hn : 0 < S.numPairs) {s : State G}
    (h : ∀ i < S.numPairs, s.maxLinks i = S.nq) : maxLinks S s = S.nq :=
  foldl_max_const _ _ _ hn h

theorem createDistanceMap_self {S : Static G} {s : State G} {i : ℕ} (h1 : s.detected i = s.geom)
    (h2 : s.maxLinks i = S.nq) : createDistanceMap S i s = s := by
  unfold createDistanceMap
  have e1 : Function.update s.detected i s.geom = s.detected := by rw [← h1, Function.update_eq_self]
  have e2 : Function.update s.maxLinks i S.nq = s.maxLinks := by rw [← h2, Function.update_eq_self]
  rw [e1, e2]

theorem createDistanceMaps_spec (S : Static G) (s : State G) :
    (createDistanceMaps S s).geom = s.geom ∧ (createDistanceMaps S s).coeffs = s.coeffs
    ∧ (createDistanceMaps S s).numQ = s.numQ ∧ (createDistanceMaps S s).gradU = s.gradU
    ∧ (createDistanceMaps S s).consts = s.consts
    ∧ (createDistanceMaps S s).matKernels = s.matKernels ∧ (createDistanceMaps S s).vecKernels = s.vecKernels
    ∧ (∀ i < S.numPairs, (createDistanceMaps S s).detected i = s.geom)
    ∧ (∀ i < S.numPairs, (createDistanceMaps S s).maxLinks i = S.nq) := by
  unfold createDistanceMaps
  have key : ∀ k, ∀ r, r = (List.range k).foldl (fun s i => createDistanceMap S i s) s →
      r.geom = s.geom ∧ r.coeffs = s.coeffs ∧ r.numQ = s.numQ ∧ r.gradU = s.gradU ∧ r.consts = s.consts
      ∧ r.matKernels = s.matKernels ∧ r.vecKernels = s.vecKernels
      ∧ (∀ i < k, r.detected i = s.geom) ∧ (∀ i < k, r.maxLinks i = S.nq) := by
    intro k
    induction k with
    | zero => intro r hr; subst hr; simp
    | succ k ih =>
      intro r hr
      obtain ⟨h1, h2, h3, h4, h5, h6, h7, h8, h9⟩ := ih _ rfl
      rw [List.range_succ, List.foldl_append] at hr
      subst hr
      refine ⟨h1, h2, h3, h4, h5, h6, h7, fun i hi => ?_, fun i hi => ?_⟩
      · show Function.update _ k _ i = _
        by_cases e : i = k
        · subst e; rw [Function.update_self, h1]
        · rw [Function.update_of_ne e]; exact h8 i (by omega)
      · show Function.update _ k _ i = _
        by_cases e : i = k
        · subst e; rw [Function.update_self]
        · rw [Function.update_of_ne e]; exact h9 i (by omega)
  exact key _ _ rfl

/-- The contents of a row: scalars and slots. -/
structure Slots where
  mu : ℝ
  lam : ℝ
  fric : ℝ
  h : ℝ
  gap : ℕ → ℝ
  normal : ℕ → ℝ
  test : ℕ → ℝ
  u : ℕ → ℝ
  grad : ℕ → ℝ
  opp : ℕ → ℝ
  old : ℕ → ℝ

/-- A row with slots of sizes `A` (vector per point), `B` (gradient) and `T` (test functions). -/
structure RowIs (A B T : ℕ) (σ : Slots) (c : ℕ → ℝ) : Prop where
  mu : c 0 = σ.mu
  lam : c 1 = σ.lam
  fric : c 2 = σ.fric
  h : c 3 = σ.h
  gap : ∀ m < A, c (4 + m) = σ.gap m
  normal : ∀ m < A, c (4 + A + m) = σ.normal m
  test : ∀ m < T, c (4 + 2 * A + m) = σ.test m
  u : ∀ m < A, c (4 + 2 * A + T + m) = σ.u m
  grad : ∀ m < B, c (4 + 3 * A + T + m) = σ.grad m
  opp : ∀ m < A, c (4 + 3 * A + T + B + m) = σ.opp m
  old : ∀ m < A, c (4 + 4 * A + T + B + m) = σ.old m

theorem put_out {m : Mat} {h lo hi : ℕ} {d : ℕ → ℕ → ℝ} {e c : ℕ} (hc : c < lo ∨ hi ≤ c) :
    (put m h lo hi d).v e c = m.v e c := if_neg (by omega)

theorem put_in {m : Mat} {h lo hi : ℕ} {d : ℕ → ℕ → ℝ} {e k : ℕ} (he : e < h) (hc : lo + k < hi) :
    (put m h lo hi d).v e (lo + k) = d e k := by
  refine (if_pos (⟨he, by omega, hc⟩ : e < h ∧ lo ≤ lo + k ∧ lo + k < hi)).trans ?_
  rw [Nat.add_sub_cancel_left]

theorem RowIs.put_mu {A B T : ℕ} {σ : Slots} {m : Mat} {e h : ℕ} {d : ℕ → ℕ → ℝ} (H : RowIs A B T σ (m.v e)) (he : e < h) :
    RowIs A B T { σ with mu := d e 0 } ((put m h 0 (0 + 1) d).v e) where
  mu := put_in (lo := 0) (k := 0) he (by omega)
  lam := (put_out (by omega)).trans H.lam
  fric := (put_out (by omega)).trans H.fric
  h := (put_out (by omega)).trans H.h
  gap := fun k hk => (put_out (by omega)).trans (H.gap k hk)
  normal := fun k hk => (put_out (by omega)).trans (H.normal k hk)
  test := fun k hk => (put_out (by omega)).trans (H.test k hk)
  u := fun k hk => (put_out (by omega)).trans (H.u k hk)
  grad := fun k hk => (put_out (by omega)).trans (H.grad k hk)
  opp := fun k hk => (put_out (by omega)).trans (H.opp k hk)
  old := fun k hk => (put_out (by omega)).trans (H.old k hk)

theorem RowIs.put_lam {A B T : ℕ} {σ : Slots} {m : Mat} {e h : ℕ} {d : ℕ → ℕ → ℝ} (H : RowIs A B T σ (m.v e)) (he : e < h) :
    RowIs A B T { σ with lam := d e 0 } ((put m h 1 (1 + 1) d).v e) where
  mu := (put_out (by omega)).trans H.mu
  lam := put_in (lo := 1) (k := 0) he (by omega)
  fric := (put_out (by omega)).trans H.fric
  h := (put_out (by omega)).trans H.h
  gap := fun k hk => (put_out (by omega)).trans (H.gap k hk)
  normal := fun k hk => (put_out (by omega)).trans (H.normal k hk)
  test := fun k hk => (put_out (by omega)).trans (H.test k hk)
  u := fun k hk => (put_out (by omega)).trans (H.u k hk)
  grad := fun k hk => (put_out (by omega)).trans (H.grad k hk)
  opp := fun k hk => (put_out (by omega)).trans (H.opp k hk)
  old := fun k hk => (put_out (by omega)).trans (H.old k hk)

theorem RowIs.put_fric {A B T : ℕ} {σ : Slots} {m : Mat} {e h : ℕ} {d : ℕ → ℕ → ℝ} (H : RowIs A B T σ (m.v e)) (he : e < h) :
    RowIs A B T { σ with fric := d e 0 } ((put m h 2 (2 + 1) d).v e) where
  mu := (put_out (by omega)).trans H.mu
  lam := (put_out (by omega)).trans H.lam
  fric := put_in (lo := 2) (k := 0) he (by omega)
  h := (put_out (by omega)).trans H.h
  gap := fun k hk => (put_out (by omega)).trans (H.gap k hk)
  normal := fun k hk => (put_out (by omega)).trans (H.normal k hk)
  test := fun k hk => (put_out (by omega)).trans (H.test k hk)
  u := fun k hk => (put_out (by omega)).trans (H.u k hk)
  grad := fun k hk => (put_out (by omega)).trans (H.grad k hk)
  opp := fun k hk => (put_out (by omega)).trans (H.opp k hk)
  old := fun k hk => (put_out (by omega)).trans (H.old k hk)

theorem RowIs.put_h {A B T : ℕ} {σ : Slots} {m : Mat} {e h : ℕ} {d : ℕ → ℕ → ℝ} (H : RowIs A B T σ (m.v e)) (he : e < h) :
    RowIs A B T { σ with h := d e 0 } ((put m h 3 (3 + 1) d).v e) where
  mu := (put_out (by omega)).trans H.mu
  lam := (put_out (by omega)).trans H.lam
  fric := (put_out (by omega)).trans H.fric
  h := put_in (lo := 3) (k := 0) he (by omega)
  gap := fun k hk => (put_out (by omega)).trans (H.gap k hk)
  normal := fun k hk => (put_out (by omega)).trans (H.normal k hk)
  test := fun k hk => (put_out (by omega)).trans (H.test k hk)
  u := fun k hk => (put_out (by omega)).trans (H.u k hk)
  grad := fun k hk => (put_out (by omega)).trans (H.grad k hk)
  opp := fun k hk => (put_out (by omega)).trans (H.opp k hk)
  old := fun k hk => (put_out (by omega)).trans (H.old k hk)

theorem RowIs.put_gap {A B T lo hi : ℕ} {σ : Slots} {m : Mat} {e h : ℕ} {d : ℕ → ℕ → ℝ} (H : RowIs A B T σ (m.v e)) (he : e < h)
    (hlo : lo = 4) (hhi : hi = 4 + A) :
    RowIs A B T { σ with gap := d e } ((put m h lo hi d).v e) where
  mu := (put_out (by omega)).trans H.mu
  lam := (put_out (by omega)).trans H.lam
  fric := (put_out (by omega)).trans H.fric
  h := (put_out (by omega)).trans H.h
  gap := fun k hk => by subst hlo hhi; exact put_in he (by omega)
  normal := fun k hk => (put_out (by omega)).trans (H.normal k hk)
  test := fun k hk => (put_out (by omega)).trans (H.test k hk)
  u := fun k hk => (put_out (by omega)).trans (H.u k hk)
  grad := fun k hk => (put_out (by omega)).trans (H.grad k hk)
  opp := fun k hk => (put_out (by omega)).trans (H.opp k hk)
  old := fun k hk => (put_out (by omega)).trans (H.old k hk)

theorem RowIs.put_normal {A B T lo hi : ℕ} {σ : Slots} {m : Mat} {e h : ℕ} {d : ℕ → ℕ → ℝ} (H : RowIs A B T σ (m.v e)) (he : e < h)
    (hlo : lo = 4 + A) (hhi : hi = 4 + 2 * A) :
    RowIs A B T { σ with normal := d e } ((put m h lo hi d).v e) where
  mu := (put_out (by omega)).trans H.mu
  lam := (put_out (by omega)).trans H.lam
  fric := (put_out (by omega)).trans H.fric
  h := (put_out (by omega)).trans H.h
  gap := fun k hk => (put_out (by omega)).trans (H.gap k hk)
  normal := fun k hk => by subst hlo hhi; exact put_in he (by omega)
  test := fun k hk => (put_out (by omega)).trans (H.test k hk)
  u := fun k hk => (put_out (by omega)).trans (H.u k hk)
  grad := fun k hk => (put_out (by omega)).trans (H.grad k hk)
  opp := fun k hk => (put_out (by omega)).trans (H.opp k hk)
  old := fun k hk => (put_out (by omega)).trans (H.old k hk)

theorem RowIs.put_test {A B T lo hi : ℕ} {σ : Slots} {m : Mat} {e h : ℕ} {d : ℕ → ℕ → ℝ} (H : RowIs A B T σ (m.v e)) (he : e < h)
    (hlo : lo = 4 + 2 * A) (hhi : hi = 4 + 2 * A + T) :
    RowIs A B T { σ with test := d e } ((put m h lo hi d).v e) where
  mu := (put_out (by omega)).trans H.mu
  lam := (put_out (by omega)).trans H.lam
  fric := (put_out (by omega)).trans H.fric
  h := (put_out (by omega)).trans H.h
  gap := fun k hk => (put_out (by omega)).trans (H.gap k hk)
  normal := fun k hk => (put_out (by omega)).trans (H.normal k hk)
  test := fun k hk => by subst hlo hhi; exact put_in he (by omega)
  u := fun k hk => (put_out (by omega)).trans (H.u k hk)
  grad := fun k hk => (put_out (by omega)).trans (H.grad k hk)
  opp := fun k hk => (put_out (by omega)).trans (H.opp k hk)
  old := fun k hk => (put_out (by omega)).trans (H.old k hk)

theorem RowIs.put_u {A B T lo hi : ℕ} {σ : Slots} {m : Mat} {e h : ℕ} {d : ℕ → ℕ → ℝ} (H : RowIs A B T σ (m.v e)) (he : e < h)
    (hlo : lo = 4 + 2 * A + T) (hhi : hi = 4 + 3 * A + T) :
    RowIs A B T { σ with u := d e } ((put m h lo hi d).v e) where
  mu := (put_out (by omega)).trans H.mu
  lam := (put_out (by omega)).trans H.lam
  fric := (put_out (by omega)).trans H.fric
  h := (put_out (by omega)).trans H.h
  gap := fun k hk => (put_out (by omega)).trans (H.gap k hk)
  normal := fun k hk => (put_out (by omega)).trans (H.normal k hk)
  test := fun k hk => (put_out (by omega)).trans (H.test k hk)
  u := fun k hk => by subst hlo hhi; exact put_in he (by omega)
  grad := fun k hk => (put_out (by omega)).trans (H.grad k hk)
  opp := fun k hk => (put_out (by omega)).trans (H.opp k hk)
  old := fun k hk => (put_out (by omega)).trans (H.old k hk)

theorem RowIs.put_grad {A B T lo hi : ℕ} {σ : Slots} {m : Mat} {e h : ℕ} {d : ℕ → ℕ → ℝ} (H : RowIs A B T σ (m.v e)) (he : e < h)
    (hlo : lo = 4 + 3 * A + T) (hhi : hi = 4 + 3 * A + T + B) :
    RowIs A B T { σ with grad := d e } ((put m h lo hi d).v e) where
  mu := (put_out (by omega)).trans H.mu
  lam := (put_out (by omega)).trans H.lam
  fric := (put_out (by omega)).trans H.fric
  h := (put_out (by omega)).trans H.h
  gap := fun k hk => (put_out (by omega)).trans (H.gap k hk)
  normal := fun k hk => (put_out (by omega)).trans (H.normal k hk)
  test := fun k hk => (put_out (by omega)).trans (H.test k hk)
  u := fun k hk => (put_out (by omega)).trans (H.u k hk)
  grad := fun k hk => by subst hlo hhi; exact put_in he (by omega)
  opp := fun k hk => (put_out (by omega)).trans (H.opp k hk)
  old := fun k hk => (put_out (by omega)).trans (H.old k hk)

theorem RowIs.put_opp {A B T lo hi : ℕ} {σ : Slots} {m : Mat} {e h : ℕ} {d : ℕ → ℕ → ℝ} (H : RowIs A B T σ (m.v e)) (he : e < h)
    (hlo : lo = 4 + 3 * A + T + B) (hhi : hi = 4 + 4 * A + T + B) :
    RowIs A B T { σ with opp := d e } ((put m h lo hi d).v e) where
  mu := (put_out (by omega)).trans H.mu
  lam := (put_out (by omega)).trans H.lam
  fric := (put_out (by omega)).trans H.fric
  h := (put_out (by omega)).trans H.h
  gap := fun k hk => (put_out (by omega)).trans (H.gap k hk)
  normal := fun k hk => (put_out (by omega)).trans (H.normal k hk)
  test := fun k hk => (put_out (by omega)).trans (H.test k hk)
  u := fun k hk => (put_out (by omega)).trans (H.u k hk)
  grad := fun k hk => (put_out (by omega)).trans (H.grad k hk)
  opp := fun k hk => by subst hlo hhi; exact put_in he (by omega)
  old := fun k hk => (put_out (by omega)).trans (H.old k hk)

theorem RowIs.put_old {A B T lo hi : ℕ} {σ : Slots} {m : Mat} {e h : ℕ} {d : ℕ → ℕ → ℝ} (H : RowIs A B T σ (m.v e)) (he : e < h)
    (hlo : lo = 4 + 4 * A + T + B) (hhi : hi = 4 + 5 * A + T + B) :
    RowIs A B T { σ with old := d e } ((put m h lo hi d).v e) where
  mu := (put_out (by omega)).trans H.mu
  lam := (put_out (by omega)).trans H.lam
  fric := (put_out (by omega)).trans H.fric
  h := (put_out (by omega)).trans H.h
  gap := fun k hk => (put_out (by omega)).trans (H.gap k hk)
  normal := fun k hk => (put_out (by omega)).trans (H.normal k hk)
  test := fun k hk => (put_out (by omega)).trans (H.test k hk)
  u := fun k hk => (put_out (by omega)).trans (H.u k hk)
  grad := fun k hk => (put_out (by omega)).trans (H.grad k hk)
  opp := fun k hk => (put_out (by omega)).trans (H.opp k hk)
  old := fun k hk => by subst hlo hhi; exact put_in he (by omega)

end

end Verif.ContactProblem
