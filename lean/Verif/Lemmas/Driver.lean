import Verif.Props.Newton
import Verif.Props.NewtonStep
import Verif.Spec.Driver
import Verif.Props.LoadStep

/-!
Lemmas for C139–C141.
-/

namespace Verif.Newton

open Spec

variable {V B M C : Type} [AddCommGroup V] [Module ℝ V]

/-- The coefficients were computed at the iterate, from coefficients with `I`, and the residual from them. -/
def Fresh (P : Problem V B M C) (I : C → Prop) (s : St V B C) : Prop :=
  ∃ c, I c ∧ s.coeffs = P.coefficients s.x c ∧ s.b = P.residual s.x s.coeffs

section

variable {P : Problem V B M C} {I : C → Prop} (hpost : ∀ x, P.post x = x)
  (hI : ∀ x c, I c → I (P.coefficients x c))

include hI in
theorem Fresh.inv {s : St V B C} (h : Fresh P I s) : I s.coeffs := by
  obtain ⟨c, hc, h1, -⟩ := h
  rw [h1]
  exact hI _ _ hc

theorem Fresh.congr {s s' : St V B C} (h : Fresh P I s) (h1 : s'.x = s.x) (h2 : s'.coeffs = s.coeffs)
    (h3 : s'.b = s.b) : Fresh P I s' := by
  obtain ⟨c, k1, k2, k3⟩ := h
  exact ⟨c, k1, by rw [h1, h2]; exact k2, by rw [h1, h2, h3]; exact k3⟩

include hpost

theorem evaluate_fresh {s : St V B C} (h : I s.coeffs) (x : V) : Fresh P I (evaluate P s x) := by
  refine ⟨s.coeffs, h, ?_, rfl⟩
  show P.coefficients x s.coeffs = P.coefficients (P.post x) s.coeffs
  rw [hpost]

include hI

theorem lineSearch_fresh (xc dx : V) (r0 : ℝ) (fuel : ℕ) (relax : ℝ) (s : St V B C) (h : Fresh P I s)
    (o : ℝ × St V B C) (ho : lineSearch P xc dx r0 fuel relax s = some o) : Fresh P I o.2 := by
  induction fuel generalizing relax s with
  | zero => cases ho
  | succ k ih =>
    unfold lineSearch at ho
    split at ho
    · dsimp only at ho
      split at ho
      · cases ho; exact h
      · exact ih _ _ (evaluate_fresh hpost (h.inv hI) _) ho
    · cases ho; exact h

theorem body_fresh (rank0 : Bool) (r0 : ℝ) (s : St V B C) (h : Fresh P I s) :
    Fresh P I (body P rank0 r0 s).1 := by
  unfold body
  dsimp only
  split
  · exact h.congr rfl rfl rfl
  · generalize hs1 : evaluate P _ _ = s1
    have h1 : Fresh P I s1 := by rw [← hs1]; exact evaluate_fresh hpost (h.inv hI) _
    split
    · exact h1
    · rename_i relax s2 hls
      have h2 := lineSearch_fresh hpost hI _ _ _ _ _ _ h1 _ hls
      generalize hs3 : (if ({ s2 with relax := some relax } : St V B C).iteration = 1 then _ else _ : St V B C) = s3
      have h3 : Fresh P I s3 := by
        rw [← hs3]
        split
        · exact h2.congr rfl rfl rfl
        · exact h2.congr rfl rfl rfl
      split
      · exact h3
      · exact h3.congr rfl rfl rfl

theorem newtonLoop_fresh (rank0 : Bool) (fuel : ℕ) (conv : Bool) (r0 : ℝ) (s : St V B C) (h : Fresh P I s) :
    Fresh P I (newtonLoop P rank0 fuel conv r0 s).1 := by
  induction fuel generalizing conv r0 s with
  | zero => exact h
  | succ k ih =>
    unfold newtonLoop
    split
    · have hb := body_fresh hpost hI rank0 r0 s h
      split
      · rename_i e; rw [e] at hb; exact hb
      · rename_i e; rw [e] at hb; exact ih _ _ _ hb
    · exact h

theorem solveInner_fresh (hpre : ∀ x, P.pre x = x) (rank0 : Bool) (s : St V B C) (h : I s.coeffs) :
    Fresh P I (solveInner P rank0 s).1 := by
  unfold solveInner
  dsimp only
  generalize hs1 : (⟨s.opts, 0, 0, s.initialResidual, -1, s.relax, s.dx, P.pre s.x, P.coefficients s.x s.coeffs,
      P.residual (P.pre s.x) (P.coefficients s.x s.coeffs), s.nRes + 1, s.nLin⟩ : St V B C) = s1
  have h1 : Fresh P I s1 := by
    rw [← hs1]
    refine ⟨s.coeffs, h, ?_, rfl⟩
    show P.coefficients s.x s.coeffs = P.coefficients (P.pre s.x) s.coeffs
    rw [hpre]
  have fin : ∀ (s2 : St V B C), Fresh P I s2 → ∀ (k : ℕ) (conv : Bool) (r0 : ℝ), Fresh P I
      (match newtonLoop P rank0 k conv r0 s2 with
        | (s, .error e) => ((s, .error e) : St V B C × Except Err (ℕ × Bool))
        | (s, .ok conv) => if conv = false ∧ s.opts.errorOnNonconvergence = true then (s, .error .runtimeError)
          else (s, .ok (s.iteration, conv))).1 := by
    intro s2 h2 k conv r0
    have h3 := newtonLoop_fresh hpost hI rank0 k conv r0 s2 h2
    generalize newtonLoop P rank0 k conv r0 s2 = out at h3 ⊢
    obtain ⟨s3, r⟩ := out
    cases r with
    | error e => exact h3
    | ok c => dsimp only; split <;> exact h3
  cases hc : s.opts.crit with
  | residual =>
    dsimp only
    generalize checkConvergence rank0 s1 _ = o
    cases o with
    | error e => exact h1
    | ok p => exact fin _ (h1.congr (by rw [← hs1]) (by rw [← hs1]) (by rw [← hs1])) _ _ _
  | incremental => exact fin _ h1 _ _ _

theorem solve_fresh (hpre : ∀ x, P.pre x = x) (rank0 : Bool) (s : St V B C) (h : I s.coeffs) :
    Fresh P I (solve P rank0 .function s).1 := by
  have h1 := solveInner_fresh hpost hI hpre rank0 s h
  unfold solve
  split
  · rename_i e; rw [e] at h1
    exact solveInner_fresh hpost hI hpre rank0 _ (h1.inv hI)
  · rename_i e; rw [e] at h1; exact h1
  · rename_i e; rw [e] at h1; exact h1

end

/-- A solver which could be started can be started again. -/
theorem solve_ready (P : Problem V B M C) (rank0 : Bool) (s : St V B C) (n : ℕ) (conv : Bool) (hr : Ready rank0 s)
    (h : (solve P rank0 .function s).2 = .ok (n, conv)) :
    Ready rank0 (solve P rank0 .function s).1 ∧ (solve P rank0 .function s).1.opts = s.opts := by
  obtain ⟨s0, h0, hch, -⟩ := C61_newton_line P rank0 s n conv h
  refine ⟨?_, by rw [hch.opts]; exact h0.2.2.2.2.2.1⟩
  have ho := hch.opts
  generalize (solve P rank0 .function s).1 = t at *
  have key : ∀ {m : ℕ} {a b : St V B C}, Chain P m a b → a.relax ≠ none → b.relax ≠ none := by
    intro m a b hc
    induction hc with
    | nil => exact id
    | @cons m a a' b _ hs hc ih =>
      intro _
      obtain ⟨dx, its, reason, k, c, e⟩ := hs
      exact ih (by rw [e.2.2.2.2.2.2.2.1]; simp)
  rcases hr with h | h | h
  · exact Or.inl h
  · exact Or.inr (Or.inl (key hch (by rw [h0.2.2.2.2.2.2.2.2.1]; exact h)))
  · exact Or.inr (Or.inr (by rw [ho, h0.2.2.2.2.2.1]; exact h))

end Verif.Newton
