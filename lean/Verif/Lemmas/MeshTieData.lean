import Verif.Spec.MeshTieData
import Mathlib.Tactic.Ring

/-! Copying rows into flat vectors. -/

namespace Verif.TieData

variable {R : Type}

/-- Segments of a row: position and data. -/
abbrev Segs (R : Type) := List (ℕ × Pk R)

/-- Write the segments of row `e`. -/
def writeSegs (C e : ℕ) : Segs R → Buf R → Option (Buf R)
  | [], b => some b
  | (o, p) :: t, b => (copyN p e (e * C + o) b).bind (writeSegs C e t)

/-- Value of entry `r` of row `e` after writing. -/
def over (e r : ℕ) : Segs R → R → R
  | [], v => v
  | (o, p) :: t, v => over e r t (if o ≤ r ∧ r < o + p.c then p.v (e * p.c + (r - o)) else v)

theorem over_append (e r : ℕ) (s t : Segs R) (v : R) : over e r (s ++ t) v = over e r t (over e r s v) := by
  induction s generalizing v with
  | nil => rfl
  | cons a s ih => exact ih _

/-- The segments fit into a row. -/
def Fits (C : ℕ) (s : Segs R) : Prop := ∀ a ∈ s, a.1 + a.2.c ≤ C

theorem row_lt {e e' C : ℕ} (h : e < e') : e * C + C ≤ e' * C := by
  calc e * C + C = (e + 1) * C := by ring
    _ ≤ e' * C := Nat.mul_le_mul_right _ h

theorem writeSegs_ok {C n e : ℕ} (he : e < n) (s : Segs R) (hs : Fits C s) (b : Buf R)
    (hb : b.size = C * n) :
    ∃ b', writeSegs C e s b = some b' ∧ b'.size = C * n
      ∧ ∀ e' r, r < C → b'.val (e' * C + r) = if e' = e then over e r s (b.val (e' * C + r))
        else b.val (e' * C + r) := by
  induction s generalizing b with
  | nil => exact ⟨b, rfl, hb, fun e' r _ => by simp [over]⟩
  | cons a s ih =>
    obtain ⟨o, p⟩ := a
    have ho : o + p.c ≤ C := hs (o, p) (List.mem_cons_self ..)
    have hle : e * C + C ≤ C * n := by rw [Nat.mul_comm C n]; exact row_lt he
    have hin : e * C + o + p.c ≤ b.size := by omega
    obtain ⟨b', h1, h2, h3⟩ := ih (fun a ha => hs a (List.mem_cons_of_mem _ ha))
      ⟨b.size, fun k => if e * C + o ≤ k ∧ k < e * C + o + p.c then p.v (e * p.c + (k - (e * C + o)))
        else b.val k⟩ hb
    refine ⟨b', ?_, h2, fun e' r hr => ?_⟩
    · show (copyN p e (e * C + o) b).bind (writeSegs C e s) = _
      unfold copyN
      rw [if_pos hin]
      exact h1
    · rw [h3 e' r hr]
      dsimp only
      by_cases hee : e' = e
      · subst hee
        rw [if_pos rfl, if_pos rfl]
        show _ = over e' r s _
        congr 1
        by_cases hc : o ≤ r ∧ r < o + p.c
        · rw [if_pos hc, if_pos (by omega)]
          congr 2
          omega
        · rw [if_neg hc, if_neg (by omega)]
      · rw [if_neg hee, if_neg hee, if_neg]
        rintro ⟨ha, hb'⟩
        rcases Nat.lt_or_gt_of_ne hee with h | h
        · have := row_lt (C := C) h
          omega
        · have := row_lt (C := C) h
          omega

theorem facets_ok {C n N : ℕ} (hn : n ≤ N) (s : Segs R) (hs : Fits C s) (b : Buf R)
    (hb : b.size = C * N) (f : ℕ → Buf R → Option (Buf R)) (hf : ∀ e b, f e b = writeSegs C e s b) :
    ∃ b', facets n f b = some b' ∧ b'.size = C * N
      ∧ ∀ e' r, r < C → b'.val (e' * C + r) = if e' < n then over e' r s (b.val (e' * C + r))
        else b.val (e' * C + r) := by
  induction n with
  | zero => exact ⟨b, rfl, hb, fun e' r _ => by simp⟩
  | succ n ih =>
    obtain ⟨b1, h1, h2, h3⟩ := ih (by omega)
    obtain ⟨b2, g1, g2, g3⟩ := writeSegs_ok (e := n) (n := N) (by omega) s hs b1 h2
    refine ⟨b2, ?_, g2, fun e' r hr => ?_⟩
    · show (facets n f b).bind (f n) = _
      rw [h1, Option.bind_some, hf, g1]
    · rw [g3 e' r hr, h3 e' r hr]
      by_cases hee : e' = n
      · subst hee
        rw [if_pos rfl, if_neg (by omega), if_pos (by omega)]
      · rw [if_neg hee]
        by_cases hl : e' < n
        · rw [if_pos hl, if_pos (by omega)]
        · rw [if_neg hl, if_neg (by omega)]

theorem pairs_ok {n : ℕ} (f : ℕ → Buf R → Option (Buf R)) (cs : ℕ → Buf R) (P : ℕ → Buf R → Prop)
    (h : ∀ i < n, ∃ b', f i (cs i) = some b' ∧ P i b') :
    ∃ cs', pairs n f cs = some cs' ∧ (∀ i < n, P i (cs' i)) ∧ ∀ i, n ≤ i → cs' i = cs i := by
  induction n with
  | zero => exact ⟨cs, rfl, fun i hi => absurd hi (by omega), fun _ _ => rfl⟩
  | succ n ih =>
    obtain ⟨c1, h1, h2, h3⟩ := ih (fun i hi => h i (by omega))
    obtain ⟨b, g1, g2⟩ := h n (by omega)
    refine ⟨Function.update c1 n b, ?_, fun i hi => ?_, fun i hi => ?_⟩
    · show (pairs n f cs).bind _ = _
      rw [h1, Option.bind_some, h3 n (le_refl _), g1, Option.map_some]
    · by_cases hin : i = n
      · subst hin
        rw [Function.update_self]
        exact g2
      · rw [Function.update_of_ne hin]
        exact h2 i (by omega)
    · rw [Function.update_of_ne (by omega)]
      exact h3 i (by omega)

/-- The vectors of the pairs have rows of width `C`, and row `e` of pair `i` satisfies `P i e`. -/
def Rows (S : Static R) (C : ℕ) (P : ℕ → ℕ → (ℕ → R) → Prop) (cs : ℕ → Buf R) : Prop :=
  ∀ i < S.pairs, (cs i).size = C * S.nf i ∧ ∀ e < S.nf i, P i e ((cs i).row C e)

theorem pairs_rows {S : Static R} {C : ℕ} {P Q : ℕ → ℕ → (ℕ → R) → Prop} {cs : ℕ → Buf R}
    (H : Rows S C P cs) (s : ℕ → Segs R) (hs : ∀ i < S.pairs, Fits C (s i))
    (f : ℕ → Buf R → Option (Buf R))
    (hf : ∀ i, f i = facets (S.nf i) fun e => writeSegs C e (s i))
    (hPQ : ∀ i < S.pairs, ∀ e < S.nf i, ∀ c c' : ℕ → R, P i e c →
      (∀ r < C, c' r = over e r (s i) (c r)) → Q i e c') :
    ∃ cs', pairs S.pairs f cs = some cs' ∧ Rows S C Q cs' := by
  obtain ⟨cs', h1, h2, -⟩ := pairs_ok f cs
    (fun i b => b.size = C * S.nf i ∧ ∀ e < S.nf i, Q i e (b.row C e)) (fun i hi => by
      obtain ⟨hsz, hrow⟩ := H i hi
      obtain ⟨b', g1, g2, g3⟩ := facets_ok (le_refl (S.nf i)) (s i) (hs i hi) (cs i) hsz
        (fun e => writeSegs C e (s i)) (fun _ _ => rfl)
      refine ⟨b', ?_, g2, fun e he => hPQ i hi e he _ _ (hrow e he) (fun r hr => ?_)⟩
      · rw [hf]; exact g1
      · unfold Buf.row
        rw [g3 e r hr, if_pos he])
  exact ⟨cs', h1, h2⟩

end Verif.TieData
