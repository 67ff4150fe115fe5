import Verif.Lib.Arr
import Verif.Lib.Radix
import Mathlib.Algebra.BigOperators.Group.List.Basic
import Mathlib.Algebra.BigOperators.Group.Finset.Sigma
import Mathlib.Algebra.BigOperators.Ring.Finset
import Mathlib.Tactic.Ring

/-! Accumulation into `std::vector<std::vector<double>>` at one fixed inner position. -/

namespace Verif

open Finset

/-- `f` adds `G B` to entry `(B, p)` for every block `B` and changes nothing else. -/
def AddsAt (p : ℕ) (f : Arr (ℕ × ℕ) → Arr (ℕ × ℕ)) (G : ℕ → ℝ) : Prop :=
  Adds f (fun m => if m.2 = p then G m.1 else 0)

theorem AddsAt.id (p : ℕ) : AddsAt p (fun a => a) (fun _ => 0) := by
  intro a m; simp

theorem AddsAt.acc (B p : ℕ) (v : ℝ) :
    AddsAt p (fun a => a.acc (B, p) v) (fun B' => if B' = B then v else 0) := by
  intro a m
  obtain ⟨B', p'⟩ := m
  by_cases h1 : p' = p <;> by_cases h2 : B' = B <;> simp [Arr.acc, h1, h2]

theorem AddsAt.comp {p : ℕ} {f g : Arr (ℕ × ℕ) → Arr (ℕ × ℕ)} {F G : ℕ → ℝ} (hf : AddsAt p f F)
    (hg : AddsAt p g G) : AddsAt p (fun a => g (f a)) (fun B => F B + G B) := by
  intro a m
  beta_reduce
  rw [hg (f a) m, hf a m]
  by_cases h : m.2 = p <;> simp [h, add_assoc]

theorem AddsAt.loop {p n : ℕ} {body : ℕ → Arr (ℕ × ℕ) → Arr (ℕ × ℕ)} {G : ℕ → ℕ → ℝ}
    (h : ∀ i, i < n → AddsAt p (body i) (G i)) :
    AddsAt p (loop n body) (fun B => ∑ i ∈ range n, G i B) := by
  refine (Adds.loop n h).congr (fun m => ?_)
  by_cases h : m.2 = p <;> simp [h]

theorem AddsAt.congr {p : ℕ} {f : Arr (ℕ × ℕ) → Arr (ℕ × ℕ)} {F G : ℕ → ℝ} (hf : AddsAt p f F)
    (h : ∀ B, F B = G B) : AddsAt p f G := by
  have : F = G := funext h
  rw [← this]; exact hf

theorem AddsAt.then_acc {p : ℕ} {f : Arr (ℕ × ℕ) → Arr (ℕ × ℕ)} {F : ℕ → ℝ} (hf : AddsAt p f F)
    {B : ℕ} {v : ℝ} :
    AddsAt p (fun a => (f a).acc (B, p) v) (fun B' => F B' + if B' = B then v else 0) :=
  hf.comp (AddsAt.acc B p v)

theorem AddsAt.then_loop {p n : ℕ} {f : Arr (ℕ × ℕ) → Arr (ℕ × ℕ)} {F : ℕ → ℝ} (hf : AddsAt p f F)
    {body : ℕ → Arr (ℕ × ℕ) → Arr (ℕ × ℕ)} {G : ℕ → ℕ → ℝ}
    (h : ∀ i, AddsAt p (body i) (G i)) :
    AddsAt p (fun a => Verif.loop n body (f a)) (fun B => F B + ∑ i ∈ range n, G i B) :=
  hf.comp (AddsAt.loop (fun i _ => h i))

theorem sum_if {ι : Type} (s : Finset ι) (p : Prop) [Decidable p] (f : ι → ℝ) :
    ∑ n ∈ s, (if p then f n else 0) = if p then ∑ n ∈ s, f n else 0 := by
  by_cases h : p <;> simp [h]

theorem b10 (k : ℕ) : (3 * k + 1 = 0) ↔ False := ⟨fun h => by omega, False.elim⟩
theorem b20 (k : ℕ) : (3 * k + 2 = 0) ↔ False := ⟨fun h => by omega, False.elim⟩
theorem b30 (k : ℕ) : (3 * k + 3 = 0) ↔ False := ⟨fun h => by omega, False.elim⟩
theorem b01 (k : ℕ) : (0 = 3 * k + 1) ↔ False := ⟨fun h => by omega, False.elim⟩
theorem b02 (k : ℕ) : (0 = 3 * k + 2) ↔ False := ⟨fun h => by omega, False.elim⟩
theorem b03 (k : ℕ) : (0 = 3 * k + 3) ↔ False := ⟨fun h => by omega, False.elim⟩
theorem b11 (k k' : ℕ) : (3 * k + 1 = 3 * k' + 1) ↔ k = k' := by omega
theorem b12 (k k' : ℕ) : (3 * k + 1 = 3 * k' + 2) ↔ False := ⟨fun h => by omega, False.elim⟩
theorem b13 (k k' : ℕ) : (3 * k + 1 = 3 * k' + 3) ↔ False := ⟨fun h => by omega, False.elim⟩
theorem b21 (k k' : ℕ) : (3 * k + 2 = 3 * k' + 1) ↔ False := ⟨fun h => by omega, False.elim⟩
theorem b22 (k k' : ℕ) : (3 * k + 2 = 3 * k' + 2) ↔ k = k' := by omega
theorem b23 (k k' : ℕ) : (3 * k + 2 = 3 * k' + 3) ↔ False := ⟨fun h => by omega, False.elim⟩
theorem b31 (k k' : ℕ) : (3 * k + 3 = 3 * k' + 1) ↔ False := ⟨fun h => by omega, False.elim⟩
theorem b32 (k k' : ℕ) : (3 * k + 3 = 3 * k' + 2) ↔ False := ⟨fun h => by omega, False.elim⟩
theorem b33 (k k' : ℕ) : (3 * k + 3 = 3 * k' + 3) ↔ k = k' := by omega
theorem v10 (k : ℕ) : (k + 1 = 0) ↔ False := ⟨fun h => by omega, False.elim⟩
theorem v01 (k : ℕ) : (0 = k + 1) ↔ False := ⟨fun h => by omega, False.elim⟩
theorem v11 (k k' : ℕ) : (k + 1 = k' + 1) ↔ k = k' := by omega

/-- Vector fill: loops over `i < nd`, `n < bs` at positions `n + i * bs`. -/
theorem vec_fill {nd bs : ℕ} {body : ℕ → ℕ → Arr (ℕ × ℕ) → Arr (ℕ × ℕ)} {G : ℕ → ℕ → ℕ → ℝ}
    (h : ∀ i n, i < nd → n < bs → AddsAt (n + i * bs) (body i n) (G i n)) :
    Adds (loop nd (fun i => loop bs (body i)))
      (fun m => ∑ i ∈ range nd, ∑ n ∈ range bs, if m.2 = n + i * bs then G i n m.1 else 0) :=
  Adds.loop nd (fun i hi => Adds.loop bs (fun n hn => h i n hi hn))

theorem vec_fill_at {nd bs : ℕ} (G : ℕ → ℕ → ℕ → ℝ) {i0 n0 : ℕ} (hi : i0 < nd) (hn : n0 < bs)
    (B : ℕ) :
    (∑ i ∈ range nd, ∑ n ∈ range bs, if n0 + i0 * bs = n + i * bs then G i n B else 0)
      = G i0 n0 B :=
  sum_radix' hi hn (fun i n => G i n B)

theorem mat_inj {nd bs i b j l i' b' j' l' : ℕ} (hb : b < bs) (hl : l < bs) (hj : j < nd)
    (hb' : b' < bs) (hl' : l' < bs) (hj' : j' < nd) :
    (b + i * bs) * nd * bs + l + j * bs = (b' + i' * bs) * nd * bs + l' + j' * bs ↔
      i = i' ∧ b = b' ∧ j = j' ∧ l = l' := by
  have e : ∀ i b j l, (b + i * bs) * nd * bs + l + j * bs = (((i * bs + b) * nd) + j) * bs + l := by
    intro i b j l; ring
  rw [e, e, radix_inj hl hl', radix_inj hj hj', radix_inj hb hb']
  tauto

/-- Matrix fill: loops over `j, l, i, b` (column first) at positions `P i b j l`. -/
theorem mat_fill {nd bs : ℕ} {body : ℕ → ℕ → ℕ → ℕ → Arr (ℕ × ℕ) → Arr (ℕ × ℕ)}
    {G : ℕ → ℕ → ℕ → ℕ → ℕ → ℝ} {P : ℕ → ℕ → ℕ → ℕ → ℕ}
    (h : ∀ j l i b, AddsAt (P i b j l) (body j l i b) (G j l i b)) :
    Adds (loop nd (fun j => loop bs (fun l => loop nd (fun i => loop bs (body j l i)))))
      (fun m => ∑ j ∈ range nd, ∑ l ∈ range bs, ∑ i ∈ range nd, ∑ b ∈ range bs,
        if m.2 = P i b j l then G j l i b m.1 else 0) :=
  Adds.loop nd (fun j _ => Adds.loop bs (fun l _ => Adds.loop nd (fun i _ => Adds.loop bs
    (fun b _ => h j l i b))))

theorem mat_fill_at {nd bs : ℕ} (G : ℕ → ℕ → ℕ → ℕ → ℕ → ℝ) {i0 b0 j0 l0 : ℕ}
    (hi : i0 < nd) (hb : b0 < bs) (hj : j0 < nd) (hl : l0 < bs) (B : ℕ) :
    (∑ j ∈ range nd, ∑ l ∈ range bs, ∑ i ∈ range nd, ∑ b ∈ range bs,
        if (b0 + i0 * bs) * nd * bs + l0 + j0 * bs = (b + i * bs) * nd * bs + l + j * bs
          then G j l i b B else 0) = G j0 l0 i0 b0 B := by
  rw [sum_eq_single_of_mem j0 (mem_range.mpr hj), sum_eq_single_of_mem l0 (mem_range.mpr hl),
    sum_eq_single_of_mem i0 (mem_range.mpr hi), sum_eq_single_of_mem b0 (mem_range.mpr hb),
    if_pos rfl]
  · intro b hb' hne
    rw [if_neg]
    rw [mat_inj hb hl hj (mem_range.mp hb') hl hj]
    intro h; exact hne h.2.1.symm
  · intro i _ hne
    refine sum_eq_zero (fun b hb' => ?_)
    rw [if_neg]
    rw [mat_inj hb hl hj (mem_range.mp hb') hl hj]
    intro h; exact hne h.1.symm
  · intro l hl' hne
    refine sum_eq_zero (fun i _ => sum_eq_zero (fun b hb' => ?_))
    rw [if_neg]
    rw [mat_inj hb hl hj (mem_range.mp hb') (mem_range.mp hl') hj]
    intro h; exact hne h.2.2.2.symm
  · intro j hj' hne
    refine sum_eq_zero (fun l hl' => sum_eq_zero (fun i _ => sum_eq_zero (fun b hb' => ?_)))
    rw [if_neg]
    rw [mat_inj hb hl hj (mem_range.mp hb') (mem_range.mp hl') (mem_range.mp hj')]
    intro h; exact hne h.2.2.1.symm

/-- Value of a vector fill. -/
theorem vec_value {nd bs : ℕ} {body : ℕ → ℕ → Arr (ℕ × ℕ) → Arr (ℕ × ℕ)} {G : ℕ → ℕ → ℕ → ℝ}
    (h : ∀ i n, AddsAt (n + i * bs) (body i n) (G i n)) {i0 n0 : ℕ} (hi : i0 < nd) (hn : n0 < bs)
    (B : ℕ) (a : Arr (ℕ × ℕ)) :
    loop nd (fun i => loop bs (body i)) a (B, n0 + i0 * bs) =
      a (B, n0 + i0 * bs) + G i0 n0 B := by
  rw [vec_fill (fun i n _ _ => h i n) a]
  congr 1
  exact vec_fill_at G hi hn B

/-- Value of a matrix fill. -/
theorem mat_value {nd bs : ℕ} {body : ℕ → ℕ → ℕ → ℕ → Arr (ℕ × ℕ) → Arr (ℕ × ℕ)}
    {G : ℕ → ℕ → ℕ → ℕ → ℕ → ℝ} {P : ℕ → ℕ → ℕ → ℕ → ℕ}
    (hP : ∀ i b j l, P i b j l = (b + i * bs) * nd * bs + l + j * bs)
    (h : ∀ j l i b, AddsAt (P i b j l) (body j l i b) (G j l i b))
    {i0 b0 j0 l0 : ℕ} (hi : i0 < nd) (hb : b0 < bs) (hj : j0 < nd) (hl : l0 < bs) (B : ℕ)
    (a : Arr (ℕ × ℕ)) :
    loop nd (fun j => loop bs (fun l => loop nd (fun i => loop bs (body j l i)))) a
        (B, P i0 b0 j0 l0) = a (B, P i0 b0 j0 l0) + G j0 l0 i0 b0 B := by
  rw [mat_fill h a]
  congr 1
  simp only [hP]
  exact mat_fill_at G hi hb hj hl B

/-- Value of a matrix fill with an extra update of the entries with equal components (`b = l`) before
the innermost loop. -/
theorem mat_value' {nd bs : ℕ} {body : ℕ → ℕ → ℕ → ℕ → Arr (ℕ × ℕ) → Arr (ℕ × ℕ)}
    {pre : ℕ → ℕ → ℕ → Arr (ℕ × ℕ) → Arr (ℕ × ℕ)}
    {F : ℕ → ℕ → ℕ → ℕ → ℝ} {G : ℕ → ℕ → ℕ → ℕ → ℕ → ℝ} {P : ℕ → ℕ → ℕ → ℕ → ℕ}
    (hP : ∀ i b j l, P i b j l = (b + i * bs) * nd * bs + l + j * bs)
    (hpre : ∀ j l i, AddsAt (P i l j l) (pre j l i) (F j l i))
    (h : ∀ j l i b, AddsAt (P i b j l) (body j l i b) (G j l i b))
    {i0 b0 j0 l0 : ℕ} (hi : i0 < nd) (hb : b0 < bs) (hj : j0 < nd) (hl : l0 < bs) (B : ℕ)
    (a : Arr (ℕ × ℕ)) :
    loop nd (fun j => loop bs (fun l => loop nd (fun i A => loop bs (body j l i) (pre j l i A)))) a
        (B, P i0 b0 j0 l0) =
      a (B, P i0 b0 j0 l0) + ((if b0 = l0 then F j0 l0 i0 B else 0) + G j0 l0 i0 b0 B) := by
  have key : Adds (loop nd (fun j => loop bs (fun l => loop nd (fun i A =>
      loop bs (body j l i) (pre j l i A)))))
      (fun m => ∑ j ∈ range nd, ∑ l ∈ range bs, ∑ i ∈ range nd, ∑ b ∈ range bs,
        if m.2 = P i b j l then ((if b = l then F j l i m.1 else 0) + G j l i b m.1) else 0) := by
    refine Adds.loop nd (fun j _ => Adds.loop bs (fun l hl => Adds.loop nd (fun i _ => ?_)))
    refine (Adds.comp (hpre j l i) (Adds.loop bs (fun b _ => h j l i b))).congr (fun m => ?_)
    have e : (if m.2 = P i l j l then F j l i m.1 else 0) =
        ∑ b ∈ range bs, if b = l then (if m.2 = P i b j l then F j l i m.1 else 0) else 0 := by
      rw [sum_ite_eq', if_pos (mem_range.mpr hl)]
    rw [e, ← sum_add_distrib]
    refine sum_congr rfl (fun b _ => ?_)
    by_cases h1 : b = l
    · subst h1
      by_cases h2 : m.2 = P i b j b <;> simp [h2]
    · simp [h1]
  rw [key a]
  congr 1
  simp only [hP]
  exact mat_fill_at (fun j l i b B => (if b = l then F j l i B else 0) + G j l i b B) hi hb hj hl B

/-- Value of a matrix fill for scalar dofs: loops over `j, i` at positions `i * nd + j`. -/
theorem mat_value_scalar {nd : ℕ} {body : ℕ → ℕ → Arr (ℕ × ℕ) → Arr (ℕ × ℕ)}
    {G : ℕ → ℕ → ℕ → ℝ} (h : ∀ j i, AddsAt (i * nd + j) (body j i) (G j i))
    {i0 j0 : ℕ} (hi : i0 < nd) (hj : j0 < nd) (B : ℕ) (a : Arr (ℕ × ℕ)) :
    loop nd (fun j => loop nd (body j)) a (B, i0 * nd + j0) =
      a (B, i0 * nd + j0) + G j0 i0 B := by
  have key : Adds (loop nd (fun j => loop nd (body j)))
      (fun m => ∑ j ∈ range nd, ∑ i ∈ range nd, if m.2 = i * nd + j then G j i m.1 else 0) :=
    Adds.loop nd (fun j _ => Adds.loop nd (fun i _ => h j i))
  rw [key a]
  congr 1
  dsimp only
  rw [sum_comm]
  exact sum_radix hi hj (fun i j => G j i B)

/-- Value of a vector fill for scalar dofs. -/
theorem vec_value_scalar {nd : ℕ} {body : ℕ → Arr (ℕ × ℕ) → Arr (ℕ × ℕ)} {G : ℕ → ℕ → ℝ}
    (h : ∀ i, AddsAt i (body i) (G i)) {i0 : ℕ} (hi : i0 < nd) (B : ℕ) (a : Arr (ℕ × ℕ)) :
    loop nd body a (B, i0) = a (B, i0) + G i0 B := by
  rw [Adds.loop nd (fun i _ => h i) a]
  congr 1
  exact sum_pick hi (fun i => G i B)

/-- A loop over quadrature points adds the sum of the point contributions. -/
theorem forEach_at {α : Type} {ι : Type} (l : List α) (body : α → Arr ι → Arr ι) (δ : α → ℝ) (m : ι)
    (h : ∀ x ∈ l, ∀ a, body x a m = a m + δ x) (a : Arr ι) :
    forEach l body a m = a m + (l.map δ).sum := by
  induction l generalizing a with
  | nil => simp [forEach]
  | cons x xs ih =>
    have := ih (fun y hy => h y (by simp [hy])) (body x a)
    simp only [forEach, List.foldl_cons, List.map_cons, List.sum_cons] at this ⊢
    rw [this, h x (by simp) a, add_assoc]

end Verif
