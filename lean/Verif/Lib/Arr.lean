import Mathlib.Data.Real.Basic
import Mathlib.Algebra.BigOperators.Group.Finset.Basic
import Mathlib.Algebra.BigOperators.Ring.Finset
import Mathlib.Tactic.Ring

/-!
Flat arrays and loops.  This is the modelling vocabulary for `std::vector<double>`,
`std::span<double>` and counted `for` loops; it models no file of `/repo`.
-/

open Finset

namespace Verif

/-- An array of doubles (as reals) with index type `ι`; a `std::vector<double>` is `Arr ℕ`,
a `std::vector<std::vector<double>>` is `Arr (ℕ × ℕ)`. -/
abbrev Arr (ι : Type) := ι → ℝ

variable {ι σ : Type}

/-- `a[k] += v`. -/
def Arr.acc [DecidableEq ι] (a : Arr ι) (k : ι) (v : ℝ) : Arr ι := fun m => if m = k then a m + v else a m

/-- `a[k] = v`. -/
def Arr.put [DecidableEq ι] (a : Arr ι) (k : ι) (v : ℝ) : Arr ι := fun m => if m = k then v else a m

/-- `for (i = 0; i < n; ++i) s = body(i, s)`. -/
def loop (n : ℕ) (body : ℕ → σ → σ) (s : σ) : σ := (List.range n).foldl (fun s i => body i s) s

/-- `for (auto i : l) s = body(i, s)`. -/
def forEach {α : Type} (l : List α) (body : α → σ → σ) (s : σ) : σ :=
  l.foldl (fun s i => body i s) s

theorem loop_eq_forEach (n : ℕ) (body : ℕ → σ → σ) : loop n body = forEach (List.range n) body := rfl

@[simp] theorem loop_zero (body : ℕ → σ → σ) (s : σ) : loop 0 body s = s := rfl

theorem loop_succ (n : ℕ) (body : ℕ → σ → σ) (s : σ) :
    loop (n + 1) body s = body n (loop n body s) := by
  simp [loop, List.range_succ]

/-- Loop invariant rule for counted loops. -/
theorem loop_induct (P : ℕ → σ → Prop) (n : ℕ) (body : ℕ → σ → σ) (s : σ)
    (h0 : P 0 s) (hs : ∀ i s, i < n → P i s → P (i + 1) (body i s)) : P n (loop n body s) := by
  have : ∀ k, k ≤ n → P k (loop k body s) := by
    intro k
    induction k with
    | zero => intro _; simpa using h0
    | succ k ih => intro hk; rw [loop_succ]; exact hs k _ (by omega) (ih (by omega))
  exact this n le_rfl

/-- `f` adds the array `δ` to its argument, whatever the argument is. -/
def Adds (f : Arr ι → Arr ι) (δ : Arr ι) : Prop := ∀ a m, f a m = a m + δ m

theorem Adds.id : Adds (fun a : Arr ι => a) (fun _ => 0) := by intro a m; simp

theorem Adds.acc [DecidableEq ι] (k : ι) (v : ℝ) :
    Adds (fun a : Arr ι => a.acc k v) (fun m => if m = k then v else 0) := by
  intro a m; by_cases h : m = k <;> simp [Arr.acc, h]

theorem Adds.comp {f g : Arr ι → Arr ι} {δ ε : Arr ι} (hf : Adds f δ) (hg : Adds g ε) :
    Adds (fun a => g (f a)) (fun m => δ m + ε m) := by
  intro a m; simp only [hg (f a) m, hf a m, add_assoc]

theorem Adds.ite {f g : Arr ι → Arr ι} {δ ε : Arr ι} (p : Prop) [Decidable p]
    (hf : Adds f δ) (hg : Adds g ε) :
    Adds (fun a => if p then f a else g a) (fun m => if p then δ m else ε m) := by
  intro a m; by_cases h : p <;> simp [h, hf a m, hg a m]

theorem Adds.ite_fun {f g : Arr ι → Arr ι} {δ ε : Arr ι} (p : Prop) [Decidable p]
    (hf : Adds f δ) (hg : Adds g ε) :
    Adds (if p then f else g) (fun m => if p then δ m else ε m) := by
  intro a m; by_cases h : p <;> simp [h, hf a m, hg a m]

theorem Adds.forEach {α : Type} (l : List α) {body : α → Arr ι → Arr ι} {δ : α → Arr ι}
    (h : ∀ x ∈ l, Adds (body x) (δ x)) :
    Adds (forEach l body) (fun m => (l.map (fun x => δ x m)).sum) := by
  induction l with
  | nil => intro a m; simp [Verif.forEach]
  | cons x xs ih =>
    intro a m
    have hx := h x (by simp)
    have := ih (fun y hy => h y (by simp [hy])) (body x a) m
    simp only [Verif.forEach, List.foldl_cons, List.map_cons, List.sum_cons] at this ⊢
    rw [this, hx a m, add_assoc]

theorem Adds.loop (n : ℕ) {body : ℕ → Arr ι → Arr ι} {δ : ℕ → Arr ι}
    (h : ∀ i, i < n → Adds (body i) (δ i)) :
    Adds (loop n body) (fun m => ∑ i ∈ range n, δ i m) := by
  induction n with
  | zero => intro a m; simp
  | succ n ih =>
    intro a m
    rw [loop_succ, h n (by omega), ih (fun i hi => h i (by omega))]
    simp only [sum_range_succ, add_assoc]

theorem Adds.congr {f : Arr ι → Arr ι} {δ ε : Arr ι} (hf : Adds f δ) (h : ∀ m, δ m = ε m) :
    Adds f ε := by
  intro a m; rw [hf a m, h m]

/-- `f` adds some array to its argument, the same for every argument. -/
def IsAdd (f : Arr ι → Arr ι) : Prop := ∃ δ, Adds f δ

theorem IsAdd.id : IsAdd (fun a : Arr ι => a) := ⟨_, Adds.id⟩

theorem IsAdd.acc_of [DecidableEq ι] {f : Arr ι → Arr ι} {k : ι} {v : ℝ} (hf : IsAdd f) :
    IsAdd (fun a => Arr.acc (f a) k v) := by
  obtain ⟨δ, h⟩ := hf
  exact ⟨_, h.comp (Adds.acc k v)⟩

theorem IsAdd.loop {n : ℕ} {body : ℕ → Arr ι → Arr ι} (h : ∀ i, IsAdd (body i)) :
    IsAdd (loop n body) := by
  choose δ hδ using h
  exact ⟨_, Adds.loop n (fun i _ => hδ i)⟩

theorem IsAdd.loop_of {n : ℕ} {f : Arr ι → Arr ι} {body : ℕ → Arr ι → Arr ι}
    (h : ∀ i, IsAdd (body i)) (hf : IsAdd f) : IsAdd (fun a => Verif.loop n body (f a)) := by
  obtain ⟨δ, hδ⟩ := IsAdd.loop (n := n) h
  obtain ⟨ε, hε⟩ := hf
  exact ⟨_, hε.comp hδ⟩

theorem IsAdd.ite_of {f g : Arr ι → Arr ι} {p : Prop} [Decidable p] (hf : IsAdd f) (hg : IsAdd g) :
    IsAdd (fun a => if p then f a else g a) := by
  obtain ⟨δ, hδ⟩ := hf
  obtain ⟨ε, hε⟩ := hg
  exact ⟨_, Adds.ite p hδ hε⟩

/-- Splits a loop nest of accumulations. -/
macro "is_add" : tactic => `(tactic|
  repeat' first
    | exact IsAdd.id
    | intro _
    | refine IsAdd.acc_of ?_
    | refine IsAdd.loop_of ?_ ?_
    | refine IsAdd.loop ?_)

theorem forEach_isAdd {α : Type} {body : α → Arr ι → Arr ι} (h : ∀ x, IsAdd (body x))
    (l : List α) (a : Arr ι) (m : ι) :
    forEach l body a m = a m + (l.map (fun x => forEach [x] body 0 m)).sum := by
  choose δ hδ using h
  rw [Adds.forEach l (fun x _ => hδ x) a m]
  refine congrArg (fun x => a m + x) (congrArg List.sum ?_)
  refine List.map_congr_left (fun x _ => ?_)
  show _ = body x 0 m
  rw [hδ x 0 m]; simp

theorem loop_id {n : ℕ} {body : ℕ → σ → σ} (h : ∀ i s, body i s = s) (s : σ) : loop n body s = s := by
  induction n with
  | zero => rfl
  | succ n ih => rw [loop_succ, ih, h]

theorem forEach_id {α : Type} {l : List α} {body : α → σ → σ} (h : ∀ x ∈ l, ∀ s, body x s = s)
    (s : σ) : forEach l body s = s := by
  induction l with
  | nil => rfl
  | cons x xs ih =>
    show forEach xs body (body x s) = s
    rw [h x (by simp), ih (fun y hy => h y (by simp [hy]))]

theorem acc_zero [DecidableEq ι] (a : Arr ι) (k : ι) : Arr.acc a k 0 = a := by
  funext m; simp [Arr.acc]

end Verif
