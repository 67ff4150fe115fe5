import Verif.Lib.Arr

/-! Loops of assignments `a[k] = v`: which entries are written and with which values. -/

namespace Verif

variable {ι β : Type}

/-- `f` performs the assignments `W` (in some order): an entry with at least one assignment ends
with the value of one of them, any other entry is unchanged. -/
def Puts (f : (ι → β) → (ι → β)) (W : ι → β → Prop) : Prop :=
  ∀ a m, (∃ v, W m v ∧ f a m = v) ∨ ((∀ v, ¬ W m v) ∧ f a m = a m)

theorem Puts.id : Puts (fun a : ι → β => a) (fun _ _ => False) := by
  intro a m; right; simp

theorem Puts.put [DecidableEq ι] (k : ι) (v : ℝ) :
    Puts (fun a : Arr ι => a.put k v) (fun m w => m = k ∧ w = v) := by
  intro a m
  by_cases h : m = k
  · left; exact ⟨v, ⟨h, rfl⟩, by simp [Arr.put, h]⟩
  · right; exact ⟨fun w hw => h hw.1, by simp [Arr.put, h]⟩

theorem Puts.update [DecidableEq ι] (k : ι) (v : β) :
    Puts (fun a : ι → β => Function.update a k v) (fun m w => m = k ∧ w = v) := by
  intro a m
  by_cases h : m = k
  · left; exact ⟨v, ⟨h, rfl⟩, by simp [h]⟩
  · right; exact ⟨fun w hw => h hw.1, by simp [h]⟩

theorem Puts.comp {f g : (ι → β) → (ι → β)} {W W' : ι → β → Prop} (hf : Puts f W) (hg : Puts g W') :
    Puts (fun a => g (f a)) (fun m v => W m v ∨ W' m v) := by
  intro a m
  rcases hg (f a) m with ⟨v, h1, h2⟩ | ⟨h1, h2⟩
  · left; exact ⟨v, Or.inr h1, h2⟩
  · rcases hf a m with ⟨v, h3, h4⟩ | ⟨h3, h4⟩
    · left; exact ⟨v, Or.inl h3, h2.trans h4⟩
    · right
      refine ⟨fun v hv => ?_, h2.trans h4⟩
      rcases hv with hv | hv
      · exact h3 v hv
      · exact h1 v hv

theorem Puts.congr {f : (ι → β) → (ι → β)} {W W' : ι → β → Prop} (hf : Puts f W)
    (h : ∀ m v, W m v ↔ W' m v) : Puts f W' := by
  have : W = W' := by funext m v; exact propext (h m v)
  rw [← this]; exact hf

theorem Puts.ite {f g : (ι → β) → (ι → β)} {W W' : ι → β → Prop} (p : Prop) [Decidable p]
    (hf : Puts f W) (hg : Puts g W') :
    Puts (fun a => if p then f a else g a) (fun m v => (p ∧ W m v) ∨ (¬ p ∧ W' m v)) := by
  by_cases h : p
  · simp only [h, if_true]
    exact hf.congr (by simp)
  · simp only [h, if_false]
    exact hg.congr (by simp)

theorem Puts.forEach {α : Type} (l : List α) {body : α → (ι → β) → (ι → β)} {W : α → ι → β → Prop}
    (h : ∀ x ∈ l, Puts (body x) (W x)) :
    Puts (forEach l body) (fun m v => ∃ x ∈ l, W x m v) := by
  induction l with
  | nil => intro a m; right; simp [Verif.forEach]
  | cons x xs ih =>
    have h1 := h x (by simp)
    have h2 := ih (fun y hy => h y (by simp [hy]))
    have := h1.comp h2
    intro a m
    have h3 := (this.congr (W' := fun m v => ∃ y ∈ x :: xs, W y m v) (by
      intro m v
      constructor
      · rintro (h | ⟨y, hy, h⟩)
        · exact ⟨x, by simp, h⟩
        · exact ⟨y, by simp [hy], h⟩
      · rintro ⟨y, hy, hw⟩
        rcases List.mem_cons.mp hy with e | hy
        · exact Or.inl (e ▸ hw)
        · exact Or.inr ⟨y, hy, hw⟩)) a m
    simpa [Verif.forEach] using h3

theorem Puts.loop (n : ℕ) {body : ℕ → (ι → β) → (ι → β)} {W : ℕ → ι → β → Prop}
    (h : ∀ i, i < n → Puts (body i) (W i)) :
    Puts (loop n body) (fun m v => ∃ i, i < n ∧ W i m v) := by
  rw [loop_eq_forEach]
  exact (Puts.forEach (List.range n) (fun x hx => h x (List.mem_range.mp hx))).congr (by
    intro m v; simp)

/-- If all assignments to an entry agree, the entry has that value afterwards. -/
theorem Puts.value {f : (ι → β) → (ι → β)} {W : ι → β → Prop} (hf : Puts f W) {m : ι} {v : β}
    (hv : W m v) (huniq : ∀ w, W m w → w = v) (a : ι → β) : f a m = v := by
  rcases hf a m with ⟨w, h1, h2⟩ | ⟨h1, -⟩
  · rw [h2]; exact huniq w h1
  · exact absurd hv (h1 v)

theorem Puts.frame {f : (ι → β) → (ι → β)} {W : ι → β → Prop} (hf : Puts f W) {m : ι}
    (hm : ∀ v, ¬ W m v) (a : ι → β) : f a m = a m := by
  rcases hf a m with ⟨w, h1, -⟩ | ⟨-, h2⟩
  · exact absurd h1 (hm w)
  · exact h2

end Verif
