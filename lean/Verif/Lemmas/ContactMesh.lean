import Verif.Model.ContactMesh
import Verif.Lemmas.Ghosting
import Mathlib.Data.List.Sort
import Mathlib.Tactic.Ring

namespace Verif.ContactMesh

open Verif.Ghosting Verif.Search

theorem row_getElem? (dim : ℕ) (xs : List ℤ) (k m : ℕ) :
    (row dim xs k)[m]? = if m < dim then xs[dim * k + m]? else none := by
  unfold row
  rw [List.getElem?_take]
  split <;> simp

theorem writeAt_getElem? {α : Type} (buf data : List α) (off m : ℕ) (h : off + data.length ≤ buf.length) :
    (writeAt buf off data)[m]? =
      if off ≤ m ∧ m < off + data.length then data[m - off]? else buf[m]? := by
  unfold writeAt
  rw [List.append_assoc]
  have hl : (buf.take off).length = off := by simp; omega
  by_cases h1 : m < off
  · rw [List.getElem?_append_left (by omega), if_neg (by omega), List.getElem?_take, if_pos h1]
  · rw [List.getElem?_append_right (by omega), hl]
    by_cases h2 : m < off + data.length
    · rw [List.getElem?_append_left (by omega), if_pos ⟨by omega, h2⟩]
    · rw [List.getElem?_append_right (by omega), if_neg (by omega), List.getElem?_drop]
      congr 1; omega

theorem writeAt_length {α : Type} (buf data : List α) (off : ℕ) (h : off + data.length ≤ buf.length) :
    (writeAt buf off data).length = buf.length := by
  unfold writeAt; simp; omega

theorem row_length (dim : ℕ) (xs : List ℤ) (k : ℕ) (h : dim * k + dim ≤ xs.length) :
    (row dim xs k).length = dim := by
  unfold row; simp; omega

theorem row_writeAt (dim : ℕ) (xs data : List ℤ) (i k : ℕ) (hd : data.length = dim)
    (h : dim * i + dim ≤ xs.length) :
    row dim (writeAt xs (dim * i) data) k = if k = i then data else row dim xs k := by
  apply List.ext_getElem?
  intro m
  rw [row_getElem?, writeAt_getElem? _ _ _ _ (by omega), hd]
  by_cases hk : k = i
  · subst hk
    rw [if_pos rfl]
    by_cases hm : m < dim
    · rw [if_pos hm, if_pos (by omega)]; congr 1; omega
    · rw [if_neg hm, List.getElem?_eq_none (by omega)]
  · rw [if_neg hk, row_getElem?]
    by_cases hm : m < dim
    · rw [if_pos hm, if_pos hm, if_neg]
      rintro ⟨h1, h2⟩
      rcases Nat.lt_or_gt_of_ne hk with h | h
      · have := Nat.mul_le_mul_left dim (show k + 1 ≤ i from h)
        rw [Nat.mul_add] at this; omega
      · have := Nat.mul_le_mul_left dim (show i + 1 ≤ k from h)
        rw [Nat.mul_add] at this; omega
    · rw [if_neg hm, if_neg hm]

theorem sortRows_aux (dim : ℕ) (xs : List ℤ) (n : ℕ) (hn : n ≤ xs.length / dim) :
    let ys := (List.range n).foldl (fun xs i =>
      writeAt xs (dim * i) (stableSort (fun z : ℤ => z) (row dim xs i))) xs
    ys.length = xs.length ∧ ∀ k, row dim ys k =
      if k < n then stableSort (fun z : ℤ => z) (row dim xs k) else row dim xs k := by
  induction n with
  | zero => simp
  | succ n ih =>
    obtain ⟨h1, h2⟩ := ih (by omega)
    dsimp only at h1 h2 ⊢
    rw [List.range_succ, List.foldl_append]
    simp only [List.foldl_cons, List.foldl_nil]
    set ys := (List.range n).foldl (fun xs i =>
      writeAt xs (dim * i) (stableSort (fun z : ℤ => z) (row dim xs i))) xs
    have hle : dim * n + dim ≤ xs.length := by
      have := Nat.mul_le_mul_left dim hn
      have := Nat.mul_div_le xs.length dim
      rw [Nat.mul_add] at *; omega
    have hlen : (stableSort (fun z : ℤ => z) (row dim ys n)).length = dim := by
      rw [stableSort_length, row_length _ _ _ (by omega)]
    refine ⟨by rw [writeAt_length _ _ _ (by omega), h1], fun k => ?_⟩
    rw [row_writeAt _ _ _ _ _ hlen (by omega), h2, h2]
    by_cases hk : k = n
    · subst hk; simp
    · rw [if_neg hk]
      by_cases hkn : k < n
      · rw [if_pos hkn, if_pos (by omega)]
      · rw [if_neg hkn, if_neg (by omega)]

theorem sortRows_length (dim : ℕ) (xs : List ℤ) : (sortRows dim xs).length = xs.length :=
  (sortRows_aux dim xs _ (le_refl _)).1

theorem row_sortRows (dim : ℕ) (xs : List ℤ) (k : ℕ) (hk : k < xs.length / dim) :
    row dim (sortRows dim xs) k = stableSort (fun z : ℤ => z) (row dim xs k) := by
  have := (sortRows_aux dim xs _ (le_refl _)).2 k
  rw [if_pos hk] at this
  exact this

theorem sort_eq_iff (a b : List ℤ) :
    stableSort (fun z : ℤ => z) a = stableSort (fun z : ℤ => z) b ↔ a.Perm b := by
  constructor
  · intro h
    exact (stableSort_perm _ a).symm.trans (h ▸ stableSort_perm _ b)
  · intro h
    exact List.Perm.eq_of_pairwise' (r := (· ≤ ·)) (stableSort_sorted (fun z : ℤ => z) a)
      (stableSort_sorted (fun z : ℤ => z) b)
      ((stableSort_perm _ a).trans (h.trans (stableSort_perm _ b).symm))

theorem foldl_append_eq {α β : Type} (g : α → List β) (l : List α) (acc : List β) :
    l.foldl (fun acc e => acc ++ g e) acc = acc ++ l.flatMap g := by
  induction l generalizing acc with
  | nil => simp
  | cons a l ih => rw [List.foldl_cons, ih, List.flatMap_cons, List.append_assoc]

theorem flatMap_length {α β : Type} (g : α → List β) (l : List α) (d : ℕ) (h : ∀ a ∈ l, (g a).length = d) :
    (l.flatMap g).length = l.length * d := by
  induction l with
  | nil => simp
  | cons a l ih =>
    rw [List.flatMap_cons, List.length_append, h a (by simp), ih (fun b hb => h b (by simp [hb])),
      List.length_cons]
    ring

/-- Entry `i * d + m` of concatenated blocks of length `d`. -/
theorem flatMap_getElem? {α β : Type} (g : α → List β) (l : List α) (d : ℕ)
    (h : ∀ a ∈ l, (g a).length = d) (i m : ℕ) (hi : i < l.length) (hm : m < d) :
    (l.flatMap g)[d * i + m]? = (g l[i])[m]? := by
  induction l generalizing i with
  | nil => simp at hi
  | cons a l ih =>
    have ha := h a (by simp)
    rw [List.flatMap_cons]
    cases i with
    | zero =>
      rw [List.getElem?_append_left (by omega)]
      simp
    | succ i =>
      rw [List.getElem?_append_right (by rw [ha, Nat.mul_succ]; omega), ha]
      have : d * (i + 1) + m - d = d * i + m := by rw [Nat.mul_succ]; omega
      rw [this, ih (fun b hb => h b (by simp [hb])) i (by simpa using hi)]
      simp

theorem row_flatMap {α : Type} (g : α → List ℤ) (l : List α) (d : ℕ) (h : ∀ a ∈ l, (g a).length = d)
    (i : ℕ) (hi : i < l.length) : row d (l.flatMap g) i = g l[i] := by
  apply List.ext_getElem?
  intro m
  rw [row_getElem?]
  by_cases hm : m < d
  · rw [if_pos hm, flatMap_getElem? g l d h i m hi hm]
  · rw [if_neg hm, List.getElem?_eq_none]
    rw [h _ (List.getElem_mem hi)]; omega

theorem entityRows_spec (dim : ℕ) (hd : 0 < dim) (T : Tags) (h : ∀ e ∈ T.idx, (T.vertices e).length = dim) :
    (entityRows dim T).length = dim * T.idx.length ∧ ∀ i (hi : i < T.idx.length),
      row dim (entityRows dim T) i = stableSort (fun z : ℤ => z) ((T.vertices T.idx[i]).map T.l2g) := by
  have e : (T.idx.foldl (fun acc e => acc ++ T.vertices e) []).map T.l2g =
      T.idx.flatMap (fun e => (T.vertices e).map T.l2g) := by
    rw [foldl_append_eq, List.nil_append, List.map_flatMap]
  have hl : ∀ e ∈ T.idx, ((T.vertices e).map T.l2g).length = dim := fun e he => by simp [h e he]
  have hlen := flatMap_length _ _ _ hl
  unfold entityRows
  rw [e, sortRows_length, hlen]
  refine ⟨Nat.mul_comm _ _, fun i hi => ?_⟩
  rw [row_sortRows _ _ _ (by rw [hlen, Nat.mul_div_cancel _ hd]; exact hi), row_flatMap _ _ _ hl i hi]

theorem row_map (dim : ℕ) (f : ℕ → ℤ) (l : List ℕ) (k : ℕ) :
    row dim (l.map f) k = ((l.drop (dim * k)).take dim).map f := by
  unfold row; rw [List.map_take, List.map_drop]

end Verif.ContactMesh
