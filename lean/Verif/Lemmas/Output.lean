import Verif.Lib.Radix
import Verif.Model.Output

/-! Lemmas about the model of `ContactWriter`. -/

namespace Verif.Output

open Finset Verif.ContactProblem

noncomputable section

theorem putAll_not_mem {V : Type} (val : ℕ → V) (ds : List ℕ) (n : ℕ) (a : ℕ → V) (d : ℕ) (h : d ∉ ds) :
    (ds.zipIdx n).foldl (fun a p => Function.update a p.1 (val p.2)) a d = a d := by
  induction ds generalizing n a with
  | nil => rfl
  | cons x ds ih =>
    simp only [List.zipIdx_cons, List.foldl_cons]
    rw [ih _ _ (fun hd => h (List.mem_cons_of_mem _ hd)), Function.update_of_ne]
    rintro rfl
    exact h List.mem_cons_self

theorem putAll_getElem {V : Type} (val : ℕ → V) (ds : List ℕ) (hnd : ds.Nodup) (n : ℕ) (a : ℕ → V) (k d : ℕ)
    (h : ds[k]? = some d) :
    (ds.zipIdx n).foldl (fun a p => Function.update a p.1 (val p.2)) a d = val (n + k) := by
  induction ds generalizing n a k with
  | nil => simp at h
  | cons x ds ih =>
    simp only [List.zipIdx_cons, List.foldl_cons]
    have hnd' := List.nodup_cons.mp hnd
    cases k with
    | zero =>
      simp only [List.getElem?_cons_zero, Option.some.injEq] at h
      subst h
      rw [putAll_not_mem _ _ _ _ _ hnd'.1]
      simp
    | succ k =>
      simp only [List.getElem?_cons_succ] at h
      rw [ih hnd'.2 _ _ _ h]
      congr 1
      omega

theorem mshToFm_of {fm : List ℕ} (hnd : fm.Nodup) {k f : ℕ} (h : fm[k]? = some f) : mshToFm fm f = k := by
  have := putAll_getElem (V := ℤ) (fun n => (n : ℤ)) fm hnd 0 (fun _ => -1) k f h
  simpa [mshToFm] using this

theorem dofs_length (m : ℕ → ℤ) (nq : ℕ) (fl : List ℕ) : (dofs m nq fl).length = fl.length * nq := by
  induction fl with
  | nil => simp [dofs]
  | cons f fl ih =>
    have : dofs m nq (f :: fl) = (List.range nq).map (fun q => (m f).toNat * nq + q) ++ dofs m nq fl := rfl
    rw [this, List.length_append, ih]
    simp
    ring

theorem dofs_getElem (m : ℕ → ℤ) (nq : ℕ) (fl : List ℕ) (e q f : ℕ) (hq : q < nq) (he : fl[e]? = some f) :
    (dofs m nq fl)[e * nq + q]? = some ((m f).toNat * nq + q) := by
  induction fl generalizing e with
  | nil => simp at he
  | cons x fl ih =>
    have hd : dofs m nq (x :: fl) = (List.range nq).map (fun q => (m x).toNat * nq + q) ++ dofs m nq fl := rfl
    rw [hd]
    cases e with
    | zero =>
      simp only [List.getElem?_cons_zero, Option.some.injEq] at he
      subst he
      rw [List.getElem?_append_left (by simpa using hq)]
      simp [hq]
    | succ e =>
      rw [List.getElem?_cons_succ] at he
      rw [List.getElem?_append_right (by simp; nlinarith)]
      have e1 : (e + 1) * nq + q - ((List.range nq).map (fun q => (m x).toNat * nq + q)).length = e * nq + q := by
        simp only [List.length_map, List.length_range]
        have : (e + 1) * nq = e * nq + nq := by ring
        omega
      rw [e1]
      exact ih e he

theorem mem_dofs (m : ℕ → ℤ) (nq : ℕ) (fl : List ℕ) (d : ℕ) :
    d ∈ dofs m nq fl ↔ ∃ f ∈ fl, ∃ q < nq, d = (m f).toNat * nq + q := by
  simp only [dofs, List.mem_flatMap, List.mem_map, List.mem_range]
  constructor
  · rintro ⟨f, hf, q, hq, rfl⟩; exact ⟨f, hf, q, hq, rfl⟩
  · rintro ⟨f, hf, q, hq, rfl⟩; exact ⟨f, hf, q, hq, rfl⟩

theorem dofs_nodup (m : ℕ → ℤ) (nq : ℕ) (fl : List ℕ) (hnd : fl.Nodup)
    (hinj : ∀ f ∈ fl, ∀ f' ∈ fl, (m f).toNat = (m f').toNat → f = f') : (dofs m nq fl).Nodup := by
  induction fl with
  | nil => simp [dofs]
  | cons x fl ih =>
    have hd : dofs m nq (x :: fl) = (List.range nq).map (fun q => (m x).toNat * nq + q) ++ dofs m nq fl := rfl
    have hnd' := List.nodup_cons.mp hnd
    rw [hd, List.nodup_append]
    refine ⟨(List.nodup_range).map_on (fun a _ b _ h => by omega), ih hnd'.2 (fun f hf f' hf' =>
      hinj f (List.mem_cons_of_mem _ hf) f' (List.mem_cons_of_mem _ hf')), ?_⟩
    intro a ha b hb hab
    subst hab
    obtain ⟨q, hq, rfl⟩ := List.mem_map.mp ha
    obtain ⟨f, hf, q', hq', e⟩ := (mem_dofs m nq fl _).mp hb
    have e1 := (radix_inj (List.mem_range.mp hq) hq').mp e
    exact hnd'.1 (hinj x List.mem_cons_self f (List.mem_cons_of_mem _ hf) e1.1 ▸ hf)

theorem collect_ok {α β : Type} (f : ℕ → α → Except Err β) (g : ℕ → α → β) (l : List α) (i : ℕ)
    (h : ∀ k a, l[k]? = some a → f (i + k) a = .ok (g (i + k) a)) :
    collect f i l = .ok ((l.zipIdx i).map (fun p => g p.2 p.1)) := by
  induction l generalizing i with
  | nil => rfl
  | cons a l ih =>
    have h0 := h 0 a rfl
    rw [Nat.add_zero] at h0
    have hl := ih (i + 1) (fun k b hb => by
      have := h (k + 1) b (by simpa using hb)
      rwa [show i + (k + 1) = i + 1 + k by omega] at this)
    simp only [collect, h0, hl, List.zipIdx_cons, List.map_cons]
    rfl

/-- Result of the storing loop. -/
theorem storeLoop_ok (m : ℕ → ℤ) (gdim nq : ℕ) (g0nx : ℕ → Mat) (c2f : ℕ → List ℕ)
    (L : List (PairIn × ((ℕ → ℝ) × (ℕ → ℝ)))) (i : ℕ) (st : (ℕ → ℝ) × (ℕ → ℝ))
    (hne : ∀ p ∈ L, p.1.entities ≠ [])
    (hlen : ∀ k < L.length, (g0nx (i + k)).cols / gdim = nq)
    (hnd : ∀ p ∈ L, (dofs m nq (facetList c2f p.1.entities)).Nodup) :
    ∃ st', storeLoop m gdim nq g0nx c2f i L st = .ok st'
      ∧ (∀ d, (∀ p ∈ L, d ∉ dofs m nq (facetList c2f p.1.entities)) → st'.1 d = st.1 d ∧ st'.2 d = st.2 d)
      ∧ ∀ (j : ℕ) (p : PairIn × ((ℕ → ℝ) × (ℕ → ℝ))), L[j]? = some p → ∀ k d : ℕ, (dofs m nq (facetList c2f p.1.entities))[k]? = some d →
        (∀ (j' : ℕ) (p' : PairIn × ((ℕ → ℝ) × (ℕ → ℝ))), j < j' → L[j']? = some p' → d ∉ dofs m nq (facetList c2f p'.1.entities)) →
        st'.1 d = p.2.1 k ∧ st'.2 d = p.2.2 k := by
  induction L generalizing i st with
  | nil => exact ⟨st, rfl, fun _ _ => ⟨rfl, rfl⟩, fun j p hp => by simp at hp⟩
  | cons x L ih =>
    obtain ⟨p, pn, pt⟩ := x
    have hp := hne _ List.mem_cons_self
    have hl := hlen 0 (by simp)
    rw [Nat.add_zero] at hl
    obtain ⟨st', e, h1, h2⟩ := ih (i + 1)
      (scatter (dofs m nq (facetList c2f p.entities)) pn st.1,
        scatter (dofs m nq (facetList c2f p.entities)) pt st.2)
      (fun p hp => hne p (List.mem_cons_of_mem _ hp))
      (fun k hk => by
        have := hlen (k + 1) (by simpa using hk)
        rwa [show i + (k + 1) = i + 1 + k by omega] at this)
      (fun p hp => hnd p (List.mem_cons_of_mem _ hp))
    have hd := hnd _ List.mem_cons_self
    refine ⟨st', ?_, ?_, ?_⟩
    · simp only [storeLoop]
      rw [if_neg hp, if_neg (by rw [dofs_length, hl]; simp [facetList])]
      exact e
    · intro d h
      obtain ⟨a, b⟩ := h1 d (fun p hp => h p (List.mem_cons_of_mem _ hp))
      have h0 := h _ List.mem_cons_self
      exact ⟨by rw [a]; exact putAll_not_mem _ _ _ _ _ h0, by rw [b]; exact putAll_not_mem _ _ _ _ _ h0⟩
    · intro j p' hj k d hk hlast
      cases j with
      | zero =>
        simp only [List.getElem?_cons_zero, Option.some.injEq] at hj
        subst hj
        obtain ⟨a, b⟩ := h1 d (fun p' hp' => by
          obtain ⟨j', hj'⟩ := List.getElem?_of_mem hp'
          exact hlast (j' + 1) p' (by omega) (by simpa using hj'))
        have e1 := putAll_getElem pn _ hd 0 st.1 k d hk
        have e2 := putAll_getElem pt _ hd 0 st.2 k d hk
        rw [Nat.zero_add] at e1 e2
        exact ⟨by rw [a]; exact e1, by rw [b]; exact e2⟩
      | succ j =>
        exact h2 j p' (by simpa using hj) k d hk (fun j' p'' hjj hp'' =>
          hlast (j' + 1) p'' (by omega) (by simpa using hp''))

end

end Verif.Output
