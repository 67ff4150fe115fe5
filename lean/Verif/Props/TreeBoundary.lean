import Verif.Props.Tree
import Verif.Spec.TreeBoundary
import Mathlib.Data.List.Chain

/-!
Property C161: the boundaries of the Christmas tree meshes run once around the bodies.
-/

namespace Verif.Tree

open Verif.Spec

noncomputable section

/-- Continue a chain after its last element. -/
theorem chain_after {α : Type} {R : α → α → Prop} {s m : List α} {a : α} (h1 : s.IsChain R) (ha : s.getLast? = some a)
    (h2 : (a :: m).IsChain R) : (s ++ m).IsChain R := by
  rw [List.isChain_append]
  refine ⟨h1, h2.tail, fun x hx y hy => ?_⟩
  rw [ha] at hx
  obtain rfl := Option.some.inj hx
  cases m with
  | nil => simp at hy
  | cons b m =>
    simp only [List.head?_cons, Option.mem_def, Option.some.injEq] at hy
    subst hy
    exact (List.isChain_cons_cons.mp h2).1

/-- Continue a chain whose last element is the first one of the next. -/
theorem chain_over {α : Type} {R : α → α → Prop} {l s : List α} {a b : α} (h1 : (a :: (l ++ [b])).IsChain R)
    (h2 : s.IsChain R) (hb : s.head? = some b) : (a :: (l ++ s)).IsChain R := by
  cases s with
  | nil => simp at hb
  | cons c s =>
    simp only [List.head?_cons, Option.some.injEq] at hb
    subst hb
    have h1' : ((a :: l) ++ [c]).IsChain R := h1
    have : ((a :: l) ++ c :: s).IsChain R := List.isChain_split.mpr ⟨h1', h2⟩
    exact this

theorem everyEdge_of {R : ℝ × ℝ → ℝ × ℝ → Prop} {l : List (ℝ × ℝ)} {a : ℝ × ℝ} (ha : l.getLast? = some a)
    (h : (a :: l).IsChain R) : EveryEdge R l := by
  intro i hi
  rw [List.isChain_iff_getElem] at h
  have := h i (by simpa using hi)
  rw [List.getElem_cons_succ] at this
  by_cases h0 : i = 0
  · subst h0
    have e : l[l.length - 1]'(by omega) = a := by
      rw [List.getLast?_eq_getElem?, List.getElem?_eq_getElem (by omega)] at ha
      exact Option.some.inj ha
    simp only [if_pos]
    rw [e]
    exact this
  · obtain ⟨j, rfl⟩ : ∃ j, i = j + 1 := ⟨i - 1, by omega⟩
    simpa using this

/-! ### linspace -/

theorem linspace_get (a b : ℝ) (n i : ℕ) (h : i < (linspace a b n).length) :
    (linspace a b n)[i] = a + (b - a) * i / (n - 1 : ℕ) := by
  simp only [linspace, List.getElem_map, List.getElem_range]

theorem linspace_head (a b : ℝ) {n : ℕ} (h : 2 ≤ n) : (linspace a b n).head? = some a := by
  rw [List.head?_eq_getElem?, List.getElem?_eq_getElem (by rw [linspace_length]; omega), linspace_get]
  simp

theorem linspace_last (a b : ℝ) {n : ℕ} (h : 2 ≤ n) : (linspace a b n).getLast? = some b := by
  rw [List.getLast?_eq_getElem?, List.getElem?_eq_getElem (by rw [linspace_length]; omega), linspace_get, linspace_length]
  have : ((n - 1 : ℕ) : ℝ) ≠ 0 := by
    have : n - 1 ≠ 0 := by omega
    exact_mod_cast this
  congr 1
  field_simp
  ring

theorem linspace_ends (a b : ℝ) {n : ℕ} (h : 2 ≤ n) : linspace a b n = a :: (inside (linspace a b n) ++ [b]) := by
  have h1 := linspace_head a b h
  have h2 := linspace_last a b h
  have hl := linspace_length a b n
  unfold inside
  generalize linspace a b n = l at h1 h2 hl
  match l, h1, h2, hl with
  | x :: y :: t, h1, h2, _ =>
    simp only [List.head?_cons, Option.some.injEq] at h1
    subst h1
    rw [List.drop_one, List.tail_cons]
    have : (y :: t).getLast? = some b := by rwa [List.getLast?_cons_cons] at h2
    rw [List.dropLast_append_getLast? b this]
  | [x], _, _, hl => simp at hl; omega
  | [], h1, _, _ => simp at h1

theorem linspace_up {a b : ℝ} (hab : a < b) (n : ℕ) :
    (linspace a b n).IsChain (fun x y => a ≤ x ∧ x < y ∧ y ≤ b) := by
  rw [List.isChain_iff_getElem]
  intro i hi
  rw [linspace_length] at hi
  rw [linspace_get, linspace_get]
  have hd : (0 : ℝ) < (n - 1 : ℕ) := by
    have : 0 < n - 1 := by omega
    exact_mod_cast this
  have hi1 : ((i + 1 : ℕ) : ℝ) ≤ (n - 1 : ℕ) := by
    have : i + 1 ≤ n - 1 := by omega
    exact_mod_cast this
  have hba : 0 < b - a := by linarith
  refine ⟨?_, ?_, ?_⟩
  · have : 0 ≤ (b - a) * (i : ℝ) / (n - 1 : ℕ) := by positivity
    linarith
  · have : (b - a) * (i : ℝ) / (n - 1 : ℕ) < (b - a) * ((i + 1 : ℕ) : ℝ) / (n - 1 : ℕ) := by
      refine div_lt_div_of_pos_right (mul_lt_mul_of_pos_left ?_ hba) hd
      push_cast
      linarith
    linarith
  · have : (b - a) * ((i + 1 : ℕ) : ℝ) / (n - 1 : ℕ) ≤ b - a := by
      rw [div_le_iff₀ hd]
      exact mul_le_mul_of_nonneg_left hi1 hba.le
    linarith

theorem linspace_down {a b : ℝ} (hab : b < a) (n : ℕ) :
    (linspace a b n).IsChain (fun x y => b ≤ y ∧ y < x ∧ x ≤ a) := by
  have h := linspace_up (show -a < -b by linarith) n
  have e : linspace (-a) (-b) n = (linspace a b n).map (fun x => -x) := by
    simp only [linspace, List.map_map]
    refine List.map_congr_left (fun i _ => ?_)
    show -a + (-b - -a) * i / _ = -(a + (b - a) * i / _)
    ring
  rw [e, List.isChain_map] at h
  exact h.imp (fun x y ⟨h1, h2, h3⟩ => ⟨by linarith, by linarith, by linarith⟩)

/-! ### the tree -/

theorem mirror_last {pts : List (ℝ × ℝ)} {p : ℝ × ℝ} (h : pts.getLast? = some p) :
    ((pts.map mirror).reverse).head? = some (mirror p) := by
  rw [List.head?_reverse, List.getLast?_map, h]
  rfl

theorem mirror_head {pts : List (ℝ × ℝ)} {p : ℝ × ℝ} (h : pts.head? = some p) :
    ((pts.map mirror).reverse).getLast? = some (mirror p) := by
  rw [List.getLast?_reverse, List.head?_map, h]
  rfl

theorem upper_chain (pts : List (ℝ × ℝ)) : pts.IsChain (AlongTree pts) := by
  rw [List.isChain_iff_getElem]
  exact fun i hi => .upper i hi

theorem lower_chain (pts : List (ℝ × ℝ)) : (pts.map mirror).reverse.IsChain (AlongTree pts) := by
  rw [List.isChain_reverse, List.isChain_map, List.isChain_iff_getElem]
  exact fun i hi => .lower i hi

theorem tip_step {pts : List (ℝ × ℝ)} {p : ℝ × ℝ} (h : pts.head? = some p) : AlongTree pts (mirror p) p := by
  cases pts with
  | nil => simp at h
  | cons a t =>
    simp only [List.head?_cons, Option.some.injEq] at h
    subst h
    exact .tip (pts := a :: t) (by simp)

/-- Around the tree. -/
theorem tree_chain {pts m : List (ℝ × ℝ)} {R : ℝ × ℝ → ℝ × ℝ → Prop} (hR : ∀ a b, AlongTree pts a b → R a b) {p l : ℝ × ℝ}
    (hp : pts.head? = some p) (hl : pts.getLast? = some l) (h : (l :: m).IsChain R) :
    ((pts.map mirror).reverse ++ (pts ++ m)).IsChain R := by
  refine chain_after ((lower_chain pts).imp hR) (mirror_head hp) ?_
  have h2 := chain_after ((upper_chain pts).imp hR) hl h
  cases pts with
  | nil => simp at hp
  | cons a t =>
    rw [List.cons_append] at h2 ⊢
    refine List.isChain_cons_cons.mpr ⟨hR _ _ ?_, h2⟩
    have : a = p := by simpa using hp
    subst this
    exact tip_step hp

/-- C161: the boundary of the surrounding body runs once around it: along the mirrored curve, across its tip, along the
curve, then counterclockwise along the sides of the frame back to the start.  Every edge is a step of this kind. -/
theorem C161_outer (pts : List (ℝ × ℝ)) (nc : ℕ) (factor : ℝ) (hnc : 2 ≤ nc) (hf : 1 < factor) {l : ℝ × ℝ}
    (hl : (shifted pts).getLast? = some l) (hx : -1 < l.1) (hy : 0 < l.2) :
    EveryEdge (fun a b => AlongTree (shifted pts) a b ∨ AlongFrame (-1) l.1 (l.2 * factor) a b) (outerTree pts nc factor) := by
  set P := shifted pts with hP
  set R : ℝ × ℝ → ℝ × ℝ → Prop := fun a b => AlongTree P a b ∨ AlongFrame (-1) l.1 (l.2 * factor) a b with hR
  set top := l.2 * factor with htop
  have ht : l.2 < top := by rw [htop]; nlinarith
  have hlast : P.getLastD (0, 0) = l := by rw [List.getLastD_eq_getLast?, hl]; rfl
  obtain ⟨p, hp⟩ : ∃ p, P.head? = some p := by
    cases h : P with
    | nil => rw [h] at hl; simp at hl
    | cons a t => exact ⟨a, rfl⟩
  -- the pieces
  set xf := linspace (-1) l.1 nc with hxf
  set yg := inside (linspace top (-top) nc) with hyg
  set yh := inside (linspace l.2 top 8) with hyh
  have eq : outerTree pts nc factor = yh.reverse.map (fun y => (l.1, -y)) ++ ((P.map mirror).reverse ++ (P
      ++ (yh.map (fun y => (l.1, y)) ++ ((xf.map (fun x => (x, top))).reverse ++ (yg.map (fun y => ((-1 : ℝ), y))
      ++ xf.map (fun x => (x, -top))))))) := by
    simp only [outerTree, List.append_assoc]
    rw [show pts.map (fun p => (p.1 + 1 / 100, p.2 + 1 / 10)) = P from rfl, hlast]
    rfl
  -- from right to left
  have c8 : (xf.map (fun x => (x, -top))).IsChain R := by
    rw [List.isChain_map]
    exact (linspace_up hx nc).imp (fun x y ⟨h1, h2, h3⟩ => Or.inr (.forth x y h1 h2 h3))
  have d8 : (xf.map (fun x => (x, -top))).head? = some (-1, -top) := by rw [List.head?_map, linspace_head _ _ hnc]; rfl
  have g8 : (xf.map (fun x => (x, -top))).getLast? = some (l.1, -top) := by
    rw [List.getLast?_map, linspace_last _ _ hnc]; rfl
  have c7 : ((-1, top) :: (yg.map (fun y => ((-1 : ℝ), y)) ++ xf.map (fun x => (x, -top)))).IsChain R := by
    refine chain_over (b := (-1, -top)) ?_ c8 d8
    have h := (linspace_down (show -top < top by linarith) nc).imp (S := fun y y' => R ((-1 : ℝ), y) ((-1 : ℝ), y'))
      (fun y y' ⟨h1, h2, h3⟩ => Or.inr (.down y y' h1 h2 h3))
    rw [linspace_ends _ _ hnc] at h
    have := (List.isChain_map (R := R) (fun y => ((-1 : ℝ), y))).mpr h
    simpa using this
  have c6 : ((xf.map (fun x => (x, top))).reverse ++ (yg.map (fun y => ((-1 : ℝ), y)) ++ xf.map (fun x => (x, -top)))).IsChain R := by
    refine chain_after (a := (-1, top)) ?_ ?_ c7
    · rw [List.isChain_reverse, List.isChain_map]
      exact (linspace_up hx nc).imp (fun x y ⟨h1, h2, h3⟩ => Or.inr (.back y x h1 h2 h3))
    · rw [List.getLast?_reverse, List.head?_map, linspace_head _ _ hnc]; rfl
  have d6 : ((xf.map (fun x => (x, top))).reverse ++ (yg.map (fun y => ((-1 : ℝ), y)) ++ xf.map (fun x => (x, -top)))).head?
      = some (l.1, top) := by
    rw [List.head?_append, List.head?_reverse, List.getLast?_map, linspace_last _ _ hnc]; rfl
  have up := linspace_up ht 8
  have c5 : (l :: (yh.map (fun y => (l.1, y)) ++ ((xf.map (fun x => (x, top))).reverse ++ (yg.map (fun y => ((-1 : ℝ), y))
      ++ xf.map (fun x => (x, -top)))))).IsChain R := by
    refine chain_over (b := (l.1, top)) ?_ c6 d6
    have h := up.imp (S := fun y y' => R (l.1, y) (l.1, y'))
      (fun y y' ⟨h1, h2, h3⟩ => Or.inr (.up y y' (by linarith) h2 h3))
    rw [linspace_ends _ _ (by norm_num)] at h
    have := (List.isChain_map (R := R) (fun y => (l.1, y))).mpr h
    simpa using this
  have c2 := tree_chain (R := R) (fun a b h => Or.inl h) hp hl c5
  have c1 : ((l.1, -top) :: outerTree pts nc factor).IsChain R := by
    rw [eq]
    refine chain_over (b := mirror l) ?_ c2 ?_
    · have h := up.imp (S := fun y y' => R (l.1, -y') (l.1, -y))
        (fun y y' ⟨h1, h2, h3⟩ => Or.inr (.up (-y') (-y) (by linarith) (by linarith) (by linarith)))
      rw [linspace_ends _ _ (by norm_num)] at h
      have := (List.isChain_map (R := fun a b => R b a) (fun y => (l.1, -y))).mpr h
      rw [← List.isChain_reverse] at this
      simpa [mirror, hyh] using this
    · rw [List.head?_append, mirror_last hl]; rfl
  refine everyEdge_of ?_ c1
  rw [eq]
  simp only [← List.append_assoc]
  rw [List.getLast?_append, g8]
  rfl

/-- C161: the boundary of the tree itself: along the curve, down along the bottom, back along the mirrored curve and across the
tip. -/
theorem C161_inner (pts : List (ℝ × ℝ)) (nc : ℕ) (hnc : 2 ≤ nc) (hX : 2 ≤ pts.length) {l : ℝ × ℝ}
    (hl : pts.getLast? = some l) (hy : 0 < l.2) :
    EveryEdge (fun a b => AlongTree (pts.drop 1) a b ∨ Downwards l.1 (-l.2) l.2 a b) (innerTree pts nc) := by
  set R : ℝ × ℝ → ℝ × ℝ → Prop := fun a b => AlongTree (pts.drop 1) a b ∨ Downwards l.1 (-l.2) l.2 a b with hR
  have hlast : pts.getLastD (0, 0) = l := by rw [List.getLastD_eq_getLast?, hl]; rfl
  set P := pts.drop 1 with hP
  have hPl : P.getLast? = some l := by
    rw [hP, List.getLast?_drop, if_neg (by omega), hl]
  obtain ⟨p, hp⟩ : ∃ p, P.head? = some p := by
    cases h : P with
    | nil => rw [h] at hPl; simp at hPl
    | cons a t => exact ⟨a, rfl⟩
  have eq : innerTree pts nc = P ++ ((inside (linspace l.2 (-l.2) nc)).map (fun y => (l.1, y)) ++ (P.map mirror).reverse) := by
    simp only [innerTree, List.append_assoc]
    rw [hlast]
    rfl
  have c1 : (l :: ((inside (linspace l.2 (-l.2) nc)).map (fun y => (l.1, y)) ++ (P.map mirror).reverse)).IsChain R := by
    refine chain_over (b := mirror l) ?_ ((lower_chain P).imp (fun a b h => Or.inl h)) (mirror_last hPl)
    have h := (linspace_down (show -l.2 < l.2 by linarith) nc).imp (S := fun y y' => R (l.1, y) (l.1, y'))
      (fun y y' ⟨h1, h2, h3⟩ => Or.inr ⟨rfl, rfl, h1, h2, h3⟩)
    rw [linspace_ends _ _ hnc] at h
    have := (List.isChain_map (R := R) (fun y => (l.1, y))).mpr h
    simpa [mirror] using this
  have c2 := chain_after ((upper_chain P).imp (fun a b h => (Or.inl h : R a b))) hPl c1
  have c3 : (mirror p :: innerTree pts nc).IsChain R := by
    rw [eq]
    cases hc : P with
    | nil => rw [hc] at hp; simp at hp
    | cons a t =>
      rw [hc] at c2 hp
      rw [List.cons_append] at c2 ⊢
      have : a = p := by simpa using hp
      subst this
      refine List.isChain_cons_cons.mpr ⟨Or.inl ?_, c2⟩
      rw [← hP, hc]
      exact tip_step hp
  refine everyEdge_of ?_ c3
  rw [eq]
  simp only [← List.append_assoc]
  rw [List.getLast?_append, mirror_head hp]
  rfl

/-- The hypotheses of C161 hold for a curve with three points and the factors of both meshes. -/
example : (shifted [(0, 0), (1, 1 / 2), (4, 3)]).getLast? = some (4 + 1 / 100, 3 + 1 / 10)
    ∧ (2 ≤ 51 ∧ (1 : ℝ) < 1.5 ∧ (1 : ℝ) < 1.2) ∧ (-1 : ℝ) < 4 + 1 / 100 ∧ (0 : ℝ) < 3 + 1 / 10
    ∧ 2 ≤ [((0 : ℝ), (0 : ℝ)), (1, 1 / 2), (4, 3)].length := by
  refine ⟨by simp [shifted], by norm_num, by norm_num, by norm_num, by simp⟩

end

end Verif.Tree
