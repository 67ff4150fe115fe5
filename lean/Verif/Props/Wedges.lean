import Verif.Lemmas.Wedges
import Mathlib.Analysis.SpecialFunctions.Trigonometric.Arctan

/-! C211: the numbers that the demo of the sliding wedges prints. -/

namespace Verif.Wedges

open Finset Verif.ContactMeshes Verif.Spec.Wedges

noncomputable section

/-- Cosine of the slope. -/
def cosOf (t : ℝ) : ℝ := 1 / Real.sqrt (1 + t ^ 2)

theorem cosOf_pos (t : ℝ) : 0 < cosOf t := by unfold cosOf; positivity

theorem cosOf_unit (t : ℝ) : cosOf t ^ 2 + (t * cosOf t) ^ 2 = 1 := by
  have h : 0 < 1 + t ^ 2 := by positivity
  have : cosOf t ^ 2 * (1 + t ^ 2) = 1 := by
    unfold cosOf
    rw [div_pow, one_pow, Real.sq_sqrt h.le]; field_simp
  linear_combination this

/-- A unit vector normal to the slope. -/
theorem normal_of {t : ℝ} {n : ℕ → ℝ} {σ : ℝ} (hσ : σ = 1 ∨ σ = -1) (hu : n 0 ^ 2 + n 1 ^ 2 = 1)
    (ho : n 0 + n 1 * t = 0) (hs : σ * n 1 ≤ 0) : n 0 = σ * (t * cosOf t) ∧ n 1 = -σ * cosOf t := by
  have hc := cosOf_pos t
  have h0 : n 0 = -(n 1 * t) := by linarith
  have hsq : n 1 ^ 2 = cosOf t ^ 2 := by
    have h1 : n 1 ^ 2 * (1 + t ^ 2) = 1 := by rw [h0] at hu; linear_combination hu
    have h2 : cosOf t ^ 2 * (1 + t ^ 2) = 1 := by linear_combination cosOf_unit t
    have h : (1 + t ^ 2) ≠ 0 := by positivity
    exact mul_right_cancel₀ h (h1.trans h2.symm)
  rcases sq_eq_sq_iff_eq_or_eq_neg.1 hsq with h | h <;> rcases hσ with rfl | rfl
  · exact absurd hs (by rw [h]; linarith)
  · exact ⟨by rw [h0, h]; ring, by rw [h]; ring⟩
  · exact ⟨by rw [h0, h]; ring, by rw [h]; ring⟩
  · exact absurd hs (by rw [h]; linarith)

theorem groups_eq (t res : ℝ) : ∃ g3 g4 g6 g8 g9 g10 : List Curve, Tags.wedgeGroups t res =
    [(2, 1, (slidingWedges t res).2), (2, 2, (slidingWedges t res).1), (1, 3, g3), (1, 4, g4),
      (1, 5, [.line (9, 2 + 9 * t) (6 + 1 / 2 * res, 2 + (6 + 1 / 2 * res) * t),
        .line (6 + 1 / 2 * res, 2 + (6 + 1 / 2 * res) * t) (3 + 1 * res, 2 + (3 + 1 * res) * t),
        .line (3 + 1 * res, 2 + (3 + 1 * res) * t) (0, 2)]), (1, 6, g6),
      (1, 7, [.line (3, 2 + 3 * t) (6, 2 + 6 * t)]), (1, 8, g8), (1, 9, g9), (1, 10, g10)] := by
  refine ⟨[.line (0, 0) (9, 0)], [.line (9, 0) (9, 2 + 9 * t)], [.line (0, 2) (0, 0)], [.line (6, 2 + 6 * t) (6, 3 + 9 * t)],
    [.line (6, 3 + 9 * t) (3, 3 + 9 * t)], [.line (3, 3 + 9 * t) (3, 2 + 3 * t)], ?_⟩
  simp [Tags.wedgeGroups, slidingWedges, Tags.addGroup, Tags.addTagged, Tags.addEach]

theorem corner {l : List Curve} {a b : ℝ × ℝ} (h : Curve.line a b ∈ l) : a ∈ region l :=
  subset_convexHull ℝ _ ⟨_, h, left_mem_segment ℝ a b⟩

theorem upper_normal {t res : ℝ} {S : Surfaces} (hm : Meshed t res S) (ht : 0 < t) {k : ℕ} (hk : IsPoint S 7 k) :
    S.n k 0 = 1 * (t * cosOf t) ∧ S.n k 1 = -1 * cosOf t := by
  obtain ⟨r, hr, hk⟩ := hk
  obtain ⟨cs, hcs, c, hc, hn⟩ := hm.upper r hr k hk
  obtain ⟨g3, g4, g6, g8, g9, g10, hg⟩ := groups_eq t res
  rw [hg] at hcs
  simp only [List.mem_cons, Prod.mk.injEq, List.not_mem_nil, or_false] at hcs
  have : cs = [.line (3, 2 + 3 * t) (6, 2 + 6 * t)] := by
    rcases hcs with h | h | h | h | h | h | h | h | h | h <;> first | exact h.2.2 | exact absurd h.2.1 (by norm_num)
  rw [this, List.mem_singleton] at hc
  rw [hc] at hn
  obtain ⟨_, hu, ho, hx⟩ := hn
  refine normal_of (Or.inl rfl) hu (by dsimp only at ho; linarith) ?_
  have := hx ((3 : ℝ), 3 + 9 * t) (corner (a := ((3 : ℝ), 3 + 9 * t)) (b := ((3 : ℝ), 2 + 3 * t)) (by simp [slidingWedges]))
  dsimp only at this
  nlinarith

theorem lower_normal {t res : ℝ} {S : Surfaces} (hm : Meshed t res S) {k : ℕ} (hk : IsPoint S 5 k) :
    S.n k 0 = -1 * (t * cosOf t) ∧ S.n k 1 = - -1 * cosOf t := by
  obtain ⟨r, hr, hk⟩ := hk
  obtain ⟨cs, hcs, c, hc, hn⟩ := hm.lower r hr k hk
  obtain ⟨g3, g4, g6, g8, g9, g10, hg⟩ := groups_eq t res
  rw [hg] at hcs
  simp only [List.mem_cons, Prod.mk.injEq, List.not_mem_nil, or_false] at hcs
  have h5 : cs = [.line (9, 2 + 9 * t) (6 + 1 / 2 * res, 2 + (6 + 1 / 2 * res) * t),
        .line (6 + 1 / 2 * res, 2 + (6 + 1 / 2 * res) * t) (3 + 1 * res, 2 + (3 + 1 * res) * t),
        .line (3 + 1 * res, 2 + (3 + 1 * res) * t) (0, 2)] := by
    rcases hcs with h | h | h | h | h | h | h | h | h | h <;> first | exact h.2.2 | exact absurd h.2.1 (by norm_num)
  -- every piece is a line from `(x, 2 + x t)` to `(y, 2 + y t)`
  obtain ⟨x, y, hxy⟩ : ∃ x y : ℝ, c = .line (x, 2 + x * t) (y, 2 + y * t) := by
    rw [h5] at hc
    simp only [List.mem_cons, List.not_mem_nil, or_false] at hc
    rcases hc with h | h | h
    · exact ⟨_, _, by rw [h]⟩
    · exact ⟨_, _, by rw [h]⟩
    · exact ⟨3 + 1 * res, 0, by rw [h]; norm_num⟩
  rw [hxy] at hn
  obtain ⟨hne, hu, ho, hx⟩ := hn
  have hne' : y - x ≠ 0 := by
    intro h
    apply hne
    rw [show y = x by linarith]
  have ho' : S.n k 0 + S.n k 1 * t = 0 := by
    apply mul_right_cancel₀ hne'
    dsimp only at ho
    linarith
  refine normal_of (Or.inr rfl) hu ho' ?_
  have := hx ((0 : ℝ), (0 : ℝ)) (corner (a := ((0 : ℝ), (0 : ℝ))) (b := ((9 : ℝ), (0 : ℝ))) (by simp [slidingWedges]))
  dsimp only at this
  have e : S.n k 0 = -(S.n k 1 * t) := by linarith
  rw [e] at this
  nlinarith

/-- Full slip in terms of the shear. -/
theorem sliding_iff {fric t ε : ℝ} {S : Surfaces} {τ : ℕ → ℕ → ℝ} {tag : ℕ} {right : Bool}
    (h : Slope fric t (cosOf t) ε S τ tag) (hε : ε = if right then 1 else -1) :
    Sliding fric t right S τ tag ↔
      ∀ k, IsPoint S tag k → 0 < S.wt k → shear t (cosOf t) ε (τ k) = -(fric * pressure (S.n k) (τ k)) := by
  have hc := cosOf_pos t
  have hu := cosOf_unit t
  refine forall_congr' fun k => forall_congr' fun hk => forall_congr' fun _ => ?_
  obtain ⟨h0, h1⟩ := h.tang hk
  have hs := h.sign
  constructor
  · intro hd
    have hd := hd (fun i => if i = 0 then ε * cosOf t else ε * (t * cosOf t)) ⟨?_, ?_, ?_⟩ 0 (by norm_num)
    · simp only [if_true] at hd
      rw [h0] at hd
      have e : (ε * cosOf t) * shear t (cosOf t) ε (τ k) = (ε * cosOf t) * -(fric * pressure (S.n k) (τ k)) := by linarith
      have hε0 : ε ≠ 0 := by intro h; rw [h] at hs; norm_num at hs
      exact mul_left_cancel₀ (mul_ne_zero hε0 hc.ne') e
    · simp only [if_true, one_ne_zero, if_false]
      linear_combination ε ^ 2 * hu + hs
    · simp only [if_true, one_ne_zero, if_false]; ring
    · simp only [if_true]
      cases right
      · simp only [Bool.false_eq_true, if_false] at hε ⊢; rw [hε]; linarith
      · simp only [if_true] at hε ⊢; rw [hε]; linarith
  · intro he d hd i hi
    have hd0 : d 0 = ε * cosOf t := by
      have hsq : d 0 ^ 2 = cosOf t ^ 2 := by
        have a1 : d 0 ^ 2 * (1 + t ^ 2) = 1 := by have := hd.unit; rw [hd.slope] at this; linear_combination this
        have a2 : cosOf t ^ 2 * (1 + t ^ 2) = 1 := by linear_combination hu
        exact mul_right_cancel₀ (by positivity : (1 + t ^ 2) ≠ 0) (a1.trans a2.symm)
      have hsense := hd.sense
      cases right
      · simp only [Bool.false_eq_true, if_false] at hε hsense
        rcases sq_eq_sq_iff_eq_or_eq_neg.1 hsq with h | h
        · linarith
        · rw [h, hε]; ring
      · simp only [if_true] at hε hsense
        rcases sq_eq_sq_iff_eq_or_eq_neg.1 hsq with h | h
        · rw [h, hε]; ring
        · linarith
    have : i = 0 ∨ i = 1 := by omega
    rcases this with rfl | rfl
    · rw [h0, he, hd0]; ring
    · rw [h1, he, hd.slope, hd0]; ring

section
variable {E nu fric angle res : ℝ} {S : Surfaces} {G : ℕ → ℕ → ℕ → ℝ}

/-- **C211.** For tractions that obey Coulomb's law on both contact surfaces, the demo fails exactly if one of the
surfaces is not pressed anywhere, whatever the number of processes. -/
theorem C211_contact (hm : Meshed (Real.tan angle) res S) (hf : 0 ≤ fric) (ht : 0 < Real.tan angle)
    (hft : fric * Real.tan angle < 1)
    (hlaw : ∀ k, IsPoint S 7 k ∨ IsPoint S 5 k →
      Coulomb fric (S.n k) (traction (Scalars.lameMu E nu) (Scalars.lameLambda true E nu) S G k)) :
    (∃ e, printed E nu fric angle S G = .error e) ↔
      ¬ (Pressed S (traction (Scalars.lameMu E nu) (Scalars.lameLambda true E nu) S G) 7 ∧
        Pressed S (traction (Scalars.lameMu E nu) (Scalars.lameLambda true E nu) S G) 5) := by
  revert hlaw
  obtain ⟨τ, hτ⟩ : ∃ τ, τ = traction (Scalars.lameMu E nu) (Scalars.lameLambda true E nu) S G := ⟨_, rfl⟩
  rw [← hτ]
  intro hlaw
  have hU : Slope fric (Real.tan angle) (cosOf (Real.tan angle)) 1 S τ 7 :=
    ⟨hm.weight, cosOf_pos _, cosOf_unit _, by norm_num, fun k hk => upper_normal hm ht hk, fun k hk => hlaw k (Or.inl hk)⟩
  have hL : Slope fric (Real.tan angle) (cosOf (Real.tan angle)) (-1) S τ 5 :=
    ⟨hm.weight, cosOf_pos _, cosOf_unit _, by norm_num, fun k hk => lower_normal hm hk, fun k hk => hlaw k (Or.inr hk)⟩
  have h7 := (hU.resultant hf ht hft).1
  have h5 := (hL.resultant hf ht hft).1
  simp only [printed, contactBdy1, contactBdy2, (reaction_total _ _ S G _).2, ← hτ]
  by_cases a : Pressed S τ 7 <;> by_cases b : Pressed S τ 5
  · rw [if_neg (fun h => h7.1 h a), if_neg (fun h => h5.1 h b)]
    simp [a, b]
  · rw [if_neg (fun h => h7.1 h a), if_pos (h5.2 b)]
    simp [b]
  · rw [if_pos (h7.2 a)]
    simp [a]
  · rw [if_pos (h7.2 a)]
    simp [a]

/-- **C211.** If it prints, the third number bounds the other two. The number of a surface reaches the bound exactly if
the whole surface slides: the upper wedge up the slope, the lower one below it to the left. -/
theorem C211_ratio (hm : Meshed (Real.tan angle) res S) (hf : 0 ≤ fric) (ht : 0 < Real.tan angle)
    (hft : fric * Real.tan angle < 1)
    (hlaw : ∀ k, IsPoint S 7 k ∨ IsPoint S 5 k →
      Coulomb fric (S.n k) (traction (Scalars.lameMu E nu) (Scalars.lameLambda true E nu) S G k))
    {r1 r2 bound : ℝ} (h : printed E nu fric angle S G = .ok (r1, r2, bound)) :
    (r1 ≤ bound ∧ (r1 = bound ↔
      Sliding fric (Real.tan angle) true S (traction (Scalars.lameMu E nu) (Scalars.lameLambda true E nu) S G) 7)) ∧
    (r2 ≤ bound ∧ (r2 = bound ↔
      Sliding fric (Real.tan angle) false S (traction (Scalars.lameMu E nu) (Scalars.lameLambda true E nu) S G) 5)) := by
  revert hlaw
  obtain ⟨τ, hτ⟩ : ∃ τ, τ = traction (Scalars.lameMu E nu) (Scalars.lameLambda true E nu) S G := ⟨_, rfl⟩
  rw [← hτ]
  intro hlaw
  have hU : Slope fric (Real.tan angle) (cosOf (Real.tan angle)) 1 S τ 7 :=
    ⟨hm.weight, cosOf_pos _, cosOf_unit _, by norm_num, fun k hk => upper_normal hm ht hk, fun k hk => hlaw k (Or.inl hk)⟩
  have hL : Slope fric (Real.tan angle) (cosOf (Real.tan angle)) (-1) S τ 5 :=
    ⟨hm.weight, cosOf_pos _, cosOf_unit _, by norm_num, fun k hk => lower_normal hm hk, fun k hk => hlaw k (Or.inr hk)⟩
  have h7 := hU.resultant hf ht hft
  have h5 := hL.resultant hf ht hft
  simp only [printed, contactBdy1, contactBdy2, (reaction_total _ _ S G _).1, (reaction_total _ _ S G _).2, ← hτ] at h
  by_cases a : Pressed S τ 7
  · rw [if_neg (fun h => h7.1.1 h a)] at h
    by_cases b : Pressed S τ 5
    · rw [if_neg (fun h => h5.1.1 h b)] at h
      simp only [Except.ok.injEq, Prod.mk.injEq] at h
      obtain ⟨rfl, rfl, rfl⟩ := h
      rw [sliding_iff (right := true) hU rfl, sliding_iff (right := false) hL rfl]
      exact ⟨h7.2 a, h5.2 b⟩
    · rw [if_pos (h5.1.2 b)] at h
      cases h
  · rw [if_pos (h7.1.2 a)] at h
    cases h

end

/-! A mesh with slope 3/4 and one point on each surface, under a stress that makes both slide with coefficient 1/2. -/

def exWedge : Surfaces :=
  ⟨1, fun _ => 2, fun k i => (if k = 0 then 1 else -1) * (if i = 0 then 3 / 5 else -(4 / 5)),
    fun _ tag => if tag = 7 then [0] else if tag = 5 then [1] else []⟩

def exG : ℕ → ℕ → ℕ → ℝ := fun _ i j => if i = j then (if i = 0 then -(5 / 3) else -(5 / 8)) else 0

theorem ex_point7 {k : ℕ} : IsPoint exWedge 7 k ↔ k = 0 := by simp [IsPoint, exWedge]

theorem ex_point5 {k : ℕ} : IsPoint exWedge 5 k ↔ k = 1 := by simp [IsPoint, exWedge]

theorem ex_tan : Real.tan (Real.arctan (3 / 4)) = 3 / 4 := Real.tan_arctan _

theorem ex_traction (k : ℕ) :
    traction (Scalars.lameMu 1 0) (Scalars.lameLambda true 1 0) exWedge exG k 0 = (if k = 0 then 1 else -1) * -1 ∧
    traction (Scalars.lameMu 1 0) (Scalars.lameLambda true 1 0) exWedge exG k 1 = (if k = 0 then 1 else -1) * (1 / 2) := by
  constructor <;>
    simp [traction, OneSided.sigN, OneSided.sigma, OneSided.eps, sum_range_succ, exWedge, exG, Scalars.lameMu, Scalars.lameLambda] <;>
    norm_num <;> split_ifs <;> norm_num

theorem ex_meshed : Meshed (3 / 4) (1 / 10) exWedge := by
  obtain ⟨g3, g4, g6, g8, g9, g10, hg⟩ := groups_eq (3 / 4) (1 / 10)
  refine ⟨fun _ => by simp [exWedge], ?_, ?_⟩
  · intro r hr k hk
    have hk : k = 0 := ex_point7.1 ⟨r, hr, hk⟩
    refine ⟨[.line (3, 2 + 3 * (3 / 4)) (6, 2 + 6 * (3 / 4))], by rw [hg]; simp, _, List.mem_singleton.2 rfl, ?_⟩
    rw [hk]
    refine ⟨by simp [Prod.ext_iff], by norm_num [exWedge], by norm_num [exWedge], ?_⟩
    intro x hx
    have := region_half (-(3 / 4)) 1 2 (l := (slidingWedges (3 / 4) (1 / 10)).2) ?_ hx
    · simp only [exWedge, if_true, one_ne_zero, if_false]
      linarith
    · intro c hc
      simp only [slidingWedges, List.mem_cons, List.not_mem_nil, or_false] at hc
      rcases hc with rfl | rfl | rfl | rfl <;> apply line_half <;> norm_num
  · intro r hr k hk
    have hk : k = 1 := ex_point5.1 ⟨r, hr, hk⟩
    refine ⟨[.line (9, 2 + 9 * (3 / 4)) (6 + 1 / 2 * (1 / 10), 2 + (6 + 1 / 2 * (1 / 10)) * (3 / 4)),
        .line (6 + 1 / 2 * (1 / 10), 2 + (6 + 1 / 2 * (1 / 10)) * (3 / 4)) (3 + 1 * (1 / 10), 2 + (3 + 1 * (1 / 10)) * (3 / 4)),
        .line (3 + 1 * (1 / 10), 2 + (3 + 1 * (1 / 10)) * (3 / 4)) (0, 2)], by rw [hg]; simp, _, List.mem_cons_self, ?_⟩
    rw [hk]
    refine ⟨by norm_num [Prod.ext_iff], by norm_num [exWedge], by norm_num [exWedge], ?_⟩
    intro x hx
    have := region_half (3 / 4) (-1) (-2) (l := (slidingWedges (3 / 4) (1 / 10)).1) ?_ hx
    · simp only [exWedge, if_true, one_ne_zero, if_false]
      linarith
    · intro c hc
      simp only [slidingWedges, List.mem_cons, List.not_mem_nil, or_false] at hc
      rcases hc with rfl | rfl | rfl | rfl | rfl | rfl <;> apply line_half <;> norm_num

theorem ex_pressure (k : ℕ) : pressure (exWedge.n k)
    (traction (Scalars.lameMu 1 0) (Scalars.lameLambda true 1 0) exWedge exG k) = 1 := by
  obtain ⟨a, b⟩ := ex_traction k
  rw [pressure, a, b]
  simp only [exWedge, if_true, one_ne_zero, if_false]
  split_ifs <;> norm_num

theorem ex_law (k : ℕ) : Coulomb (1 / 2) (exWedge.n k)
    (traction (Scalars.lameMu 1 0) (Scalars.lameLambda true 1 0) exWedge exG k) := by
  obtain ⟨a, b⟩ := ex_traction k
  rw [Coulomb, tangential, tangential, ex_pressure, a, b]
  simp only [exWedge, if_true, one_ne_zero, if_false]
  split_ifs <;> norm_num

example : printed 1 0 (1 / 2) (Real.arctan (3 / 4)) exWedge exG = .ok (2, 2, 2) := by
  simp only [printed, contactBdy1, contactBdy2, (reaction_total _ _ _ _ _).1, (reaction_total _ _ _ _ _).2, ex_tan,
    (ex_traction _).1, (ex_traction _).2]
  norm_num [total, exWedge]

example : Sliding (1 / 2) (3 / 4) true exWedge (traction (Scalars.lameMu 1 0) (Scalars.lameLambda true 1 0) exWedge exG) 7 := by
  have h := C211_ratio (E := 1) (nu := 0) (fric := 1 / 2) (angle := Real.arctan (3 / 4)) (res := 1 / 10) (S := exWedge) (G := exG)
    (r1 := 2) (r2 := 2) (bound := 2) (by rw [ex_tan]; exact ex_meshed) (by norm_num) (by rw [ex_tan]; norm_num) (by rw [ex_tan]; norm_num)
    (fun k _ => ex_law k) (by
      simp only [printed, contactBdy1, contactBdy2, (reaction_total _ _ _ _ _).1, (reaction_total _ _ _ _ _).2, ex_tan,
        (ex_traction _).1, (ex_traction _).2]
      norm_num [total, exWedge])
  rw [ex_tan] at h
  exact h.1.2.1 rfl

end

end Verif.Wedges
