import Verif.Spec.Tags
import Verif.Props.ContactMeshes
import Mathlib.Tactic.FieldSimp
import Mathlib.Tactic.LinearCombination

/-! C212: the values by which the demos name parts of the boundary. -/

namespace Verif.Tags

open Verif.ContactMeshes Verif.Spec.Tags

noncomputable section

/-! ### the curves with a value -/

theorem part_nil : part [] = ∅ := by simp [part]

theorem part_one (c : Curve) : part [c] = points c := by ext p; simp [part]

theorem part_two (c d : Curve) : part [c, d] = points c ∪ points d := by ext p; simp [part]

theorem part_sub {cs : List Curve} {l : List Curve} (h : ∀ c ∈ cs, c ∈ l) : part cs ⊆ region l := by
  rintro p ⟨c, hc, hp⟩
  exact mem_region (h c hc) hp

theorem circle_find (r height length gap : ℝ) :
    let m := marker (circlePlaneGroups r height length gap)
    find m 2 = [] ∧
    find m 4 = [.line (-length / 2, -height - r - gap) (length / 2, -height - r - gap)] ∧
    find m 6 = [.line (length / 2, -r - gap) (-length / 2, -r - gap)] ∧
    find m 7 = [.arc (-r, 0) (0, 0) (-r * Real.cos (Real.pi / 3), r * Real.sin (Real.pi / 3))] ∧
    find m 8 = [.arc (-r * Real.cos (Real.pi / 3), r * Real.sin (Real.pi / 3)) (0, 0)
      (r * Real.cos (Real.pi / 3), r * Real.sin (Real.pi / 3))] ∧
    find m 9 = [.arc (r * Real.cos (Real.pi / 3), r * Real.sin (Real.pi / 3)) (0, 0) (r, 0)] ∧
    find m 10 = [.arc (r, 0) (0, 0) (-r, 0)] := by
  refine ⟨?_, ?_, ?_, ?_, ?_, ?_, ?_⟩ <;>
    simp [find, marker, circlePlaneGroups, addTagged, addEach, addGroup, circlePlane, lowerBox, polygon_four]

theorem halfdisk_find (r height length gap : ℝ) :
    let m := marker (halfdiskGroups r height length gap)
    find m 4 = [.line (-length / 2, -height - r - gap) (length / 2, -height - r - gap)] ∧
    find m 6 = [.line (length / 2, -r - gap) (-length / 2, -r - gap)] ∧
    find m 7 = [.arc (r, 0) (0, 0) (-r, 0)] ∧
    find m 8 = [.line (-r, 0) (r, 0)] := by
  refine ⟨?_, ?_, ?_, ?_⟩ <;>
    simp [find, marker, halfdiskGroups, addTagged, addEach, addGroup, halfdiskPlane, lowerBox, polygon_four]

theorem boxes_find :
    let m := marker boxes2DGroups
    find m 3 = [.line (-(1 / 10), 0) (4 / 10, 1 / 10)] ∧
    find m 5 = [.line (4 / 10, 6 / 10) (-(1 / 10), 1 / 2)] ∧
    find m 7 = [.line (0, -(6 / 10)) (1 / 2, -(6 / 10))] ∧
    find m 9 = [.line (1 / 2, -(1 / 10)) (0, -(1 / 10))] := by
  refine ⟨?_, ?_, ?_, ?_⟩ <;>
    simp [find, marker, boxes2DGroups, addTagged, addEach, addGroup, boxes2D, polygon_four] <;> norm_num

theorem wedge_find (t res : ℝ) :
    let m := marker (wedgeGroups t res)
    find m 3 = [.line (0, 0) (9, 0)] ∧
    find m 5 = [.line (9, 2 + 9 * t) (6 + 1 / 2 * res, 2 + (6 + 1 / 2 * res) * t),
        .line (6 + 1 / 2 * res, 2 + (6 + 1 / 2 * res) * t) (3 + 1 * res, 2 + (3 + 1 * res) * t),
        .line (3 + 1 * res, 2 + (3 + 1 * res) * t) (0, 2)] ∧
    find m 7 = [.line (3, 2 + 3 * t) (6, 2 + 6 * t)] ∧
    find m 9 = [.line (6, 3 + 9 * t) (3, 3 + 9 * t)] := by
  refine ⟨?_, ?_, ?_, ?_⟩ <;>
    simp [find, marker, wedgeGroups, addTagged, addEach, addGroup, slidingWedges]

theorem boundary1 : getBoundary 14 quarterLoops.1 = [1, 2, 3, 4, 5, 7] := by decide

theorem boundary2 : getBoundary 14 quarterLoops.2 = [8, 9, 10, 11, 13, 14] := by decide

theorem quarter_find (r gap : ℝ) :
    let m := relabelled (marker (quarterGroups r gap))
    find m 4 = [.arc (-r * Real.sin (Real.pi / 6), -r * Real.cos (Real.pi / 6)) (0, 0) (0, -r),
      .arc (0, -r) (0, 0) (r * Real.sin (Real.pi / 6), -r * Real.cos (Real.pi / 6))] ∧
    find m 7 = [.line (r, 0) (0, 0), .line (-r, 0) (0, 0)] ∧
    find m 10 = [.arc (-r * Real.sin (Real.pi / 6), r * Real.cos (Real.pi / 6) - 2 * r - gap) (0, 0 - 2 * r - gap) (0, -r - gap),
      .arc (0, -r - gap) (0, 0 - 2 * r - gap) (r * Real.sin (Real.pi / 6), r * Real.cos (Real.pi / 6) - 2 * r - gap)] ∧
    find m 13 = [.line (0, 0 - 2 * r - gap) (r, -2 * r - gap), .line (-r, -2 * r - gap) (0, 0 - 2 * r - gap)] := by
  refine ⟨?_, ?_, ?_, ?_⟩ <;>
    simp [find, marker, quarterGroups, boundary1, boundary2, addTagged, addEach, addGroup, quarterCurves, quarterDisks, relabelled, relabel,
      Curve.back]

/-! ### bodies -/

theorem closest {A B : Set (ℝ × ℝ)} {p q : ℝ × ℝ} (α β k : ℝ) (hk : 0 ≤ k)
    (hA : ∀ x ∈ A, α * p.1 + β * p.2 ≤ α * x.1 + β * x.2) (hB : ∀ y ∈ B, α * y.1 + β * y.2 ≤ α * q.1 + β * q.2)
    (h1 : p.1 - q.1 = k * α) (h2 : p.2 - q.2 = k * β) : ∀ x ∈ A, ∀ y ∈ B, apart p q ≤ apart x y := by
  intro x hx y hy
  have a := hA x hx
  have b := hB y hy
  refine Real.sqrt_le_sqrt ?_
  simp only [ContactMeshes.sq]
  rw [h1, h2]
  have hS : 0 ≤ α ^ 2 + β ^ 2 := by positivity
  rcases hS.eq_or_lt with h0 | h0
  · have : (k * α) ^ 2 + (k * β) ^ 2 = 0 := by linear_combination -k ^ 2 * h0
    rw [this]; positivity
  · have e : k * (α ^ 2 + β ^ 2) ≤ α * (x.1 - y.1) + β * (x.2 - y.2) := by
      have : k * (α ^ 2 + β ^ 2) = α * (p.1 - q.1) + β * (p.2 - q.2) := by rw [h1, h2]; ring
      linarith
    have hsq := mul_self_le_mul_self (mul_nonneg hk hS) e
    have cs : (α * (x.1 - y.1) + β * (x.2 - y.2)) * (α * (x.1 - y.1) + β * (x.2 - y.2))
        ≤ (α ^ 2 + β ^ 2) * ((x.1 - y.1) ^ 2 + (x.2 - y.2) ^ 2) := by
      nlinarith [sq_nonneg (α * (x.2 - y.2) - β * (x.1 - y.1))]
    have : (α ^ 2 + β ^ 2) * ((k * α) ^ 2 + (k * β) ^ 2) ≤ (α ^ 2 + β ^ 2) * ((x.1 - y.1) ^ 2 + (x.2 - y.2) ^ 2) := by
      calc _ = k * (α ^ 2 + β ^ 2) * (k * (α ^ 2 + β ^ 2)) := by ring
        _ ≤ _ := hsq.trans cs
    exact le_of_mul_le_mul_left this h0

theorem lowerBox_range {r height length gap : ℝ} (hh : 0 < height) {p : ℝ × ℝ} (hp : p ∈ region (lowerBox r height length gap)) :
    -height - r - gap ≤ p.2 ∧ p.2 ≤ -r - gap := by
  refine ⟨?_, lowerBox_below hh hp⟩
  have := region_half 0 1 (-height - r - gap) (l := lowerBox r height length gap) (by
    simp only [lowerBox, polygon_four]
    intro k hk
    simp only [List.mem_cons, List.not_mem_nil, or_false] at hk
    rcases hk with rfl | rfl | rfl | rfl <;> (apply line_half <;> simp only <;> linarith)) hp
  linarith

theorem line_level {a b p : ℝ × ℝ} (hp : p ∈ points (.line a b)) (h : a.2 = b.2) : p.2 = a.2 := by
  have h1 := line_half 0 1 a.2 (by linarith) (by linarith) p hp
  have h2 := line_half 0 (-1) (-a.2) (by linarith) (by linarith) p hp
  linarith

theorem box_middle (length y : ℝ) : ((0 : ℝ), y) ∈ points (.line (length / 2, y) (-length / 2, y)) := by
  have := segment_mid (length / 2, y) (-length / 2, y)
  simp only [points]
  convert this using 2 <;> simp only <;> ring

theorem halfturn {r : ℝ} {p : ℝ × ℝ} (hp : p ∈ points (.arc (r, 0) (0, 0) (-r, 0))) : p.2 ≤ 0 := by
  obtain ⟨-, h | h⟩ := hp
  · obtain ⟨s, t, -, -, h⟩ := h
    have := congrArg Prod.snd h
    simp at this
    exact this.le
  · exact h.2

theorem circlePlane_range {r : ℝ} (hr : 0 < r) {height length gap : ℝ} {p : ℝ × ℝ}
    (hp : p ∈ region (circlePlane r height length gap).1) : -r ≤ p.2 ∧ p.2 ≤ r := by
  refine ⟨circlePlane_above hr hp, ?_⟩
  have := region_half 0 (-1) (-(0 + r)) (l := (circlePlane r height length gap).1) (by
    intro k hk
    simp only [circlePlane, List.mem_cons, List.not_mem_nil, or_false] at hk
    rcases hk with rfl | rfl | rfl | rfl
    · exact arc_below hr.le (sq_left r)
    · exact arc_below hr.le (sq_topLeft r _)
    · exact arc_below hr.le (sq_polar r _)
    · exact arc_below hr.le (sq_right r)) hp
  linarith

theorem top_arc {r : ℝ} (hr : 0 < r) : ((0 : ℝ), r) ∈ points (.arc (-r * Real.cos (Real.pi / 3), r * Real.sin (Real.pi / 3)) (0, 0)
      (r * Real.cos (Real.pi / 3), r * Real.sin (Real.pi / 3))) := by
  have hs := sin_third_pos
  refine ⟨?_, Or.inl ⟨1 / (2 * Real.sin (Real.pi / 3)), 1 / (2 * Real.sin (Real.pi / 3)), by positivity, by positivity, ?_⟩⟩
  · rw [sq_topLeft]; simp [ContactMeshes.sq]
  · ext
    · simp
    · simp; field_simp; ring

theorem top_arc_high {r : ℝ} (hr : 0 < r) {p : ℝ × ℝ} (hp : p ∈ points (.arc (-r * Real.cos (Real.pi / 3), r * Real.sin (Real.pi / 3)) (0, 0)
      (r * Real.cos (Real.pi / 3), r * Real.sin (Real.pi / 3)))) : 0 ≤ p.2 := by
  have hs := sin_third_pos
  obtain ⟨-, h | h⟩ := hp
  · obtain ⟨s, t, h1, h2, h⟩ := h
    have := congrArg Prod.snd h
    simp at this
    rw [this]; positivity
  · have := congrArg Prod.snd h.1
    simp only [Prod.snd_sub, Prod.snd_neg, sub_zero] at this
    nlinarith [mul_pos hr hs]

/-- **C212.** `create_circle_plane_mesh` with the values of demo_nitsche_unbiased.py and demo_hertzian_contact.py. -/
theorem C212_disc_partial {r height length gap : ℝ} (hr : 0 < r) (hh : 0 < height) (hg : 0 ≤ gap) :
    Sensible (region (circlePlane r height length gap).1) (region (circlePlane r height length gap).2)
      (marker (circlePlaneGroups r height length gap)) discValues := by
  obtain ⟨-, f4, f6, -, f8, -, f10⟩ := circle_find r height length gap
  have hB : (circlePlane r height length gap).2 = lowerBox r height length gap := rfl
  have hc : ((0 : ℝ), -r) ∈ points (.arc (r, 0) (0, 0) (-r, 0)) := below_contact.resolve_right (not_lt.2 hr.le)
  refine ⟨⟨?_, ?_⟩, ⟨?_, ?_⟩, ?_, ?_, ?_, ?_, ?_⟩ <;> simp only [discValues, f4, f6, f8, f10, hB]
  · exact part_sub (by simp [circlePlane])
  · exact part_sub (by simp [circlePlane])
  · exact part_sub (by simp [lowerBox, polygon_four])
  · exact part_sub (by simp [lowerBox, polygon_four])
  · simp only [part_one]
    refine ⟨_, hc, ((0 : ℝ), -r - gap), box_middle _ _, closest 0 1 gap hg ?_ ?_ (by simp) (by simp)⟩
    · intro x hx; have := (circlePlane_range hr hx).1; simp only; linarith
    · intro y hy; have := (lowerBox_range hh hy).2; simp only; linarith
  · simp only [part_one]
    exact ⟨_, top_arc hr, fun x hx => (circlePlane_range hr hx).2⟩
  · simp only [part_one]
    intro p hp q hq
    exact (halfturn hq).trans (top_arc_high hr hp)
  · simp only [part_one]
    exact ⟨_, left_mem_segment ℝ _ _, fun x hx => (lowerBox_range hh hx).1⟩
  · simp only [part_one]
    intro p hp q hq
    rw [line_level hp rfl, line_level hq rfl]
    simp only; linarith

/-- **C212.** `create_halfdisk_plane_mesh` with the values of demo_hertzian_contact.py. -/
theorem C212_halfdisc_partial {r height length gap : ℝ} (hr : 0 < r) (hh : 0 < height) (hg : 0 ≤ gap) :
    Sensible (region (halfdiskPlane r height length gap).1) (region (halfdiskPlane r height length gap).2)
      (marker (halfdiskGroups r height length gap)) halfdiscValues := by
  obtain ⟨f4, f6, f7, f8⟩ := halfdisk_find r height length gap
  have hB : (halfdiskPlane r height length gap).2 = lowerBox r height length gap := rfl
  have hc : ((0 : ℝ), -r) ∈ points (.arc (r, 0) (0, 0) (-r, 0)) := below_contact.resolve_right (not_lt.2 hr.le)
  refine ⟨⟨?_, ?_⟩, ⟨?_, ?_⟩, ?_, ?_, ?_, ?_, ?_⟩ <;> simp only [halfdiscValues, f4, f6, f7, f8, hB]
  · exact part_sub (by simp [halfdiskPlane])
  · exact part_sub (by simp [halfdiskPlane])
  · exact part_sub (by simp [lowerBox, polygon_four])
  · exact part_sub (by simp [lowerBox, polygon_four])
  · simp only [part_one]
    refine ⟨_, hc, ((0 : ℝ), -r - gap), box_middle _ _, closest 0 1 gap hg ?_ ?_ (by simp) (by simp)⟩
    · intro x hx; have := halfdisk_above hr hx; simp only; linarith
    · intro y hy; have := (lowerBox_range hh hy).2; simp only; linarith
  · simp only [part_one]
    refine ⟨_, left_mem_segment ℝ _ _, fun x hx => ?_⟩
    have := region_half 0 (-1) 0 (l := (halfdiskPlane r height length gap).1) (by
      intro k hk p hp
      simp only [halfdiskPlane, List.mem_cons, List.not_mem_nil, or_false] at hk
      rcases hk with rfl | rfl
      · have := halfturn hp; linarith
      · have := line_level hp rfl; simp only at this; linarith) hx
    simp only; linarith
  · simp only [part_one]
    intro p hp q hq
    rw [line_level hp rfl]
    exact halfturn hq
  · simp only [part_one]
    exact ⟨_, left_mem_segment ℝ _ _, fun x hx => (lowerBox_range hh hx).1⟩
  · simp only [part_one]
    intro p hp q hq
    rw [line_level hp rfl, line_level hq rfl]
    simp only; linarith

/-- **C212.** `create_gmsh_box_mesh_2D` with the values of demo_nitsche_unbiased.py. -/
theorem C212_boxes_partial : Sensible (region boxes2D.1) (region boxes2D.2) (marker boxes2DGroups) boxValues := by
  obtain ⟨f3, f5, f7, f9⟩ := boxes_find
  have half : ∀ (α β m : ℝ), m ≤ α * (-(1 / 10)) + β * 0 → m ≤ α * (4 / 10) + β * (1 / 10) → m ≤ α * (4 / 10) + β * (6 / 10) →
      m ≤ α * (-(1 / 10)) + β * (1 / 2) → ∀ x ∈ region boxes2D.1, m ≤ α * x.1 + β * x.2 := by
    intro α β m h1 h2 h3 h4 x hx
    refine region_half α β m (l := boxes2D.1) ?_ hx
    simp only [boxes2D, polygon_four]
    intro k hk
    simp only [List.mem_cons, List.not_mem_nil, or_false] at hk
    rcases hk with rfl | rfl | rfl | rfl <;> (apply line_half <;> norm_num <;> norm_num at h1 h2 h3 h4 <;> linarith)
  have half' : ∀ (α β m : ℝ), m ≤ α * 0 + β * (-(6 / 10)) → m ≤ α * (1 / 2) + β * (-(6 / 10)) → m ≤ α * (1 / 2) + β * (-(1 / 10)) →
      m ≤ α * 0 + β * (-(1 / 10)) → ∀ x ∈ region boxes2D.2, m ≤ α * x.1 + β * x.2 := by
    intro α β m h1 h2 h3 h4 x hx
    refine region_half α β m (l := boxes2D.2) ?_ hx
    simp only [boxes2D, polygon_four]
    intro k hk
    simp only [List.mem_cons, List.not_mem_nil, or_false] at hk
    rcases hk with rfl | rfl | rfl | rfl <;> (apply line_half <;> norm_num <;> norm_num at h1 h2 h3 h4 <;> linarith)
  refine ⟨⟨?_, ?_⟩, ⟨?_, ?_⟩, ?_, ?_, ?_, ?_, ?_⟩ <;> simp only [boxValues, f3, f5, f7, f9]
  · exact part_sub (by simp [boxes2D, polygon_four]; norm_num)
  · exact part_sub (by simp [boxes2D, polygon_four]; norm_num)
  · exact part_sub (by simp [boxes2D, polygon_four]; norm_num)
  · exact part_sub (by simp [boxes2D, polygon_four]; norm_num)
  · simp only [part_one]
    refine ⟨((-(3 / 130) : ℝ), (1 / 65 : ℝ)), ⟨11 / 13, 2 / 13, by norm_num, by norm_num, by norm_num, by ext <;> norm_num⟩,
      ((0 : ℝ), (-(1 / 10) : ℝ)), right_mem_segment ℝ _ _, closest (-1) 5 (3 / 130) (by norm_num) ?_ ?_ (by norm_num) (by norm_num)⟩
    · intro x hx
      have := half (-1) 5 (1 / 10) (by norm_num) (by norm_num) (by norm_num) (by norm_num) x hx
      norm_num; linarith
    · intro y hy
      have := half' 1 (-5) (1 / 2) (by norm_num) (by norm_num) (by norm_num) (by norm_num) y hy
      norm_num; linarith
  · simp only [part_one]
    refine ⟨_, left_mem_segment ℝ _ _, fun x hx => ?_⟩
    have := half 0 (-1) (-(6 / 10)) (by norm_num) (by norm_num) (by norm_num) (by norm_num) x hx
    simp only; linarith
  · simp only [part_one]
    intro p hp q hq
    have h1 := line_half 0 1 (1 / 2) (by norm_num) (by norm_num) p hp
    have h2 := line_half 0 (-1) (-(1 / 10)) (by norm_num) (by norm_num) q hq
    linarith
  · simp only [part_one]
    refine ⟨_, left_mem_segment ℝ _ _, fun x hx => ?_⟩
    have := half' 0 1 (-(6 / 10)) (by norm_num) (by norm_num) (by norm_num) (by norm_num) x hx
    simp only; linarith
  · simp only [part_one]
    intro p hp q hq
    rw [line_level hp rfl, line_level hq rfl]
    norm_num

/-- **C212.** `sliding_wedges` with the values of demo_sliding_wedges.py. -/
theorem C212_wedges_partial {t res : ℝ} (ht : 0 ≤ t) (hres : 0 ≤ res) (hres' : res ≤ 6) :
    Sensible (region (slidingWedges t res).2) (region (slidingWedges t res).1) (marker (wedgeGroups t res)) wedgeValues := by
  obtain ⟨f3, f5, f7, f9⟩ := wedge_find t res
  have hx9 : (6 + 1 / 2 * res) ≤ 9 := by linarith
  have hx3 : (3 + 1 * res) ≤ 9 := by linarith
  have hp1 : 0 ≤ (6 + 1 / 2 * res) * t := mul_nonneg (by linarith) ht
  have hp2 : 0 ≤ (3 + 1 * res) * t := mul_nonneg (by linarith) ht
  refine ⟨⟨?_, ?_⟩, ⟨?_, ?_⟩, ?_, ?_, ?_, ?_, ?_⟩ <;> simp only [wedgeValues, f3, f5, f7, f9]
  · exact part_sub (by simp [slidingWedges])
  · exact part_sub (by simp [slidingWedges])
  · exact part_sub (by simp [slidingWedges])
  · exact part_sub (by simp [slidingWedges])
  · rw [part_one]
    refine ⟨((3 : ℝ), 2 + 3 * t), left_mem_segment ℝ _ _, ((3 : ℝ), 2 + 3 * t), ?_, fun x _ y _ => ?_⟩
    · refine ⟨_, List.mem_cons_of_mem _ (List.mem_cons_of_mem _ List.mem_cons_self), ?_⟩
      have h3 : (0 : ℝ) < 3 + 1 * res := by linarith
      refine ⟨3 / (3 + 1 * res), res / (3 + 1 * res), by positivity, by positivity, by field_simp, ?_⟩
      ext
      · simp; field_simp
      · simp; field_simp; ring
    · simp [apart, ContactMeshes.sq]
  · simp only [part_one]
    refine ⟨_, left_mem_segment ℝ _ _, fun x hx => ?_⟩
    have := region_half 0 (-1) (-(3 + 9 * t)) (l := (slidingWedges t res).2) (by
      intro k hk
      simp only [slidingWedges, List.mem_cons, List.not_mem_nil, or_false] at hk
      rcases hk with rfl | rfl | rfl | rfl <;> (apply line_half <;> simp only <;> linarith)) hx
    simp only; linarith
  · simp only [part_one]
    intro p hp q hq
    rw [line_level hp rfl]
    have := line_half 0 (-1) (-(2 + 6 * t)) (by simp only; linarith) (by simp only; linarith) q hq
    simp only; linarith
  · simp only [part_one]
    refine ⟨_, left_mem_segment ℝ _ _, fun x hx => ?_⟩
    have := region_half 0 1 0 (l := (slidingWedges t res).1) (by
      intro k hk
      simp only [slidingWedges, List.mem_cons, List.not_mem_nil, or_false] at hk
      rcases hk with rfl | rfl | rfl | rfl | rfl | rfl <;> (apply line_half <;> simp only <;> linarith)) hx
    simp only; linarith
  · rintro p hp q ⟨c, hc, hq⟩
    rw [part_one] at hp
    rw [line_level hp rfl]
    simp only [List.mem_cons, List.not_mem_nil, or_false] at hc
    have : 0 ≤ 0 * q.1 + 1 * q.2 := by
      rcases hc with rfl | rfl | rfl <;> (refine line_half 0 1 0 ?_ ?_ q hq <;> simp only <;> linarith)
    simp only; linarith

/-! ### halves of two discs -/

theorem arc_end {a c b : ℝ × ℝ} (h : ContactMeshes.sq b c = ContactMeshes.sq a c) : b ∈ points (.arc a c b) :=
  ⟨h, Or.inl ⟨0, 1, le_refl _, by norm_num, by simp⟩⟩

theorem arc_start {a c b : ℝ × ℝ} : a ∈ points (.arc a c b) :=
  ⟨rfl, Or.inl ⟨1, 0, by norm_num, le_refl _, by simp⟩⟩

theorem arc_low {a c b p : ℝ × ℝ} (ha : a.2 ≤ c.2) (hb : b.2 ≤ c.2) (hp : p ∈ points (.arc a c b)) : p.2 ≤ c.2 := by
  obtain ⟨-, h | h⟩ := hp
  · obtain ⟨s, t, h1, h2, h⟩ := h
    have := congrArg Prod.snd h
    simp only [Prod.snd_sub, Prod.snd_add, Prod.smul_snd, smul_eq_mul] at this
    nlinarith [mul_nonneg h1 (sub_nonneg.2 ha), mul_nonneg h2 (sub_nonneg.2 hb)]
  · exact h.2

theorem arc_high {a c b p : ℝ × ℝ} (ha : c.2 ≤ a.2) (hb : c.2 ≤ b.2) (hab : 0 < (a.2 - c.2) + (b.2 - c.2))
    (hp : p ∈ points (.arc a c b)) : c.2 ≤ p.2 := by
  obtain ⟨-, h | h⟩ := hp
  · obtain ⟨s, t, h1, h2, h⟩ := h
    have := congrArg Prod.snd h
    simp only [Prod.snd_sub, Prod.snd_add, Prod.smul_snd, smul_eq_mul] at this
    nlinarith [mul_nonneg h1 (sub_nonneg.2 ha), mul_nonneg h2 (sub_nonneg.2 hb)]
  · have := congrArg Prod.snd h.1
    simp only [Prod.snd_sub, Prod.snd_neg] at this
    linarith

theorem part_sub_two {cs l l' : List Curve} (h : ∀ c ∈ cs, (c ∈ l ∨ c ∈ l') ∨ (c.back ∈ l ∨ c.back ∈ l') ∧ ∃ a b, c = .line a b) :
    part cs ⊆ region l ∪ region l' := by
  rintro p ⟨c, hc, hp⟩
  rcases h c hc with (h | h) | ⟨h, a, b, rfl⟩
  · exact Or.inl (mem_region h hp)
  · exact Or.inr (mem_region h hp)
  · have hp' : p ∈ points (Curve.line a b).back := by
      simp only [Curve.back, points] at hp ⊢
      rwa [segment_symm]
    rcases h with h | h
    · exact Or.inl (mem_region h hp')
    · exact Or.inr (mem_region h hp')

/-- **C212.** `create_quarter_disks_mesh` with the values of the demos with two cylinders. -/
theorem C212_cylinders_partial {r gap : ℝ} (hr : 0 < r) (hg : 0 ≤ gap) :
    Sensible (region (quarterDisks r gap).1.1 ∪ region (quarterDisks r gap).1.2)
      (region (quarterDisks r gap).2.1 ∪ region (quarterDisks r gap).2.2)
      (relabelled (marker (quarterGroups r gap))) cylinderValues := by
  obtain ⟨f4, f7, f10, f13⟩ := quarter_find r gap
  obtain ⟨s1, s2, s3, s4, s5, s6, s7, s8, s9, s10⟩ := quarterDisks_sq r gap
  have hcos := mul_pos hr cos_sixth_pos
  have hgap := (quarterDisks_gap hr hg).1
  refine ⟨⟨?_, ?_⟩, ⟨?_, ?_⟩, ?_, ?_, ?_, ?_, ?_⟩ <;> simp only [cylinderValues, f4, f7, f10, f13]
  · exact part_sub_two (by simp [quarterDisks, Curve.back])
  · exact part_sub_two (by simp [quarterDisks, Curve.back])
  · exact part_sub_two (by simp [quarterDisks, Curve.back])
  · exact part_sub_two (by simp [quarterDisks, Curve.back])
  · rw [part_two, part_two]
    refine ⟨((0 : ℝ), -r), Or.inr arc_start, ((0 : ℝ), -r - gap), Or.inr arc_start, fun x hx y hy => ?_⟩
    rw [apart_vertical (by ring : -r - (-r - gap) = gap) hg]
    exact hgap x hx y hy
  · rw [part_two]
    refine ⟨(r, 0), Or.inl (left_mem_segment ℝ _ _), ?_⟩
    rintro x (hx | hx)
    · have := region_half 0 (-1) 0 (l := (quarterDisks r gap).1.1) (by
        intro k hk p hp
        simp only [quarterDisks, List.mem_cons, List.not_mem_nil, or_false] at hk
        rcases hk with rfl | rfl | rfl | rfl
        · have := arc_low (by simp only; linarith) (by simp only; linarith) hp; simp only at this; linarith
        · have := arc_low (by simp only; linarith) (by simp only; linarith) hp; simp only at this; linarith
        · exact line_half 0 (-1) 0 (by simp) (by simp) p hp
        · exact line_half 0 (-1) 0 (by simp) (by simp only; linarith) p hp) hx
      simp only; linarith
    · have := region_half 0 (-1) 0 (l := (quarterDisks r gap).1.2) (by
        intro k hk p hp
        simp only [quarterDisks, Curve.back, List.mem_cons, List.not_mem_nil, or_false] at hk
        rcases hk with rfl | rfl | rfl | rfl
        · exact line_half 0 (-1) 0 (by simp only; linarith) (by simp) p hp
        · exact line_half 0 (-1) 0 (by simp) (by simp) p hp
        · have := arc_low (by simp only; linarith) (by simp only; linarith) hp; simp only at this; linarith
        · have := arc_low (by simp only; linarith) (by simp only; linarith) hp; simp only at this; linarith) hx
      simp only; linarith
  · rw [part_two, part_two]
    intro p hp q hq
    have h1 : p.2 = 0 := by
      rcases hp with hp | hp <;> exact line_level hp rfl
    have h2 : q.2 ≤ 0 := by
      rcases hq with hq | hq <;> exact arc_low (by simp only; linarith) (by simp only; linarith) hq
    linarith
  · rw [part_two]
    refine ⟨(r, -2 * r - gap), Or.inl (right_mem_segment ℝ _ _), ?_⟩
    rintro x (hx | hx)
    · have := region_half 0 1 (-2 * r - gap) (l := (quarterDisks r gap).2.1) (by
        intro k hk p hp
        simp only [quarterDisks, Curve.back, List.mem_cons, List.not_mem_nil, or_false] at hk
        rcases hk with rfl | rfl | rfl | rfl
        · have := arc_high (by simp only; linarith) (by simp only; linarith) (by simp only; linarith) hp; simp only at this; linarith
        · have := arc_high (by simp only; linarith) (by simp only; linarith) (by simp only; linarith) hp; simp only at this; linarith
        · exact line_half 0 1 _ (by simp only; linarith) (by simp only; linarith) p hp
        · exact line_half 0 1 _ (by simp only; linarith) (by simp only; linarith) p hp) hx
      simp only; linarith
    · have := region_half 0 1 (-2 * r - gap) (l := (quarterDisks r gap).2.2) (by
        intro k hk p hp
        simp only [quarterDisks, Curve.back, List.mem_cons, List.not_mem_nil, or_false] at hk
        rcases hk with rfl | rfl | rfl | rfl
        · have := arc_high (by simp only; linarith) (by simp only; linarith) (by simp only; linarith) hp; simp only at this; linarith
        · have := arc_high (by simp only; linarith) (by simp only; linarith) (by simp only; linarith) hp; simp only at this; linarith
        · exact line_half 0 1 _ (by simp only; linarith) (by simp only; linarith) p hp
        · exact line_half 0 1 _ (by simp only; linarith) (by simp only; linarith) p hp) hx
      simp only; linarith
  · rw [part_two, part_two]
    intro p hp q hq
    have h1 : p.2 = 0 - 2 * r - gap := by
      rcases hp with hp | hp
      · exact line_level hp (by simp only; ring)
      · have := line_level hp (by simp only; ring); simp only at this; linarith
    have h2 : 0 - 2 * r - gap ≤ q.2 := by
      rcases hq with hq | hq <;>
        exact arc_high (by simp only; linarith) (by simp only; linarith) (by simp only; linarith) hq
    linarith

/-! ### the disc above a rigid box -/

/-- **C212** fails for new_demo_nitsche_rigid_surface_ufl.py in two dimensions: the values do not belong to
`create_circle_plane_mesh`. Nothing is driven. The contact surface of the elastic body is the side of the box away from
the disc, and the rigid surface and its clamped part are on the upper half of the disc. -/
theorem C212_rigid_violated {r height length gap : ℝ} (hr : 0 < r) :
    ¬ Sensible (region (circlePlane r height length gap).1) (region (circlePlane r height length gap).2)
        (marker (circlePlaneGroups r height length gap)) rigidValues ∧
      find (marker (circlePlaneGroups r height length gap)) rigidValues.driven = [] ∧
      (∀ p ∈ part (find (marker (circlePlaneGroups r height length gap)) rigidValues.contact1),
        ∀ x ∈ region (circlePlane r height length gap).1, gap + height ≤ apart x p) ∧
      ∀ v ∈ [rigidValues.contact2, rigidValues.held], part (find (marker (circlePlaneGroups r height length gap)) v) ⊆
        {p | p ∈ region (circlePlane r height length gap).1 ∧ 0 ≤ p.2} := by
  obtain ⟨f2, f4, -, f7, -, f9, -⟩ := circle_find r height length gap
  have hs := mul_pos hr sin_third_pos
  refine ⟨fun h => ?_, ?_, ?_, ?_⟩
  · obtain ⟨p, hp, -⟩ := h.top
    simp only [rigidValues, f2, part_nil] at hp
    exact hp
  · simp only [rigidValues, f2]
  · simp only [rigidValues, f4, part_one]
    intro p hp x hx
    have h1 := line_level hp rfl
    simp only at h1
    have h2 := (circlePlane_range hr hx).1
    exact apart_ge (by linarith)
  · intro v hv
    simp only [rigidValues, List.mem_cons, List.not_mem_nil, or_false] at hv
    rcases hv with rfl | rfl
    · rw [f9, part_one]
      exact fun p hp => ⟨mem_region (by simp [circlePlane]) hp, arc_high (by simp only; linarith) (by simp) (by simp only; linarith) hp⟩
    · rw [f7, part_one]
      exact fun p hp => ⟨mem_region (by simp [circlePlane]) hp, arc_high (by simp) (by simp only; linarith) (by simp only; linarith) hp⟩

/-- The default sizes of the demo. -/
example : find (marker (circlePlaneGroups (1 / 4) (1 / 4) 1 (1 / 100))) rigidValues.driven = [] :=
  (C212_rigid_violated (by norm_num)).2.1

example : Sensible (region (circlePlane (3 / 10) (1 / 10) 1 (1 / 10)).1) (region (circlePlane (3 / 10) (1 / 10) 1 (1 / 10)).2)
    (marker (circlePlaneGroups (3 / 10) (1 / 10) 1 (1 / 10))) discValues :=
  C212_disc_partial (by norm_num) (by norm_num) (by norm_num)

end

end Verif.Tags
