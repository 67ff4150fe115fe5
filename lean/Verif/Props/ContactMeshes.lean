import Verif.Spec.ContactMeshes
import Mathlib.Tactic.IntervalCases
import Mathlib.Tactic.Linarith
import Mathlib.Tactic.NormNum
import Mathlib.Tactic.FieldSimp
import Mathlib.Tactic.Positivity

/-! Properties C157, C158: the bodies of the mesh generators for two bodies. -/

namespace Verif.ContactMeshes

/-! ### half planes -/

theorem half_convex (α β m : ℝ) : Convex ℝ {p : ℝ × ℝ | m ≤ α * p.1 + β * p.2} := by
  intro p hp q hq a b ha hb hab
  simp only [Set.mem_setOf_eq, Prod.fst_add, Prod.snd_add, Prod.smul_fst, Prod.smul_snd, smul_eq_mul] at *
  have e1 := mul_le_mul_of_nonneg_left hp ha
  have e2 := mul_le_mul_of_nonneg_left hq hb
  have : m = a * m + b * m := by rw [← add_mul, hab, one_mul]
  rw [this]
  nlinarith

theorem region_half {l : List Curve} (α β m : ℝ) (h : ∀ k ∈ l, ∀ p ∈ points k, m ≤ α * p.1 + β * p.2) {p : ℝ × ℝ}
    (hp : p ∈ region l) : m ≤ α * p.1 + β * p.2 := by
  have : region l ⊆ {p : ℝ × ℝ | m ≤ α * p.1 + β * p.2} := by
    refine convexHull_min ?_ (half_convex α β m)
    rintro q ⟨k, hk, hq⟩
    exact h k hk q hq
  exact this hp

theorem line_half {a b : ℝ × ℝ} (α β m : ℝ) (ha : m ≤ α * a.1 + β * a.2) (hb : m ≤ α * b.1 + β * b.2) :
    ∀ p ∈ points (.line a b), m ≤ α * p.1 + β * p.2 := by
  intro p hp
  exact (half_convex α β m).segment_subset (show a ∈ {p : ℝ × ℝ | m ≤ α * p.1 + β * p.2} from ha)
    (show b ∈ {p : ℝ × ℝ | m ≤ α * p.1 + β * p.2} from hb) hp

theorem arc_above {a c b : ℝ × ℝ} {r : ℝ} (hr : 0 ≤ r) (h : sq a c = r ^ 2) :
    ∀ p ∈ points (.arc a c b), c.2 - r ≤ 0 * p.1 + 1 * p.2 := by
  rintro p ⟨hp, -⟩
  rw [h] at hp
  have h1 : (p.2 - c.2) ^ 2 ≤ r ^ 2 := by rw [← hp, sq]; nlinarith [sq_nonneg (p.1 - c.1)]
  have := abs_le_of_sq_le_sq' h1 hr
  linarith [this.1]

theorem arc_below {a c b : ℝ × ℝ} {r : ℝ} (hr : 0 ≤ r) (h : sq a c = r ^ 2) :
    ∀ p ∈ points (.arc a c b), -(c.2 + r) ≤ 0 * p.1 + (-1) * p.2 := by
  rintro p ⟨hp, -⟩
  rw [h] at hp
  have h1 : (p.2 - c.2) ^ 2 ≤ r ^ 2 := by rw [← hp, sq]; nlinarith [sq_nonneg (p.1 - c.1)]
  have := abs_le_of_sq_le_sq' h1 hr
  linarith [this.2]

theorem apart_ge {p q : ℝ × ℝ} {g : ℝ} (h : g ≤ p.2 - q.2) : g ≤ apart p q := by
  refine h.trans ((le_abs_self _).trans ?_)
  rw [apart, ← Real.sqrt_sq_eq_abs]
  exact Real.sqrt_le_sqrt (by rw [sq]; nlinarith [sq_nonneg (p.1 - q.1)])

theorem apart_ge' {p q : ℝ × ℝ} {g : ℝ} (h : g ≤ q.1 - p.1) : g ≤ apart p q := by
  refine h.trans ((le_abs_self _).trans ?_)
  rw [apart, ← Real.sqrt_sq_eq_abs]
  exact Real.sqrt_le_sqrt (by rw [sq]; nlinarith [sq_nonneg (p.2 - q.2)])

theorem apart_vertical {x y y' g : ℝ} (h : y - y' = g) (hg : 0 ≤ g) : apart (x, y) (x, y') = g := by
  rw [apart, sq]
  simp only [sub_self, h]
  rw [show (0 : ℝ) ^ 2 + g ^ 2 = g ^ 2 by ring, Real.sqrt_sq hg]

theorem mem_region {l : List Curve} {k : Curve} {p : ℝ × ℝ} (hk : k ∈ l) (hp : p ∈ points k) : p ∈ region l :=
  subset_convexHull ℝ _ ⟨k, hk, hp⟩

theorem polygon_four (a b c d : ℝ × ℝ) : polygon [a, b, c, d] = [.line d a, .line a b, .line b c, .line c d] := by
  simp [polygon, List.range_succ]

theorem segment_mid (a b : ℝ × ℝ) : ((a.1 + b.1) / 2, (a.2 + b.2) / 2) ∈ segment ℝ a b :=
  ⟨1 / 2, 1 / 2, by norm_num, by norm_num, by norm_num, by
    ext
    · simp only [Prod.fst_add, Prod.smul_fst, smul_eq_mul]; ring
    · simp only [Prod.snd_add, Prod.smul_snd, smul_eq_mul]; ring⟩

theorem lowerBox_below {r height length gap : ℝ} (hh : 0 < height) {p : ℝ × ℝ} (hp : p ∈ region (lowerBox r height length gap)) :
    p.2 ≤ -r - gap := by
  have := region_half 0 (-1) (r + gap) (l := lowerBox r height length gap) (by
    rw [lowerBox, polygon_four]
    intro k hk
    simp only [List.mem_cons, List.not_mem_nil, or_false] at hk
    rcases hk with rfl | rfl | rfl | rfl <;> (apply line_half <;> simp only <;> linarith)) hp
  linarith

theorem lowerBox_contact (r height length gap : ℝ) : ((0 : ℝ), -r - gap) ∈ region (lowerBox r height length gap) := by
  rw [lowerBox, polygon_four]
  refine mem_region (k := .line (length / 2, -r - gap) (-length / 2, -r - gap)) (by simp) ?_
  have := segment_mid (length / 2, -r - gap) (-length / 2, -r - gap)
  rw [points]
  convert this using 2 <;> simp only <;> ring

theorem below_contact {r : ℝ} : ((0 : ℝ), -r) ∈ points (.arc (r, 0) (0, 0) (-r, 0)) ∨ r < 0 := by
  rcases lt_or_ge r 0 with h | h
  · exact Or.inr h
  · refine Or.inl ⟨?_, Or.inr ⟨?_, ?_⟩⟩
    · simp [sq]
    · ext <;> simp
    · simpa using h

theorem sq_polar (r a : ℝ) : sq (r * Real.cos a, r * Real.sin a) (0, 0) = r ^ 2 := by
  simp only [sq, sub_zero]
  nlinarith [Real.sin_sq_add_cos_sq a]

/-! ### closed loops -/

theorem closed_of_four {a b c d : Curve} (h1 : IsCurve a) (h2 : IsCurve b) (h3 : IsCurve c) (h4 : IsCurve d) (e1 : stop a = start b)
    (e2 : stop b = start c) (e3 : stop c = start d) (e4 : stop d = start a) : Closed [a, b, c, d] := by
  refine ⟨by simp, ?_, ?_⟩
  · intro k hk
    simp only [List.mem_cons, List.not_mem_nil, or_false] at hk
    rcases hk with rfl | rfl | rfl | rfl <;> assumption
  · intro i hi
    refine ⟨Nat.mod_lt _ (by simp), ?_⟩
    simp only [List.length_cons, List.length_nil] at hi
    interval_cases i
    · simpa using e1
    · simpa using e2
    · simpa using e3
    · simpa using e4

theorem closed_polygon_four {a b c d : ℝ × ℝ} (h1 : d ≠ a) (h2 : a ≠ b) (h3 : b ≠ c) (h4 : c ≠ d) : Closed (polygon [a, b, c, d]) := by
  rw [polygon_four]
  exact closed_of_four h1 h2 h3 h4 rfl rfl rfl rfl

theorem ne_of_fst {a b : ℝ × ℝ} (h : a.1 ≠ b.1) : a ≠ b := fun e => h (by rw [e])

theorem ne_of_snd {a b : ℝ × ℝ} (h : a.2 ≠ b.2) : a ≠ b := fun e => h (by rw [e])

theorem lowerBox_closed {r height length gap : ℝ} (hh : 0 < height) (hl : 0 < length) : Closed (lowerBox r height length gap) := by
  refine closed_polygon_four (ne_of_snd ?_) (ne_of_fst ?_) (ne_of_snd ?_) (ne_of_fst ?_) <;> simp only <;> intro h <;> linarith

theorem cos_third : Real.cos (Real.pi / 3) = 1 / 2 := Real.cos_pi_div_three

theorem sin_third_pos : 0 < Real.sin (Real.pi / 3) := by
  rw [Real.sin_pi_div_three]; positivity

theorem sq_pos_polar {r : ℝ} (hr : 0 < r) {p : ℝ × ℝ} (h : sq p (0, 0) = r ^ 2) : 0 < sq p (0, 0) := by rw [h]; positivity

theorem sq_left (r : ℝ) : sq (-r, 0) (0, 0) = r ^ 2 := by simp [sq]

theorem sq_right (r : ℝ) : sq (r, 0) (0, 0) = r ^ 2 := by simp [sq]

theorem sq_topLeft (r a : ℝ) : sq (-r * Real.cos a, r * Real.sin a) (0, 0) = r ^ 2 := by
  simp only [sq, sub_zero]
  nlinarith [Real.sin_sq_add_cos_sq a]

theorem circlePlane_closed {r : ℝ} (hr : 0 < r) (height length gap : ℝ) : Closed (circlePlane r height length gap).1 := by
  have hs := mul_pos hr sin_third_pos
  have hc : 0 < r * Real.cos (Real.pi / 3) := by rw [cos_third]; linarith
  refine closed_of_four ⟨?_, ?_, ?_⟩ ⟨?_, ?_, ?_⟩ ⟨?_, ?_, ?_⟩ ⟨?_, ?_, ?_⟩ rfl rfl rfl rfl
  · rw [sq_left, sq_topLeft]
  · exact sq_pos_polar hr (sq_left r)
  · exact ne_of_snd hs.ne
  · rw [sq_topLeft, sq_polar]
  · exact sq_pos_polar hr (sq_topLeft r _)
  · refine ne_of_fst ?_
    simp only
    intro h
    linarith
  · rw [sq_polar, sq_right]
  · exact sq_pos_polar hr (sq_polar r _)
  · exact ne_of_snd hs.ne'
  · rw [sq_left, sq_right]
  · exact sq_pos_polar hr (sq_right r)
  · refine ne_of_fst ?_
    simp only
    intro h
    linarith

theorem circlePlane_above {r : ℝ} (hr : 0 < r) {height length gap : ℝ} {p : ℝ × ℝ}
    (hp : p ∈ region (circlePlane r height length gap).1) : -r ≤ p.2 := by
  have := region_half 0 1 (0 - r) (l := (circlePlane r height length gap).1) (by
    intro k hk
    simp only [circlePlane, List.mem_cons, List.not_mem_nil, or_false] at hk
    rcases hk with rfl | rfl | rfl | rfl
    · exact arc_above hr.le (sq_left r)
    · exact arc_above hr.le (sq_topLeft r _)
    · exact arc_above hr.le (sq_polar r _)
    · exact arc_above hr.le (sq_right r)) hp
  linarith

theorem halfdisk_above {r : ℝ} (hr : 0 < r) {height length gap : ℝ} {p : ℝ × ℝ}
    (hp : p ∈ region (halfdiskPlane r height length gap).1) : -r ≤ p.2 := by
  have := region_half 0 1 (0 - r) (l := (halfdiskPlane r height length gap).1) (by
    intro k hk
    simp only [halfdiskPlane, List.mem_cons, List.not_mem_nil, or_false] at hk
    rcases hk with rfl | rfl
    · exact arc_above hr.le (sq_right r)
    · apply line_half <;> simp only <;> linarith) hp
  linarith

/-- The closest points of a body above the box of `lowerBox` are the lowest point of the body and the point of the box below. -/
theorem gap_lowerBox {A : Set (ℝ × ℝ)} {r height length gap : ℝ} (hh : 0 < height) (hg : 0 ≤ gap) (hA : ∀ p ∈ A, -r ≤ p.2)
    (hc : ((0 : ℝ), -r) ∈ A) : GapIs A (region (lowerBox r height length gap)) gap := by
  refine ⟨fun p hp q hq => apart_ge ?_, _, hc, _, lowerBox_contact r height length gap, apart_vertical (by ring) hg⟩
  have := hA p hp
  have := lowerBox_below hh hq
  linarith

/-! ### the quarter discs -/

theorem sin_sixth : Real.sin (Real.pi / 6) = 1 / 2 := Real.sin_pi_div_six

theorem cos_sixth_pos : 0 < Real.cos (Real.pi / 6) := by
  rw [Real.cos_pi_div_six]; positivity

theorem cos_sixth_lt : Real.cos (Real.pi / 6) < 1 := by
  have h := Real.sin_sq_add_cos_sq (Real.pi / 6)
  rw [sin_sixth] at h
  nlinarith [cos_sixth_pos]

theorem quarterDisks_sq (r gap : ℝ) :
    let c := ((0 : ℝ), (0 : ℝ))
    let c2 := ((0 : ℝ), 0 - 2 * r - gap)
    let angle := Real.pi / 6
    sq (0, -r) c = r ^ 2 ∧ sq (r, 0) c = r ^ 2 ∧ sq (-r, 0) c = r ^ 2 ∧
      sq (r * Real.sin angle, -r * Real.cos angle) c = r ^ 2 ∧ sq (-r * Real.sin angle, -r * Real.cos angle) c = r ^ 2 ∧
      sq (r, -2 * r - gap) c2 = r ^ 2 ∧ sq (-r, -2 * r - gap) c2 = r ^ 2 ∧ sq (0, -r - gap) c2 = r ^ 2 ∧
      sq (r * Real.sin angle, r * Real.cos angle - 2 * r - gap) c2 = r ^ 2 ∧
      sq (-r * Real.sin angle, r * Real.cos angle - 2 * r - gap) c2 = r ^ 2 := by
  have h := Real.sin_sq_add_cos_sq (Real.pi / 6)
  simp only [sq]
  have e : r ^ 2 * (Real.sin (Real.pi / 6) ^ 2 + Real.cos (Real.pi / 6) ^ 2) = r ^ 2 := by rw [h, mul_one]
  refine ⟨by ring, by ring, by ring, ?_, ?_, by ring, by ring, by ring, ?_, ?_⟩ <;> rw [← e] <;> ring

theorem quarterDisks_closed {r : ℝ} (hr : 0 < r) (gap : ℝ) :
    Closed (quarterDisks r gap).1.1 ∧ Closed (quarterDisks r gap).1.2 ∧ Closed (quarterDisks r gap).2.1 ∧
      Closed (quarterDisks r gap).2.2 := by
  obtain ⟨s1, s2, s3, s4, s5, s6, s7, s8, s9, s10⟩ := quarterDisks_sq r gap
  have hp : 0 < r ^ 2 := by positivity
  have hc := mul_pos hr cos_sixth_pos
  have hc' := mul_lt_mul_of_pos_left cos_sixth_lt hr
  have hs : r * Real.sin (Real.pi / 6) = r / 2 := by rw [sin_sixth]; ring
  refine ⟨closed_of_four ⟨s1.trans s4.symm, s1 ▸ hp, ?_⟩ ⟨s4.trans s2.symm, s4 ▸ hp, ?_⟩ ?_ ?_ rfl rfl rfl rfl,
    closed_of_four ?_ ?_ ⟨s3.trans s5.symm, s3 ▸ hp, ?_⟩ ⟨s5.trans s1.symm, s5 ▸ hp, ?_⟩ rfl rfl rfl rfl,
    closed_of_four ⟨s8.trans s9.symm, s8 ▸ hp, ?_⟩ ⟨s9.trans s6.symm, s9 ▸ hp, ?_⟩ ?_ ?_ rfl rfl rfl rfl,
    closed_of_four ⟨s7.trans s10.symm, s7 ▸ hp, ?_⟩ ⟨s10.trans s8.symm, s10 ▸ hp, ?_⟩ ?_ ?_ rfl rfl rfl rfl⟩
  · exact ne_of_fst (by simp only; intro h; linarith)
  · exact ne_of_snd (by simp only; intro h; linarith)
  · exact ne_of_fst (by simp only; intro h; linarith)
  · exact ne_of_snd (by simp only; intro h; linarith)
  · exact ne_of_snd (by simp only; intro h; linarith)
  · exact ne_of_fst (by simp only; intro h; linarith)
  · exact ne_of_snd (by simp only; intro h; linarith)
  · exact ne_of_fst (by simp only; intro h; linarith)
  · exact ne_of_fst (by simp only; intro h; linarith)
  · exact ne_of_snd (by simp only; intro h; linarith)
  · exact ne_of_fst (by simp only; intro h; linarith)
  · exact ne_of_snd (by simp only; intro h; linarith)
  · exact ne_of_snd (by simp only; intro h; linarith)
  · exact ne_of_fst (by simp only; intro h; linarith)
  · exact ne_of_snd (by simp only; intro h; linarith)
  · exact ne_of_fst (by simp only; intro h; linarith)

theorem quarterDisks_gap {r gap : ℝ} (hr : 0 < r) (hg : 0 ≤ gap) :
    GapIs (region (quarterDisks r gap).1.1 ∪ region (quarterDisks r gap).1.2)
      (region (quarterDisks r gap).2.1 ∪ region (quarterDisks r gap).2.2) gap := by
  obtain ⟨s1, s2, s3, s4, s5, s6, s7, s8, s9, s10⟩ := quarterDisks_sq r gap
  have hA : ∀ p ∈ region (quarterDisks r gap).1.1 ∪ region (quarterDisks r gap).1.2, -r ≤ p.2 := by
    rintro p (hp | hp)
    · have := region_half 0 1 (0 - r) (l := (quarterDisks r gap).1.1) (by
        intro k hk
        simp only [quarterDisks, List.mem_cons, List.not_mem_nil, or_false] at hk
        rcases hk with rfl | rfl | rfl | rfl
        · exact arc_above hr.le s1
        · exact arc_above hr.le s4
        · apply line_half <;> simp only <;> linarith
        · apply line_half <;> simp only <;> linarith) hp
      linarith
    · have := region_half 0 1 (0 - r) (l := (quarterDisks r gap).1.2) (by
        intro k hk
        simp only [quarterDisks, Curve.back, List.mem_cons, List.not_mem_nil, or_false] at hk
        rcases hk with rfl | rfl | rfl | rfl
        · apply line_half <;> simp only <;> linarith
        · apply line_half <;> simp only <;> linarith
        · exact arc_above hr.le s3
        · exact arc_above hr.le s5) hp
      linarith
  have hB : ∀ p ∈ region (quarterDisks r gap).2.1 ∪ region (quarterDisks r gap).2.2, p.2 ≤ -r - gap := by
    rintro p (hp | hp)
    · have := region_half 0 (-1) (-(0 - 2 * r - gap + r)) (l := (quarterDisks r gap).2.1) (by
        intro k hk
        simp only [quarterDisks, Curve.back, List.mem_cons, List.not_mem_nil, or_false] at hk
        rcases hk with rfl | rfl | rfl | rfl
        · exact arc_below hr.le s8
        · exact arc_below hr.le s9
        · apply line_half <;> simp only <;> linarith
        · apply line_half <;> simp only <;> linarith) hp
      linarith
    · have := region_half 0 (-1) (-(0 - 2 * r - gap + r)) (l := (quarterDisks r gap).2.2) (by
        intro k hk
        simp only [quarterDisks, Curve.back, List.mem_cons, List.not_mem_nil, or_false] at hk
        rcases hk with rfl | rfl | rfl | rfl
        · exact arc_below hr.le s7
        · exact arc_below hr.le s10
        · apply line_half <;> simp only <;> linarith
        · apply line_half <;> simp only <;> linarith) hp
      linarith
  refine ⟨fun p hp q hq => apart_ge (by linarith [hA p hp, hB q hq]), ((0 : ℝ), -r), Or.inl ?_, ((0 : ℝ), -r - gap), Or.inl ?_,
    apart_vertical (by ring) hg⟩
  · exact mem_region (k := .line (0, 0) (0, -r)) (by simp [quarterDisks]) (right_mem_segment ℝ _ _)
  · exact mem_region (k := .line (0, 0 - 2 * r - gap) (0, -r - gap)) (by simp [quarterDisks, Curve.back]) (right_mem_segment ℝ _ _)

/-! ### two rectangles next to each other -/

theorem rectangleSplit_gap {gap : ℝ} (hg : 0 ≤ gap) :
    GapIs (region (rectangleSplit gap).1) (region (rectangleSplit gap).2) gap := by
  have hA : ∀ p ∈ region (rectangleSplit gap).1, p.1 ≤ 1 / 2 := by
    intro p hp
    have := region_half (-1) 0 (-(1 / 2)) (l := (rectangleSplit gap).1) (by
      simp only [rectangleSplit, polygon_four]
      intro k hk
      simp only [List.mem_cons, List.not_mem_nil, or_false] at hk
      rcases hk with rfl | rfl | rfl | rfl <;> (apply line_half <;> simp only <;> linarith)) hp
    linarith
  have hB : ∀ p ∈ region (rectangleSplit gap).2, 1 / 2 + gap ≤ p.1 := by
    intro p hp
    have := region_half 1 0 (1 / 2 + gap) (l := (rectangleSplit gap).2) (by
      simp only [rectangleSplit, polygon_four]
      intro k hk
      simp only [List.mem_cons, List.not_mem_nil, or_false] at hk
      rcases hk with rfl | rfl | rfl | rfl <;> (apply line_half <;> simp only <;> linarith)) hp
    linarith
  refine ⟨fun p hp q hq => apart_ge' (by linarith [hA p hp, hB q hq]), ((1 / 2 : ℝ), (0 : ℝ)), ?_, ((1 / 2 + gap : ℝ), (0 : ℝ)), ?_, ?_⟩
  · simp only [rectangleSplit, polygon_four]
    exact mem_region (k := .line (0, 0) (1 / 2, 0)) (by simp) (right_mem_segment ℝ _ _)
  · simp only [rectangleSplit, polygon_four]
    exact mem_region (k := .line (1 / 2 + gap, 0) (2 * (1 / 2) + gap, 0)) (by simp) (left_mem_segment ℝ _ _)
  · rw [apart, sq]
    simp only
    rw [show (1 / 2 - (1 / 2 + gap)) ^ 2 + ((0 : ℝ) - 0) ^ 2 = gap ^ 2 by ring, Real.sqrt_sq hg]

theorem rectangleSplit_closed (gap : ℝ) : Closed (rectangleSplit gap).1 ∧ Closed (rectangleSplit gap).2 := by
  constructor <;> refine closed_polygon_four (ne_of_snd ?_) (ne_of_fst ?_) (ne_of_snd ?_) (ne_of_fst ?_) <;> simp only <;> intro h <;>
    linarith

/-! ### wedges -/

theorem slidingWedges_touch {t res : ℝ} (ht : -1 / 6 < t) (hres : 0 ≤ res) :
    region (slidingWedges t res).1 ∩ region (slidingWedges t res).2 = segment ℝ ((3 : ℝ), 2 + 3 * t) ((6 : ℝ), 2 + 6 * t) := by
  have hu : ∀ p ∈ region (slidingWedges t res).2, 2 ≤ -t * p.1 + 1 * p.2 ∧ 3 ≤ 1 * p.1 + 0 * p.2 ∧ -6 ≤ -1 * p.1 + 0 * p.2 := by
    intro p hp
    refine ⟨region_half (-t) 1 2 (l := (slidingWedges t res).2) ?_ hp, region_half 1 0 3 (l := (slidingWedges t res).2) ?_ hp,
      region_half (-1) 0 (-6) (l := (slidingWedges t res).2) ?_ hp⟩ <;>
    · intro k hk
      simp only [slidingWedges, List.mem_cons, List.not_mem_nil, or_false] at hk
      rcases hk with rfl | rfl | rfl | rfl <;> (apply line_half <;> simp only <;> linarith)
  have hl : ∀ p ∈ region (slidingWedges t res).1, -2 ≤ t * p.1 + (-1) * p.2 := by
    intro p hp
    refine region_half t (-1) (-2) (l := (slidingWedges t res).1) ?_ hp
    intro k hk
    simp only [slidingWedges, List.mem_cons, List.not_mem_nil, or_false] at hk
    rcases hk with rfl | rfl | rfl | rfl | rfl | rfl <;> (apply line_half <;> simp only <;> linarith)
  apply Set.Subset.antisymm
  · rintro ⟨x, y⟩ ⟨h1, h2⟩
    have e1 := hl _ h1
    obtain ⟨e2, e3, e4⟩ := hu _ h2
    simp only at e1 e2 e3 e4
    have hy : y = 2 + x * t := by linarith
    refine ⟨(6 - x) / 3, (x - 3) / 3, by linarith, by linarith, by ring, ?_⟩
    subst hy
    ext
    · simp only [Prod.fst_add, Prod.smul_fst, smul_eq_mul]; ring
    · simp only [Prod.snd_add, Prod.smul_snd, smul_eq_mul]; ring
  · rintro p hp
    refine ⟨?_, mem_region (k := .line (3, 2 + 3 * t) (6, 2 + 6 * t)) (by simp [slidingWedges]) hp⟩
    have c1 : ((0 : ℝ), (2 : ℝ)) ∈ region (slidingWedges t res).1 :=
      mem_region (k := .line (0, 2) (0, 0)) (by simp [slidingWedges]) (left_mem_segment ℝ _ _)
    have c2 : ((9 : ℝ), 2 + 9 * t) ∈ region (slidingWedges t res).1 :=
      mem_region (k := .line (9, 0) (9, 2 + 9 * t)) (by simp [slidingWedges]) (right_mem_segment ℝ _ _)
    have hc : Convex ℝ (region (slidingWedges t res).1) := convex_convexHull ℝ _
    refine hc.segment_subset ?_ ?_ hp
    · have := hc c1 c2 (a := 2 / 3) (b := 1 / 3) (by norm_num) (by norm_num) (by norm_num)
      convert this using 1
      ext
      · simp only [Prod.fst_add, Prod.smul_fst, smul_eq_mul]; ring
      · simp only [Prod.snd_add, Prod.smul_snd, smul_eq_mul]; ring
    · have := hc c1 c2 (a := 1 / 3) (b := 2 / 3) (by norm_num) (by norm_num) (by norm_num)
      convert this using 1
      ext
      · simp only [Prod.fst_add, Prod.smul_fst, smul_eq_mul]; ring
      · simp only [Prod.snd_add, Prod.smul_snd, smul_eq_mul]; ring

theorem slidingWedges_closed {t res : ℝ} (ht : -1 / 6 < t) (hres : 0 < res) (hres' : res < 6) :
    Closed (slidingWedges t res).1 ∧ Closed (slidingWedges t res).2 := by
  constructor
  · refine ⟨by simp [slidingWedges], ?_, ?_⟩
    · intro k hk
      simp only [slidingWedges, List.mem_cons, List.not_mem_nil, or_false] at hk
      rcases hk with rfl | rfl | rfl | rfl | rfl | rfl
      · exact ne_of_fst (by norm_num)
      · exact ne_of_snd (by simp only; intro h; linarith)
      · exact ne_of_fst (by simp only; intro h; linarith)
      · exact ne_of_fst (by simp only; intro h; linarith)
      · exact ne_of_fst (by simp only; intro h; linarith)
      · exact ne_of_snd (by norm_num)
    · intro i hi
      refine ⟨Nat.mod_lt _ (by simp [slidingWedges]), ?_⟩
      simp only [slidingWedges, List.length_cons, List.length_nil] at hi
      interval_cases i <;> simp [slidingWedges, start, stop]
  · refine closed_of_four (ne_of_fst ?_) (ne_of_snd ?_) (ne_of_fst ?_) (ne_of_snd ?_) rfl rfl rfl rfl <;> simp only <;> intro h <;>
      linarith

theorem halfdisk_closed {r : ℝ} (hr : 0 < r) (height length gap : ℝ) : Closed (halfdiskPlane r height length gap).1 := by
  refine ⟨by simp [halfdiskPlane], ?_, ?_⟩
  · intro k hk
    simp only [halfdiskPlane, List.mem_cons, List.not_mem_nil, or_false] at hk
    rcases hk with rfl | rfl
    · exact ⟨by rw [sq_right, sq_left], sq_pos_polar hr (sq_right r), ne_of_fst (by simp only; intro h; linarith)⟩
    · exact ne_of_fst (by simp only; intro h; linarith)
  · intro i hi
    refine ⟨Nat.mod_lt _ (by simp [halfdiskPlane]), ?_⟩
    simp only [halfdiskPlane, List.length_cons, List.length_nil] at hi
    interval_cases i <;> simp [halfdiskPlane, start, stop]

/-! ### two discs -/

/-- The four corners on the circle. -/
theorem fourArcs_eq (c : ℝ × ℝ) (r : ℝ) :
    let h := r * (Real.sqrt 2 / 2)
    fourArcs c r = [.arc (c.1 - h, c.2 + h) c (c.1 + h, c.2 + h), .arc (c.1 + h, c.2 + h) c (c.1 + h, c.2 - h),
      .arc (c.1 + h, c.2 - h) c (c.1 - h, c.2 - h), .arc (c.1 - h, c.2 - h) c (c.1 - h, c.2 + h)] := by
  have e1 : Real.cos (Real.pi + Real.pi / 4) = -(Real.sqrt 2 / 2) := by rw [add_comm, Real.cos_add_pi, Real.cos_pi_div_four]
  have e2 : Real.sin (Real.pi + Real.pi / 4) = -(Real.sqrt 2 / 2) := by rw [add_comm, Real.sin_add_pi, Real.sin_pi_div_four]
  have e3 : Real.cos (Real.pi + -(Real.pi / 4)) = -(Real.sqrt 2 / 2) := by rw [← sub_eq_add_neg, Real.cos_pi_sub, Real.cos_pi_div_four]
  have e4 : Real.sin (Real.pi + -(Real.pi / 4)) = Real.sqrt 2 / 2 := by rw [← sub_eq_add_neg, Real.sin_pi_sub, Real.sin_pi_div_four]
  simp [fourArcs, List.range_succ, e1, e2, e3, e4, Real.cos_neg, Real.sin_neg, Real.cos_pi_div_four, Real.sin_pi_div_four, sub_eq_add_neg]

theorem half_sq (r : ℝ) : 2 * (r * (Real.sqrt 2 / 2)) ^ 2 = r ^ 2 := by
  have : Real.sqrt 2 ^ 2 = 2 := Real.sq_sqrt (by norm_num)
  calc 2 * (r * (Real.sqrt 2 / 2)) ^ 2 = r ^ 2 * (Real.sqrt 2 ^ 2) / 2 := by ring
    _ = r ^ 2 := by rw [this]; ring

theorem corner_sq (c : ℝ × ℝ) (r : ℝ) :
    let h := r * (Real.sqrt 2 / 2)
    sq (c.1 - h, c.2 + h) c = r ^ 2 ∧ sq (c.1 + h, c.2 + h) c = r ^ 2 ∧ sq (c.1 + h, c.2 - h) c = r ^ 2 ∧
      sq (c.1 - h, c.2 - h) c = r ^ 2 := by
  have := half_sq r
  simp only [sq]
  refine ⟨?_, ?_, ?_, ?_⟩ <;> linarith

theorem fourArcs_closed (c : ℝ × ℝ) {r : ℝ} (hr : 0 < r) : Closed (fourArcs c r) := by
  rw [fourArcs_eq]
  obtain ⟨s1, s2, s3, s4⟩ := corner_sq c r
  have hp : 0 < r ^ 2 := by positivity
  have hh : 0 < r * (Real.sqrt 2 / 2) := by positivity
  refine closed_of_four ⟨s1.trans s2.symm, s1 ▸ hp, ?_⟩ ⟨s2.trans s3.symm, s2 ▸ hp, ?_⟩ ⟨s3.trans s4.symm, s3 ▸ hp, ?_⟩
    ⟨s4.trans s1.symm, s4 ▸ hp, ?_⟩ rfl rfl rfl rfl
  · exact ne_of_fst (by simp only; intro h; linarith)
  · exact ne_of_snd (by simp only; intro h; linarith)
  · exact ne_of_fst (by simp only; intro h; linarith)
  · exact ne_of_snd (by simp only; intro h; linarith)

theorem fourArcs_range (c : ℝ × ℝ) {r : ℝ} (hr : 0 < r) {p : ℝ × ℝ} (hp : p ∈ region (fourArcs c r)) : c.2 - r ≤ p.2 ∧ p.2 ≤ c.2 + r := by
  obtain ⟨s1, s2, s3, s4⟩ := corner_sq c r
  constructor
  · have := region_half 0 1 (c.2 - r) (l := fourArcs c r) (by
      rw [fourArcs_eq]
      intro k hk
      simp only [List.mem_cons, List.not_mem_nil, or_false] at hk
      rcases hk with rfl | rfl | rfl | rfl
      exacts [arc_above hr.le s1, arc_above hr.le s2, arc_above hr.le s3, arc_above hr.le s4]) hp
    linarith
  · have := region_half 0 (-1) (-(c.2 + r)) (l := fourArcs c r) (by
      rw [fourArcs_eq]
      intro k hk
      simp only [List.mem_cons, List.not_mem_nil, or_false] at hk
      rcases hk with rfl | rfl | rfl | rfl
      exacts [arc_below hr.le s1, arc_below hr.le s2, arc_below hr.le s3, arc_below hr.le s4]) hp
    linarith

theorem fourArcs_poles (c : ℝ × ℝ) {r : ℝ} (hr : 0 < r) :
    (c.1, c.2 - r) ∈ region (fourArcs c r) ∧ (c.1, c.2 + r) ∈ region (fourArcs c r) := by
  obtain ⟨s1, s2, s3, s4⟩ := corner_sq c r
  have hs : Real.sqrt 2 * Real.sqrt 2 = 2 := Real.mul_self_sqrt (by norm_num)
  have hpos : 0 ≤ Real.sqrt 2 / 2 := by positivity
  have e : Real.sqrt 2 / 2 * (r * (Real.sqrt 2 / 2)) = r / 2 := by
    calc Real.sqrt 2 / 2 * (r * (Real.sqrt 2 / 2)) = r * (Real.sqrt 2 * Real.sqrt 2) / 4 := by ring
      _ = r / 2 := by rw [hs]; ring
  rw [fourArcs_eq]
  constructor
  · refine mem_region (k := .arc (c.1 + r * (Real.sqrt 2 / 2), c.2 - r * (Real.sqrt 2 / 2)) c
      (c.1 - r * (Real.sqrt 2 / 2), c.2 - r * (Real.sqrt 2 / 2))) (by simp) ⟨?_, Or.inl ⟨Real.sqrt 2 / 2, Real.sqrt 2 / 2, hpos, hpos, ?_⟩⟩
    · rw [s3]; simp [sq]
    · ext
      · simp only [Prod.fst_add, Prod.smul_fst, Prod.fst_sub, smul_eq_mul]; ring
      · simp only [Prod.snd_add, Prod.smul_snd, Prod.snd_sub, smul_eq_mul]; linarith
  · refine mem_region (k := .arc (c.1 - r * (Real.sqrt 2 / 2), c.2 + r * (Real.sqrt 2 / 2)) c
      (c.1 + r * (Real.sqrt 2 / 2), c.2 + r * (Real.sqrt 2 / 2))) (by simp) ⟨?_, Or.inl ⟨Real.sqrt 2 / 2, Real.sqrt 2 / 2, hpos, hpos, ?_⟩⟩
    · rw [s1]; simp [sq]
    · ext
      · simp only [Prod.fst_add, Prod.smul_fst, Prod.fst_sub, smul_eq_mul]; ring
      · simp only [Prod.snd_add, Prod.smul_snd, Prod.snd_sub, smul_eq_mul]; linarith

theorem circleCircle_gap : GapIs (region circleCircle.1) (region circleCircle.2) (1 / 10) := by
  have h1 : (0 : ℝ) < 3 / 10 := by norm_num
  have h2 : (0 : ℝ) < 2 * (3 / 10) := by norm_num
  refine ⟨fun p hp q hq => apart_ge ?_, _, (fourArcs_poles (1 / 2, 1 / 2) h1).1, _, (fourArcs_poles (1 / 2, -1 / 2) h2).2,
    apart_vertical (by norm_num) (by norm_num)⟩
  have := (fourArcs_range _ h1 hp).1
  have := (fourArcs_range _ h2 hq).2
  simp only at *
  linarith

/-! ### solids -/

theorem apart3_ge {p q : ℝ × ℝ × ℝ} {g : ℝ} (h : g ≤ p.2.2 - q.2.2) : g ≤ apart3 p q := by
  refine h.trans ((le_abs_self _).trans ?_)
  rw [apart3, ← Real.sqrt_sq_eq_abs]
  exact Real.sqrt_le_sqrt (by rw [sq3]; nlinarith [sq_nonneg (p.1 - q.1), sq_nonneg (p.2.1 - q.2.1)])

theorem apart3_vertical {x y z z' g : ℝ} (h : z - z' = g) (hg : 0 ≤ g) : apart3 (x, y, z) (x, y, z') = g := by
  rw [apart3, sq3]
  simp only [sub_self, h]
  rw [show (0 : ℝ) ^ 2 + 0 ^ 2 + g ^ 2 = g ^ 2 by ring, Real.sqrt_sq hg]

theorem boxes3D_gap {gap width offset : ℝ} (hg : 0 ≤ gap) (hw : 0 < width) (ho : |offset| ≤ 1 / 2) :
    GapIs3 (occupied (boxes3D gap width offset).1) (occupied (boxes3D gap width offset).2) gap := by
  obtain ⟨h1, h2⟩ := abs_le.mp ho
  refine ⟨fun p hp q hq => apart3_ge ?_, (0, max offset 0, 0), ?_, (0, max offset 0, -gap), ?_, apart3_vertical (by ring) hg⟩
  · obtain ⟨-, -, -, -, a, -⟩ := hp
    obtain ⟨-, -, -, -, -, b⟩ := hq
    linarith
  · refine ⟨le_refl _, by norm_num, ?_, ?_, le_refl _, by simpa using hw.le⟩
    · simp
    · simp only
      rcases max_cases offset 0 with ⟨e, -⟩ | ⟨e, -⟩ <;> rw [e] <;> linarith
  · refine ⟨le_refl _, by norm_num, ?_, ?_, ?_, ?_⟩
    · simp
    · simp only
      rcases max_cases offset 0 with ⟨e, -⟩ | ⟨e, -⟩ <;> rw [e] <;> linarith
    · simp only; linarith
    · simp only; linarith

theorem sphere_range {x y z r a b : ℝ} (hr : 0 ≤ r) {p : ℝ × ℝ × ℝ} (hp : p ∈ occupied (.sphere x y z r a b)) :
    z - r ≤ p.2.2 ∧ p.2.2 ≤ z + r := by
  have h1 : (p.2.2 - z) ^ 2 ≤ r ^ 2 := by
    refine le_trans ?_ hp.1
    rw [sq3]
    nlinarith [sq_nonneg (p.1 - x), sq_nonneg (p.2.1 - y)]
  obtain ⟨h2, h3⟩ := abs_le_of_sq_le_sq' h1 hr
  constructor <;> linarith

theorem sphere_south {x y z r b : ℝ} (hr : 0 ≤ r) : (x, y, z - r) ∈ occupied (.sphere x y z r (-Real.pi / 2) b) := by
  refine ⟨?_, ?_, ?_⟩
  · simp [sq3]
  · rw [show -Real.pi / 2 = -(Real.pi / 2) by ring, Real.sin_neg, Real.sin_pi_div_two]
    simp only
    linarith
  · simp only
    have := Real.neg_one_le_sin b
    nlinarith

theorem sphere_north {x y z r a : ℝ} (hr : 0 ≤ r) : (x, y, z + r) ∈ occupied (.sphere x y z r a (Real.pi / 2)) := by
  refine ⟨?_, ?_, ?_⟩
  · simp [sq3]
  · simp only
    have := Real.sin_le_one a
    nlinarith
  · rw [Real.sin_pi_div_two]
    simp

theorem gap_lowerSolid {A : Set (ℝ × ℝ × ℝ)} {r height length width gap : ℝ} (hh : 0 < height) (hl : 0 < length) (hw : 0 < width)
    (hg : 0 ≤ gap) (hA : ∀ p ∈ A, -r ≤ p.2.2) (hc : ((0 : ℝ), (0 : ℝ), -r) ∈ A) :
    GapIs3 A (occupied (.box (-length / 2) (-width / 2) (-height - r - gap) length width height)) gap := by
  refine ⟨fun p hp q hq => apart3_ge ?_, _, hc, (0, 0, -r - gap), ?_, apart3_vertical (by ring) hg⟩
  · obtain ⟨-, -, -, -, -, b⟩ := hq
    linarith [hA p hp]
  · refine ⟨?_, ?_, ?_, ?_, ?_, ?_⟩ <;> simp only <;> linarith

theorem sphereSphere_gap :
    GapIs3 (occupied sphereSphere.1.1 ∪ occupied sphereSphere.1.2) (occupied sphereSphere.2.1 ∪ occupied sphereSphere.2.2) (1 / 10) := by
  have h1 : (0 : ℝ) ≤ 3 / 10 := by norm_num
  have h2 : (0 : ℝ) ≤ 2 * (3 / 10) := by norm_num
  refine ⟨fun p hp q hq => apart3_ge ?_, _, Or.inl (sphere_south h1), _, Or.inr (sphere_north h2),
    apart3_vertical (by norm_num) (by norm_num)⟩
  have a : (1 / 2 : ℝ) - 3 / 10 ≤ p.2.2 := by
    rcases hp with hp | hp
    · exact (sphere_range h1 hp).1
    · exact (sphere_range h1 hp).1
  have b : q.2.2 ≤ -(1 / 2 : ℝ) + 2 * (3 / 10) := by
    rcases hq with hq | hq
    · exact (sphere_range h2 hq).2
    · exact (sphere_range h2 hq).2
  linarith

theorem boxes2D_apart : ∀ p ∈ region boxes2D.1, ∀ q ∈ region boxes2D.2, 1 / 10 ≤ apart p q := by
  intro p hp q hq
  have h1 := region_half 0 1 0 (l := boxes2D.1) (by
    simp only [boxes2D, polygon_four]
    intro k hk
    simp only [List.mem_cons, List.not_mem_nil, or_false] at hk
    rcases hk with rfl | rfl | rfl | rfl <;> (apply line_half <;> norm_num)) hp
  have h2 := region_half 0 (-1) (1 / 10) (l := boxes2D.2) (by
    simp only [boxes2D, polygon_four]
    intro k hk
    simp only [List.mem_cons, List.not_mem_nil, or_false] at hk
    rcases hk with rfl | rfl | rfl | rfl <;> (apply line_half <;> norm_num)) hq
  exact apart_ge (by linarith)

/-! ### the statements -/

/-- **C157.** Two bodies that the generators place above, below or next to each other are exactly the given `gap` apart: no two points
are closer, and two points have this distance.  This holds for a disc, a half disc, a ball and a half ball above a box, two halves of
discs, two rectangles and two boxes (shifted against each other by at most their height), of all sizes. -/
theorem C157_gap {r height length width gap offset : ℝ} (hr : 0 < r) (hh : 0 < height) (hl : 0 < length) (hw : 0 < width)
    (hg : 0 ≤ gap) (ho : |offset| ≤ 1 / 2) :
    GapIs (region (circlePlane r height length gap).1) (region (circlePlane r height length gap).2) gap ∧
    GapIs (region (halfdiskPlane r height length gap).1) (region (halfdiskPlane r height length gap).2) gap ∧
    GapIs (region (quarterDisks r gap).1.1 ∪ region (quarterDisks r gap).1.2)
      (region (quarterDisks r gap).2.1 ∪ region (quarterDisks r gap).2.2) gap ∧
    GapIs (region (rectangleSplit gap).1) (region (rectangleSplit gap).2) gap ∧
    GapIs3 (occupied (boxes3D gap width offset).1) (occupied (boxes3D gap width offset).2) gap ∧
    GapIs3 (occupied (spherePlane r height length width gap).1.1 ∪ occupied (spherePlane r height length width gap).1.2)
      (occupied (spherePlane r height length width gap).2) gap ∧
    GapIs3 (occupied (halfsphereBox r height length width gap).1) (occupied (halfsphereBox r height length width gap).2) gap := by
  refine ⟨gap_lowerBox hh hg (fun p hp => circlePlane_above hr hp) ?_, gap_lowerBox hh hg (fun p hp => halfdisk_above hr hp) ?_,
    quarterDisks_gap hr hg, rectangleSplit_gap hg, boxes3D_gap hg hw ho, gap_lowerSolid hh hl hw hg ?_ ?_, gap_lowerSolid hh hl hw hg ?_ ?_⟩
  · exact mem_region (k := .arc (r, 0) (0, 0) (-r, 0)) (by simp [circlePlane]) (below_contact.resolve_right (by linarith))
  · exact mem_region (k := .arc (r, 0) (0, 0) (-r, 0)) (by simp [halfdiskPlane]) (below_contact.resolve_right (by linarith))
  · rintro p (hp | hp)
    · linarith [(sphere_range hr.le hp).1]
    · linarith [(sphere_range hr.le hp).1]
  · have := sphere_south (x := 0) (y := 0) (z := 0) (b := -0) hr.le
    rw [zero_sub] at this
    exact Or.inl this
  · intro p hp
    linarith [(sphere_range hr.le hp).1]
  · have := sphere_south (x := 0) (y := 0) (z := 0) (b := -0) hr.le
    rw [zero_sub] at this
    exact this

/-- **C157.** The generators without a gap: two discs, and two balls, are one tenth apart; the two boxes in the plane are at
least one tenth apart; two wedges share exactly the lower edge of the upper wedge, for every inclination above the one at which the
upper wedge degenerates. -/
theorem C157_fixed {angle res : ℝ} (ht : -1 / 6 < Real.tan angle) (hres : 0 < res) :
    GapIs (region circleCircle.1) (region circleCircle.2) (1 / 10) ∧
    GapIs3 (occupied sphereSphere.1.1 ∪ occupied sphereSphere.1.2) (occupied sphereSphere.2.1 ∪ occupied sphereSphere.2.2) (1 / 10) ∧
    (∀ p ∈ region boxes2D.1, ∀ q ∈ region boxes2D.2, 1 / 10 ≤ apart p q) ∧
    region (slidingWedges (Real.tan angle) res).1 ∩ region (slidingWedges (Real.tan angle) res).2 =
      segment ℝ ((3 : ℝ), 2 + 3 * Real.tan angle) ((6 : ℝ), 2 + 6 * Real.tan angle) :=
  ⟨circleCircle_gap, sphereSphere_gap, boxes2D_apart, slidingWedges_touch ht hres.le⟩

/-- **C157.** Every loop that bounds a surface is closed, and consists of curves that Gmsh accepts. -/
theorem C157_closed {r height length gap angle res : ℝ} (hr : 0 < r) (hh : 0 < height) (hl : 0 < length)
    (ht : -1 / 6 < Real.tan angle) (hres : 0 < res) (hres' : res < 6) :
    ∀ l ∈ [(circlePlane r height length gap).1, (circlePlane r height length gap).2, (halfdiskPlane r height length gap).1,
      (halfdiskPlane r height length gap).2, (quarterDisks r gap).1.1, (quarterDisks r gap).1.2, (quarterDisks r gap).2.1,
      (quarterDisks r gap).2.2, (slidingWedges (Real.tan angle) res).1, (slidingWedges (Real.tan angle) res).2, circleCircle.1,
      circleCircle.2, boxes2D.1, boxes2D.2, (rectangleSplit gap).1, (rectangleSplit gap).2], Closed l := by
  obtain ⟨q1, q2, q3, q4⟩ := quarterDisks_closed hr gap
  obtain ⟨w1, w2⟩ := slidingWedges_closed ht hres hres'
  obtain ⟨s1, s2⟩ := rectangleSplit_closed gap
  have b1 : Closed boxes2D.1 := by
    refine closed_polygon_four (ne_of_snd ?_) (ne_of_fst ?_) (ne_of_snd ?_) (ne_of_fst ?_) <;> simp only <;> norm_num
  have b2 : Closed boxes2D.2 := by
    refine closed_polygon_four (ne_of_snd ?_) (ne_of_fst ?_) (ne_of_snd ?_) (ne_of_fst ?_) <;> simp only <;> norm_num
  intro l hl'
  simp only [List.mem_cons, List.not_mem_nil, or_false] at hl'
  rcases hl' with rfl | rfl | rfl | rfl | rfl | rfl | rfl | rfl | rfl | rfl | rfl | rfl | rfl | rfl | rfl | rfl
  exacts [circlePlane_closed hr _ _ _, lowerBox_closed hh hl, halfdisk_closed hr _ _ _, lowerBox_closed hh hl, q1, q2, q3, q4, w1, w2,
    fourArcs_closed _ (by norm_num), fourArcs_closed _ (by norm_num), b1, b2, s1, s2]

/-- The sizes of the tests: radius 0.25, height 0.25, length 1, gap 0.01. -/
example : GapIs (region (circlePlane (1 / 4) (1 / 4) 1 (1 / 100)).1) (region (circlePlane (1 / 4) (1 / 4) 1 (1 / 100)).2) (1 / 100) :=
  (C157_gap (width := 1) (offset := 0) (by norm_num) (by norm_num) (by norm_num) (by norm_num) (by norm_num) (by norm_num)).1

/-- Horizontal wedges. -/
example : -1 / 6 < Real.tan 0 := by rw [Real.tan_zero]; norm_num

/-- **C158.** A generator that is told which process shall create the mesh creates it on this process and on no other. -/
theorem C158_partial {g : Generator} (hg : g ≠ .circleCircle) (rank me : ℕ) : creates g rank me = true ↔ me = rank := by
  cases g <;> simp_all [creates]

/-- The generator of two discs ignores the argument `rank`: whenever another process than the first shall create the mesh, that process
gets nothing. -/
theorem C158_violated {rank : ℕ} (h : rank ≠ 0) : creates .circleCircle rank rank = false ∧ creates .circleCircle rank 0 = true := by
  simp [creates, h]

/-- Two processes, and the second creates the mesh. -/
example : creates .circlePlane 1 1 = true ∧ creates .circlePlane 1 0 = false ∧ creates .circleCircle 1 1 = false := by decide

end Verif.ContactMeshes
