import Verif.Spec.FacetMarkers
import Verif.Props.ContactMeshes

/-!
# C213: facet markers from coordinates
-/

namespace Verif.Props.FacetMarkers

open Verif.FacetMarkers Verif.Spec.FacetMarkers

theorem mem_locate {mesh : List Facet} {c : Pt → Prop} {i : ℕ} : i ∈ locate mesh c ↔ Marked mesh c i := by
  simp only [locate, Marked, List.mem_map, List.mem_filter, Bool.and_eq_true, decide_eq_true_eq]
  constructor
  · rintro ⟨f, ⟨h1, h2, h3⟩, h4⟩; exact ⟨f, h1, h4, h2, h3⟩
  · rintro ⟨f, h1, h4, h2, h3⟩; exact ⟨f, ⟨h1, h2, h3⟩, h4⟩

theorem locate_nodup {mesh : List Facet} (h : (mesh.map (·.id)).Nodup) (c : Pt → Prop) : (locate mesh c).Nodup :=
  h.sublist (List.filter_sublist.map _)

theorem zip_eq (mesh : List Facet) (fam : Family) :
    (indices mesh fam).zip (values mesh fam) = fam.flatMap (fun c => (locate mesh c.1).map (fun i => (i, c.2))) := by
  induction fam with
  | nil => rfl
  | cons c fam ih =>
    simp only [indices, values, List.flatMap_cons] at ih ⊢
    rw [List.zip_append (by simp), ih]
    congr 1
    generalize locate mesh c.1 = l
    induction l with
    | nil => rfl
    | cons a l ih => simp [List.replicate_succ, ih]

theorem length_eq (mesh : List Facet) (fam : Family) : (indices mesh fam).length = (values mesh fam).length := by
  simp [indices, values, List.length_flatMap]

theorem range_getD (a : List ℕ) : (List.range a.length).map (fun i => a.getD i 0) = a := by
  apply List.ext_getElem
  · simp
  · intro k h1 h2
    simp at h1
    simp [h2]

theorem range_zip {a b : List ℕ} (h : a.length = b.length) :
    (List.range a.length).map (fun i => (a.getD i 0, b.getD i 0)) = a.zip b := by
  apply List.ext_getElem
  · simp [h]
  · intro k h1 h2
    simp at h1
    simp [h1, h ▸ h1]

theorem take_perm {a σ : List ℕ} (h : IsArgsort a σ) : (take a σ).Perm a := by
  have := h.1.map (fun i => a.getD i 0)
  rwa [range_getD] at this

theorem zip_perm {a b σ : List ℕ} (hl : a.length = b.length) (h : IsArgsort a σ) : ((take a σ).zip (take b σ)).Perm (a.zip b) := by
  have := h.1.map (fun i => (a.getD i 0, b.getD i 0))
  rw [range_zip hl] at this
  rwa [take, take, List.zip_map']

theorem mem_find {a b σ : List ℕ} (hl : a.length = b.length) (h : IsArgsort a σ) (v i : ℕ) :
    i ∈ (tags a b σ).find v ↔ (i, v) ∈ a.zip b := by
  simp only [Tags.find, tags, List.mem_map, List.mem_filter, beq_iff_eq, (zip_perm hl h).mem_iff]
  constructor
  · rintro ⟨⟨j, w⟩, ⟨h1, rfl⟩, rfl⟩; exact h1
  · intro h; exact ⟨_, ⟨h, rfl⟩, rfl⟩

theorem valid_iff {a b σ : List ℕ} (hσ : IsArgsort a σ) : Valid (tags a b σ) ↔ a.Nodup := by
  have hs : (take a σ).Pairwise (· ≤ ·) := hσ.2
  rw [Valid, ← (take_perm hσ).nodup_iff]
  simp only [tags]
  constructor
  · exact fun h => h.2.imp (fun h => Nat.ne_of_lt h)
  · refine fun h => ⟨by simp [take], ?_⟩
    exact (hs.and h).imp (fun h => Nat.lt_of_le_of_ne h.1 h.2)

/-- **C213.** Every facet gets the values of the conditions it meets, whatever order `argsort` chooses among equal facets, and
the facets found for a value are in increasing order. -/
theorem C213_find (mesh : List Facet) (fam : Family) {σ : List ℕ} (hσ : IsArgsort (indices mesh fam) σ) (v : ℕ) :
    (∀ i, i ∈ (tags (indices mesh fam) (values mesh fam) σ).find v ↔ ∃ c ∈ fam, c.2 = v ∧ Marked mesh c.1 i) ∧
      ((tags (indices mesh fam) (values mesh fam) σ).find v).Pairwise (· ≤ ·) := by
  constructor
  · intro i
    rw [mem_find (length_eq mesh fam) hσ, zip_eq]
    simp only [List.mem_flatMap, List.mem_map, Prod.mk.injEq, mem_locate]
    constructor
    · rintro ⟨c, hc, j, hj, rfl, h⟩; exact ⟨c, hc, h, hj⟩
    · rintro ⟨c, hc, h, hj⟩; exact ⟨c, hc, i, hj, rfl, h⟩
  · have hs : (take (indices mesh fam) σ).Pairwise (· ≤ ·) := hσ.2
    refine hs.sublist ?_
    have : ((tags (indices mesh fam) (values mesh fam) σ).indices.zip (tags (indices mesh fam) (values mesh fam) σ).values).map
        (·.1) = take (indices mesh fam) σ := by
      simp only [tags]
      exact List.map_fst_zip (by simp [take])
    rw [← this]
    exact List.filter_sublist.map _

/-- **C213.** The arrays are what `meshtags` asks for exactly if no facet meets two of the conditions. -/
theorem C213_valid {mesh : List Facet} (hm : Good mesh) (fam : Family) {σ : List ℕ} (hσ : IsArgsort (indices mesh fam) σ) :
    Valid (tags (indices mesh fam) (values mesh fam) σ) ↔
      fam.Pairwise (fun c d => ∀ i, ¬ (Marked mesh c.1 i ∧ Marked mesh d.1 i)) := by
  rw [valid_iff hσ]
  unfold indices
  rw [List.nodup_flatMap]
  constructor
  · rintro ⟨-, h⟩
    exact h.imp (fun h i hi => h (mem_locate.2 hi.1) (mem_locate.2 hi.2))
  · exact fun h => ⟨fun c _ => locate_nodup hm.ids c.1, h.imp (fun h i h1 h2 => h i ⟨mem_locate.1 h1, mem_locate.1 h2⟩)⟩

/-- The conditions exclude each other. -/
theorem valid_of_disjoint {mesh : List Facet} (hm : Good mesh) {fam : Family} {σ : List ℕ} (hσ : IsArgsort (indices mesh fam) σ)
    (hf : fam.Pairwise (fun c d => ∀ x, c.1 x → ¬ d.1 x)) : Valid (tags (indices mesh fam) (values mesh fam) σ) := by
  rw [C213_valid hm fam hσ]
  refine hf.imp ?_
  rintro c d h i ⟨⟨f, hf, rfl, -, hc⟩, g, hg, hi, -, hd⟩
  have hfg : g = f := List.inj_on_of_nodup_map hm.ids hg hf hi
  subst hfg
  obtain ⟨v, hv⟩ := List.exists_mem_of_ne_nil _ (hm.vertex _ hf)
  exact h v (hc v hv) (hd v hv)

theorem isclose_iff {x a : ℝ} : isclose x a ↔ a - (1 / 10 ^ 8 + 1 / 10 ^ 5 * |a|) ≤ x ∧ x ≤ a + (1 / 10 ^ 8 + 1 / 10 ^ 5 * |a|) := by
  rw [isclose, abs_le]
  constructor
  · rintro ⟨h1, h2⟩; constructor <;> linarith
  · rintro ⟨h1, h2⟩; constructor <;> linarith

/-- **C213.** In the demos with two boxes, two cylinders, two discs, one body above a plane (in two and three dimensions) and a
disc above a rigid box, no facet gets two values. -/
theorem C213_demos {mesh : List Facet} (hm : Good mesh) {fam : Family}
    (hf : fam ∈ [boxes, cylinders, circles, oneSided2D, oneSided3D, rigid]) {σ : List ℕ} (hσ : IsArgsort (indices mesh fam) σ) :
    Valid (tags (indices mesh fam) (values mesh fam) σ) := by
  refine valid_of_disjoint hm hσ ?_
  simp only [List.mem_cons, List.not_mem_nil, or_false] at hf
  rcases hf with rfl | rfl | rfl | rfl | rfl | rfl <;>
    simp only [boxes, cylinders, circles, oneSided2D, oneSided3D, rigid, List.pairwise_cons, List.mem_cons, List.not_mem_nil,
      or_false, forall_eq_or_imp, forall_eq, isclose_iff] <;>
    norm_num [abs_div] <;> (repeat' apply And.intro) <;> intros <;> (try constructor) <;> (try intro) <;> (try intro) <;> linarith

/-- **C213.** The beam: no facet gets two values if the facets are longer than the tolerances of `np.isclose`. -/
theorem C213_beam {mesh : List Facet} (hm : Good mesh) {H : ℝ} (hH : 0 ≤ H)
    (hl : ∀ f ∈ mesh, ∃ v ∈ f.vertices, ∃ w ∈ f.vertices, 2 / 10 ^ 8 < |v.1 - w.1| ∨ 2 / 10 ^ 8 + 2 / 10 ^ 5 * H < |v.2.1 - w.2.1|)
    {σ : List ℕ} (hσ : IsArgsort (indices mesh (beam H)) σ) : Valid (tags (indices mesh (beam H)) (values mesh (beam H)) σ) := by
  rw [C213_valid hm _ hσ]
  simp only [beam, List.pairwise_cons, List.mem_cons, List.not_mem_nil, or_false, forall_eq, false_imp_iff, implies_true,
    List.Pairwise.nil, and_true]
  rintro i ⟨⟨f, hf, rfl, -, hc⟩, g, hg, hi, -, hd⟩
  have hfg : g = f := List.inj_on_of_nodup_map hm.ids hg hf hi
  subst hfg
  obtain ⟨v, hv, w, hw, h⟩ := hl g hf
  have c1 := isclose_iff.1 (hc v hv)
  have c2 := isclose_iff.1 (hc w hw)
  have d1 := isclose_iff.1 (hd v hv)
  have d2 := isclose_iff.1 (hd w hw)
  rw [abs_of_nonneg hH] at d1 d2
  simp only [abs_zero] at c1 c2
  rcases h with h | h
  · have : |v.1 - w.1| ≤ 2 / 10 ^ 8 := by rw [abs_le]; constructor <;> linarith [c1.1, c1.2, c2.1, c2.2]
    linarith
  · have : |v.2.1 - w.2.1| ≤ 2 / 10 ^ 8 + 2 / 10 ^ 5 * H := by rw [abs_le]; constructor <;> linarith [d1.1, d1.2, d2.1, d2.2]
    linarith

/-! ### refinement -/

theorem convex_slab (g : Pt →ₗ[ℝ] ℝ) (a b : ℝ) : Convex ℝ {x | a ≤ g x ∧ g x ≤ b} :=
  (convex_Icc a b).linear_preimage g

theorem convex_gt (g : Pt →ₗ[ℝ] ℝ) (a : ℝ) : Convex ℝ {x | a < g x} := (convex_Ioi a).linear_preimage g

theorem convex_lt (g : Pt →ₗ[ℝ] ℝ) (a : ℝ) : Convex ℝ {x | g x < a} := (convex_Iio a).linear_preimage g

/-- The three coordinates. -/
def X : Pt →ₗ[ℝ] ℝ := LinearMap.fst ℝ ℝ (ℝ × ℝ)
def Y : Pt →ₗ[ℝ] ℝ := LinearMap.fst ℝ ℝ ℝ ∘ₗ LinearMap.snd ℝ ℝ (ℝ × ℝ)
def Z : Pt →ₗ[ℝ] ℝ := LinearMap.snd ℝ ℝ ℝ ∘ₗ LinearMap.snd ℝ ℝ (ℝ × ℝ)

theorem convex_close (g : Pt →ₗ[ℝ] ℝ) (a : ℝ) : Convex ℝ {x | isclose (g x) a} := by
  have := convex_slab g (a - (1 / 10 ^ 8 + 1 / 10 ^ 5 * |a|)) (a + (1 / 10 ^ 8 + 1 / 10 ^ 5 * |a|))
  simpa only [isclose_iff] using this

theorem convex_demos {H : ℝ} {fam : Family} (hf : fam ∈ [boxes, cylinders, circles, oneSided2D, oneSided3D, rigid, beam H])
    {c : (Pt → Prop) × ℕ} (hc : c ∈ fam) : Convex ℝ {x | c.1 x} := by
  simp only [List.mem_cons, List.not_mem_nil, or_false] at hf
  rcases hf with rfl | rfl | rfl | rfl | rfl | rfl | rfl <;>
    simp only [boxes, cylinders, circles, oneSided2D, oneSided3D, rigid, beam, List.mem_cons, List.not_mem_nil, or_false] at hc
  · rcases hc with rfl | rfl | rfl | rfl <;> exact convex_close Z _
  · rcases hc with rfl | rfl | rfl | rfl
    exacts [convex_gt X _, (convex_lt X _).inter (convex_gt X _), (convex_gt X _).inter (convex_lt X _), convex_lt X _]
  · rcases hc with rfl | rfl | rfl | rfl
    exacts [convex_gt Y _, (convex_lt Y _).inter (convex_gt Y _), (convex_gt Y _).inter (convex_lt Y _), convex_lt Y _]
  · rcases hc with rfl | rfl
    exacts [convex_gt Y _, convex_lt Y _]
  · rcases hc with rfl | rfl
    exacts [convex_gt Z _, convex_lt Z _]
  · rcases hc with rfl | rfl | rfl | rfl
    exacts [convex_gt Y _, (convex_lt Y _).inter (convex_gt Y _), convex_close Y _, convex_close Y _]
  · rcases hc with rfl | rfl
    exacts [convex_close X _, convex_close Y _]

/-- **C213.** Refinement keeps the marked part of the boundary: a facet of the new mesh that is part of a facet with some value
gets this value too, and all points of a marked facet, not only the vertices, meet the condition. -/
theorem C213_refine {H : ℝ} {fam : Family} (hf : fam ∈ [boxes, cylinders, circles, oneSided2D, oneSided3D, rigid, beam H])
    {mesh mesh' : List Facet} {σ σ' : List ℕ} (hσ : IsArgsort (indices mesh fam) σ) (hσ' : IsArgsort (indices mesh' fam) σ')
    (hm : Good mesh) {f g : Facet} (hfm : f ∈ mesh) (hgm : g ∈ mesh') (hgf : PartOf g f) (hb : g.boundary = true) {v : ℕ}
    (h : f.id ∈ (tags (indices mesh fam) (values mesh fam) σ).find v) :
    g.id ∈ (tags (indices mesh' fam) (values mesh' fam) σ').find v ∧
      ∃ c ∈ fam, c.2 = v ∧ ∀ x ∈ convexHull ℝ {w | w ∈ f.vertices}, c.1 x := by
  obtain ⟨c, hc, hv, f', hf', hid, -, hcv⟩ := ((C213_find mesh fam hσ v).1 _).1 h
  have hff : f' = f := List.inj_on_of_nodup_map hm.ids hf' hfm hid
  subst hff
  have hull : ∀ x ∈ convexHull ℝ {w | w ∈ f'.vertices}, c.1 x := fun x hx =>
    convexHull_min (t := {x | c.1 x}) (fun w hw => hcv w hw) (convex_demos hf hc) hx
  exact ⟨((C213_find mesh' fam hσ' v).1 _).2 ⟨c, hc, hv, g, hgm, rfl, hb, fun w hw => hull w (hgf w hw)⟩, c, hc, hv, hull⟩

/-! ### the bodies -/

open Verif.ContactMeshes in
/-- **C213.** Two discs: facets with values 1 and 2 belong to the upper disc, facets with values 3 and 4 to the lower one. -/
theorem C213_circles {mesh : List Facet} (hm : Good mesh) {σ : List ℕ} (hσ : IsArgsort (indices mesh circles) σ)
    (hA : ∀ f ∈ mesh, ∀ v ∈ f.vertices, (v.1, v.2.1) ∈ region circleCircle.1 ∪ region circleCircle.2) {f : Facet} (hf : f ∈ mesh)
    {n : ℕ} (h : f.id ∈ (tags (indices mesh circles) (values mesh circles) σ).find n) :
    ∀ v ∈ f.vertices, (v.1, v.2.1) ∈ if n ≤ 2 then region circleCircle.1 else region circleCircle.2 := by
  obtain ⟨c, hc, hv, f', hf', hid, -, hcv⟩ := ((C213_find mesh circles hσ n).1 _).1 h
  have hff : f' = f := List.inj_on_of_nodup_map hm.ids hf' hf hid
  subst hff hv
  intro v hv
  have h2 := hcv v hv
  simp only [circles, List.mem_cons, List.not_mem_nil, or_false] at hc
  rcases hA _ hf v hv with h1 | h1
  · have r1 := (fourArcs_range (1 / 2, 1 / 2) (by norm_num : (0 : ℝ) < 3 / 10) h1).1
    simp only at r1
    rcases hc with rfl | rfl | rfl | rfl <;> simp only at h2 ⊢
    · exact h1
    · exact h1
    · norm_num at r1; linarith [h2.2]
    · norm_num at r1; linarith
  · have r1 := (fourArcs_range (1 / 2, -1 / 2) (by norm_num : (0 : ℝ) < 2 * (3 / 10)) h1).2
    simp only at r1
    rcases hc with rfl | rfl | rfl | rfl <;> simp only at h2 ⊢
    · norm_num at r1; linarith
    · norm_num at r1; linarith [h2.2]
    · exact h1
    · exact h1

open Verif.ContactMeshes in
/-- **C213** fails for the lower disc: the point where it is closest to the upper one is not on the contact surface if it is a
vertex of the mesh, because the condition is `x[1] < 0.1` and the disc reaches `0.1`. (In exact arithmetic; with doubles it
depends on rounding.) -/
theorem C213_circles_violated {mesh : List Facet} (hm : Good mesh) {σ : List ℕ} (hσ : IsArgsort (indices mesh circles) σ)
    {f : Facet} (hf : f ∈ mesh) (hv : ((1 / 2, 1 / 10, 0) : Pt) ∈ f.vertices) (n : ℕ) :
    f.id ∉ (tags (indices mesh circles) (values mesh circles) σ).find n ∧
      ((1 / 2, 1 / 10) : ℝ × ℝ) ∈ region circleCircle.2 ∧
      ∃ p ∈ region circleCircle.1, ∀ x ∈ region circleCircle.1, ∀ y ∈ region circleCircle.2, apart p (1 / 2, 1 / 10) ≤ apart x y := by
  refine ⟨fun h => ?_, ?_, (1 / 2, 2 / 10), ?_, fun x hx y hy => ?_⟩
  · obtain ⟨c, hc, -, f', hf', hid, -, hcv⟩ := ((C213_find mesh circles hσ n).1 _).1 h
    have hff : f' = f := List.inj_on_of_nodup_map hm.ids hf' hf hid
    subst hff
    have h2 := hcv _ hv
    simp only [circles, List.mem_cons, List.not_mem_nil, or_false] at hc
    rcases hc with rfl | rfl | rfl | rfl <;> norm_num at h2
  · have := (fourArcs_poles (1 / 2, -1 / 2) (by norm_num : (0 : ℝ) < 2 * (3 / 10))).2
    norm_num at this
    rw [circleCircle]
    norm_num
    exact this
  · have := (fourArcs_poles (1 / 2, 1 / 2) (by norm_num : (0 : ℝ) < 3 / 10)).1
    norm_num at this
    rw [circleCircle]
    norm_num
    exact this
  · rw [apart_vertical (g := 1 / 10) (by norm_num) (by norm_num)]
    exact circleCircle_gap.1 x hx y hy

open Verif.ContactMeshes in
/-- **C213.** Two boxes in space, with the default sizes of `create_box_mesh_3D`. -/
theorem C213_boxes {mesh : List Facet} (hm : Good mesh) {σ : List ℕ} (hσ : IsArgsort (indices mesh boxes) σ)
    (hA : ∀ f ∈ mesh, ∀ v ∈ f.vertices,
      v ∈ occupied (boxes3D (1 / 10) (1 / 2) (2 / 10)).1 ∪ occupied (boxes3D (1 / 10) (1 / 2) (2 / 10)).2) {f : Facet} (hf : f ∈ mesh)
    {n : ℕ} (h : f.id ∈ (tags (indices mesh boxes) (values mesh boxes) σ).find n) :
    ∀ v ∈ f.vertices, v ∈ if n ≤ 2 then occupied (boxes3D (1 / 10) (1 / 2) (2 / 10)).1 else
      occupied (boxes3D (1 / 10) (1 / 2) (2 / 10)).2 := by
  obtain ⟨c, hc, hv, f', hf', hid, -, hcv⟩ := ((C213_find mesh boxes hσ n).1 _).1 h
  have hff : f' = f := List.inj_on_of_nodup_map hm.ids hf' hf hid
  subst hff hv
  intro v hv
  have h2 := hcv v hv
  simp only [boxes, List.mem_cons, List.not_mem_nil, or_false] at hc
  rcases hA _ hf v hv with h1 | h1
  · have r1 := h1.2.2.2.2.1
    rcases hc with rfl | rfl | rfl | rfl <;> simp only [isclose_iff] at h2 ⊢
    · exact h1
    · exact h1
    · norm_num [abs_div] at h2; linarith
    · norm_num [abs_div] at h2; linarith
  · have r1 := h1.2.2.2.2.2
    rcases hc with rfl | rfl | rfl | rfl <;> simp only [isclose_iff] at h2 ⊢
    · norm_num [abs_div] at h2 r1; linarith
    · norm_num [abs_div] at h2 r1; linarith
    · exact h1
    · exact h1

/-! ### adding facets to a marker -/

theorem extended_length {t : Tags} (ht : t.indices.length = t.values.length) (mesh : List Facet) (c1 c2 : Pt → Prop) (z : ℕ) :
    (extended t mesh c1 c2 z).1.length = (extended t mesh c1 c2 z).2.length := by
  simp [extended, ht]

/-- **C213.** Christmas trees in space: the marker is extended by the located facets; no facet loses the value it had. -/
theorem C213_extended_partial {t : Tags} (ht : t.indices.length = t.values.length) (mesh : List Facet) (c1 c2 : Pt → Prop) (z : ℕ)
    {σ : List ℕ} (hσ : IsArgsort (extended t mesh c1 c2 z).1 σ) (v i : ℕ) :
    i ∈ (tags (extended t mesh c1 c2 z).1 (extended t mesh c1 c2 z).2 σ).find v ↔
      i ∈ t.find v ∨ v = z ∧ (Marked mesh c1 i ∨ Marked mesh c2 i) := by
  rw [mem_find (extended_length ht mesh c1 c2 z) hσ]
  have e : (extended t mesh c1 c2 z).1.zip (extended t mesh c1 c2 z).2 =
      t.indices.zip t.values ++ (locate mesh c1 ++ locate mesh c2).map (fun j => (j, z)) := by
    simp only [extended, List.append_assoc]
    rw [List.zip_append ht]
    congr 1
    rw [← List.length_append]
    generalize locate mesh c1 ++ locate mesh c2 = l
    induction l with
    | nil => rfl
    | cons a l ih => simp [List.replicate_succ, ih]
  rw [e, List.mem_append]
  simp only [List.mem_map, List.mem_append, mem_locate, Tags.find, List.mem_filter, beq_iff_eq, Prod.mk.injEq]
  constructor
  · rintro (h | ⟨j, hj, rfl, rfl⟩)
    · exact Or.inl ⟨_, ⟨h, rfl⟩, rfl⟩
    · exact Or.inr ⟨rfl, hj⟩
  · rintro (⟨⟨j, w⟩, ⟨h1, rfl⟩, rfl⟩ | ⟨rfl, h⟩)
    · exact Or.inl h1
    · exact Or.inr ⟨i, h, rfl, rfl⟩

/-- **C213** fails for Christmas trees in space: the generator gives the end faces of the tree a value, and every facet of an end
face that is located for the third component is then twice among the facets passed to `meshtags`. -/
theorem C213_tree_violated {t : Tags} {mesh : List Facet} {z i : ℕ} {σ : List ℕ}
    (hσ : IsArgsort (extended t mesh (identifier 0) (identifier 1) z).1 σ) (hi : i ∈ t.find 5)
    (hl : Marked mesh (identifier 0) i ∨ Marked mesh (identifier 1) i) :
    ¬ Valid (tags (extended t mesh (identifier 0) (identifier 1) z).1 (extended t mesh (identifier 0) (identifier 1) z).2 σ) := by
  rw [valid_iff hσ]
  intro h
  simp only [extended, List.append_assoc] at h
  have hd := (List.nodup_append.1 h).2.2
  have h1 : i ∈ t.indices := by
    simp only [Tags.find, List.mem_map, List.mem_filter] at hi
    obtain ⟨⟨j, w⟩, ⟨h1, -⟩, rfl⟩ := hi
    exact (List.of_mem_zip h1).1
  refine hd i h1 i ?_ rfl
  rw [List.mem_append, mem_locate, mem_locate]
  exact hl

/-- The facets located for the third component: all facets of the plane `z` within 0.1 of the axis through `(2, 0)`, and only
facets within 0.15 of it. -/
theorem C213_axis {mesh : List Facet} {i : ℕ} {z : ℝ} :
    ((∃ f ∈ mesh, f.id = i ∧ f.boundary = true ∧ ∀ v ∈ f.vertices, v.2.2 = z ∧ (v.1 - 2) ^ 2 + v.2.1 ^ 2 < 1 / 100) →
      i ∈ locate mesh (identifier z))
    ∧ (i ∈ locate mesh (identifier z) →
      ∃ f ∈ mesh, f.id = i ∧ f.boundary = true ∧ ∀ v ∈ f.vertices, isclose v.2.2 z ∧ (v.1 - 2) ^ 2 + v.2.1 ^ 2 < (15 / 100) ^ 2) := by
  rw [mem_locate]
  constructor
  · rintro ⟨f, hf, hi, hb, hv⟩
    refine ⟨f, hf, hi, hb, fun v hm => ?_⟩
    obtain ⟨h1, h2⟩ := hv v hm
    refine ⟨⟨?_, abs_lt.mpr ⟨?_, ?_⟩⟩, abs_lt.mpr ⟨?_, ?_⟩⟩
    · rw [h1, isclose, sub_self, abs_zero]
      positivity
    all_goals nlinarith [sq_nonneg (v.1 - 2), sq_nonneg v.2.1]
  · rintro ⟨f, hf, hi, hb, hv⟩
    refine ⟨f, hf, hi, hb, fun v hm => ⟨(hv v hm).1.1, ?_⟩⟩
    have h1 := abs_lt.mp (hv v hm).1.2
    have h2 := abs_lt.mp (hv v hm).2
    nlinarith [h1.1, h1.2, h2.1, h2.2]

example : 7 ∈ locate [⟨7, true, [(2, 0, 0), (2, 1 / 20, 0)]⟩] (identifier 0) :=
  C213_axis.1 ⟨_, List.mem_cons_self, rfl, rfl, by simp; norm_num⟩

/-! ### a mesh -/

/-- A facet on the top, one on the bottom, one on the side and one inside. -/
def exMesh : List Facet :=
  [⟨0, true, [(0, 0, 0), (1, 0, 0)]⟩, ⟨1, false, [(0, 1, 0), (1, 0, 0)]⟩, ⟨2, true, [(0, 1, 0), (1, 1, 0)]⟩, ⟨3, true, [(0, 0, 0), (0, 1, 0)]⟩]

theorem exMesh_good : Good exMesh := ⟨by simp [exMesh], by simp [exMesh]⟩

theorem exMesh_indices : indices exMesh oneSided2D = [2, 0] := by
  simp [indices, oneSided2D, locate, exMesh]
  norm_num

theorem exMesh_sort : IsArgsort (indices exMesh oneSided2D) [1, 0] := by
  rw [exMesh_indices]
  exact ⟨by decide, by simp⟩

example : (tags (indices exMesh oneSided2D) (values exMesh oneSided2D) [1, 0]).indices = [0, 2] ∧
    Valid (tags (indices exMesh oneSided2D) (values exMesh oneSided2D) [1, 0]) :=
  ⟨by simp [tags, take, exMesh_indices], C213_demos exMesh_good (by simp) exMesh_sort⟩

/-- A facet of an end face of the tree. -/
example : ¬ Valid (tags (extended ⟨[7], [5]⟩ [⟨7, true, [(2, 0, 0)]⟩] (identifier 0) (identifier 1) 8).1
    (extended ⟨[7], [5]⟩ [⟨7, true, [(2, 0, 0)]⟩] (identifier 0) (identifier 1) 8).2 [0, 1]) := by
  refine C213_tree_violated (i := 7) ?_ (by simp [Tags.find]) (Or.inl ⟨_, List.mem_cons_self, rfl, rfl, ?_⟩)
  · have e : (extended ⟨[7], [5]⟩ [⟨7, true, [(2, 0, 0)]⟩] (identifier 0) (identifier 1) 8).1 = [7, 7] := by
      simp [extended, locate, identifier, isclose]
      norm_num
    rw [e]
    exact ⟨by decide, by simp⟩
  · simp [identifier, isclose]

/-- Two discs with a vertex where they are closest, and a facet above it. -/
example : (3 : ℕ) ∉ (tags (indices [⟨3, true, [(1 / 2, 1 / 10, 0), (6 / 10, 9 / 100, 0)]⟩] circles)
    (values [⟨3, true, [(1 / 2, 1 / 10, 0), (6 / 10, 9 / 100, 0)]⟩] circles) []).find 3 := by
  refine (C213_circles_violated (mesh := [⟨3, true, [(1 / 2, 1 / 10, 0), (6 / 10, 9 / 100, 0)]⟩]) (σ := [])
    ⟨by simp, by simp⟩ ?_ List.mem_cons_self List.mem_cons_self 3).1
  have e : indices [⟨3, true, [(1 / 2, 1 / 10, 0), (6 / 10, 9 / 100, 0)]⟩] circles = [] := by
    simp [indices, circles, locate]
    norm_num
    exact ⟨⟨1 / 2, 1 / 10, ⟨0, Or.inl ⟨rfl, rfl, rfl⟩⟩, by norm_num⟩, ⟨1 / 2, 1 / 10, ⟨0, Or.inl ⟨rfl, rfl, rfl⟩⟩, by norm_num⟩,
      ⟨1 / 2, 1 / 10, ⟨0, Or.inl ⟨rfl, rfl, rfl⟩⟩, by norm_num⟩⟩
  rw [e]
  exact ⟨by simp, by simp⟩

end Verif.Props.FacetMarkers
