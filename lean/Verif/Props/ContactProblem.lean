import Verif.Lemmas.ContactProblemKernels
import Verif.Lemmas.Extent
import Verif.Props.ContactKernels

/-!
Properties of `ContactProblem`: C38 (layout), C40 (previous normals), C41 (missing coefficients), C81
(friction coefficient not given), C82 (`crop_invalid_points`), C83 (failing `generate_contact_data`), C84
(kernels and constants), C85 (`h_surfaces`).
-/

namespace Verif.ContactProblem

open Verif.Spec Verif.Kernels

noncomputable section

variable {G : Type}

/-! ### A concrete object used for the examples -/

/-- One pair in two dimensions, two active facets of which one is owned, two points, one scalar basis
function; geometries are numbers, the normals depend on them. -/
def exS : Static ℝ where
  numPairs := 1
  nq := 2
  gdim := 2
  nd := 1
  bs := 2
  raytracing := fun _ => true
  entities := fun _ => 2
  localFacets := fun _ => 1
  gap := fun g _ => ⟨1, 4, fun _ c => g + c⟩
  nx := fun g _ => ⟨1, 4, fun _ c => g * c⟩
  ny := fun g _ => ⟨1, 4, fun _ c => g + 10 * c⟩
  test := fun g _ => ⟨1, 8, fun _ c => g + 100 * c⟩

theorem exS_shaped : Static.Shaped exS where
  pairs := by simp [exS]
  dim := by simp [exS]
  points := by simp [exS]
  block := rfl
  loc := fun i _ => by simp [exS]
  gap := fun g i _ => by simp [exS]
  nx := fun g i _ => by simp [exS]
  ny := fun g i _ => by simp [exS]
  test := fun g i _ => by simp [exS]

/-- A packed displacement increment. -/
def exDu : Du ℝ where
  val := fun _ => ⟨2, 4, fun e c => e + c⟩
  grad := fun _ => ⟨2, 8, fun e c => e - c⟩
  opp := fun g _ => ⟨1, 4, fun e c => g + e + c⟩

/-- Arguments with the given friction coefficient. -/
def exArgs (law : Law) (fric : Option ℝ) : GenArgs ℝ where
  law := law
  mu := some (fun _ => ⟨2, 1, fun _ _ => 1⟩)
  lam := some (fun _ => ⟨2, 1, fun _ _ => 2⟩)
  fric := fric.map (fun f _ => ⟨2, 1, fun _ _ => f⟩)
  u := none
  du := some exDu
  h := fun _ => ⟨2, 1, fun e _ => e + 3⟩
  gamma := 10
  theta := 1

theorem exDu_shaped : DuShaped exS exDu :=
  ⟨fun i _ => by simp [exS, exDu], fun i _ => by simp [exS, exDu], fun g i _ => by simp [exS, exDu]⟩

theorem exArgs_shaped (law : Law) (fric : Option ℝ) : OpShaped exS (.generate (exArgs law fric)) := by
  refine ⟨fun m h => ?_, fun m h => ?_, fun m h => ?_, fun i _ => ?_, fun m h => ?_, fun d h => ?_⟩
  · cases h; intro i _; simp [exS]
  · cases h; intro i _; simp [exS]
  · cases fric with
    | none => cases h
    | some f => cases h; intro i _; simp [exS]
  · simp [exS, exArgs]
  · cases h
  · cases h; exact exDu_shaped

/-- Generate, detect again, update the displacement. -/
def exOps : List (Op ℝ) :=
  [.generate (exArgs .coulomb (some 7)), .updateDetection (fun g => g + 1) (fun _ => ⟨2, 8, fun _ _ => 5⟩),
    .updateData exDu]

theorem exOps_shaped : ∀ op ∈ exOps, OpShaped exS op := by
  intro op h
  simp only [exOps, List.mem_cons, List.not_mem_nil, or_false] at h
  rcases h with rfl | rfl | rfl
  · exact exArgs_shaped _ _
  · intro i _; simp [exS]
  · exact exDu_shaped

/-! ### C38: layout -/

/-- After every sequence of calls, whether some of them raised or not, the row of every owned facet of
every pair holds, at the offsets at which the kernels read, exactly the data given last: `Tracked` says
which data those are and does not mention offsets. -/
theorem C38_layout {S : Static G} (hS : Static.Shaped S) (ops : List (Op G)) (hops : ∀ op ∈ ops, OpShaped S op)
    (g : G) (cs : ℕ → Mat) (hcs : (history S ops (init S g)).coeffs = some cs) :
    ∀ i < S.numPairs, ∀ e < S.localFacets i,
      RowHolds S ((Tracked.new g).history ops) i e ((cs i).v e) := by
  have H := good_history hS ops hops (good_init S g)
  cases hc : ((Tracked.new g).history ops).created with
  | false => rw [(H.fresh hc).1] at hcs; cases hcs
  | true =>
    obtain ⟨cs', nQ, h1, -, h3⟩ := H.full hc
    rw [h1] at hcs
    cases hcs
    exact fun i hi e he => ((h3 i hi).row e he).holds

/-- There are rows iff the data were generated; every row has exactly `coefficients_size` entries. -/
theorem C38_size {S : Static G} (hS : Static.Shaped S) (ops : List (Op G)) (hops : ∀ op ∈ ops, OpShaped S op)
    (g : G) :
    (((Tracked.new g).history ops).created = false ∧ (history S ops (init S g)).coeffs = none)
    ∨ (((Tracked.new g).history ops).created = true ∧ ∃ cs, (history S ops (init S g)).coeffs = some cs ∧
      ∀ i < S.numPairs, (cs i).rows = S.entities i ∧
        (cs i).cols = coefficientsSize false S.nq S.gdim S.nd S.bs S.nq) := by
  have H := good_history hS ops hops (good_init S g)
  cases hc : ((Tracked.new g).history ops).created with
  | false => exact Or.inl ⟨rfl, (H.fresh hc).1⟩
  | true =>
    obtain ⟨cs, nQ, h1, -, h3⟩ := H.full hc
    exact Or.inr ⟨rfl, cs, h1, fun i hi => by rw [size_eq hS]; exact (h3 i hi).shape⟩

example : ∃ cs, (history exS exOps (init exS 1)).coeffs = some cs ∧ (cs 0).v 0 2 = 7
    ∧ (∀ m < 4, (cs 0).v 0 (4 + 4 + m) = -(2 * m)) ∧ ∀ m < 4, (cs 0).v 0 (4 + 2 * 4 + 8 + 4 + 8 + 4 + m) = -m := by
  rcases C38_size exS_shaped exOps exOps_shaped 1 with ⟨h, -⟩ | ⟨-, cs, h, -⟩
  · simp [exOps, Tracked.history, Tracked.call, exArgs, Tracked.setDu] at h
  · refine ⟨cs, h, ?_⟩
    have R := C38_layout exS_shaped exOps exOps_shaped 1 cs h 0 (by simp [exS]) 0 (by simp [exS])
    refine ⟨?_, fun m hm => ?_, fun m hm => ?_⟩
    · rw [R.fric]; simp [exOps, Tracked.history, Tracked.call, exArgs, Tracked.setDu, vals]
    · have := R.normal m (by simpa [exS] using hm)
      simp only [dims, Dims.oNormal, exS] at this
      rw [show 4 + 4 + m = 4 + 2 * 2 + m from by omega, this]
      simp [exOps, Tracked.history, Tracked.call, exArgs, Tracked.setDu, normals, Tracked.new]
      norm_num
    · have := R.old m (by simpa [exS] using hm)
      simp only [dims, Dims.oOld, Dims.oOpp, Dims.oGrad, Dims.oU, Dims.oTest, exS] at this
      rw [show 4 + 2 * 4 + 8 + 4 + 8 + 4 + m = 4 + 2 * (2 * 2) + 2 * 1 * 2 * 2 + 2 * 2 + 2 * 2 * 2 + 2 * 2 + m from by omega,
        this]
      simp [exOps, Tracked.history, Tracked.call, exArgs, Tracked.setDu, normals, Tracked.new]

/-- The contact kernels read their slices at the documented offsets, consecutive slices do not overlap, and
the last one ends where `coefficients_size` says. -/
theorem C38_kernel_offsets (D : KD) (hbs : D.bs = D.gdim) :
    D.off 1 = D.dims.oGap ∧ D.off 2 = D.dims.oNormal ∧ D.off 3 = D.dims.oTest ∧ D.off 4 = D.dims.oU
    ∧ D.off 5 = D.dims.oGrad ∧ D.off 6 = D.dims.oOpp ∧ D.off 7 = D.dims.oOld
    ∧ D.dims.oGap = 4 ∧ D.dims.oGap + D.nq * D.gdim = D.dims.oNormal
    ∧ D.dims.oNormal + D.nq * D.gdim = D.dims.oTest
    ∧ D.dims.oTest + D.maxLinks * D.nd * D.nq * D.gdim = D.dims.oU ∧ D.dims.oU + D.nq * D.gdim = D.dims.oGrad
    ∧ D.dims.oGrad + D.nq * D.gdim * D.gdim = D.dims.oOpp ∧ D.dims.oOpp + D.nq * D.gdim = D.dims.oOld
    ∧ D.dims.oOld + D.nq * D.gdim = coefficientsSize false D.nq D.gdim D.nd D.bs D.maxLinks := by
  refine ⟨off1 D, off2 D, off3 D, off4 D hbs, off5 D hbs, off6 D hbs, off7 D hbs, rfl, rfl, ?_, rfl, rfl, rfl, rfl, ?_⟩
  · simp only [Dims.oNormal, Dims.oTest, KD.dims]; ring
  · simp only [Dims.oOld, Dims.oOpp, Dims.oGrad, Dims.oU, Dims.oTest, KD.dims, coefficientsSize, hbs,
      List.sum_cons, List.sum_nil, Bool.false_eq_true, if_false]
    ring

example : exD.bs = exD.gdim := rfl

/-- No contact kernel reads beyond `coefficients_size`: rows that agree up to there give the same element
vectors and matrices, for all six kernels, all quadrature points of a facet and all links there is room
for. -/
theorem C38_extent (D : KD) (hbs : D.bs = D.gdim) (c c' w : ℕ → ℝ)
    (h : ∀ m < coefficientsSize false D.nq D.gdim D.nd D.bs D.maxLinks, c m = c' m)
    (links : ℕ) (hl : links ≤ D.maxLinks) (qs : List ℕ) (hqs : ∀ q ∈ qs, q < D.nq) :
    unbiasedRhs D c w links qs = unbiasedRhs D c' w links qs
    ∧ unbiasedJac D c w links qs = unbiasedJac D c' w links qs
    ∧ trescaRhs D c w links qs = trescaRhs D c' w links qs
    ∧ trescaJac D c w links qs = trescaJac D c' w links qs
    ∧ coulombRhs D c w links qs = coulombRhs D c' w links qs
    ∧ coulombJac D c w links qs = coulombJac D c' w links qs := by
  have e : coefficientsSize false D.nq D.gdim D.nd D.bs D.maxLinks = D.cstrides.sum := by
    simp only [coefficientsSize, KD.cstrides, hbs, List.sum_cons, List.sum_nil, Bool.false_eq_true, if_false]
    ring
  rw [e] at h
  exact ⟨forEach_congr (fun q hq => agree_unbiasedRhs h (hqs q hq) hbs hl w),
    forEach_congr (fun q hq => agree_unbiasedJac h (hqs q hq) hbs hl w),
    forEach_congr (fun q hq => agree_trescaRhs h (hqs q hq) hbs hl w),
    forEach_congr (fun q hq => agree_trescaJac h (hqs q hq) hbs hl w),
    forEach_congr (fun q hq => agree_coulombRhs h (hqs q hq) hbs hl w),
    forEach_congr (fun q hq => agree_coulombJac h (hqs q hq) hbs hl w)⟩

example : (∀ m < coefficientsSize false exD.nq exD.gdim exD.nd exD.bs exD.maxLinks,
      exRow 1 m = if m < 20 then exRow 1 m else 3) ∧ 1 ≤ exD.maxLinks ∧ ∀ q ∈ [0], q < exD.nq := by
  refine ⟨fun m hm => ?_, by simp [exD], by simp [exD]⟩
  simp [coefficientsSize, exD] at hm
  rw [if_pos hm]

/-! ### C40: normals of the previous detection -/

theorem rows_of {S : Static G} {t : Tracked G} {s : State G} (H : Good S t s) {cs : ℕ → Mat}
    (hcs : s.coeffs = some cs) : t.created = true ∧ ∀ i < S.numPairs, ∀ e < S.localFacets i,
      RowHolds S t i e ((cs i).v e) := by
  cases hc : t.created with
  | false => rw [(H.fresh hc).1] at hcs; cases hcs
  | true =>
    obtain ⟨cs', nQ, h1, -, h3⟩ := H.full hc
    rw [h1] at hcs
    cases hcs
    exact ⟨rfl, fun i hi e he => ((h3 i hi).row e he).holds⟩

/-- `update_contact_detection`, after any history: it succeeds, the normals found before become the
previous normals of every owned facet, and the current ones are those of the new geometry. -/
theorem C40_update {S : Static G} (hS : Static.Shaped S) (ops : List (Op G)) (hops : ∀ op ∈ ops, OpShaped S op)
    (g : G) (move : G → G) (gu : ℕ → Mat) (hgu : GradShaped S gu) (s : State G)
    (hs : s = history S ops (init S g)) (cs : ℕ → Mat) (hcs : s.coeffs = some cs) :
    ∃ s' cs', updateDetection S move gu s = .ok s' ∧ s'.coeffs = some cs' ∧ s'.geom = move s.geom ∧
      ∀ i < S.numPairs, ∀ e < S.localFacets i, ∀ m < S.nq * S.gdim,
        (cs' i).v e ((dims S).oOld + m) = (cs i).v e ((dims S).oNormal + m)
        ∧ (cs' i).v e ((dims S).oNormal + m) = normals S (move s.geom) i e m := by
  have H := good_history hS ops hops (good_init S g)
  rw [← hs] at H
  obtain ⟨hc, R⟩ := rows_of H hcs
  obtain ⟨s', h1, H'⟩ := good_updateDetection hS move hgu H hc
  obtain ⟨cs', nQ, f1, -⟩ := H'.full hc
  obtain ⟨-, R'⟩ := rows_of H' f1
  refine ⟨s', cs', h1, f1, by rw [H'.geom, H.geom], fun i hi e he m hm => ⟨?_, ?_⟩⟩
  · rw [(R' i hi e he).old m hm, (R i hi e he).normal m hm]
  · rw [(R' i hi e he).normal m hm, H.geom]

/-- The first `generate_contact_data` sets the previous normals to the current ones; generating again,
updating the displacement or the Nitsche parameters keeps them, whether the call raises or not. -/
theorem C40_generate {S : Static G} (hS : Static.Shaped S) (ops : List (Op G)) (hops : ∀ op ∈ ops, OpShaped S op)
    (g : G) (op : Op G) (hop : OpShaped S op) (hnd : ∀ move gu, op ≠ .updateDetection move gu) (s s' : State G)
    (hs : s = history S ops (init S g)) (hs' : s' = after (call S op s)) (cs' : ℕ → Mat)
    (hcs' : s'.coeffs = some cs') :
    ∀ i < S.numPairs, ∀ e < S.localFacets i, ∀ m < S.nq * S.gdim,
      (s.coeffs = none → (cs' i).v e ((dims S).oOld + m) = (cs' i).v e ((dims S).oNormal + m)
        ∧ (cs' i).v e ((dims S).oOld + m) = normals S s.geom i e m)
      ∧ ∀ cs, s.coeffs = some cs → (cs' i).v e ((dims S).oOld + m) = (cs i).v e ((dims S).oOld + m) := by
  have H := good_history hS ops hops (good_init S g)
  rw [← hs] at H
  have H' := good_call hS hop H
  rw [← hs'] at H'
  obtain ⟨hc', R'⟩ := rows_of H' hcs'
  intro i hi e he m hm
  have R1 := R' i hi e he
  generalize (Tracked.new g).history ops = t at *
  have hcur : ∀ o : Op G, (∀ move gu, o ≠ .updateDetection move gu) → (t.call o).cur = t.cur := by
    intro o ho
    cases o with
    | generate a =>
      simp only [Tracked.call]
      split
      · cases a.du <;> rfl
      · rfl
    | updateData du => simp only [Tracked.call]; split <;> rfl
    | updateDetection move gu => exact absurd rfl (ho move gu)
    | updateNitsche _ _ => rfl
  have hprev : ∀ o : Op G, (∀ move gu, o ≠ .updateDetection move gu) →
      (t.created = true → (t.call o).prev = t.prev)
      ∧ (t.created = false → (t.call o).created = true → (t.call o).prev = t.cur) := by
    intro o ho
    cases o with
    | generate a =>
      simp only [Tracked.call]
      split
      · refine ⟨fun h => ?_, fun h _ => ?_⟩ <;> cases a.du <;> simp [Tracked.setDu, h]
      · exact ⟨fun _ => rfl, fun h h' => by rw [h] at h'; cases h'⟩
    | updateData du =>
      simp only [Tracked.call]
      refine ⟨fun h => by rw [if_pos h]; rfl, fun h h' => ?_⟩
      rw [if_neg (by rw [h]; simp), h] at h'
      cases h'
    | updateDetection move gu => exact absurd rfl (ho move gu)
    | updateNitsche _ _ => exact ⟨fun _ => rfl, fun h h' => by rw [show (t.call (.updateNitsche _ _)).created = t.created from rfl, h] at h'; cases h'⟩
  refine ⟨fun hn => ?_, fun cs h => ?_⟩
  · have hf : t.created = false := by
      cases hc : t.created with
      | false => rfl
      | true => obtain ⟨_, _, h1, -⟩ := H.full hc; rw [h1] at hn; cases hn
    rw [R1.old m hm, R1.normal m hm, (hprev op hnd).2 hf hc', hcur op hnd, H.geom]
    exact ⟨rfl, rfl⟩
  · obtain ⟨hc, R⟩ := rows_of H h
    rw [R1.old m hm, (R i hi e he).old m hm, (hprev op hnd).1 hc]

example : ∃ cs, (history exS exOps (init exS 1)).coeffs = some cs ∧ GradShaped exS (fun _ => ⟨2, 8, fun _ _ => 5⟩) := by
  rcases C38_size exS_shaped exOps exOps_shaped 1 with ⟨h, -⟩ | ⟨-, cs, h, -⟩
  · simp [exOps, Tracked.history, Tracked.call, exArgs, Tracked.setDu] at h
  · exact ⟨cs, h, fun i _ => by simp [exS]⟩

/-! ### C41: missing coefficients -/

/-- After any history, `generate_contact_data` raises `RuntimeError` iff mu or lambda is missing, and
succeeds otherwise; then the scalars of a row are mu, lambda, the friction coefficient if given, and h. -/
theorem C41_contact {S : Static G} (hS : Static.Shaped S) (ops : List (Op G)) (hops : ∀ op ∈ ops, OpShaped S op)
    (g : G) (a : GenArgs G) (ha : OpShaped S (.generate a)) (s : State G) (hs : s = history S ops (init S g)) :
    ((a.mu = none ∨ a.lam = none) ∧ ∃ s', generate S a s = .error (.runtimeError, s'))
    ∨ ∃ mu lam s' cs', a.mu = some mu ∧ a.lam = some lam ∧ generate S a s = .ok s' ∧ s'.coeffs = some cs' ∧
      ∀ i < S.numPairs, ∀ e < S.localFacets i,
        (cs' i).v e 0 = (mu i).v e 0 ∧ (cs' i).v e 1 = (lam i).v e 0
        ∧ (∀ f, a.fric = some f → (cs' i).v e 2 = (f i).v e 0) ∧ (cs' i).v e 3 = (a.h i).v e 0 := by
  cases h1 : a.mu with
  | none => exact Or.inl ⟨Or.inl rfl, _, generate_missing S (Or.inl h1) s⟩
  | some mu =>
    cases h2 : a.lam with
    | none => exact Or.inl ⟨Or.inr rfl, _, generate_missing S (Or.inr h2) s⟩
    | some lam =>
      have H := good_history hS ops hops (good_init S g)
      rw [← hs] at H
      obtain ⟨s', e1, H', -⟩ := good_generate hS ha h1 h2 H
      have hc : (((Tracked.new g).history ops).call (.generate a)).created = true := by
        simp only [Tracked.call, h1, h2]
        cases a.du <;> rfl
      obtain ⟨cs', nQ, f1, -⟩ := H'.full hc
      obtain ⟨-, R⟩ := rows_of H' f1
      refine Or.inr ⟨mu, lam, s', cs', rfl, rfl, e1, f1, fun i hi e he => ⟨?_, ?_, fun f hf => ?_, ?_⟩⟩
      · rw [(R i hi e he).mu]
        simp only [Tracked.call, h1, h2]
        cases a.du <;> rfl
      · rw [(R i hi e he).lam]
        simp only [Tracked.call, h1, h2]
        cases a.du <;> rfl
      · rw [(R i hi e he).fric]
        simp only [Tracked.call, h1, h2, hf]
        cases a.du <;> rfl
      · rw [(R i hi e he).h]
        simp only [Tracked.call, h1, h2]
        cases a.du <;> rfl

example : OpShaped exS (.generate (exArgs .tresca (some 7))) ∧ OpShaped exS (.generate { exArgs .tresca (some 7) with mu := none }) := by
  refine ⟨exArgs_shaped _ _, ?_⟩
  obtain ⟨-, h2, h3, h4, h5, h6⟩ := exArgs_shaped .tresca (some 7)
  exact ⟨fun _ h => (by cases h), h2, h3, h4, h5, h6⟩

/-! ### C81: friction coefficient not given -/

/-- Part of C81: if no call so far gave a friction coefficient, the rows hold zero. Missing: see
`C81_violated`. -/
theorem C81_default_partial {S : Static G} (hS : Static.Shaped S) (ops : List (Op G))
    (hops : ∀ op ∈ ops, OpShaped S op) (hf : ∀ a, .generate a ∈ ops → a.fric = none)
    (g : G) (cs : ℕ → Mat) (hcs : (history S ops (init S g)).coeffs = some cs) :
    ∀ i < S.numPairs, ∀ e < S.localFacets i, (cs i).v e 2 = 0 := by
  have key : ∀ (l : List (Op G)) (t : Tracked G), (∀ a, .generate a ∈ l → a.fric = none) →
      t.fric = (fun _ _ _ => 0) → (t.history l).fric = (fun _ _ _ => 0) := by
    intro l
    induction l with
    | nil => intro t _ h; exact h
    | cons o l ih =>
      intro t hl h
      refine ih (t.call o) (fun a ha => hl a (List.mem_cons_of_mem _ ha)) ?_
      cases o with
      | generate a =>
        have := hl a (List.mem_cons_self ..)
        simp only [Tracked.call, this]
        split
        · cases a.du <;> exact h
        · exact h
      | updateData du => simp only [Tracked.call]; split <;> exact h
      | updateDetection move gu => simp only [Tracked.call]; split <;> exact h
      | updateNitsche _ _ => exact h
  intro i hi e he
  rw [(C38_layout hS ops hops g cs hcs i hi e he).fric, key ops _ hf rfl]

example : (∀ op ∈ [Op.generate (exArgs .frictionless none)], OpShaped exS op)
    ∧ ∀ a, Op.generate a ∈ [Op.generate (exArgs .frictionless none)] → a.fric = none := by
  refine ⟨fun op h => ?_, fun a h => ?_⟩
  · rw [List.mem_singleton] at h; subst h; exact exArgs_shaped _ _
  · rw [List.mem_singleton] at h; cases h; rfl

/-- C81 fails: generating without a friction coefficient an object that was generated with one keeps the old
coefficient, for every object and every value. -/
theorem C81_violated {S : Static G} (hS : Static.Shaped S) (g : G) (a a' : GenArgs G)
    (ha : OpShaped S (.generate a)) (ha' : OpShaped S (.generate a')) {mu lam f mu' lam' : ℕ → Mat}
    (h1 : a.mu = some mu) (h2 : a.lam = some lam) (h3 : a.fric = some f) (h1' : a'.mu = some mu')
    (h2' : a'.lam = some lam') (h3' : a'.fric = none) :
    ∃ cs, (history S [.generate a, .generate a'] (init S g)).coeffs = some cs ∧
      ∀ i < S.numPairs, ∀ e < S.localFacets i, (cs i).v e 2 = (f i).v e 0 := by
  have hops : ∀ op ∈ [Op.generate a, .generate a'], OpShaped S op := by
    intro op h
    simp only [List.mem_cons, List.not_mem_nil, or_false] at h
    rcases h with rfl | rfl
    · exact ha
    · exact ha'
  rcases C38_size hS _ hops g with ⟨h, -⟩ | ⟨-, cs, h, -⟩
  · exfalso
    simp only [Tracked.history, List.foldl, Tracked.call, h1', h2'] at h
    revert h
    cases a'.du <;> simp [Tracked.setDu]
  · refine ⟨cs, h, fun i hi e he => ?_⟩
    rw [(C38_layout hS _ hops g cs h i hi e he).fric]
    simp only [Tracked.history, List.foldl, Tracked.call, h1, h2, h3, h1', h2', h3']
    cases a'.du <;> cases a.du <;> rfl

example : ∃ cs, (history exS [.generate (exArgs .coulomb (some 7)), .generate (exArgs .coulomb none)] (init exS 1)).coeffs
    = some cs ∧ (cs 0).v 0 2 = 7 := by
  obtain ⟨cs, h1, h2⟩ := C81_violated exS_shaped 1 (exArgs .coulomb (some 7)) (exArgs .coulomb none)
    (exArgs_shaped _ _) (exArgs_shaped _ _) rfl rfl rfl rfl rfl rfl
  exact ⟨cs, h1, h2 0 (by simp [exS]) 0 (by simp [exS])⟩

/-! ### C82: crop_invalid_points -/

/-- C82 fails: `crop_invalid_points` raises `TypeError` on every object that was generated. -/
theorem C82_violated {S : Static G} (hS : Static.Shaped S) (ops : List (Op G)) (hops : ∀ op ∈ ops, OpShaped S op)
    (g : G) (s : State G) (hs : s = history S ops (init S g)) (hc : s.coeffs ≠ none) :
    cropInvalidPoints S s = .error .typeError := by
  have H := good_history hS ops hops (good_init S g)
  rw [← hs] at H
  cases hcr : ((Tracked.new g).history ops).created with
  | false => exact absurd (H.fresh hcr).1 hc
  | true =>
    obtain ⟨cs, nQ, -, h2, -⟩ := H.full hcr
    obtain ⟨k, hk⟩ : ∃ k, S.numPairs = k + 1 := ⟨S.numPairs - 1, by have := hS.pairs; omega⟩
    unfold cropInvalidPoints
    rw [h2, hk, List.range_succ_eq_map]
    rfl

example : (history exS exOps (init exS 1)).coeffs ≠ none := by
  rcases C38_size exS_shaped exOps exOps_shaped 1 with ⟨h, -⟩ | ⟨-, cs, h, -⟩
  · simp [exOps, Tracked.history, Tracked.call, exArgs, Tracked.setDu] at h
  · rw [h]; simp

/-! ### C83: a failing generate_contact_data -/

/-- C83 fails: a call of `generate_contact_data` that raises because a coefficient is missing has already
replaced kernels and Nitsche parameters. -/
theorem C83_violated (S : Static G) (s : State G) (a : GenArgs G) (h : a.mu = none ∨ a.lam = none) :
    ∃ s', generate S a s = .error (.runtimeError, s') ∧ s'.consts = (a.gamma, a.theta)
      ∧ s'.matKernels.map Prod.fst = lawMatrices a.law := by
  refine ⟨_, generate_missing S h s, rfl, ?_⟩
  show (kernels a.law (maxLinks S s)).1.map Prod.fst = _
  cases a.law <;> rfl

/-- Part of C83: rows, geometry and detection are as before. -/
theorem C83_rows_partial (S : Static G) (s s' : State G) (a : GenArgs G) (h : a.mu = none ∨ a.lam = none)
    (e : Err) (hs' : generate S a s = .error (e, s')) :
    s'.coeffs = s.coeffs ∧ s'.geom = s.geom ∧ s'.detected = s.detected ∧ s'.gradU = s.gradU := by
  rw [generate_missing S h s] at hs'
  injection hs' with hs'
  injection hs' with _ hs'
  subst hs'
  exact ⟨rfl, rfl, rfl, rfl⟩

example : ({ exArgs .tresca (some 7) with mu := none } : GenArgs ℝ).mu = none
    ∨ ({ exArgs .tresca (some 7) with mu := none } : GenArgs ℝ).lam = none := Or.inl rfl

/-! ### C84: kernels and constants -/

/-- After every sequence of calls, of whatever shapes and whether they raised or not, the kernels are those
of the friction law given last, one matrix for every vector, namely its derivative, and the constants are
those given last. -/
theorem C84_kernels (S : Static G) (ops : List (Op G)) (g : G) (s : State G) (hs : s = history S ops (init S g)) :
    s.vecKernels = s.matKernels.map (fun k => (residualOf k.1, k.2))
    ∧ s.matKernels.map Prod.fst = ((lastLaw ops none).map lawMatrices).getD []
    ∧ s.consts = (lastConsts ops none).getD (0, 0) := by
  -- invariant
  have key : ∀ (ops : List (Op G)) (s : State G) (l : Option Law) (c : Option (ℝ × ℝ)),
      s.vecKernels = s.matKernels.map (fun k => (residualOf k.1, k.2)) →
      s.matKernels.map Prod.fst = (l.map lawMatrices).getD [] → s.consts = c.getD (0, 0) →
      (l = none ↔ c = none) →
      (history S ops s).vecKernels = (history S ops s).matKernels.map (fun k => (residualOf k.1, k.2))
      ∧ (history S ops s).matKernels.map Prod.fst = ((lastLaw ops l).map lawMatrices).getD []
      ∧ (history S ops s).consts = (lastConsts ops c).getD (0, 0) := by
    intro ops
    induction ops with
    | nil => intro s l c h1 h2 h3 _; exact ⟨h1, h2, h3⟩
    | cons op ops ih =>
      intro s l c h1 h2 h3 h4
      cases op with
      | generate a =>
        have hk := kc_generate S a s
        simp only [kc, Prod.mk.injEq] at hk
        obtain ⟨k1, k2, k3⟩ := hk
        refine ih (after (generate S a s)) (some a.law) (some (a.gamma, a.theta)) ?_ ?_ k1 (by simp)
        · rw [k2, k3]; cases a.law <;> rfl
        · rw [k2]; cases a.law <;> rfl
      | updateData du =>
        have hk := kc_updateData S du s
        simp only [kc, Prod.mk.injEq] at hk
        obtain ⟨k1, k2, k3⟩ := hk
        exact ih (after (updateContactData S du s)) l c (by rw [k2, k3]; exact h1) (by rw [k2]; exact h2)
          (by rw [k1]; exact h3) h4
      | updateDetection move gu =>
        have hk := kc_updateDetection S move gu s
        simp only [kc, Prod.mk.injEq] at hk
        obtain ⟨k1, k2, k3⟩ := hk
        exact ih (after (updateDetection S move gu s)) l c (by rw [k2, k3]; exact h1) (by rw [k2]; exact h2)
          (by rw [k1]; exact h3) h4
      | updateNitsche gamma theta =>
        have e : after (call S (.updateNitsche gamma theta) s)
            = if s.vecKernels = [] then s else { s with consts := (gamma, theta) } := by
          simp only [call, updateNitsche]
          split <;> rfl
        show (history S ops (after (call S (.updateNitsche gamma theta) s))).vecKernels = _ ∧ _
        show _ ∧ _ ∧ _ = (lastConsts ops (c.map fun _ => (gamma, theta))).getD (0, 0)
        refine ih _ l (c.map fun _ => (gamma, theta)) ?_ ?_ ?_ (by simpa using h4)
        · rw [e]; split <;> exact h1
        · rw [e]; split <;> exact h2
        · rw [e]
          cases l with
          | none =>
            have hm : s.matKernels = [] := List.map_eq_nil_iff.mp h2
            rw [hm] at h1
            have h1' : s.vecKernels = [] := h1
            rw [if_pos h1']
            have : c = none := h4.mp rfl
            subst this
            exact h3
          | some law =>
            have hne : s.vecKernels ≠ [] := by
              intro h
              rw [h] at h1
              rw [List.map_eq_nil_iff.mp h1.symm] at h2
              cases law <;> simp [lawMatrices] at h2
            rw [if_neg hne]
            cases c with
            | none => simp at h4
            | some c => rfl
  subst hs
  have hi := kc_createDistanceMaps S
    { geom := g, detected := fun _ => g, maxLinks := fun _ => 0, coeffs := none, numQ := none,
      gradU := fun _ => zeros 0 0, consts := (0, 0), matKernels := [], vecKernels := [] }
  simp only [kc, Prod.mk.injEq] at hi
  obtain ⟨i1, i2, i3⟩ := hi
  refine key ops (init S g) none none ?_ ?_ i1 (by simp)
  · rw [init, i2, i3]; rfl
  · rw [init, i2]; rfl

example : lastLaw exOps none = some .coulomb ∧ lastConsts (exOps ++ [.updateNitsche 20 (-1)]) none = some (20, -1) :=
  ⟨rfl, rfl⟩

/-! ### C85: h_surfaces -/

/-- After every sequence of calls `h_surfaces` returns, for every pair, the mean over its active facets of the
cell diameters packed last. -/
theorem C85_h_surfaces {S : Static G} (hS : Static.Shaped S) (ops : List (Op G)) (hops : ∀ op ∈ ops, OpShaped S op)
    (g : G) (hc : ((Tracked.new g).history ops).created = true) :
    hSurfaces S (history S ops (init S g)) = (List.range S.numPairs).map (fun i =>
      ((List.range (S.entities i)).map (fun e => ((Tracked.new g).history ops).h i e 0)).sum / S.entities i) := by
  have H := good_history hS ops hops (good_init S g)
  obtain ⟨cs, nQ, h1, -, h3⟩ := H.full hc
  unfold hSurfaces
  rw [h1]
  refine List.map_congr_left (fun i hi => ?_)
  have P := h3 i (List.mem_range.mp hi)
  rw [P.shape.1]
  refine congrArg (fun l : List ℝ => l.sum / (S.entities i : ℝ)) (List.map_congr_left (fun e he => ?_))
  exact P.hcol e (List.mem_range.mp he)

example : hSurfaces exS (history exS exOps (init exS 1)) = [7 / 2] := by
  rw [C85_h_surfaces exS_shaped exOps exOps_shaped 1
    (by simp [exOps, Tracked.history, Tracked.call, exArgs, Tracked.setDu])]
  simp [exS, exOps, Tracked.history, Tracked.call, exArgs, Tracked.setDu, vals, List.range_succ]
  norm_num

end

end Verif.ContactProblem
