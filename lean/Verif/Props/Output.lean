import Mathlib.Tactic.FieldSimp
import Mathlib.Tactic.Linarith
import Mathlib.Tactic.Ring
import Verif.Lemmas.Output
import Verif.Props.ContactProblem
import Verif.Props.Elasticity
import Verif.Props.Packing
import Verif.Spec.Output

/-!
Properties of the output: C108 (`ContactWriter.write` stores the contact tractions), C109 (writing output does
not change the contact problem), C110 (`qp_phys`), C111 (geometry of the output).
-/

namespace Verif.Output

open Finset Verif.ContactProblem

noncomputable section

variable {G : Type}

/-! ### C108 -/

/-- Traction at point `q` of facet `e` of pair `j`: the stress of the packed displacement gradient applied to
the facet normal in the reference configuration. -/
def tractionAt (S : Source G) (s : State G) (nq j e q : ℕ) (p : PairIn) : ℕ → ℝ :=
  Spec.traction S.gdim (p.material.v 0 0) (p.material.v 0 1)
    (fun a b => p.gradU (((e * nq + q) * S.gdim + a) * S.gdim + b))
    (fun a => (S.nx (S.reset s.geom) j).v e (q * S.gdim + a))

/-- Direction of contact at the same point: for ray tracing opposite to the facet normal in the current
configuration, otherwise the normal at the contact point. -/
def directionAt (S : Source G) (s : State G) (j e q : ℕ) (p : PairIn) (a : ℕ) : ℝ :=
  if p.ray then -(S.nx s.geom j).v e (q * S.gdim + a)
  else (S.ny (s.detected j) s.geom j).v e (q * S.gdim + a)

/-- C108 does not hold: `write` raises for every contact problem with at least one pair, because the binding of
`compute_contact_forces` rejects the two-dimensional arrays it is given. -/
theorem C108_violated (S : Source G) (hp : S.pairs ≠ []) (c2f : ℕ → List ℕ) (fm : List ℕ) (s : State G)
    (st : (ℕ → ℝ) × (ℕ → ℝ)) : ∃ e, (write 2 S c2f fm s st).1 = .error e := by
  cases hS : S.pairs with
  | nil => exact absurd hS hp
  | cons p l =>
    simp only [write, hS, collect, pairForces]
    by_cases hm : p.material.rows = 0 ∨ p.material.cols < 2
    · rw [if_pos hm]; exact ⟨_, rfl⟩
    · rw [if_neg hm]; exact ⟨_, rfl⟩

theorem flat_eq {m : Mat} {nq d e q a : ℕ} (hc : m.cols = nq * d) (hq : q < nq) (ha : a < d) :
    flat m ((e * nq + q) * d + a) = m.v e (q * d + a) := by
  have e1 : (e * nq + q) * d + a = (q * d + a) + e * (nq * d) := by ring
  have hlt : q * d + a < nq * d := radix_lt hq ha
  have h1 : ((e * nq + q) * d + a) / m.cols = e := by
    rw [hc, e1, Nat.add_mul_div_right _ _ (by omega), Nat.div_eq_of_lt hlt, Nat.zero_add]
  have h2 : ((e * nq + q) * d + a) % m.cols = q * d + a := by
    rw [hc, e1, Nat.add_mul_mod_self_right, Nat.mod_eq_of_lt hlt]
  rw [flat, h1, h2]

/-- C108, for the program with flat arrays in the call of `compute_contact_forces`: if every pair has a facet on
the process, none of them a ghost, then `write` stores at point `q` of every contact facet the normal and the
tangential part of the traction at that facet.  A facet of several pairs keeps the values of the last of them.
Values of other facets stay as they are.  `fm` is the numbering of the facets in the facet mesh.
Missing: the call as it is written (see `C108_violated`), ghosts and processes without a facet. -/
theorem C108_values_partial (S : Source G) (hd : 0 < S.gdim) (nq : ℕ) (c2f : ℕ → List ℕ) (fm : List ℕ)
    (hfm : fm.Nodup) (s : State G) (st : (ℕ → ℝ) × (ℕ → ℝ)) (hne : S.pairs ≠ [])
    (hpair : ∀ p ∈ S.pairs, p.entities ≠ [] ∧ (facetList c2f p.entities).Nodup
      ∧ (∀ f ∈ facetList c2f p.entities, f ∈ fm) ∧ 0 < p.material.rows ∧ 2 ≤ p.material.cols)
    (hnx : ∀ i p, S.pairs[i]? = some p → ∀ g,
      (S.nx g i).rows = p.entities.length ∧ (S.nx g i).cols = nq * S.gdim)
    (hny : ∀ i p, S.pairs[i]? = some p → ∀ g g',
      (S.ny g g' i).rows = p.entities.length ∧ (S.ny g g' i).cols = nq * S.gdim) :
    ∃ pn pt, (write 1 S c2f fm s st).1 = .ok (pn, pt)
      ∧ (∀ j p, S.pairs[j]? = some p → ∀ e f, (facetList c2f p.entities)[e]? = some f → ∀ k, fm[k]? = some f →
          (∀ j' p', j < j' → S.pairs[j']? = some p' → f ∉ facetList c2f p'.entities) → ∀ q < nq,
          pn (k * nq + q)
              = Spec.normalPart S.gdim (tractionAt S s nq j e q p) (directionAt S s j e q p)
          ∧ pt (k * nq + q)
              = Spec.tangentialSize S.gdim (tractionAt S s nq j e q p) (directionAt S s j e q p))
      ∧ ∀ k f, fm[k]? = some f → (∀ p ∈ S.pairs, f ∉ facetList c2f p.entities) → ∀ q < nq,
          pn (k * nq + q) = st.1 (k * nq + q) ∧ pt (k * nq + q) = st.2 (k * nq + q) := by
  have hidx : ∀ f ∈ fm, ∃ k, fm[k]? = some f := fun f hf => List.getElem?_of_mem hf
  -- the forces of a pair
  obtain ⟨sig, hsig⟩ : ∃ sig : ℕ → PairIn → Arr ℕ, ∀ i p, sig i p =
      Elasticity.contactForces p.gradU (flat (S.nx (S.reset s.geom) i))
        ((S.nx (S.reset s.geom) i).cols / S.gdim) p.entities.length S.gdim (p.material.v 0 0)
        (p.material.v 0 1) := ⟨_, fun _ _ => rfl⟩
  obtain ⟨P, hP⟩ : ∃ P : ℕ → PairIn → ℕ → ℝ, ∀ i p k, P i p k = ∑ j ∈ range S.gdim,
      sig i p (k * S.gdim + j) * flat (contactNormal S s i p) (k * S.gdim + j) := ⟨_, fun _ _ _ => rfl⟩
  obtain ⟨T, hT⟩ : ∃ T : ℕ → PairIn → ℕ → ℝ, ∀ i p k, T i p k = Real.sqrt (∑ j ∈ range S.gdim,
      (sig i p (k * S.gdim + j) - flat (contactNormal S s i p) (k * S.gdim + j) * P i p k) ^ 2) :=
    ⟨_, fun _ _ _ => rfl⟩
  have hcn : ∀ i p, S.pairs[i]? = some p → (contactNormal S s i p).rows = p.entities.length
      ∧ (contactNormal S s i p).cols = nq * S.gdim := by
    intro i p hp
    unfold contactNormal
    split
    · exact hnx i p hp _
    · exact hny i p hp _ _
  have hcol : ∀ i p, S.pairs[i]? = some p → (S.nx (S.reset s.geom) i).cols / S.gdim = nq := by
    intro i p hp
    rw [(hnx i p hp _).2, Nat.mul_div_cancel _ hd]
  have hforces := collect_ok (fun i p => pairForces 1 S (S.reset s.geom) (contactNormal S s i p) i p)
    (fun i p => (P i p, T i p)) S.pairs 0 (by
      intro k p hp
      rw [Nat.zero_add]
      have hm := hpair p (List.mem_of_getElem? hp)
      unfold pairForces
      dsimp only
      rw [if_neg (by omega)]
      simp only [contactForcesBinding, and_self, if_true, Except.bind, split]
      rw [if_pos (by rw [(hcn k p hp).1, (hcn k p hp).2, hcol k p hp]; ring)]
      congr 1
      refine Prod.ext (funext fun m => ?_) (funext fun m => ?_)
      · dsimp only
        rw [hP, hsig]
      · dsimp only
        simp only [hT, hP, hsig])
  -- the list the loop runs over
  obtain ⟨L, hL⟩ : ∃ L, L = S.pairs.zip ((S.pairs.zipIdx 0).map (fun p => (P p.2 p.1, T p.2 p.1))) := ⟨_, rfl⟩
  have hLget : ∀ j, L[j]? = (S.pairs[j]?).map (fun p => (p, (P j p, T j p))) := by
    intro j
    rw [hL, show S.pairs.zip ((S.pairs.zipIdx 0).map (fun p => (P p.2 p.1, T p.2 p.1)))
      = List.zipWith Prod.mk S.pairs ((S.pairs.zipIdx 0).map (fun p => (P p.2 p.1, T p.2 p.1))) from rfl,
      List.getElem?_zipWith, List.getElem?_map, List.getElem?_zipIdx]
    cases S.pairs[j]? <;> simp
  have hLmem : ∀ x ∈ L, ∃ j, S.pairs[j]? = some x.1 ∧ x = (x.1, (P j x.1, T j x.1)) := by
    intro x hx
    obtain ⟨j, hj⟩ := List.getElem?_of_mem hx
    rw [hLget j] at hj
    cases hp : S.pairs[j]? with
    | none => rw [hp] at hj; simp at hj
    | some p =>
      rw [hp] at hj
      simp only [Option.map_some, Option.some.injEq] at hj
      subst hj
      exact ⟨j, hp, rfl⟩
  have hLlen : L.length = S.pairs.length := by simp [hL]
  have hinj : ∀ p ∈ S.pairs, ∀ f ∈ facetList c2f p.entities, ∀ f' ∈ fm,
      (mshToFm fm f).toNat = (mshToFm fm f').toNat → f = f' := by
    intro p hp f hf f' hf' e
    obtain ⟨k, hk⟩ := hidx f ((hpair p hp).2.2.1 f hf)
    obtain ⟨k', hk'⟩ := hidx f' hf'
    rw [mshToFm_of hfm hk, mshToFm_of hfm hk'] at e
    simp only [Int.toNat_natCast] at e
    subst e
    rw [hk] at hk'
    exact Option.some.inj hk'
  obtain ⟨st', hst, hother, hval⟩ := storeLoop_ok (mshToFm fm) S.gdim nq (S.nx (S.reset s.geom)) c2f L 0 st
    (fun x hx => by
      obtain ⟨j, hj, -⟩ := hLmem x hx
      exact (hpair x.1 (List.mem_of_getElem? hj)).1)
    (fun k hk => by
      rw [Nat.zero_add]
      rw [hLlen] at hk
      exact hcol k _ (List.getElem?_eq_getElem hk))
    (fun x hx => by
      obtain ⟨j, hj, -⟩ := hLmem x hx
      have hm := List.mem_of_getElem? hj
      exact dofs_nodup _ _ _ (hpair x.1 hm).2.1 (fun f hf f' hf' e =>
        hinj x.1 hm f hf f' ((hpair x.1 hm).2.2.1 f' hf') e))
  have hwrite : (write 1 S c2f fm s st).1 = .ok st' := by
    simp only [write, hforces, ← hL]
    cases hLc : L with
    | nil =>
      rw [hLc] at hLlen
      exact absurd (List.length_eq_zero_iff.mp hLlen.symm) hne
    | cons x l =>
      obtain ⟨p, f⟩ := x
      obtain ⟨j, hj, -⟩ := hLmem (p, f) (by rw [hLc]; exact List.mem_cons_self)
      have hp := (hpair p (List.mem_of_getElem? hj)).1
      have hlen : p.entities.length ≠ 0 := fun h => hp (List.length_eq_zero_iff.mp h)
      simp only [store, if_neg hlen]
      obtain ⟨p0, hp0⟩ : ∃ p0, S.pairs[0]? = some p0 := by
        cases hS : S.pairs with
        | nil => exact absurd hS hne
        | cons a l => exact ⟨a, rfl⟩
      rw [hcol 0 p0 hp0, Nat.mul_div_cancel_left _ (Nat.pos_of_ne_zero hlen), ← hLc, hst]
      rfl
  -- a dof of a facet belongs to the facets of a pair if and only if the facet does
  have hdof : ∀ p ∈ S.pairs, ∀ k f, fm[k]? = some f → ∀ q < nq,
      k * nq + q ∈ dofs (mshToFm fm) nq (facetList c2f p.entities) → f ∈ facetList c2f p.entities := by
    intro p hp k f hk q hq hmem
    obtain ⟨f', hf', q', hq', e⟩ := (mem_dofs _ _ _ _).mp hmem
    have e1 := ((radix_inj hq hq').mp e).1
    have : f' = f := hinj p hp f' hf' f (List.mem_of_getElem? hk) (by
      rw [← e1, mshToFm_of hfm hk, Int.toNat_natCast])
    rw [← this]; exact hf'
  refine ⟨st'.1, st'.2, hwrite, ?_, ?_⟩
  · intro j p hp e f hf k hk hlast q hq
    have hm := List.mem_of_getElem? hp
    have he : e < p.entities.length := by
      have := (List.getElem?_eq_some_iff.mp hf).1
      simpa [facetList] using this
    have hget := dofs_getElem (mshToFm fm) nq _ e q f hq hf
    rw [mshToFm_of hfm hk, Int.toNat_natCast] at hget
    obtain ⟨h1, h2⟩ := hval j (p, (P j p, T j p)) (by rw [hLget j, hp]; rfl) (e * nq + q) (k * nq + q) hget (by
      intro j' x hjj hx hmem
      rw [hLget j'] at hx
      cases hp' : S.pairs[j']? with
      | none => rw [hp'] at hx; simp at hx
      | some p' =>
        rw [hp'] at hx
        simp only [Option.map_some, Option.some.injEq] at hx
        subst hx
        exact hlast j' p' hjj hp' (hdof p' (List.mem_of_getElem? hp') k f hk q hq hmem))
    have hs1 : ∀ a < S.gdim, sig j p ((e * nq + q) * S.gdim + a) = tractionAt S s nq j e q p a := by
      intro a ha
      rw [hsig, hcol j p hp, Elasticity.C57_slices _ _ _ _ _ _ _ _ _ _ he hq ha]
      unfold tractionAt Spec.traction
      refine sum_congr rfl (fun b hb => ?_)
      have h := flat_eq (e := e) (hnx j p hp (S.reset s.geom)).2 hq (mem_range.mp hb)
      dsimp only
      rw [h]
    have hs2 : ∀ a < S.gdim, flat (contactNormal S s j p) ((e * nq + q) * S.gdim + a)
        = directionAt S s j e q p a := by
      intro a ha
      rw [flat_eq (hcn j p hp).2 hq ha]
      unfold contactNormal directionAt
      split <;> rfl
    have hPn : P j p (e * nq + q)
        = Spec.normalPart S.gdim (tractionAt S s nq j e q p) (directionAt S s j e q p) := by
      rw [hP]
      refine sum_congr rfl (fun a ha => ?_)
      rw [hs1 a (mem_range.mp ha), hs2 a (mem_range.mp ha)]
    refine ⟨h1.trans hPn, h2.trans ?_⟩
    dsimp only
    rw [hT, Spec.tangentialSize]
    congr 1
    refine sum_congr rfl (fun a ha => ?_)
    rw [hs1 a (mem_range.mp ha), hs2 a (mem_range.mp ha), hPn, mul_comm (Spec.normalPart _ _ _)]
  · intro k f hk hno q hq
    exact hother _ (fun x hx hmem => by
      obtain ⟨j, hj, -⟩ := hLmem x hx
      have hm := List.mem_of_getElem? hj
      exact hno x.1 hm (hdof x.1 hm k f hk q hq hmem))

/-- For a unit direction the two stored numbers split the size of the traction. -/
theorem C108_split (d : ℕ) (t n : ℕ → ℝ) (hn : ∑ j ∈ range d, n j ^ 2 = 1) :
    Spec.normalPart d t n ^ 2 + Spec.tangentialSize d t n ^ 2 = ∑ j ∈ range d, t j ^ 2 := by
  rw [Spec.tangentialSize, Real.sq_sqrt (sum_nonneg fun _ _ => sq_nonneg _)]
  obtain ⟨c, hc⟩ : ∃ c, Spec.normalPart d t n = c := ⟨_, rfl⟩
  rw [hc]
  have e : ∀ j, (t j - c * n j) ^ 2 = t j ^ 2 - 2 * c * (t j * n j) + c ^ 2 * n j ^ 2 := by intro j; ring
  simp only [e, sum_add_distrib, sum_sub_distrib, ← mul_sum, hn]
  have hc' : ∑ j ∈ range d, t j * n j = c := hc
  rw [hc']
  ring

/-- `msh_to_fm` of a contact facet is its number in the facet mesh, which `create_submesh` makes from exactly
the facets of all pairs. -/
theorem C108_facets (c2f : ℕ → List ℕ) (pairs : List (List (ℕ × ℕ))) (fm : List ℕ)
    (hfm : fm.Perm (facets (pairs.map (facetList c2f)))) :
    fm.Nodup ∧ (∀ f, f ∈ fm ↔ ∃ es ∈ pairs, ∃ e ∈ es, f = (c2f e.1).getD e.2 0)
      ∧ ∀ k f : ℕ, fm[k]? = some f → mshToFm fm f = k := by
  have hnd : fm.Nodup := hfm.nodup_iff.mpr ((uniqueAdj_strict (stableSort_nat_sorted _)).imp (fun h => ne_of_lt h))
  refine ⟨hnd, fun f => ?_, fun k f h => mshToFm_of hnd h⟩
  rw [hfm.mem_iff, facets, mem_uniqueAdj, mem_stableSort, List.mem_flatten]
  constructor
  · rintro ⟨l, hl, hf⟩
    obtain ⟨es, hes, rfl⟩ := List.mem_map.mp hl
    obtain ⟨e, he, rfl⟩ := List.mem_map.mp hf
    exact ⟨es, hes, e, he, rfl⟩
  · rintro ⟨es, hes, e, he, rfl⟩
    exact ⟨_, List.mem_map_of_mem hes, List.mem_map_of_mem he⟩

/-- Two pairs, one facet each, two points, plane problem; facet 7 is number 1 of the facet mesh.  The body is
stretched in the first direction, the facet normal is the first unit vector. -/
def exSource : Source ℕ where
  gdim := 2
  pairs := [⟨[(4, 0)], true, fun m => if m % 4 = 0 then 1 else 0, ⟨1, 4, fun _ c => c + 1⟩⟩,
    ⟨[(5, 1)], false, fun m => if m % 4 = 1 then 1 else 0, ⟨1, 4, fun _ c => c + 1⟩⟩]
  nx := fun g _ => ⟨1, 4, fun _ c => if c % 2 = 0 then 1 else g⟩
  ny := fun _ g _ => ⟨1, 4, fun _ c => if c % 2 = 0 then -1 else g⟩
  reset := fun _ => 0

/-- Cell 4 has the facets 7, 8 and cell 5 the facets 8, 9. -/
def exC2f : ℕ → List ℕ := fun c => [c + 3, c + 4]

/-- C108 has content: the hypotheses hold for `exSource`, and the normal traction stored for point 1 of facet 7
is minus `2 μ + λ`. -/
example (s : State ℕ) (hs : s.geom = 0) (st : (ℕ → ℝ) × (ℕ → ℝ)) :
    ∃ pn pt, (write 1 exSource exC2f [9, 7] s st).1 = .ok (pn, pt) ∧ pn 3 = -4 := by
  obtain ⟨pn, pt, h1, h2, -⟩ := C108_values_partial exSource (by simp [exSource]) 2 exC2f [9, 7] (by simp) s st
    (by simp [exSource])
    (by
      intro p hp
      simp only [exSource, List.mem_cons, List.not_mem_nil, or_false] at hp
      rcases hp with rfl | rfl <;> simp [facetList, exC2f])
    (by
      intro i p hp g
      rcases i with _ | _ | i <;> simp [exSource] at hp ⊢ <;> subst hp <;> rfl)
    (by
      intro i p hp g g'
      rcases i with _ | _ | i <;> simp [exSource] at hp ⊢ <;> subst hp <;> rfl)
  refine ⟨pn, pt, h1, ?_⟩
  have := (h2 0 _ rfl 0 7 (by simp [facetList, exC2f]) 1 rfl (by
    intro j' p' hj hp'
    rcases j' with _ | _ | j'
    · omega
    · simp [exSource] at hp'; subst hp'; simp [facetList, exC2f]
    · simp [exSource] at hp') 1 (by norm_num)).1
  rw [show 1 * 2 + 1 = 3 from rfl] at this
  rw [this]
  simp [-Finset.sum_boole, Spec.normalPart, tractionAt, directionAt, exSource, Spec.traction, Spec.stress, Spec.strain,
    sum_range_succ, hs]
  norm_num

/-! ### C109 -/

/-- Writing output, whether it raises or not, leaves coefficients, kernels, parameters and distance maps as they
are, and a following `update_contact_detection` has the result it has without the output.  `move` is
`update_submesh_geometry`, which places the submesh whatever its position was.
Missing: the geometry of the contact submesh (see `C109_violated`). -/
theorem C109_detection_partial (ndim : ℕ) (S : Source G) (c2f : ℕ → List ℕ) (fm : List ℕ) (s : State G)
    (st : (ℕ → ℝ) × (ℕ → ℝ)) (T : Static G) (move : G → G) (hmove : ∀ g, move (S.reset g) = move g)
    (gradU : ℕ → Mat) :
    (∃ g, (write ndim S c2f fm s st).2 = { s with geom := g })
    ∧ updateDetection T move gradU (write ndim S c2f fm s st).2 = updateDetection T move gradU s := by
  have h : (write ndim S c2f fm s st).2 = { s with geom := S.reset s.geom } := by
    unfold write
    dsimp only
    split <;> rfl
  refine ⟨⟨_, h⟩, ?_⟩
  rw [h]
  simp only [updateDetection, hmove]

/-- One pair, one facet, one point, one dimension; a geometry is a position, the gap its value. -/
def exT : Static ℝ where
  numPairs := 1
  nq := 1
  gdim := 1
  nd := 1
  bs := 1
  raytracing := fun _ => true
  entities := fun _ => 1
  localFacets := fun _ => 1
  gap := fun g _ => ⟨1, 1, fun _ _ => g⟩
  nx := fun _ _ => ⟨1, 1, fun _ _ => 1⟩
  ny := fun _ _ => ⟨1, 1, fun _ _ => 1⟩
  test := fun _ _ => ⟨1, 1, fun _ _ => 1⟩

/-- Material parameters and cell size. -/
def exA : GenArgs ℝ where
  law := .frictionless
  mu := some (fun _ => ⟨1, 1, fun _ _ => 1⟩)
  lam := some (fun _ => ⟨1, 1, fun _ _ => 2⟩)
  fric := none
  u := none
  du := none
  h := fun _ => ⟨1, 1, fun _ _ => 3⟩
  gamma := 10
  theta := 1

/-- The same object as the writer sees it. -/
def exW : Source ℝ where
  gdim := 1
  pairs := [⟨[(0, 0)], true, fun _ => 0, ⟨1, 2, fun _ _ => 1⟩⟩]
  nx := exT.nx
  ny := fun _ => exT.ny
  reset := fun _ => 0

/-- C109 does not hold: after contact detection at displacement 1, `generate_contact_data` packs the gap of the
displaced bodies; with output in between it packs the gap of the undeformed bodies. -/
theorem C109_violated :
    ∃ s : State ℝ, s = history exT [.generate exA, .updateDetection (fun _ => 1) (fun _ => zeros 1 1)] (init exT 0)
      ∧ ∃ cs cs', (after (generate exT exA s)).coeffs = some cs
        ∧ (after (generate exT exA (write 2 exW exC2f [3] s (fun _ => 0, fun _ => 0)).2)).coeffs = some cs'
        ∧ (cs 0).v 0 4 = 1 ∧ (cs' 0).v 0 4 = 0 := by
  refine ⟨_, rfl, ?_⟩
  simp [history, after, call, generate, retrieve, exA, exT, exW, fill, forRange, ContactProblem.forIn, List.range_succ, genScalars,
    createDistanceMap, createDistanceMaps, setCol, assignCol, init, kernels, maxLinks, coefficientsSize, zeros,
    genGeometry, packNormals, setCoeffs, assign, neg, packGradU, updateDetection, saveNormals, withNumQ, slice,
    repack, write, collect, pairForces, contactForcesBinding, Except.bind]

/-! ### C110 -/

theorem detectAll_stored (X : Packing.GeomData) (nq gdim : ℕ) (off : ℕ → ℕ) (phi : ℕ → ℕ → ℝ)
    (facets : ℕ → List (ℕ × ℕ)) (pairs : List (ℕ × ℕ)) (st : Stored) (sf : ℕ) :
    (sf ∈ pairs.map Prod.fst → ∃ a, detectAll X nq gdim off phi facets pairs st sf
      = some (Packing.physicalPoints X nq gdim off phi (facets sf) a))
    ∧ (sf ∉ pairs.map Prod.fst → detectAll X nq gdim off phi facets pairs st sf = st sf) := by
  induction pairs generalizing st with
  | nil => simp [detectAll]
  | cons p l ih =>
    have hstep : detectAll X nq gdim off phi facets (p :: l) st
        = detectAll X nq gdim off phi facets l (createQPhys X nq gdim off phi facets p.1 st) := rfl
    rw [hstep]
    obtain ⟨h1, h2⟩ := ih (createQPhys X nq gdim off phi facets p.1 st)
    by_cases hl : sf ∈ l.map Prod.fst
    · exact ⟨fun _ => h1 hl, fun hn => absurd (List.mem_cons_of_mem _ hl) hn⟩
    · refine ⟨fun hm => ?_, fun hn => ?_⟩
      · rw [List.map_cons, List.mem_cons] at hm
        have hp : sf = p.1 := hm.resolve_right hl
        rw [h2 hl]
        subst hp
        exact ⟨_, by rw [createQPhys, Function.update_self]⟩
      · rw [h2 hl, createQPhys, Function.update_of_ne]
        rintro rfl
        exact hn List.mem_cons_self

/-- C110, with the index of a surface in place of the index of a pair: after contact detection, entry `(q, k)` of
`qp_phys(surface, e)` is component `k` of quadrature point `q` of the `e`-th facet of the surface, in the current
position of the contact submesh, for every surface that is the quadrature surface of some pair.
Missing: the documented index (see `C110_violated`). -/
theorem C110_surface_partial (X : Packing.GeomData) (nq gdim : ℕ) (off : ℕ → ℕ) (phi : ℕ → ℕ → ℝ)
    (facets : ℕ → List (ℕ × ℕ)) (pairs : List (ℕ × ℕ)) (st : Stored) (i sf opp : ℕ)
    (hi : pairs[i]? = some (sf, opp)) (e q k : ℕ) (he : e < (facets sf).length) (hq : q < nq) (hk : k < gdim) :
    qpPhys nq gdim (detectAll X nq gdim off phi facets pairs st) sf e q k =
      some (∑ j ∈ range X.nx, phi (off (facets sf)[e].2 + q) j * X.x (3 * X.xdof (facets sf)[e].1 j + k)) := by
  obtain ⟨a, ha⟩ := (detectAll_stored X nq gdim off phi facets pairs st sf).1
    (List.mem_map.mpr ⟨_, List.mem_of_getElem? hi, rfl⟩)
  rw [qpPhys, ha, Option.map_some,
    Packing.C30_quadrature_points X nq gdim off phi (facets sf) a e q k he hq hk]

/-- C110 does not hold: with the pairs `(1, 0)` and `(0, 1)` the points returned for pair 0 are those of the
quadrature surface of pair 1; with the single pair `(1, 0)` there are no points for pair 0 at all. -/
theorem C110_violated (X : Packing.GeomData) (nq gdim : ℕ) (off : ℕ → ℕ) (phi : ℕ → ℕ → ℝ)
    (facets : ℕ → List (ℕ × ℕ)) (e q k : ℕ) (he : e < (facets 0).length) (hq : q < nq) (hk : k < gdim) :
    qpPhys nq gdim (detectAll X nq gdim off phi facets [(1, 0), (0, 1)] (fun _ => none)) 0 e q k =
      some (∑ j ∈ range X.nx, phi (off (facets 0)[e].2 + q) j * X.x (3 * X.xdof (facets 0)[e].1 j + k))
    ∧ qpPhys nq gdim (detectAll X nq gdim off phi facets [(1, 0)] (fun _ => none)) 0 e q k = none := by
  refine ⟨C110_surface_partial X nq gdim off phi facets _ _ 1 0 1 rfl e q k he hq hk, ?_⟩
  rw [qpPhys, (detectAll_stored X nq gdim off phi facets [(1, 0)] (fun _ => none) 0).2 (by simp)]
  rfl

/-- C110 has content: two surfaces in different places. -/
example : qpPhys 1 1 (detectAll ⟨1, fun m => m, fun c _ => c⟩ 1 1 (fun _ => 0) (fun _ _ => 1)
    (fun sf => [(sf, 0)]) [(1, 0), (0, 1)] (fun _ => none)) 0 0 0 0 = some 0
    ∧ qpPhys 1 1 (detectAll ⟨1, fun m => m, fun c _ => c⟩ 1 1 (fun _ => 0) (fun _ _ => 1)
    (fun sf => [(sf, 0)]) [(1, 0), (0, 1)] (fun _ => none)) 1 0 0 0 = some 3 := by
  constructor
  · rw [C110_surface_partial _ _ _ _ _ _ _ _ 1 0 1 rfl 0 0 0 (by simp) (by simp) (by simp)]
    simp
  · rw [C110_surface_partial _ _ _ _ _ _ _ _ 0 1 0 rfl 0 0 0 (by simp) (by simp) (by simp)]
    simp

/-! ### C111 -/

/-- The file is written for the geometry in which exactly the chosen component of the nodes of the contact facets
of every pair has the chosen value (of the last pair a node belongs to); afterwards the geometry is as before.
`plane j` is the entry of `projection_coordinates` of pair `j`. -/
theorem C111_geometry (N : ℕ) (fm : List ℕ) (hfm : fm.Nodup) (nodes : ℕ → List ℕ)
    (pairs : List (List ℕ × ℕ × ℝ)) (hfl : ∀ p ∈ pairs, ∀ f ∈ p.1, f ∈ fm) (x : ℕ → ℕ → ℝ) :
    (∀ n < N, ∀ c < 3, (writeGeometry N (mshToFm fm) nodes pairs x).2 n c = x n c)
    ∧ ∀ n c : ℕ, (∀ (j : ℕ) fl v, pairs[j]? = some (fl, c, v) →
          (∃ (k : ℕ) (f : ℕ), f ∈ fl ∧ fm[k]? = some f ∧ n ∈ nodes k) →
          (∀ (j' : ℕ) fl' v', j < j' → pairs[j']? = some (fl', c, v') →
            ∀ (k : ℕ) (f : ℕ), f ∈ fl' → fm[k]? = some f → n ∉ nodes k) →
          (writeGeometry N (mshToFm fm) nodes pairs x).1 n c = v)
      ∧ ((∀ (j : ℕ) fl v, pairs[j]? = some (fl, c, v) →
            ∀ (k : ℕ) (f : ℕ), f ∈ fl → fm[k]? = some f → n ∉ nodes k) →
          (writeGeometry N (mshToFm fm) nodes pairs x).1 n c = x n c) := by
  refine ⟨fun n hn c hc => if_pos ⟨hn, hc⟩, fun n c => ?_⟩
  have hmem : ∀ p ∈ pairs, ∀ n, n ∈ p.1.flatMap (fun f => nodes (mshToFm fm f).toNat) ↔
      ∃ k f, f ∈ p.1 ∧ fm[k]? = some f ∧ n ∈ nodes k := by
    intro p hp n
    rw [List.mem_flatMap]
    constructor
    · rintro ⟨f, hf, hn⟩
      obtain ⟨k, hk⟩ := List.getElem?_of_mem (hfl p hp f hf)
      rw [mshToFm_of hfm hk, Int.toNat_natCast] at hn
      exact ⟨k, f, hf, hk, hn⟩
    · rintro ⟨k, f, hf, hk, hn⟩
      exact ⟨f, hf, by rw [mshToFm_of hfm hk, Int.toNat_natCast]; exact hn⟩
  have key : ∀ (pairs : List (List ℕ × ℕ × ℝ)) (hmem : ∀ p ∈ pairs, ∀ n,
      n ∈ p.1.flatMap (fun f => nodes (mshToFm fm f).toNat) ↔
        ∃ k f, f ∈ p.1 ∧ fm[k]? = some f ∧ n ∈ nodes k) (x : ℕ → ℕ → ℝ),
      (∀ (j : ℕ) fl v, pairs[j]? = some (fl, c, v) → (∃ k f, f ∈ fl ∧ fm[k]? = some f ∧ n ∈ nodes k) →
          (∀ (j' : ℕ) fl' v', j < j' → pairs[j']? = some (fl', c, v') →
            ∀ k f, f ∈ fl' → fm[k]? = some f → n ∉ nodes k) →
          project (mshToFm fm) nodes pairs x n c = v)
      ∧ ((∀ (j : ℕ) fl v, pairs[j]? = some (fl, c, v) → ∀ k f, f ∈ fl → fm[k]? = some f → n ∉ nodes k) →
          project (mshToFm fm) nodes pairs x n c = x n c) := by
    intro pairs
    induction pairs with
    | nil => exact fun _ x => ⟨fun j fl v h => by simp at h, fun _ => rfl⟩
    | cons p l ih =>
      intro hmem x
      obtain ⟨fl, c', v⟩ := p
      have hstep : project (mshToFm fm) nodes ((fl, c', v) :: l) x = project (mshToFm fm) nodes l
          (fun n k => if n ∈ fl.flatMap (fun f => nodes (mshToFm fm f).toNat) ∧ k = c' then v else x n k) := rfl
      rw [hstep]
      obtain ⟨h1, h2⟩ := ih (fun p hp => hmem p (List.mem_cons_of_mem _ hp))
        (fun n k => if n ∈ fl.flatMap (fun f => nodes (mshToFm fm f).toNat) ∧ k = c' then v else x n k)
      have h0 := hmem _ List.mem_cons_self n
      refine ⟨fun j fl' v' hj hin hlast => ?_, fun hno => ?_⟩
      · cases j with
        | zero =>
          simp only [List.getElem?_cons_zero, Option.some.injEq, Prod.mk.injEq] at hj
          obtain ⟨rfl, rfl, rfl⟩ := hj
          rw [h2 (fun j' fl' v' hj' => hlast (j' + 1) fl' v' (by omega) (by simpa using hj'))]
          rw [if_pos ⟨h0.mpr hin, rfl⟩]
        | succ j =>
          exact h1 j fl' v' (by simpa using hj) hin (fun j' fl'' v'' hjj hj' =>
            hlast (j' + 1) fl'' v'' (by omega) (by simpa using hj'))
      · rw [h2 (fun j fl' v' hj => hno (j + 1) fl' v' (by simpa using hj))]
        rw [if_neg]
        rintro ⟨hin, rfl⟩
        obtain ⟨k, f, hf, hk, hn⟩ := h0.mp hin
        exact hno 0 fl v rfl k f hf hk hn
  exact key pairs hmem x

/-- C111 has content: the two nodes of facet 7 are moved to height 5. -/
example : (writeGeometry 4 (mshToFm [9, 7]) (fun k => [2 * k, 2 * k + 1]) [([7], 1, 5)] (fun _ _ => 0)).1 3 1 = 5
    ∧ (writeGeometry 4 (mshToFm [9, 7]) (fun k => [2 * k, 2 * k + 1]) [([7], 1, 5)] (fun _ _ => 0)).1 1 1 = 0 := by
  have h := (C111_geometry 4 [9, 7] (by simp) (fun k => [2 * k, 2 * k + 1]) [([7], 1, 5)] (by simp)
    (fun _ _ => 0)).2
  constructor
  · exact (h 3 1).1 0 [7] 5 rfl ⟨1, 7, by simp, rfl, by simp⟩ (by
      intro j' fl' v' hj hj'
      rcases j' with _ | j' <;> simp at hj hj')
  · refine (h 1 1).2 ?_
    intro j fl v hj k f hf hk
    rcases j with _ | j
    · simp only [List.getElem?_cons_zero, Option.some.injEq, Prod.mk.injEq] at hj
      obtain ⟨rfl, -, -⟩ := hj
      simp only [List.mem_singleton] at hf
      subst hf
      rcases k with _ | _ | k <;> simp at hk ⊢
    · simp at hj

end

end Verif.Output
