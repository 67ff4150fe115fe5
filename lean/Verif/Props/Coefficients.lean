import Verif.Lemmas.Coefficients
import Verif.Spec.Geometry
import Mathlib.Algebra.BigOperators.Ring.Finset
import Mathlib.Tactic.NormNum
import Mathlib.Tactic.IntervalCases

/-! Properties C35, C36, C42, C76. -/

namespace Verif.Coefficients

open Verif.Entities Verif.Ghosting Verif.Packing Finset

/-! ### specification -/

/-- `entities` is the flat form in which the packers expect the list `ents` of (cell, local entity):
cells only for cell integrals, alternating for exterior facets. -/
def Spec.EntityList (t : Integral) (entities : List ℕ) (ents : List (ℕ × ℕ)) : Prop :=
  (t = .cell ∧ entities = ents.map Prod.fst ∧ ∀ e ∈ ents, e.2 = 0) ∨
  (t = .exteriorFacet ∧ entities = flatten ents)

/-- Dof number `s` (blocks unrolled) of `cell`. -/
def Spec.dof (F : Func) (cell s : ℕ) : ℝ := F.data (F.dbs * F.dofs cell (s / F.dbs) + s % F.dbs)

/-- Component `comp` of a finite element function on `cell`, where the `nd` scalar basis functions
have the values `phi a l`: sum over basis functions times dofs. -/
def Spec.value (F : Func) (nd cell : ℕ) (phi : ℕ → ℕ → ℝ) (comp : ℕ) : ℝ :=
  ∑ a ∈ range nd, phi a (comp / F.bs) * Spec.dof F cell (a * F.bs + comp % F.bs)

/-- What the library guarantees about elements: the cell has as many unrolled dofs in dofmap and
element; only scalar elements are blocked. -/
structure Spec.Consistent (F : Func) (nd : ℕ) : Prop where
  bs : 0 < F.bs
  dbs : 0 < F.dbs
  dim : F.ndofs * F.dbs = nd * F.bs
  blocked : F.bs = 1 ∨ F.vs = 1

theorem entity_spec {t : Integral} {entities : List ℕ} {ents : List (ℕ × ℕ)}
    (h : Spec.EntityList t entities ents) :
    numActive t entities = .ok ents.length ∧
      ∀ i, (hi : i < ents.length) → entityOf t entities i = ents[i] := by
  rcases h with ⟨rfl, rfl, h0⟩ | ⟨rfl, rfl⟩
  · refine ⟨by simp [numActive], fun i hi => ?_⟩
    simp only [entityOf]
    rw [List.getD_eq_getElem _ _ (by simpa using hi)]
    have := h0 _ (List.getElem_mem hi)
    rw [List.getElem_map]
    exact Prod.ext rfl this.symm
  · refine ⟨by simp [numActive], fun i hi => ?_⟩
    simp only [entityOf]
    rw [flatten_getD_even _ _ _ hi, flatten_getD_odd _ _ _ hi]

theorem dof_eq (F : Func) (cell d b : ℕ) (hb : b < F.dbs) :
    Spec.dof F cell (d * F.dbs + b) = F.data (F.dbs * F.dofs cell d + b) := by
  have h0 : 0 < F.dbs := by omega
  unfold Spec.dof
  rw [Nat.mul_comm d, Nat.mul_add_div h0, Nat.div_eq_of_lt hb, Nat.add_zero, Nat.mul_add_mod,
    Nat.mod_eq_of_lt hb]

theorem packPlain_adds (F : Func) (nq : ℕ) (off : ℕ → ℕ) (ref : ℕ → ℕ → ℕ → ℝ) (cstride : ℕ)
    (i cell entity : ℕ) :
    Adds (packPlain F nq off ref cstride i cell entity) (fun m =>
      ∑ d ∈ range F.ndofs, ∑ b ∈ range F.dbs, ∑ q ∈ range nq, ∑ l ∈ range F.vs,
        if m = cstride * i + q * F.bs * F.vs + l + (d * F.dbs + b) % F.bs then
          ref (off entity + q) ((d * F.dbs + b) / F.bs) l * F.data (F.dbs * F.dofs cell d + b)
        else 0) :=
  Adds.loop _ (fun _ _ => Adds.loop _ (fun _ _ => Adds.loop _ (fun _ _ => Adds.loop _ (fun _ _ =>
    Adds.acc _ _))))

theorem packTransformed_adds (F : Func) (nq : ℕ) (off : ℕ → ℕ) (ref : ℕ → ℕ → ℕ → ℝ)
    (affine : Bool) (T : ℕ → ℕ → (ℕ → ℕ → ℝ) → ℕ → ℕ → ℝ) (valueSize cstride : ℕ)
    (i cell entity : ℕ) :
    Adds (packTransformed F nq off ref affine T valueSize cstride i cell entity) (fun m =>
      ∑ d ∈ range F.ndofs, ∑ q ∈ range nq, ∑ k ∈ range F.dbs, ∑ j ∈ range F.vs,
        if m = cstride * i + q * valueSize + k + j then
          T cell (if affine then off entity else off entity + q) (ref (off entity + q)) d j *
            F.data (F.dbs * F.dofs cell d + k)
        else 0) :=
  Adds.loop _ (fun _ _ => Adds.loop _ (fun _ _ => Adds.loop _ (fun _ _ => Adds.loop _ (fun _ _ =>
    Adds.acc _ _))))

/-- The sum over unrolled dofs, grouped by basis function and block component. -/
theorem sum_unroll {M : Type} [AddCommMonoid M] (F : Func) (nd cell : ℕ) (hF : Spec.Consistent F nd)
    (f : ℕ → ℕ → ℝ → M) :
    ∑ d ∈ range F.ndofs, ∑ b ∈ range F.dbs,
        f ((d * F.dbs + b) / F.bs) ((d * F.dbs + b) % F.bs) (F.data (F.dbs * F.dofs cell d + b)) =
      ∑ a ∈ range nd, ∑ r ∈ range F.bs, f a r (Spec.dof F cell (a * F.bs + r)) := by
  have h1 : ∑ d ∈ range F.ndofs, ∑ b ∈ range F.dbs,
      f ((d * F.dbs + b) / F.bs) ((d * F.dbs + b) % F.bs) (F.data (F.dbs * F.dofs cell d + b)) =
      ∑ d ∈ range F.ndofs, ∑ b ∈ range F.dbs,
        (fun s => f (s / F.bs) (s % F.bs) (Spec.dof F cell s)) (d * F.dbs + b) := by
    refine sum_congr rfl (fun d _ => sum_congr rfl (fun b hb => ?_))
    simp only [dof_eq F cell d b (mem_range.mp hb)]
  rw [h1, sum_mul_range F.ndofs F.dbs (fun s => f (s / F.bs) (s % F.bs) (Spec.dof F cell s)), hF.dim,
    ← sum_mul_range nd F.bs]
  refine sum_congr rfl (fun a _ => sum_congr rfl (fun r hr => ?_))
  have hr' := mem_range.mp hr
  rw [Nat.mul_comm a, Nat.mul_add_div hF.bs, Nat.div_eq_of_lt hr', Nat.add_zero, Nat.mul_add_mod,
    Nat.mod_eq_of_lt hr']

theorem sum_value (F : Func) (nd cell comp : ℕ) (hF : Spec.Consistent F nd) (hc : comp < F.bs * F.vs)
    (phi : ℕ → ℕ → ℝ) :
    ∑ a ∈ range nd, ∑ r ∈ range F.bs, ∑ l ∈ range F.vs,
      (if comp = l + r then phi a l * Spec.dof F cell (a * F.bs + r) else 0) =
      Spec.value F nd cell phi comp := by
  unfold Spec.value
  refine sum_congr rfl (fun a _ => ?_)
  exact sum_comp hF.blocked hc (fun r l => phi a l * Spec.dof F cell (a * F.bs + r))

/-! ### C35 -/

/-- C35: for cell and exterior facet integrals the packed coefficients are, at every entity,
quadrature point and component, the value of the function; the stride is (components × points).
With dof transformations the basis functions are the transformed ones (`T`), whose Jacobian does
not depend on the point for affine cells. -/
theorem C35_values (F : Func) (nd : ℕ) (hF : Spec.Consistent F nd) (t : Integral)
    (entities : List ℕ) (ents : List (ℕ × ℕ)) (he : Spec.EntityList t entities ents) (nq : ℕ)
    (off : ℕ → ℕ) (ref : ℕ → ℕ → ℕ → ℝ) (transforms affine : Bool)
    (T : ℕ → ℕ → (ℕ → ℕ → ℝ) → ℕ → ℕ → ℝ)
    (hT : transforms = true → F.dbs = F.bs)
    (haff : affine = true → ∀ cell e q U, T cell (off e + q) U = T cell (off e) U) :
    ∃ c, packCoefficient F t entities nq off ref transforms affine T = .ok (c, F.bs * F.vs * nq) ∧
      ∀ i, (hi : i < ents.length) → ∀ q, q < nq → ∀ comp, comp < F.bs * F.vs →
        c (F.bs * F.vs * nq * i + F.bs * F.vs * q + comp) =
          Spec.value F nd ents[i].1
            (if transforms then T ents[i].1 (off ents[i].2 + q) (ref (off ents[i].2 + q))
             else ref (off ents[i].2 + q)) comp := by
  obtain ⟨hn, hent⟩ := entity_spec he
  refine ⟨_, by simp only [packCoefficient, hn]; rfl, ?_⟩
  intro i0 hi q0 hq comp hc
  have had := Adds.loop ents.length (fun i _ => Adds.ite_fun (transforms = true)
    (packTransformed_adds F nq off ref affine T (F.bs * F.vs) (F.bs * F.vs * nq) i
      (entityOf t entities i).1 (entityOf t entities i).2)
    (packPlain_adds F nq off ref (F.bs * F.vs * nq) i
      (entityOf t entities i).1 (entityOf t entities i).2))
  have e := had (fun _ => 0) (F.bs * F.vs * nq * i0 + F.bs * F.vs * q0 + comp)
  simp only [zero_add] at e
  have hm : F.bs * F.vs * nq * i0 + F.bs * F.vs * q0 + comp =
      (i0 * nq + q0) * (F.bs * F.vs) + comp := by ring
  have hmp : ∀ i q l r, F.bs * F.vs * nq * i + q * F.bs * F.vs + l + r =
      (i * nq + q) * (F.bs * F.vs) + (l + r) := by intro i q l r; ring
  have hmt : ∀ i q l r, F.bs * F.vs * nq * i + q * (F.bs * F.vs) + l + r =
      (i * nq + q) * (F.bs * F.vs) + (r + l) := by intro i q l r; ring
  refine Eq.trans ?_ (e.trans ?_)
  · rfl
  simp only [hm, hmp, hmt]
  cases transforms with
  | false =>
    simp only [Bool.false_eq_true, if_false]
    rw [sum_eq_single_of_mem i0 (mem_range.mpr hi)]
    · rw [hent i0 hi, ← sum_value F nd ents[i0].1 comp hF hc,
        ← sum_unroll F nd ents[i0].1 hF (fun a r w => ∑ l ∈ range F.vs,
          if comp = l + r then ref (off ents[i0].2 + q0) a l * w else 0)]
      refine sum_congr rfl (fun d _ => sum_congr rfl (fun b _ => ?_))
      rw [sum_eq_single_of_mem q0 (mem_range.mpr hq)]
      · refine sum_congr rfl (fun l hl => ?_)
        have := radix3_inj (i := i0) (i' := i0) hq hc hq
          (comp_lt hF.blocked (mem_range.mp hl) (Nat.mod_lt (d * F.dbs + b) hF.bs))
        simp only [true_and] at this
        simp only [this]
      · intro q hq' hne
        refine sum_eq_zero (fun l hl => ?_)
        rw [if_neg]
        rw [radix3_inj hq hc (mem_range.mp hq')
          (comp_lt hF.blocked (mem_range.mp hl) (Nat.mod_lt (d * F.dbs + b) hF.bs))]
        intro h; exact hne h.2.1.symm
    · intro i hi' hne
      refine sum_eq_zero (fun d _ => sum_eq_zero (fun b _ => sum_eq_zero (fun q hq' =>
        sum_eq_zero (fun l hl => ?_))))
      rw [if_neg]
      rw [radix3_inj hq hc (mem_range.mp hq')
        (comp_lt hF.blocked (mem_range.mp hl) (Nat.mod_lt (d * F.dbs + b) hF.bs))]
      intro h; exact hne h.1.symm
  | true =>
    have hdb := hT rfl
    have hnd : F.ndofs = nd := by
      have := hF.dim
      rw [hdb] at this
      exact Nat.eq_of_mul_eq_mul_right hF.bs this
    simp only [if_true]
    have hpt : ∀ cell e q U, T cell (if affine then off e else off e + q) U =
        T cell (off e + q) U := by
      intro cell e q U
      by_cases h : affine = true
      · rw [if_pos h, haff h]
      · rw [if_neg h]
    simp only [hpt]
    rw [sum_eq_single_of_mem i0 (mem_range.mpr hi)]
    · rw [hent i0 hi, ← sum_value F nd ents[i0].1 comp hF hc, hnd]
      refine sum_congr rfl (fun d _ => ?_)
      rw [sum_eq_single_of_mem q0 (mem_range.mpr hq), hdb]
      · refine sum_congr rfl (fun r hr => sum_congr rfl (fun l hl => ?_))
        have := radix3_inj (i := i0) (i' := i0) hq hc hq
          (comp_lt hF.blocked (mem_range.mp hl) (mem_range.mp hr))
        simp only [true_and] at this
        have hd := dof_eq F ents[i0].1 d r (by rw [hdb]; exact mem_range.mp hr)
        rw [hdb] at hd
        simp only [this, hd]
      · intro q hq' hne
        refine sum_eq_zero (fun r hr => sum_eq_zero (fun l hl => ?_))
        rw [if_neg]
        rw [radix3_inj hq hc (mem_range.mp hq')
          (comp_lt hF.blocked (mem_range.mp hl) (by rw [← hdb]; exact mem_range.mp hr))]
        intro h; exact hne h.2.1.symm
    · intro i hi' hne
      refine sum_eq_zero (fun d _ => sum_eq_zero (fun q hq' => sum_eq_zero (fun r hr =>
        sum_eq_zero (fun l hl => ?_))))
      rw [if_neg]
      rw [radix3_inj hq hc (mem_range.mp hq')
        (comp_lt hF.blocked (mem_range.mp hl) (by rw [← hdb]; exact mem_range.mp hr))]
      intro h; exact hne h.1.symm

/-- C35: other integral types raise. -/
theorem C35_unsupported (F : Func) (t : Integral) (entities : List ℕ) (nq : ℕ)
    (off : ℕ → ℕ) (ref : ℕ → ℕ → ℕ → ℝ) (transforms affine : Bool)
    (T : ℕ → ℕ → (ℕ → ℕ → ℝ) → ℕ → ℕ → ℝ) (h1 : t ≠ .cell) (h2 : t ≠ .exteriorFacet) :
    packCoefficient F t entities nq off ref transforms affine T = .error .invalidArgument := by
  cases t <;> first | contradiction | rfl

/-- Two-component P1 triangle: hypotheses of C35 and C36 for two facets. -/
example : Spec.Consistent ⟨2, 2, 3, 1, fun c i => c + i, fun m => m⟩ 3 ∧
    Spec.EntityList .exteriorFacet [4, 1, 7, 2] [(4, 1), (7, 2)] ∧
    Spec.EntityList .cell [4, 7] [(4, 0), (7, 0)] :=
  ⟨⟨by decide, by decide, rfl, Or.inr rfl⟩, Or.inr ⟨rfl, rfl⟩,
    Or.inl ⟨rfl, rfl, by simp⟩⟩

/-! ### C36 -/

theorem packGradient_spec (F : Func) (nd : ℕ) (hF : Spec.Consistent F nd) (t : Integral)
    (entities : List ℕ) (ents : List (ℕ × ℕ)) (he : Spec.EntityList t entities ents)
    (nq tdim gdim : ℕ) (off : ℕ → ℕ) (dref : ℕ → ℕ → ℕ → ℕ → ℝ) (affine : Bool) (G : GeomData)
    (dphi : ℕ → ℕ → ℕ → ℝ) (inv : (ℕ → ℕ → ℝ) → ℕ → ℕ → ℝ)
    (haff : affine = true → ∀ e q, dphi (off e + q) = dphi (off e)) :
    ∃ c, packGradient F t entities nq tdim gdim off dref false affine G dphi inv =
        .ok (c, F.bs * F.vs * nq * gdim) ∧
      ∀ i, (hi : i < ents.length) → ∀ q, q < nq → ∀ comp, comp < F.bs * F.vs → ∀ j, j < gdim →
        c (((i * nq + q) * (F.bs * F.vs) + comp) * gdim + j) =
          ∑ k ∈ range tdim, inv (G.jac ents[i].1 (dphi (off ents[i].2 + q))) k j *
            Spec.value F nd ents[i].1 (dref (k + 1) (off ents[i].2 + q)) comp := by
  obtain ⟨hn, hent⟩ := entity_spec he
  refine ⟨_, by simp only [packGradient, hn]; rfl, ?_⟩
  intro i0 hi q0 hq comp hc j0 hj
  have had := Adds.loop ents.length (fun i _ => Adds.loop F.ndofs (fun d _ => Adds.loop F.dbs
    (fun b _ => Adds.loop nq (fun q _ => Adds.loop F.vs (fun l _ => Adds.loop gdim (fun j _ =>
      Adds.loop tdim (fun k _ => Adds.acc
        (F.bs * F.vs * nq * gdim * i + q * F.bs * F.vs * gdim +
          (l + (d * F.dbs + b) % F.bs) * gdim + j)
        (inv (G.jac (entityOf t entities i).1 (dphi (if affine = true then
            off (entityOf t entities i).2 else off (entityOf t entities i).2 + q))) k j *
          dref (k + 1) (off (entityOf t entities i).2 + q) ((d * F.dbs + b) / F.bs) l *
          F.data (F.dbs * F.dofs (entityOf t entities i).1 d + b)))))))))
  have e := had (fun _ => 0) (((i0 * nq + q0) * (F.bs * F.vs) + comp) * gdim + j0)
  simp only [zero_add] at e
  refine Eq.trans ?_ (e.trans ?_)
  · rfl
  have hpt : ∀ e q, dphi (if affine = true then off e else off e + q) = dphi (off e + q) := by
    intro e q
    by_cases h : affine = true
    · rw [if_pos h, haff h]
    · rw [if_neg h]
  have hm : ∀ i q w j, F.bs * F.vs * nq * gdim * i + q * F.bs * F.vs * gdim + w * gdim + j =
      ((i * nq + q) * (F.bs * F.vs) + w) * gdim + j := by intro i q w j; ring
  simp only [hm, hpt]
  have hinj : ∀ {i q w j}, q < nq → w < F.bs * F.vs → j < gdim →
      (((i0 * nq + q0) * (F.bs * F.vs) + comp) * gdim + j0 =
        ((i * nq + q) * (F.bs * F.vs) + w) * gdim + j ↔
        i0 = i ∧ q0 = q ∧ comp = w ∧ j0 = j) := by
    intro i q w j hq' hw hj'
    rw [radix_inj hj hj', radix3_inj hq hc hq' hw]
    tauto
  have hlt : ∀ {l s}, l ∈ range F.vs → l + s % F.bs < F.bs * F.vs := fun {l s} hl =>
    comp_lt hF.blocked (mem_range.mp hl) (Nat.mod_lt s hF.bs)
  rw [sum_eq_single_of_mem i0 (mem_range.mpr hi)]
  · rw [hent i0 hi]
    have key : ∀ d ∈ range F.ndofs, ∀ b ∈ range F.dbs,
        ∑ q ∈ range nq, ∑ l ∈ range F.vs, ∑ j ∈ range gdim, ∑ k ∈ range tdim,
          (if ((i0 * nq + q0) * (F.bs * F.vs) + comp) * gdim + j0 =
              ((i0 * nq + q) * (F.bs * F.vs) + (l + (d * F.dbs + b) % F.bs)) * gdim + j then
            inv (G.jac ents[i0].1 (dphi (off ents[i0].2 + q))) k j *
              dref (k + 1) (off ents[i0].2 + q) ((d * F.dbs + b) / F.bs) l *
              F.data (F.dbs * F.dofs ents[i0].1 d + b) else 0) =
        ∑ k ∈ range tdim, ∑ l ∈ range F.vs, if comp = l + (d * F.dbs + b) % F.bs then
            inv (G.jac ents[i0].1 (dphi (off ents[i0].2 + q0))) k j0 *
              (dref (k + 1) (off ents[i0].2 + q0) ((d * F.dbs + b) / F.bs) l *
              F.data (F.dbs * F.dofs ents[i0].1 d + b)) else 0 := by
      intro d _ b _
      rw [sum_eq_single_of_mem q0 (mem_range.mpr hq)]
      · rw [sum_comm (s := range tdim)]
        refine sum_congr rfl (fun l hl => ?_)
        rw [sum_eq_single_of_mem j0 (mem_range.mpr hj)]
        · refine sum_congr rfl (fun k _ => ?_)
          have := hinj (i := i0) hq (hlt (s := d * F.dbs + b) hl) hj
          simp only [true_and, and_true] at this
          simp only [this, mul_assoc]
        · intro j hj' hne
          refine sum_eq_zero (fun k _ => ?_)
          rw [if_neg]
          rw [hinj hq (hlt hl) (mem_range.mp hj')]
          intro h; exact hne h.2.2.2.symm
      · intro q hq' hne
        refine sum_eq_zero (fun l hl => sum_eq_zero (fun j hj' => sum_eq_zero (fun k _ => ?_)))
        rw [if_neg]
        rw [hinj (mem_range.mp hq') (hlt hl) (mem_range.mp hj')]
        intro h; exact hne h.2.1.symm
    rw [sum_congr rfl (fun d hd => sum_congr rfl (key d hd)),
      sum_unroll F nd ents[i0].1 hF (fun a r w => ∑ k ∈ range tdim, ∑ l ∈ range F.vs,
        if comp = l + r then inv (G.jac ents[i0].1 (dphi (off ents[i0].2 + q0))) k j0 *
          (dref (k + 1) (off ents[i0].2 + q0) a l * w) else 0)]
    have hsw : ∀ a ∈ range nd, ∑ r ∈ range F.bs, ∑ k ∈ range tdim, ∑ l ∈ range F.vs,
        (if comp = l + r then inv (G.jac ents[i0].1 (dphi (off ents[i0].2 + q0))) k j0 *
          (dref (k + 1) (off ents[i0].2 + q0) a l * Spec.dof F ents[i0].1 (a * F.bs + r)) else 0) =
        ∑ k ∈ range tdim, ∑ r ∈ range F.bs, ∑ l ∈ range F.vs,
        (if comp = l + r then inv (G.jac ents[i0].1 (dphi (off ents[i0].2 + q0))) k j0 *
          (dref (k + 1) (off ents[i0].2 + q0) a l * Spec.dof F ents[i0].1 (a * F.bs + r)) else 0) :=
      fun a _ => sum_comm
    rw [sum_congr rfl hsw, sum_comm]
    refine sum_congr rfl (fun k _ => ?_)
    rw [← sum_value F nd ents[i0].1 comp hF hc, mul_sum]
    refine sum_congr rfl (fun a _ => ?_)
    rw [mul_sum]
    refine sum_congr rfl (fun r _ => ?_)
    rw [mul_sum]
    refine sum_congr rfl (fun l _ => ?_)
    rw [mul_ite, mul_zero]
  · intro i hi' hne
    refine sum_eq_zero (fun d _ => sum_eq_zero (fun b _ => sum_eq_zero (fun q hq' =>
      sum_eq_zero (fun l hl => sum_eq_zero (fun j hj' => sum_eq_zero (fun k _ => ?_))))))
    rw [if_neg]
    rw [hinj (mem_range.mp hq') (hlt hl) (mem_range.mp hj')]
    intro h; exact hne h.1.symm

/-- C36: the packed gradient is, at every entity, point, component `comp` and direction `j`, the
`j`-th entry of `K^T ∇_ref`: the sum over reference directions of the inverse Jacobian at that point
times the reference derivative of the component. For affine cells the coordinate derivatives do not
depend on the point. -/
theorem C36_gradients (F : Func) (nd : ℕ) (hF : Spec.Consistent F nd) (t : Integral)
    (entities : List ℕ) (ents : List (ℕ × ℕ)) (he : Spec.EntityList t entities ents)
    (nq tdim gdim : ℕ) (off : ℕ → ℕ) (dref : ℕ → ℕ → ℕ → ℕ → ℝ) (affine : Bool) (G : GeomData)
    (dphi : ℕ → ℕ → ℕ → ℝ) (inv : (ℕ → ℕ → ℝ) → ℕ → ℕ → ℝ)
    (haff : affine = true → ∀ e q, dphi (off e + q) = dphi (off e)) :
    ∃ c, packGradient F t entities nq tdim gdim off dref false affine G dphi inv =
        .ok (c, F.bs * F.vs * nq * gdim) ∧
      ∀ i, (hi : i < ents.length) → ∀ q, q < nq → ∀ comp, comp < F.bs * F.vs → ∀ j, j < gdim →
        c (((i * nq + q) * (F.bs * F.vs) + comp) * gdim + j) =
          ∑ k ∈ range tdim, inv (Verif.Geometry.jacobian G.nx (fun n a => G.x (3 * G.xdof ents[i].1 n + a)) (fun b n => dphi (off ents[i].2 + q) (b + 1) n)) k j *
            Spec.value F nd ents[i].1 (dref (k + 1) (off ents[i].2 + q)) comp :=
  packGradient_spec F nd hF t entities ents he nq tdim gdim off dref affine G dphi inv haff

theorem packGradient_chain (F : Func) (nd : ℕ) (hF : Spec.Consistent F nd) (t : Integral)
    (entities : List ℕ) (ents : List (ℕ × ℕ)) (he : Spec.EntityList t entities ents)
    (nq tdim gdim : ℕ) (off : ℕ → ℕ) (dref : ℕ → ℕ → ℕ → ℕ → ℝ) (affine : Bool) (G : GeomData)
    (dphi : ℕ → ℕ → ℕ → ℝ) (inv : (ℕ → ℕ → ℝ) → ℕ → ℕ → ℝ)
    (haff : affine = true → ∀ e q, dphi (off e + q) = dphi (off e)) (c : Arr ℕ) (stride : ℕ)
    (hc : packGradient F t entities nq tdim gdim off dref false affine G dphi inv = .ok (c, stride))
    (i : ℕ) (hi : i < ents.length) (q : ℕ) (hq : q < nq) (comp : ℕ) (hcomp : comp < F.bs * F.vs)
    (hinv : ∀ k k', k < tdim → k' < tdim → ∑ j ∈ range gdim,
      inv (G.jac ents[i].1 (dphi (off ents[i].2 + q))) k j *
        G.jac ents[i].1 (dphi (off ents[i].2 + q)) j k' = if k = k' then 1 else 0)
    (k' : ℕ) (hk' : k' < tdim) :
    ∑ j ∈ range gdim, c (((i * nq + q) * (F.bs * F.vs) + comp) * gdim + j) *
        G.jac ents[i].1 (dphi (off ents[i].2 + q)) j k' =
      Spec.value F nd ents[i].1 (dref (k' + 1) (off ents[i].2 + q)) comp := by
  obtain ⟨c', hc', hv⟩ := packGradient_spec F nd hF t entities ents he nq tdim gdim off dref affine G
    dphi inv haff
  rw [hc] at hc'
  obtain ⟨rfl, -⟩ := Prod.mk.inj (Except.ok.inj hc')
  have : ∀ j ∈ range gdim, c (((i * nq + q) * (F.bs * F.vs) + comp) * gdim + j) *
      G.jac ents[i].1 (dphi (off ents[i].2 + q)) j k' =
      ∑ k ∈ range tdim, Spec.value F nd ents[i].1 (dref (k + 1) (off ents[i].2 + q)) comp *
        (inv (G.jac ents[i].1 (dphi (off ents[i].2 + q))) k j *
          G.jac ents[i].1 (dphi (off ents[i].2 + q)) j k') := by
    intro j hj
    rw [hv i hi q hq comp hcomp j (mem_range.mp hj), sum_mul]
    refine sum_congr rfl (fun k _ => by ring)
  rw [sum_congr rfl this, sum_comm]
  have : ∀ k ∈ range tdim, ∑ j ∈ range gdim,
      Spec.value F nd ents[i].1 (dref (k + 1) (off ents[i].2 + q)) comp *
        (inv (G.jac ents[i].1 (dphi (off ents[i].2 + q))) k j *
          G.jac ents[i].1 (dphi (off ents[i].2 + q)) j k') =
      if k = k' then Spec.value F nd ents[i].1 (dref (k + 1) (off ents[i].2 + q)) comp else 0 := by
    intro k hk
    rw [← mul_sum, hinv k k' (mem_range.mp hk) hk']
    by_cases h : k = k' <;> simp [h]
  rw [sum_congr rfl this]
  exact sum_pick' hk' (fun k => Spec.value F nd ents[i].1 (dref (k + 1) (off ents[i].2 + q)) comp)

/-- C36: on a cell with `K J = I` the packed gradient satisfies the chain rule: its product with
column `k` of the Jacobian is the reference derivative in direction `k`. -/
theorem C36_chain_rule (F : Func) (nd : ℕ) (hF : Spec.Consistent F nd) (t : Integral)
    (entities : List ℕ) (ents : List (ℕ × ℕ)) (he : Spec.EntityList t entities ents)
    (nq tdim gdim : ℕ) (off : ℕ → ℕ) (dref : ℕ → ℕ → ℕ → ℕ → ℝ) (affine : Bool) (G : GeomData)
    (dphi : ℕ → ℕ → ℕ → ℝ) (inv : (ℕ → ℕ → ℝ) → ℕ → ℕ → ℝ)
    (haff : affine = true → ∀ e q, dphi (off e + q) = dphi (off e)) (c : Arr ℕ) (stride : ℕ)
    (hc : packGradient F t entities nq tdim gdim off dref false affine G dphi inv = .ok (c, stride))
    (i : ℕ) (hi : i < ents.length) (q : ℕ) (hq : q < nq) (comp : ℕ) (hcomp : comp < F.bs * F.vs)
    (hinv : ∀ k k', k < tdim → k' < tdim → ∑ j ∈ range gdim,
      inv (Verif.Geometry.jacobian G.nx (fun n a => G.x (3 * G.xdof ents[i].1 n + a)) (fun b n => dphi (off ents[i].2 + q) (b + 1) n)) k j *
        Verif.Geometry.jacobian G.nx (fun n a => G.x (3 * G.xdof ents[i].1 n + a)) (fun b n => dphi (off ents[i].2 + q) (b + 1) n) j k' = if k = k' then 1 else 0)
    (k' : ℕ) (hk' : k' < tdim) :
    ∑ j ∈ range gdim, c (((i * nq + q) * (F.bs * F.vs) + comp) * gdim + j) *
        Verif.Geometry.jacobian G.nx (fun n a => G.x (3 * G.xdof ents[i].1 n + a)) (fun b n => dphi (off ents[i].2 + q) (b + 1) n) j k' =
      Spec.value F nd ents[i].1 (dref (k' + 1) (off ents[i].2 + q)) comp :=
  packGradient_chain F nd hF t entities ents he nq tdim gdim off dref affine G dphi inv haff c stride hc i hi q hq comp hcomp hinv k' hk'

/-- The reference triangle has Jacobian and inverse equal to the identity: the hypothesis of the
chain rule holds. -/
example : ∀ k k', k < 2 → k' < 2 → ∑ j ∈ range 2,
    (GeomData.jac ⟨3, fun m => if m = 3 ∨ m = 7 then 1 else 0, fun _ n => n⟩ 0
      (fun d n => if n = 0 then -1 else if n = d then 1 else 0)) k j *
    (GeomData.jac ⟨3, fun m => if m = 3 ∨ m = 7 then 1 else 0, fun _ n => n⟩ 0
      (fun d n => if n = 0 then -1 else if n = d then 1 else 0)) j k' = if k = k' then 1 else 0 := by
  intro k k' h h'
  interval_cases k <;> interval_cases k' <;> simp [GeomData.jac, sum_range_succ]

/-- C36: other integral types and elements with dof transformations raise. -/
theorem C36_unsupported (F : Func) (t : Integral) (entities : List ℕ) (nq tdim gdim : ℕ)
    (off : ℕ → ℕ) (dref : ℕ → ℕ → ℕ → ℕ → ℝ) (transforms affine : Bool) (G : GeomData)
    (dphi : ℕ → ℕ → ℕ → ℝ) (inv : (ℕ → ℕ → ℝ) → ℕ → ℕ → ℝ)
    (h : transforms = true ∨ (t ≠ .cell ∧ t ≠ .exteriorFacet)) :
    packGradient F t entities nq tdim gdim off dref transforms affine G dphi inv =
      .error .invalidArgument := by
  rcases h with rfl | ⟨h1, h2⟩
  · cases t <;> rfl
  · cases t <;> first | contradiction | rfl

/-! ### C42 -/

theorem entityRule_weights (tdim n : ℕ) (w : ℕ → List ℝ) (nv : ℕ → ℕ) (phi : ℕ → ℕ → ℕ → ℝ)
    (coords : ℕ → ℕ → ℕ → ℝ) :
    (entityRule tdim n w nv phi coords).weights = ((List.range n).map w).flatten ∧
    (entityRule tdim n w nv phi coords).points = ((List.range n).map (fun i =>
      (List.range (w i).length).flatMap (fun q => (List.range tdim).map (fun d =>
        ∑ v ∈ range (nv i), phi i q v * coords i v d)))).flatten := by
  simp only [entityRule]
  generalize hb : (fun i => (List.range (w i).length).flatMap (fun q => (List.range tdim).map (fun d =>
        ∑ v ∈ range (nv i), phi i q v * coords i v d))) = B
  have hb' : ∀ i, (List.range (w i).length).flatMap (fun q => (List.range tdim).map (fun d =>
        ∑ v ∈ range (nv i), phi i q v * coords i v d)) = B i := fun i => congrFun hb i
  simp only [hb']
  have : ∀ l : List ℕ, ∀ s : List ℝ × List ℝ,
      l.foldl (fun s i => (s.1 ++ B i, s.2 ++ w i)) s =
        (s.1 ++ (l.map B).flatten, s.2 ++ (l.map w).flatten) := by
    intro l
    induction l with
    | nil => intro s; simp
    | cons a l ih => intro s; simp [ih]
  rw [this]
  simp

theorem flatMap_row_getD (n t : ℕ) (f : ℕ → ℕ → ℝ) (q d : ℕ) (hq : q < n) (hd : d < t) :
    ((List.range n).flatMap (fun q => (List.range t).map (f q)))[q * t + d]? = some (f q d) := by
  induction n with
  | zero => omega
  | succ n ih =>
    rw [List.range_succ, List.flatMap_append]
    have hlen : ((List.range n).flatMap (fun q => (List.range t).map (f q))).length = n * t := by
      simp [List.length_flatMap]
    by_cases h : q < n
    · rw [List.getElem?_append_left (by rw [hlen]; exact radix_lt h hd)]
      exact ih h
    · have : q = n := by omega
      subst this
      rw [List.getElem?_append_right (by rw [hlen]; omega), hlen]
      simp [hd]

theorem flatMap_row_length (n t : ℕ) (f : ℕ → ℕ → ℝ) :
    ((List.range n).flatMap (fun q => (List.range t).map (f q))).length = n * t := by
  simp [List.length_flatMap]

/-- C42 (facets, edges, ...): for every entity `i`, `num_points(i)` is the number of points of its
quadrature rule, `weights(i)` are its weights and `points(i)` its points mapped to the reference
cell. -/
theorem C42_entity_slices (tdim n : ℕ) (w : ℕ → List ℝ) (nv : ℕ → ℕ) (phi : ℕ → ℕ → ℕ → ℝ)
    (coords : ℕ → ℕ → ℕ → ℝ) (i : ℕ) (hi : i < n) :
    let r := entityRule tdim n w nv phi coords
    r.numPoints i = (w i).length ∧ r.weightsOf i = w i ∧
    ∀ q d, q < (w i).length → d < tdim →
      r.pointsOf i q d = ∑ v ∈ range (nv i), phi i q v * coords i v d := by
  intro r
  have hoff : ∀ k, k ≤ n → r.offset.getD k 0 =
      (((List.range n).map (fun i => (w i).length)).take k).sum := by
    intro k hk
    have := prefixSums_getD 0 ((List.range n).map (fun i => (w i).length)) k (by simpa using hk)
    rw [zero_add] at this
    exact this
  have hstep : r.offset.getD (i + 1) 0 = r.offset.getD i 0 + (w i).length := by
    rw [hoff _ (by omega), hoff _ (by omega), List.take_add_one, List.sum_append]
    simp [hi]
  refine ⟨by simp only [QRule.numPoints]; omega, ?_, ?_⟩
  · have h1 : r.weights = ((List.range n).map w).flatten :=
      (entityRule_weights tdim n w nv phi coords).1
    have h2 : r.offset = prefixSums 0 (((List.range n).map w).map List.length) := by
      show prefixSums 0 _ = _
      rw [List.map_map]; rfl
    rw [QRule.weightsOf, h1, h2, links_flatten _ _ (by simpa using hi),
      List.getD_eq_getElem _ _ (by simpa using hi)]
    simp
  · intro q d hq hd
    have h1 : r.points = _ := (entityRule_weights tdim n w nv phi coords).2
    have ht : r.tdim = tdim := rfl
    generalize hb : (fun i => (List.range (w i).length).flatMap (fun q => (List.range tdim).map (fun d =>
        ∑ v ∈ range (nv i), phi i q v * coords i v d))) = B at h1
    have hBl : ∀ i, (B i).length = (w i).length * tdim := by
      intro i; rw [← hb]; exact flatMap_row_length _ _ _
    have hsplit : ∀ k, k ≤ n → (((List.range n).map B).take k).flatten.length =
        (((List.range n).map (fun i => (w i).length)).take k).sum * tdim := by
      intro k hk
      rw [← List.map_take, ← List.map_take, List.take_range, Nat.min_eq_left hk]
      clear hk
      induction k with
      | zero => simp
      | succ k ih => rw [List.range_succ]; simp [ih, hBl, Nat.add_mul]
    have hdec : (List.range n).map B = ((List.range n).map B).take i ++
        B i :: ((List.range n).map B).drop (i + 1) := by
      conv_lhs => rw [← List.take_append_drop i ((List.range n).map B)]
      rw [List.drop_eq_getElem_cons (by simpa using hi)]
      simp
    simp only [QRule.pointsOf, ht]
    rw [List.getD_eq_getElem?_getD, hoff i (by omega), h1, hdec, List.flatten_append,
      List.getElem?_append_right (by rw [hsplit i (by omega), Nat.add_mul]; omega),
      hsplit i (by omega), List.flatten_cons]
    have hfl : ∀ S : ℕ, (S + q) * tdim + d - S * tdim = q * tdim + d := by
      intro S; rw [Nat.add_mul]; omega
    rw [hfl, List.getElem?_append_left (by rw [hBl]; exact radix_lt hq hd), ← hb,
      flatMap_row_getD _ _ (fun q d => ∑ v ∈ range (nv i), phi i q v * coords i v d) q d hq hd]
    rfl

/-- C42: the slices cover all points exactly once, and there are `tdim` coordinates per weight. -/
theorem C42_entity_cover (tdim n : ℕ) (w : ℕ → List ℝ) (nv : ℕ → ℕ) (phi : ℕ → ℕ → ℕ → ℝ)
    (coords : ℕ → ℕ → ℕ → ℝ) :
    let r := entityRule tdim n w nv phi coords
    r.offset.getD 0 0 = 0 ∧ r.offset.getD n 0 = r.weights.length ∧
    r.points.length = r.weights.length * tdim ∧
    ∀ p, p < r.weights.length → ∃! i, i < n ∧ r.offset.getD i 0 ≤ p ∧ p < r.offset.getD (i + 1) 0 := by
  intro r
  obtain ⟨hw, hp⟩ := entityRule_weights tdim n w nv phi coords
  have hoff : ∀ k, k ≤ n → r.offset.getD k 0 =
      (((List.range n).map (fun i => (w i).length)).take k).sum := by
    intro k hk
    have := prefixSums_getD 0 ((List.range n).map (fun i => (w i).length)) k (by simpa using hk)
    rw [zero_add] at this
    exact this
  have hlast : r.offset.getD n 0 = r.weights.length := by
    rw [hoff n le_rfl, show r.weights = _ from hw, List.take_of_length_le (by simp)]
    simp [List.length_flatten, Function.comp_def]
  refine ⟨by rw [hoff 0 (by omega)]; simp, hlast, ?_, ?_⟩
  · rw [show r.points = _ from hp, show r.weights = _ from hw]
    simp only [List.length_flatten, List.map_map]
    clear hoff hlast
    induction n with
    | zero => simp
    | succ n ih =>
      obtain ⟨hw', hp'⟩ := entityRule_weights tdim n w nv phi coords
      have := ih hw' hp'
      rw [List.range_succ, List.map_append, List.map_append, List.sum_append, List.sum_append, this,
        Nat.add_mul]
      simp [flatMap_row_length]
  · intro p hp'
    have hmono : ∀ a b, a ≤ b → b ≤ n → r.offset.getD a 0 ≤ r.offset.getD b 0 := by
      intro a b hab hbn
      rw [hoff a (by omega), hoff b hbn]
      exact take_sum_mono _ hab
    have hex : ∀ k, k ≤ n → p < r.offset.getD k 0 →
        ∃ i, i < k ∧ r.offset.getD i 0 ≤ p ∧ p < r.offset.getD (i + 1) 0 := by
      intro k
      induction k with
      | zero => intro _ h; rw [hoff 0 (by omega)] at h; simp at h
      | succ k ih =>
        intro hk h
        by_cases h' : p < r.offset.getD k 0
        · obtain ⟨i, h1, h2⟩ := ih (by omega) h'
          exact ⟨i, by omega, h2⟩
        · exact ⟨k, by omega, by omega, h⟩
    obtain ⟨i, h1, h2, h3⟩ := hex n le_rfl (by rw [hlast]; exact hp')
    refine ⟨i, ⟨h1, h2, h3⟩, ?_⟩
    rintro j ⟨j1, j2, j3⟩
    rcases Nat.lt_trichotomy j i with h | h | h
    · have := hmono (j + 1) i (by omega) (by omega); omega
    · exact h
    · have := hmono (i + 1) j (by omega) (by omega); omega

/-- C42 (rule on the cell itself): the only entity has all points and weights. -/
theorem C42_cell (tdim : ℕ) (w : List ℝ) (qp : ℕ → ℕ → ℝ) :
    let r := cellRule tdim w qp
    r.numPoints 0 = w.length ∧ r.weightsOf 0 = w ∧ r.points.length = w.length * tdim ∧
    ∀ q d, q < w.length → d < tdim → r.pointsOf 0 q d = qp q d := by
  intro r
  refine ⟨by simp [r, cellRule, QRule.numPoints], by simp [r, cellRule, QRule.weightsOf, links],
    flatMap_row_length _ _ _, ?_⟩
  intro q d hq hd
  have := flatMap_row_getD w.length tdim qp q d hq hd
  simp only [QRule.pointsOf, r, cellRule, List.getD_cons_zero, Nat.zero_add]
  rw [List.getD_eq_getElem?_getD, this]
  rfl

/-- A prism-like rule with three entities of 2, 1 and 2 points. -/
example : (entityRule 2 3 (fun i => if i = 1 then [1] else [1 / 2, 1 / 2]) (fun _ => 2)
    (fun _ _ _ => 1 / 2) (fun i v d => i + v + d)).numPoints 1 = 1 :=
  (C42_entity_slices 2 3 _ _ _ _ 1 (by decide)).1

/-! ### C76 -/

/-- C76: a wrong number of points raises, mixed spaces raise. -/
theorem C76_raises (B : BasisIn) (a : Arr (ℕ × ℕ × ℕ × ℕ)) :
    (B.xSize / B.tdim ≠ B.cells.length → evaluateBasis B a = .error .invalidArgument) ∧
    (B.mixed = true → B.xSize ≠ 0 → evaluateBasis B a = .error .invalidArgument) := by
  unfold evaluateBasis
  constructor
  · intro h; rw [if_pos h]
  · intro h hx
    split_ifs <;> rfl

theorem evaluateBasis_spec (B : BasisIn) (a : Arr (ℕ × ℕ × ℕ × ℕ)) (hx : B.xSize / B.tdim = B.cells.length)
    (hne : B.xSize ≠ 0) (hmix : B.mixed = false) (hder : B.numDer ≤ 1) :
    ∃ r, evaluateBasis B a = .ok r ∧
      ∀ p, (hp : p < B.cells.length) → ∀ m n, m < B.nd → n < B.vs →
        (∀ cell : ℕ, B.cells[p] = cell →
          r (0, p, m, n) = B.T cell p (B.ref 0 p) m n ∧
          (B.numDer = 1 → ∀ k, k < B.gdim → r (k + 1, p, m, n) = ∑ j ∈ range B.tdim,
            B.inv (B.G.jac cell (B.dphi p)) j k * B.T cell p (B.ref (j + 1) p) m n)) ∧
        (B.cells[p] < 0 → ∀ k, r (k, p, m, n) = 0) := by
  refine ⟨loop B.cells.length B.point (fun _ => 0), by simp [evaluateBasis, hx, hne, hmix], ?_⟩
  intro p hp m n hm hn
  -- other points do not touch entries of point p
  have hother : ∀ (p' : ℕ) (b : Arr (ℕ × ℕ × ℕ × ℕ)) (k : ℕ), p' ≠ p →
      B.point p' b (k, p, m, n) = b (k, p, m, n) := by
    intro p' b k hne'
    unfold BasisIn.point
    dsimp only
    split_ifs
    · rfl
    · rw [(Adds.loop _ (fun k _ => Adds.loop _ (fun j _ => Adds.loop _ (fun m _ => Adds.loop _
        (fun n _ => Adds.acc _ _)))))]
      have hz : ∀ (f : ℕ → ℕ → ℕ → ℕ → ℝ), ∑ k' ∈ range (B.gdim * B.numDer),
          ∑ j ∈ range (B.numDer * B.tdim), ∑ m' ∈ range B.nd, ∑ n' ∈ range B.vs,
          (if (k, p, m, n) = (k' + 1, p', m', n') then f k' j m' n' else 0) = 0 := by
        intro f
        refine sum_eq_zero (fun k' _ => sum_eq_zero (fun j _ => sum_eq_zero (fun m' _ =>
          sum_eq_zero (fun n' _ => ?_))))
        rw [if_neg]
        simp only [Prod.mk.injEq]
        intro h; exact hne' h.2.1.symm
      beta_reduce
      rw [hz, add_zero]
      exact (Puts.loop _ (fun m _ => Puts.loop _ (fun n _ => Puts.put _ _))).frame (by
        rintro v ⟨m', -, n', -, h, -⟩
        simp only [Prod.mk.injEq] at h
        exact hne' h.2.1.symm) _
  have hzero : ∀ (N : ℕ) (b : Arr (ℕ × ℕ × ℕ × ℕ)) (k : ℕ), N ≤ p →
      loop N B.point b (k, p, m, n) = b (k, p, m, n) := by
    intro N b k hN
    induction N with
    | zero => rfl
    | succ N ih => rw [loop_succ, hother _ _ _ (by omega), ih (by omega)]
  have hval : ∀ (N k : ℕ), p < N → loop N B.point (fun _ => 0) (k, p, m, n) =
      B.point p (loop p B.point (fun _ => 0)) (k, p, m, n) := by
    intro N k hN
    induction N with
    | zero => omega
    | succ N ih =>
      rw [loop_succ]
      by_cases h : p = N
      · subst h; rfl
      · rw [hother _ _ _ (by omega), ih (by omega)]
  have hcell : B.cells.getD p (-1) = B.cells[p] := List.getD_eq_getElem _ _ hp
  constructor
  · intro cell hc
    have hpt : ∀ k, B.point p (loop p B.point (fun _ => 0)) (k, p, m, n) =
        (if k = 0 then B.T cell p (B.ref 0 p) m n else 0) +
        ∑ k' ∈ range (B.gdim * B.numDer), ∑ j ∈ range (B.numDer * B.tdim),
          (if k = k' + 1 then B.inv (B.G.jac cell (B.dphi p)) j k' *
            B.T cell p (B.ref (j + 1) p) m n else 0) := by
      intro k
      have hb0 := fun k => hzero p (fun _ => 0) k le_rfl
      generalize loop p B.point (fun _ => 0) = b0 at hb0
      unfold BasisIn.point
      dsimp only
      rw [hcell, hc, if_neg (by omega), Int.toNat_natCast]
      rw [(Adds.loop _ (fun k _ => Adds.loop _ (fun j _ => Adds.loop _ (fun m _ => Adds.loop _
        (fun n _ => Adds.acc _ _)))))]
      congr 1
      · have hput := Puts.loop B.nd (fun m _ => Puts.loop B.vs (fun n _ =>
          Puts.put (0, p, m, n) (B.T cell p (B.ref 0 p) m n)))
        by_cases hk : k = 0
        · subst hk
          rw [if_pos rfl]
          refine hput.value ⟨m, hm, n, hn, rfl, rfl⟩ ?_ _
          rintro v ⟨m', -, n', -, h, rfl⟩
          simp only [Prod.mk.injEq, true_and] at h
          rw [h.1, h.2]
        · rw [if_neg hk, hput.frame, hb0 k]
          rintro v ⟨m', -, n', -, h, rfl⟩
          simp only [Prod.mk.injEq] at h
          exact hk h.1
      · refine sum_congr rfl (fun k' _ => sum_congr rfl (fun j _ => ?_))
        rw [sum_eq_single_of_mem m (mem_range.mpr hm), sum_eq_single_of_mem n (mem_range.mpr hn)]
        · simp
        · intro n' _ hne'
          rw [if_neg]
          simp only [Prod.mk.injEq]
          intro h; exact hne' h.2.2.2.symm
        · intro m' _ hne'
          refine sum_eq_zero (fun n' _ => ?_)
          rw [if_neg]
          simp only [Prod.mk.injEq]
          intro h; exact hne' h.2.2.1.symm
    constructor
    · rw [hval _ _ hp, hpt, if_pos rfl]
      simp
    · intro h1 k hk
      rw [hval _ _ hp, hpt, if_neg (by omega), zero_add, h1, Nat.mul_one, Nat.one_mul,
        sum_eq_single_of_mem k (mem_range.mpr hk)]
      · simp
      · intro k' _ hne'
        refine sum_eq_zero (fun j _ => ?_)
        rw [if_neg (by omega)]
  · intro hneg k
    rw [hval _ _ hp]
    have hb0 := fun k => hzero p (fun _ => 0) k le_rfl
    generalize loop p B.point (fun _ => 0) = b0 at hb0
    unfold BasisIn.point
    rw [hcell]
    simp only [hneg, if_true]
    exact hb0 k

/-- C76: for every point with a cell the values are those of the (transformed) reference basis, the
derivative in direction `k` is `Σ_j K(j, k) ∂_j`, whatever the buffer held before; points with
negative cell give zero. -/
theorem C76_basis (B : BasisIn) (a : Arr (ℕ × ℕ × ℕ × ℕ)) (hx : B.xSize / B.tdim = B.cells.length)
    (hne : B.xSize ≠ 0) (hmix : B.mixed = false) (hder : B.numDer ≤ 1) :
    ∃ r, evaluateBasis B a = .ok r ∧
      ∀ p, (hp : p < B.cells.length) → ∀ m n, m < B.nd → n < B.vs →
        (∀ cell : ℕ, B.cells[p] = cell →
          r (0, p, m, n) = B.T cell p (B.ref 0 p) m n ∧
          (B.numDer = 1 → ∀ k, k < B.gdim → r (k + 1, p, m, n) = ∑ j ∈ range B.tdim,
            B.inv (Verif.Geometry.jacobian B.G.nx (fun n a => B.G.x (3 * B.G.xdof cell n + a)) (fun b n => B.dphi p (b + 1) n)) j k * B.T cell p (B.ref (j + 1) p) m n)) ∧
        (B.cells[p] < 0 → ∀ k, r (k, p, m, n) = 0) :=
  evaluateBasis_spec B a hx hne hmix hder

/-- Three points in two dimensions, the second without cell. -/
example : ∃ B : BasisIn, B.xSize / B.tdim = B.cells.length ∧ B.xSize ≠ 0 ∧ B.mixed = false ∧
    B.numDer = 1 ∧ B.cells = [4, -1, 0] :=
  ⟨⟨2, 2, 3, 1, false, 6, [4, -1, 0], 1, fun j p m _ => j + p + m, fun _ _ U => U,
    ⟨3, fun m => m, fun c n => c + n⟩, fun _ _ _ => 1, fun J => J⟩, rfl, by decide, rfl, rfl, rfl⟩

end Verif.Coefficients
