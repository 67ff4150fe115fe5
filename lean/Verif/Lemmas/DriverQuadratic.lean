import Verif.Lemmas.LocalSolve
import Verif.Lemmas.Quadratic
import Verif.Props.DriverLocal
import Verif.Props.PartitionMatrix

/-!
The equations of a load step near a solution, with friction (for C206).
-/

namespace Verif.ContactProblem

open Verif.Spec Verif.Packing Verif.Assembly Verif.Kernels Verif.Lemmas Finset

noncomputable section

variable {G : Type} {Y : System G}

/-! ### Euclidean norms of vectors -/

theorem norm2_norm (N : ℕ) (z : ℕ → ℝ) : norm2 N z = ‖(WithLp.toLp 2 (fun d : range N => z d) : EuclideanSpace ℝ (range N))‖ := by
  rw [EuclideanSpace.norm_eq, norm2, ← sum_coe_sort (range N) (fun d => z d ^ 2)]
  simp only [Real.norm_eq_abs, sq_abs]

theorem norm2_add_le (N : ℕ) (y z : ℕ → ℝ) : norm2 N (fun d => y d + z d) ≤ norm2 N y + norm2 N z := by
  rw [norm2_norm, norm2_norm, norm2_norm]
  have e : (WithLp.toLp 2 (fun d : range N => y d + z d) : EuclideanSpace ℝ (range N))
      = WithLp.toLp 2 (fun d : range N => y d) + WithLp.toLp 2 (fun d : range N => z d) := by
    ext d
    rfl
  rw [e]
  exact norm_add_le _ _

theorem norm2_same {N : ℕ} {y z : ℕ → ℝ} (h : ∀ d < N, |y d| = |z d|) : norm2 N y = norm2 N z := by
  rw [norm2, norm2]
  congr 1
  exact sum_congr rfl (fun d hd => by rw [← sq_abs, h d (mem_range.mp hd), sq_abs])

theorem norm2_le_of {N : ℕ} {z b : ℕ → ℝ} {r : ℝ} (hr : 0 ≤ r) (h : ∀ d < N, |z d| ≤ b d * r) :
    norm2 N z ≤ (∑ d ∈ range N, |b d|) * r := by
  have h1 : ∑ a ∈ range N, z a ^ 2 ≤ (∑ a ∈ range N, |z a|) ^ 2 := by
    have := sum_sq_le_sq_sum_of_nonneg (s := range N) (f := fun a => |z a|) (fun a _ => abs_nonneg _)
    simpa only [sq_abs] using this
  refine (Real.sqrt_le_sqrt h1).trans ?_
  rw [Real.sqrt_sq (sum_nonneg (fun _ _ => abs_nonneg _)), sum_mul]
  refine sum_le_sum (fun d hd => (h d (mem_range.mp hd)).trans ?_)
  exact mul_le_mul_of_nonneg_right (le_abs_self _) hr

/-! ### matrices with identity rows -/

section

variable {N : ℕ} {F : Finset ℕ} {J : ℕ × ℕ → ℝ} {m : ℝ}

/-- Rows outside `F` are rows of the identity, and the block of `F` is positive definite. -/
structure Block (N : ℕ) (F : Finset ℕ) (J : ℕ × ℕ → ℝ) (m : ℝ) : Prop where
  pos : 0 < m
  one : m ≤ 1
  sub : ∀ d ∈ F, d < N
  id : ∀ z : ℕ → ℝ, ∀ d < N, d ∉ F → ∑ k ∈ range N, J (d, k) * z k = z d
  col : ∀ d ∈ F, ∀ k < N, k ∉ F → J (d, k) = 0
  posdef : ∀ v : ℕ → ℝ, (∀ d, d ∉ F → v d = 0) →
    m * ∑ d ∈ F, v d ^ 2 ≤ ∑ d ∈ range N, ∑ c ∈ range N, v d * J (d, c) * v c

theorem Block.lower (h : Block N F J m) (z : ℕ → ℝ) : m * norm2 N z ≤ norm2 N (fun d => ∑ k ∈ range N, J (d, k) * z k) := by
  obtain ⟨r, hr⟩ : ∃ r : ℕ → ℝ, r = fun d => ∑ k ∈ range N, J (d, k) * z k := ⟨_, rfl⟩
  rw [← hr]
  have hsplit : ∀ f : ℕ → ℝ, ∑ d ∈ range N, f d = ∑ d ∈ F, f d + ∑ d ∈ range N \ F, f d := by
    intro f
    rw [add_comm, sum_sdiff (fun d hd => mem_range.mpr (h.sub d hd))]
  obtain ⟨v, hv⟩ : ∃ v : ℕ → ℝ, v = fun d => if d ∈ F then z d else 0 := ⟨_, rfl⟩
  have hvF : ∀ d ∈ F, v d = z d := fun d hd => by rw [hv]; exact if_pos hd
  have hv0 : ∀ d, d ∉ F → v d = 0 := fun d hd => by rw [hv]; exact if_neg hd
  have h1 := h.posdef v hv0
  have e1 : ∑ d ∈ range N, ∑ c ∈ range N, v d * J (d, c) * v c = ∑ d ∈ F, z d * r d := by
    rw [hsplit, sum_eq_zero (s := range N \ F) (fun d hd => sum_eq_zero (fun c _ => by rw [hv0 d (mem_sdiff.mp hd).2]; ring)), add_zero]
    refine sum_congr rfl (fun d hd => ?_)
    rw [hr, mul_sum]
    refine sum_congr rfl (fun c hc => ?_)
    rw [hvF d hd]
    by_cases hcF : c ∈ F
    · rw [hvF c hcF]; ring
    · rw [h.col d hd c (mem_range.mp hc) hcF]; ring
  rw [e1, sum_congr rfl (fun d hd => by rw [hvF d hd])] at h1
  have h2 : m ^ 2 * ∑ d ∈ F, z d ^ 2 ≤ ∑ d ∈ F, r d ^ 2 := by
    have h3 : 2 * m * ∑ d ∈ F, z d * r d ≤ m ^ 2 * ∑ d ∈ F, z d ^ 2 + ∑ d ∈ F, r d ^ 2 := by
      rw [mul_sum, mul_sum, ← sum_add_distrib]
      exact sum_le_sum (fun d _ => by nlinarith [sq_nonneg (m * z d - r d)])
    have h4 := mul_le_mul_of_nonneg_left h1 h.pos.le
    nlinarith
  have h5 : m ^ 2 * ∑ d ∈ range N \ F, z d ^ 2 ≤ ∑ d ∈ range N \ F, r d ^ 2 := by
    have e2 : ∑ d ∈ range N \ F, r d ^ 2 = ∑ d ∈ range N \ F, z d ^ 2 :=
      sum_congr rfl (fun d hd => by
        rw [hr]
        dsimp only
        rw [h.id z d (mem_range.mp (mem_sdiff.mp hd).1) (mem_sdiff.mp hd).2])
    rw [e2]
    have : m ^ 2 ≤ 1 := pow_le_one₀ h.pos.le h.one
    exact mul_le_of_le_one_left (sum_nonneg (fun _ _ => sq_nonneg _)) this
  have h6 : m ^ 2 * ∑ d ∈ range N, z d ^ 2 ≤ ∑ d ∈ range N, r d ^ 2 := by
    rw [hsplit, hsplit, mul_add]
    exact add_le_add h2 h5
  have h7 := Real.sqrt_le_sqrt h6
  rwa [Real.sqrt_mul (sq_nonneg _), Real.sqrt_sq h.pos.le] at h7

theorem Block.solvable (h : Block N F J m) (r : ℕ → ℝ) : ∃ z : ℕ → ℝ, ∀ d < N, ∑ k ∈ range N, J (d, k) * z k = r d := by
  obtain ⟨z, ⟨h1, h2⟩, -⟩ := posdef_solvable h.sub (fun d c => J (d, c)) (fun v hv ⟨d, hd⟩ => by
    refine lt_of_lt_of_le ?_ (h.posdef v hv)
    have hdF : d ∈ F := by
      by_contra hn
      exact hd (hv d hn)
    have h3 : v d ^ 2 ≤ ∑ d ∈ F, v d ^ 2 := single_le_sum (f := fun a => v a ^ 2) (fun a _ => sq_nonneg _) hdF
    have h4 : 0 < v d ^ 2 := by positivity
    exact mul_pos h.pos (h4.trans_le h3)) r r
  refine ⟨z, fun d hd => ?_⟩
  by_cases hdF : d ∈ F
  · exact h2 d hdF
  · rw [h.id z d hd hdF, h1 d hdF]

end

/-! ### the contact terms -/

theorem contactTangent_awayDir {t : Tracked G} {d : ℕ} (h : AwayFromContact Y t d) (law : Law) (gamma theta : ℝ) (u v : ℕ → ℝ) :
    contactTangent Y t cutSlope law gamma theta u (unit d) v = 0 := by
  unfold contactTangent
  refine sum_eq_zero (fun i hi => sum_eq_zero (fun e he => ?_))
  cases hf : (Y.facets i)[e]? with
  | none => rw [Option.elim_none]
  | some c =>
    obtain ⟨cell, f⟩ := c
    rw [Option.elim_some]
    refine sum_eq_zero (fun q hq => ?_)
    obtain ⟨h1, h2⟩ := h i (mem_range.mp hi) e (mem_range.mp he) cell f hf
    split
    · rename_i hl
      dsimp only
      rw [dForm_none _ law gamma theta _ _ (Or.inl ⟨fun a ha => ?_, fun a ha b _ => ?_⟩), mul_zero]
      · have e1 : valueAt Y cell f (unit d) q a = 0 := sum_eq_zero (fun k hk => by
          rw [unit, if_neg (h1 k (mem_range.mp hk) a ha), mul_zero])
        have e2 : oppositeAt Y t.cur i e (unit d) q a = 0 := sum_eq_zero (fun k hk => by
          rw [unit, if_neg (h2 q (mem_range.mp hq) hl k (mem_range.mp hk) a ha), mul_zero])
        rw [jumpAt, e1, e2, sub_zero]
      · exact sum_eq_zero (fun k hk => by rw [unit, if_neg (h1 k (mem_range.mp hk) a ha), mul_zero])
    · rfl

/-- The tangent depends on the dofs of the contact surfaces. -/
theorem tangent_same (hY : System.Valid Y) {N : ℕ} (hN : DofsBelow Y N) {u u' w w' : ℕ → ℝ} (h : ∀ d < N, u d = u' d)
    (hw : ∀ d < N, w d = w' d) (t : Tracked G) (law : Law) (gamma theta : ℝ) (v : ℕ → ℝ) :
    contactTangent Y t cutSlope law gamma theta u w v = contactTangent Y t cutSlope law gamma theta u' w' v := by
  unfold contactTangent
  refine sum_congr rfl (fun i hi => sum_congr rfl (fun e _ => ?_))
  cases hf : (Y.facets i)[e]? with
  | none => simp only [Option.elim_none]
  | some c =>
    obtain ⟨cell, f⟩ := c
    simp only [Option.elim_some]
    refine sum_congr rfl (fun q _ => ?_)
    split
    · rename_i hl
      congr 1
      have hi' := mem_range.mp hi
      exact (samePoint_refl _).dForm law gamma theta (fun a ha => jump_below hY hN h t.cur hi' hf hl ha)
        (fun a ha b _ => by rw [grad_below hN h hi' hf q ha b]) (fun a ha => jump_below hY hN hw t.cur hi' hf hl ha)
        (fun a ha b _ => by rw [grad_below hN hw hi' hf q ha b]) (fun _ _ => rfl) (fun _ _ _ _ => rfl)
    · rfl

section

variable {law : Law} {gamma theta : ℝ} {ops : List (Op G)} {g : G} {N : ℕ}

/-- The contact matrix, applied to `w` and tested with `v`. -/
theorem driver_tested (hY : System.Valid Y) (hops : ∀ op ∈ ops, OpShaped Y.static op)
    (hlaw : lastLaw ops none = some law)
    (h23 : law ≠ .frictionless → (Y.gdim = 2 ∨ Y.gdim = 3) ∧ UnitNormals Y ((Tracked.new g).history ops))
    (hconsts : lastConsts ops none = some (gamma, theta))
    (hc : ((Tracked.new g).history ops).created = true) (hN : DofsBelow Y N)
    {c : State G} (h : Reached Y ops g c) (x w v : ℕ → ℝ) :
    ∑ d ∈ range N, ∑ k ∈ range N, v d * contactMatrix Y (driverCoefficients Y x c) (d, k) * w k
      = contactTangent Y ((Tracked.new g).history ops) cutSlope law gamma theta x w v := by
  obtain ⟨us, rfl⟩ := h
  have hs := SameData.updates (Y := Y) ops us (Tracked.new g)
  have hcs : (history Y.static (ops ++ updates Y us) (init Y.static g)).coeffs ≠ none := by
    rcases C38_size (static_shaped hY) _ (updates_shaped hY hops us) g with ⟨h1, -⟩ | ⟨-, cs, h1, -⟩
    · rw [hs.created, hc] at h1; cases h1
    · rw [h1]; simp
  have hun : law ≠ .frictionless →
      (Y.gdim = 2 ∨ Y.gdim = 3) ∧ UnitNormals Y ((Tracked.new g).history (ops ++ updates Y us)) := by
    intro hl
    refine ⟨(h23 hl).1, ?_⟩
    intro i hi e he q hq
    rw [hs.cur]
    exact (h23 hl).2 i hi e he q hq
  obtain ⟨s', A, h1, h2, h3⟩ := C131_matrix hY _ (updates_shaped hY hops us) g law ((updates_law ops us none).trans hlaw) hun
    gamma theta ((updates_consts ops us none).trans hconsts) _ rfl hcs N hN x
  have e1 : driverCoefficients Y x (history Y.static (ops ++ updates Y us) (init Y.static g)) = s' := by
    unfold driverCoefficients
    rw [h1]
    rfl
  have e2 : contactMatrix Y s' = A := by
    unfold contactMatrix
    rw [h2]
  rw [e1, e2, ← hs.tangent, ← h3 w v]

/-- The matrix given to the linear solver. -/
theorem driver_block (hY : System.Valid Y) (hops : ∀ op ∈ ops, OpShaped Y.static op)
    (hlaw : lastLaw ops none = some law)
    (h23 : law ≠ .frictionless → (Y.gdim = 2 ∨ Y.gdim = 3) ∧ UnitNormals Y ((Tracked.new g).history ops))
    (hconsts : lastConsts ops none = some (gamma, theta))
    (hc : ((Tracked.new g).history ops).created = true) (hN : DofsBelow Y N)
    {L : LoadCase} {K : ℕ → ℕ → ℝ} {l : ℕ → ℝ} (hL : LinearBulk L N K l)
    (hbc : ∀ d < N, L.bc d ≠ none → AwayFromContact Y ((Tracked.new g).history ops) d)
    {m : ℝ} (hm : 0 < m) (hm1 : m ≤ 1)
    (hmb : ∀ (u : ℕ → ℝ) (x : EuclideanSpace ℝ (freeDofs L N)), m * ‖x‖ ^ 2
      ≤ ∑ d ∈ range N, ∑ c ∈ range N, extend 0 x d * K d c * extend 0 x c
        + contactTangent Y ((Tracked.new g).history ops) cutSlope law gamma theta u (extend 0 x) (extend 0 x))
    (u x : ℕ → ℝ) {c : State G} (h : Reached Y ops g c) :
    Block N (freeDofs L N) (driverJacobian Y L u x (driverCoefficients Y x c)) m := by
  have hpair := fun w v => driver_tested (g := g) hY hops hlaw h23 hconsts hc hN h x w v
  have hrow := fun (w : ℕ → ℝ) {d : ℕ} (hd : d < N) => driver_row (g := g) hY hops hlaw h23 hconsts hc hN h x w hd
  obtain ⟨A, hA⟩ : ∃ A, A = contactMatrix Y (driverCoefficients Y x c) := ⟨_, rfl⟩
  rw [← hA] at hpair hrow
  obtain ⟨J, hJ⟩ : ∃ J, J = driverJacobian Y L u x (driverCoefficients Y x c) := ⟨_, rfl⟩
  have hJe : ∀ d k, J (d, k) = if d = k ∧ L.bc d ≠ none then 1 else
      if L.bc d = none ∧ L.bc k = none then A (d, k) + L.stiff (fun c => u c + x c) d k else A (d, k) := by
    intro d k
    rw [hJ, hA]
    rfl
  have hAb : ∀ d < N, L.bc d ≠ none → ∀ k < N, A (d, k) = 0 := by
    intro d hd hb k hk
    have := hrow (unit k) hd
    rw [contactTangent_away (hbc d hd hb)] at this
    simpa [unit, hk] using this
  have hAc : ∀ d < N, ∀ k < N, L.bc k ≠ none → A (d, k) = 0 := by
    intro d hd k hk hb
    have := hrow (unit k) hd
    rw [contactTangent_awayDir (hbc k hk hb)] at this
    simpa [unit, hk] using this
  have hbd : ∀ d < N, d ∉ freeDofs L N → L.bc d ≠ none := fun d hd hn hb => hn (free_iff.mpr ⟨hd, hb⟩)
  rw [← hJ]
  refine ⟨hm, hm1, fun d hd => (free_iff.mp hd).1, fun z d hd hn => ?_, fun d hd k hk hn => ?_, fun v hv => ?_⟩
  · have hb := hbd d hd hn
    rw [sum_eq_single_of_mem d (mem_range.mpr hd) (fun k hk hkd => ?_), hJe, if_pos ⟨rfl, hb⟩, one_mul]
    rw [hJe, if_neg (fun h => hkd h.1.symm), if_neg (fun h => hb h.1), hAb d hd hb k (mem_range.mp hk), zero_mul]
  · have hb := hbd k hk hn
    obtain ⟨hdN, hdb⟩ := free_iff.mp hd
    rw [hJe, if_neg (fun h => h.2 hdb), if_neg (fun h => hb h.2), hAc d hdN k hk hb]
  · obtain ⟨y, hy⟩ := extend_of (F := freeDofs L N) 0 v (fun d hd => hv d hd)
    have h1 := hmb x y
    rw [hy, ← hpair] at h1
    have e1 : ‖y‖ ^ 2 = ∑ d ∈ freeDofs L N, v d ^ 2 := by
      rw [EuclideanSpace.real_norm_sq_eq, ← sum_coe_sort (freeDofs L N) (fun d => v d ^ 2)]
      refine sum_congr rfl (fun d _ => ?_)
      rw [← hy]
      unfold extend
      rw [dif_pos d.2]
    rw [e1] at h1
    refine h1.trans_eq ?_
    rw [← sum_add_distrib]
    refine sum_congr rfl (fun d hd => ?_)
    rw [← sum_add_distrib]
    refine sum_congr rfl (fun k hk => ?_)
    by_cases hdF : d ∈ freeDofs L N
    · by_cases hkF : k ∈ freeDofs L N
      · rw [hJe, if_neg (fun h => h.2 (free_iff.mp hdF).2), if_pos ⟨(free_iff.mp hdF).2, (free_iff.mp hkF).2⟩,
          hL.2 _ d (mem_range.mp hd) k (mem_range.mp hk)]
        ring
      · rw [hv k hkF]; ring
    · rw [hv d hdF]; ring

/-- The residual of a load step, in terms of the distance to the solution. -/
theorem driver_residual_error (hY : System.Valid Y) (hops : ∀ op ∈ ops, OpShaped Y.static op)
    (hlaw : lastLaw ops none = some law) (h23 : law ≠ .frictionless → Y.gdim = 2 ∨ Y.gdim = 3)
    (hconsts : lastConsts ops none = some (gamma, theta))
    (hc : ((Tracked.new g).history ops).created = true) {Z : Setting G} (hN : DofsBelow Y Z.numDofs)
    {L : LoadCase} {K : ℕ → ℕ → ℝ} {l : ℕ → ℝ} (hL : LinearBulk L Z.numDofs K l) {u us : ℕ → ℝ}
    (hus : ∀ tol > 0, Balanced Y ((Tracked.new g).history ops) law gamma theta L Z.numDofs u us tol)
    (x : ℕ → ℝ) {c : State G} (h : Reached Y ops g c) {d : ℕ} (hd : d < Z.numDofs) :
    driverResidual Y Z L u x (driverCoefficients Y x c) d = if L.bc d = none then
        ∑ k ∈ range Z.numDofs, (if L.bc k = none then K d k * (x k - us k) else 0)
          + (contactForm Y ((Tracked.new g).history ops) law gamma theta x (unit d)
            - contactForm Y ((Tracked.new g).history ops) law gamma theta us (unit d))
      else x d - us d := by
  obtain ⟨hub, huf⟩ := balanced_eq hL hus
  cases hb : L.bc d with
  | some g' => rw [driverResidual_bc Y hb, hub d hd g' hb]; simp
  | none =>
    rw [driverResidual_free Y hb, hL.1 _ d hd, driver_entry (g := g) hY hops hlaw h23 hconsts hc hN h x hd, if_pos rfl]
    have h2 := huf d hd hb
    have e1 : ∑ k ∈ range Z.numDofs, (if L.bc k = none then K d k * (x k - us k) else 0)
        = ∑ k ∈ range Z.numDofs, K d k * (u k + x k) - ∑ k ∈ range Z.numDofs, K d k * (u k + us k)
          + ∑ k ∈ range Z.numDofs, (L.bc k).elim 0 (fun g => L.stiff (fun c => u c + x c) d k * (g - x k)) := by
      rw [← sum_sub_distrib, ← sum_add_distrib]
      refine sum_congr rfl (fun k hk => ?_)
      cases hk' : L.bc k with
      | none => simp; ring
      | some g' =>
        rw [Option.elim_some, hL.2 _ d hd k (mem_range.mp hk), ← hub k (mem_range.mp hk) g' hk']
        simp
        ring
    rw [e1]
    linarith

/-- The equations of a load step near the solution. -/
theorem driver_near (hY : System.Valid Y) (hops : ∀ op ∈ ops, OpShaped Y.static op)
    (hlaw : lastLaw ops none = some law)
    (h23 : law ≠ .frictionless → (Y.gdim = 2 ∨ Y.gdim = 3) ∧ UnitNormals Y ((Tracked.new g).history ops))
    (hconsts : lastConsts ops none = some (gamma, theta))
    (hc : ((Tracked.new g).history ops).created = true) {Z : Setting G} (hN : DofsBelow Y Z.numDofs)
    {L : LoadCase} {K : ℕ → ℕ → ℝ} {l : ℕ → ℝ} (hL : LinearBulk L Z.numDofs K l)
    (hbc : ∀ d < Z.numDofs, L.bc d ≠ none → AwayFromContact Y ((Tracked.new g).history ops) d)
    {m : ℝ} (hm : 0 < m)
    (hmb : ∀ (u : ℕ → ℝ) (x : EuclideanSpace ℝ (freeDofs L Z.numDofs)), m * ‖x‖ ^ 2
      ≤ ∑ d ∈ range Z.numDofs, ∑ c ∈ range Z.numDofs, extend 0 x d * K d c * extend 0 x c
        + contactTangent Y ((Tracked.new g).history ops) cutSlope law gamma theta u (extend 0 x) (extend 0 x))
    (hlip : ∀ (us v : ℕ → ℝ), Lip (fun x : EuclideanSpace ℝ (range Z.numDofs) =>
      contactForm Y ((Tracked.new g).history ops) law gamma theta (extend us x) v))
    {u us : ℕ → ℝ} (hus : ∀ tol > 0, Balanced Y ((Tracked.new g).history ops) law gamma theta L Z.numDofs u us tol)
    (hreg : RegularContact Y ((Tracked.new g).history ops) law gamma us)
    (hlin : ∀ A b x0, (∃ dx : ℕ → ℝ, ∀ d < Z.numDofs, ∑ k ∈ range Z.numDofs, A (d, k) * dx k = b d) → SolvesExactly Z A b x0) :
    ∃ δ a Lc Cq, 0 < δ ∧ 0 < a ∧ 0 ≤ Lc ∧ 0 ≤ Cq
      ∧ Newton.Near (driverProblem Y Z L u) (Reached Y ops g) (fun x => norm2 Z.numDofs (fun d => x d - us d)) δ a Lc Cq := by
  obtain ⟨t, ht⟩ : ∃ t, t = (Tracked.new g).history ops := ⟨_, rfl⟩
  obtain ⟨N, hNe⟩ : ∃ N, N = Z.numDofs := ⟨_, rfl⟩
  obtain ⟨m', hm', hm'0, hm'1, hm'm⟩ : ∃ m', m' = min m 1 ∧ 0 < m' ∧ m' ≤ 1 ∧ m' ≤ m :=
    ⟨_, rfl, lt_min hm one_pos, min_le_right _ _, min_le_left _ _⟩
  have hblock := fun (x : ℕ → ℝ) {c : State G} (h : Reached Y ops g c) => driver_block (g := g) hY hops hlaw h23 hconsts hc hN hL hbc
    hm'0 hm'1 (fun u y => (mul_le_mul_of_nonneg_right hm'm (sq_nonneg _)).trans (hmb u y)) u x h
  have hres := fun (x : ℕ → ℝ) {c : State G} (h : Reached Y ops g c) {d : ℕ} (hd : d < Z.numDofs) =>
    driver_residual_error (g := g) (L := L) (K := K) hY hops hlaw (fun h => (h23 h).1) hconsts hc hN hL hus x h hd
  have hrow := fun (x : ℕ → ℝ) {c : State G} (h : Reached Y ops g c) (w : ℕ → ℝ) {d : ℕ} (hd : d < Z.numDofs) =>
    driver_row (g := g) hY hops hlaw h23 hconsts hc hN h x w hd
  rw [← ht] at hbc hmb hlip hus hreg hres hrow
  rw [← hNe] at hN hL hbc hmb hlip hus hlin hblock hres hrow ⊢
  obtain ⟨x0, hx0⟩ := extend_of (F := range N) us us (fun _ _ => rfl)
  have hrem : ∀ d, Rem x0 (fun x => contactForm Y t law gamma theta (extend us x) (unit d))
      (fun x => contactTangent Y t cutSlope law gamma theta (extend us x) (fun c => extend us x0 c - extend us x c) (unit d)) :=
    fun d => form_rem (extend_lip us) theta (by rw [hx0]; exact hreg) _
  choose C hC using hrem
  choose C' hC' using fun d => hlip us (unit d)
  have hall : ∀ᶠ x in nhds x0, ∀ d ∈ range N, |contactForm Y t law gamma theta (extend us x0) (unit d)
      - contactForm Y t law gamma theta (extend us x) (unit d)
      - contactTangent Y t cutSlope law gamma theta (extend us x) (fun c => extend us x0 c - extend us x c) (unit d)|
        ≤ C d * dist x x0 ^ 2 := by
    rw [Filter.eventually_all_finset]
    exact fun d _ => hC d
  obtain ⟨δ, hδ, hball⟩ := Metric.eventually_nhds_iff.mp hall
  -- displacements and vectors
  have hvec : ∀ x : ℕ → ℝ, ∃ y : EuclideanSpace ℝ (range N), (∀ d < N, extend us y d = x d)
      ∧ dist y x0 = norm2 N (fun d => x d - us d) := by
    intro x
    obtain ⟨y, hy⟩ := extend_of (F := range N) us (fun d => if d < N then x d else us d) (fun d hd => if_neg (by simpa using hd))
    refine ⟨y, fun d hd => by rw [hy]; exact if_pos hd, ?_⟩
    rw [norm2_norm, dist_eq_norm]
    congr 1
    ext d
    have hd := mem_range.mp d.2
    have e1 : y d = x d := by
      have := congrFun hy d
      unfold extend at this
      rwa [dif_pos d.2, if_pos hd] at this
    have e2 : x0 d = us d := by
      have := congrFun hx0 d
      unfold extend at this
      rwa [dif_pos d.2] at this
    show y d - x0 d = x d - us d
    rw [e1, e2]
  obtain ⟨S, hS⟩ : ∃ S, S = ∑ d ∈ range N, |C d| := ⟨_, rfl⟩
  have hS0 : 0 ≤ S := by rw [hS]; exact sum_nonneg (fun _ _ => abs_nonneg _)
  -- the difference of the residual and its linearisation
  have hdiff : ∀ (x : ℕ → ℝ) (c : State G), Reached Y ops g c → norm2 N (fun d => x d - us d) < δ →
      norm2 N (fun d => driverResidual Y Z L u x (driverCoefficients Y x c) d
        - ∑ k ∈ range N, driverJacobian Y L u x (driverCoefficients Y x c) (d, k) * (x k - us k))
      ≤ S * norm2 N (fun d => x d - us d) ^ 2 := by
    intro x c hR hclose
    obtain ⟨y, hy1, hy2⟩ := hvec x
    have hB := hblock x hR
    rw [hS]
    refine norm2_le_of (sq_nonneg _) (fun d hd => ?_)
    rw [hres x hR hd]
    by_cases hb : L.bc d = none
    · have hdF := free_iff.mpr ⟨hd, hb⟩
      rw [if_pos hb]
      have e1 : ∑ k ∈ range N, driverJacobian Y L u x (driverCoefficients Y x c) (d, k) * (x k - us k)
          = ∑ k ∈ range N, (if L.bc k = none then K d k * (x k - us k) else 0)
            + ∑ k ∈ range N, contactMatrix Y (driverCoefficients Y x c) (d, k) * (x k - us k) := by
        rw [← sum_add_distrib]
        refine sum_congr rfl (fun k hk => ?_)
        unfold driverJacobian
        by_cases hk' : L.bc k = none
        · simp only [hb, hk', ne_eq, not_true_eq_false, and_false, and_self, if_true, if_false, hL.2 _ d hd k (mem_range.mp hk)]
          ring
        · simp only [hb, hk', ne_eq, not_true_eq_false, and_false, if_false, zero_add]
      rw [e1, hrow x hR (fun k => x k - us k) hd]
      have h1 := hball (hy2 ▸ hclose) d (mem_range.mpr hd)
      rw [hx0, hy2, form_below hY hN hy1, tangent_same hY hN (w' := fun k => us k - x k) hy1 (fun k hk => by rw [hy1 k hk])] at h1
      have e2 : contactTangent Y t cutSlope law gamma theta x (fun k => us k - x k) (unit d)
          = -contactTangent Y t cutSlope law gamma theta x (fun k => x k - us k) (unit d) := by
        rw [← hrow x hR _ hd, ← hrow x hR _ hd, ← sum_neg_distrib]
        exact sum_congr rfl (fun k _ => by ring)
      rw [e2] at h1
      rw [← abs_neg]
      refine le_trans (le_of_eq ?_) h1
      congr 1
      ring
    · rw [if_neg hb, hB.id (fun k => x k - us k) d hd (fun h => hb (free_iff.mp h).2), sub_self, abs_zero]
      -- the remainder of a dof away from the contact surfaces
      have h1 := hball (hy2 ▸ hclose) d (mem_range.mpr hd)
      rw [hy2] at h1
      exact (abs_nonneg _).trans h1
  obtain ⟨bd, hbd⟩ : ∃ bd : ℕ → ℝ, bd = fun d => 1 + ∑ k ∈ range N, |K d k| + |C' d| := ⟨_, rfl⟩
  have hup : ∀ (x : ℕ → ℝ) (c : State G), Reached Y ops g c →
      norm2 N (driverResidual Y Z L u x (driverCoefficients Y x c)) ≤ (∑ d ∈ range N, |bd d|) * norm2 N (fun d => x d - us d) := by
    intro x c hR
    obtain ⟨y, hy1, hy2⟩ := hvec x
    obtain ⟨r, hr⟩ : ∃ r, r = norm2 N (fun d => x d - us d) := ⟨_, rfl⟩
    have hr0 : 0 ≤ r := by rw [hr]; exact Real.sqrt_nonneg _
    have hxr : ∀ k < N, |x k - us k| ≤ r := fun k hk => by rw [hr]; exact abs_le_norm2 (fun d => x d - us d) hk
    rw [← hr] at hy2 ⊢
    refine norm2_le_of hr0 (fun d hd => ?_)
    have hK0 : 0 ≤ ∑ k ∈ range N, |K d k| := sum_nonneg (fun _ _ => abs_nonneg _)
    rw [hres x hR hd, hbd]
    dsimp only
    by_cases hb : L.bc d = none
    · rw [if_pos hb]
      have h1 := hC' d y x0
      dsimp only at h1
      rw [hx0, hy2, form_below hY hN hy1] at h1
      have h2 : |∑ k ∈ range N, (if L.bc k = none then K d k * (x k - us k) else 0)| ≤ (∑ k ∈ range N, |K d k|) * r := by
        refine (abs_sum_le_sum_abs _ _).trans ?_
        rw [sum_mul]
        refine sum_le_sum (fun k hk => ?_)
        split
        · rw [abs_mul]
          exact mul_le_mul_of_nonneg_left (hxr k (mem_range.mp hk)) (abs_nonneg _)
        · rw [abs_zero]; positivity
      have h3 : C' d * r ≤ |C' d| * r := mul_le_mul_of_nonneg_right (le_abs_self _) hr0
      refine (abs_add_le _ _).trans ?_
      have : 0 ≤ 1 * r := by linarith
      nlinarith
    · rw [if_neg hb]
      have h1 := hxr d hd
      have h2 : 0 ≤ (∑ k ∈ range N, |K d k|) * r := mul_nonneg hK0 hr0
      have h3 : 0 ≤ |C' d| * r := mul_nonneg (abs_nonneg _) hr0
      nlinarith
  obtain ⟨δ', hδ', hδ'0, hδ'δ, hδ'S⟩ : ∃ δ', δ' = min δ (m' / (2 * (S + 1))) ∧ 0 < δ' ∧ δ' ≤ δ ∧ δ' ≤ m' / (2 * (S + 1)) :=
    ⟨_, rfl, lt_min hδ (by positivity), min_le_left _ _, min_le_right _ _⟩
  refine ⟨δ', m' / 2, ∑ d ∈ range N, |bd d|, S / m', hδ'0, by positivity, sum_nonneg (fun _ _ => abs_nonneg _), by positivity, ?_⟩
  constructor
  · exact fun _ => rfl
  · exact fun _ => rfl
  · exact fun _ => Real.sqrt_nonneg _
  · exact fun _ => Real.sqrt_nonneg _
  · exact fun x c h => reached_coefficients x c h
  · intro x c hR _
    show norm2 Z.numDofs (driverResidual Y Z L u x (driverCoefficients Y x c)) ≤ _
    rw [← hNe]
    exact hup x c hR
  · intro x c hR hclose
    show _ ≤ norm2 Z.numDofs (driverResidual Y Z L u x (driverCoefficients Y x c))
    rw [← hNe]
    have h1 := (hblock x hR).lower (fun k => x k - us k)
    have h2 := hdiff x c hR (hclose.trans_le hδ'δ)
    obtain ⟨r, hr⟩ : ∃ r, r = norm2 N (fun d => x d - us d) := ⟨_, rfl⟩
    have hr0 : 0 ≤ r := by rw [hr]; exact Real.sqrt_nonneg _
    rw [← hr] at h1 h2 hclose ⊢
    have h3 := norm2_add_le N (driverResidual Y Z L u x (driverCoefficients Y x c))
      (fun d => ∑ k ∈ range N, driverJacobian Y L u x (driverCoefficients Y x c) (d, k) * (x k - us k)
        - driverResidual Y Z L u x (driverCoefficients Y x c) d)
    have e1 : norm2 N (fun d => ∑ k ∈ range N, driverJacobian Y L u x (driverCoefficients Y x c) (d, k) * (x k - us k)
        - driverResidual Y Z L u x (driverCoefficients Y x c) d)
        = norm2 N (fun d => driverResidual Y Z L u x (driverCoefficients Y x c) d
        - ∑ k ∈ range N, driverJacobian Y L u x (driverCoefficients Y x c) (d, k) * (x k - us k)) :=
      norm2_same (fun d _ => abs_sub_comm _ _)
    simp only [add_sub_cancel] at h3
    rw [e1] at h3
    have h4 : S * r ^ 2 ≤ m' / 2 * r := by
      have h5 : r * (2 * (S + 1)) ≤ m' := (le_div_iff₀ (by positivity)).mp (hclose.le.trans hδ'S)
      nlinarith
    linarith
  · intro x c dx0 hR hclose
    have hB := hblock x hR
    obtain ⟨dx, its, reason, hl⟩ : ∃ dx its reason, Z.linSolve (driverJacobian Y L u x (driverCoefficients Y x c))
      (driverResidual Y Z L u x (driverCoefficients Y x c)) dx0 = (dx, its, reason) := ⟨_, _, _, rfl⟩
    have hsol := hlin (driverJacobian Y L u x (driverCoefficients Y x c))
      (driverResidual Y Z L u x (driverCoefficients Y x c)) dx0 (hB.solvable _)
    unfold SolvesExactly at hsol
    rw [hl, ← hNe] at hsol
    obtain ⟨hreason, hdx⟩ := hsol
    dsimp only at hreason hdx
    have h2 := hdiff x c hR (hclose.trans_le hδ'δ)
    have h1 := hB.lower (fun k => x k - us k - dx k)
    have e1 : norm2 N (fun d => ∑ k ∈ range N, driverJacobian Y L u x (driverCoefficients Y x c) (d, k) * (x k - us k - dx k))
        = norm2 N (fun d => driverResidual Y Z L u x (driverCoefficients Y x c) d
          - ∑ k ∈ range N, driverJacobian Y L u x (driverCoefficients Y x c) (d, k) * (x k - us k)) := by
      refine norm2_same (fun d hd => ?_)
      rw [← hdx d hd, ← abs_neg, ← sum_sub_distrib, ← sum_neg_distrib]
      congr 1
      exact sum_congr rfl (fun k _ => by ring)
    rw [e1] at h1
    have h3 : norm2 N (fun k => x k - us k - dx k) ≤ S / m' * norm2 N (fun d => x d - us d) ^ 2 := by
      rw [div_mul_eq_mul_div, le_div_iff₀ hm'0]
      linarith
    refine ⟨dx, its, reason, hl, hreason, ?_, ?_⟩
    · refine le_trans (le_of_eq (norm2_same (fun d _ => ?_))) h3
      show |x d + -1 * dx d - us d| = _
      congr 1
      ring
    · have h4 := norm2_add_le N dx (fun k => x k - us k - dx k)
      simp only [add_sub_cancel] at h4
      show norm2 N (fun d => x d - us d) - _ ≤ norm2 Z.numDofs dx
      rw [← hNe]
      linarith

end

end

end Verif.ContactProblem
