import Verif.Spec.TieDemos
import Verif.Lemmas.ThermoDemo

/-! Lemmas for the static demos of tied bodies. -/

namespace Verif.TieData

open Verif.Spec Verif.Lemmas Verif.Packing Verif.Assembly Verif.Entities Verif.Kernels Finset

noncomputable section

/-! ### a displacement that was never given is zero -/

section zero
variable {R : Type} [Zero R]

/-- Generating the data for elasticity for the first time without a displacement is the same as with displacement zero. -/
theorem generate_elastic_without (S : Static R) (hS : S.Ok) (V : Space R) (hV : V.Packed S .elasticity) (co co' : Coefs R)
    (mu lam z : Func R) (hm : co .mu = some mu) (hm' : co' .mu = some mu) (hl : co .lam = some lam) (hl' : co' .lam = some lam)
    (hms : mu.Scalar S) (hls : lam.Scalar S) (hu : co .u = none) (hu' : co' .u = some z)
    (hnd : z.nd = V.nd) (hbs : z.bs = V.bs) (hz : z.Packed S V.bs) (h0 : ZeroFunc S z) (gamma theta : R) :
    generateKernelData S .elasticity V co gamma theta State.init
      = generateKernelData S .elasticity V co' gamma theta State.init := by
  unfold generateKernelData
  dsimp only
  rw [hm, hm', hl, hl', hu, hu']
  dsimp only
  unfold generateMatrixOnly
  dsimp only
  have hb1 : V.bs = S.gdim := hV.bs
  set C := (strides S V false).sum with hC
  have hst : (none : Option (Func R)).isSome = false := rfl
  rw [hst, ← hC]
  rcases hp : pairs S.pairs (fillPair S V mu lam none ((strides S V false).getD 0 0) C) (State.init : State R).coeffs with _ | cs
  · rfl
  unfold Out.ofOption
  dsimp only [Out.bind]
  unfold updateKernelData
  rw [hu']
  dsimp only
  unfold updateElastic
  dsimp only
  rw [hbs, hnd]
  have hCv : C = 3 + 2 * (S.nq * S.ml * V.bs * V.nd) + 2 * ((1 + S.gdim) * S.nq * V.bs) := by
    rw [hC]
    unfold strides
    simp only [List.sum_cons, List.sum_nil, Bool.false_eq_true, if_false]
    rw [hb1]
    ring
  set o := 3 + 2 * (S.nq * S.ml * V.bs * V.nd) with ho
  have hfill : ∀ i < S.pairs, ∀ b', fillPair S V mu lam none ((strides S V false).getD 0 0) C i ((State.init : State R).coeffs i)
      = some b' → b'.size = C * S.nf i ∧ ZeroTail C o b' := by
    intro i hi b' hb'
    unfold fillPair at hb'
    obtain ⟨b0, hb0, hb'⟩ := Option.bind_eq_some_iff.mp hb'
    obtain rfl := Option.some.inj hb'
    refine facets_inv (P := fun b => b.size = C * S.nf i ∧ ZeroTail C o b) _ _ (fun e he b b' hb h => ?_) ⟨rfl, fun e k _ _ => ?_⟩ hb0
    · obtain ⟨b1, h1, h⟩ := Option.bind_eq_some_iff.mp h
      obtain ⟨b2, h2, h⟩ := Option.bind_eq_some_iff.mp h
      obtain ⟨b3, h3, h⟩ := Option.bind_eq_some_iff.mp h
      obtain ⟨b4, h4, h5⟩ := Option.bind_eq_some_iff.mp h
      have w1 := hS i hi
      have w2 := hms i hi
      have w2' := hls i hi
      have w3 := hV.test i hi
      have w4 := hV.gtest i hi
      have e0 : (strides S V false).getD 0 0 = 3 := rfl
      rw [e0] at h4 h5
      have e1 : 2 * (S.nq * S.ml * V.bs * V.nd) = S.ml * V.nd * S.nq * V.bs + S.ml * V.nd * S.nq * S.gdim := by rw [hb1]; ring
      refine ⟨by rw [copyN_size h5, copyN_size h4, copyN_size h3, copyN_size h2, copyN_size h1]; exact hb.1, ?_⟩
      have hoC : o ≤ C := by omega
      have t1 := copyN_tail (o' := 0) (by simpa using h1) hb.2 (by omega) hoC
      have t2 := copyN_tail h2 t1 (by omega) hoC
      have t3 := copyN_tail h3 t2 (by omega) hoC
      have t4 := copyN_tail h4 t3 (by omega) hoC
      exact copyN_tail h5 t4 (by omega) hoC
    · simp [Buf.resize, State.init]
  obtain ⟨hcs, -⟩ := pairs_inv (P := fun i b => b.size = C * S.nf i ∧ ZeroTail C o b) _ _ hfill hp
  have hnq : (1 + S.gdim) * S.nq * V.bs = S.nq * V.bs + S.nq * V.bs * S.gdim := by ring
  rw [hnq] at hCv ⊢
  have u1 : updateFunctionData S z o (o + (S.nq * V.bs + S.nq * V.bs * S.gdim)) C cs = some cs := by
    unfold updateFunctionData
    refine pairs_id _ (fun i hi => facets_id _ (fun e he => ?_))
    have w1 := hz.val i hi
    have w2 := hz.opp i hi
    rw [copyN_zero (h0.val i hi e he) (hcs i hi).2 (le_refl _) (by omega) he (hcs i hi).1, Option.bind_some,
      copyN_zero (h0.opp i hi e he) (hcs i hi).2 (by omega) (by omega) he (hcs i hi).1]
  have u2 : updateGradientData S z (o + S.nq * V.bs) (o + (S.nq * V.bs + S.nq * V.bs * S.gdim) + S.nq * V.bs) C cs = some cs := by
    unfold updateGradientData
    refine pairs_id _ (fun i hi => facets_id _ (fun e he => ?_))
    have w1 := hz.grad i hi
    have w2 := hz.gradOpp i hi
    rw [copyN_zero (h0.grad i hi e he) (hcs i hi).2 (by omega) (by omega) he (hcs i hi).1, Option.bind_some,
      copyN_zero (h0.gradOpp i hi e he) (hcs i hi).2 (by omega) (by omega) he (hcs i hi).1]
  rw [u1, Option.bind_some, u2]
  rfl

end zero

section funcs
variable {M : TieMesh} {E : TieElement}

/-- The zero function of any space. -/
theorem zeroFunc' (hM : TieMesh.Valid M) (hE : TieElement.Valid M E) (h0 : 0 < E.bs) : ZeroFunc M.static (M.func E fun _ => 0) := by
  have hd := hM.dim
  have key : ∀ i < M.numPairs, ∀ e < M.localFacets i, ∃ cell f, (M.facets i)[e]? = some (cell, f) := by
    intro i hi e he
    have := hM.loc i hi
    exact ⟨_, _, List.getElem?_eq_getElem (by omega)⟩
  have split1 : ∀ m < M.nq * E.bs, m / E.bs < M.nq ∧ m % E.bs < E.bs ∧ m = m / E.bs * E.bs + m % E.bs := fun m hm =>
    ⟨Nat.div_lt_of_lt_mul (by rwa [Nat.mul_comm]), Nat.mod_lt _ h0, (Nat.div_add_mod' m E.bs).symm⟩
  have split : ∀ m < M.nq * E.bs * M.gdim, m / M.gdim < M.nq * E.bs ∧ m % M.gdim < M.gdim
      ∧ m = m / M.gdim * M.gdim + m % M.gdim := fun m hm =>
    ⟨Nat.div_lt_of_lt_mul (by rwa [Nat.mul_comm]), Nat.mod_lt _ hd, (Nat.div_add_mod' m M.gdim).symm⟩
  refine ⟨fun i hi e he m hm => ?_, fun i hi e he m hm => ?_, fun i hi e he m hm => ?_, fun i hi e he m hm => ?_⟩
  · obtain ⟨w, hv⟩ := func_val M h0 (fun _ => 0) i
    obtain ⟨cell, f, hf⟩ := key i hi e he
    rw [w] at hm ⊢
    obtain ⟨m1, m2, m3⟩ := split1 m hm
    rw [m3, hv e cell f hf _ m1 _ m2]
    unfold tieValue
    simp
  · have w : ((M.func E fun _ => 0).opp i).c = M.nq * E.bs := rfl
    rw [w] at hm ⊢
    obtain ⟨m1, m2, m3⟩ := split1 m hm
    obtain ⟨k1, k2⟩ := func_opp hM hE (fun _ => 0) he m1 m2
    rw [m3]
    by_cases ht : Tied M i e (m / E.bs)
    · rw [k1 ht]
      unfold tieOpposite
      simp
    · exact k2 ht
  · obtain ⟨w, hv⟩ := func_grad hM h0 (fun _ => 0) i
    obtain ⟨cell, f, hf⟩ := key i hi e he
    rw [w] at hm ⊢
    obtain ⟨n1, m2, n3⟩ := split m hm
    obtain ⟨m1, p2, p3⟩ := split1 _ n1
    rw [n3, p3, hv e cell f hf _ m1 _ p2 _ m2]
    unfold tieGrad
    simp
  · have w : ((M.func E fun _ => 0).gradOpp i).c = M.nq * E.bs * M.gdim := rfl
    rw [w] at hm ⊢
    obtain ⟨n1, m2, n3⟩ := split m hm
    obtain ⟨m1, p2, p3⟩ := split1 _ n1
    obtain ⟨k1, k2⟩ := func_gopp (E := E) M (fun _ => 0) he m1 p2 m2
    rw [n3, p3]
    by_cases ht : Tied M i e (m / M.gdim / E.bs)
    · rw [k1 ht]
      unfold tieOppositeGrad
      simp
    · exact k2 ht

end funcs

/-! ### the systems -/

variable {D : TieDemo}

/-- Generating with the zero solution. -/
def TieDemo.coefs0 (D : TieDemo) : Coefs ℝ
  | .u => if D.p = .elasticity then some (D.M.func D.V fun _ => 0) else none
  | .T => if D.p = .poisson then some (D.M.func D.V fun _ => 0) else none
  | k => D.coefs k

theorem tieDemo_comps (hD : TieDemoValid D) : D.V.bs = comps D.M.static D.p := by
  rcases hD.problem with ⟨h1, h2⟩ | ⟨h1, h2⟩ <;> rw [h1, h2] <;> rfl

theorem tieDemo_pos (hD : TieDemoValid D) : 0 < D.V.bs := by
  rcases hD.problem with ⟨h1, h2⟩ | ⟨h1, h2⟩ <;> rw [h2]
  · exact hD.mesh.dim
  · omega

theorem coefs_zero (hD : TieDemoValid D) :
    generateKernelData D.M.static D.p (D.M.space D.V) D.coefs D.gamma D.theta State.init
      = generateKernelData D.M.static D.p (D.M.space D.V) D.coefs0 D.gamma D.theta State.init := by
  have hsc : ∀ w : ℕ → ℝ, (D.M.func D.EQ w).Scalar D.M.static := fun w i _ => (func_const0 D.M hD.material w i).1
  rcases hD.problem with ⟨h1, h2⟩ | ⟨h1, h2⟩
  · rw [h1]
    exact generate_elastic_without D.M.static (static_ok D.M) (D.M.space D.V) (space_packed hD.mesh (h1 ▸ (tieDemo_comps hD))) _ _
      (D.M.func D.EQ (D.mat .mu)) (D.M.func D.EQ (D.mat .lam)) (D.M.func D.V fun _ => 0) (by simp [TieDemo.coefs, h1])
      (by simp [TieDemo.coefs0, TieDemo.coefs, h1]) (by simp [TieDemo.coefs, h1]) (by simp [TieDemo.coefs0, TieDemo.coefs, h1])
      (hsc _) (hsc _) rfl (by simp [TieDemo.coefs0, h1]) rfl rfl (func_packed hD.mesh (tieDemo_pos hD) _) (zeroFunc' hD.mesh hD.space (tieDemo_pos hD)) _ _
  · rw [h1]
    refine generate_without D.M.static (static_ok D.M) (D.M.space D.V) (space_packed hD.mesh (h1 ▸ (tieDemo_comps hD))) _ _
      (D.M.func D.EQ (D.mat .kdt)) (D.M.func D.V fun _ => 0) (by simp [TieDemo.coefs, h1])
      (by simp [TieDemo.coefs0, TieDemo.coefs, h1]) (hsc _) rfl (by simp [TieDemo.coefs0, h1]) rfl ?_
      (zeroFunc' hD.mesh hD.space (tieDemo_pos hD)) _ _
    have := func_packed hD.mesh (tieDemo_pos hD) (fun _ => 0)
    rwa [h2] at this

/-- States of the `MeshTie` object with data generated for the demo; the generation satisfies `P`. -/
def TieReach (D : TieDemo) (P : Gen ℝ → Prop) (s : State ℝ) : Prop :=
  ∃ ops g, ProperHistory D.M.static Tracked.new ops ∧ run D.M.static State.init ops = some s
    ∧ (ops.foldl Tracked.step Tracked.new).get D.p = some g
    ∧ GeneratedFor D.M D.V D.EQ D.p D.mat D.gamma D.theta g ∧ P g

/-- Generating data for the demo. -/
theorem tie_generate (hD : TieDemoValid D) (co : Coefs ℝ) (hm : ∀ k ∈ required D.p, co k = some (D.M.func D.EQ (D.mat k)))
    (hs : co (trigger D.p) = none ∨ co (trigger D.p) = some (D.M.func D.V fun _ => 0)) :
    ∃ s, (generateKernelData D.M.static D.p (D.M.space D.V) co D.gamma D.theta State.init).state = some s
      ∧ TieReach D (fun g => co (trigger D.p) = some (D.M.func D.V fun _ => 0) → SolutionIs D.M D.V (fun _ => 0) g) s := by
  have hth : D.p ≠ .thermo := by rcases hD.problem with ⟨h, -⟩ | ⟨h, -⟩ <;> rw [h] <;> decide
  have hsol : solution D.p = [trigger D.p] := by
    rcases hD.problem with ⟨h, -⟩ | ⟨h, -⟩ <;> rw [h] <;> rfl
  have hok : GenOk D.M.static D.p (D.M.space D.V) co := by
    refine ⟨space_packed hD.mesh (tieDemo_comps hD), fun k hk f hf => ?_, fun f hf => ?_, fun h => absurd h hth⟩
    · rw [hm k hk] at hf
      obtain rfl := Option.some.inj hf
      exact fun i _ => (func_const0 D.M hD.material (D.mat k) i).1
    · rcases hs with hs | hs
      · rw [hs] at hf; cases hf
      · rw [hs] at hf
        obtain rfl := Option.some.inj hf
        exact ⟨rfl, rfl, func_packed hD.mesh (tieDemo_pos hD) _⟩
  have g1 : Given co (required D.p) := fun k hk => by rw [hm k hk]; simp
  have hmiss : missing D.p co = none := by
    rcases hD.problem with ⟨h, -⟩ | ⟨h, -⟩
    · have k1 := hm .mu (by rw [h]; simp [required])
      have k2 := hm .lam (by rw [h]; simp [required])
      rw [h]
      rw [h] at hs
      rcases hs with hs | hs
      all_goals
        simp only [trigger] at hs
        simp [missing, required, trigger, solution, k1, k2, hs]
    · have k1 := hm .kdt (by rw [h]; simp [required])
      rw [h]
      rw [h] at hs
      rcases hs with hs | hs
      all_goals
        simp only [trigger] at hs
        simp [missing, required, trigger, solution, k1, hs]
  obtain ⟨s, h1, h2⟩ := call_ok D.M.static (static_ok D.M) [] (.gen D.p (D.M.space D.V) co D.gamma D.theta) trivial rfl hok hmiss
  have hgen : generateKernelData D.M.static D.p (D.M.space D.V) co D.gamma D.theta State.init = .ok s := h1
  refine ⟨s, by rw [hgen]; rfl, [.gen D.p (D.M.space D.V) co D.gamma D.theta],
    ⟨D.p, D.M.space D.V, co, D.gamma, D.theta, if Given co (solution D.p) then some co else none⟩,
    ⟨hok, trivial⟩, h2, ?_, ⟨rfl, rfl, rfl, rfl, hm, hD.material⟩, fun hu => ⟨co, ?_, hu⟩⟩
  · simp only [List.foldl_cons, List.foldl_nil, Tracked.step, if_pos g1]
    rcases hD.problem with ⟨h, -⟩ | ⟨h, -⟩ <;> rw [h] <;> rfl
  · exact if_pos (by rw [hsol]; intro k hk; obtain rfl := List.mem_singleton.mp hk; rw [hu]; simp)

/-- Matrix and vector in such a state. -/
theorem tie_assembled (hD : TieDemoValid D) (hT : TiedFirst D.M) {P : Gen ℝ → Prop} {s : State ℝ} (h : TieReach D P s) :
    ∃ A b, D.M.assembleMatrix D.V D.p s 0 = .ok A ∧ D.M.assembleVector D.V D.p s 0 = .ok b
      ∧ (∀ u v : ℕ → ℝ, ∑ d ∈ range D.numDofs, ∑ c ∈ range D.numDofs, v d * A (d, c) * u c = tieForm D u v)
      ∧ (∀ d c, ¬TiedDofs D.M D.V d c → A (d, c) = 0)
      ∧ ∃ g, P g ∧ ∀ u, SolutionIs D.M D.V u g → ∀ v, ∑ d ∈ range D.numDofs, b d * v d = tieForm D u v := by
  obtain ⟨ops, g, h1, h2, h3, h4, h5⟩ := h
  obtain ⟨s2, A2, b2, l1, l2, -, l3, -⟩ := C165_local hD.mesh ops h1 D.p h3 h4
  obtain rfl := Option.some.inj (l1.symm.trans h2)
  rcases hD.problem with ⟨hp, hb⟩ | ⟨hp, hb⟩
  · have hf : ∀ u v, tieForm D u v = elasticTie D.M D.V D.EQ D.mat D.gamma D.theta u v := fun u v => by
      unfold tieForm; rw [hp]; exact if_neg (by decide)
    rw [hp] at h3 h4 l2
    obtain ⟨s1, k1, ⟨A, k2, k3⟩, b, k4, k5⟩ := C117_elasticity_partial hD.mesh hD.space _ hD.dofs hT ops h1 h3 h4
    obtain rfl := Option.some.inj (k1.symm.trans h2)
    obtain rfl := Except.ok.inj (l2.symm.trans k2)
    refine ⟨A2, b, by rw [hp]; exact k2, by rw [hp]; exact k4, fun u v => by rw [hf]; exact k3 u v, l3, g, h5,
      fun u hu v => by rw [hf]; exact k5 u hu v⟩
  · have hf : ∀ u v, tieForm D u v = heatTie D.M D.V D.EQ D.mat D.gamma D.theta u v := fun u v => by
      unfold tieForm; rw [if_pos hp]
    rw [hp] at h3 h4 l2
    obtain ⟨s1, k1, ⟨A, k2, k3⟩, b, k4, k5⟩ := C117_heat_partial hD.mesh hD.space _ hD.dofs hT ops h1 h3 h4
    obtain rfl := Option.some.inj (k1.symm.trans h2)
    obtain rfl := Except.ok.inj (l2.symm.trans k2)
    refine ⟨A2, b, by rw [hp]; exact k2, by rw [hp]; exact k4, fun u v => by rw [hf]; exact k3 u v, l3, g, h5,
      fun u hu v => by rw [hf]; exact k5 u hu v⟩

/-- The form of the tie is that of a matrix. -/
theorem tiedWork_matrix (hD : TieDemoValid D) (hT : TiedFirst D.M) : ∃ A : Arr (ℕ × ℕ),
    (∀ u v : ℕ → ℝ, ∑ d ∈ range D.numDofs, ∑ c ∈ range D.numDofs, v d * A (d, c) * u c = tieForm D u v)
    ∧ (∀ u v, ∑ d ∈ range D.numDofs, ∑ c ∈ range D.numDofs, v d * (D.stiff d c + A (d, c)) * u c = tiedWork D u v)
    ∧ ∀ d c, ¬TiedDofs D.M D.V d c → A (d, c) = 0 := by
  obtain ⟨s, -, h⟩ := tie_generate hD (fun k => if k ∈ required D.p then some (D.M.func D.EQ (D.mat k)) else none)
    (fun k hk => if_pos hk) (Or.inl (if_neg (by cases D.p <;> decide)))
  obtain ⟨A, b, -, -, h3, h4, -⟩ := tie_assembled hD hT h
  exact ⟨A, h3, fun u v => by rw [formOf_mat, h3]; rfl, h4⟩

theorem tiedWork_sub (hD : TieDemoValid D) (hT : TiedFirst D.M) (u w v : ℕ → ℝ) :
    tiedWork D (fun d => u d - w d) v = tiedWork D u v - tiedWork D w v := by
  obtain ⟨A, -, hA, -⟩ := tiedWork_matrix hD hT
  rw [← hA, ← hA, ← hA]
  exact formOf_sub _ _ (fun d c => D.stiff d c + A (d, c)) u w v

/-- Balance has at most one solution. -/
theorem balance_unique (hD : TieDemoValid D) (hT : TiedFirst D.M) (hpos : PositiveOn D.numDofs D.bc (tiedWork D))
    {r : (ℕ → ℝ) → ℝ} {u w : ℕ → ℝ} (hu : InBalance D r u) (hw : InBalance D r w) : ∀ d < D.numDofs, w d = u d := by
  by_contra hcon
  push Not at hcon
  obtain ⟨d, hd, hne⟩ := hcon
  have had : Admissible D.numDofs D.bc (fun d => w d - u d) := by
    intro d hd hb
    obtain ⟨g, hg⟩ := Option.ne_none_iff_exists'.mp hb
    show w d - u d = 0
    rw [hu.1 d hd g hg, hw.1 d hd g hg, sub_self]
  have := hpos _ had ⟨d, hd, sub_ne_zero.mpr hne⟩
  rw [tiedWork_sub hD hT, hw.2 _ had, hu.2 _ had, sub_self] at this
  exact lt_irrefl _ this

/-- What `run` computes. -/
theorem run_raw (hD : TieDemoValid D) (hT : TiedFirst D.M) : ∃ (A : Arr (ℕ × ℕ)) (b : ℕ → ℝ),
    D.run = some (D.solve (bcMatrix D.bc A D.stiff) (D.rhs fun d => b d + D.load d))
    ∧ (∀ u v, ∑ d ∈ range D.numDofs, ∑ c ∈ range D.numDofs, v d * (D.stiff d c + A (d, c)) * u c = tiedWork D u v)
    ∧ (∀ d c, ¬TiedDofs D.M D.V d c → A (d, c) = 0)
    ∧ ∀ d < D.numDofs, b d = 0 := by
  have htr : D.coefs0 (trigger D.p) = some (D.M.func D.V fun _ => 0) := by
    rcases hD.problem with ⟨h, -⟩ | ⟨h, -⟩ <;> simp [h, trigger, TieDemo.coefs0]
  obtain ⟨s, h1, h2⟩ := tie_generate hD D.coefs0 (fun k hk => by
    rcases hD.problem with ⟨h, -⟩ | ⟨h, -⟩
    · rw [h] at hk
      simp only [required, List.mem_cons, List.not_mem_nil, or_false] at hk
      rcases hk with rfl | rfl <;> simp [TieDemo.coefs0, TieDemo.coefs, h]
    · rw [h] at hk
      simp only [required, List.mem_singleton] at hk
      subst hk
      simp [TieDemo.coefs0, TieDemo.coefs, h]) (Or.inr htr)
  rw [← coefs_zero hD] at h1
  obtain ⟨A, b, k1, k2, k3, k4, g, k5, k6⟩ := tie_assembled hD hT h2
  have hb : ∀ d < D.numDofs, b d = 0 := by
    intro d hd
    have := k6 _ (k5 htr) (fun k => if k = d then 1 else 0)
    rw [← k3] at this
    simpa [hd] using this
  refine ⟨A, if D.addTie then b else 0, ?_, fun u v => by rw [formOf_mat, k3]; rfl, k4, fun d hd => ?_⟩
  · unfold TieDemo.run
    simp only [h1, k1, k2, Except.toOption, Option.bind_eq_bind, Option.bind_some]
    cases D.addTie <;> rfl
  · split_ifs
    · exact hb d hd
    · rfl

/-- A right-hand side lifted with the right sign, or for the value zero. -/
theorem rhs_eq (hl : D.lift = 1 ∨ ∀ d < D.numDofs, ∀ g, D.bc d = some g → g = 0) (f : ℕ → ℝ) (d : ℕ) :
    D.rhs f d = bcVector D.numDofs D.bc D.stiff (fun _ => 0) 1 f d := by
  unfold TieDemo.rhs bcVector
  have e : D.lift * ∑ c ∈ range D.numDofs, (D.bc c).elim 0 (fun g => D.stiff d c * g)
      = 1 * ∑ c ∈ range D.numDofs, (D.bc c).elim 0 (fun g => D.stiff d c * (g - 0)) := by
    rcases hl with hl | hl
    · rw [hl]
      simp only [sub_zero]
    · rw [sum_eq_zero, sum_eq_zero, mul_zero, mul_zero]
      all_goals
        intro c hc
        cases hb : D.bc c with
        | none => rfl
        | some g => rw [hl c (mem_range.mp hc) g hb]; simp
  cases hb : D.bc d with
  | none => simp only [Option.elim_none]; rw [e]
  | some g => simp

end

end Verif.TieData
