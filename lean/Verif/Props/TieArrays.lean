import Verif.Model.TieArrays
import Verif.Props.MeshTieData

/-!
Property C207: the packed data of a mesh tie as seen from Python.
-/

namespace Verif.TieData

variable {R : Type} [Zero R]

omit [Zero R] in
theorem width_pos (S : Static R) (g : Gen R) (hg : g.p ≠ .poisson) : 0 < g.width S := by
  unfold Gen.width Gen.dims
  cases hp : g.p with
  | poisson => exact absurd hp hg
  | _ =>
    simp only [Spec.TieDims.oTemp, Spec.TieDims.oTempOpp, Spec.TieDims.oGOpp, Spec.TieDims.oOpp, Spec.TieDims.oGrad,
      Spec.TieDims.oU, Spec.TieDims.oGTest, Spec.TieDims.oTest]
    omega

/-- C207: after every history of proper calls in which data for elasticity or thermo-elasticity were generated,
`coeffs(i)` has one row per facet of the pair, as wide as a row of that problem, and the rows hold what the calls gave
last. Missing: the data of Poisson problems, and calls before data are generated (`C207_violated`). -/
theorem C207_coeffs_partial (S : Static R) (hS : S.Ok) (ops : List (Op R)) (hops : ProperHistory S Tracked.new ops)
    (g : Gen R) (hg : (ops.foldl Tracked.step Tracked.new).el = some g) (i : ℕ) (hi : i < S.pairs) :
    ∃ s A, run S State.init ops = some s ∧ pyCoeffs S s i = some A ∧ A.rows = S.nf i ∧ A.cols = g.width S
      ∧ ∀ e < S.nf i, g.Row S i e (A.entry e) := by
  obtain ⟨s, h1, H⟩ := good_history hS ops (good_init S) hops
  obtain ⟨F, hp, -⟩ := H.el g hg
  have hw := F.width
  have hpos := width_pos S g hp
  rw [← hw] at hpos
  refine ⟨s, _, h1, by rw [pyCoeffs, if_pos hi, if_neg (by omega)], ?_, hw, fun e he => ?_⟩
  · show (s.coeffs i).size / s.cstride = S.nf i
    rw [(F.rows i hi).1, hw, Nat.mul_div_cancel_left _ (by omega)]
  · have h := (F.rows i hi).2 e he
    rw [← hw] at h
    exact h

/-- The problem of a call. -/
def Op.problem : Op R → Problem
  | .gen p _ _ _ _ => p
  | .upd p _ => p

omit [Zero R] in
theorem updatePoisson_stride {S : Static R} {T : Func R} {s s' : State R} (h : updatePoisson S T s = .ok s') :
    s'.cstride = s.cstride := by
  unfold updatePoisson Out.ofOption at h
  dsimp only at h
  split at h
  · cases h
    rfl
  · cases h

omit [Zero R] in
theorem update_stride {S : Static R} {co : Coefs R} {s s' : State R}
    (h : updateKernelData S co .poisson s = .ok s' ∨ ∃ k, updateKernelData S co .poisson s = .throws s' k) :
    s'.cstride = s.cstride := by
  unfold updateKernelData at h
  dsimp only at h
  cases hT : co .T with
  | none =>
    rw [hT] at h
    rcases h with h | ⟨k, h⟩ <;> cases h
    rfl
  | some T =>
    rw [hT] at h
    rcases h with h | ⟨k, h⟩
    · exact updatePoisson_stride h
    · dsimp only at h
      unfold updatePoisson Out.ofOption at h
      dsimp only at h
      split at h <;> cases h

theorem poisson_stride {S : Static R} {s s' : State R} {op : Op R} (hop : op.problem = .poisson)
    (h : call S s op = .ok s' ∨ ∃ k, call S s op = .throws s' k) : s'.cstride = s.cstride := by
  cases op with
  | upd p co =>
    obtain rfl : p = .poisson := hop
    exact update_stride h
  | gen p V co gamma theta =>
    obtain rfl : p = .poisson := hop
    unfold call generateKernelData at h
    dsimp only at h
    cases hk : co .kdt with
    | none =>
      rw [hk] at h
      rcases h with h | ⟨k, h⟩ <;> cases h
      rfl
    | some kdt =>
      rw [hk] at h
      dsimp only at h
      have hgen : ∀ s1, generatePoisson S V kdt gamma theta s = .ok s1 → s1.cstride = s.cstride := by
        intro s1 h1
        unfold generatePoisson Out.ofOption at h1
        dsimp only at h1
        split at h1
        · cases h1
          rfl
        · cases h1
      cases hG : generatePoisson S V kdt gamma theta s with
      | ub =>
        rw [hG] at h
        rcases h with h | ⟨k, h⟩ <;> cases h
      | throws s1 k1 =>
        unfold generatePoisson Out.ofOption at hG
        dsimp only at hG
        split at hG <;> cases hG
      | ok s1 =>
        rw [hG] at h
        rw [← hgen s1 hG]
        cases hT : co .T with
        | none =>
          simp only [Out.bind, hT] at h
          rcases h with h | ⟨k, h⟩ <;> cases h
          rfl
        | some T =>
          simp only [Out.bind, hT] at h
          exact update_stride h

theorem run_poisson_stride {S : Static R} {ops : List (Op R)} (hops : ∀ op ∈ ops, op.problem = .poisson)
    {s s' : State R} (h : run S s ops = some s') : s'.cstride = s.cstride := by
  induction ops generalizing s with
  | nil =>
    cases h
    rfl
  | cons op ops ih =>
    have hop := hops op (List.mem_cons_self ..)
    have hrest := fun o ho => hops o (List.mem_cons_of_mem _ ho)
    unfold run at h
    cases hc : call S s op with
    | ub =>
      rw [hc] at h
      cases h
    | ok s1 =>
      rw [hc] at h
      rw [ih hrest h, poisson_stride hop (.inl hc)]
    | throws s1 k =>
      rw [hc] at h
      rw [ih hrest h, poisson_stride hop (.inr ⟨k, hc⟩)]

/-- Before data are generated, and after any calls for Poisson problems only, `coeffs` divides by zero. -/
theorem C207_violated (S : Static R) (hS : S.Ok) (ops : List (Op R)) (hops : ProperHistory S Tracked.new ops)
    (hp : ∀ op ∈ ops, op.problem = .poisson) :
    ∃ s, run S State.init ops = some s ∧ ∀ pair, pyCoeffs S s pair = none := by
  obtain ⟨s, h1, -⟩ := good_history hS ops (good_init S) hops
  refine ⟨s, h1, fun pair => ?_⟩
  have h0 : s.cstride = 0 := run_poisson_stride hp h1
  unfold pyCoeffs
  rw [h0]
  simp

/-- A scalar space. -/
def exW : Space ℤ := ⟨1, 1, fun _ => exPk 200 1, fun _ => exPk 300 2⟩

/-- Poisson data of two facets, generated without and updated with the temperature: a proper history. -/
example : exS.Ok ∧ ProperHistory exS Tracked.new [.gen .poisson exW exMat 1 1, .upd .poisson exCo]
    ∧ (run exS State.init [.gen .poisson exW exMat 1 1, .upd .poisson exCo]).map
        (fun s => ((s.coeffsP 0).size, (s.coeffsP 0).val 0, (s.coeffsP 0).val 1)) = some (22, 100, 4000) := by
  refine ⟨exSOk, ⟨⟨⟨rfl, fun _ _ => rfl, fun _ _ => rfl⟩, fun k _ f hf i _ => ?_, ?_, ?_⟩, ?_, trivial⟩, by decide +kernel⟩
  · cases k <;> cases hf <;> rfl
  · intro f hf
    cases hf
  · intro h
    cases h
  · refine fun _ => ⟨_, rfl, rfl, ?_, fun h => nomatch h⟩
    intro f hf
    cases hf
    exact ⟨rfl, rfl, exPacked _ _⟩

/-- The table of the example: two rows of width 22 (width of thermo-elastic data), the first entries. -/
example : (run exS State.init exOps).bind (fun s => (pyCoeffs exS s 0).map (fun A => (A.rows, A.cols, A.entry 0 0, A.entry 1 0)))
    = some (2, 22, 1000, 1001) := by decide +kernel

/-- Facets of the example, with data of a proper history: first pair, both rows. -/
example : exS.Ok ∧ ProperHistory exS Tracked.new exOps ∧ 0 < exS.pairs
    ∧ ∃ g, (exOps.foldl Tracked.step Tracked.new).el = some g ∧ g.p = .thermo :=
  ⟨exSOk, exProper, by decide, _, rfl, rfl⟩

end Verif.TieData
