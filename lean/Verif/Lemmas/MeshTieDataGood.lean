import Verif.Lemmas.MeshTieDataRows

/-! Invariant of the mesh tie data over all histories of calls. -/

namespace Verif.TieData

open Verif.Spec (TieDims)

variable {R : Type}

/-- The strides the kernels of a generation get. -/
def Gen.strides (S : Static R) (g : Gen R) : List ℕ :=
  match g.p with
  | .elasticity => TieData.strides S g.V false
  | .poisson => stridesP S g.V
  | .thermo => TieData.strides S g.V true

/-- Storage agrees with a generation. -/
structure FamGood (S : Static R) (g : Gen R) (C : ℕ) (consts : List R) (kRhs kJac : Option (List ℕ))
    (cs : ℕ → Buf R) : Prop where
  width : C = g.width S
  consts : consts = [g.gamma, g.theta]
  kRhs : kRhs = some (g.strides S)
  kJac : kJac = some (g.strides S)
  rows : Rows S (g.width S) (g.Row S) cs
  space : g.V.Packed S g.p

/-- The state agrees with what is remembered. -/
structure Good (S : Static R) (t : Tracked R) (s : State R) : Prop where
  el : ∀ g, t.el = some g → FamGood S g s.cstride s.consts s.kRhs s.kJac s.coeffs ∧ g.p ≠ .poisson
    ∧ (g.p = .thermo → s.kThermo = some (g.strides S))
  po : ∀ g, t.po = some g → FamGood S g s.cstrideP s.constsP s.kRhsP s.kJacP s.coeffsP ∧ g.p = .poisson

theorem good_init [Zero R] (S : Static R) : Good S Tracked.new (State.init (R := R)) :=
  ⟨fun g h => by simp [Tracked.new] at h, fun g h => by simp [Tracked.new] at h⟩

theorem sum_strides (S : Static R) (g : Gen R) (hV : g.V.Packed S g.p) :
    (g.strides S).sum = g.width S := by
  have hb := hV.bs
  unfold Gen.strides Gen.width Gen.dims
  cases hp : g.p <;> rw [hp] at hb <;> simp only [comps] at hb <;>
    simp only [TieData.strides, stridesP, List.sum_cons, List.sum_nil, TieDims.oTemp, TieDims.oTempOpp,
      TieDims.oGOpp, TieDims.oOpp, TieDims.oGrad, TieDims.oU, TieDims.oGTest, TieDims.oTest, hb,
      if_true, if_false, Bool.false_eq_true] <;> ring

theorem dims_bs (S : Static R) (g : Gen R) (hV : g.V.Packed S g.p) : (g.dims S).bs = g.V.bs := by
  have hb := hV.bs
  unfold Gen.dims
  cases hp : g.p <;> rw [hp] at hb <;> simp only [comps] at hb <;> simp only [hb]

theorem rows_mono {S : Static R} {C : ℕ} {P Q : ℕ → ℕ → (ℕ → R) → Prop} {cs : ℕ → Buf R}
    (H : Rows S C P cs) (h : ∀ i e c, P i e c → Q i e c) : Rows S C Q cs :=
  fun i hi => ⟨(H i hi).1, fun e he => h _ _ _ ((H i hi).2 e he)⟩

/-- Rows of a generation without solution. -/
theorem row_of_matrix {S : Static R} {g : Gen R} (hs : g.sol = none) {i e : ℕ} {c : ℕ → R}
    (h : g.MatrixRow S i e c) : g.Row S i e c :=
  ⟨h, fun co f hc => (by rw [hs] at hc; cases hc), fun co f hc => (by rw [hs] at hc; cases hc)⟩

/-- Forgetting or replacing the solution changes neither layout nor matrix data. -/
theorem matrix_sol {S : Static R} {g : Gen R} {co : Option (Coefs R)} {i e : ℕ} {c : ℕ → R}
    (h : g.MatrixRow S i e c) : Gen.MatrixRow S { g with sol := co } i e c :=
  ⟨h.lead, h.test, h.gtest⟩

section update
variable {S : Static R} {g : Gen R}

theorem updateElastic_ok {u : Func R} {s : State R} (hp : g.p = .elasticity) (hV : g.V.Packed S g.p)
    (hnd : u.nd = g.V.nd) (hbs : u.bs = g.V.bs) (hu : u.Packed S g.V.bs) (hC : s.cstride = g.width S)
    (H : Rows S (g.width S) (g.MatrixRow S) s.coeffs) :
    ∃ cs, updateElastic S u s = .ok { s with coeffs := cs } ∧ Rows S (g.width S) (Full S g u) cs := by
  have eb := dims_bs S g hV
  have hd : g.dims S = ⟨S.nq, g.V.nd, g.V.bs, S.gdim, S.ml, 3⟩ := by unfold Gen.dims; rw [hp]
  have hg : g.V.bs = S.gdim := by rw [hV.bs, hp]; rfl
  rw [← eb] at hu
  obtain ⟨c1, h1, H1⟩ := update_function hu H
    (o0 := 3 + 2 * (S.nq * S.ml * u.bs * u.nd))
    (o1 := 3 + 2 * (S.nq * S.ml * u.bs * u.nd) + (1 + S.gdim) * S.nq * u.bs)
    (by rw [hd, hnd, hbs]; simp only [TieDims.oU, TieDims.oGTest, TieDims.oTest, hg]; ring)
    (by rw [hd, hnd, hbs]; simp only [TieDims.oOpp, TieDims.oGrad, TieDims.oU, TieDims.oGTest, TieDims.oTest, hg]; ring) hC
  obtain ⟨c2, h2, H2⟩ := update_gradient hu H1
    (o0 := 3 + 2 * (S.nq * S.ml * u.bs * u.nd) + S.nq * u.bs)
    (o1 := 3 + 2 * (S.nq * S.ml * u.bs * u.nd) + (1 + S.gdim) * S.nq * u.bs + S.nq * u.bs)
    (by rw [hd, hnd, hbs]; simp only [TieDims.oGrad, TieDims.oU, TieDims.oGTest, TieDims.oTest, hg]; ring)
    (by rw [hd, hnd, hbs]; simp only [TieDims.oGOpp, TieDims.oOpp, TieDims.oGrad, TieDims.oU, TieDims.oGTest, TieDims.oTest, hg]; ring) hC
  refine ⟨c2, ?_, H2⟩
  unfold updateElastic
  dsimp only
  rw [h1, Option.bind_some, h2]
  rfl

theorem updatePoisson_ok {u : Func R} {s : State R} (hp : g.p = .poisson) (hV : g.V.Packed S g.p)
    (hnd : u.nd = g.V.nd) (hu : u.Packed S g.V.bs) (hC : s.cstrideP = g.width S)
    (H : Rows S (g.width S) (g.MatrixRow S) s.coeffsP) :
    ∃ cs, updatePoisson S u s = .ok { s with coeffsP := cs } ∧ Rows S (g.width S) (Full S g u) cs := by
  have eb := dims_bs S g hV
  have hd : g.dims S = ⟨S.nq, g.V.nd, 1, S.gdim, S.ml, 2⟩ := by unfold Gen.dims; rw [hp]
  rw [← eb] at hu
  obtain ⟨c1, h1, H1⟩ := update_function hu H
    (o0 := 2 + (1 + S.gdim) * (S.nq * S.ml * u.nd))
    (o1 := 2 + (1 + S.gdim) * (S.nq * S.ml * u.nd) + (1 + S.gdim) * S.nq)
    (by rw [hd, hnd]; simp only [TieDims.oU, TieDims.oGTest, TieDims.oTest]; ring)
    (by rw [hd, hnd]; simp only [TieDims.oOpp, TieDims.oGrad, TieDims.oU, TieDims.oGTest, TieDims.oTest]; ring) hC
  obtain ⟨c2, h2, H2⟩ := update_gradient hu H1
    (o0 := 2 + (1 + S.gdim) * (S.nq * S.ml * u.nd) + S.nq)
    (o1 := 2 + (1 + S.gdim) * (S.nq * S.ml * u.nd) + (1 + S.gdim) * S.nq + S.nq)
    (by rw [hd, hnd]; simp only [TieDims.oGrad, TieDims.oU, TieDims.oGTest, TieDims.oTest]; ring)
    (by rw [hd, hnd]; simp only [TieDims.oGOpp, TieDims.oOpp, TieDims.oGrad, TieDims.oU, TieDims.oGTest, TieDims.oTest]; ring) hC
  refine ⟨c2, ?_, H2⟩
  unfold updatePoisson
  dsimp only
  rw [h1, Option.bind_some, h2]
  rfl

theorem updateThermo_ok {u T : Func R} {s : State R} (hp : g.p = .thermo) (hV : g.V.Packed S g.p)
    (hnd : u.nd = g.V.nd) (hbs : u.bs = g.V.bs) (hu : u.Packed S g.V.bs) (hT : T.Packed S 1)
    (hC : s.cstride = g.width S) (H : Rows S (g.width S) (g.MatrixRow S) s.coeffs) :
    ∃ cs, updateThermo S u T s = .ok { s with coeffs := cs }
      ∧ Rows S (g.width S) (fun i e c => Full S g u i e c ∧ g.TempRow S T i e c) cs := by
  have eb := dims_bs S g hV
  have hd : g.dims S = ⟨S.nq, g.V.nd, g.V.bs, S.gdim, S.ml, 4⟩ := by unfold Gen.dims; rw [hp]
  have hg : g.V.bs = S.gdim := by rw [hV.bs, hp]; rfl
  rw [← eb] at hu
  obtain ⟨c1, h1, H1⟩ := update_function hu H
    (o0 := 4 + 2 * (S.nq * S.ml * u.bs * u.nd))
    (o1 := 4 + 2 * (S.nq * S.ml * u.bs * u.nd) + (1 + S.gdim) * S.nq * u.bs)
    (by rw [hd, hnd, hbs]; simp only [TieDims.oU, TieDims.oGTest, TieDims.oTest, hg]; ring)
    (by rw [hd, hnd, hbs]; simp only [TieDims.oOpp, TieDims.oGrad, TieDims.oU, TieDims.oGTest, TieDims.oTest, hg]; ring) hC
  obtain ⟨c2, h2, H2⟩ := update_gradient hu H1
    (o0 := 4 + 2 * (S.nq * S.ml * u.bs * u.nd) + S.nq * u.bs)
    (o1 := 4 + 2 * (S.nq * S.ml * u.bs * u.nd) + (1 + S.gdim) * S.nq * u.bs + S.nq * u.bs)
    (by rw [hd, hnd, hbs]; simp only [TieDims.oGrad, TieDims.oU, TieDims.oGTest, TieDims.oTest, hg]; ring)
    (by rw [hd, hnd, hbs]; simp only [TieDims.oGOpp, TieDims.oOpp, TieDims.oGrad, TieDims.oU, TieDims.oGTest, TieDims.oTest, hg]; ring) hC
  obtain ⟨c3, h3, H3⟩ := update_temperature hT hp H2
    (o0 := 4 + 2 * (S.nq * S.ml * u.bs * u.nd) + (1 + S.gdim) * S.nq * u.bs + S.nq * u.bs + S.nq * u.bs * S.gdim)
    (o1 := 4 + 2 * (S.nq * S.ml * u.bs * u.nd) + (1 + S.gdim) * S.nq * u.bs + S.nq * u.bs + S.nq * u.bs * S.gdim + S.nq)
    (by rw [hd, hnd, hbs]; simp only [TieDims.oTemp, TieDims.oGOpp, TieDims.oOpp, TieDims.oGrad, TieDims.oU, TieDims.oGTest, TieDims.oTest, hg]; ring)
    (by rw [hd, hnd, hbs]; simp only [TieDims.oTempOpp, TieDims.oTemp, TieDims.oGOpp, TieDims.oOpp, TieDims.oGrad, TieDims.oU, TieDims.oGTest, TieDims.oTest, hg]; ring) hC
  refine ⟨c3, ?_, H3⟩
  unfold updateThermo
  dsimp only
  rw [h1, Option.bind_some, h2, Option.bind_some, h3]
  rfl

end update

/-- Result of an update that finds its coefficients, for a matching generation. -/
theorem good_updated {S : Static R} {t : Tracked R} {s : State R} (H : Good S t s) {p : Problem}
    {co : Coefs R} {g : Gen R} (hg : t.get p = some g) (hgp : g.p = p) (hco : Given co (solution p))
    (hok : SolOk S p g.V co) :
    ∃ s', updateKernelData S co p s = .ok s'
      ∧ Good S (t.set p ((t.get p).map fun g => { g with sol := some co })) s' := by
  cases p with
  | elasticity =>
    obtain ⟨u, hu⟩ := Option.isSome_iff_exists.mp (hco .u (by simp [solution]))
    obtain ⟨F, hnp, -⟩ := H.el g hg
    obtain ⟨hnd, hbs, hpk⟩ := hok.sol u hu
    obtain ⟨cs, h1, h2⟩ := updateElastic_ok (s := s) hgp F.space hnd hbs hpk F.width
      (rows_mono F.rows (fun i e c h => h.matrix))
    refine ⟨{ s with coeffs := cs }, by unfold updateKernelData; rw [hu]; exact h1, fun g' hg' => ?_, fun g' hg' => H.po g' hg'⟩
    rw [hg] at hg'
    cases hg'
    refine ⟨⟨F.width, F.consts, F.kRhs, F.kJac, rows_mono h2 (fun i e c h => ⟨matrix_sol h.1, ?_, ?_⟩), F.space⟩, hnp, ?_⟩
    · intro co' f hc hf
      cases hc
      dsimp only at hf
      rw [hgp] at hf
      have : u = f := Option.some_injective _ (hu.symm.trans hf)
      subst this
      exact ⟨h.2.u, h.2.grad, h.2.opp, h.2.gopp⟩
    · intro co' f _ hth
      dsimp only at hth
      rw [hgp] at hth; cases hth
    · intro hth
      dsimp only at hth
      rw [hgp] at hth; cases hth
  | poisson =>
    obtain ⟨u, hu⟩ := Option.isSome_iff_exists.mp (hco .T (by simp [solution]))
    obtain ⟨F, hpp⟩ := H.po g hg
    obtain ⟨hnd, hbs, hpk⟩ := hok.sol u hu
    obtain ⟨cs, h1, h2⟩ := updatePoisson_ok (s := s) hgp F.space hnd hpk F.width
      (rows_mono F.rows (fun i e c h => h.matrix))
    refine ⟨{ s with coeffsP := cs }, by unfold updateKernelData; rw [hu]; exact h1, fun g' hg' => H.el g' hg', fun g' hg' => ?_⟩
    rw [hg] at hg'
    cases hg'
    refine ⟨⟨F.width, F.consts, F.kRhs, F.kJac, rows_mono h2 (fun i e c h => ⟨matrix_sol h.1, ?_, ?_⟩), F.space⟩, hpp⟩
    · intro co' f hc hf
      cases hc
      dsimp only at hf
      rw [hgp] at hf
      have : u = f := Option.some_injective _ (hu.symm.trans hf)
      subst this
      exact ⟨h.2.u, h.2.grad, h.2.opp, h.2.gopp⟩
    · intro co' f _ hth
      dsimp only at hth
      rw [hgp] at hth; cases hth
  | thermo =>
    obtain ⟨u, hu⟩ := Option.isSome_iff_exists.mp (hco .u (by simp [solution]))
    obtain ⟨T, hT⟩ := Option.isSome_iff_exists.mp (hco .T (by simp [solution]))
    obtain ⟨F, hnp, hth⟩ := H.el g hg
    obtain ⟨hnd, hbs, hpk⟩ := hok.sol u hu
    obtain ⟨cs, h1, h2⟩ := updateThermo_ok (s := s) hgp F.space hnd hbs hpk (hok.temp rfl T hT) F.width
      (rows_mono F.rows (fun i e c h => h.matrix))
    refine ⟨{ s with coeffs := cs }, by unfold updateKernelData; rw [hu]; dsimp only; rw [hT]; exact h1, fun g' hg' => ?_,
      fun g' hg' => H.po g' hg'⟩
    rw [hg] at hg'
    cases hg'
    refine ⟨⟨F.width, F.consts, F.kRhs, F.kJac, rows_mono h2 (fun i e c h => ⟨matrix_sol h.1.1, ?_, ?_⟩), F.space⟩, hnp, hth⟩
    · intro co' f hc hf
      cases hc
      dsimp only at hf
      rw [hgp] at hf
      have : u = f := Option.some_injective _ (hu.symm.trans hf)
      subst this
      exact ⟨h.1.2.u, h.1.2.grad, h.1.2.opp, h.1.2.gopp⟩
    · intro co' f hc _ hf
      cases hc
      have : T = f := Option.some_injective _ (hT.symm.trans hf)
      subst this
      exact ⟨h.2.temp, h.2.tempOpp⟩

/-- An update that misses a coefficient changes nothing. -/
theorem update_missing (S : Static R) (s : State R) (p : Problem) (co : Coefs R) :
    (∀ k, missingU p co = some k → updateKernelData S co p s = .throws s k)
    ∧ (missingU p co = none ↔ Given co (solution p)) := by
  unfold missingU Given
  cases p <;> cases hu : co .u <;> cases hT : co .T <;>
    simp [solution, List.find?, hu, hT, updateKernelData] <;> rintro _ ⟨⟩ <;> rfl

section generate
variable [Zero R] {S : Static R}

/-- The part of a generation that does not need the solution. -/
theorem good_matrix {t : Tracked R} {s : State R} (H : Good S t s) (hS : S.Ok) {p : Problem} {V : Space R}
    {co : Coefs R} {gamma theta : R} (hok : GenOk S p V co) (hreq : Given co (required p)) :
    ∃ s', Good S (t.set p (some ⟨p, V, co, gamma, theta, none⟩)) s'
      ∧ generateKernelData S p V co gamma theta s
        = if (co (trigger p)).isSome then updateKernelData S co p s' else .ok s' := by
  cases p with
  | elasticity =>
    obtain ⟨mu, hmu⟩ := Option.isSome_iff_exists.mp (hreq .mu (by simp [required]))
    obtain ⟨lam, hlam⟩ := Option.isSome_iff_exists.mp (hreq .lam (by simp [required]))
    have hV := hok.space
    have hw := sum_strides S ⟨.elasticity, V, co, gamma, theta, none⟩ hV
    obtain ⟨cs, h1, h2⟩ := fill_ok (g := ⟨.elasticity, V, co, gamma, theta, none⟩) hS rfl hV hmu hlam
      (hok.coef .mu (by simp [required]) mu hmu) (hok.coef .lam (by simp [required]) lam hlam)
      (c0 := 3) rfl hw s.coeffs
    refine ⟨⟨cs, (strides S V false).sum, [gamma, theta], some (strides S V false),
      some (strides S V false), s.kThermo, s.coeffsP, s.cstrideP, s.constsP, s.kRhsP, s.kJacP⟩,
      ⟨fun g hg => ?_, fun g hg => H.po g hg⟩, ?_⟩
    · cases hg
      exact ⟨⟨hw, rfl, rfl, rfl, rows_mono h2 (fun i e c h => row_of_matrix rfl h), hV⟩, by simp, by simp⟩
    · unfold generateKernelData
      dsimp only
      rw [hmu]; dsimp only; rw [hlam]; dsimp only
      have : generateMatrixOnly S V mu lam none gamma theta s = .ok ⟨cs, (strides S V false).sum,
          [gamma, theta], some (strides S V false), some (strides S V false), s.kThermo, s.coeffsP,
          s.cstrideP, s.constsP, s.kRhsP, s.kJacP⟩ := by
        unfold generateMatrixOnly
        dsimp only [Option.isSome]
        refine (congrArg _ h1).trans ?_
        rfl
      rw [this]
      unfold Out.bind
      dsimp only
      split <;> rename_i hu <;> simp only [trigger, hu, Option.isSome, if_true, if_false, Bool.false_eq_true]
  | poisson =>
    obtain ⟨kdt, hk⟩ := Option.isSome_iff_exists.mp (hreq .kdt (by simp [required]))
    have hV := hok.space
    have hw := sum_strides S ⟨.poisson, V, co, gamma, theta, none⟩ hV
    obtain ⟨cs, h1, h2⟩ := fill_poisson_ok (g := ⟨.poisson, V, co, gamma, theta, none⟩) hS rfl hV hk
      (hok.coef .kdt (by simp [required]) kdt hk) hw s.coeffsP
    refine ⟨⟨s.coeffs, s.cstride, s.consts, s.kRhs, s.kJac, s.kThermo, cs, (stridesP S V).sum,
      [gamma, theta], some (stridesP S V), some (stridesP S V)⟩,
      ⟨fun g hg => H.el g hg, fun g hg => ?_⟩, ?_⟩
    · cases hg
      exact ⟨⟨hw, rfl, rfl, rfl, rows_mono h2 (fun i e c h => row_of_matrix rfl h), hV⟩, rfl⟩
    · unfold generateKernelData
      dsimp only
      rw [hk]; dsimp only
      have : generatePoisson S V kdt gamma theta s = .ok ⟨s.coeffs, s.cstride, s.consts, s.kRhs, s.kJac,
          s.kThermo, cs, (stridesP S V).sum, [gamma, theta], some (stridesP S V), some (stridesP S V)⟩ := by
        unfold generatePoisson
        dsimp only
        refine (congrArg _ h1).trans ?_
        rfl
      rw [this]
      unfold Out.bind
      dsimp only
      split <;> rename_i hu <;> simp only [trigger, hu, Option.isSome, if_true, if_false, Bool.false_eq_true]
  | thermo =>
    obtain ⟨mu, hmu⟩ := Option.isSome_iff_exists.mp (hreq .mu (by simp [required]))
    obtain ⟨lam, hlam⟩ := Option.isSome_iff_exists.mp (hreq .lam (by simp [required]))
    obtain ⟨al, hal⟩ := Option.isSome_iff_exists.mp (hreq .alpha (by simp [required]))
    have hV := hok.space
    have hw := sum_strides S ⟨.thermo, V, co, gamma, theta, none⟩ hV
    obtain ⟨cs, h1, h2⟩ := fill_thermo_ok (g := ⟨.thermo, V, co, gamma, theta, none⟩) hS rfl hV hmu hlam hal
      (hok.coef .mu (by simp [required]) mu hmu) (hok.coef .lam (by simp [required]) lam hlam)
      (hok.coef .alpha (by simp [required]) al hal) (c0 := 4) rfl hw s.coeffs
    refine ⟨⟨cs, (strides S V true).sum, [gamma, theta], some (strides S V true),
      some (strides S V true), some (strides S V true), s.coeffsP, s.cstrideP, s.constsP, s.kRhsP, s.kJacP⟩,
      ⟨fun g hg => ?_, fun g hg => H.po g hg⟩, ?_⟩
    · cases hg
      exact ⟨⟨hw, rfl, rfl, rfl, rows_mono h2 (fun i e c h => row_of_matrix rfl h), hV⟩, by simp,
        fun _ => rfl⟩
    · unfold generateKernelData
      dsimp only
      rw [hmu]; dsimp only; rw [hlam]; dsimp only; rw [hal]; dsimp only
      have : generateMatrixOnly S V mu lam (some al) gamma theta s = .ok ⟨cs, (strides S V true).sum,
          [gamma, theta], some (strides S V true), some (strides S V true), some (strides S V true),
          s.coeffsP, s.cstrideP, s.constsP, s.kRhsP, s.kJacP⟩ := by
        unfold generateMatrixOnly
        dsimp only [Option.isSome]
        refine (congrArg _ h1).trans ?_
        rfl
      rw [this]
      unfold Out.bind
      dsimp only
      split <;> rename_i hu <;> simp only [trigger, hu, Option.isSome, if_true, if_false, Bool.false_eq_true]

/-- A generation that misses a required coefficient changes nothing. -/
theorem generate_missing (s : State R) (p : Problem) (V : Space R) (co : Coefs R) (gamma theta : R) :
    (∀ k, ((required p).find? fun k => (co k).isNone) = some k →
      generateKernelData S p V co gamma theta s = .throws s k)
    ∧ (((required p).find? fun k => (co k).isNone) = none ↔ Given co (required p)) := by
  unfold Given
  cases p
  · cases hm : co .mu <;> cases hl : co .lam <;>
      simp [required, List.find?, hm, hl, generateKernelData] <;> rintro _ ⟨⟩ <;> rfl
  · cases hk : co .kdt <;>
      simp [required, List.find?, hk, generateKernelData]
  · cases hm : co .mu <;> cases hl : co .lam <;> cases ha : co .alpha <;>
      simp [required, List.find?, hm, hl, ha, generateKernelData] <;> rintro _ ⟨⟩ <;> rfl

theorem set_set (t : Tracked R) (p : Problem) (a b : Option (Gen R)) : (t.set p a).set p b = t.set p b := by
  cases p <;> rfl

theorem get_set (t : Tracked R) (p : Problem) (a : Option (Gen R)) : (t.set p a).get p = a := by
  cases p <;> rfl

/-- Every proper call keeps the invariant, and is defined. -/
theorem good_call {t : Tracked R} {s : State R} (H : Good S t s) (hS : S.Ok) (o : Op R) (ho : t.Proper S o) :
    ∃ s', (call S s o = .ok s' ∨ ∃ k, call S s o = .throws s' k) ∧ Good S (t.step o) s' := by
  cases o with
  | upd p co =>
    show ∃ s', (updateKernelData S co p s = .ok s' ∨ ∃ k, updateKernelData S co p s = .throws s' k) ∧ _
    by_cases hg : Given co (solution p)
    · obtain ⟨g, h1, h2, h3⟩ := ho hg
      obtain ⟨s', h4, h5⟩ := good_updated H h1 h2 hg h3
      refine ⟨s', .inl h4, ?_⟩
      unfold Tracked.step
      dsimp only
      rw [if_pos hg]
      exact h5
    · obtain ⟨m1, m2⟩ := update_missing S s p co
      have : missingU p co ≠ none := fun h => hg (m2.mp h)
      obtain ⟨k, hk⟩ := Option.ne_none_iff_exists'.mp this
      refine ⟨s, .inr ⟨k, m1 k hk⟩, ?_⟩
      unfold Tracked.step
      dsimp only
      rw [if_neg hg]
      exact H
  | gen p V co gamma theta =>
    show ∃ s', (generateKernelData S p V co gamma theta s = .ok s' ∨ ∃ k, generateKernelData S p V co gamma theta s = .throws s' k) ∧ _
    by_cases hg : Given co (required p)
    · obtain ⟨s1, h1, h2⟩ := good_matrix (gamma := gamma) (theta := theta) H hS ho hg
      unfold Tracked.step
      dsimp only
      rw [if_pos hg, h2]
      by_cases ht : (co (trigger p)).isSome
      · rw [if_pos ht]
        by_cases hsol : Given co (solution p)
        · obtain ⟨s2, h3, h4⟩ := good_updated h1 (get_set t p _) rfl hsol ho.sol
          refine ⟨s2, .inl h3, ?_⟩
          rw [set_set, get_set] at h4
          rw [if_pos hsol]
          exact h4
        · obtain ⟨m1, m2⟩ := update_missing S s1 p co
          obtain ⟨k, hk⟩ := Option.ne_none_iff_exists'.mp (fun h => hsol (m2.mp h))
          refine ⟨s1, .inr ⟨k, m1 k hk⟩, ?_⟩
          rw [if_neg hsol]
          exact h1
      · rw [if_neg ht]
        have hsol : ¬Given co (solution p) := fun h => ht (h _ (by cases p <;> simp [trigger, solution]))
        rw [if_neg hsol]
        exact ⟨s1, .inl rfl, h1⟩
    · obtain ⟨m1, m2⟩ := generate_missing (S := S) s p V co gamma theta
      obtain ⟨k, hk⟩ := Option.ne_none_iff_exists'.mp (fun h => hg (m2.mp h))
      refine ⟨s, .inr ⟨k, m1 k hk⟩, ?_⟩
      unfold Tracked.step
      dsimp only
      rw [if_neg hg]
      exact H

theorem good_history (hS : S.Ok) (ops : List (Op R)) {t : Tracked R} {s : State R} (H : Good S t s)
    (h : ProperHistory S t ops) : ∃ s', run S s ops = some s' ∧ Good S (ops.foldl Tracked.step t) s' := by
  induction ops generalizing t s with
  | nil => exact ⟨s, rfl, H⟩
  | cons o os ih =>
    obtain ⟨s1, h1, h2⟩ := good_call H hS o h.1
    obtain ⟨s2, h3, h4⟩ := ih h2 h.2
    refine ⟨s2, ?_, h4⟩
    show (match call S s o with | .ok s' => run S s' os | .throws s' _ => run S s' os | .ub => none) = _
    rcases h1 with h1 | ⟨k, h1⟩ <;> rw [h1] <;> exact h3

end generate

end Verif.TieData
