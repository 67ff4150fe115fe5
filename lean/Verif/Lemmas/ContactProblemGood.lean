import Verif.Lemmas.ContactProblemSteps

/-! The invariant of `ContactProblem`: the rows hold the tracked data. -/

namespace Verif.ContactProblem

open Verif.Spec

noncomputable section

variable {G : Type}

theorem RowIs.congr {A B T : ℕ} {σ τ : Slots} {c : ℕ → ℝ} (H : RowIs A B T σ c) (h1 : σ.mu = τ.mu)
    (h2 : σ.lam = τ.lam) (h3 : σ.fric = τ.fric) (h4 : σ.h = τ.h) (h5 : ∀ m < A, σ.gap m = τ.gap m)
    (h6 : ∀ m < A, σ.normal m = τ.normal m) (h7 : ∀ m < T, σ.test m = τ.test m)
    (h8 : ∀ m < A, σ.u m = τ.u m) (h9 : ∀ m < B, σ.grad m = τ.grad m) (h10 : ∀ m < A, σ.opp m = τ.opp m)
    (h11 : ∀ m < A, σ.old m = τ.old m) : RowIs A B T τ c where
  mu := H.mu.trans h1
  lam := H.lam.trans h2
  fric := H.fric.trans h3
  h := H.h.trans h4
  gap := fun m hm => (H.gap m hm).trans (h5 m hm)
  normal := fun m hm => (H.normal m hm).trans (h6 m hm)
  test := fun m hm => (H.test m hm).trans (h7 m hm)
  u := fun m hm => (H.u m hm).trans (h8 m hm)
  grad := fun m hm => (H.grad m hm).trans (h9 m hm)
  opp := fun m hm => (H.opp m hm).trans (h10 m hm)
  old := fun m hm => (H.old m hm).trans (h11 m hm)

/-- The tracked data of a facet. -/
def slots (S : Static G) (t : Tracked G) (i e : ℕ) : Slots where
  mu := t.mu i e 0
  lam := t.lam i e 0
  fric := t.fric i e 0
  h := t.h i e 0
  gap := (S.gap t.cur i).v e
  normal := normals S t.cur i e
  test := (S.test t.cur i).v e
  u := t.disp i e
  grad := t.dispGrad i e
  opp := t.dispOpp i e
  old := normals S t.prev i e

/-- The data of pair `i`. -/
structure PairOk (S : Static G) (t : Tracked G) (i : ℕ) (gu m : Mat) (n : ℕ) : Prop where
  nq : n = S.nq
  shape : ArrShape S i m
  gradShape : gu.rows = S.entities i ∧ gu.cols = sB S
  grad : ∀ e < S.entities i, ∀ c < sB S, gu.v e c = t.gradU i e c
  hcol : ∀ e < S.entities i, m.v e 3 = t.h i e 0
  row : ∀ e < S.localFacets i, RowIs (sA S) (sB S) (sT S) (slots S t i e) (m.v e)

/-- The object after generating. -/
def Full (S : Static G) (t : Tracked G) (s : State G) : Prop :=
  ∃ cs nQ, s.coeffs = some cs ∧ s.numQ = some nQ ∧ ∀ i < S.numPairs, PairOk S t i (s.gradU i) (cs i) (nQ i)

/-- The invariant. -/
structure Good (S : Static G) (t : Tracked G) (s : State G) : Prop where
  geom : s.geom = t.cur
  det : ∀ i < S.numPairs, s.detected i = t.cur
  ml : ∀ i < S.numPairs, s.maxLinks i = S.nq
  fresh : t.created = false → s.coeffs = none ∧ s.numQ = none ∧ t.fric = (fun _ _ _ => 0)
    ∧ t.disp = (fun _ _ _ => 0) ∧ t.dispGrad = (fun _ _ _ => 0) ∧ t.dispOpp = (fun _ _ _ => 0)
  full : t.created = true → Full S t s

theorem good_init (S : Static G) (g : G) : Good S (Tracked.new g) (init S g) := by
  obtain ⟨h1, h2, h3, -, -, -, -, h8, h9⟩ := createDistanceMaps_spec S
    { geom := g, detected := fun _ => g, maxLinks := fun _ => 0, coeffs := none, numQ := none,
      gradU := fun _ => zeros 0 0, consts := (0, 0), matKernels := [], vecKernels := [] }
  exact ⟨h1, h8, h9, fun _ => ⟨h2, h3, rfl, rfl, rfl, rfl⟩, fun h => by cases h⟩

/-! ### update_contact_data -/

theorem good_updateData {S : Static G} (hS : Static.Shaped S) {du : Du G} (hdu : DuShaped S du) {t : Tracked G}
    {s : State G} (H : Good S t s) (hc : t.created = true) :
    ∃ s', updateContactData S du s = .ok s' ∧ Good S (t.setDu du) s' := by
  obtain ⟨cs, nQ, hs, hn, hp⟩ := H.full hc
  refine ⟨_, updateData_eq hS hdu hs hn H.ml (fun i hi => (hp i hi).nq) (fun i hi => (hp i hi).gradShape)
    (fun i hi => (hp i hi).shape), ⟨H.geom, H.det, H.ml, fun h => ?_, fun _ => ?_⟩⟩
  · rw [show (t.setDu du).created = t.created from rfl, hc] at h; cases h
  · refine ⟨_, nQ, rfl, hn, fun i hi => ?_⟩
    have P := hp i hi
    refine ⟨P.nq, ?_, P.gradShape, P.grad, fun e he => ?_, fun e he => ?_⟩
    · simp only [if_pos hi]; exact P.shape
    · simp only [if_pos hi]
      unfold duF
      rw [put_out (by omega), put_out (by omega), put_out (by omega)]
      exact P.hcol e he
    · simp only [if_pos hi]
      have hl := hS.loc i hi
      have R := (((P.row e he).put_u (h := S.entities i) (d := (du.val i).v) (by omega) rfl rfl).put_grad
        (h := S.entities i) (d := fun r c => (du.grad i).v r c + (s.gradU i).v r c) (by omega) rfl rfl).put_opp
        (h := S.localFacets i) (d := (du.opp (s.detected i) i).v) he rfl rfl
      refine R.congr rfl rfl rfl rfl (fun _ _ => rfl) (fun _ _ => rfl) (fun _ _ => rfl) (fun _ _ => rfl)
        (fun m hm => ?_) (fun m hm => ?_) (fun _ _ => rfl)
      · show (du.grad i).v e m + (s.gradU i).v e m = (du.grad i).v e m + t.gradU i e m
        rw [P.grad e (by omega) m hm]
      · show (du.opp (s.detected i) i).v e m = (du.opp t.cur i).v e m
        rw [H.det i hi]

/-- Before generating, updates raise and change nothing. -/
theorem fresh_updateData {S : Static G} (hS : Static.Shaped S) (du : Du G) {s : State G} (hn : s.numQ = none) :
    updateContactData S du s = .error (.attributeError, s) := by
  obtain ⟨k, hk⟩ : ∃ k, S.numPairs = k + 1 := ⟨S.numPairs - 1, by have := hS.pairs; omega⟩
  unfold updateContactData forRange
  rw [hk, List.range_succ_eq_map, forIn]
  unfold updateDataPair withNumQ
  rw [hn]
  rfl

/-! ### update_contact_detection -/

theorem good_updateDetection {S : Static G} (hS : Static.Shaped S) (move : G → G) {gu : ℕ → Mat}
    (hgu : GradShaped S gu) {t : Tracked G} {s : State G} (H : Good S t s) (hc : t.created = true) :
    ∃ s', updateDetection S move gu s = .ok s' ∧
      Good S { t with cur := move t.cur, prev := t.cur, gradU := vals gu } s' := by
  obtain ⟨cs, nQ, hs, hn, hp⟩ := H.full hc
  obtain ⟨c1, c2, c3, c4, -, -, -, c8, c9⟩ := createDistanceMaps_spec S { s with geom := move s.geom }
  unfold updateDetection
  dsimp only
  generalize createDistanceMaps S { s with geom := move s.geom } = s1 at *
  dsimp only at c1 c2 c3 c4 c8
  rw [hs] at c2
  rw [hn] at c3
  rw [H.geom] at c1 c8
  rw [maxLinks_eq hS.pairs c9]
  have L1 := forRange_coeffs S.numPairs (saveNormals S S.nq) s1 cs c2 (saveF S) (fun i hi s' cs' e h => by
    subst e
    have := saveNormals_eq (S := S) (i := i) (s := s1) (cs := cs') c3 (hp i hi).nq (by rw [h]; exact (hp i hi).shape)
    rw [this, h])
  rw [L1, bind_ok]
  generalize hcs1 : (fun i => if i < S.numPairs then saveF S i (cs i) else cs i) = cs1
  have hsh : ∀ i < S.numPairs, ArrShape S i (cs1 i) := by
    intro i hi
    rw [← hcs1]
    simp only [if_pos hi]
    exact (hp i hi).shape
  have L2 := forRange_coeffs S.numPairs (repack S S.nq) (withCoeffs s1 cs1) cs1 rfl (geoF S s1) (fun i hi s' cs' e h => by
    subst e
    have := repack_eq hS hi (s := s1) (cs := cs') c3 (hp i hi).nq (by rw [h]; exact hsh i hi)
    rw [h] at this
    exact this)
  rw [L2, bind_ok]
  refine ⟨_, rfl, ⟨c1, c8, c9, fun h => ?_, fun _ => ?_⟩⟩
  · rw [show ({ t with cur := move t.cur, prev := t.cur, gradU := vals gu } : Tracked G).created = t.created from rfl, hc] at h
    cases h
  · refine ⟨_, nQ, rfl, c3, fun i hi => ?_⟩
    have P := hp i hi
    refine ⟨P.nq, ?_, hgu i hi, fun _ _ _ _ => rfl, fun e he => ?_, fun e he => ?_⟩
    · simp only [if_pos hi]; exact hsh i hi
    · simp only [if_pos hi]
      have hc1 : cs1 i = saveF S i (cs i) := by rw [← hcs1]; simp only [if_pos hi]
      rw [hc1]
      unfold geoF saveF
      rw [put_out (by omega), put_out (by omega), put_out (by omega), put_out (by omega)]
      exact P.hcol e he
    · simp only [if_pos hi]
      have hl := hS.loc i hi
      have hc1 : cs1 i = saveF S i (cs i) := by rw [← hcs1]; simp only [if_pos hi]
      have R0 := (P.row e he).put_old (h := S.entities i) (d := fun r c => (cs i).v r (4 + sA S + c)) (by omega)
        rfl (hi := sRow S) rfl
      have hc1' : put (cs i) (S.entities i) (4 + 4 * sA S + sT S + sB S) (sRow S)
          (fun r c => (cs i).v r (4 + sA S + c)) = cs1 i := hc1.symm
      rw [hc1'] at R0
      have R := ((R0.put_gap (h := S.localFacets i) (d := (S.gap (s1.detected i) i).v) he rfl rfl).put_normal
        (h := S.localFacets i) (d := (packNormals S s1 i).v) he rfl rfl).put_test
        (h := S.localFacets i) (d := (S.test (s1.detected i) i).v) he rfl rfl
      refine R.congr rfl rfl rfl rfl (fun m hm => ?_) (fun m hm => ?_) (fun m hm => ?_) (fun _ _ => rfl)
        (fun _ _ => rfl) (fun _ _ => rfl) (fun m hm => ?_)
      · show (S.gap (s1.detected i) i).v e m = (S.gap (move t.cur) i).v e m
        rw [c8 i hi]
      · show (packNormals S s1 i).v e m = normals S (move t.cur) i e m
        rw [packNormals_v, c8 i hi]
      · show (S.test (s1.detected i) i).v e m = (S.test (move t.cur) i).v e m
        rw [c8 i hi]
      · exact (P.row e he).normal m hm

/-- Before generating, the detection is done on the new geometry, then an error is raised. -/
theorem fresh_updateDetection {S : Static G} (hS : Static.Shaped S) (move : G → G) (gu : ℕ → Mat)
    {t : Tracked G} {s : State G} (H : Good S t s) (hc : t.created = false) :
    ∃ s', updateDetection S move gu s = .error (.attributeError, s') ∧ Good S { t with cur := move t.cur } s' := by
  obtain ⟨f1, f2, f3⟩ := H.fresh hc
  obtain ⟨c1, c2, c3, c4, -, -, -, c8, c9⟩ := createDistanceMaps_spec S { s with geom := move s.geom }
  unfold updateDetection
  dsimp only
  generalize createDistanceMaps S { s with geom := move s.geom } = s1 at *
  dsimp only at c1 c2 c3 c8
  rw [f1] at c2
  rw [f2] at c3
  rw [H.geom] at c1 c8
  refine ⟨s1, ?_, ⟨c1, c8, c9, fun _ => ⟨c2, c3, f3⟩, fun h => ?_⟩⟩
  · obtain ⟨k, hk⟩ : ∃ k, S.numPairs = k + 1 := ⟨S.numPairs - 1, by have := hS.pairs; omega⟩
    unfold forRange
    rw [hk, List.range_succ_eq_map, forIn]
    unfold saveNormals withNumQ
    rw [c3]
    rfl
  · rw [show ({ t with cur := move t.cur } : Tracked G).created = t.created from rfl, hc] at h
    cases h

/-! ### generate_contact_data -/

/-- The tracked data before the displacement increment is packed. -/
def genT (t : Tracked G) (a : GenArgs G) (mu lam : ℕ → Mat) : Tracked G := { t with
  created := true
  prev := if t.created then t.prev else t.cur
  mu := vals mu
  lam := vals lam
  fric := match a.fric with
    | some f => vals f
    | none => t.fric
  h := vals a.h
  gradU := match a.u with
    | some u => vals u
    | none => fun _ _ _ => 0 }

theorem row_zero {A B T : ℕ} : RowIs A B T
    ⟨0, 0, 0, 0, fun _ => 0, fun _ => 0, fun _ => 0, fun _ => 0, fun _ => 0, fun _ => 0, fun _ => 0⟩
    (fun _ => 0) :=
  ⟨rfl, rfl, rfl, rfl, fun _ _ => rfl, fun _ _ => rfl, fun _ _ => rfl, fun _ _ => rfl, fun _ _ => rfl,
    fun _ _ => rfl, fun _ _ => rfl⟩

theorem scaF_row {S : Static G} {mu lam : ℕ → Mat} {fric : Option (ℕ → Mat)} {h : ℕ → Mat} {i e : ℕ} {m : Mat}
    {σ : Slots} (he : e < S.entities i) (H : RowIs (sA S) (sB S) (sT S) σ (m.v e)) :
    RowIs (sA S) (sB S) (sT S) { σ with
      mu := (mu i).v e 0
      lam := (lam i).v e 0
      fric := match fric with
        | some f => (f i).v e 0
        | none => σ.fric
      h := (h i).v e 0 } ((scaF S mu lam fric h i m).v e) := by
  have R := (H.put_mu (h := S.entities i) (d := fun r _ => (mu i).v r 0) he).put_lam
    (h := S.entities i) (d := fun r _ => (lam i).v r 0) he
  cases fric with
  | none => exact R.put_h (h := S.entities i) (d := fun r _ => (h i).v r 0) he
  | some f =>
    have R' := R.put_fric (h := S.entities i) (d := fun r _ => (f i).v r 0) he
    exact R'.put_h (h := S.entities i) (d := fun r _ => (h i).v r 0) he

theorem geoF_row {S : Static G} {s : State G} {i e : ℕ} {m : Mat} {σ : Slots} {g : G} (hg : s.detected i = g)
    (he : e < S.localFacets i) (H : RowIs (sA S) (sB S) (sT S) σ (m.v e)) :
    RowIs (sA S) (sB S) (sT S) { σ with
      gap := (S.gap g i).v e
      normal := normals S g i e
      test := (S.test g i).v e } ((geoF S s i m).v e) := by
  have R := ((H.put_gap (h := S.localFacets i) (d := (S.gap (s.detected i) i).v) he rfl rfl).put_normal
        (h := S.localFacets i) (d := (packNormals S s i).v) he rfl rfl).put_test
        (h := S.localFacets i) (d := (S.test (s.detected i) i).v) he rfl rfl
  subst hg
  exact R.congr rfl rfl rfl rfl (fun _ _ => rfl) (fun m hm => packNormals_v S s i e m) (fun _ _ => rfl)
    (fun _ _ => rfl) (fun _ _ => rfl) (fun _ _ => rfl) (fun _ _ => rfl)

/-- New kernels and constants. -/
def withKernels (s : State G) (ks : List (Kernels.Kernel × ℕ) × List (Kernels.Kernel × ℕ)) (c : ℝ × ℝ) : State G :=
  { s with matKernels := ks.1, vecKernels := ks.2, consts := c }

/-- A new gradient. -/
def withGradU (s : State G) (gu : ℕ → Mat) : State G := { s with gradU := gu }

/-- Zero gradients, for the number of points in `s`. -/
def zeroGrad (S : Static G) (s : State G) (i : ℕ) : Mat :=
  zeros (S.entities i) ((s.numQ.getD (fun _ => 0)) i * S.gdim * S.gdim)

/-- The loop that packs the gradient of `u`. -/
theorem gradU_loop {S : Static G} {u : ℕ → Mat} (hu : GradShaped S u) (s : State G)
    (hz : ∀ i < S.numPairs, (s.gradU i).rows = S.entities i ∧ (s.gradU i).cols = sB S) :
    ∃ gu, forRange S.numPairs (fun i s =>
          match assign (s.gradU i) (S.entities i) 0 (s.gradU i).cols (u i) with
          | .ok m => .ok { s with gradU := Function.update s.gradU i m }
          | .error e => .error (e, s)) s = .ok { s with gradU := gu }
      ∧ ∀ i < S.numPairs, (gu i).rows = S.entities i ∧ (gu i).cols = sB S
        ∧ ∀ e < S.entities i, ∀ c < sB S, (gu i).v e c = (u i).v e c := by
  obtain ⟨s', h1, gu, h2, h3, -⟩ := forRange_ok (fun k s' => ∃ gu, s' = { s with gradU := gu } ∧
      (∀ i < k, (gu i).rows = S.entities i ∧ (gu i).cols = sB S
        ∧ ∀ e < S.entities i, ∀ c < sB S, (gu i).v e c = (u i).v e c) ∧ (∀ i, k ≤ i → gu i = s.gradU i))
    S.numPairs (fun i s =>
          match assign (s.gradU i) (S.entities i) 0 (s.gradU i).cols (u i) with
          | .ok m => (.ok { s with gradU := Function.update s.gradU i m } : Res G)
          | .error e => .error (e, s)) s ⟨s.gradU, rfl, by omega, fun _ _ => rfl⟩ (by
    rintro i hi s' ⟨gu, rfl, g1, g2⟩
    have hgi : gu i = s.gradU i := g2 i (le_refl _)
    obtain ⟨z1, z2⟩ := hz i hi
    obtain ⟨u1, u2⟩ := hu i hi
    have u2' : (u i).cols = sB S := u2
    have ha : assign (gu i) (S.entities i) 0 (gu i).cols (u i)
        = .ok (put (gu i) (S.entities i) 0 (gu i).cols (u i).v) :=
      assign_eq (by rw [hgi, z1]) (by omega) (le_refl _) u1 (by rw [hgi, u2', z2]; omega)
    refine ⟨_, by dsimp only; rw [ha], _, rfl, fun j hj => ?_, fun j hj => ?_⟩
    · by_cases hji : j = i
      · subst hji
        rw [Function.update_self]
        refine ⟨by rw [← z1, ← hgi]; rfl, by rw [← z2, ← hgi]; rfl, fun e he c hc => ?_⟩
        have := put_in (m := gu j) (h := S.entities j) (lo := 0) (hi := (gu j).cols) (d := (u j).v) (k := c) he
          (by rw [hgi, z2]; omega)
        rwa [Nat.zero_add] at this
      · rw [Function.update_of_ne hji]; exact g1 j (by omega)
    · rw [Function.update_of_ne (by omega)]; exact g2 j (by omega))
  exact ⟨gu, by rw [← h2]; exact h1, h3⟩

theorem retrieve_ok {a : GenArgs G} {mu lam : ℕ → Mat} (h1 : a.mu = some mu) (h2 : a.lam = some lam) :
    retrieve a = .ok (match a.fric with
      | some f => [mu, lam, f]
      | none => [mu, lam]) := by
  unfold retrieve
  rw [h1, h2]
  dsimp only
  cases a.fric <;> rfl

theorem good_generate {S : Static G} (hS : Static.Shaped S) {a : GenArgs G} (ha : OpShaped S (.generate a))
    {mu lam : ℕ → Mat} (h1 : a.mu = some mu) (h2 : a.lam = some lam) {t : Tracked G} {s : State G}
    (H : Good S t s) :
    ∃ s', generate S a s = .ok s' ∧ Good S (t.call (.generate a)) s'
      ∧ s'.consts = (a.gamma, a.theta) ∧ (s'.matKernels, s'.vecKernels) = kernels a.law S.nq := by
  obtain ⟨a1, a2, a3, a4, a5, a6⟩ := ha
  have hmu := a1 mu h1
  have hlam := a2 lam h2
  have htc : t.call (.generate a) = match a.du with
      | some du => (genT t a mu lam).setDu du
      | none => genT t a mu lam := by
    simp only [Tracked.call, h1, h2]
    cases a.du <;> rfl
  have hml' : maxLinks S s = S.nq := maxLinks_eq hS.pairs H.ml
  generalize keysdef : (match a.fric with
      | some f => [mu, lam, f]
      | none => [mu, lam]) = keys
  have hfill : generate S a s = fill S a keys (withKernels s (kernels a.law S.nq) (a.gamma, a.theta)) := by
    unfold generate
    dsimp only
    rw [retrieve_ok h1 h2, hml', keysdef]
    rfl
  rw [hfill]
  generalize hs1 : withKernels s (kernels a.law S.nq) (a.gamma, a.theta) = s1
  have k1 : s1.geom = t.cur := by rw [← hs1]; exact H.geom
  have k2 : ∀ i < S.numPairs, s1.detected i = t.cur := by rw [← hs1]; exact H.det
  have k3 : ∀ i < S.numPairs, s1.maxLinks i = S.nq := by rw [← hs1]; exact H.ml
  have k4 : s1.coeffs = s.coeffs := by rw [← hs1]; rfl
  have k5 : s1.consts = (a.gamma, a.theta) := by rw [← hs1]; rfl
  have k6 : (s1.matKernels, s1.vecKernels) = kernels a.law S.nq := by rw [← hs1]; rfl
  have hml : maxLinks S s1 = S.nq := maxLinks_eq hS.pairs k3
  unfold fill
  dsimp only
  rw [hml, size_eq hS]
  -- the arrays at the start
  obtain ⟨cs0, hcs0, hsh0, hrow0⟩ : ∃ cs0 : ℕ → Mat,
      (if s1.coeffs.isNone = true then
          ({ s1 with coeffs := some (fun i => zeros (S.entities i) (sRow S)) } : State G) else s1)
        = withCoeffs s1 cs0
      ∧ (∀ i < S.numPairs, ArrShape S i (cs0 i))
      ∧ ∀ i < S.numPairs, ∀ e < S.localFacets i, ∃ σ : Slots, RowIs (sA S) (sB S) (sT S) σ ((cs0 i).v e)
        ∧ σ.fric = t.fric i e 0 ∧ σ.u = t.disp i e ∧ σ.grad = t.dispGrad i e ∧ σ.opp = t.dispOpp i e
        ∧ (s1.coeffs.isNone = false → σ.old = normals S t.prev i e) := by
    cases hcr : t.created with
    | false =>
      obtain ⟨f1, -, f3, f4, f5, f6⟩ := H.fresh hcr
      rw [k4, f1]
      refine ⟨fun i => zeros (S.entities i) (sRow S), rfl, fun i _ => ⟨rfl, rfl⟩, fun i _ e _ =>
        ⟨_, row_zero, ?_, ?_, ?_, ?_, fun h => by cases h⟩⟩
      · rw [f3]
      · rw [f4]
      · rw [f5]
      · rw [f6]
    | true =>
      obtain ⟨cs, nQ, hs, hn, hp⟩ := H.full hcr
      rw [k4, hs]
      refine ⟨cs, ?_, fun i hi => (hp i hi).shape, fun i hi e he =>
        ⟨_, (hp i hi).row e he, rfl, rfl, rfl, rfl, fun _ => rfl⟩⟩
      rw [if_neg (by simp), withCoeffs, ← hs, ← k4]
  have hnew : s1.coeffs.isNone = !t.created := by
    cases hcr : t.created with
    | false => rw [k4, (H.fresh hcr).1]; rfl
    | true => obtain ⟨cs, nQ, hs, -⟩ := H.full hcr; rw [k4, hs]; rfl
  rw [hcs0]
  have L1 := forRange_coeffs S.numPairs (genScalars S keys a.h) (withCoeffs s1 cs0) cs0 rfl
    (scaF S mu lam a.fric a.h) (fun i hi s' cs' e h => by
      subst e
      have := genScalars_eq (s := s1) (cs := cs') hmu hlam a3 a4 keys keysdef.symm hi (by rw [k2 i hi, k1]) (k3 i hi)
        (by rw [h]; exact hsh0 i hi)
      rw [h] at this
      exact this)
  rw [L1, bind_ok]
  generalize hcs1 : (fun i => if i < S.numPairs then scaF S mu lam a.fric a.h i (cs0 i) else cs0 i) = cs1
  have hc1 : ∀ i < S.numPairs, cs1 i = scaF S mu lam a.fric a.h i (cs0 i) := by
    intro i hi; rw [← hcs1]; simp only [if_pos hi]
  have hsh1 : ∀ i < S.numPairs, ArrShape S i (cs1 i) := by
    intro i hi
    rw [hc1 i hi]
    unfold scaF
    cases a.fric <;> exact hsh0 i hi
  have hml1 : maxLinks S (withCoeffs (withCoeffs s1 cs0) cs1) = S.nq := maxLinks_eq hS.pairs k3
  rw [hml1]
  have L2 := genGeometry_loop hS s1.coeffs.isNone (s := s1) (cs := cs1) (nQ := fun _ => 0) hsh1
  have hst : ({ withCoeffs (withCoeffs s1 cs0) cs1 with numQ := some (fun _ => 0) } : State G)
      = withBoth s1 cs1 (fun _ => 0) := rfl
  rw [hst, L2, bind_ok]
  generalize hcs2 : (fun i => if i < S.numPairs then genF S s1.coeffs.isNone s1 i (cs1 i) else cs1 i) = cs2
  generalize hnQ : (fun i => if i < S.numPairs then S.nq else (fun _ => 0 : ℕ → ℕ) i) = nQ
  have hc2 : ∀ i < S.numPairs, cs2 i = genF S s1.coeffs.isNone s1 i (cs1 i) := by
    intro i hi; rw [← hcs2]; simp only [if_pos hi]
  have hn2 : ∀ i < S.numPairs, nQ i = S.nq := by
    intro i hi; rw [← hnQ]; simp only [if_pos hi]
  have hsh2 : ∀ i < S.numPairs, ArrShape S i (cs2 i) := by
    intro i hi
    rw [hc2 i hi, genF]
    split <;> exact hsh1 i hi
  -- the gradient
  have hgr : ∃ gu, packGradU S a.u (withBoth s1 cs2 nQ) = .ok (withGradU (withBoth s1 cs2 nQ) gu)
      ∧ ∀ i < S.numPairs, (gu i).rows = S.entities i ∧ (gu i).cols = sB S
        ∧ ∀ e < S.entities i, ∀ c < sB S, (gu i).v e c = (genT t a mu lam).gradU i e c := by
    have hz : ∀ i < S.numPairs, (zeroGrad S (withBoth s1 cs2 nQ) i).rows = S.entities i ∧
        (zeroGrad S (withBoth s1 cs2 nQ) i).cols = sB S := by
      intro i hi
      refine ⟨rfl, ?_⟩
      show nQ i * S.gdim * S.gdim = _
      rw [hn2 i hi]; rfl
    cases hu : a.u with
    | none =>
      refine ⟨_, rfl, fun i hi => ⟨(hz i hi).1, (hz i hi).2, fun e _ c _ => ?_⟩⟩
      simp only [genT, hu]
      rfl
    | some u =>
      obtain ⟨gu, g1, g2⟩ := gradU_loop (a5 u hu) (withGradU (withBoth s1 cs2 nQ) (zeroGrad S (withBoth s1 cs2 nQ))) hz
      refine ⟨gu, g1, fun i hi => ⟨(g2 i hi).1, (g2 i hi).2.1, fun e he c hc => ?_⟩⟩
      rw [(g2 i hi).2.2 e he c hc]
      simp only [genT, hu]
      rfl
  obtain ⟨gu, g1, g2⟩ := hgr
  rw [g1, bind_ok]
  have GT : Good S (genT t a mu lam) (withGradU (withBoth s1 cs2 nQ) gu) := by
    refine ⟨k1, k2, k3, fun h => (by cases h), fun _ => ⟨cs2, nQ, rfl, rfl, fun i hi =>
      ⟨hn2 i hi, hsh2 i hi, ⟨(g2 i hi).1, (g2 i hi).2.1⟩, (g2 i hi).2.2, fun e he => ?_, fun e he => ?_⟩⟩⟩
    · rw [hc2 i hi, hc1 i hi]
      have hs3 : (scaF S mu lam a.fric a.h i (cs0 i)).v e 3 = (a.h i).v e 0 := by
        unfold scaF
        exact put_in (lo := 3) (k := 0) he (by omega)
      have hg3 : (geoF S s1 i (scaF S mu lam a.fric a.h i (cs0 i))).v e 3 = (a.h i).v e 0 := by
        unfold geoF
        rw [put_out (by omega), put_out (by omega), put_out (by omega)]
        exact hs3
      unfold genF
      split
      · rw [put_out (by omega)]
        exact hg3
      · exact hg3
    obtain ⟨σ, r0, rf, ru, rg, ro, rold⟩ := hrow0 i hi e he
    have hl := hS.loc i hi
    have r1 := geoF_row (s := s1) (k2 i hi) he
      (scaF_row (mu := mu) (lam := lam) (fric := a.fric) (h := a.h) (i := i) (by omega) r0)
    rw [← hc1 i hi] at r1
    have hfr : (match a.fric with
        | some f => (f i).v e 0
        | none => σ.fric) = (genT t a mu lam).fric i e 0 := by
      simp only [genT]
      cases a.fric with
      | none => exact rf
      | some f => rfl
    rw [hc2 i hi]
    cases hnm : s1.coeffs.isNone with
    | false =>
      have hcr : t.created = true := by rw [hnm] at hnew; simpa using hnew.symm
      refine r1.congr rfl rfl hfr rfl (fun _ _ => rfl) (fun _ _ => rfl) (fun _ _ => rfl) (fun m _ => ?_)
        (fun m _ => ?_) (fun m _ => ?_) (fun m _ => ?_)
      · exact congrFun ru m
      · exact congrFun rg m
      · exact congrFun ro m
      · refine (congrFun (rold hnm) m).trans ?_
        simp only [slots, genT, hcr, if_true]
    | true =>
      have hcr : t.created = false := by rw [hnm] at hnew; simpa using hnew.symm
      have r2 := r1.put_old (h := S.localFacets i) (d := (packNormals S s1 i).v) he rfl (hi := sRow S) rfl
      refine r2.congr rfl rfl hfr rfl (fun _ _ => rfl) (fun _ _ => rfl) (fun _ _ => rfl) (fun m _ => ?_)
        (fun m _ => ?_) (fun m _ => ?_) (fun m _ => ?_)
      · exact congrFun ru m
      · exact congrFun rg m
      · exact congrFun ro m
      · refine (packNormals_v S s1 i e m).trans ?_
        simp only [slots, genT, hcr, k2 i hi]
        rfl
  cases hdu : a.du with
  | none =>
    refine ⟨_, rfl, ?_, k5, k6⟩
    rw [htc, hdu]
    exact GT
  | some du =>
    obtain ⟨cs', nQ', e1, e2, e3⟩ := GT.full rfl
    have U := updateData_eq hS (a6 du hdu) e1 e2 GT.ml (fun i hi => (e3 i hi).nq) (fun i hi => (e3 i hi).gradShape)
      (fun i hi => (e3 i hi).shape)
    obtain ⟨s', u1, u2⟩ := good_updateData hS (a6 du hdu) GT rfl
    refine ⟨s', u1, by rw [htc, hdu]; exact u2, ?_, ?_⟩
    · rw [U] at u1
      injection u1 with u1
      rw [← u1]; exact k5
    · rw [U] at u1
      injection u1 with u1
      rw [← u1]; exact k6

/-- A missing key: the kernels and constants change, the rows do not. -/
theorem generate_missing (S : Static G) {a : GenArgs G} (h : a.mu = none ∨ a.lam = none) (s : State G) :
    generate S a s = .error (.runtimeError, withKernels s (kernels a.law (maxLinks S s)) (a.gamma, a.theta)) := by
  have hr : retrieve a = .error .runtimeError := by
    unfold retrieve
    rcases h with h | h
    · rw [h]
    · rw [h]; cases a.mu <;> rfl
  unfold generate
  dsimp only
  rw [hr]
  rfl

theorem good_call {S : Static G} (hS : Static.Shaped S) {op : Op G} (hop : OpShaped S op) {t : Tracked G}
    {s : State G} (H : Good S t s) : Good S (t.call op) (after (call S op s)) := by
  cases op with
  | generate a =>
    cases h1 : a.mu with
    | none =>
      have e : t.call (.generate a) = t := by simp only [Tracked.call, h1]
      rw [e]
      show Good S t (after (generate S a s))
      rw [generate_missing S (Or.inl h1)]
      exact ⟨H.geom, H.det, H.ml, H.fresh, H.full⟩
    | some mu =>
      cases h2 : a.lam with
      | none =>
        have e : t.call (.generate a) = t := by simp only [Tracked.call, h1, h2]
        rw [e]
        show Good S t (after (generate S a s))
        rw [generate_missing S (Or.inr h2)]
        exact ⟨H.geom, H.det, H.ml, H.fresh, H.full⟩
      | some lam =>
        obtain ⟨s', e, h, -⟩ := good_generate hS hop h1 h2 H
        show Good S _ (after (generate S a s))
        rw [e]
        exact h
  | updateData du =>
    show Good S (if t.created then t.setDu du else t) (after (updateContactData S du s))
    cases hc : t.created with
    | false =>
      rw [fresh_updateData hS du (H.fresh hc).2.1]
      exact H
    | true =>
      obtain ⟨s', e, h⟩ := good_updateData hS hop H hc
      rw [e]
      exact h
  | updateDetection move gu =>
    show Good S (if t.created then { t with cur := move t.cur, prev := t.cur, gradU := vals gu }
      else { t with cur := move t.cur }) (after (updateDetection S move gu s))
    cases hc : t.created with
    | false =>
      obtain ⟨s', e, h⟩ := fresh_updateDetection hS move gu H hc
      rw [e]
      rw [hc] at h
      exact h
    | true =>
      obtain ⟨s', e, h⟩ := good_updateDetection hS move hop H hc
      rw [e]
      rw [hc] at h
      exact h
  | updateNitsche gamma theta =>
    show Good S t (after (updateNitsche gamma theta s))
    unfold updateNitsche
    split
    · exact H
    · exact ⟨H.geom, H.det, H.ml, H.fresh, H.full⟩

theorem good_history {S : Static G} (hS : Static.Shaped S) (ops : List (Op G)) (hops : ∀ op ∈ ops, OpShaped S op)
    {t : Tracked G} {s : State G} (H : Good S t s) : Good S (t.history ops) (history S ops s) := by
  induction ops generalizing t s with
  | nil => exact H
  | cons op ops ih =>
    exact ih (fun o ho => hops o (List.mem_cons_of_mem _ ho)) (good_call hS (hops op (List.mem_cons_self ..)) H)

theorem RowIs.holds {S : Static G} {t : Tracked G} {i e : ℕ} {c : ℕ → ℝ}
    (H : RowIs (sA S) (sB S) (sT S) (slots S t i e) c) : RowHolds S t i e c := by
  have o1 : (dims S).oGap = 4 := rfl
  have o2 : (dims S).oNormal = 4 + sA S := rfl
  have o3 : (dims S).oTest = 4 + 2 * sA S := by
    simp only [dims, Dims.oTest, sA]
    try ring
  have o4 : (dims S).oU = 4 + 2 * sA S + sT S := by
    simp only [dims, Dims.oU, Dims.oTest, sA, sT]
    try ring
  have o5 : (dims S).oGrad = 4 + 3 * sA S + sT S := by
    simp only [dims, Dims.oGrad, Dims.oU, Dims.oTest, sA, sT]
    try ring
  have o6 : (dims S).oOpp = 4 + 3 * sA S + sT S + sB S := by
    simp only [dims, Dims.oOpp, Dims.oGrad, Dims.oU, Dims.oTest, sA, sT, sB]
    try ring
  have o7 : (dims S).oOld = 4 + 4 * sA S + sT S + sB S := by
    simp only [dims, Dims.oOld, Dims.oOpp, Dims.oGrad, Dims.oU, Dims.oTest, sA, sT, sB]
    try ring
  exact ⟨H.mu, H.lam, H.fric, H.h, by rw [o1]; exact H.gap, by rw [o2]; exact H.normal, by rw [o3]; exact H.test,
    by rw [o4]; exact H.u, by rw [o5]; exact H.grad, by rw [o6]; exact H.opp, by rw [o7]; exact H.old⟩

end

end Verif.ContactProblem
