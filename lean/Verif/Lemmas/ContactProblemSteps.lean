import Verif.Lemmas.ContactProblem

/-! The effect of the methods of `ContactProblem` on the rows, for inputs of the right shapes. -/

namespace Verif.ContactProblem

open Verif.Spec

noncomputable section

variable {G : Type}

/-- Size of a vector per point. -/
def sA (S : Static G) : ℕ := S.nq * S.gdim
/-- Size of a gradient per point. -/
def sB (S : Static G) : ℕ := S.nq * S.gdim * S.gdim
/-- Size of the test functions. -/
def sT (S : Static G) : ℕ := S.nq * S.nd * S.nq * S.gdim
/-- Size of a row. -/
def sRow (S : Static G) : ℕ := 4 + 5 * sA S + sT S + sB S

theorem size_eq {S : Static G} (hS : Static.Shaped S) :
    coefficientsSize false S.nq S.gdim S.nd S.bs S.nq = sRow S := by
  simp only [coefficientsSize, sRow, sA, sB, sT, hS.block, List.sum_cons, List.sum_nil]
  simp only [Bool.false_eq_true, if_false]
  ring

theorem setC {s : State G} {cs : ℕ → Mat} {i h lo hi : ℕ} {m d : Mat}
    (hh : h ≤ m.rows) (h1 : lo ≤ hi) (h2 : hi ≤ m.cols) (hr : d.rows = h) (hc : d.cols = hi - lo) :
    setCoeffs (withCoeffs s (Function.update cs i m)) i h lo hi d
      = .ok (withCoeffs s (Function.update cs i (put m h lo hi d.v))) := by
  have := setCoeffs_eq (s := withCoeffs s (Function.update cs i m)) (cs := Function.update cs i m) rfl
    (i := i) (h := h) (lo := lo) (hi := hi) (d := d) (by simpa using hh) h1 (by simpa using h2) hr hc
  rw [this]
  simp only [Function.update_self, Function.update_idem]
  rfl

theorem setK {s : State G} {cs : ℕ → Mat} {i j : ℕ} {m d : Mat}
    (hj : j < m.cols) (hc : 0 < d.cols) (hr : d.rows = m.rows) :
    setCol (withCoeffs s (Function.update cs i m)) i j d
      = .ok (withCoeffs s (Function.update cs i (put m m.rows j (j + 1) (fun r _ => d.v r 0)))) := by
  have := setCol_eq (s := withCoeffs s (Function.update cs i m)) (cs := Function.update cs i m) rfl
    (i := i) (j := j) (d := d) (by simpa using hj) hc (by simpa using hr)
  rw [this]
  simp only [Function.update_self, Function.update_idem]
  rfl

/-- Shape of the array of pair `i`. -/
def ArrShape (S : Static G) (i : ℕ) (m : Mat) : Prop := m.rows = S.entities i ∧ m.cols = sRow S

theorem ArrShape.put {S : Static G} {i : ℕ} {m : Mat} (H : ArrShape S i m) (h lo hi : ℕ) (d : ℕ → ℕ → ℝ) :
    ArrShape S i (put m h lo hi d) := H

/-! ### update_contact_data -/

/-- What `update_contact_data` does to the array of pair `i`. -/
def duF (S : Static G) (du : Du G) (s : State G) (i : ℕ) (m : Mat) : Mat :=
  put (put (put m (S.entities i) (4 + 2 * sA S + sT S) (4 + 3 * sA S + sT S) (du.val i).v)
    (S.entities i) (4 + 3 * sA S + sT S) (4 + 3 * sA S + sT S + sB S)
      (fun r c => (du.grad i).v r c + (s.gradU i).v r c))
    (S.localFacets i) (4 + 3 * sA S + sT S + sB S) (4 + 4 * sA S + sT S + sB S) (du.opp (s.detected i) i).v

theorem updateDataPair_eq {S : Static G} (hS : Static.Shaped S) {du : Du G} (hdu : DuShaped S du)
    {i : ℕ} (hi : i < S.numPairs) {s : State G} {cs : ℕ → Mat} {nQ : ℕ → ℕ} (hn : s.numQ = some nQ)
    (hn' : nQ i = S.nq) (hg : (s.gradU i).rows = S.entities i ∧ (s.gradU i).cols = sB S)
    (hm : ArrShape S i (cs i)) :
    updateDataPair S du S.nq i (withCoeffs s cs)
      = .ok (withCoeffs s (Function.update cs i (duF S du s i (cs i)))) := by
  have e0 : 4 + S.nq * S.gdim * (2 + S.nd * S.nq) = 4 + 2 * sA S + sT S := by
    simp only [sA, sT]; ring
  have e1 : S.nq * S.gdim = sA S := rfl
  have e2 : S.nq * S.gdim * S.gdim = sB S := rfl
  have e2' : sA S * S.gdim = sB S := rfl
  obtain ⟨m1, m2⟩ := hm
  have hsz : sRow S = 4 + 5 * sA S + sT S + sB S := rfl
  obtain ⟨v1, v2⟩ := hdu.val i hi
  obtain ⟨g1, g2⟩ := hdu.grad i hi
  obtain ⟨o1, o2⟩ := hdu.opp (s.detected i) i hi
  have hloc := hS.loc i hi
  rw [e1] at v2 o2
  rw [e2] at g2
  have hcs : withCoeffs s cs = withCoeffs s (Function.update cs i (cs i)) := by rw [Function.update_eq_self]
  unfold updateDataPair withNumQ
  have hnq : (withCoeffs s cs).numQ = some nQ := hn
  rw [hnq]
  dsimp only
  rw [hn', e0, e1, e2', hcs, setC (by omega) (by omega) (by omega) v1 (by omega), bind_ok]
  have hadd : ∀ cs', add (du.grad i) ((withCoeffs s cs').gradU i)
      = .ok ⟨S.entities i, sB S, fun r c => (du.grad i).v r c + (s.gradU i).v r c⟩ := by
    intro cs'
    show add (du.grad i) (s.gradU i) = _
    rw [add, if_pos ⟨by omega, by omega⟩, g1, g2]
  rw [hadd]
  dsimp only
  rw [setC (h := S.entities i) (d := ⟨S.entities i, sB S, fun r c => (du.grad i).v r c + (s.gradU i).v r c⟩)
    (by show _ ≤ (cs i).rows; omega) (by omega) (by show _ ≤ (cs i).cols; omega) rfl
    (by show sB S = _; omega), bind_ok]
  have hdet : ∀ cs', (withCoeffs s cs').detected i = s.detected i := fun _ => rfl
  rw [hdet]
  have e4 : 4 + 2 * sA S + sT S + sA S = 4 + 3 * sA S + sT S := by omega
  have e5 : 4 + 3 * sA S + sT S + sB S + sA S = 4 + 4 * sA S + sT S + sB S := by omega
  rw [e4, e5, setC (by show _ ≤ (cs i).rows; omega) (by omega) (by show _ ≤ (cs i).cols; omega) o1 (by omega)]
  rfl

theorem updateData_eq {S : Static G} (hS : Static.Shaped S) {du : Du G} (hdu : DuShaped S du)
    {s : State G} {cs : ℕ → Mat} {nQ : ℕ → ℕ} (hs : s.coeffs = some cs) (hn : s.numQ = some nQ)
    (hml : ∀ i < S.numPairs, s.maxLinks i = S.nq)
    (hn' : ∀ i < S.numPairs, nQ i = S.nq)
    (hg : ∀ i < S.numPairs, (s.gradU i).rows = S.entities i ∧ (s.gradU i).cols = sB S)
    (hm : ∀ i < S.numPairs, ArrShape S i (cs i)) :
    updateContactData S du s
      = .ok (withCoeffs s (fun i => if i < S.numPairs then duF S du s i (cs i) else cs i)) := by
  unfold updateContactData
  rw [maxLinks_eq hS.pairs hml]
  refine forRange_coeffs _ _ s cs hs (duF S du s) (fun i hi s' cs' e h => ?_)
  subst e
  have := updateDataPair_eq hS hdu hi (s := s) (cs := cs') hn (hn' i hi) (hg i hi) (by rw [h]; exact hm i hi)
  rw [this, h]

/-! ### generate_contact_data -/

theorem packNormals_shape {S : Static G} (hS : Static.Shaped S) (s : State G) {i : ℕ} (hi : i < S.numPairs) :
    (packNormals S s i).rows = S.localFacets i ∧ (packNormals S s i).cols = sA S := by
  unfold packNormals
  split
  · exact hS.nx _ i hi
  · exact hS.ny _ i hi

theorem packNormals_v (S : Static G) (s : State G) (i r c : ℕ) :
    (packNormals S s i).v r c = normals S (s.detected i) i r c := by
  unfold packNormals normals
  split <;> rfl

/-- Gap, normals and test functions. -/
def geoF (S : Static G) (s : State G) (i : ℕ) (m : Mat) : Mat :=
  put (put (put m (S.localFacets i) 4 (4 + sA S) (S.gap (s.detected i) i).v)
    (S.localFacets i) (4 + sA S) (4 + 2 * sA S) (packNormals S s i).v)
    (S.localFacets i) (4 + 2 * sA S) (4 + 2 * sA S + sT S) (S.test (s.detected i) i).v

/-- ... and the previous normals of a new model. -/
def genF (S : Static G) (newModel : Bool) (s : State G) (i : ℕ) (m : Mat) : Mat :=
  if newModel then
    put (geoF S s i m) (S.localFacets i) (4 + 4 * sA S + sT S + sB S) (sRow S) (packNormals S s i).v
  else geoF S s i m

theorem sT_eq {S : Static G} (hS : Static.Shaped S) : S.nq * S.nq * S.nd * S.bs = sT S := by
  rw [hS.block, sT]; ring

/-- Change the coefficients and the numbers of points. -/
def withBoth (s : State G) (cs : ℕ → Mat) (nQ : ℕ → ℕ) : State G :=
  { s with coeffs := some cs, numQ := some nQ }

theorem genGeometry_eq {S : Static G} (hS : Static.Shaped S) (newModel : Bool)
    {i : ℕ} (hi : i < S.numPairs) {s : State G} {cs : ℕ → Mat} {nQ : ℕ → ℕ}
    (hm : ArrShape S i (cs i)) :
    genGeometry S newModel S.nq i (withBoth s cs nQ)
      = .ok (withBoth s (Function.update cs i (genF S newModel s i (cs i))) (Function.update nQ i S.nq)) := by
  obtain ⟨m1, m2⟩ := hm
  have hsz : sRow S = 4 + 5 * sA S + sT S + sB S := rfl
  have hloc := hS.loc i hi
  obtain ⟨n1, n2⟩ := packNormals_shape hS s hi
  obtain ⟨g1, g2⟩ := hS.gap (s.detected i) i hi
  obtain ⟨t1, t2⟩ := hS.test (s.detected i) i hi
  have e1 : S.nq * S.gdim = sA S := rfl
  rw [e1] at g2
  rw [sT_eq hS] at t2
  have e3 : sA S * S.nq * S.nd = sT S := by simp only [sA, sT]; ring
  have hdiv : (packNormals S s i).cols / S.gdim = S.nq := by
    rw [n2, sA]; exact Nat.mul_div_cancel _ hS.dim
  have key : ∀ n, (packNormals S s i).cols / S.gdim = n →
      genGeometry S newModel S.nq i (withBoth s cs nQ)
      = (setCoeffs (withCoeffs (withBoth s cs (Function.update nQ i n)) cs) i (S.localFacets i) 4
          (4 + n * S.gdim) (S.gap (s.detected i) i)).bind fun s' =>
        (setCoeffs s' i (S.localFacets i) (4 + n * S.gdim) (4 + n * S.gdim + n * S.gdim)
          (packNormals S s i)).bind fun s' =>
        (setCoeffs s' i (S.localFacets i) (4 + n * S.gdim + n * S.gdim)
          (4 + n * S.gdim + n * S.gdim + n * S.gdim * S.nq * S.nd) (S.test (s'.detected i) i)).bind fun s' =>
        if newModel then
          match s'.coeffs with
          | none => .error (.indexError, s')
          | some cs => setCoeffs s' i (S.localFacets i)
              (if (packNormals S s i).cols = 0 then 0 else (cs i).cols - (packNormals S s i).cols)
              (cs i).cols (packNormals S s i)
        else .ok s' := by
    intro n hn; subst hn; rfl
  rw [key _ hdiv, e1]
  have hcs : withCoeffs (withBoth s cs (Function.update nQ i S.nq)) cs
      = withCoeffs (withBoth s cs (Function.update nQ i S.nq)) (Function.update cs i (cs i)) := by
    rw [Function.update_eq_self]
  rw [hcs]
  have hdet : ∀ cs', (withCoeffs (withBoth s cs (Function.update nQ i S.nq)) cs').detected i = s.detected i :=
    fun _ => rfl
  rw [setC (by omega) (by omega) (by omega) g1 (by omega), bind_ok,
    setC (by show _ ≤ (cs i).rows; omega) (by omega) (by show _ ≤ (cs i).cols; omega) n1 (by omega), bind_ok, hdet]
  rw [e3, setC (by show _ ≤ (cs i).rows; omega) (by omega) (by show _ ≤ (cs i).cols; omega) t1 (by omega), bind_ok]
  have e4 : 4 + sA S + sA S = 4 + 2 * sA S := by omega
  rw [e4]
  have hA : 0 < sA S := Nat.mul_pos hS.points hS.dim
  cases newModel with
  | false =>
    simp only [Bool.false_eq_true, if_false, genF]
    rfl
  | true =>
    simp only [if_true, genF]
    show setCoeffs _ i _ (if _ = 0 then 0 else (Function.update cs i _ i).cols - _) (Function.update cs i _ i).cols _ = _
    rw [Function.update_self, n2, if_neg (by omega)]
    have ec : ∀ d, (put (put (put (cs i) (S.localFacets i) 4 (4 + sA S) (S.gap (s.detected i) i).v) (S.localFacets i)
      (4 + sA S) (4 + 2 * sA S) (packNormals S s i).v) (S.localFacets i) (4 + 2 * sA S) (4 + 2 * sA S + sT S) d).cols
      = sRow S := fun d => m2
    rw [ec]
    have e5 : sRow S - sA S = 4 + 4 * sA S + sT S + sB S := by omega
    rw [e5, setC (by show _ ≤ (cs i).rows; omega) (by omega) (by show _ ≤ (cs i).cols; omega) n1 (by omega)]
    rfl

theorem genGeometry_loop {S : Static G} (hS : Static.Shaped S) (newModel : Bool) {s : State G} {cs : ℕ → Mat}
    {nQ : ℕ → ℕ} (hm : ∀ i < S.numPairs, ArrShape S i (cs i)) :
    forRange S.numPairs (genGeometry S newModel S.nq) (withBoth s cs nQ)
      = .ok (withBoth s (fun i => if i < S.numPairs then genF S newModel s i (cs i) else cs i)
          (fun i => if i < S.numPairs then S.nq else nQ i)) := by
  obtain ⟨s', h1, h2⟩ := forRange_ok (fun k s' => s' = withBoth s (fun i => if i < k then genF S newModel s i (cs i) else cs i)
      (fun i => if i < k then S.nq else nQ i)) S.numPairs (genGeometry S newModel S.nq) (withBoth s cs nQ)
    (by simp) (fun i hi s' h => by
      subst h
      refine ⟨_, genGeometry_eq hS newModel hi (by simpa using hm i hi), ?_⟩
      congr 1
      · funext j
        by_cases hj : j = i
        · subst hj; simp
        · rw [Function.update_of_ne hj]
          by_cases h : j < i
          · rw [if_pos h, if_pos (by omega)]
          · rw [if_neg h, if_neg (by omega)]
      · funext j
        by_cases hj : j = i
        · subst hj; simp
        · rw [Function.update_of_ne hj]
          by_cases h : j < i
          · rw [if_pos h, if_pos (by omega)]
          · rw [if_neg h, if_neg (by omega)])
  rw [h1, h2]

/-- Scalars. -/
def scaF (S : Static G) (mu lam : ℕ → Mat) (fric : Option (ℕ → Mat)) (h : ℕ → Mat) (i : ℕ) (m : Mat) : Mat :=
  let m := put m (S.entities i) 0 1 (fun r _ => (mu i).v r 0)
  let m := put m (S.entities i) 1 2 (fun r _ => (lam i).v r 0)
  let m := match fric with
    | some f => put m (S.entities i) 2 3 (fun r _ => (f i).v r 0)
    | none => m
  put m (S.entities i) 3 4 (fun r _ => (h i).v r 0)

theorem genScalars_eq {S : Static G} {a : GenArgs G} {mu lam : ℕ → Mat} (hmu : ScalarShaped S mu)
    (hlam : ScalarShaped S lam) (hfric : ∀ m, a.fric = some m → ScalarShaped S m) (hh : ScalarShaped S a.h)
    (keys : List (ℕ → Mat)) (hk : keys = match a.fric with
      | some f => [mu, lam, f]
      | none => [mu, lam])
    {i : ℕ} (hi : i < S.numPairs) {s : State G} {cs : ℕ → Mat} (h1 : s.detected i = s.geom)
    (h2 : s.maxLinks i = S.nq) (hm : ArrShape S i (cs i)) :
    genScalars S keys a.h i (withCoeffs s cs)
      = .ok (withCoeffs s (Function.update cs i (scaF S mu lam a.fric a.h i (cs i)))) := by
  obtain ⟨m1, m2⟩ := hm
  have hsz : sRow S = 4 + 5 * sA S + sT S + sB S := rfl
  obtain ⟨u1, u2⟩ := hmu i hi
  obtain ⟨l1, l2⟩ := hlam i hi
  obtain ⟨t1, t2⟩ := hh i hi
  have hcs : withCoeffs s cs = withCoeffs s (Function.update cs i (cs i)) := by rw [Function.update_eq_self]
  unfold genScalars
  have h0 : createDistanceMap S i (withCoeffs s cs) = withCoeffs s cs := createDistanceMap_self h1 h2
  rw [h0, hcs, hk]
  have rr : ∀ lo hi d, (put (cs i) (cs i).rows lo hi d).rows = (cs i).rows := fun _ _ _ => rfl
  cases hf : a.fric with
  | none =>
    show ((forIn [(mu, 0), (lam, 1)] _ _).bind _ : Res G) = _
    simp only [forIn]
    rw [setK (by omega) u2 (by omega), bind_ok,
      setK (by show _ < (cs i).cols; omega) l2 (by show _ = (cs i).rows; omega), bind_ok, bind_ok,
      setK (by show _ < (cs i).cols; omega) t2 (by show _ = (cs i).rows; omega)]
    simp only [scaF, ← m1]
    rfl
  | some f =>
    obtain ⟨f1, f2⟩ := hfric f hf i hi
    show ((forIn [(mu, 0), (lam, 1), (f, 2)] _ _).bind _ : Res G) = _
    simp only [forIn]
    rw [setK (by omega) u2 (by omega), bind_ok,
      setK (by show _ < (cs i).cols; omega) l2 (by show _ = (cs i).rows; omega), bind_ok,
      setK (by show _ < (cs i).cols; omega) f2 (by show _ = (cs i).rows; omega), bind_ok, bind_ok,
      setK (by show _ < (cs i).cols; omega) t2 (by show _ = (cs i).rows; omega)]
    simp only [scaF, ← m1]
    rfl

/-! ### update_contact_detection -/

/-- Saving the normals. -/
def saveF (S : Static G) (i : ℕ) (m : Mat) : Mat :=
  put m (S.entities i) (4 + 4 * sA S + sT S + sB S) (sRow S) (fun r c => m.v r (4 + sA S + c))

theorem saveNormals_eq {S : Static G} {i : ℕ} {s : State G} {cs : ℕ → Mat} {nQ : ℕ → ℕ} (hn : s.numQ = some nQ)
    (hn' : nQ i = S.nq) (hm : ArrShape S i (cs i)) :
    saveNormals S S.nq i (withCoeffs s cs) = .ok (withCoeffs s (Function.update cs i (saveF S i (cs i)))) := by
  obtain ⟨m1, m2⟩ := hm
  have hsz : sRow S = 4 + 5 * sA S + sT S + sB S := rfl
  have e0 : 4 + S.nq * S.gdim * (2 + S.nd * S.nq) + S.nq * S.gdim * (2 + S.gdim) = 4 + 4 * sA S + sT S + sB S := by
    simp only [sA, sT, sB]; ring
  have e1 : S.nq * S.gdim = sA S := rfl
  unfold saveNormals withNumQ
  have hnq : (withCoeffs s cs).numQ = some nQ := hn
  rw [hnq]
  dsimp only
  rw [hn', e0, e1]
  show setCoeffs (withCoeffs s cs) i _ _ (cs i).cols (slice (cs i) _ _) = _
  have hcs : withCoeffs s cs = withCoeffs s (Function.update cs i (cs i)) := by rw [Function.update_eq_self]
  have sl : slice (cs i) (4 + sA S) (4 + sA S + sA S)
      = ⟨S.entities i, sA S, fun r c => (cs i).v r (4 + sA S + c)⟩ := by
    unfold slice
    dsimp only
    have a1 : min (4 + sA S) (cs i).cols = 4 + sA S := by omega
    have a2 : max (4 + sA S) (min (4 + sA S + sA S) (cs i).cols) = 4 + sA S + sA S := by omega
    rw [a1, a2, m1, Nat.add_sub_cancel_left]
  rw [hcs, sl, m2, setC (h := S.entities i) (d := ⟨S.entities i, sA S, fun r c => (cs i).v r (4 + sA S + c)⟩) (by omega) (by omega)
    (by omega) rfl (by show sA S = _; omega)]
  rfl

theorem repack_eq {S : Static G} (hS : Static.Shaped S) {i : ℕ} (hi : i < S.numPairs) {s : State G}
    {cs : ℕ → Mat} {nQ : ℕ → ℕ} (hn : s.numQ = some nQ) (hn' : nQ i = S.nq) (hm : ArrShape S i (cs i)) :
    repack S S.nq i (withCoeffs s cs) = .ok (withCoeffs s (Function.update cs i (geoF S s i (cs i)))) := by
  obtain ⟨m1, m2⟩ := hm
  have hsz : sRow S = 4 + 5 * sA S + sT S + sB S := rfl
  have hloc := hS.loc i hi
  obtain ⟨n1, n2⟩ := packNormals_shape hS s hi
  obtain ⟨g1, g2⟩ := hS.gap (s.detected i) i hi
  obtain ⟨t1, t2⟩ := hS.test (s.detected i) i hi
  have e1 : S.nq * S.gdim = sA S := rfl
  rw [e1] at g2
  rw [sT_eq hS] at t2
  have e3 : sA S * S.nq * S.nd = sT S := by simp only [sA, sT]; ring
  unfold repack withNumQ
  have hnq : (withCoeffs s cs).numQ = some nQ := hn
  rw [hnq]
  dsimp only
  have hcs : withCoeffs s cs = withCoeffs s (Function.update cs i (cs i)) := by rw [Function.update_eq_self]
  have hdet : ∀ cs', (withCoeffs s cs').detected i = s.detected i := fun _ => rfl
  have hpn : ∀ cs', packNormals S (withCoeffs s cs') i = packNormals S s i := fun _ => rfl
  rw [hn', e1, hdet, hcs, setC (by omega) (by omega) (by omega) g1 (by omega), bind_ok, hpn,
    setC (by show _ ≤ (cs i).rows; omega) (by omega) (by show _ ≤ (cs i).cols; omega) n1 (by omega), bind_ok, hdet, e3,
    setC (by show _ ≤ (cs i).rows; omega) (by omega) (by show _ ≤ (cs i).cols; omega) t1 (by omega)]
  have e4 : 4 + sA S + sA S = 4 + 2 * sA S := by omega
  rw [e4]
  rfl

end

end Verif.ContactProblem
