import Verif.Lemmas.MeshTieDataGood
import Verif.Lemmas.ExtentTie
import Verif.Props.MeshTieKernels

/-!
Properties of the data of `MeshTie`: layout for every history of calls, safety, missing coefficients and
independence of earlier calls.
-/

namespace Verif.TieData

open Verif.Spec (TieDims) 
open Verif.Kernels (offsets)

variable {R : Type} [Zero R]

/-! Concrete data: one pair, two facets, one point, dimension 2, one link, one scalar dof. -/

/-- Packed values `w` per facet, numbered from `a`. -/
def exPk (a w : ℕ) : Pk ℤ := ⟨w, fun k => a + k⟩

def exS : Static ℤ := ⟨1, fun _ => 2, 1, 2, 1, fun _ => exPk 100 1⟩

def exV : Space ℤ := ⟨1, 2, fun _ => exPk 200 2, fun _ => exPk 300 2⟩

/-- A function with `bs` components whose values are numbered from `a`. -/
def exF (a bs : ℕ) : Func ℤ :=
  ⟨1, bs, fun _ => exPk a 1, fun _ => exPk (a + 10) bs, fun _ => exPk (a + 20) bs,
    fun _ => exPk (a + 30) (bs * 2), fun _ => exPk (a + 50) (bs * 2)⟩

/-- Material and solution. -/
def exCo : Coefs ℤ
  | .mu => some (exF 1000 1)
  | .lam => some (exF 2000 1)
  | .alpha => some (exF 3000 1)
  | .kdt => some (exF 4000 1)
  | .u => some (exF 5000 2)
  | .T => some (exF 6000 1)

/-- Material only. -/
def exMat : Coefs ℤ
  | .u => none
  | .T => none
  | k => exCo k

theorem exPacked (a bs : ℕ) : (exF a bs).Packed exS bs :=
  ⟨fun _ _ => (Nat.one_mul bs).symm, fun _ _ => (Nat.one_mul bs).symm,
    fun _ _ => by show bs * 2 = 1 * bs * 2; omega, fun _ _ => by show bs * 2 = 1 * bs * 2; omega⟩

theorem exGenOk (p : Problem) (hp : p ≠ .poisson) : GenOk exS p exV exCo := by
  refine ⟨⟨?_, fun _ _ => rfl, fun _ _ => rfl⟩, fun k _ f hf i _ => ?_, ?_, ?_⟩
  · cases p <;> first | rfl | exact absurd rfl hp
  · cases k <;> cases hf <;> rfl
  · intro f hf
    cases p <;> first | exact absurd rfl hp | (cases hf; exact ⟨rfl, rfl, exPacked _ _⟩)
  · intro _ f hf
    cases hf
    exact exPacked _ _

theorem exGenOkMat (p : Problem) (hp : p ≠ .poisson) : GenOk exS p exV exMat := by
  refine ⟨(exGenOk p hp).space, fun k _ f hf i _ => ?_, ?_, ?_⟩
  · cases k <;> cases hf <;> rfl
  · intro f hf
    cases p <;> first | exact absurd rfl hp | cases hf
  · intro _ f hf
    cases hf

/-- Elasticity without solution, then with; then thermo-elasticity, a failing call, and an update. -/
def exOps : List (Op ℤ) :=
  [.gen .elasticity exV exMat 10 1, .upd .elasticity exCo, .gen .thermo exV exMat 20 0,
    .upd .thermo exMat, .upd .thermo exCo]

theorem exProper : ProperHistory exS Tracked.new exOps := by
  refine ⟨exGenOkMat _ (by decide), fun _ => ⟨_, rfl, rfl, (exGenOk .elasticity (by decide)).sol⟩,
    exGenOkMat _ (by decide), fun h => absurd (h .u (by decide)) (by decide),
    fun _ => ⟨_, rfl, rfl, (exGenOk .thermo (by decide)).sol⟩, trivial⟩

theorem exSOk : exS.Ok := fun _ _ => rfl

/-! ### C39: layout -/

/-- What an assembly call may rely on for generation `g`: its rows are those of the calls so far, as wide as
said; the kernel reads each kind of data where the row has it, and the whole row is described. -/
structure LaunchOk (S : Static R) (g : Gen R) (l : Launch R) : Prop where
  stride : l.stride = g.width S
  consts : l.consts = [g.gamma, g.theta]
  size : l.buf.size = l.stride * S.nf l.pair
  rows : ∀ e < S.nf l.pair, g.Row S l.pair e (l.buf.row l.stride e)
  kernel : ∃ ks, l.kernel = some ks ∧ ks.sum = l.stride
    ∧ offsets ks 1 = (g.dims S).oTest ∧ offsets ks 2 = (g.dims S).oGTest
    ∧ offsets ks 3 = (g.dims S).oU ∧ offsets ks 4 = (g.dims S).oGrad
    ∧ offsets ks 5 = (g.dims S).oOpp ∧ offsets ks 6 = (g.dims S).oGOpp
    ∧ (g.p = .thermo → offsets ks 7 = (g.dims S).oTemp ∧ offsets ks 8 = (g.dims S).oTempOpp)

omit [Zero R] in
theorem kernel_offsets (S : Static R) (g : Gen R) (hV : g.V.Packed S g.p) :
    ∃ ks, some (g.strides S) = some ks ∧ ks.sum = g.width S
    ∧ offsets ks 1 = (g.dims S).oTest ∧ offsets ks 2 = (g.dims S).oGTest
    ∧ offsets ks 3 = (g.dims S).oU ∧ offsets ks 4 = (g.dims S).oGrad
    ∧ offsets ks 5 = (g.dims S).oOpp ∧ offsets ks 6 = (g.dims S).oGOpp
    ∧ (g.p = .thermo → offsets ks 7 = (g.dims S).oTemp ∧ offsets ks 8 = (g.dims S).oTempOpp) := by
  refine ⟨_, rfl, sum_strides S g hV, ?_⟩
  have hb := hV.bs
  unfold Gen.strides Gen.dims
  cases hp : g.p <;> rw [hp] at hb <;> simp only [comps] at hb <;>
    simp only [TieData.strides, stridesP, offsets, List.take, List.sum_cons, List.sum_nil, TieDims.oTemp,
      TieDims.oTempOpp, TieDims.oGOpp, TieDims.oOpp, TieDims.oGrad, TieDims.oU, TieDims.oGTest,
      TieDims.oTest, hb, if_true, if_false, Bool.false_eq_true] <;>
    refine ⟨?_, ?_, ?_, ?_, ?_, ?_, ?_⟩ <;>
    first
    | (intro h; cases h; done)
    | (intro _; constructor <;> ring)
    | ring

omit [Zero R] in
theorem launch_ok {S : Static R} {g : Gen R} {C : ℕ} {consts : List R} {kRhs kJac : Option (List ℕ)}
    {cs : ℕ → Buf R} (F : FamGood S g C consts kRhs kJac cs) {i : ℕ} (hi : i < S.pairs)
    {k : Option (List ℕ)} {fn : Verif.Kernels.Kernel} (hk : k = some (g.strides S)) :
    LaunchOk S g ⟨i, fn, k, cs i, C, consts⟩ := by
  have hw := F.width
  subst hw
  refine ⟨rfl, F.consts, (F.rows i hi).1, (F.rows i hi).2, ?_⟩
  subst hk
  exact kernel_offsets S g F.space

omit [Zero R] in
theorem get_cases {S : Static R} {t : Tracked R} {s : State R} (H : Good S t s) {p : Problem} {g : Gen R}
    (hg : t.get p = some g) : (g.p = .poisson ∧ t.po = some g) ∨ (g.p ≠ .poisson ∧ t.el = some g) := by
  cases p with
  | poisson => exact .inl ⟨(H.po g hg).2, hg⟩
  | elasticity => exact .inr ⟨(H.el g hg).2.1, hg⟩
  | thermo => exact .inr ⟨(H.el g hg).2.1, hg⟩

/-- Every history of proper calls, some of which may raise, is free of out-of-bounds writes, and when the
vector or matrix of the problem data were last generated for is assembled, every pair is handled, with rows
that hold what the calls gave last, read by the kernel where they are. In particular updates keep the
matrix data, and use the offsets the kernels read. -/
theorem C39_layout (S : Static R) (hS : S.Ok) (ops : List (Op R)) (hops : ProperHistory S Tracked.new ops) :
    ∃ s, run S State.init ops = some s
      ∧ ∀ p g, (ops.foldl Tracked.step Tracked.new).get p = some g →
        (∀ l ∈ assembleVector S g.p s, LaunchOk S g l) ∧ (∀ l ∈ assembleMatrix S g.p s, LaunchOk S g l)
        ∧ (∀ i < S.pairs, ∃ l ∈ assembleVector S g.p s, l.pair = i)
        ∧ (assembleMatrix S g.p s).map Launch.pair = List.range S.pairs := by
  obtain ⟨s, h1, H⟩ := good_history hS ops (good_init S) hops
  refine ⟨s, h1, fun p g hg => ?_⟩
  rcases get_cases H hg with ⟨hp, hpo⟩ | ⟨hp, hel⟩
  · obtain ⟨F, -⟩ := H.po g hpo
    rw [hp]
    refine ⟨fun l hl => ?_, fun l hl => ?_, fun i hi => ?_, ?_⟩
    · simp only [assembleVector, List.mem_flatMap, List.mem_range, List.mem_singleton] at hl
      obtain ⟨i, hi, rfl⟩ := hl
      exact launch_ok F hi F.kRhs
    · simp only [assembleMatrix, List.mem_flatMap, List.mem_range, List.mem_singleton] at hl
      obtain ⟨i, hi, rfl⟩ := hl
      exact launch_ok F hi F.kJac
    · refine ⟨⟨i, .meshTieRhs, s.kRhsP, s.coeffsP i, s.cstrideP, s.constsP⟩, ?_, rfl⟩
      simp only [assembleVector, List.mem_flatMap, List.mem_range, List.mem_singleton]
      exact ⟨i, hi, rfl⟩
    · simp [assembleMatrix, List.map_flatMap]
  · obtain ⟨F, -, hth⟩ := H.el g hel
    cases hgp : g.p with
    | poisson => exact absurd hgp hp
    | elasticity =>
      refine ⟨fun l hl => ?_, fun l hl => ?_, fun i hi => ?_, ?_⟩
      · simp only [assembleVector, List.mem_flatMap, List.mem_range, List.mem_singleton] at hl
        obtain ⟨i, hi, rfl⟩ := hl
        exact launch_ok F hi F.kRhs
      · simp only [assembleMatrix, List.mem_flatMap, List.mem_range, List.mem_singleton] at hl
        obtain ⟨i, hi, rfl⟩ := hl
        exact launch_ok F hi F.kJac
      · refine ⟨⟨i, .meshTieRhs, s.kRhs, s.coeffs i, s.cstride, s.consts⟩, ?_, rfl⟩
        simp only [assembleVector, List.mem_flatMap, List.mem_range, List.mem_singleton]
        exact ⟨i, hi, rfl⟩
      · simp [assembleMatrix, List.map_flatMap]
    | thermo =>
      refine ⟨fun l hl => ?_, fun l hl => ?_, fun i hi => ?_, ?_⟩
      · simp only [assembleVector, List.mem_flatMap, List.mem_range, List.mem_cons, List.not_mem_nil,
          or_false] at hl
        obtain ⟨i, hi, rfl | rfl⟩ := hl
        · exact launch_ok F hi F.kRhs
        · exact launch_ok F hi (hth hgp)
      · simp only [assembleMatrix, List.mem_flatMap, List.mem_range, List.mem_singleton] at hl
        obtain ⟨i, hi, rfl⟩ := hl
        exact launch_ok F hi F.kJac
      · refine ⟨⟨i, .meshTieRhs, s.kRhs, s.coeffs i, s.cstride, s.consts⟩, ?_, rfl⟩
        simp only [assembleVector, List.mem_flatMap, List.mem_range, List.mem_cons]
        exact ⟨i, hi, .inl rfl⟩
      · simp [assembleMatrix, List.map_flatMap]

example : exS.Ok ∧ ProperHistory exS Tracked.new exOps
    ∧ ∃ g, (exOps.foldl Tracked.step Tracked.new).get .thermo = some g ∧ g.p = .thermo ∧ g.sol = some exCo :=
  ⟨exSOk, exProper, _, rfl, rfl, rfl⟩

/-- Concretely: the rows of the two facets after `exOps`. -/
example : (run exS State.init exOps).map (fun s => (List.range 18).map (s.coeffs 0).val ++
      (List.range 4).map (fun k => (s.coeffs 0).val (k + 22))) =
    some [1000, 2000, 100, 3000, 200, 201, 300, 301, 5010, 5011, 5030, 5031, 5032, 5033, 5020, 5021, 5050,
      5051, 1001, 2001, 101, 3001] := by decide +kernel

/-- The kernel model uses the strides the data are generated with. -/
theorem C39_kernel_strides (S : Static R) (V : Space R) (D : Verif.Kernels.KD) (h1 : D.nq = S.nq)
    (h2 : D.nd = V.nd) (h3 : D.bs = V.bs) (h4 : D.gdim = S.gdim) (h5 : D.maxLinks = S.ml) :
    (∀ thermo, Verif.Kernels.tieStrides D thermo = strides S V thermo)
    ∧ Verif.Kernels.poissonStrides D = stridesP S V := by
  constructor
  · intro thermo
    cases thermo <;> simp [Verif.Kernels.tieStrides, strides, h1, h2, h3, h4, h5]
  · simp [Verif.Kernels.poissonStrides, stridesP, h1, h2, h4, h5]

/-- No mesh tie kernel reads beyond the row: rows of width `strides.sum` that agree give the same element
vectors and matrices. -/
theorem C39_extent (D : Verif.Kernels.KD) (c c' w : ℕ → ℝ) (links : ℕ) (hl : links ≤ D.maxLinks)
    (qs : List ℕ) (hqs : ∀ q ∈ qs, q < D.nq) :
    (∀ th, D.bs = D.gdim → (∀ m < (Verif.Kernels.tieStrides D th).sum, c m = c' m) →
      Verif.Kernels.tieRhs D (offsets (Verif.Kernels.tieStrides D th)) c w links qs
        = Verif.Kernels.tieRhs D (offsets (Verif.Kernels.tieStrides D th)) c' w links qs)
    ∧ ((∀ m < (Verif.Kernels.tieStrides D true).sum, c m = c' m) →
      Verif.Kernels.thermoRhs D (offsets (Verif.Kernels.tieStrides D true)) c links qs
        = Verif.Kernels.thermoRhs D (offsets (Verif.Kernels.tieStrides D true)) c' links qs)
    ∧ ((∀ m < (Verif.Kernels.poissonStrides D).sum, c m = c' m) →
      Verif.Kernels.poisRhs D (offsets (Verif.Kernels.poissonStrides D)) c w links qs
        = Verif.Kernels.poisRhs D (offsets (Verif.Kernels.poissonStrides D)) c' w links qs) :=
  ⟨fun _ hbs h => Verif.Kernels.forEach_congr (fun q hq => Verif.Kernels.agree_tieRhs h hbs hl (hqs q hq) w),
    fun h => Verif.Kernels.forEach_congr (fun q hq => Verif.Kernels.agree_thermoRhs h hl (hqs q hq)),
    fun h => Verif.Kernels.forEach_congr (fun q hq => Verif.Kernels.agree_poisRhs h hl (hqs q hq) w)⟩

/-- The matrix kernels read only what precedes the solution, so matrices do not depend on the solution given,
nor on whether one was given. -/
theorem C39_matrix_only (D : Verif.Kernels.KD) (c c' w : ℕ → ℝ) (links : ℕ) (hl : links ≤ D.maxLinks)
    (qs : List ℕ) (hqs : ∀ q ∈ qs, q < D.nq) :
    (∀ th, D.bs = D.gdim → (∀ m < offsets (Verif.Kernels.tieStrides D th) 3, c m = c' m) →
      Verif.Kernels.tieJac D (offsets (Verif.Kernels.tieStrides D th)) c w links qs
        = Verif.Kernels.tieJac D (offsets (Verif.Kernels.tieStrides D th)) c' w links qs)
    ∧ ((∀ m < offsets (Verif.Kernels.poissonStrides D) 3, c m = c' m) →
      Verif.Kernels.poisJac D (offsets (Verif.Kernels.poissonStrides D)) c w links qs
        = Verif.Kernels.poisJac D (offsets (Verif.Kernels.poissonStrides D)) c' w links qs) :=
  ⟨fun _ hbs h => Verif.Kernels.forEach_congr (fun q hq =>
      Verif.Kernels.agree_tieJac h (le_refl _) hbs hl (hqs q hq) w),
    fun h => Verif.Kernels.forEach_congr (fun q hq =>
      Verif.Kernels.agree_poisJac h (le_refl _) hl (hqs q hq) w)⟩

example : Verif.Kernels.exD.bs = Verif.Kernels.exD.gdim ∧ 1 ≤ Verif.Kernels.exD.maxLinks
    ∧ (∀ q ∈ [0], q < Verif.Kernels.exD.nq)
    ∧ (∀ m < offsets (Verif.Kernels.tieStrides Verif.Kernels.exD false) 3,
      Verif.Kernels.exTie 3 m = Verif.Kernels.exTie 5 m) ∧ Verif.Kernels.exTie 3 ≠ Verif.Kernels.exTie 5 := by
  refine ⟨rfl, by simp [Verif.Kernels.exD], by simp [Verif.Kernels.exD], fun m hm => ?_, fun h => ?_⟩
  · refine Verif.Kernels.exTie_same 3 5 m (lt_of_lt_of_le hm (le_of_eq ?_))
    simp [Verif.Kernels.tieStrides, offsets, Verif.Kernels.exD, Verif.Kernels.KD.tdims, TieDims.oU,
      TieDims.oGTest, TieDims.oTest]
  · have := congrFun h ((Verif.Kernels.exD.tdims false).oU)
    simp [Verif.Kernels.KD.tdims, TieDims.oU, TieDims.oGTest, TieDims.oTest, Verif.Kernels.exD,
      Verif.Kernels.exTie] at this

/-- Not so for an update for another problem than data were generated for, which is accepted: an elastic
update of thermo-elastic data overwrites gradients of test functions (entry 7, `301`), which the matrix
depends on. -/
theorem C86_matrix_data_violated :
    ∃ (S : Static ℤ) (V : Space ℤ) (co co' : Coefs ℤ) (s s' : State ℤ),
      S.Ok ∧ GenOk S .thermo V co ∧ SolOk S .elasticity V co'
      ∧ generateKernelData S .thermo V co 1 1 State.init = .ok s
      ∧ updateKernelData S co' .elasticity s = .ok s'
      ∧ ∃ m < ((⟨.thermo, V, co, 1, 1, none⟩ : Gen ℤ).dims S).oU, (s'.coeffs 0).val m ≠ (s.coeffs 0).val m := by
  refine ⟨exS, exV, exMat, exCo, _, _, exSOk, exGenOkMat .thermo (by decide),
    (exGenOk .elasticity (by decide)).sol, rfl, rfl, 7, by decide, by decide +kernel⟩

/-! ### C86: no write outside the data -/

/-- No proper history writes outside the coefficient vectors. -/
theorem C86_partial (S : Static R) (hS : S.Ok) (ops : List (Op R)) (hops : ProperHistory S Tracked.new ops) :
    run S State.init ops ≠ none := by
  obtain ⟨s, h, -⟩ := C39_layout S hS ops hops
  rw [h]
  exact Option.some_ne_none s

example : exS.Ok ∧ ProperHistory exS Tracked.new exOps := ⟨exSOk, exProper⟩

omit [Zero R] in
theorem pairs_none {n : ℕ} {f : ℕ → Buf R → Option (Buf R)} {cs : ℕ → Buf R} (h : f 0 (cs 0) = none) :
    pairs (n + 1) f cs = none := by
  induction n with
  | zero => simp [pairs, h]
  | succ n ih =>
    show (pairs (n + 1) f cs).bind _ = none
    rw [ih]; rfl

omit [Zero R] in
theorem facets_none {n : ℕ} {f : ℕ → Buf R → Option (Buf R)} {b : Buf R} (h : f 0 b = none) :
    facets (n + 1) f b = none := by
  induction n with
  | zero => simp [facets, h]
  | succ n ih =>
    show (facets (n + 1) f b).bind _ = none
    rw [ih]; rfl

/-- Updating before anything was generated writes outside the (empty) vectors, whenever the first pair has
an owned facet, for every problem and every solution. -/
theorem C86_violated (S : Static R) (hp : 0 < S.pairs) (hf : 0 < S.nf 0) (p : Problem) (co : Coefs R)
    (hco : Given co (solution p)) : run S State.init [.upd p co] = none := by
  obtain ⟨n, hn⟩ := Nat.exists_eq_succ_of_ne_zero (Nat.pos_iff_ne_zero.mp hp)
  obtain ⟨m, hm⟩ := Nat.exists_eq_succ_of_ne_zero (Nat.pos_iff_ne_zero.mp hf)
  have key : ∀ (u : Func R) (o0 o1 : ℕ), 0 < o0 →
      updateFunctionData S u o0 o1 0 (fun _ => ⟨0, fun _ => 0⟩) = none := by
    intro u o0 o1 ho
    unfold updateFunctionData
    rw [hn]
    refine pairs_none ?_
    rw [hm]
    refine facets_none ?_
    unfold copyN
    rw [if_neg (by dsimp only; omega)]
    rfl
  have hs : call S State.init (.upd p co) = (.ub : Out R) := by
    show updateKernelData S co p State.init = .ub
    cases p with
    | elasticity =>
      obtain ⟨u, hu⟩ := Option.isSome_iff_exists.mp (hco .u (by simp [solution]))
      unfold updateKernelData
      dsimp only
      rw [hu]
      dsimp only [updateElastic, State.init]
      rw [key u _ _ (by omega)]
      rfl
    | poisson =>
      obtain ⟨u, hu⟩ := Option.isSome_iff_exists.mp (hco .T (by simp [solution]))
      unfold updateKernelData
      dsimp only
      rw [hu]
      dsimp only [updatePoisson, State.init]
      rw [key u _ _ (by omega)]
      rfl
    | thermo =>
      obtain ⟨u, hu⟩ := Option.isSome_iff_exists.mp (hco .u (by simp [solution]))
      obtain ⟨T, hT⟩ := Option.isSome_iff_exists.mp (hco .T (by simp [solution]))
      unfold updateKernelData
      dsimp only
      rw [hu]
      dsimp only
      rw [hT]
      dsimp only [updateThermo, State.init]
      rw [key u _ _ (by omega)]
      rfl
  show (match call S State.init (.upd p co) with
    | .ok s' => run S s' [] | .throws s' _ => run S s' [] | .ub => none) = none
  rw [hs]

example : 0 < exS.pairs ∧ 0 < exS.nf 0 ∧ Given exCo (solution .thermo) := ⟨by decide, by decide, by decide⟩

/-- So does a thermo-elastic update of elastic data. -/
theorem C86_other_problem_violated :
    run exS State.init [.gen .elasticity exV exCo 1 1, .upd .thermo exCo] = none
    ∧ GenOk exS .elasticity exV exCo ∧ SolOk exS .thermo exV exCo := by
  refine ⟨rfl, exGenOk _ (by decide), (exGenOk .thermo (by decide)).sol⟩

/-! ### C87: a generation does not depend on what was done before -/

omit [Zero R] in
/-- A row is determined by the calls if the solution was given. -/
theorem Gen.Row.unique {S : Static R} {g : Gen R} (hreq : Given g.co (required g.p)) {co : Coefs R}
    (hsol : g.sol = some co) (hco : Given co (solution g.p)) {i e : ℕ} {c c' : ℕ → R}
    (h : g.Row S i e c) (h' : g.Row S i e c') : ∀ m < g.width S, c m = c' m := by
  have e1 := oGTest_eq S g
  have e2 := oU_eq S g
  have e3 := oGrad_eq S g
  have e4 := oOpp_eq S g
  have e5 := oGOpp_eq S g
  have e6 := oTemp_eq S g
  have e8 := oTempOpp_eq S g
  obtain ⟨f, hf⟩ := Option.isSome_iff_exists.mp (hco (trigger g.p) (by cases g.p <;> simp [trigger, solution]))
  have s1 := h.sol co f hsol hf
  have s2 := h'.sol co f hsol hf
  have hlead : ∀ m < (g.dims S).oTest, c m = c' m := by
    have l1 := h.matrix.lead
    have l2 := h'.matrix.lead
    unfold Gen.Lead at l1 l2
    unfold Gen.dims
    cases hp : g.p <;> rw [hp] at l1 l2 hreq <;> dsimp only at l1 l2 <;> simp only [TieDims.oTest] <;> intro m hm
    · obtain ⟨mu, hmu⟩ := Option.isSome_iff_exists.mp (hreq .mu (by simp [required]))
      obtain ⟨lam, hlam⟩ := Option.isSome_iff_exists.mp (hreq .lam (by simp [required]))
      obtain rfl | rfl | rfl : m = 0 ∨ m = 1 ∨ m = 2 := by omega
      · rw [l1.1 _ hmu, l2.1 _ hmu]
      · rw [l1.2.1 _ hlam, l2.2.1 _ hlam]
      · rw [l1.2.2, l2.2.2]
    · obtain ⟨k, hk⟩ := Option.isSome_iff_exists.mp (hreq .kdt (by simp [required]))
      obtain rfl | rfl : m = 0 ∨ m = 1 := by omega
      · rw [l1.1, l2.1]
      · rw [l1.2 _ hk, l2.2 _ hk]
    · obtain ⟨mu, hmu⟩ := Option.isSome_iff_exists.mp (hreq .mu (by simp [required]))
      obtain ⟨lam, hlam⟩ := Option.isSome_iff_exists.mp (hreq .lam (by simp [required]))
      obtain ⟨al, hal⟩ := Option.isSome_iff_exists.mp (hreq .alpha (by simp [required]))
      obtain rfl | rfl | rfl | rfl : m = 0 ∨ m = 1 ∨ m = 2 ∨ m = 3 := by omega
      · rw [l1.1 _ hmu, l2.1 _ hmu]
      · rw [l1.2.1 _ hlam, l2.2.1 _ hlam]
      · rw [l1.2.2.1, l2.2.2.1]
      · rw [l1.2.2.2 _ hal, l2.2.2.2 _ hal]
  have seg : ∀ (a w : ℕ), (∀ k < w, c (a + k) = c' (a + k)) → ∀ m, a ≤ m → m < a + w → c m = c' m := by
    intro a w hk m h1 h2
    have := hk (m - a) (by omega)
    rwa [show a + (m - a) = m by omega] at this
  intro m hm
  by_cases m1 : m < (g.dims S).oTest
  · exact hlead m m1
  by_cases m2 : m < (g.dims S).oGTest
  · exact seg _ _ (fun k hk => by rw [h.matrix.test k hk, h'.matrix.test k hk]) m (by omega) (by omega)
  by_cases m3 : m < (g.dims S).oU
  · exact seg _ _ (fun k hk => by rw [h.matrix.gtest k hk, h'.matrix.gtest k hk]) m (by omega) (by omega)
  by_cases m4 : m < (g.dims S).oGrad
  · exact seg _ _ (fun k hk => by rw [s1.u k hk, s2.u k hk]) m (by omega) (by omega)
  by_cases m5 : m < (g.dims S).oOpp
  · exact seg _ _ (fun k hk => by rw [s1.grad k hk, s2.grad k hk]) m (by omega) (by omega)
  by_cases m6 : m < (g.dims S).oGOpp
  · exact seg _ _ (fun k hk => by rw [s1.opp k hk, s2.opp k hk]) m (by omega) (by omega)
  by_cases m7 : m < (g.dims S).oTemp
  · exact seg _ _ (fun k hk => by rw [s1.gopp k hk, s2.gopp k hk]) m (by omega) (by omega)
  have hth : g.p = .thermo := by
    by_contra hne
    have : g.width S = (g.dims S).oTemp := by
      unfold Gen.width
      cases hp : g.p <;> first | rfl | exact absurd hp hne
    omega
  rw [width_thermo S g hth] at hm
  obtain ⟨T, hT⟩ := Option.isSome_iff_exists.mp (hco .T (by rw [hth]; simp [solution]))
  have t1 := h.temp co T hsol hth hT
  have t2 := h'.temp co T hsol hth hT
  by_cases m8 : m < (g.dims S).oTempOpp
  · exact seg _ _ (fun k hk => by rw [t1.temp k hk, t2.temp k hk]) m (by omega) (by omega)
  · exact seg _ _ (fun k hk => by rw [t1.tempOpp k hk, t2.tempOpp k hk]) m (by omega) (by omega)

/-- Launches of an assembly agree up to content never read: same pair, kernel, constants, width, size, and
the same content. -/
def SameLaunch (l l' : Launch R) : Prop :=
  l.pair = l'.pair ∧ l.fn = l'.fn ∧ l.kernel = l'.kernel ∧ l.consts = l'.consts ∧ l.stride = l'.stride
  ∧ l.buf.size = l'.buf.size ∧ ∀ m < l.buf.size, l.buf.val m = l'.buf.val m

omit [Zero R] in
theorem same_buf {S : Static R} {g : Gen R} (hreq : Given g.co (required g.p)) {co : Coefs R}
    (hsol : g.sol = some co) (hco : Given co (solution g.p)) {cs cs' : ℕ → Buf R}
    (H : Rows S (g.width S) (g.Row S) cs) (H' : Rows S (g.width S) (g.Row S) cs') {i : ℕ} (hi : i < S.pairs) :
    (cs i).size = (cs' i).size ∧ ∀ m < (cs i).size, (cs i).val m = (cs' i).val m := by
  obtain ⟨a1, a2⟩ := H i hi
  obtain ⟨b1, b2⟩ := H' i hi
  refine ⟨a1.trans b1.symm, fun m hm => ?_⟩
  rw [a1] at hm
  have hw : 0 < g.width S := Nat.pos_of_ne_zero (fun h => by rw [h] at hm; omega)
  have he : m / g.width S < S.nf i := Nat.div_lt_of_lt_mul hm
  have := Gen.Row.unique hreq hsol hco (a2 _ he) (b2 _ he) (m % g.width S) (Nat.mod_lt _ hw)
  unfold Buf.row at this
  rwa [Nat.mul_comm, Nat.div_add_mod] at this

/-- Generating with the solution gives the same data and kernels after any two histories: what is then
assembled depends on the arguments of this call only. -/
theorem C87_partial (S : Static R) (hS : S.Ok) (ops ops' : List (Op R))
    (h : ProperHistory S Tracked.new ops) (h' : ProperHistory S Tracked.new ops') (p : Problem) (V : Space R)
    (co : Coefs R) (gamma theta : R) (hok : GenOk S p V co) (hreq : Given co (required p))
    (hsol : Given co (solution p)) :
    ∃ s s', run S State.init (ops ++ [.gen p V co gamma theta]) = some s
      ∧ run S State.init (ops' ++ [.gen p V co gamma theta]) = some s'
      ∧ List.Forall₂ SameLaunch (assembleVector S p s) (assembleVector S p s')
      ∧ List.Forall₂ SameLaunch (assembleMatrix S p s) (assembleMatrix S p s') := by
  have run_append : ∀ (os : List (Op R)) (s s1 : State R) (o : List (Op R)), run S s os = some s1 →
      run S s (os ++ o) = run S s1 o := by
    intro os
    induction os with
    | nil => intro s s1 o h; cases h; rfl
    | cons a os ih =>
      intro s s1 o h
      simp only [run, List.cons_append] at h ⊢
      cases hc : call S s a <;> rw [hc] at h <;> dsimp only at h ⊢
      · exact ih _ _ _ h
      · exact ih _ _ _ h
      · cases h
  have one : ∀ (os : List (Op R)), ProperHistory S Tracked.new os →
      ∃ s t, run S State.init (os ++ [.gen p V co gamma theta]) = some s ∧ Good S t s
        ∧ t.get p = some ⟨p, V, co, gamma, theta, some co⟩ := by
    intro os hos
    obtain ⟨s1, g1, g2⟩ := good_history hS os (good_init S) hos
    obtain ⟨s2, g3, g4⟩ := good_history hS [.gen p V co gamma theta] g2 ⟨hok, trivial⟩
    refine ⟨s2, _, (run_append _ _ _ _ g1).trans g3, g4, ?_⟩
    simp only [List.foldl_cons, List.foldl_nil, Tracked.step]
    rw [if_pos hreq, if_pos hsol, get_set]
  obtain ⟨s, t, r1, G, hg⟩ := one ops h
  obtain ⟨s', t', r2, G', hg'⟩ := one ops' h'
  refine ⟨s, s', r1, r2, ?_⟩
  have forall₂ : ∀ (f f' : ℕ → List (Launch R)), (∀ i < S.pairs, List.Forall₂ SameLaunch (f i) (f' i)) →
      List.Forall₂ SameLaunch ((List.range S.pairs).flatMap f) ((List.range S.pairs).flatMap f') := by
    intro f f' hff
    have : ∀ (l : List ℕ), (∀ i ∈ l, i < S.pairs) →
        List.Forall₂ SameLaunch (l.flatMap f) (l.flatMap f') := by
      intro l
      induction l with
      | nil => intro _; exact .nil
      | cons a l ih =>
        intro hl
        simp only [List.flatMap_cons]
        exact List.rel_append (hff a (hl a (List.mem_cons_self ..)))
          (ih (fun i hi => hl i (List.mem_cons_of_mem _ hi)))
    exact this _ (fun i hi => List.mem_range.mp hi)
  cases p with
  | elasticity =>
    obtain ⟨F, -, -⟩ := G.el _ hg
    obtain ⟨F', -, -⟩ := G'.el _ hg'
    refine ⟨forall₂ _ _ (fun i hi => .cons ?_ .nil), forall₂ _ _ (fun i hi => .cons ?_ .nil)⟩
    · exact ⟨rfl, rfl, F.kRhs.trans F'.kRhs.symm, F.consts.trans F'.consts.symm, F.width.trans F'.width.symm,
        same_buf hreq rfl hsol F.rows F'.rows hi⟩
    · exact ⟨rfl, rfl, F.kJac.trans F'.kJac.symm, F.consts.trans F'.consts.symm, F.width.trans F'.width.symm,
        same_buf hreq rfl hsol F.rows F'.rows hi⟩
  | poisson =>
    obtain ⟨F, -⟩ := G.po _ hg
    obtain ⟨F', -⟩ := G'.po _ hg'
    refine ⟨forall₂ _ _ (fun i hi => .cons ?_ .nil), forall₂ _ _ (fun i hi => .cons ?_ .nil)⟩
    · exact ⟨rfl, rfl, F.kRhs.trans F'.kRhs.symm, F.consts.trans F'.consts.symm, F.width.trans F'.width.symm,
        same_buf hreq rfl hsol F.rows F'.rows hi⟩
    · exact ⟨rfl, rfl, F.kJac.trans F'.kJac.symm, F.consts.trans F'.consts.symm, F.width.trans F'.width.symm,
        same_buf hreq rfl hsol F.rows F'.rows hi⟩
  | thermo =>
    obtain ⟨F, -, k⟩ := G.el _ hg
    obtain ⟨F', -, k'⟩ := G'.el _ hg'
    refine ⟨forall₂ _ _ (fun i hi => .cons ?_ (.cons ?_ .nil)), forall₂ _ _ (fun i hi => .cons ?_ .nil)⟩
    · exact ⟨rfl, rfl, F.kRhs.trans F'.kRhs.symm, F.consts.trans F'.consts.symm, F.width.trans F'.width.symm,
        same_buf hreq rfl hsol F.rows F'.rows hi⟩
    · exact ⟨rfl, rfl, (k rfl).trans (k' rfl).symm, F.consts.trans F'.consts.symm, F.width.trans F'.width.symm,
        same_buf hreq rfl hsol F.rows F'.rows hi⟩
    · exact ⟨rfl, rfl, F.kJac.trans F'.kJac.symm, F.consts.trans F'.consts.symm, F.width.trans F'.width.symm,
        same_buf hreq rfl hsol F.rows F'.rows hi⟩

example : exS.Ok ∧ ProperHistory exS Tracked.new exOps ∧ ProperHistory exS Tracked.new []
    ∧ GenOk exS .elasticity exV exCo ∧ Given exCo (required .elasticity) ∧ Given exCo (solution .elasticity) :=
  ⟨exSOk, exProper, trivial, exGenOk _ (by decide), by decide, by decide⟩

/-- Without the solution it does depend on earlier calls: a generation by material only keeps the solution of
an earlier one (or, after a change of problem, whatever was at the new place), where the first generation
has zeros. Entry 7 is the first component of the displacement. -/
theorem C87_violated :
    GenOk exS .elasticity exV exMat
    ∧ ProperHistory exS Tracked.new [.gen .elasticity exV exCo 1 1, .gen .elasticity exV exMat 1 1]
    ∧ (run exS State.init [.gen .elasticity exV exMat 1 1]).map (fun s => (s.coeffs 0).val 7) = some 0
    ∧ (run exS State.init [.gen .elasticity exV exCo 1 1, .gen .elasticity exV exMat 1 1]).map
        (fun s => (s.coeffs 0).val 7) = some 5010
    ∧ (run exS State.init [.gen .thermo exV exCo 1 1, .gen .elasticity exV exMat 1 1]).map
        (fun s => (s.coeffs 0).val 7) = some 301 :=
  ⟨exGenOkMat _ (by decide), ⟨exGenOk _ (by decide), exGenOkMat _ (by decide), trivial⟩,
    by decide +kernel, by decide +kernel, by decide +kernel⟩

/-! ### C41: missing coefficients -/

/-- In every state `generate_kernel_data` raises exactly if a required coefficient is missing (`mu`, `lambda`;
`kdt`; `mu`, `lambda`, `alpha` and, when `u` is given, `T`), it names the first missing one, and otherwise
succeeds. -/
theorem C41_meshtie (S : Static R) (hS : S.Ok) (p : Problem) (V : Space R) (co : Coefs R) (gamma theta : R)
    (hok : GenOk S p V co) (s : State R) :
    (∀ k, (∃ s', generateKernelData S p V co gamma theta s = .throws s' k) ↔ missing p co = some k)
    ∧ ((∃ s', generateKernelData S p V co gamma theta s = .ok s') ↔ missing p co = none) := by
  have G : Good S Tracked.new s := ⟨fun g h => by simp [Tracked.new] at h, fun g h => by simp [Tracked.new] at h⟩
  obtain ⟨m1, m2⟩ := generate_missing (S := S) s p V co gamma theta
  unfold missing
  rw [List.find?_append]
  cases hf : (required p).find? fun k => (co k).isNone with
  | some k0 =>
    rw [m1 k0 hf]
    simp
  | none =>
    obtain ⟨s1, -, h2⟩ := good_matrix (gamma := gamma) (theta := theta) G hS hok (m2.mp hf)
    rw [h2]
    by_cases ht : (co (trigger p)).isSome
    · rw [if_pos ht, if_pos ht]
      obtain ⟨u1, u2⟩ := update_missing S s1 p co
      cases hu : missingU p co with
      | some k0 =>
        rw [u1 k0 hu]
        unfold missingU at hu
        rw [hu]
        simp
      | none =>
        have hg := u2.mp hu
        unfold missingU at hu
        rw [hu]
        obtain ⟨s2, h3, -⟩ := good_matrix (gamma := gamma) (theta := theta) G hS hok (m2.mp hf)
        obtain ⟨s3, h5, h6⟩ := good_call (o := .gen p V co gamma theta) G hS hok
        have h7 : updateKernelData S co p s1 = .ok s3 := by
          have e : call S s (.gen p V co gamma theta) = updateKernelData S co p s1 := by
            show generateKernelData S p V co gamma theta s = _
            rw [h2, if_pos ht]
          rw [e] at h5
          rcases h5 with h5 | ⟨k, h5⟩
          · exact h5
          · exfalso
            have : ∀ o : Option (ℕ → Buf R), ∀ f, Out.ofOption f o ≠ .throws s3 k := by
              intro o f; cases o <;> simp [Out.ofOption]
            unfold updateKernelData at h5
            cases p <;> dsimp only at h5
            · obtain ⟨u, hu⟩ := Option.isSome_iff_exists.mp (hg .u (by simp [solution]))
              rw [hu] at h5
              exact this _ _ h5
            · obtain ⟨u, hu⟩ := Option.isSome_iff_exists.mp (hg .T (by simp [solution]))
              rw [hu] at h5
              exact this _ _ h5
            · obtain ⟨u, hu⟩ := Option.isSome_iff_exists.mp (hg .u (by simp [solution]))
              obtain ⟨T, hT⟩ := Option.isSome_iff_exists.mp (hg .T (by simp [solution]))
              rw [hu] at h5
              dsimp only at h5
              rw [hT] at h5
              exact this _ _ h5
        rw [h7]
        simp
    · rw [if_neg ht, if_neg ht]
      simp

example : GenOk exS .thermo exV exMat ∧ missing .thermo exMat = none ∧ missing .thermo exCo = none
    ∧ missing .thermo (fun k => if k = .T then none else exCo k) = some .T
    ∧ missing .elasticity (fun k => if k = .T then none else exCo k) = none
    ∧ missing .thermo (fun k => if k = .alpha ∨ k = .T then none else exCo k) = some .alpha
    ∧ missing .poisson (fun k => if k = .kdt then none else exCo k) = some .kdt :=
  ⟨exGenOkMat _ (by decide), by decide, by decide, by decide, by decide, by decide, by decide⟩

omit [Zero R] in
/-- `update_kernel_data` raises exactly if the solution is not (completely) given, without any effect. -/
theorem C41_meshtie_update (S : Static R) (p : Problem) (co : Coefs R) (s s' : State R) (k : Key) :
    updateKernelData S co p s = .throws s' k ↔ s' = s ∧ missingU p co = some k := by
  obtain ⟨m1, m2⟩ := update_missing S s p co
  constructor
  · intro h
    cases hm : missingU p co with
    | some k0 =>
      rw [m1 k0 hm] at h
      cases h
      exact ⟨rfl, rfl⟩
    | none =>
      exfalso
      have hg := m2.mp hm
      have : ∀ o : Option (ℕ → Buf R), ∀ f, Out.ofOption f o ≠ .throws s' k := by
        intro o f; cases o <;> simp [Out.ofOption]
      unfold updateKernelData at h
      cases p <;> dsimp only at h
      · obtain ⟨u, hu⟩ := Option.isSome_iff_exists.mp (hg .u (by simp [solution]))
        rw [hu] at h
        exact this _ _ h
      · obtain ⟨u, hu⟩ := Option.isSome_iff_exists.mp (hg .T (by simp [solution]))
        rw [hu] at h
        exact this _ _ h
      · obtain ⟨u, hu⟩ := Option.isSome_iff_exists.mp (hg .u (by simp [solution]))
        obtain ⟨T, hT⟩ := Option.isSome_iff_exists.mp (hg .T (by simp [solution]))
        rw [hu] at h
        dsimp only at h
        rw [hT] at h
        exact this _ _ h
  · rintro ⟨rfl, h⟩
    exact m1 k h

example : missingU .thermo exMat = some .u ∧ missingU .elasticity exCo = none := ⟨by decide, by decide⟩

/-! ### C88: a call that raises -/

/-- A call that raises because of a missing material coefficient, and an update that raises, leave the object
as it was. -/
theorem C88_partial (S : Static R) (s : State R) :
    (∀ p V co gamma theta, ¬Given co (required p) →
      ∃ k, generateKernelData S p V co gamma theta s = .throws s k)
    ∧ ∀ p co, ¬Given co (solution p) → ∃ k, updateKernelData S co p s = .throws s k := by
  refine ⟨fun p V co gamma theta h => ?_, fun p co h => ?_⟩
  · obtain ⟨m1, m2⟩ := generate_missing (S := S) s p V co gamma theta
    obtain ⟨k, hk⟩ := Option.ne_none_iff_exists'.mp (fun h' => h (m2.mp h'))
    exact ⟨k, m1 k hk⟩
  · obtain ⟨m1, m2⟩ := update_missing S s p co
    obtain ⟨k, hk⟩ := Option.ne_none_iff_exists'.mp (fun h' => h (m2.mp h'))
    exact ⟨k, m1 k hk⟩

example : ¬Given (fun k => if k = .alpha then none else exCo k) (required .thermo)
    ∧ ¬Given exMat (solution .elasticity) := ⟨by decide, by decide⟩

/-- A thermo-elastic generation with `u` but without `T` raises after replacing the data: here the Nitsche
parameter and the width of the rows are the new ones. -/
theorem C88_violated :
    ∃ (co : Coefs ℤ) (s s' : State ℤ), GenOk exS .thermo exV co
      ∧ generateKernelData exS .elasticity exV exCo 1 1 State.init = .ok s
      ∧ generateKernelData exS .thermo exV co 2 1 s = .throws s' .T
      ∧ s.consts = [1, 1] ∧ s'.consts = [2, 1] ∧ s.cstride = 19 ∧ s'.cstride = 22 := by
  refine ⟨fun k => if k = .T then none else exCo k, _, _, ?_, rfl, rfl, rfl, rfl, rfl, rfl⟩
  refine ⟨(exGenOk .thermo (by decide)).space, fun k _ f hf i _ => ?_, ?_, ?_⟩
  · cases k <;> cases hf <;> rfl
  · intro f hf
    cases hf; exact ⟨rfl, rfl, exPacked _ _⟩
  · intro _ f hf
    cases hf

end Verif.TieData
