import Verif.Lemmas.ContactKernels
import Mathlib.Data.List.GetD

/-! The contact kernels read no coefficient beyond the sum of the strides. -/

namespace Verif.Kernels

open Finset Verif.Elasticity

noncomputable section

theorem loop_congr {σ : Type} {n : ℕ} {f g : ℕ → σ → σ} (h : ∀ i, i < n → f i = g i) : loop n f = loop n g := by
  funext s
  unfold loop
  have key : ∀ (l : List ℕ) (s : σ), (∀ i ∈ l, i < n) →
      l.foldl (fun s i => f i s) s = l.foldl (fun s i => g i s) s := by
    intro l
    induction l with
    | nil => intro s _; rfl
    | cons a l ih =>
      intro s hl
      rw [List.foldl_cons, List.foldl_cons, h a (hl a (List.mem_cons_self ..))]
      exact ih _ (fun i hi => hl i (List.mem_cons_of_mem _ hi))
  exact key _ s (fun i hi => List.mem_range.mp hi)

theorem forEach_congr {σ α : Type} {l : List α} {f g : α → σ → σ} (h : ∀ i ∈ l, f i = g i) :
    forEach l f = forEach l g := by
  funext s
  unfold forEach
  induction l generalizing s with
  | nil => rfl
  | cons a l ih =>
    rw [List.foldl_cons, List.foldl_cons, h a (List.mem_cons_self ..)]
    exact ih (fun i hi => h i (List.mem_cons_of_mem _ hi)) _

theorem pair_lt {a b m n : ℕ} (ha : a < m) (hb : b < n) : a * n + b < m * n := by
  calc a * n + b < a * n + n := by omega
    _ = (a + 1) * n := by ring
    _ ≤ m * n := Nat.mul_le_mul_right _ ha

/-- Two rows agree on the part of the given length. -/
def Agree (N : ℕ) (c c' : ℕ → ℝ) : Prop := ∀ m < N, c m = c' m

section
variable {D : KD} {c c' : ℕ → ℝ} (h : Agree D.cstrides.sum c c')
include h

theorem agree_c (m : ℕ) (hm : m < 4) : c m = c' m :=
  h m (by simp only [KD.cstrides, List.sum_cons]; omega)

theorem agree_off {j m : ℕ} (hj : j < 8) (hm : m < D.cstrides.getD j 0) : c (D.off j + m) = c' (D.off j + m) := by
  refine h _ ?_
  unfold KD.off offsets
  have hl : D.cstrides.length = 8 := rfl
  have h1 : D.cstrides.sum = (D.cstrides.take j).sum + (D.cstrides.drop j).sum := by
    rw [← List.sum_append, List.take_append_drop]
  have h2 : D.cstrides.drop j = D.cstrides.getD j 0 :: D.cstrides.drop (j + 1) := by
    rw [List.getD_eq_getElem _ _ (by omega)]
    exact List.drop_eq_getElem_cons (by omega)
  rw [h1, h2, List.sum_cons]
  omega

variable {q : ℕ} (hq : q < D.nq)
include hq

theorem agree_nSurf (i : ℕ) (hi : i < D.gdim) : nSurf D c q i = nSurf D c' q i := by
  unfold nSurf
  rw [Nat.add_assoc, agree_off h (j := 2) (by omega)]
  exact pair_lt hq hi

theorem agree_nOld (i : ℕ) (hi : i < D.gdim) : nOld D c q i = nOld D c' q i := by
  unfold nOld
  rw [Nat.add_assoc, agree_off h (j := 7) (by omega)]
  exact pair_lt hq hi

theorem agree_nDot : nDot D c q = nDot D c' q :=
  sum_congr rfl (fun i hi => by rw [agree_nSurf h hq i (mem_range.mp hi)])

theorem agree_gap : gap D c q = gap D c' q :=
  sum_congr rfl (fun i hi => by
    rw [agree_nSurf h hq i (mem_range.mp hi), Nat.add_assoc, agree_off h (j := 1) (by omega)]
    exact pair_lt hq (mem_range.mp hi))

theorem agree_epsB (i n : ℕ) (hn : n < D.gdim) : epsB D c q i n = epsB D c' q i n := by
  unfold epsB normalStrain
  refine congrFun (loop_congr (fun k _ => ?_)) _
  refine loop_congr (fun s hs => ?_)
  rw [agree_nSurf h hq n hn, agree_nSurf h hq s hs]

theorem agree_sigU (i : ℕ) (hi : i < D.gdim) : sigU D c q i = sigU D c' q i := by
  unfold sigU sigmaNU
  refine congrFun (loop_congr (fun k hk => ?_)) _
  have e : ∀ a < D.gdim, ∀ b < D.gdim, c (D.off 5 + q * D.gdim * D.gdim + (a * D.gdim + b))
      = c' (D.off 5 + q * D.gdim * D.gdim + (a * D.gdim + b)) := by
    intro a ha b hb
    rw [Nat.add_assoc, agree_off h (j := 5) (by omega)]
    have := pair_lt (a := q) (m := D.nq) (b := a * D.gdim + b) (n := D.gdim * D.gdim) hq (pair_lt ha hb)
    show _ < D.nq * D.gdim * D.gdim
    rw [Nat.mul_assoc, Nat.mul_assoc]
    exact this
  beta_reduce
  rw [e k hk i hi, e i hi k hk, e k hk k hk, agree_c h 0 (by omega), agree_c h 1 (by omega)]

theorem agree_sigB (i n j : ℕ) : sigB D c q i n j = sigB D c' q i n j := by
  unfold sigB
  rw [agree_c h 0 (by omega), agree_c h 1 (by omega)]

theorem agree_signU : signU D c q = signU D c' q :=
  sum_congr rfl (fun i hi => by
    rw [agree_nSurf h hq i (mem_range.mp hi), agree_sigU h hq i (mem_range.mp hi)])

theorem agree_u (j : ℕ) (hj : j < D.gdim) : c (D.off 4 + D.gdim * q + j) = c' (D.off 4 + D.gdim * q + j) := by
  rw [Nat.add_assoc, agree_off h (j := 4) (by omega)]
  rw [Nat.mul_comm]
  exact pair_lt hq hj

theorem agree_opp (j : ℕ) (hj : j < D.bs) : c (D.off 6 + q * D.bs + j) = c' (D.off 6 + q * D.bs + j) := by
  rw [Nat.add_assoc, agree_off h (j := 6) (by omega)]
  exact pair_lt hq hj

theorem agree_nDotN : nDotN D c q = nDotN D c' q :=
  sum_congr rfl (fun i hi => by
    rw [agree_nSurf h hq i (mem_range.mp hi), agree_nOld h hq i (mem_range.mp hi)])

theorem agree_test {links : ℕ} (hl : links ≤ D.maxLinks) (k i n : ℕ) (hk : k < links) (hi : i < D.nd)
    (hn : n < D.bs) : c (tIdx D q k i n) = c' (tIdx D q k i n) := by
  have e : tIdx D q k i n = D.off 3 + (k * (D.nd * (D.nq * D.bs)) + (i * (D.nq * D.bs) + (q * D.bs + n))) := by
    unfold tIdx; ring
  rw [e, agree_off h (j := 3) (by omega)]
  have := pair_lt (lt_of_lt_of_le hk hl) (pair_lt hi (pair_lt hq hn))
  show _ < D.nq * D.nd * D.bs * D.maxLinks
  calc _ < _ := this
    _ = _ := by ring

variable (hbs : D.bs = D.gdim)
include hbs

theorem agree_jumpN : jumpN D c q = jumpN D c' q := by
  unfold jumpN
  refine congrArg₂ _ (sum_congr rfl (fun i hi => ?_)) (sum_congr rfl (fun i hi => ?_))
  · rw [agree_nSurf h hq i (mem_range.mp hi), agree_u h hq i (mem_range.mp hi)]
  · rw [agree_nSurf h hq i (hbs ▸ mem_range.mp hi), agree_opp h hq i (mem_range.mp hi)]

theorem agree_signV (i n : ℕ) (hn : n < D.bs) : signV D c q i n = signV D c' q i n := by
  unfold signV
  rw [agree_c h 0 (by omega), agree_c h 1 (by omega), agree_nDot h hq, agree_epsB h hq i n (hbs ▸ hn)]

theorem agree_nS (i : ℕ) (hi : i < D.bs) : nSurf D c q i = nSurf D c' q i := agree_nSurf h hq i (hbs ▸ hi)

theorem agree_nO (i : ℕ) (hi : i < D.bs) : nOld D c q i = nOld D c' q i := agree_nOld h hq i (hbs ▸ hi)

theorem agree_sU (i : ℕ) (hi : i < D.bs) : sigU D c q i = sigU D c' q i := agree_sigU h hq i (hbs ▸ hi)

theorem agree_gam (w : ℕ → ℝ) : gam c w = gam c' w := by
  unfold gam; rw [agree_c h 3 (by omega)]

theorem agree_gamInv (w : ℕ → ℝ) : gamInv c w = gamInv c' w := by
  unfold gamInv; rw [agree_c h 3 (by omega)]

theorem vec3_congr {b : ℕ} {x y : ℕ → ℝ} (e : ∀ j < b, x j = y j) : vec3 b x = vec3 b y := by
  funext j
  unfold vec3
  by_cases hj : (j : ℕ) < b
  · rw [if_pos hj, if_pos hj, e _ hj]
  · rw [if_neg hj, if_neg hj]

theorem agree_ptU (w : ℕ → ℝ) : vec3 D.bs (ptU D c w q) = vec3 D.bs (ptU D c' w q) := by
  refine vec3_congr h hq hbs (fun j hj => ?_)
  unfold ptU
  rw [agree_u h hq j (hbs ▸ hj), agree_opp h hq j hj, agree_jumpN h hq hbs, agree_nS h hq hbs j hj,
    agree_gam h hq hbs, agree_sU h hq hbs j hj, agree_signU h hq]

theorem agree_ptUc (w : ℕ → ℝ) : vec3 D.bs (ptUc D c w q) = vec3 D.bs (ptUc D c' w q) := by
  refine vec3_congr h hq hbs (fun j hj => ?_)
  unfold ptUc vRel
  rw [agree_u h hq j (hbs ▸ hj), agree_opp h hq j hj, agree_jumpN h hq hbs, agree_nS h hq hbs j hj,
    agree_gam h hq hbs, agree_sU h hq hbs j hj, agree_signU h hq, agree_gap h hq, agree_nO h hq hbs j hj,
    agree_nDotN h hq]

variable {links : ℕ} (hl : links ≤ D.maxLinks)
include hl

theorem agree_unbiasedRhs (w : ℕ → ℝ) : unbiasedRhsPoint D c w links q = unbiasedRhsPoint D c' w links q := by
  unfold unbiasedRhsPoint
  dsimp only
  rw [agree_gam h hq hbs, agree_gamInv h hq hbs, agree_jumpN h hq hbs, agree_gap h hq, agree_signU h hq]
  refine loop_congr (fun i hi => loop_congr (fun n hn => ?_))
  funext b
  rw [agree_nS h hq hbs n hn, agree_signV h hq hbs i n hn]
  refine congrFun (loop_congr (fun k hk => ?_)) _
  funext b
  rw [agree_test h hq hl k i n hk hi hn]

theorem agree_unbiasedJac (w : ℕ → ℝ) : unbiasedJacPoint D c w links q = unbiasedJacPoint D c' w links q := by
  unfold unbiasedJacPoint
  dsimp only
  rw [agree_gam h hq hbs, agree_gamInv h hq hbs, agree_jumpN h hq hbs, agree_gap h hq, agree_signU h hq]
  refine loop_congr (fun j hj => loop_congr (fun l hl' => loop_congr (fun i hi => loop_congr (fun b hb => ?_))))
  funext A
  rw [agree_nS h hq hbs l hl', agree_nS h hq hbs b hb, agree_signV h hq hbs i b hb, agree_signV h hq hbs j l hl']
  refine congrFun (loop_congr (fun k hk => ?_)) _
  funext b'
  rw [agree_test h hq hl k i b hk hi hb, agree_test h hq hl k j l hk hj hl']

theorem agree_frictionRhs (w : ℕ → ℝ) (proj : ℕ → ℝ) :
    frictionRhsFill D c w links q proj = frictionRhsFill D c' w links q proj := by
  unfold frictionRhsFill
  dsimp only
  rw [agree_gam h hq hbs, agree_gamInv h hq hbs, agree_signU h hq]
  refine loop_congr (fun i hi => loop_congr (fun n hn => ?_))
  funext b
  rw [agree_nS h hq hbs n hn, agree_signV h hq hbs i n hn]
  have e1 : ∀ j < D.bs, nSurf D c q j = nSurf D c' q j := agree_nS h hq hbs
  have e2 : ∀ j < D.bs, sigU D c q j = sigU D c' q j := agree_sU h hq hbs
  refine (congrFun (loop_congr (fun k hk => ?_)) _).trans (congrArg _ (congrFun (loop_congr (fun j hj => ?_)) _))
  · funext b
    rw [agree_test h hq hl k i n hk hi hn]
    refine congrFun (loop_congr (fun j hj => ?_)) _
    funext b
    rw [e1 j hj]
  · funext b
    rw [e1 j hj, e2 j hj, agree_sigB h hq]

theorem agree_trescaRhs (w : ℕ → ℝ) : trescaRhsPoint D c w links q = trescaRhsPoint D c' w links q := by
  unfold trescaRhsPoint
  dsimp only
  rw [agree_ptU h hq hbs, agree_gam h hq hbs, agree_c h 2 (by omega), agree_frictionRhs h hq hbs hl]

theorem agree_coulombRhs (w : ℕ → ℝ) : coulombRhsPoint D c w links q = coulombRhsPoint D c' w links q := by
  unfold coulombRhsPoint
  dsimp only
  rw [agree_ptUc h hq hbs, agree_gam h hq hbs, agree_c h 2 (by omega), agree_frictionRhs h hq hbs hl,
    agree_jumpN h hq hbs, agree_gap h hq, agree_signU h hq]

theorem agree_trescaJac (w : ℕ → ℝ) : trescaJacPoint D c w links q = trescaJacPoint D c' w links q := by
  unfold trescaJacPoint
  dsimp only
  rw [agree_ptU h hq hbs, agree_gam h hq hbs, agree_gamInv h hq hbs, agree_c h 2 (by omega)]
  have e1 : ∀ j < D.bs, nSurf D c q j = nSurf D c' q j := agree_nS h hq hbs
  have e3 : ∀ i n j, sigB D c q i n j = sigB D c' q i n j := agree_sigB h hq
  refine loop_congr (fun j hj => loop_congr (fun l hl' => loop_congr (fun i hi => loop_congr (fun b hb => ?_))))
  funext A
  rw [agree_signV h hq hbs i b hb, agree_signV h hq hbs j l hl', e1 l hl', e1 b hb]
  simp only [e3]
  have s1 : ∀ (P : ℕ → ℝ) (x y z : ℝ) (f : ℕ → ℝ) m,
      ∑ n ∈ range D.bs, P (n * D.bs + m) * (x * nSurf D c q n + y * (f n - z * nSurf D c q n))
      = ∑ n ∈ range D.bs, P (n * D.bs + m) * (x * nSurf D c' q n + y * (f n - z * nSurf D c' q n)) :=
    fun P x y z f m => sum_congr rfl (fun n hn => by rw [e1 n (mem_range.mp hn)])
  have s2 : ∀ (P : ℕ → ℝ) (x : ℝ) m, ∑ n ∈ range D.bs, P (n * D.bs + m) * x * nSurf D c q n
      = ∑ n ∈ range D.bs, P (n * D.bs + m) * x * nSurf D c' q n :=
    fun P x m => sum_congr rfl (fun n hn => by rw [e1 n (mem_range.mp hn)])
  simp only [s1, s2]
  refine (congrFun (loop_congr (fun k hk => ?_)) _).trans (congrArg _ (congrFun (loop_congr (fun n hn => ?_)) _))
  · funext A
    rw [agree_test h hq hl k i b hk hi hb, agree_test h hq hl k j l hk hj hl']
    refine congrFun (loop_congr (fun n hn => ?_)) _
    funext A
    rw [e1 n hn]
  · funext A
    rw [e1 n hn]

theorem agree_coulombJac (w : ℕ → ℝ) : coulombJacPoint D c w links q = coulombJacPoint D c' w links q := by
  unfold coulombJacPoint
  dsimp only
  rw [agree_ptUc h hq hbs, agree_gam h hq hbs, agree_gamInv h hq hbs, agree_c h 2 (by omega),
    agree_jumpN h hq hbs, agree_gap h hq, agree_signU h hq, agree_nDotN h hq]
  have e1 : ∀ j < D.bs, nSurf D c q j = nSurf D c' q j := agree_nS h hq hbs
  have e2 : ∀ j < D.bs, nOld D c q j = nOld D c' q j := agree_nO h hq hbs
  have e3 : ∀ i n j, sigB D c q i n j = sigB D c' q i n j := agree_sigB h hq
  refine loop_congr (fun j hj => loop_congr (fun l hl' => loop_congr (fun i hi => loop_congr (fun b hb => ?_))))
  funext A
  rw [agree_signV h hq hbs i b hb, agree_signV h hq hbs j l hl', e1 l hl', e1 b hb]
  simp only [e3]
  have s1 : ∀ (P : ℕ → ℝ) (x y z d : ℝ) (f : ℕ → ℝ) m,
      ∑ n ∈ range D.bs, P (n * D.bs + m) * (x * (nSurf D c q n - nOld D c q n + d * nSurf D c q n)
        + y * (f n - z * nSurf D c q n))
      = ∑ n ∈ range D.bs, P (n * D.bs + m) * (x * (nSurf D c' q n - nOld D c' q n + d * nSurf D c' q n)
        + y * (f n - z * nSurf D c' q n)) :=
    fun P x y z d f m => sum_congr rfl (fun n hn => by rw [e1 n (mem_range.mp hn), e2 n (mem_range.mp hn)])
  have s2 : ∀ (P : ℕ → ℝ) (x d : ℝ) m,
      ∑ n ∈ range D.bs, P (n * D.bs + m) * (nSurf D c q n - nOld D c q n + d * nSurf D c q n) * x
      = ∑ n ∈ range D.bs, P (n * D.bs + m) * (nSurf D c' q n - nOld D c' q n + d * nSurf D c' q n) * x :=
    fun P x d m => sum_congr rfl (fun n hn => by rw [e1 n (mem_range.mp hn), e2 n (mem_range.mp hn)])
  simp only [s1, s2]
  refine (congrFun (loop_congr (fun k hk => ?_)) _).trans (congrArg _ (congrFun (loop_congr (fun n hn => ?_)) _))
  · funext A
    rw [agree_test h hq hl k i b hk hi hb, agree_test h hq hl k j l hk hj hl']
    refine congrFun (loop_congr (fun n hn => ?_)) _
    funext A
    rw [e1 n hn]
  · funext A
    rw [e1 n hn]

end

end

end Verif.Kernels
