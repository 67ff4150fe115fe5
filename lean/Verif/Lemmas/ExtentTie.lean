import Verif.Lemmas.Extent
import Verif.Model.MeshTieKernels

/-! The mesh tie kernels read no coefficient beyond the sum of the strides; the matrix kernels read none of
the solution. -/

namespace Verif.Kernels

open Finset Verif.Elasticity

noncomputable section

theorem offsets_succ {ks : List ℕ} {j : ℕ} (hj : j < ks.length) :
    offsets ks (j + 1) = offsets ks j + ks.getD j 0 := by
  unfold offsets
  rw [List.getD_eq_getElem _ _ hj, List.take_add_one, List.getElem?_eq_getElem hj, Option.toList_some, List.sum_append]
  simp

theorem offsets_mono (ks : List ℕ) {i j : ℕ} (h : i ≤ j) : offsets ks i ≤ offsets ks j := by
  induction h with
  | refl => exact le_refl _
  | @step m h ih =>
    refine le_trans ih ?_
    by_cases hm : m < ks.length
    · rw [offsets_succ hm]; omega
    · unfold offsets
      rw [List.take_of_length_le (by omega), List.take_of_length_le (by omega)]

theorem offsets_le_sum (ks : List ℕ) (j : ℕ) : offsets ks j ≤ ks.sum := by
  have h := offsets_mono ks (Nat.le_max_left j ks.length)
  refine le_trans h (le_of_eq ?_)
  unfold offsets
  rw [List.take_of_length_le (Nat.le_max_right _ _)]

section
variable {D : KD} {ks : List ℕ} {N : ℕ} {c c' : ℕ → ℝ} (h : Agree N c c')
include h

theorem agree_at {j m : ℕ} (hj : j < ks.length) (hN : offsets ks (j + 1) ≤ N) (hm : m < ks.getD j 0) :
    c (offsets ks j + m) = c' (offsets ks j + m) := by
  refine h _ ?_
  have := offsets_succ hj
  omega

theorem agree_sigB' (h2 : 2 ≤ N) (q i n j : ℕ) : sigB D c q i n j = sigB D c' q i n j := by
  unfold sigB
  rw [h 0 (by omega), h 1 (by omega)]

end

section elastic
variable {D : KD} {th : Bool} {N : ℕ} {c c' : ℕ → ℝ} (h : Agree N c c')
  (hN : offsets (tieStrides D th) 3 ≤ N)
include h hN

theorem three_le : 3 ≤ N := by
  have : offsets (tieStrides D th) 1 ≤ offsets (tieStrides D th) 3 := offsets_mono _ (by omega)
  have e : 3 ≤ offsets (tieStrides D th) 1 := by cases th <;> simp [tieStrides, offsets]
  omega

theorem len_tie : 7 ≤ (tieStrides D th).length := by cases th <;> simp [tieStrides]

theorem agree_tieTest {links q : ℕ} (hl : links ≤ D.maxLinks) (hq : q < D.nq) (k i n : ℕ) (hk : k < links)
    (hi : i < D.nd) (hn : n < D.bs) :
    c (tieIdx D (offsets (tieStrides D th)) q k i n) = c' (tieIdx D (offsets (tieStrides D th)) q k i n) := by
  have e : tieIdx D (offsets (tieStrides D th)) q k i n = offsets (tieStrides D th) 1
      + (k * (D.nd * (D.nq * D.bs)) + (i * (D.nq * D.bs) + (q * D.bs + n))) := by
    unfold tieIdx; ring
  rw [e]
  have hlen := len_tie h hN
  refine agree_at h (by omega) (le_trans (offsets_mono _ (by omega)) hN) ?_
  have := pair_lt (lt_of_lt_of_le hk hl) (pair_lt hi (pair_lt hq hn))
  have e2 : (tieStrides D th).getD 1 0 = D.nq * D.nd * D.bs * D.maxLinks := by cases th <;> rfl
  rw [e2]
  calc _ < _ := this
    _ = _ := by ring

theorem agree_tieSigOpp (hbs : D.bs = D.gdim) {links q : ℕ} (hl : links ≤ D.maxLinks) (hq : q < D.nq)
    (k i n g : ℕ) (hk : k < links) (hi : i < D.nd) (hn : n < D.gdim) (hg : g < D.gdim) :
    tieSigOpp D (offsets (tieStrides D th)) c q k i n g = tieSigOpp D (offsets (tieStrides D th)) c' q k i n g := by
  have h3 := three_le h hN
  have hlen := len_tie h hN
  have e : ∀ b < D.gdim, c (offsets (tieStrides D th) 2 + (k * D.nq * D.nd * D.gdim + i * D.nq * D.gdim + q * D.gdim + b))
      = c' (offsets (tieStrides D th) 2 + (k * D.nq * D.nd * D.gdim + i * D.nq * D.gdim + q * D.gdim + b)) := by
    intro b hb
    refine agree_at h (by omega) hN ?_
    have := pair_lt (lt_of_lt_of_le hk hl) (pair_lt hi (pair_lt hq hb))
    have e2 : (tieStrides D th).getD 2 0 = D.nq * D.nd * D.bs * D.maxLinks := by cases th <;> rfl
    rw [e2, hbs]
    calc _ = k * (D.nd * (D.nq * D.gdim)) + (i * (D.nq * D.gdim) + (q * D.gdim + b)) := by ring
      _ < _ := this
      _ = _ := by ring
  unfold tieSigOpp sigmaNOpp
  dsimp only
  rw [e n hn, e g hg, h 0 (by omega), h 1 (by omega)]
  have e4 : loop D.gdim (fun b s => s + c (offsets (tieStrides D th) 2 + (k * D.nq * D.nd * D.gdim + i * D.nq * D.gdim + q * D.gdim + b)) * D.nPhys q b)
      = loop D.gdim (fun b s => s + c' (offsets (tieStrides D th) 2 + (k * D.nq * D.nd * D.gdim + i * D.nq * D.gdim + q * D.gdim + b)) * D.nPhys q b) :=
    loop_congr (fun b hb => by rw [e b hb])
  rw [e4]

theorem agree_tieGam (w : ℕ → ℝ) : tieGam c w = tieGam c' w := by
  have h3 := three_le h hN
  unfold tieGam
  rw [h 2 (by omega)]

theorem agree_tieJac (hbs : D.bs = D.gdim) {links q : ℕ} (hl : links ≤ D.maxLinks) (hq : q < D.nq) (w : ℕ → ℝ) :
    tieJacPoint D (offsets (tieStrides D th)) c w links q = tieJacPoint D (offsets (tieStrides D th)) c' w links q := by
  have h3 := three_le h hN
  have eB : ∀ i n j, sigB D c q i n j = sigB D c' q i n j := agree_sigB' h (by omega) q
  have eT := fun k hk i hi n hn => agree_tieTest h hN hl hq k i n hk hi hn
  have eS := fun k hk i hi n hn g hg => agree_tieSigOpp h hN hbs hl hq k i n g hk hi hn hg
  unfold tieJacPoint
  dsimp only
  rw [agree_tieGam h hN]
  refine loop_congr (fun j hj => loop_congr (fun l hl' => loop_congr (fun i hi => ?_)))
  funext A
  have e1 : loop links (fun k A =>
      ((Arr.acc A (3 * k + 1, mIdx D i l j l) (-tieGam c' w * c (tieIdx D (offsets (tieStrides D th)) q k j l) * D.ph q i * tieW0 D q)).acc
        (3 * k + 2, mIdx D i l j l) (-tieGam c' w * D.ph q j * c (tieIdx D (offsets (tieStrides D th)) q k i l) * tieW0 D q)).acc
        (3 * k + 3, mIdx D i l j l) (tieGam c' w * c (tieIdx D (offsets (tieStrides D th)) q k j l) * c (tieIdx D (offsets (tieStrides D th)) q k i l) * tieW0 D q))
      = loop links (fun k A =>
      ((Arr.acc A (3 * k + 1, mIdx D i l j l) (-tieGam c' w * c' (tieIdx D (offsets (tieStrides D th)) q k j l) * D.ph q i * tieW0 D q)).acc
        (3 * k + 2, mIdx D i l j l) (-tieGam c' w * D.ph q j * c' (tieIdx D (offsets (tieStrides D th)) q k i l) * tieW0 D q)).acc
        (3 * k + 3, mIdx D i l j l) (tieGam c' w * c' (tieIdx D (offsets (tieStrides D th)) q k j l) * c' (tieIdx D (offsets (tieStrides D th)) q k i l) * tieW0 D q)) :=
    loop_congr (fun k hk => by rw [eT k hk j hj l hl', eT k hk i hi l hl'])
  rw [e1]
  refine congrFun (loop_congr (fun b hb => ?_)) _
  funext A
  rw [eB j l b, eB i b l]
  refine congrFun (loop_congr (fun k hk => ?_)) _
  funext A
  rw [eT k hk j hj l hl', eT k hk i hi b hb, eS k hk j hj l (hbs ▸ hl') b (hbs ▸ hb),
    eS k hk i hi b (hbs ▸ hb) l (hbs ▸ hl')]

end elastic

section elasticRhs
variable {D : KD} {th : Bool} {c c' : ℕ → ℝ} (h : Agree (tieStrides D th).sum c c')
include h

theorem agree_tieSigU {q : ℕ} (hq : q < D.nq) (hbs : D.bs = D.gdim) (n : ℕ) (hn : n < D.gdim) :
    tieSigU D (offsets (tieStrides D th)) c q n = tieSigU D (offsets (tieStrides D th)) c' q n := by
  have hN := offsets_le_sum (tieStrides D th) 3
  have h3 := three_le h hN
  have hlen := len_tie h hN
  have e : ∀ j, j = 4 ∨ j = 6 → ∀ a < D.gdim, ∀ b < D.gdim,
      c (offsets (tieStrides D th) j + q * D.gdim * D.gdim + (a * D.gdim + b))
      = c' (offsets (tieStrides D th) j + q * D.gdim * D.gdim + (a * D.gdim + b)) := by
    intro j hj a ha b hb
    rw [Nat.add_assoc]
    refine agree_at h (by omega) (offsets_le_sum _ _) ?_
    have := pair_lt (a := q) (m := D.nq) (b := a * D.gdim + b) (n := D.gdim * D.gdim) hq (pair_lt ha hb)
    have e2 : (tieStrides D th).getD j 0 = D.nq * D.gdim * D.gdim := by
      rcases hj with rfl | rfl
      · cases th <;> rfl
      · cases th
        · show D.nq * D.gdim * D.bs = _; rw [hbs]
        · show D.nq * D.gdim * D.bs = _; rw [hbs]
    rw [e2, Nat.mul_assoc, Nat.mul_assoc]
    exact this
  have f : ∀ j, j = 4 ∨ j = 6 →
      sigmaNU D.gdim (fun m => c (offsets (tieStrides D th) j + q * D.gdim * D.gdim + m)) (D.nPhys q) (c 0) (c 1) n
      = sigmaNU D.gdim (fun m => c' (offsets (tieStrides D th) j + q * D.gdim * D.gdim + m)) (D.nPhys q) (c' 0) (c' 1) n := by
    intro j hj
    unfold sigmaNU
    refine congrFun (loop_congr (fun k hk => ?_)) _
    beta_reduce
    rw [e j hj k hk n hn, e j hj n hn k hk, e j hj k hk k hk, h 0 (by omega), h 1 (by omega)]
  unfold tieSigU
  rw [f 4 (.inl rfl), f 6 (.inr rfl)]

theorem agree_tieJump {q : ℕ} (hq : q < D.nq) (hbs : D.bs = D.gdim) (j : ℕ) (hj : j < D.bs) :
    tieJump D (offsets (tieStrides D th)) c q j = tieJump D (offsets (tieStrides D th)) c' q j := by
  have hN := offsets_le_sum (tieStrides D th) 3
  have hlen := len_tie h hN
  have e3 : (tieStrides D th).getD 3 0 = D.nq * D.bs := by
    rw [hbs]; cases th <;> rfl
  have e5 : (tieStrides D th).getD 5 0 = D.nq * D.bs := by cases th <;> rfl
  unfold tieJump
  rw [Nat.add_assoc, Nat.add_assoc, agree_at h (by omega) (offsets_le_sum _ _) (by rw [e3]; exact pair_lt hq hj),
    agree_at h (by omega) (offsets_le_sum _ _) (by rw [e5]; exact pair_lt hq hj)]

theorem agree_tieRhs (hbs : D.bs = D.gdim) {links q : ℕ} (hl : links ≤ D.maxLinks) (hq : q < D.nq) (w : ℕ → ℝ) :
    tieRhsPoint D (offsets (tieStrides D th)) c w links q = tieRhsPoint D (offsets (tieStrides D th)) c' w links q := by
  have hN := offsets_le_sum (tieStrides D th) 3
  have h3 := three_le h hN
  have eB : ∀ i n j, sigB D c q i n j = sigB D c' q i n j := agree_sigB' h (by omega) q
  have eT := fun k hk i hi n hn => agree_tieTest h hN hl hq k i n hk hi hn
  have eS := fun k hk i hi n hn g hg => agree_tieSigOpp h hN hbs hl hq k i n g hk hi hn hg
  have eU := fun n hn => agree_tieSigU h hq hbs n hn
  have eJ := fun n hn => agree_tieJump h hq hbs n hn
  unfold tieRhsPoint
  dsimp only
  rw [agree_tieGam h hN]
  refine loop_congr (fun i hi => loop_congr (fun n hn => ?_))
  funext b
  have e1 : loop D.gdim (fun g b => Arr.acc b (0, n + i * D.bs)
        (-0.5 * w 1 * sigB D c q i n g * tieJump D (offsets (tieStrides D th)) c q g * tieW0 D q))
      = loop D.gdim (fun g b => Arr.acc b (0, n + i * D.bs)
        (-0.5 * w 1 * sigB D c' q i n g * tieJump D (offsets (tieStrides D th)) c' q g * tieW0 D q)) :=
    loop_congr (fun g hg => by rw [eB, eJ g (hbs ▸ hg)])
  rw [e1, eU n (hbs ▸ hn), eJ n hn]
  refine congrFun (loop_congr (fun k hk => ?_)) _
  funext b
  rw [eT k hk i hi n hn]
  refine congrFun (loop_congr (fun g hg => ?_)) _
  rw [eS k hk i hi n (hbs ▸ hn) g hg, eJ g (hbs ▸ hg)]

end elasticRhs

theorem agree_thermoRhs {D : KD} {c c' : ℕ → ℝ} (h : Agree (tieStrides D true).sum c c') {links q : ℕ}
    (hl : links ≤ D.maxLinks) (hq : q < D.nq) :
    thermoRhsPoint D (offsets (tieStrides D true)) c links q = thermoRhsPoint D (offsets (tieStrides D true)) c' links q := by
  have hN := offsets_le_sum (tieStrides D true) 3
  have h4 : 4 ≤ (tieStrides D true).sum := by simp [tieStrides]
  have eT := fun k hk i hi n hn => agree_tieTest h hN hl hq k i n hk hi hn
  have e7 : c (offsets (tieStrides D true) 7 + q) = c' (offsets (tieStrides D true) 7 + q) :=
    agree_at h (by simp [tieStrides]) (offsets_le_sum _ _) hq
  have e8 : c (offsets (tieStrides D true) 8 + q) = c' (offsets (tieStrides D true) 8 + q) :=
    agree_at h (by simp [tieStrides]) (offsets_le_sum _ _) hq
  unfold thermoRhsPoint
  dsimp only
  rw [e7, e8, h 0 (by omega), h 1 (by omega), h 3 (by omega)]
  refine loop_congr (fun i hi => loop_congr (fun n hn => ?_))
  funext b
  refine congrFun (loop_congr (fun k hk => ?_)) _
  funext b
  rw [eT k hk i hi n hn]

section poisson
variable {D : KD} {N : ℕ} {c c' : ℕ → ℝ} (h : Agree N c c') (hN : offsets (poissonStrides D) 3 ≤ N)
include h hN

theorem two_le : 2 ≤ N := by
  have : offsets (poissonStrides D) 1 ≤ offsets (poissonStrides D) 3 := offsets_mono _ (by omega)
  have e : 2 ≤ offsets (poissonStrides D) 1 := by simp [poissonStrides, offsets]
  omega

theorem agree_poisTest {links q : ℕ} (hl : links ≤ D.maxLinks) (hq : q < D.nq) (k i : ℕ) (hk : k < links)
    (hi : i < D.nd) :
    c (poisIdx D (offsets (poissonStrides D)) q k i) = c' (poisIdx D (offsets (poissonStrides D)) q k i) := by
  have e : poisIdx D (offsets (poissonStrides D)) q k i = offsets (poissonStrides D) 1
      + (k * (D.nd * D.nq) + (i * D.nq + q)) := by
    unfold poisIdx; ring
  rw [e]
  refine agree_at h (by simp [poissonStrides]) (le_trans (offsets_mono _ (by omega)) hN) ?_
  have := pair_lt (lt_of_lt_of_le hk hl) (pair_lt hi hq)
  show _ < D.nq * D.nd * D.maxLinks
  calc _ < _ := this
    _ = _ := by ring

theorem agree_poisG {links q : ℕ} (hl : links ≤ D.maxLinks) (hq : q < D.nq) (k i g : ℕ) (hk : k < links)
    (hi : i < D.nd) (hg : g < D.gdim) :
    c (poisGIdx D (offsets (poissonStrides D)) q k i + g) = c' (poisGIdx D (offsets (poissonStrides D)) q k i + g) := by
  have e : poisGIdx D (offsets (poissonStrides D)) q k i + g = offsets (poissonStrides D) 2
      + (k * (D.nd * (D.nq * D.gdim)) + (i * (D.nq * D.gdim) + (q * D.gdim + g))) := by
    unfold poisGIdx; ring
  rw [e]
  refine agree_at h (by simp [poissonStrides]) hN ?_
  have := pair_lt (lt_of_lt_of_le hk hl) (pair_lt hi (pair_lt hq hg))
  show _ < D.nq * D.nd * D.gdim * D.maxLinks
  calc _ < _ := this
    _ = _ := by ring

theorem agree_poisJac {links q : ℕ} (hl : links ≤ D.maxLinks) (hq : q < D.nq) (w : ℕ → ℝ) :
    poisJacPoint D (offsets (poissonStrides D)) c w links q = poisJacPoint D (offsets (poissonStrides D)) c' w links q := by
  have h2 := two_le h hN
  have eT := fun k hk i hi => agree_poisTest h hN hl hq k i hk hi
  have eG := fun k hk i hi g hg => agree_poisG h hN hl hq k i g hk hi hg
  have ew : poisW0 D c q = poisW0 D c' q := by unfold poisW0; rw [h 1 (by omega)]
  unfold poisJacPoint
  dsimp only
  rw [ew, h 0 (by omega)]
  refine loop_congr (fun j hj => loop_congr (fun i hi => ?_))
  funext A
  refine congrFun (loop_congr (fun k hk => ?_)) _
  funext A
  rw [eT k hk j hj, eT k hk i hi]
  refine congrFun (loop_congr (fun g hg => ?_)) _
  rw [eG k hk j hj g hg, eG k hk i hi g hg]

end poisson

theorem agree_poisRhs {D : KD} {c c' : ℕ → ℝ} (h : Agree (poissonStrides D).sum c c') {links q : ℕ}
    (hl : links ≤ D.maxLinks) (hq : q < D.nq) (w : ℕ → ℝ) :
    poisRhsPoint D (offsets (poissonStrides D)) c w links q = poisRhsPoint D (offsets (poissonStrides D)) c' w links q := by
  have hN := offsets_le_sum (poissonStrides D) 3
  have h2 := two_le h hN
  have eT := fun k hk i hi => agree_poisTest h hN hl hq k i hk hi
  have eG := fun k hk i hi g hg => agree_poisG h hN hl hq k i g hk hi hg
  have ew : poisW0 D c q = poisW0 D c' q := by unfold poisW0; rw [h 1 (by omega)]
  have eJ : jumpT (offsets (poissonStrides D)) c q = jumpT (offsets (poissonStrides D)) c' q := by
    unfold jumpT
    rw [agree_at (ks := poissonStrides D) h (by simp [poissonStrides]) (offsets_le_sum _ _) hq,
      agree_at (ks := poissonStrides D) (j := 5) h (by simp [poissonStrides]) (offsets_le_sum _ _) hq]
  have eA : avgGradN D (offsets (poissonStrides D)) c q = avgGradN D (offsets (poissonStrides D)) c' q := by
    unfold avgGradN
    refine sum_congr rfl (fun j hj => ?_)
    rw [Nat.add_assoc, Nat.add_assoc,
      agree_at (ks := poissonStrides D) (j := 4) h (by simp [poissonStrides]) (offsets_le_sum _ _) (pair_lt hq (mem_range.mp hj)),
      agree_at (ks := poissonStrides D) (j := 6) h (by simp [poissonStrides]) (offsets_le_sum _ _) (pair_lt hq (mem_range.mp hj))]
  unfold poisRhsPoint
  dsimp only
  rw [ew, eJ, eA, h 0 (by omega)]
  refine loop_congr (fun i hi => ?_)
  funext b
  refine congrFun (loop_congr (fun k hk => ?_)) _
  funext b
  rw [eT k hk i hi]
  refine congrFun (loop_congr (fun g hg => ?_)) _
  rw [eG k hk i hi g hg]

end

end Verif.Kernels
