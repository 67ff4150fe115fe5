import Verif.Lemmas.MeshTieData
import Mathlib.Tactic.Linarith

/-! Rows of the mesh tie data after filling and after updating. -/

namespace Verif.TieData

open Verif.Spec (TieDims)

variable {R : Type}

section
variable (S : Static R) (g : Gen R)

theorem dims_nq : (g.dims S).nq = S.nq := by unfold Gen.dims; split <;> rfl
theorem dims_nd : (g.dims S).nd = g.V.nd := by unfold Gen.dims; split <;> rfl
theorem dims_g : (g.dims S).g = S.gdim := by unfold Gen.dims; split <;> rfl
theorem dims_ml : (g.dims S).ml = S.ml := by unfold Gen.dims; split <;> rfl

theorem oGTest_eq : (g.dims S).oGTest = (g.dims S).oTest + S.ml * g.V.nd * S.nq * (g.dims S).bs := by
  unfold TieDims.oGTest; rw [dims_nq, dims_nd, dims_ml]
theorem oU_eq : (g.dims S).oU = (g.dims S).oGTest + S.ml * g.V.nd * S.nq * S.gdim := by
  unfold TieDims.oU; rw [dims_nq, dims_nd, dims_ml, dims_g]
theorem oGrad_eq : (g.dims S).oGrad = (g.dims S).oU + S.nq * (g.dims S).bs := by
  unfold TieDims.oGrad; rw [dims_nq]
theorem oOpp_eq : (g.dims S).oOpp = (g.dims S).oGrad + S.nq * (g.dims S).bs * S.gdim := by
  unfold TieDims.oOpp; rw [dims_nq, dims_g]
theorem oGOpp_eq : (g.dims S).oGOpp = (g.dims S).oOpp + S.nq * (g.dims S).bs := by
  unfold TieDims.oGOpp; rw [dims_nq]
theorem oTemp_eq : (g.dims S).oTemp = (g.dims S).oGOpp + S.nq * (g.dims S).bs * S.gdim := by
  unfold TieDims.oTemp; rw [dims_nq, dims_g]
theorem oTempOpp_eq : (g.dims S).oTempOpp = (g.dims S).oTemp + S.nq := by
  unfold TieDims.oTempOpp; rw [dims_nq]

theorem width_ge : (g.dims S).oTemp ≤ g.width S := by
  unfold Gen.width
  split
  · rw [oTempOpp_eq]; omega
  · exact le_refl _

theorem width_thermo (h : g.p = .thermo) : g.width S = (g.dims S).oTempOpp + S.nq := by
  unfold Gen.width; rw [h]

theorem two_le_oTest : 2 ≤ (g.dims S).oTest := by
  unfold Gen.dims; split <;> simp [TieDims.oTest]

end

section
variable {S : Static R} {g : Gen R} {i e : ℕ} {c c' : ℕ → R}

theorem Gen.Lead.congr (h : g.Lead S i e c) (hc : ∀ r < (g.dims S).oTest, c' r = c r) :
    g.Lead S i e c' := by
  unfold Gen.Lead at h ⊢
  unfold Gen.dims at hc
  split at h <;> rename_i hp <;> rw [hp] at hc <;> simp only [TieDims.oTest] at hc
  · rw [hc 0 (by omega), hc 1 (by omega), hc 2 (by omega)]; exact h
  · rw [hc 0 (by omega), hc 1 (by omega)]; exact h
  · rw [hc 0 (by omega), hc 1 (by omega), hc 2 (by omega), hc 3 (by omega)]; exact h

theorem Gen.MatrixRow.congr (h : g.MatrixRow S i e c) (hc : ∀ r < (g.dims S).oU, c' r = c r) :
    g.MatrixRow S i e c' := by
  have h1 := oGTest_eq S g
  have h2 := oU_eq S g
  refine ⟨h.lead.congr (fun r hr => hc r (by omega)), fun m hm => ?_, fun m hm => ?_⟩
  · rw [hc _ (by omega)]; exact h.test m hm
  · rw [hc _ (by omega)]; exact h.gtest m hm

theorem Gen.SolRow.congr {f : Func R} (h : g.SolRow S f i e c)
    (hc : ∀ r, (g.dims S).oU ≤ r → r < (g.dims S).oTemp → c' r = c r) : g.SolRow S f i e c' := by
  have h3 := oGrad_eq S g
  have h4 := oOpp_eq S g
  have h5 := oGOpp_eq S g
  have h6 := oTemp_eq S g
  refine ⟨fun m hm => ?_, fun m hm => ?_, fun m hm => ?_, fun m hm => ?_⟩
  · rw [hc _ (by omega) (by omega)]; exact h.u m hm
  · rw [hc _ (by omega) (by omega)]; exact h.grad m hm
  · rw [hc _ (by omega) (by omega)]; exact h.opp m hm
  · rw [hc _ (by omega) (by omega)]; exact h.gopp m hm

end

section
variable {S : Static R} {g : Gen R} {f : Func R}

/-- After the values of the solution were written. -/
def Half (S : Static R) (g : Gen R) (f : Func R) (i e : ℕ) (c : ℕ → R) : Prop :=
  g.MatrixRow S i e c
  ∧ (∀ m < S.nq * (g.dims S).bs,
    c ((g.dims S).oU + m) = (f.val i).v (e * (S.nq * (g.dims S).bs) + m))
  ∧ ∀ m < S.nq * (g.dims S).bs,
    c ((g.dims S).oOpp + m) = (f.opp i).v (e * (S.nq * (g.dims S).bs) + m)

theorem update_function (hf : f.Packed S (g.dims S).bs) {cs : ℕ → Buf R}
    (H : Rows S (g.width S) (g.MatrixRow S) cs) {o0 o1 C : ℕ} (h0 : o0 = (g.dims S).oU)
    (h1 : o1 = (g.dims S).oOpp) (hC : C = g.width S) :
    ∃ cs', updateFunctionData S f o0 o1 C cs = some cs' ∧ Rows S (g.width S) (Half S g f) cs' := by
  subst h0 h1 hC
  have e3 := oGrad_eq S g
  have e4 := oOpp_eq S g
  have e5 := oGOpp_eq S g
  have e6 := oTemp_eq S g
  have e7 := width_ge S g
  refine pairs_rows H (fun i => [((g.dims S).oU, f.val i), ((g.dims S).oOpp, f.opp i)]) ?_ _ ?_ ?_
  · intro i hi a ha
    simp only [List.mem_cons, List.not_mem_nil, or_false] at ha
    rcases ha with rfl | rfl
    · rw [hf.val i hi]; dsimp only; omega
    · rw [hf.opp i hi]; dsimp only; omega
  · intro i
    congr 1
    funext e b
    simp only [writeSegs, Option.bind_fun_some]
  · intro i hi e _ c c' hP hc
    simp only [over, hf.val i hi, hf.opp i hi] at hc
    refine ⟨hP.congr (fun r hr => ?_), fun m hm => ?_, fun m hm => ?_⟩
    · rw [hc r (by omega), if_neg (by omega), if_neg (by omega)]
    · rw [hc _ (by omega), if_neg (by omega), if_pos (by omega)]
      congr 2; omega
    · rw [hc _ (by omega), if_pos (by omega)]
      congr 2; omega

/-- After the solution and its gradients were written. -/
def Full (S : Static R) (g : Gen R) (f : Func R) (i e : ℕ) (c : ℕ → R) : Prop :=
  g.MatrixRow S i e c ∧ g.SolRow S f i e c

theorem update_gradient (hf : f.Packed S (g.dims S).bs) {cs : ℕ → Buf R}
    (H : Rows S (g.width S) (Half S g f) cs) {o0 o1 C : ℕ} (h0 : o0 = (g.dims S).oGrad)
    (h1 : o1 = (g.dims S).oGOpp) (hC : C = g.width S) :
    ∃ cs', updateGradientData S f o0 o1 C cs = some cs' ∧ Rows S (g.width S) (Full S g f) cs' := by
  subst h0 h1 hC
  have e3 := oGrad_eq S g
  have e4 := oOpp_eq S g
  have e5 := oGOpp_eq S g
  have e6 := oTemp_eq S g
  have e7 := width_ge S g
  refine pairs_rows H (fun i => [((g.dims S).oGrad, f.grad i), ((g.dims S).oGOpp, f.gradOpp i)]) ?_ _ ?_ ?_
  · intro i hi a ha
    simp only [List.mem_cons, List.not_mem_nil, or_false] at ha
    rcases ha with rfl | rfl
    · rw [hf.grad i hi]; dsimp only; omega
    · rw [hf.gradOpp i hi]; dsimp only; omega
  · intro i
    congr 1
    funext e b
    simp only [writeSegs, Option.bind_fun_some]
  · rintro i hi e _ c c' ⟨hP, hu, ho⟩ hc
    simp only [over, hf.grad i hi, hf.gradOpp i hi] at hc
    refine ⟨hP.congr (fun r hr => ?_), fun m hm => ?_, fun m hm => ?_, fun m hm => ?_, fun m hm => ?_⟩
    · rw [hc r (by omega), if_neg (by omega), if_neg (by omega)]
    · rw [hc _ (by omega), if_neg (by omega), if_neg (by omega)]
      exact hu m hm
    · rw [hc _ (by omega), if_neg (by omega), if_pos (by omega)]
      congr 2; omega
    · rw [hc _ (by omega), if_neg (by omega), if_neg (by omega)]
      exact ho m hm
    · rw [hc _ (by omega), if_pos (by omega)]
      congr 2; omega

theorem update_temperature {T : Func R} (hT : T.Packed S 1) (hp : g.p = .thermo) {cs : ℕ → Buf R}
    (H : Rows S (g.width S) (Full S g f) cs) {o0 o1 C : ℕ} (h0 : o0 = (g.dims S).oTemp)
    (h1 : o1 = (g.dims S).oTempOpp) (hC : C = g.width S) :
    ∃ cs', updateFunctionData S T o0 o1 C cs = some cs'
      ∧ Rows S (g.width S) (fun i e c => Full S g f i e c ∧ g.TempRow S T i e c) cs' := by
  subst h0 h1 hC
  have e3 := oGrad_eq S g
  have e4 := oOpp_eq S g
  have e5 := oGOpp_eq S g
  have e6 := oTemp_eq S g
  have e8 := oTempOpp_eq S g
  have e7 := width_thermo S g hp
  refine pairs_rows H (fun i => [((g.dims S).oTemp, T.val i), ((g.dims S).oTempOpp, T.opp i)]) ?_ _ ?_ ?_
  · intro i hi a ha
    simp only [List.mem_cons, List.not_mem_nil, or_false] at ha
    rcases ha with rfl | rfl
    · rw [hT.val i hi]; dsimp only; omega
    · rw [hT.opp i hi]; dsimp only; omega
  · intro i
    congr 1
    funext e b
    simp only [writeSegs, Option.bind_fun_some]
  · rintro i hi e _ c c' ⟨hP, hu⟩ hc
    simp only [over, hT.val i hi, hT.opp i hi, Nat.mul_one] at hc
    refine ⟨⟨hP.congr (fun r hr => ?_), hu.congr (fun r _ hr => ?_)⟩, fun m hm => ?_, fun m hm => ?_⟩
    · rw [hc r (by omega), if_neg (by omega), if_neg (by omega)]
    · rw [hc r (by omega), if_neg (by omega), if_neg (by omega)]
    · rw [hc _ (by omega), if_neg (by omega), if_pos (by omega)]
      congr 2; omega
    · rw [hc _ (by omega), if_pos (by omega)]
      congr 2; omega

end

/-! Filling -/

section
variable [Zero R] {S : Static R} {g : Gen R}

omit [Zero R] in
theorem pairs_rows' {C : ℕ} {P : ℕ → ℕ → (ℕ → R) → Prop} (f : ℕ → Buf R → Option (Buf R)) (cs : ℕ → Buf R)
    (h : ∀ i < S.pairs, ∃ b', f i (cs i) = some b' ∧ b'.size = C * S.nf i
      ∧ ∀ e < S.nf i, P i e (b'.row C e)) :
    ∃ cs', pairs S.pairs f cs = some cs' ∧ Rows S C P cs' := by
  obtain ⟨cs', h1, h2, -⟩ := pairs_ok f cs
    (fun i b => b.size = C * S.nf i ∧ ∀ e < S.nf i, P i e (b.row C e)) h
  exact ⟨cs', h1, h2⟩

theorem fill_ok {mu lam : Func R} (hS : S.Ok) (hp : g.p = .elasticity) (hV : g.V.Packed S .elasticity)
    (hmu : g.co .mu = some mu) (hlam : g.co .lam = some lam) (sm : mu.Scalar S) (sl : lam.Scalar S)
    {c0 C : ℕ} (h0 : c0 = 3) (hC : C = g.width S) (cs : ℕ → Buf R) :
    ∃ cs', pairs S.pairs (fillPair S g.V mu lam none c0 C) cs = some cs'
      ∧ Rows S (g.width S) (g.MatrixRow S) cs' := by
  subst h0 hC
  have hd : g.dims S = ⟨S.nq, g.V.nd, g.V.bs, S.gdim, S.ml, 3⟩ := by unfold Gen.dims; rw [hp]
  have e0 : (g.dims S).oTest = 3 := by rw [hd]; rfl
  have eb : (g.dims S).bs = g.V.bs := by rw [hd]
  have e1 := oGTest_eq S g
  have e2 := oU_eq S g
  have e3 := oGrad_eq S g
  have e4 := oOpp_eq S g
  have e5 := oGOpp_eq S g
  have e6 := oTemp_eq S g
  have e7 := width_ge S g
  rw [eb] at e1
  refine pairs_rows' _ cs (fun i hi => ?_)
  obtain ⟨b', g1, g2, g3⟩ := facets_ok (C := g.width S) (le_refl (S.nf i))
    [(0, mu.const0 i), (1, lam.const0 i), (2, S.h i), (3, g.V.test i),
      (3 + S.ml * g.V.nd * S.nq * g.V.bs, g.V.gtest i)]
    (by
      intro a ha
      simp only [List.mem_cons, List.not_mem_nil, or_false] at ha
      rcases ha with rfl | rfl | rfl | rfl | rfl
      · rw [sm i hi]; dsimp only; omega
      · rw [sl i hi]; dsimp only; omega
      · rw [hS i hi]; dsimp only; omega
      · rw [hV.test i hi]; dsimp only; omega
      · rw [hV.gtest i hi]; dsimp only; omega)
    ((cs i).resize (g.width S * S.nf i)) rfl
    (fun e b =>
      (copyN (mu.const0 i) e (e * g.width S) b).bind fun b =>
      (copyN (lam.const0 i) e (e * g.width S + (mu.const0 i).c) b).bind fun b =>
      (copyN (S.h i) e (e * g.width S + ((mu.const0 i).c + (lam.const0 i).c)) b).bind fun b =>
      (copyN (g.V.test i) e (e * g.width S + 3) b).bind fun b =>
      copyN (g.V.gtest i) e (e * g.width S + (3 + (g.V.test i).c)) b)
    (fun e b => by
      rw [sm i hi, sl i hi, hV.test i hi]
      simp only [writeSegs, Option.bind_fun_some, Nat.add_zero])
  refine ⟨b', ?_, g2, fun e he => ?_⟩
  · unfold fillPair
    rw [g1]; rfl
  · have hc : ∀ r < g.width S, b'.row (g.width S) e r = _ := fun r hr => by
      unfold Buf.row
      rw [g3 e r hr, if_pos he]
    simp only [over, sm i hi, sl i hi, hS i hi, hV.test i hi, hV.gtest i hi] at hc
    refine ⟨?_, fun m hm => ?_, fun m hm => ?_⟩
    · unfold Gen.Lead
      rw [hp]
      refine ⟨fun f hf => ?_, fun f hf => ?_, ?_⟩
      · rw [hmu] at hf; cases hf
        rw [hc 0 (by omega), if_neg (by omega), if_neg (by omega), if_neg (by omega), if_neg (by omega),
          if_pos (by omega)]
        congr 1; omega
      · rw [hlam] at hf; cases hf
        rw [hc 1 (by omega), if_neg (by omega), if_neg (by omega), if_neg (by omega), if_pos (by omega)]
        congr 1; omega
      · rw [hc 2 (by omega), if_neg (by omega), if_neg (by omega), if_pos (by omega)]
        congr 1; omega
    · rw [eb] at hm ⊢
      rw [hc _ (by omega), if_neg (by omega), if_pos (by omega)]
      congr 2; omega
    · rw [hc _ (by omega), if_pos (by omega)]
      congr 2; omega

theorem fill_thermo_ok {mu lam alpha : Func R} (hS : S.Ok) (hp : g.p = .thermo)
    (hV : g.V.Packed S .thermo)
    (hmu : g.co .mu = some mu) (hlam : g.co .lam = some lam) (hal : g.co .alpha = some alpha)
    (sm : mu.Scalar S) (sl : lam.Scalar S) (sa : alpha.Scalar S)
    {c0 C : ℕ} (h0 : c0 = 4) (hC : C = g.width S) (cs : ℕ → Buf R) :
    ∃ cs', pairs S.pairs (fillPair S g.V mu lam (some alpha) c0 C) cs = some cs'
      ∧ Rows S (g.width S) (g.MatrixRow S) cs' := by
  subst h0 hC
  have hd : g.dims S = ⟨S.nq, g.V.nd, g.V.bs, S.gdim, S.ml, 4⟩ := by unfold Gen.dims; rw [hp]
  have e0 : (g.dims S).oTest = 4 := by rw [hd]; rfl
  have eb : (g.dims S).bs = g.V.bs := by rw [hd]
  have e1 := oGTest_eq S g
  have e2 := oU_eq S g
  have e3 := oGrad_eq S g
  have e4 := oOpp_eq S g
  have e5 := oGOpp_eq S g
  have e6 := oTemp_eq S g
  have e7 := width_ge S g
  rw [eb] at e1
  refine pairs_rows' _ cs (fun i hi => ?_)
  obtain ⟨b', g1, g2, g3⟩ := facets_ok (C := g.width S) (le_refl (S.nf i))
    [(0, mu.const0 i), (1, lam.const0 i), (2, S.h i), (4, g.V.test i),
      (4 + S.ml * g.V.nd * S.nq * g.V.bs, g.V.gtest i)]
    (by
      intro a ha
      simp only [List.mem_cons, List.not_mem_nil, or_false] at ha
      rcases ha with rfl | rfl | rfl | rfl | rfl
      · rw [sm i hi]; dsimp only; omega
      · rw [sl i hi]; dsimp only; omega
      · rw [hS i hi]; dsimp only; omega
      · rw [hV.test i hi]; dsimp only; omega
      · rw [hV.gtest i hi]; dsimp only; omega)
    ((cs i).resize (g.width S * S.nf i)) rfl
    (fun e b =>
      (copyN (mu.const0 i) e (e * g.width S) b).bind fun b =>
      (copyN (lam.const0 i) e (e * g.width S + (mu.const0 i).c) b).bind fun b =>
      (copyN (S.h i) e (e * g.width S + ((mu.const0 i).c + (lam.const0 i).c)) b).bind fun b =>
      (copyN (g.V.test i) e (e * g.width S + 4) b).bind fun b =>
      copyN (g.V.gtest i) e (e * g.width S + (4 + (g.V.test i).c)) b)
    (fun e b => by
      rw [sm i hi, sl i hi, hV.test i hi]
      simp only [writeSegs, Option.bind_fun_some, Nat.add_zero])
  obtain ⟨b'', k1, k2, k3⟩ := facets_ok (C := g.width S) (le_refl (S.nf i))
    [(3, alpha.const0 i)]
    (by
      intro a ha
      simp only [List.mem_cons, List.not_mem_nil, or_false] at ha
      subst ha
      rw [sa i hi]; dsimp only; omega)
    b' g2 (fun e b => copyN (alpha.const0 i) e (e * g.width S + 3) b)
    (fun e b => by simp only [writeSegs, Option.bind_fun_some])
  refine ⟨b'', ?_, k2, fun e he => ?_⟩
  · unfold fillPair
    rw [g1]; exact k1
  · have hc : ∀ r < g.width S, b''.row (g.width S) e r = _ := fun r hr => by
      unfold Buf.row
      rw [k3 e r hr, if_pos he, g3 e r hr, if_pos he]
    simp only [over, sm i hi, sl i hi, hS i hi, hV.test i hi, hV.gtest i hi, sa i hi] at hc
    refine ⟨?_, fun m hm => ?_, fun m hm => ?_⟩
    · unfold Gen.Lead
      rw [hp]
      refine ⟨fun f hf => ?_, fun f hf => ?_, ?_, fun f hf => ?_⟩
      · rw [hmu] at hf; cases hf
        rw [hc 0 (by omega), if_neg (by omega), if_neg (by omega), if_neg (by omega), if_neg (by omega),
          if_neg (by omega), if_pos (by omega)]
        congr 1; omega
      · rw [hlam] at hf; cases hf
        rw [hc 1 (by omega), if_neg (by omega), if_neg (by omega), if_neg (by omega), if_neg (by omega),
          if_pos (by omega)]
        congr 1; omega
      · rw [hc 2 (by omega), if_neg (by omega), if_neg (by omega), if_neg (by omega), if_pos (by omega)]
        congr 1; omega
      · rw [hal] at hf; cases hf
        rw [hc 3 (by omega), if_pos (by omega)]
        congr 1; omega
    · rw [eb] at hm ⊢
      rw [hc _ (by omega), if_neg (by omega), if_neg (by omega), if_pos (by omega)]
      congr 2; omega
    · rw [hc _ (by omega), if_neg (by omega), if_pos (by omega)]
      congr 2; omega

theorem fill_poisson_ok {kdt : Func R} (hS : S.Ok) (hp : g.p = .poisson) (hV : g.V.Packed S .poisson)
    (hk : g.co .kdt = some kdt) (sk : kdt.Scalar S)
    {C : ℕ} (hC : C = g.width S) (cs : ℕ → Buf R) :
    ∃ cs', pairs S.pairs (fillPairP S g.V kdt C) cs = some cs'
      ∧ Rows S (g.width S) (g.MatrixRow S) cs' := by
  subst hC
  have hd : g.dims S = ⟨S.nq, g.V.nd, 1, S.gdim, S.ml, 2⟩ := by unfold Gen.dims; rw [hp]
  have e0 : (g.dims S).oTest = 2 := by rw [hd]; rfl
  have eb : (g.dims S).bs = g.V.bs := by rw [hd, hV.bs]; rfl
  have e1 := oGTest_eq S g
  have e2 := oU_eq S g
  have e3 := oGrad_eq S g
  have e4 := oOpp_eq S g
  have e5 := oGOpp_eq S g
  have e6 := oTemp_eq S g
  have e7 := width_ge S g
  rw [eb] at e1
  refine pairs_rows' _ cs (fun i hi => ?_)
  obtain ⟨b', g1, g2, g3⟩ := facets_ok (C := g.width S) (le_refl (S.nf i))
    [(0, S.h i), (1, kdt.const0 i), (2, g.V.test i),
      (2 + S.ml * g.V.nd * S.nq * g.V.bs, g.V.gtest i)]
    (by
      intro a ha
      simp only [List.mem_cons, List.not_mem_nil, or_false] at ha
      rcases ha with rfl | rfl | rfl | rfl
      · rw [hS i hi]; dsimp only; omega
      · rw [sk i hi]; dsimp only; omega
      · rw [hV.test i hi]; dsimp only; omega
      · rw [hV.gtest i hi]; dsimp only; omega)
    ((cs i).resize (g.width S * S.nf i)) rfl
    (fun e b =>
      (copyN (S.h i) e (e * g.width S) b).bind fun b =>
      (copyN (kdt.const0 i) e (e * g.width S + (S.h i).c) b).bind fun b =>
      (copyN (g.V.test i) e (e * g.width S + ((S.h i).c + (kdt.const0 i).c)) b).bind fun b =>
      copyN (g.V.gtest i) e (e * g.width S + ((S.h i).c + (kdt.const0 i).c + (g.V.test i).c)) b)
    (fun e b => by
      rw [hS i hi, sk i hi, hV.test i hi]
      simp only [writeSegs, Option.bind_fun_some, Nat.add_zero])
  refine ⟨b', g1, g2, fun e he => ?_⟩
  have hc : ∀ r < g.width S, b'.row (g.width S) e r = _ := fun r hr => by
    unfold Buf.row
    rw [g3 e r hr, if_pos he]
  simp only [over, sk i hi, hS i hi, hV.test i hi, hV.gtest i hi] at hc
  refine ⟨?_, fun m hm => ?_, fun m hm => ?_⟩
  · unfold Gen.Lead
    rw [hp]
    refine ⟨?_, fun f hf => ?_⟩
    · rw [hc 0 (by omega), if_neg (by omega), if_neg (by omega), if_neg (by omega), if_pos (by omega)]
      congr 1; omega
    · rw [hk] at hf; cases hf
      rw [hc 1 (by omega), if_neg (by omega), if_neg (by omega), if_pos (by omega)]
      congr 1; omega
  · rw [eb] at hm ⊢
    rw [hc _ (by omega), if_neg (by omega), if_pos (by omega)]
    congr 2; omega
  · rw [hc _ (by omega), if_pos (by omega)]
    congr 2; omega

end

end Verif.TieData
