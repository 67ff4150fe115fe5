import Verif.Spec.ThermoDemo
import Verif.Props.TieLocal
import Verif.Props.TieWellPosed
import Verif.Props.MeshTieData

/-! Lemmas for the demos with time steps. -/

namespace Verif.TieData

open Verif.Spec Verif.Lemmas Verif.Packing Verif.Assembly Verif.Entities Verif.Kernels Finset

noncomputable section

/-! ### a solution that was never given is zero -/

section zero
variable {R : Type} [Zero R]

/-- Entries from `o` to the end of every row are zero. -/
def ZeroTail (C o : ℕ) (b : Buf R) : Prop := ∀ e k, o ≤ k → k < C → b.val (e * C + k) = 0

omit [Zero R] in
theorem copyN_size {p : Pk R} {e start : ℕ} {b b' : Buf R} (h : copyN p e start b = some b') : b'.size = b.size := by
  unfold copyN at h
  split_ifs at h
  injection h with h
  rw [← h]

theorem copyN_tail {p : Pk R} {C o e o' : ℕ} {b b' : Buf R} (h : copyN p e (e * C + o') b = some b') (hb : ZeroTail C o b)
    (ho : o' + p.c ≤ o) (hC : o ≤ C) : ZeroTail C o b' := by
  unfold copyN at h
  split_ifs at h
  injection h with h
  rw [← h]
  intro e' k hk hk'
  dsimp only
  rw [if_neg]
  · exact hb e' k hk hk'
  · rintro ⟨h1, h2⟩
    rcases Nat.lt_trichotomy e' e with hlt | heq | hgt
    · have := Nat.mul_le_mul_right C (show e' + 1 ≤ e by omega)
      rw [Nat.add_mul, Nat.one_mul] at this
      omega
    · subst heq; omega
    · have := Nat.mul_le_mul_right C (show e + 1 ≤ e' by omega)
      rw [Nat.add_mul, Nat.one_mul] at this
      omega

theorem copyN_zero {p : Pk R} {C o e o' n : ℕ} {b : Buf R} (hz : ∀ m < p.c, p.v (e * p.c + m) = 0) (hb : ZeroTail C o b)
    (ho : o ≤ o') (hC : o' + p.c ≤ C) (hn : e < n) (hs : b.size = C * n) : copyN p e (e * C + o') b = some b := by
  unfold copyN
  have h1 := Nat.mul_le_mul_right C (show e + 1 ≤ n by omega)
  rw [Nat.add_mul, Nat.one_mul] at h1
  rw [if_pos (by rw [hs, Nat.mul_comm C n]; omega)]
  congr 1
  cases b with
  | mk size val =>
    congr 1
    funext k
    split_ifs with h
    · obtain ⟨k1, k2⟩ := h
      rw [hz _ (by omega)]
      have := hb e (k - e * C) (by omega) (by omega)
      rw [Nat.add_sub_cancel' (by omega)] at this
      exact this.symm
    · rfl

omit [Zero R] in
/-- An invariant of the loop over facets. -/
theorem facets_inv {P : Buf R → Prop} {f : ℕ → Buf R → Option (Buf R)} {b' : Buf R} :
    ∀ (n : ℕ) (b : Buf R), (∀ e < n, ∀ b b', P b → f e b = some b' → P b') → P b → facets n f b = some b' → P b' := by
  intro n
  induction n generalizing b' with
  | zero => intro b _ hb h; injection h with h; rwa [← h]
  | succ n ih =>
    intro b hf hb h
    unfold facets at h
    obtain ⟨c, hc, h⟩ := Option.bind_eq_some_iff.mp h
    exact hf n (by omega) c b' (ih b (fun e he => hf e (by omega)) hb hc) h

omit [Zero R] in
/-- A loop over facets which changes nothing. -/
theorem facets_id {f : ℕ → Buf R → Option (Buf R)} {b : Buf R} : ∀ n, (∀ e < n, f e b = some b) → facets n f b = some b := by
  intro n
  induction n with
  | zero => intro _; rfl
  | succ n ih =>
    intro h
    unfold facets
    rw [ih (fun e he => h e (by omega)), Option.bind_some]
    exact h n (by omega)

omit [Zero R] in
theorem pairs_inv {P : ℕ → Buf R → Prop} {f : ℕ → Buf R → Option (Buf R)} {cs' : ℕ → Buf R} :
    ∀ (n : ℕ) (cs : ℕ → Buf R), (∀ i < n, ∀ b', f i (cs i) = some b' → P i b') → pairs n f cs = some cs' →
      (∀ i < n, P i (cs' i)) ∧ ∀ i, n ≤ i → cs' i = cs i := by
  intro n
  induction n generalizing cs' with
  | zero => intro cs _ h; injection h with h; exact ⟨fun i hi => absurd hi (Nat.not_lt_zero i), fun i _ => by rw [h]⟩
  | succ n ih =>
    intro cs hf h
    unfold pairs at h
    obtain ⟨c, hc, h⟩ := Option.bind_eq_some_iff.mp h
    obtain ⟨b, hb, h⟩ := Option.map_eq_some_iff.mp h
    obtain ⟨h1, h2⟩ := ih cs (fun i hi => hf i (by omega)) hc
    rw [← h]
    refine ⟨fun i hi => ?_, fun i hi => ?_⟩
    · by_cases hin : i = n
      · subst hin
        rw [Function.update_self]
        rw [h2 i (le_refl _)] at hb
        exact hf i (by omega) b hb
      · rw [Function.update_of_ne hin]
        exact h1 i (by omega)
    · rw [Function.update_of_ne (by omega)]
      exact h2 i (by omega)

omit [Zero R] in
theorem pairs_id {f : ℕ → Buf R → Option (Buf R)} {cs : ℕ → Buf R} : ∀ n, (∀ i < n, f i (cs i) = some (cs i)) →
    pairs n f cs = some cs := by
  intro n
  induction n with
  | zero => intro _; rfl
  | succ n ih =>
    intro h
    unfold pairs
    rw [ih (fun i hi => h i (by omega)), Option.bind_some, h n (by omega), Option.map_some, Function.update_eq_self]

/-- A packed function that is zero on the owned facets. -/
structure ZeroFunc (S : Static R) (f : Func R) : Prop where
  val : ∀ i < S.pairs, ∀ e < S.nf i, ∀ m < (f.val i).c, (f.val i).v (e * (f.val i).c + m) = 0
  opp : ∀ i < S.pairs, ∀ e < S.nf i, ∀ m < (f.opp i).c, (f.opp i).v (e * (f.opp i).c + m) = 0
  grad : ∀ i < S.pairs, ∀ e < S.nf i, ∀ m < (f.grad i).c, (f.grad i).v (e * (f.grad i).c + m) = 0
  gradOpp : ∀ i < S.pairs, ∀ e < S.nf i, ∀ m < (f.gradOpp i).c, (f.gradOpp i).v (e * (f.gradOpp i).c + m) = 0

/-- Generating the data for heat conduction for the first time without a temperature is the same as with temperature zero. -/
theorem generate_without (S : Static R) (hS : S.Ok) (V : Space R) (hV : V.Packed S .poisson) (co co' : Coefs R) (kdt z : Func R)
    (hk : co .kdt = some kdt) (hk' : co' .kdt = some kdt) (hs : kdt.Scalar S) (hT : co .T = none) (hT' : co' .T = some z)
    (hnd : z.nd = V.nd) (hz : z.Packed S 1) (h0 : ZeroFunc S z) (gamma theta : R) :
    generateKernelData S .poisson V co gamma theta State.init = generateKernelData S .poisson V co' gamma theta State.init := by
  unfold generateKernelData
  dsimp only
  rw [hk, hk', hT, hT']
  dsimp only
  unfold generatePoisson
  dsimp only
  set C := (stridesP S V).sum with hC
  rcases hp : pairs S.pairs (fillPairP S V kdt C) (State.init : State R).coeffsP with _ | cs
  · rfl
  unfold Out.ofOption
  dsimp only [Out.bind]
  unfold updateKernelData
  rw [hT']
  dsimp only
  unfold updatePoisson
  dsimp only
  have hb1 : V.bs = 1 := hV.bs
  have hCv : C = 2 + (1 + S.gdim) * (S.nq * S.ml * z.nd) + 2 * ((1 + S.gdim) * S.nq) := by
    rw [hC, hnd]
    unfold stridesP
    simp only [List.sum_cons, List.sum_nil]
    ring
  set o := 2 + (1 + S.gdim) * (S.nq * S.ml * z.nd) with ho
  have hfill : ∀ i < S.pairs, ∀ b', fillPairP S V kdt C i ((State.init : State R).coeffsP i) = some b' →
      b'.size = C * S.nf i ∧ ZeroTail C o b' := by
    intro i hi b' hb'
    unfold fillPairP at hb'
    refine facets_inv (P := fun b => b.size = C * S.nf i ∧ ZeroTail C o b) _ _ (fun e he b b' hb h => ?_) ⟨rfl, fun e k _ _ => ?_⟩ hb'
    · obtain ⟨b1, h1, h⟩ := Option.bind_eq_some_iff.mp h
      obtain ⟨b2, h2, h⟩ := Option.bind_eq_some_iff.mp h
      obtain ⟨b3, h3, h4⟩ := Option.bind_eq_some_iff.mp h
      have w1 := hS i hi
      have w2 := hs i hi
      have w3 := hV.test i hi
      have w4 := hV.gtest i hi
      rw [hb1, Nat.mul_one] at w3
      have e1 : (1 + S.gdim) * (S.nq * S.ml * z.nd) = S.ml * V.nd * S.nq + S.ml * V.nd * S.nq * S.gdim := by rw [hnd]; ring
      refine ⟨by rw [copyN_size h4, copyN_size h3, copyN_size h2, copyN_size h1]; exact hb.1, ?_⟩
      have hoC : o ≤ C := by omega
      have t1 := copyN_tail (o' := 0) (by simpa using h1) hb.2 (by omega) hoC
      have t2 := copyN_tail h2 t1 (by omega) hoC
      have t3 := copyN_tail h3 t2 (by omega) hoC
      exact copyN_tail h4 t3 (by omega) hoC
    · simp [Buf.resize, State.init]
  obtain ⟨hcs, -⟩ := pairs_inv (P := fun i b => b.size = C * S.nf i ∧ ZeroTail C o b) _ _ hfill hp
  have hnq : (1 + S.gdim) * S.nq = S.nq + S.nq * S.gdim := by ring
  rw [hnq] at hCv
  have u1 : updateFunctionData S z o (o + (1 + S.gdim) * S.nq) C cs = some cs := by
    unfold updateFunctionData
    refine pairs_id _ (fun i hi => facets_id _ (fun e he => ?_))
    have w1 := hz.val i hi
    have w2 := hz.opp i hi
    rw [copyN_zero (h0.val i hi e he) (hcs i hi).2 (le_refl _) (by omega) he (hcs i hi).1, Option.bind_some,
      copyN_zero (h0.opp i hi e he) (hcs i hi).2 (by omega) (by omega) he (hcs i hi).1]
  have u2 : updateGradientData S z (o + S.nq) (o + (1 + S.gdim) * S.nq + S.nq) C cs = some cs := by
    unfold updateGradientData
    refine pairs_id _ (fun i hi => facets_id _ (fun e he => ?_))
    have w1 := hz.grad i hi
    have w2 := hz.gradOpp i hi
    rw [Nat.mul_one] at w1 w2
    rw [copyN_zero (h0.grad i hi e he) (hcs i hi).2 (by omega) (by omega) he (hcs i hi).1, Option.bind_some,
      copyN_zero (h0.gradOpp i hi e he) (hcs i hi).2 (by omega) (by omega) he (hcs i hi).1]
  rw [u1, Option.bind_some, u2]
  rfl

end zero

/-! ### systems with boundary conditions -/

section system
variable {N : ℕ} {bc : ℕ → Option ℝ} {A : Arr (ℕ × ℕ)} {K : ℕ → ℕ → ℝ}

/-- Rows of prescribed dofs. -/
theorem row_prescribed (hA : ∀ d < N, bc d ≠ none → ∀ c, A (d, c) = 0) {d : ℕ} (hd : d < N) (h : bc d ≠ none) (x : ℕ → ℝ) :
    ∑ c ∈ range N, bcMatrix bc A K (d, c) * x c = x d := by
  rw [sum_eq_single_of_mem d (mem_range.mpr hd)]
  · simp [bcMatrix, h]
  · intro c _ hc
    simp [bcMatrix, h, Ne.symm hc, hA d hd h c]

/-- Rows of free dofs. -/
theorem row_free (hA : ∀ d < N, bc d ≠ none → ∀ c, A (c, d) = 0) {d : ℕ} (h : bc d = none) (x : ℕ → ℝ) :
    ∑ c ∈ range N, bcMatrix bc A K (d, c) * x c
      = ∑ c ∈ range N, (K d c + A (d, c)) * x c - ∑ c ∈ range N, (bc c).elim 0 (fun _ => K d c * x c) := by
  rw [← sum_sub_distrib]
  refine sum_congr rfl (fun c hc => ?_)
  cases hb : bc c with
  | none => simp only [bcMatrix, h, hb, ne_eq, not_true_eq_false, and_false, if_false, and_self, if_true, Option.elim_none]; ring
  | some g =>
    have := hA c (mem_range.mp hc) (by rw [hb]; simp) d
    simp only [bcMatrix, h, hb, ne_eq, not_true_eq_false, and_false, if_false, reduceCtorEq, Option.elim_some, this]
    ring

/-- The solution of a system with boundary conditions. -/
theorem bc_solution (hA : ∀ d < N, bc d ≠ none → ∀ c, A (d, c) = 0 ∧ A (c, d) = 0) {x f z : ℕ → ℝ} {alpha : ℝ}
    (h : Solves N (bcMatrix bc A K) z (bcVector N bc K x alpha f)) :
    (∀ d < N, ∀ g, bc d = some g → z d = alpha * (g - x d))
    ∧ ∀ d < N, bc d = none → ∑ c ∈ range N, (K d c + A (d, c)) * z c = f d := by
  have h1 : ∀ d < N, ∀ g, bc d = some g → z d = alpha * (g - x d) := by
    intro d hd g hg
    have := h d hd
    rw [row_prescribed (fun d hd hb c => (hA d hd hb c).1) hd (by rw [hg]; simp)] at this
    rw [this]
    simp [bcVector, hg]
  refine ⟨h1, fun d hd hb => ?_⟩
  have := h d hd
  rw [row_free (fun d hd hb c => (hA d hd hb c).2) hb] at this
  have e : bcVector N bc K x alpha f d = f d - ∑ c ∈ range N, (bc c).elim 0 (fun _ => K d c * z c) := by
    unfold bcVector
    simp only [hb, Option.elim_none]
    rw [mul_sum]
    congr 1
    refine sum_congr rfl (fun c hc => ?_)
    cases hg : bc c with
    | none => simp
    | some g => simp only [Option.elim_some]; rw [h1 c (mem_range.mp hc) g hg]; ring
  rw [e] at this
  linarith

/-- Positive forms give invertible systems. -/
theorem bc_invertible (hA : ∀ d < N, bc d ≠ none → ∀ c, A (d, c) = 0 ∧ A (c, d) = 0)
    (hpos : PositiveOn N bc (fun u v => ∑ d ∈ range N, ∑ c ∈ range N, v d * (K d c + A (d, c)) * u c)) (b : ℕ → ℝ) :
    ∃ x, Solves N (bcMatrix bc A K) x b := by
  obtain ⟨x, ⟨h1, h2⟩, -⟩ := posdef_solvable (N := N) (F := (range N).filter (fun d => bc d = none))
    (fun d hd => mem_range.mp (mem_filter.mp hd).1) (fun d c => K d c + A (d, c)) (fun v hv hne => by
      refine hpos v (fun d hd hb => hv d (fun hm => hb (mem_filter.mp hm).2)) ?_
      obtain ⟨d, hd⟩ := hne
      by_cases hdN : d < N
      · exact ⟨d, hdN, hd⟩
      · exact absurd (hv d (fun hm => hdN (mem_range.mp (mem_filter.mp hm).1))) hd)
    (fun d => b d + ∑ c ∈ range N, (bc c).elim 0 (fun _ => K d c * b c)) b
  have hb : ∀ d, bc d ≠ none → x d = b d := fun d hd => h1 d (fun hm => hd (mem_filter.mp hm).2)
  refine ⟨x, fun d hd => ?_⟩
  by_cases h : bc d = none
  · rw [row_free (fun d hd hb c => (hA d hd hb c).2) h, h2 d (mem_filter.mpr ⟨mem_range.mpr hd, h⟩), add_sub_assoc,
      ← sum_sub_distrib, sum_eq_zero (fun c _ => ?_), add_zero]
    cases hg : bc c with
    | none => simp
    | some g => simp only [Option.elim_some]; rw [hb c (by rw [hg]; simp)]; ring
  · rw [row_prescribed (fun d hd hb c => (hA d hd hb c).1) hd h, hb d h]

/-- Tested with an admissible function. -/
theorem tested {f z v : ℕ → ℝ} (h : ∀ d < N, bc d = none → ∑ c ∈ range N, (K d c + A (d, c)) * z c = f d)
    (hv : Admissible N bc v) :
    formOf N N K z v + ∑ d ∈ range N, ∑ c ∈ range N, v d * A (d, c) * z c = ∑ d ∈ range N, f d * v d := by
  unfold formOf
  rw [← sum_add_distrib]
  refine sum_congr rfl (fun d hd => ?_)
  rw [← sum_add_distrib]
  by_cases hb : bc d = none
  · rw [← h d (mem_range.mp hd) hb, sum_mul]
    exact sum_congr rfl (fun c _ => by ring)
  · rw [hv d (mem_range.mp hd) hb, mul_zero]
    exact sum_eq_zero (fun c _ => by ring)

theorem formOf_sub (N n : ℕ) (K : ℕ → ℕ → ℝ) (u u' v : ℕ → ℝ) :
    formOf N n K (fun d => u d - u' d) v = formOf N n K u v - formOf N n K u' v := by
  unfold formOf
  rw [← sum_sub_distrib]
  refine sum_congr rfl (fun d _ => ?_)
  rw [← sum_sub_distrib]
  exact sum_congr rfl (fun c _ => by ring)

theorem formOf_eq (N n : ℕ) (K : ℕ → ℕ → ℝ) (u v : ℕ → ℝ) :
    formOf N n K u v = ∑ d ∈ range N, (∑ c ∈ range n, K d c * u c) * v d := by
  unfold formOf
  refine sum_congr rfl (fun d _ => ?_)
  rw [sum_mul]
  exact sum_congr rfl (fun c _ => by ring)

end system

/-! ### calls of a demo -/

section calls
variable {R : Type} [Zero R]

theorem run_append (S : Static R) (ops : List (Op R)) (o : Op R) {s s1 s2 : State R} (h : run S s ops = some s1)
    (hc : call S s1 o = .ok s2) : run S s (ops ++ [o]) = some s2 := by
  induction ops generalizing s with
  | nil =>
    injection h with h
    subst h
    show (match call S s o with | .ok s' => run S s' [] | .throws s' _ => run S s' [] | .ub => none) = _
    rw [hc]
    rfl
  | cons p ops ih =>
    show (match call S s p with | .ok s' => run S s' (ops ++ [o]) | .throws s' _ => run S s' (ops ++ [o]) | .ub => none) = _
    have h' : (match call S s p with | .ok s' => run S s' ops | .throws s' _ => run S s' ops | .ub => none) = some s1 := h
    cases hp : call S s p with
    | ok s' => rw [hp] at h'; exact ih h'
    | throws s' k => rw [hp] at h'; exact ih h'
    | ub => rw [hp] at h'; cases h'

theorem proper_append (S : Static R) (ops : List (Op R)) (o : Op R) {t : Tracked R} (h : ProperHistory S t ops)
    (ho : (ops.foldl Tracked.step t).Proper S o) : ProperHistory S t (ops ++ [o]) := by
  induction ops generalizing t with
  | nil => exact ⟨ho, trivial⟩
  | cons p ops ih => exact ⟨h.1, ih h.2 ho⟩

/-- A proper call with all coefficients it needs returns. -/
theorem call_ok (S : Static R) (hS : S.Ok) (ops : List (Op R)) (o : Op R) {s : State R}
    (hops : ProperHistory S Tracked.new ops) (hs : run S State.init ops = some s)
    (ho : (ops.foldl Tracked.step Tracked.new).Proper S o)
    (hn : match o with
      | .gen p _ co _ _ => missing p co = none
      | .upd p co => missingU p co = none) : ∃ s', call S s o = .ok s' ∧ run S State.init (ops ++ [o]) = some s' := by
  obtain ⟨s1, h1, h2⟩ := good_history hS ops (good_init S) hops
  rw [hs] at h1
  injection h1 with h1
  subst h1
  obtain ⟨s', h3, -⟩ := good_call h2 hS o ho
  rcases h3 with h3 | ⟨k, h3⟩
  · exact ⟨s', h3, run_append S ops o hs h3⟩
  · exfalso
    cases o with
    | gen p V co gamma theta =>
      have := ((C41_meshtie S hS p V co gamma theta ho s).1 k).mp ⟨s', h3⟩
      dsimp only at hn
      rw [hn] at this
      cases this
    | upd p co =>
      have := ((C41_meshtie_update S p co s s' k).mp h3).2
      dsimp only at hn
      rw [hn] at this
      cases this

end calls

/-! ### functions of a mesh -/

section funcs
variable {M : TieMesh} {E : TieElement}

theorem func_packed (hM : TieMesh.Valid M) (h : 0 < E.bs) (w : ℕ → ℝ) : (M.func E w).Packed M.static E.bs :=
  ⟨fun i _ => (func_val M h w i).1, fun i _ => rfl, fun i _ => (func_grad hM h w i).1, fun i _ => rfl⟩

theorem space_packed (hM : TieMesh.Valid M) {p : Problem} (hE : E.bs = comps M.static p) : (M.space E).Packed M.static p := by
  refine ⟨hE, fun i _ => ?_, fun i _ => ?_⟩
  · obtain ⟨a, -, h⟩ := test_arr M E i
    rw [h]
    show M.nq * M.nq * E.nd * E.bs = M.nq * E.nd * M.nq * E.bs
    ring
  · obtain ⟨a, -, h⟩ := gtest_arr hM E i
    rw [h]
    show M.nq * M.nq * E.nd * M.gdim = M.nq * E.nd * M.nq * M.gdim
    ring

/-- The zero function of a scalar space. -/
theorem zeroFunc (hM : TieMesh.Valid M) (hE : TieElement.Valid M E) (h1 : E.bs = 1) : ZeroFunc M.static (M.func E fun _ => 0) := by
  have h0 : 0 < E.bs := by omega
  have hd := hM.dim
  have key : ∀ i < M.numPairs, ∀ e < M.localFacets i, ∃ cell f, (M.facets i)[e]? = some (cell, f) := by
    intro i hi e he
    have := hM.loc i hi
    exact ⟨_, _, List.getElem?_eq_getElem (by omega)⟩
  have split : ∀ m < M.nq * E.bs * M.gdim, m / M.gdim < M.nq ∧ m % M.gdim < M.gdim
      ∧ m = (m / M.gdim * E.bs + 0) * M.gdim + m % M.gdim := by
    intro m hm
    rw [h1, Nat.mul_one] at hm
    refine ⟨Nat.div_lt_of_lt_mul (by rwa [Nat.mul_comm]), Nat.mod_lt _ hd, ?_⟩
    rw [h1, Nat.mul_one, Nat.add_zero]
    exact (Nat.div_add_mod' m M.gdim).symm
  refine ⟨fun i hi e he m hm => ?_, fun i hi e he m hm => ?_, fun i hi e he m hm => ?_, fun i hi e he m hm => ?_⟩
  · obtain ⟨w, hv⟩ := func_val M h0 (fun _ => 0) i
    obtain ⟨cell, f, hf⟩ := key i hi e he
    rw [w] at hm ⊢
    have hm' : m < M.nq := by rw [h1, Nat.mul_one] at hm; exact hm
    have := hv e cell f hf m hm' 0 h0
    rw [show m * E.bs + 0 = m by rw [h1]; omega] at this
    rw [this]
    unfold tieValue
    simp
  · have w : ((M.func E fun _ => 0).opp i).c = M.nq * E.bs := rfl
    rw [w] at hm ⊢
    have hm' : m < M.nq := by rw [h1, Nat.mul_one] at hm; exact hm
    obtain ⟨k1, k2⟩ := func_opp hM hE (fun _ => 0) he hm' h0
    rw [show m * E.bs + 0 = m by rw [h1]; omega] at k1 k2
    by_cases ht : Tied M i e m
    · rw [k1 ht]
      unfold tieOpposite
      simp
    · exact k2 ht
  · obtain ⟨w, hv⟩ := func_grad hM h0 (fun _ => 0) i
    obtain ⟨cell, f, hf⟩ := key i hi e he
    rw [w] at hm ⊢
    obtain ⟨m1, m2, m3⟩ := split m hm
    rw [m3, hv e cell f hf _ m1 0 h0 _ m2]
    unfold tieGrad
    simp
  · have w : ((M.func E fun _ => 0).gradOpp i).c = M.nq * E.bs * M.gdim := rfl
    rw [w] at hm ⊢
    obtain ⟨m1, m2, m3⟩ := split m hm
    obtain ⟨k1, k2⟩ := func_gopp (E := E) M (fun _ => 0) he m1 h0 m2
    rw [m3]
    by_cases ht : Tied M i e (m / M.gdim)
    · rw [k1 ht]
      unfold tieOppositeGrad
      simp
    · exact k2 ht

end funcs

/-! ### states of a demo -/

section states
variable {D : Demo}

/-- The temperature in the data for heat conduction. -/
def Demo.given (D : Demo) : ℕ → ℝ := if D.withT then D.start else fun _ => 0

/-- States of the `MeshTie` object in which the data for heat conduction are as generated. -/
def HeatReach (D : Demo) (s : State ℝ) : Prop :=
  ∃ ops g, ProperHistory D.M.static Tracked.new ops ∧ run D.M.static State.init ops = some s
    ∧ (ops.foldl Tracked.step Tracked.new).get .poisson = some g ∧ GeneratedFor D.M D.Q D.EQ .poisson D.mat D.gamma D.theta g
    ∧ SolutionIs D.M D.Q D.given g

/-- The same, and the data for thermo-elasticity are generated too; the generation satisfies `P`. -/
def ThermoReach (D : Demo) (P : Gen ℝ → Prop) (s : State ℝ) : Prop :=
  ∃ ops g g', ProperHistory D.M.static Tracked.new ops ∧ run D.M.static State.init ops = some s
    ∧ (ops.foldl Tracked.step Tracked.new).get .poisson = some g ∧ GeneratedFor D.M D.Q D.EQ .poisson D.mat D.gamma D.theta g
    ∧ SolutionIs D.M D.Q D.given g
    ∧ (ops.foldl Tracked.step Tracked.new).get .thermo = some g'
    ∧ GeneratedFor D.M D.V D.EQ .thermo D.mat D.gammaE D.theta g' ∧ P g'

theorem ThermoReach.heat {P : Gen ℝ → Prop} {s : State ℝ} (h : ThermoReach D P s) : HeatReach D s := by
  obtain ⟨ops, g, g', h1, h2, h3, h4, h5, -⟩ := h
  exact ⟨ops, g, h1, h2, h3, h4, h5⟩

theorem static_ok (M : TieMesh) : M.static.Ok := fun _ _ => rfl

/-- With the temperature given. -/
theorem heatStart_with (hD : DemoValid D) (hw : D.withT = true) : ∃ s, D.heatStart = some s ∧ HeatReach D s := by
  have hQ : 0 < D.Q.bs := by rw [hD.scalar]; omega
  have hT : D.heatCoefs .T = some (D.M.func D.Q D.start) := by simp [Demo.heatCoefs, hw]
  have hok : GenOk D.M.static .poisson (D.M.space D.Q) D.heatCoefs := by
    refine ⟨space_packed hD.mesh hD.scalar, fun k hk f hf => ?_, fun f hf => ?_, fun h => by cases h⟩
    · simp only [required, List.mem_singleton] at hk
      subst hk
      obtain rfl := Option.some.inj hf
      exact fun i _ => (func_const0 D.M hD.material (D.mat .kdt) i).1
    · rw [show trigger .poisson = .T from rfl, hT] at hf
      obtain rfl := Option.some.inj hf
      exact ⟨rfl, rfl, func_packed hD.mesh hQ _⟩
  obtain ⟨s, h1, h2⟩ := call_ok D.M.static (static_ok D.M) [] (.gen .poisson (D.M.space D.Q) D.heatCoefs D.gamma D.theta)
    trivial rfl hok (by simp [missing, required, trigger, solution, Demo.heatCoefs])
  have hgen : generateKernelData D.M.static .poisson (D.M.space D.Q) D.heatCoefs D.gamma D.theta State.init = .ok s := h1
  refine ⟨s, by unfold Demo.heatStart; rw [hgen]; rfl, [.gen .poisson (D.M.space D.Q) D.heatCoefs D.gamma D.theta], ⟨.poisson, D.M.space D.Q, D.heatCoefs, D.gamma, D.theta, some D.heatCoefs⟩,
    ⟨hok, trivial⟩, h2, ?_, ⟨rfl, rfl, rfl, rfl, fun k hk => ?_, hD.material⟩, D.heatCoefs, rfl, ?_⟩
  · have g1 : Given D.heatCoefs (required .poisson) := by simp [Given, required, Demo.heatCoefs]
    have g2 : Given D.heatCoefs (solution .poisson) := by simp [Given, solution, hT]
    simp only [List.nil_append, List.foldl_cons, List.foldl_nil, Tracked.step, if_pos g1, if_pos g2]
    rfl
  · simp only [required, List.mem_singleton] at hk
    subst hk
    rfl
  · show D.heatCoefs .T = _
    rw [hT]
    simp [Demo.given, hw]

/-- The object of the demos after generating the data for heat conduction. -/
theorem heatStart_ok (hD : DemoValid D) : ∃ s, D.heatStart = some s ∧ HeatReach D s := by
  cases hw : D.withT with
  | true => exact heatStart_with hD hw
  | false =>
    have hD' : DemoValid { D with withT := true, start := fun _ => 0 } := ⟨hD.mesh, hD.heat, hD.scalar, hD.material, hD.heatDofs⟩
    obtain ⟨s, h1, ops, g, h2, h3, h4, h5, h6⟩ := heatStart_with hD' rfl
    refine ⟨s, ?_, ops, g, h2, h3, h4, h5, ?_⟩
    · rw [← h1]
      unfold Demo.heatStart
      congr 1
      have hQ : 0 < D.Q.bs := by rw [hD.scalar]; omega
      refine generate_without D.M.static (static_ok D.M) (D.M.space D.Q) (space_packed hD.mesh hD.scalar) _ _
        (D.M.func D.EQ (D.mat .kdt)) (D.M.func D.Q fun _ => 0) rfl rfl
        (fun i _ => (func_const0 D.M hD.material (D.mat .kdt) i).1) (by simp [Demo.heatCoefs, hw]) rfl rfl ?_
        (zeroFunc hD.mesh hD.heat hD.scalar) _ _
      have := func_packed hD.mesh hQ (fun _ => 0)
      rwa [hD.scalar] at this
    · have : D.given = fun _ => 0 := by simp [Demo.given, hw]
      rw [this]
      exact h6

/-- The object of the demos before the first time step. -/
theorem thermoStart_ok (hD : DemoValid D) (hU : DemoValidU D) :
    ∃ s, D.thermoStart = some ⟨D.start, fun _ => 0, s⟩ ∧ ThermoReach D (fun _ => True) s := by
  obtain ⟨s0, h0, ops, g, h2, h3, h4, h5, h6⟩ := heatStart_ok hD
  have hV : 0 < D.V.bs := by rw [hU.vector]; exact hD.mesh.dim
  have hQ : 0 < D.Q.bs := by rw [hD.scalar]; omega
  have hok : GenOk D.M.static .thermo (D.M.space D.V) D.thermoCoefs := by
    refine ⟨space_packed hD.mesh hU.vector, fun k hk f hf => ?_, fun f hf => ?_, fun _ f hf => ?_⟩
    · have : D.thermoCoefs k = some (D.M.func D.EQ (D.mat k)) := by
        simp only [required, List.mem_cons, List.not_mem_nil, or_false] at hk
        rcases hk with rfl | rfl | rfl <;> rfl
      rw [this] at hf
      obtain rfl := Option.some.inj hf
      exact fun i _ => (func_const0 D.M hD.material (D.mat k) i).1
    · rw [show trigger .thermo = .u from rfl] at hf
      simp only [Demo.thermoCoefs] at hf
      split_ifs at hf
      obtain rfl := Option.some.inj hf
      exact ⟨rfl, rfl, func_packed hD.mesh hV _⟩
    · simp only [Demo.thermoCoefs] at hf
      split_ifs at hf
      obtain rfl := Option.some.inj hf
      have := func_packed hD.mesh hQ D.start
      rwa [hD.scalar] at this
  obtain ⟨s, h7, h8⟩ := call_ok D.M.static (static_ok D.M) ops (.gen .thermo (D.M.space D.V) D.thermoCoefs D.gammaE D.theta)
    h2 h3 hok (by cases hu : D.withU <;> simp [missing, required, trigger, solution, Demo.thermoCoefs, hu])
  have hgen : generateKernelData D.M.static .thermo (D.M.space D.V) D.thermoCoefs D.gammaE D.theta s0 = .ok s := h7
  have g1 : Given D.thermoCoefs (required .thermo) := by simp [Given, required, Demo.thermoCoefs]
  refine ⟨s, by unfold Demo.thermoStart; rw [h0]; simp [hgen, Out.state],
    ops ++ [.gen .thermo (D.M.space D.V) D.thermoCoefs D.gammaE D.theta], g,
    ⟨.thermo, D.M.space D.V, D.thermoCoefs, D.gammaE, D.theta, if Given D.thermoCoefs (solution .thermo) then some D.thermoCoefs else none⟩,
    proper_append _ _ (.gen .thermo (D.M.space D.V) D.thermoCoefs D.gammaE D.theta) h2 hok, h8, ?_, h5, h6, ?_, ⟨rfl, rfl, rfl, rfl, fun k hk => ?_, hD.material⟩, trivial⟩
  · rw [List.foldl_append, ← h4]
    simp only [List.foldl_cons, List.foldl_nil, Tracked.step, if_pos g1]
    rfl
  · rw [List.foldl_append]
    simp only [List.foldl_cons, List.foldl_nil, Tracked.step, if_pos g1]
    rfl
  · simp only [required, List.mem_cons, List.not_mem_nil, or_false] at hk
    rcases hk with rfl | rfl | rfl <;> rfl

/-- Updating with displacement and temperature. -/
theorem update_ok (hD : DemoValid D) (hU : DemoValidU D) {P : Gen ℝ → Prop} {s : State ℝ} (h : ThermoReach D P s) (u T : ℕ → ℝ) :
    ∃ s', updateKernelData D.M.static (D.solution u T) .thermo s = .ok s'
      ∧ ThermoReach D (fun g => SolutionIs D.M D.V u g ∧ TemperatureIs D.M D.Q T g) s' := by
  obtain ⟨ops, g, g', h1, h2, h3, h4, h5, h6, h7, -⟩ := h
  have hV : 0 < D.V.bs := by rw [hU.vector]; exact hD.mesh.dim
  have hQ : 0 < D.Q.bs := by rw [hD.scalar]; omega
  have hok : (ops.foldl Tracked.step Tracked.new).Proper D.M.static (.upd .thermo (D.solution u T)) := by
    intro _
    refine ⟨g', h6, h7.problem, fun f hf => ?_, fun _ f hf => ?_⟩
    · obtain rfl := Option.some.inj hf
      rw [h7.space]
      exact ⟨rfl, rfl, func_packed hD.mesh hV _⟩
    · obtain rfl := Option.some.inj hf
      have := func_packed hD.mesh hQ T
      rwa [hD.scalar] at this
  obtain ⟨s', h8, h9⟩ := call_ok D.M.static (static_ok D.M) ops (.upd .thermo (D.solution u T)) h1 h2 hok
    (by simp [missingU, solution, Demo.solution])
  have g1 : Given (D.solution u T) (solution .thermo) := by simp [Given, solution, Demo.solution]
  refine ⟨s', h8, _, g, { g' with sol := some (D.solution u T) }, proper_append _ _ _ h1 hok, h9, ?_, h4, h5, ?_,
    ⟨h7.problem, h7.space, h7.gamma, h7.theta, h7.mat, h7.scalar⟩, ⟨_, rfl, ?_⟩, hD.scalar, _, rfl, rfl⟩
  · rw [List.foldl_append, ← h3]
    simp only [List.foldl_cons, List.foldl_nil, Tracked.step, if_pos g1]
    rfl
  · rw [List.foldl_append]
    simp only [List.foldl_cons, List.foldl_nil, Tracked.step, if_pos g1, h6]
    rfl
  · show D.solution u T (trigger g'.p) = _
    rw [h7.problem]
    rfl

end states

/-! ### one step -/

section steps
variable {D : Demo}

theorem formOf_add (N n : ℕ) (K K' : ℕ → ℕ → ℝ) (u v : ℕ → ℝ) :
    formOf N n (fun d c => K d c + K' d c) u v = formOf N n K u v + formOf N n K' u v := by
  unfold formOf
  rw [← sum_add_distrib]
  refine sum_congr rfl (fun d _ => ?_)
  rw [← sum_add_distrib]
  exact sum_congr rfl (fun c _ => by ring)

/-- A matrix of `formOf` and the same entries `A`. -/
theorem formOf_mat (N : ℕ) (K : ℕ → ℕ → ℝ) (A : Arr (ℕ × ℕ)) (u v : ℕ → ℝ) :
    ∑ d ∈ range N, ∑ c ∈ range N, v d * (K d c + A (d, c)) * u c
      = formOf N N K u v + ∑ d ∈ range N, ∑ c ∈ range N, v d * A (d, c) * u c := by
  unfold formOf
  rw [← sum_add_distrib]
  refine sum_congr rfl (fun d _ => ?_)
  rw [← sum_add_distrib]
  exact sum_congr rfl (fun c _ => by ring)

/-- The system of a time step. -/
theorem heatStep_raw (hD : DemoValid D) (hT : TiedFirst D.M) {s : State ℝ} (h : HeatReach D s) (T : ℕ → ℝ) :
    ∃ (A : Arr (ℕ × ℕ)) (b' : ℕ → ℝ), D.heatStep T s = some (D.H.solve (bcMatrix D.H.bc A D.H.form) (bcVector D.H.numDofs D.H.bc
        D.H.form (fun _ => 0) 1.0 (fun d => b' d + ∑ c ∈ range D.H.numDofs, D.H.mass d c * T c)))
      ∧ (∀ u v : ℕ → ℝ, ∑ d ∈ range D.H.numDofs, ∑ c ∈ range D.H.numDofs, v d * A (d, c) * u c
        = heatTie D.M D.Q D.EQ D.mat D.gamma D.theta u v)
      ∧ (∀ d c, ¬TiedDofs D.M D.Q d c → A (d, c) = 0)
      ∧ ∀ v, ∑ d ∈ range D.H.numDofs, b' d * v d = tieSource D v := by
  obtain ⟨ops, g, h1, h2, h3, h4, h5⟩ := h
  obtain ⟨s1, k1, ⟨A, k2, k3⟩, b, k4, k5⟩ := C117_heat_partial hD.mesh hD.heat _ hD.heatDofs hT ops h1 h3 h4
  obtain rfl := Option.some.inj (k1.symm.trans h2)
  obtain ⟨s2, A2, b2, l1, l2, -, l3, -⟩ := C165_local hD.mesh ops h1 .poisson h3 h4
  obtain rfl := Option.some.inj (l1.symm.trans h2)
  obtain rfl := Except.ok.inj (l2.symm.trans k2)
  unfold Demo.heatStep tieSource
  cases D.addTie with
  | true =>
    refine ⟨A2, b, by rw [k4, k2]; rfl, k3, l3, fun v => ?_⟩
    rw [k5 _ h5 v]
    unfold Demo.given
    cases D.withT with
    | true => rfl
    | false => rw [if_neg (by simp), if_neg (by simp), ← k3]; simp
  | false => exact ⟨A2, 0, by rw [k2]; rfl, k3, l3, fun v => by simp⟩

theorem heatStep_ok (hD : DemoValid D) (hT : TiedFirst D.M) (hpos : HeatPositive D)
    (haway : AwayFromTie D.M D.Q D.H.numDofs D.H.bc) (hsol : LinearSolver D.H.numDofs D.H.solve) {s : State ℝ}
    (h : HeatReach D s) (T : ℕ → ℝ) : ∃ T', D.heatStep T s = some T' ∧ Euler D (tieSource D) T T' := by
  obtain ⟨A2, b', hb1, k3, l3, hb2⟩ := heatStep_raw hD hT h T
  have hA : ∀ d < D.H.numDofs, D.H.bc d ≠ none → ∀ c, A2 (d, c) = 0 ∧ A2 (c, d) = 0 := fun d hd hb c =>
    ⟨l3 _ _ (haway d hd hb c).1, l3 _ _ (haway d hd hb c).2⟩
  have hform : ∀ u v, ∑ d ∈ range D.H.numDofs, ∑ c ∈ range D.H.numDofs, v d * (D.H.form d c + A2 (d, c)) * u c
      = content D u v + conduction D u v := by
    intro u v
    rw [formOf_mat, k3]
    unfold content conduction
    rw [← add_assoc, ← formOf_add]
    rfl
  have hinv := bc_invertible (K := D.H.form) hA (fun v hv hne => lt_of_lt_of_eq (hpos v hv hne) (hform v v).symm)
  refine ⟨_, hb1, ?_⟩
  have hz := hsol _ hinv (bcVector D.H.numDofs D.H.bc D.H.form (fun _ => 0) 1.0
    (fun d => b' d + ∑ c ∈ range D.H.numDofs, D.H.mass d c * T c))
  obtain ⟨z1, z2⟩ := bc_solution hA hz
  refine ⟨fun d hd g' hg' => ?_, fun v hv => ?_⟩
  · rw [z1 d hd g' hg']
    norm_num
  · have := tested z2 hv
    rw [← formOf_mat, hform] at this
    simp only [add_mul, sum_add_distrib] at this
    rw [hb2, ← formOf_eq] at this
    unfold content at this ⊢
    linarith

/-- The residual of the Newton solver. -/
theorem residual_ok (hD : DemoValid D) (hU : DemoValidU D) (hT : TiedFirst D.M) {P : Gen ℝ → Prop} {s : State ℝ}
    (h : ThermoReach D P s) (k : ℕ) (T u : ℕ → ℝ) : ∃ s' f, D.residual k T u s
        = some (bcVector D.L.numDofs (D.L.bc k) D.L.stiff u (-1.0) f, s') ∧ ThermoReach D (fun _ => True) s'
      ∧ ∀ v, ∑ d ∈ range D.L.numDofs, f d * v d = elasticity D u v + thermalTie D.M D.V D.EQ D.Q D.mat T v
        - formOf D.L.numDofs D.H.numDofs D.L.thermal T v := by
  obtain ⟨s', h0, ops, g, g', h1, h2, h3, h4, h5, h6, h7, h8, h9⟩ := update_ok hD hU h u T
  obtain ⟨s1, k1, -, b, k4, k5⟩ := C117_thermo_partial hD.mesh hU.disp _ hU.dispDofs hT ops h1 h6 h7
  obtain rfl := Option.some.inj (k1.symm.trans h2)
  refine ⟨s1, fun d => b d + (∑ c ∈ range D.L.numDofs, D.L.stiff d c * u c - ∑ c ∈ range D.H.numDofs, D.L.thermal d c * T c), ?_,
    ⟨ops, g, g', h1, h2, h3, h4, h5, h6, h7, trivial⟩, fun v => ?_⟩
  · unfold Demo.residual
    rw [h0]
    simp only [Out.state, Option.bind_eq_bind, Option.bind_some, k4]
    rfl
  · simp only [add_mul, sub_mul, sum_add_distrib, sum_sub_distrib]
    rw [k5 u h8 D.Q T hD.heat h9 v, ← formOf_eq, ← formOf_eq]
    unfold elasticity
    ring

/-- The matrix of the Newton solver. -/
theorem jacobian_ok (hD : DemoValid D) (hU : DemoValidU D) (hT : TiedFirst D.M) {P : Gen ℝ → Prop} {s : State ℝ}
    (h : ThermoReach D P s) (k : ℕ) (haway : AwayFromTie D.M D.V D.L.numDofs (D.L.bc k)) :
    ∃ A, D.jacobian k s = some (bcMatrix (D.L.bc k) A D.L.stiff)
      ∧ (∀ d < D.L.numDofs, D.L.bc k d ≠ none → ∀ c, A (d, c) = 0 ∧ A (c, d) = 0)
      ∧ ∀ u v, ∑ d ∈ range D.L.numDofs, ∑ c ∈ range D.L.numDofs, v d * (D.L.stiff d c + A (d, c)) * u c = elasticity D u v := by
  obtain ⟨ops, g, g', h1, h2, h3, h4, h5, h6, h7, -⟩ := h
  obtain ⟨s1, k1, ⟨A, k2, k3⟩, -⟩ := C117_thermo_partial hD.mesh hU.disp _ hU.dispDofs hT ops h1 h6 h7
  obtain rfl := Option.some.inj (k1.symm.trans h2)
  obtain ⟨s2, A2, b2, l1, l2, -, l3, -⟩ := C165_local hD.mesh ops h1 .thermo h6 h7
  obtain rfl := Option.some.inj (l1.symm.trans h2)
  obtain rfl := Except.ok.inj (l2.symm.trans k2)
  refine ⟨A2, by unfold Demo.jacobian; rw [k2]; rfl, fun d hd hb c => ⟨l3 _ _ (haway d hd hb c).1, l3 _ _ (haway d hd hb c).2⟩,
    fun u v => ?_⟩
  rw [formOf_mat, k3]
  rfl

/-- The Newton solver returns, whatever the linear solver does. -/
theorem newton_reach (hD : DemoValid D) (hU : DemoValidU D) (hT : TiedFirst D.M) (k : ℕ) (T : ℕ → ℝ) (n : ℕ) :
    ∀ (u b : ℕ → ℝ) (s : State ℝ), ThermoReach D (fun _ => True) s →
    ∃ u' s', D.newton k T n u (b, s) = some (u', s') ∧ ThermoReach D (fun _ => True) s' := by
  induction n with
  | zero => exact fun u b s h => ⟨u, s, rfl, h⟩
  | succ n ih =>
    intro u b s h
    obtain ⟨ops, g, g', h1, h2, h3, h4, h5, h6, h7, -⟩ := id h
    obtain ⟨s1, k1, ⟨A, k2, -⟩, -⟩ := C117_thermo_partial hD.mesh hU.disp _ hU.dispDofs hT ops h1 h6 h7
    obtain rfl := Option.some.inj (k1.symm.trans h2)
    have a1 : D.jacobian k s1 = some (bcMatrix (D.L.bc k) A D.L.stiff) := by unfold Demo.jacobian; rw [k2]; rfl
    obtain ⟨s2, f2, r1, r2, -⟩ := residual_ok hD hU hT h k T
      (fun d => u d - 1.0 * D.L.solve (bcMatrix (D.L.bc k) A D.L.stiff) b d)
    obtain ⟨u', s', n1, n2⟩ := ih (fun d => u d - 1.0 * D.L.solve (bcMatrix (D.L.bc k) A D.L.stiff) b d) _ s2 r2
    refine ⟨u', s', ?_, n2⟩
    unfold Demo.newton
    simp only [a1, Option.bind_eq_bind, Option.bind_some]
    rw [r1]
    exact n1

/-- The form is linear in the displacement. -/
theorem elasticity_sub {A : Arr (ℕ × ℕ)} (hA : ∀ u v, ∑ d ∈ range D.L.numDofs, ∑ c ∈ range D.L.numDofs,
      v d * (D.L.stiff d c + A (d, c)) * u c = elasticity D u v) (u w v : ℕ → ℝ) :
    elasticity D (fun d => u d - w d) v = elasticity D u v - elasticity D w v := by
  rw [← hA, ← hA, ← hA]
  exact formOf_sub _ _ (fun d c => D.L.stiff d c + A (d, c)) u w v

/-- Iterations of the Newton solver. -/
theorem newton_ok (hD : DemoValid D) (hU : DemoValidU D) (hT : TiedFirst D.M) (k : ℕ)
    (haway : AwayFromTie D.M D.V D.L.numDofs (D.L.bc k)) (hpos : PositiveOn D.L.numDofs (D.L.bc k) (elasticity D))
    (hsol : LinearSolver D.L.numDofs D.L.solve) (T : ℕ → ℝ) (n : ℕ) : ∀ (u : ℕ → ℝ) (s s' : State ℝ) (f : ℕ → ℝ),
    ThermoReach D (fun _ => True) s' →
    (∀ v, ∑ d ∈ range D.L.numDofs, f d * v d = elasticity D u v + thermalTie D.M D.V D.EQ D.Q D.mat T v
        - formOf D.L.numDofs D.H.numDofs D.L.thermal T v) →
    ∃ u' s'', D.newton k T n u (bcVector D.L.numDofs (D.L.bc k) D.L.stiff u (-1.0) f, s') = some (u', s'')
      ∧ ThermoReach D (fun _ => True) s'' ∧ (0 < n ∨ Equilibrium D k T u → Equilibrium D k T u') := by
  induction n with
  | zero =>
    intro u s s' f h1 h2
    exact ⟨u, s', rfl, h1, fun h => h.resolve_left (Nat.lt_irrefl 0)⟩
  | succ n ih =>
    intro u s s' f h1 h2
    obtain ⟨A, a1, a2, a3⟩ := jacobian_ok hD hU hT h1 k haway
    have hinv := bc_invertible (K := D.L.stiff) a2 (fun v hv hne => lt_of_lt_of_eq (hpos v hv hne) (a3 v v).symm)
    have hz := hsol _ hinv (bcVector D.L.numDofs (D.L.bc k) D.L.stiff u (-1.0) f)
    obtain ⟨z1, z2⟩ := bc_solution a2 hz
    set dx := D.L.solve (bcMatrix (D.L.bc k) A D.L.stiff) (bcVector D.L.numDofs (D.L.bc k) D.L.stiff u (-1.0) f) with hdx
    have heq : Equilibrium D k T (fun d => u d - 1.0 * dx d) := by
      have e1 : (fun d => u d - 1.0 * dx d) = fun d => u d - dx d := by
        funext d
        norm_num
      rw [e1]
      refine ⟨fun d hd g hg => ?_, fun v hv => ?_⟩
      · show u d - dx d = g
        rw [z1 d hd g hg]
        norm_num
      · have := tested z2 hv
        rw [← formOf_mat, a3, h2] at this
        rw [elasticity_sub a3, this]
        ring
    obtain ⟨s2, f2, r1, r2, r3⟩ := residual_ok hD hU hT h1 k T (fun d => u d - 1.0 * dx d)
    obtain ⟨u', s3, n1, n2, n3⟩ := ih (fun d => u d - 1.0 * dx d) s' s2 f2 r2 r3
    refine ⟨u', s3, ?_, n2, fun _ => n3 (Or.inr heq)⟩
    unfold Demo.newton
    simp only [a1, Option.bind_eq_bind, Option.bind_some, ← hdx]
    rw [r1]
    exact n1

end steps

end

end Verif.TieData
