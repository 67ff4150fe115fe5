import Verif.Lemmas.OneSided
import Verif.Lemmas.PiecewiseLinear
import Verif.Lemmas.Snes
import Verif.Spec.UflDriver

/-! The forms of `nitsche_ufl` and `nitsche_rigid_surface` as piecewise linear functions of the dofs. -/

namespace Verif.UflDriver

open Finset Verif.OneSided Verif.Snes Verif.Scalars Verif.Lemmas Spec

noncomputable section

/-! ### linear functions of the dofs -/

/-- `f` is a linear function of the first `N` dofs. -/
def Lin (N : ℕ) (f : (ℕ → ℝ) → ℝ) : Prop := ∀ u, f u = ∑ d ∈ range N, u d * f (Pi.single d 1)

namespace Lin

variable {N : ℕ} {f g : (ℕ → ℝ) → ℝ}

theorem zero : Lin N (fun _ => 0) := fun u => by simp

theorem add (hf : Lin N f) (hg : Lin N g) : Lin N (fun u => f u + g u) := fun u => by
  simp only [mul_add, sum_add_distrib]
  rw [← hf u, ← hg u]

theorem const_mul (hf : Lin N f) (c : ℝ) : Lin N (fun u => c * f u) := fun u => by
  simp only
  rw [hf u, mul_sum]
  exact sum_congr rfl (fun d _ => by ring)

theorem mul_const (hf : Lin N f) (c : ℝ) : Lin N (fun u => f u * c) := fun u => by
  simp only
  rw [hf u, sum_mul]
  exact sum_congr rfl (fun d _ => by ring)

theorem div_const (hf : Lin N f) (c : ℝ) : Lin N (fun u => f u / c) := by
  simp only [div_eq_mul_inv]
  exact hf.mul_const _

theorem neg (hf : Lin N f) : Lin N (fun u => -f u) := by
  have := hf.const_mul (-1)
  simpa using this

theorem sub (hf : Lin N f) (hg : Lin N g) : Lin N (fun u => f u - g u) := by
  simp only [sub_eq_add_neg]
  exact hf.add hg.neg

theorem sum {ι : Type} (s : Finset ι) {F : ι → (ℕ → ℝ) → ℝ} (h : ∀ i ∈ s, Lin N (F i)) : Lin N (fun u => ∑ i ∈ s, F i u) := by
  intro u
  simp only [mul_sum]
  rw [sum_comm]
  exact sum_congr rfl (fun i hi => h i hi u)

theorem listSum {ι : Type} (l : List ι) {F : ι → (ℕ → ℝ) → ℝ} (h : ∀ i ∈ l, Lin N (F i)) :
    Lin N (fun u => (l.map (fun i => F i u)).sum) := by
  induction l with
  | nil => simpa using zero
  | cons a l ih =>
    simp only [List.map_cons, List.sum_cons]
    exact (h a (by simp)).add (ih (fun i hi => h i (by simp [hi])))

theorem quad (ks : List ℕ) (wt : ℕ → ℝ) {F : ℕ → (ℕ → ℝ) → ℝ} (h : ∀ k ∈ ks, Lin N (F k)) :
    Lin N (fun u => quadSum ks wt (fun k => F k u)) :=
  listSum ks (fun k hk => (h k hk).const_mul (wt k))

/-- Values only depend on the first `N` dofs. -/
theorem congr (hf : Lin N f) {u v : ℕ → ℝ} (h : ∀ d < N, u d = v d) : f u = f v := by
  rw [hf u, hf v]
  exact sum_congr rfl (fun d hd => by rw [h d (mem_range.mp hd)])

end Lin

variable {P : Params} {M : Mesh} {Q : Quad} {S : Support}

/-- The unit vector of dof `d`, by node. -/
abbrev unitDof (P : Params) (d : ℕ) : ℕ → ℕ → ℝ := byNode P (Pi.single d 1)

theorem dof_lt {a i : ℕ} (ha : a < M.numNodes) (hi : i < P.dim) : P.dim * a + i < numDofs P M := by
  unfold numDofs
  calc P.dim * a + i < P.dim * a + P.dim := by omega
    _ = (a + 1) * P.dim := by ring
    _ ≤ M.numNodes * P.dim := Nat.mul_le_mul_right _ ha

theorem lin_node {a i : ℕ} (ha : a < M.numNodes) (hi : i < P.dim) : Lin (numDofs P M) (fun u => byNode P u a i) := by
  intro u
  rw [sum_eq_single (P.dim * a + i)]
  · simp [byNode]
  · intro d _ hd
    simp [byNode, Ne.symm hd]
  · intro h; exact absurd (mem_range.mpr (dof_lt ha hi)) h

theorem lin_value (k : ℕ) {i : ℕ} (hi : i < P.dim) : Lin (numDofs P M) (fun u => nodalValue M (byNode P u) k i) :=
  Lin.sum _ (fun _ ha => (lin_node (mem_range.mp ha) hi).mul_const _)

theorem lin_grad (k j : ℕ) {i : ℕ} (hi : i < P.dim) : Lin (numDofs P M) (fun u => nodalGrad M (byNode P u) k i j) :=
  Lin.sum _ (fun _ ha => (lin_node (mem_range.mp ha) hi).mul_const _)

theorem lin_strain (k : ℕ) {i j : ℕ} (hi : i < P.dim) (hj : j < P.dim) :
    Lin (numDofs P M) (fun u => strain (nodalGrad M (byNode P u) k) i j) :=
  ((lin_grad k j hi).add (lin_grad k i hj)).div_const 2

theorem lin_stress (mu lam : ℝ) (k : ℕ) {i j : ℕ} (hi : i < P.dim) (hj : j < P.dim) :
    Lin (numDofs P M) (fun u => stress P.dim mu lam (nodalGrad M (byNode P u) k) i j) := by
  refine Lin.add ((lin_strain k hi hj).const_mul _) ?_
  split
  · exact (Lin.sum _ (fun l hl => lin_strain k (mem_range.mp hl) (mem_range.mp hl))).const_mul _
  · exact Lin.zero

theorem lin_traction (k : ℕ) {i : ℕ} (hi : i < P.dim) : Lin (numDofs P M) (fun u => tractionAt P M Q (byNode P u) k i) :=
  Lin.sum _ (fun _ hj => (lin_stress _ _ k hi (mem_range.mp hj)).mul_const _)

theorem lin_normalStress (hd : 0 < P.dim) (k : ℕ) : Lin (numDofs P M) (fun u => normalStress P M Q (byNode P u) k) :=
  (lin_traction k (by omega)).neg

theorem lin_normalMove (hd : 0 < P.dim) (k : ℕ) : Lin (numDofs P M) (fun u => normalMove P M (byNode P u) k) :=
  (lin_value k (by omega)).neg

theorem lin_inner (v : ℕ → ℕ → ℝ) : Lin (numDofs P M) (fun u => innerWork P M Q (byNode P u) v) :=
  Lin.quad _ _ (fun k _ => Lin.sum _ (fun _ hi => Lin.sum _ (fun _ hj =>
    (lin_stress _ _ k (mem_range.mp hi) (mem_range.mp hj)).mul_const _)))

theorem inner_comm (u v : ℕ → ℕ → ℝ) : innerWork P M Q u v = innerWork P M Q v u := by
  unfold innerWork
  refine congrArg _ (funext fun k => ?_)
  rw [stressWork_comm]

theorem lin_inner' (u : ℕ → ℕ → ℝ) : Lin (numDofs P M) (fun v => innerWork P M Q u (byNode P v)) := by
  simp only [inner_comm u]
  exact lin_inner u

theorem lin_held (v : ℕ → ℕ → ℝ) : Lin (numDofs P M) (fun u => heldWork P M Q S 0 (byNode P u) v) := by
  refine Lin.listSum _ (fun h _ => Lin.quad _ _ (fun k _ => ?_))
  simp only [zero_mul, sub_zero]
  refine Lin.add (Lin.sub (Lin.neg (Lin.sum _ (fun i hi => (lin_traction k (mem_range.mp hi)).mul_const _))) ?_) ?_
  · exact (Lin.sum _ (fun i hi => (lin_value k (mem_range.mp hi)).const_mul _)).const_mul _
  · exact (Lin.sum _ (fun i hi => (lin_value k (mem_range.mp hi)).mul_const _)).const_mul _

theorem lin_held' (c : ℝ) (u : ℕ → ℕ → ℝ) : Lin (numDofs P M) (fun v => heldWork P M Q S c u (byNode P v)) := by
  refine Lin.listSum _ (fun h _ => Lin.quad _ _ (fun k _ => ?_))
  refine Lin.add (Lin.sub (Lin.neg (Lin.sum _ (fun i hi => (lin_value k (mem_range.mp hi)).const_mul _))) ?_) ?_
  · exact (Lin.sum _ (fun i hi => (lin_traction k (mem_range.mp hi)).mul_const _)).const_mul _
  · exact (Lin.sum _ (fun i hi => (lin_value k (mem_range.mp hi)).const_mul _)).const_mul _

theorem sum_map_add {α : Type} (l : List α) (f g : α → ℝ) :
    (l.map (fun a => f a + g a)).sum = (l.map f).sum + (l.map g).sum := by
  induction l with
  | nil => simp
  | cons a l ih => simp only [List.map_cons, List.sum_cons, ih]; ring

theorem held_split (u v : ℕ → ℕ → ℝ) : heldWork P M Q S 1 u v = heldWork P M Q S 0 u v + heldWork P M Q S 1 0 v := by
  unfold heldWork
  rw [← sum_map_add]
  refine congrArg List.sum (List.map_congr_left (fun h _ => ?_))
  rw [← quadSum_add]
  refine congrArg _ (funext fun k => ?_)
  have e0 : ∀ i, tractionAt P M Q 0 k i = 0 := by
    intro i
    have : ∀ i j, nodalGrad M (0 : ℕ → ℕ → ℝ) k i j = 0 := fun i j => by simp [nodalGrad]
    simp [tractionAt, traction, stress, strain, this]
  have e1 : ∀ i, nodalValue M (0 : ℕ → ℕ → ℝ) k i = 0 := fun i => by simp [nodalValue]
  simp only [e0, e1, zero_mul, sub_zero, one_mul, zero_sub, sum_const_zero, neg_zero]
  have a1 : ∑ i ∈ range P.dim, tractionAt P M Q v k i * (nodalValue M u k i - h.2 i)
      = ∑ i ∈ range P.dim, tractionAt P M Q v k i * nodalValue M u k i
        + ∑ i ∈ range P.dim, tractionAt P M Q v k i * -h.2 i := by
    rw [← sum_add_distrib]; exact sum_congr rfl (fun i _ => by ring)
  have a2 : ∑ i ∈ range P.dim, (nodalValue M u k i - h.2 i) * nodalValue M v k i
      = ∑ i ∈ range P.dim, nodalValue M u k i * nodalValue M v k i
        + ∑ i ∈ range P.dim, -h.2 i * nodalValue M v k i := by
    rw [← sum_add_distrib]; exact sum_congr rfl (fun i _ => by ring)
  rw [a1, a2]; ring

theorem lin_obstacle' (hd : 0 < P.dim) (u : ℕ → ℕ → ℝ) : Lin (numDofs P M) (fun v => obstacleWork P M Q S u (byNode P v)) := by
  refine Lin.quad _ _ (fun k _ => Lin.add ((lin_normalStress hd k).const_mul _) (Lin.const_mul ?_ _))
  exact ((lin_normalStress hd k).const_mul _).sub ((lin_normalMove hd k).const_mul _)

theorem lin_total' (hd : 0 < P.dim) (u : ℕ → ℕ → ℝ) : Lin (numDofs P M) (fun v => totalWork P M Q S u (byNode P v)) :=
  ((lin_inner' u).add (lin_held' 1 u)).add (lin_obstacle' hd u)

/-! ### the piecewise linear system -/

/-- Work that is linear in `u`. -/
def linWork (P : Params) (M : Mesh) (Q : Quad) (S : Support) (u v : ℕ → ℕ → ℝ) : ℝ :=
  innerWork P M Q u v + heldWork P M Q S 0 u v
    + quadSum Q.contact Q.wt (fun k => -(P.theta / S.stiff k) * normalStress P M Q u k * normalStress P M Q v k)

theorem lin_linWork (hd : 0 < P.dim) (v : ℕ → ℕ → ℝ) : Lin (numDofs P M) (fun u => linWork P M Q S (byNode P u) v) :=
  ((lin_inner v).add (lin_held v)).add (Lin.quad _ _ (fun k _ => ((lin_normalStress hd k).const_mul _).mul_const _))

theorem lin_linWork' (hd : 0 < P.dim) (u : ℕ → ℕ → ℝ) : Lin (numDofs P M) (fun v => linWork P M Q S u (byNode P v)) :=
  ((lin_inner' u).add (lin_held' 0 u)).add (Lin.quad _ _ (fun k _ => (lin_normalStress hd k).const_mul _))

/-- The equations for the dofs. -/
def system (P : Params) (M : Mesh) (Q : Quad) (S : Support) : PL (Fin Q.contact.length) where
  N := numDofs P M
  K := fun d c => linWork P M Q S (unitDof P c) (unitDof P d)
  l := fun d => -heldWork P M Q S 1 0 (unitDof P d)
  a := fun k => Q.wt Q.contact[k] / S.stiff Q.contact[k]
  q0 := fun k => S.stiff Q.contact[k] * S.gap Q.contact[k]
  r := fun k c => normalStress P M Q (unitDof P c) Q.contact[k]
    - S.stiff Q.contact[k] * normalMove P M (unitDof P c) Q.contact[k]
  w := fun k d => P.theta * normalStress P M Q (unitDof P d) Q.contact[k]
    - S.stiff Q.contact[k] * normalMove P M (unitDof P d) Q.contact[k]

theorem quad_fin (ks : List ℕ) (wt f : ℕ → ℝ) : quadSum ks wt f = ∑ k : Fin ks.length, wt ks[k] * f ks[k] := by
  unfold quadSum
  rw [← Fin.sum_univ_fun_getElem ks (fun k => wt k * f k)]
  rfl

theorem system_q (hd : 0 < P.dim) (u : ℕ → ℝ) (k : Fin Q.contact.length) :
    (system P M Q S).q u k = pressed P M Q S (byNode P u) Q.contact[k] := by
  have h := ((lin_normalStress (M := M) (Q := Q) hd Q.contact[k]).sub
    ((lin_normalMove hd Q.contact[k]).const_mul (S.stiff Q.contact[k]))) u
  simp only at h
  show S.stiff Q.contact[k] * S.gap Q.contact[k] + ∑ c ∈ range (numDofs P M), (normalStress P M Q (unitDof P c) Q.contact[k]
    - S.stiff Q.contact[k] * normalMove P M (unitDof P c) Q.contact[k]) * u c = _
  have e : ∑ c ∈ range (numDofs P M), (normalStress P M Q (unitDof P c) Q.contact[k]
    - S.stiff Q.contact[k] * normalMove P M (unitDof P c) Q.contact[k]) * u c
      = normalStress P M Q (byNode P u) Q.contact[k] - S.stiff Q.contact[k] * normalMove P M (byNode P u) Q.contact[k] := by
    rw [h]; exact sum_congr rfl (fun c _ => by ring)
  rw [e]; unfold pressed; ring

theorem system_res (hd : 0 < P.dim) (u : ℕ → ℝ) (d : ℕ) :
    (system P M Q S).res u d = totalWork P M Q S (byNode P u) (unitDof P d) := by
  unfold PL.res
  simp only [system_q hd]
  show ∑ c ∈ range (numDofs P M), linWork P M Q S (unitDof P c) (unitDof P d) * u c - -heldWork P M Q S 1 0 (unitDof P d)
    + ∑ k : Fin Q.contact.length, Q.wt Q.contact[k] / S.stiff Q.contact[k] * min 0 (pressed P M Q S (byNode P u) Q.contact[k])
      * (P.theta * normalStress P M Q (unitDof P d) Q.contact[k]
        - S.stiff Q.contact[k] * normalMove P M (unitDof P d) Q.contact[k]) = _
  have e1 : ∑ c ∈ range (numDofs P M), linWork P M Q S (unitDof P c) (unitDof P d) * u c
      = linWork P M Q S (byNode P u) (unitDof P d) := by
    exact (sum_congr rfl (fun c _ => mul_comm _ _)).trans (lin_linWork hd (unitDof P d) u).symm
  rw [e1]
  unfold totalWork obstacleWork linWork
  rw [held_split (byNode P u), quadSum_add, quad_fin Q.contact Q.wt (fun k => 1 / S.stiff k * min 0 (pressed P M Q S (byNode P u) k)
        * (P.theta * normalStress P M Q (unitDof P d) k - S.stiff k * normalMove P M (unitDof P d) k))]
  have e2 : ∀ k : Fin Q.contact.length, Q.wt Q.contact[k] / S.stiff Q.contact[k] * min 0 (pressed P M Q S (byNode P u) Q.contact[k])
      * (P.theta * normalStress P M Q (unitDof P d) Q.contact[k]
        - S.stiff Q.contact[k] * normalMove P M (unitDof P d) Q.contact[k])
      = Q.wt Q.contact[k] * (1 / S.stiff Q.contact[k] * min 0 (pressed P M Q S (byNode P u) Q.contact[k])
        * (P.theta * normalStress P M Q (unitDof P d) Q.contact[k]
          - S.stiff Q.contact[k] * normalMove P M (unitDof P d) Q.contact[k])) := fun k => by ring
  simp only [e2]
  simp only [mul_assoc]
  ring

/-- Derivative of the work of all forces at `u` in direction `w`. -/
def totalTangent (P : Params) (M : Mesh) (Q : Quad) (S : Support) (u w v : ℕ → ℕ → ℝ) : ℝ :=
  linWork P M Q S w v + quadSum Q.contact Q.wt (fun k => 1 / S.stiff k * PL.slope (pressed P M Q S u k)
    * (normalStress P M Q w k - S.stiff k * normalMove P M w k)
    * (P.theta * normalStress P M Q v k - S.stiff k * normalMove P M v k))

theorem system_mat (hd : 0 < P.dim) (u : ℕ → ℝ) (d c : ℕ) :
    (system P M Q S).mat u d c = totalTangent P M Q S (byNode P u) (unitDof P c) (unitDof P d) := by
  unfold PL.mat PL.matOf totalTangent
  rw [quad_fin Q.contact]
  simp only [system_q hd]
  show linWork P M Q S (unitDof P c) (unitDof P d) + _ = _
  refine congrArg _ (sum_congr rfl (fun k _ => ?_))
  show Q.wt Q.contact[k] / S.stiff Q.contact[k] * PL.slope (pressed P M Q S (byNode P u) Q.contact[k])
    * (normalStress P M Q (unitDof P c) Q.contact[k] - S.stiff Q.contact[k] * normalMove P M (unitDof P c) Q.contact[k])
    * (P.theta * normalStress P M Q (unitDof P d) Q.contact[k]
      - S.stiff Q.contact[k] * normalMove P M (unitDof P d) Q.contact[k]) = _
  ring

/-! ### positive definite matrices -/

/-- Lower bound of all tangents. -/
def lower (P : Params) (M : Mesh) (Q : Quad) (S : Support) (d c : ℕ) : ℝ :=
  innerWork P M Q (unitDof P c) (unitDof P d) + heldWork P M Q S 0 (unitDof P c) (unitDof P d)
    - (1 + P.theta) ^ 2 / 4 * quadSum Q.contact Q.wt (fun k => 1 / S.stiff k * normalStress P M Q (unitDof P c) k
      * normalStress P M Q (unitDof P d) k)

/-- Expansion of a bilinear function in the dofs. -/
theorem bilin {N : ℕ} {f : (ℕ → ℝ) → (ℕ → ℝ) → ℝ} (h1 : ∀ v, Lin N (fun u => f u v)) (h2 : ∀ u, Lin N (fun v => f u v))
    (v : ℕ → ℝ) : ∑ d ∈ range N, ∑ c ∈ range N, v d * f (Pi.single c 1) (Pi.single d 1) * v c = f v v := by
  refine Eq.trans (sum_congr rfl (fun d _ => ?_)) (h2 v v).symm
  refine Eq.trans ?_ (congrArg (v d * ·) (h1 (Pi.single d 1) v).symm)
  simp only
  rw [mul_sum]
  exact sum_congr rfl (fun c _ => by ring)

theorem lower_quad (hd : 0 < P.dim) (v : ℕ → ℝ) :
    ∑ d ∈ range (numDofs P M), ∑ c ∈ range (numDofs P M), v d * lower P M Q S d c * v c
      = innerWork P M Q (byNode P v) (byNode P v) + heldWork P M Q S 0 (byNode P v) (byNode P v)
        - (1 + P.theta) ^ 2 / 4 * quadSum Q.contact Q.wt (fun k => 1 / S.stiff k * normalStress P M Q (byNode P v) k ^ 2) := by
  refine (bilin (f := fun u v => innerWork P M Q (byNode P u) (byNode P v) + heldWork P M Q S 0 (byNode P u) (byNode P v)
    - (1 + P.theta) ^ 2 / 4 * quadSum Q.contact Q.wt (fun k => 1 / S.stiff k * normalStress P M Q (byNode P u) k
      * normalStress P M Q (byNode P v) k)) ?_ ?_ v).trans ?_
  · intro v
    exact ((lin_inner _).add (lin_held _)).sub ((Lin.quad _ _ (fun k _ =>
      ((lin_normalStress hd k).const_mul _).mul_const _)).const_mul _)
  · intro u
    exact ((lin_inner' _).add (lin_held' 0 _)).sub ((Lin.quad _ _ (fun k _ =>
      (lin_normalStress hd k).const_mul _)).const_mul _)
  · have : ∀ k, 1 / S.stiff k * normalStress P M Q (byNode P v) k * normalStress P M Q (byNode P v) k
        = 1 / S.stiff k * normalStress P M Q (byNode P v) k ^ 2 := fun k => by ring
    simp only [this]

theorem matOf_quad (hd : 0 < P.dim) (m : Fin Q.contact.length → ℝ) (v : ℕ → ℝ) :
    ∑ d ∈ range (numDofs P M), ∑ c ∈ range (numDofs P M), v d * (system P M Q S).matOf m d c * v c
      = linWork P M Q S (byNode P v) (byNode P v) + ∑ k : Fin Q.contact.length, Q.wt Q.contact[k] / S.stiff Q.contact[k] * m k
        * (normalStress P M Q (byNode P v) Q.contact[k] - S.stiff Q.contact[k] * normalMove P M (byNode P v) Q.contact[k])
        * (P.theta * normalStress P M Q (byNode P v) Q.contact[k]
          - S.stiff Q.contact[k] * normalMove P M (byNode P v) Q.contact[k]) := by
  refine bilin (f := fun u v => linWork P M Q S (byNode P u) (byNode P v)
    + ∑ k : Fin Q.contact.length, Q.wt Q.contact[k] / S.stiff Q.contact[k] * m k
        * (normalStress P M Q (byNode P u) Q.contact[k] - S.stiff Q.contact[k] * normalMove P M (byNode P u) Q.contact[k])
        * (P.theta * normalStress P M Q (byNode P v) Q.contact[k]
          - S.stiff Q.contact[k] * normalMove P M (byNode P v) Q.contact[k])) ?_ ?_ v
  · intro v
    exact (lin_linWork hd _).add (Lin.sum _ (fun k _ => (((lin_normalStress hd _).sub
      ((lin_normalMove hd _).const_mul _)).const_mul _).mul_const _))
  · intro u
    exact (lin_linWork' hd _).add (Lin.sum _ (fun k _ => (((lin_normalStress hd _).const_mul _).sub
      ((lin_normalMove hd _).const_mul _)).const_mul _))

theorem lower_le (hd : 0 < P.dim) (hS : Sound Q S) (m : Fin Q.contact.length → ℝ) (hm : ∀ k, 0 ≤ m k ∧ m k ≤ 1) (v : ℕ → ℝ) :
    ∑ d ∈ range (numDofs P M), ∑ c ∈ range (numDofs P M), v d * lower P M Q S d c * v c
      ≤ ∑ d ∈ range (numDofs P M), ∑ c ∈ range (numDofs P M), v d * (system P M Q S).matOf m d c * v c := by
  rw [lower_quad hd, matOf_quad hd]
  unfold linWork
  rw [quad_fin Q.contact Q.wt (fun k => 1 / S.stiff k * normalStress P M Q (byNode P v) k ^ 2),
    quad_fin Q.contact Q.wt (fun k => -(P.theta / S.stiff k) * normalStress P M Q (byNode P v) k * normalStress P M Q (byNode P v) k),
    mul_sum]
  have h : ∀ k : Fin Q.contact.length, -((1 + P.theta) ^ 2 / 4 * (Q.wt Q.contact[k] * (1 / S.stiff Q.contact[k] * normalStress P M Q (byNode P v) Q.contact[k] ^ 2)))
      ≤ Q.wt Q.contact[k] * (-(P.theta / S.stiff Q.contact[k]) * normalStress P M Q (byNode P v) Q.contact[k] * normalStress P M Q (byNode P v) Q.contact[k])
        + Q.wt Q.contact[k] / S.stiff Q.contact[k] * m k
        * (normalStress P M Q (byNode P v) Q.contact[k] - S.stiff Q.contact[k] * normalMove P M (byNode P v) Q.contact[k])
        * (P.theta * normalStress P M Q (byNode P v) Q.contact[k]
          - S.stiff Q.contact[k] * normalMove P M (byNode P v) Q.contact[k]) := by
    intro k
    obtain ⟨hw, hg⟩ := hS Q.contact[k] (List.getElem_mem _)
    generalize normalStress P M Q (byNode P v) Q.contact[k] = s
    generalize S.stiff Q.contact[k] * normalMove P M (byNode P v) Q.contact[k] = t
    have hc : 0 ≤ Q.wt Q.contact[k] / S.stiff Q.contact[k] := div_nonneg hw hg.le
    have e : Q.wt Q.contact[k] * (-(P.theta / S.stiff Q.contact[k]) * s * s) + Q.wt Q.contact[k] / S.stiff Q.contact[k] * m k * (s - t) * (P.theta * s - t)
        - -((1 + P.theta) ^ 2 / 4 * (Q.wt Q.contact[k] * (1 / S.stiff Q.contact[k] * s ^ 2)))
        = Q.wt Q.contact[k] / S.stiff Q.contact[k] * (m k * ((s - t) + (P.theta - 1) * s / 2) ^ 2
          + (1 - m k) * ((P.theta - 1) * s / 2) ^ 2) := by
      ring
    have : 0 ≤ Q.wt Q.contact[k] / S.stiff Q.contact[k] * (m k * ((s - t) + (P.theta - 1) * s / 2) ^ 2
          + (1 - m k) * ((P.theta - 1) * s / 2) ^ 2) :=
      mul_nonneg hc (add_nonneg (mul_nonneg (hm k).1 (sq_nonneg _)) (mul_nonneg (sub_nonneg.mpr (hm k).2) (sq_nonneg _)))
    linarith
  have h2 := sum_le_sum (fun k (_ : k ∈ (univ : Finset (Fin Q.contact.length))) => h k)
  rw [sum_neg_distrib, sum_add_distrib] at h2
  linarith

end

end Verif.UflDriver
