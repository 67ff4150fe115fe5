import Verif.Props.Driver
import Verif.Props.LoadStep
import Verif.Props.PartitionMatrix
import Verif.Lemmas.NewtonSim
import Verif.Spec.ParallelDriver

/-!
Property C199: a computation in load steps does not depend on the number of processes.
-/

namespace Verif.ContactProblem

open Verif.Spec Verif.Packing Verif.Assembly Verif.Kernels Finset

noncomputable section

variable {G : Type}

theorem gradAt_part {Y Z : System G} {facet : ℕ → ℕ → ℕ} {dof : ℕ → ℕ} (H : PartOf Y Z facet dof) {cell cell' f : ℕ}
    (hj : ∀ r, jacobianAt Y cell r = jacobianAt Z cell' r) (hd : ∀ a < Z.nd, dof (Y.space.parent cell a) = Z.space.parent cell' a)
    (w : ℕ → ℝ) (q : ℕ) {a b : ℕ} (ha : a < Z.gdim) :
    gradAt Y cell f (fun d => w (globalDof Y.gdim dof d)) q a b = gradAt Z cell' f w q a b := by
  obtain ⟨h1, h2, h3, h4, h5⟩ := H.sizes
  obtain ⟨e1, e2, e3, e4, e5, e6, e7, e8, e9⟩ := H.element
  unfold gradAt
  rw [h3, e2, e4, h5, e8, hj]
  refine sum_congr rfl (fun k hk => ?_)
  dsimp only
  rw [globalDof_dof dof _ (by omega), hd k (mem_range.mp hk), h4]

/-- A process packs the gradients of its facets as a single process does. -/
theorem packGrad_part {Y Z : System G} (hY : System.Valid Y) (hZ : System.Valid Z) {facet : ℕ → ℕ → ℕ} {dof : ℕ → ℕ}
    (H : PartOf Y Z facet dof) (w : ℕ → ℝ) :
    SameRows Z.numPairs Y.localFacets facet (Y.packGrad (fun d => w (globalDof Y.gdim dof d))) (Z.packGrad w) := by
  intro i hi e he c hc
  rw [(packGrad_eq hY _ i).2.1] at hc
  obtain ⟨h1, h2, h3, h4, h5⟩ := H.sizes
  obtain ⟨cell, cell', f, hf, hf', hj, hd⟩ := H.own i hi e he
  have hg : 0 < Y.gdim := by
    rcases Nat.eq_zero_or_pos Y.gdim with h | h
    · rw [h] at hc; simp at hc
    · exact h
  obtain ⟨q, a, b, hq, ha, hb, rfl⟩ : ∃ q a b, q < Y.nq ∧ a < Y.gdim ∧ b < Y.gdim ∧ c = (q * Y.gdim + a) * Y.gdim + b := by
    refine ⟨c / Y.gdim / Y.gdim, c / Y.gdim % Y.gdim, c % Y.gdim, ?_, Nat.mod_lt _ hg, Nat.mod_lt _ hg, ?_⟩
    · rw [Nat.div_lt_iff_lt_mul hg, Nat.div_lt_iff_lt_mul hg]
      exact hc
    · rw [Nat.div_add_mod', Nat.div_add_mod']
  rw [packGrad_gradAt hY _ hf hq ha hb, gradAt_part H hj hd w q (h4 ▸ ha), h4,
    packGrad_gradAt hZ _ hf' (h2 ▸ hq) (h4 ▸ ha) (h4 ▸ hb)]

variable {D : Processes G} {Z : System G} {facet : ℕ → ℕ → ℕ → ℕ} {S : Setting G}

/-- The contact problems of the processes and that of a single process have seen the same calls. -/
def SameHistory (D : Processes G) (Z : System G) (facet : ℕ → ℕ → ℕ → ℕ) (S : Setting G) (law : Law) (c : ℕ → State G)
    (c' : State G) : Prop :=
  ∃ (ops : ℕ → List (Op G)) (ops' : List (Op G)), (∀ p < D.num, ∀ op ∈ ops p, OpShaped (D.part p).static op)
    ∧ (∀ op ∈ ops', OpShaped Z.static op)
    ∧ (∀ p < D.num, List.Forall₂ (SameCall Z.numPairs (D.part p).localFacets (facet p)) (ops p) ops')
    ∧ lastLaw ops' none = some law
    ∧ ((Tracked.new (S.place fun _ => 0)).history ops').created = true
    ∧ (∃ u, ((Tracked.new (S.place fun _ => 0)).history ops').cur = S.place u)
    ∧ (∀ p < D.num, c p = history (D.part p).static (ops p) (init (D.part p).static (S.place fun _ => 0)))
    ∧ c' = history Z.static ops' (init Z.static (S.place fun _ => 0))

theorem created_part {ops : List (Op G)} {ops' : List (Op G)} {p : ℕ} (H : PartOf (D.part p) Z (facet p) (D.node p))
    (hops : ∀ op ∈ ops, OpShaped (D.part p).static op)
    (hc : List.Forall₂ (SameCall Z.numPairs (D.part p).localFacets (facet p)) ops ops') (g : G)
    (h : ((Tracked.new g).history ops').created = true) : ((Tracked.new g).history ops).created = true := by
  rw [← H.sizes.1] at hc
  have := SameTracked.history hc (t := Tracked.new g) (t' := Tracked.new g) hops
    ⟨rfl, rfl, rfl, fun _ _ _ _ => rfl, fun _ _ _ _ => rfl, fun _ _ _ _ => rfl, fun _ _ _ _ => rfl, fun _ _ _ _ _ _ => rfl⟩
  exact this.created.trans h

/-- One further call. -/
theorem SameHistory.call {law : Law} {c : ℕ → State G} {c' : State G}
    (h : SameHistory D Z facet S law c c') (op : ℕ → Op G) (op' : Op G)
    (hop : ∀ p < D.num, OpShaped (D.part p).static (op p)) (hop' : OpShaped Z.static op')
    (hs : ∀ p < D.num, SameCall Z.numPairs (D.part p).localFacets (facet p) (op p) op')
    (hlaw : ∀ ops : List (Op G), lastLaw (ops ++ [op']) none = lastLaw ops none)
    (hcr : ∀ t : Tracked G, t.created = true → (t.call op').created = true)
    (hcur : ∀ t : Tracked G, (t.call op').cur = t.cur ∨ ∃ u, (t.call op').cur = S.place u) :
    SameHistory D Z facet S law (fun p => after (ContactProblem.call (D.part p).static (op p) (c p)))
      (after (ContactProblem.call Z.static op' c')) := by
  obtain ⟨ops, ops', h1, h2, h3, h4, h5, ⟨u, h6⟩, h7, h8⟩ := h
  refine ⟨fun p => ops p ++ [op p], ops' ++ [op'], ?_, ?_, ?_, ?_, ?_, ?_, ?_, ?_⟩
  · intro p hp o ho
    rcases List.mem_append.mp ho with ho | ho
    · exact h1 p hp o ho
    · rw [List.mem_singleton.mp ho]
      exact hop p hp
  · intro o ho
    rcases List.mem_append.mp ho with ho | ho
    · exact h2 o ho
    · rw [List.mem_singleton.mp ho]
      exact hop'
  · intro p hp
    exact List.rel_append (h3 p hp) (.cons (hs p hp) .nil)
  · rw [hlaw, h4]
  · rw [tracked_snoc]
    exact hcr _ h5
  · rw [tracked_snoc]
    rcases hcur ((Tracked.new (S.place fun _ => 0)).history ops') with h | h
    · exact ⟨u, h.trans h6⟩
    · exact h
  · intro p hp
    rw [history_snoc, ← h7 p hp]
  · rw [history_snoc, ← h8]

theorem SameHistory.data (H : Distributes D Z facet) (hZ : System.Valid Z) {law : Law} {c : ℕ → State G} {c' : State G}
    (h : SameHistory D Z facet S law c c') (x : ℕ → ℝ) :
    SameHistory D Z facet S law (parCoefficients D x c) (driverCoefficients Z x c') := by
  refine h.call (fun p => .updateData ((D.part p).du (D.seen p x))) (.updateData (Z.du x)) ?_ ?_ ?_ ?_ ?_ ?_
  · exact fun p hp => du_shaped (H.valid p hp) _
  · exact du_shaped hZ _
  · exact fun p hp => .updateData _ _
  · exact fun ops => updates_law (Y := Z) ops [x] none
  · intro t ht
    simp only [Tracked.call]
    split <;> simp_all [Tracked.setDu]
  · intro t
    left
    simp only [Tracked.call]
    split <;> rfl

theorem SameHistory.detect (H : Distributes D Z facet) (hZ : System.Valid Z) {law : Law} {c : ℕ → State G} {c' : State G}
    (h : SameHistory D Z facet S law c c') (u : ℕ → ℝ) :
    SameHistory D Z facet S law
      (fun p => after (updateDetection (D.part p).static (fun _ => S.place u) ((D.part p).packGrad (D.seen p u)) (c p)))
      (after (updateDetection Z.static (fun _ => S.place u) (Z.packGrad u) c')) := by
  refine h.call (fun p => .updateDetection (fun _ => S.place u) ((D.part p).packGrad (D.seen p u)))
    (.updateDetection (fun _ => S.place u) (Z.packGrad u)) ?_ ?_ ?_ ?_ ?_ ?_
  · exact fun p hp => (du_shaped (H.valid p hp) _).grad
  · exact (du_shaped hZ _).grad
  · exact fun p hp => .updateDetection _ _ _ (packGrad_part (H.valid p hp) hZ (H.parts p hp) u)
  · exact fun ops => lastLaw_detection ops _ _ none
  · intro t ht
    simp only [Tracked.call, ht, if_true]
  · intro t
    right
    refine ⟨u, ?_⟩
    simp only [Tracked.call]
    split <;> rfl

theorem SameHistory.ok (H : Distributes D Z facet) (hZ : System.Valid Z) {law : Law} {c : ℕ → State G} {c' : State G}
    (h : SameHistory D Z facet S law c c') (x : ℕ → ℝ) :
    (∃ s, updateContactData Z.static (Z.du x) c' = .ok s)
    ∧ (∃ s, updateDetection Z.static (fun _ => S.place x) (Z.packGrad x) c' = .ok s)
    ∧ ∀ p < D.num, (∃ s, updateContactData (D.part p).static ((D.part p).du (D.seen p x)) (c p) = .ok s)
      ∧ ∃ s, updateDetection (D.part p).static (fun _ => S.place x) ((D.part p).packGrad (D.seen p x)) (c p) = .ok s := by
  obtain ⟨ops, ops', h1, h2, h3, h4, h5, h6, h7, h8⟩ := h
  have key : ∀ {Y : System G} (hY : System.Valid Y) {o : List (Op G)} (ho : ∀ op ∈ o, OpShaped Y.static op)
      (_ : ((Tracked.new (S.place fun _ => 0)).history o).created = true) (y : ℕ → ℝ),
      (∃ s, updateContactData Y.static (Y.du y) (history Y.static o (init Y.static (S.place fun _ => 0))) = .ok s)
      ∧ ∃ s, updateDetection Y.static (fun _ => S.place x) (Y.packGrad y)
        (history Y.static o (init Y.static (S.place fun _ => 0))) = .ok s := by
    intro Y hY o ho hcr y
    have G1 := good_history (static_shaped hY) o ho (good_init Y.static (S.place fun _ => 0))
    obtain ⟨c2, k2, -⟩ := good_updateDetection (static_shaped hY) (fun _ => S.place x) (du_shaped hY y).grad G1 hcr
    obtain ⟨c3, k3, -⟩ := good_updateData (static_shaped hY) (du_shaped hY y) G1 hcr
    exact ⟨⟨c3, k3⟩, ⟨c2, k2⟩⟩
  have k := key hZ h2 h5 x
  rw [← h8] at k
  refine ⟨k.1, k.2, fun p hp => ?_⟩
  have k := key (H.valid p hp) (h1 p hp) (created_part (H.parts p hp) (h1 p hp) (h3 p hp) _ h5) (D.seen p x)
  rw [← h7 p hp] at k
  exact k

theorem SameHistory.vector (H : Distributes D Z facet) (hZ : System.Valid Z) {N : ℕ} (hN : DofsBelow Z N) {law : Law}
    (h23 : law ≠ .frictionless → (Z.gdim = 2 ∨ Z.gdim = 3) ∧ ∀ u, UnitNormals Z (Tracked.new (S.place u)))
    {c : ℕ → State G} {c' : State G} (h : SameHistory D Z facet S law c c') (x : ℕ → ℝ) :
    parVector D (parCoefficients D x c) = contactVector Z (driverCoefficients Z x c')
    ∧ parMatrix D (parCoefficients D x c) = contactMatrix Z (driverCoefficients Z x c') := by
  obtain ⟨ops, ops', h1, h2, h3, h4, h5, ⟨u, h6⟩, h7, h8⟩ := h
  have hc : (history Z.static ops' (init Z.static (S.place fun _ => 0))).coeffs ≠ none := by
    rcases C38_size (static_shaped hZ) _ h2 (S.place fun _ => 0) with ⟨k, -⟩ | ⟨-, cs, k, -⟩
    · rw [h5] at k; cases k
    · rw [k]; simp
  have hidx : ∀ p < D.num, D.index p = globalDof Z.gdim (D.node p) := by
    intro p hp
    funext d
    rw [← (H.parts p hp).sizes.2.2.2.1]
    rfl
  have hseen : ∀ p < D.num, D.seen p x = fun d => x (globalDof Z.gdim (D.node p) d) := by
    intro p hp
    unfold Processes.seen
    rw [hidx p hp]
  have hdofs : ∀ M, DofsBelow Z (N + M) := by
    intro M
    obtain ⟨k1, k2⟩ := hN
    exact ⟨fun i hi e he k hk => (k1 i hi e he k hk).trans (by omega), fun n hn k hk => (k2 n hn k hk).trans (by omega)⟩
  constructor
  · funext I
    obtain ⟨b, b', g1, ⟨s', g2, g3⟩, g4⟩ := C130_vector D.num D.part Z facet D.node H.valid hZ H.parts H.owned (S.place fun _ => 0)
      ops ops' h1 h2 h3 law h4 (fun hl => (h23 hl).1) hc D.numLocal H.dofs (N + (I + 1)) (hdofs _) x
    have e1 : driverCoefficients Z x c' = s' := by
      unfold driverCoefficients
      rw [h8, g2]
      rfl
    have e2 : contactVector Z s' = b' := by
      unfold contactVector
      rw [g3]
    rw [e1, e2, g4 I (by omega)]
    unfold parVector
    refine sum_congr rfl (fun p hp => ?_)
    have hp' := mem_range.mp hp
    obtain ⟨s2, g5, g6⟩ := g1 p hp'
    have e3 : parCoefficients D x c p = s2 := by
      unfold parCoefficients driverCoefficients
      rw [h7 p hp', hseen p hp', g5]
      rfl
    have e4 : contactVector (D.part p) s2 = b p := by
      unfold contactVector
      rw [g6]
    rw [e3, e4, hidx p hp']
  · funext IJ
    obtain ⟨I, J⟩ := IJ
    obtain ⟨b, b', g1, ⟨s', g2, g3⟩, g4⟩ := C132_matrix D.num D.part Z facet D.node H.valid hZ H.parts H.owned (S.place fun _ => 0)
      ops ops' h1 h2 h3 law h4 (fun hl => ⟨(h23 hl).1, fun i hi e he q hq hm => by
        rw [h6] at hm ⊢
        exact (h23 hl).2 u i hi e he q hq hm⟩) hc D.numLocal H.dofs (N + (I + J + 1)) (hdofs _) x
    have e1 : driverCoefficients Z x c' = s' := by
      unfold driverCoefficients
      rw [h8, g2]
      rfl
    have e2 : contactMatrix Z s' = b' := by
      unfold contactMatrix
      rw [g3]
    rw [e1, e2, g4 I (by omega) J (by omega)]
    unfold parMatrix
    refine sum_congr rfl (fun p hp => ?_)
    have hp' := mem_range.mp hp
    obtain ⟨s2, g5, g6⟩ := g1 p hp'
    have e3 : parCoefficients D x c p = s2 := by
      unfold parCoefficients driverCoefficients
      rw [h7 p hp', hseen p hp', g5]
      rfl
    have e4 : contactMatrix (D.part p) s2 = b p := by
      unfold contactMatrix
      rw [g6]
    rw [e3, e4, hidx p hp']

theorem agree (H : Distributes D Z facet) (hZ : System.Valid Z) {N : ℕ} (hN : DofsBelow Z N) {law : Law}
    (h23 : law ≠ .frictionless → (Z.gdim = 2 ∨ Z.gdim = 3) ∧ ∀ u, UnitNormals Z (Tracked.new (S.place u)))
    (L : LoadCase) (u : ℕ → ℝ) :
    Newton.Agree (parProblem D S L u) (driverProblem Z S L u) (SameHistory D Z facet S law) where
  pre := ⟨rfl, rfl⟩
  post := ⟨rfl, rfl⟩
  lin := rfl
  norms := ⟨rfl, rfl⟩
  coef := fun x _ _ h => h.data H hZ x
  res := fun x c c' h => by
    show parResidual D S L u x (parCoefficients D x c) = driverResidual Z S L u x (driverCoefficients Z x c')
    unfold parResidual driverResidual
    rw [(h.vector H hZ hN h23 x).1]
  jac := fun x c c' h => by
    show parJacobian D L u x (parCoefficients D x c) = driverJacobian Z L u x (driverCoefficients Z x c')
    unfold parJacobian driverJacobian
    rw [(h.vector H hZ hN h23 x).2]

theorem firstRaised_none {A : Type} {n : ℕ} {r : ℕ → Except (Err × A) A} (h : ∀ p < n, ∃ s, r p = .ok s) :
    firstRaised n r = none := by
  unfold firstRaised
  rw [List.findSome?_eq_none_iff]
  intro p hp
  obtain ⟨s, hs⟩ := h p (List.mem_range.mp hp)
  rw [hs]

/-- The runs before a load step. -/
structure SameRun (D : Processes G) (Z : System G) (facet : ℕ → ℕ → ℕ → ℕ) (S : Setting G) (law : Law) (r : ParRun G) (r' : Run G) :
    Prop where
  u : r.u = r'.u
  solver : Newton.SameBut r.solver r'.solver
  hist : SameHistory D Z facet S law r.solver.coeffs r'.solver.coeffs

theorem loadStep_same (H : Distributes D Z facet) (hZ : System.Valid Z) {N : ℕ} (hN : DofsBelow Z N) {law : Law}
    (h23 : law ≠ .frictionless → (Z.gdim = 2 ∨ Z.gdim = 3) ∧ ∀ u, UnitNormals Z (Tracked.new (S.place u)))
    (rank0 rank0' : Bool) (L : LoadCase) {r : ParRun G} {r' : Run G} (h : SameRun D Z facet S law r r') :
    (∃ e, parLoadStep D S rank0 L r = .error e ∧ loadStep Z S rank0' L r' = .error e)
    ∨ ∃ R t t', parLoadStep D S rank0 L r = .ok (R, t) ∧ loadStep Z S rank0' L r' = .ok (R, t')
      ∧ SameRun D Z facet S law t t' := by
  obtain ⟨e, hk⟩ := Newton.sim_solve (agree H hZ hN h23 L r.u) rank0 rank0' h.solver h.hist
  unfold parLoadStep loadStep
  rw [← h.u]
  generalize Newton.solve (parProblem D S L r.u) rank0 .function r.solver = o at e hk ⊢
  generalize Newton.solve (driverProblem Z S L r.u) rank0' .function r'.solver = o' at e hk ⊢
  obtain ⟨s, res⟩ := o
  obtain ⟨s', res'⟩ := o'
  dsimp only at e hk
  subst e
  cases res with
  | error e => exact Or.inl ⟨_, rfl, rfl⟩
  | ok y =>
    obtain ⟨n, conv⟩ := y
    have hs := hk ⟨_, rfl⟩
    have hh := hs.rel (agree H hZ hN h23 L r.u)
    right
    dsimp only
    have hx := hs.same.x
    obtain ⟨x, hxs⟩ : ∃ x, x = s.x := ⟨_, rfl⟩
    rw [← hx, ← hxs]
    obtain ⟨u', hu'⟩ : ∃ u' : ℕ → ℝ, u' = fun d => r.u d + x d := ⟨_, rfl⟩
    obtain ⟨y, hy⟩ : ∃ y : ℕ → ℝ, y = fun d => 0.1 * x d := ⟨_, rfl⟩
    rw [← hu', ← hy]
    have hd := hh.detect H hZ u'
    obtain ⟨-, ⟨c1, k1⟩, k2⟩ := hh.ok H hZ u'
    rw [k1, firstRaised_none (fun p hp => (k2 p hp).2)]
    rw [k1] at hd
    dsimp only
    obtain ⟨⟨c2, k3⟩, -, k4⟩ := hd.ok H hZ y
    have hd2 := hd.data H hZ y
    have e1 : (after (.ok c1) : State G) = c1 := rfl
    rw [e1] at k3 hd2
    rw [k3, firstRaised_none (fun p hp => (k4 p hp).1)]
    refine ⟨_, _, _, rfl, rfl, ⟨rfl, ?_, ?_⟩⟩
    · exact ⟨hs.same.opts, hs.same.iteration, hs.same.krylov, hs.same.initialResidual, hs.same.lastResidual, hs.same.relax, hs.same.dx,
        rfl, hs.same.b, hs.same.set⟩
    · have e2 : driverCoefficients Z y c1 = c2 := by
        unfold driverCoefficients
        rw [k3]
        rfl
      rw [e2] at hd2
      exact hd2

/-- C199: a computation in load steps does not depend on the number of processes.  Let the processes of `D`
hold the contact problem `Z`, and generate the contact data with the material and friction parameters and
facet sizes of their own facets.  Then for all loads, forms, boundary conditions and linear solvers, for
every number of load steps and all options of the Newton solver, the run of the processes reports what the run
of a single process reports: the iterations, whether each step converged, the displacement and the increment
of each step, and the exception, if any.  With friction in two or three dimensions, with unit normals. -/
theorem C199_reports (D : Processes G) (Z : System G) (facet : ℕ → ℕ → ℕ → ℕ) (H : Distributes D Z facet) (hZ : System.Valid Z)
    (S : Setting G) (hN : DofsBelow Z S.numDofs) (law : Law)
    (h23 : law ≠ .frictionless → (Z.gdim = 2 ∨ Z.gdim = 3) ∧ ∀ u, UnitNormals Z (Tracked.new (S.place u)))
    (gamma theta : ℝ) (mu lam fric h : ℕ → ℕ → Mat) (mu' lam' fric' h' : ℕ → Mat)
    (hrows : ∀ p < D.num, SameRows Z.numPairs (D.part p).localFacets (facet p) (mu p) mu'
      ∧ SameRows Z.numPairs (D.part p).localFacets (facet p) (lam p) lam'
      ∧ SameRows Z.numPairs (D.part p).localFacets (facet p) (fric p) fric'
      ∧ SameRows Z.numPairs (D.part p).localFacets (facet p) (h p) h')
    (a : ℕ → GenArgs G) (a' : GenArgs G)
    (ha : ∀ p < D.num, a p = ⟨law, some (mu p), some (lam p), some (fric p), some ((D.part p).packGrad fun _ => 0),
      some ((D.part p).du fun _ => 0), h p, gamma, theta⟩)
    (ha' : a' = ⟨law, some mu', some lam', some fric', some (Z.packGrad fun _ => 0), some (Z.du fun _ => 0), h', gamma, theta⟩)
    (hshape : ∀ p < D.num, OpShaped (D.part p).static (.generate (a p))) (hshape' : OpShaped Z.static (.generate a'))
    (opts : Newton.Opts) (rank0 rank0' : Bool) (Ls : List LoadCase) :
    parLoadSteps D S rank0 Ls (parStartRun D S a opts) = loadSteps Z S rank0' Ls (startRun Z S a' opts) := by
  have start : SameRun D Z facet S law (parStartRun D S a opts) (startRun Z S a' opts) := by
    refine ⟨rfl, ⟨rfl, rfl, rfl, rfl, rfl, rfl, rfl, rfl, rfl, by simp [parStartRun]⟩, ?_⟩
    refine ⟨fun p => [.generate (a p)], [.generate a'], ?_, ?_, ?_, by rw [ha']; rfl, ?_, ⟨fun _ => 0, ?_⟩, fun p _ => rfl, rfl⟩
    · intro p hp op hop
      rw [List.mem_singleton.mp hop]
      exact hshape p hp
    · intro op hop
      rw [List.mem_singleton.mp hop]
      exact hshape'
    · intro p hp
      refine .cons ?_ .nil
      obtain ⟨r1, r2, r3, r4⟩ := hrows p hp
      rw [ha p hp, ha']
      have hg := packGrad_part (H.valid p hp) hZ (H.parts p hp) (fun _ => 0)
      exact .generate _ _ rfl rfl rfl (.some r1) (.some r2) (.some r3) (.some hg) r4
    · rw [ha']
      rfl
    · rw [ha']
      rfl
  generalize parStartRun D S a opts = r at start
  generalize startRun Z S a' opts = r' at start
  induction Ls generalizing r r' with
  | nil => rfl
  | cons L Ls ih =>
    rcases loadStep_same H hZ hN h23 rank0 rank0' L start with ⟨e, e1, e2⟩ | ⟨R, t, t', e1, e2, ht⟩
    · simp only [parLoadSteps, loadSteps, e1, e2]
    · simp only [parLoadSteps, loadSteps, e1, e2]
      rw [ih t t' ht]

/-! ### an example -/

/-- Two processes, each with one facet; the dofs of the opposite cell are known to both. -/
def exProcesses : Processes Unit := ⟨2, fun _ => exY, fun _ => 4, fun p d => if d = 0 then p else 2⟩

/-- A computation which starts with these arguments: Coulomb friction. -/
def exGen (Y : System Unit) (n : ℕ) : GenArgs Unit :=
  ⟨.coulomb, some (fun _ => ⟨n, 1, fun _ _ => 3⟩), some (fun _ => ⟨n, 1, fun _ _ => 5⟩),
    some (fun _ => ⟨n, 1, fun _ _ => 1⟩), some (Y.packGrad fun _ => 0), some (Y.du fun _ => 0), fun _ => ⟨n, 1, fun _ _ => 1⟩, 1, 1⟩

theorem exGen_shaped {Y : System Unit} (hY : System.Valid Y) {n : ℕ} (hn : ∀ i, (Y.facets i).length = n) :
    OpShaped Y.static (.generate (exGen Y n)) := by
  refine ⟨?_, ?_, ?_, ?_, fun m hm => ?_, fun m hm => ?_⟩
  · simp [exGen, ScalarShaped, System.static, hn]
  · simp [exGen, ScalarShaped, System.static, hn]
  · simp [exGen, ScalarShaped, System.static, hn]
  · simp [exGen, ScalarShaped, System.static, hn]
  · obtain rfl := Option.some.inj hm
    exact (du_shaped hY _).grad
  · obtain rfl := Option.some.inj hm
    exact du_shaped hY _

/-- The hypotheses of C199 hold for two processes and Coulomb friction, for all loads and linear solvers. -/
example (lin : (ℕ × ℕ → ℝ) → (ℕ → ℝ) → (ℕ → ℝ) → (ℕ → ℝ) × ℕ × ℤ) (opts : Newton.Opts) (Ls : List LoadCase) :
    parLoadSteps exProcesses ⟨6, lin, fun _ => ()⟩ true Ls (parStartRun exProcesses ⟨6, lin, fun _ => ()⟩ (fun _ => exGen exY 1) opts)
      = loadSteps exZ ⟨6, lin, fun _ => ()⟩ true Ls (startRun exZ ⟨6, lin, fun _ => ()⟩ (exGen exZ 2) opts) := by
  obtain ⟨h1, h2, h3, h4, h5, h6, h7, h8, h9, h10, h11, h12⟩ := exZ_parts
  refine C199_reports exProcesses exZ (fun p _ _ => p) ⟨fun _ _ => h1, h3, h4, fun _ _ => h11⟩ h2 _ h12 .coulomb
    (fun _ => ⟨Or.inl h9, ?_⟩) 1 1 _ _ _ _ _ _ _ _ ?_ _ _ (fun _ _ => rfl) rfl (fun _ _ => exGen_shaped h1 (fun _ => rfl))
    (exGen_shaped h2 (fun _ => rfl)) opts true true Ls
  · intro u i _ e _ q hq _
    have hq0 : q = 0 := Nat.lt_one_iff.mp hq
    subst hq0
    simp [exZ, exY, contactNormalAt]
  · intro p _
    refine ⟨?_, ?_, ?_, ?_⟩ <;> intro i _ e _ c _ <;> rfl

end

end Verif.ContactProblem
