import Verif.Model.Matrix
import Verif.Spec.Sparsity
import Verif.Props.LoadStep
import Verif.Props.TieSystem

/-!
Property C142: `assemble_matrix` stays inside the matrix that `create_matrix` made after the last contact
detection.
-/

namespace Verif.Assembly

open Verif.Entities

noncomputable section

/-! ### assembly into a matrix with a pattern -/

theorem addInside_some {pattern : List (ℕ × ℕ)} {bs : ℕ} {rows cols : List ℕ} (vals : ℕ → ℝ) (A : Arr (ℕ × ℕ))
    (h : ∀ r ∈ rows, ∀ c ∈ cols, (r, c) ∈ pattern) :
    addInside pattern bs rows cols vals (some A) = some (addValues bs rows cols vals A) := if_pos h

theorem addInside_missing {pattern : List (ℕ × ℕ)} {bs : ℕ} {rows cols : List ℕ} (vals : ℕ → ℝ)
    (A : Option (Arr (ℕ × ℕ))) {r c : ℕ} (hr : r ∈ rows) (hc : c ∈ cols) (h : (r, c) ∉ pattern) :
    addInside pattern bs rows cols vals A = none := by
  cases A with
  | none => rfl
  | some A => exact if_neg (fun k => h (k r hr c hc))

/-- The blocks facet `i` needs are in the pattern. -/
def Fits (P : Pair) (pattern : List (ℕ × ℕ)) (i : ℕ) : Prop :=
  (∀ r ∈ cellDofs P (P.facets i).1, ∀ c ∈ cellDofs P (P.facets i).1, (r, c) ∈ pattern)
  ∧ ∀ l ∈ links P i, (∀ r ∈ cellDofs P (P.facets i).1, ∀ c ∈ cellDofs P l, (r, c) ∈ pattern)
    ∧ (∀ r ∈ cellDofs P l, ∀ c ∈ cellDofs P (P.facets i).1, (r, c) ∈ pattern)
    ∧ ∀ r ∈ cellDofs P l, ∀ c ∈ cellDofs P l, (r, c) ∈ pattern

theorem getD_mem {l : List ℕ} {j : ℕ} (hj : j < l.length) : l.getD j 0 ∈ l := by
  rw [List.getD_eq_getElem _ _ hj]; exact List.getElem_mem hj

theorem facet_inside {P : Pair} {pattern : List (ℕ × ℕ)} {i : ℕ} (h : Fits P pattern i) (kernel : Kern)
    (coeffs : ℕ → ℝ) (cstride : ℕ) (z : Arr (ℕ × ℕ)) (A : Arr (ℕ × ℕ)) :
    matrixFacet (addInside pattern P.bs) P kernel coeffs cstride i (z, some A)
      = ((matrixFacet (addValues P.bs) P kernel coeffs cstride i (z, A)).1,
        some (matrixFacet (addValues P.bs) P kernel coeffs cstride i (z, A)).2) := by
  unfold matrixFacet
  dsimp only
  generalize kernel _ _ _ _ _ _ = Ae
  congr 1
  rw [addInside_some _ _ h.1]
  generalize addValues P.bs _ _ _ A = A0
  have : ∀ n ≤ (links P i).length,
      loop n (fun j A =>
        addInside pattern P.bs (cellDofs P ((links P i).getD j 0)) (cellDofs P ((links P i).getD j 0))
          (fun p => Ae (3 * j + 3, p))
          (addInside pattern P.bs (cellDofs P ((links P i).getD j 0)) (cellDofs P (P.facets i).1)
            (fun p => Ae (3 * j + 2, p))
            (addInside pattern P.bs (cellDofs P (P.facets i).1) (cellDofs P ((links P i).getD j 0))
              (fun p => Ae (3 * j + 1, p)) A))) (some A0)
        = some (loop n (fun j A =>
          addValues P.bs (cellDofs P ((links P i).getD j 0)) (cellDofs P ((links P i).getD j 0))
            (fun p => Ae (3 * j + 3, p))
            (addValues P.bs (cellDofs P ((links P i).getD j 0)) (cellDofs P (P.facets i).1)
              (fun p => Ae (3 * j + 2, p))
              (addValues P.bs (cellDofs P (P.facets i).1) (cellDofs P ((links P i).getD j 0))
                (fun p => Ae (3 * j + 1, p)) A))) A0) := by
    intro n hn
    induction n with
    | zero => rfl
    | succ n ih =>
      rw [loop_succ, loop_succ, ih (by omega)]
      obtain ⟨k1, k2, k3⟩ := h.2 _ (getD_mem (show n < (links P i).length by omega))
      rw [addInside_some _ _ k1, addInside_some _ _ k2, addInside_some _ _ k3]
  exact this _ le_rfl

theorem facet_none (P : Pair) (pattern : List (ℕ × ℕ)) (i : ℕ) (kernel : Kern) (coeffs : ℕ → ℝ) (cstride : ℕ)
    (z : Arr (ℕ × ℕ)) : (matrixFacet (addInside pattern P.bs) P kernel coeffs cstride i (z, none)).2 = none := by
  unfold matrixFacet
  dsimp only
  refine loop_induct (fun _ A => A = none) _ _ _ rfl ?_
  rintro j A - rfl
  rfl

theorem facet_missing {P : Pair} {pattern : List (ℕ × ℕ)} {i l : ℕ} (hl : l ∈ links P i) {r c : ℕ}
    (hr : r ∈ cellDofs P (P.facets i).1) (hc : c ∈ cellDofs P l) (h : (r, c) ∉ pattern) (kernel : Kern)
    (coeffs : ℕ → ℝ) (cstride : ℕ) (s : Arr (ℕ × ℕ) × Option (Arr (ℕ × ℕ))) :
    (matrixFacet (addInside pattern P.bs) P kernel coeffs cstride i s).2 = none := by
  unfold matrixFacet
  dsimp only
  obtain ⟨n, hn, rfl⟩ := List.getElem_of_mem hl
  refine (loop_induct (fun k A => n < k → A = none) _ _ _ (fun h => absurd h (by omega)) ?_) hn
  intro j A hj ih hk
  by_cases e : n = j
  · subst e
    have : (links P i).getD n 0 = (links P i)[n] := List.getD_eq_getElem _ _ hn
    rw [this, addInside_missing (cols := cellDofs P (links P i)[n]) _ A hr hc h]
    rfl
  · rw [ih (by omega)]
    rfl

theorem matrix_inside {P : Pair} {pattern : List (ℕ × ℕ)} (h : ∀ i < P.numLocal, Fits P pattern i) (kernel : Kern)
    (coeffs : ℕ → ℝ) (cstride : ℕ) (A : Arr (ℕ × ℕ)) :
    assembleMatrix (addInside pattern P.bs) P kernel coeffs cstride (some A)
      = (assembleMatrix (addValues P.bs) P kernel coeffs cstride A).map some := by
  unfold assembleMatrix
  split
  · rfl
  · show Except.ok _ = Except.ok _
    have : ∀ n ≤ P.numLocal, loop n (matrixFacet (addInside pattern P.bs) P kernel coeffs cstride) (fun _ => 0, some A)
        = ((loop n (matrixFacet (addValues P.bs) P kernel coeffs cstride) (fun _ => 0, A)).1,
          some (loop n (matrixFacet (addValues P.bs) P kernel coeffs cstride) (fun _ => 0, A)).2) := by
      intro n hn
      induction n with
      | zero => rfl
      | succ n ih => rw [loop_succ, loop_succ, ih (by omega), facet_inside (h n (by omega))]
    rw [this _ le_rfl]

theorem matrix_none (P : Pair) (pattern : List (ℕ × ℕ)) (ht : P.transforms = false) (kernel : Kern) (coeffs : ℕ → ℝ)
    (cstride : ℕ) : assembleMatrix (addInside pattern P.bs) P kernel coeffs cstride none = .ok none := by
  rw [assembleMatrix, if_neg (by simp [ht])]
  congr 1
  refine loop_induct (fun _ (s : Arr (ℕ × ℕ) × Option (Arr (ℕ × ℕ))) => s.2 = none) _ _ _ rfl ?_
  rintro i ⟨z, A⟩ - (rfl : A = none)
  exact facet_none P pattern i kernel coeffs cstride z

theorem matrix_missing {P : Pair} {pattern : List (ℕ × ℕ)} (ht : P.transforms = false) {i l : ℕ} (hi : i < P.numLocal)
    (hl : l ∈ links P i) {r c : ℕ} (hr : r ∈ cellDofs P (P.facets i).1) (hc : c ∈ cellDofs P l)
    (h : (r, c) ∉ pattern) (kernel : Kern) (coeffs : ℕ → ℝ) (cstride : ℕ) (A : Option (Arr (ℕ × ℕ))) :
    assembleMatrix (addInside pattern P.bs) P kernel coeffs cstride A = .ok none := by
  rw [assembleMatrix, if_neg (by simp [ht])]
  congr 1
  refine (loop_induct (fun k (s : Arr (ℕ × ℕ) × Option (Arr (ℕ × ℕ))) => i < k → s.2 = none) _ _ _
    (fun h => absurd h (by omega)) ?_) hi
  rintro j ⟨z, A⟩ - ih hk
  by_cases e : i = j
  · subst e
    exact facet_missing hl hr hc h kernel coeffs cstride _
  · obtain rfl : A = none := ih (by omega)
    exact facet_none P pattern j kernel coeffs cstride z

theorem foldlM_map {α β γ : Type} {f : β → α → Except Err β} {f' : γ → α → Except Err γ} {k : γ → β} (l : List α)
    (h : ∀ a ∈ l, ∀ A, f (k A) a = (f' A a).map k) (A : γ) : l.foldlM f (k A) = (l.foldlM f' A).map k := by
  induction l generalizing A with
  | nil => rfl
  | cons a l ih =>
    rw [List.foldlM_cons, List.foldlM_cons, h a (List.mem_cons_self ..)]
    cases f' A a with
    | error e => rfl
    | ok B => exact ih (fun b hb => h b (List.mem_cons_of_mem _ hb)) B

theorem foldlM_const {α β : Type} {f : β → α → Except Err β} {x : β} (l : List α)
    (h : ∀ a ∈ l, f x a = .ok x) : l.foldlM f x = .ok x := by
  induction l with
  | nil => rfl
  | cons a l ih =>
    rw [List.foldlM_cons, h a (List.mem_cons_self ..)]
    exact ih (fun b hb => h b (List.mem_cons_of_mem _ hb))

theorem foldlM_total {α β : Type} {f : β → α → Except Err β} (l : List α) (h : ∀ a ∈ l, ∀ x, ∃ y, f x a = .ok y) (x : β) :
    ∃ y, l.foldlM f x = .ok y := by
  induction l generalizing x with
  | nil => exact ⟨x, rfl⟩
  | cons a l ih =>
    obtain ⟨y, hy⟩ := h a (List.mem_cons_self ..) x
    rw [List.foldlM_cons, hy]
    exact ih (fun b hb => h b (List.mem_cons_of_mem _ hb)) y

theorem foldlM_absorb {α β : Type} {f : Option β → α → Except Err (Option β)} (l : List α)
    (hok : ∀ a ∈ l, ∀ x, ∃ y, f x a = .ok y) (hnone : ∀ a ∈ l, f none a = .ok none) {a : α} (ha : a ∈ l)
    (hit : ∀ x, f x a = .ok none) (x : Option β) : l.foldlM f x = .ok none := by
  induction l generalizing x with
  | nil => exact absurd ha (by simp)
  | cons b l ih =>
    have hl := foldlM_const l (fun c hc => hnone c (List.mem_cons_of_mem _ hc))
    rcases List.mem_cons.mp ha with rfl | h
    · rw [List.foldlM_cons, hit]
      exact hl
    · obtain ⟨y, hy⟩ := hok b (List.mem_cons_self ..) x
      rw [List.foldlM_cons, hy]
      exact ih (fun c hc => hok c (List.mem_cons_of_mem _ hc)) (fun c hc => hnone c (List.mem_cons_of_mem _ hc)) h y

end

end Verif.Assembly

namespace Verif.ContactProblem

open Verif.Spec Verif.Packing Verif.Assembly Verif.Entities

noncomputable section

variable {G : Type} {Y : System G}

theorem cur_keeps (t : Tracked G) (more : List (Op G)) (h : ∀ op ∈ more, ∀ move m, op ≠ .updateDetection move m) :
    (t.history more).cur = t.cur := by
  induction more generalizing t with
  | nil => rfl
  | cons o more ih =>
    refine (ih (t.call o) (fun op hop => h op (List.mem_cons_of_mem _ hop))).trans ?_
    have ho := h o (List.mem_cons_self ..)
    cases o with
    | generate a =>
      unfold Tracked.call
      dsimp only
      split
      · cases a.du <;> rfl
      · rfl
    | updateData du =>
      unfold Tracked.call
      dsimp only
      split <;> rfl
    | updateDetection move m => exact absurd rfl (ho move m)
    | updateNitsche gamma theta => rfl

/-- The contact map of an object in terms of the geometry of the last detection. -/
theorem map_history (hY : System.Valid Y) (ops : List (Op G)) (hops : ∀ op ∈ ops, OpShaped Y.static op) (g : G) {i : ℕ}
    (hi : i < Y.numPairs) (e : ℕ) :
    (Y.assemblyPair (history Y.static ops (init Y.static g)) i).map e
      = (Y.pair ((Tracked.new g).history ops).cur i).row e := by
  have H := good_history (static_shaped hY) ops hops (good_init Y.static g)
  rw [assemblyPair_eq H hi, H.geom]

theorem fits (hY : System.Valid Y) (form : List (ℕ × ℕ)) (hform : FormPattern Y form) {s s' : State G}
    (hsame : ∀ i < Y.numPairs, ∀ e, (Y.assemblyPair s' i).map e = (Y.assemblyPair s i).map e) {i : ℕ}
    (hi : i < Y.numPairs) {e : ℕ} (he : e < Y.localFacets i) :
    Fits (Y.assemblyPair s' i) (Y.createMatrix s form) e := by
  have hmem : Y.assemblyPair s i ∈ (List.range Y.numPairs).map (Y.assemblyPair s) :=
    List.mem_map.mpr ⟨i, List.mem_range.mpr hi, rfl⟩
  have hfac : (Y.facets i).getD e (0, 0) ∈ Y.facets i := by
    have : e < (Y.facets i).length := lt_of_lt_of_le he (hY.loc i hi)
    rw [List.getD_eq_getElem _ _ this]; exact List.getElem_mem this
  have hcell : ∀ l ∈ links (Y.assemblyPair s' i) e, ∃ f : ℕ, (f : ℤ) ∈ (Y.assemblyPair s i).map e
      ∧ Y.subCell f < Y.space.numCells ∧ Y.space.parentCell (Y.subCell f) = l := by
    intro l hl
    have hl' : l ∈ linkedCells Y.subCell Y.space.parentCell ((Y.assemblyPair s' i).map e) := by
      unfold links at hl
      split at hl
      · exact hl
      · simp at hl
    obtain ⟨f, hf, k⟩ := ((isLinkedCells (Y.assemblyPair s' i) e).2 l).mp hl'
    have hrow : ((f : ℕ) : ℤ) ∈ (Y.pair (s'.detected i) i).row e := hf
    rw [hsame i hi] at hf
    refine ⟨f, hf, ?_, k⟩
    unfold PairData.row at hrow
    obtain ⟨q, -, hq⟩ := List.mem_map.mp hrow
    exact hY.cells _ _ _ f hq
  have hdof : ∀ c d, d ∈ cellDofs (Y.assemblyPair s' i) c ↔ ∃ a < Y.nd, Y.space.parent c a = d := by
    intro c d
    unfold cellDofs
    rw [List.mem_map]
    simp only [List.mem_range]
    rfl
  refine ⟨fun r hr c hc => ?_, fun l hl => ?_⟩
  · obtain ⟨a, ha, rfl⟩ := (hdof _ _).mp hr
    obtain ⟨b, hb, rfl⟩ := (hdof _ _).mp hc
    unfold System.createMatrix
    rw [mem_createPattern]
    exact Or.inl (hform.1 i hi _ hfac a ha b hb)
  · obtain ⟨f, hf, hlt, rfl⟩ := hcell l hl
    unfold System.createMatrix
    refine ⟨fun r hr c hc => ?_, fun r hr c hc => ?_, fun r hr c hc => ?_⟩ <;> rw [mem_createPattern]
    · exact Or.inr ⟨_, hmem, e, he, Or.inl ⟨hr, (mem_linkedDofs _ _ _).mpr ⟨f, hf, hc⟩⟩⟩
    · exact Or.inr ⟨_, hmem, e, he, Or.inr ⟨(mem_linkedDofs _ _ _).mpr ⟨f, hf, hr⟩, hc⟩⟩
    · obtain ⟨a, ha, rfl⟩ := (hdof _ _).mp hr
      obtain ⟨b, hb, rfl⟩ := (hdof _ _).mp hc
      exact Or.inl (hform.2 _ hlt a ha b hb)

/-- C142: a matrix created by `create_matrix` has room for everything `assemble_matrix` adds, until contact is
detected again: the contact terms are added without error, whatever other calls were made in between. -/
theorem C142_contact (hY : System.Valid Y) (ops : List (Op G)) (hops : ∀ op ∈ ops, OpShaped Y.static op)
    (more : List (Op G)) (hmore : ∀ op ∈ more, OpShaped Y.static op)
    (hkeep : ∀ op ∈ more, ∀ move m, op ≠ .updateDetection move m) (g : G)
    (form : List (ℕ × ℕ)) (hform : FormPattern Y form)
    (s s' : State G) (hs : s = history Y.static ops (init Y.static g))
    (hs' : s' = history Y.static (ops ++ more) (init Y.static g)) (A : Arr (ℕ × ℕ)) :
    Y.assembleInto (Y.createMatrix s form) s' (some A) = (Y.assembleMatrix s' A).map some := by
  have hsame : ∀ i < Y.numPairs, ∀ e, (Y.assemblyPair s' i).map e = (Y.assemblyPair s i).map e := by
    intro i hi e
    rw [hs, hs', map_history hY _ hops g hi, map_history hY _ (by
      intro op hop
      rcases List.mem_append.mp hop with h | h
      · exact hops op h
      · exact hmore op h) g hi]
    have : ((Tracked.new g).history (ops ++ more)).cur = ((Tracked.new g).history ops).cur := by
      unfold Tracked.history
      rw [List.foldl_append]
      exact cur_keeps _ _ hkeep
    rw [this]
  unfold System.assembleInto System.assembleMatrix
  cases s'.coeffs with
  | none => rfl
  | some cs =>
    dsimp only
    unfold problemMatrix
    rw [List.length_map, List.length_range]
    refine foldlM_map (k := some) _ (fun i hi A => ?_) A
    have hi' := List.mem_range.mp hi
    have e0 : ((List.range Y.numPairs).map (Y.assemblyPair s'))[i]? = some (Y.assemblyPair s' i) := by
      simp [List.getElem?_range hi']
    refine foldlM_map (k := some) _ (fun kernel _ A => ?_) A
    rw [e0]
    exact matrix_inside (P := Y.assemblyPair s' i) (fun e he => fits hY form hform hsame hi' he) kernel _ _ A

/-- C142: after a new detection the old matrix will not do.  If a facet is now linked to a cell and the old pattern
lacks one of their couplings, `assemble_matrix` fails, for every friction law. -/
theorem C142_stale (hY : System.Valid Y) (ops : List (Op G)) (hops : ∀ op ∈ ops, OpShaped Y.static op) (g : G)
    (law : Law) (hlaw : lastLaw ops none = some law) (pattern : List (ℕ × ℕ)) {i e q f a b : ℕ} {x : ℕ × ℕ}
    (hi : i < Y.numPairs) (he : e < Y.localFacets i) (hq : q < Y.nq) (hx : (Y.facets i)[e]? = some x)
    (hf : Y.map ((Tracked.new g).history ops).cur i (e * Y.nq + q) = f) (ha : a < Y.nd) (hb : b < Y.nd)
    (hmiss : (Y.space.parent x.1 a, Y.space.parent (Y.space.parentCell (Y.subCell f)) b) ∉ pattern)
    (s : State G) (hs : s = history Y.static ops (init Y.static g)) (hc : s.coeffs ≠ none) (A : Option (Arr (ℕ × ℕ))) :
    Y.assembleInto pattern s A = .ok none := by
  have H := good_history (static_shaped hY) ops hops (good_init Y.static g)
  have hk := (kernels_of_history hY ops hops g law hlaw).1
  rw [← hs] at H hk
  have hmap : (Y.assemblyPair s i).map e = (Y.pair ((Tracked.new g).history ops).cur i).row e := by
    rw [hs]; exact map_history hY ops hops g hi e
  have hl : Y.space.parentCell (Y.subCell f) ∈ links (Y.assemblyPair s i) e := by
    unfold links
    have : (Y.assemblyPair s i).maxLinks = Y.nq := maxLinks_eq (show 0 < Y.static.numPairs from hY.pairs) H.ml
    rw [if_pos (by rw [this]; exact hY.points)]
    refine ((isLinkedCells (Y.assemblyPair s i) e).2 _).mpr ⟨f, ?_, rfl⟩
    rw [hmap]
    exact List.mem_map.mpr ⟨q, List.mem_range.mpr hq, hf⟩
  have hfac : ((Y.assemblyPair s i).facets e) = x := by
    show (Y.facets i).getD e (0, 0) = x
    rw [List.getD_eq_getElem?_getD, hx]
    rfl
  unfold System.assembleInto
  cases hcs : s.coeffs with
  | none => exact absurd hcs hc
  | some cs =>
    dsimp only
    have hstep : ∀ (kernel : Kern) (B : Option (Arr (ℕ × ℕ))),
        Assembly.assembleMatrix (addInside pattern Y.gdim) (Y.assemblyPair s i) kernel (flat (cs i)) (cs i).cols B
          = .ok none := by
      intro kernel B
      refine matrix_missing (P := Y.assemblyPair s i) rfl he hl (r := Y.space.parent x.1 a)
        (c := Y.space.parent (Y.space.parentCell (Y.subCell f)) b) ?_ ?_ hmiss kernel _ _ B
      · rw [hfac]
        exact List.mem_map.mpr ⟨a, List.mem_range.mpr ha, rfl⟩
      · exact List.mem_map.mpr ⟨b, List.mem_range.mpr hb, rfl⟩
    have hsome : ∀ (j : ℕ) (kernel : Kern) (B : Option (Arr (ℕ × ℕ))), ∃ C,
        Assembly.assembleMatrix (addInside pattern Y.gdim) (Y.assemblyPair s j) kernel (flat (cs j)) (cs j).cols B
          = .ok C := fun j kernel B => ⟨_, by rw [Assembly.assembleMatrix, if_neg (by simp [System.assemblyPair])]⟩
    refine foldlM_absorb _ (fun j _ B => foldlM_total _ (fun k _ => hsome j k) B)
      (fun j _ => foldlM_const _ (fun k _ => matrix_none (Y.assemblyPair s j) pattern rfl k _ _))
      (List.mem_range.mpr hi) (fun B => ?_) A
    obtain ⟨k, hk'⟩ : ∃ k, k ∈ s.matKernels := by
      rw [hk]
      cases law <;> exact ⟨_, List.mem_cons_self ..⟩
    exact foldlM_absorb _ (fun k _ B => hsome i k B) (fun k _ => hstep k none) (List.mem_map_of_mem hk')
      (fun B => hstep _ B) B

/-- Three cells; the cell opposite to the facet of cell 0 is cell 1 in geometry 0, cell 2 in geometry 1. -/
def exSlide : System ℕ where
  numPairs := 1
  nq := 1
  nd := 1
  gdim := 2
  tdim := 2
  cell := .triangle
  affine := true
  off := fun _ => 0
  phi := fun _ _ => 1
  dphi := fun k _ _ => k + 1
  weights := fun _ _ => 1
  nref := fun _ j => if j = 1 then 1 else 0
  geo := ⟨1, fun _ => 1, fun _ _ => 0⟩
  cphi := fun _ _ _ => 1
  inv := fun _ k b => if k = b then 1 else 0
  det := fun _ _ => 1
  facets := fun _ => [(0, 2)]
  localFacets := fun _ => 1
  map := fun h _ _ => if h = 0 then 0 else 1
  subCell := fun f => min f 1
  space := ⟨2, 1, 2, fun c _ => c, fun c _ => c, fun c => c + 1⟩
  basis := fun _ _ _ _ => 1
  raytracing := fun _ => false
  gap := fun _ _ => ⟨1, 2, fun _ m => if m = 1 then 2 else 0⟩
  nx := fun _ _ => ⟨1, 2, fun _ m => if m = 1 then -1 else 0⟩
  ny := fun _ _ => ⟨1, 2, fun _ m => if m = 1 then 1 else 0⟩

def exSlideGen : Op ℕ :=
  .generate ⟨.coulomb, some (fun _ => ⟨1, 1, fun _ _ => 3⟩), some (fun _ => ⟨1, 1, fun _ _ => 5⟩),
    some (fun _ => ⟨1, 1, fun _ _ => 1⟩), none, none, fun _ => ⟨1, 1, fun _ _ => 1⟩, 1, 1⟩

theorem exSlide_valid : System.Valid exSlide where
  pairs := by decide
  dim := by decide
  points := by decide
  cell := by simp [exSlide]
  loc := by simp [exSlide]
  gap := by simp [exSlide]
  nx := by simp [exSlide]
  ny := by simp [exSlide]
  space := ⟨rfl, rfl⟩
  search := by
    intro g i _ e _
    left
    intro q _
    show 0 ≤ (if g = 0 then (0 : ℤ) else 1)
    split <;> omega
  cells := by
    intro g i r f _
    show min f 1 < 2
    omega
  shared := by
    intro c i c' i' _ _ _ _ h
    have : c = c' := h
    rw [this]; rfl
  affine := by simp [exSlide]

/-- The pattern of a form on cells that do not share dofs. -/
def exSlideForm : List (ℕ × ℕ) := [(0, 0), (1, 1), (2, 2)]

/-- The hypotheses of C142 hold: friction, displacement and Nitsche parameters are changed after the matrix was
created. -/
example : System.Valid exSlide ∧ (∀ op ∈ [exSlideGen], OpShaped exSlide.static op)
    ∧ (∀ op ∈ [.updateNitsche 2 0, exSlideGen, .updateData (exSlide.du fun d => d)], OpShaped exSlide.static op)
    ∧ (∀ op ∈ [.updateNitsche 2 0, exSlideGen, .updateData (exSlide.du fun d => d)],
      ∀ move m, op ≠ .updateDetection move m)
    ∧ FormPattern exSlide exSlideForm := by
  have hgen : OpShaped exSlide.static exSlideGen := by
    simp [exSlideGen, OpShaped, ScalarShaped, System.static, exSlide]
  refine ⟨exSlide_valid, by simpa using hgen, ?_, by simp [exSlideGen], ?_, ?_⟩
  · intro op hop
    simp only [List.mem_cons, List.not_mem_nil, or_false] at hop
    rcases hop with rfl | rfl | rfl
    · trivial
    · exact hgen
    · exact du_shaped exSlide_valid _
  · simp [exSlide, exSlideForm]
  · intro c hc a ha b hb
    have h1 : c < 2 := hc
    rcases (show c = 0 ∨ c = 1 by omega) with rfl | rfl <;> simp [exSlide, exSlideForm]

/-- The hypotheses of C142_stale hold for a matrix created before the body slides: it has room for the coupling of
cells 0 and 1, and now cells 0 and 2 are coupled. -/
example : ∃ (ops : List (Op ℕ)) (move : ℕ → ℕ) (m : ℕ → Mat) (s s' : State ℕ),
    s = history exSlide.static ops (init exSlide.static 0)
    ∧ s' = history exSlide.static (ops ++ [.updateDetection move m]) (init exSlide.static 0)
    ∧ ∀ A, exSlide.assembleInto (exSlide.createMatrix s exSlideForm) s' (some A) = .ok none := by
  have hgen : OpShaped exSlide.static exSlideGen := by
    simp [exSlideGen, OpShaped, ScalarShaped, System.static, exSlide]
  have hsh : ∀ op ∈ [exSlideGen] ++ [.updateDetection (fun _ => 1) (exSlide.packGrad 0)], OpShaped exSlide.static op := by
    intro op hop
    simp only [List.cons_append, List.nil_append, List.mem_cons, List.not_mem_nil, or_false] at hop
    rcases hop with rfl | rfl
    · exact hgen
    · exact (du_shaped exSlide_valid 0).grad
  refine ⟨[exSlideGen], fun _ => 1, exSlide.packGrad 0, _, _, rfl, rfl, fun A => ?_⟩
  refine C142_stale exSlide_valid _ hsh 0 .coulomb rfl _ (i := 0) (e := 0) (q := 0) (f := 1) (a := 0) (b := 0)
    (x := (0, 2)) (by decide) (by decide) (by decide) rfl rfl (by decide) (by decide) ?_ _ rfl ?_ (some A)
  · unfold System.createMatrix
    rw [mem_createPattern]
    rintro (h | ⟨P, hP, e, he, h⟩)
    · exact absurd h (by decide)
    · obtain ⟨i, hi, rfl⟩ := List.mem_map.mp hP
      have hi' := List.mem_range.mp hi
      have hmap := map_history exSlide_valid [exSlideGen] (by simpa using hgen) 0 hi' e
      have h0 : ∀ d, d ∈ linkedDofs (exSlide.assemblyPair (history exSlide.static [exSlideGen] (init exSlide.static 0)) i) e
          → d = 1 := by
        intro d hd
        obtain ⟨f, hf, hd⟩ := (mem_linkedDofs _ _ _).mp hd
        rw [hmap] at hf
        obtain ⟨q, -, hq⟩ := List.mem_map.mp hf
        have hq' : (0 : ℤ) = f := hq
        obtain rfl : f = 0 := by omega
        obtain ⟨a, -, ha⟩ := List.mem_map.mp hd
        exact ha.symm
      rcases h with ⟨-, h⟩ | ⟨h, -⟩
      · exact absurd (h0 _ h) (by decide)
      · exact absurd (h0 _ h) (by decide)
  · rcases C38_size (static_shaped exSlide_valid) _ hsh 0 with ⟨h, -⟩ | ⟨-, cs, h, -⟩
    · simp [exSlideGen, Tracked.history, Tracked.call] at h
    · rw [h]; simp

end

end Verif.ContactProblem

namespace Verif.TieData

open Verif.Spec Verif.Packing Verif.Assembly Verif.Entities

noncomputable section

variable {M : TieMesh} {E : TieElement}

theorem tie_fits (hM : TieMesh.Valid M) (form : List (ℕ × ℕ)) (hform : TieFormPattern M E form) {i : ℕ}
    (hi : i < M.numPairs) {e : ℕ} (he : e < M.localFacets i) : Assembly.Fits (M.assemblyPair E i) (M.createMatrix E form) e := by
  have hmem : M.assemblyPair E i ∈ (List.range M.numPairs).map (M.assemblyPair E) :=
    List.mem_map.mpr ⟨i, List.mem_range.mpr hi, rfl⟩
  have hfac : (M.facets i).getD e (0, 0) ∈ M.facets i := by
    have : e < (M.facets i).length := lt_of_lt_of_le he (hM.loc i hi)
    rw [List.getD_eq_getElem _ _ this]; exact List.getElem_mem this
  have hcell : ∀ l ∈ links (M.assemblyPair E i) e, ∃ f : ℕ, (f : ℤ) ∈ (M.assemblyPair E i).map e
      ∧ M.subCell f < M.numCells ∧ M.parentCell (M.subCell f) = l := by
    intro l hl
    have hl' : l ∈ linkedCells M.subCell M.parentCell ((M.assemblyPair E i).map e) := by
      unfold links at hl
      split at hl
      · exact hl
      · simp at hl
    obtain ⟨f, hf, k⟩ := ((isLinkedCells (M.assemblyPair E i) e).2 l).mp hl'
    refine ⟨f, hf, ?_, k⟩
    obtain ⟨q, -, hq⟩ := List.mem_map.mp (show (f : ℤ) ∈ (M.pair E i).row e from hf)
    rw [map_nat (show M.map i (e * M.nq + q) = f from hq)]
    exact hM.cells _ _
  have hdof : ∀ c d, d ∈ cellDofs (M.assemblyPair E i) c ↔ ∃ a < E.nd, E.dofs c a = d := by
    intro c d
    unfold cellDofs
    rw [List.mem_map]
    simp only [List.mem_range]
    rfl
  refine ⟨fun r hr c hc => ?_, fun l hl => ?_⟩
  · obtain ⟨a, ha, rfl⟩ := (hdof _ _).mp hr
    obtain ⟨b, hb, rfl⟩ := (hdof _ _).mp hc
    unfold TieMesh.createMatrix
    rw [mem_createPattern]
    exact Or.inl (hform.1 i hi _ hfac a ha b hb)
  · obtain ⟨f, hf, hlt, rfl⟩ := hcell l hl
    unfold TieMesh.createMatrix
    refine ⟨fun r hr c hc => ?_, fun r hr c hc => ?_, fun r hr c hc => ?_⟩ <;> rw [mem_createPattern]
    · exact Or.inr ⟨_, hmem, e, he, Or.inl ⟨hr, (mem_linkedDofs _ _ _).mpr ⟨f, hf, hc⟩⟩⟩
    · exact Or.inr ⟨_, hmem, e, he, Or.inr ⟨(mem_linkedDofs _ _ _).mpr ⟨f, hf, hr⟩, hc⟩⟩
    · obtain ⟨a, ha, rfl⟩ := (hdof _ _).mp hr
      obtain ⟨b, hb, rfl⟩ := (hdof _ _).mp hc
      exact Or.inl (hform.2 _ hlt a ha b hb)

/-- C142 for tied surfaces: the points are chosen once, so a matrix created at any time has room for everything
`assemble_matrix` adds, for every problem and every state of the object. -/
theorem C142_tie (hM : TieMesh.Valid M) (form : List (ℕ × ℕ)) (hform : TieFormPattern M E form) (p : Problem) (s : State ℝ)
    (A : Arr (ℕ × ℕ)) :
    M.assembleInto E (M.createMatrix E form) p s (some A) = (M.assembleMatrix E p s A).map some := by
  unfold TieMesh.assembleInto TieMesh.assembleMatrix
  refine foldlM_map (k := some) _ (fun l hl A => ?_) A
  have hp : l.pair < M.numPairs := by
    unfold TieData.assembleMatrix at hl
    obtain ⟨i, hi, hl⟩ := List.mem_flatMap.mp hl
    have hi' : i < M.numPairs := List.mem_range.mp hi
    cases p <;> (obtain rfl := List.mem_singleton.mp hl; exact hi')
  exact matrix_inside (P := M.assemblyPair E l.pair) (fun e he => tie_fits hM form hform hp he) _ _ _ A

/-- The hypotheses hold for the example of C117. -/
example : TieMesh.Valid (exM 0) ∧ TieFormPattern (exM 0) (exE 2 fun _ => 1) [(0, 0), (1, 1)] := by
  refine ⟨exM_valid 0, by simp [exM, exE], ?_⟩
  intro c hc a _ b _
  have : c < 1 := hc
  obtain rfl : c = 0 := by omega
  simp [exM, exE]

end

end Verif.TieData
