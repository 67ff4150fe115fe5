import Verif.Lemmas.ContactProblemGood

/-! Only `generate_contact_data` and `update_nitsche_parameters` change the kernels and constants. -/

namespace Verif.ContactProblem

open Verif.Spec

noncomputable section

variable {G : Type}

/-- Constants and kernels. -/
def kc (s : State G) : (ℝ × ℝ) × List (Kernels.Kernel × ℕ) × List (Kernels.Kernel × ℕ) :=
  (s.consts, s.matKernels, s.vecKernels)

theorem kc_bind {r : Res G} {f : State G → Res G} {k} (h1 : kc (after r) = k)
    (h2 : ∀ s, kc s = k → kc (after (f s)) = k) : kc (after (r.bind f)) = k := by
  cases r with
  | error e => exact h1
  | ok s => exact h2 s h1

theorem kc_forIn {α : Type} (l : List α) (body : α → State G → Res G) {k}
    (h : ∀ x s, kc s = k → kc (after (body x s)) = k) (s : State G) (hs : kc s = k) :
    kc (after (forIn l body s)) = k := by
  induction l generalizing s with
  | nil => exact hs
  | cons x l ih => exact kc_bind (h x s hs) (fun s' h' => ih s' h')

theorem kc_setCoeffs (s : State G) (i r1 c0 c1 : ℕ) (d : Mat) : kc (after (setCoeffs s i r1 c0 c1 d)) = kc s := by
  unfold setCoeffs
  split
  · rfl
  · split <;> rfl

theorem kc_setCol (s : State G) (i j : ℕ) (d : Mat) : kc (after (setCol s i j d)) = kc s := by
  unfold setCol
  split
  · rfl
  · split <;> rfl

theorem kc_withNumQ {s : State G} {i : ℕ} {f : ℕ → Res G} {k} (hs : kc s = k) (h : ∀ n, kc (after (f n)) = k) :
    kc (after (withNumQ s i f)) = k := by
  unfold withNumQ
  split
  · exact hs
  · exact h _

theorem kc_updateData (S : Static G) (du : Du G) (s : State G) : kc (after (updateContactData S du s)) = kc s := by
  unfold updateContactData forRange
  refine kc_forIn _ _ (fun i s' hs => ?_) s rfl
  unfold updateDataPair
  refine kc_withNumQ hs (fun n => ?_)
  refine kc_bind ((kc_setCoeffs ..).trans hs) (fun s1 h1 => ?_)
  refine kc_bind ?_ (fun s2 h2 => (kc_setCoeffs ..).trans h2)
  split
  · exact (kc_setCoeffs ..).trans h1
  · exact h1

theorem kc_createDistanceMaps (S : Static G) (s : State G) : kc (createDistanceMaps S s) = kc s := by
  obtain ⟨-, -, -, -, h5, h6, h7, -⟩ := createDistanceMaps_spec S s
  unfold kc
  rw [h5, h6, h7]

theorem kc_updateDetection (S : Static G) (move : G → G) (gu : ℕ → Mat) (s : State G) :
    kc (after (updateDetection S move gu s)) = kc s := by
  unfold updateDetection forRange
  refine kc_bind ?_ (fun s1 h1 => kc_bind ?_ (fun s2 h2 => h2))
  · refine kc_forIn _ _ (fun i s' hs => ?_) _ (kc_createDistanceMaps S _)
    unfold saveNormals
    refine kc_withNumQ hs (fun n => ?_)
    dsimp only
    split
    · exact hs
    · exact (kc_setCoeffs ..).trans hs
  · refine kc_forIn _ _ (fun i s' hs => ?_) _ h1
    unfold repack
    refine kc_withNumQ hs (fun n => ?_)
    refine kc_bind ((kc_setCoeffs ..).trans hs) (fun s3 h3 => ?_)
    exact kc_bind ((kc_setCoeffs ..).trans h3) (fun s4 h4 => (kc_setCoeffs ..).trans h4)

theorem kc_fill (S : Static G) (a : GenArgs G) (keys : List (ℕ → Mat)) (s : State G) :
    kc (after (fill S a keys s)) = kc s := by
  unfold fill forRange
  refine kc_bind ?_ (fun s1 h1 => kc_bind ?_ (fun s2 h2 => kc_bind ?_ (fun s3 h3 => ?_)))
  · refine kc_forIn _ _ (fun i s' hs => ?_) _ ?_
    · unfold genScalars
      refine kc_bind ?_ (fun s1 h1 => (kc_setCol ..).trans h1)
      exact kc_forIn _ _ (fun x s' hs => (kc_setCol ..).trans hs) _ hs
    · split <;> rfl
  · refine kc_forIn _ _ (fun i s' hs => ?_) _ h1
    unfold genGeometry
    refine kc_bind ((kc_setCoeffs ..).trans hs) (fun s3 h3 => ?_)
    refine kc_bind ((kc_setCoeffs ..).trans h3) (fun s4 h4 => ?_)
    refine kc_bind ((kc_setCoeffs ..).trans h4) (fun s5 h5 => ?_)
    split
    · split
      · exact h5
      · exact (kc_setCoeffs ..).trans h5
    · exact h5
  · unfold packGradU
    dsimp only
    split
    · exact h2
    · unfold forRange
      refine kc_forIn _ _ (fun i s' hs => ?_) _ h2
      split <;> exact hs
  · split
    · exact h3
    · exact (kc_updateData ..).trans h3

theorem kc_generate (S : Static G) (a : GenArgs G) (s : State G) :
    kc (after (generate S a s))
      = ((a.gamma, a.theta), (kernels a.law (maxLinks S s)).1, (kernels a.law (maxLinks S s)).2) := by
  unfold generate
  dsimp only
  split
  · rfl
  · exact kc_fill ..

end

end Verif.ContactProblem
