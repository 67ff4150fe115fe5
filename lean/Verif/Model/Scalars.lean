import Verif.Lib.Arr
import Mathlib.Analysis.SpecialFunctions.Sqrt

/-!
Scalar helper functions: `cpp/utils.cpp` lines 287-364 and
`python/dolfinx_contact/helpers.py` lines 54-150.  `double` is `ℝ`.
-/

namespace Verif.Scalars

noncomputable section

/-- `cpp/utils.cpp:287` `R_plus`. -/
def rPlus (x : ℝ) : ℝ := 0.5 * (|x| + x)

/-- `cpp/utils.cpp:289` `R_minus`. -/
def rMinus (x : ℝ) : ℝ := 0.5 * (x - |x|)

/-- `cpp/utils.cpp:291` `dR_minus` (`double(x < 0)`). -/
def dRMinus (x : ℝ) : ℝ := if x < 0 then 1 else 0

/-- `cpp/utils.cpp:294` `dR_plus` (`double(x > 0)`). -/
def dRPlus (x : ℝ) : ℝ := if x > 0 then 1 else 0

/-- `ufl.sign`: -1, 0, 1 (library function used by `helpers.py`). -/
def uflSign (x : ℝ) : ℝ := if x < 0 then -1 else if x > 0 then 1 else 0

/-- `helpers.py:85-89` `R_minus`. -/
def pyRMinus (x : ℝ) : ℝ := 0.5 * (x - |x|)

/-- `helpers.py:92-96` `dR_minus`. -/
def pyDRMinus (x : ℝ) : ℝ := 0.5 * (1.0 - uflSign x)

/-- `helpers.py:99-103` `R_plus`. -/
def pyRPlus (x : ℝ) : ℝ := 0.5 * (x + |x|)

/-- `helpers.py:106-110` `dR_plus`. -/
def pyDRPlus (x : ℝ) : ℝ := 0.5 * (1 + uflSign x)

/-- `std::array<double, 3>`. -/
abbrev Vec3 := Fin 3 → ℝ

/-- The norm loop shared by `ball_projection`, `d_ball_projection`, `d_alpha_ball_projection`
(`cpp/utils.cpp:300-303`, `325-329`, `352-355`): `norm += pow(e, 2)` over the three entries. -/
def normSquared (x : Vec3) : ℝ := 0 + x 0 ^ 2 + x 1 ^ 2 + x 2 ^ 2

/-- `cpp/utils.cpp:296-314` `ball_projection`. -/
def ballProjection (x : Vec3) (alpha : ℝ) : Vec3 :=
  let norm := Real.sqrt (normSquared x)
  if norm ≤ alpha then x else fun i => alpha * x i / norm

/-- Entry of a `std::array<double, 3>` read with a `size_t` loop index; the C++ code only reads
indices `< bs ≤ 3`, outside the array the model returns 0. -/
def at3 (x : Vec3) (i : ℕ) : ℝ := if h : i < 3 then x ⟨i, h⟩ else 0

/-- `cpp/utils.cpp:316-345` `d_ball_projection`: flat row-major `bs × bs` array. -/
def dBallProjection (x : Vec3) (alpha : ℝ) (bs : ℕ) : Arr ℕ :=
  let dProj : Arr ℕ := fun _ => 0
  if alpha < 1e-14 then dProj
  else
    let nSq := normSquared x
    let norm := Real.sqrt nSq
    if norm < alpha then
      loop bs (fun j d => d.put (j * bs + j) 1) dProj
    else
      loop bs (fun i d =>
        let d := d.acc (i * bs + i) (alpha / norm)
        loop bs (fun j d => d.acc (i * bs + j) (-(alpha * at3 x i * at3 x j / (norm * nSq)))) d) dProj

/-- `cpp/utils.cpp:347-364` `d_alpha_ball_projection`. -/
def dAlphaBallProjection (x : Vec3) (alpha dAlpha : ℝ) : Vec3 :=
  let norm := Real.sqrt (normSquared x)
  if norm > alpha then fun i => dAlpha * x i / norm else fun _ => 0

/-- `helpers.py:113-118` `ball_projection(x, s, dim)` (UFL expression evaluated at a point). -/
def pyBallProjection (dim : ℕ) (x : ℕ → ℝ) (s : ℝ) : ℕ → ℝ :=
  let absX := Real.sqrt (∑ i ∈ Finset.range dim, x i ^ 2)
  if absX ≤ s then x else fun i => s * x i / absX

/-- `helpers.py:60-61` `mu`. -/
def lameMu (E nu : ℝ) : ℝ := E / (2 * (1 + nu))

/-- `helpers.py:54-74` `lame_parameters(plane_strain)[1]`. -/
def lameLambda (planeStrain : Bool) (E nu : ℝ) : ℝ :=
  if planeStrain then E * nu / ((1 + nu) * (1 - 2 * nu)) else E * nu / ((1 + nu) * (1 - nu))

/-- `helpers.py:145-150` `tangential_proj`: `(I - n ⊗ n) u`, dimension `d`. -/
def tangentialProj {d : ℕ} (u n : Fin d → ℝ) : Fin d → ℝ :=
  fun i => ∑ j, ((if i = j then 1 else 0) - n i * n j) * u j

end

end Verif.Scalars
