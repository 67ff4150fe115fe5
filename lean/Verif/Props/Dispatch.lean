import Verif.Model.Dispatch

/-!
C55: the kernel generators return their own kernels and raise in all other cases; the block size part
of C51.
-/

namespace Verif.Kernels

/-- Spaces the kernels support: no prism, pyramid or interval cells, no dof transformations, and
`value_size / bs = 1` (a scalar or a blocked scalar element). -/
structure Supported (V : SpaceInfo) : Prop where
  prism : V.cell ≠ .prism
  pyramid : V.cell ≠ .pyramid
  interval : V.cell ≠ .interval
  plain : V.transforms = false
  blocked : V.valueSize / V.bs = 1

theorem checkCellType_ok (c : CellType) :
    checkCellType c = if c = .prism ∨ c = .pyramid ∨ c = .interval then .error .unsupportedCell
      else .ok () := by
  cases c <;> rfl

theorem kernelDataChecks_ok (V : SpaceInfo) : kernelDataChecks V = .ok () ↔ Supported V := by
  unfold kernelDataChecks
  rw [checkCellType_ok]
  constructor
  · intro h
    split at h
    · cases h
    · rename_i hc
      simp only [not_or] at hc
      refine ⟨hc.1, hc.2.1, hc.2.2, ?_, ?_⟩ <;> by_contra hcon <;>
        simp_all [bind, Except.bind, throw, throwThe, MonadExceptOf.throw]
  · intro ⟨h1, h2, h3, h4, h5⟩
    simp [h1, h2, h3, h4, h5, bind, Except.bind, pure, Except.pure]

theorem checkCellType_of_supported {V : SpaceInfo} (h : Supported V) : checkCellType V.cell = .ok () := by
  rw [checkCellType_ok]
  simp [h.prism, h.pyramid, h.interval]

theorem checks_cases (V : SpaceInfo) :
    (Supported V ∧ kernelDataChecks V = .ok ()) ∨ (¬ Supported V ∧ ∃ e, kernelDataChecks V = .error e) := by
  by_cases h : Supported V
  · exact .inl ⟨h, (kernelDataChecks_ok V).mpr h⟩
  · right
    refine ⟨h, ?_⟩
    cases e : kernelDataChecks V with
    | error err => exact ⟨err, rfl⟩
    | ok u => exact absurd ((kernelDataChecks_ok V).mp (by rw [e])) h

/-- C55, contact: a kernel is returned exactly for the six contact kernel types on a supported space,
and it is the kernel of that type. -/
theorem C55_contact (t : Kernel) (V : SpaceInfo) (D : KD) (f : KernelFn) :
    generateContactKernel t V D = .ok f ↔ Supported V ∧
      (t = .rhs ∧ f = unbiasedRhs D ∨ t = .jac ∧ f = unbiasedJac D
        ∨ t = .trescaRhs ∧ f = trescaRhs D ∨ t = .trescaJac ∧ f = trescaJac D
        ∨ t = .coulombRhs ∧ f = coulombRhs D ∨ t = .coulombJac ∧ f = coulombJac D) := by
  unfold generateContactKernel
  rcases checks_cases V with ⟨h, e⟩ | ⟨h, e', e⟩ <;> rw [e] <;>
    cases t <;> simp [h, bind, Except.bind, eq_comm]

/-- C55, mesh ties (elasticity). -/
theorem C55_meshtie (t : Kernel) (V : SpaceInfo) (D : KD) (cs : List ℕ) (f : KernelFn) :
    generateMeshtieKernel t V D cs = .ok f ↔ Supported V ∧
      (t = .meshTieRhs ∧ f = tieRhs D (offsets cs) ∨ t = .meshTieJac ∧ f = tieJac D (offsets cs)
        ∨ t = .thermoElasticRhs ∧ f = fun c _ => thermoRhs D (offsets cs) c) := by
  unfold generateMeshtieKernel
  rcases checks_cases V with ⟨h, e⟩ | ⟨h, e', e⟩
  · rw [e, checkCellType_of_supported h]
    cases t <;> simp [h, bind, Except.bind, eq_comm]
  · rw [e]
    cases checkCellType V.cell <;> simp [h, bind, Except.bind]

/-- C55 and C51, mesh ties (heat): additionally the block size must be one. -/
theorem C55_poisson (t : Kernel) (V : SpaceInfo) (D : KD) (cs : List ℕ) (f : KernelFn) :
    generatePoissonKernel t V D cs = .ok f ↔ Supported V ∧ V.bs = 1 ∧
      (t = .meshTieRhs ∧ f = poisRhs D (offsets cs) ∨ t = .meshTieJac ∧ f = poisJac D (offsets cs)) := by
  unfold generatePoissonKernel
  by_cases hb : V.bs = 1
  · rcases checks_cases V with ⟨h, e⟩ | ⟨h, e', e⟩
    · rw [e, checkCellType_of_supported h]
      cases t <;> simp [h, hb, bind, Except.bind, pure, Except.pure, eq_comm]
    · rw [e]
      cases checkCellType V.cell <;> simp [h, hb, bind, Except.bind, pure, Except.pure]
  · simp [hb, bind, Except.bind, throw, throwThe, MonadExceptOf.throw]

/-- C55, rigid surfaces. -/
theorem C55_rigid (t : Kernel) (V : SpaceInfo) (D : KD) (const : Bool) (junk : ℕ → ℝ) (f : KernelFn) :
    generateRigidKernel V t D const junk = .ok f ↔ Supported V ∧
      (t = .rhs ∧ (f = fun c w _ _ => rigidRhs D const junk c w)
        ∨ t = .jac ∧ f = fun c w _ _ => rigidJac D const junk c w) := by
  unfold generateRigidKernel
  rcases checks_cases V with ⟨h, e⟩ | ⟨h, e', e⟩ <;> rw [e] <;>
    cases t <;> simp [h, bind, Except.bind, eq_comm]

/-- C55: prism, pyramid and interval cells raise the exception for unsupported cells, for every kernel
type (the heat kernels check the block size first). -/
theorem C55_cells (t : Kernel) (V : SpaceInfo) (D : KD) (cs : List ℕ) (const : Bool) (junk : ℕ → ℝ)
    (h : V.cell = .prism ∨ V.cell = .pyramid ∨ V.cell = .interval) :
    generateContactKernel t V D = .error .unsupportedCell
      ∧ generateMeshtieKernel t V D cs = .error .unsupportedCell
      ∧ generateRigidKernel V t D const junk = .error .unsupportedCell
      ∧ (V.bs = 1 → generatePoissonKernel t V D cs = .error .unsupportedCell) := by
  have e : checkCellType V.cell = .error .unsupportedCell := by rw [checkCellType_ok, if_pos h]
  refine ⟨?_, ?_, ?_, fun hb => ?_⟩ <;>
    simp [generateContactKernel, generateMeshtieKernel, generateRigidKernel, generatePoissonKernel,
      kernelDataChecks, e, bind, Except.bind, pure, Except.pure, *]

/-- C51: the heat kernel generator raises `invalid_argument` for every space whose block size is not
one. -/
theorem C51_block_size (t : Kernel) (V : SpaceInfo) (D : KD) (cs : List ℕ) (h : V.bs ≠ 1) :
    generatePoissonKernel t V D cs = .error .invalidArgument := by
  simp [generatePoissonKernel, h, bind, Except.bind, throw, throwThe, MonadExceptOf.throw]

/-- A vector valued space on tetrahedra is supported, a scalar one on prisms is not. -/
example : Supported ⟨.tetrahedron, 3, 3, false⟩ ∧ ¬ Supported ⟨.prism, 1, 1, false⟩
    ∧ Supported ⟨.triangle, 1, 1, false⟩ :=
  ⟨⟨by decide, by decide, by decide, rfl, rfl⟩, fun h => h.prism rfl,
    ⟨by decide, by decide, by decide, rfl, rfl⟩⟩

end Verif.Kernels
