import Verif.Model.ContactMesh

/-! What `create_contact_mesh` promises, for C94-C96. -/

namespace Verif.ContactMesh

open Verif.Search

/-- Global indices, in the input mesh, of the vertices of local entity `e`. -/
def Tags.global (T : Tags) (e : ℕ) : List ℤ := (T.vertices e).map T.l2g

/-- Global indices, in the input mesh, of the vertices of entity `k` of the new mesh (entities have `dim`
vertices). -/
def NewMesh.origin (N : NewMesh) (dim k : ℕ) : List ℤ :=
  ((N.conn.drop (dim * k)).take dim).map (fun v => N.inputGlobal (N.vertToGeom v))

/-- Number of entities of the new mesh on the process. -/
def NewMesh.size (N : NewMesh) (dim : ℕ) : ℕ := N.conn.length / dim

/-- Some process of the input mesh marks with `v` an entity with the vertices (in any order) of entity `k`
of the new mesh. -/
def Marked (procs : List Tags) (N : NewMesh) (dim k : ℕ) (v : ℤ) : Prop :=
  ∃ T ∈ procs, ∃ i, ∃ h : i < T.idx.length, (T.global T.idx[i]).Perm (N.origin dim k) ∧ T.val.getD i 0 = v

/-- Facet `f` of the process is marked with one of the tags. -/
def Tagged {K : Type} (tags : List ℤ) (P : Proc K) (f : ℕ) : Prop :=
  ∃ i, ∃ _ : i < P.fIdx.length, P.fIdx[i] = f ∧ P.fVal.getD i 0 ∈ tags

/-- Midpoint of a facet: mean of its nodes. -/
def Proc.mid {K : Type} [Field K] (P : Proc K) (f : ℕ) (k : Fin 3) : K :=
  ((P.facetNodes f).map (fun v => P.xg (3 * v + k.val))).sum / ((P.facetNodes f).length : K)

end Verif.ContactMesh
