import Verif.Model.Meshing
import Verif.Spec.Meshing
import Mathlib.Data.List.Range
import Mathlib.Data.List.GetD
import Mathlib.Data.List.Count
import Mathlib.Tactic.Linarith
import Mathlib.Tactic.NormNum

/-! C69–C72: polygons with an interface, boundary groups, merged meshes, SNES bounds. -/

namespace Verif.Meshing

open Verif.Spec.Meshing

variable {P : Type}

/-! ### C69 -/

/-- A polygon that passes through `p, q, rest` is listed either with `p q` next to each other or with
`q` first and `p` last. -/
theorem around_cases {d rest : List ℕ} {p q : ℕ} (h : Around d p q rest) :
    (∃ a b, d = a ++ p :: q :: b ∧ rest = b ++ a) ∨ d = q :: (rest ++ [p]) := by
  obtain ⟨n, hn, hd⟩ := List.isRotated_iff_mod.mp h.symm
  rw [List.rotate_eq_drop_append_take hn] at hd
  rcases n with _ | _ | n
  · left; exact ⟨[], rest, by simpa using hd.symm, by simp⟩
  · right; simpa using hd.symm
  · left
    refine ⟨rest.drop n, rest.take n, by simpa using hd.symm, by simp⟩

theorem once_notMem {d rest : List ℕ} {p q : ℕ} (hpq : p ≠ q) (h : Around d p q rest)
    (hp : d.count p = 1) (hq : d.count q = 1) : p ∉ rest ∧ q ∉ rest := by
  have h1 := h.perm.count_eq p
  have h2 := h.perm.count_eq q
  simp [hpq, hpq.symm] at h1 h2
  constructor
  · intro hm; have := List.count_pos_iff.mpr hm; omega
  · intro hm; have := List.count_pos_iff.mpr hm; omega

theorem idxOf_mid {a b : List ℕ} {p : ℕ} (ha : p ∉ a) : (a ++ p :: b).idxOf p = a.length := by
  rw [List.idxOf_append_of_notMem ha]; simp

theorem idxOf_mid2 {a b : List ℕ} {p q : ℕ} (hpq : p ≠ q) (ha : q ∉ a) :
    (a ++ p :: q :: b).idxOf q = a.length + 1 := by
  rw [List.idxOf_append_of_notMem ha, List.idxOf_cons_ne _ hpq]; simp

/-- **C69** (first orientation).  If walking around the domain one meets corner 4, then corner 5, then
`rest` (at least one more corner), the result is the polygon that first follows the polyline and then
the other corners in the same order: the edge 4–5 is replaced by the polyline, nothing else changes. -/
theorem C69_forward (domain rest : List ℕ) (points : ℕ → P) (line : List P)
    (h : Around domain 4 5 rest) (hrest : rest ≠ []) (h1 : Once domain) :
    getSurfacePoints domain points line = .ok (line ++ rest.map points) := by
  obtain ⟨h4, h5⟩ := once_notMem (by decide) h h1.1 h1.2
  rcases around_cases h with ⟨a, b, rfl, rfl⟩ | rfl
  · have e4 : (a ++ 4 :: 5 :: b).idxOf 4 = a.length := idxOf_mid (by simp_all)
    have e5 : (a ++ 4 :: 5 :: b).idxOf 5 = a.length + 1 := idxOf_mid2 (by decide) (by simp_all)
    unfold getSurfacePoints
    simp only [e4, e5]
    rw [if_neg (by simp), if_pos trivial]
    have hd : ((a ++ 4 :: 5 :: b).map points).drop (a.length + 1 + 1) = b.map points := by
      rw [← List.map_drop, List.drop_append]
      simp [show a.length + 1 + 1 - a.length = 2 by omega, show a.length ≤ a.length + 1 + 1 by omega]
    have ht : ((a ++ 4 :: 5 :: b).map points).take a.length = a.map points := by
      simp
    rw [hd, ht]
    split
    · rename_i h0
      have : a = [] := List.length_eq_zero_iff.mp h0
      subst this; simp
    · split
      · rename_i h0
        have : b = [] := by
          simp at h0; exact List.length_eq_zero_iff.mp (by omega)
        subst this; simp
      · simp
  · have hl : rest.length ≠ 0 := fun h => hrest (List.length_eq_zero_iff.mp h)
    have e4 : (5 :: (rest ++ [4])).idxOf 4 = rest.length + 1 := by
      have := idxOf_mid (a := 5 :: rest) (b := []) (p := 4) (by simp [h4])
      simpa using this
    have e5 : (5 :: (rest ++ [4])).idxOf 5 = 0 := by simp
    unfold getSurfacePoints
    simp only [e4, e5]
    rw [if_neg (by simp), if_neg (by omega), if_neg (by omega), if_neg (by simp), if_pos (by simp)]
    simp

/-- **C69** (other orientation).  If one meets corner 5 first and then corner 4, the polyline is
followed backwards (from corner 5 to corner 4), then the other corners in the same order. -/
theorem C69_backward (domain rest : List ℕ) (points : ℕ → P) (line : List P)
    (h : Around domain 5 4 rest) (hrest : rest ≠ []) (h1 : Once domain) :
    getSurfacePoints domain points line = .ok (line.reverse ++ rest.map points) := by
  obtain ⟨h5, h4⟩ := once_notMem (by decide) h h1.2 h1.1
  rcases around_cases h with ⟨a, b, rfl, rfl⟩ | rfl
  · have e5 : (a ++ 5 :: 4 :: b).idxOf 5 = a.length := idxOf_mid (by simp_all)
    have e4 : (a ++ 5 :: 4 :: b).idxOf 4 = a.length + 1 := idxOf_mid2 (by decide) (by simp_all)
    unfold getSurfacePoints
    simp only [e4, e5]
    rw [if_neg (by simp), if_neg (by omega), if_pos trivial]
    have hd : ((a ++ 5 :: 4 :: b).map points).drop (a.length + 1 + 1) = b.map points := by
      rw [← List.map_drop, List.drop_append]
      simp [show a.length + 1 + 1 - a.length = 2 by omega, show a.length ≤ a.length + 1 + 1 by omega]
    have ht : ((a ++ 5 :: 4 :: b).map points).take a.length = a.map points := by
      simp
    rw [hd, ht]
    split
    · rename_i h0
      have : a = [] := List.length_eq_zero_iff.mp h0
      subst this; simp
    · split
      · rename_i h0
        have : b = [] := by
          simp at h0; exact List.length_eq_zero_iff.mp (by omega)
        subst this; simp
      · simp
  · have hl : rest.length ≠ 0 := fun h => hrest (List.length_eq_zero_iff.mp h)
    have e5 : (4 :: (rest ++ [5])).idxOf 5 = rest.length + 1 := by
      have := idxOf_mid (a := 4 :: rest) (b := []) (p := 5) (by simp [h5])
      simpa using this
    have e4 : (4 :: (rest ++ [5])).idxOf 4 = 0 := by simp
    unfold getSurfacePoints
    simp only [e4, e5]
    rw [if_neg (by simp), if_neg (by omega), if_neg (by omega), if_pos (by simp)]
    simp

/-- The domains used by `create_split_box_2D` and a polyline of three points. -/
example : Around [0, 4, 5, 3] 4 5 [3, 0] ∧ Once [0, 4, 5, 3] ∧
    getSurfacePoints [0, 4, 5, 3] (fun i => (i, 0)) [(4, 0), (9, 9), (5, 0)]
      = .ok [(4, 0), (9, 9), (5, 0), (3, 0), (0, 0)] :=
  ⟨⟨1, rfl⟩, by decide, rfl⟩

example : Around [4, 1, 2, 5] 5 4 [1, 2] ∧ Once [4, 1, 2, 5] ∧
    getSurfacePoints [4, 1, 2, 5] (fun i => (i, 0)) [(4, 0), (9, 9), (5, 0)]
      = .ok [(5, 0), (9, 9), (4, 0), (1, 0), (2, 0)] :=
  ⟨⟨3, rfl⟩, by decide, rfl⟩

theorem around_of_mid (a b : List ℕ) (p q : ℕ) : Around (a ++ p :: q :: b) p q (b ++ a) := by
  have := List.isRotated_append (l := a) (l' := p :: q :: b)
  simpa [Around] using this

theorem around_of_getElem {d : List ℕ} {i p q : ℕ} (h : i + 1 < d.length) (hp : d[i] = p)
    (hq : d[i + 1] = q) : ∃ rest, Around d p q rest := by
  have : d = d.take i ++ p :: q :: d.drop (i + 2) := by
    conv_lhs => rw [← List.take_append_drop i d, List.drop_eq_getElem_cons (by omega),
      List.drop_eq_getElem_cons h, hp, hq]
  rw [this]
  exact ⟨_, around_of_mid _ _ _ _⟩

theorem around_of_ends {d : List ℕ} {p q : ℕ} (hl : 2 ≤ d.length) (hp : d[0] = p)
    (hq : d[d.length - 1] = q) : ∃ rest, Around d q p rest := by
  obtain ⟨e, rfl⟩ : ∃ e, d = p :: e := by
    cases d with
    | nil => simp at hl
    | cons x e => exact ⟨e, by simp at hp; rw [hp]⟩
  have he : e ≠ [] := by rintro rfl; simp at hl
  refine ⟨e.dropLast, ?_⟩
  have hlast : e.getLast he = q := by
    rw [← hq, List.getLast_eq_getElem]
    have : (p :: e).length - 1 = (e.length - 1) + 1 := by
      have := List.length_pos_iff.mpr he; simp; omega
    simp only [this, List.getElem_cons_succ]
  have h2 : p :: e = (p :: e.dropLast) ++ [q] := by
    rw [← hlast, List.cons_append, List.dropLast_append_getLast]
  unfold Around
  rw [h2]
  exact List.isRotated_append

/-- **C69** (missing corner).  A domain without corner 4 or without corner 5 raises. -/
theorem C69_missing_corner_raises (domain : List ℕ) (points : ℕ → P) (line : List P)
    (h : 4 ∉ domain ∨ 5 ∉ domain) : getSurfacePoints domain points line = .error .index := by
  unfold getSurfacePoints
  simp only [h, if_true]

/-- Two corners that are not joined by an edge fail the three adjacency tests of the program. -/
theorem not_adjacent_idx {d : List ℕ} (h4 : 4 ∈ d) (h5 : 5 ∈ d) (hn : ¬ Adjacent d) :
    d.idxOf 4 + 1 ≠ d.idxOf 5 ∧ d.idxOf 5 + 1 ≠ d.idxOf 4 ∧
      ¬ (d.idxOf 4 = 0 ∧ d.idxOf 5 + 1 = d.length) := by
  have l4 := List.idxOf_lt_length_iff.mpr h4
  have l5 := List.idxOf_lt_length_iff.mpr h5
  have g4 : d[d.idxOf 4] = 4 := List.getElem_idxOf l4
  have g5 : d[d.idxOf 5] = 5 := List.getElem_idxOf l5
  refine ⟨fun h => ?_, fun h => ?_, fun h => ?_⟩
  · obtain ⟨r, hr⟩ := around_of_getElem (d := d) (i := d.idxOf 4) (p := 4) (q := 5) (by omega) g4
      (by simp only [h]; exact g5)
    exact hn ⟨r, .inl hr⟩
  · obtain ⟨r, hr⟩ := around_of_getElem (d := d) (i := d.idxOf 5) (p := 5) (q := 4) (by omega) g5
      (by simp only [h]; exact g4)
    exact hn ⟨r, .inr hr⟩
  · have hne : d.idxOf 4 ≠ d.idxOf 5 := by
      intro e; simp only [e] at g4; omega
    obtain ⟨r, hr⟩ := around_of_ends (d := d) (p := 4) (q := 5) (by omega)
      (by simp only [h.1] at g4; exact g4)
      (by
        have : d.length - 1 = d.idxOf 5 := by omega
        simp only [this]; exact g5)
    exact hn ⟨r, .inr hr⟩

/-- **C69** (partial): a domain in which the corners 4 and 5 are not joined by an edge raises,
*provided its first corner is not 5*.  Missing: domains listed from corner 5, see
`C69_not_adjacent_violated`. -/
theorem C69_not_adjacent_raises_partial (domain : List ℕ) (points : ℕ → P) (line : List P)
    (h4 : 4 ∈ domain) (h5 : 5 ∈ domain) (hn : ¬ Adjacent domain) (hfirst : domain.head? ≠ some 5) :
    getSurfacePoints domain points line = .error .invalid := by
  obtain ⟨n1, n2, n3⟩ := not_adjacent_idx h4 h5 hn
  have n4 : domain.idxOf 5 ≠ 0 := by
    intro h
    cases domain with
    | nil => simp at h5
    | cons x e =>
      by_cases hx : x = 5
      · exact hfirst (by simp [hx])
      · rw [List.idxOf_cons_ne _ hx] at h; omega
  unfold getSurfacePoints
  rw [if_neg (by simp [h4, h5]), if_neg n1, if_neg n2, if_neg (by simpa using n3),
    if_neg (fun h => n4 h.1)]

/-- **C69 is violated** when a domain in which the corners 4 and 5 are not joined by an edge is listed
from corner 5: for *every* such domain and polyline no exception is raised; the result is the polyline
followed by the corners without the first *and without the last one*. -/
theorem C69_not_adjacent_violated (e : List ℕ) (points : ℕ → P) (line : List P)
    (h4 : 4 ∈ e) (hn : ¬ Adjacent (5 :: e)) :
    getSurfacePoints (5 :: e) points line = .ok (line ++ e.dropLast.map points) := by
  obtain ⟨n1, n2, n3⟩ := not_adjacent_idx (d := 5 :: e) (by simp [h4]) (by simp) hn
  have he : e ≠ [] := by rintro rfl; simp at h4
  have hl := List.length_pos_iff.mpr he
  unfold getSurfacePoints
  rw [if_neg (by simp [h4]), if_neg n1, if_neg n2, if_neg (by simpa using n3),
    if_pos ⟨by simp, by simp; omega⟩]
  simp [List.map_dropLast]

/-- The square 5–0–4–1, whose corners 4 and 5 are opposite: corner 1 is silently lost. -/
example : Once [5, 0, 4, 1] ∧ ¬ Adjacent [5, 0, 4, 1] ∧
    getSurfacePoints [5, 0, 4, 1] (fun i => (i, 0)) [(4, 0), (9, 9), (5, 0)]
      = .ok [(4, 0), (9, 9), (5, 0), (0, 0), (4, 0)] := by
  refine ⟨by decide, ?_, rfl⟩
  rintro ⟨r, h | h⟩
  · rcases around_cases h with ⟨a, b, hd, -⟩ | hd
    · rcases a with _ | ⟨x, _ | ⟨y, _ | ⟨z, _ | ⟨w, a⟩⟩⟩⟩ <;> simp at hd
    · rcases r with _ | ⟨x, _ | ⟨y, _ | ⟨z, r⟩⟩⟩ <;> simp at hd
  · rcases around_cases h with ⟨a, b, hd, -⟩ | hd
    · rcases a with _ | ⟨x, _ | ⟨y, _ | ⟨z, _ | ⟨w, a⟩⟩⟩⟩ <;> simp at hd
    · simp at hd

/-- The same square listed from corner 0 raises. -/
example : getSurfacePoints [0, 4, 1, 5] (fun i => (i, 0)) [(4, 0), (9, 9), (5, 0)]
    = .error .invalid := rfl

/-! ### C70 -/

/-- **C70** (2D).  For every number of polyline points `n ≥ 2` (at least one segment) and every number
`N ≥ n` of lines, each boundary line is in exactly one of the three groups of `create_surface_mesh`. -/
theorem C70_surface_partition (n N : ℕ) (hn : 2 ≤ n) (hN : n ≤ N) : Partition (surfaceGroups n N) N := by
  unfold Partition surfaceGroups slice
  have e : List.range N = 0 :: (List.range' 1 (min (n / 2) N - 1) ++
      List.range' (n / 2) (min n N - n / 2) ++ List.range' n (min N N - n)) := by
    have h1 := List.range'_append_1 (s := 1) (m := min (n / 2) N - 1) (n := min n N - n / 2)
    have h2 := List.range'_append_1 (s := 1) (m := min (n / 2) N - 1 + (min n N - n / 2))
      (n := min N N - n)
    rw [show 1 + (min (n / 2) N - 1) = n / 2 by omega] at h1
    rw [show 1 + (min (n / 2) N - 1 + (min n N - n / 2)) = n by omega] at h2
    rw [h1, h2, show min (n / 2) N - 1 + (min n N - n / 2) + (min N N - n) = N - 1 by omega,
      List.range_eq_range']
    obtain ⟨M, rfl⟩ : ∃ M, N = M + 1 := ⟨N - 1, by omega⟩
    simp [List.range'_succ]
  rw [e]
  simp only [List.flatten_cons, List.flatten_nil, List.append_nil, List.cons_append]
  exact (List.perm_append_comm).cons 0

theorem surface_interface (n N i : ℕ) (hn : 2 ≤ n) (hN : n < N) (hi : i < N) :
    (InGroup (surfaceGroups n N) 1 i ∨ InGroup (surfaceGroups n N) 2 i) ↔
      (lineEnds N i).1 < n ∧ (lineEnds N i).2 < n ∧ (lineEnds N i).1 + 1 = (lineEnds N i).2 := by
  simp only [InGroup, surfaceGroups, slice, lineEnds, List.getD_cons_succ, List.getD_cons_zero,
    List.mem_range'_1]
  split <;> omega

theorem lineEnds_eq {N i : ℕ} (hi : i < N) : lineEnds N i = ((i + N - 1) % N, i) := by
  unfold lineEnds
  split
  · subst i; rw [Nat.zero_add, Nat.mod_eq_of_lt (by omega)]
  · rw [show i + N - 1 = (i - 1) + N by omega, Nat.add_mod_right, Nat.mod_eq_of_lt (by omega)]

/-- **C70** (2D interface).  The lines in the two interface groups are exactly those whose two end
points are consecutive points of the polyline (the first `n` points of the polygon). -/
theorem C70_surface_interface (n N i : ℕ) (hn : 2 ≤ n) (hN : n < N) (hi : i < N) :
    (InGroup (surfaceGroups n N) 1 i ∨ InGroup (surfaceGroups n N) 2 i) ↔
      (i + N - 1) % N < n ∧ i < n ∧ (i + N - 1) % N + 1 = i :=
  by
  have := surface_interface n N i hn hN hi
  rwa [lineEnds_eq hi] at this

example : surfaceGroups 5 7 = [[0, 5, 6], [1], [2, 3, 4]] := by decide

/-- One point instead of a polyline (`num_segments = 0`): line 0 is tagged twice. -/
example : surfaceGroups 1 3 = [[0, 1, 2], [], [0]] := by decide

/-- **C70** (tetrahedra).  Each of the `N ≥ 4` lateral surfaces is in exactly one of the three groups
of `create_tet_mesh`. -/
theorem C70_tet_partition (N : ℕ) (hN : 4 ≤ N) : Partition (tetGroups N) N := by
  unfold Partition tetGroups pyRange
  have e : List.range N = 0 :: (List.range' 1 ((N - 2) / 2 - 1) ++
      List.range' ((N - 2) / 2) (N - 2 - (N - 2) / 2) ++ [N - 2, N - 1]) := by
    have h1 := List.range'_append_1 (s := 1) (m := (N - 2) / 2 - 1) (n := N - 2 - (N - 2) / 2)
    rw [show 1 + ((N - 2) / 2 - 1) = (N - 2) / 2 by omega] at h1
    rw [h1, show (N - 2) / 2 - 1 + (N - 2 - (N - 2) / 2) = N - 3 by omega]
    have h2 := List.range'_append_1 (s := 1) (m := N - 3) (n := 2)
    have h3 : List.range' (1 + (N - 3)) 2 = [N - 2, N - 1] := by
      simp [List.range'_succ, show 1 + (N - 3) = N - 2 by omega, show N - 2 + 1 = N - 1 by omega]
    rw [h3] at h2
    rw [h2, show N - 3 + 2 = N - 1 by omega, List.range_eq_range']
    obtain ⟨M, rfl⟩ : ∃ M, N = M + 1 := ⟨N - 1, by omega⟩
    simp [List.range'_succ]
  rw [e]
  simp only [List.flatten_cons, List.flatten_nil, List.append_nil, List.cons_append, List.nil_append]
  refine List.Perm.cons 0 ?_
  exact List.perm_append_comm (l₁ := [N - 2, N - 1])

theorem tet_interface (n c : ℕ) (hn : 2 ≤ n) (hc : 1 ≤ c) :
    (∀ i < n + c, (InGroup (tetGroups (n + c)) 1 i ∨ InGroup (tetGroups (n + c)) 2 i) ↔
      (lineEnds (n + c) i).1 < n ∧ (lineEnds (n + c) i).2 < n ∧
        (lineEnds (n + c) i).1 + 1 = (lineEnds (n + c) i).2) ↔ c = 2 := by
  simp only [InGroup, tetGroups, pyRange, lineEnds, List.getD_cons_succ, List.getD_cons_zero,
    List.mem_range'_1]
  constructor
  · intro h
    have h1 := h (n - 1) (by omega)
    have h2 := h n (by omega)
    simp only [show n - 1 ≠ 0 by omega, show n ≠ 0 by omega, if_false] at h1 h2
    omega
  · rintro rfl i hi
    split <;> omega

/-- **C70** (tetrahedra, interface).  For a polyline of `n` points in a domain with `c` further
corners (`N = n + c` lateral surfaces) the interface groups are exactly the surfaces over the polyline
segments *iff* the domain has two further corners. -/
theorem C70_tet_interface (n c : ℕ) (hn : 2 ≤ n) (hc : 1 ≤ c) :
    (∀ i < n + c, (InGroup (tetGroups (n + c)) 1 i ∨ InGroup (tetGroups (n + c)) 2 i) ↔
      (i + (n + c) - 1) % (n + c) < n ∧ i < n ∧
        (i + (n + c) - 1) % (n + c) + 1 = i) ↔ c = 2 :=
  by
  rw [← tet_interface n c hn hc]
  exact forall₂_congr (fun i hi => by rw [lineEnds_eq hi])

example : tetGroups 7 = [[0, 5, 6], [1], [2, 3, 4]] := by decide

/-- **C70** (hexahedra, partial).  With at least 7 surfaces (polyline with at least two segments in a
four-corner domain) each surface is in exactly one of the groups of `create_hex_mesh`.  Missing: fewer
surfaces, see `C70_hex_violated`. -/
theorem C70_hex_partition_partial (M : ℕ) (hM : 7 ≤ M) : Partition (hexGroups M) M := by
  unfold Partition hexGroups pyRange
  have e : List.range M = 0 :: 1 :: (List.range' 2 ((M - 3) / 2 - 2) ++
      List.range' ((M - 3) / 2) (M - 3 - (M - 3) / 2) ++ [M - 3, M - 2, M - 1]) := by
    have h1 := List.range'_append_1 (s := 2) (m := (M - 3) / 2 - 2) (n := M - 3 - (M - 3) / 2)
    rw [show 2 + ((M - 3) / 2 - 2) = (M - 3) / 2 by omega] at h1
    rw [h1, show (M - 3) / 2 - 2 + (M - 3 - (M - 3) / 2) = M - 5 by omega]
    have h2 := List.range'_append_1 (s := 2) (m := M - 5) (n := 3)
    have h3 : List.range' (2 + (M - 5)) 3 = [M - 3, M - 2, M - 1] := by
      simp [List.range'_succ, show 2 + (M - 5) = M - 3 by omega, show M - 3 + 1 = M - 2 by omega,
        show M - 2 + 1 = M - 1 by omega]
    rw [h3] at h2
    rw [h2, show M - 5 + 3 = M - 2 by omega, List.range_eq_range']
    obtain ⟨K, rfl⟩ : ∃ K, M = K + 2 := ⟨M - 2, by omega⟩
    simp [List.range'_succ]
  rw [e]
  simp only [List.flatten_cons, List.flatten_nil, List.append_nil, List.cons_append, List.nil_append]
  refine (List.Perm.cons 1 ?_).cons 0
  exact List.perm_append_comm (l₁ := [M - 3, M - 2, M - 1])

example : hexGroups 8 = [[0, 1, 5, 6, 7], [], [2, 3, 4]] := by decide

/-- **C70 is violated** by `create_hex_mesh` for a polyline with one segment in a four-corner domain
(six surfaces; the default `num_segments = (1, 2)` of `create_split_box_3D`): surface 1 belongs to the
outer boundary group and to an interface group. -/
theorem C70_hex_violated : ¬ Partition (hexGroups 6) 6 ∧
    InGroup (hexGroups 6) 0 1 ∧ InGroup (hexGroups 6) 2 1 := by
  refine ⟨fun h => ?_, by decide, by decide⟩
  have := h.nodup_iff.mpr List.nodup_range
  revert this; decide

/-- `InGroup` on literals is decidable. -/
example : hexGroups 6 = [[0, 1, 3, 4, 5], [], [1, 2]] := by decide

theorem unsplit_2d (n i : ℕ) (hn : 2 ≤ n) (hi : i < n + 2) :
    i ∈ unsplitGroup2d (n + 2) ↔ ¬ ((lineEnds (n + 2) i).1 < n ∧ (lineEnds (n + 2) i).2 < n ∧
      (lineEnds (n + 2) i).1 + 1 = (lineEnds (n + 2) i).2) := by
  simp only [unsplitGroup2d, slice, lineEnds, List.mem_cons, List.mem_range'_1]
  split <;> omega

/-- **C70** (unsplit box, 2D).  The boundary group contains exactly the lines of the upper polygon that
are not segments of the inner polyline (`n` points and two corners). -/
theorem C70_unsplit_2d (n i : ℕ) (hn : 2 ≤ n) (hi : i < n + 2) :
    i ∈ unsplitGroup2d (n + 2) ↔ ¬ ((i + (n + 2) - 1) % (n + 2) < n ∧ i < n ∧
      (i + (n + 2) - 1) % (n + 2) + 1 = i) :=
  by
  have := unsplit_2d n i hn hi
  rwa [lineEnds_eq hi] at this

theorem unsplit_3d_missing (n : ℕ) (hn : 2 ≤ n) :
    (∀ g, ¬ InGroup (unsplitGroups3d (n + 2)) g n) ∧
      ¬ ((lineEnds (n + 2) n).1 < n ∧ (lineEnds (n + 2) n).2 < n) := by
  constructor
  · intro g
    rcases g with _ | _ | g
    · simp [InGroup, unsplitGroups3d]; omega
    · simp [InGroup, unsplitGroups3d, slice, List.mem_range'_1]; omega
    · simp [InGroup, unsplitGroups3d]
  · simp [lineEnds]

/-- **C70 is violated** by `create_unsplit_box_3d` with tetrahedra, for every number of segments: the
outer surface over the line from the end of the polyline to the next corner (index `N - 2` of `N`) is
in no group. -/
theorem C70_unsplit_3d_violated (n : ℕ) (hn : 2 ≤ n) :
    (∀ g, ¬ InGroup (unsplitGroups3d (n + 2)) g n) ∧
      ¬ ((n + (n + 2) - 1) % (n + 2) < n ∧ n < n) :=
  by
  have := unsplit_3d_missing n hn
  rwa [lineEnds_eq (by omega)] at this

/-- Apart from that surface the groups of `create_unsplit_box_3d` are disjoint and complete. -/
theorem C70_unsplit_3d_partial (n : ℕ) (hn : 2 ≤ n) :
    ((unsplitGroups3d (n + 2)).flatten ++ [n]).Perm (List.range (n + 2)) := by
  unfold unsplitGroups3d slice
  rw [List.perm_ext_iff_of_nodup]
  · intro i; simp [List.mem_range'_1]; omega
  · simp [List.nodup_range', List.nodup_append, List.mem_range'_1]
    exact ⟨by omega, by omega, fun a _ _ => by omega⟩
  · exact List.nodup_range

/-! ### C71 -/

/-- The coordinates of the nodes of an entity. -/
def coordsOf (x : List P) (nodes : List ℕ) : List (Option P) := nodes.map (fun k => x[k]?)

theorem coords_left (x y : List P) (c : List ℕ) (h : ∀ k ∈ c, k < x.length) :
    coordsOf (x ++ y) c = coordsOf x c := by
  unfold coordsOf
  refine List.map_congr_left fun k hk => ?_
  rw [List.getElem?_append_left (h k hk)]

theorem coords_right (x y : List P) (c : List ℕ) :
    coordsOf (x ++ y) (c.map (· + x.length)) = coordsOf y c := by
  unfold coordsOf
  rw [List.map_map]
  refine List.map_congr_left fun k _ => ?_
  simp [List.getElem?_append_right]

/-- **C71** (cells).  After merging, the cells are those of the first mesh followed by those of the
second; each has the node coordinates it had before merging. -/
theorem C71_cells (a b : MeshData P) (ha : ∀ c ∈ a.cells, ∀ k ∈ c, k < a.x.length) :
    (merge a b).cells.map (coordsOf (merge a b).x)
      = a.cells.map (coordsOf a.x) ++ b.cells.map (coordsOf b.x) := by
  simp only [merge, List.map_append, List.map_map]
  congr 1
  · exact List.map_congr_left fun c hc => coords_left _ _ _ (ha c hc)
  · exact List.map_congr_left fun c _ => coords_right _ _ _

/-- **C71** (facets). -/
theorem C71_facets (a b : MeshData P) (ha : ∀ c ∈ a.facets, ∀ k ∈ c, k < a.x.length) :
    (merge a b).facets.map (coordsOf (merge a b).x)
      = a.facets.map (coordsOf a.x) ++ b.facets.map (coordsOf b.x) := by
  simp only [merge, List.map_append, List.map_map]
  congr 1
  · exact List.map_congr_left fun c hc => coords_left _ _ _ (ha c hc)
  · exact List.map_congr_left fun c _ => coords_right _ _ _

/-- **C71** (markers).  Cell and facet values stay attached to their entities. -/
theorem C71_values (a b : MeshData P) (hc : a.cellData.length = a.cells.length)
    (hf : a.facetValues.length = a.facets.length)
    (hac : ∀ c ∈ a.cells, ∀ k ∈ c, k < a.x.length) (haf : ∀ c ∈ a.facets, ∀ k ∈ c, k < a.x.length) :
    ((merge a b).cells.map (coordsOf (merge a b).x)).zip (merge a b).cellData
      = (a.cells.map (coordsOf a.x)).zip a.cellData ++ (b.cells.map (coordsOf b.x)).zip b.cellData ∧
    ((merge a b).facets.map (coordsOf (merge a b).x)).zip (merge a b).facetValues
      = (a.facets.map (coordsOf a.x)).zip a.facetValues
        ++ (b.facets.map (coordsOf b.x)).zip b.facetValues := by
  rw [C71_cells a b hac, C71_facets a b haf]
  constructor
  · exact List.zip_append (by simp [hc])
  · exact List.zip_append (by simp [hf])

/-- **C71** (separation).  No cell or facet of the merged mesh has nodes of both parts, and all node
indices are in range. -/
theorem C71_separate (a b : MeshData P)
    (ha : ∀ c ∈ a.cells ++ a.facets, ∀ k ∈ c, k < a.x.length)
    (hb : ∀ c ∈ b.cells ++ b.facets, ∀ k ∈ c, k < b.x.length) :
    ∀ c ∈ (merge a b).cells ++ (merge a b).facets,
      (∀ k ∈ c, k < a.x.length) ∨ (∀ k ∈ c, a.x.length ≤ k ∧ k < (merge a b).x.length) := by
  intro c hc
  simp only [merge, List.mem_append, List.mem_map] at hc ha hb ⊢
  rcases hc with (hc | ⟨c', hc, rfl⟩) | (hc | ⟨c', hc, rfl⟩)
  · exact .inl (ha c (.inl hc))
  · right; intro k hk
    obtain ⟨k', hk', rfl⟩ := List.mem_map.mp hk
    have := hb c' (.inl hc) k' hk'
    simp; omega
  · exact .inl (ha c (.inr hc))
  · right; intro k hk
    obtain ⟨k', hk', rfl⟩ := List.mem_map.mp hk
    have := hb c' (.inr hc) k' hk'
    simp; omega

/-- Two triangles. -/
def exA : MeshData (ℕ × ℕ) := ⟨[(0, 0), (1, 0), (0, 1)], [[0, 1, 2]], [1], [[0, 1]], [2]⟩
def exB : MeshData (ℕ × ℕ) := ⟨[(5, 0), (6, 0), (5, 1)], [[2, 1, 0]], [5], [[1, 2]], [6]⟩

example : (∀ c ∈ exA.cells ++ exA.facets, ∀ k ∈ c, k < exA.x.length) ∧
    (∀ c ∈ exB.cells ++ exB.facets, ∀ k ∈ c, k < exB.x.length) ∧
    (merge exA exB).cells = [[0, 1, 2], [5, 4, 3]] ∧ (merge exA exB).facets = [[0, 1], [4, 5]] := by
  decide

/-! ### C72 -/

/-- `u` satisfies the variable bounds handed to SNES at the node `x`. -/
def WithinBounds (gdim : ℕ) (planeLoc : ℝ) (x u : ℕ → ℝ) : Prop :=
  ∀ i < gdim, umin gdim planeLoc x i ≤ u i ∧ u i ≤ umax gdim planeLoc x i

/-- **C72**.  A displacement of a node satisfies the bounds iff the deformed position lies on or above
the plane at height `-plane_loc` in the last coordinate, and inside the artificial box of half width
`10^7` otherwise. -/
theorem C72_bounds (d : ℕ) (g : ℝ) (x u : ℕ → ℝ) :
    WithinBounds (d + 1) g x u ↔
      (-g ≤ x d + u d ∧ x d + u d ≤ 10000000) ∧ ∀ i < d, |x i + u i| ≤ 10000000 := by
  unfold WithinBounds umin umax lims
  constructor
  · intro h
    refine ⟨?_, fun i hi => ?_⟩
    · have := h d (by omega)
      rw [if_pos (by omega), if_neg (by omega), if_neg (by omega)] at this
      constructor <;> linarith [this.1, this.2]
    · have := h i (by omega)
      rw [if_neg (by omega), if_pos (by omega), if_neg (by omega), if_neg (by omega)] at this
      rw [abs_le]; constructor <;> linarith [this.1, this.2]
  · rintro ⟨h1, h2⟩ i hi
    rcases Nat.lt_or_ge i d with hid | hid
    · rw [if_neg (by omega), if_pos (by omega), if_neg (by omega), if_neg (by omega)]
      have := abs_le.mp (h2 i hid)
      constructor <;> linarith [this.1, this.2]
    · have : i = d := by omega
      subst this
      rw [if_pos (by omega), if_neg (by omega), if_neg (by omega)]
      constructor <;> linarith [h1.1, h1.2]

/-- A node at height 1/2 moved down to height 0, in two dimensions, plane at height 0. -/
example : WithinBounds 2 0 (fun _ => 1 / 2) (fun _ => -1 / 2) := by
  rw [C72_bounds]
  norm_num [abs_le]

/-- **C72 is violated** if `plane_loc` is "the location of the plane in y-coordinate (2D) and
z-coordinate (3D)", as its documentation says: for every nonzero location (of size less than `10^7`) and
every node the bounds and the statement "the deformed node is on or above height `plane_loc`" disagree
for some displacement. -/
theorem C72_location_violated (d : ℕ) (g : ℝ) (hg : g ≠ 0) (hb : |g| ≤ 10000000) (x : ℕ → ℝ) :
    ∃ u, ¬ (WithinBounds (d + 1) g x u ↔
      (g ≤ x d + u d ∧ x d + u d ≤ 10000000) ∧ ∀ i < d, |x i + u i| ≤ 10000000) := by
  have hb' := abs_le.mp hb
  refine ⟨fun i => (if i = d then -|g| else 0) - x i, fun h => ?_⟩
  rw [C72_bounds] at h
  have e : x d + ((if d = d then -|g| else 0) - x d) = -|g| := by simp
  rw [e] at h
  have hi : ∀ i < d, |x i + ((if i = d then -|g| else 0) - x i)| ≤ 10000000 := by
    intro i hi; simp [show i ≠ d by omega]
  have hneg : -|g| ≤ (10000000 : ℝ) := by linarith [abs_nonneg g]
  rcases lt_or_gt_of_ne hg with h0 | h0
  · rw [abs_of_neg h0] at h
    have := h.mpr ⟨⟨by linarith, by linarith [hb'.1]⟩, by simpa [abs_of_neg h0] using hi⟩
    linarith [this.1.1]
  · rw [abs_of_pos h0] at h
    have := h.mp ⟨⟨by linarith, by linarith⟩, by simpa [abs_of_pos h0] using hi⟩
    linarith [this.1.1]

end Verif.Meshing
