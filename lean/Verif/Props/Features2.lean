import Verif.Proofs.Features4

/-!
# C47: `Features::new` and the searches by location
-/
namespace Gemlab.Props.Features
noncomputable section
open Gemlab Gemlab.Mesh Gemlab.Shapes Gemlab.Props.Mesh Gemlab.Spec Gemlab.GridSearch

/-! ## The data structure -/

/-- `q` is a feature point: a point of an extracted edge or face, or of a rod, or (in 3D) of a shell. -/
def FeaturePoint (m : Mesh ℝ) (x : Extracted ℝ) (q : Nat) : Prop :=
  q ∈ x.points ∨ ∃ cell ∈ m.cells, IsRodOrShell m cell ∧ q ∈ cell.points

/-- What `Features::new` must return, given the extracted edges, faces and points `x`. -/
structure IsNew (m : Mesh ℝ) (extractAll : Bool) (x : Extracted ℝ) (F : Features) : Prop where
  mesh : F.mesh = m
  extracted : IsExtracted m extractAll x
  edges : F.edges = x.edges
  faces : F.faces = x.faces
  all2d : m.ndim = 2 → extractAll2dEdges m = .ok F.all2dEdges
  all3d : m.ndim = 3 → extractAllFaces m = .ok F.allFaces
  points : ∀ q, q ∈ F.points ↔ FeaturePoint m x q
  nodup : F.points.Nodup
  range : ∀ q ∈ F.points, q < m.points.length
  box : IsBoundingBox m.ndim (F.points.map (coordsOf m)) F.min F.max
  cables : ∀ c, c ∈ F.cables ↔ ∃ cell, m.cells[c]? = some cell ∧ cell.kind.ndim = 1
  shells : ∀ c, c ∈ F.shells ↔ m.ndim = 3 ∧ ∃ cell, m.cells[c]? = some cell ∧ cell.kind.ndim = 2
  grid : ∃ ids : List Nat, ids.Perm F.points ∧ Reached F.min F.max none none none F.grid (ids.map fun q => (q, coordsOf m q))
  pointToEdges : ∀ p k, k ∈ (F.pointToEdges.get p).getD [] ↔ ∃ f, F.edges.get k = some f ∧ p ∈ f.points
  pointToFaces : ∀ p k, k ∈ (F.pointToFaces.get p).getD [] ↔ ∃ f, F.faces.get k = some f ∧ p ∈ f.points

theorem IsExtracted.wf {m : Mesh ℝ} {b : Bool} {x : Extracted ℝ} (h : IsExtracted m b x) : x.edges.WF ∧ x.faces.WF := by
  rcases h with ⟨_, h⟩ | ⟨_, h⟩
  · exact ⟨h.keysNodup, by rw [h.noFaces]; exact HMap.wf_nil⟩
  · exact ⟨h.keysNodup.2, h.keysNodup.1⟩

theorem f64Max_pos : 0 < f64Max := by unfold f64Max; norm_num

/-- Limits of an empty set of points, or flat limits, are not accepted by the grid. -/
theorem spread_iff {m : Mesh ℝ} (hc : ∀ p ∈ m.points, p.coords.length = m.ndim)
    (hb : ∀ p ∈ m.points, ∀ v ∈ p.coords, -f64Max ≤ v ∧ v ≤ f64Max) (hd : 0 < m.ndim)
    {pts : List Nat} {s : List Nat × (List ℝ × List ℝ)} (H : PtsInv f64Max (-f64Max) m pts s) :
    (∀ i < s.2.1.length, 0 < boxLen s.2.1 s.2.2 i) ↔
      ∀ i < m.ndim, ∃ p q, p ∈ pts ∧ q ∈ pts ∧ (coordsOf m p).getD i 0 < (coordsOf m q).getD i 0 := by
  have l1 := H.lim.lenMin
  have l2 := H.lim.lenMax
  have hcoord : ∀ q ∈ pts, ∀ i < m.ndim, (coordsOf m q)[i]? = some ((coordsOf m q).getD i 0) := by
    intro q hq i hi
    have := coordsOf_length hc (H.range q hq)
    rw [List.getD_eq_getElem?_getD, List.getElem?_eq_getElem (by omega)]; rfl
  have g1 : ∀ i < m.ndim, s.2.1[i]? = some (s.2.1.getD i 0) := by
    intro i hi; rw [List.getD_eq_getElem?_getD, List.getElem?_eq_getElem (by omega)]; rfl
  have g2 : ∀ i < m.ndim, s.2.2[i]? = some (s.2.2.getD i 0) := by
    intro i hi; rw [List.getD_eq_getElem?_getD, List.getElem?_eq_getElem (by omega)]; rfl
  rw [l1]
  constructor
  · intro h i hi
    have hlt := h i hi
    by_cases hne : s.1 = []
    · exfalso
      have hp : pts = [] := by
        rw [List.eq_nil_iff_forall_not_mem]; intro q hq
        have := (H.mem q).2 hq; rw [hne] at this; simp at this
      have h1 := H.lim.minMem i _ (g1 i hi)
      have h2 := H.lim.maxMem i _ (g2 i hi)
      rw [hp] at h1 h2
      simp only [List.map_nil, List.not_mem_nil, false_and, exists_false, or_false] at h1 h2
      unfold boxLen at hlt
      rw [h1, h2] at hlt
      have := f64Max_pos
      linarith
    · have B := H.box hc hb hne
      obtain ⟨x, hx, ex⟩ := B.attainedMin i _ (g1 i hi)
      obtain ⟨y, hy, ey⟩ := B.attainedMax i _ (g2 i hi)
      obtain ⟨p, hp, rfl⟩ := List.mem_map.1 hx
      obtain ⟨q, hq, rfl⟩ := List.mem_map.1 hy
      have hp' := (H.mem p).1 hp
      have hq' := (H.mem q).1 hq
      refine ⟨p, q, hp', hq', ?_⟩
      rw [hcoord p hp' i hi, Option.some.injEq] at ex
      rw [hcoord q hq' i hi, Option.some.injEq] at ey
      rw [ex, ey]
      exact sub_pos.1 hlt
  · intro h i hi
    obtain ⟨p, q, hp, hq, hlt⟩ := h i hi
    have a1 := (H.lim.minLe i _ (g1 i hi)).2 _ (List.mem_map.2 ⟨p, hp, rfl⟩) _ (hcoord p hp i hi)
    have a2 := (H.lim.maxGe i _ (g2 i hi)).2 _ (List.mem_map.2 ⟨q, hq, rfl⟩) _ (hcoord q hq i hi)
    unfold boxLen
    linarith

theorem mem_cables {m : Mesh ℝ} (h : ValidMesh m) (n c : Nat) :
    c ∈ (m.cells.filterMap fun c => if c.kind.ndim = n then some c.id else none) ↔ ∃ cell, m.cells[c]? = some cell ∧ cell.kind.ndim = n := by
  rw [List.mem_filterMap]
  constructor
  · rintro ⟨cell, hm, he⟩
    split at he
    · rename_i hn
      obtain ⟨i, hi⟩ := List.mem_iff_getElem?.1 hm
      have := h.cellIds i cell hi
      simp only [Option.some.injEq] at he
      have hic : i = c := by omega
      subst hic
      exact ⟨cell, hi, hn⟩
    · simp at he
  · rintro ⟨cell, hc, hn⟩
    refine ⟨cell, List.mem_of_getElem? hc, ?_⟩
    rw [if_pos hn, h.cellIds c cell hc]

/-- **C47.** `Features::new` on a valid 2D or 3D mesh: if the feature points are spread in every direction it succeeds and
returns the structure described by `IsNew`; otherwise (a flat or empty set of feature points) it panics. -/
theorem C47_new (m : Mesh ℝ) (h : ValidMesh m) (hd : m.ndim = 2 ∨ m.ndim = 3)
    (hb : ∀ p ∈ m.points, ∀ v ∈ p.coords, -f64Max ≤ v ∧ v ≤ f64Max) (o : Orders) (ho : o.Valid) (extractAll : Bool) :
    ∃ x, IsExtracted m extractAll x ∧
      ((∀ i < m.ndim, ∃ p q, FeaturePoint m x p ∧ FeaturePoint m x q ∧ (coordsOf m p).getD i 0 < (coordsOf m q).getD i 0) →
        ∃ F, Features.new o m extractAll = .ok F ∧ IsNew m extractAll x F) ∧
      (¬(∀ i < m.ndim, ∃ p q, FeaturePoint m x p ∧ FeaturePoint m x q ∧ (coordsOf m p).getD i 0 < (coordsOf m q).getD i 0) →
        Features.new o m extractAll = .panic) := by
  obtain ⟨a, b, x, e1, hx, hpi, ha, hbb⟩ := extract_spec h hd hb ho extractAll
  obtain ⟨s, pts, e2, hp, hm⟩ := addRodsAndShells_spec h hpi
  have hfp : ∀ q, q ∈ pts ↔ FeaturePoint m x q := hm
  have hsp := spread_iff h.coords hb (by omega) hp
  simp only [hfp] at hsp
  have hlen := hp.lim.lenMin
  have hlen2 := hp.lim.lenMax
  refine ⟨x, hx, ?_, ?_⟩
  · intro hs
    obtain ⟨g0, hg0⟩ := (gridNew_none_iff s.2.1 s.2.2).2 ⟨by omega, by omega, hsp.2 hs⟩
    have hne : s.1 ≠ [] := by
      obtain ⟨p, _, hp', _⟩ := hs 0 (by omega)
      intro he
      have := (hp.mem p).2 ((hfp p).2 hp')
      rw [he] at this; simp at this
    have B := hp.box h.coords hb hne
    have hmem : ∀ q, q ∈ o.points s.1 ↔ q ∈ s.1 := fun q => ho.points.mem
    have hrange : ∀ q ∈ s.1, q < m.points.length := fun q hq => hp.range q ((hp.mem q).1 hq)
    obtain ⟨g, hg, hr⟩ := insertPoints_spec h.coords hg0 hlen hlen2 (o.points s.1) (fun q hq => hrange q ((hmem q).1 hq))
      (fun q hq i a v b h1 h2 h3 => B.inside _ (List.mem_map.2 ⟨q, (hmem q).1 hq, rfl⟩) i a v b h1 h2 h3)
    refine ⟨{ mesh := m, all2dEdges := a, allFaces := b, points := s.1, edges := x.edges, faces := x.faces,
              cables := m.cells.filterMap fun c => if c.kind.ndim = 1 then some c.id else none
              shells := if m.ndim = 3 then m.cells.filterMap fun c => if c.kind.ndim = 2 then some c.id else none else []
              min := s.2.1, max := s.2.2, grid := g,
              pointToEdges := pointToFeatures (o.edges x.edges),
              pointToFaces := pointToFeatures (o.faces x.faces) }, ?_, ?_⟩
    · unfold Features.new
      rw [e1, Res.bind_ok]
      dsimp only
      rw [e2, Res.bind_ok, hg0]
      dsimp only [unwrapRes]
      rw [Res.bind_ok, hg, Res.bind_ok]
      rfl
    · have hw := IsExtracted.wf hx
      refine ⟨rfl, hx, rfl, rfl, ha, hbb, fun q => (hp.mem q).trans (hfp q), hp.nodup, hrange, B, mem_cables h 1, ?_,
        ⟨o.points s.1, ho.points _, hr⟩, ?_, ?_⟩
      · intro c
        dsimp only
        split
        · rename_i h3; rw [mem_cables h 2]; simp [h3]
        · rename_i h3; simp [h3]
      · intro p k
        dsimp only
        rw [mem_pointToFeatures]
        simp only [ho.edges.mem, HMap.get_eq_some_iff hw.1]
      · intro p k
        dsimp only
        rw [mem_pointToFeatures]
        simp only [ho.faces.mem, HMap.get_eq_some_iff hw.2]
  · intro hs
    have hng : ¬∃ g, GridSearch.new s.2.1 s.2.2 none none none = .ok g := by
      rw [gridNew_none_iff]
      rintro ⟨_, _, h3⟩
      exact hs (hsp.1 h3)
    unfold Features.new
    rw [e1, Res.bind_ok]
    dsimp only
    rw [e2, Res.bind_ok]
    cases hr : GridSearch.new s.2.1 s.2.2 none none none with
    | ok g => exact absurd ⟨g, hr⟩ hng
    | err e => rfl
    | panic => rfl

/-! ## Search of points -/

/-- The set of points described by a location: a line, plane, circle, cylinder, or a single point. -/
def Locus (ndim : Nat) : At → List ℝ → Prop
  | .X x, s => s.length = ndim ∧ s.getD 0 0 = x
  | .Y y, s => s.length = ndim ∧ s.getD 1 0 = y
  | .Z z, s => s.length = ndim ∧ s.getD 2 0 = z
  | .XY x y, s => s.length = ndim ∧ s.getD 0 0 = x ∧ s.getD 1 0 = y
  | .YZ y z, s => s.length = ndim ∧ s.getD 1 0 = y ∧ s.getD 2 0 = z
  | .XZ x z, s => s.length = ndim ∧ s.getD 0 0 = x ∧ s.getD 2 0 = z
  | .XYZ x y z, s => s = [x, y, z]
  | .Circle x y r, s => OnCircle [x, y] r s
  | .Cylinder ax ay az bx by' bz r, s => OnCylinder [ax, ay, az] [bx, by', bz] r s

/-- `p` is at the location: its distance to the locus is at most the tolerance `√ndim · 10⁻⁴` of the grid. -/
def Near (ndim : Nat) (a : At) (p : List ℝ) : Prop := ∃ d, IsDistTo p (Locus ndim a) d ∧ d ≤ Real.sqrt ndim * (1 / 10000)

/-- Locations that make sense in this dimension (non-negative radii; the axis of a cylinder is not degenerate). -/
def Supported (ndim : Nat) : At → Prop
  | .X _ | .Y _ | .XY _ _ => True
  | .Z _ | .YZ _ _ | .XZ _ _ | .XYZ _ _ _ => ndim = 3
  | .Circle _ _ r => ndim = 2 ∧ 0 ≤ r
  | .Cylinder ax ay az bx by' bz r => ndim = 3 ∧ 0 ≤ r ∧ f64Epsilon < euclid [ax, ay, az] [bx, by', bz] ^ 2

/-- Locations for another dimension. -/
def WrongDimension (ndim : Nat) : At → Prop
  | .X _ | .Y _ | .XY _ _ => False
  | .Z _ | .YZ _ _ | .XZ _ _ | .XYZ _ _ _ => ndim = 2
  | .Circle _ _ _ => ndim = 3
  | .Cylinder _ _ _ _ _ _ _ => ndim = 2

/-- Location given by all coordinates of a point. -/
def pointOf (ndim : Nat) : At → Option (List ℝ)
  | .XY x y => if ndim = 2 then some [x, y] else none
  | .XYZ x y z => if ndim = 3 then some [x, y, z] else none
  | _ => none

theorem isDistTo_congr {S S' : List ℝ → Prop} (h : ∀ s, S s ↔ S' s) (p : List ℝ) (d : ℝ) : IsDistTo p S d ↔ IsDistTo p S' d := by
  have : S = S' := funext fun s => propext (h s)
  rw [this]

theorem isDistTo_unique {S : List ℝ → Prop} {p : List ℝ} {d d' : ℝ} (h : IsDistTo p S d) (h' : IsDistTo p S d') : d = d' := by
  obtain ⟨⟨s, hs, rfl⟩, h2⟩ := h
  obtain ⟨⟨s', hs', rfl⟩, h2'⟩ := h'
  exact le_antisymm (h2 _ hs') (h2' _ hs)

theorem line2 (x y x' y' : ℝ) (s : List ℝ) : OnLine [x, y] [x', y'] s ↔ ∃ t, s = [x + t * (x' - x), y + t * (y' - y)] := Iff.rfl
theorem line3 (x y z x' y' z' : ℝ) (s : List ℝ) :
    OnLine [x, y, z] [x', y', z'] s ↔ ∃ t, s = [x + t * (x' - x), y + t * (y' - y), z + t * (z' - z)] := Iff.rfl

theorem onLine_x (x : ℝ) (s : List ℝ) : OnLine [x, 0] [x, 1] s ↔ Locus 2 (.X x) s := by
  rw [line2]
  constructor
  · rintro ⟨t, rfl⟩; simp [Locus]
  · rintro ⟨h, h'⟩
    obtain ⟨a, b, rfl⟩ := List.length_eq_two.1 h
    simp only [List.getD_cons_zero] at h'
    exact ⟨b, by simp [h']⟩

theorem onLine_y (x : ℝ) (s : List ℝ) : OnLine [0, x] [1, x] s ↔ Locus 2 (.Y x) s := by
  rw [line2]
  constructor
  · rintro ⟨t, rfl⟩; simp [Locus]
  · rintro ⟨h, h'⟩
    obtain ⟨a, b, rfl⟩ := List.length_eq_two.1 h
    simp only [List.getD_cons_zero, List.getD_cons_succ] at h'
    exact ⟨a, by simp [h']⟩

theorem onLine_xy (x y : ℝ) (s : List ℝ) : OnLine [x, y, 0] [x, y, 1] s ↔ Locus 3 (.XY x y) s := by
  rw [line3]
  constructor
  · rintro ⟨t, rfl⟩; simp [Locus]
  · rintro ⟨h, h1, h2⟩
    obtain ⟨a, b, c, rfl⟩ := List.length_eq_three.1 h
    simp only [List.getD_cons_zero, List.getD_cons_succ] at h1 h2
    exact ⟨c, by simp [h1, h2]⟩

theorem onLine_yz (x y : ℝ) (s : List ℝ) : OnLine [0, x, y] [1, x, y] s ↔ Locus 3 (.YZ x y) s := by
  rw [line3]
  constructor
  · rintro ⟨t, rfl⟩; simp [Locus]
  · rintro ⟨h, h1, h2⟩
    obtain ⟨a, b, c, rfl⟩ := List.length_eq_three.1 h
    simp only [List.getD_cons_zero, List.getD_cons_succ] at h1 h2
    exact ⟨a, by simp [h1, h2]⟩

theorem onLine_xz (x y : ℝ) (s : List ℝ) : OnLine [x, 0, y] [x, 1, y] s ↔ Locus 3 (.XZ x y) s := by
  rw [line3]
  constructor
  · rintro ⟨t, rfl⟩; simp [Locus]
  · rintro ⟨h, h1, h2⟩
    obtain ⟨a, b, c, rfl⟩ := List.length_eq_three.1 h
    simp only [List.getD_cons_zero, List.getD_cons_succ] at h1 h2
    exact ⟨b, by simp [h1, h2]⟩

theorem plane_dist (dim : Nat) (hdim : dim < 3) (c : ℝ) (p : List ℝ) (hp : p.length = 3) :
    IsDistTo p (fun s => s.length = 3 ∧ s.getD dim 0 = c) |p.getD dim 0 - c| := by
  obtain ⟨x, y, z, rfl⟩ := List.length_eq_three.1 hp
  have key : ∀ u v w : ℝ, |u| ≤ Real.sqrt (u ^ 2 + v ^ 2 + w ^ 2) := fun u v w =>
    Real.abs_le_sqrt (by nlinarith [sq_nonneg v, sq_nonneg w])
  have ex : ∀ x y z x' y' z' : ℝ, euclid [x, y, z] [x', y', z'] = Real.sqrt ((x - x') ^ 2 + (y - y') ^ 2 + (z - z') ^ 2) := by
    intros; unfold euclid; simp [Finset.sum_range_succ]
  constructor
  · refine ⟨[x, y, z].set dim c, ?_, ?_⟩
    · interval_cases dim <;> simp
    · interval_cases dim
      all_goals
        simp only [List.set_cons_zero, List.set_cons_succ, List.getD_cons_zero, List.getD_cons_succ]
        rw [ex]; simp [Real.sqrt_sq_eq_abs]
  · rintro s ⟨hs, h0⟩
    obtain ⟨x', y', z', rfl⟩ := List.length_eq_three.1 hs
    rw [ex]
    interval_cases dim
    all_goals simp only [List.getD_cons_zero, List.getD_cons_succ] at h0 ⊢
    all_goals subst h0
    · exact key _ _ _
    · refine (key _ (x - x') (z - z')).trans (Real.sqrt_le_sqrt (by linarith))
    · refine (key _ (x - x') (y - y')).trans (Real.sqrt_le_sqrt (by linarith))

theorem near_plane (dim : Nat) (hdim : dim < 3) (c : ℝ) (p : List ℝ) (hp : p.length = 3) (T : ℝ) :
    |p.getD dim 0 - c| ≤ T ↔ ∃ d, IsDistTo p (fun s => s.length = 3 ∧ s.getD dim 0 = c) d ∧ d ≤ T := by
  have h := plane_dist dim hdim c p hp
  constructor
  · exact fun h' => ⟨_, h, h'⟩
  · rintro ⟨d, hd, h'⟩
    rw [isDistTo_unique h hd]; exact h'

variable {m : Mesh ℝ} {extractAll : Bool} {x : Extracted ℝ} {F : Features} {go : GridOrders}

theorem euclid_axis2 (x y x' y' : ℝ) (h : (x - x') ^ 2 + (y - y') ^ 2 = 1) : f64Epsilon < euclid [x, y] [x', y'] ^ 2 := by
  unfold euclid
  simp only [List.length_cons, List.length_nil, Finset.sum_range_succ, Finset.range_zero, Finset.sum_empty, List.getD_cons_zero,
    List.getD_cons_succ, zero_add]
  rw [h]; unfold f64Epsilon; norm_num

theorem euclid_axis3 (x y z x' y' z' : ℝ) (h : (x - x') ^ 2 + (y - y') ^ 2 + (z - z') ^ 2 = 1) :
    f64Epsilon < euclid [x, y, z] [x', y', z'] ^ 2 := by
  unfold euclid
  simp only [List.length_cons, List.length_nil, Finset.sum_range_succ, Finset.range_zero, Finset.sum_empty, List.getD_cons_zero,
    List.getD_cons_succ, zero_add]
  rw [h]; unfold f64Epsilon; norm_num

theorem searchGrid_spec (hF : IsNew m extractAll x F) (h : ValidMesh m) (hO : IterOrder go.outer) (hI : IterOrder go.inner)
    (hd : m.ndim = 2 ∨ m.ndim = 3) (a : At) (filter : List ℝ → Bool) (hs : Supported m.ndim a) (hp : pointOf m.ndim a = none) :
    ∃ ids, searchGrid go m.ndim F.grid a filter = .ok ids ∧
      ∀ q, q ∈ ids ↔ q ∈ F.points ∧ Near m.ndim a (coordsOf m q) ∧ filter (coordsOf m q) = true := by
  obtain ⟨pids, hperm, hr⟩ := hF.grid
  have hlen : F.min.length = m.ndim := hF.box.lenMin
  have hnd : ((pids.map fun q => (q, coordsOf m q)).map (·.1)).Nodup := by
    rw [List.map_map]
    have : ((fun e : Nat × List ℝ => e.1) ∘ fun q => (q, coordsOf m q)) = id := rfl
    rw [this, List.map_id]
    exact hperm.nodup_iff.2 hF.nodup
  have fin : ∀ (S : List ℝ → Prop) (ids : List Nat), ExactQuery (pids.map fun q => (q, coordsOf m q)) S ids →
      (∀ q ∈ F.points, S (coordsOf m q) ↔ Near m.ndim a (coordsOf m q) ∧ filter (coordsOf m q) = true) →
      ∀ q, q ∈ ids ↔ q ∈ F.points ∧ Near m.ndim a (coordsOf m q) ∧ filter (coordsOf m q) = true := by
    intro S ids hq hS q
    rw [hq.iff_of_nodup hnd]
    constructor
    · rintro ⟨y, hy, hSy⟩
      obtain ⟨q', hq', he⟩ := List.mem_map.1 hy
      simp only [Prod.mk.injEq] at he
      obtain ⟨rfl, rfl⟩ := he
      have := hperm.mem_iff.1 hq'
      exact ⟨this, (hS _ this).1 hSy⟩
    · rintro ⟨h1, h2⟩
      exact ⟨_, List.mem_map.2 ⟨q, hperm.mem_iff.2 h1, rfl⟩, (hS q h1).2 h2⟩
  have hcl : ∀ q ∈ F.points, (coordsOf m q).length = m.ndim := fun q hq => coordsOf_length h.coords (hF.range q hq)
  have line : ∀ (u v : List ℝ), u.length = m.ndim → v.length = m.ndim → f64Epsilon < euclid u v ^ 2 →
      (∀ s, OnLine u v s ↔ Locus m.ndim a s) →
      ∃ ids, GridSearch.searchOnLine go.outer go.inner F.grid u v filter = .ok ids ∧
      ∀ q, q ∈ ids ↔ q ∈ F.points ∧ Near m.ndim a (coordsOf m q) ∧ filter (coordsOf m q) = true := by
    intro u v hu hv huv hl
    obtain ⟨ids, e, hq⟩ := C14_line hr hO hI u v (by omega) (by omega) huv filter
    refine ⟨ids, e, fin _ _ hq ?_⟩
    intro q _
    rw [hlen]
    simp only [isDistTo_congr hl, Option.getD_none]
    exact Iff.rfl
  have plane : ∀ (dim : Nat) (c : ℝ), m.ndim = 3 → dim < 3 → (∀ s, (s.length = 3 ∧ s.getD dim 0 = c) ↔ Locus 3 a s) →
      ∃ ids, GridSearch.searchOnPlane go.outer go.inner F.grid dim c filter = .ok ids ∧
      ∀ q, q ∈ ids ↔ q ∈ F.points ∧ Near m.ndim a (coordsOf m q) ∧ filter (coordsOf m q) = true := by
    intro dim c h3 hdim hl
    obtain ⟨ids, e, hq⟩ := C14_plane hr hO hI (by omega) dim hdim c filter
    refine ⟨ids, e, fin _ _ hq ?_⟩
    intro q hq
    have := hcl q hq
    unfold Near
    rw [h3, near_plane dim hdim c _ (by omega)]
    simp only [isDistTo_congr hl, Option.getD_none, Nat.cast_ofNat]
  unfold searchGrid
  cases a with
  | X v =>
    dsimp only
    rcases hd with h2 | h3
    · rw [if_pos h2]
      exact line _ _ (by simp [h2]) (by simp [h2]) (euclid_axis2 _ _ _ _ (by norm_num)) (by rw [h2]; exact onLine_x v)
    · rw [if_neg (by omega)]; exact plane 0 v h3 (by omega) (fun s => Iff.rfl)
  | Y v =>
    dsimp only
    rcases hd with h2 | h3
    · rw [if_pos h2]
      exact line _ _ (by simp [h2]) (by simp [h2]) (euclid_axis2 _ _ _ _ (by norm_num)) (by rw [h2]; exact onLine_y v)
    · rw [if_neg (by omega)]; exact plane 1 v h3 (by omega) (fun s => Iff.rfl)
  | Z v =>
    have h3 : m.ndim = 3 := hs
    dsimp only
    rw [if_neg (by omega)]; exact plane 2 v h3 (by omega) (fun s => Iff.rfl)
  | XY u v =>
    rcases hd with h2 | h3
    · simp [pointOf, h2] at hp
    · dsimp only; rw [if_neg (by omega)]
      exact line _ _ (by simp [h3]) (by simp [h3]) (euclid_axis3 _ _ _ _ _ _ (by norm_num)) (by rw [h3]; exact onLine_xy u v)
  | YZ u v =>
    have h3 : m.ndim = 3 := hs
    dsimp only; rw [if_neg (by omega)]
    exact line _ _ (by simp [h3]) (by simp [h3]) (euclid_axis3 _ _ _ _ _ _ (by norm_num)) (by rw [h3]; exact onLine_yz u v)
  | XZ u v =>
    have h3 : m.ndim = 3 := hs
    dsimp only; rw [if_neg (by omega)]
    exact line _ _ (by simp [h3]) (by simp [h3]) (euclid_axis3 _ _ _ _ _ _ (by norm_num)) (by rw [h3]; exact onLine_xz u v)
  | XYZ u v w =>
    have h3 : m.ndim = 3 := hs
    simp [pointOf, h3] at hp
  | Circle u v r =>
    obtain ⟨h2, hr0⟩ : m.ndim = 2 ∧ 0 ≤ r := hs
    dsimp only; rw [if_pos h2]
    obtain ⟨ids, e, hq⟩ := C14_circle hr hO hI (by omega) [u, v] r hr0 rfl filter
    refine ⟨ids, e, fin _ _ hq ?_⟩
    intro q _
    unfold Near
    rw [h2, Option.getD_none, Nat.cast_ofNat]
    exact Iff.rfl
  | Cylinder ax ay az bx by' bz r =>
    obtain ⟨h3, hr0, hab⟩ : m.ndim = 3 ∧ 0 ≤ r ∧ f64Epsilon < euclid [ax, ay, az] [bx, by', bz] ^ 2 := hs
    dsimp only; rw [if_neg (by omega)]
    obtain ⟨ids, e, hq⟩ := C14_cylinder hr hO hI (by omega) [ax, ay, az] [bx, by', bz] r hr0 rfl rfl hab filter
    refine ⟨ids, e, fin _ _ hq ?_⟩
    intro q _
    unfold Near
    rw [h3, Option.getD_none, Nat.cast_ofNat]
    exact Iff.rfl

theorem sortedDedup (ids : List Nat) : (ids.dedup.insertionSort (· ≤ ·)).Pairwise (· < ·) ∧
    ∀ q, q ∈ ids.dedup.insertionSort (· ≤ ·) ↔ q ∈ ids := by
  have hp := List.perm_insertionSort (· ≤ ·) ids.dedup
  constructor
  · have h1 := List.pairwise_insertionSort (· ≤ ·) ids.dedup
    have h2 : (ids.dedup.insertionSort (· ≤ ·)).Nodup := hp.nodup_iff.2 (List.nodup_dedup ids)
    exact (h1.and h2).imp (fun {a b} h => lt_of_le_of_ne h.1 h.2)
  · intro q; rw [hp.mem_iff, List.mem_dedup]

/-- **C47.** Search of points at a line, plane, circle or cylinder: the sorted list, without repetition, of exactly the feature
points whose distance to the location is within the tolerance and that satisfy the filter; an error if there are none. -/
theorem C47_points (hF : IsNew m extractAll x F) (h : ValidMesh m) (hO : IterOrder go.outer) (hI : IterOrder go.inner)
    (hd : m.ndim = 2 ∨ m.ndim = 3) (a : At) (filter : List ℝ → Bool) (hs : Supported m.ndim a) (hp : pointOf m.ndim a = none) :
    ((∃ q ∈ F.points, Near m.ndim a (coordsOf m q) ∧ filter (coordsOf m q) = true) →
      ∃ ids, F.searchPointIds go a filter = .ok ids ∧ ids.Pairwise (· < ·) ∧
        ∀ q, q ∈ ids ↔ q ∈ F.points ∧ Near m.ndim a (coordsOf m q) ∧ filter (coordsOf m q) = true) ∧
    (¬(∃ q ∈ F.points, Near m.ndim a (coordsOf m q) ∧ filter (coordsOf m q) = true) → ∃ e, F.searchPointIds go a filter = .err e) := by
  obtain ⟨ids, e1, e2⟩ := searchGrid_spec hF h hO hI hd a filter hs hp
  unfold Features.searchPointIds
  rw [hF.mesh, e1, Res.bind_ok]
  constructor
  · rintro ⟨q, hq, hn⟩
    have hne : ids.length ≠ 0 := by
      have := (e2 q).2 ⟨hq, hn⟩
      intro h0; rw [List.length_eq_zero_iff] at h0; rw [h0] at this; simp at this
    rw [if_neg hne]
    obtain ⟨s1, s2⟩ := sortedDedup ids
    exact ⟨_, rfl, s1, fun q => (s2 q).trans (e2 q)⟩
  · intro hno
    have h0 : ids.length = 0 := by
      rw [List.length_eq_zero_iff, List.eq_nil_iff_forall_not_mem]
      intro q hq
      obtain ⟨h1, h2⟩ := (e2 q).1 hq
      exact hno ⟨q, h1, h2⟩
    rw [if_pos h0]; exact ⟨_, rfl⟩

/-- **C47.** Search of a single point (all coordinates given): at most one id, of a feature point within the tolerance; if a
feature point is within `10⁻⁴` of the coordinates in every direction (and the coordinates are in the box of the features), the
search succeeds; an error means that nothing was found or that the coordinates are outside. -/
theorem C47_single_point (hF : IsNew m extractAll x F) (h : ValidMesh m) (hI : IterOrder go.inner)
    (a : At) (filter : List ℝ → Bool) (p : List ℝ) (hp : pointOf m.ndim a = some p) :
    ((∃ q ∈ F.points, F.searchPointIds go a filter = .ok [q] ∧ euclid (coordsOf m q) p ≤ Real.sqrt m.ndim * (1 / 10000)) ∨
      ∃ e, F.searchPointIds go a filter = .err e) ∧
    ((∃ q ∈ F.points, ∀ i < m.ndim, |p.getD i 0 - (coordsOf m q).getD i 0| ≤ 1 / 10000) →
      ∃ q ∈ F.points, F.searchPointIds go a filter = .ok [q]) := by
  obtain ⟨pids, hperm, hr⟩ := hF.grid
  have hlen : F.min.length = m.ndim := hF.box.lenMin
  have hpl : p.length = m.ndim := by
    cases a <;> simp only [pointOf, reduceCtorEq] at hp
    · split at hp
      · simp only [Option.some.injEq] at hp; subst hp; simpa using (Eq.symm ‹_›)
      · simp at hp
    · split at hp
      · simp only [Option.some.injEq] at hp; subst hp; simpa using (Eq.symm ‹_›)
      · simp at hp
  have hgrid : searchGrid go m.ndim F.grid a filter = (GridSearch.search go.inner F.grid p >>= fun r => pure r.toList) := by
    cases a <;> simp only [pointOf, reduceCtorEq] at hp
    · split at hp
      · simp only [Option.some.injEq] at hp; subst hp; simp only [searchGrid]; rw [if_pos ‹_›]
      · simp at hp
    · split at hp
      · simp only [Option.some.injEq] at hp; subst hp; simp only [searchGrid]; rw [if_neg (by omega)]
      · simp at hp
  have hcl : ∀ q ∈ F.points, (coordsOf m q).length = m.ndim := fun q hq => coordsOf_length h.coords (hF.range q hq)
  have hsome : ∀ q, GridSearch.search go.inner F.grid p = .ok (some q) → F.searchPointIds go a filter = .ok [q] := by
    intro q hq
    unfold Features.searchPointIds
    rw [hF.mesh, hgrid, hq]
    rfl
  have hsound := C13_search_sound hr hI p
  have hpoint : ∀ q, GridSearch.search go.inner F.grid p = .ok (some q) →
      q ∈ F.points ∧ euclid (coordsOf m q) p ≤ Real.sqrt m.ndim * (1 / 10000) := by
    intro q hq
    by_cases hin : p.length = F.min.length ∧ isOutside F.grid p = .ok false
    · obtain ⟨r, hr1, hr2⟩ := hsound.1 hin
      rw [hq, Res.ok.injEq] at hr1
      obtain ⟨y, hy, hyd⟩ := hr2 q hr1.symm
      obtain ⟨q', hq', he⟩ := List.mem_map.1 hy
      simp only [Prod.mk.injEq] at he
      obtain ⟨rfl, rfl⟩ := he
      rw [hlen, Option.getD_none] at hyd
      exact ⟨hperm.mem_iff.1 hq', hyd⟩
    · obtain ⟨e, he⟩ := hsound.2 hin
      rw [hq] at he; simp at he
  constructor
  · by_cases hin : p.length = F.min.length ∧ isOutside F.grid p = .ok false
    · obtain ⟨r, hr1, _⟩ := hsound.1 hin
      cases r with
      | some q =>
        left
        obtain ⟨b1, b2⟩ := hpoint q hr1
        exact ⟨q, b1, hsome q hr1, b2⟩
      | none =>
        right
        unfold Features.searchPointIds
        rw [hF.mesh, hgrid, hr1]
        exact ⟨_, rfl⟩
    · right
      obtain ⟨e, he⟩ := hsound.2 hin
      unfold Features.searchPointIds
      rw [hF.mesh, hgrid, he]
      exact ⟨_, rfl⟩
  · rintro ⟨q, hq, hnear⟩
    have hout : isOutside F.grid p = .ok false := by
      apply C16_covers hr p (by omega)
      intro i hi
      have hi' : i < m.ndim := by omega
      have hn := abs_le.1 (hnear i hi')
      have hq2 := hcl q hq
      have hmx := hF.box.lenMax
      obtain ⟨b1, b2⟩ := hF.box.inside _ (List.mem_map.2 ⟨q, hq, rfl⟩) i (F.min.getD i 0) ((coordsOf m q).getD i 0) (F.max.getD i 0)
        (by rw [List.getD_eq_getElem?_getD, List.getElem?_eq_getElem hi]; rfl)
        (by rw [List.getD_eq_getElem?_getD, List.getElem?_eq_getElem (by omega)]; rfl)
        (by rw [List.getD_eq_getElem?_getD, List.getElem?_eq_getElem (by omega)]; rfl)
      simp only [Option.getD_none]
      constructor <;> linarith [hn.1, hn.2]
    have hnd : ((pids.map fun q => (q, coordsOf m q)).map (·.1)).Nodup := by
      rw [List.map_map]
      have : ((fun e : Nat × List ℝ => e.1) ∘ fun q => (q, coordsOf m q)) = id := rfl
      rw [this, List.map_id]
      exact hperm.nodup_iff.2 hF.nodup
    obtain ⟨q', hq'⟩ := C12_search_finds hr hI (id := q) (x := coordsOf m q)
      (current_of_nodup hnd (List.mem_map.2 ⟨q, hperm.mem_iff.2 hq, rfl⟩)) (by omega) hout (by
        intro i hi; exact hnear i (by omega))
    exact ⟨q', (hpoint q' hq').1, hsome q' hq'⟩

/-- **C47** (limitation). The filter is ignored when all coordinates of a point are given. -/
theorem C47_single_point_ignores_filter (hm : F.mesh.ndim = 2 ∨ F.mesh.ndim = 3) (a : At) (p : List ℝ)
    (hp : pointOf F.mesh.ndim a = some p) (f1 f2 : List ℝ → Bool) : F.searchPointIds go a f1 = F.searchPointIds go a f2 := by
  have hgrid : ∀ f, searchGrid go F.mesh.ndim F.grid a f = (GridSearch.search go.inner F.grid p >>= fun r => pure r.toList) := by
    intro f
    cases a <;> simp only [pointOf, reduceCtorEq] at hp
    · split at hp
      · simp only [Option.some.injEq] at hp; subst hp; simp only [searchGrid]; rw [if_pos ‹_›]
      · simp at hp
    · split at hp
      · simp only [Option.some.injEq] at hp; subst hp; simp only [searchGrid]; rw [if_neg (by omega)]
      · simp at hp
  unfold Features.searchPointIds
  rw [hgrid, hgrid]

/-- **C47.** Locations of the other dimension are errors. -/
theorem C47_wrong_dimension (a : At) (filter : List ℝ → Bool) (h : WrongDimension F.mesh.ndim a) :
    ∃ e, F.searchPointIds go a filter = .err e := by
  unfold Features.searchPointIds
  cases a <;> simp only [WrongDimension] at h <;> simp only [searchGrid]
  all_goals first | rw [if_pos h] | rw [if_neg (by omega)]
  all_goals exact ⟨_, rfl⟩

end
end Gemlab.Props.Features
