import Verif.Proofs.GridCells3
import Verif.Proofs.Features2
import Verif.Props.Geometry

/-!
# C35: `GridCells`

`iter` is an arbitrary iteration order of the hash sets (large cells, containers). Arithmetic is exact (real numbers).
-/
namespace Gemlab.GridCells
noncomputable section
open Classical
open Gemlab.Mesh

variable {m : Mesh ℝ} {tol border cutoff pct : Option ℝ}

/-- The values of the parameters (given or default) are accepted. -/
structure ParamsOk (tol border cutoff pct : Option ℝ) : Prop where
  tol : 0 < tol.getD (1 / 10000)
  border : 0 ≤ border.getD (1 / 100)
  cutoff : 0 ≤ cutoff.getD (3 / 4) ∧ cutoff.getD (3 / 4) ≤ 1
  pct : 0 ≤ pct.getD (1 / 5) ∧ pct.getD (1 / 5) ≤ 1

/-- The sound cases: parameters in range, at least one cell is not "large" (automatic when the percentage is less than one), and the
mesh is not flat (automatic when there is a border, as there is by default). -/
structure Setting (m : Mesh ℝ) (tol border cutoff pct : Option ℝ) : Prop where
  valid : ValidMesh m
  ndim : m.ndim = 2 ∨ m.ndim = 3
  cells : m.cells ≠ []
  params : ParamsOk tol border cutoff pct
  small : pct.getD (1 / 5) < 1 ∨ SomeSmall m (cutoff.getD (3 / 4))
  flat : 0 < border.getD (1 / 100) ∨ NotFlat m

theorem Setting.good (hs : Setting m tol border cutoff pct) {g : GridCells} (hg : new m tol border cutoff pct = .ok g) : Good m g := by
  obtain ⟨g', h1, h2, _⟩ := new_ok hs.valid hs.ndim hs.cells tol border cutoff pct hs.params.tol hs.params.border hs.params.cutoff hs.params.pct
    hs.small hs.flat
  rw [hg] at h1; cases h1; exact h2

/-- **C35 (construction).** The grid is created without error or panic; its limits contain all points of all cells with the
given margin, and the lower limit is exactly the smallest coordinate minus the margin. -/
theorem C35_new (hs : Setting m tol border cutoff pct) (hf : Finite m) :
    ∃ g, new m tol border cutoff pct = .ok g ∧ g.mesh = m ∧ g.xmin.length = m.ndim ∧ g.xmax.length = m.ndim ∧
      ∀ i < m.ndim,
        (∀ c ∈ m.cells, ∀ p ∈ c.points, at' g.xmin i + border.getD (1 / 100) ≤ coord m p i ∧
          coord m p i + border.getD (1 / 100) ≤ at' g.xmax i) ∧
        (∃ c ∈ m.cells, ∃ p ∈ c.points, at' g.xmin i + border.getD (1 / 100) = coord m p i) := by
  obtain ⟨g, h1, h2, h3, h4, h5⟩ := new_ok hs.valid hs.ndim hs.cells tol border cutoff pct hs.params.tol hs.params.border hs.params.cutoff
    hs.params.pct hs.small hs.flat
  refine ⟨g, h1, h2.mesh, h3, h4, fun i hi => ⟨fun c hc p hp => ⟨?_, ((h5 i hi).1 c hc p hp).2⟩, ?_⟩⟩
  · linarith [((h5 i hi).1 c hc p hp).1]
  · rcases (h5 i hi).2 with he | ⟨c, hc, p, hp, he⟩
    · match hm : m.cells, hs.cells with
      | c :: cs, _ =>
        have hcm : c ∈ m.cells := by rw [hm]; simp
        have hne := points_ne_nil hs.valid hcm
        match hp : c.points, hne with
        | p :: ps, _ =>
          have hpm : p ∈ c.points := by rw [hp]; simp
          refine ⟨c, by simp, p, by rw [hp]; simp, ?_⟩
          have a1 := ((h5 i hi).1 c hcm p hpm).1
          have a2 := (coord_finite hs.valid hf (hs.valid.inRange c hcm p hpm) hi).2
          linarith
    · exact ⟨c, hc, p, hp, by linarith⟩

/-- **C35 (bad parameters).** Parameters out of range are errors. -/
theorem C35_bad_parameters (m : Mesh ℝ) (h : ¬ParamsOk tol border cutoff pct) : ∃ e, new m tol border cutoff pct = .err e := by
  unfold new
  dsimp only
  split
  · exact ⟨_, rfl⟩
  split
  · exact ⟨_, rfl⟩
  split
  · exact ⟨_, rfl⟩
  split
  · exact ⟨_, rfl⟩
  · rename_i h1 h2 h3 h4
    simp only [not_or, not_lt, gt_iff_lt] at h1 h2 h3 h4
    exact absurd ⟨not_le.mp h1, h2, h3, h4⟩ h

variable {iter : List Nat → List Nat} {g : GridCells} {zeta x : List ℝ}

theorem search_core (hs : Setting m tol border cutoff pct) (hg : new m tol border cutoff pct = .ok g) (hsim : Simplicial m)
    (hnd : ∀ c ∈ m.cells, NonDegenerate m c) (hit : IterOrder iter) (hz : zeta.length = 4) (hx : x.length = m.ndim) :
    ((∃ i < m.ndim, at' x i < at' g.xmin i ∨ at' x i > at' g.xmax i) → ∃ e, search iter g zeta x = .err e) ∧
    ((¬∃ i < m.ndim, at' x i < at' g.xmin i ∨ at' x i > at' g.xmax i) → ∃ r, search iter g zeta x = .ok r ∧
      r.2.length = 4 ∧ match r.1 with
      | some id => ∃ c, m.cells[id]? = some c ∧ Barycentric m c (r.2.take c.points.length) x ∧ ∀ v ∈ r.2.take c.points.length, 0 ≤ v
      | none => ∀ c ∈ m.cells, ¬InHull m c x) := by
  have good := hs.good hg
  unfold search
  rw [if_neg (by simpa using hz), good.mesh, if_neg (by simpa using hx)]
  constructor
  · intro ho
    rw [if_pos ho]; exact ⟨_, rfl⟩
  · intro ho
    rw [if_neg ho]
    obtain ⟨r, hr, ha⟩ := searchIn_spec hs.valid hsim good.mesh good.boxes hnd hx (iter g.largeCells)
      (fun k hk => good.large k (hit.mem.mp hk)) zeta hz
    rw [hr, Res.bind_ok]
    obtain ⟨r1, r2⟩ := r
    obtain ⟨ha1, ha2⟩ := ha
    have notIn : ∀ c ∈ m.cells, InHull m c x → ∃ (k : Nat), m.cells[k]? = some c ∧ (k ∈ g.largeCells ∨
        ∃ l, g.containers.get (utilContainerKey m.ndim g.sideLength g.ndiv g.xmin x) = some l ∧ k ∈ l) := by
      intro c hc hin
      obtain ⟨k, hk, hke⟩ := List.mem_iff_getElem.mp hc
      have hkc : m.cells[k]? = some c := by rw [List.getElem?_eq_getElem hk, hke]
      obtain ⟨b, hb, hR⟩ := forall2_get' good.boxes hkc
      exact ⟨k, hkc, good.candidate hs.ndim hb fun i hi => hin.between hi fun p hp => hR.mem i hi p hp⟩
    cases r1 with
    | some id => exact ⟨_, rfl, ha1, ha2.2⟩
    | none =>
      dsimp only at ha1 ha2 ⊢
      cases hk : g.containers.get (utilContainerKey m.ndim g.sideLength g.ndiv g.xmin x) with
      | none =>
        refine ⟨_, rfl, ha1, ?_⟩
        intro c hc hin
        obtain ⟨k, hkc, hcand⟩ := notIn c hc hin
        rcases hcand with hl | ⟨l, hl, _⟩
        · exact ha2 k (hit.mem.mpr hl) c hkc hin
        · rw [hk] at hl; cases hl
      | some l =>
        dsimp only
        obtain ⟨q, hq, hqa⟩ := searchIn_spec hs.valid hsim good.mesh good.boxes hnd hx (iter l)
          (fun k hk' => good.inRange hk k (hit.mem.mp hk')) r2 ha1
        refine ⟨q, hq, hqa.1, ?_⟩
        have hq2 := hqa.2
        split
        · rename_i id he; rw [he] at hq2; exact hq2.2
        · rename_i he
          rw [he] at hq2
          intro c hc hin
          obtain ⟨k, hkc, hcand⟩ := notIn c hc hin
          rcases hcand with hl | ⟨l', hl, hkl⟩
          · exact ha2 k (hit.mem.mpr hl) c hkc hin
          · rw [hk] at hl; cases hl
            exact hq2 k (hit.mem.mpr hkl) c hkc hin

/-- **C35 (found).** For every point of every cell of the mesh (boundaries included), `search` returns a cell that contains the point, and its
barycentric coordinates, which are non-negative. -/
theorem C35_found (hs : Setting m tol border cutoff pct) (hg : new m tol border cutoff pct = .ok g) (hsim : Simplicial m)
    (hnd : ∀ c ∈ m.cells, NonDegenerate m c) (hit : IterOrder iter) (hz : zeta.length = 4) (hx : x.length = m.ndim)
    (hin : ∃ c ∈ m.cells, InHull m c x) :
    ∃ id z c, search iter g zeta x = .ok (some id, z) ∧ m.cells[id]? = some c ∧ z.length = 4 ∧
      Barycentric m c (z.take c.points.length) x ∧ ∀ v ∈ z.take c.points.length, 0 ≤ v := by
  have good := hs.good hg
  obtain ⟨r, hr, h4, hm⟩ := (search_core hs hg hsim hnd hit hz hx).2 (by
    rintro ⟨i, hi, ho⟩
    obtain ⟨c, hc, hin⟩ := hin
    have := hin.between hi (good.inside c hc · · i hi)
    rcases ho with ho | ho <;> linarith [this.1, this.2])
  obtain ⟨r1, r2⟩ := r
  cases r1 with
  | none => obtain ⟨c, hc, hin⟩ := hin; exact absurd hin (hm c hc)
  | some id => obtain ⟨c, h1, h2, h3⟩ := hm; exact ⟨id, r2, c, hr, h1, h4, h2, h3⟩

/-- **C35 (only containing cells).** If `search` returns a cell, this cell contains the point. -/
theorem C35_only_containing (hs : Setting m tol border cutoff pct) (hg : new m tol border cutoff pct = .ok g) (hsim : Simplicial m)
    (hnd : ∀ c ∈ m.cells, NonDegenerate m c) (hit : IterOrder iter) {id : Nat} {z : List ℝ} (hr : search iter g zeta x = .ok (some id, z)) :
    ∃ c, m.cells[id]? = some c ∧ InHull m c x ∧ Barycentric m c (z.take c.points.length) x := by
  have good := hs.good hg
  have hz : zeta.length = 4 := by
    by_contra hz; unfold search at hr; rw [if_pos hz] at hr; cases hr
  have hx : x.length = m.ndim := by
    by_contra hx; unfold search at hr; rw [if_neg (by simpa using hz), good.mesh, if_pos hx] at hr; cases hr
  by_cases ho : ∃ i < m.ndim, at' x i < at' g.xmin i ∨ at' x i > at' g.xmax i
  · obtain ⟨e, he⟩ := (search_core hs hg hsim hnd hit hz hx).1 ho
    rw [hr] at he; cases he
  · obtain ⟨r, hr', _, hm⟩ := (search_core hs hg hsim hnd hit hz hx).2 ho
    rw [hr] at hr'; cases hr'
    obtain ⟨c, h1, h2, h3⟩ := hm
    exact ⟨c, h1, ⟨_, h2, h3⟩, h2⟩

/-- **C35 (not found).** For a point in no cell, the result is "not found" inside the limits of the grid, and an error outside. -/
theorem C35_not_found (hs : Setting m tol border cutoff pct) (hg : new m tol border cutoff pct = .ok g) (hsim : Simplicial m)
    (hnd : ∀ c ∈ m.cells, NonDegenerate m c) (hit : IterOrder iter) (hz : zeta.length = 4) (hx : x.length = m.ndim)
    (hout : ∀ c ∈ m.cells, ¬InHull m c x) :
    ((∀ i < m.ndim, at' g.xmin i ≤ at' x i ∧ at' x i ≤ at' g.xmax i) → ∃ z, search iter g zeta x = .ok (none, z)) ∧
    ((∃ i < m.ndim, at' x i < at' g.xmin i ∨ at' g.xmax i < at' x i) → ∃ e, search iter g zeta x = .err e) := by
  refine ⟨fun hin => ?_, (search_core hs hg hsim hnd hit hz hx).1⟩
  obtain ⟨r, hr, _, hm⟩ := (search_core hs hg hsim hnd hit hz hx).2 (by
    rintro ⟨i, hi, ho⟩
    have := hin i hi
    rcases ho with ho | ho <;> linarith [this.1, this.2])
  obtain ⟨r1, r2⟩ := r
  cases r1 with
  | none => exact ⟨_, hr⟩
  | some id =>
    obtain ⟨c, h1, h2, h3⟩ := hm
    exact absurd ⟨_, h2, h3⟩ (hout c (List.mem_of_getElem? h1))

/-- **C35 (wrong lengths).** -/
theorem C35_wrong_lengths (g : GridCells) (h : zeta.length ≠ 4 ∨ x.length ≠ g.mesh.ndim) : ∃ e, search iter g zeta x = .err e := by
  unfold search
  split
  · exact ⟨_, rfl⟩
  · rename_i hz
    rw [if_pos (by rcases h with h | h; exact absurd h hz; exact h)]
    exact ⟨_, rfl⟩

/-! ## Findings -/

/-- **C35 (other kinds).** On a mesh without three-node triangles and four-node tetrahedra, creating the grid works but searching
any point inside the bounding box of some cell panics. -/
theorem C35_other_kinds (hs : Setting m tol border cutoff pct) (hg : new m tol border cutoff pct = .ok g)
    (hk : ∀ c ∈ m.cells, c.kind ≠ .tri3 ∧ c.kind ≠ .tet4) (hit : IterOrder iter) (hz : zeta.length = 4) (hx : x.length = m.ndim)
    (hin : ∃ c ∈ m.cells, InHull m c x) : search iter g zeta x = .panic := by
  have good := hs.good hg
  have one : ∀ (k : Nat) c, m.cells[k]? = some c → ∀ zeta, inCell g zeta x k = .panic ∨
      (inCell g zeta x k = .ok (false, zeta) ∧ ∃ b, g.boxes[k]? = some b ∧ ∃ i < m.ndim, at' x i < at' b.1 i ∨ at' x i > at' b.2 i) := by
    intro k c hc zeta
    obtain ⟨b, hb, hR⟩ := forall2_get' good.boxes hc
    unfold inCell
    rw [Res.idx_eq_ok.mpr hb, Res.bind_ok, good.mesh]
    by_cases ho : ∃ i < m.ndim, at' x i < at' b.1 i ∨ at' x i > at' b.2 i
    · rw [if_pos ho]; exact Or.inr ⟨rfl, b, hb, ho⟩
    · rw [if_neg ho, Res.idx_eq_ok.mpr hc, Res.bind_ok]
      have := hk c (List.mem_of_getElem? hc)
      dsimp only
      rw [if_neg this.1, if_neg this.2]; exact Or.inl rfl
  have loop : ∀ (ids : List Nat) zeta, (∀ k ∈ ids, k < m.cells.length) → searchIn g x ids zeta = .panic ∨
      (searchIn g x ids zeta = .ok (none, zeta) ∧ ∀ k ∈ ids, ∃ b, g.boxes[k]? = some b ∧ ∃ i < m.ndim, at' x i < at' b.1 i ∨ at' x i > at' b.2 i) := by
    intro ids
    induction ids with
    | nil => intro zeta _; exact Or.inr ⟨rfl, by simp⟩
    | cons k ids ih =>
      intro zeta hids
      have hk := hids k (by simp)
      unfold searchIn
      rcases one k _ (List.getElem?_eq_getElem hk) zeta with h1 | ⟨h1, h2⟩
      · left; rw [h1]; rfl
      · rw [h1, Res.bind_ok]
        dsimp only
        rw [if_neg (by simp)]
        rcases ih zeta (fun k hk => hids k (by simp [hk])) with h3 | ⟨h3, h4⟩
        · exact Or.inl h3
        · refine Or.inr ⟨h3, fun k' hk' => ?_⟩
          rcases List.mem_cons.mp hk' with rfl | hk'
          · exact h2
          · exact h4 k' hk'
  obtain ⟨c, hc, hin⟩ := hin
  obtain ⟨k, hk', hke⟩ := List.mem_iff_getElem.mp hc
  have hkc : m.cells[k]? = some c := by rw [List.getElem?_eq_getElem hk', hke]
  obtain ⟨b, hb, hR⟩ := forall2_get' good.boxes hkc
  have hbox : ∀ i < m.ndim, at' b.1 i ≤ at' x i ∧ at' x i ≤ at' b.2 i := fun i hi => hin.between hi fun p hp => hR.mem i hi p hp
  have hcand := good.candidate hs.ndim hb hbox
  have contra : (∃ b, g.boxes[k]? = some b ∧ ∃ i < m.ndim, at' x i < at' b.1 i ∨ at' x i > at' b.2 i) → False := by
    rintro ⟨b', hb', i, hi, ho⟩
    rw [hb] at hb'; cases hb'
    have := hbox i hi
    rcases ho with ho | ho <;> linarith [this.1, this.2]
  unfold search
  rw [if_neg (by simpa using hz), good.mesh, if_neg (by simpa using hx), if_neg (by
    rintro ⟨i, hi, ho⟩
    have := hin.between hi (good.inside c hc · · i hi)
    rcases ho with ho | ho <;> linarith [this.1, this.2])]
  rcases loop (iter g.largeCells) zeta (fun k hk => good.large k (hit.mem.mp hk)) with h1 | ⟨h1, h2⟩
  · rw [h1]; rfl
  · rw [h1, Res.bind_ok]
    dsimp only
    rcases hcand with hl | ⟨l, hl, hkl⟩
    · exact (contra (h2 k (hit.mem.mpr hl))).elim
    · rw [hl]
      dsimp only
      rcases loop (iter l) zeta (fun k hk => good.inRange hl k (hit.mem.mp hk)) with h3 | ⟨_, h4⟩
      · exact h3
      · exact (contra (h4 k (hit.mem.mpr hkl))).elim

/-- **C35 (no cells).** Without cells, `new` panics (for every border smaller than the largest float). -/
theorem C35_no_cells (hp : ParamsOk tol border cutoff pct) (hd : 0 < m.ndim) (hc : m.cells = []) (hb : border.getD (1 / 100) < f64Max) :
    new m tol border cutoff pct = .panic := by
  unfold new
  dsimp only
  have h1 := hp.tol
  have h2 := hp.border
  have h3 := hp.cutoff
  have h4 := hp.pct
  generalize tol.getD (1 / 10000) = t at *
  generalize border.getD (1 / 100) = b at *
  rw [if_neg (by linarith), if_neg (by linarith), if_neg (by rintro (h | h) <;> linarith [h3.1, h3.2]),
    if_neg (by rintro (h | h) <;> linarith [h4.1, h4.2])]
  have hs : scan m = .ok { xmin := List.replicate m.ndim f64Max, xmax := List.replicate m.ndim (-f64Max), box := (List.replicate m.ndim 0, List.replicate m.ndim 0), largest := List.replicate m.ndim (-f64Max), boxes := [] } := by
    unfold scan; rw [hc]; rfl
  rw [hs, Res.bind_ok]
  dsimp only
  rw [if_pos]
  refine ⟨0, hd, ?_⟩
  have e1 : at' (if b > 0 then (List.replicate m.ndim f64Max).map (fun v => v - b) else List.replicate m.ndim f64Max) 0 = f64Max - b := by
    split
    · rw [List.map_replicate, at'_replicate _ _ _ hd]
    · rw [at'_replicate _ _ _ hd]; linarith
  have e2 : at' (if b > 0 then (List.replicate m.ndim (-f64Max)).map (fun v => v + b) else List.replicate m.ndim (-f64Max)) 0 = -f64Max + b := by
    split
    · rw [List.map_replicate, at'_replicate _ _ _ hd]
    · rw [at'_replicate _ _ _ hd]; linarith
  rw [e1, e2]
  linarith

/-- **C35 (all cells large).** If the percentage of large cells is allowed to be 100 % and all cells are large, the grid that is created
is useless: its side length is negative, it has no divisions, and the search of every point of every cell fails ("outside the grid"). -/
theorem C35_all_large (hv : ValidMesh m) (hd : m.ndim = 2 ∨ m.ndim = 3) (hc : m.cells ≠ []) (hp : ParamsOk tol border cutoff pct)
    (hpct : pct.getD (1 / 5) = 1) (hb : 0 < border.getD (1 / 100)) (ht : 2 * tol.getD (1 / 10000) < f64Max)
    (hall : ∀ c ∈ m.cells, ∃ i < m.ndim, ∃ r ∈ c.points, ∃ s ∈ c.points, ∀ c' ∈ m.cells, ∀ j < m.ndim, ∀ p ∈ c'.points, ∀ q ∈ c'.points,
      cutoff.getD (3 / 4) * (coord m p j - coord m q j) ≤ coord m r i - coord m s i) :
    ∃ g, new m tol border cutoff pct = .ok g ∧ g.sideLength < 0 ∧ ∀ iter zeta x, zeta.length = 4 → x.length = m.ndim →
      (∃ c ∈ m.cells, InHull m c x) → search iter g zeta x = .err "given point coordinates are outside the grid" := by
  obtain ⟨s, hs, inv⟩ := scan_ok hv
  unfold new
  dsimp only
  have h1 := hp.tol
  have h2 := hp.border
  have h3 := hp.cutoff
  rw [hpct]
  generalize tol.getD (1 / 10000) = t at *
  generalize border.getD (1 / 100) = b at *
  generalize cutoff.getD (3 / 4) = cut at *
  rw [if_neg (by linarith), if_neg (by linarith), if_neg (by rintro (h | h) <;> linarith [h3.1, h3.2]), if_neg (by norm_num), hs, Res.bind_ok]
  have hnd : 0 < m.ndim := by omega
  have hlen : s.boxes.length = m.cells.length := inv.boxes.length_eq.symm
  have hcpos : 0 < m.cells.length := List.length_pos_iff.mpr hc
  have sp := splitLarge_spec m.ndim s.boxes (cut * largestOf m.ndim (at' s.largest))
  generalize hsl : splitLarge m.ndim s.boxes (cut * largestOf m.ndim (at' s.largest)) = sl at sp ⊢
  have hf64 : (0 : ℝ) < f64Max := by linarith
  have hallL : ∀ bx ∈ s.boxes, IsLarge m.ndim (cut * largestOf m.ndim (at' s.largest)) bx := by
    intro bx hbx
    obtain ⟨k, hk, hke⟩ := List.mem_iff_getElem.mp hbx
    obtain ⟨c, hck, hR⟩ := forall2_get inv.boxes (k := k) (b := bx) (by rw [List.getElem?_eq_getElem hk, hke])
    obtain ⟨i, hi, r, hr, s', hs', hle⟩ := hall c (List.mem_of_getElem? hck)
    have e1 : coord m r i - coord m s' i ≤ largestOf m.ndim (extent bx) := by
      have := largestOf_ge (extent bx) hi
      have a1 := (hR.mem i hi r hr).2
      have a2 := (hR.mem i hi s' hs').1
      unfold extent at this ⊢
      linarith
    obtain ⟨j, hj, ej⟩ := largestOf_attained hnd (at' s.largest)
    unfold IsLarge
    rw [ej]
    rcases inv.attained j hj with e | ⟨bx', hbx', e⟩
    · rw [e]
      have := hR.extent_nonneg hi
      have a := largestOf_ge (extent bx) hi
      nlinarith [h3.1]
    · obtain ⟨k', hk', hke'⟩ := List.mem_iff_getElem.mp hbx'
      obtain ⟨c', hck', hR'⟩ := forall2_get inv.boxes (k := k') (b := bx') (by rw [List.getElem?_eq_getElem hk', hke'])
      obtain ⟨p, hp, ep⟩ := hR'.tight2 j hj
      obtain ⟨q, hq, eq⟩ := hR'.tight1 j hj
      have := hle c' (List.mem_of_getElem? hck') j hj p hp q hq
      rw [← e]
      unfold extent at e1 ⊢
      rw [← ep, ← eq]
      linarith
  have hsl1 : sl.1.length = s.boxes.length := sp.all.mp hallL
  have hsl2 : sl.2 = -f64Max := by
    rcases sp.attained with h | ⟨bx, hbx, hn, _⟩
    · exact h
    · exact absurd (hallL bx hbx) hn
  have hpc : (sl.1.length : ℝ) / (m.cells.length : ℝ) ≤ 1 := by
    rw [hsl1, hlen, div_self (by exact_mod_cast hcpos.ne')]
  rw [if_pos hpc, if_pos hpc, if_pos hb, if_pos hb, hsl2]
  have exmin : ∀ i < m.ndim, at' (s.xmin.map (fun v => v - b)) i = at' s.xmin i - b := fun i hi => by
    rw [at'_map _ _ _ (by rw [inv.lim.len1]; exact hi)]
  have exmax : ∀ i < m.ndim, at' (s.xmax.map (fun v => v + b)) i = at' s.xmax i + b := fun i hi => by
    rw [at'_map _ _ _ (by rw [inv.lim.len2]; exact hi)]
  have hle : ∀ i < m.ndim, at' s.xmin i ≤ at' s.xmax i := by
    intro i hi
    match hm : m.cells, hc with
    | c :: cs, _ =>
      have hne := points_ne_nil hv (c := c) (by rw [hm]; simp)
      match hp : c.points, hne with
      | p :: ps, _ =>
        have := inv.lim.mem i hi p (by rw [hm]; simp [ptsOf, hp])
        linarith [this.1, this.2]
  rw [if_neg (by
    rintro ⟨i, hi, hn⟩
    rw [exmin i hi, exmax i hi] at hn
    linarith [hle i hi])]
  refine ⟨_, rfl, by show -f64Max + 2 * t < 0; linarith, ?_⟩
  intro iter zeta x hz hx hin
  unfold search
  dsimp only
  rw [if_neg (by simpa using hz), if_neg (by simpa using hx), if_pos]
  obtain ⟨c, hcm, hin⟩ := hin
  refine ⟨0, hnd, Or.inr ?_⟩
  have hlow := hin.between hnd (lo := at' s.xmin 0) (hi' := at' s.xmax 0) fun p hp => inv.lim.mem 0 hnd p (by
    simp only [ptsOf, List.mem_flatMap]; exact ⟨c, hcm, hp⟩)
  have e0 : ∀ (v : Nat → ℝ), at' ((List.range m.ndim).map v) 0 = v 0 := fun v => by
    rw [at'_map_range _ _ _ hnd]
  have e1 : ((List.range m.ndim).map fun i => ⌈(at' (s.xmax.map (fun v => v + b)) i - at' (s.xmin.map (fun v => v - b)) i) / (-f64Max + 2 * t)⌉₊).getD 0 0 = 0 := by
    rw [List.getD_eq_getElem?_getD, List.getElem?_map, List.getElem?_range hnd]
    simp only [Option.map_some, Option.getD_some]
    rw [Nat.ceil_eq_zero, exmin 0 hnd, exmax 0 hnd]
    exact div_nonpos_of_nonneg_of_nonpos (by linarith [hle 0 hnd]) (by linarith)
  rw [e0, e1, exmin 0 hnd]
  push_cast
  linarith [hlow.1]

/-- **C35 (flat meshes).** Without a border, a mesh that is flat in some direction makes `new` panic. -/
theorem C35_flat (hv : ValidMesh m) (hf : Finite m) (hp : ParamsOk tol border cutoff pct) (hb : border.getD (1 / 100) = 0)
    (hflat : ∃ i < m.ndim, ∀ c ∈ m.cells, ∀ p ∈ c.points, ∀ c' ∈ m.cells, ∀ q ∈ c'.points, coord m p i = coord m q i) :
    new m tol border cutoff pct = .panic := by
  obtain ⟨s, hs, inv⟩ := scan_ok hv
  unfold new
  dsimp only
  have h1 := hp.tol
  have h3 := hp.cutoff
  have h4 := hp.pct
  rw [hb]
  rw [if_neg (by linarith), if_neg (by norm_num), if_neg (by rintro (h | h) <;> linarith [h3.1, h3.2]),
    if_neg (by rintro (h | h) <;> linarith [h4.1, h4.2]), hs, Res.bind_ok]
  rw [if_neg (lt_irrefl _), if_neg (lt_irrefl _), if_pos]
  obtain ⟨i, hi, hall⟩ := hflat
  refine ⟨i, hi, ?_⟩
  have hmem : ∀ p ∈ ptsOf m.cells, ∃ c ∈ m.cells, p ∈ c.points := fun p hp => by simpa [ptsOf] using hp
  have hf64 : -f64Max ≤ f64Max := by unfold f64Max; norm_num
  have fin : ∀ p ∈ ptsOf m.cells, -f64Max ≤ coord m p i ∧ coord m p i ≤ f64Max := fun p hp => by
    obtain ⟨c, hc, hpc⟩ := hmem p hp
    exact coord_finite hv hf (hv.inRange c hc p hpc) hi
  rcases inv.lim.tight1 i hi with e1 | ⟨p, hp, e1⟩ <;> rcases inv.lim.tight2 i hi with e2 | ⟨q, hq, e2⟩
  · rw [e1, e2]; linarith
  · rw [e1, ← e2]; linarith [(fin q hq).2]
  · rw [← e1, e2]; linarith [(fin p hp).1]
  · obtain ⟨c, hc, hpc⟩ := hmem p hp
    obtain ⟨c', hc', hqc⟩ := hmem q hq
    rw [← e1, ← e2, hall c hc p hpc c' hc' q hqc]
    exact lt_irrefl _

/-! ## Examples -/

theorem one_le_f64Max : (1 : ℝ) ≤ f64Max := by
  unfold f64Max
  have h1 : (1 : ℝ) ≤ 2 ^ 1023 := one_le_pow₀ (by norm_num)
  have h2 : (1 : ℝ) ≤ 2 - 1 / 2 ^ 52 := by norm_num
  exact one_le_mul_of_one_le_of_one_le h2 h1

/-- The unit square, cut into two triangles. -/
def exMesh : Mesh ℝ :=
  { ndim := 2
    points := [⟨0, 0, [0, 0]⟩, ⟨1, 0, [1, 0]⟩, ⟨2, 0, [1, 1]⟩, ⟨3, 0, [0, 1]⟩]
    cells := [⟨0, 1, .tri3, [0, 1, 2]⟩, ⟨1, 1, .tri3, [0, 2, 3]⟩]
    markedEdges := [], markedFaces := [] }

theorem exMesh_setting : Setting exMesh none none none none :=
  ⟨ValidMesh.of_check (by decide +kernel) (by simp [exMesh]), Or.inl rfl, by simp [exMesh], by constructor <;> norm_num, by norm_num, by norm_num⟩

theorem exMesh_simplicial : Simplicial exMesh := Or.inl ⟨rfl, by simp [exMesh]⟩

theorem exMesh_nondegenerate : ∀ c ∈ exMesh.cells, NonDegenerate exMesh c := by
  intro c hc
  simp only [exMesh, List.mem_cons, List.not_mem_nil, or_false] at hc
  rcases hc with rfl | rfl <;> simp [NonDegenerate, exMesh, coord, coordsOf, at']

theorem exMesh_point : InHull exMesh ⟨0, 1, .tri3, [0, 1, 2]⟩ [3 / 4, 1 / 4] := by
  refine ⟨[1 / 4, 1 / 2, 1 / 4], ⟨rfl, by norm_num, ?_⟩, by norm_num⟩
  intro i hi
  have : i = 0 ∨ i = 1 := by simp only [exMesh] at hi; omega
  rcases this with rfl | rfl <;> norm_num [exMesh, coord, coordsOf, at']

/-- The hypotheses of `C35_found` are met, by any iteration order: the cell found is one of the two. -/
example (iter : List Nat → List Nat) (hit : IterOrder iter) : ∃ g id z, new exMesh none none none none = .ok g ∧
    search iter g [0, 0, 0, 0] [3 / 4, 1 / 4] = .ok (some id, z) := by
  have hf : Finite exMesh := by
    have : (1 : ℝ) ≤ f64Max := one_le_f64Max
    intro p hp x hx
    simp only [exMesh, List.mem_cons, List.not_mem_nil, or_false] at hp
    rcases hp with rfl | rfl | rfl | rfl <;> simp only [List.mem_cons, List.not_mem_nil, or_false] at hx <;>
      rcases hx with rfl | rfl <;> constructor <;> linarith
  obtain ⟨g, hg, _⟩ := C35_new exMesh_setting hf
  obtain ⟨id, z, c, h, _⟩ := C35_found exMesh_setting hg exMesh_simplicial exMesh_nondegenerate hit (zeta := [0, 0, 0, 0]) (x := [3 / 4, 1 / 4]) rfl rfl
    ⟨_, by simp [exMesh], exMesh_point⟩
  exact ⟨g, id, z, hg, h⟩

/-- The hypotheses of `C35_all_large` are met: with `large_pct = 1`, every point of the unit square is "outside". -/
example : ∃ g, new exMesh none none none (some 1) = .ok g ∧ ∀ iter zeta, zeta.length = 4 →
    search iter g zeta [3 / 4, 1 / 4] = .err "given point coordinates are outside the grid" := by
  have hu : ∀ p i, p ∈ [0, 1, 2, 3] → i < 2 → 0 ≤ coord exMesh p i ∧ coord exMesh p i ≤ 1 := by
    intro p i hp hi
    have : i = 0 ∨ i = 1 := by omega
    simp only [List.mem_cons, List.not_mem_nil, or_false] at hp
    rcases hp with rfl | rfl | rfl | rfl <;> rcases this with rfl | rfl <;> norm_num [exMesh, coord, coordsOf, at']
  have hsub : ∀ c ∈ exMesh.cells, ∀ p ∈ c.points, p ∈ [0, 1, 2, 3] := by
    intro c hc p hp
    simp only [exMesh, List.mem_cons, List.not_mem_nil, or_false] at hc
    rcases hc with rfl | rfl <;> simp only [List.mem_cons, List.not_mem_nil, or_false] at hp <;> simp <;> omega
  obtain ⟨g, hg, _, h⟩ := C35_all_large (m := exMesh) (tol := none) (border := none) (cutoff := none) (pct := some 1) exMesh_setting.valid
    (Or.inl rfl) (by simp [exMesh]) (by constructor <;> norm_num) rfl (by norm_num) (lt_of_lt_of_le (by norm_num) one_le_f64Max) (by
      intro c hc
      refine ⟨0, by simp [exMesh], 2, ?_, 0, ?_, ?_⟩
      · simp only [exMesh, List.mem_cons, List.not_mem_nil, or_false] at hc; rcases hc with rfl | rfl <;> simp
      · simp only [exMesh, List.mem_cons, List.not_mem_nil, or_false] at hc; rcases hc with rfl | rfl <;> simp
      · intro c' hc' j hj p hp q hq
        have a := hu p j (hsub c' hc' p hp) hj
        have b := hu q j (hsub c' hc' q hq) hj
        have e : coord exMesh 2 0 - coord exMesh 0 0 = 1 := by norm_num [exMesh, coord, coordsOf, at']
        rw [e]
        simp only [Option.getD_none]
        linarith [a.1, a.2, b.1, b.2])
  exact ⟨g, hg, fun iter zeta hz => h iter zeta _ hz rfl ⟨_, by simp [exMesh], exMesh_point⟩⟩

end
end Gemlab.GridCells
