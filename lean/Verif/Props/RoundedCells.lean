import Verif.Proofs.RoundedCells4
import Verif.Props.GridCells

/-!
# C95: the search for cells, with rounding

`fl` is the rounding with relative error `u`, `M` is a bound of the coordinates of the mesh, and `iter` is the iteration order of the hash sets. A cell is found although
each operation of the construction of the grid, of the computation of the container and of the test is rounded, if the tolerance and the border are not smaller than the
rounding errors (5 or 10 times `u` times the size of the mesh).
-/
namespace Gemlab.Rounded.Cells
noncomputable section
open Classical
open Gemlab.Mesh
open Gemlab.GridCells (IsBox coord Simplicial InHull InHull.between forall2_get forall2_get')

variable {fl : ℝ → ℝ} {u M : ℝ} {m : Mesh ℝ} {tol border cutoff pct : Option ℝ}

/-- The cases in which the search works: parameters in range, tolerance and border above the rounding errors. -/
structure Setting (fl : ℝ → ℝ) (u M : ℝ) (m : Mesh ℝ) (tol border cutoff pct : Option ℝ) : Prop where
  valid : ValidMesh m
  ndim : m.ndim = 2 ∨ m.ndim = 3
  cells : m.cells ≠ []
  floats : Floats fl M m
  finite : M ≤ f64Max
  tolPos : 0 < tol.getD (fl (1 / 10000))
  borderPos : 0 < border.getD (fl (1 / 100))
  cutoffOk : 0 ≤ cutoff.getD (fl (3 / 4)) ∧ cutoff.getD (fl (3 / 4)) ≤ 1
  pctOk : 0 ≤ pct.getD (fl (1 / 5)) ∧ pct.getD (fl (1 / 5)) ≤ 1 ∧ pct.getD (fl (1 / 5)) < fl 1
  tolLarge : 5 * (u * (M + border.getD (fl (1 / 100)))) ≤ tol.getD (fl (1 / 10000))
  borderLarge : 10 * (u * (M + border.getD (fl (1 / 100)))) ≤ border.getD (fl (1 / 100))

/-- Without rounding, the functions are those of `Model/GridCells`. -/
theorem C95_exact : new id = GridCells.new ∧ search id = GridCells.search := by
  have hs : searchIn id = GridCells.searchIn := by
    funext g x l
    induction l with
    | nil => rfl
    | cons k l ih =>
      funext zeta
      unfold searchIn GridCells.searchIn
      rw [ih]; rfl
  refine ⟨rfl, ?_⟩
  funext iter g zeta x
  unfold search GridCells.search
  rw [hs]; rfl

theorem Setting.good (R : Rounding fl u) (hs : Setting fl u M m tol border cutoff pct) {g : GridCells} (hg : new fl m tol border cutoff pct = .ok g) : Good fl m g := by
  obtain ⟨g', h1, h2, _⟩ := new_ok R hs.valid hs.ndim hs.cells hs.floats hs.finite tol border cutoff pct hs.tolPos hs.borderPos hs.cutoffOk ⟨hs.pctOk.1, hs.pctOk.2.1⟩ hs.pctOk.2.2
    hs.tolLarge hs.borderLarge
  rw [hg] at h1; cases h1; exact h2

/-- **C95 (construction).** The grid is created without error or panic, and all points of all cells are inside its limits. -/
theorem C95_new (R : Rounding fl u) (hs : Setting fl u M m tol border cutoff pct) :
    ∃ g, new fl m tol border cutoff pct = .ok g ∧ g.mesh = m ∧ g.xmin.length = m.ndim ∧ g.xmax.length = m.ndim ∧
      ∀ c ∈ m.cells, ∀ p ∈ c.points, ∀ i < m.ndim, at' g.xmin i ≤ coord m p i ∧ coord m p i ≤ at' g.xmax i := by
  obtain ⟨g, h1, h2, h3, h4⟩ := new_ok R hs.valid hs.ndim hs.cells hs.floats hs.finite tol border cutoff pct hs.tolPos hs.borderPos hs.cutoffOk ⟨hs.pctOk.1, hs.pctOk.2.1⟩ hs.pctOk.2.2
    hs.tolLarge hs.borderLarge
  exact ⟨g, h1, h2.mesh, h3, h4, h2.inside⟩


variable {iter : List Nat → List Nat} {g : GridCells} {zeta x : List ℝ}

theorem search_core (R : Rounding fl u) (hs : Setting fl u M m tol border cutoff pct) (hg : new fl m tol border cutoff pct = .ok g) (hsim : Simplicial m)
    (hit : IterOrder iter) (hz : zeta.length = 4) (hx : x.length = m.ndim) :
    ((∃ i < m.ndim, at' x i < at' g.xmin i ∨ at' x i > at' g.xmax i) → ∃ e, search fl iter g zeta x = .err e) ∧
    ((¬∃ i < m.ndim, at' x i < at' g.xmin i ∨ at' x i > at' g.xmax i) → ∃ r, search fl iter g zeta x = .ok r ∧
      r.2.length = 4 ∧ match r.1 with
      | some id => ∃ c b, m.cells[id]? = some c ∧ g.boxes[id]? = some b ∧ InBox m b x ∧ Computed fl m c x
      | none => ∀ (k : Nat) c b, m.cells[k]? = some c → g.boxes[k]? = some b → ¬(InBox m b x ∧ Computed fl m c x)) := by
  have good := hs.good R hg
  unfold search
  rw [if_neg (by simpa using hz), good.mesh, if_neg (by simpa using hx)]
  constructor
  · intro ho
    rw [if_pos ho]; exact ⟨_, rfl⟩
  · intro ho
    rw [if_neg ho]
    obtain ⟨r, hr, ha⟩ := searchIn_spec (fl := fl) hs.valid hsim good.mesh good.boxes hx (iter g.largeCells)
      (fun k hk => good.large k (hit.mem.mp hk)) zeta hz
    rw [hr, Res.bind_ok]
    obtain ⟨r1, r2⟩ := r
    obtain ⟨ha1, ha2⟩ := ha
    cases r1 with
    | some id => exact ⟨_, rfl, ha1, ha2.2⟩
    | none =>
      dsimp only at ha1 ha2 ⊢
      cases hk : g.containers.get (containerKey fl m.ndim g.sideLength g.ndiv g.xmin x) with
      | none =>
        refine ⟨_, rfl, ha1, ?_⟩
        intro k c b hc hb hin
        rcases good.candidate R hs.ndim hb hin.1 with hl | ⟨l, hl, _⟩
        · exact ha2 k (hit.mem.mpr hl) c b hc hb hin
        · rw [hk] at hl; cases hl
      | some l =>
        dsimp only
        obtain ⟨q, hq, hqa⟩ := searchIn_spec (fl := fl) hs.valid hsim good.mesh good.boxes hx (iter l)
          (fun k hk' => good.inRange hk k (hit.mem.mp hk')) r2 ha1
        refine ⟨q, hq, hqa.1, ?_⟩
        have hq2 := hqa.2
        split
        · rename_i id he; rw [he] at hq2; exact hq2.2
        · rename_i he
          rw [he] at hq2
          intro k c b hc hb hin
          rcases good.candidate R hs.ndim hb hin.1 with hl | ⟨l', hl, hkl⟩
          · exact ha2 k (hit.mem.mpr hl) c b hc hb hin
          · rw [hk] at hl; cases hl
            exact hq2 k (hit.mem.mpr hkl) c b hc hb hin

/-- The corners of a cell are in the square or cube of size `M`. -/
theorem coords_in (hv : ValidMesh m) (hf : Floats fl M m) {c : Cell} (hc : c ∈ m.cells) : ∀ p ∈ c.points, ∀ i < m.ndim, |coord m p i| ≤ M := fun p hp _ hi =>
  (coord_floats hv hf (hv.inRange c hc p hp) hi).2

/-- A point of the bounding box of a cell is in the square or cube of size `M`. -/
theorem point_in (hv : ValidMesh m) (hf : Floats fl M m) {c : Cell} (hc : c ∈ m.cells) {b : List ℝ × List ℝ} (hb : IsBox m c.points b) (hx : InBox m b x) :
    ∀ i < m.ndim, |at' x i| ≤ M := by
  intro i hi
  obtain ⟨p, hp, e1⟩ := hb.tight1 i hi
  obtain ⟨q, hq, e2⟩ := hb.tight2 i hi
  have h1 := abs_le.1 (coords_in hv hf hc p hp i hi)
  have h2 := abs_le.1 (coords_in hv hf hc q hq i hi)
  have h3 := hx i hi
  rw [abs_le]; constructor <;> linarith

theorem forall3 {P : Fin 3 → Prop} : (∀ i, P i) ↔ P 0 ∧ P 1 ∧ P 2 := by
  rw [Fin.forall_fin_succ, Fin.forall_fin_two]; rfl

/-- The shapes of the cells of a mesh of triangles or tetrahedra. -/
theorem shape (hv : ValidMesh m) (hsim : Simplicial m) {c : Cell} (hc : c ∈ m.cells) :
    (m.ndim = 2 ∧ ∃ p q r, c.points = [p, q, r]) ∨ (m.ndim = 3 ∧ ∃ p q r s, c.points = [p, q, r, s]) := by
  have hn := hv.nnode c hc
  rcases hsim with ⟨hd, hk⟩ | ⟨hd, hk⟩
  · rw [hk c hc] at hn
    change c.points.length = 3 at hn
    match h : c.points, hn with
    | [p, q, r], _ => exact .inl ⟨hd, p, q, r, rfl⟩
  · rw [hk c hc] at hn
    change c.points.length = 4 at hn
    match h : c.points, hn with
    | [p, q, r, s], _ => exact .inr ⟨hd, p, q, r, s, rfl⟩

theorem deep_hull (hv : ValidMesh m) (hu : 0 ≤ u) (hM : 0 < M) (hsim : Simplicial m) {c : Cell} (hc : c ∈ m.cells) (ht : Thick u M m c) (h : Deep u M m c x) : InHull m c x := by
  rcases shape hv hsim hc with ⟨hd, p, q, r, hp⟩ | ⟨hd, p, q, r, s, hp⟩
  · unfold Thick at ht; unfold Deep at h
    rw [hd, hp] at ht h
    have h0 : 0 ≤ 23 * (u * M ^ 2) := by positivity
    exact hull3 hd hp (abs_pos.1 (h0.trans_lt ht)) fun i => h0.trans (h i)
  · unfold Thick at ht; unfold Deep at h
    rw [hd, hp] at ht h
    have h0 : 0 ≤ 225 * (u * M ^ 3) := by positivity
    exact hull4 hd hp (abs_pos.1 (lt_of_le_of_lt (by positivity) ht)) fun i => h0.trans (h i)

theorem computed_of_deep (R : Rounding fl u) (hM : 0 < M) (hv : ValidMesh m) (hf : Floats fl M m) (hsim : Simplicial m) {c : Cell} (hc : c ∈ m.cells) (ht : Thick u M m c)
    (hx : ∀ i < m.ndim, |at' x i| ≤ M) : (Deep u M m c x → Computed fl m c x) ∧ (Computed fl m c x → Near u M m c x) := by
  have hin := coords_in hv hf hc
  rcases shape hv hsim hc with ⟨hd, p, q, r, hp⟩ | ⟨hd, p, q, r, s, hp⟩
  · unfold Thick at ht; unfold Deep Near Computed
    rw [hd, hp] at ht hin; rw [hd] at hx; rw [hd, hp]
    have hk : ∀ k, In M (triOf m p q r k) := by
      rw [forall3]
      refine ⟨⟨?_, ?_⟩, ⟨?_, ?_⟩, ?_, ?_⟩ <;> exact hin _ (by simp) _ (by omega)
    have hxi : In M (at' x 0, at' x 1) := ⟨hx 0 (by omega), hx 1 (by omega)⟩
    refine ⟨fun h => C91_inside R hk ht hxi h, fun h i => ?_⟩
    by_contra hc'
    have := C91_outside R hk ht hxi (not_le.1 hc')
    rw [h] at this; cases this
  · unfold Thick at ht; unfold Deep Near Computed
    rw [hd, hp] at ht hin; rw [hd] at hx; rw [hd, hp]
    have hk : ∀ k, In3 M (tetOf m p q r s k) := by
      rw [forall_fin4]
      refine ⟨⟨?_, ?_, ?_⟩, ⟨?_, ?_, ?_⟩, ⟨?_, ?_, ?_⟩, ?_, ?_, ?_⟩ <;> exact hin _ (by simp) _ (by omega)
    have hxi : In3 M (at' x 0, at' x 1, at' x 2) := ⟨hx 0 (by omega), hx 1 (by omega), hx 2 (by omega)⟩
    refine ⟨fun h => C92_inside R hM hk ht hxi h, fun h i => ?_⟩
    by_contra hc'
    have := C92_outside R hM hk ht hxi (not_le.1 hc')
    rw [h] at this; cases this

/-- **C95 (only).** A cell that is returned contains the point, up to the rounding error, and the point is in the bounding box of the cell exactly. -/
theorem C95_only_containing (R : Rounding fl u) (hM : 0 < M) (hs : Setting fl u M m tol border cutoff pct) (hg : new fl m tol border cutoff pct = .ok g) (hsim : Simplicial m)
    (hth : ∀ c ∈ m.cells, Thick u M m c) (hit : IterOrder iter) {id : Nat} {z : List ℝ} (h : search fl iter g zeta x = .ok (some id, z)) :
    z.length = 4 ∧ ∃ c, m.cells[id]? = some c ∧ Near u M m c x ∧
      ∀ i < m.ndim, (∃ p ∈ c.points, coord m p i ≤ at' x i) ∧ ∃ p ∈ c.points, at' x i ≤ coord m p i := by
  have good := hs.good R hg
  have hz : zeta.length = 4 := by
    by_contra hc
    unfold search at h
    rw [if_pos hc] at h; cases h
  have hx : x.length = m.ndim := by
    by_contra hc
    unfold search at h
    rw [if_neg (by simpa using hz), good.mesh, if_pos hc] at h; cases h
  obtain ⟨h1, h2⟩ := search_core R hs hg hsim hit hz hx
  by_cases ho : ∃ i < m.ndim, at' x i < at' g.xmin i ∨ at' x i > at' g.xmax i
  · obtain ⟨e, he⟩ := h1 ho
    rw [h] at he; cases he
  obtain ⟨r, hr, hl, hm⟩ := h2 ho
  rw [h] at hr; cases hr
  dsimp only at hm hl
  obtain ⟨c, b, hc, hb, hin, hcomp⟩ := hm
  have hcm := List.mem_of_getElem? hc
  obtain ⟨b', hb', hR⟩ := forall2_get' good.boxes hc
  rw [hb] at hb'; cases hb'
  refine ⟨hl, c, hc, (computed_of_deep R hM hs.valid hs.floats hsim hcm (hth c hcm) (point_in hs.valid hs.floats hcm hR hin)).2 hcomp, fun i hi => ?_⟩
  obtain ⟨p, hp, e1⟩ := hR.tight1 i hi
  obtain ⟨q, hq, e2⟩ := hR.tight2 i hi
  exact ⟨⟨p, hp, by rw [e1]; exact (hin i hi).1⟩, q, hq, by rw [e2]; exact (hin i hi).2⟩

theorem found_of_computed (R : Rounding fl u) (hs : Setting fl u M m tol border cutoff pct) (hg : new fl m tol border cutoff pct = .ok g) (hsim : Simplicial m)
    (hit : IterOrder iter) (hz : zeta.length = 4) (hx : x.length = m.ndim) {c : Cell} (hc : c ∈ m.cells) (hin : InHull m c x) (hcomp : Computed fl m c x) :
    ∃ id z, search fl iter g zeta x = .ok (some id, z) := by
  have good := hs.good R hg
  obtain ⟨h1, h2⟩ := search_core R hs hg hsim hit hz hx
  obtain ⟨r, hr, hl, hm⟩ := h2 (by
    rintro ⟨i, hi, ho⟩
    have := hin.between hi (good.inside c hc · · i hi)
    rcases ho with ho | ho <;> linarith [this.1, this.2])
  obtain ⟨r1, r2⟩ := r
  cases r1 with
  | some id => exact ⟨id, r2, hr⟩
  | none =>
    obtain ⟨k, hk, hke⟩ := List.mem_iff_getElem.mp hc
    have hkc : m.cells[k]? = some c := by rw [List.getElem?_eq_getElem hk, hke]
    obtain ⟨b, hb, hR⟩ := forall2_get' good.boxes hkc
    exact absurd ⟨fun i hi => hin.between hi fun p hp => hR.mem i hi p hp, hcomp⟩ (hm k c b hkc hb)

/-- **C95 (found).** For every point inside a cell and not nearer to the cell's sides than the rounding error, `search` returns a cell (see `C95_only_containing`). -/
theorem C95_found (R : Rounding fl u) (hM : 0 < M) (hs : Setting fl u M m tol border cutoff pct) (hg : new fl m tol border cutoff pct = .ok g) (hsim : Simplicial m)
    (hth : ∀ c ∈ m.cells, Thick u M m c) (hit : IterOrder iter) (hz : zeta.length = 4) (hx : x.length = m.ndim) (hin : ∃ c ∈ m.cells, Deep u M m c x) :
    ∃ id z, search fl iter g zeta x = .ok (some id, z) := by
  obtain ⟨c, hc, hdeep⟩ := hin
  have hh := deep_hull hs.valid R.small.1 hM hsim hc (hth c hc) hdeep
  refine found_of_computed R hs hg hsim hit hz hx hc hh ((computed_of_deep R hM hs.valid hs.floats hsim hc (hth c hc) fun i hi => ?_).1 hdeep)
  have := hh.between hi (lo := -M) (hi' := M) fun p hp => abs_le.1 (coords_in hs.valid hs.floats hc p hp i hi)
  exact abs_le.2 this

/-- **C95 (nodes).** In 2D, if rounding is symmetric, every point of every cell is found. -/
theorem C95_node (R : Rounding fl u) (odd : ∀ x, fl (-x) = -fl x) (hM : 0 < M) (hs : Setting fl u M m tol border cutoff pct)
    (hg : new fl m tol border cutoff pct = .ok g) (hsim : Simplicial m) (hd : m.ndim = 2)
    (hth : ∀ c ∈ m.cells, Thick u M m c) (hit : IterOrder iter) (hz : zeta.length = 4) {c : Cell} (hc : c ∈ m.cells) {p : Nat} (hp : p ∈ c.points) :
    ∃ id z, search fl iter g zeta (coordsOf m p) = .ok (some id, z) := by
  have hlen : (coordsOf m p).length = m.ndim := by
    have hpr := hs.valid.inRange c hc p hp
    have := hs.valid.coords _ (List.getElem_mem hpr)
    unfold coordsOf
    rw [List.getElem?_eq_getElem hpr]; simpa using this
  have hin := coords_in hs.valid hs.floats hc
  rcases shape hs.valid hsim hc with ⟨-, a, b, c', hpts⟩ | ⟨hd', -⟩
  swap
  · omega
  have ht := hth c hc
  unfold Thick at ht
  rw [hd, hpts] at ht
  have hk : ∀ k, In M (triOf m a b c' k) := by
    rw [hd, hpts] at hin
    rw [forall3]
    refine ⟨⟨?_, ?_⟩, ⟨?_, ?_⟩, ?_, ?_⟩ <;> exact hin _ (by simp) _ (by omega)
  obtain ⟨k, hk'⟩ : ∃ k, triOf m a b c' k = (at' (coordsOf m p) 0, at' (coordsOf m p) 1) := by
    rw [hpts] at hp
    simp only [List.mem_cons, List.not_mem_nil, or_false] at hp
    rcases hp with rfl | rfl | rfl
    exacts [⟨0, rfl⟩, ⟨1, rfl⟩, ⟨2, rfl⟩]
  refine found_of_computed R hs hg hsim hit hz hlen hc ?_ ?_
  · have hu := R.small.1
    refine hull3 hd hpts (abs_pos.1 (lt_of_le_of_lt (by positivity) ht)) fun i => ?_
    rw [← hk']
    unfold depth
    have hdep : ∀ i, triArea2 (triOf m a b c' k) (triOf m a b c' (i + 1)) (triOf m a b c' (i + 2)) = if i = k then area2 (triOf m a b c') else 0 := by
      intro i
      unfold area2
      fin_cases i <;> fin_cases k <;> simp [triArea2, triOf] <;> ring
    rw [hdep]
    split
    · rcases lt_trichotomy (area2 (triOf m a b c')) 0 with h | h | h
      · rw [sign_neg h]; simp; linarith
      · rw [h]; simp
      · rw [sign_pos h]; simp; linarith
    · simp
  · unfold Computed
    rw [hd, hpts]
    rw [← hk']
    exact C91_corner R odd hk ht k

/-- **C95 (errors).** Wrong lengths and points outside the limits of the grid are errors; otherwise there is no error and no panic. -/
theorem C95_ok (R : Rounding fl u) (hs : Setting fl u M m tol border cutoff pct) (hg : new fl m tol border cutoff pct = .ok g) (hsim : Simplicial m) (hit : IterOrder iter) :
    ((zeta.length = 4 ∧ x.length = m.ndim ∧ ∀ i < m.ndim, at' g.xmin i ≤ at' x i ∧ at' x i ≤ at' g.xmax i) → ∃ r, search fl iter g zeta x = .ok r) ∧
    (¬(zeta.length = 4 ∧ x.length = m.ndim ∧ ∀ i < m.ndim, at' g.xmin i ≤ at' x i ∧ at' x i ≤ at' g.xmax i) → ∃ e, search fl iter g zeta x = .err e) := by
  have good := hs.good R hg
  constructor
  · rintro ⟨hz, hx, hi⟩
    obtain ⟨r, hr, _⟩ := (search_core R hs hg hsim hit hz hx).2 (by
      rintro ⟨i, hi', ho⟩
      have := hi i hi'
      rcases ho with ho | ho <;> linarith [this.1, this.2])
    exact ⟨r, hr⟩
  · intro hn
    by_cases hz : zeta.length = 4
    swap
    · unfold search; rw [if_pos hz]; exact ⟨_, rfl⟩
    by_cases hx : x.length = m.ndim
    swap
    · unfold search; rw [if_neg (by simpa using hz), good.mesh, if_pos hx]; exact ⟨_, rfl⟩
    refine (search_core R hs hg hsim hit hz hx).1 ?_
    by_contra hc
    push Not at hc
    exact hn ⟨hz, hx, hc⟩

end
end Gemlab.Rounded.Cells
