import Verif.Proofs.GridSearch3
import Verif.Props.Geometry

/-!
# C12–C16: `GridSearch` and `num_divisions`

`Reached xmin xmax ndiv tol btol g hist`: the grid `g` was created with `GridSearch::new(xmin, xmax, ndiv, tol, btol)` and
then received the successful insertions `hist` (a list of `(id, coordinates)`, any ids, possibly repeated), in this order.
`iter`/`iterO` are arbitrary iteration orders of the hash maps.
-/
namespace Gemlab
noncomputable section
open Classical Spec GridSearch

/-- Grids reachable through the API. -/
inductive Reached (xmin xmax : List ℝ) (ndiv : Option Nat) (tol btol : Option ℝ) : GridSearch → List (Nat × List ℝ) → Prop
  | new {g} : GridSearch.new xmin xmax ndiv tol btol = .ok g → Reached xmin xmax ndiv tol btol g []
  | insert {g g' hist id x} : Reached xmin xmax ndiv tol btol g hist → GridSearch.insert g id x = .ok g' →
      Reached xmin xmax ndiv tol btol g' (hist ++ [(id, x)])

variable {xmin xmax : List ℝ} {ndiv : Option Nat} {tol btol : Option ℝ} {g : GridSearch} {hist : List (Nat × List ℝ)}

theorem Reached.inv (h : Reached xmin xmax ndiv tol btol g hist) :
    Inv g hist ∧ ∃ g0, GridSearch.new xmin xmax ndiv tol btol = .ok g0 ∧ ∃ cs, g = { g0 with containers := cs } := by
  induction h with
  | new h => exact ⟨inv_new h, _, h, _, rfl⟩
  | insert _ hi ih =>
    obtain ⟨h1, g0, h2, cs, rfl⟩ := ih
    obtain ⟨a, cs', rfl⟩ := inv_insert h1 hi
    exact ⟨a, g0, h2, cs', rfl⟩

/-- Parameters of a reachable grid in terms of the arguments of `new`. -/
theorem Reached.params (h : Reached xmin xmax ndiv tol btol g hist) :
    g.ndim = xmin.length ∧ (xmin.length = 2 ∨ xmin.length = 3) ∧ g.tolerance = tol.getD (1 / 10000) ∧
    g.tolDist = Real.sqrt xmin.length * tol.getD (1 / 10000) := by
  obtain ⟨hi, g0, h0, cs, rfl⟩ := h.inv
  obtain ⟨w, _, hn, _, ht, _⟩ := new_ok h0
  refine ⟨hn, hn ▸ w.ndim, ht, ?_⟩
  have := w.tolDist
  rw [hn, ht] at this
  exact this

/-! ## C15 -/

/-- Length of the box along direction `i`. -/
def boxLen (xmin xmax : List ℝ) (i : Nat) : ℝ := xmax.getD i 0 - xmin.getD i 0

/-- Direction `L` is (one of) the longest. -/
def IsLongest (xmin xmax : List ℝ) (L : Nat) : Prop :=
  L < xmin.length ∧ ∀ j < xmin.length, boxLen xmin xmax j ≤ boxLen xmin xmax L

/-- C15: `num_divisions` succeeds exactly on valid input (it never panics): minimum at least 1, long count above the
minimum, equal lengths of at least 2, and a positive box length in every direction. -/
theorem C15_ok_iff (ndivMin ndivLong : Nat) (xmin xmax : List ℝ) :
    ((1 ≤ ndivMin ∧ ndivMin < ndivLong ∧ xmin.length = xmax.length ∧ 2 ≤ xmin.length ∧
      ∀ i < xmin.length, 0 < boxLen xmin xmax i) → ∃ nd, numDivisions ndivMin ndivLong xmin xmax = .ok nd) ∧
    (¬(1 ≤ ndivMin ∧ ndivMin < ndivLong ∧ xmin.length = xmax.length ∧ 2 ≤ xmin.length ∧
      ∀ i < xmin.length, 0 < boxLen xmin xmax i) → ∃ e, numDivisions ndivMin ndivLong xmin xmax = .err e) := by
  have e : (1 ≤ ndivMin ∧ ndivMin < ndivLong ∧ xmin.length = xmax.length ∧ 2 ≤ xmin.length ∧
      ∀ i < xmin.length, 0 < boxLen xmin xmax i) ↔ NdivValid ndivMin ndivLong xmin xmax := by
    unfold NdivValid boxLen at'
    simp only [sub_pos]
  rw [e]
  refine ⟨fun h => ?_, numDivisions_err⟩
  obtain ⟨nd, h, _⟩ := numDivisions_ok h
  exact ⟨nd, h⟩

/-- C15: the divisions. One entry per direction; every longest direction gets exactly `ndiv_long`; every direction gets
between `ndiv_min` and `ndiv_long`, namely the truncated proportional number, but at least `ndiv_min`. -/
theorem C15_divisions {ndivMin ndivLong : Nat} {xmin xmax : List ℝ} {nd : List Nat}
    (h : numDivisions ndivMin ndivLong xmin xmax = .ok nd) :
    nd.length = xmin.length ∧ (∃ L, IsLongest xmin xmax L) ∧
    ∀ L, IsLongest xmin xmax L → nd.getD L 0 = ndivLong ∧
      ∀ i < xmin.length, ndivMin ≤ nd.getD i 0 ∧ nd.getD i 0 ≤ ndivLong ∧
        nd.getD i 0 = max ndivMin ⌊boxLen xmin xmax i / boxLen xmin xmax L * ndivLong⌋₊ := by
  obtain ⟨hv, hl, _⟩ := numDivisions_pos h
  obtain ⟨nd', h1, _, h3⟩ := numDivisions_ok hv
  rw [h] at h1
  cases h1
  refine ⟨hl, ?_, ?_⟩
  · have hf := long_fold (fun j => at' xmax j - at' xmin j) (List.range' 1 (xmin.length - 1)) 0
    obtain ⟨f1, f2, f3⟩ := hf
    have hl := hv.2.2.2.1
    rw [mem_zero_range' _ (by omega)] at f1
    refine ⟨_, f1, fun j hj => ?_⟩
    unfold boxLen
    have := f3 j ((mem_zero_range' _ (by omega) j).2 hj)
    rw [f2] at this
    exact this
  · rintro L ⟨hL, hmax⟩
    have key := h3 L hL hmax
    have hpos : 0 < boxLen xmin xmax L := sub_pos.2 (hv.2.2.2.2 L hL)
    have hmin : ndivMin < ndivLong := hv.2.1
    refine ⟨?_, fun i hi => ⟨?_, ?_, key i hi⟩⟩
    · rw [key L hL]
      change max ndivMin ⌊boxLen xmin xmax L / boxLen xmin xmax L * (ndivLong : ℝ)⌋₊ = ndivLong
      rw [div_self hpos.ne', one_mul, Nat.floor_natCast]; omega
    · rw [key i hi]; exact le_max_left _ _
    · rw [key i hi]
      apply max_le hmin.le
      change ⌊boxLen xmin xmax i / boxLen xmin xmax L * (ndivLong : ℝ)⌋₊ ≤ ndivLong
      rw [Nat.floor_le_iff]
      left
      have : boxLen xmin xmax i / boxLen xmin xmax L ≤ 1 := by rw [div_le_one hpos]; exact hmax i hi
      have hn : (0 : ℝ) ≤ ndivLong := Nat.cast_nonneg _
      nlinarith
  where
    Nat.floor_le_iff {a : ℝ} {n : Nat} : ⌊a⌋₊ ≤ n ↔ (a ≤ n ∨ ⌊a⌋₊ ≤ n) := by
      constructor
      · exact Or.inr
      · rintro (h | h)
        · exact Nat.floor_le_of_le h
        · exact h

/-- C15: `GridSearch::new` never panics; it succeeds exactly when the dimension is 2 or 3, the lengths agree, the number
of divisions is at least 2, the box is not empty in any direction, the tolerances are (strictly) positive, respectively
non-negative, and a container is longer than twice the tolerance. (`ndiv = 1`, documented as valid, is an error.) -/
theorem C15_new_ok_iff (xmin xmax : List ℝ) (ndiv : Option Nat) (tol btol : Option ℝ) :
    GridSearch.new xmin xmax ndiv tol btol ≠ .panic ∧
    ((∃ g, GridSearch.new xmin xmax ndiv tol btol = .ok g) ↔
      (xmin.length = 2 ∨ xmin.length = 3) ∧ xmax.length = xmin.length ∧ 2 ≤ ndiv.getD 100 ∧
      (∀ i < xmin.length, 0 < boxLen xmin xmax i) ∧ 0 < tol.getD (1 / 10000) ∧ 0 ≤ btol.getD (1 / 100) ∧
      ∃ nd, numDivisions 1 (ndiv.getD 100) xmin xmax = .ok nd ∧
        ∃ i < xmin.length, 2 * tol.getD (1 / 10000) < (boxLen xmin xmax i + 2 * btol.getD (1 / 100)) / ((nd.getD i 0 : Nat) : ℝ)) := by
  refine ⟨new_ne_panic _ _ _ _ _, ?_⟩
  constructor
  · rintro ⟨g, h⟩
    obtain ⟨w, _, hn, hl, ht, hb, hnd, _, _, i, hi, hs⟩ := new_ok h
    have hv := (numDivisions_pos hnd).1
    refine ⟨hn ▸ w.ndim, hl, hv.2.1, fun j hj => sub_pos.2 (hv.2.2.2.2 j hj), ht ▸ w.tolPos, hb, _, hnd, i, hn ▸ hi, ?_⟩
    have hside := w.side
    rw [hs, ht] at hside
    exact hside
  · rintro ⟨hd, hl, _, _, ht, hb, nd, hnd, hs⟩
    exact new_ok_of hd hl hnd ht hb hs

/-! ## C16 -/

/-- C16: the grid covers the box given to `new` expanded by the border tolerance: such points are not outside. -/
theorem C16_covers (h : Reached xmin xmax ndiv tol btol g hist) (x : List ℝ) (hx : x.length = xmin.length)
    (hb : ∀ i < xmin.length, xmin.getD i 0 - btol.getD (1 / 100) ≤ x.getD i 0 ∧ x.getD i 0 ≤ xmax.getD i 0 + btol.getD (1 / 100)) :
    isOutside g x = .ok false := by
  obtain ⟨hi, g0, h0, cs, rfl⟩ := h.inv
  obtain ⟨w, _, hn, _, _, _, _, hm, _⟩ := new_ok h0
  rw [isOutside_eq (by rw [hx]; exact hn.symm)]
  simp only [Res.ok.injEq, decide_eq_false_iff_not, not_not]
  intro i hi
  obtain ⟨a, b⟩ := hm i hi
  obtain ⟨c, d⟩ := hb i (hn ▸ hi)
  exact ⟨by change at' g0.xmin i ≤ _; rw [a]; exact c, (by exact d : at' x i ≤ at' xmax i + _).trans b⟩

/-- C16: `insert` succeeds exactly for points with the right number of coordinates that are not outside; otherwise it is
an error (the grid is then unchanged); it never panics. -/
theorem C16_insert_ok_iff (h : Reached xmin xmax ndiv tol btol g hist) (id : Nat) (x : List ℝ) :
    (x.length = xmin.length ∧ isOutside g x = .ok false → ∃ g', GridSearch.insert g id x = .ok g') ∧
    (¬(x.length = xmin.length ∧ isOutside g x = .ok false) → ∃ e, GridSearch.insert g id x = .err e) := by
  have hp := h.params.1
  obtain ⟨hi, _⟩ := h.inv
  have e : (x.length = xmin.length ∧ isOutside g x = .ok false) ↔ x.length = g.ndim ∧ Inside g x := by
    rw [hp]
    constructor
    · rintro ⟨h1, h2⟩
      rw [isOutside_eq (by rw [hp, h1])] at h2
      simpa [h1] using h2
    · rintro ⟨h1, h2⟩
      rw [isOutside_eq (by rw [hp, h1])]
      simp [h1, h2]
  rw [e]
  refine ⟨fun hv => ?_, (insert_spec hi.cwf id x).2⟩
  obtain ⟨cs, e1, _⟩ := (insert_spec hi.cwf id x).1 hv
  exact ⟨_, e1⟩

/-- The container box with lower corner indices `r`: the half-open cube of side `s`, closed above for the last slice. -/
def InSlice (lo side : ℝ) (n r : Nat) (v : ℝ) : Prop :=
  lo + r * side ≤ v ∧ (v < lo + (r + 1) * side ∨ (r + 1 = n ∧ v = lo + n * side))

/-- C16: container keys. The key is `None` exactly outside; inside, it is smaller than the number of containers, it decodes
(through the pivot-index function) to index `r_i < ndiv_i` in every direction, such that the point is in the slice `r_i`; so
two points have the same key exactly when they are in the same slices. -/
theorem C16_keys (h : Reached xmin xmax ndiv tol btol g hist) (x : List ℝ) (hx : x.length = xmin.length) :
    (calcContainerKey g x = none ↔ isOutside g x = .ok true) ∧
    (∀ key, calcContainerKey g x = some key →
      key < (g.ndiv.take xmin.length).prod ∧ ∃ r : Nat → Nat, (pivotIndices g key = (r 0, r 1, r 2)) ∧
        (∀ i < xmin.length, r i < g.ndiv.getD i 0 ∧ InSlice (g.xmin.getD i 0) g.sideLength (g.ndiv.getD i 0) (r i) (x.getD i 0)) ∧
        ∀ y, y.length = xmin.length → (calcContainerKey g y = some key ↔
          ∀ i < xmin.length, InSlice (g.xmin.getD i 0) g.sideLength (g.ndiv.getD i 0) (r i) (y.getD i 0))) := by
  have hp := h.params.1
  obtain ⟨hi, _⟩ := h.inv
  have w := hi.wf
  have hs := side_pos w
  have slice : ∀ i < g.ndim, ∀ v : ℝ, ∀ r < g.ndiv.getD i 0,
      InSlice (at' g.xmin i) g.sideLength (g.ndiv.getD i 0) r v ↔
      (at' g.xmin i ≤ v ∧ v ≤ at' g.xmax i) ∧ rIdx g i v = r := by
    intro i hi v r hr
    have hrr : (r : ℝ) + 1 ≤ ((g.ndiv.getD i 0 : Nat) : ℝ) := by exact_mod_cast hr
    have hr0 : (0 : ℝ) ≤ r := Nat.cast_nonneg _
    unfold InSlice
    constructor
    · rintro ⟨h1, h2⟩
      have hin : at' g.xmin i ≤ v ∧ v ≤ at' g.xmax i := by
        rw [w.xmax i hi]
        refine ⟨by nlinarith, ?_⟩
        rcases h2 with h2 | ⟨_, h2⟩ <;> nlinarith
      refine ⟨hin, ?_⟩
      unfold rIdx
      rcases h2 with h2 | ⟨h3, h2⟩
      · have : ⌊(v - at' g.xmin i) / g.sideLength⌋₊ = r := by
          rw [Nat.floor_eq_iff (div_nonneg (by linarith) hs.le)]
          rw [le_div_iff₀ hs, div_lt_iff₀ hs]
          constructor <;> linarith
        rw [this, if_neg (by omega)]
      · have : (v - at' g.xmin i) / g.sideLength = ((g.ndiv.getD i 0 : Nat) : ℝ) := by
          rw [h2]; field_simp; ring
        rw [this, Nat.floor_natCast, if_pos rfl]; omega
    · rintro ⟨⟨h1, h2⟩, rfl⟩
      obtain ⟨b1, b2⟩ := rIdx_box w hi h1 h2
      refine ⟨b1, ?_⟩
      by_cases hlt : v < at' g.xmin i + ((rIdx g i v : ℝ) + 1) * g.sideLength
      · exact Or.inl hlt
      · right
        have hv : v = at' g.xmin i + ((rIdx g i v : ℝ) + 1) * g.sideLength := le_antisymm b2 (not_lt.1 hlt)
        have hfl : ⌊(v - at' g.xmin i) / g.sideLength⌋₊ = rIdx g i v + 1 := by
          have : (v - at' g.xmin i) / g.sideLength = ((rIdx g i v + 1 : Nat) : ℝ) := by
            rw [div_eq_iff hs.ne']; push_cast; linarith
          rw [this, Nat.floor_natCast]
        have hn : rIdx g i v + 1 = g.ndiv.getD i 0 := by
          by_contra hne
          have := hfl
          have hr : rIdx g i v = rIdx g i v + 1 := by
            conv_lhs => unfold rIdx
            rw [if_neg (by rw [hfl]; exact hne), hfl]
          omega
        refine ⟨hn, ?_⟩
        rw [hv, ← hn]; push_cast; rw [← hv]
  constructor
  · rw [calcContainerKey_eq, isOutside_eq (by rw [hp, hx])]
    by_cases hin : Inside g x <;> simp [hin]
  · intro key hkey
    rw [calcContainerKey_eq] at hkey
    split at hkey
    swap
    · simp at hkey
    rename_i hin
    simp only [Option.some.injEq] at hkey
    have hpiv := pivot_keyOf w hin
    have hd := w.ndim
    have l : ∀ i < g.ndim, rIdx g i (at' x i) < g.ndiv.getD i 0 := fun i hi => rIdx_lt w hi (hin i hi).2
    rw [← hp]
    refine ⟨?_, fun i => if i = 2 then r2Idx g x else rIdx g i (at' x i), ?_, ?_, ?_⟩
    · have hlen := w.ndivLen
      have t : g.ndiv.take g.ndim = g.ndiv := by rw [← hlen, List.take_length]
      rw [t, ← hkey]
      have l0 := l 0 (by omega)
      have l1 := l 1 (by omega)
      rcases hd with h2 | h3
      · rw [keyOf2 w h2]
        obtain ⟨n0, n1, hnd⟩ : ∃ n0 n1, g.ndiv = [n0, n1] := List.length_eq_two.1 (by omega)
        rw [hnd] at l0 l1 ⊢
        simp only [List.getD_cons_zero, List.getD_cons_succ, List.prod_cons, List.prod_nil, mul_one] at *
        calc _ < n0 + rIdx g 1 (at' x 1) * n0 := by omega
          _ = n0 * (rIdx g 1 (at' x 1) + 1) := by ring
          _ ≤ n0 * n1 := Nat.mul_le_mul_left _ l1
      · have l2 := l 2 (by omega)
        rw [keyOf3 w h3]
        obtain ⟨n0, n1, n2, hnd⟩ : ∃ n0 n1 n2, g.ndiv = [n0, n1, n2] := List.length_eq_three.1 (by omega)
        rw [hnd] at l0 l1 l2 ⊢
        simp only [List.getD_cons_zero, List.getD_cons_succ, List.prod_cons, List.prod_nil, mul_one] at *
        have a : rIdx g 0 (at' x 0) + rIdx g 1 (at' x 1) * n0 < n0 * n1 := by
          calc _ < n0 + rIdx g 1 (at' x 1) * n0 := by omega
            _ = n0 * (rIdx g 1 (at' x 1) + 1) := by ring
            _ ≤ n0 * n1 := Nat.mul_le_mul_left _ l1
        calc _ < n0 * n1 + rIdx g 2 (at' x 2) * (n0 * n1) := by omega
          _ = (n0 * n1) * (rIdx g 2 (at' x 2) + 1) := by ring
          _ ≤ (n0 * n1) * n2 := Nat.mul_le_mul_left _ l2
          _ = n0 * (n1 * n2) := by ring
    · rw [← hkey, hpiv]; rfl
    · intro i hi
      have hr : (if i = 2 then r2Idx g x else rIdx g i (at' x i)) = rIdx g i (at' x i) := by
        split
        · rename_i h; subst h; unfold r2Idx; rw [if_pos (by omega)]
        · rfl
      dsimp only
      rw [hr]
      exact ⟨l i hi, (slice i hi _ _ (l i hi)).2 ⟨hin i hi, rfl⟩⟩
    · intro y hy
      have hr : ∀ i < g.ndim, (if i = 2 then r2Idx g x else rIdx g i (at' x i)) = rIdx g i (at' x i) := by
        intro i hi
        split
        · rename_i h; subst h; unfold r2Idx; rw [if_pos (by omega)]
        · rfl
      rw [calcContainerKey_eq]
      constructor
      · intro hk
        split at hk
        swap
        · simp at hk
        rename_i hiny
        simp only [Option.some.injEq] at hk
        have e := pivot_keyOf w hiny
        rw [hk, ← hkey, hpiv] at e
        simp only [Prod.mk.injEq] at e
        intro i hi
        dsimp only
        rw [hr i hi]
        refine (slice i hi _ _ (l i hi)).2 ⟨hiny i hi, ?_⟩
        have : i = 0 ∨ i = 1 ∨ i = 2 := by omega
        rcases this with rfl | rfl | rfl
        · exact e.1.symm
        · exact e.2.1.symm
        · have e2 := e.2.2
          unfold r2Idx at e2
          rw [if_pos (by omega), if_pos (by omega)] at e2
          exact e2.symm
      · intro hsl
        have hall : ∀ i < g.ndim, (at' g.xmin i ≤ at' y i ∧ at' y i ≤ at' g.xmax i) ∧ rIdx g i (at' y i) = rIdx g i (at' x i) := by
          intro i hi
          have := hsl i hi
          dsimp only at this
          rw [hr i hi] at this
          exact (slice i hi _ _ (l i hi)).1 this
        have hiny : Inside g y := fun i hi => (hall i hi).1
        rw [if_pos hiny, ← hkey]
        congr 1
        rcases hd with h2 | h3
        · rw [keyOf2 w h2, keyOf2 w h2, (hall 0 (by omega)).2, (hall 1 (by omega)).2]
        · rw [keyOf3 w h3, keyOf3 w h3, (hall 0 (by omega)).2, (hall 1 (by omega)).2, (hall 2 (by omega)).2]

/-! ## C12, C13 -/

/-- C12: if `x` is the last position inserted for `id` and the query `q` is within the tolerance of `x` in every
direction (and not outside the grid), then `search` finds a point, wherever both lie relative to the container borders. -/
theorem C12_search_finds (h : Reached xmin xmax ndiv tol btol g hist) {iter : List (Nat × List ℝ) → List (Nat × List ℝ)}
    (hiter : IterOrder iter) {id : Nat} {x q : List ℝ} (hx : Current hist id x) (hq : q.length = xmin.length)
    (hin : isOutside g q = .ok false) (hnear : ∀ i < xmin.length, |q.getD i 0 - x.getD i 0| ≤ tol.getD (1 / 10000)) :
    ∃ id', search iter g q = .ok (some id') := by
  obtain ⟨hp, _, ht, _⟩ := h.params
  obtain ⟨hi, _⟩ := h.inv
  rw [isOutside_eq (by rw [hp, hq])] at hin
  simp only [Res.ok.injEq, decide_eq_false_iff_not, not_not] at hin
  obtain ⟨hl, hinx, hk⟩ := hi.cur id x hx
  rw [← hp, ← ht] at hnear
  obtain ⟨c, hc, hcin, hck⟩ := halo_key hi.wf hinx hin hnear
  have hget := hk _ (Or.inr ⟨c, hc, hcin, hck⟩)
  obtain ⟨r, h1, _, h3⟩ := search_spec hi hiter (by rw [hp, hq]) hin
  cases r with
  | none =>
    have := h3 rfl id x hget
    have hd := d3_le_tolDist hi.wf hl (by rw [hp, hq]) hnear
    linarith
  | some id' => exact ⟨id', h1⟩

/-- C13: `search` returns `Ok` exactly for queries with the right number of coordinates that are not outside the grid,
`Err` otherwise, and never panics; whatever id it returns was inserted with coordinates at Euclidean distance at most
`√ndim · tolerance` from the query. -/
theorem C13_search_sound (h : Reached xmin xmax ndiv tol btol g hist) {iter : List (Nat × List ℝ) → List (Nat × List ℝ)}
    (hiter : IterOrder iter) (q : List ℝ) :
    (q.length = xmin.length ∧ isOutside g q = .ok false → ∃ r, search iter g q = .ok r ∧
      ∀ id, r = some id → ∃ x, (id, x) ∈ hist ∧ euclid x q ≤ Real.sqrt xmin.length * tol.getD (1 / 10000)) ∧
    (¬(q.length = xmin.length ∧ isOutside g q = .ok false) → ∃ e, search iter g q = .err e) := by
  obtain ⟨hp, hd, ht, htd⟩ := h.params
  obtain ⟨hi, _⟩ := h.inv
  constructor
  · rintro ⟨hq, hin⟩
    rw [isOutside_eq (by rw [hp, hq])] at hin
    simp only [Res.ok.injEq, decide_eq_false_iff_not, not_not] at hin
    obtain ⟨r, h1, h2, _⟩ := search_spec hi hiter (by rw [hp, hq]) hin
    refine ⟨r, h1, ?_⟩
    intro id hid
    obtain ⟨x, a, b, c⟩ := h2 id hid
    refine ⟨x, a, ?_⟩
    rw [euclid_eq_d3 (by rw [b, hp]; exact hd) (by rw [b, hp, hq]), ← htd]
    exact c
  · intro hn
    unfold search
    by_cases hl : q.length = g.ndim
    · rw [if_neg (not_not.2 hl), calcContainerKey_eq, if_neg]
      · exact ⟨_, rfl⟩
      · intro hin
        apply hn
        refine ⟨by rw [hl, hp], ?_⟩
        rw [isOutside_eq hl]; simp [hin]
    · rw [if_pos hl]; exact ⟨_, rfl⟩

/-- C13: `search` returns `None` only if every (last) inserted point is farther than the tolerance in some direction. -/
theorem C13_none_means_far (h : Reached xmin xmax ndiv tol btol g hist) {iter : List (Nat × List ℝ) → List (Nat × List ℝ)}
    (hiter : IterOrder iter) {q : List ℝ} (hn : search iter g q = .ok none) {id : Nat} {x : List ℝ} (hx : Current hist id x) :
    ∃ i < xmin.length, tol.getD (1 / 10000) < |q.getD i 0 - x.getD i 0| := by
  by_contra hc
  push_neg at hc
  by_cases hq : q.length = xmin.length ∧ isOutside g q = .ok false
  · obtain ⟨id', h'⟩ := C12_search_finds h hiter hx hq.1 hq.2 hc
    rw [hn] at h'; simp at h'
  · obtain ⟨e, he⟩ := (C13_search_sound h hiter q).2 hq
    rw [hn] at he; simp at he

/-- With distinct ids every insertion is the last one of its id. -/
theorem current_of_nodup (hnd : (hist.map (·.1)).Nodup) {id : Nat} {x : List ℝ} (h : (id, x) ∈ hist) : Current hist id x := by
  obtain ⟨pre, suf, rfl⟩ := List.append_of_mem h
  refine ⟨pre, suf, rfl, ?_⟩
  intro y hy
  rw [List.map_append, List.nodup_append] at hnd
  have := hnd.2.1
  rw [List.map_cons, List.nodup_cons] at this
  exact this.1 (List.mem_map.2 ⟨_, hy, rfl⟩)

/-- C13 (completeness, distinct ids): the answer is `None` exactly when no inserted point found in the container is close;
in particular, if it is `None` then no inserted point is within the tolerance in every direction, and if every inserted
point is farther than `√ndim · tolerance` then it is `None`. -/
theorem C13_distinct_ids (h : Reached xmin xmax ndiv tol btol g hist) {iter : List (Nat × List ℝ) → List (Nat × List ℝ)}
    (hiter : IterOrder iter) (hnd : (hist.map (·.1)).Nodup) (q : List ℝ) (hq : q.length = xmin.length)
    (hin : isOutside g q = .ok false) :
    (search iter g q = .ok none → ∀ e ∈ hist, ∃ i < xmin.length, tol.getD (1 / 10000) < |q.getD i 0 - e.2.getD i 0|) ∧
    ((∀ e ∈ hist, Real.sqrt xmin.length * tol.getD (1 / 10000) < euclid e.2 q) → search iter g q = .ok none) := by
  constructor
  · intro hn e he
    exact C13_none_means_far h hiter hn (current_of_nodup hnd (id := e.1) (x := e.2) he)
  · intro hfar
    obtain ⟨r, h1, h2⟩ := (C13_search_sound h hiter q).1 ⟨hq, hin⟩
    cases r with
    | none => exact h1
    | some id =>
      obtain ⟨x, hx, hd⟩ := h2 id rfl
      have := hfar _ hx
      dsimp only at this
      linarith

/-! ## C14 -/

variable {iterO : List (Nat × HMap Nat (List ℝ)) → List (Nat × HMap Nat (List ℝ))}
  {iter : List (Nat × List ℝ) → List (Nat × List ℝ)}

/-- What an exact query returns: only ids inserted at a position in `S`, and all ids whose last position is in `S`. -/
def ExactQuery (hist : List (Nat × List ℝ)) (S : List ℝ → Prop) (ids : List Nat) : Prop :=
  (∀ id ∈ ids, ∃ x, (id, x) ∈ hist ∧ S x) ∧ ∀ id x, Current hist id x → S x → id ∈ ids

/-- With distinct ids, an exact query returns exactly the ids of the points in `S`. -/
theorem ExactQuery.iff_of_nodup {S : List ℝ → Prop} {ids : List Nat} (h : ExactQuery hist S ids)
    (hnd : (hist.map (·.1)).Nodup) (id : Nat) : id ∈ ids ↔ ∃ x, (id, x) ∈ hist ∧ S x :=
  ⟨h.1 id, fun ⟨x, hx, hs⟩ => h.2 id x (current_of_nodup hnd hx) hs⟩

theorem exactQuery_of {S : List ℝ → Prop} {ids : List Nat} {Q : List ℝ → Prop} {n : Nat}
    (hS : ∀ x, x.length = n → (S x ↔ Q x)) (hlen : ∀ id x, Current hist id x → x.length = n)
    (h1 : ∀ id ∈ ids, ∃ x, (id, x) ∈ hist ∧ x.length = n ∧ Q x) (h2 : ∀ id x, Current hist id x → Q x → id ∈ ids) :
    ExactQuery hist S ids :=
  ⟨fun id hid => by obtain ⟨x, a, b, c⟩ := h1 id hid; exact ⟨x, a, (hS x b).2 c⟩,
   fun id x hx hs => h2 id x hx ((hS x (hlen id x hx)).1 hs)⟩

/-- C14: `search_on_line` returns exactly the inserted points at distance at most `√ndim · tolerance` from the line
through `a` and `b` that satisfy the filter: the pre-selection of containers loses nothing. -/
theorem C14_line (h : Reached xmin xmax ndiv tol btol g hist) (hO : IterOrder iterO) (hI : IterOrder iter) (a b : List ℝ)
    (ha : a.length = xmin.length) (hb : b.length = xmin.length) (hab : f64Epsilon < euclid a b ^ 2) (filter : List ℝ → Bool) :
    ∃ ids, searchOnLine iterO iter g a b filter = .ok ids ∧ ExactQuery hist (fun x =>
      (∃ d, IsDistTo x (OnLine a b) d ∧ d ≤ Real.sqrt xmin.length * tol.getD (1 / 10000)) ∧ filter x = true) ids := by
  obtain ⟨hp, hd, ht, htd⟩ := h.params
  obtain ⟨hi, _⟩ := h.inv
  have had : a.length = 2 ∨ a.length = 3 := by rw [ha]; exact hd
  have hnn : f64Epsilon < nn3 a b := by
    rwa [euclid_eq_d3 had (by omega), sq, ← nn3_eq] at hab
  have hpos : 0 < nn3 a b := f64Epsilon_pos.trans hnn
  have hdist : ∀ x, x.length = g.ndim → pointLineDistance a b x = .ok (d3 x (linePoint a b (foot a b x))) := by
    intro x hx
    rw [pointLineDistance_eq had (by omega) (by omega), if_neg (not_le.2 hnn)]
  obtain ⟨ids, e1, e2, e3⟩ := entity_query hi hO hI hdist
    (fun x c _ _ => by have := lineDist_lip (c := c) (c' := x) (a := a) (b := b) (by omega) hpos; linarith) false filter
  refine ⟨ids, ?_, exactQuery_of (n := g.ndim) ?_ (fun id x hx => (hi.cur id x hx).1) e2 (fun id x hx hq => e3 id x hx hq.1 hq.2)⟩
  · unfold searchOnLine
    rw [if_neg (by omega), if_neg (by omega)]
    exact e1
  · intro x hx
    rw [← htd]
    have hl := isDistTo_line (c := x) had (b := b) (by omega) (by omega) hpos
    simp only [Bool.false_eq_true, if_false]
    constructor
    · rintro ⟨⟨d, h1, h2⟩, hf⟩
      rw [isDistTo_unique hl h1]; exact ⟨h2, hf⟩
    · rintro ⟨h1, hf⟩; exact ⟨⟨_, hl, h1⟩, hf⟩

/-- C14: `search_on_line` on wrong lengths is an error; for a too short segment it is an error as soon as the grid has a
point (an empty grid returns no ids). -/
theorem C14_line_errors (h : Reached xmin xmax ndiv tol btol g hist) (hO : IterOrder iterO) (a b : List ℝ) (filter : List ℝ → Bool) :
    (a.length ≠ xmin.length ∨ b.length ≠ xmin.length → ∃ e, searchOnLine iterO iter g a b filter = .err e) ∧
    (a.length = xmin.length → b.length = xmin.length → euclid a b ^ 2 ≤ f64Epsilon → hist ≠ [] →
      ∃ e, searchOnLine iterO iter g a b filter = .err e) := by
  obtain ⟨hp, hd, ht, htd⟩ := h.params
  obtain ⟨hi, _⟩ := h.inv
  unfold searchOnLine
  constructor
  · rintro h
    by_cases h1 : a.length ≠ g.ndim
    · rw [if_pos h1]; exact ⟨_, rfl⟩
    · rw [if_neg h1, if_pos (by omega)]; exact ⟨_, rfl⟩
  · intro ha hb hab hne
    rw [if_neg (by omega), if_neg (by omega)]
    have had : a.length = 2 ∨ a.length = 3 := by rw [ha]; exact hd
    have hnn : nn3 a b ≤ f64Epsilon := by
      rwa [euclid_eq_d3 had (by omega), sq, ← nn3_eq] at hab
    have hcont : g.containers ≠ [] := by
      obtain ⟨pre, e, he⟩ : ∃ pre e, hist = pre ++ [e] := by
        rcases List.eq_nil_or_concat hist with h | ⟨l, a, h⟩
        · exact absurd h hne
        · exact ⟨l, a, by simp [h]⟩
      have hcur : Current hist e.1 e.2 := ⟨pre, [], by rw [he], by simp⟩
      have hget := (hi.cur _ _ hcur).2.2 _ (Or.inl rfl)
      intro hc
      rw [hc] at hget
      simp [get2] at hget
    have hiO : iterO g.containers ≠ [] := by
      intro hc
      have := hO g.containers
      rw [hc] at this
      exact hcont (List.Perm.nil_eq this).symm
    obtain ⟨e, es, he⟩ := List.exists_cons_of_ne_nil hiO
    refine ⟨"a-to-b segment is too short", ?_⟩
    have hlen : (containerCenter g (pivotIndices g e.1)).length = g.ndim := by
      unfold containerCenter
      rcases hi.wf.ndim with h | h
      · rw [if_neg (by omega), h]; rfl
      · rw [if_pos h, h]; rfl
    have : containersNear iterO g (pointLineDistance a b) = .err "a-to-b segment is too short" := by
      unfold containersNear
      rw [he, List.foldlM_cons, pointLineDistance_eq had (by omega) (by omega), if_pos hnn]
      rfl
    rw [this]; rfl

/-- C14: `search_on_circle` (2D) returns exactly the inserted points at distance at most `√2 · tolerance` from the circle
that satisfy the filter. -/
theorem C14_circle (h : Reached xmin xmax ndiv tol btol g hist) (hO : IterOrder iterO) (hI : IterOrder iter) (h2d : xmin.length = 2)
    (center : List ℝ) (radius : ℝ) (hr : 0 ≤ radius) (hc : center.length = 2) (filter : List ℝ → Bool) :
    ∃ ids, searchOnCircle iterO iter g center radius filter = .ok ids ∧ ExactQuery hist (fun x =>
      (∃ d, IsDistTo x (OnCircle center radius) d ∧ d ≤ Real.sqrt 2 * tol.getD (1 / 10000)) ∧ filter x = true) ids := by
  obtain ⟨hp, hd, ht, htd⟩ := h.params
  obtain ⟨hi, _⟩ := h.inv
  have hdist : ∀ x, x.length = g.ndim → pointCircleDistance center radius x = .ok (d3 center x - radius) := by
    intro x hx
    unfold pointCircleDistance
    rw [if_neg (by omega), if_neg (by omega), pointPointDistance_eq (Or.inl hc) (by omega)]
  obtain ⟨ids, e1, e2, e3⟩ := entity_query hi hO hI hdist
    (fun x c _ _ => by have := d3_triangle center x c; rw [d3_comm x c] at this; linarith) true filter
  refine ⟨ids, ?_, exactQuery_of (n := g.ndim) ?_ (fun id x hx => (hi.cur id x hx).1) e2 (fun id x hx hq => e3 id x hx hq.1 hq.2)⟩
  · unfold searchOnCircle
    rw [if_neg (by omega), if_neg (by omega)]
    exact e1
  · intro x hx
    have : Real.sqrt (xmin.length : ℝ) = Real.sqrt 2 := by rw [h2d]; norm_num
    rw [← this, ← htd]
    obtain ⟨d, hd1, hd2, _⟩ := C36_point_circle center x radius hr hc (by omega)
    rw [hdist x hx] at hd1
    simp only [Res.ok.injEq] at hd1
    subst hd1
    simp only [if_true]
    constructor
    · rintro ⟨⟨d, h1, h2⟩, hf⟩
      rw [isDistTo_unique hd2 h1]; exact ⟨h2, hf⟩
    · rintro ⟨h1, hf⟩; exact ⟨⟨_, hd2, h1⟩, hf⟩

/-- C14: `search_on_cylinder` (3D) returns exactly the inserted points at distance at most `√3 · tolerance` from the
surface of the (infinite) cylinder that satisfy the filter. -/
theorem C14_cylinder (h : Reached xmin xmax ndiv tol btol g hist) (hO : IterOrder iterO) (hI : IterOrder iter) (h3d : xmin.length = 3)
    (a b : List ℝ) (radius : ℝ) (hr : 0 ≤ radius) (ha : a.length = 3) (hb : b.length = 3) (hab : f64Epsilon < euclid a b ^ 2)
    (filter : List ℝ → Bool) :
    ∃ ids, searchOnCylinder iterO iter g a b radius filter = .ok ids ∧ ExactQuery hist (fun x =>
      (∃ d, IsDistTo x (OnCylinder a b radius) d ∧ d ≤ Real.sqrt 3 * tol.getD (1 / 10000)) ∧ filter x = true) ids := by
  obtain ⟨hp, hd, ht, htd⟩ := h.params
  obtain ⟨hi, _⟩ := h.inv
  have hnn : f64Epsilon < nn3 a b := by
    rwa [euclid_eq_d3 (Or.inr ha) (by omega), sq, ← nn3_eq] at hab
  have hpos : 0 < nn3 a b := f64Epsilon_pos.trans hnn
  have hdist : ∀ x, x.length = g.ndim → pointCylinderDistance a b radius x = .ok (d3 x (linePoint a b (foot a b x)) - radius) := by
    intro x hx
    unfold pointCylinderDistance
    rw [if_neg (by omega), if_neg (by omega), if_neg (by omega), pointLineDistance_eq (Or.inr ha) (by omega) (by omega), if_neg (not_le.2 hnn)]
    rfl
  obtain ⟨ids, e1, e2, e3⟩ := entity_query hi hO hI hdist
    (fun x c _ _ => by have := lineDist_lip (c := c) (c' := x) (a := a) (b := b) (by omega) hpos; linarith) true filter
  refine ⟨ids, ?_, exactQuery_of (n := g.ndim) ?_ (fun id x hx => (hi.cur id x hx).1) e2 (fun id x hx hq => e3 id x hx hq.1 hq.2)⟩
  · unfold searchOnCylinder
    rw [if_neg (by omega), if_neg (by omega), if_neg (by omega)]
    exact e1
  · intro x hx
    have : Real.sqrt (xmin.length : ℝ) = Real.sqrt 3 := by rw [h3d]; norm_num
    rw [← this, ← htd]
    obtain ⟨d, hd1, hd2, _⟩ := (C36_point_cylinder a b x radius hr ha hb (by omega)).2 hab
    rw [hdist x hx] at hd1
    simp only [Res.ok.injEq] at hd1
    subst hd1
    simp only [if_true]
    constructor
    · rintro ⟨⟨d, h1, h2⟩, hf⟩
      rw [isDistTo_unique hd2 h1]; exact ⟨h2, hf⟩
    · rintro ⟨h1, hf⟩; exact ⟨⟨_, hd2, h1⟩, hf⟩

/-- C14: `search_on_plane_yz/xz/xy` (3D; `dim` = 0, 1, 2 is the fixed coordinate) return exactly the inserted points whose
coordinate `dim` differs from that of the plane by at most `√3 · tolerance` and that satisfy the filter. -/
theorem C14_plane (h : Reached xmin xmax ndiv tol btol g hist) (hO : IterOrder iterO) (hI : IterOrder iter) (h3d : xmin.length = 3)
    (dim : Nat) (hdim : dim < 3) (coord : ℝ) (filter : List ℝ → Bool) :
    ∃ ids, searchOnPlane iterO iter g dim coord filter = .ok ids ∧ ExactQuery hist (fun x =>
      |x.getD dim 0 - coord| ≤ Real.sqrt 3 * tol.getD (1 / 10000) ∧ filter x = true) ids := by
  obtain ⟨hp, hd, ht, htd⟩ := h.params
  obtain ⟨hi, _⟩ := h.inv
  have comp : ∀ c x : List ℝ, |at' c dim - at' x dim| ≤ d3 c x := by
    intro c x
    unfold d3
    interval_cases dim
    · exact abs_le_n3_1 _ _ _
    · exact abs_le_n3_2 _ _ _
    · exact abs_le_n3_3 _ _ _
  obtain ⟨ids, e1, e2, e3⟩ := entity_query hi hO hI (dist := fun x => .ok |at' x dim - coord|) (D := fun x => |at' x dim - coord|)
    (fun x _ => rfl) (fun x c _ _ => by
      have h1 := comp c x
      have h2 := abs_sub_le (at' c dim) (at' x dim) coord
      linarith) true filter
  refine ⟨ids, ?_, exactQuery_of (n := g.ndim) ?_ (fun id x hx => (hi.cur id x hx).1) e2 (fun id x hx hq => e3 id x hx hq.1 hq.2)⟩
  · unfold searchOnPlane
    rw [if_neg (by omega)]
    exact e1
  · intro x hx
    have : Real.sqrt (xmin.length : ℝ) = Real.sqrt 3 := by rw [h3d]; norm_num
    rw [← this, ← htd]
    simp only [if_true, abs_abs]
    rfl

/-- C14: wrong space dimensions are errors. -/
theorem C14_wrong_dimension (h : Reached xmin xmax ndiv tol btol g hist) (filter : List ℝ → Bool) :
    (xmin.length ≠ 2 → ∀ center radius, ∃ e, searchOnCircle iterO iter g center radius filter = .err e) ∧
    (xmin.length ≠ 3 → ∀ a b radius, ∃ e, searchOnCylinder iterO iter g a b radius filter = .err e) ∧
    (xmin.length ≠ 3 → ∀ dim coord, ∃ e, searchOnPlane iterO iter g dim coord filter = .err e) := by
  have hp := h.params.1
  refine ⟨fun hn c r => ?_, fun hn a b r => ?_, fun hn d c => ?_⟩
  · unfold searchOnCircle; rw [if_pos (by omega)]; exact ⟨_, rfl⟩
  · unfold searchOnCylinder; rw [if_pos (by omega)]; exact ⟨_, rfl⟩
  · unfold searchOnPlane; rw [if_pos (by omega)]; exact ⟨_, rfl⟩

/-! ## Witnesses -/

/-- A grid with three points (one of them inserted twice under the same id at different places) is reachable: the
hypotheses of the theorems above can be met. -/
theorem exists_reached_grid : ∃ g, Reached [0, 0] [10, 10] (some 2) none none g [(7, [1, 2]), (8, [5, 5]), (9, [9, 3]), (7, [6, 6])] := by
  have hv : NdivValid 1 2 [0, 0] [10, 10] := by
    refine ⟨by norm_num, by norm_num, rfl, by simp, ?_⟩
    intro i hi
    simp only [List.length_cons, List.length_nil] at hi
    interval_cases i <;> norm_num [at']
  obtain ⟨nd, hnd, hl, hd⟩ := numDivisions_ok hv
  have hd' := hd 0 (by simp) (by intro j hj; simp only [List.length_cons, List.length_nil] at hj; interval_cases j <;> norm_num [at']) 0 (by simp)
  have : nd.getD 0 0 = 2 := by rw [hd']; norm_num [at']
  obtain ⟨g0, hg0⟩ := new_ok_of (xmin := [0, 0]) (xmax := [10, 10]) (ndiv := some 2) (tol := none) (btol := none) (nd := nd)
    (Or.inl rfl) rfl hnd (by norm_num) (by norm_num) ⟨0, by simp, by rw [this]; norm_num [at']⟩
  have r0 : Reached [0, 0] [10, 10] (some 2) none none g0 [] := .new hg0
  have step : ∀ {g : GridSearch} {hist : List (Nat × List ℝ)}, Reached [0, 0] [10, 10] (some 2) none none g hist → ∀ (id : Nat) (u v : ℝ),
      0 ≤ u → u ≤ 10 → 0 ≤ v → v ≤ 10 → ∃ g', Reached [0, 0] [10, 10] (some 2) none none g' (hist ++ [(id, [u, v])]) := by
    intro g hist hr id u v h1 h2 h3 h4
    have ho := C16_covers hr [u, v] rfl (by
      intro i hi
      simp only [List.length_cons, List.length_nil] at hi
      interval_cases i
      · simp only [List.getD_cons_zero, Option.getD_none]; constructor <;> linarith
      · simp only [List.getD_cons_zero, List.getD_cons_succ, Option.getD_none]; constructor <;> linarith)
    obtain ⟨g', hg'⟩ := (C16_insert_ok_iff hr id [u, v]).1 ⟨rfl, ho⟩
    exact ⟨g', .insert hr hg'⟩
  obtain ⟨g1, r1⟩ := step r0 7 1 2 (by norm_num) (by norm_num) (by norm_num) (by norm_num)
  obtain ⟨g2, r2⟩ := step r1 8 5 5 (by norm_num) (by norm_num) (by norm_num) (by norm_num)
  obtain ⟨g3, r3⟩ := step r2 9 9 3 (by norm_num) (by norm_num) (by norm_num) (by norm_num)
  obtain ⟨g4, r4⟩ := step r3 7 6 6 (by norm_num) (by norm_num) (by norm_num) (by norm_num)
  exact ⟨g4, r4⟩

/-- C13 (defect): re-inserting an id at another place does not remove the old entry: item 7 is moved from (1,2) to (9,9), and
`search` still answers 7 at (1,2), for every iteration order. -/
theorem C13_reinsertion_keeps_old_position : ∃ g, Reached [0, 0] [10, 10] (some 2) none none g [(7, [1, 2]), (7, [9, 9])] ∧
    ∀ iter, IterOrder iter → search iter g [1, 2] = .ok (some 7) := by
  have hv : NdivValid 1 2 [0, 0] [10, 10] := by
    refine ⟨by norm_num, by norm_num, rfl, by simp, ?_⟩
    intro i hi
    simp only [List.length_cons, List.length_nil] at hi
    interval_cases i <;> norm_num [at']
  obtain ⟨nd, hnd, hl, hd⟩ := numDivisions_ok hv
  have hd' : ∀ i < 2, nd.getD i 0 = 2 := by
    intro i hi
    rw [hd 0 (by simp) (by intro j hj; simp only [List.length_cons, List.length_nil] at hj; interval_cases j <;> norm_num [at']) i (by simpa using hi)]
    interval_cases i <;> norm_num [at']
  obtain ⟨g0, hg0⟩ := new_ok_of (xmin := [0, 0]) (xmax := [10, 10]) (ndiv := some 2) (tol := none) (btol := none) (nd := nd)
    (Or.inl rfl) rfl hnd (by norm_num) (by norm_num) ⟨0, by simp, by rw [hd' 0 (by norm_num)]; norm_num [at']⟩
  have r0 : Reached [0, 0] [10, 10] (some 2) none none g0 [] := .new hg0
  have cov : ∀ {g : GridSearch} {hist : List (Nat × List ℝ)}, Reached [0, 0] [10, 10] (some 2) none none g hist → ∀ (u v : ℝ),
      0 ≤ u → u ≤ 10 → 0 ≤ v → v ≤ 10 → isOutside g [u, v] = .ok false := by
    intro g hist hr u v h1 h2 h3 h4
    exact C16_covers hr [u, v] rfl (by
      intro i hi
      simp only [List.length_cons, List.length_nil] at hi
      interval_cases i
      · simp only [List.getD_cons_zero, Option.getD_none]; constructor <;> linarith
      · simp only [List.getD_cons_zero, List.getD_cons_succ, Option.getD_none]; constructor <;> linarith)
  obtain ⟨g1, e1⟩ := (C16_insert_ok_iff r0 7 [1, 2]).1 ⟨rfl, cov r0 1 2 (by norm_num) (by norm_num) (by norm_num) (by norm_num)⟩
  have r1 : Reached [0, 0] [10, 10] (some 2) none none g1 ([] ++ [(7, [1, 2])]) := .insert r0 e1
  obtain ⟨g2, e2⟩ := (C16_insert_ok_iff r1 7 [9, 9]).1 ⟨rfl, cov r1 9 9 (by norm_num) (by norm_num) (by norm_num) (by norm_num)⟩
  have r2 : Reached [0, 0] [10, 10] (some 2) none none g2 ([] ++ [(7, [1, 2])] ++ [(7, [9, 9])]) := .insert r1 e2
  refine ⟨g2, r2, fun iter hiter => ?_⟩
  obtain ⟨hi1, g0', hg0', cs1, hgeq⟩ := r1.inv
  rw [hg0] at hg0'
  simp only [Res.ok.injEq] at hg0'
  subst hg0'
  obtain ⟨_, _, hn, _, ht, _, hnd', _, _, i, hi, hs⟩ := new_ok hg0
  rw [hn] at hi
  simp only [List.length_cons, List.length_nil] at hi
  have hndeq : g0.ndiv = nd := by
    have := hnd'.symm.trans hnd
    simpa using this
  have hside : g1.sideLength = 501 / 100 := by
    rw [hgeq]
    change g0.sideLength = _
    rw [hs, hndeq, hd' i hi]
    interval_cases i <;> norm_num [at']
  have htol : g1.tolerance = 1 / 10000 := by rw [hgeq]; exact ht
  have hn1 : g1.ndim = 2 := by rw [hgeq]; exact hn
  have w1 := hi1.wf
  -- the old entry
  have hcur : Current ([] ++ [((7 : Nat), ([1, 2] : List ℝ))]) 7 [1, 2] := ⟨[], [], rfl, by simp⟩
  obtain ⟨hl1, hin1, hk1⟩ := hi1.cur 7 [1, 2] hcur
  have hold := hk1 _ (Or.inl rfl)
  have hv2 : ([9, 9] : List ℝ).length = g1.ndim ∧ Inside g1 [9, 9] := by
    refine ⟨hn1.symm, ?_⟩
    have := cov r1 9 9 (by norm_num) (by norm_num) (by norm_num) (by norm_num)
    rw [isOutside_eq (x := [9, 9]) hn1.symm] at this
    simpa using this
  obtain ⟨cs2, e2', _, hget⟩ := (insert_spec hi1.cwf 7 [9, 9]).1 hv2
  rw [e2] at e2'
  simp only [Res.ok.injEq] at e2'
  have far : ∀ c : List ℝ, Inside g1 c → 8 ≤ at' c 0 → keyOf g1 c ≠ keyOf g1 [1, 2] := by
    intro c hc h8 hk
    have p1 := pivot_keyOf w1 hc
    have p2 := pivot_keyOf w1 hin1
    rw [hk, p2] at p1
    simp only [Prod.mk.injEq] at p1
    have b1 := rIdx_box w1 (i := 0) (by omega) (hc 0 (by omega)).1 (hc 0 (by omega)).2
    have b2 := rIdx_box w1 (i := 0) (by omega) (hin1 0 (by omega)).1 (hin1 0 (by omega)).2
    rw [← p1.1] at b1
    rw [hside] at b1 b2
    have : at' ([1, 2] : List ℝ) 0 = 1 := rfl
    rw [this] at b1 b2
    linarith [b1.2, b2.1]
  have hnk : ¬ IsKey g1 [9, 9] (keyOf g1 [1, 2]) := by
    rintro (h | ⟨c, hc, hcin, hck⟩)
    · exact far [9, 9] hv2.2 (by norm_num [at']) h.symm
    · refine far c hcin ?_ hck
      unfold setHalo at hc
      rw [if_pos hn1, htol] at hc
      simp only [List.mem_cons, List.not_mem_nil, or_false] at hc
      rcases hc with rfl | rfl | rfl | rfl <;> norm_num [at']
  have hstale : get2 g2.containers (keyOf g2 [1, 2]) 7 = some [1, 2] := by
    have hkeq : keyOf g2 [1, 2] = keyOf g1 [1, 2] := by rw [e2']; rfl
    rw [hkeq, e2']
    dsimp only
    rw [hget, if_neg (fun h => hnk h.2)]
    exact hold
  obtain ⟨hi2, _⟩ := r2.inv
  have hin2 : Inside g2 [1, 2] := by rw [e2']; exact hin1
  have hn2 : ([1, 2] : List ℝ).length = g2.ndim := by rw [e2']; exact hn1.symm
  obtain ⟨r, s1, s2, s3⟩ := search_spec hi2 hiter hn2 hin2
  cases r with
  | none =>
    have := s3 rfl 7 [1, 2] hstale
    have hz : d3 ([1, 2] : List ℝ) [1, 2] = 0 := by unfold d3 n3; simp
    rw [hz, hi2.wf.tolDist] at this
    have h1 := hi2.wf.tolPos
    have h2 := Real.sqrt_nonneg (g2.ndim : ℝ)
    nlinarith
  | some id =>
    rw [s1]
    obtain ⟨x, hx, _⟩ := s2 id rfl
    simp only [List.nil_append, List.cons_append, List.mem_cons, Prod.mk.injEq, List.not_mem_nil, or_false] at hx
    rcases hx with hx | hx <;> rw [hx.1]

end
end Gemlab
