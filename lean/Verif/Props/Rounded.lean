import Verif.Proofs.Rounded2
import Verif.Proofs.Rounding
import Verif.Props.GridSearch
import Verif.Spec.Euclid
import Mathlib.Tactic.LinearCombination

/-!
# C88: the search grid with rounding
-/
namespace Gemlab.Rounded
open Gemlab.Spec
noncomputable section
open Classical
open GridSearch (Inside get2 CWF Current)

variable {fl : ℝ → ℝ} {u : ℝ}

theorem numDivisions_pos {ndivMin ndivLong : Nat} {xmin xmax : List ℝ} {nd : List Nat} (h : numDivisions fl ndivMin ndivLong xmin xmax = .ok nd) :
    nd.length = xmin.length ∧ ∀ i < xmin.length, 1 ≤ nd.getD i 0 := by
  unfold numDivisions at h
  split at h
  · simp at h
  rename_i h1
  split at h
  · simp at h
  rename_i h2
  split at h
  · simp at h
  dsimp only at h
  split at h
  · simp at h
  have hf := (Res.mapM_ok_iff _ _ _).1 h
  have hl := hf.length_eq
  rw [List.length_range] at hl
  refine ⟨hl.symm, fun i hi => ?_⟩
  have := List.Forall₂.get hf (i := i) (by simpa using hi) (by omega)
  rw [List.getD_eq_getElem?_getD]
  simp only [List.getElem?_eq_getElem (show i < nd.length by omega), Option.getD_some]
  simp only [List.get_eq_getElem, List.getElem_range] at this
  split at this
  · simp at this
  · split at this
    · simp only [Res.ok.injEq] at this; omega
    · simp only [Res.ok.injEq] at this; omega

/-- What `new` returns. -/
theorem new_ok {xmin xmax : List ℝ} {ndiv : Option Nat} {tol btol : Option ℝ} {g : GridSearch} (h : new fl xmin xmax ndiv tol btol = .ok g) :
    WF fl g ∧ g.containers = [] ∧ g.ndim = xmin.length ∧ g.tolerance = tol.getD (fl (1 / 10000)) := by
  unfold new at h
  dsimp only at h
  split at h
  · simp at h
  rename_i hd
  split at h
  · simp at h
  split at h
  · simp at h
  obtain ⟨nd, hnd, h⟩ := Res.bind_eq_ok.1 h
  obtain ⟨hndl, hndp⟩ := numDivisions_pos hnd
  split at h
  · simp at h
  rename_i ht
  split at h
  · simp at h
  generalize (if btol.getD (fl (1 / 100)) > 0 then xmin.map (fun v => fl (v - btol.getD (fl (1 / 100)))) else xmin) = x0 at h
  generalize (if btol.getD (fl (1 / 100)) > 0 then xmax.map (fun v => fl (v + btol.getD (fl (1 / 100)))) else xmax) = x1 at h
  split at h
  · simp at h
  simp only [Res.ok.injEq] at h
  subst h
  refine ⟨⟨by dsimp only; omega, hndp, rfl, not_le.1 ht, ?_, ?_⟩, rfl, rfl, rfl⟩
  · intro i hi
    dsimp only at hi ⊢
    simp [at', hi]
  · dsimp only
    have : xmin.length = 2 ∨ xmin.length = 3 := by omega
    rcases this with h | h <;> simp [h]

/-- The grids that can be reached by `new` and insertions, with the insertions. -/
inductive Reached (fl : ℝ → ℝ) (xmin xmax : List ℝ) (ndiv : Option Nat) (tol btol : Option ℝ) : GridSearch → List (Nat × List ℝ) → Prop
  | new {g} : new fl xmin xmax ndiv tol btol = .ok g → Reached fl xmin xmax ndiv tol btol g []
  | insert {g g' hist id x} : Reached fl xmin xmax ndiv tol btol g hist → insert fl g id x = .ok g' →
      Reached fl xmin xmax ndiv tol btol g' (hist ++ [(id, x)])

variable {xmin xmax : List ℝ} {ndiv : Option Nat} {tol btol : Option ℝ} {g : GridSearch} {hist : List (Nat × List ℝ)}

theorem Reached.inv (h : Reached fl xmin xmax ndiv tol btol g hist) : Inv fl g hist ∧ g.ndim = xmin.length ∧ g.tolerance = tol.getD (fl (1 / 10000)) := by
  induction h with
  | new h =>
    obtain ⟨h1, h2, h3, h4⟩ := new_ok h
    refine ⟨⟨h1, ?_, ?_, ?_⟩, h3, h4⟩
    · rw [h2]; exact ⟨HMap.wf_nil, by simp⟩
    · intro k id x; rw [h2]; simp [get2]
    · rintro id x ⟨pre, suf, e, _⟩; simp at e
  | insert _ hi ih =>
    obtain ⟨a, cs', rfl⟩ := inv_insert ih.1 hi
    exact ⟨a, ih.2⟩

theorem outside_iff {x : List ℝ} (hx : x.length = g.ndim) : GridSearch.isOutside g x = .ok false ↔ Inside g x := by
  rw [GridSearch.isOutside_eq hx]
  simp

/-- **C88.** Without rounding, the functions are those of `Model/GridSearch`. -/
theorem C88_exact : numDivisions id = Gemlab.numDivisions ∧ new id = GridSearch.new ∧ insert id = GridSearch.insert ∧ search id = GridSearch.search := by
  have hp : pointPointDistance id = Gemlab.pointPointDistance := rfl
  have hk : calcContainerKey id = GridSearch.calcContainerKey := rfl
  have hs : searchLoop id = GridSearch.searchLoop := by
    funext t x l
    induction l with
    | nil => rfl
    | cons e l ih =>
      obtain ⟨id', xo⟩ := e
      unfold searchLoop GridSearch.searchLoop
      rw [hp, ih]
  refine ⟨rfl, ?_, ?_, ?_⟩
  · rfl
  · rfl
  · funext iter g x
    unfold search GridSearch.search
    rw [hk, hs]
    rfl

/-- **C88.** Insertions and searches of points in the grid succeed; other points are rejected. -/
theorem C88_ok (h : Reached fl xmin xmax ndiv tol btol g hist) {iter : List (Nat × List ℝ) → List (Nat × List ℝ)} (hiter : IterOrder iter) (id : Nat) (x : List ℝ) :
    (x.length = xmin.length ∧ GridSearch.isOutside g x = .ok false → (∃ g', insert fl g id x = .ok g') ∧ ∃ r, search fl iter g x = .ok r) ∧
    (¬ (x.length = xmin.length ∧ GridSearch.isOutside g x = .ok false) → (∃ e, insert fl g id x = .err e) ∧ ∃ e, search fl iter g x = .err e) := by
  obtain ⟨hi, hn, _⟩ := h.inv
  rw [← hn]
  have e : (x.length = g.ndim ∧ GridSearch.isOutside g x = .ok false) ↔ x.length = g.ndim ∧ Inside g x := by
    constructor
    · rintro ⟨a, b⟩; exact ⟨a, (outside_iff a).1 b⟩
    · rintro ⟨a, b⟩; exact ⟨a, (outside_iff a).2 b⟩
  rw [e]
  constructor
  · rintro ⟨a, b⟩
    obtain ⟨cs, h1, _⟩ := (insert_spec fl hi.cwf id x).1 ⟨a, b⟩
    obtain ⟨r, h2, _⟩ := search_spec hi hiter a b
    exact ⟨⟨_, h1⟩, r, h2⟩
  · intro hc
    exact ⟨(insert_spec fl hi.cwf id x).2 hc, search_err hc⟩

/-- **C88.** A search at the coordinates of a point in the grid finds a point, whatever the size of the rounding errors and of the containers. -/
theorem C88_same (R : Rounding fl u) (h : Reached fl xmin xmax ndiv tol btol g hist) {iter : List (Nat × List ℝ) → List (Nat × List ℝ)}
    (hiter : IterOrder iter) {id : Nat} {x : List ℝ} (hx : Current hist id x) : ∃ id', search fl iter g x = .ok (some id') := by
  obtain ⟨hi, hn, ht⟩ := h.inv
  obtain ⟨a, b, c⟩ := hi.cur id x hx
  obtain ⟨r, h1, h2, h3⟩ := search_spec hi hiter a b
  cases r with
  | some id' => exact ⟨id', h1⟩
  | none =>
    have := h3 rfl id x (c _ (Or.inl rfl))
    have h0 : 0 ≤ g.tolDist := by
      rw [hi.wf.tolDist]
      exact R.nonneg (mul_nonneg (R.nonneg (Real.sqrt_nonneg _)) hi.wf.tolPos.le)
    have hd : dist fl x x = 0 := by
      have hs : ∀ i, sq fl x x i = 0 := by intro i; unfold sq; rw [sub_self, R.zero, mul_zero, R.zero]
      unfold dist
      simp only [hs, add_zero, R.zero, Real.sqrt_zero, ite_self]
    linarith

/-- **C88.** Every point is found from everywhere within the tolerance, diminished by a few rounding errors. -/
theorem C88_finds (R : Rounding fl u) (h : Reached fl xmin xmax ndiv tol btol g hist) {B : ℝ} (hB : Fits u B g)
    {iter : List (Nat × List ℝ) → List (Nat × List ℝ)} (hiter : IterOrder iter) {id : Nat} {x q : List ℝ} (hx : Current hist id x)
    (hq : q.length = xmin.length) (hfl : ∀ i < xmin.length, IsFloat fl (q.getD i 0)) (hin : GridSearch.isOutside g q = .ok false)
    (hnear : ∀ i < xmin.length, |q.getD i 0 - x.getD i 0| ≤ (1 - 8 * u) * tol.getD (fl (1 / 10000))) :
    ∃ id', search fl iter g q = .ok (some id') := by
  obtain ⟨u0, u1⟩ := R.small
  obtain ⟨hi, hn, ht⟩ := h.inv
  rw [← hn] at hq hfl hnear
  rw [← ht] at hnear
  have hw := hi.wf
  have htp := hw.tolPos
  rw [outside_iff hq] at hin
  obtain ⟨a, b, c⟩ := hi.cur id x hx
  obtain ⟨r, h1, h2, h3⟩ := search_spec hi hiter hq hin
  cases r with
  | some id' => exact ⟨id', h1⟩
  | none =>
    exfalso
    have hle : ∀ i < g.ndim, |at' q i - at' x i| ≤ g.tolerance := fun i hi' => (hnear i hi').trans (by nlinarith)
    obtain ⟨k, hk1, hk2, hk3⟩ := halo_key R hw hB b hin hfl hle
    have hlt := h3 rfl id x (c _ (Or.inr ⟨k, hk1, hk2, hk3⟩))
    have hd := (dist_bounds R (a := x) (b := q) (a ▸ hw.ndim) (by omega)).2
    have hT := (tolDist_bounds R hw).1
    have hs : d3 x q ≤ Real.sqrt g.ndim * ((1 - 8 * u) * g.tolerance) := by
      have hsq : Real.sqrt (g.ndim : ℝ) * Real.sqrt (g.ndim : ℝ) = (g.ndim : ℝ) := Real.mul_self_sqrt (by positivity)
      set t := (1 - 8 * u) * g.tolerance
      have ht0 : 0 ≤ t := mul_nonneg (by linarith) htp.le
      have sqle : ∀ i < g.ndim, (at' q i - at' x i) * (at' q i - at' x i) ≤ t * t := by
        intro i hi'
        have := hnear i hi'
        change |at' q i - at' x i| ≤ t at this
        rw [abs_le] at this
        nlinarith
      apply n3_le_of_sq (mul_nonneg (Real.sqrt_nonneg _) ht0)
      rw [show Real.sqrt g.ndim * t * (Real.sqrt g.ndim * t) = (g.ndim : ℝ) * (t * t) by linear_combination (t * t) * hsq]
      have e0 := sqle 0 (by have := hw.ndim; omega)
      have e1 := sqle 1 (by have := hw.ndim; omega)
      rcases hw.ndim with h2 | h3
      · have hn2 : (g.ndim : ℝ) = 2 := by rw [h2]; norm_num
        rw [hn2, at'_of_ge (v := x) (i := 2) (by omega), at'_of_ge (v := q) (i := 2) (by omega)]
        linarith
      · have e2 := sqle 2 (by omega)
        have hn3 : (g.ndim : ℝ) = 3 := by rw [h3]; norm_num
        rw [hn3]
        linarith
    have hS : 0 ≤ Real.sqrt g.ndim * g.tolerance := mul_nonneg (Real.sqrt_nonneg _) htp.le
    have h5 : (1 + u) ^ 4 * d3 x q ≤ (1 + u) ^ 4 * (1 - 8 * u) * (Real.sqrt g.ndim * g.tolerance) := by
      calc _ ≤ (1 + u) ^ 4 * (Real.sqrt g.ndim * ((1 - 8 * u) * g.tolerance)) := mul_le_mul_of_nonneg_left hs (by positivity)
        _ = _ := by ring
    have h6 : (1 + u) ^ 4 * (1 - 8 * u) ≤ (1 - u) ^ 2 := by
      have : (1 - u) ^ 2 - (1 + u) ^ 4 * (1 - 8 * u) = u * (2 + 27 * u + 44 * u ^ 2 + 31 * u ^ 3 + 8 * u ^ 4) := by ring
      have : 0 ≤ u * (2 + 27 * u + 44 * u ^ 2 + 31 * u ^ 3 + 8 * u ^ 4) := by positivity
      linarith
    have h7 := mul_le_mul_of_nonneg_right h6 hS
    linarith

/-- **C88.** The point found is within the tolerance, extended by a few rounding errors. -/
theorem C88_sound (R : Rounding fl u) (h : Reached fl xmin xmax ndiv tol btol g hist)
    {iter : List (Nat × List ℝ) → List (Nat × List ℝ)} (hiter : IterOrder iter) {id : Nat} {q : List ℝ} (hs : search fl iter g q = .ok (some id)) :
    ∃ x, (id, x) ∈ hist ∧ euclid x q ≤ (1 + 8 * u) * (Real.sqrt xmin.length * tol.getD (fl (1 / 10000))) := by
  obtain ⟨u0, u1⟩ := R.small
  obtain ⟨hi, hn, ht⟩ := h.inv
  by_cases hc : q.length = g.ndim ∧ Inside g q
  swap
  · obtain ⟨e, he⟩ := search_err (fl := fl) (iter := iter) hc
    rw [he] at hs; simp at hs
  obtain ⟨r, h1, h2, -⟩ := search_spec hi hiter hc.1 hc.2
  rw [hs] at h1
  obtain ⟨x, x1, x2, x3⟩ := h2 id (by simpa using h1.symm)
  refine ⟨x, x1, ?_⟩
  rw [← hn, ← ht]
  have hd := (dist_bounds R (a := x) (b := q) (x2 ▸ hi.wf.ndim) (by omega)).1
  have hT := (tolDist_bounds R hi.wf).2
  have he : euclid x q = d3 x q := by
    exact euclid_eq_d3 (by have := hi.wf.ndim; omega) (by omega)
  rw [he]
  have hS : 0 ≤ Real.sqrt g.ndim * g.tolerance := mul_nonneg (Real.sqrt_nonneg _) hi.wf.tolPos.le
  set S := Real.sqrt g.ndim * g.tolerance
  have hp : 0 < (1 - u) ^ 4 := by apply pow_pos; linarith
  have h6 : (1 + u) ^ 2 ≤ (1 - u) ^ 4 * (1 + 8 * u) := by
    have : (1 - u) ^ 4 * (1 + 8 * u) - (1 + u) ^ 2 = u * (2 - 27 * u + 44 * u ^ 2 - 31 * u ^ 3 + 8 * u ^ 4) := by ring
    have : 0 ≤ 2 - 27 * u + 44 * u ^ 2 - 31 * u ^ 3 + 8 * u ^ 4 := by
      have : 31 * u ^ 3 ≤ 44 * u ^ 2 := by nlinarith [sq_nonneg u]
      have : 0 ≤ 8 * u ^ 4 := by positivity
      linarith
    have := mul_nonneg u0 this
    linarith
  have h7 : (1 - u) ^ 4 * d3 x q ≤ (1 - u) ^ 4 * ((1 + 8 * u) * S) := by
    calc _ ≤ (1 + u) ^ 2 * S := by linarith
      _ ≤ (1 - u) ^ 4 * (1 + 8 * u) * S := mul_le_mul_of_nonneg_right h6 hS
      _ = _ := by ring
  exact le_of_mul_le_mul_left h7 hp

/-- **C88.** The containers are numbered from zero to the product of the numbers of divisions. -/
theorem C88_keys (R : Rounding fl u) (h : Reached fl xmin xmax ndiv tol btol g hist) {B : ℝ} (hB : Fits u B g) {x : List ℝ} (hx : x.length = xmin.length)
    (hin : GridSearch.isOutside g x = .ok false) : ∃ key, calcContainerKey fl g x = some key ∧ key < ((List.range xmin.length).map fun i => g.ndiv.getD i 0).prod := by
  obtain ⟨hi, hn, ht⟩ := h.inv
  rw [← hn] at hx ⊢
  rw [outside_iff hx] at hin
  refine ⟨keyOf fl g x, by rw [calcContainerKey_eq, if_pos hin], ?_⟩
  have l : ∀ i < g.ndim, rIdx fl g i (at' x i) < g.ndiv.getD i 0 := fun i hi' => rIdx_lt R hi.wf hB hi' (hin i hi').1 (hin i hi').2
  rcases hi.wf.ndim with h2 | h3
  · rw [keyOf2 hi.wf h2, h2]
    have l0 := l 0 (by omega)
    have l1 := l 1 (by omega)
    simp only [List.range_succ, List.range_zero, List.nil_append, List.cons_append, List.map_cons, List.map_nil, List.prod_cons, List.prod_nil, mul_one]
    have := Nat.mul_le_mul_right (g.ndiv.getD 0 0) (show rIdx fl g 1 (at' x 1) + 1 ≤ _ from l1)
    nlinarith
  · rw [keyOf3 hi.wf h3, h3]
    have l0 := l 0 (by omega)
    have l1 := l 1 (by omega)
    have l2 := l 2 (by omega)
    simp only [List.range_succ, List.range_zero, List.nil_append, List.cons_append, List.map_cons, List.map_nil, List.prod_cons, List.prod_nil, mul_one]
    have a1 := Nat.mul_le_mul_right (g.ndiv.getD 0 0) (show rIdx fl g 1 (at' x 1) + 1 ≤ _ from l1)
    have a2 := Nat.mul_le_mul_right (g.ndiv.getD 0 0 * g.ndiv.getD 1 0) (show rIdx fl g 2 (at' x 2) + 1 ≤ _ from l2)
    nlinarith

/-- **C88.** Double precision meets the assumptions about rounding. -/
theorem C88_binary64 : Rounding binary64 ((2 : ℝ) ^ (-53 : ℤ)) := binary64_rounding

end
end Gemlab.Rounded
