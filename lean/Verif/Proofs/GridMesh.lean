import Verif.Spec.Generators
import Verif.Proofs.Block3
import Verif.Props.GraphConv

/-! # The graph of a structured mesh: connected, of small diameter; renumbering succeeds -/
namespace Gemlab.Structured
noncomputable section
open Classical
open Gemlab.Mesh Gemlab.Shapes Gemlab.Block Gemlab.Spec Gemlab.Props.Mesh

/-- Requirements for the grid. -/
structure Grid (ndim : Nat) (target : GeoKind) (n : Nat → Nat) (tick : Nat → Nat → ℝ) : Prop where
  dims : ndim = 2 ∨ ndim = 3
  cls : target.classOf = if ndim = 2 then .qua else .hex
  pos : ∀ a < 3, 1 ≤ n a
  two : ndim = 2 → n 2 = 1
  incr : ∀ a < ndim, ∀ i < n a, tick a i < tick a (i + 1)

variable {ndim : Nat} {target : GeoKind} {n : Nat → Nat} {tick : Nat → Nat → ℝ} {place : List ℝ → List ℝ} {marker : Nat → Nat → Nat → Int}
  {num : Nat → Nat → Nat → Nat} {M : Mesh ℝ} {S : Nat → Nat → Nat → Prop}

theorem Grid.qh (h : Grid ndim target n tick) : IsQuaHex target := by
  have := h.cls
  split at this
  · exact .inl this
  · exact .inr this

theorem Grid.ndim_eq (h : Grid ndim target n tick) : target.ndim = ndim := by
  have := h.cls
  rcases h.dims with rfl | rfl
  · cases target <;> first | rfl | exact absurd this (by decide)
  · cases target <;> first | rfl | exact absurd this (by decide)

theorem getD_tickPos {i j k m a : Nat} (ha : a < ndim) : (tickPos ndim tick target i j k m).getD a 0 =
    tick a (pick i j k a) + (tick a (pick i j k a + 1) - tick a (pick i j k a)) * rr target m a := by
  unfold tickPos
  rw [getD_map_range ha]
  rfl

theorem length_tickPos (i j k m : Nat) : (tickPos ndim tick target i j k m).length = ndim := by simp [tickPos]

theorem pick_lt {n : Nat → Nat} {i j k : Nat} (h : Box n i j k) {a : Nat} (ha : a < 3) : pick i j k a < n a := by
  obtain ⟨h0, h1, h2⟩ := h
  unfold pick
  rcases (by omega : a = 0 ∨ a = 1 ∨ a = 2) with rfl | rfl | rfl <;> assumption

theorem Grid.lt3 (h : Grid ndim target n tick) {a : Nat} (ha : a < ndim) : a < 3 := by rcases h.dims with rfl | rfl <;> omega

theorem Grid.mono (h : Grid ndim target n tick) {a : Nat} (ha : a < ndim) {i i' : Nat} (hi : i ≤ i') (hn : i' ≤ n a) : tick a i ≤ tick a i' := by
  induction i' with
  | zero => rw [Nat.le_zero.1 hi]
  | succ j ih =>
    rcases Nat.lt_or_ge i (j + 1) with h1 | h1
    · exact (ih (by omega) (by omega)).trans (h.incr a ha j (by omega)).le
    · rw [show i = j + 1 by omega]

theorem Grid.strict (h : Grid ndim target n tick) {a : Nat} (ha : a < ndim) {i i' : Nat} (hi : i < i') (hn : i' ≤ n a) : tick a i < tick a i' :=
  (h.incr a ha i (by omega)).trans_le (h.mono ha hi hn)

/-- The position is between the ticks of the cell. -/
theorem Grid.between (h : Grid ndim target n tick) {i j k m a : Nat} (hb : Box n i j k) (hm : m < target.nnode) (ha : a < ndim) :
    tick a (pick i j k a) ≤ (tickPos ndim tick target i j k m).getD a 0 ∧ (tickPos ndim tick target i j k m).getD a 0 ≤ tick a (pick i j k a + 1) := by
  rw [getD_tickPos ha]
  obtain ⟨h1, h2⟩ := rr_bounds h.qh hm (h.ndim_eq ▸ ha)
  have h3 := h.incr a ha _ (pick_lt hb (h.lt3 ha))
  constructor <;> nlinarith

theorem corner_nodes (k : GeoKind) (hk : IsQuaHex k) : ∀ s ∈ [(-1 : ℚ), 1], ∀ t ∈ [(-1 : ℚ), 1], ∀ u ∈ [(-1 : ℚ), 1],
    ∃ m < k.nnode, refCoordQ k m 0 = s ∧ refCoordQ k m 1 = t ∧ (k.ndim = 3 → refCoordQ k m 2 = u) := by
  cases k <;> first | exact absurd hk (by unfold IsQuaHex; decide) | decide +kernel

/-- There is a node at each corner of the cell. -/
theorem Grid.corner (h : Grid ndim target n tick) (v : Nat → Nat) {i j k : Nat} (hv : ∀ a < ndim, v a = pick i j k a ∨ v a = pick i j k a + 1) :
    ∃ m < target.nnode, tickPos ndim tick target i j k m = (List.range ndim).map fun a => tick a (v a) := by
  have sgn : ∀ b : Bool, (if b then (1 : ℚ) else -1) ∈ [(-1 : ℚ), 1] := by intro b; cases b <;> simp
  obtain ⟨m, hm, m0, m1, m2⟩ := corner_nodes target h.qh _ (sgn (decide (v 0 = pick i j k 0 + 1))) _ (sgn (decide (v 1 = pick i j k 1 + 1))) _
    (sgn (decide (v 2 = pick i j k 2 + 1)))
  refine ⟨m, hm, ?_⟩
  have key : ∀ a < ndim, refCoordQ target m a = if decide (v a = pick i j k a + 1) then 1 else -1 := by
    intro a ha
    have := h.lt3 ha
    rcases (by omega : a = 0 ∨ a = 1 ∨ a = 2) with rfl | rfl | rfl
    · exact m0
    · exact m1
    · exact m2 (by rw [h.ndim_eq]; rcases h.dims with rfl | rfl <;> omega)
  unfold tickPos
  apply List.map_congr_left
  intro a ha
  have ha := List.mem_range.1 ha
  unfold refCoord
  rw [key a ha]
  by_cases hc : v a = pick i j k a + 1
  · simp [hc]
  · rcases hv a ha with h1 | h1
    · simp [h1]
    · exact absurd h1 hc

/-! ## The graph -/

/-- Two points of one cell. -/
abbrev Adj (M : Mesh ℝ) : Nat → Nat → Prop := (Source.mesh M.points.length (M.cells.map (·.points))).Adj

theorem mem_points (h : IsPatch ndim target S tick place marker num M) {i j k m : Nat} (hs : S i j k) (hm : m < target.nnode) :
    ∃ c ∈ M.cells, M.cells[num i j k]? = some c ∧ ptOf M (num i j k) m ∈ c.points := by
  obtain ⟨c, h1, -, -, -, h5⟩ := h.cell i j k hs
  refine ⟨c, List.mem_of_getElem? h1, h1, ?_⟩
  unfold ptOf
  rw [h1]
  simp only [Option.map_some, Option.getD_some]
  rw [List.getD_eq_getElem?_getD, List.getElem?_eq_getElem (by omega)]
  exact List.getElem_mem _

theorem same_cell (h : IsPatch ndim target S tick place marker num M) {i j k m m' : Nat} (hs : S i j k) (hm : m < target.nnode) (hm' : m' < target.nnode) :
    ptOf M (num i j k) m = ptOf M (num i j k) m' ∨ Adj M (ptOf M (num i j k) m) (ptOf M (num i j k) m') := by
  by_cases he : ptOf M (num i j k) m = ptOf M (num i j k) m'
  · exact .inl he
  · right
    obtain ⟨c, h1, h2, h3⟩ := mem_points h hs hm
    obtain ⟨c', -, h2', h3'⟩ := mem_points h hs hm'
    rw [h2] at h2'; cases h2'
    exact ⟨he, c.points, List.mem_map.2 ⟨c, h1, rfl⟩, h3, h3'⟩

/-- Adjacent points are nodes of one cell. -/
theorem adj_cell (h : IsPatch ndim target S tick place marker num M) {p q : Nat} (hpq : Adj M p q) :
    ∃ i j k m m', S i j k ∧ m < target.nnode ∧ m' < target.nnode ∧ ptOf M (num i j k) m = p ∧ ptOf M (num i j k) m' = q := by
  obtain ⟨-, pts, h1, h2, h3⟩ := hpq
  obtain ⟨c, hc, rfl⟩ := List.mem_map.1 h1
  obtain ⟨l, hl, rfl⟩ := List.mem_iff_getElem.1 hc
  obtain ⟨i, j, k, hs, rfl⟩ := h.onto l hl
  obtain ⟨c', e1, -, -, -, e5⟩ := h.cell i j k hs
  have e1' := e1
  rw [List.getElem?_eq_getElem hl, Option.some.injEq] at e1
  rw [e1] at h2 h3
  obtain ⟨m, hm, rfl⟩ := List.mem_iff_getElem.1 h2
  obtain ⟨m', hm', rfl⟩ := List.mem_iff_getElem.1 h3
  refine ⟨i, j, k, m, m', hs, by omega, by omega, ?_, ?_⟩ <;> (unfold ptOf; rw [e1', Option.map_some, Option.getD_some, List.getD_eq_getElem?_getD, List.getElem?_eq_getElem (by assumption)]; rfl)

/-- Reachable with at most `d` steps. -/
def Near (E : Nat → Nat → Prop) (a b d : Nat) : Prop := ∃ w, IsWalk E w a b ∧ w.length ≤ d + 1

theorem Near.refl (E : Nat → Nat → Prop) (a : Nat) : Near E a a 0 := ⟨[a], ⟨rfl, rfl, by simp⟩, by simp⟩

theorem Near.step {E : Nat → Nat → Prop} {a b c d : Nat} (h : Near E a b d) (hbc : b = c ∨ E b c) : Near E a c (d + 1) := by
  obtain ⟨w, ⟨h1, h2, h3⟩, h4⟩ := h
  rcases hbc with rfl | hbc
  · exact ⟨w, ⟨h1, h2, h3⟩, by omega⟩
  · refine ⟨w ++ [c], ⟨?_, by simp, ?_⟩, by simp; omega⟩
    · cases w with
      | nil => simp at h1
      | cons x w => simpa using h1
    · rw [List.isChain_append]
      refine ⟨h3, by simp, ?_⟩
      intro x hx y hy
      rw [h2, Option.mem_def, Option.some.injEq] at hx
      rw [List.head?_singleton, Option.mem_def, Option.some.injEq] at hy
      subst hx; subst hy; exact hbc

theorem king (h : IsPatch ndim target (Box n) tick place marker num M) (hG : Grid ndim target n tick) {i j k m : Nat} (hb : Box n i j k) (hm : m < target.nnode)
    (L : Nat) : ∀ i' j' k' m', Box n i' j' k' → m' < target.nnode → i' ≤ i + L → i ≤ i' + L → j' ≤ j + L → j ≤ j' + L → k' ≤ k + L → k ≤ k' + L →
      Near (Adj M) (ptOf M (num i j k) m) (ptOf M (num i' j' k') m') (L + 1) := by
  induction L with
  | zero =>
    intro i' j' k' m' hb' hm' h1 h2 h3 h4 h5 h6
    obtain ⟨rfl, rfl, rfl⟩ : i' = i ∧ j' = j ∧ k' = k := by omega
    exact (Near.refl _ _).step (same_cell h hb' hm hm')
  | succ L ih =>
    intro i' j' k' m' hb' hm' h1 h2 h3 h4 h5 h6
    have mid : ∀ x x' N : Nat, x < N → x' < N → x' ≤ x + (L + 1) → x ≤ x' + (L + 1) → ∃ y v, y < N ∧ y ≤ x + L ∧ x ≤ y + L ∧ (v = y ∨ v = y + 1) ∧ (v = x' ∨ v = x' + 1) := by
      intro x x' N g1 g2 g3 g4
      by_cases c1 : x + L < x'
      · exact ⟨x' - 1, x', by omega, by omega, by omega, by omega, by omega⟩
      · by_cases c2 : x' + L < x
        · exact ⟨x' + 1, x' + 1, by omega, by omega, by omega, by omega, by omega⟩
        · exact ⟨x', x', by omega, by omega, by omega, by omega, by omega⟩
    obtain ⟨y0, v0, p1, p2, p3, p4, p5⟩ := mid i i' (n 0) hb.1 hb'.1 h1 h2
    obtain ⟨y1, v1, q1, q2, q3, q4, q5⟩ := mid j j' (n 1) hb.2.1 hb'.2.1 h3 h4
    obtain ⟨y2, v2, r1, r2, r3, r4, r5⟩ := mid k k' (n 2) hb.2.2 hb'.2.2 h5 h6
    have by_ : Box n y0 y1 y2 := ⟨p1, q1, r1⟩
    have ha3 : ∀ a < ndim, a = 0 ∨ a = 1 ∨ a = 2 := fun a ha => by have := hG.lt3 ha; omega
    obtain ⟨m1, hm1, e1⟩ := hG.corner (fun a => pick v0 v1 v2 a) (i := y0) (j := y1) (k := y2) (by
      intro a ha
      rcases ha3 a ha with rfl | rfl | rfl <;> assumption)
    obtain ⟨m2, hm2, e2⟩ := hG.corner (fun a => pick v0 v1 v2 a) (i := i') (j := j') (k := k') (by
      intro a ha
      rcases ha3 a ha with rfl | rfl | rfl <;> assumption)
    have hs := (h.shared y0 y1 y2 m1 i' j' k' m2 by_ hb' hm1 hm2).2 (by rw [e1, e2])
    have := ih y0 y1 y2 m1 by_ hm1 p2 p3 q2 q3 r2 r3
    rw [hs] at this
    exact this.step (same_cell h hb' hm2 hm')

/-- The largest number of cells along a direction. -/
def span (n : Nat → Nat) : Nat := max (n 0) (max (n 1) (n 2))

theorem exists_node (h : IsPatch ndim target S tick place marker num M) {p : Nat} (hp : p < M.points.length) :
    ∃ i j k m, S i j k ∧ m < target.nnode ∧ ptOf M (num i j k) m = p := (h.points p _ (List.getElem?_eq_getElem hp)).2.2.2

theorem near_all (h : IsPatch ndim target (Box n) tick place marker num M) (hG : Grid ndim target n tick) {p q : Nat} (hp : p < M.points.length)
    (hq : q < M.points.length) : Near (Adj M) p q (span n) := by
  obtain ⟨i, j, k, m, hb, hm, rfl⟩ := exists_node h hp
  obtain ⟨i', j', k', m', hb', hm', rfl⟩ := exists_node h hq
  have := hG.pos 0 (by omega)
  have e : span n = (span n - 1) + 1 := by unfold span; omega
  rw [e]
  obtain ⟨a1, a2, a3⟩ := hb
  obtain ⟨b1, b2, b3⟩ := hb'
  apply king h hG ⟨a1, a2, a3⟩ hm _ _ _ _ _ ⟨b1, b2, b3⟩ hm' <;> (unfold span; omega)

theorem connected (h : IsPatch ndim target (Box n) tick place marker num M) (hG : Grid ndim target n tick) : Connected (Adj M) M.points.length := by
  intro p q hp hq
  obtain ⟨w, hw, -⟩ := near_all h hG hp hq
  exact ⟨w, hw⟩

theorem dist_le (h : IsPatch ndim target (Box n) tick place marker num M) (hG : Grid ndim target n tick) {p q d : Nat} (hp : p < M.points.length)
    (hq : q < M.points.length) (hd : IsDistance (Adj M) p q d) : d ≤ span n := by
  obtain ⟨w, hw, hl⟩ := near_all h hG hp hq
  have := hd.2 w hw
  omega

/-- A walk advances at most one cell per step. -/
theorem walk_bound (h : IsPatch ndim target (Box n) tick place marker num M) (hG : Grid ndim target n tick) {a : Nat} (ha : a < ndim) (w : List Nat) :
    ∀ p q d, IsWalk (Adj M) w p q →
      (∀ i j k m, Box n i j k → m < target.nnode → ptOf M (num i j k) m = p → (tickPos ndim tick target i j k m).getD a 0 ≤ tick a d) →
      d + w.length ≤ n a + 1 → ∀ i j k m, Box n i j k → m < target.nnode → ptOf M (num i j k) m = q →
        (tickPos ndim tick target i j k m).getD a 0 ≤ tick a (d + w.length - 1) := by
  induction w with
  | nil => intro p q d hw; simp [IsWalk] at hw
  | cons x w ih =>
    intro p q d hw hp hd i j k m hb hm hq
    obtain ⟨h1, h2, h3⟩ := hw
    rw [List.head?_cons, Option.some.injEq] at h1
    subst h1
    cases w with
    | nil =>
      rw [List.getLast?_singleton, Option.some.injEq] at h2
      subst h2
      exact hp i j k m hb hm hq
    | cons y w =>
      rw [List.getLast?_cons_cons] at h2
      obtain ⟨hxy, h4⟩ := List.isChain_cons_cons.1 h3
      obtain ⟨i0, j0, k0, m1, m2, hb0, hm1, hm2, e1, e2⟩ := adj_cell h hxy
      have hlow := (hG.between hb0 hm1 ha).1.trans (hp _ _ _ _ hb0 hm1 e1)
      simp only [List.length_cons] at hd
      have hle : pick i0 j0 k0 a ≤ d := by
        by_contra hc
        exact absurd hlow (not_le.2 (hG.strict ha (by omega) (pick_lt hb0 (hG.lt3 ha)).le))
      have := ih y q (d + 1) ⟨rfl, h2, h4⟩ (by
        intro i' j' k' m' hb' hm' e'
        have := (h.shared i' j' k' m' i0 j0 k0 m2 hb' hb0 hm' hm2).1 (by rw [e', e2])
        rw [this]
        exact (hG.between hb0 hm2 ha).2.trans (hG.mono ha (by omega) (by omega))) (by simp only [List.length_cons]; omega) i j k m hb hm hq
      simp only [List.length_cons] at this ⊢
      rw [show d + (w.length + 1 + 1) - 1 = d + 1 + (w.length + 1) - 1 by omega]
      exact this

/-- From the first corner, some point is at the distance `span`. -/
theorem far_corner (h : IsPatch ndim target (Box n) tick place marker num M) (hG : Grid ndim target n tick) {m0 : Nat} (hm0 : m0 < target.nnode)
    (hz : tickPos ndim tick target 0 0 0 m0 = (List.range ndim).map fun a => tick a 0) :
    ∃ u d, u < M.points.length ∧ IsDistance (Adj M) (ptOf M (num 0 0 0) m0) u d ∧ span n ≤ d := by
  have h0 : Box n 0 0 0 := ⟨hG.pos 0 (by omega), hG.pos 1 (by omega), hG.pos 2 (by omega)⟩
  obtain ⟨a, ha, hspan⟩ : ∃ a < ndim, span n = n a := by
    have p0 := hG.pos 0 (by omega)
    have p1 := hG.pos 1 (by omega)
    have t := hG.two
    unfold span
    by_cases c0 : n 1 ≤ n 0 ∧ n 2 ≤ n 0
    · exact ⟨0, by rcases hG.dims with rfl | rfl <;> omega, by omega⟩
    · by_cases c1 : n 2 ≤ n 1
      · exact ⟨1, by rcases hG.dims with rfl | rfl <;> omega, by omega⟩
      · exact ⟨2, by rcases hG.dims with rfl | rfl <;> omega, by omega⟩
  have hbl : Box n (n 0 - 1) (n 1 - 1) (n 2 - 1) := by have := hG.pos 0; have := hG.pos 1; have := hG.pos 2; refine ⟨?_, ?_, ?_⟩ <;> omega
  obtain ⟨m1, hm1, e1⟩ := hG.corner n (i := n 0 - 1) (j := n 1 - 1) (k := n 2 - 1) (by
    intro a ha
    have := hG.lt3 ha
    have := hG.pos a this
    rcases (by omega : a = 0 ∨ a = 1 ∨ a = 2) with rfl | rfl | rfl <;> (unfold pick; simp; omega))
  have hp0 := (h.coords 0 0 0 m0 h0 hm0).1
  have hp1 := (h.coords _ _ _ m1 hbl hm1).1
  obtain ⟨w0, hw0, hl0⟩ := near_all h hG hp0 hp1
  -- a shortest walk
  have hex : ∃ L, ∃ w, IsWalk (Adj M) w (ptOf M (num 0 0 0) m0) (ptOf M (num (n 0 - 1) (n 1 - 1) (n 2 - 1)) m1) ∧ w.length = L + 1 := by
    refine ⟨w0.length - 1, w0, hw0, ?_⟩
    have : w0 ≠ [] := by rintro rfl; simp [IsWalk] at hw0
    have := List.length_pos_of_ne_nil this
    omega
  refine ⟨_, Nat.find hex, hp1, ⟨Nat.find_spec hex, ?_⟩, ?_⟩
  · intro w hw
    have hne : w ≠ [] := by rintro rfl; simp [IsWalk] at hw
    have := List.length_pos_of_ne_nil hne
    have := Nat.find_min' hex ⟨w, hw, (by omega : w.length = (w.length - 1) + 1)⟩
    omega
  · obtain ⟨w, hw, hl⟩ := Nat.find_spec hex
    generalize Nat.find hex = d at *
    by_contra hc
    have := walk_bound h hG ha w _ _ 0 hw (by
      intro i j k m hb hm e
      rw [(h.shared i j k m 0 0 0 m0 hb h0 hm hm0).1 e, hz, getD_map_range ha]) (by omega) _ _ _ m1 hbl hm1 rfl
    rw [e1, getD_map_range ha] at this
    exact absurd this (not_le.2 (hG.strict ha (by omega) le_rfl))

/-! ## The first corner has the smallest number of neighbours -/

theorem nodup_points (h : IsPatch ndim target (Box n) tick place marker num M) (hG : Grid ndim target n tick) {i j k : Nat} (hb : Box n i j k) {c : Cell}
    (hc : M.cells[num i j k]? = some c) : c.points.Nodup := by
  obtain ⟨c', e1, -, -, -, e5⟩ := h.cell i j k hb
  rw [hc] at e1; cases e1
  rw [List.nodup_iff_injective_getElem]
  rintro ⟨m, hm⟩ ⟨m', hm'⟩ he
  have he' : ptOf M (num i j k) m = ptOf M (num i j k) m' := by
    unfold ptOf; rw [hc]; simpa [hm, hm'] using he
  have hp := (h.shared i j k m i j k m' hb hb (by omega) (by omega)).1 he'
  have : m = m' := by
    apply rr_inj hG.qh (by omega) (by omega)
    intro a ha
    rw [hG.ndim_eq] at ha
    have e : (tickPos ndim tick target i j k m).getD a 0 = (tickPos ndim tick target i j k m').getD a 0 := by rw [hp]
    rw [getD_tickPos ha, getD_tickPos ha] at e
    have hi := hG.incr a ha _ (pick_lt hb (hG.lt3 ha))
    have : (tick a (pick i j k a + 1) - tick a (pick i j k a)) * (rr target m a - rr target m' a) = 0 := by linarith
    rcases mul_eq_zero.1 this with h1 | h1
    · linarith
    · linarith
  simpa using this

theorem degree_low (h : IsPatch ndim target (Box n) tick place marker num M) (hG : Grid ndim target n tick) {p : Nat} (hp : p < M.points.length)
    {row : List Nat} (hrow : ∀ b, b ∈ row ↔ Adj M p b) : target.nnode ≤ row.length + 1 := by
  obtain ⟨i, j, k, m, hb, hm, rfl⟩ := exists_node h hp
  obtain ⟨c, hc1, hc2, hc3⟩ := mem_points h hb hm
  have hnd := nodup_points h hG hb hc2
  obtain ⟨c', e1, -, -, -, e5⟩ := h.cell i j k hb
  rw [hc2] at e1; cases e1
  have hsub : (c.points.erase (ptOf M (num i j k) m)).Subperm row := by
    apply (hnd.erase _).subperm
    intro q hq
    rw [hnd.mem_erase_iff] at hq
    exact (hrow q).2 ⟨Ne.symm hq.1, c.points, List.mem_map.2 ⟨c, hc1, rfl⟩, hc3, hq.2⟩
  have := hsub.length_le
  rw [List.length_erase_of_mem hc3] at this
  omega

theorem degree_corner (h : IsPatch ndim target (Box n) tick place marker num M) (hG : Grid ndim target n tick) {m0 : Nat} (hm0 : m0 < target.nnode)
    (hz : tickPos ndim tick target 0 0 0 m0 = (List.range ndim).map fun a => tick a 0) {row : List Nat} (hnd : row.Nodup)
    (hrow : ∀ b, b ∈ row ↔ Adj M (ptOf M (num 0 0 0) m0) b) : row.length + 1 ≤ target.nnode := by
  have h0 : Box n 0 0 0 := ⟨hG.pos 0 (by omega), hG.pos 1 (by omega), hG.pos 2 (by omega)⟩
  obtain ⟨c, hc1, hc2, hc3⟩ := mem_points h h0 hm0
  obtain ⟨c', e1, -, -, -, e5⟩ := h.cell 0 0 0 h0
  rw [hc2] at e1; cases e1
  have hsub : (ptOf M (num 0 0 0) m0 :: row).Subperm c.points := by
    apply List.Nodup.subperm
    · rw [List.nodup_cons]
      refine ⟨fun hm => ?_, hnd⟩
      exact ((hrow _).1 hm).1 rfl
    · intro q hq
      rcases List.mem_cons.1 hq with rfl | hq
      · exact hc3
      · obtain ⟨i, j, k, m, m', hb, hm, hm', g1, g2⟩ := adj_cell h ((hrow q).1 hq)
        have hpos := (h.shared i j k m 0 0 0 m0 hb h0 hm hm0).1 g1
        have hz0 : ∀ a < ndim, pick i j k a = 0 := by
          intro a ha
          have := (hG.between hb hm ha).1
          rw [hpos, hz, getD_map_range ha] at this
          by_contra hne
          exact absurd this (not_le.2 (hG.strict ha (Nat.pos_of_ne_zero hne) (pick_lt hb (hG.lt3 ha)).le))
        obtain ⟨rfl, rfl, rfl⟩ : i = 0 ∧ j = 0 ∧ k = 0 := by
          refine ⟨hz0 0 (by rcases hG.dims with rfl | rfl <;> omega), hz0 1 (by rcases hG.dims with rfl | rfl <;> omega), ?_⟩
          rcases hG.dims with rfl | rfl
          · have := hG.two rfl; have := hb.2.2; omega
          · exact hz0 2 (by omega)
        obtain ⟨c'', -, f2, f3⟩ := mem_points h hb hm'
        rw [hc2] at f2; cases f2
        rw [← g2]; exact f3
  have := hsub.length_le
  simp only [List.length_cons] at this
  omega

theorem start_corner (h : IsPatch ndim target (Box n) tick place marker num M) (hG : Grid ndim target n tick) {m0 : Nat} (hm0 : m0 < target.nnode)
    (hz : tickPos ndim tick target 0 0 0 m0 = (List.range ndim).map fun a => tick a 0) (hfirst : ptOf M (num 0 0 0) m0 = 0)
    (hw : (Source.mesh M.points.length (M.cells.map (·.points))).WF) {g : GraphUnd.Graph}
    (hg : IsGraphOf (.mesh M.points.length (M.cells.map (·.points))) true g) : g.pMinDegree = 0 := by
  have h0 : Box n 0 0 0 := ⟨hG.pos 0 (by omega), hG.pos 1 (by omega), hG.pos 2 (by omega)⟩
  have hn : 0 < M.points.length := by have := (h.coords 0 0 0 m0 h0 hm0).1; omega
  obtain ⟨-, -, hrows⟩ := Props.GraphUnd.C08_has_edge_and_degree _ hw true g hg
  obtain ⟨p1, d, p2, p3, p4⟩ := Props.GraphUnd.C08_min_degree _ hw hn g hg
  by_contra hne
  obtain ⟨row, -, r2, r3, r4, -⟩ := hrows 0 hn
  obtain ⟨row', -, r2', r3', r4', -⟩ := hrows _ p1
  have l1 := p4 0 _ (Nat.pos_of_ne_zero hne) (r4 rfl).1
  have l2 := degree_low h hG p1 r3'
  have l3 := degree_corner h hG hm0 hz r2 (by rw [hfirst]; exact r3)
  have := (r4' rfl).1
  rw [p2] at this
  cases this
  omega

/-! ## Renumbering -/

theorem goodCoords (h : IsPatch ndim target S tick place marker num M) : GoodCoords M := by
  intro p hp
  obtain ⟨l, hl, rfl⟩ := List.mem_iff_getElem.1 hp
  rw [h.space]
  exact (h.points l _ (List.getElem?_eq_getElem hl)).2.2.1

theorem goodCells (h : IsPatch ndim target S tick place marker num M) : GoodCells M := by
  intro c hc p hp
  obtain ⟨l, hl, rfl⟩ := List.mem_iff_getElem.1 hc
  obtain ⟨i, j, k, hs, rfl⟩ := h.onto l hl
  obtain ⟨c', e1, -, -, -, e5⟩ := h.cell i j k hs
  have e1' := e1
  rw [List.getElem?_eq_getElem hl, Option.some.injEq] at e1
  rw [e1] at hp
  obtain ⟨m, hm, rfl⟩ := List.mem_iff_getElem.1 hp
  have := (h.coords i j k m hs (by omega)).1
  unfold ptOf at this
  rw [e1'] at this
  simpa [hm] using this

theorem patch_renumbered (h : IsPatch ndim target S tick place marker num M) {M' : Mesh ℝ} {map : List Nat} (hmap : map.Perm (List.range M.points.length))
    (hR : Renumbered M M' map) : IsPatch ndim target S tick place marker num M' := by
  have hml : map.length = M.points.length := by simpa using hmap.length_eq
  have hmnd : map.Nodup := hmap.nodup_iff.2 List.nodup_range
  have hpt : ∀ i j k m, S i j k → m < target.nnode → ptOf M' (num i j k) m = map.getD (ptOf M (num i j k) m) 0 := by
    intro i j k m hs hm
    obtain ⟨c, e1, -, -, -, e5⟩ := h.cell i j k hs
    unfold ptOf
    rw [hR.cells, List.getElem?_map, e1]
    simp only [Option.map_some, Option.getD_some, List.getD_eq_getElem?_getD]
    rw [List.getElem?_map, List.getElem?_eq_getElem (by omega)]
    simp
  have hget : ∀ p < M.points.length, map.getD p 0 < M.points.length ∧ map[p]? = some (map.getD p 0) := by
    intro p hp
    have hp' : p < map.length := by omega
    rw [List.getD_eq_getElem?_getD, List.getElem?_eq_getElem hp']
    exact ⟨List.mem_range.1 (hmap.mem_iff.1 (List.getElem_mem hp')), rfl⟩
  have hinj : ∀ p < M.points.length, ∀ q < M.points.length, (map.getD p 0 = map.getD q 0 ↔ p = q) := by
    intro p hp q hq
    refine ⟨fun he => ?_, fun he => by rw [he]⟩
    have h1 := (hget p hp).2
    have h2 := (hget q hq).2
    rw [he] at h1
    exact (List.getElem?_inj (by omega) hmnd).1 (h1.trans h2.symm)
  refine ⟨hR.ndim.trans h.space, ?_, h.inj, ?_, ?_, ?_, ?_⟩
  · intro i j k hs
    obtain ⟨c, e1, e2, e3, e4, e5⟩ := h.cell i j k hs
    exact ⟨⟨c.id, c.marker, c.kind, c.points.map fun p => map.getD p 0⟩, by rw [hR.cells, List.getElem?_map, e1, Option.map_some], e2, e3, e4, by simpa using e5⟩
  · intro c hc
    rw [hR.cells, List.length_map] at hc
    exact h.onto c hc
  · intro i j k m hs hm
    obtain ⟨c1, c2⟩ := h.coords i j k m hs hm
    rw [hpt i j k m hs hm, hR.npoint]
    refine ⟨(hget _ c1).1, ?_⟩
    obtain ⟨new, q1, q2⟩ := hR.points _ _ (List.getElem?_eq_getElem c1)
    rw [(hget _ c1).2, Option.some.injEq] at q1
    rw [q1]
    rw [← c2]
    unfold coordsOf
    rw [q2, List.getElem?_eq_getElem c1]
    rfl
  · intro i j k m i' j' k' m' hs hs' hm hm'
    rw [hpt i j k m hs hm, hpt i' j' k' m' hs' hm', hinj _ (h.coords i j k m hs hm).1 _ (h.coords i' j' k' m' hs' hm').1]
    exact h.shared i j k m i' j' k' m' hs hs' hm hm'
  · intro p pt hp
    have hlt := (List.getElem?_eq_some_iff.1 hp).1
    rw [hR.npoint] at hlt
    obtain ⟨old, ho, he⟩ := List.mem_iff_getElem.1 (hmap.mem_iff.2 (List.mem_range.2 hlt))
    have ho' : old < M.points.length := by omega
    obtain ⟨new, q1, q2⟩ := hR.points _ _ (List.getElem?_eq_getElem ho')
    rw [List.getElem?_eq_getElem ho, he, Option.some.injEq] at q1
    subst q1
    rw [hp, Option.some.injEq] at q2
    obtain ⟨z1, z2, z3, i, j, k, m, hs, hm, z4⟩ := h.points old _ (List.getElem?_eq_getElem ho')
    refine ⟨by rw [q2], by rw [q2]; exact z2, by rw [q2]; exact z3, i, j, k, m, hs, hm, ?_⟩
    rw [hpt i j k m hs hm, z4, List.getD_eq_getElem?_getD, List.getElem?_eq_getElem ho, he]
    rfl

/-- A structured mesh is renumbered without error; the marked edges and faces are not changed. -/
theorem finish_patch (h : IsPatch ndim target (Box n) tick place marker num M) (hG : Grid ndim target n tick) {m0 : Nat} (hm0 : m0 < target.nnode)
    (hz : tickPos ndim tick target 0 0 0 m0 = (List.range ndim).map fun a => tick a 0) (hfirst : ptOf M (num 0 0 0) m0 = 0) (renumber : Bool) :
    ∃ M', finish renumber M = .ok M' ∧ IsPatch ndim target (Box n) tick place marker num M' ∧ M'.markedEdges = M.markedEdges ∧ M'.markedFaces = M.markedFaces := by
  cases renumber with
  | false => exact ⟨M, rfl, h, rfl, rfl⟩
  | true =>
    have h0 : Box n 0 0 0 := ⟨hG.pos 0 (by omega), hG.pos 1 (by omega), hG.pos 2 (by omega)⟩
    have hn : 0 < M.points.length := by have := (h.coords 0 0 0 m0 h0 hm0).1; omega
    have hw : (Source.mesh M.points.length (M.cells.map (·.points))).WF := by
      intro c hcc p hp
      obtain ⟨c', hc', rfl⟩ := List.mem_map.1 hcc
      exact goodCells h c' hc' p hp
    obtain ⟨map, M', e1, e2, e3⟩ := C06_renumber_succeeds M (goodCoords h) (goodCells h) hn (connected h hG) false (span n) (span n)
      (fun a b d ha hb hd => dist_le h hG ha hb hd) (fun g hg => by
        rw [start_corner h hG hm0 hz hfirst hw hg, ← hfirst]
        exact far_corner h hG hm0 hz) (by omega)
    have hR : Renumbered M M' map := by
      rcases renumberPoints_spec M (goodCoords h) (goodCells h) map with ⟨-, M'', g1, g2⟩ | ⟨g1, -⟩
      · rw [e3] at g1; cases g1; exact g2
      · exact absurd e1 g1
    refine ⟨M', ?_, patch_renumbered h e1 hR, hR.markedEdges, hR.markedFaces⟩
    unfold finish
    rw [if_pos rfl, e2]

end
end Gemlab.Structured
