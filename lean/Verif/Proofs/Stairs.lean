import Verif.Proofs.Tiles

/-! # The boundary of a staircase of rectangles -/
namespace Gemlab.Structured
noncomputable section
open Classical
open Gemlab.Mesh Gemlab.Shapes Gemlab.Block Gemlab.Spec

variable {target : GeoKind} {n : Nat → Nat} {tick : Nat → Nat → ℝ} {marker : Nat → Nat → Nat → Int}
  {num : Nat → Nat → Nat → Nat} {S : Nat → Nat → Nat → Prop} {L : List (Int × GeoKind × List (List ℝ))}

/-- The corners of the unit square. -/
def cx (c : Nat) : Nat := if c = 1 ∨ c = 2 then 1 else 0
def cy (c : Nat) : Nat := if c = 2 ∨ c = 3 then 1 else 0

theorem qua_corners (k : GeoKind) (hk : k.classOf = .qua) : k.ndim = 2 ∧ k.nedge = 4 ∧ 4 ≤ k.nnode ∧
    (∀ e < 4, edgeNode k e 0 = (e + 1) % 4 ∧ edgeNode k e 1 = e) ∧
    ∀ c < 4, refCoordQ k c 0 = (if c = 1 ∨ c = 2 then 1 else -1) ∧ refCoordQ k c 1 = (if c = 2 ∨ c = 3 then 1 else -1) := by
  cases k <;> first | exact absurd hk (by decide) | decide +kernel

/-- The point of the grid. -/
def gp (tick : Nat → Nat → ℝ) (p q : Nat) : List ℝ := [tick 0 p, tick 1 q]

theorem tickPos_corner (hk : target.classOf = .qua) {i j k c : Nat} (hc : c < 4) : tickPos 2 tick target i j k c = gp tick (i + cx c) (j + cy c) := by
  obtain ⟨_, _, _, _, h⟩ := qua_corners target hk
  obtain ⟨h0, h1⟩ := h c hc
  unfold tickPos gp refCoord
  simp only [List.range_succ, List.range_zero, List.nil_append, List.map_cons, List.map_nil, List.cons_append, h0, h1]
  unfold cx cy pick
  simp only [if_true, one_ne_zero, if_false]
  congr 1
  · split <;> simp
  · congr 1
    split <;> simp

theorem gp_inj (hG : Grid 2 target n tick) {p q p' q' : Nat} (hp : p ≤ n 0) (hq : q ≤ n 1) (hp' : p' ≤ n 0) (hq' : q' ≤ n 1) :
    gp tick p q = gp tick p' q' ↔ p = p' ∧ q = q' := by
  unfold gp
  simp only [List.cons.injEq, and_true]
  constructor
  · rintro ⟨h0, h1⟩
    constructor
    · rcases lt_trichotomy p p' with h | h | h
      · exact absurd h0 (hG.strict (by omega) h hp').ne
      · exact h
      · exact absurd h0 (hG.strict (by omega) h hp).ne'
    · rcases lt_trichotomy q q' with h | h | h
      · exact absurd h1 (hG.strict (by omega) h hq').ne
      · exact h
      · exact absurd h1 (hG.strict (by omega) h hq).ne'
  · rintro ⟨rfl, rfl⟩; exact ⟨rfl, rfl⟩

theorem Grid.qua (hG : Grid 2 target n tick) : target.classOf = .qua := by have := hG.cls; rwa [if_pos rfl] at this

/-- The edges of the cells of the list. -/
theorem edgeAt_iff (hT : Tiles 2 target S tick (fun x => x) marker num L) (hG : Grid 2 target n tick) (hS : ∀ i j k, S i j k → i < n 0 ∧ j < n 1)
    {p q p' q' c e : Nat} (hp : p ≤ n 0) (hq : q ≤ n 1) (hp' : p' ≤ n 0) (hq' : q' ≤ n 1) :
    EdgeAt L (gp tick p q) (gp tick p' q') c e ↔ ∃ i j k, S i j k ∧ num i j k = c ∧ e < 4 ∧
      ((p = i + cx ((e + 1) % 4) ∧ q = j + cy ((e + 1) % 4) ∧ p' = i + cx e ∧ q' = j + cy e) ∨
       (p' = i + cx ((e + 1) % 4) ∧ q' = j + cy ((e + 1) % 4) ∧ p = i + cx e ∧ q = j + cy e)) := by
  obtain ⟨k2, k4, kn, ke, -⟩ := qua_corners target hG.qua
  have cx1 : ∀ c, cx c ≤ 1 := by intro c; unfold cx; split <;> omega
  have cy1 : ∀ c, cy c ≤ 1 := by intro c; unfold cy; split <;> omega
  have node : ∀ i j k c, c < 4 → ((List.range target.nnode).map fun m => tickPos 2 tick target i j k m)[c]? = some (gp tick (i + cx c) (j + cy c)) := by
    intro i j k c hc
    rw [List.getElem?_map, List.getElem?_range (by omega), Option.map_some, tickPos_corner hG.qua hc]
  constructor
  · rintro ⟨mk, kk, X, h1, h2, h3, h4⟩
    obtain ⟨i, j, k, hs, rfl⟩ := hT.onto c (List.getElem?_eq_some_iff.1 h1).1
    rw [hT.cell i j k hs] at h1
    simp only [Option.some.injEq, Prod.mk.injEq] at h1
    obtain ⟨-, rfl, rfl⟩ := h1
    rw [k4] at h3
    obtain ⟨hi, hj⟩ := hS i j k hs
    have a0 := cx1 ((e + 1) % 4)
    have a1 := cx1 e
    have b0 := cy1 ((e + 1) % 4)
    have b1 := cy1 e
    rw [(ke e h3).1, (ke e h3).2, node i j k _ (by omega), node i j k _ h3] at h4
    simp only [Option.some.injEq] at h4
    rw [gp_inj hG (by omega) (by omega) hp hq, gp_inj hG (by omega) (by omega) hp' hq', gp_inj hG (by omega) (by omega) hp' hq', gp_inj hG (by omega) (by omega) hp hq] at h4
    exact ⟨i, j, k, hs, rfl, h3, by omega⟩
  · rintro ⟨i, j, k, hs, rfl, h3, h4⟩
    refine ⟨_, _, _, hT.cell i j k hs, k2, by rw [k4]; exact h3, ?_⟩
    rw [(ke e h3).1, (ke e h3).2, node i j k _ (by omega), node i j k _ h3]
    rcases h4 with ⟨rfl, rfl, rfl, rfl⟩ | ⟨rfl, rfl, rfl, rfl⟩
    · exact .inl ⟨rfl, rfl⟩
    · exact .inr ⟨rfl, rfl⟩

/-- The places of a staircase: the rows `j < J`; the row `j` has `w j` cells, not more than the first row. -/
structure Stairs (n : Nat → Nat) (J : Nat) (w : Nat → Nat) (S : Nat → Nat → Nat → Prop) : Prop where
  iff : ∀ i j k, S i j k ↔ k = 0 ∧ j < J ∧ i < w j
  rows : 1 ≤ J ∧ J ≤ n 1
  pos : ∀ j < J, 1 ≤ w j
  first : ∀ j < J, w j ≤ w 0
  wide : w 0 ≤ n 0

theorem exactlyOne_edge (hT : Tiles 2 target S tick (fun x => x) marker num L) (hG : Grid 2 target n tick) (hS : ∀ i j k, S i j k → i < n 0 ∧ j < n 1 ∧ k = 0)
    {i j e : Nat} (hs : S i j 0) (he : e < 4) (hno : ∀ i' j', S i' j' 0 → ¬ (i' + 1 = i + cx e + cx ((e + 1) % 4) ∧ j' + 1 = j + cy e + cy ((e + 1) % 4))) :
    ExactlyOne (EdgeAt L (gp tick (i + cx ((e + 1) % 4)) (j + cy ((e + 1) % 4))) (gp tick (i + cx e) (j + cy e))) := by
  have hS' : ∀ i j k, S i j k → i < n 0 ∧ j < n 1 := fun i j k h => ⟨(hS i j k h).1, (hS i j k h).2.1⟩
  obtain ⟨hi, hj, -⟩ := hS i j 0 hs
  have cx1 : ∀ c, cx c ≤ 1 := by intro c; unfold cx; split <;> omega
  have cy1 : ∀ c, cy c ≤ 1 := by intro c; unfold cy; split <;> omega
  have a0 := cx1 ((e + 1) % 4)
  have a1 := cx1 e
  have b0 := cy1 ((e + 1) % 4)
  have b1 := cy1 e
  refine ⟨num i j 0, e, (edgeAt_iff hT hG hS' (by omega) (by omega) (by omega) (by omega)).2 ⟨i, j, 0, hs, rfl, he, .inl ⟨rfl, rfl, rfl, rfl⟩⟩, ?_⟩
  intro c' e' h
  obtain ⟨i', j', k', hs', rfl, he', hz⟩ := (edgeAt_iff hT hG hS' (by omega) (by omega) (by omega) (by omega)).1 h
  obtain ⟨hi', hj', rfl⟩ := hS i' j' k' hs'
  have hn := hno i' j' hs'
  have : i' = i ∧ j' = j ∧ e' = e := by
    clear a0 a1 b0 b1 cx1 cy1
    have c0 : cx 0 = 0 := rfl
    have c1 : cx 1 = 1 := rfl
    have c2 : cx 2 = 1 := rfl
    have c3 : cx 3 = 0 := rfl
    have d0 : cy 0 = 0 := rfl
    have d1 : cy 1 = 0 := rfl
    have d2 : cy 2 = 1 := rfl
    have d3 : cy 3 = 1 := rfl
    interval_cases e <;> interval_cases e' <;> simp only [Nat.reduceAdd, Nat.reduceMod, Nat.zero_add, c0, c1, c2, c3, d0, d1, d2, d3] at hz hn <;> omega
  obtain ⟨rfl, rfl, rfl⟩ := this
  exact ⟨rfl, rfl⟩

theorem enclosed_stairs (hT : Tiles 2 target S tick (fun x => x) marker num L) (hG : Grid 2 target n tick) {J : Nat} {w : Nat → Nat} (hS : Stairs n J w S) :
    Enclosed 2 L := by
  have hbox : ∀ i j k, S i j k → i < n 0 ∧ j < n 1 ∧ k = 0 := by
    intro i j k h
    obtain ⟨h1, h2, h3⟩ := (hS.iff i j k).1 h
    have := hS.first j h2
    have := hS.wide
    have := hS.rows
    omega
  have J1 := hS.rows
  have w1 := hS.pos 0 (by omega)
  have wJ := hS.pos (J - 1) (by omega)
  have wide := hS.wide
  have s00 : S 0 0 0 := (hS.iff _ _ _).2 ⟨rfl, by omega, by omega⟩
  have sw0 : S (w 0 - 1) 0 0 := (hS.iff _ _ _).2 ⟨rfl, by omega, by omega⟩
  have s0J : S 0 (J - 1) 0 := (hS.iff _ _ _).2 ⟨rfl, by omega, by omega⟩
  have e0 := exactlyOne_edge hT hG hbox s00 (e := 3) (by omega) (by simp [cx, cy])
  have e1 := exactlyOne_edge hT hG hbox sw0 (e := 1) (by omega) (by
    rintro i' j' h ⟨h1, h2⟩
    obtain ⟨_, _, h3⟩ := (hS.iff _ _ _).1 h
    simp [cx, cy] at h1 h2
    subst h2
    omega)
  have e2 := exactlyOne_edge hT hG hbox s00 (e := 0) (by omega) (by simp [cx, cy])
  have e3 := exactlyOne_edge hT hG hbox s0J (e := 2) (by omega) (by
    rintro i' j' h ⟨h1, h2⟩
    obtain ⟨_, h3, _⟩ := (hS.iff _ _ _).1 h
    simp [cx, cy] at h1 h2
    omega)
  simp only [cx, cy] at e0 e1 e2 e3
  norm_num at e0 e1 e2 e3
  rw [show w 0 - 1 + 1 = w 0 by omega] at e1
  rw [show J - 1 + 1 = J by omega] at e3
  have bc : ∀ x y, ExactlyOne (EdgeAt L x y) → BoundaryCorner 2 L x := by
    intro x y h
    unfold BoundaryCorner
    rw [if_pos rfl]
    exact ⟨y, h⟩
  have pos : ∀ g ∈ L, ∀ v ∈ g.2.2, (tick 0 0 ≤ v.getD 0 0 ∧ v.getD 0 0 ≤ tick 0 (w 0)) ∧ (tick 1 0 ≤ v.getD 1 0 ∧ v.getD 1 0 ≤ tick 1 J) := by
    intro g hg v hv
    obtain ⟨c, hc, rfl⟩ := List.mem_iff_getElem.1 hg
    obtain ⟨i, j, k, hs, e⟩ := hT.onto c hc
    have := hT.cell i j k hs
    rw [e, List.getElem?_eq_getElem hc, Option.some.injEq] at this
    rw [this] at hv
    obtain ⟨m, hm, rfl⟩ := List.mem_map.1 hv
    obtain ⟨b0, b1, b2⟩ := hbox i j k hs
    obtain ⟨_, hj, hi⟩ := (hS.iff _ _ _).1 hs
    have hf := hS.first j hj
    have hb : Box n i j k := ⟨b0, b1, by rw [hG.two rfl]; omega⟩
    have p0 := hG.between hb (List.mem_range.1 hm) (a := 0) (by omega)
    have p1 := hG.between hb (List.mem_range.1 hm) (a := 1) (by omega)
    have q0 : pick i j k 0 = i := rfl
    have q1 : pick i j k 1 = j := rfl
    rw [q0] at p0
    rw [q1] at p1
    have m1 := hG.mono (a := 0) (by omega) (Nat.zero_le i) (by omega)
    have m2 := hG.mono (a := 0) (by omega) (show i + 1 ≤ w 0 by omega) (by omega)
    have m3 := hG.mono (a := 1) (by omega) (Nat.zero_le j) (by omega)
    have m4 := hG.mono (a := 1) (by omega) (show j + 1 ≤ J by omega) (by omega)
    exact ⟨⟨m1.trans p0.1, p0.2.trans m2⟩, m3.trans p1.1, p1.2.trans m4⟩
  intro d hd
  rcases (by omega : d = 0 ∨ d = 1) with rfl | rfl
  · exact ⟨_, _, bc _ _ e0, bc _ _ e1, hG.strict (by omega) (by omega) (by omega), fun g hg v hv => (pos g hg v hv).1⟩
  · exact ⟨_, _, bc _ _ e2, bc _ _ e3, hG.strict (by omega) (by omega) (by omega), fun g hg v hv => (pos g hg v hv).2⟩

end
end Gemlab.Structured
