import Verif.Spec.DrawShape
import Verif.Props.Scratchpad
import Verif.Props.Shapes
import Verif.Lib.ResList
import Verif.Proofs.Draw

/-! # C84: the drawing of a shape shows the shape -/
namespace Gemlab.DrawShape
open Gemlab Gemlab.Shapes Gemlab.Draw Gemlab.Scratchpad Gemlab.Spec

theorem calc_place {pad : Scratchpad} (hok : pad.okXxt = true) (ksi : Nat → ℝ) :
    pad.calcCoords pad.spaceNdim ksi = .ok (place pad ksi, pad.calcInterp ksi) := by
  unfold Scratchpad.calcCoords
  rw [hok]
  simp only [Bool.not_true, Bool.false_eq_true, if_false, ne_eq, not_true_eq_false]
  congr 2
  funext i
  unfold place interpolate
  exact Finset.sum_congr rfl fun m _ => mul_comm _ _

theorem ksi_vec1 (r : ℝ) : (fun k : Nat => if k = 0 then r else 0) = (vec1 r : Nat → ℝ) := by
  funext k
  cases k <;> rfl

/-- `b` is like `a` for the drawing. -/
def Same (a b : Scratchpad) : Prop := b.kind = a.kind ∧ b.spaceNdim = a.spaceNdim ∧ b.xxt = a.xxt ∧ b.okXxt = a.okXxt

theorem Same.place {a b : Scratchpad} (h : Same a b) : place b = place a := by
  funext ξ j
  unfold DrawShape.place
  rw [h.1, h.2.2.1]

theorem sample_ok (l : List Nat) (pad : Scratchpad) (hok : pad.okXxt = true) :
    ∃ p, sample l pad = .ok (l.map fun i => (i, place pad (vec1 (kval i))), p) ∧ Same pad p := by
  induction l generalizing pad with
  | nil => exact ⟨pad, rfl, rfl, rfl, rfl, rfl⟩
  | cons i l ih =>
    obtain ⟨p, hp, hs⟩ := ih (pad.calcInterp (vec1 (kval i))) hok
    refine ⟨p, ?_, hs⟩
    have hpl : ∀ ξ, place (pad.calcInterp (vec1 (kval i))) ξ = place pad ξ := fun ξ => rfl
    simp only [sample, ksi_vec1, calc_place hok, Res.bind_ok, hp, List.map_cons, hpl]
    rfl

theorem kval_eq (i : Nat) : kval i = -1 + (i : ℝ) / 5 := by
  unfold kval
  norm_num
  ring

theorem drawEdge_ok (pad : Scratchpad) (hok : pad.okXxt = true) :
    ∃ p, drawEdge pad = .ok (brokenLine pad.spaceNdim (stations.map fun η => place pad (vec1 η)), p) ∧ Same pad p := by
  obtain ⟨p, hp, hs⟩ := sample_ok (List.range 11) pad hok
  refine ⟨p, ?_, hs⟩
  unfold drawEdge
  rw [hp, Res.bind_ok]
  unfold brokenLine stations
  have h11 : List.range 11 = 0 :: [1, 2, 3, 4, 5, 6, 7, 8, 9, 10] := rfl
  by_cases h2 : pad.spaceNdim = 2
  · rw [if_pos h2, if_pos h2, h11]
    simp only [List.map_cons, List.map_nil, kval_eq, List.take_succ_cons, List.take_zero, List.drop_succ_cons, List.drop_zero, if_true]
    rfl
  · rw [if_neg h2, if_neg h2]
    simp only [List.map_map, Function.comp_def, kval_eq]
    rfl

/-! ## The coordinates of an edge -/

theorem setXx_ok {p : Scratchpad} {m j : Nat} {v : ℝ} (hj : j < p.spaceNdim) (hm : m < p.kind.nnode) :
    p.setXx m j v = .ok { p with xxt := fun j' m' => if j' = j ∧ m' = m then v else p.xxt j' m',
                                 okXxt := decide (m = p.kind.nnode - 1 ∧ j = p.spaceNdim - 1) } := by
  unfold setXx
  rw [if_pos ⟨hj, hm⟩]

theorem setEdge_ok {pad ep : Scratchpad} {ek : GeoKind} (hk : pad.kind.edgeKind = some ek) (e : Nat) (hek : ep.kind = ek)
    (hs : ep.spaceNdim = pad.spaceNdim) (hd : pad.spaceNdim = 2 ∨ pad.spaceNdim = 3) :
    ∃ p, setEdge pad e ep = .ok p ∧ p.kind = ek ∧ p.spaceNdim = pad.spaceNdim ∧ p.okXxt = true ∧
      ∀ i < ek.nnode, ∀ j < pad.spaceNdim, p.xxt j i = pad.xxt j (edgeNode pad.kind e i) := by
  have hn := (edgeKind_nnode _ _ hk).1
  have hpos : 0 < ek.nnode := by cases ek <;> decide
  -- one node
  have one : ∀ (i : Nat) (q : Scratchpad), i < ek.nnode → q.kind = ek → q.spaceNdim = pad.spaceNdim →
      ∃ p, (List.range pad.spaceNdim).foldlM (fun ep j => ep.setXx i j (pad.xxt j (edgeNode pad.kind e i))) q = Res.ok p ∧
        p.kind = ek ∧ p.spaceNdim = pad.spaceNdim ∧ (0 < pad.spaceNdim → p.okXxt = decide (i = ek.nnode - 1 ∧ pad.spaceNdim = pad.spaceNdim)) ∧
        (∀ j < pad.spaceNdim, p.xxt j i = pad.xxt j (edgeNode pad.kind e i)) ∧ ∀ i' ≠ i, ∀ j, p.xxt j i' = q.xxt j i' := by
    intro i q hi hqk hqs
    refine Res.foldlM_range _ pad.spaceNdim q (fun n p => p.kind = ek ∧ p.spaceNdim = pad.spaceNdim ∧
      (0 < n → p.okXxt = decide (i = ek.nnode - 1 ∧ n = pad.spaceNdim)) ∧
      (∀ j < n, p.xxt j i = pad.xxt j (edgeNode pad.kind e i)) ∧ ∀ i' ≠ i, ∀ j, p.xxt j i' = q.xxt j i') ?_ ?_
    · exact ⟨hqk, hqs, fun h => absurd h (by omega), fun j hj => absurd hj (by omega), fun _ _ _ => rfl⟩
    · rintro n p hn' ⟨h2, h3, h4, h5, h6⟩
      refine ⟨_, setXx_ok (by omega) (by rw [h2]; exact hi), h2, h3, ?_, ?_, ?_⟩
      · intro _
        dsimp only
        rw [h2, h3]
        congr 1
        apply propext
        constructor
        · rintro ⟨a, b⟩; exact ⟨a, by omega⟩
        · rintro ⟨a, b⟩; exact ⟨a, by omega⟩
      · intro j hj
        dsimp only
        by_cases hjn : j = n
        · rw [if_pos ⟨hjn, rfl⟩, hjn]
        · rw [if_neg (fun h => hjn h.1)]
          exact h5 j (by omega)
      · intro i' hi' j
        dsimp only
        rw [if_neg (fun h => hi' h.2)]
        exact h6 i' hi' j
  obtain ⟨p, hp, h1, h2, h3, h4⟩ := Res.foldlM_range (fun ep i =>
    (List.range pad.spaceNdim).foldlM (fun ep j => ep.setXx i j (pad.xxt j (edgeNode pad.kind e i))) ep) pad.kind.edgeNnode ep
    (fun n p => p.kind = ek ∧ p.spaceNdim = pad.spaceNdim ∧ (0 < n → p.okXxt = decide (n = ek.nnode)) ∧
      ∀ i < n, ∀ j < pad.spaceNdim, p.xxt j i = pad.xxt j (edgeNode pad.kind e i))
    ⟨hek, hs, fun h => absurd h (by omega), fun i hi => absurd hi (by omega)⟩ (by
      rintro n p hn' ⟨h1, h2, h3, h4⟩
      obtain ⟨p', g0, g1, g2, g3, g4, g5⟩ := one n p (by omega) h1 h2
      refine ⟨p', g0, g1, g2, ?_, ?_⟩
      · intro _
        rw [g3 (by omega)]
        congr 1
        apply propext
        constructor
        · rintro ⟨a, b⟩; omega
        · intro a; exact ⟨by omega, rfl⟩
      · intro i hi j hj
        by_cases hin : i = n
        · rw [hin]; exact g4 j hj
        · rw [g5 i hin j]; exact h4 i (by omega) j hj)
  refine ⟨p, hp, h1, h2, ?_, ?_⟩
  · rw [h3 (by omega)]; simp [hn]
  · intro i hi; exact h4 i (by omega)

theorem edge_place {pad p : Scratchpad} {ek : GeoKind} (hk : pad.kind.edgeKind = some ek) {e : Nat} (he : e < pad.kind.nedge) (hp : p.kind = ek)
    (hX : ∀ i < ek.nnode, ∀ j < pad.spaceNdim, p.xxt j i = pad.xxt j (edgeNode pad.kind e i)) (η : ℝ) {j : Nat} (hj : j < pad.spaceNdim) :
    place p (vec1 η) j = place pad (edgePoint pad.kind e η) j := by
  unfold place
  rw [Props.Shapes.C29_edge_interpolation pad.kind ek hk e he, hp]
  unfold interpolate
  exact Finset.sum_congr rfl fun m hm => by dsimp only; rw [hX m (Finset.mem_range.1 hm) j hj]

theorem brokenLine_congr {d : Nat} (hd : d = 2 ∨ d = 3) {f g : ℝ → Nat → ℝ} (l : List ℝ) (h : ∀ η, ∀ j < d, f η j = g η j) :
    brokenLine d (l.map f) = brokenLine d (l.map g) := by
  unfold brokenLine
  rcases hd with rfl | rfl
  · simp only [if_true, ← List.map_take, ← List.map_drop, List.map_map, Function.comp_def, h _ 0 (by omega), h _ 1 (by omega)]
  · rw [if_neg (by decide), if_neg (by decide)]
    simp only [List.map_map, Function.comp_def, h _ 0 (by omega), h _ 1 (by omega), h _ 2 (by omega)]

theorem edges_ok {pad : Scratchpad} {ek : GeoKind} (hk : pad.kind.edgeKind = some ek) (hd : pad.spaceNdim = 2 ∨ pad.spaceNdim = 3)
    (l : List Nat) (hl : ∀ e ∈ l, e < pad.kind.nedge) (ep : Scratchpad) (hek : ep.kind = ek) (hs : ep.spaceNdim = pad.spaceNdim) :
    edges pad l ep = .ok (l.flatMap fun e => brokenLine pad.spaceNdim (stations.map fun η => place pad (edgePoint pad.kind e η))) := by
  induction l generalizing ep with
  | nil => rfl
  | cons e l ih =>
    obtain ⟨p, h1, h2, h3, h4, h5⟩ := setEdge_ok hk e hek hs hd
    obtain ⟨q, h6, h7⟩ := drawEdge_ok p h4
    have := ih (fun e he => hl e (List.mem_cons_of_mem _ he)) q (by rw [h7.1, h2]) (by rw [h7.2.1, h3])
    simp only [edges, h1, Res.bind_ok, h6, this, List.flatMap_cons]
    rw [h3, brokenLine_congr hd stations (fun η j hj => edge_place hk (hl e (by simp)) h2 h5 η hj)]
    rfl

theorem edgeKind_exists {k : GeoKind} (h : k.ndim ≠ 1) : ∃ ek, k.edgeKind = some ek ∧ ek.ndim = 1 := by
  cases k <;> first | exact absurd rfl h | exact ⟨_, rfl, rfl⟩

/-! ## The theorems -/

/-- **C84.** Nothing is drawn before all coordinates are set; afterwards the drawing never fails: what `C84_edges`, `C84_line`, `C84_labels`
and `C84_range` describe is drawn. -/
theorem C84_outcome (big low : ℝ) (pad : Scratchpad) (hs : pad.spaceNdim = 2 ∨ pad.spaceNdim = 3) (hf : pad.kind.ndim ≤ pad.spaceNdim)
    (withIds setRange : Bool) :
    (pad.okXxt = false → ∃ msg, drawShape big low pad withIds setRange = .err msg) ∧
    (pad.okXxt = true → ∃ pic, drawShape big low pad withIds setRange = .ok pic ∧ (pic.labels.isSome ↔ withIds = true) ∧
      (pic.range.isSome ↔ setRange = true)) := by
  constructor
  · intro h; exact ⟨_, by unfold drawShape; rw [h]; rfl⟩
  · intro h
    have hc : ∃ c, outline pad = .ok c := by
      unfold outline
      by_cases h1 : pad.kind.ndim = 1
      · obtain ⟨p, hp, -⟩ := drawEdge_ok pad h
        rw [if_pos h1, hp]; exact ⟨_, rfl⟩
      · obtain ⟨ek, hek, hn⟩ := edgeKind_exists h1
        rw [if_neg h1, hek]
        have hnew : ∃ ep, Scratchpad.new pad.spaceNdim ek = .ok ep ∧ ep.kind = ek ∧ ep.spaceNdim = pad.spaceNdim := by
          unfold Scratchpad.new
          rw [if_neg (by omega), if_neg (by omega)]
          exact ⟨_, rfl, rfl, rfl⟩
        obtain ⟨ep, e1, e2, e3⟩ := hnew
        have := edges_ok hek hs (List.range pad.kind.nedge) (fun e he => List.mem_range.1 he) ep e2 e3
        simp only [Mesh.unwrap, Res.bind_ok, e1, this]
        exact ⟨_, rfl⟩
    obtain ⟨c, hc⟩ := hc
    refine ⟨⟨c, if withIds then some (labels pad) else none, if setRange then some (range big low pad) else none⟩, ?_, ?_, ?_⟩
    · unfold drawShape; rw [h, hc]; rfl
    · cases withIds <;> simp
    · cases setRange <;> simp

/-- **C84.** A shape of two or three dimensions: one open broken line for each edge, in the order of the edges, through the eleven evenly
spaced points of the edge from its first to its second end: the images of the points of the edge of the reference shape. -/
theorem C84_edges (big low : ℝ) (pad : Scratchpad) (hr : Ready pad) (hn : pad.kind.ndim ≠ 1) (withIds setRange : Bool) (pic : Picture)
    (h : drawShape big low pad withIds setRange = .ok pic) :
    pic.canvas = (List.range pad.kind.nedge).flatMap fun e =>
      brokenLine pad.spaceNdim (stations.map fun η => place pad (edgePoint pad.kind e η)) := by
  obtain ⟨ek, hek, hn1⟩ := edgeKind_exists hn
  have hfit := hr.fits
  have hsp := hr.space
  have hnew : ∃ ep, Scratchpad.new pad.spaceNdim ek = .ok ep ∧ ep.kind = ek ∧ ep.spaceNdim = pad.spaceNdim := by
    unfold Scratchpad.new
    rw [if_neg (by omega), if_neg (by omega)]
    exact ⟨_, rfl, rfl, rfl⟩
  obtain ⟨ep, e1, e2, e3⟩ := hnew
  have := edges_ok hek hr.space (List.range pad.kind.nedge) (fun e he => List.mem_range.1 he) ep e2 e3
  unfold drawShape outline at h
  rw [hr.set, if_neg hn, hek] at h
  simp only [Bool.not_true, Bool.false_eq_true, if_false, Mesh.unwrap, Res.bind_ok, e1, this] at h
  cases h
  rfl

/-- **C84.** A line: one open broken line through the eleven evenly spaced points. -/
theorem C84_line (big low : ℝ) (pad : Scratchpad) (hr : Ready pad) (hn : pad.kind.ndim = 1) (withIds setRange : Bool) (pic : Picture)
    (h : drawShape big low pad withIds setRange = .ok pic) :
    pic.canvas = brokenLine pad.spaceNdim (stations.map fun η => place pad (vec1 η)) := by
  obtain ⟨p, hp, -⟩ := drawEdge_ok pad hr.set
  unfold drawShape outline at h
  rw [hr.set, if_pos hn, hp] at h
  simp only [Bool.not_true, Bool.false_eq_true, if_false, Res.bind_ok] at h
  cases h
  rfl

/-- **C84.** Each broken line begins at the node of the first end of its edge and ends at that of the second one (the first and last stations are
`-1` and `1`); if the shape is linear, its points are the evenly spaced points of the straight segment. -/
theorem C84_ends (pad : Scratchpad) (ek : GeoKind) (hk : pad.kind.edgeKind = some ek) (e : Nat) (he : e < pad.kind.nedge) (j : Nat) :
    stations.head? = some (-1) ∧ stations.getLast? = some 1 ∧ stations.length = 11 ∧
    place pad (edgePoint pad.kind e (-1)) j = pad.xxt j (edgeNode pad.kind e 0) ∧
    place pad (edgePoint pad.kind e 1) j = pad.xxt j (edgeNode pad.kind e 1) ∧
    (ek = .lin2 → ∀ t : ℝ, place pad (edgePoint pad.kind e (-1 + 2 * t)) j =
      (1 - t) * pad.xxt j (edgeNode pad.kind e 0) + t * pad.xxt j (edgeNode pad.kind e 1)) := by
  have hlin := (edgeKind_nnode _ _ hk).2
  have h11 : List.range 11 = [0, 1, 2, 3, 4, 5, 6, 7, 8, 9, 10] := rfl
  refine ⟨?_, ?_, by simp [stations], ?_, ?_, ?_⟩
  · simp [stations, h11]
  · rw [stations, h11]; norm_num
  · unfold place
    rw [Props.Shapes.C29_edge_interpolation pad.kind ek hk e he]
    cases ek <;> first | exact absurd hlin (by decide) | skip
    all_goals
      first | rw [interp_lin2] | rw [interp_lin3] | rw [interp_lin4] | rw [interp_lin5]
      ring
  · unfold place
    rw [Props.Shapes.C29_edge_interpolation pad.kind ek hk e he]
    cases ek <;> first | exact absurd hlin (by decide) | skip
    all_goals
      first | rw [interp_lin2] | rw [interp_lin3] | rw [interp_lin4] | rw [interp_lin5]
      ring
  · rintro rfl t
    unfold place
    rw [Props.Shapes.C29_edge_interpolation pad.kind .lin2 hk e he]
    rw [interp_lin2]
    ring

theorem split_fold {α : Type} (f : Nat → α) (c n : Nat) :
    (List.range n).foldl (fun s m => if m < c then (s.1 ++ [f m], s.2) else (s.1, s.2 ++ [f m])) (([], []) : List α × List α) =
      (((List.range n).filter (· < c)).map f, ((List.range n).filter (c ≤ ·)).map f) := by
  induction n with
  | zero => rfl
  | succ n ih =>
    rw [List.range_succ, List.foldl_append, ih]
    by_cases h : n < c
    · simp [h, Nat.not_le.2 h]
    · simp [h, Nat.not_lt.1 h]

theorem picture_parts {big low : ℝ} {pad : Scratchpad} {withIds setRange : Bool} {pic : Picture}
    (h : drawShape big low pad withIds setRange = .ok pic) :
    pic.labels = (if withIds then some (labels pad) else none) ∧ pic.range = if setRange then some (range big low pad) else none := by
  unfold drawShape at h
  by_cases ho : pad.okXxt = true
  · rw [ho] at h
    simp only [Bool.not_true, Bool.false_eq_true, if_false] at h
    rw [Res.bind_eq_ok] at h
    obtain ⟨c, -, h⟩ := h
    cases h
    exact ⟨rfl, rfl⟩
  · simp only [Bool.not_eq_true] at ho
    rw [ho] at h
    cases h

/-- **C84.** Every node gets one label, with its number, at its position. In the plane, and for solids, the labels of the corners and those of the
other nodes are told apart; the nodes of a surface in space are all labelled as if they were no corners, those of a line in space as if they were. -/
theorem C84_labels (big low : ℝ) (pad : Scratchpad) (hr : Ready pad) (setRange : Bool) (pic : Picture)
    (h : drawShape big low pad true setRange = .ok pic) :
    ∃ c : Nat → Prop, ∃ _ : DecidablePred c,
      pic.labels = some (((List.range pad.kind.nnode).filter c).map (nodeLabel pad), ((List.range pad.kind.nnode).filter (¬ c ·)).map (nodeLabel pad)) ∧
      ((pad.spaceNdim = 2 ∨ pad.kind.ndim = 3) → ∀ m, c m ↔ m < corners pad.kind) ∧
      (pad.spaceNdim = 3 → pad.kind.ndim = 2 → ∀ m, ¬ c m) ∧
      (pad.spaceNdim = 3 → pad.kind.ndim = 1 → ∀ m < pad.kind.nnode, c m) := by
  refine ⟨fun m => m < cornerMax pad, fun _ => inferInstance, ?_, ?_, ?_, ?_⟩
  · rw [(picture_parts h).1]
    simp only [if_true, labels]
    rw [split_fold]
    have hl : label pad = nodeLabel pad := by
      funext m
      unfold label nodeLabel
      rcases hr.space with hs | hs
      · rw [hs]; rfl
      · rw [hs]; rfl
    rw [hl]
    simp only [not_lt]
  · intro hh m
    have : cornerMax pad = corners pad.kind := by
      unfold cornerMax corners
      by_cases h2 : pad.spaceNdim = 2
      · rw [if_pos h2]; cases pad.kind <;> rfl
      · rw [if_neg h2]
        have h3 : pad.kind.ndim = 3 := by omega
        revert h3
        cases pad.kind <;> decide
    rw [this]
  · intro h3 h2 m
    unfold cornerMax
    rw [if_neg (by omega)]
    simp [h2]
  · intro h3 h1 m hm
    unfold cornerMax
    rw [if_neg (by omega)]
    revert h1 hm
    cases pad.kind <;> simp [GeoKind.ndim, GeoKind.nnode, GeoKind.isTriOrTet] <;> omega

/-! ## The range -/

theorem nodeMin_spec {big : ℝ} {pad : Scratchpad} {j : Nat} (hb : ∀ m < pad.kind.nnode, pad.xxt j m ≤ big) :
    (∀ m < pad.kind.nnode, nodeMin big pad j ≤ pad.xxt j m) ∧ ∃ m < pad.kind.nnode, nodeMin big pad j = pad.xxt j m := by
  have aux : ∀ n, n ≤ pad.kind.nnode → (∀ m < n, (List.range n).foldl (fun acc m => min acc (pad.xxt j m)) big ≤ pad.xxt j m) ∧
      (0 < n → ∃ m < n, (List.range n).foldl (fun acc m => min acc (pad.xxt j m)) big = pad.xxt j m) ∧
      (n = 0 → (List.range n).foldl (fun acc m => min acc (pad.xxt j m)) big = big) := by
    intro n
    induction n with
    | zero => intro _; exact ⟨fun m hm => absurd hm (by omega), fun h => absurd h (by omega), fun _ => rfl⟩
    | succ n ih =>
      intro hn
      obtain ⟨i1, i2, i3⟩ := ih (by omega)
      rw [List.range_succ, List.foldl_append]
      simp only [List.foldl_cons, List.foldl_nil]
      refine ⟨?_, ?_, fun h => absurd h (by omega)⟩
      · intro m hm
        by_cases h : m = n
        · rw [h]; exact min_le_right _ _
        · exact (min_le_left _ _).trans (i1 m (by omega))
      · intro _
        rcases le_total ((List.range n).foldl (fun acc m => min acc (pad.xxt j m)) big) (pad.xxt j n) with hle | hle
        · rw [min_eq_left hle]
          by_cases h0 : n = 0
          · refine ⟨n, by omega, le_antisymm hle ?_⟩
            rw [i3 h0]; exact hb n (by omega)
          · obtain ⟨m, hm, e⟩ := i2 (by omega)
            exact ⟨m, by omega, e⟩
        · exact ⟨n, by omega, min_eq_right hle⟩
  have hpos : 0 < pad.kind.nnode := by cases pad.kind <;> decide
  obtain ⟨a, b, -⟩ := aux _ le_rfl
  exact ⟨a, b hpos⟩

theorem nodeMax_spec {low : ℝ} {pad : Scratchpad} {j : Nat} (hb : ∀ m < pad.kind.nnode, low ≤ pad.xxt j m) :
    (∀ m < pad.kind.nnode, pad.xxt j m ≤ nodeMax low pad j) ∧ ∃ m < pad.kind.nnode, nodeMax low pad j = pad.xxt j m := by
  have aux : ∀ n, n ≤ pad.kind.nnode → (∀ m < n, pad.xxt j m ≤ (List.range n).foldl (fun acc m => max acc (pad.xxt j m)) low) ∧
      (0 < n → ∃ m < n, (List.range n).foldl (fun acc m => max acc (pad.xxt j m)) low = pad.xxt j m) ∧
      (n = 0 → (List.range n).foldl (fun acc m => max acc (pad.xxt j m)) low = low) := by
    intro n
    induction n with
    | zero => intro _; exact ⟨fun m hm => absurd hm (by omega), fun h => absurd h (by omega), fun _ => rfl⟩
    | succ n ih =>
      intro hn
      obtain ⟨i1, i2, i3⟩ := ih (by omega)
      rw [List.range_succ, List.foldl_append]
      simp only [List.foldl_cons, List.foldl_nil]
      refine ⟨?_, ?_, fun h => absurd h (by omega)⟩
      · intro m hm
        by_cases h : m = n
        · rw [h]; exact le_max_right _ _
        · exact (i1 m (by omega)).trans (le_max_left _ _)
      · intro _
        rcases le_total (pad.xxt j n) ((List.range n).foldl (fun acc m => max acc (pad.xxt j m)) low) with hle | hle
        · rw [max_eq_left hle]
          by_cases h0 : n = 0
          · refine ⟨n, by omega, le_antisymm ?_ hle⟩
            rw [i3 h0]; exact hb n (by omega)
          · obtain ⟨m, hm, e⟩ := i2 (by omega)
            exact ⟨m, by omega, e⟩
        · exact ⟨n, by omega, max_eq_right hle⟩
  have hpos : 0 < pad.kind.nnode := by cases pad.kind <;> decide
  obtain ⟨a, b, -⟩ := aux _ le_rfl
  exact ⟨a, b hpos⟩

/-- The interval shown for direction `j`: from the smallest to the largest coordinate of a node, with a margin of 2% of `ext` on both sides. -/
def IsInterval (pad : Scratchpad) (j : Nat) (ext : ℝ → ℝ) (r : ℝ × ℝ) : Prop :=
  ∃ a b, a < pad.kind.nnode ∧ b < pad.kind.nnode ∧ (∀ m < pad.kind.nnode, pad.xxt j a ≤ pad.xxt j m ∧ pad.xxt j m ≤ pad.xxt j b) ∧
    r = (pad.xxt j a - ext (pad.xxt j b - pad.xxt j a) / 50, pad.xxt j b + ext (pad.xxt j b - pad.xxt j a) / 50)

/-- **C84.** The range (of coordinates within those of `f64`): for each direction the interval of the coordinates of the nodes with margins of 2% of
its length — or of 0.02 if its length is zero, but only in the first two directions. -/
theorem C84_range (big low : ℝ) (pad : Scratchpad) (hr : Ready pad) (withIds : Bool) (pic : Picture)
    (hfin : ∀ j < pad.spaceNdim, ∀ m < pad.kind.nnode, low ≤ pad.xxt j m ∧ pad.xxt j m ≤ big)
    (h : drawShape big low pad withIds true = .ok pic) :
    ∃ r, pic.range = some r ∧ r.length = pad.spaceNdim ∧
      (∀ (j : Nat) i, r[j]? = some i → IsInterval pad j (fun l => if j < 2 ∧ l = 0 then 1 else l) i) ∧
      (∀ (j : Nat) i, r[j]? = some i → ∀ m < pad.kind.nnode, i.1 ≤ pad.xxt j m ∧ pad.xxt j m ≤ i.2 ∧
        (j < 2 → i.1 < pad.xxt j m ∧ pad.xxt j m < i.2)) := by
  have main : ∃ r, pic.range = some r ∧ r.length = pad.spaceNdim ∧
      ∀ (j : Nat) i, r[j]? = some i → IsInterval pad j (fun l => if j < 2 ∧ l = 0 then 1 else l) i := by
    refine ⟨range big low pad, by rw [(picture_parts h).2]; rfl, ?_, ?_⟩
    · unfold range
      rcases hr.space with hs | hs <;> rw [hs] <;> rfl
    · have key : ∀ j < pad.spaceNdim, ∀ ext : ℝ, ext = (if j < 2 ∧ nodeMax low pad j - nodeMin big pad j = 0 then 1 else
          nodeMax low pad j - nodeMin big pad j) →
          IsInterval pad j (fun l => if j < 2 ∧ l = 0 then 1 else l) (nodeMin big pad j - ext * (2 / 100), nodeMax low pad j + ext * (2 / 100)) := by
        intro j hj ext he
        obtain ⟨n1, a, ha, ea⟩ := nodeMin_spec (pad := pad) (j := j) (fun m hm => (hfin j hj m hm).2)
        obtain ⟨n2, b, hb, eb⟩ := nodeMax_spec (pad := pad) (j := j) (fun m hm => (hfin j hj m hm).1)
        refine ⟨a, b, ha, hb, fun m hm => ⟨ea ▸ n1 m hm, eb ▸ n2 m hm⟩, ?_⟩
        rw [he, ea, eb]
        dsimp only
        congr 1 <;> ring
      have hle : ∀ j < pad.spaceNdim, (nodeMax low pad j - nodeMin big pad j ≤ 0 ↔ nodeMax low pad j - nodeMin big pad j = 0) := by
        intro j hj
        obtain ⟨n1, a, ha, ea⟩ := nodeMin_spec (pad := pad) (j := j) (fun m hm => (hfin j hj m hm).2)
        obtain ⟨n2, -⟩ := nodeMax_spec (pad := pad) (j := j) (fun m hm => (hfin j hj m hm).1)
        have := (n1 a ha).trans (n2 a ha)
        constructor <;> intro h' <;> linarith
      intro j i hi
      have h0 := key 0 (by rcases hr.space with hs | hs <;> omega) _ rfl
      have h1 := key 1 (by rcases hr.space with hs | hs <;> omega) _ rfl
      have e0 := hle 0 (by rcases hr.space with hs | hs <;> omega)
      have e1 := hle 1 (by rcases hr.space with hs | hs <;> omega)
      simp only [Nat.zero_lt_two, Nat.one_lt_two, true_and, ← e0] at h0
      simp only [Nat.zero_lt_two, Nat.one_lt_two, true_and, ← e1] at h1
      unfold range at hi
      rcases hr.space with hs | hs
      · rw [if_pos hs] at hi
        match j, hi with
        | 0, hi =>
          cases hi
          simp only [Nat.zero_lt_two, true_and]
          exact h0
        | 1, hi =>
          cases hi
          simp only [Nat.one_lt_two, true_and]
          exact h1
      · have h2 := key 2 (by omega) _ rfl
        rw [if_neg (by omega)] at hi
        match j, hi with
        | 0, hi =>
          cases hi
          simp only [Nat.zero_lt_two, true_and]
          exact h0
        | 1, hi =>
          cases hi
          simp only [Nat.one_lt_two, true_and]
          exact h1
        | 2, hi =>
          cases hi
          simpa using h2
  obtain ⟨r, hr1, hr2, hr3⟩ := main
  refine ⟨r, hr1, hr2, hr3, ?_⟩
  intro j i hi m hm
  obtain ⟨a, b, ha, hb, hab, e⟩ := hr3 j i hi
  have hm' := hab m hm
  have hpos : 0 ≤ pad.xxt j b - pad.xxt j a := by linarith [(hab a ha).2]
  rw [e]
  dsimp only
  by_cases hc : j < 2 ∧ pad.xxt j b - pad.xxt j a = 0
  · rw [if_pos hc]
    refine ⟨by linarith, by linarith, fun _ => ⟨by linarith, by linarith⟩⟩
  · rw [if_neg hc]
    refine ⟨by linarith, by linarith, fun h2 => ?_⟩
    have : 0 < pad.xxt j b - pad.xxt j a := lt_of_le_of_ne hpos (fun h0 => hc ⟨h2, h0.symm⟩)
    exact ⟨by linarith, by linarith⟩

/-! ## Examples -/

/-- A square in the plane `z = 1`. -/
def exPad : Scratchpad where
  kind := .qua4
  spaceNdim := 3
  interp := fun _ => 0
  deriv := fun _ _ => 0
  jacobian := fun _ _ => 0
  invJacobian := fun _ _ => 0
  gradient := fun _ _ => 0
  xxt := fun j m => if j = 0 then (if m = 1 ∨ m = 2 then 2 else 0) else if j = 1 then (if m = 2 ∨ m = 3 then 2 else 0) else 1
  okXxt := true

theorem exPad_ready : Ready exPad := ⟨.inr rfl, by decide, rfl⟩

/-- Witness: the interval of the third direction has no margin if the shape is flat, so that it is empty. -/
theorem C84_flat_shape : ∃ pic r, drawShape 10 (-10) exPad true true = .ok pic ∧ pic.range = some r ∧ r[2]? = some (1, 1) := by
  obtain ⟨pic, h, -⟩ := (C84_outcome 10 (-10) exPad exPad_ready.space exPad_ready.fits true true).2 rfl
  obtain ⟨r, h1, h2, h3, -⟩ := C84_range 10 (-10) exPad exPad_ready true pic (by
    intro j _ m _
    simp only [exPad]
    split_ifs <;> norm_num) h
  refine ⟨pic, r, h, h1, ?_⟩
  obtain ⟨i, hi⟩ : ∃ i, r[2]? = some i := ⟨r[2]'(by rw [h2]; decide), List.getElem?_eq_getElem _⟩
  obtain ⟨a, b, -, -, -, e⟩ := h3 2 i hi
  rw [hi, e]
  simp [exPad]

example : ∃ pic, drawShape 10 (-10) exPad true true = .ok pic ∧ pic.canvas.length = 52 := by
  obtain ⟨pic, h, -⟩ := (C84_outcome 10 (-10) exPad exPad_ready.space exPad_ready.fits true true).2 rfl
  refine ⟨pic, h, ?_⟩
  rw [C84_edges 10 (-10) exPad exPad_ready (by decide) true true pic h]
  simp [brokenLine, exPad, stations, GeoKind.nedge]

end Gemlab.DrawShape
