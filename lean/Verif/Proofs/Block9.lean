import Verif.Proofs.Block8

/-!
# Blocks: marked edges and faces
-/
namespace Gemlab.Block
noncomputable section
open Gemlab.Mesh Gemlab.Shapes

variable {b : Block} {target : GeoKind}

/-! ## Tables -/

/-- Two nodes on the edge `e` of the corner kind are those of edge `e`. -/
def fixedAt (k : GeoKind) (e m : Nat) : Bool :=
  decide (∀ a < k.ndim, refCoordQ (cornerKind k.ndim) (edgeNode (cornerKind k.ndim) e 0) a = refCoordQ (cornerKind k.ndim) (edgeNode (cornerKind k.ndim) e 1) a →
    refCoordQ k m a = refCoordQ (cornerKind k.ndim) (edgeNode (cornerKind k.ndim) e 0) a)

theorem edge_table (k : GeoKind) (hk : IsQuaHex k) : ∀ e < k.nedge, ∀ ε < k.nedge,
    (fixedAt k e (edgeNode k ε 0) && fixedAt k e (edgeNode k ε 1)) = decide (ε = e) := by
  cases k <;> first | exact absurd hk (by unfold IsQuaHex; decide) | decide +kernel

/-- The values of the coordinates of the corners of an edge. -/
theorem edge_ends (k : GeoKind) (hk : IsQuaHex k) : ∀ e < k.nedge, ∀ t < 2, ∀ a < k.ndim, edgeNode k e t < k.nnode ∧
    (refCoordQ k (edgeNode k e t) a = -1 ∨ refCoordQ k (edgeNode k e t) a = 1) := by
  cases k <;> first | exact absurd hk (by unfold IsQuaHex; decide) | decide +kernel

def faceFixedAt (k : GeoKind) (f m : Nat) : Bool :=
  decide (∀ (a : Nat), a < 3 → (∀ (t : Nat), t < 4 → refCoordQ .hex8 (faceNode .hex8 f t) a = refCoordQ .hex8 (faceNode .hex8 f 0) a) →
    refCoordQ k m a = refCoordQ .hex8 (faceNode .hex8 f 0) a)

theorem face_table (k : GeoKind) (hk : k.classOf = .hex) : ∀ f < k.nface, ∀ φ < k.nface,
    decide (∀ (t : Nat), t < 4 → faceFixedAt k f (faceNode k φ t) = true) = decide (φ = f) := by
  cases k <;> first | exact absurd hk (by decide) | decide +kernel

theorem face_ends (k : GeoKind) (hk : k.classOf = .hex) : ∀ f < k.nface, ∀ t < 4, ∀ a < k.ndim, faceNode k f t < k.nnode ∧
    (refCoordQ k (faceNode k f t) a = -1 ∨ refCoordQ k (faceNode k f t) a = 1) := by
  cases k <;> first | exact absurd hk (by decide) | decide +kernel

theorem num_sides (k : GeoKind) (hk : IsQuaHex k) : k.nedge = (if k.ndim = 2 then 4 else 12) ∧ (k.classOf = .hex ↔ k.ndim = 3) ∧ (k.ndim = 2 ∨ k.ndim = 3) ∧
    (k.ndim = 3 → k.nface = 6) := by
  cases k <;> first | exact absurd hk (by unfold IsQuaHex; decide) | decide

/-! ## Ends of the block -/

theorem rr_zero {m a : Nat} : rr target m a = 0 ↔ refCoordQ target m a = -1 := by
  unfold rr refCoord
  constructor
  · intro h
    have : ((refCoordQ target m a : ℚ) : ℝ) = (-1 : ℚ) := by push_cast; linarith
    exact_mod_cast this
  · intro h; rw [h]; norm_num

theorem rr_one {m a : Nat} : rr target m a = 1 ↔ refCoordQ target m a = 1 := by
  unfold rr refCoord
  constructor
  · intro h
    have : ((refCoordQ target m a : ℚ) : ℝ) = (1 : ℚ) := by push_cast; linarith
    exact_mod_cast this
  · intro h; rw [h]; norm_num

/-- A node is at an end of the block. -/
theorem at_low (hc : Ctx b target) {i j k m a : Nat} (hg : InGrid b i j k) (hm : m < target.nnode) (ha : a < b.ndim) :
    (nodePos b target i j k m).getD a 0 = -1 ↔ pick i j k a = 0 ∧ refCoordQ target m a = -1 := by
  rw [getD_nodePos ha, ← rr_zero]
  rcases pos_low (hc.dir a ha) (hg.pick ha hc.dims) (hc.rok hm ha) with ⟨h1, h2, h3⟩ | h
  · exact ⟨fun _ => ⟨h1, h2⟩, fun _ => h3⟩
  · constructor
    · intro h'; rw [h'] at h; norm_num at h
    · rintro ⟨h1, h2⟩
      rw [h1, h2]; unfold pos; rw [left_zero]; ring

theorem at_high (hc : Ctx b target) {i j k m a : Nat} (hg : InGrid b i j k) (hm : m < target.nnode) (ha : a < b.ndim) :
    (nodePos b target i j k m).getD a 0 = 1 ↔ pick i j k a = ndivAt b a - 1 ∧ refCoordQ target m a = 1 := by
  rw [getD_nodePos ha, ← rr_one]
  have hd := hc.dir a ha
  rcases pos_high hd (hg.pick ha hc.dims) (hc.rok hm ha) with ⟨h1, h2, h3⟩ | h
  · exact ⟨fun _ => ⟨h1, h2⟩, fun _ => h3⟩
  · constructor
    · intro h'; rw [h'] at h; norm_num at h
    · rintro ⟨h1, h2⟩
      rw [h1, h2]
      unfold pos
      have hn := hd.pos
      have := left_succ b a (ndivAt b a - 1)
      rw [show ndivAt b a - 1 + 1 = ndivAt b a by omega, hd.total] at this
      linarith

/-- The cell is at the end of direction `a` where the coordinate is `q`. -/
def EndAt (b : Block) (i j k a : Nat) (q : ℚ) : Prop := (q = -1 → pick i j k a = 0) ∧ (q = 1 → pick i j k a = ndivAt b a - 1)

theorem at_end (hc : Ctx b target) {i j k m a : Nat} (hg : InGrid b i j k) (hm : m < target.nnode) (ha : a < b.ndim) {k' : GeoKind} {m' : Nat}
    (hq : refCoordQ k' m' a = -1 ∨ refCoordQ k' m' a = 1) :
    (nodePos b target i j k m).getD a 0 = refCoord k' m' a ↔ EndAt b i j k a (refCoordQ k' m' a) ∧ refCoordQ target m a = refCoordQ k' m' a := by
  unfold refCoord EndAt
  rcases hq with h | h <;> rw [h]
  · push_cast
    rw [at_low hc hg hm ha]
    norm_num
  · push_cast
    rw [at_high hc hg hm ha]
    norm_num

/-- The ends of the cell edges on edge `e`. -/
theorem onBlockEdge_iff (hc : Ctx b target) {i j k m e : Nat} (hg : InGrid b i j k) (hm : m < target.nnode) (he : e < target.nedge) :
    OnBlockEdge b.ndim e (nodePos b target i j k m) ↔
      (if b.ndim = 2 then touches2d (ndivAt b 0) (ndivAt b 1) i j e else touchesEdge3d (ndivAt b 0) (ndivAt b 1) (ndivAt b 2) i j k e) = true ∧
      fixedAt target e m = true := by
  obtain ⟨n1, n2, n3, n4⟩ := num_sides target hc.qh
  rw [hc.ndim] at n1 n2 n3 n4
  have hck : IsQuaHex (cornerKind b.ndim) ∧ (cornerKind b.ndim).nedge = target.nedge ∧ (cornerKind b.ndim).ndim = b.ndim := by
    rw [n1]
    rcases n3 with h | h <;> rw [h] <;> unfold IsQuaHex <;> decide
  have key : OnBlockEdge b.ndim e (nodePos b target i j k m) ↔
      (∀ a < b.ndim, refCoordQ (cornerKind b.ndim) (edgeNode (cornerKind b.ndim) e 0) a = refCoordQ (cornerKind b.ndim) (edgeNode (cornerKind b.ndim) e 1) a →
        EndAt b i j k a (refCoordQ (cornerKind b.ndim) (edgeNode (cornerKind b.ndim) e 0) a)) ∧ fixedAt target e m = true := by
    unfold OnBlockEdge fixedAt
    rw [decide_eq_true_iff, hc.ndim, ← forall₂_and]
    refine forall₂_congr fun a ha => ?_
    rw [← imp_and]
    refine imp_congr_right fun _ => ?_
    exact at_end hc hg hm ha (edge_ends _ hck.1 e (by rw [hck.2.1]; exact he) 0 (by omega) a (by rw [hck.2.2]; exact ha)).2
  rw [key]
  refine and_congr_left fun _ => ?_
  clear key hm
  rcases n3 with h | h
  · rw [n1, if_pos h] at he
    rw [if_pos h, h]
    have hall : ∀ P : Nat → Prop, (∀ a < 2, P a) ↔ P 0 ∧ P 1 := fun P =>
      ⟨fun h => ⟨h 0 (by omega), h 1 (by omega)⟩, fun h a ha => by rcases (by omega : a = 0 ∨ a = 1) with rfl | rfl; exacts [h.1, h.2]⟩
    rw [hall]
    have tab : ∀ e < 4, ∀ a < 2, (refCoordQ (cornerKind 2) (edgeNode (cornerKind 2) e 0) a, refCoordQ (cornerKind 2) (edgeNode (cornerKind 2) e 1) a) =
      ((([[(1, -1), (-1, -1)], [(1, 1), (1, -1)], [(-1, 1), (1, 1)], [(-1, -1), (-1, 1)]] : List (List (ℚ × ℚ))).getD e []).getD a (0, 0)) := by
      decide +kernel
    have t0 := tab e he 0 (by omega)
    have t1 := tab e he 1 (by omega)
    rw [Prod.mk.injEq] at t0 t1
    rw [t0.1, t0.2, t1.1, t1.2]
    clear t0 t1 tab
    unfold EndAt
    interval_cases e <;> simp [touches2d, pick] <;> norm_num
  · rw [n1, if_neg (by omega)] at he
    rw [if_neg (by omega), h]
    have hall : ∀ P : Nat → Prop, (∀ a < 3, P a) ↔ P 0 ∧ P 1 ∧ P 2 := fun P =>
      ⟨fun h => ⟨h 0 (by omega), h 1 (by omega), h 2 (by omega)⟩, fun h a ha => by
        rcases (by omega : a = 0 ∨ a = 1 ∨ a = 2) with rfl | rfl | rfl; exacts [h.1, h.2.1, h.2.2]⟩
    rw [hall]
    have tab : ∀ e < 12, ∀ a < 3, (refCoordQ (cornerKind 3) (edgeNode (cornerKind 3) e 0) a, refCoordQ (cornerKind 3) (edgeNode (cornerKind 3) e 1) a) =
      ((([[(-1, 1), (-1, -1), (-1, -1)], [(1, 1), (-1, 1), (-1, -1)], [(1, -1), (1, 1), (-1, -1)], [(-1, -1), (1, -1), (-1, -1)],
          [(-1, 1), (-1, -1), (1, 1)], [(1, 1), (-1, 1), (1, 1)], [(1, -1), (1, 1), (1, 1)], [(-1, -1), (1, -1), (1, 1)],
          [(-1, -1), (-1, -1), (-1, 1)], [(1, 1), (-1, -1), (-1, 1)], [(1, 1), (1, 1), (-1, 1)], [(-1, -1), (1, 1), (-1, 1)]] : List (List (ℚ × ℚ))).getD e []).getD a (0, 0)) := by
      decide +kernel
    have t0 := tab e he 0 (by omega)
    have t1 := tab e he 1 (by omega)
    have t2 := tab e he 2 (by omega)
    rw [Prod.mk.injEq] at t0 t1 t2
    rw [t0.1, t0.2, t1.1, t1.2, t2.1, t2.2]
    clear t0 t1 t2 tab
    unfold EndAt
    interval_cases e <;> simp [touchesEdge3d, pick] <;> norm_num

/-- The corners of the cell faces on face `f`. -/
theorem onBlockFace_iff (hc : Ctx b target) {i j k m f : Nat} (h3 : b.ndim = 3) (hg : InGrid b i j k) (hm : m < target.nnode) (hf : f < 6) :
    OnBlockFace f (nodePos b target i j k m) ↔
      touches3d (ndivAt b 0) (ndivAt b 1) (ndivAt b 2) i j k f = true ∧ faceFixedAt target f m = true := by
  have key : OnBlockFace f (nodePos b target i j k m) ↔
      (∀ a < 3, (∀ t < 4, refCoordQ .hex8 (faceNode .hex8 f t) a = refCoordQ .hex8 (faceNode .hex8 f 0) a) →
        EndAt b i j k a (refCoordQ .hex8 (faceNode .hex8 f 0) a)) ∧ faceFixedAt target f m = true := by
    unfold OnBlockFace faceFixedAt
    rw [decide_eq_true_iff, ← forall₂_and]
    refine forall₂_congr fun a ha => ?_
    rw [← imp_and]
    refine imp_congr_right fun _ => ?_
    exact at_end hc hg hm (by omega) (face_ends .hex8 rfl f hf 0 (by omega) a ha).2
  rw [key]
  refine and_congr_left fun _ => ?_
  clear key hm
  have hall : ∀ P : Nat → Prop, (∀ a < 3, P a) ↔ P 0 ∧ P 1 ∧ P 2 := fun P =>
    ⟨fun h => ⟨h 0 (by omega), h 1 (by omega), h 2 (by omega)⟩, fun h a ha => by
      rcases (by omega : a = 0 ∨ a = 1 ∨ a = 2) with rfl | rfl | rfl; exacts [h.1, h.2.1, h.2.2]⟩
  rw [hall]
  have tab : ∀ f < 6, ∀ a < 3, decide (∀ (t : Nat), t < 4 → refCoordQ .hex8 (faceNode .hex8 f t) a = refCoordQ .hex8 (faceNode .hex8 f 0) a) = decide (a = f / 2) ∧
      refCoordQ .hex8 (faceNode .hex8 f 0) (f / 2) = if f % 2 = 0 then -1 else 1 := by
    decide +kernel
  have t0 := tab f hf 0 (by omega)
  have t1 := tab f hf 1 (by omega)
  have t2 := tab f hf 2 (by omega)
  rw [decide_eq_decide] at t0 t1 t2
  rw [t0.1, t1.1, t2.1]
  have q := t0.2
  clear t0 t1 t2 tab
  unfold EndAt
  interval_cases f <;> norm_num at q <;> simp [touches3d, pick, q] <;> norm_num

/-! ## The cell of an edge or face is unique -/

/-- The same division, if the lower ends of both are among the ends of the other. -/
theorem pick_eq (hc : Ctx b target) {a : Nat} (ha : a < b.ndim) {x x' : Nat} (hx : x < ndivAt b a) (hx' : x' < ndivAt b a)
    (h1 : pos b a x 0 = pos b a x' 0 ∨ pos b a x 0 = pos b a x' 1) (h2 : pos b a x' 0 = pos b a x 0 ∨ pos b a x' 0 = pos b a x 1) : x = x' := by
  have hd := hc.dir a ha
  have r0 : Rok (0 : ℝ) := .inl rfl
  have r1 : Rok (1 : ℝ) := .inr (.inl rfl)
  rcases h1 with h | h
  · rcases same_of_pos_eq hd hx hx' r0 r0 (.inl rfl) h with g | g | g
    · exact g.1
    · exact absurd g.2.1 (by norm_num)
    · exact absurd g.2.1 (by norm_num)
  · rcases h2 with h' | h'
    · rcases same_of_pos_eq hd hx' hx r0 r0 (.inl rfl) h' with g | g | g
      · exact g.1.symm
      · exact absurd g.2.1 (by norm_num)
      · exact absurd g.2.1 (by norm_num)
    · have g1 := same_of_pos_eq hd hx hx' r0 r1 (.inr (.inl (by norm_num))) h
      have g2 := same_of_pos_eq hd hx' hx r0 r1 (.inr (.inl (by norm_num))) h'
      unfold Same at g1 g2
      norm_num at g1 g2
      omega

/-- Cells with the same set of corners at the nodes `ms`, at an end of the block in the directions that are fixed. -/
theorem cell_eq (hc : Ctx b target) {i j k i' j' k' : Nat} (hg : InGrid b i j k) (hg' : InGrid b i' j' k') {ms : List Nat}
    (hms : ∀ m ∈ ms, m < target.nnode ∧ ∀ a < b.ndim, refCoordQ target m a = -1 ∨ refCoordQ target m a = 1)
    (h1 : ∀ m ∈ ms, ∃ m' ∈ ms, nodePos b target i j k m = nodePos b target i' j' k' m')
    (h2 : ∀ m ∈ ms, ∃ m' ∈ ms, nodePos b target i' j' k' m = nodePos b target i j k m')
    (hfree : ∀ a < b.ndim, pick i j k a = pick i' j' k' a ∨ ∃ m ∈ ms, refCoordQ target m a = -1) : i = i' ∧ j = j' ∧ (b.ndim = 3 → k = k') := by
  have key : ∀ a < b.ndim, pick i j k a = pick i' j' k' a := by
    intro a ha
    rcases hfree a ha with h | ⟨m, hm, hr⟩
    · exact h
    · have aux : ∀ {i j k i' j' k' : Nat}, (∀ m ∈ ms, ∃ m' ∈ ms, nodePos b target i j k m = nodePos b target i' j' k' m') →
          pos b a (pick i j k a) 0 = pos b a (pick i' j' k' a) 0 ∨ pos b a (pick i j k a) 0 = pos b a (pick i' j' k' a) 1 := by
        intro i j k i' j' k' h1
        obtain ⟨m', hm', he⟩ := h1 m hm
        have e : (nodePos b target i j k m).getD a 0 = (nodePos b target i' j' k' m').getD a 0 := by rw [he]
        rw [getD_nodePos ha, getD_nodePos ha, rr_zero.2 hr] at e
        rcases (hms m' hm').2 a ha with g | g
        · rw [rr_zero.2 g] at e; exact .inl e
        · rw [rr_one.2 g] at e; exact .inr e
      exact pick_eq hc ha (hg.pick ha hc.dims) (hg'.pick ha hc.dims) (aux h1) (aux h2)
  have h2 := hc.dims
  exact ⟨key 0 (by omega), key 1 (by omega), fun h => key 2 (by omega)⟩

theorem EndAt.eq {i j k i' j' k' a : Nat} {q : ℚ} (hq : q = -1 ∨ q = 1) (h : EndAt b i j k a q) (h' : EndAt b i' j' k' a q) : pick i j k a = pick i' j' k' a := by
  rcases hq with rfl | rfl
  · rw [h.1 rfl, h'.1 rfl]
  · rw [h.2 rfl, h'.2 rfl]

theorem edge_unique (hc : Ctx b target) {i j k i' j' k' e e' : Nat} (hg : InGrid b i j k) (hg' : InGrid b i' j' k') (he : e < target.nedge)
    (he' : e' < target.nedge)
    (ht : ∀ t < 2, OnBlockEdge b.ndim e (nodePos b target i j k (edgeNode target e t)))
    (ht' : ∀ t < 2, OnBlockEdge b.ndim e' (nodePos b target i' j' k' (edgeNode target e' t)))
    (h1 : ∀ t < 2, ∃ t' < 2, nodePos b target i j k (edgeNode target e t) = nodePos b target i' j' k' (edgeNode target e' t'))
    (h2 : ∀ t < 2, ∃ t' < 2, nodePos b target i' j' k' (edgeNode target e' t) = nodePos b target i j k (edgeNode target e t')) :
    e = e' ∧ i = i' ∧ j = j' ∧ (b.ndim = 3 → k = k') := by
  have hp : 0 < target.ndim := by rw [hc.ndim]; have := hc.dims; omega
  have lt : ∀ e < target.nedge, ∀ t < 2, edgeNode target e t < target.nnode := fun e he t ht => (edge_ends target hc.qh e he t ht 0 hp).1
  have hon : ∀ t < 2, OnBlockEdge b.ndim e' (nodePos b target i j k (edgeNode target e t)) := by
    intro t htt
    obtain ⟨t', h3, h4⟩ := h1 t htt
    rw [h4]
    exact ht' t' h3
  have ee : e = e' := by
    have f : ∀ t < 2, fixedAt target e' (edgeNode target e t) = true := fun t htt =>
      ((onBlockEdge_iff hc hg (lt e he t htt) he').1 (hon t htt)).2
    have := edge_table target hc.qh e' he' e he
    rw [f 0 (by omega), f 1 (by omega)] at this
    simpa using this.symm
  subst ee
  refine ⟨rfl, cell_eq hc hg hg' (ms := [edgeNode target e 0, edgeNode target e 1]) ?_ ?_ ?_ ?_⟩
  · have : ∀ t < 2, edgeNode target e t < target.nnode ∧ ∀ a < b.ndim, refCoordQ target (edgeNode target e t) a = -1 ∨ refCoordQ target (edgeNode target e t) a = 1 :=
      fun t htt => ⟨lt e he t htt, fun a ha => (edge_ends target hc.qh e he t htt a (hc.ndim ▸ ha)).2⟩
    intro m hm
    simp only [List.mem_cons, List.not_mem_nil, or_false] at hm
    rcases hm with rfl | rfl
    exacts [this 0 (by omega), this 1 (by omega)]
  · intro m hm
    simp only [List.mem_cons, List.not_mem_nil, or_false] at hm
    rcases hm with rfl | rfl
    · obtain ⟨t', h3, h4⟩ := h1 0 (by omega)
      exact ⟨_, by rcases (by omega : t' = 0 ∨ t' = 1) with rfl | rfl <;> simp, h4⟩
    · obtain ⟨t', h3, h4⟩ := h1 1 (by omega)
      exact ⟨_, by rcases (by omega : t' = 0 ∨ t' = 1) with rfl | rfl <;> simp, h4⟩
  · intro m hm
    simp only [List.mem_cons, List.not_mem_nil, or_false] at hm
    rcases hm with rfl | rfl
    · obtain ⟨t', h3, h4⟩ := h2 0 (by omega)
      exact ⟨_, by rcases (by omega : t' = 0 ∨ t' = 1) with rfl | rfl <;> simp, h4⟩
    · obtain ⟨t', h3, h4⟩ := h2 1 (by omega)
      exact ⟨_, by rcases (by omega : t' = 0 ∨ t' = 1) with rfl | rfl <;> simp, h4⟩
  · intro a ha
    by_cases hfix : refCoordQ target (edgeNode target e 0) a = refCoordQ target (edgeNode target e 1) a
    · left
      obtain ⟨t', h3, h4⟩ := h1 0 (by omega)
      have e2 : refCoordQ target (edgeNode target e t') a = refCoordQ target (edgeNode target e 0) a := by
        rcases (by omega : t' = 0 ∨ t' = 1) with rfl | rfl
        exacts [rfl, hfix.symm]
      have hs := (nodePos_eq_iff hc hg hg' (lt e he 0 (by omega)) (lt e he t' h3)).1 h4 a ha
      rw [rr_eq_of_ref e2] at hs
      rcases hs with g | g | g
      · exact g.1
      · have q1 := rr_one.1 g.2.1
        have q0 := rr_zero.1 g.2.2
        rw [q1] at q0; norm_num at q0
      · have q1 := g.2.1
        have q0 := g.2.2
        rw [q1] at q0; norm_num at q0
    · right
      have e0 := (edge_ends target hc.qh e he 0 (by omega) a (hc.ndim ▸ ha)).2
      have e1 := (edge_ends target hc.qh e he 1 (by omega) a (hc.ndim ▸ ha)).2
      rcases e0 with g | g
      · exact ⟨_, by simp, g⟩
      · rcases e1 with g' | g'
        · exact ⟨_, by simp, g'⟩
        · rw [g, g'] at hfix; exact absurd rfl hfix

theorem face_unique (hc : Ctx b target) (h3 : b.ndim = 3) {i j k i' j' k' f f' : Nat} (hg : InGrid b i j k) (hg' : InGrid b i' j' k') (hf : f < 6) (hf' : f' < 6)
    (ht' : ∀ t < 4, OnBlockFace f' (nodePos b target i' j' k' (faceNode target f' t)))
    (h1 : ∀ t < 4, ∃ t' < 4, nodePos b target i j k (faceNode target f t) = nodePos b target i' j' k' (faceNode target f' t'))
    (h2 : ∀ t < 4, ∃ t' < 4, nodePos b target i' j' k' (faceNode target f' t) = nodePos b target i j k (faceNode target f t')) :
    f = f' ∧ i = i' ∧ j = j' ∧ k = k' := by
  obtain ⟨n1, n2, n3, n4⟩ := num_sides target hc.qh
  rw [hc.ndim] at n1 n2 n3 n4
  have hx := n2.2 h3
  have n6 := n4 h3
  have ends : ∀ f < 6, ∀ t < 4, ∀ a < b.ndim, faceNode target f t < target.nnode ∧ (refCoordQ target (faceNode target f t) a = -1 ∨ refCoordQ target (faceNode target f t) a = 1) := by
    intro f hf t ht a ha
    exact face_ends target hx f (by omega) t ht a (hc.ndim ▸ ha)
  have hon : ∀ t < 4, OnBlockFace f' (nodePos b target i j k (faceNode target f t)) := by
    intro t htt
    obtain ⟨t', h3, h4⟩ := h1 t htt
    rw [h4]
    exact ht' t' h3
  have ee : f = f' := by
    have g : ∀ t < 4, faceFixedAt target f' (faceNode target f t) = true := fun t htt =>
      ((onBlockFace_iff hc h3 hg (ends f hf t htt 0 (by omega)).1 hf').1 (hon t htt)).2
    have := face_table target hx f' (by omega) f (by omega)
    rw [decide_eq_decide] at this
    exact this.1 g
  subst ee
  have mem : ∀ t < 4, faceNode target f t ∈ (List.range 4).map (faceNode target f) := fun t ht => List.mem_map.2 ⟨t, List.mem_range.2 ht, rfl⟩
  obtain ⟨c1, c2, c3⟩ := cell_eq hc hg hg' (ms := (List.range 4).map (faceNode target f)) (by
    intro m hm
    obtain ⟨t, htt, rfl⟩ := List.mem_map.1 hm
    rw [List.mem_range] at htt
    exact ⟨(ends f hf t htt 0 (by omega)).1, fun a ha => (ends f hf t htt a ha).2⟩) (by
    intro m hm
    obtain ⟨t, htt, rfl⟩ := List.mem_map.1 hm
    rw [List.mem_range] at htt
    obtain ⟨t', g1, g2⟩ := h1 t htt
    exact ⟨_, mem t' g1, g2⟩) (by
    intro m hm
    obtain ⟨t, htt, rfl⟩ := List.mem_map.1 hm
    rw [List.mem_range] at htt
    obtain ⟨t', g1, g2⟩ := h2 t htt
    exact ⟨_, mem t' g1, g2⟩) (by
    intro a ha
    by_cases hz : ∃ t < 4, refCoordQ target (faceNode target f t) a = -1
    · obtain ⟨t, htt, hz⟩ := hz
      exact .inr ⟨_, mem t htt, hz⟩
    · left
      have one : ∀ t < 4, refCoordQ target (faceNode target f t) a = 1 := by
        intro t htt
        rcases (ends f hf t htt a ha).2 with g | g
        · exact absurd ⟨t, htt, g⟩ hz
        · exact g
      obtain ⟨t', g3, g4⟩ := h1 0 (by omega)
      have hs := (nodePos_eq_iff hc hg hg' (ends f hf 0 (by omega) a ha).1 (ends f hf t' g3 a ha).1).1 g4 a ha
      rw [rr_one.2 (one 0 (by omega)), rr_one.2 (one t' g3)] at hs
      rcases hs with g | g | g
      · exact g.1
      · exact absurd g.2.2 (by norm_num)
      · exact absurd g.2.2 (by norm_num))
  exact ⟨rfl, c1, c2, c3 h3⟩

end
end Gemlab.Block
