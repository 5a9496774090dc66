import Verif.Proofs.Shapes
import Verif.Proofs.Triangulation
import Verif.Proofs.PolyDeriv

/-!
# Properties of the shape functions and of the topology tables (C25–C30, C44, C45)

The statements hold for the 20 kinds, in exact arithmetic, at every reference coordinate of any field of characteristic
zero (`ℝ` in particular).
-/
namespace Gemlab.Props.Shapes
open Gemlab Gemlab.Shapes Gemlab.Spec

variable {K : Type} [Field K] [CharZero K]

/-! ## C25 -/

/-- The vector filled by `calc_interp` has `nnode` entries, the matrix filled by `calc_deriv` is `nnode × ndim`. -/
theorem C25_sizes (k : GeoKind) : (interp k).length = k.nnode ∧ (deriv k).length = k.nnode ∧ ∀ r ∈ deriv k, r.length = k.ndim := by
  have := chkLen_ok k
  simp only [chkLen, Bool.and_eq_true, beq_iff_eq, List.all_eq_true] at this
  exact ⟨this.1.1.1.1, this.1.1.1.2, this.1.1.2⟩

/-- **C25.** At every reference coordinate the interpolation functions sum to one. -/
theorem C25_partition_of_unity (k : GeoKind) (ξ : Nat → K) : ∑ m ∈ Finset.range k.nnode, calcInterp k ξ m = 1 := pou k ξ

/-- **C25.** At every reference coordinate each column of the derivatives sums to zero. -/
theorem C25_derivatives_sum_to_zero (k : GeoKind) (ξ : Nat → K) (i : Nat) (hi : i < k.ndim) :
    ∑ m ∈ Finset.range k.nnode, calcDeriv k ξ m i = 0 := derivSum k ξ i hi

/-! ## C26 -/

/-- **C26.** Interpolation function `m` is one at node `m` and zero at the other nodes. -/
theorem C26_kronecker (k : GeoKind) (m n : Nat) (hm : m < k.nnode) (hn : n < k.nnode) :
    calcInterp k (refCoord k n : Nat → K) m = if m = n then 1 else 0 := kron k m n hm hn

/-- **C26.** Hence interpolating nodal values gives back the nodal value at each node. -/
theorem C26_interpolation_at_nodes (k : GeoKind) (u : Nat → K) (n : Nat) (hn : n < k.nnode) :
    interpolate k u (refCoord k n) = u n := by
  unfold interpolate
  rw [Finset.sum_eq_single n]
  · rw [kron k n n hn hn]; simp
  · intro m hm hne; rw [kron k m n (Finset.mem_range.1 hm) hn]; simp [hne]
  · intro h; exact absurd (Finset.mem_range.2 hn) h

/-- **C26.** The reference nodes are pairwise distinct. -/
theorem C26_nodes_distinct (k : GeoKind) (m n : Nat) (hm : m < k.nnode) (hn : n < k.nnode)
    (h : ∀ i < k.ndim, refCoordQ k m i = refCoordQ k n i) : m = n := by
  have e : (refCoord k m : Nat → ℚ) = refCoord k n := by
    funext i
    by_cases hi : i < k.ndim
    · unfold refCoord; rw [h i hi]
    · unfold refCoord; rw [refCoordQ_ge k m i (by omega), refCoordQ_ge k n i (by omega)]
  have h1 := kron (K := ℚ) k m m hm hm
  rw [e, kron k m n hm hn] at h1
  by_contra hne
  simp [hne] at h1

/-! ## C27 -/

/-- **C27.** The entry `(m, i)` computed by `calc_deriv` is the partial derivative, with respect to coordinate `i`, of the
function `m` computed by `calc_interp`. -/
theorem C27_derivatives (k : GeoKind) (ξ : Nat → ℝ) (m i : Nat) (hm : m < k.nnode) (hi : i < k.ndim) :
    HasDerivAt (fun v => calcInterp k (Function.update ξ i v) m) (calcDeriv k ξ m i) (ξ i) := by
  have h := chkDeriv_ok k
  simp only [chkDeriv, List.all_eq_true, List.mem_range, Bool.and_eq_true] at h
  obtain ⟨h1, h2⟩ := h m hm i hi
  have h3 := PE.hasDerivAt ((interp k).getD m 0) h1 i ξ
  rw [PE.eval_eq_of_same h2 ξ] at h3
  exact h3

/-! ## C28 -/

/-- **C28.** Interpolating the nodal values of an affine function reproduces it at every reference coordinate. -/
theorem C28_affine_reproduced (k : GeoKind) (a₀ : K) (a ξ : Nat → K) :
    interpolate k (fun m => a₀ + ∑ i ∈ Finset.range k.ndim, a i * refCoord k m i) ξ
      = a₀ + ∑ i ∈ Finset.range k.ndim, a i * ξ i := by
  unfold interpolate
  simp only [mul_add, Finset.sum_add_distrib, Finset.mul_sum]
  rw [← Finset.sum_mul, pou, one_mul, Finset.sum_comm]
  congr 1
  apply Finset.sum_congr rfl
  intro i hi
  rw [← linearCoord k ξ i (Finset.mem_range.1 hi), Finset.mul_sum]
  apply Finset.sum_congr rfl
  intros; ring

/-- **C28.** On an affinely mapped element `calc_coords` is the affine map. -/
theorem C28_calc_coords_affine (k : GeoKind) (X : Nat → Nat → K) (b : Nat → K) (M : Nat → Nat → K)
    (hX : ∀ m < k.nnode, ∀ i, X m i = b i + ∑ j ∈ Finset.range k.ndim, M i j * refCoord k m j) (ξ : Nat → K) (i : Nat) :
    calcCoords k X ξ i = b i + ∑ j ∈ Finset.range k.ndim, M i j * ξ j := by
  rw [← C28_affine_reproduced k (b i) (M i) ξ]
  unfold calcCoords interpolate
  apply Finset.sum_congr rfl
  intro m hm
  rw [hX m (Finset.mem_range.1 hm) i, mul_comm]

/-- **C28.** On any element `calc_coords` maps reference node `n` to node `n`. -/
theorem C28_calc_coords_nodes (k : GeoKind) (X : Nat → Nat → K) (n i : Nat) (hn : n < k.nnode) :
    calcCoords k X (refCoord k n) i = X n i := by
  rw [← C26_interpolation_at_nodes k (fun m => X m i) n hn]
  unfold calcCoords interpolate
  apply Finset.sum_congr rfl
  intros; ring

/-- **C28.** The Jacobian of an affinely mapped element is the matrix of the map: `Σ_m X_mi dN_m/dξ_j = M_ij`. -/
theorem C28_jacobian_affine (k : GeoKind) (X : Nat → Nat → K) (b : Nat → K) (M : Nat → Nat → K)
    (hX : ∀ m < k.nnode, ∀ i, X m i = b i + ∑ j ∈ Finset.range k.ndim, M i j * refCoord k m j) (ξ : Nat → K) (i j : Nat)
    (hj : j < k.ndim) : ∑ m ∈ Finset.range k.nnode, X m i * calcDeriv k ξ m j = M i j := by
  have : ∑ m ∈ Finset.range k.nnode, X m i * calcDeriv k ξ m j
      = ∑ m ∈ Finset.range k.nnode, (b i * calcDeriv k ξ m j
          + ∑ l ∈ Finset.range k.ndim, M i l * (refCoord k m l * calcDeriv k ξ m j)) := by
    apply Finset.sum_congr rfl
    intro m hm
    rw [hX m (Finset.mem_range.1 hm) i, add_mul, Finset.sum_mul]
    congr 1
    apply Finset.sum_congr rfl
    intros; ring
  rw [this, Finset.sum_add_distrib, ← Finset.mul_sum, derivSum k ξ j hj, mul_zero, zero_add, Finset.sum_comm]
  simp only [← Finset.mul_sum]
  rw [Finset.sum_eq_single j]
  · rw [linearDeriv k ξ j j hj hj]; simp
  · intro l hl hne; rw [linearDeriv k ξ l j (Finset.mem_range.1 hl) hj]; simp [hne]
  · intro h; exact absurd (Finset.mem_range.2 hj) h

/-! ## C29 -/

/-- **C29.** On the straight edge `e` of the reference shape, the functions of the edge nodes are the functions of the edge
kind (in the order of the table) and the other functions vanish. -/
theorem C29_edge_trace (k ek : GeoKind) (hk : k.edgeKind = some ek) (e : Nat) (he : e < k.nedge) (η : K) :
    (∀ j < ek.nnode, calcInterp k (edgePoint k e η) (edgeNode k e j) = calcInterp ek (vec1 η) j) ∧
    (∀ m < k.nnode, (∀ j < ek.nnode, edgeNode k e j ≠ m) → calcInterp k (edgePoint k e η) m = 0) := by
  have hnd : ∀ e < k.nedge, ∀ i < k.edgeNnode, ∀ j < k.edgeNnode, edgeNode k e i = edgeNode k e j → i = j := by
    cases k <;> decide +kernel
  have hn := (edgeKind_nnode k ek hk).1
  constructor
  · intro j hj
    rw [edgeTrace k ek hk e he _ (edgeNode_lt k e he j (hn ▸ hj)), Finset.sum_eq_single j]
    · simp
    · intro b hb hne
      rw [if_neg]
      intro h
      exact hne (hnd e he b (hn ▸ Finset.mem_range.1 hb) j (hn ▸ hj) h)
    · intro h; exact absurd (Finset.mem_range.2 hj) h
  · intro m hm h
    rw [edgeTrace k ek hk e he m hm]
    apply Finset.sum_eq_zero
    intro j hj
    rw [if_neg (h j (Finset.mem_range.1 hj))]

/-- **C29.** The same on the flat face `f` of a reference solid. -/
theorem C29_face_trace (k fk : GeoKind) (hk : k.faceKind = some fk) (f : Nat) (hf : f < k.nface) (η : Nat → K) :
    (∀ j < fk.nnode, calcInterp k (facePoint k f η) (faceNode k f j) = calcInterp fk η j) ∧
    (∀ m < k.nnode, (∀ j < fk.nnode, faceNode k f j ≠ m) → calcInterp k (facePoint k f η) m = 0) := by
  have hnd : ∀ f < k.nface, ∀ i < k.faceNnode, ∀ j < k.faceNnode, faceNode k f i = faceNode k f j → i = j := by
    cases k <;> decide +kernel
  have hn := faceKind_nnode k fk hk
  constructor
  · intro j hj
    rw [faceTrace k fk hk f hf _ (faceNode_lt k f hf j (hn ▸ hj)), Finset.sum_eq_single j]
    · simp
    · intro b hb hne
      rw [if_neg]
      intro h
      exact hne (hnd f hf b (hn ▸ Finset.mem_range.1 hb) j (hn ▸ hj) h)
    · intro h; exact absurd (Finset.mem_range.2 hj) h
  · intro m hm h
    rw [faceTrace k fk hk f hf m hm]
    apply Finset.sum_eq_zero
    intro j hj
    rw [if_neg (h j (Finset.mem_range.1 hj))]

/-- **C29.** Hence a field interpolated in the cell, restricted to an edge, is the field interpolated by the edge kind. -/
theorem C29_edge_interpolation (k ek : GeoKind) (hk : k.edgeKind = some ek) (e : Nat) (he : e < k.nedge) (u : Nat → K) (η : K) :
    interpolate k u (edgePoint k e η) = interpolate ek (fun j => u (edgeNode k e j)) (vec1 η) :=
  interpolate_edge k ek hk e he u η

theorem C29_face_interpolation (k fk : GeoKind) (hk : k.faceKind = some fk) (f : Nat) (hf : f < k.nface) (u η : Nat → K) :
    interpolate k u (facePoint k f η) = interpolate fk (fun j => u (faceNode k f j)) η :=
  interpolate_face k fk hk f hf u η

/-- **C29.** Conformity across an edge: two cells (of any kinds with the same edge kind) whose edges `e₁` and `e₂` carry the
same nodal values, traversed in opposite directions, interpolate the same field along the edge. -/
theorem C29_edge_conforming (k₁ k₂ ek : GeoKind) (h₁ : k₁.edgeKind = some ek) (h₂ : k₂.edgeKind = some ek) (e₁ e₂ : Nat)
    (he₁ : e₁ < k₁.nedge) (he₂ : e₂ < k₂.nedge) (u₁ u₂ : Nat → K)
    (h : ∀ m n, m < ek.nnode → n < ek.nnode → (refCoord ek n 0 : K) = - refCoord ek m 0 →
      u₂ (edgeNode k₂ e₂ n) = u₁ (edgeNode k₁ e₁ m)) (η : K) :
    interpolate k₂ u₂ (edgePoint k₂ e₂ (-η)) = interpolate k₁ u₁ (edgePoint k₁ e₁ η) := by
  rw [interpolate_edge k₁ ek h₁ e₁ he₁, interpolate_edge k₂ ek h₂ e₂ he₂]
  have hc := (edgeKind_nnode k₁ ek h₁).2
  have := interpolate_sym ek (fun ξ => vec1 (-ξ 0)) (by rw [hc]; simp [refSymmetries]) (fun j => u₁ (edgeNode k₁ e₁ j))
    (fun j => u₂ (edgeNode k₂ e₂ j)) (by
      intro m n hm hn hA
      apply h m n hm hn
      have h1 : 0 < ek.ndim := by revert hc; cases ek <;> simp [GeoKind.classOf, GeoKind.ndim]
      simpa [vec1] using hA 0 h1) (vec1 η)
  simpa [vec1] using this

/-- **C29.** The same when the two edges are traversed in the same direction. -/
theorem C29_edge_conforming_same (k₁ k₂ ek : GeoKind) (h₁ : k₁.edgeKind = some ek) (h₂ : k₂.edgeKind = some ek) (e₁ e₂ : Nat)
    (he₁ : e₁ < k₁.nedge) (he₂ : e₂ < k₂.nedge) (u₁ u₂ : Nat → K)
    (h : ∀ m < ek.nnode, u₂ (edgeNode k₂ e₂ m) = u₁ (edgeNode k₁ e₁ m)) (η : K) :
    interpolate k₂ u₂ (edgePoint k₂ e₂ η) = interpolate k₁ u₁ (edgePoint k₁ e₁ η) := by
  rw [interpolate_edge k₁ ek h₁ e₁ he₁, interpolate_edge k₂ ek h₂ e₂ he₂]
  unfold interpolate
  apply Finset.sum_congr rfl
  intro m hm
  dsimp only
  rw [h m (Finset.mem_range.1 hm)]

/-- **C29.** Conformity across a face: two solids whose faces carry the same nodal values, seen through coordinates related
by any symmetry `A` of the reference face (a rotation or a reflection), interpolate the same field on the face. -/
theorem C29_face_conforming (k₁ k₂ fk : GeoKind) (h₁ : k₁.faceKind = some fk) (h₂ : k₂.faceKind = some fk) (f₁ f₂ : Nat)
    (hf₁ : f₁ < k₁.nface) (hf₂ : f₂ < k₂.nface) (A : (Nat → K) → Nat → K) (hA : A ∈ refSymmetries fk.classOf) (u₁ u₂ : Nat → K)
    (h : ∀ m n, m < fk.nnode → n < fk.nnode → AtImage fk A m n → u₂ (faceNode k₂ f₂ n) = u₁ (faceNode k₁ f₁ m)) (η : Nat → K) :
    interpolate k₂ u₂ (facePoint k₂ f₂ (A η)) = interpolate k₁ u₁ (facePoint k₁ f₁ η) := by
  rw [interpolate_face k₁ fk h₁ f₁ hf₁, interpolate_face k₂ fk h₂ f₂ hf₂]
  exact interpolate_sym fk A hA _ _ h η

/-- Every node has its image, so that the hypothesis of the conformity theorems prescribes `u₂` at every node of the face. -/
theorem C29_symmetries_map_nodes (k : GeoKind) (A : (Nat → K) → Nat → K) (hA : A ∈ refSymmetries k.classOf) (m : Nat)
    (hm : m < k.nnode) : ∃ n < k.nnode, AtImage k A m n := exists_image k A hA m hm

/-! ## C30 -/

/-- **C30.** Table sizes agree with the counts; entries are local node numbers; no node is repeated in an edge or a face. -/
theorem C30_tables_well_formed (k : GeoKind) :
    (k.edgeNodeIds.length = k.nedge ∧ ∀ r ∈ k.edgeNodeIds, r.length = k.edgeNnode ∧ r.Nodup ∧ ∀ m ∈ r, m < k.nnode) ∧
    (k.edgeNodeIdsInward.length = k.nedge ∧ ∀ r ∈ k.edgeNodeIdsInward, r.length = k.edgeNnode ∧ r.Nodup ∧ ∀ m ∈ r, m < k.nnode) ∧
    (k.faceNodeIds.length = k.nface ∧ ∀ r ∈ k.faceNodeIds, r.length = k.faceNnode ∧ r.Nodup ∧ ∀ m ∈ r, m < k.nnode) ∧
    (k.faceEdgeNodeIds.length = k.nface ∧ ∀ f ∈ k.faceEdgeNodeIds, f.length = k.faceNedge ∧
      ∀ r ∈ f, r.length = k.edgeNnode ∧ r.Nodup ∧ ∀ m ∈ r, m < k.nnode) ∧
    (k.interiorNodes.length = k.nInteriorNodes ∧ k.interiorNodes.Nodup ∧ ∀ m ∈ k.interiorNodes, m < k.nnode) ∧
    (k.referenceCoords.length = k.nnode ∧ ∀ r ∈ k.referenceCoords, r.length = k.ndim) := by
  cases k <;> decide +kernel

/-- **C30.** The nodes listed for an edge lie on the straight edge, at the positions of the nodes of the edge kind. -/
theorem C30_edge_nodes_position (k ek : GeoKind) (hk : k.edgeKind = some ek) (e j i : Nat) (he : e < k.nedge) (hj : j < ek.nnode)
    (hi : i < k.ndim) : (edgePoint k e (refCoord ek j 0) i : K) = refCoord k (edgeNode k e j) i := by
  have : ∀ e < k.nedge, ∀ j < ek.nnode, ∀ i < k.ndim,
      (edgePoint k e (refCoord ek j 0) i : ℚ) = refCoord k (edgeNode k e j) i := by
    cases k <;> simp [GeoKind.edgeKind] at hk <;> subst hk <;> decide +kernel
  have this := this e he j hj i hi
  unfold edgePoint refCoord at *
  simp only [Rat.cast_id] at this
  exact_mod_cast congrArg (fun q : ℚ => (q : K)) this

/-- **C30.** In 2D the inward edges are the outward edges traversed backwards: the node at position `-η` of the outward edge is
the node at position `η` of the inward edge. -/
theorem C30_inward_is_reversed (k ek : GeoKind) (hk : k.edgeKind = some ek) (h2 : k.ndim = 2) (e m n : Nat) (he : e < k.nedge)
    (hm : m < ek.nnode) (hn : n < ek.nnode) (h : refCoordQ ek n 0 = - refCoordQ ek m 0) :
    edgeNodeInward k e n = edgeNode k e m := by
  have : ∀ e < k.nedge, ∀ m < ek.nnode, ∀ n < ek.nnode,
      refCoordQ ek n 0 = - refCoordQ ek m 0 → edgeNodeInward k e n = edgeNode k e m := by
    cases k <;> simp only [GeoKind.edgeKind, reduceCtorEq, Option.some.injEq] at hk <;> subst hk <;>
      first | exact absurd h2 (by decide) | decide +kernel
  exact this e he m hm n hn h

/-- **C30.** In 3D the two tables coincide. -/
theorem C30_inward_3d (k : GeoKind) (h3 : k.ndim = 3) : k.edgeNodeIdsInward = k.edgeNodeIds := by
  cases k <;> first | exact absurd h3 (by decide) | decide +kernel

/-- The centre of the reference shape. -/
def centroid (k : GeoKind) (i : Nat) : ℚ :=
  match k.classOf with
  | .tri => 1 / 3
  | .tet => 1 / 4
  | _ => if i < k.ndim then 0 else 0

/-- **C30.** In 2D the normal `(-t_y, t_x)` of an edge traversed from its first to its second node (tangent `t`) points outwards:
its product with the vector from the centre to the edge is positive. -/
theorem C30_edges_outward (k : GeoKind) (hk : k.ndim = 2) (e : Nat) (he : e < k.nedge) :
    let a := refCoordQ k (edgeNode k e 0)
    let b := refCoordQ k (edgeNode k e 1)
    0 < -(b 1 - a 1) * (a 0 - centroid k 0) + (b 0 - a 0) * (a 1 - centroid k 1) := by
  revert e
  cases k <;> first | exact absurd hk (by decide) | decide +kernel

/-- **C30.** In 3D the normal `(b - a) × (c - a)` of a face, given by its first three nodes, points outwards. -/
theorem C30_faces_outward (k : GeoKind) (f : Nat) (hf : f < k.nface) :
    let a := refCoordQ k (faceNode k f 0)
    let b := refCoordQ k (faceNode k f 1)
    let c := refCoordQ k (faceNode k f 2)
    0 < ((b 1 - a 1) * (c 2 - a 2) - (b 2 - a 2) * (c 1 - a 1)) * (a 0 - centroid k 0)
      + ((b 2 - a 2) * (c 0 - a 0) - (b 0 - a 0) * (c 2 - a 2)) * (a 1 - centroid k 1)
      + ((b 0 - a 0) * (c 1 - a 1) - (b 1 - a 1) * (c 0 - a 0)) * (a 2 - centroid k 2) := by
  revert f
  cases k <;> decide +kernel

/-- **C30.** The edges of a face are the edges of the face kind (inward order) on the nodes of the face, and every one of them
has the nodes of an edge of the cell. -/
theorem C30_face_edges (k fk : GeoKind) (hk : k.faceKind = some fk) (f g : Nat) (hf : f < k.nface) (hg : g < k.faceNedge) :
    fk.nedge = k.faceNedge ∧ fk.edgeKind = k.edgeKind ∧
    (∀ j < k.edgeNnode, faceEdgeNode k f g j = faceNode k f (edgeNodeInward fk g j)) ∧
    ∃ e < k.nedge, ((k.faceEdgeNodeIds.getD f []).getD g []).Perm (k.edgeNodeIds.getD e []) := by
  have : ∀ f < k.nface, ∀ g < k.faceNedge, fk.nedge = k.faceNedge ∧ fk.edgeKind = k.edgeKind ∧
      (∀ j < k.edgeNnode, faceEdgeNode k f g j = faceNode k f (edgeNodeInward fk g j)) ∧
      ∃ e < k.nedge, ((k.faceEdgeNodeIds.getD f []).getD g []).Perm (k.edgeNodeIds.getD e []) := by
    cases k <;> simp only [GeoKind.faceKind, reduceCtorEq, Option.some.injEq] at hk <;> subst hk <;> decide +kernel
  exact this f hf g hg

/-- Number of faces that have the nodes of edge `e` of the cell among their edges. -/
def facesOfEdge (k : GeoKind) (e : Nat) : List Nat :=
  (List.range k.nface).filter fun f => (k.faceEdgeNodeIds.getD f []).any fun r => decide (r.Perm (k.edgeNodeIds.getD e []))

/-- **C30.** Each edge of a solid belongs to exactly two faces. -/
theorem C30_edge_in_two_faces (k : GeoKind) (hk : k.ndim = 3) (e : Nat) (he : e < k.nedge) :
    (facesOfEdge k e).length = 2 := by
  revert e
  cases k <;> first | exact absurd hk (by decide) | decide +kernel

/-- **C30.** For the hexahedra these two faces are those of the edge-to-face table. -/
theorem C30_hex_edge_to_face (k : GeoKind) (hk : k.classOf = .hex) (e : Nat) (he : e < k.nedge) :
    (facesOfEdge k e).Perm (hexEdgeToFace.getD e []) := by
  revert e
  cases k <;> simp only [GeoKind.classOf, reduceCtorEq] at hk <;> decide +kernel

/-- **C30.** In 2D a node is interior exactly when no edge contains it. -/
theorem C30_interior_nodes (k : GeoKind) (hk : k.ndim = 2) (m : Nat) (hm : m < k.nnode) :
    m ∈ k.interiorNodes ↔ ∀ r ∈ k.edgeNodeIds, m ∉ r := by
  revert m
  cases k <;> first | exact absurd hk (by decide) | decide +kernel

/-! ## C44 -/

/-- **C44.** A name is the name of a kind exactly when it parses to it; so names round-trip and unknown names are rejected. -/
theorem C44_names (s : String) (k : GeoKind) : GeoKind.fromString s = some k ↔ s = k.toStr := by
  constructor
  · intro h
    unfold GeoKind.fromString at h
    split at h <;> simp only [reduceCtorEq, Option.some.injEq] at h <;> subst h <;> rfl
  · rintro rfl; cases k <;> decide +kernel

theorem C44_round_trip (k : GeoKind) : GeoKind.fromString k.toStr = some k := (C44_names _ k).2 rfl
theorem C44_unknown_rejected (s : String) (h : ∀ k : GeoKind, s ≠ k.toStr) : GeoKind.fromString s = none := by
  cases hs : GeoKind.fromString s with
  | none => rfl
  | some k => exact absurd ((C44_names s k).1 hs) (h k)
theorem C44_names_injective (k k' : GeoKind) (h : k.toStr = k'.toStr) : k = k' := by
  have := C44_round_trip k; rw [h, C44_round_trip] at this; simpa using this.symm

/-- **C44.** `VALUES` lists each kind once. -/
theorem C44_values (k : GeoKind) : k ∈ GeoKind.values ∧ GeoKind.values.Nodup := by
  refine ⟨by cases k <;> decide, by decide⟩

/-- **C44.** Class, dimension, edge kind and face kind are coherent. -/
theorem C44_coherent (k : GeoKind) :
    k.classOf.ndim = k.ndim ∧ (k.isLin = true ↔ k.classOf = .lin) ∧
    (k.isTriOrTet = true ↔ k.classOf = .tri ∨ k.classOf = .tet) ∧ (k.isQuaOrHex = true ↔ k.classOf = .qua ∨ k.classOf = .hex) ∧
    (k.edgeKind = none ↔ k.ndim = 1) ∧ (k.faceKind = none ↔ k.ndim ≤ 2) ∧
    (∀ ek, k.edgeKind = some ek → ek.classOf = .lin ∧ ek.nnode = k.edgeNnode) ∧
    (∀ fk, k.faceKind = some fk → fk.ndim = 2 ∧ fk.nnode = k.faceNnode ∧ fk.nedge = k.faceNedge ∧
      (fk.classOf = .tri ↔ k.classOf = .tet) ∧ (fk.classOf = .qua ↔ k.classOf = .hex)) ∧
    (∀ lk, k.lowerOrder = some lk → lk.classOf = k.classOf ∧ lk.nnode < k.nnode ∧
      ∀ m < lk.nnode, k.referenceCoords.getD m [] = lk.referenceCoords.getD m []) := by
  cases k <;> simp [GeoKind.edgeKind, GeoKind.faceKind, GeoKind.lowerOrder, GeoKind.classOf, GeoKind.ndim, GeoClass.ndim,
    GeoKind.isLin, GeoKind.isTriOrTet, GeoKind.isQuaOrHex, GeoKind.nnode, GeoKind.edgeNnode, GeoKind.faceNnode, GeoKind.nedge,
    GeoKind.faceNedge] <;> decide +kernel

/-- **C44.** All reference nodes are in the reference box `[ξ_min, ξ_min + Δξ]`. -/
theorem C44_reference_box (k : GeoKind) (m i : Nat) (hm : m < k.nnode) (hi : i < k.ndim) :
    k.ksiMinKsiDel.1 ≤ refCoordQ k m i ∧ refCoordQ k m i ≤ k.ksiMinKsiDel.1 + k.ksiMinKsiDel.2 := by
  have : ∀ m < k.nnode, ∀ i < k.ndim,
      k.ksiMinKsiDel.1 ≤ refCoordQ k m i ∧ refCoordQ k m i ≤ k.ksiMinKsiDel.1 + k.ksiMinKsiDel.2 := by
    cases k <;> decide +kernel
  exact this m hm i hi

/-! ## C45 -/

/-- **C45.** The triangulation is available exactly for triangles and quadrilaterals, the table sizes agree with the counts and
the entries are nodes of the shape or extra nodes. -/
theorem C45_tables_well_formed (k : GeoKind) :
    (0 < k.triangulateNtriangle ↔ k.ndim = 2) ∧ k.triangulateTriangles.length = k.triangulateNtriangle ∧
    (∀ r ∈ k.triangulateTriangles, r.length = 3 ∧ r.Nodup ∧ ∀ m ∈ r, m < k.nnode + k.triangulateExtraNnode) ∧
    k.triangulateExtraCoords.length = k.triangulateExtraNnode ∧ (∀ r ∈ k.triangulateExtraCoords, r.length = 2) := by
  cases k <;> decide +kernel

/-- **C45.** Every node of the shape and every extra node is used by a triangle. -/
theorem C45_all_nodes_used (k : GeoKind) (hk : k.ndim = 2) (m : Nat) (hm : m < k.nnode + k.triangulateExtraNnode) :
    ∃ r ∈ k.triangulateTriangles, m ∈ r := by
  revert m
  cases k <;> first | exact absurd hk (by decide) | decide +kernel

/-- **C45.** Each triangle is non-degenerate and counter-clockwise. -/
theorem C45_positive_areas (k : GeoKind) (t : Nat) (ht : t < k.triangulateNtriangle) :
    0 < area2 (triangleCorner k t 0) (triangleCorner k t 1) (triangleCorner k t 2) := by
  have h := chkTriangles_ok k
  simp only [chkTriangles, List.all_eq_true, List.mem_range, decide_eq_true_eq] at h
  exact h t ht

/-- **C45.** The areas add up to the area of the reference shape: 1/2 for a triangle and 4 for a quadrilateral (the sum is of
twice the areas). -/
theorem C45_total_area (k : GeoKind) :
    ((List.range k.triangulateNtriangle).map fun t =>
      area2 (triangleCorner k t 0) (triangleCorner k t 1) (triangleCorner k t 2)).sum
      = if k.classOf = .tri then 1 else if k.classOf = .qua then 8 else 0 := by
  cases k <;> decide +kernel

/-- **C45.** Every point of the reference shape is in a triangle. -/
theorem C45_triangles_cover (k : GeoKind) (hk : k.ndim = 2) (p : ℝ × ℝ) (hp : InReference k.classOf p) :
    ∃ t < k.triangulateNtriangle, InTriangle k t p := cover k ((C45_tables_well_formed k).1.2 hk) p hp

/-- **C45.** The corners are in the reference shape. -/
theorem C45_corners_inside (k : GeoKind) (t i : Nat) (ht : t < k.triangulateNtriangle) (hi : i < 3) :
    InReference k.classOf (triangleCorner k t i) := by
  have : ∀ t < k.triangulateNtriangle, ∀ i < 3, InReference k.classOf (triangleCorner k t i) := by
    cases k <;> unfold InReference <;> simp only [GeoKind.classOf] <;> decide +kernel
  exact this t ht i hi

/-- **C45.** No point is strictly inside two triangles. -/
theorem C45_no_overlap (k : GeoKind) (t u : Nat) (ht : t < k.triangulateNtriangle) (hu : u < k.triangulateNtriangle)
    (htu : t ≠ u) (p : ℝ × ℝ) : ¬ (StrictlyIn k t p ∧ StrictlyIn k u p) := Shapes.disjoint k t u ht hu htu p

/-! ## Concrete cases -/

example : calcInterp .qua8 (vec2 (1/2) (1/4) : Nat → ℚ) 0 = -21/128 := by decide +kernel
example : calcDeriv .qua8 (vec2 (1/2) (1/4) : Nat → ℚ) 0 1 = 1/8 ∧ calcDeriv .tri6 (vec2 (1/8) (1/4) : Nat → ℚ) 0 1 = -3/2 := by
  decide +kernel
example : GeoKind.edgeKind .hex32 = some .lin4 ∧ GeoKind.faceKind .hex32 = some .qua12 := by decide
example : (edgePoint .hex20 5 (1/2 : ℚ) 0, edgePoint .hex20 5 (1/2 : ℚ) 1, edgePoint .hex20 5 (1/2 : ℚ) 2) = (1, 1/2, 1) := by decide +kernel
/-- Two neighbours `tri6` / `qua8` sharing an edge: nodal values that match through the reversal. -/
example : ∀ m < 3, ∀ n < 3, (refCoord .lin3 n 0 : ℚ) = - refCoord .lin3 m 0 →
    ([7, 0, 0, 5, 0, 0, 0, 9] : List ℚ).getD (edgeNode .qua8 3 n) 0 = ([7, 5, 0, 9, 0, 0] : List ℚ).getD (edgeNode .tri6 0 m) 0 := by
  decide +kernel
example : InReference (K := ℝ) (GeoKind.classOf .qua17) (1/2, -1/3) := by
  unfold InReference; simp only [GeoKind.classOf]; norm_num

end Gemlab.Props.Shapes
