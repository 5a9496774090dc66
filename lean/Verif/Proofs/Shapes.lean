import Verif.Proofs.ShapeSyms
import Verif.Proofs.ShapeChecks2
import Verif.Spec.RefShapes
import Mathlib.Algebra.BigOperators.Ring.Finset
import Mathlib.Tactic.LinearCombination
import Mathlib.Algebra.BigOperators.Group.Finset.Sigma
import Mathlib.Data.List.GetD

namespace Gemlab.Shapes
open Gemlab.Spec

variable {K : Type} [Field K] [CharZero K]

theorem list_range_sum (n : Nat) (f : Nat → K) : ((List.range n).map f).sum = ∑ m ∈ Finset.range n, f m := by
  induction n with
  | zero => simp
  | succ n ih => rw [List.range_succ, Finset.sum_range_succ, List.map_append, List.sum_append, ih]; simp

theorem eval_range_sum (ξ : Nat → K) (n : Nat) (f : Nat → PE) :
    PE.eval ξ (PE.sum ((List.range n).map f)) = ∑ m ∈ Finset.range n, PE.eval ξ (f m) := by
  rw [PE.eval_sum, List.map_map, ← list_range_sum]; rfl

theorem interp_length (k : GeoKind) : (interp k).length = k.nnode := by
  have := chkLen_ok k; simp only [chkLen, Bool.and_eq_true, beq_iff_eq] at this; exact this.1.1.1.1

theorem pou (k : GeoKind) (ξ : Nat → K) : ∑ m ∈ Finset.range k.nnode, calcInterp k ξ m = 1 := by
  have h := PE.eval_eq_of_same (chkPou_ok k) ξ
  rw [eval_range_sum] at h
  simpa [calcInterp] using h

theorem derivSum (k : GeoKind) (ξ : Nat → K) (i : Nat) (hi : i < k.ndim) :
    ∑ m ∈ Finset.range k.nnode, calcDeriv k ξ m i = 0 := by
  have h := chkDerivSum_ok k
  simp only [chkDerivSum, List.all_eq_true, List.mem_range] at h
  have h := PE.eval_eq_of_same (h i hi) ξ
  rw [eval_range_sum] at h
  simpa [calcDeriv] using h

theorem kron (k : GeoKind) (m n : Nat) (hm : m < k.nnode) (hn : n < k.nnode) :
    calcInterp k (refCoord k n : Nat → K) m = if m = n then 1 else 0 := by
  have h := chkKron_ok k
  simp only [chkKron, List.all_eq_true, List.mem_range, decide_eq_true_eq] at h
  have h := h m hm n hn
  unfold calcInterp
  have e : (refCoord k n : Nat → K) = fun i => ((refCoordQ k n i : ℚ) : K) := rfl
  rw [e, PE.eval_cast, h]
  split <;> simp

theorem linearCoord (k : GeoKind) (ξ : Nat → K) (i : Nat) (hi : i < k.ndim) :
    ∑ m ∈ Finset.range k.nnode, refCoord k m i * calcInterp k ξ m = ξ i := by
  have h := chkLinear_ok k
  simp only [chkLinear, List.all_eq_true, List.mem_range] at h
  have h := PE.eval_eq_of_same (h i hi) ξ
  rw [eval_range_sum] at h
  simpa [calcInterp, refCoord] using h

theorem linearDeriv (k : GeoKind) (ξ : Nat → K) (i j : Nat) (hi : i < k.ndim) (hj : j < k.ndim) :
    ∑ m ∈ Finset.range k.nnode, refCoord k m i * calcDeriv k ξ m j = if i = j then 1 else 0 := by
  have h := chkLinearDeriv_ok k
  simp only [chkLinearDeriv, List.all_eq_true, List.mem_range] at h
  have h := PE.eval_eq_of_same (h i hi j hj) ξ
  rw [eval_range_sum] at h
  have e : PE.eval ξ (if i = j then (1 : PE) else 0) = if i = j then 1 else 0 := by split <;> simp
  rw [e] at h
  rw [← h]
  apply Finset.sum_congr rfl
  intros; simp [calcDeriv, refCoord]

theorem eval_traceSum (sk : GeoKind) (nodes : List Nat) (m : Nat) (η : Nat → K) :
    PE.eval η (traceSum sk nodes m) =
      ∑ j ∈ Finset.range sk.nnode, if nodes.getD j 0 = m then calcInterp sk η j else 0 := by
  rw [traceSum, eval_range_sum]
  apply Finset.sum_congr rfl
  intro j _
  split <;> simp [calcInterp]

theorem edgeTrace (k ek : GeoKind) (hk : k.edgeKind = some ek) (e : Nat) (he : e < k.nedge) (m : Nat) (hm : m < k.nnode)
    (η : K) : calcInterp k (edgePoint k e η) m =
      ∑ j ∈ Finset.range ek.nnode, if edgeNode k e j = m then calcInterp ek (vec1 η) j else 0 := by
  have h := chkEdge_ok k
  simp only [chkEdge, hk, List.all_eq_true, List.mem_range] at h
  have h := PE.eval_eq_of_same (h e he m hm) (vec1 η)
  rw [PE.eval_subst, eval_traceSum] at h
  have e1 : (fun i => PE.eval (vec1 η) (segPE k (edgeNode k e 0) (edgeNode k e 1) i)) = edgePoint k e η := by
    funext i
    simp only [segPE, PE.eval_add, PE.eval_mul, PE.eval_c, PE.eval_x, edgePoint, refCoord, vec1]
    push_cast
    ring
  rw [e1] at h
  exact h

theorem quaFace_opposite (k : GeoKind) (f i : Nat) (h : k.classOf = .hex) (hf : f < k.nface) (hi : i < k.ndim) :
    refCoordQ k (faceNode k f 0) i + refCoordQ k (faceNode k f 2) i = refCoordQ k (faceNode k f 1) i + refCoordQ k (faceNode k f 3) i := by
  have : ∀ f < k.nface, ∀ i < k.ndim, refCoordQ k (faceNode k f 0) i + refCoordQ k (faceNode k f 2) i = refCoordQ k (faceNode k f 1) i + refCoordQ k (faceNode k f 3) i := by
    cases k <;> simp only [GeoKind.classOf, reduceCtorEq] at h <;> decide +kernel
  exact this f hf i hi

/-- Coordinates beyond `ndim` play no role. -/
theorem refCoordQ_ge (k : GeoKind) (m i : Nat) (hi : k.ndim ≤ i) : refCoordQ k m i = 0 := by
  have := chkLen_ok k
  simp only [chkLen, Bool.and_eq_true, List.all_eq_true, beq_iff_eq] at this
  have h2 := this.2
  unfold refCoordQ
  by_cases hm : m < k.referenceCoords.length
  · rw [List.getD_eq_getElem (hn := hm)]
    rw [List.getD_eq_default]
    rw [h2 _ (List.getElem_mem hm)]; exact hi
  · rw [List.getD_eq_default (n := m) (hn := by omega)]; simp

theorem faceKind_class (k fk : GeoKind) (h : k.faceKind = some fk) :
    (k.classOf = .tet ∧ fk.classOf = .tri) ∨ (k.classOf = .hex ∧ fk.classOf = .qua) := by
  cases k <;> simp [GeoKind.faceKind] at h <;> subst h <;> simp [GeoKind.classOf]

theorem faceTrace (k fk : GeoKind) (hk : k.faceKind = some fk) (f : Nat) (hf : f < k.nface) (m : Nat) (hm : m < k.nnode)
    (η : Nat → K) : calcInterp k (facePoint k f η) m =
      ∑ j ∈ Finset.range fk.nnode, if faceNode k f j = m then calcInterp fk η j else 0 := by
  have h := chkFace_ok k
  simp only [chkFace, hk, List.all_eq_true, List.mem_range] at h
  have h := PE.eval_eq_of_same (h f hf m hm) η
  rw [PE.eval_subst, eval_traceSum] at h
  rcases faceKind_class k fk hk with ⟨c1, c2⟩ | ⟨c1, c2⟩
  · rw [if_pos c2] at h
    have e1 : (fun i => PE.eval η (triPE k (faceNode k f 0) (faceNode k f 1) (faceNode k f 2) i)) = facePoint k f η := by
      funext i
      simp only [facePoint, c1, if_true, triPE, PE.eval_add, PE.eval_mul, PE.eval_c, PE.eval_x, triFacePoint, refCoord]
      push_cast
      ring
    rw [e1] at h
    exact h
  · rw [if_neg (by rw [c2]; simp)] at h
    have e1 : (fun i => PE.eval η (quaPE k (faceNode k f 0) (faceNode k f 1) (faceNode k f 3) i)) = facePoint k f η := by
      funext i
      have c3 : ¬ (GeoClass.hex = GeoClass.tet) := by simp
      simp only [facePoint, c1, c3, if_false, quaPE, PE.eval_add, PE.eval_mul, PE.eval_c, PE.eval_x, quaFacePoint, refCoord]
      have hq : (refCoordQ k (faceNode k f 0) i : K) + refCoordQ k (faceNode k f 2) i
          = refCoordQ k (faceNode k f 1) i + refCoordQ k (faceNode k f 3) i := by
        by_cases hi : i < k.ndim
        · exact_mod_cast quaFace_opposite k f i c1 hf hi
        · simp [refCoordQ_ge k _ i (by omega)]
      push_cast
      linear_combination (-(1 + η 0) * (1 + η 1) / 4) * hq
    rw [e1] at h
    exact h

theorem edgeNode_lt (k : GeoKind) : ∀ e < k.nedge, ∀ j < k.edgeNnode, edgeNode k e j < k.nnode := by
  cases k <;> decide +kernel
theorem faceNode_lt (k : GeoKind) : ∀ f < k.nface, ∀ j < k.faceNnode, faceNode k f j < k.nnode := by
  cases k <;> decide +kernel
theorem edgeKind_nnode (k ek : GeoKind) (h : k.edgeKind = some ek) : ek.nnode = k.edgeNnode ∧ ek.classOf = .lin := by
  cases k <;> simp [GeoKind.edgeKind] at h <;> subst h <;> simp [GeoKind.nnode, GeoKind.edgeNnode, GeoKind.classOf]
theorem faceKind_nnode (k fk : GeoKind) (h : k.faceKind = some fk) : fk.nnode = k.faceNnode := by
  cases k <;> simp [GeoKind.faceKind] at h <;> subst h <;> simp [GeoKind.nnode, GeoKind.faceNnode]

theorem sum_trace {n M : Nat} (node : Nat → Nat) (hnode : ∀ j < n, node j < M) (g u : Nat → K) :
    ∑ m ∈ Finset.range M, (∑ j ∈ Finset.range n, if node j = m then g j else 0) * u m
      = ∑ j ∈ Finset.range n, g j * u (node j) := by
  simp only [Finset.sum_mul]
  rw [Finset.sum_comm]
  apply Finset.sum_congr rfl
  intro j hj
  rw [Finset.sum_eq_single (node j)]
  · simp
  · intro b _ hb; simp [Ne.symm hb]
  · intro h; exact absurd (Finset.mem_range.2 (hnode j (Finset.mem_range.1 hj))) h

theorem interpolate_edge (k ek : GeoKind) (hk : k.edgeKind = some ek) (e : Nat) (he : e < k.nedge) (u : Nat → K) (η : K) :
    interpolate k u (edgePoint k e η) = interpolate ek (fun j => u (edgeNode k e j)) (vec1 η) := by
  unfold interpolate
  rw [← sum_trace (M := k.nnode) (edgeNode k e) (fun j hj => edgeNode_lt k e he j ((edgeKind_nnode k ek hk).1 ▸ hj))]
  apply Finset.sum_congr rfl
  intro m hm
  rw [edgeTrace k ek hk e he m (Finset.mem_range.1 hm)]

theorem interpolate_face (k fk : GeoKind) (hk : k.faceKind = some fk) (f : Nat) (hf : f < k.nface) (u : Nat → K) (η : Nat → K) :
    interpolate k u (facePoint k f η) = interpolate fk (fun j => u (faceNode k f j)) η := by
  unfold interpolate
  rw [← sum_trace (M := k.nnode) (faceNode k f) (fun j hj => faceNode_lt k f hf j (faceKind_nnode k fk hk ▸ hj))]
  apply Finset.sum_congr rfl
  intro m hm
  rw [faceTrace k fk hk f hf m (Finset.mem_range.1 hm)]

theorem refSymmetries_pe (c : GeoClass) (A : (Nat → K) → Nat → K) (hA : A ∈ refSymmetries c) :
    ∃ P ∈ symPE c, ∀ ξ, A ξ = fun i => PE.eval ξ (symMap P i) := by
  have e2 : ∀ (a b : PE) (ξ : Nat → K), vec2 (PE.eval ξ a) (PE.eval ξ b) = fun i => PE.eval ξ (symMap [a, b] i) := by
    intro a b ξ; funext i
    match i with
    | 0 => rfl
    | 1 => rfl
    | (n + 2) => simp [symMap, vec2]
  have e1 : ∀ (a : PE) (ξ : Nat → K), vec1 (PE.eval ξ a) = fun i => PE.eval ξ (symMap [a] i) := by
    intro a ξ; funext i
    match i with
    | 0 => rfl
    | (n + 1) => simp [symMap, vec1]
  cases c with
  | lin =>
    simp only [refSymmetries, List.mem_cons, List.not_mem_nil, or_false] at hA
    rcases hA with h | h <;> subst h
    · exact ⟨[PE.x 0], by simp [symPE], fun ξ => e1 (PE.x 0) ξ⟩
    · exact ⟨[-PE.x 0], by simp [symPE], fun ξ => e1 (-PE.x 0) ξ⟩
  | tri =>
    simp only [refSymmetries, List.mem_cons, List.not_mem_nil, or_false] at hA
    have et : ∀ ξ : Nat → K, PE.eval ξ (1 - PE.x 0 - PE.x 1) = 1 - ξ 0 - ξ 1 := by intro ξ; simp
    rcases hA with h | h | h | h | h | h <;> subst h
    · exact ⟨[PE.x 0, PE.x 1], by simp [symPE], fun ξ => e2 (PE.x 0) (PE.x 1) ξ⟩
    · exact ⟨[PE.x 1, PE.x 0], by simp [symPE], fun ξ => e2 (PE.x 1) (PE.x 0) ξ⟩
    · exact ⟨[PE.x 0, 1 - PE.x 0 - PE.x 1], by simp [symPE], fun ξ => by rw [← e2, et]; rfl⟩
    · exact ⟨[1 - PE.x 0 - PE.x 1, PE.x 0], by simp [symPE], fun ξ => by rw [← e2, et]; rfl⟩
    · exact ⟨[PE.x 1, 1 - PE.x 0 - PE.x 1], by simp [symPE], fun ξ => by rw [← e2, et]; rfl⟩
    · exact ⟨[1 - PE.x 0 - PE.x 1, PE.x 1], by simp [symPE], fun ξ => by rw [← e2, et]; rfl⟩
  | qua =>
    simp only [refSymmetries, List.mem_cons, List.not_mem_nil, or_false] at hA
    rcases hA with h | h | h | h | h | h | h | h <;> subst h
    · exact ⟨[PE.x 0, PE.x 1], by simp [symPE], fun ξ => e2 (PE.x 0) (PE.x 1) ξ⟩
    · exact ⟨[-PE.x 0, PE.x 1], by simp [symPE], fun ξ => e2 (-PE.x 0) (PE.x 1) ξ⟩
    · exact ⟨[PE.x 0, -PE.x 1], by simp [symPE], fun ξ => e2 (PE.x 0) (-PE.x 1) ξ⟩
    · exact ⟨[-PE.x 0, -PE.x 1], by simp [symPE], fun ξ => e2 (-PE.x 0) (-PE.x 1) ξ⟩
    · exact ⟨[PE.x 1, PE.x 0], by simp [symPE], fun ξ => e2 (PE.x 1) (PE.x 0) ξ⟩
    · exact ⟨[-PE.x 1, PE.x 0], by simp [symPE], fun ξ => e2 (-PE.x 1) (PE.x 0) ξ⟩
    · exact ⟨[PE.x 1, -PE.x 0], by simp [symPE], fun ξ => e2 (PE.x 1) (-PE.x 0) ξ⟩
    · exact ⟨[-PE.x 1, -PE.x 0], by simp [symPE], fun ξ => e2 (-PE.x 1) (-PE.x 0) ξ⟩
  | tet => simp [refSymmetries] at hA
  | hex => simp [refSymmetries] at hA

theorem atImage_iff (k : GeoKind) (A : (Nat → K) → Nat → K) (P : List PE) (hP : ∀ ξ, A ξ = fun i => PE.eval ξ (symMap P i))
    (m n : Nat) : AtImage k A m n ↔ ∀ i < k.ndim, refCoordQ k n i = PE.evalQ (refCoordQ k m) (symMap P i) := by
  unfold AtImage
  have e : (refCoord k m : Nat → K) = fun i => ((refCoordQ k m i : ℚ) : K) := rfl
  constructor
  · intro h i hi
    have := h i hi
    rw [hP, e] at this
    dsimp only at this
    rw [PE.eval_cast] at this
    unfold refCoord at this
    exact_mod_cast this
  · intro h i hi
    rw [hP, e]
    dsimp only
    rw [PE.eval_cast, ← h i hi]
    rfl

theorem interp_sym (k : GeoKind) (A : (Nat → K) → Nat → K) (hA : A ∈ refSymmetries k.classOf) (m n : Nat)
    (hm : m < k.nnode) (hn : n < k.nnode) (h : AtImage k A m n) (η : Nat → K) :
    calcInterp k (A η) n = calcInterp k η m := by
  obtain ⟨P, hP, hAP⟩ := refSymmetries_pe _ A hA
  have hc := chkSym_ok k
  simp only [chkSym, List.all_eq_true, List.mem_range] at hc
  have hc := hc P hP m hm n hn
  have hi := (atImage_iff k A P hAP m n).1 h
  simp only [decide_eq_true_eq] at hc
  rw [if_pos hi] at hc
  have := PE.eval_eq_of_same hc η
  rw [PE.eval_subst] at this
  unfold calcInterp
  rw [hAP]
  exact this

theorem exists_image (k : GeoKind) (A : (Nat → K) → Nat → K) (hA : A ∈ refSymmetries k.classOf) (m : Nat) (hm : m < k.nnode) :
    ∃ n < k.nnode, AtImage k A m n := by
  obtain ⟨P, hP, hAP⟩ := refSymmetries_pe _ A hA
  have hc := chkSymNodes_ok k
  simp only [chkSymNodes, List.all_eq_true, List.any_eq_true, List.mem_range, decide_eq_true_eq] at hc
  obtain ⟨n, hn, h⟩ := hc P hP m hm
  exact ⟨n, hn, (atImage_iff k A P hAP m n).2 h⟩

theorem image_inj (k : GeoKind) (A : (Nat → K) → Nat → K) (hA : A ∈ refSymmetries k.classOf) (m m' n : Nat)
    (hm : m < k.nnode) (hm' : m' < k.nnode) (hn : n < k.nnode) (h : AtImage k A m n) (h' : AtImage k A m' n) : m = m' := by
  have h1 := interp_sym k A hA m n hm hn h (refCoord k m)
  have h2 := interp_sym k A hA m' n hm' hn h' (refCoord k m)
  rw [h1, kron k m m hm hm, kron k m' m hm' hm] at h2
  by_contra hne
  simp [Ne.symm hne] at h2

theorem interpolate_sym (k : GeoKind) (A : (Nat → K) → Nat → K) (hA : A ∈ refSymmetries k.classOf) (u v : Nat → K)
    (huv : ∀ m n, m < k.nnode → n < k.nnode → AtImage k A m n → v n = u m) (η : Nat → K) :
    interpolate k v (A η) = interpolate k u η := by
  unfold interpolate
  symm
  classical
  let π : Nat → Nat := fun m => if hm : m < k.nnode then (exists_image k A hA m hm).choose else 0
  have hπ : ∀ m, m < k.nnode → π m < k.nnode ∧ AtImage k A m (π m) := by
    intro m hm
    simp only [π, dif_pos hm]
    exact (exists_image k A hA m hm).choose_spec
  have hinj : ∀ a ∈ Finset.range k.nnode, ∀ b ∈ Finset.range k.nnode, π a = π b → a = b := by
    intro a ha b hb hab
    rw [Finset.mem_range] at ha hb
    exact image_inj k A hA a b (π a) ha hb (hπ a ha).1 (hπ a ha).2 (hab ▸ (hπ b hb).2)
  apply Finset.sum_nbij π
  · intro m hm; exact Finset.mem_range.2 (hπ m (Finset.mem_range.1 hm)).1
  · intro a ha b hb; exact hinj a (by simpa using ha) b (by simpa using hb)
  · apply Finset.surjOn_of_injOn_of_card_le π
    · intro m hm; simpa using (hπ m (by simpa using hm)).1
    · intro a ha b hb; exact hinj a (by simpa using ha) b (by simpa using hb)
    · exact le_refl _
  · intro m hm
    have hm := Finset.mem_range.1 hm
    rw [interp_sym k A hA m (π m) hm (hπ m hm).1 (hπ m hm).2, huv m (π m) hm (hπ m hm).1 (hπ m hm).2]

end Gemlab.Shapes
