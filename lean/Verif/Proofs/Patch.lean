import Verif.Proofs.GridMesh
import Verif.Props.Block
import Verif.Props.Block4

/-! # A subdivision of a block is a structured mesh -/
namespace Gemlab.Structured
noncomputable section
open Gemlab.Mesh Gemlab.Shapes Gemlab.Block

variable {ndim nrow : Nat} {target : GeoKind} {n : Nat → Nat} {tick tick' : Nat → Nat → ℝ} {place place' : List ℝ → List ℝ}
  {marker : Nat → Nat → Nat → Int} {num : Nat → Nat → Nat → Nat} {S : Nat → Nat → Nat → Prop} {M : Mesh ℝ} {b : Block} {inv : MatInverse}
  {at_ : Nat → Nat → ℝ}

theorem tickPos_congr {i j k m : Nat} (h : ∀ a < ndim, tick a (pick i j k a) = tick' a (pick i j k a) ∧ tick a (pick i j k a + 1) = tick' a (pick i j k a + 1)) :
    tickPos ndim tick target i j k m = tickPos ndim tick' target i j k m := by
  unfold tickPos
  apply List.map_congr_left
  intro a ha
  obtain ⟨h1, h2⟩ := h a (List.mem_range.1 ha)
  rw [h1, h2]

theorem IsPatch.congr (h : IsPatch ndim target S tick place marker num M)
    (ht : ∀ i j k, S i j k → ∀ a < ndim, tick a (pick i j k a) = tick' a (pick i j k a) ∧ tick a (pick i j k a + 1) = tick' a (pick i j k a + 1))
    (hp : ∀ i j k m, S i j k → m < target.nnode → place (tickPos ndim tick' target i j k m) = place' (tickPos ndim tick' target i j k m)) :
    IsPatch ndim target S tick' place' marker num M := by
  have e : ∀ i j k m, S i j k → tickPos ndim tick target i j k m = tickPos ndim tick' target i j k m := fun i j k m hs => tickPos_congr (ht i j k hs)
  refine ⟨h.space, h.cell, h.inj, h.onto, ?_, ?_, h.points⟩
  · intro i j k m hs hm
    rw [← hp i j k m hs hm, ← e i j k m hs]
    exact h.coords i j k m hs hm
  · intro i j k m i' j' k' m' hs hs' hm hm'
    rw [← e i j k m hs, ← e i' j' k' m' hs']
    exact h.shared i j k m i' j' k' m' hs hs' hm hm'

theorem box_iff (i j k : Nat) : Box (ndivAt b) i j k ↔ InGrid b i j k := Iff.rfl

theorem tickPos_left (i j k m : Nat) :
    tickPos b.ndim (fun a i => (left b a i + 1) / 2) target i j k m = (nodePos b target i j k m).map fun x => (x + 1) / 2 := by
  unfold tickPos nodePos
  rw [List.map_map]
  apply List.map_congr_left
  intro a _
  simp only [Function.comp, left_succ]
  ring

theorem map_half_inj {l l' : List ℝ} : (l.map fun x => (x + 1) / 2) = (l'.map fun x => (x + 1) / 2) ↔ l = l' := by
  refine ⟨fun h => ?_, fun h => by rw [h]⟩
  refine List.map_injective_iff.2 ?_ h
  intro x y hxy
  simp only at hxy
  linarith

theorem distinctFrom_head (L : List (List ℝ)) (H : List (List ℝ)) : H <+: distinctFrom H L := by
  induction L generalizing H with
  | nil => exact List.prefix_rfl
  | cons x L ih =>
    have : distinctFrom H (x :: L) = distinctFrom (distinctFrom H [x]) L := by rw [← distinctFrom_append]; rfl
    rw [this]
    refine List.IsPrefix.trans ?_ (ih _)
    by_cases hx : x ∈ H
    · rw [distinctFrom_old hx]
    · rw [distinctFrom_new hx]; exact List.prefix_append _ _

theorem nodeList_head (h0 : InGrid b 0 0 0) (hn : 0 < target.nnode) : (nodeList b target (numCells b)).idxOf (nodePos b target 0 0 0 0) = 0 := by
  have hc : 0 < numCells b := Nat.mul_pos h0.1 (Nat.mul_pos h0.2.1 h0.2.2)
  obtain ⟨N, hN⟩ := Nat.exists_eq_succ_of_ne_zero hc.ne'
  obtain ⟨q, hq⟩ := Nat.exists_eq_succ_of_ne_zero hn.ne'
  have : ∃ L, (List.range (numCells b)).flatMap (cellPositions b target) = nodePos b target 0 0 0 0 :: L := by
    rw [hN, Nat.succ_eq_add_one, List.range_succ_eq_map, List.flatMap_cons]
    unfold cellPositions
    rw [hq, Nat.succ_eq_add_one, List.range_succ_eq_map, List.map_cons]
    rw [← List.head?_eq_some_iff]
    simp
  obtain ⟨L, hL⟩ := this
  unfold nodeList
  rw [hL]
  have e : distinctFrom [] (nodePos b target 0 0 0 0 :: L) = distinctFrom (distinctFrom [] [nodePos b target 0 0 0 0]) L := by
    rw [← distinctFrom_append]; rfl
  rw [e, distinctFrom_new (by simp)]
  obtain ⟨t, ht⟩ := distinctFrom_head L ([] ++ [nodePos b target 0 0 0 0])
  rw [← ht]
  simp

/-- The grid of a block. -/
theorem grid_of_block (hc : Ctx b target) (hone : ∀ a < b.ndim, 1 ≤ ndivAt b a) : Grid b.ndim target (ndivAt b) (fun a i => (left b a i + 1) / 2) where
  dims := hc.dims
  cls := hc.target
  pos := by
    intro a _
    by_cases h : a < b.ndim
    · exact hone a h
    · unfold ndivAt; rw [if_neg h]
  two := by intro h; unfold ndivAt; rw [if_neg (by omega)]
  incr := by
    intro a ha i hi
    have := (hc.dir a ha).fine i hi
    simp only [left_succ]
    norm_num at this
    linarith

theorem patch_of_subdivision (h : Block.Reached inv nrow ndim at_ b) (hf : NotTooFine b) (ht : TargetOk b target) (hM : IsSubdivision b target M)
    (hplace : ∀ i j k m, InGrid b i j k → m < target.nnode →
      coordsOf M (ptAt b M i j k m) = place ((nodePos b target i j k m).map fun x => (x + 1) / 2)) :
    IsPatch b.ndim target (Box (ndivAt b)) (fun a i => (left b a i + 1) / 2) place (fun _ _ _ => b.marker) (rowMajor (ndivAt b)) M where
  space := hM.ndim
  cell := fun i j k hs => hM.cells i j k hs
  inj := fun i j k i' j' k' hs hs' he => cellNum_inj hs hs' he
  onto := fun c hc => by
    rw [hM.ncell] at hc
    obtain ⟨i, j, k, h1, h2⟩ := cellNum_surj hc
    exact ⟨i, j, k, h1, h2⟩
  coords := fun i j k m hs hm => by
    rw [tickPos_left]
    exact ⟨(hM.node i j k m hs hm).1, hplace i j k m hs hm⟩
  shared := fun i j k m i' j' k' m' hs hs' hm hm' => by
    rw [tickPos_left, tickPos_left, map_half_inj]
    exact (C55_shared h hf ht hM hs hm hs' hm').1
  points := fun p pt hp => by
    obtain ⟨h1, h2, h3⟩ := hM.points p pt hp
    obtain ⟨i, j, k, m, g1, g2, g3⟩ := C55_used hM (List.getElem?_eq_some_iff.1 hp).1
    exact ⟨h1, h2, h3, i, j, k, m, g1, g2, g3⟩

theorem node_zero (k : GeoKind) (hk : IsQuaHex k) : 0 < k.nnode ∧ ∀ a < k.ndim, refCoordQ k 0 a = -1 := by
  cases k <;> first | exact absurd hk (by unfold IsQuaHex; decide) | decide +kernel

theorem tickPos_zero (hG : Grid ndim target n tick) : tickPos ndim tick target 0 0 0 0 = (List.range ndim).map fun a => tick a 0 := by
  unfold tickPos
  apply List.map_congr_left
  intro a ha
  have ha := List.mem_range.1 ha
  have : pick 0 0 0 a = 0 := by unfold pick; split <;> [rfl; split <;> rfl]
  rw [this]
  unfold refCoord
  rw [(node_zero target hG.qh).2 a (hG.ndim_eq ▸ ha)]
  simp

/-- The mesh of one block, also renumbered. -/
theorem finish_block (h : Block.Reached inv nrow ndim at_ b) (hf : NotTooFine b) (ht : TargetOk b target) (hM : IsSubdivision b target M)
    (hplace : ∀ i j k m, InGrid b i j k → m < target.nnode →
      coordsOf M (ptAt b M i j k m) = place ((nodePos b target i j k m).map fun x => (x + 1) / 2)) (renumber : Bool) :
    ∃ M', finish renumber M = .ok M' ∧
      IsPatch b.ndim target (Box (ndivAt b)) (fun a i => (left b a i + 1) / 2) place (fun _ _ _ => b.marker) (rowMajor (ndivAt b)) M' ∧
      M'.markedEdges = M.markedEdges ∧ M'.markedFaces = M.markedFaces := by
  have hP := patch_of_subdivision h hf ht hM hplace
  obtain ⟨hn, -, -, hpart⟩ := C41_partition h
  have hG := grid_of_block (h.ctx hf ht) (fun a ha => (hpart a (hn ▸ ha)).1)
  have h0 : InGrid b 0 0 0 := ⟨hG.pos 0 (by omega), hG.pos 1 (by omega), hG.pos 2 (by omega)⟩
  have hz := (node_zero target hG.qh).1
  refine finish_patch hP hG (m0 := 0) hz (tickPos_zero hG) ?_ renumber
  have := (hM.node 0 0 0 0 h0 hz).2
  rw [nodeList_head h0 hz] at this
  exact this

end
end Gemlab.Structured
