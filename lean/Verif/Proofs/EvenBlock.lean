import Verif.Proofs.Patch
import Verif.Props.Block4
import Verif.Props.Rings

/-! # Blocks with equal divisions and without constraints -/
namespace Gemlab.Structured
noncomputable section
open Classical
open Gemlab.Mesh Gemlab.Shapes Gemlab.Block Gemlab.Spec

variable {inv : MatInverse} {o : GenOrders} {nrow ndim : Nat} {at_ : Nat → Nat → ℝ} {b : Block} {target : GeoKind} {v : List Nat}

/-- The number of cells along the directions. -/
def divsOf (v : List Nat) (a : Nat) : Nat := v.getD a 1

theorem ndivAt_even (hv : b.ndiv = v) (hl : v.length = b.ndim) (a : Nat) : ndivAt b a = divsOf v a := by
  unfold ndivAt divsOf
  rw [hv]
  split
  · rw [List.getD_eq_getElem?_getD, List.getD_eq_getElem?_getD, List.getElem?_eq_getElem (by omega)]; rfl
  · rw [List.getD_eq_getElem?_getD, List.getElem?_eq_none (by omega)]; rfl

theorem del_even (hd : b.deltaKsi = v.map equalDivisions) {a i : Nat} (ha : a < v.length) (hi : i < divsOf v a) : del b a i = 2 / (divsOf v a : ℝ) := by
  unfold del at' equalDivisions at *
  unfold divsOf at *
  rw [hd]
  simp only [List.getD_eq_getElem?_getD, List.getElem?_map, List.getElem?_eq_getElem ha, Option.map_some, Option.getD_some] at hi ⊢
  rw [List.getElem?_replicate, if_pos hi]
  rfl

theorem left_even (hd : b.deltaKsi = v.map equalDivisions) {a i : Nat} (ha : a < v.length) (hi : i ≤ divsOf v a) (hp : 1 ≤ divsOf v a) :
    (left b a i + 1) / 2 = evenTicks (divsOf v a) i := by
  unfold left evenTicks
  rw [Finset.sum_congr rfl (fun l hl => del_even hd ha (lt_of_lt_of_le (Finset.mem_range.1 hl) hi)), Finset.sum_const, Finset.card_range, nsmul_eq_mul]
  have : (divsOf v a : ℝ) ≠ 0 := by positivity
  field_simp
  ring

theorem fine_even (hd : b.deltaKsi = v.map equalDivisions) (hv : b.ndiv = v) (hl : v.length = b.ndim) (hc : ∀ a < b.ndim, 1 ≤ divsOf v a ∧ CountOk (divsOf v a)) :
    NotTooFine b := by
  intro a ha i hi
  rw [ndivAt_even hv hl] at hi
  rw [del_even hd (by omega) hi]
  obtain ⟨h1, h2⟩ := hc a ha
  unfold CountOk at h2
  have h1' : (1 : ℝ) ≤ divsOf v a := by exact_mod_cast h1
  have h2' : (divsOf v a : ℝ) ≤ 2856 := by exact_mod_cast (by omega : divsOf v a ≤ 2856)
  rw [lt_div_iff₀ (by linarith)]
  norm_num
  linarith

/-- The mesh of a block with equal divisions and without constraints and markers. -/
theorem even_block (h : Block.Reached inv nrow ndim at_ b) (hv : b.ndiv = v) (hd : b.deltaKsi = v.map equalDivisions)
    (hc : ∀ a < ndim, 1 ≤ divsOf v a ∧ CountOk (divsOf v a)) (ht : target.classOf = if ndim = 2 then .qua else .hex) (ho : o.Valid) (idx : Nat)
    (hno : ∀ s, constraintOf b s = none) (hring : b.transformIntoRing = false) (hem : ∀ e, b.edgeMarkers.get e = none) (hfm : ∀ f, b.faceMarkers.get f = none) :
    ∃ M, cut o target idx b = .ok M ∧ IsPatch ndim target (Box (divsOf v)) (fun a => evenTicks (divsOf v a))
      (fun p => isoMap nrow ndim at_ (p.map fun x => 2 * x - 1)) (fun _ _ _ => b.marker) (rowMajor (divsOf v)) M ∧
      M.markedEdges = [] ∧ M.markedFaces = [] ∧ ptOf M 0 0 = 0 := by
  have hnd := (C41_partition h).1
  have hl : v.length = b.ndim := by rw [← hv, (C41_partition h).2.1, hnd]
  have hfine := fine_even hd hv hl (by rw [hnd]; exact hc)
  have htarget : TargetOk b target := by unfold TargetOk; rw [hnd]; exact ht
  obtain ⟨M, m1, m2, m3⟩ := C56_unconstrained h hfine htarget (ho.grid idx) (ho.constrained idx) hno
  have hmarked := C57_marked h hfine htarget (ho.grid idx) (ho.constrained idx) m1
  have hP := patch_of_subdivision h hfine htarget m2 (place := fun p => isoMap nrow ndim at_ (p.map fun x => 2 * x - 1)) (by
    intro i j k m hg hm
    rw [m3 i j k m hg hm, hring, if_neg (by simp), List.map_map]
    congr 1
    conv_lhs => rw [← List.map_id (nodePos b target i j k m)]
    apply List.map_congr_left
    intro x _
    simp only [Function.comp, id]
    ring)
  have e0 : ndivAt b = divsOf v := by funext a; exact ndivAt_even hv hl a
  rw [e0, hnd] at hP
  refine ⟨M, m1, hP.congr ?_ (fun _ _ _ _ _ _ => rfl), ?_, ?_, ?_⟩
  · intro i j k hb a ha
    have ha3 : a < 3 := by rcases h.wf.dims with hx | hx <;> omega
    have hlt := pick_lt hb ha3
    have hp := (hc a ha).1
    exact ⟨left_even hd (by omega) (by omega) hp, left_even hd (by omega) (by omega) hp⟩
  · rw [List.eq_nil_iff_forall_not_mem]
    rintro ⟨mk, p, q⟩ hmem
    obtain ⟨e, i, j, k, ε, he, -⟩ := (hmarked.edges mk p q).1 hmem
    rw [hem e] at he; cases he
  · rw [List.eq_nil_iff_forall_not_mem]
    rintro ⟨mk, key⟩ hmem
    obtain ⟨-, f, i, j, k, φ, hf, -⟩ := (hmarked.faces mk key).1 hmem
    rw [hfm f] at hf; cases hf
  · have hG := grid_of_block (h.ctx hfine htarget) (fun a ha => ((C41_partition h).2.2.2 a (hnd ▸ ha)).1)
    have h0 : InGrid b 0 0 0 := ⟨hG.pos 0 (by omega), hG.pos 1 (by omega), hG.pos 2 (by omega)⟩
    have hz := (node_zero target hG.qh).1
    have := (m2.node 0 0 0 0 h0 hz).2
    rw [nodeList_head h0 hz] at this
    have hn : cellNum b 0 0 0 = 0 := by simp [cellNum]
    unfold ptAt at this
    rw [hn] at this
    exact this

end
end Gemlab.Structured
