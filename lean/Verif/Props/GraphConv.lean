import Verif.Props.GraphUnd
import Verif.Props.Mesh

/-!
# C49, C06 (continued): when the iterations of `pseudo_peripheral` converge, so that renumbering succeeds
-/
namespace Gemlab.Props.GraphUnd
open Gemlab Gemlab.GraphUnd
open Gemlab.Spec

theorem ppLoop_converges {src : Source} (hw : src.WF) (hc : Connected src.Adj src.n) {D : Nat}
    (hD : ∀ a b d, a < src.n → b < src.n → IsDistance src.Adj a b d → d ≤ D) (n : Nat) :
    ∀ (g : Graph) (root maxD : Nat), IsGraphOf src true g → root < src.n → IsEccentricity src.Adj src.n root maxD →
      g.distance.length = src.n → (∀ u, u < src.n → ∃ d, g.distance[u]? = some d ∧ IsDistance src.Adj root u d) →
      D < maxD + n → ∃ g' r, ppLoop n g root maxD = .ok (g', r) := by
  induction n with
  | zero =>
    intro g root maxD _ hr hecc _ _ hlt
    obtain ⟨u, hu, hud⟩ := hecc.1
    have := hD root u maxD hr hu hud
    omega
  | succ n ih =>
    intro g root maxD hg hr hecc hlen hdist hlt
    have F := hg.facts hw
    have hdl : g.degree.length = src.n := by rw [F.deg]; simp [F.len]
    have hsym : ∀ x y, src.Adj x y → src.Adj y x := by
      intro x y; rw [← F.mem, ← F.mem]; exact F.sym.symm x y
    unfold ppLoop
    cases hnr : nextRoot g.distance g.degree maxD with
    | none => exact ⟨_, _, rfl⟩
    | some r =>
      simp only
      obtain ⟨hr1, m, hr2, hr3⟩ := nextRoot_some hnr
      have hrn : r < src.n := by rw [← hlen]; exact (List.getElem?_eq_some_iff.1 hr1).1
      obtain ⟨l, e, hl, he, hrun⟩ := calcDistance_eq F hrn
      obtain ⟨hecc', hd'⟩ := ecc_of_log F hc hrn hl
      rw [hrun]
      simp only
      generalize hDD : List.foldl (fun m d => if d > m then d else m) 0 ((List.range src.n).map (gDist l)) = D' at *
      have hg' : IsGraphOf src true { g with explored := e, queue := [], distance := (List.range src.n).map (gDist l) } := by
        obtain ⟨cc, g0, hb, e1, e2, e3, e4, _⟩ := hg
        exact ⟨cc, g0, hb, e1, e2, e3, e4, he⟩
      have hdr : IsDistance src.Adj root r maxD := by
        obtain ⟨d, hd1, hd2⟩ := hdist r hrn
        rw [hr1] at hd1; injection hd1 with hd1; subst hd1; exact hd2
      have hle : maxD ≤ D' := hecc'.2 root maxD hr (isDistance_symm hsym hdr)
      by_cases hDm : D' = maxD
      · rw [if_pos hDm]; exact ⟨_, _, rfl⟩
      · rw [if_neg hDm]
        exact ih { g with explored := e, queue := [], distance := (List.range src.n).map (gDist l) } r D' hg' hrn hecc'
          (by simp) (fun u hu => ⟨gDist l u, by simp [hu], hd' u hu⟩) (by omega)

/-- **C49 (convergence).** If the eccentricity of the start node differs by less than ten from the largest distance between two nodes,
then `pseudo_peripheral` succeeds. -/
theorem C49_converges (src : Source) (hw : src.WF) (hn : 0 < src.n) (hc : Connected src.Adj src.n) (g : Graph)
    (hg : IsGraphOf src true g) (start : Option Nat) (hstart : ∀ s, start = some s → s < src.n) (D k : Nat)
    (hD : ∀ a b d, a < src.n → b < src.n → IsDistance src.Adj a b d → d ≤ D)
    (hk : ∃ u d, u < src.n ∧ IsDistance src.Adj (start.getD g.pMinDegree) u d ∧ k ≤ d) (hDk : D < k + 10) :
    ∃ g' r, pseudoPeripheral g start = .ok (g', r) := by
  have F := hg.facts hw
  have hdl : g.degree.length = src.n := by rw [F.deg]; simp [F.len]
  have hroot : start.getD g.pMinDegree < src.n := by
    cases start with
    | some s => exact hstart s rfl
    | none => exact (C08_min_degree src hw hn g hg).1
  unfold pseudoPeripheral
  rw [if_neg (by simp [hdl, F.len])]
  simp only
  generalize start.getD g.pMinDegree = root at *
  obtain ⟨l, e, hl, he, hrun⟩ := calcDistance_eq F hroot
  obtain ⟨hecc', hd'⟩ := ecc_of_log F hc hroot hl
  rw [hrun]
  simp only
  generalize hDD : List.foldl (fun m d => if d > m then d else m) 0 ((List.range src.n).map (gDist l)) = D' at *
  have hg' : IsGraphOf src true { g with explored := e, queue := [], distance := (List.range src.n).map (gDist l) } := by
    obtain ⟨cc, g0, hb, e1, e2, e3, e4, _⟩ := hg
    exact ⟨cc, g0, hb, e1, e2, e3, e4, he⟩
  obtain ⟨u, d, hu, hud, hkd⟩ := hk
  have := hecc'.2 u d hu hud
  exact ppLoop_converges hw hc hD 10 { g with explored := e, queue := [], distance := (List.range src.n).map (gDist l) } root D'
    hg' hroot hecc' (by simp) (fun u hu => ⟨gDist l u, by simp [hu], hd' u hu⟩) (by omega)

end Gemlab.Props.GraphUnd

namespace Gemlab.Props.Mesh
open Gemlab Gemlab.Mesh Gemlab.Spec Gemlab.GraphUnd Gemlab.Props.GraphUnd

/-- **C06 (success).** If the points are connected through the cells, and for the first point with the smallest number of neighbours the
largest distance from it differs by less than ten from the largest distance between two points, then `renumber_mesh` succeeds: the mesh is
renumbered with a permutation. -/
theorem C06_renumber_succeeds {K : Type} (m : Mesh K) (hc : GoodCoords m) (hg : GoodCells m) (hn : 0 < m.points.length)
    (hconn : Connected (Source.mesh m.points.length (m.cells.map (·.points))).Adj m.points.length) (check : Bool) (D k : Nat)
    (hD : ∀ a b d, a < m.points.length → b < m.points.length →
      IsDistance (Source.mesh m.points.length (m.cells.map (·.points))).Adj a b d → d ≤ D)
    (hk : ∀ g, IsGraphOf (.mesh m.points.length (m.cells.map (·.points))) true g → ∃ u d, u < m.points.length ∧
      IsDistance (Source.mesh m.points.length (m.cells.map (·.points))).Adj g.pMinDegree u d ∧ k ≤ d) (hDk : D < k + 10) :
    ∃ map m', map.Perm (List.range m.points.length) ∧ renumberMesh m check = (m', .ok ()) ∧ renumberPoints m map = (m', .ok ()) := by
  rcases C06_renumber_mesh m hc hg hn hconn check with ⟨e, he⟩ | h
  · exfalso
    let src : Source := .mesh m.points.length (m.cells.map (·.points))
    have hw : src.WF := by
      intro c hcc p hp
      obtain ⟨c', hc', rfl⟩ := List.mem_map.1 hcc
      exact hg c' hc' p hp
    have hb : ∃ g, src.build true check = .ok g := by
      cases check with
      | false => exact GraphUnd.C01_without_check src hw true
      | true => exact ((GraphUnd.C01_connectivity_check_exact src hw hn true).1).1 hconn
    obtain ⟨g, hgb⟩ := hb
    have hG : IsGraphOf src true g := GraphUnd.isGraphOf_of_build hw hgb
    have hgb' : GraphUnd.fromMesh m.points.length (m.cells.map (·.points)) true check = .ok g := hgb
    obtain ⟨g1, r, hpp⟩ := C49_converges src hw hn hconn g hG none (by simp) D k hD (hk g hG) hDk
    obtain ⟨-, -, c3, c4⟩ := GraphUnd.C04_cuthill_mckee_permutation src hw hn hconn g hG none (by simp)
    have hcm : ∃ x, GraphUnd.cuthillMckee g none = .ok x := by
      obtain ⟨hg1, hr, -⟩ := (C49_pseudo_peripheral src hw hn hconn g hG none (by simp)).2 g1 r hpp
      obtain ⟨g2, o, h2⟩ := (GraphUnd.C04_cuthill_mckee_permutation src hw hn hconn g1 hg1 (some r) (by simpa using hr)).2.1 r rfl
      have F := hG.facts hw
      have F1 := hg1.facts hw
      unfold cuthillMckee at h2 ⊢
      rw [if_neg (by rw [F1.deg]; simp)] at h2
      rw [if_neg (by rw [F.deg]; simp), hpp]
      exact ⟨_, h2⟩
    obtain ⟨⟨g', ordering⟩, hcm⟩ := hcm
    obtain ⟨_, hperm⟩ := c4 g' ordering hcm
    have hlen : ordering.length = m.points.length := by have := hperm.length_eq; rwa [List.length_range] at this
    obtain ⟨map, hm, hmp, _⟩ := GraphUnd.C05_old_to_new_inverse ordering (by rw [hlen]; exact hperm)
    rw [hlen] at hmp
    unfold renumberMesh at he
    rw [hgb'] at he
    simp only [Res.bind_ok, hcm, hm] at he
    rcases renumberPoints_spec m hc hg map with ⟨_, m', h1, _⟩ | ⟨h, _⟩
    · rw [h1] at he; simp at he
    · exact absurd hmp h
  · exact h

end Gemlab.Props.Mesh
