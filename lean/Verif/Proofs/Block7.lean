import Verif.Proofs.Block6
import Verif.Proofs.Features4

/-! # Blocks: a new cell, and the loops -/
namespace Gemlab.Block
noncomputable section
open Classical
open Gemlab.Mesh Gemlab.Shapes Gemlab.Spec

variable {nrow ndim : Nat} {at_ : Nat → Nat → ℝ} {b : Block} {target : GeoKind}
variable {i j k : Nat} {H : List (List ℝ)} {pts : List Nat}
variable {iterG : List (Nat × List ℝ) → List (Nat × List ℝ)} {iterC : List (Nat × Nat) → List (Nat × Nat)} {st : State}

theorem finalCoords_fix (hfix : hasConstraints b ∧ target.edgeNnode > 2) {n : Nat} (hn : (freeDirs target n).length ≤ 1) :
    finalCoords b target i j k n = edgeCoords b target i j k n := by
  unfold finalCoords
  rw [if_pos hfix, if_pos hn]

theorem fixInterior_spec (hc : Ctx b target) (hcell : CellAt b target i j k H pts) (hpl : pts.length = target.nnode)
    (hfix : hasConstraints b ∧ target.edgeNnode > 2) {m : Mesh ℝ} (hnd : m.ndim = b.ndim) (hf : Full m) (hlen : m.points.length = H.length)
    (hbry : ∀ n < target.nnode, (freeDirs target n).length ≤ 1 → coordsOf m (pts.getD n 0) = edgeCoords b target i j k n) :
    ∃ m', fixInterior b.ndim target pts m = .ok m' ∧ Like m m' ∧
      (∀ n < target.nnode, 1 < (freeDirs target n).length → coordsOf m' (pts.getD n 0) = finalCoords b target i j k n) ∧
      (∀ q, (∀ n < target.nnode, 1 < (freeDirs target n).length → q ≠ pts.getD n 0) → coordsOf m' q = coordsOf m q) := by
  obtain ⟨t1, t2, t3, t4⟩ := interior_nodes target hc.qh
  unfold fixInterior
  by_cases hint : target.nInteriorNodes > 0
  · rw [if_pos hint]
    cases hser : serendipity target with
    | none => exact absurd hser (t4 hint)
    | some ser =>
      dsimp only
      obtain ⟨s1, s2, s3⟩ := t3 ser hser
      obtain ⟨pad, hpad⟩ := padNew_ok (k := ser) hc.dims (by rw [s2]; rcases hc.dims with h | h <;> omega)
      obtain ⟨hk, hs⟩ := padNew_eq hpad
      rw [hpad, Res.bind_ok]
      have hlt : ∀ n < target.nnode, pts.getD n 0 < m.points.length := by
        intro n hn
        rw [hlen]
        exact (List.getElem?_eq_some_iff.1 (hcell.at_ n hn)).1
      have htake : ∀ n < ser.nnode, (pts.take ser.nnode).getD n 0 = pts.getD n 0 := by
        intro n hn
        rw [List.getD_eq_getElem?_getD, List.getD_eq_getElem?_getD, List.getElem?_take, if_pos hn]
      obtain ⟨pad', hset, hold⟩ := C53_set_pad m pad (pts.take ser.nnode) hf (hs.trans hnd.symm) (by rw [hnd]; rcases hc.dims with h | h <;> omega)
        (by rw [hk, List.length_take, hpl]; omega) (by
          intro p hp
          obtain ⟨n, hn⟩ := List.mem_iff_getElem?.1 hp
          have hn' := (List.getElem?_eq_some_iff.1 hn).1
          rw [List.length_take] at hn'
          have := htake n (by omega)
          rw [List.getD_eq_getElem?_getD, hn] at this
          dsimp only [Option.getD_some] at this
          rw [this]
          exact hlt n (by omega))
      rw [hset, Res.bind_ok]
      have hcalc : ∀ ξ, pad'.calcCoords b.ndim ξ = .ok (Shapes.calcCoords ser pad'.X ξ, pad'.calcInterp ξ) := by
        intro ξ
        have := Scratchpad.calcCoords_ok hold.ok ξ
        rw [hold.space, hold.kind, hk, hnd] at this
        exact this
      have hval : ∀ n < target.nnode, 1 < (freeDirs target n).length →
          (List.range b.ndim).map (Shapes.calcCoords ser pad'.X (refCoord target n)) = finalCoords b target i j k n := by
        intro n hn hfr
        unfold finalCoords
        rw [if_pos hfix, if_neg (by omega), hser]
        dsimp only
        apply List.map_congr_left
        intro c hcc
        rw [List.mem_range] at hcc
        unfold Shapes.calcCoords
        apply Finset.sum_congr rfl
        intro n' hn'
        rw [Finset.mem_range] at hn'
        have := hold.coords n' c (by rw [hk]; exact hn') (by rw [hnd]; exact hcc)
        rw [this, htake n' hn', hbry n' (by omega) (s3 n' hn')]
      obtain ⟨m', h1, h2, h3, h4⟩ := Res.foldlM_range (fun (m' : Mesh ℝ) idx => do
          let n := target.interiorNodes.getD idx 0
          let r ← pad'.calcCoords b.ndim (refCoord target n)
          setCoords m' (pts.getD n 0) r.1) target.nInteriorNodes m
        (fun N m' => Like m m' ∧ (∀ idx < N, coordsOf m' (pts.getD (target.interiorNodes.getD idx 0) 0) = finalCoords b target i j k (target.interiorNodes.getD idx 0)) ∧
          (∀ q, (∀ n < target.nnode, 1 < (freeDirs target n).length → q ≠ pts.getD n 0) → coordsOf m' q = coordsOf m q))
        ⟨Like.refl m, by omega, fun _ _ => rfl⟩ (by
          intro idx m' hidx ⟨q1, q2, q3⟩
          dsimp only
          rw [hcalc, Res.bind_ok]
          dsimp only
          have hn := t2 idx hidx
          have hfr := (t1 _ hn).2 ⟨idx, hidx, rfl⟩
          obtain ⟨m2, u1, u2, u3⟩ := setCoords_spec (m := m') (p := pts.getD (target.interiorNodes.getD idx 0) 0)
            (Shapes.calcCoords ser pad'.X (refCoord target (target.interiorNodes.getD idx 0))) (by rw [q1.len]; exact hlt _ hn)
          refine ⟨m2, u1, q1.trans u2, ?_, ?_⟩
          · intro idx' hidx'
            rw [u3]
            by_cases heq : pts.getD (target.interiorNodes.getD idx' 0) 0 = pts.getD (target.interiorNodes.getD idx 0) 0
            · rw [if_pos heq]
              have := hcell.inj hc (t2 idx' (by omega)) hn heq
              rw [this, q1.ndim, hnd]
              exact hval _ hn hfr
            · rw [if_neg heq]
              apply q2
              by_contra hlt'
              have : idx' = idx := by omega
              rw [this] at heq
              exact heq rfl
          · intro q hq
            rw [u3, if_neg (hq _ hn hfr)]
            exact q3 q hq)
      refine ⟨m', h1, h2, ?_, h4⟩
      intro n hn hfr
      obtain ⟨idx, hidx, rfl⟩ := (t1 n hn).1 hfr
      exact h3 idx hidx
  · rw [if_neg hint]
    refine ⟨m, rfl, Like.refl m, ?_, fun _ _ => rfl⟩
    intro n hn hfr
    obtain ⟨idx, hidx, -⟩ := (t1 n hn).1 hfr
    omega

/-- The coordinates after the last step of a new cell. -/
theorem fix_spec (hw : WF nrow ndim at_ b) (hc : Ctx b target) (hIC : IterOrder iterC) {ek : GeoKind} (hek : target.edgeKind = some ek)
    {H H' : List (List ℝ)} {st st' : State} (hg : InGrid b i j k)
    (hB : Base b target H st) (hcoord : ∀ (p : Nat) ξ, H[p]? = some ξ → coordsOf st.mesh p = coordsAt b target ξ)
    (hP : CellPts b target i j k H H' st st' pts) :
    ∃ m', (if hasConstraints b ∧ target.edgeNnode > 2 then do
        let m ← fixEdges iterC b.ndim target ek pts st'.constrained st'.mesh
        fixInterior b.ndim target pts m
      else Res.ok st'.mesh) = .ok m' ∧ Like st'.mesh m' ∧ ∀ (p : Nat) ξ, H'[p]? = some ξ → coordsOf m' p = coordsAt b target ξ := by
  have hcell : CellAt b target i j k H' pts := ⟨hg, hP.at_⟩
  obtain ⟨ex, hmesh⟩ := hP.mesh
  -- the coordinates before the last step
  have hbefore : ∀ (p : Nat) ξ, H'[p]? = some ξ → (p < H.length ∧ coordsOf st'.mesh p = coordsAt b target ξ) ∨ (p ∈ pts ∧ coordsOf st'.mesh p = mapped b ξ) := by
    intro p ξ hp
    by_cases hlt : p < H.length
    · left
      refine ⟨hlt, ?_⟩
      obtain ⟨t, ht⟩ := hP.pre
      rw [← ht, List.getElem?_append_left hlt] at hp
      rw [coordsOf_append_left (m := st.mesh) (ex := ex) (by rw [hmesh]) (by rw [hB.len]; exact hlt)]
      exact hcoord p ξ hp
    · right
      exact hP.fresh p ξ (by omega) hp
  by_cases hfix : hasConstraints b ∧ target.edgeNnode > 2
  · rw [if_pos hfix]
    have hcorner : ∀ n < target.nnode, freeDirs target n = [] → coordsOf st'.mesh (pts.getD n 0) = mapped b (nodePos b target i j k n) := by
      intro n hn hf
      rcases hbefore _ _ (hP.at_ n hn) with ⟨-, h⟩ | ⟨-, h⟩
      · rw [h, coordsAt_nodePos hc hg hn, finalCoords_fix hfix (by rw [hf]; simp)]
        unfold edgeCoords
        rw [hf]
      · exact h
    obtain ⟨m1, f1, f2, f3⟩ := fixEdges_spec hw hc hIC hek hcell hP.base hfix.2 hcorner
    rw [f1, Res.bind_ok]
    have hbry : ∀ n < target.nnode, (freeDirs target n).length ≤ 1 → coordsOf m1 (pts.getD n 0) = edgeCoords b target i j k n := by
      intro n hn hfr
      by_cases hset : ∃ e < target.nedge, ∃ idx < target.edgeNnode, 2 ≤ idx ∧ n = edgeNode target e idx ∧ EdgePulled b target i j k e
      · obtain ⟨e, he, idx, hidx, h2, rfl, hpul⟩ := hset
        exact f3 e he hpul idx hidx h2
      · rcases f2.2 (pts.getD n 0) with h | ⟨n', hn', hf', hq, h⟩
        · rw [h]
          have hmap : edgeCoords b target i j k n = mapped b (nodePos b target i j k n) := by
            have hl : (freeDirs target n).length = 0 ∨ (freeDirs target n).length = 1 := by omega
            rcases hl with hl | hl
            · rw [List.length_eq_zero_iff] at hl
              unfold edgeCoords
              rw [hl]
            · obtain ⟨e, he, idx, hidx, h2, rfl⟩ := edge_of_mid target hc.qh n hn hl
              rw [edgeCoords_mid hc hek he hidx h2, if_neg]
              exact fun hpul => hset ⟨e, he, idx, hidx, h2, rfl, hpul⟩
          rcases hbefore _ _ (hP.at_ n hn) with ⟨-, h'⟩ | ⟨-, h'⟩
          · rw [h', coordsAt_nodePos hc hg hn, finalCoords_fix hfix hfr]
          · rw [h', hmap]
        · have := hcell.inj hc hn hn' hq
          subst this
          exact h
    have hnd1 : m1.ndim = b.ndim := f2.1.ndim.trans hP.base.ndim
    obtain ⟨m2, g1, g2, g3, g4⟩ := fixInterior_spec hc hcell hP.len hfix hnd1 (f2.1.full hP.base.full) (f2.1.len.trans hP.base.len) hbry
    refine ⟨m2, g1, f2.1.trans g2, ?_⟩
    intro p ξ hp
    by_cases hin : ∃ n < target.nnode, p = pts.getD n 0
    · obtain ⟨n, hn, rfl⟩ := hin
      have hξ : ξ = nodePos b target i j k n := by
        have := hP.at_ n hn
        rw [hp] at this
        exact Option.some.inj this
      rw [hξ, coordsAt_nodePos hc hg hn]
      by_cases hfr : 1 < (freeDirs target n).length
      · exact g3 n hn hfr
      · rw [g4 _ (fun n' hn' hfr' heq => by
          have := hcell.inj hc hn hn' heq
          subst this
          exact hfr hfr'), hbry n hn (by omega), finalCoords_fix hfix (by omega)]
    · rw [g4 p (fun n hn _ heq => hin ⟨n, hn, heq⟩)]
      rcases f2.2 p with h | ⟨n, hn, -, hq, -⟩
      · rw [h]
        rcases hbefore p ξ hp with ⟨-, h'⟩ | ⟨h', -⟩
        · exact h'
        · exfalso
          obtain ⟨n, hn⟩ := List.mem_iff_getElem?.1 h'
          have hn' := (List.getElem?_eq_some_iff.1 hn).1
          rw [hP.len] at hn'
          apply hin
          refine ⟨n, hn', ?_⟩
          rw [List.getD_eq_getElem?_getD, hn]
          rfl
      · exact absurd ⟨n, hn, hq⟩ hin
  · rw [if_neg hfix]
    refine ⟨st'.mesh, rfl, Like.refl _, ?_⟩
    intro p ξ hp
    rcases hbefore p ξ hp with ⟨-, h⟩ | ⟨-, h⟩
    · exact h
    · rw [h]
      obtain ⟨i', j', k', m', hg', hm', rfl⟩ := hP.base.nodes ξ (List.mem_of_getElem? hp)
      rw [coordsAt_nodePos hc hg' hm']
      unfold finalCoords
      rw [if_neg hfix]

/-! ## Numbering of the cells -/

theorem split_num {n a a' q q' : Nat} (h : a < n) (h' : a' < n) (he : a + n * q = a' + n * q') : a = a' ∧ q = q' := by
  have h1 : (a + n * q) / n = q := by rw [Nat.add_mul_div_left _ _ (by omega), Nat.div_eq_of_lt h, zero_add]
  have h2 : (a' + n * q') / n = q' := by rw [Nat.add_mul_div_left _ _ (by omega), Nat.div_eq_of_lt h', zero_add]
  have hq : q = q' := by rw [← h1, ← h2, he]
  subst hq
  exact ⟨by omega, rfl⟩

theorem cellNum_inj {i j k i' j' k' : Nat} (h : InGrid b i j k) (h' : InGrid b i' j' k') (he : cellNum b i j k = cellNum b i' j' k') :
    i = i' ∧ j = j' ∧ k = k' := by
  obtain ⟨e1, e2⟩ := split_num h.1 h'.1 he
  obtain ⟨e3, e4⟩ := split_num h.2.1 h'.2.1 e2
  exact ⟨e1, e3, e4⟩

theorem cellNum_lt {i j k : Nat} (h : InGrid b i j k) : cellNum b i j k < ndivAt b 0 * (ndivAt b 1 * ndivAt b 2) := by
  obtain ⟨h0, h1, h2⟩ := h
  unfold cellNum
  have e1 : j + ndivAt b 1 * k < ndivAt b 1 * ndivAt b 2 := by
    calc j + ndivAt b 1 * k < ndivAt b 1 * 1 + ndivAt b 1 * k := by omega
      _ = ndivAt b 1 * (1 + k) := by ring
      _ ≤ ndivAt b 1 * ndivAt b 2 := Nat.mul_le_mul_left _ (by omega)
  calc i + ndivAt b 0 * (j + ndivAt b 1 * k) < ndivAt b 0 * 1 + ndivAt b 0 * (j + ndivAt b 1 * k) := by omega
    _ = ndivAt b 0 * (1 + (j + ndivAt b 1 * k)) := by ring
    _ ≤ ndivAt b 0 * (ndivAt b 1 * ndivAt b 2) := Nat.mul_le_mul_left _ (by omega)

theorem cellNum_surj {n : Nat} (h : n < ndivAt b 0 * (ndivAt b 1 * ndivAt b 2)) : ∃ i j k, InGrid b i j k ∧ cellNum b i j k = n := by
  have p0 : 0 < ndivAt b 0 := Nat.pos_of_ne_zero (by rintro h0; rw [h0] at h; simp at h)
  have p1 : 0 < ndivAt b 1 := Nat.pos_of_ne_zero (by rintro h0; rw [h0] at h; simp at h)
  refine ⟨n % ndivAt b 0, n / ndivAt b 0 % ndivAt b 1, n / ndivAt b 0 / ndivAt b 1, ⟨Nat.mod_lt _ p0, Nat.mod_lt _ p1, ?_⟩, ?_⟩
  · apply Nat.div_lt_of_lt_mul
    apply Nat.div_lt_of_lt_mul
    exact h
  · unfold cellNum
    rw [Nat.mod_add_div, Nat.mod_add_div]

/-! ## The invariant of the loops -/

/-- Points of cell `n`. -/
def ptsOf (m : Mesh ℝ) (n : Nat) : List Nat := ((m.cells[n]?).map (·.points)).getD []

/-- The marked edges (faces) of the first `N` cells. -/
def edgesUpTo (b : Block) (target : GeoKind) (m : Mesh ℝ) (N : Nat) : List (Int × Nat × Nat) :=
  (List.range N).flatMap fun n => cellMarkedEdges b target (ndivAt b 0) (ndivAt b 1) (ndivAt b 2) (n % ndivAt b 0) (n / ndivAt b 0 % ndivAt b 1)
    (n / ndivAt b 0 / ndivAt b 1) (ptsOf m n)

def facesUpTo (b : Block) (target : GeoKind) (m : Mesh ℝ) (N : Nat) : List (Int × Nat × Nat × Nat × Nat) :=
  (List.range N).flatMap fun n => cellMarkedFaces b target (ndivAt b 0) (ndivAt b 1) (ndivAt b 2) (n % ndivAt b 0) (n / ndivAt b 0 % ndivAt b 1)
    (n / ndivAt b 0 / ndivAt b 1) (ptsOf m n)

structure Inv (b : Block) (target : GeoKind) (H : List (List ℝ)) (N : Nat) (st : State) : Prop where
  base : Base b target H st
  coord : ∀ (p : Nat) ξ, H[p]? = some ξ → coordsOf st.mesh p = coordsAt b target ξ
  ncell : st.mesh.cells.length = N
  cells : ∀ i j k, InGrid b i j k → cellNum b i j k < N → ∃ pts, st.mesh.cells[cellNum b i j k]? = some ⟨cellNum b i j k, b.marker, target, pts⟩ ∧
    pts.length = target.nnode ∧ ∀ m < target.nnode, H[pts.getD m 0]? = some (nodePos b target i j k m)
  used : ∀ p < H.length, ∃ c ∈ st.mesh.cells, p ∈ c.points
  edges : st.mesh.markedEdges = edgesUpTo b target st.mesh N
  faces : st.mesh.markedFaces = facesUpTo b target st.mesh N
  hist : H = nodeList b target N

theorem ijk_of_num {i j k : Nat} (h : InGrid b i j k) : cellNum b i j k % ndivAt b 0 = i ∧ cellNum b i j k / ndivAt b 0 % ndivAt b 1 = j ∧
    cellNum b i j k / ndivAt b 0 / ndivAt b 1 = k := by
  obtain ⟨h0, h1, h2⟩ := h
  unfold cellNum
  have e1 : (i + ndivAt b 0 * (j + ndivAt b 1 * k)) / ndivAt b 0 = j + ndivAt b 1 * k := by
    rw [Nat.add_mul_div_left _ _ (by omega), Nat.div_eq_of_lt h0, zero_add]
  rw [e1]
  refine ⟨?_, ?_, ?_⟩
  · rw [Nat.add_mul_mod_self_left, Nat.mod_eq_of_lt h0]
  · rw [Nat.add_mul_mod_self_left, Nat.mod_eq_of_lt h1]
  · rw [Nat.add_mul_div_left _ _ (by omega), Nat.div_eq_of_lt h1, zero_add]

theorem upTo_succ {α : Type} (f : Nat → List Nat → List α) (m m' : Mesh ℝ) (N : Nat) (hlen : m.cells.length = N) (c : Cell)
    (hcells : m'.cells = m.cells ++ [c]) :
    ((List.range (N + 1)).flatMap fun n => f n (ptsOf m' n)) = ((List.range N).flatMap fun n => f n (ptsOf m n)) ++ f N c.points := by
  rw [List.range_succ, List.flatMap_append]
  congr 1
  · apply List.flatMap_congr
    intro n hn
    rw [List.mem_range] at hn
    unfold ptsOf
    rw [hcells, List.getElem?_append_left (by omega)]
  · rw [List.flatMap_singleton]
    unfold ptsOf
    rw [hcells, ← hlen, List.getElem?_concat_length]
    rfl

theorem addCell_spec (hw : WF nrow ndim at_ b) (hc : Ctx b target) (hI : IterOrder iterG) (hIC : IterOrder iterC) {ek : GeoKind} (hek : target.edgeKind = some ek)
    (hg : InGrid b i j k) {center : Nat → ℝ} (hcen : ∀ a < 3, center a = left b a (pick i j k a) + del b a (pick i j k a) / 2)
    (hinv : ∃ H, Inv b target H (cellNum b i j k) st) :
    Res.Or (BadNode b target) (fun s => ∃ H, Inv b target H (cellNum b i j k + 1) s)
      (addCell iterG iterC b target ek (ndivAt b 0) (ndivAt b 1) (ndivAt b 2) i j k center st) := by
  obtain ⟨H, hinv⟩ := hinv
  unfold addCell
  refine (cellNodes_spec hw hc hI hinv.base hg (center := center) ?_).bind ?_
  · intro a ha
    have ha3 : a < 3 := by rcases hc.dims with h | h <;> omega
    refine ⟨hcen a ha3, ?_⟩
    have : a = 0 ∨ a = 1 ∨ a = 2 := by omega
    rcases this with rfl | rfl | rfl <;> rfl
  · rintro ⟨pts, st'⟩ ⟨H', hP⟩
    dsimp only at hP ⊢
    obtain ⟨m', h1, h2, h3⟩ := fix_spec hw hc hIC hek hg hinv.base hinv.coord hP
    rw [h1, Res.bind_ok]
    obtain ⟨ex, hmesh⟩ := hP.mesh
    have hcl : m'.cells = st.mesh.cells := by rw [h2.cells, hmesh]
    have hme : m'.markedEdges = st.mesh.markedEdges := by rw [h2.edges, hmesh]
    have hmf : m'.markedFaces = st.mesh.markedFaces := by rw [h2.faces, hmesh]
    obtain ⟨n1, n2, n3⟩ := ijk_of_num hg
    refine .ok ⟨H', ?_, ?_, ?_, ?_, ?_, ?_, ?_, ?_⟩
    on_goal 8 =>
      rw [hP.hist, hinv.hist]
      unfold nodeList
      rw [List.range_succ, List.flatMap_append, distinctFrom_append, List.flatMap_singleton]
      unfold cellPositions
      rw [n1, n2, n3]
    · have := hP.base.of_like h2
      exact ⟨this.grid, this.nodup, this.nodes, this.len, this.ids, this.good, this.cwf, this.constr, this.ndim⟩
    · exact h3
    · dsimp only
      rw [List.length_append, hcl, hinv.ncell]; rfl
    · intro i' j' k' hg' hlt
      dsimp only
      by_cases heq : cellNum b i' j' k' = cellNum b i j k
      · obtain ⟨rfl, rfl, rfl⟩ := cellNum_inj hg' hg heq
        refine ⟨pts, ?_, hP.len, hP.at_⟩
        have hn := hinv.ncell
        rw [hcl, ← hn, List.getElem?_concat_length]
      · obtain ⟨pts', c1, c2, c3⟩ := hinv.cells i' j' k' hg' (by omega)
        refine ⟨pts', ?_, c2, ?_⟩
        · rw [hcl, List.getElem?_append_left (by rw [hinv.ncell]; omega)]
          exact c1
        · intro m hm
          obtain ⟨t, ht⟩ := hP.pre
          have := c3 m hm
          rw [← ht, List.getElem?_append_left (List.getElem?_eq_some_iff.1 this).1]
          exact this
    · intro p hp
      dsimp only
      by_cases hlt : p < H.length
      · obtain ⟨c, hcm, hpc⟩ := hinv.used p hlt
        exact ⟨c, by rw [hcl]; exact List.mem_append_left _ hcm, hpc⟩
      · have hpf := (hP.fresh p H'[p] (by omega) (List.getElem?_eq_getElem hp)).1
        exact ⟨_, List.mem_append_right _ (List.mem_singleton.2 rfl), hpf⟩
    · dsimp only
      rw [hme, hinv.edges]
      unfold edgesUpTo
      rw [upTo_succ (fun n pts => cellMarkedEdges b target (ndivAt b 0) (ndivAt b 1) (ndivAt b 2) (n % ndivAt b 0) (n / ndivAt b 0 % ndivAt b 1)
        (n / ndivAt b 0 / ndivAt b 1) pts) st.mesh _ (cellNum b i j k) hinv.ncell ⟨m'.cells.length, b.marker, target, pts⟩ (by dsimp only; rw [hcl])]
      rw [n1, n2, n3]
    · dsimp only
      rw [hmf, hinv.faces]
      unfold facesUpTo
      rw [upTo_succ (fun n pts => cellMarkedFaces b target (ndivAt b 0) (ndivAt b 1) (ndivAt b 2) (n % ndivAt b 0) (n / ndivAt b 0 % ndivAt b 1)
        (n / ndivAt b 0 / ndivAt b 1) pts) st.mesh _ (cellNum b i j k) hinv.ncell ⟨m'.cells.length, b.marker, target, pts⟩ (by dsimp only; rw [hcl])]
      rw [n1, n2, n3]

theorem loopX_spec (hw : WF nrow ndim at_ b) (hc : Ctx b target) (hI : IterOrder iterG) (hIC : IterOrder iterC) {ek : GeoKind} (hek : target.edgeKind = some ek)
    (hj : j < ndivAt b 1) (hk : k < ndivAt b 2) {cy cz : ℝ} (hcy : cy = left b 1 j + del b 1 j / 2) (hcz : cz = left b 2 k + del b 2 k / 2)
    (hinv : ∃ H, Inv b target H (cellNum b 0 j k) st) :
    Res.Or (BadNode b target) (fun s => ∃ H, Inv b target H (cellNum b 0 (j + 1) k) s)
      (loopX iterG iterC b target ek (ndivAt b 0) (ndivAt b 1) (ndivAt b 2) j k cy cz st) := by
  unfold loopX
  have key := Res.foldlM_range_or (Bad := BadNode b target) (fun (s : ℝ × State) i => do
      let st ← addCell iterG iterC b target ek (ndivAt b 0) (ndivAt b 1) (ndivAt b 2) i j k (fun a => if a = 0 then s.1 else if a = 1 then cy else cz) s.2
      .ok (if i + 1 < ndivAt b 0 then s.1 + (del b 0 i + del b 0 (i + 1)) / 2 else s.1, st)) (ndivAt b 0) (-1 + del b 0 0 / 2, st)
    (fun i s => (i < ndivAt b 0 → s.1 = left b 0 i + del b 0 i / 2) ∧ ∃ H, Inv b target H (cellNum b i j k) s.2)
    ⟨fun _ => by rw [left_zero], hinv⟩ (by
      rintro i ⟨cx, s⟩ hi ⟨q1, q2⟩
      dsimp only at q1 q2 ⊢
      refine (addCell_spec hw hc hI hIC hek ⟨hi, hj, hk⟩ (center := fun a => if a = 0 then cx else if a = 1 then cy else cz) ?_ q2).bind ?_
      · intro a ha
        have : a = 0 ∨ a = 1 ∨ a = 2 := by omega
        rcases this with rfl | rfl | rfl
        · exact q1 hi
        · exact hcy
        · exact hcz
      · intro s' hs'
        refine .ok ⟨fun hi' => ?_, ?_⟩
        · dsimp only
          rw [if_pos hi', q1 hi, left_succ]
          ring
        · dsimp only
          have : cellNum b (i + 1) j k = cellNum b i j k + 1 := by unfold cellNum; omega
          rw [this]; exact hs')
  refine key.bind ?_
  rintro ⟨cx, s⟩ ⟨-, hs⟩
  refine .ok ?_
  have : cellNum b 0 (j + 1) k = cellNum b (ndivAt b 0) j k := by unfold cellNum; ring
  rw [this]
  exact hs

theorem loopY_spec (hw : WF nrow ndim at_ b) (hc : Ctx b target) (hI : IterOrder iterG) (hIC : IterOrder iterC) {ek : GeoKind} (hek : target.edgeKind = some ek)
    (hk : k < ndivAt b 2) {cz : ℝ} (hcz : cz = left b 2 k + del b 2 k / 2)
    (hinv : ∃ H, Inv b target H (cellNum b 0 0 k) st) :
    Res.Or (BadNode b target) (fun s => ∃ H, Inv b target H (cellNum b 0 0 (k + 1)) s)
      (loopY iterG iterC b target ek (ndivAt b 0) (ndivAt b 1) (ndivAt b 2) k cz st) := by
  unfold loopY
  have key := Res.foldlM_range_or (Bad := BadNode b target) (fun (s : ℝ × State) j => do
      let st ← loopX iterG iterC b target ek (ndivAt b 0) (ndivAt b 1) (ndivAt b 2) j k s.1 cz s.2
      .ok (if j + 1 < ndivAt b 1 then s.1 + (del b 1 j + del b 1 (j + 1)) / 2 else s.1, st)) (ndivAt b 1) (-1 + del b 1 0 / 2, st)
    (fun j s => (j < ndivAt b 1 → s.1 = left b 1 j + del b 1 j / 2) ∧ ∃ H, Inv b target H (cellNum b 0 j k) s.2)
    ⟨fun _ => by rw [left_zero], hinv⟩ (by
      rintro j ⟨cy, s⟩ hj ⟨q1, q2⟩
      dsimp only at q1 q2 ⊢
      refine (loopX_spec hw hc hI hIC hek hj hk (q1 hj) hcz q2).bind ?_
      intro s' hs'
      refine .ok ⟨fun hj' => ?_, hs'⟩
      dsimp only
      rw [if_pos hj', q1 hj, left_succ]
      ring)
  refine key.bind ?_
  rintro ⟨cy, s⟩ ⟨-, hs⟩
  refine .ok ?_
  have : cellNum b 0 0 (k + 1) = cellNum b 0 (ndivAt b 1) k := by unfold cellNum; ring
  rw [this]
  exact hs

theorem loopZ_spec (hw : WF nrow ndim at_ b) (hc : Ctx b target) (hI : IterOrder iterG) (hIC : IterOrder iterC) {ek : GeoKind} (hek : target.edgeKind = some ek)
    (hinv : ∃ H, Inv b target H 0 st) :
    Res.Or (BadNode b target) (fun s => ∃ H, Inv b target H (ndivAt b 0 * (ndivAt b 1 * ndivAt b 2)) s)
      (loopZ iterG iterC b target ek (ndivAt b 0) (ndivAt b 1) (ndivAt b 2) st) := by
  unfold loopZ
  have key := Res.foldlM_range_or (Bad := BadNode b target) (fun (s : ℝ × State) k => do
      let st ← loopY iterG iterC b target ek (ndivAt b 0) (ndivAt b 1) (ndivAt b 2) k s.1 s.2
      .ok (if k + 1 < ndivAt b 2 then s.1 + (del b 2 k + del b 2 (k + 1)) / 2 else s.1, st)) (ndivAt b 2) (-1 + del b 2 0 / 2, st)
    (fun k s => (k < ndivAt b 2 → s.1 = left b 2 k + del b 2 k / 2) ∧ ∃ H, Inv b target H (cellNum b 0 0 k) s.2)
    ⟨fun _ => by rw [left_zero], by simpa [cellNum] using hinv⟩ (by
      rintro k ⟨cz, s⟩ hk ⟨q1, q2⟩
      dsimp only at q1 q2 ⊢
      refine (loopY_spec hw hc hI hIC hek hk (q1 hk) q2).bind ?_
      intro s' hs'
      refine .ok ⟨fun hk' => ?_, hs'⟩
      dsimp only
      rw [if_pos hk', q1 hk, left_succ]
      ring)
  refine key.bind ?_
  rintro ⟨cz, s⟩ ⟨-, hs⟩
  refine .ok ?_
  have : ndivAt b 0 * (ndivAt b 1 * ndivAt b 2) = cellNum b 0 0 (ndivAt b 2) := by unfold cellNum; ring
  rw [this]
  exact hs

/-- `subdivide`: the invariant at the end, or an error because of a node that cannot be mapped. -/
theorem subdivide_spec (hw : WF nrow ndim at_ b) (hc : Ctx b target) (hI : IterOrder iterG) (hIC : IterOrder iterC) :
    Res.Or (BadNode b target) (fun m => ∃ H st, Inv b target H (ndivAt b 0 * (ndivAt b 1 * ndivAt b 2)) st ∧ m = st.mesh) (subdivide iterG iterC b target) := by
  unfold subdivide
  have ht := hc.target
  unfold TargetOk at ht
  rw [if_neg (by rintro ⟨h1, h2⟩; rw [if_pos h1] at ht; exact h2 ht), if_neg (by rintro ⟨h1, h2⟩; rw [if_neg h1] at ht; exact h2 ht)]
  have hek : ∃ ek, target.edgeKind = some ek := by
    have := hc.qh
    clear * - this
    cases target <;> first | exact absurd this (by unfold IsQuaHex; decide) | exact ⟨_, rfl⟩
  obtain ⟨ek, hek⟩ := hek
  obtain ⟨g, hg⟩ : ∃ g, GridSearch.new (List.replicate b.ndim (-1)) (List.replicate b.ndim 1) none none none = .ok g := by
    refine (Gemlab.Mesh.gridNew_none_iff _ _).2 ⟨by simpa using hc.dims, by simp, ?_⟩
    intro i hi
    simp at hi
    simp [boxLen, List.getD_eq_getElem?_getD, hi]
  rw [hg, Res.bind_ok, hek]
  dsimp only
  have e0 : b.ndiv.getD 0 0 = ndivAt b 0 := (if_pos (by rcases hc.dims with h | h <;> omega)).symm
  have e1 : b.ndiv.getD 1 0 = ndivAt b 1 := (if_pos (by rcases hc.dims with h | h <;> omega)).symm
  have e2 : (if b.ndim = 2 then 1 else b.ndiv.getD 2 0) = ndivAt b 2 := by
    unfold ndivAt
    rcases hc.dims with h | h <;> simp [h]
  rw [e0, e1, e2]
  refine (loopZ_spec hw hc hI hIC hek ⟨[], ?_⟩).bind ?_
  · refine ⟨⟨?_, List.nodup_nil, by simp, rfl, by simp, by simp, HMap.wf_nil, by simp [HMap.get], rfl⟩, by simp, rfl, ?_, by simp, rfl, rfl, rfl⟩
    · exact Gemlab.Reached.new hg
    · intro i j k _ h
      omega
  · rintro s ⟨H, hs⟩
    exact .ok ⟨H, s, hs, rfl⟩

end
end Gemlab.Block
