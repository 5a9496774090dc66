import Verif.Props.Scratchpad
import Verif.Props.Mesh

/-!
# C53: `Mesh::set_pad`, `get_pad`, `check_jacobian`, `check_all`
-/
namespace Gemlab.Mesh
open Gemlab.Shapes Gemlab.Spec
noncomputable section
open Classical

/-- The pad holds the coordinates of the listed points. -/
structure HoldsCell (m : Mesh ℝ) (k : GeoKind) (points : List Nat) (pad : Scratchpad) : Prop where
  kind : pad.kind = k
  space : pad.spaceNdim = m.ndim
  ok : pad.okXxt = true
  coords : ∀ (n j : Nat), n < k.nnode → j < m.ndim → pad.X n j = (coordsOf m (points.getD n 0)).getD j 0

/-- C53: `set_pad` with as many points as nodes (ids in range, pad of the dimension of the mesh): afterwards the pad holds the
coordinates of the listed points, all marked as set. -/
theorem C53_set_pad (m : Mesh ℝ) (pad : Scratchpad) (points : List Nat) (hc : ∀ p ∈ m.points, p.coords.length = m.ndim)
    (hs : pad.spaceNdim = m.ndim) (hn : 1 ≤ m.ndim) (hl : points.length = pad.kind.nnode) (hr : ∀ p ∈ points, p < m.points.length) :
    ∃ pad', setPad m pad points = .ok pad' ∧ HoldsCell m pad.kind points pad' := by
  have hnn : 1 ≤ pad.kind.nnode := by cases pad.kind <;> decide
  unfold setPad
  rw [if_neg (by omega)]
  obtain ⟨pad', h1, h2⟩ := Res.foldlM_range (fun pad n => (List.range m.ndim).foldlM (fun pad j => do
      let id ← Res.idx points n
      let p ← Res.idx m.points id
      let v ← Res.idx p.coords j
      Scratchpad.setXx pad n j v) pad) pad.kind.nnode pad
    (fun N (p : Scratchpad) => p.kind = pad.kind ∧ p.spaceNdim = m.ndim ∧ (N = pad.kind.nnode → p.okXxt = true) ∧
      ∀ (n j : Nat), n < N → j < m.ndim → p.X n j = (coordsOf m (points.getD n 0)).getD j 0)
    ⟨rfl, hs, by omega, by omega⟩ (by
      intro n p hn' ⟨hk, hsp, _, hX⟩
      obtain ⟨p', q1, q2⟩ := Res.foldlM_range (fun pad j => do
          let id ← Res.idx points n
          let p ← Res.idx m.points id
          let v ← Res.idx p.coords j
          Scratchpad.setXx pad n j v) m.ndim p
        (fun J (q : Scratchpad) => q.kind = pad.kind ∧ q.spaceNdim = m.ndim ∧ (J = m.ndim → q.okXxt = decide (n = pad.kind.nnode - 1)) ∧
          ∀ (n' j : Nat), n' < n ∨ (n' = n ∧ j < J) → j < m.ndim → q.X n' j = (coordsOf m (points.getD n' 0)).getD j 0)
        ⟨hk, hsp, by omega, by intro n' j h hj; exact hX n' j (by omega) hj⟩ (by
          intro J q hJ ⟨qk, qs, _, qX⟩
          have hpn : n < points.length := by omega
          have hid : points[n] < m.points.length := hr _ (List.getElem_mem hpn)
          have hcl : J < (m.points[points[n]]).coords.length := by rw [hc _ (List.getElem_mem hid)]; exact hJ
          rw [Res.idx_of_lt hpn, Res.bind_ok, Res.idx_of_lt hid, Res.bind_ok, Res.idx_of_lt hcl, Res.bind_ok]
          unfold Scratchpad.setXx
          rw [if_pos ⟨by rw [qs]; exact hJ, by rw [qk]; exact hn'⟩]
          refine ⟨_, rfl, qk, qs, ?_, ?_⟩
          · intro hJ1
            change decide (n = q.kind.nnode - 1 ∧ J = q.spaceNdim - 1) = _
            rw [qk, qs]
            have : J = m.ndim - 1 := by omega
            simp [this]
          · intro n' j h hj
            change (if j = J ∧ n' = n then _ else q.xxt j n') = _
            by_cases hcase : j = J ∧ n' = n
            · rw [if_pos hcase]
              obtain ⟨rfl, rfl⟩ := hcase
              unfold coordsOf
              rw [List.getD_eq_getElem?_getD (l := points), List.getElem?_eq_getElem hpn, Option.getD_some, List.getElem?_eq_getElem hid,
                Option.map_some, Option.getD_some, List.getD_eq_getElem?_getD, List.getElem?_eq_getElem hcl, Option.getD_some]
            · rw [if_neg hcase]
              exact qX n' j (by omega) hj)
      refine ⟨p', q1, q2.1, q2.2.1, ?_, ?_⟩
      · intro hN
        rw [q2.2.2.1 rfl]
        simp; omega
      · intro n' j h hj
        exact q2.2.2.2 n' j (by omega) hj)
  exact ⟨pad', h1, h2.1, h2.2.1, h2.2.2.1 rfl, fun n j hn' hj => h2.2.2.2 n j hn' hj⟩

/-- C53: `get_pad` of a cell of a valid mesh: the pad holds the coordinates of the points of the cell. It panics exactly when the
dimension of the mesh is not 2 or 3 or the cell does not fit in it (or the cell does not exist). -/
theorem C53_get_pad (m : Mesh ℝ) (hm : ValidMesh m) (cellId : Nat) :
    (∀ c, m.cells[cellId]? = some c → (m.ndim = 2 ∨ m.ndim = 3) → c.kind.ndim ≤ m.ndim →
      ∃ pad, getPad m cellId = .ok pad ∧ HoldsCell m c.kind c.points pad) ∧
    (∀ c, m.cells[cellId]? = some c → ¬ ((m.ndim = 2 ∨ m.ndim = 3) ∧ c.kind.ndim ≤ m.ndim) → getPad m cellId = .panic) ∧
    (m.cells.length ≤ cellId → getPad m cellId = .panic) := by
  refine ⟨?_, ?_, ?_⟩
  · intro c hc hd hk
    obtain ⟨hi, rfl⟩ := List.getElem?_eq_some_iff.1 hc
    have hmem := List.getElem_mem hi
    unfold getPad
    rw [Res.idx_of_lt hi, Res.bind_ok]
    unfold Scratchpad.new
    rw [if_neg (by omega), if_neg (by omega)]
    exact C53_set_pad m _ _ hm.coords rfl (by omega) (hm.nnode _ hmem) (hm.inRange _ hmem)
  · intro c hc hn
    obtain ⟨hi, rfl⟩ := List.getElem?_eq_some_iff.1 hc
    unfold getPad
    rw [Res.idx_of_lt hi, Res.bind_ok]
    unfold Scratchpad.new
    by_cases h1 : m.ndim < 2 ∨ m.ndim > 3
    · rw [if_pos h1]
    · rw [if_neg h1, if_pos (by omega)]
  · intro h
    unfold getPad
    have : Res.idx m.cells cellId = .panic := by
      unfold Res.idx
      rw [List.getElem?_eq_none h]
    rw [this]; rfl

/-- Jacobian matrix of a cell of the mesh at the point `(1/3, 1/3, 1/3)` used by the check. -/
def cellJacobian (m : Mesh ℝ) (c : Cell) (i j : Nat) : ℝ :=
  ∑ n ∈ Finset.range c.kind.nnode, (coordsOf m (c.points.getD n 0)).getD i 0 * Shapes.calcDeriv c.kind (fun _ => 1 / 3) n j

theorem detN_congr {n : Nat} {a b : Nat → Nat → ℝ} (h : ∀ i < n, ∀ j < n, a i j = b i j) : detN n a = detN n b := by
  unfold detN
  congr 1
  ext i j
  exact h i i.2 j j.2

/-- The pad after `fillJacobian` has the Jacobian of the cell. -/
theorem fill_eq {m : Mesh ℝ} {c : Cell} {pad : Scratchpad} (h : HoldsCell m c.kind c.points pad) {i : Nat} (hi : i < m.ndim) (j : Nat) :
    (pad.fillJacobian (fun _ => 1 / 3)).jacobian i j = cellJacobian m c i j := by
  unfold cellJacobian Scratchpad.fillJacobian
  dsimp only
  rw [h.kind]
  apply Finset.sum_congr rfl
  intro n hn
  rw [← h.coords n i (Finset.mem_range.1 hn) hi]
  rfl

/-- Body of `check_jacobian`. -/
def checkCell (inv : MatInverse) (m : Mesh ℝ) (cell : Cell) : Res PUnit := do
    let pad ← Scratchpad.new m.ndim cell.kind
    let pad ← setPad m pad cell.points
    let (det, _) ← pad.calcJacobian inv (fun _ => 1 / 3)
    if cell.kind.ndim = 2 ∧ m.ndim = 3 then (if det = -1 then pure () else .panic)
    else if det < 0 then .err "negative determinant of Jacobian found" else pure ()

/-- Outcome of the check for one cell. -/
theorem checkCell_cases {inv : MatInverse} (hinv : InverseSpec inv) (hp : ∀ n a, inv n a ≠ .panic) {m : Mesh ℝ} (hm : ValidMesh m)
    {c : Cell} (hc : c ∈ m.cells) : checkCell inv m c ≠ .panic ∧
    (checkCell inv m c = .ok () → (m.ndim = 2 ∨ m.ndim = 3) ∧ c.kind.ndim ≤ m.ndim ∧
      (c.kind.ndim = m.ndim → 0 < detN m.ndim (cellJacobian m c))) ∧
    ((m.ndim = 2 ∨ m.ndim = 3) → c.kind.ndim ≤ m.ndim → (c.kind.ndim = m.ndim → 0 < detN m.ndim (cellJacobian m c)) →
      (∀ n a, detN n a ≠ 0 → ∃ r, inv n a = .ok r) → checkCell inv m c = .ok ()) := by
  unfold checkCell
  by_cases hd : (m.ndim = 2 ∨ m.ndim = 3) ∧ c.kind.ndim ≤ m.ndim
  swap
  · have : ∃ e, Scratchpad.new m.ndim c.kind = .err e := by
      unfold Scratchpad.new
      by_cases h1 : m.ndim < 2 ∨ m.ndim > 3
      · rw [if_pos h1]; exact ⟨_, rfl⟩
      · rw [if_neg h1, if_pos (by omega)]; exact ⟨_, rfl⟩
    obtain ⟨e, he⟩ := this
    rw [he]
    refine ⟨by simp, by simp, ?_⟩
    intro h1 h2; exact absurd ⟨h1, h2⟩ hd
  obtain ⟨hd1, hd2⟩ := hd
  obtain ⟨p0, hp0⟩ : ∃ p0, Scratchpad.new m.ndim c.kind = .ok p0 ∧ p0.kind = c.kind ∧ p0.spaceNdim = m.ndim := by
    unfold Scratchpad.new
    rw [if_neg (by omega), if_neg (by omega)]
    exact ⟨_, rfl, rfl, rfl⟩
  obtain ⟨hp0, hk0, hs0⟩ := hp0
  obtain ⟨pad, hpad, hold⟩ := C53_set_pad m p0 c.points hm.coords hs0 (by omega) (by rw [hk0]; exact hm.nnode _ hc) (hm.inRange _ hc)
  rw [hk0] at hold
  rw [hp0, Res.bind_ok, hpad, Res.bind_ok]
  have hdet : detN m.ndim (pad.fillJacobian (fun _ => 1 / 3)).jacobian = detN m.ndim (cellJacobian m c) :=
    detN_congr fun i hi j _ => fill_eq hold hi j
  cases hj : pad.calcJacobian inv (fun _ => 1 / 3) with
  | panic =>
    exfalso
    unfold Scratchpad.calcJacobian at hj
    split at hj
    · simp at hj
    dsimp only at hj
    split at hj
    · cases hv : inv (pad.fillJacobian (fun _ => 1 / 3)).spaceNdim (pad.fillJacobian (fun _ => 1 / 3)).jacobian with
      | ok v => rw [hv] at hj; simp at hj
      | err e => rw [hv] at hj; simp at hj
      | panic => exact absurd hv (hp _ _)
    · split at hj <;> simp at hj
  | err e =>
    refine ⟨by simp, by simp, ?_⟩
    intro _ _ hpos hsol
    exfalso
    unfold Scratchpad.calcJacobian at hj
    rw [if_neg (by simp [hold.ok])] at hj
    dsimp only at hj
    split at hj
    · rename_i hsolid
      have hsolid' : c.kind.ndim = m.ndim := by rw [← hold.kind, ← hold.space]; exact hsolid
      obtain ⟨r, hr⟩ := hsol m.ndim (pad.fillJacobian (fun _ => 1 / 3)).jacobian (by rw [hdet]; exact (hpos hsolid').ne')
      rw [show (pad.fillJacobian (fun _ => 1 / 3)).spaceNdim = m.ndim from hold.space, hr, Res.bind_ok] at hj
      simp at hj
    · split at hj <;> simp at hj
  | ok v =>
    obtain ⟨d, pad'⟩ := v
    rw [Res.bind_ok]
    dsimp only
    obtain ⟨s1, s2, s3⟩ := Scratchpad.C31_det hinv hj
    rw [hold.kind, hold.space] at s1 s2 s3
    have hjac : c.kind.ndim = m.ndim → d = detN m.ndim (cellJacobian m c) ∧ d ≠ 0 := by
      intro hsolid
      obtain ⟨e1, e2⟩ := s1 hsolid
      refine ⟨?_, e2⟩
      rw [e1, ← hdet]
      obtain ⟨_, ⟨_, ji, _, rfl⟩ | ⟨_, rfl, _⟩⟩ := Scratchpad.calcJacobian_ok hj <;> rfl
    by_cases hshell : c.kind.ndim = 2 ∧ m.ndim = 3
    · rw [if_pos hshell, if_pos (s3 (by omega) (by omega))]
      exact ⟨by simp, fun _ => ⟨hd1, hd2, by omega⟩, fun _ _ _ _ => rfl⟩
    · rw [if_neg hshell]
      by_cases hneg : d < 0
      · rw [if_pos hneg]
        refine ⟨by simp, by simp, ?_⟩
        intro _ _ hpos _
        exfalso
        by_cases hsolid : c.kind.ndim = m.ndim
        · have := hpos hsolid
          rw [← (hjac hsolid).1] at this
          linarith
        · have hk1 : c.kind.ndim = 1 := by
            have : 1 ≤ c.kind.ndim := by cases c.kind <;> decide
            omega
          rw [s2 hsolid hk1] at hneg
          exact absurd hneg (not_lt.2 (Real.sqrt_nonneg _))
      · rw [if_neg hneg]
        refine ⟨by simp, fun _ => ⟨hd1, hd2, ?_⟩, fun _ _ _ _ => rfl⟩
        intro hsolid
        obtain ⟨e1, e2⟩ := hjac hsolid
        rw [← e1]
        exact lt_of_le_of_ne (not_lt.1 hneg) (Ne.symm e2)

/-- C53: `check_jacobian` of a valid mesh never panics. If it succeeds, all cells fit in the space (dimension 2 or 3) and the
Jacobian determinant of every solid cell at (1/3, 1/3, 1/3) is positive (not only non-negative); conversely, under these conditions
it succeeds, if `mat_inverse` inverts every regular matrix. -/
theorem C53_check_jacobian {inv : MatInverse} (hinv : InverseSpec inv) (hp : ∀ n a, inv n a ≠ .panic) (m : Mesh ℝ) (hm : ValidMesh m) :
    checkJacobian inv m ≠ .panic ∧
    (checkJacobian inv m = .ok () → ∀ c ∈ m.cells, (m.ndim = 2 ∨ m.ndim = 3) ∧ c.kind.ndim ≤ m.ndim ∧
      (c.kind.ndim = m.ndim → 0 < detN m.ndim (cellJacobian m c))) ∧
    ((∀ n a, detN n a ≠ 0 → ∃ r, inv n a = .ok r) → (∀ c ∈ m.cells, (m.ndim = 2 ∨ m.ndim = 3) ∧ c.kind.ndim ≤ m.ndim ∧
      (c.kind.ndim = m.ndim → 0 < detN m.ndim (cellJacobian m c))) → checkJacobian inv m = .ok ()) := by
  have e : checkJacobian inv m = m.cells.forM (checkCell inv m) := rfl
  rw [e, Res.forM_ok_iff]
  refine ⟨Res.forM_ne_panic _ _ fun c hc => (checkCell_cases hinv hp hm hc).1, fun h c hc => (checkCell_cases hinv hp hm hc).2.1 (h c hc), ?_⟩
  intro hs h c hc
  obtain ⟨a, b, d⟩ := h c hc
  exact (checkCell_cases hinv hp hm hc).2.2 a b d hs

end
end Gemlab.Mesh
