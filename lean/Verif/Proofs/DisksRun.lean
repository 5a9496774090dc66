import Verif.Proofs.DisksPrism

/-! # The generators of disks and plates, step by step -/
namespace Gemlab.Structured
noncomputable section
open Classical
open Gemlab.Mesh Gemlab.Shapes Gemlab.Block Gemlab.Spec

variable {inv : MatInverse} {o : GenOrders} {target : GeoKind}

/-- The common part of the generators of disks in the plane. -/
def diskRun2 (inv : MatInverse) (o : GenOrders) (n1 n2 n3 : List (List ℝ)) (r : ℝ) (na nb : Nat) (target : GeoKind) (renumber : Bool) : Res (Mesh ℝ) := do
  let block1 ← blockOf inv 2 n1
  let block2 ← blockOf inv 2 n2
  let block3 ← blockOf inv 2 n3
  let block1 ← applied (block1.setNdiv [na, na])
  let block2 ← applied (block2.setNdiv [nb, na])
  let block3 ← applied (block3.setNdiv [na, nb])
  let block2 ← applied (block2.setEdgeConstraint 1 (some (.circle 0 0 r)))
  let block3 ← applied (block3.setEdgeConstraint 2 (some (.circle 0 0 r)))
  let mesh1 ← cut o target 0 block1
  let mesh2 ← cut o target 1 block2
  let mesh3 ← cut o target 2 block3
  joinAll o renumber [mesh1, mesh2, mesh3]

/-- The common part of the generators of disks in space. -/
def diskRun3 (inv : MatInverse) (o : GenOrders) (n1 n2 n3 : List (List ℝ)) (r : ℝ) (na nb nz : Nat) (target : GeoKind) (renumber : Bool) : Res (Mesh ℝ) := do
  let block1 ← blockOf inv 3 n1
  let block2 ← blockOf inv 3 n2
  let block3 ← blockOf inv 3 n3
  let block1 ← applied (block1.setNdiv [na, na, nz])
  let block2 ← applied (block2.setNdiv [nb, na, nz])
  let block3 ← applied (block3.setNdiv [na, nb, nz])
  let block2 ← applied (block2.setFaceConstraint 1 (some (.cylinderZ 0 0 r)))
  let block3 ← applied (block3.setFaceConstraint 3 (some (.cylinderZ 0 0 r)))
  let mesh1 ← cut o target 0 block1
  let mesh2 ← cut o target 1 block2
  let mesh3 ← cut o target 2 block3
  joinAll o renumber [mesh1, mesh2, mesh3]

theorem no_arcs {P : Piece} (h : P.arcs = []) (s : Nat) : (none : Option Surface) = P.constraint s := by simp [Piece.constraint, h]

theorem one_arc {P : Piece} {s0 : Nat} {R : ℝ} (h : P.arcs = [(s0, R)]) (s : Nat) : (if s = s0 then some (around R) else none) = P.constraint s := by
  unfold Piece.constraint
  rw [h]
  by_cases hs : s = s0
  · subst hs; simp
  · have : ¬ s0 = s := fun h => hs h.symm
    simp [hs, this]

theorem two_arcs {P : Piece} {s0 s1 : Nat} {R0 R1 : ℝ} (h : P.arcs = [(s0, R0), (s1, R1)]) (hne : s0 ≠ s1) (s : Nat) :
    (if s = s1 then some (around R1) else if s = s0 then some (around R0) else none) = P.constraint s := by
  unfold Piece.constraint
  rw [h]
  by_cases hs : s = s1
  · subst hs; simp [hne]
  · have h1 : ¬ s1 = s := fun h => hs h.symm
    by_cases hs0 : s = s0
    · subst hs0; simp [hs]
    · have h0 : ¬ s0 = s := fun h => hs0 h.symm
      simp [hs, hs0, h1, h0]

/-- Three pieces and their meshes. -/
theorem three_meshes {ndim : Nat} {P1 P2 P3 : Piece} {A1 A2 A3 : Mesh ℝ} (h1 : IsPieceMesh inv ndim P1 target A1) (h2 : IsPieceMesh inv ndim P2 target A2)
    (h3 : IsPieceMesh inv ndim P3 target A3) : ∀ (i : Nat) (P : Piece) (A : Mesh ℝ), [P1, P2, P3][i]? = some P → [A1, A2, A3][i]? = some A → IsPieceMesh inv ndim P target A := by
  intro i P A hP hA
  match i with
  | 0 => cases hP; cases hA; exact h1
  | 1 => cases hP; cases hA; exact h2
  | 2 => cases hP; cases hA; exact h3
  | i + 3 => simp at hP

theorem four_meshes {ndim : Nat} {P1 P2 P3 P4 : Piece} {A1 A2 A3 A4 : Mesh ℝ} (h1 : IsPieceMesh inv ndim P1 target A1) (h2 : IsPieceMesh inv ndim P2 target A2)
    (h3 : IsPieceMesh inv ndim P3 target A3) (h4 : IsPieceMesh inv ndim P4 target A4) :
    ∀ (i : Nat) (P : Piece) (A : Mesh ℝ), [P1, P2, P3, P4][i]? = some P → [A1, A2, A3, A4][i]? = some A → IsPieceMesh inv ndim P target A := by
  intro i P A hP hA
  match i with
  | 0 => cases hP; cases hA; exact h1
  | 1 => cases hP; cases hA; exact h2
  | 2 => cases hP; cases hA; exact h3
  | 3 => cases hP; cases hA; exact h4
  | i + 4 => simp at hP

theorem disk_run2 (hinv : InverseSpec inv) (hnp : ∀ n a, inv n a ≠ .panic) (hall : ∀ n a, detN n a ≠ 0 → ∃ r, inv n a = .ok r) (ho : o.Valid)
    {P1 P2 P3 : Piece} (h1 : Good 2 P1) (h2 : Good 2 P2) (h3 : Good 2 P3) {r : ℝ} {na nb : Nat} (d1 : P1.ndiv = [na, na]) (d2 : P2.ndiv = [nb, na]) (d3 : P3.ndiv = [na, nb])
    (a1 : P1.arcs = []) (a2 : P2.arcs = [(1, r)]) (a3 : P3.arcs = [(2, r)]) (ca : CountOk na) (cb : CountOk nb) :
    (¬ (1 ≤ na ∧ 1 ≤ nb ∧ target.classOf = .qua) → ∀ renumber, ∃ e, diskRun2 inv o P1.nodes P2.nodes P3.nodes r na nb target renumber = .err e) ∧
    (1 ≤ na ∧ 1 ≤ nb ∧ target.classOf = .qua → MadeOf inv 2 [P1, P2, P3] target (diskRun2 inv o P1.nodes P2.nodes P3.nodes r na nb target)) := by
  obtain ⟨b1, e1, s1⟩ := piece_new hinv hnp hall h1
  obtain ⟨b2, e2, s2⟩ := piece_new hinv hnp hall h2
  obtain ⟨b3, e3, s3⟩ := piece_new hinv hnp hall h3
  have eq : ∀ renumber, diskRun2 inv o P1.nodes P2.nodes P3.nodes r na nb target renumber = (applied (b1.setNdiv [na, na]) >>= fun b1 => applied (b2.setNdiv [nb, na]) >>= fun b2 =>
      applied (b3.setNdiv [na, nb]) >>= fun b3 => applied (b2.setEdgeConstraint 1 (some (.circle 0 0 r))) >>= fun b2 =>
      applied (b3.setEdgeConstraint 2 (some (.circle 0 0 r))) >>= fun b3 => cut o target 0 b1 >>= fun m1 => cut o target 1 b2 >>= fun m2 => cut o target 2 b3 >>= fun m3 =>
      joinAll o renumber [m1, m2, m3]) := by
    intro renumber
    unfold diskRun2
    rw [e1, Res.bind_ok, e2, Res.bind_ok, e3, Res.bind_ok]
  obtain ⟨n1, n1'⟩ := settings_ndiv s1 [na, na]
  obtain ⟨n2, n2'⟩ := settings_ndiv s2 [nb, na]
  obtain ⟨n3, n3'⟩ := settings_ndiv s3 [na, nb]
  by_cases hna : 1 ≤ na
  swap
  · obtain ⟨e, he⟩ := n1' (by simp; omega)
    refine ⟨fun _ renumber => ⟨e, ?_⟩, fun h => absurd h.1 hna⟩
    rw [eq, he]; rfl
  obtain ⟨c1, f1, t1⟩ := n1 (by simp; omega)
  by_cases hnb : 1 ≤ nb
  swap
  · obtain ⟨e, he⟩ := n2' (by simp; omega)
    refine ⟨fun _ renumber => ⟨e, ?_⟩, fun h => absurd h.2.1 hnb⟩
    rw [eq, f1, Res.bind_ok, he]; rfl
  obtain ⟨c2, f2, t2⟩ := n2 (by simp; omega)
  obtain ⟨c3, f3, t3⟩ := n3 (by simp; omega)
  obtain ⟨g2, k2, u2⟩ := (settings_edgeConstraint t2 1 (.circle 0 0 r)).1 (by omega)
  obtain ⟨g3, k3, u3⟩ := (settings_edgeConstraint t3 2 (.circle 0 0 r)).1 (by omega)
  have p1 : IsPieceBlock inv 2 P1 c1 := by unfold IsPieceBlock; rw [d1]; exact t1.congr (no_arcs a1) (fun _ => rfl) (fun _ => rfl)
  have p2 : IsPieceBlock inv 2 P2 g2 := by unfold IsPieceBlock; rw [d2]; exact u2.congr (one_arc a2) (fun _ => rfl) (fun _ => rfl)
  have p3 : IsPieceBlock inv 2 P3 g3 := by unfold IsPieceBlock; rw [d3]; exact u3.congr (one_arc a3) (fun _ => rfl) (fun _ => rfl)
  by_cases ht : target.classOf = .qua
  swap
  · obtain ⟨e, he⟩ := piece_kind (o := o) p1 (show ¬ target.classOf = if 2 = 2 then .qua else .hex from ht) 0
    refine ⟨fun _ renumber => ⟨e, ?_⟩, fun h => absurd h.2.2 ht⟩
    rw [eq, f1, Res.bind_ok, f2, Res.bind_ok, f3, Res.bind_ok, k2, Res.bind_ok, k3, Res.bind_ok, he]; rfl
  refine ⟨fun h => absurd ⟨hna, hnb, ht⟩ h, fun _ => ?_⟩
  obtain ⟨m1, q1, w1⟩ := piece_cut ho h1 ⟨by rw [d1]; rfl, by rw [d1]; simp; exact ⟨hna, ca⟩⟩ p1 (target := target) ht 0
  obtain ⟨m2, q2, w2⟩ := piece_cut ho h2 ⟨by rw [d2]; rfl, by rw [d2]; simp; exact ⟨⟨hnb, cb⟩, hna, ca⟩⟩ p2 (target := target) ht 1
  obtain ⟨m3, q3, w3⟩ := piece_cut ho h3 ⟨by rw [d3]; rfl, by rw [d3]; simp; exact ⟨⟨hna, ca⟩, hnb, cb⟩⟩ p3 (target := target) ht 2
  refine made_of (o := o) ho (ms := [m1, m2, m3]) rfl (three_meshes w1 w2 w3) (fun renumber => ?_)
  rw [eq, f1, Res.bind_ok, f2, Res.bind_ok, f3, Res.bind_ok, k2, Res.bind_ok, k3, Res.bind_ok, q1, Res.bind_ok, q2, Res.bind_ok, q3, Res.bind_ok]

theorem disk_run3 (hinv : InverseSpec inv) (hnp : ∀ n a, inv n a ≠ .panic) (hall : ∀ n a, detN n a ≠ 0 → ∃ r, inv n a = .ok r) (ho : o.Valid)
    {P1 P2 P3 : Piece} (h1 : Good 3 P1) (h2 : Good 3 P2) (h3 : Good 3 P3) {r : ℝ} {na nb nz : Nat} (d1 : P1.ndiv = [na, na, nz]) (d2 : P2.ndiv = [nb, na, nz]) (d3 : P3.ndiv = [na, nb, nz])
    (a1 : P1.arcs = []) (a2 : P2.arcs = [(1, r)]) (a3 : P3.arcs = [(3, r)]) (ca : CountOk na) (cb : CountOk nb) (cz : CountOk nz) :
    (¬ (1 ≤ na ∧ 1 ≤ nb ∧ 1 ≤ nz ∧ target.classOf = .hex) → ∀ renumber, ∃ e, diskRun3 inv o P1.nodes P2.nodes P3.nodes r na nb nz target renumber = .err e) ∧
    (1 ≤ na ∧ 1 ≤ nb ∧ 1 ≤ nz ∧ target.classOf = .hex → MadeOf inv 3 [P1, P2, P3] target (diskRun3 inv o P1.nodes P2.nodes P3.nodes r na nb nz target)) := by
  obtain ⟨b1, e1, s1⟩ := piece_new hinv hnp hall h1
  obtain ⟨b2, e2, s2⟩ := piece_new hinv hnp hall h2
  obtain ⟨b3, e3, s3⟩ := piece_new hinv hnp hall h3
  have eq : ∀ renumber, diskRun3 inv o P1.nodes P2.nodes P3.nodes r na nb nz target renumber = (applied (b1.setNdiv [na, na, nz]) >>= fun b1 => applied (b2.setNdiv [nb, na, nz]) >>= fun b2 =>
      applied (b3.setNdiv [na, nb, nz]) >>= fun b3 => applied (b2.setFaceConstraint 1 (some (.cylinderZ 0 0 r))) >>= fun b2 =>
      applied (b3.setFaceConstraint 3 (some (.cylinderZ 0 0 r))) >>= fun b3 => cut o target 0 b1 >>= fun m1 => cut o target 1 b2 >>= fun m2 => cut o target 2 b3 >>= fun m3 =>
      joinAll o renumber [m1, m2, m3]) := by
    intro renumber
    unfold diskRun3
    rw [e1, Res.bind_ok, e2, Res.bind_ok, e3, Res.bind_ok]
  obtain ⟨n1, n1'⟩ := settings_ndiv s1 [na, na, nz]
  obtain ⟨n2, n2'⟩ := settings_ndiv s2 [nb, na, nz]
  obtain ⟨n3, n3'⟩ := settings_ndiv s3 [na, nb, nz]
  by_cases hna : 1 ≤ na
  swap
  · obtain ⟨e, he⟩ := n1' (by simp; omega)
    refine ⟨fun _ renumber => ⟨e, ?_⟩, fun h => absurd h.1 hna⟩
    rw [eq, he]; rfl
  by_cases hnz : 1 ≤ nz
  swap
  · obtain ⟨e, he⟩ := n1' (by simp; omega)
    refine ⟨fun _ renumber => ⟨e, ?_⟩, fun h => absurd h.2.2.1 hnz⟩
    rw [eq, he]; rfl
  obtain ⟨c1, f1, t1⟩ := n1 (by simp; omega)
  by_cases hnb : 1 ≤ nb
  swap
  · obtain ⟨e, he⟩ := n2' (by simp; omega)
    refine ⟨fun _ renumber => ⟨e, ?_⟩, fun h => absurd h.2.1 hnb⟩
    rw [eq, f1, Res.bind_ok, he]; rfl
  obtain ⟨c2, f2, t2⟩ := n2 (by simp; omega)
  obtain ⟨c3, f3, t3⟩ := n3 (by simp; omega)
  obtain ⟨g2, k2, u2⟩ := (settings_faceConstraint t2 1 (.cylinderZ 0 0 r)).1 (by omega)
  obtain ⟨g3, k3, u3⟩ := (settings_faceConstraint t3 3 (.cylinderZ 0 0 r)).1 (by omega)
  have p1 : IsPieceBlock inv 3 P1 c1 := by unfold IsPieceBlock; rw [d1]; exact t1.congr (no_arcs a1) (fun _ => rfl) (fun _ => rfl)
  have p2 : IsPieceBlock inv 3 P2 g2 := by unfold IsPieceBlock; rw [d2]; exact u2.congr (one_arc a2) (fun _ => rfl) (fun _ => rfl)
  have p3 : IsPieceBlock inv 3 P3 g3 := by unfold IsPieceBlock; rw [d3]; exact u3.congr (one_arc a3) (fun _ => rfl) (fun _ => rfl)
  by_cases ht : target.classOf = .hex
  swap
  · obtain ⟨e, he⟩ := piece_kind (o := o) p1 (show ¬ target.classOf = if 3 = 2 then .qua else .hex from ht) 0
    refine ⟨fun _ renumber => ⟨e, ?_⟩, fun h => absurd h.2.2.2 ht⟩
    rw [eq, f1, Res.bind_ok, f2, Res.bind_ok, f3, Res.bind_ok, k2, Res.bind_ok, k3, Res.bind_ok, he]; rfl
  refine ⟨fun h => absurd ⟨hna, hnb, hnz, ht⟩ h, fun _ => ?_⟩
  obtain ⟨m1, q1, w1⟩ := piece_cut ho h1 ⟨by rw [d1]; rfl, by rw [d1]; simp; exact ⟨⟨hna, ca⟩, hnz, cz⟩⟩ p1 (target := target) ht 0
  obtain ⟨m2, q2, w2⟩ := piece_cut ho h2 ⟨by rw [d2]; rfl, by rw [d2]; simp; exact ⟨⟨hnb, cb⟩, ⟨hna, ca⟩, hnz, cz⟩⟩ p2 (target := target) ht 1
  obtain ⟨m3, q3, w3⟩ := piece_cut ho h3 ⟨by rw [d3]; rfl, by rw [d3]; simp; exact ⟨⟨hna, ca⟩, ⟨hnb, cb⟩, hnz, cz⟩⟩ p3 (target := target) ht 2
  refine made_of (o := o) ho (ms := [m1, m2, m3]) rfl (three_meshes w1 w2 w3) (fun renumber => ?_)
  rw [eq, f1, Res.bind_ok, f2, Res.bind_ok, f3, Res.bind_ok, k2, Res.bind_ok, k3, Res.bind_ok, q1, Res.bind_ok, q2, Res.bind_ok, q3, Res.bind_ok]

/-- The generator of plates in the plane. -/
def plateRun2 (inv : MatInverse) (o : GenOrders) (n1 n2 n3 n4 : List (List ℝ)) (r ra : ℝ) (na nb n45 : Nat) (target : GeoKind) (renumber : Bool) : Res (Mesh ℝ) := do
  let block1 ← blockOf inv 2 n1
  let block2 ← blockOf inv 2 n2
  let block3 ← blockOf inv 2 n3
  let block4 ← blockOf inv 2 n4
  let block1 ← applied (block1.setEdgeConstraint 3 (some (.circle 0 0 r)))
  let block1 ← applied (block1.setEdgeConstraint 1 (some (.circle 0 0 ra)))
  let block1 ← applied (block1.setNdiv [na, n45])
  let block2 ← applied (block2.setEdgeConstraint 3 (some (.circle 0 0 r)))
  let block2 ← applied (block2.setEdgeConstraint 1 (some (.circle 0 0 ra)))
  let block2 ← applied (block2.setNdiv [na, n45])
  let block3 ← applied (block3.setEdgeConstraint 3 (some (.circle 0 0 ra)))
  let block3 ← applied (block3.setNdiv [nb, n45])
  let block4 ← applied (block4.setEdgeConstraint 3 (some (.circle 0 0 ra)))
  let block4 ← applied (block4.setNdiv [nb, n45])
  let mesh1 ← cut o target 0 block1
  let mesh2 ← cut o target 1 block2
  let mesh3 ← cut o target 2 block3
  let mesh4 ← cut o target 3 block4
  joinAll o renumber [mesh1, mesh2, mesh3, mesh4]

theorem plate_run2 (hinv : InverseSpec inv) (hnp : ∀ n a, inv n a ≠ .panic) (hall : ∀ n a, detN n a ≠ 0 → ∃ r, inv n a = .ok r) (ho : o.Valid)
    {P1 P2 P3 P4 : Piece} (h1 : Good 2 P1) (h2 : Good 2 P2) (h3 : Good 2 P3) (h4 : Good 2 P4) {r ra : ℝ} {na nb n45 : Nat}
    (d1 : P1.ndiv = [na, n45]) (d2 : P2.ndiv = [na, n45]) (d3 : P3.ndiv = [nb, n45]) (d4 : P4.ndiv = [nb, n45])
    (a1 : P1.arcs = [(3, r), (1, ra)]) (a2 : P2.arcs = [(3, r), (1, ra)]) (a3 : P3.arcs = [(3, ra)]) (a4 : P4.arcs = [(3, ra)])
    (ca : CountOk na) (cb : CountOk nb) (cc : CountOk n45) :
    (¬ (1 ≤ na ∧ 1 ≤ nb ∧ 1 ≤ n45 ∧ target.classOf = .qua) → ∀ renumber, ∃ e, plateRun2 inv o P1.nodes P2.nodes P3.nodes P4.nodes r ra na nb n45 target renumber = .err e) ∧
    (1 ≤ na ∧ 1 ≤ nb ∧ 1 ≤ n45 ∧ target.classOf = .qua →
      MadeOf inv 2 [P1, P2, P3, P4] target (plateRun2 inv o P1.nodes P2.nodes P3.nodes P4.nodes r ra na nb n45 target)) := by
  obtain ⟨b1, e1, s1⟩ := piece_new hinv hnp hall h1
  obtain ⟨b2, e2, s2⟩ := piece_new hinv hnp hall h2
  obtain ⟨b3, e3, s3⟩ := piece_new hinv hnp hall h3
  obtain ⟨b4, e4, s4⟩ := piece_new hinv hnp hall h4
  obtain ⟨b1, x1, s1⟩ := (settings_edgeConstraint s1 3 (.circle 0 0 r)).1 (by omega)
  obtain ⟨b1, y1, s1⟩ := (settings_edgeConstraint s1 1 (.circle 0 0 ra)).1 (by omega)
  obtain ⟨b2, x2, s2⟩ := (settings_edgeConstraint s2 3 (.circle 0 0 r)).1 (by omega)
  obtain ⟨b2, y2, s2⟩ := (settings_edgeConstraint s2 1 (.circle 0 0 ra)).1 (by omega)
  obtain ⟨b3, x3, s3⟩ := (settings_edgeConstraint s3 3 (.circle 0 0 ra)).1 (by omega)
  obtain ⟨b4, x4, s4⟩ := (settings_edgeConstraint s4 3 (.circle 0 0 ra)).1 (by omega)
  have eq : ∀ renumber, plateRun2 inv o P1.nodes P2.nodes P3.nodes P4.nodes r ra na nb n45 target renumber = (applied (b1.setNdiv [na, n45]) >>= fun b1 =>
      applied (b2.setNdiv [na, n45]) >>= fun b2 => applied (b3.setNdiv [nb, n45]) >>= fun b3 => applied (b4.setNdiv [nb, n45]) >>= fun b4 =>
      cut o target 0 b1 >>= fun m1 => cut o target 1 b2 >>= fun m2 => cut o target 2 b3 >>= fun m3 => cut o target 3 b4 >>= fun m4 => joinAll o renumber [m1, m2, m3, m4]) := by
    intro renumber
    unfold plateRun2
    rw [e1, Res.bind_ok, e2, Res.bind_ok, e3, Res.bind_ok, e4, Res.bind_ok, x1, Res.bind_ok, y1, Res.bind_ok]
    congr 1; funext b1'
    rw [x2, Res.bind_ok, y2, Res.bind_ok]
    congr 1; funext b2'
    rw [x3, Res.bind_ok]
    congr 1; funext b3'
    rw [x4, Res.bind_ok]
  obtain ⟨n1, n1'⟩ := settings_ndiv s1 [na, n45]
  obtain ⟨n2, n2'⟩ := settings_ndiv s2 [na, n45]
  obtain ⟨n3, n3'⟩ := settings_ndiv s3 [nb, n45]
  obtain ⟨n4, n4'⟩ := settings_ndiv s4 [nb, n45]
  by_cases hna : 1 ≤ na
  swap
  · obtain ⟨e, he⟩ := n1' (by simp; omega)
    refine ⟨fun _ renumber => ⟨e, ?_⟩, fun h => absurd h.1 hna⟩
    rw [eq, he]; rfl
  by_cases hnc : 1 ≤ n45
  swap
  · obtain ⟨e, he⟩ := n1' (by simp; omega)
    refine ⟨fun _ renumber => ⟨e, ?_⟩, fun h => absurd h.2.2.1 hnc⟩
    rw [eq, he]; rfl
  obtain ⟨c1, f1, t1⟩ := n1 (by simp; omega)
  obtain ⟨c2, f2, t2⟩ := n2 (by simp; omega)
  by_cases hnb : 1 ≤ nb
  swap
  · obtain ⟨e, he⟩ := n3' (by simp; omega)
    refine ⟨fun _ renumber => ⟨e, ?_⟩, fun h => absurd h.2.1 hnb⟩
    rw [eq, f1, Res.bind_ok, f2, Res.bind_ok, he]; rfl
  obtain ⟨c3, f3, t3⟩ := n3 (by simp; omega)
  obtain ⟨c4, f4, t4⟩ := n4 (by simp; omega)
  have p1 : IsPieceBlock inv 2 P1 c1 := by unfold IsPieceBlock; rw [d1]; exact t1.congr (two_arcs a1 (by omega)) (fun _ => rfl) (fun _ => rfl)
  have p2 : IsPieceBlock inv 2 P2 c2 := by unfold IsPieceBlock; rw [d2]; exact t2.congr (two_arcs a2 (by omega)) (fun _ => rfl) (fun _ => rfl)
  have p3 : IsPieceBlock inv 2 P3 c3 := by unfold IsPieceBlock; rw [d3]; exact t3.congr (one_arc a3) (fun _ => rfl) (fun _ => rfl)
  have p4 : IsPieceBlock inv 2 P4 c4 := by unfold IsPieceBlock; rw [d4]; exact t4.congr (one_arc a4) (fun _ => rfl) (fun _ => rfl)
  by_cases ht : target.classOf = .qua
  swap
  · obtain ⟨e, he⟩ := piece_kind (o := o) p1 (show ¬ target.classOf = if 2 = 2 then .qua else .hex from ht) 0
    refine ⟨fun _ renumber => ⟨e, ?_⟩, fun h => absurd h.2.2.2 ht⟩
    rw [eq, f1, Res.bind_ok, f2, Res.bind_ok, f3, Res.bind_ok, f4, Res.bind_ok, he]; rfl
  refine ⟨fun h => absurd ⟨hna, hnb, hnc, ht⟩ h, fun _ => ?_⟩
  obtain ⟨m1, q1, w1⟩ := piece_cut ho h1 ⟨by rw [d1]; rfl, by rw [d1]; simp; exact ⟨⟨hna, ca⟩, hnc, cc⟩⟩ p1 (target := target) ht 0
  obtain ⟨m2, q2, w2⟩ := piece_cut ho h2 ⟨by rw [d2]; rfl, by rw [d2]; simp; exact ⟨⟨hna, ca⟩, hnc, cc⟩⟩ p2 (target := target) ht 1
  obtain ⟨m3, q3, w3⟩ := piece_cut ho h3 ⟨by rw [d3]; rfl, by rw [d3]; simp; exact ⟨⟨hnb, cb⟩, hnc, cc⟩⟩ p3 (target := target) ht 2
  obtain ⟨m4, q4, w4⟩ := piece_cut ho h4 ⟨by rw [d4]; rfl, by rw [d4]; simp; exact ⟨⟨hnb, cb⟩, hnc, cc⟩⟩ p4 (target := target) ht 3
  refine made_of (o := o) ho (ms := [m1, m2, m3, m4]) rfl (four_meshes w1 w2 w3 w4) (fun renumber => ?_)
  rw [eq, f1, Res.bind_ok, f2, Res.bind_ok, f3, Res.bind_ok, f4, Res.bind_ok, q1, Res.bind_ok, q2, Res.bind_ok, q3, Res.bind_ok, q4, Res.bind_ok]

/-- The generator of plates in space. -/
def plateRun3 (inv : MatInverse) (o : GenOrders) (n1 n2 n3 n4 : List (List ℝ)) (r ra : ℝ) (na nb n45 nz : Nat) (target : GeoKind) (renumber : Bool) : Res (Mesh ℝ) := do
  let block1 ← blockOf inv 3 n1
  let block2 ← blockOf inv 3 n2
  let block3 ← blockOf inv 3 n3
  let block4 ← blockOf inv 3 n4
  let block1 ← applied (block1.setFaceConstraint 0 (some (.cylinderZ 0 0 r)))
  let block1 ← applied (block1.setFaceConstraint 1 (some (.cylinderZ 0 0 ra)))
  let block1 ← applied (block1.setNdiv [na, n45, nz])
  let block2 ← applied (block2.setFaceConstraint 0 (some (.cylinderZ 0 0 r)))
  let block2 ← applied (block2.setFaceConstraint 1 (some (.cylinderZ 0 0 ra)))
  let block2 ← applied (block2.setNdiv [na, n45, nz])
  let block3 ← applied (block3.setFaceConstraint 0 (some (.cylinderZ 0 0 ra)))
  let block3 ← applied (block3.setNdiv [nb, n45, nz])
  let block4 ← applied (block4.setFaceConstraint 0 (some (.cylinderZ 0 0 ra)))
  let block4 ← applied (block4.setNdiv [nb, n45, nz])
  let mesh1 ← cut o target 0 block1
  let mesh2 ← cut o target 1 block2
  let mesh3 ← cut o target 2 block3
  let mesh4 ← cut o target 3 block4
  joinAll o renumber [mesh1, mesh2, mesh3, mesh4]

theorem plate_run3 (hinv : InverseSpec inv) (hnp : ∀ n a, inv n a ≠ .panic) (hall : ∀ n a, detN n a ≠ 0 → ∃ r, inv n a = .ok r) (ho : o.Valid)
    {P1 P2 P3 P4 : Piece} (h1 : Good 3 P1) (h2 : Good 3 P2) (h3 : Good 3 P3) (h4 : Good 3 P4) {r ra : ℝ} {na nb n45 nz : Nat}
    (d1 : P1.ndiv = [na, n45, nz]) (d2 : P2.ndiv = [na, n45, nz]) (d3 : P3.ndiv = [nb, n45, nz]) (d4 : P4.ndiv = [nb, n45, nz])
    (a1 : P1.arcs = [(0, r), (1, ra)]) (a2 : P2.arcs = [(0, r), (1, ra)]) (a3 : P3.arcs = [(0, ra)]) (a4 : P4.arcs = [(0, ra)])
    (ca : CountOk na) (cb : CountOk nb) (cc : CountOk n45) (cz : CountOk nz) :
    (¬ (1 ≤ na ∧ 1 ≤ nb ∧ 1 ≤ n45 ∧ 1 ≤ nz ∧ target.classOf = .hex) → ∀ renumber, ∃ e, plateRun3 inv o P1.nodes P2.nodes P3.nodes P4.nodes r ra na nb n45 nz target renumber = .err e) ∧
    (1 ≤ na ∧ 1 ≤ nb ∧ 1 ≤ n45 ∧ 1 ≤ nz ∧ target.classOf = .hex →
      MadeOf inv 3 [P1, P2, P3, P4] target (plateRun3 inv o P1.nodes P2.nodes P3.nodes P4.nodes r ra na nb n45 nz target)) := by
  obtain ⟨b1, e1, s1⟩ := piece_new hinv hnp hall h1
  obtain ⟨b2, e2, s2⟩ := piece_new hinv hnp hall h2
  obtain ⟨b3, e3, s3⟩ := piece_new hinv hnp hall h3
  obtain ⟨b4, e4, s4⟩ := piece_new hinv hnp hall h4
  obtain ⟨b1, x1, s1⟩ := (settings_faceConstraint s1 0 (.cylinderZ 0 0 r)).1 (by omega)
  obtain ⟨b1, y1, s1⟩ := (settings_faceConstraint s1 1 (.cylinderZ 0 0 ra)).1 (by omega)
  obtain ⟨b2, x2, s2⟩ := (settings_faceConstraint s2 0 (.cylinderZ 0 0 r)).1 (by omega)
  obtain ⟨b2, y2, s2⟩ := (settings_faceConstraint s2 1 (.cylinderZ 0 0 ra)).1 (by omega)
  obtain ⟨b3, x3, s3⟩ := (settings_faceConstraint s3 0 (.cylinderZ 0 0 ra)).1 (by omega)
  obtain ⟨b4, x4, s4⟩ := (settings_faceConstraint s4 0 (.cylinderZ 0 0 ra)).1 (by omega)
  have eq : ∀ renumber, plateRun3 inv o P1.nodes P2.nodes P3.nodes P4.nodes r ra na nb n45 nz target renumber = (applied (b1.setNdiv [na, n45, nz]) >>= fun b1 =>
      applied (b2.setNdiv [na, n45, nz]) >>= fun b2 => applied (b3.setNdiv [nb, n45, nz]) >>= fun b3 => applied (b4.setNdiv [nb, n45, nz]) >>= fun b4 =>
      cut o target 0 b1 >>= fun m1 => cut o target 1 b2 >>= fun m2 => cut o target 2 b3 >>= fun m3 => cut o target 3 b4 >>= fun m4 => joinAll o renumber [m1, m2, m3, m4]) := by
    intro renumber
    unfold plateRun3
    rw [e1, Res.bind_ok, e2, Res.bind_ok, e3, Res.bind_ok, e4, Res.bind_ok, x1, Res.bind_ok, y1, Res.bind_ok]
    congr 1; funext b1'
    rw [x2, Res.bind_ok, y2, Res.bind_ok]
    congr 1; funext b2'
    rw [x3, Res.bind_ok]
    congr 1; funext b3'
    rw [x4, Res.bind_ok]
  obtain ⟨n1, n1'⟩ := settings_ndiv s1 [na, n45, nz]
  obtain ⟨n2, n2'⟩ := settings_ndiv s2 [na, n45, nz]
  obtain ⟨n3, n3'⟩ := settings_ndiv s3 [nb, n45, nz]
  obtain ⟨n4, n4'⟩ := settings_ndiv s4 [nb, n45, nz]
  by_cases hna : 1 ≤ na
  swap
  · obtain ⟨e, he⟩ := n1' (by simp; omega)
    refine ⟨fun _ renumber => ⟨e, ?_⟩, fun h => absurd h.1 hna⟩
    rw [eq, he]; rfl
  by_cases hnc : 1 ≤ n45
  swap
  · obtain ⟨e, he⟩ := n1' (by simp; omega)
    refine ⟨fun _ renumber => ⟨e, ?_⟩, fun h => absurd h.2.2.1 hnc⟩
    rw [eq, he]; rfl
  by_cases hnz : 1 ≤ nz
  swap
  · obtain ⟨e, he⟩ := n1' (by simp; omega)
    refine ⟨fun _ renumber => ⟨e, ?_⟩, fun h => absurd h.2.2.2.1 hnz⟩
    rw [eq, he]; rfl
  obtain ⟨c1, f1, t1⟩ := n1 (by simp; omega)
  obtain ⟨c2, f2, t2⟩ := n2 (by simp; omega)
  by_cases hnb : 1 ≤ nb
  swap
  · obtain ⟨e, he⟩ := n3' (by simp; omega)
    refine ⟨fun _ renumber => ⟨e, ?_⟩, fun h => absurd h.2.1 hnb⟩
    rw [eq, f1, Res.bind_ok, f2, Res.bind_ok, he]; rfl
  obtain ⟨c3, f3, t3⟩ := n3 (by simp; omega)
  obtain ⟨c4, f4, t4⟩ := n4 (by simp; omega)
  have p1 : IsPieceBlock inv 3 P1 c1 := by unfold IsPieceBlock; rw [d1]; exact t1.congr (two_arcs a1 (by omega)) (fun _ => rfl) (fun _ => rfl)
  have p2 : IsPieceBlock inv 3 P2 c2 := by unfold IsPieceBlock; rw [d2]; exact t2.congr (two_arcs a2 (by omega)) (fun _ => rfl) (fun _ => rfl)
  have p3 : IsPieceBlock inv 3 P3 c3 := by unfold IsPieceBlock; rw [d3]; exact t3.congr (one_arc a3) (fun _ => rfl) (fun _ => rfl)
  have p4 : IsPieceBlock inv 3 P4 c4 := by unfold IsPieceBlock; rw [d4]; exact t4.congr (one_arc a4) (fun _ => rfl) (fun _ => rfl)
  by_cases ht : target.classOf = .hex
  swap
  · obtain ⟨e, he⟩ := piece_kind (o := o) p1 (show ¬ target.classOf = if 3 = 2 then .qua else .hex from ht) 0
    refine ⟨fun _ renumber => ⟨e, ?_⟩, fun h => absurd h.2.2.2.2 ht⟩
    rw [eq, f1, Res.bind_ok, f2, Res.bind_ok, f3, Res.bind_ok, f4, Res.bind_ok, he]; rfl
  refine ⟨fun h => absurd ⟨hna, hnb, hnc, hnz, ht⟩ h, fun _ => ?_⟩
  obtain ⟨m1, q1, w1⟩ := piece_cut ho h1 ⟨by rw [d1]; rfl, by rw [d1]; simp; exact ⟨⟨hna, ca⟩, ⟨hnc, cc⟩, hnz, cz⟩⟩ p1 (target := target) ht 0
  obtain ⟨m2, q2, w2⟩ := piece_cut ho h2 ⟨by rw [d2]; rfl, by rw [d2]; simp; exact ⟨⟨hna, ca⟩, ⟨hnc, cc⟩, hnz, cz⟩⟩ p2 (target := target) ht 1
  obtain ⟨m3, q3, w3⟩ := piece_cut ho h3 ⟨by rw [d3]; rfl, by rw [d3]; simp; exact ⟨⟨hnb, cb⟩, ⟨hnc, cc⟩, hnz, cz⟩⟩ p3 (target := target) ht 2
  obtain ⟨m4, q4, w4⟩ := piece_cut ho h4 ⟨by rw [d4]; rfl, by rw [d4]; simp; exact ⟨⟨hnb, cb⟩, ⟨hnc, cc⟩, hnz, cz⟩⟩ p4 (target := target) ht 3
  refine made_of (o := o) ho (ms := [m1, m2, m3, m4]) rfl (four_meshes w1 w2 w3 w4) (fun renumber => ?_)
  rw [eq, f1, Res.bind_ok, f2, Res.bind_ok, f3, Res.bind_ok, f4, Res.bind_ok, q1, Res.bind_ok, q2, Res.bind_ok, q3, Res.bind_ok, q4, Res.bind_ok]

end
end Gemlab.Structured
