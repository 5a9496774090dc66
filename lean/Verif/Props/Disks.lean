import Verif.Proofs.DisksRun

/-!
# Quarter disks and plates with a hole

`Structured::quarter_disk_2d_a`, `quarter_disk_2d_b`, `quarter_disk_3d_a`, `quarter_disk_3d_b`, `quarter_plate_hole_2d`, `quarter_plate_hole_3d`
(generators_qua_hex.rs:360-1021) are put together from the meshes of the blocks of `Spec/Disks.lean`.
-/
namespace Gemlab.Structured
noncomputable section
open Classical
open Gemlab.Mesh Gemlab.Shapes Gemlab.Block Gemlab.Spec

variable {inv : MatInverse} {o : GenOrders} {target : GeoKind}

theorem one_div_sqrt2 : 1 / Real.sqrt 2 = qq := by
  unfold qq
  have h : Real.sqrt 2 ^ 2 = 2 := Real.sq_sqrt (by norm_num)
  have : Real.sqrt 2 ≠ 0 := by positivity
  field_simp
  linarith

theorem div_sqrt2 (x : ℝ) : x / Real.sqrt 2 = x * qq := by rw [← one_div_sqrt2]; ring

theorem diskA_run (r : ℝ) (na nb : Nat) (renumber : Bool) {P1 P2 P3 : Piece} (h : diskA r na nb = [P1, P2, P3]) :
    quarterDisk2dA inv o r na nb target renumber = diskRun2 inv o P1.nodes P2.nodes P3.nodes r na nb target renumber := by
  simp only [diskA, List.cons.injEq] at h
  obtain ⟨rfl, rfl, rfl, -⟩ := h
  unfold quarterDisk2dA diskRun2
  simp only [angular_zero, angular_one, angular_half, div_sqrt2]
  norm_num

theorem diskB_run {a r : ℝ} (har : a < r) (na nb : Nat) (renumber : Bool) {P1 P2 P3 : Piece} (h : diskB a r na nb = [P1, P2, P3]) :
    quarterDisk2dB inv o a r na nb target renumber = diskRun2 inv o P1.nodes P2.nodes P3.nodes r na nb target renumber := by
  simp only [diskB, List.cons.injEq] at h
  obtain ⟨rfl, rfl, rfl, -⟩ := h
  unfold quarterDisk2dB diskRun2
  rw [if_neg (not_le.2 har)]
  have e : a + (r - a) / 2 = (a + r) / 2 := by ring
  simp only [angular_zero, angular_one, angular_half, angular_q1, angular_q3, one_div_sqrt2, e]
  rfl

theorem diskA3_run (r z : ℝ) (na nb nz : Nat) (renumber : Bool) {P1 P2 P3 : Piece} (h : (diskA r na nb).map (prism z nz) = [P1, P2, P3]) :
    quarterDisk3dA inv o r z na nb nz target renumber = diskRun3 inv o P1.nodes P2.nodes P3.nodes r na nb nz target renumber := by
  simp only [diskA, List.map_cons, List.cons.injEq] at h
  obtain ⟨rfl, rfl, rfl, -⟩ := h
  unfold quarterDisk3dA diskRun3 prism prismNodes
  simp only [angular_zero, angular_one, angular_half, div_sqrt2]
  norm_num

theorem diskB3_run {a r : ℝ} (har : a < r) (z : ℝ) (na nb nz : Nat) (renumber : Bool) {P1 P2 P3 : Piece} (h : (diskB a r na nb).map (prism z nz) = [P1, P2, P3]) :
    quarterDisk3dB inv o a r z na nb nz target renumber = diskRun3 inv o P1.nodes P2.nodes P3.nodes r na nb nz target renumber := by
  simp only [diskB, List.map_cons, List.cons.injEq] at h
  obtain ⟨rfl, rfl, rfl, -⟩ := h
  unfold quarterDisk3dB diskRun3 prism prismNodes
  rw [if_neg (not_le.2 har)]
  have e : a + (r - a) / 2 = (a + r) / 2 := by ring
  simp only [angular_zero, angular_one, angular_half, angular_q1, angular_q3, one_div_sqrt2, e]
  rfl

theorem plate_run (r a b : ℝ) (na nb n45 : Nat) (renumber : Bool) {P1 P2 P3 P4 : Piece} (h : plate r a b na nb n45 = [P1, P2, P3, P4]) :
    quarterPlateHole2d inv o r a b na nb n45 target renumber = plateRun2 inv o P1.nodes P2.nodes P3.nodes P4.nodes r (r + a) na nb n45 target renumber := by
  simp only [plate, List.cons.injEq] at h
  obtain ⟨rfl, rfl, rfl, rfl, -⟩ := h
  unfold quarterPlateHole2d plateRun2
  have e1 : r + a / 2 = (r + (r + a)) / 2 := by ring
  have e2 : r + a + b / 2 = (r + a + (r + a + b)) / 2 := by ring
  have e3 : (r * qq + (r + a) * qq) / 2 = (r + (r + a)) / 2 * qq := by ring
  simp only [angular_zero, angular_one, angular_half, angular_q1, angular_q3, one_div_sqrt2, e1, e2, e3, between, List.zipWith_cons_cons, List.zipWith_nil_left,
    add_zero, zero_div]
  rfl

theorem plate3_run (r a b z : ℝ) (na nb n45 nz : Nat) (renumber : Bool) {P1 P2 P3 P4 : Piece} (h : (plate r a b na nb n45).map (prism z nz) = [P1, P2, P3, P4]) :
    quarterPlateHole3d inv o r a b z na nb n45 nz target renumber = plateRun3 inv o P1.nodes P2.nodes P3.nodes P4.nodes r (r + a) na nb n45 nz target renumber := by
  simp only [plate, List.map_cons, List.cons.injEq] at h
  obtain ⟨rfl, rfl, rfl, rfl, -⟩ := h
  unfold quarterPlateHole3d plateRun3 prism prismNodes
  have e1 : r + a / 2 = (r + (r + a)) / 2 := by ring
  have e2 : r + a + b / 2 = (r + a + (r + a + b)) / 2 := by ring
  have e3 : (r * qq + (r + a) * qq) / 2 = (r + (r + a)) / 2 * qq := by ring
  simp only [angular_zero, angular_one, angular_half, angular_q1, angular_q3, one_div_sqrt2, e1, e2, e3, between, List.zipWith_cons_cons, List.zipWith_nil_left,
    add_zero, zero_div]
  rfl

theorem and_of_and {p q e m : Prop} (hp : p) (h : (¬ q → e) ∧ (q → m)) : (¬ (p ∧ q) → e) ∧ (p ∧ q → m) :=
  ⟨fun hn => h.1 fun hq => hn ⟨hp, hq⟩, fun hq => h.2 hq.2⟩

/-! ## The meshes -/

/-- **C68** (`quarter_disk_2d_a`): wrong counts or a wrong kind of cells are an error; otherwise the mesh consists of the meshes of the three blocks. -/
theorem C68_quarter_disk_2d_a (hinv : InverseSpec inv) (hnp : ∀ n a, inv n a ≠ .panic) (hall : ∀ n a, detN n a ≠ 0 → ∃ r, inv n a = .ok r) (ho : o.Valid)
    {r : ℝ} (hr : 2 / 10 ^ 8 ≤ r) {na nb : Nat} (ca : CountOk na) (cb : CountOk nb) :
    (¬ (1 ≤ na ∧ 1 ≤ nb ∧ target.classOf = .qua) → ∀ renumber, ∃ e, quarterDisk2dA inv o r na nb target renumber = .err e) ∧
    (1 ≤ na ∧ 1 ≤ nb ∧ target.classOf = .qua → MadeOf inv 2 (diskA r na nb) target (quarterDisk2dA inv o r na nb target)) := by
  have hc := diskA_checked hr na nb
  rw [show quarterDisk2dA inv o r na nb target = _ from funext fun renumber => diskA_run r na nb renumber rfl]
  exact disk_run2 hinv hnp hall ho (hc _ (by simp [diskA])).good (hc _ (by simp [diskA])).good (hc _ (by simp [diskA])).good rfl rfl rfl rfl rfl rfl ca cb

/-- **C68** (`quarter_disk_2d_b`): an inner radius that is not smaller than the outer one is an error, as well. -/
theorem C68_quarter_disk_2d_b (hinv : InverseSpec inv) (hnp : ∀ n a, inv n a ≠ .panic) (hall : ∀ n a, detN n a ≠ 0 → ∃ r, inv n a = .ok r) (ho : o.Valid)
    {a r : ℝ} (ha : 0 < a) (hr : 2 / 10 ^ 8 ≤ r) {na nb : Nat} (ca : CountOk na) (cb : CountOk nb) :
    (¬ (a < r ∧ 1 ≤ na ∧ 1 ≤ nb ∧ target.classOf = .qua) → ∀ renumber, ∃ e, quarterDisk2dB inv o a r na nb target renumber = .err e) ∧
    (a < r ∧ 1 ≤ na ∧ 1 ≤ nb ∧ target.classOf = .qua → MadeOf inv 2 (diskB a r na nb) target (quarterDisk2dB inv o a r na nb target)) := by
  by_cases har : a < r
  swap
  · exact ⟨fun _ renumber => by unfold quarterDisk2dB; rw [if_pos (not_lt.1 har)]; exact ⟨_, rfl⟩, fun h => absurd h.1 har⟩
  have hc := diskB_checked ha har hr na nb
  rw [show quarterDisk2dB inv o a r na nb target = _ from funext fun renumber => diskB_run har na nb renumber rfl]
  refine and_of_and har ?_
  exact disk_run2 hinv hnp hall ho (hc _ (by simp [diskB])).good (hc _ (by simp [diskB])).good (hc _ (by simp [diskB])).good rfl rfl rfl rfl rfl rfl ca cb

/-- **C68** (`quarter_disk_3d_a`). -/
theorem C68_quarter_disk_3d_a (hinv : InverseSpec inv) (hnp : ∀ n a, inv n a ≠ .panic) (hall : ∀ n a, detN n a ≠ 0 → ∃ r, inv n a = .ok r) (ho : o.Valid)
    {r z : ℝ} (hr : 2 / 10 ^ 8 ≤ r) (hz : 0 < z) {na nb nz : Nat} (ca : CountOk na) (cb : CountOk nb) (cz : CountOk nz) :
    (¬ (1 ≤ na ∧ 1 ≤ nb ∧ 1 ≤ nz ∧ target.classOf = .hex) → ∀ renumber, ∃ e, quarterDisk3dA inv o r z na nb nz target renumber = .err e) ∧
    (1 ≤ na ∧ 1 ≤ nb ∧ 1 ≤ nz ∧ target.classOf = .hex →
      MadeOf inv 3 ((diskA r na nb).map (prism z nz)) target (quarterDisk3dA inv o r z na nb nz target)) := by
  have hc := diskA_checked hr na nb
  rw [show quarterDisk3dA inv o r z na nb nz target = _ from funext fun renumber => diskA3_run r z na nb nz renumber rfl]
  exact disk_run3 hinv hnp hall ho (prism_good (hc _ (by simp [diskA])) hz nz) (prism_good (hc _ (by simp [diskA])) hz nz) (prism_good (hc _ (by simp [diskA])) hz nz)
    rfl rfl rfl rfl rfl rfl ca cb cz

/-- **C68** (`quarter_disk_3d_b`). -/
theorem C68_quarter_disk_3d_b (hinv : InverseSpec inv) (hnp : ∀ n a, inv n a ≠ .panic) (hall : ∀ n a, detN n a ≠ 0 → ∃ r, inv n a = .ok r) (ho : o.Valid)
    {a r z : ℝ} (ha : 0 < a) (hr : 2 / 10 ^ 8 ≤ r) (hz : 0 < z) {na nb nz : Nat} (ca : CountOk na) (cb : CountOk nb) (cz : CountOk nz) :
    (¬ (a < r ∧ 1 ≤ na ∧ 1 ≤ nb ∧ 1 ≤ nz ∧ target.classOf = .hex) → ∀ renumber, ∃ e, quarterDisk3dB inv o a r z na nb nz target renumber = .err e) ∧
    (a < r ∧ 1 ≤ na ∧ 1 ≤ nb ∧ 1 ≤ nz ∧ target.classOf = .hex →
      MadeOf inv 3 ((diskB a r na nb).map (prism z nz)) target (quarterDisk3dB inv o a r z na nb nz target)) := by
  by_cases har : a < r
  swap
  · exact ⟨fun _ renumber => by unfold quarterDisk3dB; rw [if_pos (not_lt.1 har)]; exact ⟨_, rfl⟩, fun h => absurd h.1 har⟩
  have hc := diskB_checked ha har hr na nb
  rw [show quarterDisk3dB inv o a r z na nb nz target = _ from funext fun renumber => diskB3_run har z na nb nz renumber rfl]
  refine and_of_and har ?_
  exact disk_run3 hinv hnp hall ho (prism_good (hc _ (by simp [diskB])) hz nz) (prism_good (hc _ (by simp [diskB])) hz nz)
    (prism_good (hc _ (by simp [diskB])) hz nz) rfl rfl rfl rfl rfl rfl ca cb cz

/-- **C68** (`quarter_plate_hole_2d`): wrong counts or a wrong kind of cells are an error; otherwise the mesh consists of the meshes of the four blocks. -/
theorem C68_quarter_plate_hole_2d (hinv : InverseSpec inv) (hnp : ∀ n a, inv n a ≠ .panic) (hall : ∀ n a, detN n a ≠ 0 → ∃ r, inv n a = .ok r) (ho : o.Valid)
    {r a b : ℝ} (hr : 2 / 10 ^ 8 ≤ r) (ha : 0 < a) (hb : 0 < b) {na nb n45 : Nat} (ca : CountOk na) (cb : CountOk nb) (cc : CountOk n45) :
    (¬ (1 ≤ na ∧ 1 ≤ nb ∧ 1 ≤ n45 ∧ target.classOf = .qua) → ∀ renumber, ∃ e, quarterPlateHole2d inv o r a b na nb n45 target renumber = .err e) ∧
    (1 ≤ na ∧ 1 ≤ nb ∧ 1 ≤ n45 ∧ target.classOf = .qua →
      MadeOf inv 2 (plate r a b na nb n45) target (quarterPlateHole2d inv o r a b na nb n45 target)) := by
  have hc := plate_checked hr ha hb na nb n45
  rw [show quarterPlateHole2d inv o r a b na nb n45 target = _ from funext fun renumber => plate_run r a b na nb n45 renumber rfl]
  exact plate_run2 hinv hnp hall ho (hc _ (by simp [plate])).good (hc _ (by simp [plate])).good (hc _ (by simp [plate])).good (hc _ (by simp [plate])).good
    rfl rfl rfl rfl rfl rfl rfl rfl ca cb cc

/-- **C68** (`quarter_plate_hole_3d`). -/
theorem C68_quarter_plate_hole_3d (hinv : InverseSpec inv) (hnp : ∀ n a, inv n a ≠ .panic) (hall : ∀ n a, detN n a ≠ 0 → ∃ r, inv n a = .ok r) (ho : o.Valid)
    {r a b z : ℝ} (hr : 2 / 10 ^ 8 ≤ r) (ha : 0 < a) (hb : 0 < b) (hz : 0 < z) {na nb n45 nz : Nat} (ca : CountOk na) (cb : CountOk nb) (cc : CountOk n45) (cz : CountOk nz) :
    (¬ (1 ≤ na ∧ 1 ≤ nb ∧ 1 ≤ n45 ∧ 1 ≤ nz ∧ target.classOf = .hex) → ∀ renumber, ∃ e, quarterPlateHole3d inv o r a b z na nb n45 nz target renumber = .err e) ∧
    (1 ≤ na ∧ 1 ≤ nb ∧ 1 ≤ n45 ∧ 1 ≤ nz ∧ target.classOf = .hex →
      MadeOf inv 3 ((plate r a b na nb n45).map (prism z nz)) target (quarterPlateHole3d inv o r a b z na nb n45 nz target)) := by
  have hc := plate_checked hr ha hb na nb n45
  rw [show quarterPlateHole3d inv o r a b z na nb n45 nz target = _ from funext fun renumber => plate3_run r a b z na nb n45 nz renumber rfl]
  exact plate_run3 hinv hnp hall ho (prism_good (hc _ (by simp [plate])) hz nz) (prism_good (hc _ (by simp [plate])) hz nz) (prism_good (hc _ (by simp [plate])) hz nz)
    (prism_good (hc _ (by simp [plate])) hz nz) rfl rfl rfl rfl rfl rfl rfl rfl ca cb cc cz

/-- A block without a positive Jacobian at its centre is an error. -/
theorem flat_block (hinv : InverseSpec inv) (hnp : ∀ n a, inv n a ≠ .panic) (hall : ∀ n a, detN n a ≠ 0 → ∃ r, inv n a = .ok r) {P : Piece} {ndim : Nat}
    (h : ¬ 0 < detN ndim (centreJacobian P.nodes.length ndim P.at_)) : ∃ e, blockOf inv ndim P.nodes = .err e :=
  (C54_new (nrow := P.nodes.length) (ndim := ndim) (at_ := P.at_) hinv hnp hall).2 fun hc => h hc.2

theorem flat_prism (hinv : InverseSpec inv) (hnp : ∀ n a, inv n a ≠ .panic) (hall : ∀ n a, detN n a ≠ 0 → ∃ r, inv n a = .ok r) {P : Piece} (h : Checked P)
    {z : ℝ} (hz : z ≤ 0) (nz : Nat) : ∃ e, blockOf inv 3 (prism z nz P).nodes = .err e := by
  refine flat_block hinv hnp hall ?_
  rw [prism_jac h]
  have := h.jac
  exact not_lt.2 (mul_nonpos_of_nonneg_of_nonpos this.le (by linarith))

theorem diskRun2_err {n1 n2 n3 : List (List ℝ)} {r : ℝ} {na nb : Nat} {renumber : Bool} {e : String} (h : blockOf inv 2 n1 = .err e) :
    diskRun2 inv o n1 n2 n3 r na nb target renumber = .err e := by unfold diskRun2; rw [h]; rfl

theorem diskRun3_err {n1 n2 n3 : List (List ℝ)} {r : ℝ} {na nb nz : Nat} {renumber : Bool} {e : String} (h : blockOf inv 3 n1 = .err e) :
    diskRun3 inv o n1 n2 n3 r na nb nz target renumber = .err e := by unfold diskRun3; rw [h]; rfl

theorem plateRun3_err {n1 n2 n3 n4 : List (List ℝ)} {r ra : ℝ} {na nb n45 nz : Nat} {renumber : Bool} {e : String} (h : blockOf inv 3 n1 = .err e) :
    plateRun3 inv o n1 n2 n3 n4 r ra na nb n45 nz target renumber = .err e := by unfold plateRun3; rw [h]; rfl

/-- **C68** (height): in space, a height that is not positive is an error. -/
theorem C68_no_height (hinv : InverseSpec inv) (hnp : ∀ n a, inv n a ≠ .panic) (hall : ∀ n a, detN n a ≠ 0 → ∃ r, inv n a = .ok r) {r z : ℝ} (hr : 2 / 10 ^ 8 ≤ r) (hz : z ≤ 0)
    (na nb nz : Nat) (renumber : Bool) :
    (∃ e, quarterDisk3dA inv o r z na nb nz target renumber = .err e) ∧
    (∀ a, 0 < a → ∃ e, quarterDisk3dB inv o a r z na nb nz target renumber = .err e) ∧
    (∀ a b n45, 0 < a → 0 < b → ∃ e, quarterPlateHole3d inv o r a b z na nb n45 nz target renumber = .err e) := by
  refine ⟨?_, fun a ha => ?_, fun a b n45 ha hb => ?_⟩
  · rw [diskA3_run r z na nb nz renumber rfl]
    obtain ⟨e, he⟩ := flat_prism hinv hnp hall (diskA_checked hr na nb _ (List.getElem_mem (n := 0) (by simp [diskA]))) hz nz
    exact ⟨e, diskRun3_err he⟩
  · by_cases har : a < r
    swap
    · unfold quarterDisk3dB; rw [if_pos (not_lt.1 har)]; exact ⟨_, rfl⟩
    rw [diskB3_run har z na nb nz renumber rfl]
    obtain ⟨e, he⟩ := flat_prism hinv hnp hall (diskB_checked ha har hr na nb _ (List.getElem_mem (n := 0) (by simp [diskB]))) hz nz
    exact ⟨e, diskRun3_err he⟩
  · rw [plate3_run r a b z na nb n45 nz renumber rfl]
    obtain ⟨e, he⟩ := flat_prism hinv hnp hall (plate_checked hr ha hb na nb n45 _ (List.getElem_mem (n := 0) (by simp [plate]))) hz nz
    exact ⟨e, plateRun3_err he⟩

/-- **C68** (radius): a disk (version A) of radius zero is an error. -/
theorem C68_zero_radius (hinv : InverseSpec inv) (hnp : ∀ n a, inv n a ≠ .panic) (hall : ∀ n a, detN n a ≠ 0 → ∃ r, inv n a = .ok r) (na nb : Nat) (renumber : Bool) :
    ∃ e, quarterDisk2dA inv o 0 na nb target renumber = .err e := by
  rw [diskA_run 0 na nb renumber rfl]
  obtain ⟨e, he⟩ := flat_block (inv := inv) (ndim := 2) (P := (diskA 0 na nb)[0]'(by simp [diskA])) hinv hnp hall (by
    show ¬ 0 < detN 2 (centreJacobian 4 2 _)
    rw [jac4]
    simp [diskA, Piece.at_, at', angular])
  exact ⟨e, diskRun2_err he⟩

end
end Gemlab.Structured
