import Verif.Props.DrawMarks

/-! # C77 (normals and markers) -/
namespace Gemlab.Draw
open Gemlab Gemlab.Mesh Gemlab.Shapes Gemlab.Props.Mesh Gemlab.Props.Features Gemlab.Spec Gemlab.Scratchpad
noncomputable section

variable {m : Mesh ℝ} {extractAll : Bool} {x : Extracted ℝ} {F : Features}

/-- A feature that the pads accept. -/
structure DrawableFeature (m : Mesh ℝ) (f : Feature) : Prop where
  dim : f.kind.ndim + 1 = m.ndim
  len : f.points.length = f.kind.nnode
  range : ∀ p ∈ f.points, p < m.points.length

theorem middleKsi_eq (k : GeoKind) : middleKsi k = middleOf k := by
  unfold middleKsi middleOf
  split <;> rfl

theorem middleOf_edge {k : GeoKind} (hk : k.ndim = 1) : middleOf k = fun _ => 0 := by
  funext i
  unfold middleOf
  rw [if_neg]
  revert hk
  cases k <;> decide

theorem normalAt_ok (h : ValidMesh m) (hd : m.ndim = 2 ∨ m.ndim = 3) {f : Feature} (hf : DrawableFeature m f) :
    ∃ x un, normalAt m f.kind f.points (middleOf f.kind) = .ok (x, un) ∧ (∀ i < m.ndim, x i = featurePointAt m f (middleOf f.kind) i) ∧
      ∀ i < m.ndim, un i = featureNormalAt m f i / normOf m.ndim (featureNormalAt m f) := by
  obtain ⟨pad, pad', p1, p2, hh⟩ := pad_ready h hd f.kind (by have := hf.dim; omega) f.points hf.len hf.range
  obtain ⟨⟨magN, un, pad''⟩, p3⟩ := (C32_errors pad' (by rw [hh.space]; exact hd) m.ndim (middleOf f.kind)).1 ⟨by rw [hh.kind, hh.space]; exact hf.dim, by rw [hh.space]⟩
  have ht : ∀ a, ∀ i < m.ndim, tangent pad' (middleOf f.kind) a i = featureTangent m f (middleOf f.kind) a i := by
    intro a i hi
    unfold tangent featureTangent
    rw [hh.kind]
    exact Finset.sum_congr rfl fun n hn => by rw [hh.coords n i (Finset.mem_range.1 hn) hi]
  have hp := (calcNormalVector_ok p3).2.2.2
  have hc : ∃ q, pad''.calcCoords m.ndim (middleOf f.kind) = .ok q ∧ ∀ i < m.ndim, q.1 i = featurePointAt m f (middleOf f.kind) i := by
    unfold Scratchpad.calcCoords
    have e1 : pad''.okXxt = true := by rw [hp]; exact hh.ok
    have e2 : pad''.spaceNdim = m.ndim := by rw [hp]; exact hh.space
    rw [e1, e2]
    simp only [Bool.not_true, Bool.false_eq_true, if_false, ne_eq, not_true_eq_false]
    refine ⟨_, rfl, fun i hi => ?_⟩
    dsimp only
    unfold featurePointAt
    have e3 : (pad''.calcInterp (middleOf f.kind)).kind = f.kind := by rw [hp]; exact hh.kind
    rw [e3]
    refine Finset.sum_congr rfl fun n hn => ?_
    rw [← hh.coords n i (Finset.mem_range.1 hn) hi]
    subst hp
    show pad'.xxt i n * Shapes.calcInterp pad'.kind _ n = _
    rw [hh.kind]
    rfl
  obtain ⟨⟨x, q⟩, c1, c2⟩ := hc
  refine ⟨x, un, ?_, c2, ?_⟩
  · unfold normalAt
    simp only [p1, p2, p3, c1, Res.bind_ok]
    rfl
  · unfold featureNormalAt
    rcases hd with h2 | h3
    · rw [if_pos h2, h2]
      exact (normal_line (by rw [hh.space, h2]) p3 (by rw [ht 0 1 (by omega)]; rfl) (by rw [ht 0 0 (by omega)]; rfl)).2
    · rw [if_neg (by omega), h3]
      refine (normal_surface (v := faceNormal m f (middleOf f.kind)) (by rw [hh.space, h3]) p3 ?_ ?_ ?_).2 <;>
        simp only [ht _ _ (show 0 < m.ndim by omega), ht _ _ (show 1 < m.ndim by omega), ht _ _ (show 2 < m.ndim by omega)] <;> rfl

theorem ahead_along {d : Nat} {x un p v : Nat → ℝ} {s : ℝ} (hx : ∀ i < d, x i = p i) (hu : ∀ i < d, un i = v i / normOf d v) :
    IsAlong d p v s (ahead d x un 0) (ahead d x un s) := by
  refine ⟨by simp [ahead], by simp [ahead], fun i hi => ?_, fun i hi => ?_⟩
  · rw [List.getD_eq_getElem _ _ (by simpa [ahead] using hi)]
    simp [ahead, hx i hi]
  · rw [List.getD_eq_getElem _ _ (by simpa [ahead] using hi)]
    simp [ahead, hx i hi, hu i hi]

/-- The diagonal. -/
theorem diagonal_ok (hF : IsNew m extractAll x F) : diagonal F = .ok (boxDiagonal m.ndim F.min F.max) := by
  unfold diagonal boxDiagonal
  rw [hF.mesh]
  obtain ⟨s, e1, e2⟩ := Res.foldlM_range (fun acc i => do
      let hi ← Res.idx F.max i
      let lo ← Res.idx F.min i
      pure (acc + |hi - lo| * |hi - lo|)) m.ndim (0 : ℝ) (fun k s => s = ∑ i ∈ Finset.range k, (F.max.getD i 0 - F.min.getD i 0) ^ 2) rfl (by
        intro n s hn hs
        have h1 : n < F.max.length := by rw [hF.box.lenMax]; exact hn
        have h2 : n < F.min.length := by rw [hF.box.lenMin]; exact hn
        rw [Res.idx_of_lt h1, Res.bind_ok, Res.idx_of_lt h2, Res.bind_ok]
        refine ⟨_, rfl, ?_⟩
        rw [hs, Finset.sum_range_succ, List.getD_eq_getElem _ _ h1, List.getD_eq_getElem _ _ h2, abs_mul_abs_self, sq])
  rw [e1, Res.bind_ok, e2]
  rfl

/-- A loop that adds one mark for some entries. -/
theorem mapM_filter {α : Type} (f : α → Res (List Mark)) (p : α → Bool) (R : α → Mark → Prop) (L : List α)
    (h : ∀ e ∈ L, ∃ l, f e = .ok l ∧ (p e = true → ∃ a, l = [a] ∧ R e a) ∧ (p e = false → l = [])) :
    ∃ l, L.mapM f = .ok l ∧ List.Forall₂ R (L.filter p) l.flatten := by
  induction L with
  | nil => exact ⟨[], by simp, by simp⟩
  | cons e L ih =>
    obtain ⟨l', h1, h2⟩ := ih fun e he => h e (List.mem_cons_of_mem _ he)
    obtain ⟨l, h3, h4, h5⟩ := h e List.mem_cons_self
    refine ⟨l :: l', ?_, ?_⟩
    · rw [List.mapM_cons, h3, Res.bind_ok, h1, Res.bind_ok]
      rfl
    · rw [List.flatten_cons]
      cases hp : p e with
      | true =>
        obtain ⟨a, rfl, ha⟩ := h4 hp
        rw [List.filter_cons_of_pos hp]
        exact .cons ha h2
      | false =>
        rw [h5 hp, List.filter_cons_of_neg (by simp [hp])]
        exact h2

/-- **C77.** `normal_vectors` in the plane: one arrow for each stored edge that belongs to one cell only; it starts in the middle of the edge and goes along its
normal; its length is the given multiple of the diagonal of the bounding box. -/
theorem C77_normals_2d (hF : IsNew m extractAll x F) (h : ValidMesh m) (h2 : m.ndim = 2) {iterE : List (EdgeKey × Feature) → List (EdgeKey × Feature)}
    {iterF : List (FaceKey × Feature) → List (FaceKey × Feature)} (hE : IterOrder iterE) (mult : ℝ) :
    ∃ l es, normalVectors iterE iterF F mult = .ok l ∧ (es.map (·.1)).Nodup ∧ (∀ key f, (key, f) ∈ es ↔ F.edges.get key = some f ∧ ExactlyOne (HasEdge m key)) ∧
      List.Forall₂ (fun (e : EdgeKey × Feature) mark => ∃ a b, mark = .arrow a b ∧ IsNormalLine m e.2 (boxDiagonal 2 F.min F.max * mult) a b) es l := by
  obtain ⟨all, e1, hg⟩ := extractAll2dEdges_spec h h2
  have hall := hF.all2d h2
  rw [e1, Res.ok.injEq] at hall
  obtain ⟨_, hx⟩ | ⟨h3, _⟩ := hF.extracted
  swap
  · omega
  have hwf : (F.edges.map (·.1)).Nodup := by rw [hF.edges]; exact hx.keysNodup
  have hget : ∀ {key f}, (key, f) ∈ F.edges ↔ F.edges.get key = some f := fun {key f} => (HMap.get_eq_some_iff hwf).symm
  have hsome : ∀ {key f}, F.edges.get key = some f → ∃ l, F.all2dEdges.get key = some l ∧ (l.length = 1 ↔ ExactlyOne (HasEdge m key)) := by
    intro key f hf
    rw [hF.edges] at hf
    obtain ⟨⟨c, e, hce⟩, -⟩ := (hx.accepted key).1 (by rw [hf]; rfl)
    rw [← hall]
    cases hk : all.get key with
    | none => exact absurd hce ((hg.none key).1 hk c e)
    | some l =>
      obtain ⟨_, _, _, _, hone⟩ := hg.head hk
      exact ⟨l, rfl, hone⟩
  obtain ⟨l, q1, q2⟩ := mapM_filter (edgeArrow F (boxDiagonal 2 F.min F.max * mult)) (fun e => ((F.all2dEdges.get e.1).getD []).length == 1)
    (fun e mark => ∃ a b, mark = .arrow a b ∧ IsNormalLine m e.2 (boxDiagonal 2 F.min F.max * mult) a b) (iterE F.edges) (by
      rintro ⟨key, f⟩ he
      have hf := hget.1 (hE.mem.1 he)
      obtain ⟨cl, c1, -⟩ := hsome hf
      obtain ⟨a1, a2, a3⟩ := stored_edge hF h h2 hf
      obtain ⟨px, un, n1, n2, n3⟩ := normalAt_ok h (.inl h2) (f := f) ⟨a1, a2, a3⟩
      have hmid : middleOf f.kind = fun _ => 0 := middleOf_edge (by omega)
      unfold edgeArrow
      dsimp only
      rw [c1]
      simp only [unwrap, Res.bind_ok, Option.getD_some]
      by_cases hl : cl.length = 1
      · rw [if_pos hl, hF.mesh, ← hmid, n1, Res.bind_ok]
        refine ⟨_, rfl, fun _ => ⟨_, rfl, _, _, rfl, ?_⟩, fun hp => ?_⟩
        · unfold IsNormalLine
          have := ahead_along (s := boxDiagonal 2 F.min F.max * mult) n2 n3
          rw [h2] at this ⊢
          exact this
        · simp [hl] at hp
      · rw [if_neg hl]
        exact ⟨_, rfl, fun hp => absurd hp (by simpa using hl), fun _ => rfl⟩)
  refine ⟨l.flatten, _, ?_, ?_, ?_, q2⟩
  · unfold normalVectors
    rw [diagonal_ok hF, Res.bind_ok, if_pos (by rw [hF.mesh]; exact h2), h2, q1, Res.bind_ok]
    rfl
  · refine List.Nodup.sublist (List.filter_sublist.map _) ?_
    exact ((hE F.edges).map _).nodup_iff.2 hwf
  · intro key f
    rw [List.mem_filter, hE.mem, hget]
    constructor
    · rintro ⟨hf, hl⟩
      obtain ⟨cl, c1, c2⟩ := hsome hf
      rw [c1] at hl
      exact ⟨hf, c2.1 (by simpa using hl)⟩
    · rintro ⟨hf, hone⟩
      obtain ⟨cl, c1, c2⟩ := hsome hf
      exact ⟨hf, by rw [c1]; simpa using c2.2 hone⟩

/-- **C77.** `normal_vectors` in space: one line for each stored face that belongs to one cell only, then one for each shell; they start in the middle of the
face or shell and go along its normal. -/
theorem C77_normals_3d (hF : IsNew m extractAll x F) (h : ValidMesh m) (h3 : m.ndim = 3) {iterE : List (EdgeKey × Feature) → List (EdgeKey × Feature)}
    {iterF : List (FaceKey × Feature) → List (FaceKey × Feature)} (hI : IterOrder iterF) (mult : ℝ) :
    ∃ l l' es, normalVectors iterE iterF F mult = .ok (l ++ l') ∧ (es.map (·.1)).Nodup ∧ (∀ key f, (key, f) ∈ es ↔ F.faces.get key = some f ∧ ExactlyOne (HasFace m key)) ∧
      List.Forall₂ (fun (e : FaceKey × Feature) mark => ∃ a b, mark = .segment a b ∧ IsNormalLine m e.2 (boxDiagonal 3 F.min F.max * mult) a b) es l ∧
      List.Forall₂ (fun (c : Nat) mark => ∃ cell a b, m.cells[c]? = some cell ∧ cell.kind.ndim = 2 ∧ mark = .segment a b ∧
        IsNormalLine m ⟨cell.kind, cell.points, 0⟩ (boxDiagonal 3 F.min F.max * mult) a b) F.shells l' := by
  obtain ⟨all, e1, hg⟩ := extractAllFaces_spec h h3
  have hall := hF.all3d h3
  rw [e1, Res.ok.injEq] at hall
  obtain ⟨h2, _⟩ | ⟨_, hx⟩ := hF.extracted
  · omega
  have hwf : (F.faces.map (·.1)).Nodup := by rw [hF.faces]; exact hx.keysNodup.1
  have hget : ∀ {key f}, (key, f) ∈ F.faces ↔ F.faces.get key = some f := fun {key f} => (HMap.get_eq_some_iff hwf).symm
  have hsome : ∀ {key f}, F.faces.get key = some f → ∃ l, F.allFaces.get key = some l ∧ (l.length = 1 ↔ ExactlyOne (HasFace m key)) := by
    intro key f hf
    rw [hF.faces] at hf
    obtain ⟨⟨c, e, hce⟩, -⟩ := (hx.accepted key).1 (by rw [hf]; rfl)
    rw [← hall]
    cases hk : all.get key with
    | none => exact absurd hce ((hg.none key).1 hk c e)
    | some l =>
      obtain ⟨_, _, _, _, hone⟩ := hg.head hk
      exact ⟨l, rfl, hone⟩
  obtain ⟨l, q1, q2⟩ := mapM_filter (faceLine F (boxDiagonal 3 F.min F.max * mult)) (fun e => ((F.allFaces.get e.1).getD []).length == 1)
    (fun e mark => ∃ a b, mark = .segment a b ∧ IsNormalLine m e.2 (boxDiagonal 3 F.min F.max * mult) a b) (iterF F.faces) (by
      rintro ⟨key, f⟩ he
      have hf := hget.1 (hI.mem.1 he)
      obtain ⟨cl, c1, -⟩ := hsome hf
      obtain ⟨a1, a2, a3⟩ := stored_face hF h h3 hf
      obtain ⟨px, un, n1, n2, n3⟩ := normalAt_ok h (.inr h3) (f := f) ⟨a1, a2, a3⟩
      unfold faceLine
      dsimp only
      rw [c1]
      simp only [unwrap, Res.bind_ok, Option.getD_some]
      by_cases hl : cl.length = 1
      · rw [if_pos hl, hF.mesh, middleKsi_eq, n1, Res.bind_ok]
        refine ⟨_, rfl, fun _ => ⟨_, rfl, _, _, rfl, ?_⟩, fun hp => ?_⟩
        · unfold IsNormalLine
          have := ahead_along (s := boxDiagonal 3 F.min F.max * mult) n2 n3
          rw [h3] at this ⊢
          exact this
        · simp [hl] at hp
      · rw [if_neg hl]
        exact ⟨_, rfl, fun hp => absurd hp (by simpa using hl), fun _ => rfl⟩)
  obtain ⟨l', r1, r2⟩ := mapM_filter (shellLine F (boxDiagonal 3 F.min F.max * mult)) (fun _ => true)
    (fun c mark => ∃ cell a b, m.cells[c]? = some cell ∧ cell.kind.ndim = 2 ∧ mark = .segment a b ∧
        IsNormalLine m ⟨cell.kind, cell.points, 0⟩ (boxDiagonal 3 F.min F.max * mult) a b) F.shells (by
      intro c hc
      obtain ⟨-, cell, hcell, hk⟩ := (hF.shells c).1 hc
      have hm := List.mem_of_getElem? hcell
      obtain ⟨px, un, n1, n2, n3⟩ := normalAt_ok h (.inr h3) (f := ⟨cell.kind, cell.points, 0⟩) ⟨by dsimp only; omega, h.nnode _ hm, h.inRange _ hm⟩
      unfold shellLine
      have hi : Res.idx m.cells c = .ok cell := by
        obtain ⟨hl, hh⟩ := List.getElem?_eq_some_iff.1 hcell
        rw [Res.idx_of_lt hl, hh]
      rw [hF.mesh, hi, Res.bind_ok, middleKsi_eq, n1, Res.bind_ok]
      refine ⟨_, rfl, fun _ => ⟨_, rfl, cell, _, _, hcell, hk, rfl, ?_⟩, fun hp => by simp at hp⟩
      unfold IsNormalLine
      have := ahead_along (s := boxDiagonal 3 F.min F.max * mult) n2 n3
      rw [h3] at this ⊢
      exact this)
  rw [List.filter_eq_self.2 (fun _ _ => rfl)] at r2
  refine ⟨l.flatten, l'.flatten, _, ?_, ?_, ?_, q2, r2⟩
  · unfold normalVectors
    rw [diagonal_ok hF, Res.bind_ok, if_neg (by rw [hF.mesh, h3]; decide), h3, q1, Res.bind_ok, r1, Res.bind_ok]
    rfl
  · refine List.Nodup.sublist (List.filter_sublist.map _) ?_
    exact ((hI F.faces).map _).nodup_iff.2 hwf
  · intro key f
    rw [List.mem_filter, hI.mem, hget]
    constructor
    · rintro ⟨hf, hl⟩
      obtain ⟨cl, c1, c2⟩ := hsome hf
      rw [c1] at hl
      exact ⟨hf, c2.1 (by simpa using hl)⟩
    · rintro ⟨hf, hone⟩
      obtain ⟨cl, c1, c2⟩ := hsome hf
      exact ⟨hf, by rw [c1]; simpa using c2.2 hone⟩

end
end Gemlab.Draw
