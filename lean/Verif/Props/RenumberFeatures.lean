import Verif.Props.Features
import Verif.Props.Mesh

/-! # C90: renumbering the points commutes with the extraction of the features -/
namespace Gemlab.Props.Features
open Gemlab Gemlab.Mesh Gemlab.Shapes Gemlab.Props.Mesh

variable {K : Type}

/-- What a successful renumbering does, with the new number `σ p` of every point `p`. -/
structure Relabelled (m m' : Mesh K) (σ : Nat → Nat) : Prop where
  npoint : m'.points.length = m.points.length
  cells : m'.cells = m.cells.map fun c => { c with points := c.points.map σ }
  ndim : m'.ndim = m.ndim
  inj : ∀ p q, p < m.points.length → q < m.points.length → σ p = σ q → p = q
  lt : ∀ p, p < m.points.length → σ p < m.points.length
  coords : ∀ p, p < m.points.length → coordsOf m' (σ p) = coordsOf m p
  valid : ValidMesh m'

theorem relabelled_of {m m' : Mesh K} (h : ValidMesh m) {map : List Nat} (hr : renumberPoints m map = (m', .ok ())) :
    Relabelled m m' (fun p => map.getD p 0) := by
  rcases renumberPoints_spec m h.coords h.inRange map with ⟨hp, m1, h1, R⟩ | ⟨_, m1, e, h1⟩
  swap
  · rw [h1] at hr; simp at hr
  obtain ⟨c1, c2, c3⟩ := C06_points m m' h.coords h.inRange map hr
  rw [h1] at hr
  simp only [Prod.mk.injEq, and_true] at hr
  subst hr
  have hl : map.length = m.points.length := by have := hp.length_eq; rwa [List.length_range] at this
  have hnd : map.Nodup := hp.nodup_iff.2 List.nodup_range
  have hget : ∀ p, p < m.points.length → map[p]? = some (map.getD p 0) := by
    intro p hpl
    rw [List.getD_eq_getElem?_getD, List.getElem?_eq_getElem (by omega)]; rfl
  have hlt : ∀ p, p < m.points.length → map.getD p 0 < m.points.length := by
    intro p hpl
    exact List.mem_range.1 (hp.mem_iff.1 (List.mem_of_getElem? (hget p hpl)))
  have hinj : ∀ p q, p < m.points.length → q < m.points.length → map.getD p 0 = map.getD q 0 → p = q := by
    intro p q hpl hql e
    have a := hget p hpl
    have b := hget q hql
    rw [← e] at b
    obtain ⟨a1, a2⟩ := List.getElem?_eq_some_iff.1 a
    obtain ⟨b1, b2⟩ := List.getElem?_eq_some_iff.1 b
    exact (List.Nodup.getElem_inj_iff hnd).1 (a2.trans b2.symm)
  refine ⟨R.npoint, R.cells, R.ndim, hinj, hlt, ?_, ?_⟩
  · intro p hpl
    obtain ⟨new, e1, e2⟩ := R.points p _ (List.getElem?_eq_getElem hpl)
    rw [hget p hpl] at e1
    injection e1 with e1
    unfold coordsOf
    rw [e1, e2, List.getElem?_eq_getElem hpl]; rfl
  · refine ⟨?_, c2, ?_, ?_, ?_⟩
    · intro q hq
      obtain ⟨i, hi⟩ := List.mem_iff_getElem?.1 hq
      have hil : i < m.points.length := by rw [← R.npoint]; exact (List.getElem?_eq_some_iff.1 hi).1
      obtain ⟨p, hp'⟩ := List.mem_iff_getElem?.1 (hp.mem_iff.2 (List.mem_range.2 hil))
      have hpl : p < m.points.length := by rw [← hl]; exact (List.getElem?_eq_some_iff.1 hp').1
      obtain ⟨new, e1, e2⟩ := R.points p _ (List.getElem?_eq_getElem hpl)
      rw [hp'] at e1; injection e1 with e1
      subst e1
      rw [hi] at e2; injection e2 with e2
      rw [e2, R.ndim]
      exact h.coords m.points[p] (List.getElem_mem hpl)
    · intro i c hc
      rw [R.cells, List.getElem?_map] at hc
      obtain ⟨c0, hc0, rfl⟩ := Option.map_eq_some_iff.1 hc
      exact h.cellIds i c0 hc0
    · intro c hc
      rw [R.cells] at hc
      obtain ⟨c0, hc0, rfl⟩ := List.mem_map.1 hc
      simpa using h.nnode c0 hc0
    · intro c hc p hp'
      rw [R.cells] at hc
      obtain ⟨c0, hc0, rfl⟩ := List.mem_map.1 hc
      obtain ⟨q, hq, rfl⟩ := List.mem_map.1 hp'
      rw [R.npoint]
      exact hlt q (h.inRange c0 hc0 q hq)

/-! ## Keys -/

/-- Two families of keys over the same (cell, local entity) pairs that group them in the same way. -/
structure SameGroups {A B : Type} (P : A → Nat → Nat → Prop) (Q : B → Nat → Nat → Prop) : Prop where
  uniqP : ∀ k k' c e, P k c e → P k' c e → k = k'
  uniqQ : ∀ k k' c e, Q k c e → Q k' c e → k = k'
  fwd : ∀ k c e c' e', P k c e → P k c' e' → ∃ k', Q k' c e ∧ Q k' c' e'
  bwd : ∀ k c e c' e', Q k c e → Q k c' e' → ∃ k', P k' c e ∧ P k' c' e'

theorem SameGroups.symm {A B : Type} {P : A → Nat → Nat → Prop} {Q : B → Nat → Nat → Prop} (h : SameGroups P Q) :
    SameGroups Q P := ⟨h.uniqQ, h.uniqP, h.bwd, h.fwd⟩

theorem SameGroups.iff {A B : Type} {P : A → Nat → Nat → Prop} {Q : B → Nat → Nat → Prop} (h : SameGroups P Q) {k : A} {k' : B}
    {c e : Nat} (hp : P k c e) (hq : Q k' c e) (c' e' : Nat) : P k c' e' ↔ Q k' c' e' := by
  constructor
  · intro h1
    obtain ⟨k2, a, b⟩ := h.fwd k c e c' e' hp h1
    rw [h.uniqQ k' k2 c e hq a]; exact b
  · intro h1
    obtain ⟨k2, a, b⟩ := h.bwd k' c e c' e' hq h1
    rw [h.uniqP k k2 c e hp a]; exact b

theorem SameGroups.eq {A B : Type} {P : A → Nat → Nat → Prop} {Q : B → Nat → Nat → Prop} (h : SameGroups P Q) {k : A} {k' : B}
    {c e : Nat} (hp : P k c e) (hq : Q k' c e) : P k = Q k' := by
  funext c' e'; exact propext (h.iff hp hq c' e')

theorem sortPair_exists (a b : Nat) : ∃ k : Nat × Nat, k.1 ≤ k.2 ∧ (k = (a, b) ∨ k = (b, a)) := by
  rcases Nat.le_total a b with h | h
  · exact ⟨(a, b), h, Or.inl rfl⟩
  · exact ⟨(b, a), h, Or.inr rfl⟩

theorem sortPair_unique {a b : Nat} {k k' : Nat × Nat} (h : k.1 ≤ k.2) (h1 : k = (a, b) ∨ k = (b, a)) (h' : k'.1 ≤ k'.2)
    (h1' : k' = (a, b) ∨ k' = (b, a)) : k = k' := by
  rcases h1 with rfl | rfl <;> rcases h1' with rfl | rfl <;> simp at h h' ⊢ <;> omega

theorem hasEdge_unique (m : Mesh K) (k k' : Nat × Nat) (c e : Nat) (h : HasEdge m k c e) (h' : HasEdge m k' c e) : k = k' := by
  obtain ⟨cell, a, b, h1, _, _, h4, h5, h6, h7⟩ := h
  obtain ⟨cell', a', b', g1, _, _, g4, g5, g6, g7⟩ := h'
  rw [h1] at g1; injection g1 with g1; subst g1
  rw [h4] at g4; injection g4 with g4; subst g4
  rw [h5] at g5; injection g5 with g5; subst g5
  exact sortPair_unique h6 h7 g6 g7

theorem sameGroups_edges {m m' : Mesh K} {σ : Nat → Nat} (h : ValidMesh m) (R : Relabelled m m' σ) :
    SameGroups (HasEdge m) (HasEdge m') := by
  refine ⟨hasEdge_unique m, hasEdge_unique m', ?_, ?_⟩
  · intro k c e c' e' h1 h2
    obtain ⟨cell, a, b, h1, h2', h3, h4, h5, h6, h7⟩ := h1
    obtain ⟨cell', a', b', g1, g2, g3, g4, g5, g6, g7⟩ := h2
    obtain ⟨key, k1, k2⟩ := sortPair_exists (σ a) (σ b)
    have e1 : m'.cells[c]? = some { cell with points := cell.points.map σ } := by rw [R.cells, List.getElem?_map, h1]; rfl
    have e2 : m'.cells[c']? = some { cell' with points := cell'.points.map σ } := by rw [R.cells, List.getElem?_map, g1]; rfl
    refine ⟨key, ⟨_, σ a, σ b, e1, h2', h3, ?_, ?_, k1, k2⟩, ⟨_, σ a', σ b', e2, g2, g3, ?_, ?_, k1, ?_⟩⟩
    · rw [List.getElem?_map, h4]; rfl
    · rw [List.getElem?_map, h5]; rfl
    · rw [List.getElem?_map, g4]; rfl
    · rw [List.getElem?_map, g5]; rfl
    · rcases h7 with rfl | rfl <;> rcases g7 with g7 | g7 <;> simp only [Prod.mk.injEq] at g7 <;> obtain ⟨rfl, rfl⟩ := g7 <;>
        first
          | exact k2
          | exact k2.symm
  · intro k c e c' e' h1 h2
    obtain ⟨cell1, a1, b1, h1, h2', h3, h4, h5, h6, h7⟩ := h1
    obtain ⟨cell1', a1', b1', g1, g2, g3, g4, g5, g6, g7⟩ := h2
    rw [R.cells, List.getElem?_map] at h1 g1
    obtain ⟨cell, h1', rfl⟩ := Option.map_eq_some_iff.1 h1
    obtain ⟨cell', g1', rfl⟩ := Option.map_eq_some_iff.1 g1
    simp only [List.getElem?_map] at h4 h5 g4 g5
    obtain ⟨a, h4', rfl⟩ := Option.map_eq_some_iff.1 h4
    obtain ⟨b, h5', rfl⟩ := Option.map_eq_some_iff.1 h5
    obtain ⟨a', g4', rfl⟩ := Option.map_eq_some_iff.1 g4
    obtain ⟨b', g5', rfl⟩ := Option.map_eq_some_iff.1 g5
    clear h1 g1 h4 h5 g4 g5
    rename' h1' => h1, g1' => g1, h4' => h4, h5' => h5, g4' => g4, g5' => g5
    have la := h.inRange cell (List.mem_of_getElem? h1) a (List.mem_of_getElem? h4)
    have lb := h.inRange cell (List.mem_of_getElem? h1) b (List.mem_of_getElem? h5)
    have la' := h.inRange cell' (List.mem_of_getElem? g1) a' (List.mem_of_getElem? g4)
    have lb' := h.inRange cell' (List.mem_of_getElem? g1) b' (List.mem_of_getElem? g5)
    obtain ⟨key, k1, k2⟩ := sortPair_exists a b
    refine ⟨key, ⟨cell, a, b, h1, h2', h3, h4, h5, k1, k2⟩, ⟨cell', a', b', g1, g2, g3, g4, g5, k1, ?_⟩⟩
    rcases h7 with rfl | rfl <;> rcases g7 with g7 | g7 <;> simp only [Prod.mk.injEq] at g7 <;> obtain ⟨r1, r2⟩ := g7
    · have := R.inj _ _ la la' r1; have := R.inj _ _ lb lb' r2; subst_vars; exact k2
    · have := R.inj _ _ la lb' r1; have := R.inj _ _ lb la' r2; subst_vars; exact k2.symm
    · have := R.inj _ _ lb la' r1; have := R.inj _ _ la lb' r2; subst_vars; exact k2.symm
    · have := R.inj _ _ lb lb' r1; have := R.inj _ _ la la' r2; subst_vars; exact k2

/-- New number of an entry of a face key: the placeholder `usize::MAX` stays. -/
def faceEntry (n : Nat) (σ : Nat → Nat) (p : Nat) : Nat := if p < n then σ p else p

theorem key4_unique {k k' : Nat × Nat × Nat × Nat} {l : List Nat} (h : [k.1, k.2.1, k.2.2.1, k.2.2.2].Pairwise (· ≤ ·))
    (hp : [k.1, k.2.1, k.2.2.1, k.2.2.2].Perm l) (h' : [k'.1, k'.2.1, k'.2.2.1, k'.2.2.2].Pairwise (· ≤ ·))
    (hp' : [k'.1, k'.2.1, k'.2.2.1, k'.2.2.2].Perm l) : k = k' := by
  have := List.Perm.eq_of_pairwise (le := (· ≤ ·)) (fun a b _ _ h1 h2 => Nat.le_antisymm h1 h2) h h' (hp.trans hp'.symm)
  obtain ⟨a, b, c, d⟩ := k
  obtain ⟨a', b', c', d'⟩ := k'
  simpa using this

theorem key4_exists (a b c d : Nat) : ∃ k : Nat × Nat × Nat × Nat, [k.1, k.2.1, k.2.2.1, k.2.2.2].Pairwise (· ≤ ·) ∧
    [k.1, k.2.1, k.2.2.1, k.2.2.2].Perm [a, b, c, d] := by
  have hp := List.perm_insertionSort (· ≤ ·) [a, b, c, d]
  have hs := List.pairwise_insertionSort (· ≤ ·) [a, b, c, d]
  have hl : ([a, b, c, d].insertionSort (· ≤ ·)).length = 4 := by rw [hp.length_eq]; rfl
  match hx : [a, b, c, d].insertionSort (· ≤ ·), hl with
  | [x, y, z, w], _ =>
    rw [hx] at hp hs
    exact ⟨(x, y, z, w), hs, hp⟩

theorem hasFace_unique (m : Mesh K) (k k' : Nat × Nat × Nat × Nat) (c e : Nat) (h : HasFace m k c e) (h' : HasFace m k' c e) :
    k = k' := by
  obtain ⟨cell, p0, p1, p2, p3, h1, _, _, a0, a1, a2, a3, h6, h7⟩ := h
  obtain ⟨cell', q0, q1, q2, q3, g1, _, _, b0, b1, b2, b3, g6, g7⟩ := h'
  rw [h1] at g1; injection g1 with g1; subst g1
  rw [a0] at b0; injection b0 with b0; subst b0
  rw [a1] at b1; injection b1 with b1; subst b1
  rw [a2] at b2; injection b2 with b2; subst b2
  have : p3 = q3 := by
    split at a3
    · rename_i h4
      rw [if_pos h4, a3] at b3; injection b3
    · rename_i h4
      rw [if_neg h4] at b3; omega
  subst this
  exact key4_unique h6 h7 g6 g7

theorem perm_map_inj {σ : Nat → Nat} {S : Nat → Prop} (hinj : ∀ p q, S p → S q → σ p = σ q → p = q) :
    ∀ {l l' : List Nat}, (∀ x ∈ l, S x) → (∀ x ∈ l', S x) → (l.map σ).Perm (l'.map σ) → l.Perm l' := by
  intro l
  induction l with
  | nil => intro l' _ _ h; have := h.length_eq; simp at this; cases l' <;> simp_all
  | cons x xs ih =>
    intro l' hl hl' h
    have hx : σ x ∈ l'.map σ := h.mem_iff.1 (by simp)
    obtain ⟨y, hy, hxy⟩ := List.mem_map.1 hx
    have := hinj y x (hl' y hy) (hl x (by simp)) hxy
    subst this
    have hp : l'.Perm (y :: l'.erase y) := List.perm_cons_erase hy
    refine List.Perm.trans (List.Perm.cons y (ih (fun z hz => hl z (by simp [hz])) (fun z hz => hl' z (List.mem_of_mem_erase hz)) ?_)) hp.symm
    have h2 := h.trans (hp.map σ)
    simpa using h2

theorem hasFace_relabel {m m' : Mesh K} {σ : Nat → Nat} (h : ValidMesh m) (hn : m.points.length ≤ usizeMax) (R : Relabelled m m' σ)
    {c f : Nat} {k k' : Nat × Nat × Nat × Nat} (h1 : HasFace m k c f)
    (hk : [k'.1, k'.2.1, k'.2.2.1, k'.2.2.2].Pairwise (· ≤ ·))
    (hp : [k'.1, k'.2.1, k'.2.2.1, k'.2.2.2].Perm ([k.1, k.2.1, k.2.2.1, k.2.2.2].map (faceEntry m.points.length σ))) :
    HasFace m' k' c f := by
  obtain ⟨cell, p0, p1, p2, p3, h1, h2, h3, a0, a1, a2, a3, h6, h7⟩ := h1
  have e1 : m'.cells[c]? = some { cell with points := cell.points.map σ } := by rw [R.cells, List.getElem?_map, h1]; rfl
  have hr : ∀ (i p : Nat), cell.points[i]? = some p → p < m.points.length := fun i p hp =>
    h.inRange cell (List.mem_of_getElem? h1) p (List.mem_of_getElem? hp)
  have fe : ∀ p, p < m.points.length → faceEntry m.points.length σ p = σ p := fun p hp => by unfold faceEntry; rw [if_pos hp]
  refine ⟨_, σ p0, σ p1, σ p2, faceEntry m.points.length σ p3, e1, h2, h3, ?_, ?_, ?_, ?_, hk, ?_⟩
  · rw [List.getElem?_map, a0]; rfl
  · rw [List.getElem?_map, a1]; rfl
  · rw [List.getElem?_map, a2]; rfl
  · simp only
    split at a3
    · rename_i h4
      rw [if_pos h4, List.getElem?_map, a3, fe p3 (hr _ _ a3)]; rfl
    · rename_i h4
      rw [if_neg h4, a3]; unfold faceEntry; rw [if_neg (by omega)]
  · have := hp.trans (h7.map _)
    simpa [fe p0 (hr _ _ a0), fe p1 (hr _ _ a1), fe p2 (hr _ _ a2)] using this

theorem hasFace_back {m m' : Mesh K} {σ : Nat → Nat} (h : ValidMesh m) (hn : m.points.length ≤ usizeMax) (R : Relabelled m m' σ)
    {c f : Nat} {k' : Nat × Nat × Nat × Nat} (h1 : HasFace m' k' c f) : ∃ k, HasFace m k c f ∧
      (∀ x ∈ [k.1, k.2.1, k.2.2.1, k.2.2.2], x < m.points.length ∨ x = usizeMax) ∧
      [k'.1, k'.2.1, k'.2.2.1, k'.2.2.2].Perm ([k.1, k.2.1, k.2.2.1, k.2.2.2].map (faceEntry m.points.length σ)) := by
  obtain ⟨cell', q0, q1, q2, q3, h1, h2, h3, b0, b1, b2, b3, h6, h7⟩ := h1
  rw [R.cells, List.getElem?_map] at h1
  obtain ⟨cell, h1', rfl⟩ := Option.map_eq_some_iff.1 h1
  simp only [List.getElem?_map] at b0 b1 b2 b3 h2 h3
  obtain ⟨p0, a0, rfl⟩ := Option.map_eq_some_iff.1 b0
  obtain ⟨p1, a1, rfl⟩ := Option.map_eq_some_iff.1 b1
  obtain ⟨p2, a2, rfl⟩ := Option.map_eq_some_iff.1 b2
  have hr : ∀ (i p : Nat), cell.points[i]? = some p → p < m.points.length := fun i p hp =>
    h.inRange cell (List.mem_of_getElem? h1') p (List.mem_of_getElem? hp)
  have fe : ∀ p, p < m.points.length → faceEntry m.points.length σ p = σ p := fun p hp => by unfold faceEntry; rw [if_pos hp]
  obtain ⟨p3, a3, e3, l3⟩ : ∃ p3, (if cell.kind.faceNnode > 3 then cell.points[faceNode cell.kind f 3]? = some p3 else p3 = usizeMax) ∧
      q3 = faceEntry m.points.length σ p3 ∧ (p3 < m.points.length ∨ p3 = usizeMax) := by
    split at b3
    · rename_i h4
      obtain ⟨p3, a3, rfl⟩ := Option.map_eq_some_iff.1 b3
      exact ⟨p3, by rw [if_pos h4]; exact a3, (fe p3 (hr _ _ a3)).symm, Or.inl (hr _ _ a3)⟩
    · rename_i h4
      refine ⟨usizeMax, by rw [if_neg h4], ?_, Or.inr rfl⟩
      unfold faceEntry; rw [if_neg (by omega)]; exact b3
  obtain ⟨k, k1, k2⟩ := key4_exists p0 p1 p2 p3
  refine ⟨k, ⟨cell, p0, p1, p2, p3, h1', h2, h3, a0, a1, a2, a3, k1, k2⟩, ?_, ?_⟩
  · intro x hx
    have hx := k2.mem_iff.1 hx
    simp only [List.mem_cons, List.not_mem_nil, or_false] at hx
    rcases hx with rfl | rfl | rfl | rfl
    · exact Or.inl (hr _ _ a0)
    · exact Or.inl (hr _ _ a1)
    · exact Or.inl (hr _ _ a2)
    · exact l3
  · refine h7.trans (List.Perm.trans ?_ (k2.map _).symm)
    simp [fe p0 (hr _ _ a0), fe p1 (hr _ _ a1), fe p2 (hr _ _ a2), e3]

theorem sameGroups_faces {m m' : Mesh K} {σ : Nat → Nat} (h : ValidMesh m) (hn : m.points.length ≤ usizeMax) (R : Relabelled m m' σ) :
    SameGroups (HasFace m) (HasFace m') := by
  refine ⟨hasFace_unique m, hasFace_unique m', ?_, ?_⟩
  · intro k c e c' e' h1 h2
    obtain ⟨k', k1, k2⟩ := key4_exists (faceEntry m.points.length σ k.1) (faceEntry m.points.length σ k.2.1)
      (faceEntry m.points.length σ k.2.2.1) (faceEntry m.points.length σ k.2.2.2)
    exact ⟨k', hasFace_relabel h hn R h1 k1 k2, hasFace_relabel h hn R h2 k1 k2⟩
  · intro k' c e c' e' h1 h2
    obtain ⟨k1, a1, a2, a3⟩ := hasFace_back h hn R h1
    obtain ⟨k2, b1, b2, b3⟩ := hasFace_back h hn R h2
    have hp := perm_map_inj (S := fun x => x < m.points.length ∨ x = usizeMax) (σ := faceEntry m.points.length σ) (by
      intro p q hp hq e
      unfold faceEntry at e
      rcases hp with hp | hp <;> rcases hq with hq | hq
      · rw [if_pos hp, if_pos hq] at e; exact R.inj p q hp hq e
      · rw [if_pos hp, if_neg (by omega)] at e; have := R.lt p hp; omega
      · rw [if_neg (by omega), if_pos hq] at e; have := R.lt q hq; omega
      · omega) a2 b2 (a3.symm.trans b3)
    have hs : ∀ {k c e}, HasFace m k c e → [k.1, k.2.1, k.2.2.1, k.2.2.2].Pairwise (· ≤ ·) := by
      rintro k c e ⟨_, _, _, _, _, _, _, _, _, _, _, _, h, _⟩; exact h
    have : k1 = k2 := key4_unique (hs a1) hp (hs b1) (List.Perm.refl _)
    subst this
    exact ⟨k1, a1, b1⟩

theorem isFirst_unique {P : Nat → Nat → Prop} {c e c' e' : Nat} (h : IsFirst P c e) (h' : IsFirst P c' e') : c = c' ∧ e = e' := by
  have a := h.2 c' e' h'.1
  have b := h'.2 c e h.1
  omega

/-! ## The features -/

/-- A feature (edge or face) and the same feature after the points got the numbers `σ`. -/
def SameFeature (σ : Nat → Nat) (f f' : Feature) : Prop := f'.kind = f.kind ∧ f'.points = f.points.map σ

theorem edgeOf_relabel {m m' : Mesh K} {σ : Nat → Nat} (R : Relabelled m m' σ) {c e : Nat} {f f' : Feature}
    (h : EdgeOf m c e f) (h' : EdgeOf m' c e f') : SameFeature σ f f' := by
  obtain ⟨cell, h1, h2, h3, h4⟩ := h
  obtain ⟨cell', g1, g2, g3, g4⟩ := h'
  rw [R.cells, List.getElem?_map, h1] at g1
  injection g1 with g1
  subst g1
  have hk : f'.kind = f.kind := by
    simp only at g2; rw [h2] at g2; injection g2 with g2; exact g2.symm
  refine ⟨hk, ?_⟩
  apply List.ext_getElem?
  intro i
  by_cases hi : i < f.kind.nnode
  · rw [g4 i (by rw [hk]; exact hi), List.getElem?_map, List.getElem?_map, h4 i hi]
  · rw [List.getElem?_eq_none (by rw [g3, hk]; omega), List.getElem?_eq_none (by rw [List.length_map, h3]; omega)]

theorem faceOf_relabel {m m' : Mesh K} {σ : Nat → Nat} (R : Relabelled m m' σ) {c e : Nat} {f f' : Feature}
    (h : FaceOf m c e f) (h' : FaceOf m' c e f') : SameFeature σ f f' := by
  obtain ⟨cell, h1, h2, h3, h4⟩ := h
  obtain ⟨cell', g1, g2, g3, g4⟩ := h'
  rw [R.cells, List.getElem?_map, h1] at g1
  injection g1 with g1
  subst g1
  have hk : f'.kind = f.kind := by
    simp only at g2; rw [h2] at g2; injection g2 with g2; exact g2.symm
  refine ⟨hk, ?_⟩
  apply List.ext_getElem?
  intro i
  by_cases hi : i < f.kind.nnode
  · rw [g4 i (by rw [hk]; exact hi), List.getElem?_map, List.getElem?_map, h4 i hi]
  · rw [List.getElem?_eq_none (by rw [g3, hk]; omega), List.getElem?_eq_none (by rw [List.length_map, h3]; omega)]

/-- From the grouping to the extracted entities, for edges (2D) and faces (3D) alike. -/
theorem same_get {A B : Type} [DecidableEq A] [DecidableEq B] {P : A → Nat → Nat → Prop} {Q : B → Nat → Nat → Prop}
    (hS : SameGroups P Q) {mp : HMap A Feature} {mq : HMap B Feature} {all : Bool}
    {OfP OfQ : Nat → Nat → Feature → Prop} {Rel : Feature → Feature → Prop}
    (hP : ∀ k, (mp.get k).isSome ↔ (∃ c e, P k c e) ∧ (all = true ∨ ExactlyOne (P k)))
    (hQ : ∀ k, (mq.get k).isSome ↔ (∃ c e, Q k c e) ∧ (all = true ∨ ExactlyOne (Q k)))
    (dP : ∀ k f, mp.get k = some f → ∃ c e, IsFirst (P k) c e ∧ OfP c e f)
    (dQ : ∀ k f, mq.get k = some f → ∃ c e, IsFirst (Q k) c e ∧ OfQ c e f)
    (hrel : ∀ c e f f', OfP c e f → OfQ c e f' → Rel f f') (k : A) (f : Feature) (h : mp.get k = some f) :
    ∃ k' f', mq.get k' = some f' ∧ Rel f f' ∧ P k = Q k' := by
  obtain ⟨c, e, hf, ho⟩ := dP k f h
  obtain ⟨k', hq, _⟩ := hS.fwd k c e c e hf.1 hf.1
  have hEq := hS.eq hf.1 hq
  have hsome : (mq.get k').isSome := by
    rw [hQ, ← hEq, ← hP, h]; rfl
  obtain ⟨f', hf'⟩ := Option.isSome_iff_exists.1 hsome
  obtain ⟨c', e', hf2, ho'⟩ := dQ k' f' hf'
  rw [← hEq] at hf2
  obtain ⟨rfl, rfl⟩ := isFirst_unique hf hf2
  exact ⟨k', f', hf', hrel c e f f' ho ho', hEq⟩

theorem length_le_of_inj {A B : Type} [DecidableEq A] [DecidableEq B] [Inhabited B] {mp : HMap A Feature} {mq : HMap B Feature}
    (hp : (mp.map (·.1)).Nodup) (R : A → B → Prop) (hinj : ∀ a a' b, R a b → R a' b → a = a')
    (htot : ∀ k f, mp.get k = some f → ∃ k' f', mq.get k' = some f' ∧ R k k') : mp.length ≤ mq.length := by
  have htot' : ∀ k, k ∈ mp.map (·.1) → ∃ k', k' ∈ mq.map (·.1) ∧ R k k' := by
    intro k hk
    obtain ⟨⟨k0, f⟩, hm, rfl⟩ := List.mem_map.1 hk
    obtain ⟨k', f', h1, h2⟩ := htot k0 f (HMap.get_of_mem hp hm)
    exact ⟨k', List.mem_map.2 ⟨(k', f'), HMap.mem_of_get h1, rfl⟩, h2⟩
  classical
  choose! g hg using htot'
  have hnd : ((mp.map (·.1)).map g).Nodup := by
    rw [List.nodup_map_iff_inj_on hp]
    intro a ha b hb hab
    have h1 := (hg a ha).2
    have h2 := (hg b hb).2
    rw [hab] at h1
    exact hinj a b _ h1 h2
  have hsub : (mp.map (·.1)).map g ⊆ mq.map (·.1) := by
    intro x hx
    obtain ⟨a, ha, rfl⟩ := List.mem_map.1 hx
    exact (hg a ha).1
  have := (List.subperm_of_subset hnd hsub).length_le
  simpa using this

theorem box_congr [LinearOrder K] {n : Nat} {xs ys : List (List K)} {mn mx mn' mx' : List K} (hxy : ∀ v, v ∈ xs ↔ v ∈ ys)
    (h : IsBoundingBox n xs mn mx) (h' : IsBoundingBox n ys mn' mx') : mn = mn' ∧ mx = mx' := by
  have h' : IsBoundingBox n xs mn' mx' := by
    refine ⟨h'.lenMin, h'.lenMax, fun x hx => h'.inside x ((hxy x).1 hx), ?_, ?_⟩
    · intro i a ha
      obtain ⟨x, hx, hv⟩ := h'.attainedMin i a ha
      exact ⟨x, (hxy x).2 hx, hv⟩
    · intro i a ha
      obtain ⟨x, hx, hv⟩ := h'.attainedMax i a ha
      exact ⟨x, (hxy x).2 hx, hv⟩
  have half : ∀ {mn mx mn' mx' : List K}, IsBoundingBox n xs mn mx → IsBoundingBox n xs mn' mx' →
      ∀ i (h1 : i < mn.length) (h2 : i < mn'.length), mn[i] ≤ mn'[i] := by
    intro mn mx mn' mx' h h' i h1 h2
    obtain ⟨x, hx, hv⟩ := h'.attainedMin i _ (List.getElem?_eq_getElem h2)
    exact (h.inside x hx i _ _ _ (List.getElem?_eq_getElem h1) hv
      (List.getElem?_eq_getElem (by rw [h.lenMax, ← h.lenMin]; exact h1))).1
  have half' : ∀ {mn mx mn' mx' : List K}, IsBoundingBox n xs mn mx → IsBoundingBox n xs mn' mx' →
      ∀ i (h1 : i < mx.length) (h2 : i < mx'.length), mx'[i] ≤ mx[i] := by
    intro mn mx mn' mx' h h' i h1 h2
    obtain ⟨x, hx, hv⟩ := h'.attainedMax i _ (List.getElem?_eq_getElem h2)
    exact (h.inside x hx i _ _ _ (List.getElem?_eq_getElem (by rw [h.lenMin, ← h.lenMax]; exact h1)) hv
      (List.getElem?_eq_getElem h1)).2
  constructor
  · apply List.ext_getElem (by rw [h.lenMin, h'.lenMin])
    intro i h1 h2
    exact le_antisymm (half h h' i h1 h2) (half h' h i h2 h1)
  · apply List.ext_getElem (by rw [h.lenMax, h'.lenMax])
    intro i h1 h2
    exact le_antisymm (half' h' h i h2 h1) (half' h h' i h1 h2)

/-- Points and limits, once the entities correspond. -/
theorem same_points [LinearOrder K] {m m' : Mesh K} {σ : Nat → Nat} (R : Relabelled m m' σ) {A : Type} [DecidableEq A]
    {mp mq : HMap A Feature} {pts pts' : List Nat} {lim lim' : List K × List K}
    (hp : ∀ q, q ∈ pts ↔ ∃ key f, mp.get key = some f ∧ q ∈ f.points)
    (hq : ∀ q, q ∈ pts' ↔ ∃ key f, mq.get key = some f ∧ q ∈ f.points) (nd : pts.Nodup) (nd' : pts'.Nodup)
    (hlt : ∀ key f, mp.get key = some f → ∀ q ∈ f.points, q < m.points.length)
    (f1 : ∀ key f, mp.get key = some f → ∃ key' f', mq.get key' = some f' ∧ SameFeature σ f f')
    (f2 : ∀ key' f', mq.get key' = some f' → ∃ key f, mp.get key = some f ∧ SameFeature σ f f')
    (bx : pts ≠ [] → IsBoundingBox m.ndim (pts.map (coordsOf m)) lim.1 lim.2)
    (bx' : pts' ≠ [] → IsBoundingBox m'.ndim (pts'.map (coordsOf m')) lim'.1 lim'.2) :
    pts'.Perm (pts.map σ) ∧ (pts ≠ [] → lim' = lim) := by
  have hl : ∀ q ∈ pts, q < m.points.length := by
    intro q hq
    obtain ⟨key, f, h1, h2⟩ := (hp q).1 hq
    exact hlt key f h1 q h2
  have hperm : pts'.Perm (pts.map σ) := by
    rw [List.perm_ext_iff_of_nodup nd' ((List.nodup_map_iff_inj_on nd).2 fun a ha b hb hab => R.inj a b (hl a ha) (hl b hb) hab)]
    intro q
    rw [hq, List.mem_map]
    constructor
    · rintro ⟨key', f', h1, h2⟩
      obtain ⟨key, f, h3, _, h5⟩ := f2 key' f' h1
      rw [h5] at h2
      obtain ⟨p, hpf, rfl⟩ := List.mem_map.1 h2
      exact ⟨p, (hp p).2 ⟨key, f, h3, hpf⟩, rfl⟩
    · rintro ⟨p, hpp, rfl⟩
      obtain ⟨key, f, h1, h2⟩ := (hp p).1 hpp
      obtain ⟨key', f', h3, _, h5⟩ := f1 key f h1
      exact ⟨key', f', h3, by rw [h5]; exact List.mem_map_of_mem h2⟩
  refine ⟨hperm, ?_⟩
  intro hne
  have hne' : pts' ≠ [] := by
    rintro rfl
    have := hperm.length_eq
    simp at this
    exact hne (List.length_eq_zero_iff.1 this.symm)
  have := box_congr (n := m.ndim) (xs := pts.map (coordsOf m)) (ys := pts'.map (coordsOf m')) (by
    intro v
    constructor
    · intro hv
      obtain ⟨p, hpp, rfl⟩ := List.mem_map.1 hv
      exact List.mem_map.2 ⟨σ p, hperm.mem_iff.2 (List.mem_map_of_mem hpp), R.coords p (hl p hpp)⟩
    · intro hv
      obtain ⟨q, hqq, rfl⟩ := List.mem_map.1 hv
      obtain ⟨p, hpp, rfl⟩ := List.mem_map.1 (hperm.mem_iff.1 hqq)
      exact List.mem_map.2 ⟨p, hpp, (R.coords p (hl p hpp)).symm⟩) (bx hne) (by rw [← R.ndim]; exact bx' hne')
  exact Prod.ext this.1.symm this.2.symm

theorem bounds_relabelled [LinearOrder K] {big low : K} {m m' : Mesh K} (h : ValidMesh m) {map : List Nat}
    (hr : renumberPoints m map = (m', .ok ())) (hb : ∀ p ∈ m.points, ∀ v ∈ p.coords, low ≤ v ∧ v ≤ big) :
    ∀ p ∈ m'.points, ∀ v ∈ p.coords, low ≤ v ∧ v ≤ big := by
  rcases renumberPoints_spec m h.coords h.inRange map with ⟨hp, m1, h1, R⟩ | ⟨_, m1, e, h1⟩
  swap
  · rw [h1] at hr; simp at hr
  rw [h1] at hr
  simp only [Prod.mk.injEq, and_true] at hr
  subst hr
  have hl : map.length = m.points.length := by have := hp.length_eq; rwa [List.length_range] at this
  intro q hq
  obtain ⟨i, hi⟩ := List.mem_iff_getElem?.1 hq
  have hil : i < m.points.length := by rw [← R.npoint]; exact (List.getElem?_eq_some_iff.1 hi).1
  obtain ⟨p, hp'⟩ := List.mem_iff_getElem?.1 (hp.mem_iff.2 (List.mem_range.2 hil))
  have hpl : p < m.points.length := by rw [← hl]; exact (List.getElem?_eq_some_iff.1 hp').1
  obtain ⟨new, e1, e2⟩ := R.points p _ (List.getElem?_eq_getElem hpl)
  rw [hp'] at e1; injection e1 with e1
  subst e1
  rw [hi] at e2; injection e2 with e2
  rw [e2]
  exact hb m.points[p] (List.getElem_mem hpl)

/-- **C90, 2D.** Renumber the points of a valid mesh and extract the features before and after, with any iteration orders of the hash
maps: the same number of edges is found; every edge found before is found after, with the same kind and with the new numbers
of the same points in the same order, and conversely; the points of the features are the new numbers of the old ones; the limits are
the same. -/
theorem C90_features_2d [LinearOrder K] (big low : K) (m m' : Mesh K) (h : ValidMesh m) (h2 : m.ndim = 2)
    (hb : ∀ p ∈ m.points, ∀ v ∈ p.coords, low ≤ v ∧ v ≤ big) (map : List Nat) (hr : renumberPoints m map = (m', .ok ()))
    (iter iter' : List (EdgeKey × List (Nat × Nat)) → List (EdgeKey × List (Nat × Nat))) (hi : IterOrder iter) (hi' : IterOrder iter')
    (extractAll : Bool) :
    ∃ all x all' x', extractAll2dEdges m = .ok all ∧ extractFeatures2d iter big low m all extractAll = .ok x ∧
      extractAll2dEdges m' = .ok all' ∧ extractFeatures2d iter' big low m' all' extractAll = .ok x' ∧
      x'.edges.length = x.edges.length ∧
      (∀ key f, x.edges.get key = some f → ∃ key' f', x'.edges.get key' = some f' ∧ SameFeature (fun p => map.getD p 0) f f') ∧
      (∀ key' f', x'.edges.get key' = some f' → ∃ key f, x.edges.get key = some f ∧ SameFeature (fun p => map.getD p 0) f f') ∧
      x'.points.Perm (x.points.map fun p => map.getD p 0) ∧ (x.points ≠ [] → x'.limits = x.limits) := by
  have R := relabelled_of h hr
  obtain ⟨all, x, e1, e2, X⟩ := C21_features_2d big low m h h2 hb iter hi extractAll
  obtain ⟨all', x', e1', e2', X'⟩ := C21_features_2d big low m' R.valid (by rw [R.ndim, h2]) (bounds_relabelled h hr hb) iter' hi' extractAll
  have hS := sameGroups_edges h R
  have d1 : ∀ k f, x.edges.get k = some f → ∃ c e, IsFirst (HasEdge m k) c e ∧ EdgeOf m c e f := by
    intro k f hk; obtain ⟨c, e, a, b, _⟩ := X.data k f hk; exact ⟨c, e, a, b⟩
  have d2 : ∀ k f, x'.edges.get k = some f → ∃ c e, IsFirst (HasEdge m' k) c e ∧ EdgeOf m' c e f := by
    intro k f hk; obtain ⟨c, e, a, b, _⟩ := X'.data k f hk; exact ⟨c, e, a, b⟩
  have f1 := same_get hS X.accepted X'.accepted d1 d2 (Rel := SameFeature fun p => map.getD p 0)
    (fun c e f f' a b => edgeOf_relabel R a b)
  have f2 := same_get hS.symm X'.accepted X.accepted d2 d1 (Rel := fun f' f => SameFeature (fun p => map.getD p 0) f f')
    (fun c e f' f a b => edgeOf_relabel R b a)
  have f1' : ∀ key f, x.edges.get key = some f → ∃ key' f', x'.edges.get key' = some f' ∧ SameFeature (fun p => map.getD p 0) f f' := by
    intro k f hk; obtain ⟨k', f', a, b, _⟩ := f1 k f hk; exact ⟨k', f', a, b⟩
  have f2' : ∀ key' f', x'.edges.get key' = some f' → ∃ key f, x.edges.get key = some f ∧ SameFeature (fun p => map.getD p 0) f f' := by
    intro k f hk; obtain ⟨k', f', a, b, _⟩ := f2 k f hk; exact ⟨k', f', a, b⟩
  have n1 : x.edges.length ≤ x'.edges.length := by
    refine length_le_of_inj X.keysNodup (fun k k' => HasEdge m k = HasEdge m' k' ∧ ∃ c e, HasEdge m k c e) ?_ ?_
    · rintro a a' b ⟨r1, c, e, hc⟩ ⟨r2, _⟩
      exact hS.uniqP a a' c e hc (by rw [r2, ← r1]; exact hc)
    · intro k f hk
      obtain ⟨k', f', a, _, b⟩ := f1 k f hk
      obtain ⟨c, e, hf, _⟩ := d1 k f hk
      exact ⟨k', f', a, b, c, e, hf.1⟩
  have n2 : x'.edges.length ≤ x.edges.length := by
    refine length_le_of_inj X'.keysNodup (fun k k' => HasEdge m' k = HasEdge m k' ∧ ∃ c e, HasEdge m' k c e) ?_ ?_
    · rintro a a' b ⟨r1, c, e, hc⟩ ⟨r2, _⟩
      exact hS.uniqQ a a' c e hc (by rw [r2, ← r1]; exact hc)
    · intro k f hk
      obtain ⟨k', f', a, _, b⟩ := f2 k f hk
      obtain ⟨c, e, hf, _⟩ := d2 k f hk
      exact ⟨k', f', a, b, c, e, hf.1⟩
  have hlt : ∀ key f, x.edges.get key = some f → ∀ q ∈ f.points, q < m.points.length := by
    intro key f hk q hq
    obtain ⟨c, e, _, cell, hc, _, hl, hp⟩ := d1 key f hk
    obtain ⟨i, hqi⟩ := List.mem_iff_getElem?.1 hq
    rw [hp i (by rw [← hl]; exact (List.getElem?_eq_some_iff.1 hqi).1)] at hqi
    exact h.inRange cell (List.mem_of_getElem? hc) q (List.mem_of_getElem? hqi)
  obtain ⟨p1, p2⟩ := same_points R X.points X'.points X.nodup X'.nodup hlt f1' f2' X.box X'.box
  exact ⟨all, x, all', x', e1, e2, e1', e2', Nat.le_antisymm n2 n1, f1', f2', p1, p2⟩

/-- **C90, 3D.** The same for the faces of a solid mesh, and for the edges of the faces, which are given by their end points. -/
theorem C90_features_3d [LinearOrder K] (big low : K) (m m' : Mesh K) (h : ValidMesh m) (h3 : m.ndim = 3)
    (hn : m.points.length ≤ usizeMax)
    (hb : ∀ p ∈ m.points, ∀ v ∈ p.coords, low ≤ v ∧ v ≤ big) (map : List Nat) (hr : renumberPoints m map = (m', .ok ()))
    (iter iter' : List FaceKey → List FaceKey) (hi : IterOrder iter) (hi' : IterOrder iter') (extractAll : Bool) :
    ∃ all x all' x', extractAllFaces m = .ok all ∧ extractFeatures3d iter big low m all extractAll = .ok x ∧
      extractAllFaces m' = .ok all' ∧ extractFeatures3d iter' big low m' all' extractAll = .ok x' ∧
      x'.faces.length = x.faces.length ∧
      (∀ key f, x.faces.get key = some f → ∃ key' f', x'.faces.get key' = some f' ∧ SameFeature (fun p => map.getD p 0) f f') ∧
      (∀ key' f', x'.faces.get key' = some f' → ∃ key f, x.faces.get key = some f ∧ SameFeature (fun p => map.getD p 0) f f') ∧
      (∀ a b, a ≤ b → (x.edges.get (a, b)).isSome → ∃ key', (key' = (map.getD a 0, map.getD b 0) ∨ key' = (map.getD b 0, map.getD a 0)) ∧
        (x'.edges.get key').isSome) ∧
      (∀ key', (x'.edges.get key').isSome → ∃ a b, a ≤ b ∧ (x.edges.get (a, b)).isSome ∧
        (key' = (map.getD a 0, map.getD b 0) ∨ key' = (map.getD b 0, map.getD a 0))) ∧
      x'.points.Perm (x.points.map fun p => map.getD p 0) ∧ (x.points ≠ [] → x'.limits = x.limits) := by
  have R := relabelled_of h hr
  obtain ⟨all, x, e1, e2, X⟩ := C22_features_3d big low m h h3 hb iter hi extractAll
  obtain ⟨all', x', e1', e2', X'⟩ := C22_features_3d big low m' R.valid (by rw [R.ndim, h3]) (bounds_relabelled h hr hb) iter' hi' extractAll
  have hS := sameGroups_faces h hn R
  have d1 : ∀ k f, x.faces.get k = some f → ∃ c e, IsFirst (HasFace m k) c e ∧ FaceOf m c e f := by
    intro k f hk; obtain ⟨c, e, a, b, _⟩ := X.data k f hk; exact ⟨c, e, a, b⟩
  have d2 : ∀ k f, x'.faces.get k = some f → ∃ c e, IsFirst (HasFace m' k) c e ∧ FaceOf m' c e f := by
    intro k f hk; obtain ⟨c, e, a, b, _⟩ := X'.data k f hk; exact ⟨c, e, a, b⟩
  have f1 := same_get hS X.accepted X'.accepted d1 d2 (Rel := SameFeature fun p => map.getD p 0)
    (fun c e f f' a b => faceOf_relabel R a b)
  have f2 := same_get hS.symm X'.accepted X.accepted d2 d1 (Rel := fun f' f => SameFeature (fun p => map.getD p 0) f f')
    (fun c e f' f a b => faceOf_relabel R b a)
  have f1' : ∀ key f, x.faces.get key = some f → ∃ key' f', x'.faces.get key' = some f' ∧ SameFeature (fun p => map.getD p 0) f f' := by
    intro k f hk; obtain ⟨k', f', a, b, _⟩ := f1 k f hk; exact ⟨k', f', a, b⟩
  have f2' : ∀ key' f', x'.faces.get key' = some f' → ∃ key f, x.faces.get key = some f ∧ SameFeature (fun p => map.getD p 0) f f' := by
    intro k f hk; obtain ⟨k', f', a, b, _⟩ := f2 k f hk; exact ⟨k', f', a, b⟩
  have n1 : x.faces.length ≤ x'.faces.length := by
    refine length_le_of_inj X.keysNodup.1 (fun k k' => HasFace m k = HasFace m' k' ∧ ∃ c e, HasFace m k c e) ?_ ?_
    · rintro a a' b ⟨r1, c, e, hc⟩ ⟨r2, _⟩
      exact hS.uniqP a a' c e hc (by rw [r2, ← r1]; exact hc)
    · intro k f hk
      obtain ⟨k', f', a, _, b⟩ := f1 k f hk
      obtain ⟨c, e, hf, _⟩ := d1 k f hk
      exact ⟨k', f', a, b, c, e, hf.1⟩
  have n2 : x'.faces.length ≤ x.faces.length := by
    refine length_le_of_inj X'.keysNodup.1 (fun k k' => HasFace m' k = HasFace m k' ∧ ∃ c e, HasFace m' k c e) ?_ ?_
    · rintro a a' b ⟨r1, c, e, hc⟩ ⟨r2, _⟩
      exact hS.uniqQ a a' c e hc (by rw [r2, ← r1]; exact hc)
    · intro k f hk
      obtain ⟨k', f', a, _, b⟩ := f2 k f hk
      obtain ⟨c, e, hf, _⟩ := d2 k f hk
      exact ⟨k', f', a, b, c, e, hf.1⟩
  have hlt : ∀ key f, x.faces.get key = some f → ∀ q ∈ f.points, q < m.points.length := by
    intro key f hk q hq
    obtain ⟨c, e, _, cell, hc, _, hl, hp⟩ := d1 key f hk
    obtain ⟨i, hqi⟩ := List.mem_iff_getElem?.1 hq
    rw [hp i (by rw [← hl]; exact (List.getElem?_eq_some_iff.1 hqi).1)] at hqi
    exact h.inRange cell (List.mem_of_getElem? hc) q (List.mem_of_getElem? hqi)
  obtain ⟨p1, p2⟩ := same_points R X.points X'.points X.nodup X'.nodup hlt f1' f2' X.box X'.box
  refine ⟨all, x, all', x', e1, e2, e1', e2', Nat.le_antisymm n2 n1, f1', f2', ?_, ?_, p1, p2⟩
  · intro a b _ hab
    obtain ⟨fkey, face, e, hf, a', b', he, ha, hb', _, hk⟩ := (X.edges (a, b)).1 hab
    obtain ⟨key', face', hf', hk1, hk2⟩ := f1' fkey face hf
    obtain ⟨k, k1, k2⟩ := sortPair_exists (map.getD a' 0) (map.getD b' 0)
    refine ⟨k, ?_, (X'.edges k).2 ⟨key', face', e, hf', map.getD a' 0, map.getD b' 0, by rw [hk1]; exact he, ?_, ?_, k1, k2⟩⟩
    · simp only [Prod.mk.injEq] at hk
      rcases hk with ⟨rfl, rfl⟩ | ⟨rfl, rfl⟩
      · exact k2
      · exact k2.symm
    · rw [hk1, hk2, List.getElem?_map, ha]; rfl
    · rw [hk1, hk2, List.getElem?_map, hb']; rfl
  · intro key' hk'
    obtain ⟨fkey', face', e, hf', a', b', he, ha, hb', hle, hk⟩ := (X'.edges key').1 hk'
    obtain ⟨fkey, face, hf, hk1, hk2⟩ := f2' fkey' face' hf'
    rw [hk1, hk2, List.getElem?_map] at ha hb'
    obtain ⟨a, ha2, rfl⟩ := Option.map_eq_some_iff.1 ha
    obtain ⟨b, hb2, rfl⟩ := Option.map_eq_some_iff.1 hb'
    obtain ⟨k, k1, k2⟩ := sortPair_exists a b
    refine ⟨k.1, k.2, k1, (X.edges k).2 ⟨fkey, face, e, hf, a, b, by rw [← hk1]; exact he, ha2, hb2, k1, k2⟩, ?_⟩
    rcases k2 with rfl | rfl
    · exact hk
    · exact hk.symm

/-- **C90, neighbours.** The neighbours of a 2D cell across its edges are the same before and after. -/
theorem C90_neighbours (m m' : Mesh K) (h : ValidMesh m) (h2 : m.ndim = 2) (map : List Nat)
    (hr : renumberPoints m map = (m', .ok ())) (c : Nat) (cell : Cell) (hc : m.cells[c]? = some cell) (hk : cell.kind.ndim ≤ 2) :
    ∃ all r all' r', extractAll2dEdges m = .ok all ∧ getNeighbors2d m all c = .ok r ∧ extractAll2dEdges m' = .ok all' ∧
      getNeighbors2d m' all' c = .ok r' ∧ ∀ t, t ∈ r' ↔ t ∈ r := by
  have R := relabelled_of h hr
  obtain ⟨all, r, e1, e2, e3⟩ := C23_neighbors m h h2 c cell hc hk
  obtain ⟨all', r', e1', e2', e3'⟩ := C23_neighbors m' R.valid (by rw [R.ndim, h2]) c { cell with points := cell.points.map fun p => map.getD p 0 }
    (by rw [R.cells, List.getElem?_map, hc]; rfl) hk
  refine ⟨all, r, all', r', e1, e2, e1', e2', ?_⟩
  rintro ⟨e, c', e'⟩
  have hS := sameGroups_edges h R
  rw [e3, e3']
  constructor
  · rintro ⟨hne, key, k1, k2⟩
    exact ⟨hne, hS.bwd key c e c' e' k1 k2⟩
  · rintro ⟨hne, key, k1, k2⟩
    exact ⟨hne, hS.fwd key c e c' e' k1 k2⟩

/-- **C90, example.** The two tetrahedra glued along a face: after renumbering, the six boundary faces are found at the new numbers. -/
theorem C90_example : ValidMesh twoTet4 ∧ (renumberPoints twoTet4 [4, 2, 0, 3, 1]).2 = .ok () ∧
    ∃ all x, extractAllFaces (renumberPoints twoTet4 [4, 2, 0, 3, 1]).1 = .ok all ∧
      extractFeatures3d List.reverse 100 (-100) (renumberPoints twoTet4 [4, 2, 0, 3, 1]).1 all false = .ok x ∧ x.faces.length = 6 ∧
      (x.faces.get (0, 2, 4, usizeMax)).isSome = true ∧ x.faces.get (0, 2, 3, usizeMax) = none := by
  exact ⟨ValidMesh.of_check (by decide) (by decide), by decide +kernel, _, _, rfl, rfl, by decide +kernel, by decide +kernel, by decide +kernel⟩

end Gemlab.Props.Features
