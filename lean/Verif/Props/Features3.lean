import Verif.Props.Features2
import Verif.Model.FeaturesQueries

/-!
# C47 (edges and faces), C51: queries of `Features` returning edges, faces and cells
-/
namespace Gemlab.Props.Features
noncomputable section
open Gemlab Gemlab.Mesh Gemlab.Shapes Gemlab.Props.Mesh Gemlab.Spec Gemlab.GridSearch

variable {m : Mesh ℝ} {extractAll : Bool} {x : Extracted ℝ} {F : Features} {go : GridOrders}

/-! ## Keys and points of the stored edges and faces -/

/-- A stored edge has its key, whose points are its first two points. -/
theorem edge_key_points (h : ValidMesh m) (hx : IsExtracted m extractAll x) {key : EdgeKey} {f : Feature} (hf : x.edges.get key = some f) :
    f.edgeKey = .ok key ∧ key.1 ∈ f.points ∧ key.2 ∈ f.points ∧ key.1 ≤ key.2 ∧ (∀ q ∈ f.points, q ∈ x.points) ∧
      ∃ a b, f.points[0]? = some a ∧ f.points[1]? = some b ∧ (key = (a, b) ∨ key = (b, a)) := by
  rcases hx with ⟨_, hx⟩ | ⟨_, hx⟩
  · obtain ⟨c, e, hfirst, ⟨cell, hc, hk, hl, hp⟩, _⟩ := hx.data key f hf
    obtain ⟨cell', a, b, hc', _, he, ha, hb, hle, hkey⟩ := hfirst.1
    rw [hc, Option.some.injEq] at hc'; subst hc'
    obtain ⟨h2, ek, hek, hn⟩ := edge_facts cell.kind (by omega)
    rw [hk, Option.some.injEq] at hek
    have e0 := (hp 0 (by rw [hek, hn]; omega)).trans ha
    have e1 := (hp 1 (by rw [hek, hn]; omega)).trans hb
    have m0 := List.mem_of_getElem? e0
    have m1 := List.mem_of_getElem? e1
    refine ⟨C21_edge_key m h extractAll x hx key f hf, ?_, ?_, hle, fun q hq => (hx.points q).2 ⟨key, f, hf, hq⟩, a, b, e0, e1, hkey⟩
    · rcases hkey with rfl | rfl <;> assumption
    · rcases hkey with rfl | rfl <;> assumption
  · obtain ⟨fkey, face, e, hfk, ⟨a, b, he, ha, hb, hle, hkey⟩, ⟨_, hk, hl, hp⟩, _⟩ := hx.edgeData key f hf
    obtain ⟨h2, ek, hek, hn⟩ := edge_facts face.kind (by omega)
    rw [hk, Option.some.injEq] at hek
    have e0 := (hp 0 (by rw [hek, hn]; omega)).trans ha
    have e1 := (hp 1 (by rw [hek, hn]; omega)).trans hb
    have m0 := List.mem_of_getElem? e0
    have m1 := List.mem_of_getElem? e1
    refine ⟨?_, ?_, ?_, hle, ?_, a, b, e0, e1, hkey⟩
    · unfold Feature.edgeKey
      rw [Res.idx_eq_ok.2 e0, Res.bind_ok, Res.idx_eq_ok.2 e1, Res.bind_ok]
      simp only [Res.pure_eq, Res.ok.injEq]
      exact (sort2_eq_iff a b key).2 ⟨hle, hkey⟩
    · rcases hkey with rfl | rfl <;> assumption
    · rcases hkey with rfl | rfl <;> assumption
    · intro q hq
      obtain ⟨i, hi⟩ := List.mem_iff_getElem?.1 hq
      have hil : i < f.kind.nnode := by
        rw [← hl]; by_contra hc
        rw [List.getElem?_eq_none (by omega)] at hi; simp at hi
      have := hp i hil
      rw [hi] at this
      exact (hx.points q).2 ⟨fkey, face, hfk, List.mem_of_getElem? this.symm⟩

/-- A stored face has its key; the points of the key (other than the placeholder `usize::MAX`) are points of the face. -/
theorem face_key_points (h : ValidMesh m) (hM : m.points.length ≤ usizeMax) (hx : IsExtracted m extractAll x) {key : FaceKey}
    {f : Feature} (hf : x.faces.get key = some f) :
    f.faceKey = .ok key ∧ key.1 ∈ f.points ∧ key.1 ≠ usizeMax ∧ key.2.1 ∈ f.points ∧ key.2.1 ≠ usizeMax ∧
      key.2.2.1 ∈ f.points ∧ key.2.2.1 ≠ usizeMax ∧ (key.2.2.2 = usizeMax ∨ key.2.2.2 ∈ f.points) ∧ ∀ q ∈ f.points, q ∈ x.points := by
  rcases hx with ⟨_, hx⟩ | ⟨_, hx⟩
  · rw [hx.noFaces] at hf; simp at hf
  · obtain ⟨c, e, hfirst, ⟨cell, hc, hk, hl, hp⟩, _⟩ := hx.data key f hf
    obtain ⟨cell', p0, p1, p2, p3, hc', _, he, h0, h1, h2, h3, hsort, hperm⟩ := hfirst.1
    rw [hc, Option.some.injEq] at hc'; subst hc'
    have hmem := List.mem_of_getElem? hc
    obtain ⟨hn3, fk, hfk, hn, _⟩ := face_facts cell.kind (by omega)
    rw [hk, Option.some.injEq] at hfk
    have e0 := (hp 0 (by rw [hfk, hn]; omega)).trans h0
    have e1 := (hp 1 (by rw [hfk, hn]; omega)).trans h1
    have e2 := (hp 2 (by rw [hfk, hn]; omega)).trans h2
    have m0 := List.mem_of_getElem? e0
    have m1 := List.mem_of_getElem? e1
    have m2 := List.mem_of_getElem? e2
    have lt : ∀ q ∈ cell.points, q < usizeMax := fun q hq => lt_of_lt_of_le (h.inRange cell hmem q hq) hM
    have l0 := lt _ (List.mem_of_getElem? h0)
    have l1 := lt _ (List.mem_of_getElem? h1)
    have l2 := lt _ (List.mem_of_getElem? h2)
    have hflen : f.points.length = cell.kind.faceNnode := by rw [hl, hfk, hn]
    have hkey : f.faceKey = .ok key := by
      unfold Feature.faceKey
      rw [Res.idx_eq_ok.2 e0, Res.bind_ok, Res.idx_eq_ok.2 e1, Res.bind_ok, Res.idx_eq_ok.2 e2, Res.bind_ok, hflen]
      split
      · rename_i h4
        rw [if_pos h4] at h3
        have e3 := (hp 3 (by rw [hfk, hn]; omega)).trans h3
        rw [Res.idx_eq_ok.2 e3, Res.bind_ok]
        simp only [Res.pure_eq, Res.ok.injEq]
        exact (sort4_eq_iff _ _ _ _ key).2 ⟨hsort, hperm⟩
      · rename_i h4
        rw [if_neg h4] at h3
        subst h3
        simp only [Res.pure_eq, Res.ok.injEq]
        exact (sort4_eq_iff _ _ _ _ key).2 ⟨hsort, hperm⟩
    have hpts : ∀ q ∈ f.points, q ∈ x.points := fun q hq => (hx.points q).2 ⟨key, f, hf, hq⟩
    obtain ⟨k0, k1, k2, k3⟩ := key
    dsimp only at hsort hperm ⊢
    simp only [List.pairwise_cons, List.mem_cons, List.not_mem_nil, or_false, forall_eq_or_imp, forall_eq] at hsort
    by_cases h4 : cell.kind.faceNnode > 3
    · rw [if_pos h4] at h3
      have e3 := (hp 3 (by rw [hfk, hn]; omega)).trans h3
      have m3 := List.mem_of_getElem? e3
      have l3 := lt _ (List.mem_of_getElem? h3)
      have hall : ∀ k ∈ [k0, k1, k2, k3], k ∈ f.points ∧ k ≠ usizeMax := by
        intro k hk
        have := hperm.mem_iff.1 hk
        simp only [List.mem_cons, List.not_mem_nil, or_false] at this
        rcases this with rfl | rfl | rfl | rfl
        · exact ⟨m0, by omega⟩
        · exact ⟨m1, by omega⟩
        · exact ⟨m2, by omega⟩
        · exact ⟨m3, by omega⟩
      have a0 := hall k0 (by simp)
      have a1 := hall k1 (by simp)
      have a2 := hall k2 (by simp)
      exact ⟨hkey, a0.1, a0.2, a1.1, a1.2, a2.1, a2.2, Or.inr (hall k3 (by simp)).1, hpts⟩
    · rw [if_neg h4] at h3
      subst h3
      have hk3 : k3 = usizeMax := by
        have hmx : usizeMax ∈ [k0, k1, k2, k3] := hperm.mem_iff.2 (by simp)
        have hk3m : k3 ∈ [p0, p1, p2, usizeMax] := hperm.mem_iff.1 (by simp)
        simp only [List.mem_cons, List.not_mem_nil, or_false] at hmx hk3m
        omega
      subst hk3
      have hperm' : [k0, k1, k2].Perm [p0, p1, p2] := by
        have a : [k0, k1, k2, usizeMax].Perm (usizeMax :: [k0, k1, k2]) := List.perm_append_comm (l₁ := [k0, k1, k2]) (l₂ := [usizeMax])
        have b : [p0, p1, p2, usizeMax].Perm (usizeMax :: [p0, p1, p2]) := List.perm_append_comm (l₁ := [p0, p1, p2]) (l₂ := [usizeMax])
        exact List.Perm.cons_inv ((a.symm.trans hperm).trans b)
      have hall : ∀ k ∈ [k0, k1, k2], k ∈ f.points ∧ k ≠ usizeMax := by
        intro k hk
        have := hperm'.mem_iff.1 hk
        simp only [List.mem_cons, List.not_mem_nil, or_false] at this
        rcases this with rfl | rfl | rfl
        · exact ⟨m0, by omega⟩
        · exact ⟨m1, by omega⟩
        · exact ⟨m2, by omega⟩
      have a0 := hall k0 (by simp)
      have a1 := hall k1 (by simp)
      have a2 := hall k2 (by simp)
      exact ⟨hkey, a0.1, a0.2, a1.1, a1.2, a2.1, a2.2, Or.inl rfl, hpts⟩

theorem IsNew.points_sub (hF : IsNew m extractAll x F) {q : Nat} (hq : q ∈ x.points) : q ∈ F.points := (hF.points q).2 (Or.inl hq)

/-! ## Search of edges and faces -/

theorem mem_collectKeys {Key : Type} [DecidableEq Key] (map : HMap Nat (List Key)) (accept : Key → Bool) (ids : List Nat) (k : Key) :
    k ∈ collectKeys map accept ids ↔ (∃ p ∈ ids, k ∈ (map.get p).getD []) ∧ accept k = true := by
  unfold collectKeys
  rw [List.mem_dedup, List.mem_flatMap]
  simp only [List.mem_filter]
  constructor
  · rintro ⟨p, h1, h2, h3⟩; exact ⟨⟨p, h1, h2⟩, h3⟩
  · rintro ⟨⟨p, h1, h2⟩, h3⟩; exact ⟨p, h1, h2, h3⟩

theorem sortedKeys {Key : Type} [DecidableEq Key] (le : Key → Key → Prop) [DecidableRel le] [Std.Total le] [IsTrans Key le]
    (l : List Key) (hn : l.Nodup) : (l.insertionSort le).Pairwise (fun a b => le a b ∧ a ≠ b) ∧ ∀ k, k ∈ l.insertionSort le ↔ k ∈ l := by
  have hp := List.perm_insertionSort le l
  have h1 := List.pairwise_insertionSort le l
  have h2 : (l.insertionSort le).Nodup := hp.nodup_iff.2 hn
  exact ⟨(h1.and h2), fun k => hp.mem_iff⟩

/-- The edges whose two end points are among `ids`. -/
theorem searchEdgeKeys_spec (hF : IsNew m extractAll x F) (h : ValidMesh m) (a : At) (filter : List ℝ → Bool) (ids : List Nat)
    (hids : F.searchPointIds go a filter = .ok ids) :
    ((∃ key f, F.edges.get key = some f ∧ key.1 ∈ ids ∧ key.2 ∈ ids) →
      ∃ keys, F.searchEdgeKeys go a filter = .ok keys ∧ keys.Pairwise (fun a b => edgeKeyLe a b ∧ a ≠ b) ∧
        ∀ key, key ∈ keys ↔ (∃ f, F.edges.get key = some f) ∧ key.1 ∈ ids ∧ key.2 ∈ ids) ∧
    (¬(∃ key f, F.edges.get key = some f ∧ key.1 ∈ ids ∧ key.2 ∈ ids) → ∃ e, F.searchEdgeKeys go a filter = .err e) := by
  have hmem : ∀ key, key ∈ collectKeys F.pointToEdges (fun k => ids.contains k.1 && ids.contains k.2) ids ↔
      (∃ f, F.edges.get key = some f) ∧ key.1 ∈ ids ∧ key.2 ∈ ids := by
    intro key
    rw [mem_collectKeys]
    simp only [hF.pointToEdges, Bool.and_eq_true, List.contains_iff_mem]
    constructor
    · rintro ⟨⟨p, hp, f, hf, _⟩, h1, h2⟩; exact ⟨⟨f, hf⟩, h1, h2⟩
    · rintro ⟨⟨f, hf⟩, h1, h2⟩
      refine ⟨⟨key.1, h1, f, hf, ?_⟩, h1, h2⟩
      rw [hF.edges] at hf
      exact (edge_key_points h hF.extracted hf).2.1
  unfold Features.searchEdgeKeys
  rw [hids, Res.bind_ok]
  dsimp only
  constructor
  · rintro ⟨key, f, hf, h1, h2⟩
    have hne : (collectKeys F.pointToEdges (fun k => ids.contains k.1 && ids.contains k.2) ids).length ≠ 0 := by
      have := (hmem key).2 ⟨⟨f, hf⟩, h1, h2⟩
      intro h0; rw [List.length_eq_zero_iff] at h0; rw [h0] at this; simp at this
    rw [if_neg hne]
    obtain ⟨s1, s2⟩ := sortedKeys edgeKeyLe _ (List.nodup_dedup _ : (collectKeys F.pointToEdges (fun k => ids.contains k.1 && ids.contains k.2) ids).Nodup)
    exact ⟨_, rfl, s1, fun k => (s2 k).trans (hmem k)⟩
  · intro hno
    have h0 : (collectKeys F.pointToEdges (fun k => ids.contains k.1 && ids.contains k.2) ids).length = 0 := by
      rw [List.length_eq_zero_iff, List.eq_nil_iff_forall_not_mem]
      intro k hk
      obtain ⟨⟨f, hf⟩, h1, h2⟩ := (hmem k).1 hk
      exact hno ⟨k, f, hf, h1, h2⟩
    rw [if_pos h0]; exact ⟨_, rfl⟩

/-- The faces whose key points are among `ids`. -/
theorem searchFaceKeys_spec (hF : IsNew m extractAll x F) (h : ValidMesh m) (hM : m.points.length ≤ usizeMax) (h3 : m.ndim = 3) (a : At)
    (filter : List ℝ → Bool) (ids : List Nat) (hids : F.searchPointIds go a filter = .ok ids) :
    ((∃ key f, F.faces.get key = some f ∧ ∀ p ∈ key.toList, p ≠ usizeMax → p ∈ ids) →
      ∃ keys, F.searchFaceKeys go a filter = .ok keys ∧ keys.Pairwise (fun a b => faceKeyLe a b ∧ a ≠ b) ∧
        ∀ key, key ∈ keys ↔ (∃ f, F.faces.get key = some f) ∧ ∀ p ∈ key.toList, p ≠ usizeMax → p ∈ ids) ∧
    (¬(∃ key f, F.faces.get key = some f ∧ ∀ p ∈ key.toList, p ≠ usizeMax → p ∈ ids) → ∃ e, F.searchFaceKeys go a filter = .err e) := by
  have hmem : ∀ key, key ∈ collectKeys F.pointToFaces (fun k => ids.contains k.1 && ids.contains k.2.1 && ids.contains k.2.2.1 &&
      (decide (k.2.2.2 = usizeMax) || ids.contains k.2.2.2)) ids ↔
      (∃ f, F.faces.get key = some f) ∧ ∀ p ∈ key.toList, p ≠ usizeMax → p ∈ ids := by
    intro key
    rw [mem_collectKeys]
    simp only [hF.pointToFaces, Bool.and_eq_true, Bool.or_eq_true, decide_eq_true_eq, List.contains_iff_mem, FaceKey.toList, List.mem_cons,
      List.not_mem_nil, or_false, forall_eq_or_imp, forall_eq]
    constructor
    · rintro ⟨⟨p, hp, f, hf, _⟩, ⟨⟨h1, h2⟩, h3⟩, h4⟩
      exact ⟨⟨f, hf⟩, fun _ => h1, fun _ => h2, fun _ => h3, fun hne => h4.resolve_left hne⟩
    · rintro ⟨⟨f, hf⟩, h1, h2, h3, h4⟩
      have hf' := hf
      rw [hF.faces] at hf'
      obtain ⟨_, a0, b0, _, b1, _, b2, _, _⟩ := face_key_points h hM hF.extracted hf'
      refine ⟨⟨key.1, h1 b0, f, hf, a0⟩, ⟨⟨h1 b0, h2 b1⟩, h3 b2⟩, ?_⟩
      by_cases hne : key.2.2.2 = usizeMax
      · exact Or.inl hne
      · exact Or.inr (h4 hne)
  unfold Features.searchFaceKeys
  rw [hF.mesh, if_neg (by omega), hids, Res.bind_ok]
  dsimp only
  constructor
  · rintro ⟨key, f, hf, h1⟩
    have hne : (collectKeys F.pointToFaces (fun k => ids.contains k.1 && ids.contains k.2.1 && ids.contains k.2.2.1 &&
      (decide (k.2.2.2 = usizeMax) || ids.contains k.2.2.2)) ids).length ≠ 0 := by
      have := (hmem key).2 ⟨⟨f, hf⟩, h1⟩
      intro h0; rw [List.length_eq_zero_iff] at h0; rw [h0] at this; simp at this
    rw [if_neg hne]
    obtain ⟨s1, s2⟩ := sortedKeys faceKeyLe _ (List.nodup_dedup _ : (collectKeys F.pointToFaces (fun k => ids.contains k.1 && ids.contains k.2.1 && ids.contains k.2.2.1 &&
      (decide (k.2.2.2 = usizeMax) || ids.contains k.2.2.2)) ids).Nodup)
    exact ⟨_, rfl, s1, fun k => (s2 k).trans (hmem k)⟩
  · intro hno
    have h0 : (collectKeys F.pointToFaces (fun k => ids.contains k.1 && ids.contains k.2.1 && ids.contains k.2.2.1 &&
      (decide (k.2.2.2 = usizeMax) || ids.contains k.2.2.2)) ids).length = 0 := by
      rw [List.length_eq_zero_iff, List.eq_nil_iff_forall_not_mem]
      intro k hk
      obtain ⟨⟨f, hf⟩, h1⟩ := (hmem k).1 hk
      exact hno ⟨k, f, hf, h1⟩
    rw [if_pos h0]; exact ⟨_, rfl⟩

/-- The point `q` is at the location and satisfies the filter. -/
def Hit (m : Mesh ℝ) (a : At) (filter : List ℝ → Bool) (q : Nat) : Prop := Near m.ndim a (coordsOf m q) ∧ filter (coordsOf m q) = true

/-- **C47.** Search of edges at a line, plane, circle or cylinder: the strictly increasing list of the keys of exactly the stored
edges both end points of which are at the location and satisfy the filter; an error if there are none. (The other points of a
curved edge are not looked at.) -/
theorem C47_edges (hF : IsNew m extractAll x F) (h : ValidMesh m) (hO : IterOrder go.outer) (hI : IterOrder go.inner)
    (hd : m.ndim = 2 ∨ m.ndim = 3) (a : At) (filter : List ℝ → Bool) (hs : Supported m.ndim a) (hp : pointOf m.ndim a = none) :
    ((∃ key f, F.edges.get key = some f ∧ Hit m a filter key.1 ∧ Hit m a filter key.2) →
      ∃ keys, F.searchEdgeKeys go a filter = .ok keys ∧ keys.Pairwise (fun a b => edgeKeyLe a b ∧ a ≠ b) ∧
        ∀ key, key ∈ keys ↔ (∃ f, F.edges.get key = some f) ∧ Hit m a filter key.1 ∧ Hit m a filter key.2) ∧
    (¬(∃ key f, F.edges.get key = some f ∧ Hit m a filter key.1 ∧ Hit m a filter key.2) → ∃ e, F.searchEdgeKeys go a filter = .err e) := by
  have hsub : ∀ key f, F.edges.get key = some f → key.1 ∈ F.points ∧ key.2 ∈ F.points := by
    intro key f hf
    rw [hF.edges] at hf
    obtain ⟨_, a1, a2, _, a3, _⟩ := edge_key_points h hF.extracted hf
    exact ⟨hF.points_sub (a3 _ a1), hF.points_sub (a3 _ a2)⟩
  obtain ⟨c1, c2⟩ := C47_points hF h hO hI hd a filter hs hp
  by_cases hex : ∃ q ∈ F.points, Near m.ndim a (coordsOf m q) ∧ filter (coordsOf m q) = true
  · obtain ⟨ids, e1, _, e3⟩ := c1 hex
    obtain ⟨d1, d2⟩ := searchEdgeKeys_spec hF h a filter ids e1
    have hiff : ∀ key, ((∃ f, F.edges.get key = some f) ∧ key.1 ∈ ids ∧ key.2 ∈ ids) ↔
        (∃ f, F.edges.get key = some f) ∧ Hit m a filter key.1 ∧ Hit m a filter key.2 := by
      intro key
      constructor
      · rintro ⟨hf, h1, h2⟩; exact ⟨hf, ((e3 _).1 h1).2, ((e3 _).1 h2).2⟩
      · rintro ⟨⟨f, hf⟩, h1, h2⟩
        exact ⟨⟨f, hf⟩, (e3 _).2 ⟨(hsub key f hf).1, h1⟩, (e3 _).2 ⟨(hsub key f hf).2, h2⟩⟩
    constructor
    · rintro ⟨key, f, hf, h1, h2⟩
      have := (hiff key).2 ⟨⟨f, hf⟩, h1, h2⟩
      obtain ⟨keys, k1, k2, k3⟩ := d1 ⟨key, f, hf, this.2⟩
      exact ⟨keys, k1, k2, fun key => (k3 key).trans (hiff key)⟩
    · intro hno
      refine d2 ?_
      rintro ⟨key, f, hf, h1⟩
      have := (hiff key).1 ⟨⟨f, hf⟩, h1⟩
      exact hno ⟨key, f, hf, this.2⟩
  · obtain ⟨e, he⟩ := c2 hex
    constructor
    · rintro ⟨key, f, hf, h1, _⟩
      exact absurd ⟨key.1, (hsub key f hf).1, h1⟩ hex
    · intro _
      unfold Features.searchEdgeKeys
      rw [he]; exact ⟨_, rfl⟩

/-- **C47.** Search of faces at a line, plane or cylinder: the strictly increasing list of the keys of exactly the stored faces all key
points of which are at the location and satisfy the filter; an error if there are none. -/
theorem C47_faces (hF : IsNew m extractAll x F) (h : ValidMesh m) (hM : m.points.length ≤ usizeMax)
    (hO : IterOrder go.outer) (hI : IterOrder go.inner)
    (h3 : m.ndim = 3) (a : At) (filter : List ℝ → Bool) (hs : Supported m.ndim a) (hp : pointOf m.ndim a = none) :
    ((∃ key f, F.faces.get key = some f ∧ ∀ p ∈ key.toList, p ≠ usizeMax → Hit m a filter p) →
      ∃ keys, F.searchFaceKeys go a filter = .ok keys ∧ keys.Pairwise (fun a b => faceKeyLe a b ∧ a ≠ b) ∧
        ∀ key, key ∈ keys ↔ (∃ f, F.faces.get key = some f) ∧ ∀ p ∈ key.toList, p ≠ usizeMax → Hit m a filter p) ∧
    (¬(∃ key f, F.faces.get key = some f ∧ ∀ p ∈ key.toList, p ≠ usizeMax → Hit m a filter p) →
      ∃ e, F.searchFaceKeys go a filter = .err e) := by
  have hsub : ∀ key f, F.faces.get key = some f → ∀ p ∈ key.toList, p ≠ usizeMax → p ∈ F.points := by
    intro key f hf
    rw [hF.faces] at hf
    obtain ⟨_, a0, _, a1, _, a2, _, a3, a4⟩ := face_key_points h hM hF.extracted hf
    intro p hp hne
    apply hF.points_sub
    simp only [FaceKey.toList, List.mem_cons, List.not_mem_nil, or_false] at hp
    rcases hp with rfl | rfl | rfl | rfl
    · exact a4 _ a0
    · exact a4 _ a1
    · exact a4 _ a2
    · exact a4 _ (a3.resolve_left hne)
  obtain ⟨c1, c2⟩ := C47_points hF h hO hI (Or.inr h3) a filter hs hp
  by_cases hex : ∃ q ∈ F.points, Near m.ndim a (coordsOf m q) ∧ filter (coordsOf m q) = true
  · obtain ⟨ids, e1, _, e3⟩ := c1 hex
    obtain ⟨d1, d2⟩ := searchFaceKeys_spec hF h hM h3 a filter ids e1
    have hiff : ∀ key, ((∃ f, F.faces.get key = some f) ∧ ∀ p ∈ key.toList, p ≠ usizeMax → p ∈ ids) ↔
        (∃ f, F.faces.get key = some f) ∧ ∀ p ∈ key.toList, p ≠ usizeMax → Hit m a filter p := by
      intro key
      constructor
      · rintro ⟨hf, h1⟩; exact ⟨hf, fun p hp hne => ((e3 _).1 (h1 p hp hne)).2⟩
      · rintro ⟨⟨f, hf⟩, h1⟩
        exact ⟨⟨f, hf⟩, fun p hp hne => (e3 _).2 ⟨hsub key f hf p hp hne, h1 p hp hne⟩⟩
    constructor
    · rintro ⟨key, f, hf, h1⟩
      have := (hiff key).2 ⟨⟨f, hf⟩, h1⟩
      obtain ⟨keys, k1, k2, k3⟩ := d1 ⟨key, f, hf, this.2⟩
      exact ⟨keys, k1, k2, fun key => (k3 key).trans (hiff key)⟩
    · intro hno
      refine d2 ?_
      rintro ⟨key, f, hf, h1⟩
      have := (hiff key).1 ⟨⟨f, hf⟩, h1⟩
      exact hno ⟨key, f, hf, this.2⟩
  · obtain ⟨e, he⟩ := c2 hex
    constructor
    · rintro ⟨key, f, hf, h1⟩
      have hf' := hf
      rw [hF.faces] at hf'
      obtain ⟨_, a0, b0, _⟩ := face_key_points h hM hF.extracted hf'
      have hk : key.1 ∈ key.toList := by simp [FaceKey.toList]
      exact absurd ⟨key.1, hsub key f hf _ hk b0, h1 _ hk b0⟩ hex
    · intro _
      unfold Features.searchFaceKeys
      rw [hF.mesh, if_neg (by omega), he]; exact ⟨_, rfl⟩

/-- **C47.** Faces cannot be searched in 2D: the answer is an error, whatever the location. -/
theorem C47_faces_2d (hF : IsNew m extractAll x F) (h2 : m.ndim ≠ 3) (a : At) (filter : List ℝ → Bool) :
    ∃ e, F.searchFaceKeys go a filter = .err e := by
  unfold Features.searchFaceKeys
  rw [hF.mesh, if_pos h2]; exact ⟨_, rfl⟩

end
end Gemlab.Props.Features
