import Verif.Proofs.MeshText

/-! The parser accepts exactly the texts that denote a mesh. -/
namespace Gemlab.MeshText
open Gemlab Gemlab.Mesh

theorem parseSizes_ok {ws : List Text} {s : Sizes} :
    parseSizes ws = .ok s ↔ 5 ≤ ws.length ∧ AreNats (ws.take 5) [s.ndim, s.npoint, s.ncell, s.nmarkedEdge, s.nmarkedFace] := by
  unfold parseSizes
  simp only [Res.bind_eq_ok, first_ok, next_ok]
  constructor
  · rintro ⟨⟨a, d1⟩, ⟨w1, rfl, h1⟩, ⟨b, d2⟩, ⟨w2, hd1, h2⟩, ⟨c, d3⟩, ⟨w3, hd2, h3⟩, ⟨d, d4⟩, ⟨w4, hd3, h4⟩, ⟨e, d5⟩, ⟨w5, hd4, h5⟩, h⟩
    dsimp only at hd1 hd2 hd3 hd4 h
    subst hd1 hd2 hd3 hd4
    simp only [Res.ok.injEq] at h
    subst h
    refine ⟨by simp, ?_⟩
    simp only [List.take_succ_cons, List.take_zero]
    exact .cons h1 (.cons h2 (.cons h3 (.cons h4 (.cons h5 .nil))))
  · rintro ⟨hl, hall⟩
    match ws, hl with
    | w1 :: w2 :: w3 :: w4 :: w5 :: r, _ =>
      simp only [List.take_succ_cons, List.take_zero] at hall
      cases hall with
      | cons h1 hall =>
      cases hall with
      | cons h2 hall =>
      cases hall with
      | cons h3 hall =>
      cases hall with
      | cons h4 hall =>
      cases hall with
      | cons h5 hall =>
      exact ⟨(_, _), ⟨w1, rfl, h1⟩, (_, _), ⟨w2, rfl, h2⟩, (_, _), ⟨w3, rfl, h3⟩, (_, _), ⟨w4, rfl, h4⟩, (_, _), ⟨w5, rfl, h5⟩, rfl⟩

theorem optSection_iff {α : Type} (parse : Nat → List Text → Res α) (n : Nat) (ds rest : List (List Text)) (r : List α) :
    ((if n > 0 then sectionT parse n ds [] else .ok ([], ds)) = .ok (r, rest) ∧ ¬(n > 0 ∧ r.length ≠ n)) ↔
      ∃ pts, ds = pts ++ rest ∧ r.length = n ∧ Parsed parse 0 pts r := by
  by_cases hn : n > 0
  · rw [if_pos hn]
    simp only [hn, true_and, not_not, ne_eq]
    rw [sectionT_iff]
    constructor
    · rintro ⟨pts, h1, h2, h3, _⟩; exact ⟨pts, h1, h2, h3⟩
    · rintro ⟨pts, h1, h2, h3⟩
      exact ⟨pts, h1, h2, h3, by rintro rfl; simp at h2; omega⟩
  · rw [if_neg hn]
    simp only [hn, false_and, not_false_eq_true, and_true, Res.ok.injEq, Prod.mk.injEq]
    have hn0 : n = 0 := by omega
    constructor
    · rintro ⟨rfl, rfl⟩; exact ⟨[], rfl, by simp [hn0], trivial⟩
    · rintro ⟨pts, h1, h2, h3⟩
      have hr := List.length_eq_zero_iff.mp (h2.trans hn0)
      subst hr
      cases pts with
      | nil => exact ⟨rfl, h1⟩
      | cons _ _ => exact absurd h3 (by simp [Parsed])

variable {K : Type} [Zero K]

theorem parsed_points (ft : FloatText K) (ndim : Nat) (ds : List (List Text)) (as : List (Point K)) :
    Parsed (parsePoint ft ndim) 0 ds as ↔
      List.Forall₂ (IsPoint ft ndim) ds as ∧ (∀ (i : Nat) p, as[i]? = some p → p.id = i) ∧ (as ≠ [] → 2 ≤ ndim) := by
  rw [parsed_iff (Q := fun k p => p.id = k ∧ 2 ≤ ndim) (fun k ws a => parsePoint_ok)]
  constructor
  · rintro ⟨h1, h2⟩
    refine ⟨h1, fun i p h => by simpa using (h2 i p h).1, ?_⟩
    intro hne
    cases as with
    | nil => exact absurd rfl hne
    | cons a as => exact (h2 0 a rfl).2
  · rintro ⟨h1, h2, h3⟩
    refine ⟨h1, fun i p h => ⟨by simpa using h2 i p h, h3 ?_⟩⟩
    rintro rfl; simp at h

theorem parsed_cells (ds : List (List Text)) (as : List Cell) :
    Parsed parseCell 0 ds as ↔ List.Forall₂ IsCell ds as ∧ (∀ (i : Nat) c, as[i]? = some c → c.id = i) := by
  rw [parsed_iff (Q := fun k c => c.id = k) (fun k ws a => parseCell_ok)]
  simp

theorem parsed_edges (ds : List (List Text)) (as : List (Int × Nat × Nat)) :
    Parsed (fun _ => parseMarkedEdge) 0 ds as ↔ List.Forall₂ IsEdge ds as := by
  rw [parsed_iff (P := IsEdge) (Q := fun _ _ => True) (fun k ws a => by rw [parseMarkedEdge_ok]; simp)]
  simp

theorem parsed_faces (ds : List (List Text)) (as : List (Int × Nat × Nat × Nat × Nat)) :
    Parsed (fun _ => parseMarkedFace) 0 ds as ↔ List.Forall₂ IsFace ds as := by
  rw [parsed_iff (P := IsFace) (Q := fun _ _ => True) (fun k ws a => by rw [parseMarkedFace_ok]; simp)]
  simp

theorem bodyT_ok (ft : FloatText K) (s : Sizes) (ds : List (List Text)) (m : Mesh K) :
    bodyT ft s ds = .ok m ↔
      (m.ndim = s.ndim ∧ m.points.length = s.npoint ∧ m.cells.length = s.ncell ∧ m.markedEdges.length = s.nmarkedEdge ∧
        m.markedFaces.length = s.nmarkedFace) ∧
      ∃ pts cls es fs rest, ds = pts ++ cls ++ es ++ fs ++ rest ∧
        List.Forall₂ (IsPoint ft m.ndim) pts m.points ∧ (∀ (i : Nat) p, m.points[i]? = some p → p.id = i) ∧
        (m.points ≠ [] → 2 ≤ m.ndim) ∧
        List.Forall₂ IsCell cls m.cells ∧ (∀ (i : Nat) c, m.cells[i]? = some c → c.id = i) ∧
        List.Forall₂ IsEdge es m.markedEdges ∧
        List.Forall₂ IsFace fs m.markedFaces ∧
        (m.points = [] → cls ++ es ++ fs ++ rest = []) ∧
        (m.cells = [] → es ++ fs ++ rest = []) := by
  unfold bodyT
  simp only [Res.bind_eq_ok]
  constructor
  · rintro ⟨⟨points, d1⟩, h1, h⟩
    dsimp only at h
    split at h
    · cases h
    rename_i hp
    rw [Res.bind_eq_ok] at h
    obtain ⟨⟨cells, d2⟩, h2, h⟩ := h
    dsimp only at h
    split at h
    · cases h
    rename_i hc
    rw [Res.bind_eq_ok] at h
    obtain ⟨⟨edges, d3⟩, h3, h⟩ := h
    dsimp only at h
    split at h
    · cases h
    rename_i he
    rw [Res.bind_eq_ok] at h
    obtain ⟨⟨faces, d4⟩, h4, h⟩ := h
    dsimp only at h
    split at h
    · cases h
    rename_i hf
    simp only [Res.ok.injEq] at h
    subst h
    obtain ⟨pts, rfl, hpl, hpp, hpe⟩ := (sectionT_iff _ _ _ _ _).mp ⟨h1, by simpa using hp⟩
    obtain ⟨cls, rfl, hcl, hcp, hce⟩ := (sectionT_iff _ _ _ _ _).mp ⟨h2, by simpa using hc⟩
    obtain ⟨es, rfl, hel, hep⟩ := (optSection_iff _ _ _ _ _).mp ⟨h3, he⟩
    obtain ⟨fs, rfl, hfl, hfp⟩ := (optSection_iff _ _ _ _ _).mp ⟨h4, hf⟩
    rw [parsed_points] at hpp
    rw [parsed_cells] at hcp
    rw [parsed_edges] at hep
    rw [parsed_faces] at hfp
    refine ⟨⟨rfl, hpl, hcl, hel, hfl⟩, pts, cls, es, fs, d4, by simp, hpp.1, hpp.2.1, hpp.2.2, hcp.1, hcp.2, hep, hfp, ?_, ?_⟩
    · intro h; have := hpe h; simpa using this
    · intro h; have := hce h; simpa using this
  · rintro ⟨⟨hnd, hpl, hcl, hel, hfl⟩, pts, cls, es, fs, rest, rfl, hp1, hp2, hp3, hc1, hc2, he, hf, hz1, hz2⟩
    have e1 := (sectionT_iff (parsePoint ft s.ndim) s.npoint (pts ++ cls ++ es ++ fs ++ rest) (cls ++ es ++ fs ++ rest) m.points).mpr
      ⟨pts, by simp, hpl, by rw [← hnd]; exact (parsed_points ft m.ndim pts m.points).mpr ⟨hp1, hp2, hp3⟩, hz1⟩
    have e2 := (sectionT_iff parseCell s.ncell (cls ++ es ++ fs ++ rest) (es ++ fs ++ rest) m.cells).mpr
      ⟨cls, by simp, hcl, (parsed_cells cls m.cells).mpr ⟨hc1, hc2⟩, hz2⟩
    have e3 := (optSection_iff (fun _ => parseMarkedEdge) s.nmarkedEdge (es ++ fs ++ rest) (fs ++ rest) m.markedEdges).mpr
      ⟨es, by simp, hel, (parsed_edges _ _).mpr he⟩
    have e4 := (optSection_iff (fun _ => parseMarkedFace) s.nmarkedFace (fs ++ rest) rest m.markedFaces).mpr
      ⟨fs, by simp, hfl, (parsed_faces _ _).mpr hf⟩
    refine ⟨(m.points, _), e1.1, ?_⟩
    dsimp only
    rw [if_neg (by simp [hpl]), Res.bind_eq_ok]
    refine ⟨(m.cells, _), e2.1, ?_⟩
    dsimp only
    rw [if_neg (by simp [hcl]), Res.bind_eq_ok]
    refine ⟨(m.markedEdges, _), e3.1, ?_⟩
    dsimp only
    rw [if_neg e3.2, Res.bind_eq_ok]
    refine ⟨(m.markedFaces, _), e4.1, ?_⟩
    dsimp only
    rw [if_neg e4.2, ← hnd]

theorem parseT_ok (ft : FloatText K) (msg : String) (ds : List (List Text)) (m : Mesh K) :
    parseT ft msg ds = .ok m ↔ Denotes ft ds m := by
  unfold parseT Denotes
  rw [Res.bind_eq_ok]
  constructor
  · rintro ⟨⟨s, d⟩, hh, hb⟩
    cases ds with
    | nil => simp [headerT] at hh
    | cons w ds =>
      simp only [headerT, Res.bind_eq_ok, Res.ok.injEq, Prod.mk.injEq] at hh
      obtain ⟨s', hs, rfl, rfl⟩ := hh
      rw [parseSizes_ok] at hs
      obtain ⟨⟨h1, h2, h3, h4, h5⟩, pts, cls, es, fs, rest, rfl, hrest⟩ := (bodyT_ok ft _ _ m).mp hb
      refine ⟨w, pts, cls, es, fs, rest, rfl, ?_, hrest⟩
      unfold IsHeader
      rw [h1, h2, h3, h4, h5]
      exact hs
  · rintro ⟨w, pts, cls, es, fs, rest, rfl, hh, hrest⟩
    refine ⟨(⟨m.ndim, m.points.length, m.cells.length, m.markedEdges.length, m.markedFaces.length⟩, pts ++ cls ++ es ++ fs ++ rest), ?_, ?_⟩
    · simp only [headerT, Res.bind_eq_ok]
      exact ⟨⟨m.ndim, m.points.length, m.cells.length, m.markedEdges.length, m.markedFaces.length⟩, parseSizes_ok.mpr hh, rfl⟩
    · exact (bodyT_ok ft _ _ m).mpr ⟨⟨rfl, rfl, rfl, rfl, rfl⟩, pts, cls, es, fs, rest, rfl, hrest⟩

end Gemlab.MeshText
