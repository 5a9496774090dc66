import Verif.Spec.MeshText
import Mathlib.Data.List.Forall2

/-! The parser in terms of data lines. -/
namespace Gemlab.MeshText
open Gemlab Gemlab.Mesh

/-- `readSection` on data lines. -/
def sectionT {α : Type} (parse : Nat → List Text → Res α) (n : Nat) : List (List Text) → List α → Res (List α × List (List Text))
  | [], acc => .ok (acc, [])
  | d :: ds, acc => do
    let a ← parse acc.length d
    if acc.length + 1 = n then .ok (acc ++ [a], ds) else sectionT parse n ds (acc ++ [a])

theorem readSection_bind {α β : Type} (parse : Nat → List Text → Res α) (n : Nat) (ls : List Text) (acc : List α)
    (k : List α × List Text → Res β) (k' : List α × List (List Text) → Res β)
    (hk : ∀ a ls, k (a, ls) = k' (a, ls.filterMap dataOf)) :
    (readSection parse n ls acc).bind k = (sectionT parse n (ls.filterMap dataOf) acc).bind k' := by
  induction ls generalizing acc with
  | nil => simp [readSection, sectionT, Res.bind, hk]
  | cons l ls ih =>
    unfold readSection
    cases hd : dataOf l with
    | none => simp only [List.filterMap_cons, hd]; exact ih acc
    | some d =>
      simp only [List.filterMap_cons, hd, sectionT]
      cases hp : parse acc.length d with
      | ok a =>
        simp only [Res.bind_ok]
        show Res.bind (if _ then _ else _) k = Res.bind (if _ then _ else _) k'
        split
        · simp [Res.bind, hk]
        · exact ih _
      | err e => rfl
      | panic => rfl

/-- The header on data lines. -/
def headerT (msg : String) : List (List Text) → Res (Sizes × List (List Text))
  | [] => .err msg
  | d :: ds => do
    let s ← parseSizes d
    .ok (s, ds)

theorem readHeader_bind {β : Type} (msg : String) (ls : List Text) (k : Sizes × List Text → Res β)
    (k' : Sizes × List (List Text) → Res β) (hk : ∀ a ls, k (a, ls) = k' (a, ls.filterMap dataOf)) :
    (readHeader msg ls).bind k = (headerT msg (ls.filterMap dataOf)).bind k' := by
  induction ls with
  | nil => simp [readHeader, headerT, Res.bind]
  | cons l ls ih =>
    unfold readHeader
    cases hd : dataOf l with
    | none => simp only [List.filterMap_cons, hd]; exact ih
    | some d =>
      simp only [List.filterMap_cons, hd, headerT]
      cases hp : parseSizes d with
      | ok a => simp [Res.bind, bind, hk]
      | err e => rfl
      | panic => rfl

variable {K : Type} [Zero K]

/-- Everything after the header, on data lines. -/
def bodyT (ft : FloatText K) (s : Sizes) (ds : List (List Text)) : Res (Mesh K) := do
  let (points, ds) ← sectionT (parsePoint ft s.ndim) s.npoint ds []
  if points.length ≠ s.npoint then .err "not all points have been found"
  else do
    let (cells, ds) ← sectionT parseCell s.ncell ds []
    if cells.length ≠ s.ncell then .err "not all cells have been found"
    else do
      let (edges, ds) ← (if s.nmarkedEdge > 0 then sectionT (fun _ => parseMarkedEdge) s.nmarkedEdge ds [] else .ok ([], ds))
      if s.nmarkedEdge > 0 ∧ edges.length ≠ s.nmarkedEdge then .err "not all marked edges have been found"
      else do
        let (faces, _) ← (if s.nmarkedFace > 0 then sectionT (fun _ => parseMarkedFace) s.nmarkedFace ds [] else .ok ([], ds))
        if s.nmarkedFace > 0 ∧ faces.length ≠ s.nmarkedFace then .err "not all marked faces have been found"
        else .ok { ndim := s.ndim, points := points, cells := cells, markedEdges := edges, markedFaces := faces }

theorem readBody_eq (ft : FloatText K) (s : Sizes) (ls : List Text) : readBody ft s ls = bodyT ft s (ls.filterMap dataOf) := by
  unfold readBody bodyT
  apply readSection_bind
  intro points ls
  dsimp only
  split
  · rfl
  · apply readSection_bind
    intro cells ls
    dsimp only
    split
    · rfl
    · have inner : ∀ (edges : List (Int × Nat × Nat)) (ls : List Text),
          (if s.nmarkedEdge > 0 ∧ edges.length ≠ s.nmarkedEdge then (.err "not all marked edges have been found" : Res (Mesh K))
          else (do
            let (faces, _) ← (if s.nmarkedFace > 0 then readSection (fun _ => parseMarkedFace) s.nmarkedFace ls [] else .ok ([], ls))
            if s.nmarkedFace > 0 ∧ faces.length ≠ s.nmarkedFace then .err "not all marked faces have been found"
            else .ok { ndim := s.ndim, points := points, cells := cells, markedEdges := edges, markedFaces := faces })) =
          (if s.nmarkedEdge > 0 ∧ edges.length ≠ s.nmarkedEdge then .err "not all marked edges have been found"
          else (do
            let (faces, _) ← (if s.nmarkedFace > 0 then sectionT (fun _ => parseMarkedFace) s.nmarkedFace (ls.filterMap dataOf) [] else .ok ([], (ls.filterMap dataOf)))
            if s.nmarkedFace > 0 ∧ faces.length ≠ s.nmarkedFace then .err "not all marked faces have been found"
            else .ok { ndim := s.ndim, points := points, cells := cells, markedEdges := edges, markedFaces := faces })) := by
        intro edges ls
        split
        · rfl
        · by_cases hf : s.nmarkedFace > 0
          · simp only [if_pos hf]
            apply readSection_bind
            intro faces ls; rfl
          · simp only [if_neg hf]; rfl
      by_cases he : s.nmarkedEdge > 0
      · simp only [if_pos he]
        apply readSection_bind
        intro edges ls
        exact inner edges ls
      · simp only [if_neg he]
        exact inner [] ls

/-- The whole parser on data lines. -/
def parseT (ft : FloatText K) (msg : String) (ds : List (List Text)) : Res (Mesh K) := do
  let (s, ds) ← headerT msg ds
  bodyT ft s ds

theorem fromText_eq (ft : FloatText K) (t : Text) :
    fromText ft t = parseT ft "text string is empty or header is missing" (dataLines t) := by
  unfold fromText parseT dataLines
  apply readHeader_bind
  intro s ls
  exact readBody_eq ft s ls

theorem read_eq (ft : FloatText K) (t : Text) :
    read ft t = parseT ft "file is empty or header is missing" (dataLines t) := by
  unfold read parseT dataLines
  apply readHeader_bind
  intro s ls
  exact readBody_eq ft s ls

/-- The lines parse to the items, with consecutive indices. -/
def Parsed {α : Type} (parse : Nat → List Text → Res α) : Nat → List (List Text) → List α → Prop
  | _, [], [] => True
  | k, d :: ds, a :: as => parse k d = .ok a ∧ Parsed parse (k + 1) ds as
  | _, _, _ => False

theorem sectionT_ok {α : Type} (parse : Nat → List Text → Res α) (n : Nat) (ds rest : List (List Text)) (acc r : List α)
    (hn : acc.length < n) :
    (sectionT parse n ds acc = .ok (r, rest) ∧ r.length = n) ↔
      ∃ pts as, ds = pts ++ rest ∧ r = acc ++ as ∧ r.length = n ∧ Parsed parse acc.length pts as := by
  induction ds generalizing acc with
  | nil =>
    simp only [sectionT, Res.ok.injEq, Prod.mk.injEq]
    constructor
    · rintro ⟨⟨rfl, rfl⟩, h⟩; omega
    · rintro ⟨pts, as, h1, h2, h3, h4⟩
      obtain ⟨rfl, rfl⟩ := List.append_eq_nil_iff.mp h1.symm
      cases as with
      | nil => simp only [List.append_nil] at h2; subst h2; omega
      | cons a as => exact absurd h4 (by simp [Parsed])
  | cons d ds ih =>
    simp only [sectionT, Res.bind_eq_ok]
    constructor
    · rintro ⟨⟨a, ha, h⟩, hr⟩
      split at h
      · rename_i hl
        simp only [Res.ok.injEq, Prod.mk.injEq] at h
        obtain ⟨rfl, rfl⟩ := h
        exact ⟨[d], [a], rfl, rfl, hr, ha, trivial⟩
      · rename_i hl
        obtain ⟨pts, as, h1, h2, h3, h4⟩ := (ih (acc ++ [a]) (by simp; omega)).mp ⟨h, hr⟩
        refine ⟨d :: pts, a :: as, by simp [h1], by simp [h2], hr, ha, ?_⟩
        simpa using h4
    · rintro ⟨pts, as, h1, h2, h3, h4⟩
      cases pts with
      | nil =>
        cases as with
        | nil => simp only [List.append_nil] at h2; subst h2; omega
        | cons a as => exact absurd h4 (by simp [Parsed])
      | cons d' pts =>
        cases as with
        | nil => exact absurd h4 (by simp [Parsed])
        | cons a as =>
          simp only [List.cons_append, List.cons.injEq] at h1
          obtain ⟨rfl, h1⟩ := h1
          obtain ⟨ha, h4⟩ := h4
          refine ⟨⟨a, ha, ?_⟩, h3⟩
          split
          · rename_i hl
            have : as = [] := by
              have := congrArg List.length h2
              simp at this
              exact List.length_eq_zero_iff.mp (by omega)
            subst this
            cases pts with
            | nil => simp [h1, h2]
            | cons _ _ => exact absurd h4 (by simp [Parsed])
          · rename_i hl
            refine ((ih (acc ++ [a]) (by simp; omega)).mpr ⟨pts, as, h1, by simp [h2], h3, ?_⟩).1
            simpa using h4

theorem sectionT_length_le {α : Type} (parse : Nat → List Text → Res α) (n : Nat) (ds rest : List (List Text)) (acc r : List α)
    (h : sectionT parse n ds acc = .ok (r, rest)) : acc.length ≤ r.length ∧ (ds ≠ [] → acc.length < r.length) := by
  induction ds generalizing acc with
  | nil => simp only [sectionT, Res.ok.injEq, Prod.mk.injEq] at h; simp [h.1]
  | cons d ds ih =>
    simp only [sectionT, Res.bind_eq_ok] at h
    obtain ⟨a, ha, h⟩ := h
    split at h
    · simp only [Res.ok.injEq, Prod.mk.injEq] at h; simp [← h.1]
    · have := (ih _ h).1
      simp at this
      exact ⟨by omega, fun _ => by omega⟩

theorem sectionT_ok_zero {α : Type} (parse : Nat → List Text → Res α) (ds rest : List (List Text)) (r : List α) :
    (sectionT parse 0 ds [] = .ok (r, rest) ∧ r.length = 0) ↔ ds = [] ∧ rest = [] ∧ r = [] := by
  constructor
  · rintro ⟨h, hr⟩
    have hd : ds = [] := by
      by_contra hne
      have := (sectionT_length_le parse 0 ds rest [] r h).2 hne
      simp at this
      have := List.length_eq_zero_iff.mp hr
      omega
    subst hd
    simp only [sectionT, Res.ok.injEq, Prod.mk.injEq] at h
    exact ⟨rfl, h.2.symm, h.1.symm⟩
  · rintro ⟨rfl, rfl, rfl⟩; exact ⟨rfl, rfl⟩

/-- What a section accepts. -/
theorem sectionT_iff {α : Type} (parse : Nat → List Text → Res α) (n : Nat) (ds rest : List (List Text)) (r : List α) :
    (sectionT parse n ds [] = .ok (r, rest) ∧ r.length = n) ↔
      ∃ pts, ds = pts ++ rest ∧ r.length = n ∧ Parsed parse 0 pts r ∧ (r = [] → rest = []) := by
  by_cases hn : n = 0
  · subst hn
    rw [sectionT_ok_zero]
    constructor
    · rintro ⟨rfl, rfl, rfl⟩; exact ⟨[], rfl, rfl, trivial, fun _ => rfl⟩
    · rintro ⟨pts, h1, h2, h3, h4⟩
      have hr := List.length_eq_zero_iff.mp h2
      subst hr
      cases pts with
      | nil => have := h4 rfl; subst this; exact ⟨by simpa using h1, rfl, rfl⟩
      | cons _ _ => exact absurd h3 (by simp [Parsed])
  · rw [sectionT_ok parse n ds rest [] r (by simp; omega)]
    constructor
    · rintro ⟨pts, as, h1, h2, h3, h4⟩
      simp only [List.nil_append] at h2; subst h2
      refine ⟨pts, h1, h3, h4, ?_⟩
      rintro rfl; simp at h3; omega
    · rintro ⟨pts, h1, h3, h4, _⟩
      exact ⟨pts, r, h1, by simp, h3, h4⟩

theorem next_ok {α : Type} {parse : Text → Option α} {mp mr : String} {ds : List Text} {x : α × List Text} :
    next parse mp mr ds = .ok x ↔ ∃ w, ds = w :: x.2 ∧ parse w = some x.1 := by
  obtain ⟨v, rest⟩ := x
  cases ds with
  | nil => simp [next]
  | cons w ws =>
    simp only [next]
    cases h : parse w with
    | none => simp [h]
    | some x => simp [h]; constructor <;> (rintro ⟨rfl, rfl⟩; simp)

theorem first_ok {α : Type} {parse : Text → Option α} {mp : String} {ds : List Text} {x : α × List Text} :
    first parse mp ds = .ok x ↔ ∃ w, ds = w :: x.2 ∧ parse w = some x.1 := by
  obtain ⟨v, rest⟩ := x
  cases ds with
  | nil => simp [first]
  | cons w ws =>
    simp only [first]
    cases h : parse w with
    | none => simp [h]
    | some x => simp [h]; constructor <;> (rintro ⟨rfl, rfl⟩; simp)

theorem parseIds_ok' {n : Nat} {ds rest : List Text} {ids : List Nat} :
    parseIds n ds = .ok (ids, rest) ↔ ∃ ws, ds = ws ++ rest ∧ ids.length = n ∧ AreNats ws ids := by
  induction n generalizing ds ids with
  | zero =>
    simp only [parseIds, Res.ok.injEq, Prod.mk.injEq]
    constructor
    · rintro ⟨rfl, rfl⟩; exact ⟨[], rfl, rfl, .nil⟩
    · rintro ⟨ws, h1, h2, h3⟩
      have := List.length_eq_zero_iff.mp h2; subst this
      cases h3
      exact ⟨rfl, h1⟩
  | succ n ih =>
    simp only [parseIds, Res.bind_eq_ok, next_ok]
    constructor
    · rintro ⟨⟨id, d1⟩, ⟨w, rfl, hw⟩, ⟨ids', d2⟩, h2, h3⟩
      dsimp only at h2 h3
      simp only [Res.ok.injEq, Prod.mk.injEq] at h3
      obtain ⟨rfl, rfl⟩ := h3
      obtain ⟨ws, rfl, hl, hall⟩ := ih.mp h2
      exact ⟨w :: ws, rfl, by simp [hl], .cons hw hall⟩
    · rintro ⟨ws, rfl, hl, hall⟩
      cases hall with
      | nil => simp at hl
      | @cons w id ws ids hw hall =>
        refine ⟨(id, ws ++ rest), ⟨w, rfl, hw⟩, (ids, rest), ?_, rfl⟩
        exact ih.mpr ⟨ws, rfl, by simpa using hl, hall⟩

theorem parseIds_ok {n : Nat} {ds : List Text} {x : List Nat × List Text} :
    parseIds n ds = .ok x ↔ ∃ ws, ds = ws ++ x.2 ∧ x.1.length = n ∧ AreNats ws x.1 := parseIds_ok'

theorem parsePoint_ok {ft : FloatText K} {ndim k : Nat} {ws : List Text} {p : Point K} :
    parsePoint ft ndim k ws = .ok p ↔ IsPoint ft ndim ws p ∧ p.id = k ∧ 2 ≤ ndim := by
  unfold parsePoint IsPoint
  simp only [Res.bind_eq_ok, first_ok]
  constructor
  · rintro ⟨⟨id, d1⟩, ⟨wid, rfl, hid⟩, h⟩
    dsimp only at h
    split at h
    · cases h
    · rename_i hk
      simp only [Res.bind_eq_ok, next_ok, Res.setIdx_eq_ok] at h
      obtain ⟨⟨mk, d2⟩, ⟨wm, rfl, hm⟩, ⟨x, d3⟩, ⟨wx, hd2, hx⟩, c1, ⟨hc1, rfl⟩, ⟨y, d4⟩, ⟨wy, hd3, hy⟩, c2, ⟨hc2, rfl⟩, ⟨c3, d5⟩, h3, h4⟩ := h
      dsimp only at hd2 hd3 h3 h4 hc1 hc2
      subst hd2 hd3
      simp only [List.length_set, List.length_replicate] at hc1 hc2
      split at h4
      · cases h4
      · rename_i hd5
        have hd5 : d5 = [] := by simpa using hd5
        subst hd5
        simp only [Res.ok.injEq] at h4
        subst h4
        have hk' : id = k := by simpa using hk
        refine ⟨⟨wid, wm, _, rfl, hid, hm, ?_⟩, hk', by omega⟩
        split at h3
        · rename_i h3d
          subst h3d
          simp only [Res.bind_eq_ok, next_ok, Res.setIdx_eq_ok] at h3
          obtain ⟨⟨z, d6⟩, ⟨wz, hd6, hz⟩, c4, ⟨_, rfl⟩, h5⟩ := h3
          dsimp only at hd6 h5
          simp only [Res.ok.injEq, Prod.mk.injEq] at h5
          obtain ⟨rfl, rfl⟩ := h5
          subst hd6
          exact ⟨[x, y, z], .cons hx (.cons hy (.cons hz .nil)), rfl, by simp [List.replicate]⟩
        · rename_i h3d
          simp only [Res.ok.injEq, Prod.mk.injEq] at h3
          obtain ⟨rfl, rfl⟩ := h3
          refine ⟨[x, y], .cons hx (.cons hy .nil), by simp [h3d], ?_⟩
          obtain ⟨q, rfl⟩ : ∃ q, ndim = q + 2 := ⟨ndim - 2, by omega⟩
          simp [List.replicate_succ]
  · rintro ⟨⟨wid, wm, wx, rfl, hid, hm, xs, hxs, hlen, hcoords⟩, rfl, hnd⟩
    obtain ⟨q, rfl⟩ : ∃ q, ndim = q + 2 := ⟨ndim - 2, by omega⟩
    refine ⟨(p.id, wm :: wx), ⟨wid, rfl, hid⟩, ?_⟩
    simp only [ne_eq, not_true_eq_false, if_false, Res.bind_eq_ok, next_ok, Res.setIdx_eq_ok]
    cases hxs with
    | nil => split at hlen <;> simp at hlen
    | @cons w0 x ws xs h0 hxs =>
    cases hxs with
    | nil => split at hlen <;> simp at hlen
    | @cons w1 y ws xs h1 hxs =>
    refine ⟨(p.marker, _), ⟨wm, rfl, hm⟩, (x, _), ⟨w0, rfl, h0⟩, _, ⟨by simp, rfl⟩, (y, _), ⟨w1, rfl, h1⟩, _, ⟨by simp, rfl⟩, ?_⟩
    by_cases h3 : q + 2 = 3
    · rw [if_pos h3] at hlen
      cases hxs with
      | nil => simp at hlen
      | @cons w2 z ws xs h2 hxs =>
        cases hxs with
        | cons _ _ => simp at hlen
        | nil =>
          have hq : q = 1 := by omega
          subst hq
          refine ⟨([x, y, z], []), ?_, ?_⟩
          · rw [if_pos rfl]
            simp only [Res.bind_eq_ok, next_ok, Res.setIdx_eq_ok]
            exact ⟨(z, []), ⟨w2, rfl, h2⟩, _, ⟨by simp, rfl⟩, by simp [List.replicate]⟩
          · simp only [not_true_eq_false, if_false, Res.ok.injEq]
            simp at hcoords
            rw [← hcoords]
    · rw [if_neg h3] at hlen
      cases hxs with
      | cons _ _ => simp at hlen
      | nil =>
        refine ⟨(x :: y :: List.replicate q 0, []), ?_, ?_⟩
        · rw [if_neg h3]
          simp [List.replicate_succ]
        · simp only [not_true_eq_false, if_false, Res.ok.injEq]
          simp at hcoords
          rw [← hcoords]

theorem parseCell_ok {k : Nat} {ws : List Text} {c : Cell} : parseCell k ws = .ok c ↔ IsCell ws c ∧ c.id = k := by
  unfold parseCell IsCell
  simp only [Res.bind_eq_ok, first_ok]
  constructor
  · rintro ⟨⟨id, d1⟩, ⟨wid, rfl, hid⟩, h⟩
    dsimp only at h
    split at h
    · cases h
    · rename_i hk
      simp only [Res.bind_eq_ok, next_ok, parseIds_ok] at h
      obtain ⟨⟨mk, d2⟩, ⟨wm, rfl, hm⟩, ⟨kd, d3⟩, ⟨wk, hd2, hkd⟩, ⟨ids, d4⟩, ⟨wp, hd3, hl, hall⟩, h4⟩ := h
      dsimp only at hd2 hd3 h4 hl
      subst hd2 hd3
      split at h4
      · cases h4
      · rename_i hd5
        have hd5 : d4 = [] := by simpa using hd5
        subst hd5
        simp only [Res.ok.injEq] at h4
        subst h4
        have hk' : id = k := by simpa using hk
        exact ⟨⟨wid, wm, wk, wp, by simp, hid, hm, hkd, hall, hl⟩, hk'⟩
  · rintro ⟨⟨wid, wm, wk, wp, rfl, hid, hm, hkd, hall, hl⟩, rfl⟩
    refine ⟨(c.id, wm :: wk :: wp), ⟨wid, rfl, hid⟩, ?_⟩
    simp only [ne_eq, not_true_eq_false, if_false, Res.bind_eq_ok, next_ok, parseIds_ok]
    exact ⟨(c.marker, _), ⟨wm, rfl, hm⟩, (c.kind, _), ⟨wk, rfl, hkd⟩, (c.points, []), ⟨wp, by simp, hl, hall⟩, by simp⟩

theorem parseMarkedEdge_ok {ws : List Text} {e : Int × Nat × Nat} : parseMarkedEdge ws = .ok e ↔ IsEdge ws e := by
  obtain ⟨mk, p1, p2⟩ := e
  unfold parseMarkedEdge IsEdge
  simp only [Res.bind_eq_ok, first_ok, next_ok]
  constructor
  · rintro ⟨⟨m', d1⟩, ⟨wm, rfl, hm⟩, ⟨q1, d2⟩, ⟨w1, hd1, h1⟩, ⟨q2, d3⟩, ⟨w2, hd2, h2⟩, h⟩
    dsimp only at hd1 hd2 h
    subst hd1 hd2
    split at h
    · cases h
    · rename_i hd
      have hd : d3 = [] := by simpa using hd
      subst hd
      simp only [Res.ok.injEq, Prod.mk.injEq] at h
      obtain ⟨rfl, rfl, rfl⟩ := h
      exact ⟨wm, [w1, w2], rfl, hm, .cons h1 (.cons h2 .nil)⟩
  · rintro ⟨wm, wp, rfl, hm, hall⟩
    cases hall with
    | @cons w1 _ ws _ h1 hall =>
    cases hall with
    | @cons w2 _ ws _ h2 hall =>
    cases hall
    exact ⟨(mk, _), ⟨wm, rfl, hm⟩, (p1, _), ⟨w1, rfl, h1⟩, (p2, _), ⟨w2, rfl, h2⟩, by simp⟩

theorem parseMarkedFace_ok {ws : List Text} {e : Int × Nat × Nat × Nat × Nat} : parseMarkedFace ws = .ok e ↔ IsFace ws e := by
  obtain ⟨mk, p1, p2, p3, p4⟩ := e
  unfold parseMarkedFace IsFace
  simp only [Res.bind_eq_ok, first_ok, next_ok]
  constructor
  · rintro ⟨⟨m', d1⟩, ⟨wm, rfl, hm⟩, ⟨q1, d2⟩, ⟨w1, hd1, h1⟩, ⟨q2, d3⟩, ⟨w2, hd2, h2⟩, ⟨q3, d4⟩, ⟨w3, hd3, h3⟩, h⟩
    dsimp only at hd1 hd2 hd3 h
    subst hd1 hd2 hd3
    cases d4 with
    | nil =>
      simp only [Res.ok.injEq, Prod.mk.injEq] at h
      obtain ⟨rfl, rfl, rfl, rfl, rfl⟩ := h
      exact ⟨wm, _, rfl, hm, .inl ⟨.cons h1 (.cons h2 (.cons h3 .nil)), rfl⟩⟩
    | cons w4 d5 =>
      dsimp only at h
      cases h4 : parseUsize w4 with
      | none => rw [h4] at h; cases h
      | some v =>
        rw [h4] at h
        simp only [Res.ok.injEq, Prod.mk.injEq] at h
        obtain ⟨rfl, rfl, rfl, rfl, rfl⟩ := h
        exact ⟨wm, _, rfl, hm, .inr ⟨by simp, .cons h1 (.cons h2 (.cons h3 (.cons h4 .nil)))⟩⟩
  · rintro ⟨wm, wp, rfl, hm, h⟩
    rcases h with ⟨hall, hp4⟩ | ⟨hl, hall⟩
    · cases hall with
      | @cons w1 _ ws _ h1 hall =>
      cases hall with
      | @cons w2 _ ws _ h2 hall =>
      cases hall with
      | @cons w3 _ ws _ h3 hall =>
      cases hall
      refine ⟨(mk, _), ⟨wm, rfl, hm⟩, (p1, _), ⟨w1, rfl, h1⟩, (p2, _), ⟨w2, rfl, h2⟩, (p3, _), ⟨w3, rfl, h3⟩, ?_⟩
      have hp4 : p4 = usizeMax := hp4
      subst hp4; rfl
    · match wp, hl with
      | w1 :: w2 :: w3 :: w4 :: r, _ =>
        simp only [List.take_succ_cons, List.take_zero] at hall
        cases hall with
        | cons h1 hall =>
        cases hall with
        | cons h2 hall =>
        cases hall with
        | cons h3 hall =>
        cases hall with
        | cons h4 hall =>
        refine ⟨(mk, _), ⟨wm, rfl, hm⟩, (p1, _), ⟨w1, rfl, h1⟩, (p2, _), ⟨w2, rfl, h2⟩, (p3, _), ⟨w3, rfl, h3⟩, ?_⟩
        simp only [h4]

theorem parsed_iff {α : Type} {parse : Nat → List Text → Res α} {P : List Text → α → Prop} {Q : Nat → α → Prop}
    (h : ∀ k ws a, parse k ws = .ok a ↔ P ws a ∧ Q k a) (k : Nat) (ds : List (List Text)) (as : List α) :
    Parsed parse k ds as ↔ List.Forall₂ P ds as ∧ ∀ (i : Nat) a, as[i]? = some a → Q (k + i) a := by
  induction ds generalizing k as with
  | nil =>
    cases as with
    | nil => simp [Parsed]
    | cons a as => simp [Parsed]
  | cons d ds ih =>
    cases as with
    | nil => simp [Parsed]
    | cons a as =>
      simp only [Parsed, h, ih, List.forall₂_cons]
      constructor
      · rintro ⟨⟨h1, h2⟩, h3, h4⟩
        refine ⟨⟨h1, h3⟩, ?_⟩
        intro i b hb
        cases i with
        | zero => simp at hb; subst hb; simpa using h2
        | succ i => simp at hb; have := h4 i b hb; rwa [show k + (i + 1) = k + 1 + i by omega]
      · rintro ⟨⟨h1, h3⟩, h4⟩
        refine ⟨⟨h1, by simpa using h4 0 a rfl⟩, h3, ?_⟩
        intro i b hb
        have := h4 (i + 1) b (by simpa using hb)
        rwa [show k + 1 + i = k + (i + 1) by omega]

end Gemlab.MeshText
