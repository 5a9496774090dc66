import Verif.Spec.DrawGraph
import Verif.Props.GraphDir
import Verif.Lib.ResList
import Mathlib.Tactic.Ring
import Mathlib.Tactic.FieldSimp
import Mathlib.Tactic.Linarith
import Mathlib.Tactic.Positivity

/-!
# C86: the drawing of a directed graph
-/
namespace Gemlab.DrawGraph
open Gemlab Gemlab.GraphDir Gemlab.Props.GraphDir
noncomputable section

theorem distance_pos {a b : ℝ × ℝ} (h : a ≠ b) : 0 < distance a b := by
  unfold distance
  apply Real.sqrt_pos.2
  by_contra hn
  apply h
  have h1 : (a.1 - b.1) ^ 2 = 0 := by nlinarith [sq_nonneg (a.1 - b.1), sq_nonneg (a.2 - b.2)]
  have h2 : (a.2 - b.2) ^ 2 = 0 := by nlinarith [sq_nonneg (a.1 - b.1), sq_nonneg (a.2 - b.2)]
  exact Prod.ext (by nlinarith [pow_eq_zero_iff (two_ne_zero) |>.1 h1]) (by nlinarith [pow_eq_zero_iff (two_ne_zero) |>.1 h2])

theorem distance_sq (a b : ℝ × ℝ) : distance a b ^ 2 = (b.1 - a.1) ^ 2 + (b.2 - a.2) ^ 2 := by
  unfold distance
  rw [Real.sq_sqrt (by positivity)]
  ring

theorem length_eq (a b : ℝ × ℝ) : Real.sqrt (0 + (b.1 - a.1) * (b.1 - a.1) + (b.2 - a.2) * (b.2 - a.2)) = distance a b := by
  unfold distance
  congr 1
  ring

theorem distance_of {a p : ℝ × ℝ} {d : ℝ} (hd : 0 ≤ d) (h : (a.1 - p.1) ^ 2 + (a.2 - p.2) ^ 2 = d ^ 2) : distance a p = d := by
  unfold distance
  rw [h, Real.sqrt_sq hd]

theorem arrow_ok {radius w gl : ℝ} {a b : ℝ × ℝ} (hr : 0 < radius) (hw : w ^ 2 ≤ radius ^ 2) (hab : a ≠ b) :
    IsArrow radius w a b (arrow w (Real.sqrt (radius * radius - w * w)) gl a b).1 ∧
      IsLabelPlace (w + gl) a b (arrow w (Real.sqrt (radius * radius - w * w)) gl a b).2 := by
  have hL := distance_pos hab
  have hL2 := distance_sq a b
  have hl2 : Real.sqrt (radius * radius - w * w) ^ 2 = radius ^ 2 - w ^ 2 := by
    rw [Real.sq_sqrt (by nlinarith)]; ring
  have hl0 := Real.sqrt_nonneg (radius * radius - w * w)
  unfold arrow
  simp only [length_eq]
  generalize Real.sqrt (radius * radius - w * w) = l at *
  generalize hD : distance a b = L at *
  obtain ⟨a1, a2⟩ := a
  obtain ⟨b1, b2⟩ := b
  simp only at hL2
  set m1 := (b1 - a1) / L with hm1
  set m2 := (b2 - a2) / L with hm2
  have e1 : b1 - a1 = L * m1 := by rw [hm1]; field_simp
  have e2 : b2 - a2 = L * m2 := by rw [hm2]; field_simp
  have hn : m1 ^ 2 + m2 ^ 2 = 1 := by
    have : L ^ 2 * (m1 ^ 2 + m2 ^ 2) = L ^ 2 * 1 := by
      have h3 := hL2
      rw [e1, e2] at h3
      linear_combination -h3
    exact mul_left_cancel₀ (by positivity) this
  have hneg : -(b2 - a2) / L = -m2 := by rw [hm2]; ring
  simp only [hneg]
  have hb1 : b1 = a1 + L * m1 := by linarith
  have hb2 : b2 = a2 + L * m2 := by linarith
  clear_value m1 m2
  subst hb1 hb2
  refine ⟨⟨?_, ?_, ?_, ?_, ?_⟩, ?_, ?_⟩
  · apply distance_of hr.le
    simp only
    linear_combination (l ^ 2 + w ^ 2) * hn + hl2
  · apply distance_of hr.le
    simp only
    linear_combination (l ^ 2 + w ^ 2) * hn + hl2
  · unfold rightOf
    rw [hD, div_eq_iff hL.ne']
    simp only
    linear_combination w * L * hn
  · unfold rightOf
    rw [hD, div_eq_iff hL.ne']
    simp only
    linear_combination w * L * hn
  · intro hfar
    have hlr : l ≤ radius := by
      apply le_of_sq_le_sq _ hr.le
      nlinarith [sq_nonneg w]
    refine ⟨(L - 2 * l) / L, div_pos (by linarith) hL, ?_, ?_⟩ <;>
    · simp only
      field_simp
      ring
  · unfold distance
    congr 1
    simp only
    ring
  · unfold rightOf
    rw [hD, div_eq_iff hL.ne']
    simp only
    linear_combination (w + gl) * L * hn

/-- **C86.** Opposite arrows do not cover each other: their midpoints are apart by the gap. -/
theorem C86_opposite {radius w : ℝ} {a b : ℝ × ℝ} {r s : (ℝ × ℝ) × (ℝ × ℝ)} (hab : a ≠ b) (hr : IsArrow radius w a b r)
    (hs : IsArrow radius w b a s) :
    rightOf a b r.1 = w ∧ rightOf a b r.2 = w ∧ rightOf a b s.1 = -w ∧ rightOf a b s.2 = -w := by
  have hsym : ∀ p, rightOf a b p = -rightOf b a p := by
    intro p
    have hd : distance b a = distance a b := by unfold distance; congr 1; ring
    unfold rightOf
    rw [hd]
    ring
  exact ⟨hr.startRight, hr.stopRight, by rw [hsym, hs.startRight], by rw [hsym, hs.stopRight]⟩

/-! ## The picture -/

theorem at2_ok {coords : List (List ℝ)} {ps : List (ℝ × ℝ)} (h : List.Forall₂ (fun c p => ∃ rest, c = p.1 :: p.2 :: rest) coords ps)
    {i : Nat} {p : ℝ × ℝ} (hi : ps[i]? = some p) : at2 coords i = .ok p := by
  induction h generalizing i with
  | nil => simp at hi
  | cons h hs ih =>
    cases i with
    | zero =>
      obtain ⟨rest, rfl⟩ := h
      simp only [List.getElem?_cons_zero, Option.some.injEq] at hi
      subst hi
      rfl
    | succ i =>
      rw [List.getElem?_cons_succ] at hi
      have := ih hi
      unfold at2 at this ⊢
      simpa [Res.idx] using this

theorem gap_eq (o : Options) : gapOf o = gapUsed (o.gapArrows.getD (15 / 100)) (radiusOf o) := by
  unfold gapOf gapUsed
  by_cases h : o.gapArrows.getD (15 / 100) ≤ 2 * radiusOf o
  · rw [if_pos h]; simp only [gt_iff_lt, not_lt.2 h, if_false]
  · rw [if_neg h]; simp only [gt_iff_lt, not_le.1 h, if_true]; ring

theorem custom_ok (given : Option (HMap Nat String)) (i : Nat) (d : String) : IsText given i d (custom given i d) := by
  constructor
  · rintro m s rfl h
    simp [custom, h]
  · intro h
    cases given with
    | none => rfl
    | some m => simp [custom, h m rfl]

theorem limits_fold (ps : List (ℝ × ℝ)) (s : ℝ × ℝ × ℝ × ℝ) :
    ((ps.foldl limit s).1 ≤ s.1 ∧ s.2.1 ≤ (ps.foldl limit s).2.1 ∧ (ps.foldl limit s).2.2.1 ≤ s.2.2.1 ∧ s.2.2.2 ≤ (ps.foldl limit s).2.2.2) ∧
    (∀ p ∈ ps, (ps.foldl limit s).1 ≤ p.1 ∧ p.1 ≤ (ps.foldl limit s).2.1 ∧ (ps.foldl limit s).2.2.1 ≤ p.2 ∧ p.2 ≤ (ps.foldl limit s).2.2.2) ∧
    ((ps.foldl limit s).1 = s.1 ∨ ∃ p ∈ ps, (ps.foldl limit s).1 = p.1) ∧ ((ps.foldl limit s).2.1 = s.2.1 ∨ ∃ p ∈ ps, (ps.foldl limit s).2.1 = p.1) ∧
    ((ps.foldl limit s).2.2.1 = s.2.2.1 ∨ ∃ p ∈ ps, (ps.foldl limit s).2.2.1 = p.2) ∧
    ((ps.foldl limit s).2.2.2 = s.2.2.2 ∨ ∃ p ∈ ps, (ps.foldl limit s).2.2.2 = p.2) := by
  induction ps generalizing s with
  | nil => simp
  | cons q ps ih =>
    obtain ⟨⟨h1, h2, h3, h4⟩, h5, h6, h7, h8, h9⟩ := ih (limit s q)
    simp only [List.foldl_cons]
    have a1 : (limit s q).1 = min s.1 q.1 := rfl
    have a2 : (limit s q).2.1 = max s.2.1 q.1 := rfl
    have a3 : (limit s q).2.2.1 = min s.2.2.1 q.2 := rfl
    have a4 : (limit s q).2.2.2 = max s.2.2.2 q.2 := rfl
    rw [a1] at h1 h6
    rw [a2] at h2 h7
    rw [a3] at h3 h8
    rw [a4] at h4 h9
    refine ⟨⟨h1.trans (min_le_left _ _), (le_max_left _ _).trans h2, h3.trans (min_le_left _ _), (le_max_left _ _).trans h4⟩, ?_, ?_, ?_, ?_, ?_⟩
    · intro p hp
      rcases List.mem_cons.1 hp with rfl | hp
      · exact ⟨h1.trans (min_le_right _ _), (le_max_right _ _).trans h2, h3.trans (min_le_right _ _), (le_max_right _ _).trans h4⟩
      · exact h5 p hp
    · rcases h6 with h | ⟨p, hp, h⟩
      · rcases min_choice s.1 q.1 with e | e
        · exact .inl (h.trans e)
        · exact .inr ⟨q, by simp, h.trans e⟩
      · exact .inr ⟨p, by simp [hp], h⟩
    · rcases h7 with h | ⟨p, hp, h⟩
      · rcases max_choice s.2.1 q.1 with e | e
        · exact .inl (h.trans e)
        · exact .inr ⟨q, by simp, h.trans e⟩
      · exact .inr ⟨p, by simp [hp], h⟩
    · rcases h8 with h | ⟨p, hp, h⟩
      · rcases min_choice s.2.2.1 q.2 with e | e
        · exact .inl (h.trans e)
        · exact .inr ⟨q, by simp, h.trans e⟩
      · exact .inr ⟨p, by simp [hp], h⟩
    · rcases h9 with h | ⟨p, hp, h⟩
      · rcases max_choice s.2.2.2 q.2 with e | e
        · exact .inl (h.trans e)
        · exact .inr ⟨q, by simp, h.trans e⟩
      · exact .inr ⟨p, by simp [hp], h⟩

theorem range_ok {ps : List (ℝ × ℝ)} {p : ℝ × ℝ} (h : ps[0]? = some p) (m : ℝ) :
    IsRange m ps ((ps.foldl limit (p.1, p.1, p.2, p.2)).1 - m, (ps.foldl limit (p.1, p.1, p.2, p.2)).2.1 + m,
      (ps.foldl limit (p.1, p.1, p.2, p.2)).2.2.1 - m, (ps.foldl limit (p.1, p.1, p.2, p.2)).2.2.2 + m) := by
  have hp : p ∈ ps := List.mem_of_getElem? h
  obtain ⟨-, h5, h6, h7, h8, h9⟩ := limits_fold ps (p.1, p.1, p.2, p.2)
  refine ⟨?_, ?_, ?_, ?_, ?_⟩
  · intro q hq
    obtain ⟨a, b, c, d⟩ := h5 q hq
    refine ⟨?_, ?_, ?_, ?_⟩ <;> simp only <;> linarith
  · rcases h6 with e | ⟨q, hq, e⟩
    · exact ⟨p, hp, by simp only [e]⟩
    · exact ⟨q, hq, by simp only [e]⟩
  · rcases h7 with e | ⟨q, hq, e⟩
    · exact ⟨p, hp, by simp only [e]⟩
    · exact ⟨q, hq, by simp only [e]⟩
  · rcases h8 with e | ⟨q, hq, e⟩
    · exact ⟨p, hp, by simp only [e]⟩
    · exact ⟨q, hq, by simp only [e]⟩
  · rcases h9 with e | ⟨q, hq, e⟩
    · exact ⟨p, hp, by simp only [e]⟩
    · exact ⟨q, hq, by simp only [e]⟩

theorem edgeText_eq (fmt : Option Nat → ℝ → String) (o : Options) (k : Nat) (w : ℝ) :
    edgeText fmt o k w = custom o.labelsE k (edgeDefault o.showIds o.showWeights k (fmt o.precision w)) := by
  unfold edgeText edgeDefault
  cases o.showIds <;> cases o.showWeights <;> simp [String.append_assoc, toString]

/-- One edge. -/
theorem drawEdge_ok {fmt : Option Nat → ℝ → String} {o : Options} {g : Graph ℝ} {coords : List (List ℝ)} {ps : List (ℝ × ℝ)}
    (h : List.Forall₂ (fun c p => ∃ rest, c = p.1 :: p.2 :: rest) coords ps) {e : (Nat × Nat) × Nat} {a b : ℝ × ℝ}
    (ha : ps[e.1.1]? = some a) (hb : ps[e.1.2]? = some b) {v : ℝ} (hv : g.weights[e.2]? = some v) :
    ∃ rotation, IsRotation o.showIds o.showWeights a b rotation ∧ drawEdge fmt o g coords e = .ok ((arrow (gapOf o / 2) (Real.sqrt (radiusOf o * radiusOf o - gapOf o / 2 * (gapOf o / 2)))
      (o.gapLabels.getD (12 / 100)) a b).1, if o.showIds || o.showWeights then
        [⟨(arrow (gapOf o / 2) (Real.sqrt (radiusOf o * radiusOf o - gapOf o / 2 * (gapOf o / 2))) (o.gapLabels.getD (12 / 100)) a b).2.1,
          (arrow (gapOf o / 2) (Real.sqrt (radiusOf o * radiusOf o - gapOf o / 2 * (gapOf o / 2))) (o.gapLabels.getD (12 / 100)) a b).2.2,
          rotation, custom o.labelsE e.2 (edgeDefault o.showIds o.showWeights e.2 (fmt o.precision v))⟩] else []) := by
  refine ⟨if (o.showIds && o.showWeights) = true ∧ |b.1 - a.1| < 1 / 1000 then 90 else 0, ?_, ?_⟩
  · unfold IsRotation
    split_ifs with hc
    · simp_all
    · simp_all
  unfold drawEdge
  rw [at2_ok h ha, Res.bind_ok, at2_ok h hb, Res.bind_ok]
  have hidx : Res.idx g.weights e.2 = .ok v := by simp [Res.idx, hv]
  by_cases hs : (o.showIds || o.showWeights) = true
  · simp only [hs, if_true]
    by_cases hw : o.showWeights = true
    · rw [if_pos hw, hidx, Res.bind_ok, edgeText_eq]
      rfl
    · rw [if_neg hw]
      have h0 : ∀ x, edgeText fmt o e.2 x = custom o.labelsE e.2 (edgeDefault o.showIds o.showWeights e.2 (fmt o.precision v)) := by
        intro x
        rw [edgeText_eq]
        simp only [Bool.not_eq_true] at hw
        rw [hw]
        cases o.showIds <;> rfl
      have : (pure 0 : Res ℝ) = .ok 0 := rfl
      rw [this, Res.bind_ok, h0]
      rfl
  · simp only [hs]
    rfl

/-- **C86.** The drawing of a directed graph, after any history of calls: an error if the number of positions differs from the number of nodes. Otherwise
the drawing succeeds; it shows a circle and a number (or the given text) at each node, and for each edge, in the order of the table, an arrow from
circle to circle on the right of the line of the centers, with its text next to it; and its range encloses the circles. -/
theorem C86_draw (fmt : Option Nat → ℝ → String) (o : Options) {big : ℝ} {edges : List (Nat × Nat)} {ops : List (Op ℝ)} {g : Graph ℝ}
    (hids : GoodIds edges) (hne : edges ≠ []) (hrun : runOps big edges ops = .ok g) (coords : List (List ℝ)) :
    (coords.length ≠ countNodes edges →
      draw fmt o g coords = .err "number of nodes in coordinates must match the number of nodes in the graph") ∧
    ∀ ps : List (ℝ × ℝ), coords.length = countNodes edges → List.Forall₂ (fun c p => ∃ rest, c = p.1 :: p.2 :: rest) coords ps →
      ∃ arrows labels textN range, draw fmt o g coords =
          .ok ⟨[.circles (ps.map fun p => (p.1, p.2, o.radius.getD (1 / 5))), .arrows arrows, .texts textN] ++
            (if o.showIds then [.texts labels] else []) ++ [.texts labels], range⟩ ∧
        List.Forall₂ (fun (p : (ℝ × ℝ) × Nat) t => (t.x, t.y) = p.1 ∧ t.rotation = 0 ∧ IsText o.labelsN p.2 (toString p.2) t.text) ps.zipIdx textN ∧
        IsRange (2 * o.radius.getD (1 / 5)) ps range ∧
        (0 < o.radius.getD (1 / 5) → 0 ≤ o.gapArrows.getD (3 / 20) →
          List.Forall₂ (fun e r => ∀ a b, ps[e.1]? = some a → ps[e.2]? = some b → a ≠ b →
            IsArrow (o.radius.getD (1 / 5)) (gapUsed (o.gapArrows.getD (3 / 20)) (o.radius.getD (1 / 5)) / 2) a b r) edges arrows ∧
          (if o.showIds || o.showWeights then
            List.Forall₂ (fun (e : (Nat × Nat) × Nat) t => ∀ a b v, ps[e.1.1]? = some a → ps[e.1.2]? = some b → a ≠ b → g.weights[e.2]? = some v →
              IsLabelPlace (gapUsed (o.gapArrows.getD (3 / 20)) (o.radius.getD (1 / 5)) / 2 + o.gapLabels.getD (3 / 25)) a b (t.x, t.y) ∧
              IsRotation o.showIds o.showWeights a b t.rotation ∧
              IsText o.labelsE e.2 (edgeDefault o.showIds o.showWeights e.2 (fmt o.precision v)) t.text) edges.zipIdx labels
          else labels = [])) := by
  have H := stateOf_run ops hrun
  have hr5 : o.radius.getD (1 / 5) = radiusOf o := by unfold radiusOf; norm_num
  have hg5 : gapUsed (o.gapArrows.getD (3 / 20)) (radiusOf o) = gapOf o := by rw [gap_eq]; norm_num
  have hl5 : o.gapLabels.getD (3 / 25) = o.gapLabels.getD (12 / 100) := by norm_num
  simp only [hr5, hg5, hl5]
  refine ⟨fun h => ?_, fun ps hlen hps => ?_⟩
  · unfold draw
    rw [if_pos (by rw [H.nnode]; exact h)]
  have hpl : ps.length = countNodes edges := by rw [← hps.length_eq, hlen]
  have hex : ∀ e ∈ edges, ∃ a b, ps[e.1]? = some a ∧ ps[e.2]? = some b := by
    intro e he
    obtain ⟨h1, h2⟩ := hids e he
    exact ⟨_, _, List.getElem?_eq_getElem (by rw [hpl]; exact h1), List.getElem?_eq_getElem (by rw [hpl]; exact h2)⟩
  obtain ⟨p0, hp0⟩ : ∃ p0, ps[0]? = some p0 := by
    obtain ⟨e, es, rfl⟩ := List.exists_cons_of_ne_nil hne
    exact ⟨_, List.getElem?_eq_getElem (by rw [hpl]; exact Nat.lt_of_le_of_lt (Nat.zero_le _) (hids e (by simp)).1)⟩
  have hpts : (List.range coords.length).mapM (at2 coords) = .ok ps := by
    rw [Res.mapM_ok_iff]
    rw [List.forall₂_iff_get]
    refine ⟨by simp [hps.length_eq], fun i h1 h2 => ?_⟩
    simp only [List.get_eq_getElem, List.getElem_range]
    exact at2_ok hps (List.getElem?_eq_getElem h2)
  have hedges : ∃ es, g.edges.zipIdx.mapM (drawEdge fmt o g coords) = .ok es ∧
      List.Forall₂ (fun (e : (Nat × Nat) × Nat) r => drawEdge fmt o g coords e = .ok r ∧
        ∃ a b v, ps[e.1.1]? = some a ∧ ps[e.1.2]? = some b ∧ g.weights[e.2]? = some v) edges.zipIdx es := by
    rw [H.hedges]
    have : ∀ e ∈ edges.zipIdx, ∃ r, drawEdge fmt o g coords e = .ok r ∧
        ∃ a b v, ps[e.1.1]? = some a ∧ ps[e.1.2]? = some b ∧ g.weights[e.2]? = some v := by
      intro e he
      have hm := List.mem_zipIdx (x := e.1) (i := e.2) he
      obtain ⟨a, b, h1, h2⟩ := hex e.1 (hm.2.2 ▸ List.getElem_mem _)
      have hk : e.2 < g.weights.length := by rw [H.len]; omega
      obtain ⟨_, -, h⟩ := drawEdge_ok (fmt := fmt) (o := o) (g := g) hps h1 h2 (List.getElem?_eq_getElem hk)
      exact ⟨_, h, a, b, _, h1, h2, List.getElem?_eq_getElem hk⟩
    generalize edges.zipIdx = L at this
    induction L with
    | nil => exact ⟨[], rfl, .nil⟩
    | cons e L ih =>
      obtain ⟨es, h1, h2⟩ := ih fun e he => this e (by simp [he])
      obtain ⟨r, hr, hx⟩ := this e (by simp)
      exact ⟨r :: es, by rw [List.mapM_cons, hr, Res.bind_ok, h1]; rfl, .cons ⟨hr, hx⟩ h2⟩
  obtain ⟨es, hes, hall⟩ := hedges
  refine ⟨es.map (·.1), es.flatMap (·.2), ps.zipIdx.map fun p => (⟨p.1.1, p.1.2, 0, custom o.labelsN p.2 s!"{p.2}"⟩ : Label), _, ?_, ?_,
    range_ok hp0 (2 * radiusOf o), fun hrad hgap => ?_⟩
  · unfold draw
    rw [if_neg (by rw [H.nnode]; exact not_not.2 hlen), at2_ok hps hp0, Res.bind_ok, hpts, Res.bind_ok, hes, Res.bind_ok]
    rfl
  · rw [List.forall₂_map_right_iff, List.forall₂_same]
    exact fun p _ => ⟨rfl, rfl, custom_ok _ _ _⟩
  have hw2 : (gapOf o / 2) ^ 2 ≤ radiusOf o ^ 2 := by
    have h1 : 0 ≤ gapOf o ∧ gapOf o ≤ 2 * radiusOf o := by
      rw [← hg5]
      unfold gapUsed
      split_ifs with hc
      · exact ⟨hgap, hc⟩
      · constructor <;> linarith
    nlinarith [h1.1, h1.2]
  have hcase : List.Forall₂ (fun (e : (Nat × Nat) × Nat) (r : ((ℝ × ℝ) × (ℝ × ℝ)) × List Label) =>
      (∀ a b, ps[e.1.1]? = some a → ps[e.1.2]? = some b → a ≠ b → IsArrow (radiusOf o) (gapOf o / 2) a b r.1) ∧
      (if o.showIds || o.showWeights then ∃ t : Label, r.2 = [t] ∧ ∀ a b v, ps[e.1.1]? = some a → ps[e.1.2]? = some b → a ≠ b →
          g.weights[e.2]? = some v → IsLabelPlace (gapOf o / 2 + o.gapLabels.getD (12 / 100)) a b (t.x, t.y) ∧
            IsRotation o.showIds o.showWeights a b t.rotation ∧
            IsText o.labelsE e.2 (edgeDefault o.showIds o.showWeights e.2 (fmt o.precision v)) t.text else r.2 = [])) edges.zipIdx es := by
    refine hall.imp fun e r h => ?_
    obtain ⟨h, a, b, v, ha, hb, hv⟩ := h
    obtain ⟨ro, hro, h'⟩ := drawEdge_ok (fmt := fmt) (o := o) (g := g) hps ha hb hv
    rw [h] at h'
    injection h' with h'
    subst h'
    refine ⟨fun a' b' ha' hb' hab => ?_, ?_⟩
    · rw [ha] at ha'; rw [hb] at hb'
      injection ha' with ha'; injection hb' with hb'
      subst ha' hb'
      exact (arrow_ok (gl := o.gapLabels.getD (12 / 100)) hrad hw2 hab).1
    · split_ifs with hc
      · refine ⟨_, rfl, fun a' b' v' ha' hb' hab hv' => ?_⟩
        rw [ha] at ha'; rw [hb] at hb'; rw [hv] at hv'
        injection ha' with ha'; injection hb' with hb'; injection hv' with hv'
        subst ha' hb' hv'
        exact ⟨(arrow_ok (gl := o.gapLabels.getD (12 / 100)) hrad hw2 hab).2, hro, custom_ok _ _ _⟩
      · rfl
  constructor
  · rw [List.forall₂_map_right_iff]
    have h1 := hcase.imp fun e r h => h.1
    have h2 : edges = edges.zipIdx.map (·.1) := by simp
    rw [h2, List.forall₂_map_left_iff]
    exact h1
  · have h1 := hcase.imp fun e r h => h.2
    clear hcase hall hes
    by_cases hc : (o.showIds || o.showWeights) = true
    · simp only [hc, if_true] at h1 ⊢
      generalize edges.zipIdx = L at h1
      induction h1 with
      | nil => exact .nil
      | cons h _ ih =>
        obtain ⟨t, ht, h⟩ := h
        rw [List.flatMap_cons, ht]
        exact .cons h ih
    · simp only [hc] at h1 ⊢
      generalize edges.zipIdx = L at h1
      induction h1 with
      | nil => rfl
      | cons h _ ih =>
        rw [List.flatMap_cons]
        simp only [Bool.false_eq_true, if_false] at h ih ⊢
        rw [h, ih]
        rfl

/-! ## Example -/

/-- A graph with two opposite edges and a third node. -/
example : ∃ g : Graph ℝ, GoodIds [(0, 1), (1, 0), (1, 2)] ∧ runOps 1000 [(0, 1), (1, 0), (1, 2)] [.setWeight 1 5] = .ok g ∧
    g.weights[1]? = some 5 ∧
    List.Forall₂ (fun c p => ∃ rest, c = p.1 :: p.2 :: rest) [[0, 0], [2, 0], [2, 1, 7]] [((0 : ℝ), (0 : ℝ)), (2, 0), (2, 1)] := by
  obtain ⟨g, hg⟩ : ∃ g : Graph ℝ, runOps 1000 [(0, 1), (1, 0), (1, 2)] [.setWeight 1 5] = .ok g ∧ g.weights[1]? = some 5 := by
    simp only [runOps, List.foldlM_cons, List.foldlM_nil, step, setWeight]
    rw [if_pos (by norm_num)]
    exact ⟨_, rfl, rfl⟩
  exact ⟨g, by unfold GoodIds; decide, hg.1, hg.2, .cons ⟨[], rfl⟩ (.cons ⟨[], rfl⟩ (.cons ⟨[7], rfl⟩ .nil))⟩

end
end Gemlab.DrawGraph
