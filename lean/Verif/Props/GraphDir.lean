import Verif.Proofs.GraphDir2
import Mathlib.Order.Bounds.Defs
import Mathlib.Algebra.Order.Group.Nat

/-! # Properties of the directed graph (C09–C11) -/
namespace Gemlab.Props.GraphDir
open Gemlab Gemlab.GraphDir Gemlab.Spec

/-! ## Specification helpers: the history of calls -/

/-- Weights held by the graph after a history of calls: one each, then the values set by the user. -/
def weightsAfter {W : Type} [One W] (nedge : Nat) (ops : List (Op W)) : List W :=
  ops.foldl (fun ws op => match op with
    | .setWeight e v => ws.set e v
    | _ => ws) (List.replicate nedge 1)

/-- All node ids are `0, …, n-1`, where `n` is the number of distinct ids (the documented requirement). -/
def GoodIds (edges : List (Nat × Nat)) : Prop := ∀ e ∈ edges, e.1 < countNodes edges ∧ e.2 < countNodes edges

/-- A call within its preconditions: the edge exists and the weight is not negative. -/
def GoodOp {W : Type} [LE W] [Zero W] (nedge : Nat) : Op W → Prop
  | .setWeight e v => e < nedge ∧ 0 ≤ v
  | _ => True

/-- `calc_dist_and_next` is not called by the user. -/
def NoCalc {W : Type} (ops : List (Op W)) : Prop := ∀ op ∈ ops, op ≠ .calcDistAndNext

section General
variable {W : Type} [LinearOrder W] [Add W] [Zero W] [One W]

/-- State of the graph object after a history of calls. -/
structure StateOf (big : W) (edges : List (Nat × Nat)) (ops : List (Op W)) (g : Graph W) : Prop where
  hedges : g.edges = edges
  nnode : g.nnode = countNodes edges
  weights : g.weights = weightsAfter edges.length ops
  len : g.weights.length = edges.length
  nonneg : 0 ≤ (1 : W) → ∀ w ∈ g.weights, 0 ≤ w

theorem stateOf_step {big : W} {edges : List (Nat × Nat)} {ops : List (Op W)} {g g' : Graph W}
    (H : StateOf big edges ops g) (op : Op W) (h : step big g op = .ok g') : StateOf big edges (ops ++ [op]) g' := by
  have hcalc : ∀ g2, calcDistAndNext big g = .ok g2 → g2.edges = g.edges ∧ g2.nnode = g.nnode ∧ g2.weights = g.weights := by
    intro g2 h2
    unfold calcDistAndNext at h2
    rw [Res.bind_eq_ok] at h2
    obtain ⟨m, _, h2⟩ := h2
    injection h2 with h2; subst h2; simp
  cases op with
  | setWeight e v =>
    simp only [step, setWeight] at h
    split at h
    · rename_i hv
      rw [Res.bind_eq_ok] at h
      obtain ⟨w, h1, h2⟩ := h
      rw [Res.setIdx_eq_ok] at h1
      injection h2 with h2; subst h2
      refine ⟨H.hedges, H.nnode, ?_, ?_, ?_⟩
      · simp [weightsAfter, List.foldl_append, h1.2, H.weights]
      · simp [h1.2, H.len]
      · intro h0 x hx
        simp only [h1.2] at hx
        rcases List.mem_or_eq_of_mem_set hx with hx | rfl
        · exact H.nonneg h0 x hx
        · exact hv
    · exact absurd h (by simp)
  | shortestPathsFw =>
    simp only [step, shortestPathsFw] at h
    rw [Res.bind_eq_ok] at h
    obtain ⟨g2, h1, h2⟩ := h
    obtain ⟨e1, e2, e3⟩ := hcalc g2 h1
    injection h2 with h2; subst h2
    refine ⟨by simp [e1, H.hedges], by simp [e2, H.nnode], ?_, by simp [e3, H.len], by simpa [e3] using H.nonneg⟩
    simp [weightsAfter, List.foldl_append, e3, H.weights]
  | calcDistAndNext =>
    obtain ⟨e1, e2, e3⟩ := hcalc g' h
    refine ⟨by simp [e1, H.hedges], by simp [e2, H.nnode], ?_, by simp [e3, H.len], by simpa [e3] using H.nonneg⟩
    simp [weightsAfter, List.foldl_append, e3, H.weights]

theorem runOps_append {big : W} {edges : List (Nat × Nat)} {ops : List (Op W)} {op : Op W} {g : Graph W}
    (h : runOps big edges (ops ++ [op]) = .ok g) : ∃ g0, runOps big edges ops = .ok g0 ∧ step big g0 op = .ok g := by
  unfold runOps at h ⊢
  rw [List.foldlM_append, Res.bind_eq_ok] at h
  obtain ⟨g0, h1, h2⟩ := h
  refine ⟨g0, h1, ?_⟩
  rw [List.foldlM_cons, Res.bind_eq_ok] at h2
  obtain ⟨g1, h2, h3⟩ := h2
  rw [List.foldlM_nil] at h3
  injection h3 with h3; rw [← h3]; exact h2

theorem stateOf_run {big : W} {edges : List (Nat × Nat)} (ops : List (Op W)) {g : Graph W}
    (h : runOps big edges ops = .ok g) : StateOf big edges ops g := by
  induction ops using List.reverseRecOn generalizing g with
  | nil =>
    unfold runOps at h; rw [List.foldlM_nil] at h
    injection h with h; subst h
    refine ⟨rfl, rfl, rfl, by simp [new], ?_⟩
    intro h0 w hw
    simp only [new, List.mem_replicate] at hw
    rw [hw.2]; exact h0
  | append_singleton ops op ih =>
    obtain ⟨g0, h1, h2⟩ := runOps_append h
    exact stateOf_step (ih h1) op h2

/-- The matrices left by `calc_dist_and_next`. -/
theorem calc_matrices {big : W} {edges : List (Nat × Nat)} {ops : List (Op W)} {g g' : Graph W}
    (H : StateOf big edges ops g) (hids : GoodIds edges) (h : calcDistAndNext big g = .ok g') :
    IsInit big edges g.weights ⟨g'.dist, g'.next⟩ ∧ g'.nnode = g.nnode ∧ g'.weights = g.weights ∧ g'.readyPath = g.readyPath := by
  unfold calcDistAndNext at h
  rw [Res.bind_eq_ok] at h
  obtain ⟨m, h1, h2⟩ := h
  injection h2 with h2; subst h2
  obtain ⟨m', h3, h4⟩ := init_spec big g.nnode edges g.weights H.len (by rw [H.nnode]; exact hids)
  rw [H.hedges] at h1
  rw [h3] at h1; injection h1 with h1; subst h1
  exact ⟨h4, rfl, rfl, rfl⟩

theorem step_calc_ok {big : W} {edges : List (Nat × Nat)} {ops : List (Op W)} {g : Graph W}
    (H : StateOf big edges ops g) (hids : GoodIds edges) : ∃ g', calcDistAndNext big g = .ok g' := by
  obtain ⟨m', h3, h4⟩ := init_spec big g.nnode edges g.weights H.len (by rw [H.nnode]; exact hids)
  unfold calcDistAndNext
  rw [H.hedges, h3]
  exact ⟨_, rfl⟩

/-- **C09, success.** Any sequence of calls within their preconditions succeeds: there is no panic. -/
theorem C09_calls_succeed (big : W) (edges : List (Nat × Nat)) (hids : GoodIds edges) (ops : List (Op W))
    (hops : ∀ op ∈ ops, GoodOp edges.length op) : ∃ g, runOps big edges ops = .ok g := by
  induction ops using List.reverseRecOn with
  | nil => exact ⟨_, rfl⟩
  | append_singleton ops op ih =>
    obtain ⟨g, hg⟩ := ih (fun o ho => hops o (by simp [ho]))
    have H := stateOf_run ops hg
    have hgood := hops op (by simp)
    have hstep : ∃ g', step big g op = .ok g' := by
      cases op with
      | setWeight e v =>
        refine ⟨{ g with weights := g.weights.set e v, readyPath := false }, ?_⟩
        simp only [step, setWeight, hgood.2, if_true]
        rw [Res.setIdx_of_lt (by rw [H.len]; exact hgood.1)]; rfl
      | shortestPathsFw =>
        obtain ⟨g', hg'⟩ := step_calc_ok H hids
        simp only [step, shortestPathsFw, hg', Res.bind_ok]
        exact ⟨_, rfl⟩
      | calcDistAndNext => exact step_calc_ok H hids
    obtain ⟨g', hg'⟩ := hstep
    refine ⟨g', ?_⟩
    unfold runOps at hg ⊢
    rw [List.foldlM_append, hg, Res.bind_ok, List.foldlM_cons, hg', Res.bind_ok]; rfl

/-- **C09, bad ids.** If the ids are not contiguous, the path-finding call panics. -/
theorem C09_bad_ids_panic (big : W) (edges : List (Nat × Nat)) (h : ¬ GoodIds edges) :
    runOps big edges [.shortestPathsFw] = .panic := by
  have hz : ∃ x ∈ edges.zip (List.replicate edges.length (1 : W)), ¬ (x.1.1 < countNodes edges ∧ x.1.2 < countNodes edges) := by
    unfold GoodIds at h
    simp only [not_forall] at h
    obtain ⟨e, he, hbad⟩ := h
    obtain ⟨i, hi, rfl⟩ := List.mem_iff_getElem.1 he
    have : i < (edges.zip (List.replicate edges.length (1 : W))).length := by simp [hi]
    exact ⟨_, List.getElem_mem this, by simpa using hbad⟩
  have := putEdges_panic (countNodes edges) (edges.zip (List.replicate edges.length (1 : W))) hz (initDN big)
  simp only [runOps, List.foldlM_cons, List.foldlM_nil, step, shortestPathsFw, calcDistAndNext, new]
  rw [this]
  rfl

theorem ready_inv (R : RoundedAdd W) {big : W} (hb : 0 ≤ big) (h1 : 0 ≤ (1 : W)) {edges : List (Nat × Nat)} (hids : GoodIds edges)
    (ops : List (Op W)) {g : Graph W} (h : runOps big edges ops = .ok g) :
    g.readyPath = true → Inv (countNodes edges) ⟨g.dist, g.next⟩ := by
  induction ops using List.reverseRecOn generalizing g with
  | nil =>
    unfold runOps at h; rw [List.foldlM_nil] at h
    injection h with h; subst h
    simp [new]
  | append_singleton ops op ih =>
    obtain ⟨g0, h2, h3⟩ := runOps_append h
    have H := stateOf_run ops h2
    cases op with
    | setWeight e v =>
      simp only [step, setWeight] at h3
      split at h3
      · rw [Res.bind_eq_ok] at h3
        obtain ⟨w, _, h4⟩ := h3
        injection h4 with h4; subst h4; simp
      · exact absurd h3 (by simp)
    | shortestPathsFw =>
      intro _
      simp only [step, shortestPathsFw] at h3
      rw [Res.bind_eq_ok] at h3
      obtain ⟨g2, h4, h5⟩ := h3
      obtain ⟨hi, hn, hw, _⟩ := calc_matrices H hids h4
      injection h5 with h5; subst h5
      rw [hn, H.nnode]
      have hinv := hi.inv hb (H.nonneg h1) (countNodes edges)
      exact fold_range_inv (fun _ m => Inv (countNodes edges) m) (phase (countNodes edges)) (countNodes edges) _ hinv
        (fun k x hk hx => phase_inv R hx hk)
    | calcDistAndNext =>
      intro _
      obtain ⟨hi, _, _, _⟩ := calc_matrices H hids h3
      exact hi.inv hb (H.nonneg h1) (countNodes edges)

/-- **C11.** Whatever was called before on the graph, `path` terminates for every pair of nodes, and does not panic;
the number type only needs a rounded addition (`RoundedAdd`), so this covers floating-point distances. -/
theorem C11_path_terminates (R : RoundedAdd W) (big : W) (hb : 0 ≤ big) (h1 : 0 ≤ (1 : W)) (edges : List (Nat × Nat))
    (hids : GoodIds edges) (ops : List (Op W)) (g : Graph W) (hg : runOps big edges ops = .ok g)
    (a b : Nat) (ha : a < countNodes edges) (hb' : b < countNodes edges) :
    ∃ fuel r, r ≠ .panic ∧ ∀ f, fuel ≤ f → path g f a b = some r := by
  have H := stateOf_run ops hg
  unfold path
  cases hr : g.readyPath with
  | false => exact ⟨0, .err msgNotReady, by simp, by simp⟩
  | true =>
    have I := ready_inv R hb h1 hids ops hg hr
    obtain ⟨fuel, hf⟩ := pathLoop_of_ends g.nnode (next := g.next) (by rw [H.nnode]; exact hb')
      (fun i c hi hc => by rw [H.nnode] at hi ⊢; exact I.bound i b c hi hb' hc) (I.ends a b ha hb') (by rw [H.nnode]; exact ha)
    obtain ⟨r, hr, hr'⟩ := hf [a]
    exact ⟨fuel, r, hr, by simpa using hr'⟩

end General

/-! ## Exact arithmetic -/
section Exact
variable {K : Type} [AddCommMonoid K] [LinearOrder K] [IsOrderedAddMonoid K] [One K]

theorem effArc_of_noParallel {edges : List (Nat × Nat)} (h : NoParallel edges) (weights : List K) :
    EffArc edges weights = GivenArc edges weights := by
  funext a b w
  apply propext
  constructor
  · rintro ⟨e, h1, h2, _⟩; exact ⟨e, h1, h2⟩
  · rintro ⟨e, h1, h2⟩
    refine ⟨e, h1, h2, ?_⟩
    intro e' he' hc
    obtain ⟨hlt, hv⟩ := List.getElem?_eq_some_iff.1 h1
    obtain ⟨hlt', hv'⟩ := List.getElem?_eq_some_iff.1 hc
    have := (List.Nodup.getElem_inj_iff h (hi := hlt) (hj := hlt')).1 (by rw [hv, hv'])
    omega

theorem fw_ex {big : K} (hb : 0 ≤ big) (h1 : 0 ≤ (1 : K)) {edges : List (Nat × Nat)} (hids : GoodIds edges)
    (ops : List (Op K)) (hw : ∀ w ∈ weightsAfter edges.length ops, w < big) {g : Graph K}
    (h : runOps big edges (ops ++ [.shortestPathsFw]) = .ok g) :
    Ex (EffArc edges (weightsAfter edges.length ops)) big (countNodes edges) (countNodes edges) ⟨g.dist, g.next⟩ ∧
    g.readyPath = true ∧ g.nnode = countNodes edges ∧
    (NoSelfLoop edges → ∀ i, i < countNodes edges → g.dist i i = 0) ∧
    (∀ a b w, EffArc edges (weightsAfter edges.length ops) a b w → 0 ≤ w ∧ b < countNodes edges) := by
  obtain ⟨g0, h2, h3⟩ := runOps_append h
  have H := stateOf_run ops h2
  simp only [step, shortestPathsFw] at h3
  rw [Res.bind_eq_ok] at h3
  obtain ⟨g2, h4, h5⟩ := h3
  obtain ⟨hi, hn, hw', _⟩ := calc_matrices H hids h4
  injection h5 with h5; subst h5
  rw [H.weights] at hi
  have hnn : ∀ w ∈ weightsAfter edges.length ops, 0 ≤ w := by rw [← H.weights]; exact H.nonneg h1
  have hA : ∀ a b w, EffArc edges (weightsAfter edges.length ops) a b w → 0 ≤ w ∧ b < countNodes edges := by
    rintro a b w ⟨e, he, hwe, _⟩
    exact ⟨hnn w (List.mem_of_getElem? hwe), (hids _ (List.mem_of_getElem? he)).2⟩
  have hex := hi.ex (fun w hm => ⟨hnn w hm, hw w hm⟩) hb (countNodes edges)
  rw [hn, H.nnode]
  have hfold := fold_range_inv (fun k m => Ex (EffArc edges (weightsAfter edges.length ops)) big (countNodes edges) k m)
    (phase (countNodes edges)) (countNodes edges) _ hex (fun k x hk hx => hx.phase (fun i j w h => (hA i j w h).1) hk)
  refine ⟨hfold, rfl, rfl, ?_, hA⟩
  intro hns i hin
  have hz := fold_range_inv (fun k m => Ex (EffArc edges (weightsAfter edges.length ops)) big (countNodes edges) k m ∧
      m.dist i i ≤ 0)
    (phase (countNodes edges)) (countNodes edges) ⟨g2.dist, g2.next⟩ ⟨hex, by
      rcases hi.arc i i with ⟨w, ⟨e, he, _, _⟩, _⟩ | ⟨_, hd, _⟩
      · exact absurd rfl (hns _ (List.mem_of_getElem? he))
      · simp only [if_true] at hd; exact le_of_eq hd⟩
    (fun k x hk hx => ⟨hx.1.phase (fun i j w h => (hA i j w h).1) hk,
      le_trans (phase_le_old roundedAdd_exact hx.1.inv.nonneg hk hin hin) hx.2⟩)
  exact le_antisymm hz.2 (hz.1.inv.nonneg i i hin hin)

theorem dist_least {A : Nat → Nat → K → Prop} {big : K} {n : Nat} {m : DN K} (H : Ex A big n n m)
    (hA : ∀ a b w, A a b w → 0 ≤ w ∧ b < n) {i j : Nat} (hi : i < n) (hj : j < n) (hij : i ≠ j) :
    (∀ l s, Path A l i j s → m.dist i j ≤ s) ∧ (m.dist i j < big → ∃ l, Path A l i j (m.dist i j)) ∧ m.dist i j ≤ big := by
  have hlow : ∀ l s, Path A l i j s → m.dist i j ≤ s := by
    intro l s hp
    rcases hp.via (fun a b w h => (hA a b w h).2) with ⟨h, _⟩ | hv
    · exact absurd h hij
    · exact H.low i j s hi hj hij hv
  refine ⟨hlow, ?_, H.leBig i j hi hj⟩
  intro hlt
  obtain ⟨fuel, hf⟩ := pathLoop_exact H (fun a b w h => (hA a b w h).1) hj (H.inv.ends i j hi hj) hi (fun _ => hlt)
  obtain ⟨l, s, hp, hs, _, _⟩ := hf []
  have : s = m.dist i j := le_antisymm (hs hij) (hlow _ _ hp)
  exact ⟨_, this ▸ hp⟩

/-- **C09.** After any history of calls ending with `shortest_paths_fw`, for every two different nodes: the stored distance
is the least total weight of a directed walk if some walk weighs less than `big` (= `f64::MAX`), and is `big` otherwise;
the distance of a node to itself is zero. Exact arithmetic; no parallel edges, no self-loops. -/
theorem C09_floyd_warshall (big : K) (hb : 0 ≤ big) (h1 : 0 ≤ (1 : K)) (edges : List (Nat × Nat)) (hids : GoodIds edges)
    (hpar : NoParallel edges) (hloop : NoSelfLoop edges) (ops : List (Op K))
    (hw : ∀ w ∈ weightsAfter edges.length ops, w < big) (g : Graph K)
    (hg : runOps big edges (ops ++ [.shortestPathsFw]) = .ok g) (i j : Nat) (hi : i < countNodes edges) (hj : j < countNodes edges) :
    let weights := {s : K | ∃ l, Path (GivenArc edges (weightsAfter edges.length ops)) l i j s}
    ((∃ s ∈ weights, s < big) → IsLeast weights (g.dist i j)) ∧ ((¬ ∃ s ∈ weights, s < big) → g.dist i j = big) ∧
    (i = j → g.dist i j = 0) := by
  obtain ⟨hex, _, _, hz, hA⟩ := fw_ex hb h1 hids ops hw hg
  rw [effArc_of_noParallel hpar] at hex hA
  intro weights
  by_cases hij : i = j
  · subst hij
    have h0 := hz hloop i hi
    have hleast : IsLeast weights (g.dist i i) := by
      rw [h0]
      refine ⟨⟨[i], .here i⟩, ?_⟩
      rintro s ⟨l, hp⟩
      exact hp.nonneg (fun a b w h => (hA a b w h).1)
    refine ⟨fun _ => hleast, ?_, fun _ => h0⟩
    intro hno
    rw [h0]
    have h2 : ¬ ((0 : K) < big) := fun h => hno ⟨0, ⟨[i], .here i⟩, h⟩
    exact le_antisymm hb (not_lt.1 h2)
  · obtain ⟨d1, d2, d3⟩ := dist_least hex hA hi hj hij
    refine ⟨?_, ?_, fun h => absurd h hij⟩
    · rintro ⟨s, ⟨l, hp⟩, hs⟩
      refine ⟨d2 (lt_of_le_of_lt (d1 l s hp) hs), ?_⟩
      rintro s' ⟨l', hp'⟩
      exact d1 l' s' hp'
    · intro hno
      by_contra hne
      have hlt := lt_of_le_of_ne d3 hne
      exact hno ⟨_, d2 hlt, hlt⟩

/-- **C09, general tables.** With parallel edges and self-loops, the distances between different nodes are minimal with
respect to the *last* listed edge of each group of parallel edges. -/
theorem C09_last_parallel_edge_wins (big : K) (hb : 0 ≤ big) (h1 : 0 ≤ (1 : K)) (edges : List (Nat × Nat)) (hids : GoodIds edges)
    (ops : List (Op K)) (hw : ∀ w ∈ weightsAfter edges.length ops, w < big) (g : Graph K)
    (hg : runOps big edges (ops ++ [.shortestPathsFw]) = .ok g) (i j : Nat) (hi : i < countNodes edges) (hj : j < countNodes edges)
    (hij : i ≠ j) :
    let weights := {s : K | ∃ l, Path (EffArc edges (weightsAfter edges.length ops)) l i j s}
    ((∃ s ∈ weights, s < big) → IsLeast weights (g.dist i j)) ∧ ((¬ ∃ s ∈ weights, s < big) → g.dist i j = big) := by
  obtain ⟨hex, _, _, _, hA⟩ := fw_ex hb h1 hids ops hw hg
  obtain ⟨d1, d2, d3⟩ := dist_least hex hA hi hj hij
  intro weights
  refine ⟨?_, ?_⟩
  · rintro ⟨s, ⟨l, hp⟩, hs⟩
    refine ⟨d2 (lt_of_le_of_lt (d1 l s hp) hs), ?_⟩
    rintro s' ⟨l', hp'⟩
    exact d1 l' s' hp'
  · intro hno
    by_contra hne
    have hlt := lt_of_le_of_ne d3 hne
    exact hno ⟨_, d2 hlt, hlt⟩

/-- **C10.** After any history of calls ending with `shortest_paths_fw`, `path(a, b)` terminates and returns `Ok` of a walk
from `a` to `b` along the given arcs that no other walk beats, exactly when there is a walk (weighing less than
`big` = `f64::MAX`); otherwise it returns the "no path found" error. -/
theorem C10_path (big : K) (hb : 0 < big) (h1 : 0 ≤ (1 : K)) (edges : List (Nat × Nat)) (hids : GoodIds edges)
    (hpar : NoParallel edges) (ops : List (Op K))
    (hw : ∀ w ∈ weightsAfter edges.length ops, w < big) (g : Graph K)
    (hg : runOps big edges (ops ++ [.shortestPathsFw]) = .ok g) (a b : Nat) (ha : a < countNodes edges) (hb' : b < countNodes edges) :
    let A := GivenArc edges (weightsAfter edges.length ops)
    ∃ fuel r, (∀ f, fuel ≤ f → path g f a b = some r) ∧
      ((∃ l s, Path A l a b s ∧ s < big) → ∃ l s, r = .ok l ∧ Path A l a b s ∧ ∀ l' s', Path A l' a b s' → s ≤ s') ∧
      ((¬ ∃ l s, Path A l a b s ∧ s < big) → r = .err msgNoPath) := by
  obtain ⟨hex, hr, hn, _, hA⟩ := fw_ex (le_of_lt hb) h1 hids ops hw hg
  rw [effArc_of_noParallel hpar] at hex hA
  intro A
  have hA0 : ∀ i j w, A i j w → 0 ≤ w := fun a b w h => (hA a b w h).1
  unfold path
  simp only [hr, if_true, hn]
  by_cases hab : a = b
  · subst hab
    obtain ⟨fuel, hf⟩ := pathLoop_exact hex hA0 hb' (hex.inv.ends a a ha ha) ha (fun h => absurd rfl h)
    obtain ⟨l, s, hp, _, hs, hrun⟩ := hf [a]
    refine ⟨fuel, .ok ([a] ++ l), hrun, fun _ => ⟨_, _, rfl, hp, ?_⟩, ?_⟩
    · intro l' s' hp'
      rw [hs rfl]; exact hp'.nonneg hA0
    · intro hno; exact absurd ⟨[a], 0, .here a, hb⟩ hno
  · obtain ⟨d1, d2, d3⟩ := dist_least hex hA ha hb' hab
    by_cases hlt : g.dist a b < big
    · obtain ⟨fuel, hf⟩ := pathLoop_exact hex hA0 hb' (hex.inv.ends a b ha hb') ha (fun _ => hlt)
      obtain ⟨l, s, hp, hs, _, hrun⟩ := hf [a]
      refine ⟨fuel, .ok ([a] ++ l), hrun, fun _ => ⟨_, _, rfl, hp, ?_⟩, ?_⟩
      · intro l' s' hp'
        exact le_trans (hs hab) (d1 _ _ hp')
      · intro hno
        obtain ⟨l, hp⟩ := d2 hlt
        exact absurd ⟨l, _, hp, hlt⟩ hno
    · have hnone : g.next a b = none := by
        cases hx : g.next a b with
        | none => rfl
        | some c => exact absurd (hex.some_lt a b c ha hb' hab hx).1 hlt
      refine ⟨1, .err msgNoPath, ?_, ?_, fun _ => rfl⟩
      · intro f hf
        obtain ⟨f, rfl⟩ := Nat.exists_eq_add_of_le' hf
        simp [pathLoop, hab, ha, hb', hnone]
      · rintro ⟨l, s, hp, hs⟩
        exact absurd (lt_of_le_of_lt (d1 _ _ hp) hs) hlt

/-- **C10, stale data.** If nothing was computed yet, or the last call changed a weight, `path` refuses to answer. -/
theorem C10_path_not_ready (big : K) (edges : List (Nat × Nat)) (ops : List (Op K)) (g : Graph K)
    (hg : runOps big edges ops = .ok g)
    (hlast : ops = [] ∨ ∃ ops' e v, ops = ops' ++ [.setWeight e v]) (fuel a b : Nat) :
    path g fuel a b = some (.err msgNotReady) := by
  have : g.readyPath = false := by
    rcases hlast with rfl | ⟨ops', e, v, rfl⟩
    · unfold runOps at hg; rw [List.foldlM_nil] at hg
      injection hg with hg; subst hg; rfl
    · obtain ⟨g0, _, h3⟩ := runOps_append hg
      simp only [step, setWeight] at h3
      split at h3
      · rw [Res.bind_eq_ok] at h3
        obtain ⟨w, _, h4⟩ := h3
        injection h4 with h4; subst h4; rfl
      · exact absurd h3 (by simp)
  simp [path, this]

end Exact

/-! ## Concrete cases and counterexamples (weights in `ℕ`, `big = 1000`) -/

/-- A diamond: 0→1→3 and 0→2→3, plus 3→0. -/
def exEdges : List (Nat × Nat) := [(0, 1), (1, 3), (0, 2), (2, 3), (3, 0)]
/-- Weights set by the user, then the path-finding call. -/
def exOps : List (Op Nat) := [.setWeight 0 5, .shortestPathsFw, .setWeight 2 2]

example : GoodIds exEdges := by unfold GoodIds; decide
example : NoParallel exEdges ∧ NoSelfLoop exEdges := by unfold NoParallel NoSelfLoop; decide
example : ∀ w ∈ weightsAfter exEdges.length exOps, w < 1000 := by decide
example : ∃ g, runOps 1000 exEdges (exOps ++ [.shortestPathsFw]) = .ok g ∧ g.dist 0 3 = 3 ∧ g.dist 1 2 = 4 ∧
    path g 10 0 3 = some (.ok [0, 2, 3]) := ⟨_, rfl, by decide +kernel, by decide +kernel, by decide +kernel⟩
example : RoundedAdd Nat := roundedAdd_exact

/-- A truncated addition (results above 9 are rounded down to 9 unless an operand is larger) is a `RoundedAdd` that is not
cancellative: C11 really covers more than exact arithmetic. -/
def satAdd : Add Nat := ⟨fun a b => max (max a b) (min (a + b) 9)⟩
example : @RoundedAdd Nat _ satAdd _ := @RoundedAdd.mk Nat _ satAdd _
  (by intro a b _ _; show a ≤ max (max a b) (min (a + b) 9); omega)
  (by intro a b _ _; show b ≤ max (max a b) (min (a + b) 9); omega)
  (by intro a b c d _ _ h1 h2; show max (max a b) (min (a + b) 9) ≤ max (max c d) (min (c + d) 9); omega)

/-- Parallel edges: the distance is that of the last edge listed, not of the lightest one. -/
theorem C09_parallel_edges_not_minimal :
    ∃ g, runOps 1000 [(0, 1), (0, 1)] [Op.setWeight 1 5, .shortestPathsFw] = .ok g ∧ g.dist 0 1 = 5 ∧
      Path (GivenArc [(0, 1), (0, 1)] (weightsAfter 2 [Op.setWeight 1 5, .shortestPathsFw])) [0, 1] 0 1 (1 + 0) :=
  ⟨_, rfl, by decide +kernel, .cons ⟨0, by decide, by decide⟩ (.here 1)⟩

/-- Self-loops: the distance of a node to itself is the weight of the loop instead of zero. -/
theorem C09_self_loop_nonzero_diagonal :
    ∃ g, runOps (1000 : Nat) [(0, 0), (0, 1)] [.shortestPathsFw] = .ok g ∧ g.dist 0 0 = 1 :=
  ⟨_, rfl, by decide +kernel⟩

/-- `calc_dist_and_next` is public and resets the matrices without clearing the "ready" flag: called after
`shortest_paths_fw`, it makes `path` report that a reachable node is unreachable. -/
theorem C10_calc_dist_and_next_breaks_path :
    ∃ g, runOps (1000 : Nat) [(0, 1), (1, 2)] [.shortestPathsFw, .calcDistAndNext] = .ok g ∧
      path g 10 0 2 = some (.err msgNoPath) ∧
      Path (GivenArc [(0, 1), (1, 2)] (weightsAfter 2 [Op.shortestPathsFw, .calcDistAndNext])) [0, 1, 2] 0 2 (1 + (1 + 0)) :=
  ⟨_, rfl, by decide +kernel, .cons ⟨0, by decide, by decide⟩ (.cons ⟨1, by decide, by decide⟩ (.here 2))⟩

end Gemlab.Props.GraphDir
