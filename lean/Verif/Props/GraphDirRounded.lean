import Verif.Proofs.GraphDirRounded
import Verif.Props.GraphDir
import Verif.Props.RoundedTriangle2

/-!
# C93: Floyd–Warshall distances and paths with rounding

The numbers are floating-point numbers: each sum is rounded. `Lengths` are the exact lengths (real numbers) of the walks between two nodes.
-/
namespace Gemlab.Props.GraphDir
open Gemlab Gemlab.GraphDir Gemlab.Spec Gemlab.Rounded
noncomputable section

variable {fl : ℝ → ℝ} {u : ℝ} {R : Rounding fl u}

/-- The nodes `l` form a walk from `i` to `j` along the given edges of exact length `s`. -/
def Walk (edges : List (Nat × Nat)) (weights : List (RN R)) (l : List Nat) (i j : Nat) (s : ℝ) : Prop :=
  Path (fun a b w => ∃ e : Nat, edges[e]? = some (a, b) ∧ ∃ w', weights[e]? = some w' ∧ w'.val = w) l i j s

/-- The exact lengths of the walks from `i` to `j`. -/
def Lengths (edges : List (Nat × Nat)) (weights : List (RN R)) (i j : Nat) : Set ℝ := {s | ∃ l, Walk edges weights l i j s}

theorem arc_eq {edges : List (Nat × Nat)} (hpar : NoParallel edges) (weights : List (RN R)) : realArc (EffArc edges weights) =
    fun a b w => ∃ e : Nat, edges[e]? = some (a, b) ∧ ∃ w', weights[e]? = some w' ∧ w'.val = w := by
  funext a b w
  apply propext
  constructor
  · rintro ⟨w', ⟨e, h1, h2, _⟩, h3⟩; exact ⟨e, h1, w', h2, h3⟩
  · rintro ⟨e, h1, w', h2, h3⟩
    refine ⟨w', ⟨e, h1, h2, ?_⟩, h3⟩
    intro e' he' hc
    obtain ⟨hlt, hv⟩ := List.getElem?_eq_some_iff.1 h1
    obtain ⟨hlt', hv'⟩ := List.getElem?_eq_some_iff.1 hc
    have := (List.Nodup.getElem_inj_iff hpar (hi := hlt) (hj := hlt')).1 (by rw [hv, hv'])
    omega

theorem fw_exR {big : RN R} (hb : 0 ≤ big) {edges : List (Nat × Nat)} (hids : GoodIds edges)
    (ops : List (Op (RN R))) (hw : ∀ w ∈ weightsAfter edges.length ops, w < big) {g : Graph (RN R)}
    (h : runOps big edges (ops ++ [.shortestPathsFw]) = .ok g) :
    ExR R (realArc (EffArc edges (weightsAfter edges.length ops))) big (countNodes edges) (countNodes edges) ⟨g.dist, g.next⟩ ∧
    g.readyPath = true ∧ g.nnode = countNodes edges ∧
    (∀ a b w, realArc (EffArc edges (weightsAfter edges.length ops)) a b w → 0 ≤ w ∧ b < countNodes edges) := by
  have h1 : (0 : RN R) ≤ 1 := (val_nonneg R).2 (R.nonneg zero_le_one)
  obtain ⟨g0, h2, h3⟩ := runOps_append h
  have H := stateOf_run ops h2
  simp only [step, shortestPathsFw] at h3
  rw [Res.bind_eq_ok] at h3
  obtain ⟨g2, h4, h5⟩ := h3
  obtain ⟨hi, hn, hw', _⟩ := calc_matrices H hids h4
  injection h5 with h5; subst h5
  rw [H.weights] at hi
  have hnn : ∀ w ∈ weightsAfter edges.length ops, 0 ≤ w := by rw [← H.weights]; exact H.nonneg h1
  have hA : ∀ a b w, realArc (EffArc edges (weightsAfter edges.length ops)) a b w → 0 ≤ w ∧ b < countNodes edges := by
    rintro a b w ⟨w', ⟨e, he, hwe, _⟩, rfl⟩
    exact ⟨(val_nonneg R).1 (hnn w' (List.mem_of_getElem? hwe)), (hids _ (List.mem_of_getElem? he)).2⟩
  have hex := hi.exR (fun w hm => ⟨hnn w hm, hw w hm⟩) hb (countNodes edges)
  rw [hn, H.nnode]
  have hfold := fold_range_inv (fun k m => ExR R (realArc (EffArc edges (weightsAfter edges.length ops))) big (countNodes edges) k m)
    (phase (countNodes edges)) (countNodes edges) _ hex (fun k x hk hx => hx.step (fun i j w h => (hA i j w h).1) hk)
  exact ⟨hfold, rfl, rfl, hA⟩

/-- **C93, distances.** With `n` nodes, the stored distance of two different nodes is at most `(1 + u)^n` times the length of any walk, and at least `(1 - u)^n` times the
length of some walk; it is `big` (= `f64::MAX`) if there is no walk. -/
theorem C93_distance (big : RN R) (hb : 0 ≤ big) (edges : List (Nat × Nat)) (hids : GoodIds edges) (hpar : NoParallel edges) (ops : List (Op (RN R)))
    (hw : ∀ w ∈ weightsAfter edges.length ops, w < big) (g : Graph (RN R)) (hg : runOps big edges (ops ++ [.shortestPathsFw]) = .ok g) (i j : Nat)
    (hi : i < countNodes edges) (hj : j < countNodes edges) (hij : i ≠ j) :
    let L := Lengths edges (weightsAfter edges.length ops) i j
    (∀ s ∈ L, (g.dist i j).val ≤ (1 + u) ^ countNodes edges * s) ∧
    (g.dist i j < big → ∃ s ∈ L, (1 - u) ^ countNodes edges * s ≤ (g.dist i j).val) ∧ (L = ∅ → g.dist i j = big) ∧ g.dist i j ≤ big := by
  obtain ⟨hex, _, _, hA⟩ := fw_exR hb hids ops hw hg
  have e := arc_eq hpar (weightsAfter edges.length ops)
  rw [e] at hex hA
  have hhigh : g.dist i j < big → ∃ s ∈ Lengths edges (weightsAfter edges.length ops) i j, (1 - u) ^ countNodes edges * s ≤ (g.dist i j).val := by
    intro hlt
    obtain ⟨s, hv, hs⟩ := hex.high i j hi hj hij hlt
    obtain ⟨l, hl⟩ := hv.path
    exact ⟨s, ⟨l, hl⟩, hs⟩
  refine ⟨?_, hhigh, ?_, hex.leBig i j hi hj⟩
  · rintro s ⟨l, hp⟩
    rcases Path.via (fun a b w h => (hA a b w h).2) hp with ⟨h, _⟩ | hv
    · exact absurd h hij
    · exact hex.low i j s hi hj hij hv
  · intro hno
    by_contra hne
    obtain ⟨s, hs, _⟩ := hhigh (lt_of_le_of_ne (hex.leBig i j hi hj) hne)
    rw [hno] at hs
    exact hs

theorem one_sub_pow (hu : 0 ≤ u ∧ u ≤ 1) (n : ℕ) : 1 - n * u ≤ (1 - u) ^ n := by
  have := one_add_mul_le_pow (a := -u) (by linarith) n
  rw [← sub_eq_add_neg] at this
  linarith

theorem one_add_pow (hu : 0 ≤ u ∧ u ≤ 1) (n : ℕ) (hn : n * u ≤ 1 / 2) : (1 + u) ^ n ≤ 1 + 2 * (n * u) := by
  have h1 := one_sub_pow hu n
  have h2 : (1 + u) ^ n * (1 - u) ^ n ≤ 1 := by
    rw [← mul_pow]
    exact pow_le_one₀ (by nlinarith) (by nlinarith)
  have h3 : 0 ≤ (1 + u) ^ n := pow_nonneg (by linarith) n
  have h4 : (1 + u) ^ n * (1 - n * u) ≤ 1 := (mul_le_mul_of_nonneg_left h1 h3).trans h2
  have h5 : 0 ≤ (n : ℝ) * u := by have := hu.1; positivity
  by_contra hc
  push Not at hc
  nlinarith

/-- **C93, relative error.** The stored distance of two nodes joined by a walk differs from the exact least length by at most `2 n u` of it. -/
theorem C93_relative (big : RN R) (hb : 0 ≤ big) (edges : List (Nat × Nat)) (hids : GoodIds edges) (hpar : NoParallel edges) (ops : List (Op (RN R)))
    (hw : ∀ w ∈ weightsAfter edges.length ops, w < big) (g : Graph (RN R)) (hg : runOps big edges (ops ++ [.shortestPathsFw]) = .ok g) (i j : Nat)
    (hi : i < countNodes edges) (hj : j < countNodes edges) (hij : i ≠ j) (hn : countNodes edges * u ≤ 1 / 2) {d : ℝ}
    (hd : IsLeast (Lengths edges (weightsAfter edges.length ops) i j) d) (hd0 : 0 ≤ d) (hbig : (1 + u) ^ countNodes edges * d < big.val) :
    |(g.dist i j).val - d| ≤ 2 * (countNodes edges * u) * d := by
  obtain ⟨h1, h2, -, -⟩ := C93_distance big hb edges hids hpar ops hw g hg i j hi hj hij
  have h3 := h1 d hd.1
  obtain ⟨s, hs, h4⟩ := h2 ((val_lt R).2 (lt_of_le_of_lt h3 hbig))
  have hu : 0 ≤ u ∧ u ≤ 1 := ⟨R.small.1, R.small.2.trans (by norm_num)⟩
  have h5 := one_sub_pow hu (countNodes edges)
  have h6 := one_add_pow hu (countNodes edges) hn
  have h7 : (1 - u) ^ countNodes edges * d ≤ (1 - u) ^ countNodes edges * s := mul_le_mul_of_nonneg_left (hd.2 hs) (pow_nonneg (by linarith) _)
  rw [abs_le]
  constructor <;> nlinarith

/-- **C93, paths.** `path(a, b)` terminates. If some walk has a length whose rounded value is below `big`, the result is a walk along the given edges that visits no node
twice, and its exact length is at most `((1 + u)/(1 - u))^(n^2) * (1 + u)^n` times the length of any other walk. If there is no walk, the result is the error "no path found". -/
theorem C93_path (big : RN R) (hb : 0 < big) (edges : List (Nat × Nat)) (hids : GoodIds edges) (hpar : NoParallel edges) (ops : List (Op (RN R)))
    (hw : ∀ w ∈ weightsAfter edges.length ops, w < big) (g : Graph (RN R)) (hg : runOps big edges (ops ++ [.shortestPathsFw]) = .ok g) (a b : Nat)
    (ha : a < countNodes edges) (hb' : b < countNodes edges) :
    ∃ fuel r, (∀ f, fuel ≤ f → path g f a b = some r) ∧
      ((∃ s ∈ Lengths edges (weightsAfter edges.length ops) a b, (1 + u) ^ countNodes edges * s < big.val) →
        ∃ l s, r = .ok l ∧ l.Nodup ∧ Walk edges (weightsAfter edges.length ops) l a b s ∧ ∀ s' ∈ Lengths edges (weightsAfter edges.length ops) a b,
          s ≤ ((1 + u) / (1 - u)) ^ (countNodes edges ^ 2) * (1 + u) ^ countNodes edges * s') ∧
      (Lengths edges (weightsAfter edges.length ops) a b = ∅ → r = .err msgNoPath) := by
  obtain ⟨hex, hr, hn, hA⟩ := fw_exR hb.le hids ops hw hg
  have e := arc_eq hpar (weightsAfter edges.length ops)
  rw [e] at hex hA
  have hA0 := fun i j w h => (hA i j w h).1
  have hrho := one_le_rho R
  have hbig : ∀ i j c, i < countNodes edges → j < countNodes edges → i ≠ j → c ≠ j → g.next i j = some c → g.next c j ≠ none := by
    intro i j c hi hj hij hcj hx hno
    have hc := hex.inv.bound i j c hi hj hx
    have h1 := hex.none_big c j hc hj hcj hno
    have h2 := hex.inv.desc i j c hi hj hij hx hcj
    have h3 := (hex.some_lt i j c hi hj hij hx).1
    rw [h1] at h2
    exact absurd (lt_of_le_of_lt h2 h3) (lt_irrefl _)
  unfold path
  simp only [hr, if_true, hn]
  by_cases hab : a = b
  · subst hab
    obtain ⟨fuel, l, s, hh, hp, _, hs, hrun⟩ := pathLoop_rounded hex hA0 hbig hb' (hex.inv.ends a a ha ha) ha (fun h => absurd rfl h)
    refine ⟨fuel, .ok ([a] ++ l), hrun [a], fun _ => ⟨_, _, rfl, hh.nodup, hp, ?_⟩, ?_⟩
    · rintro s' ⟨l', hp'⟩
      rw [hs rfl]
      have h1 : 0 ≤ s' := Path.nonneg hA0 hp'
      have h2 : (0 : ℝ) ≤ (1 + u) / (1 - u) := le_trans zero_le_one hrho
      have h3 := R.small.1
      positivity
    · intro hno
      exact absurd (show (0 : ℝ) ∈ Lengths edges (weightsAfter edges.length ops) a a from ⟨[a], .here a⟩) (by rw [hno]; exact fun h => h)
  · obtain ⟨d1, d2, d3, _⟩ := C93_distance big hb.le edges hids hpar ops hw g hg a b ha hb' hab
    by_cases hx : g.next a b = none
    · refine ⟨1, .err msgNoPath, ?_, ?_, fun _ => rfl⟩
      · intro f hf
        obtain ⟨f, rfl⟩ := Nat.exists_eq_add_of_le' hf
        simp [pathLoop, hab, ha, hb', hx]
      · rintro ⟨s, hs, hlt⟩
        have h1 := hex.none_big a b ha hb' hab hx
        have h2 := d1 s hs
        simp only at h1
        rw [h1] at h2
        linarith
    · obtain ⟨fuel, l, s, hh, hp, hs, _, hrun⟩ := pathLoop_rounded hex hA0 hbig hb' (hex.inv.ends a b ha hb') ha (fun _ => hx)
      refine ⟨fuel, .ok ([a] ++ l), hrun [a], fun _ => ⟨_, _, rfl, hh.nodup, hp, ?_⟩, ?_⟩
      · intro s' hs'
        have h1 := d1 s' hs'
        have h2 := hs hab
        have hlen := hh.length_lt (fun i j c => hex.inv.bound i j c) hb' ha
        have h3 : rho u ^ (countNodes edges * l.length) ≤ rho u ^ (countNodes edges ^ 2) :=
          pow_le_pow_right₀ hrho (by rw [pow_two]; exact Nat.mul_le_mul_left _ hlen.le)
        have nn : 0 ≤ (g.dist a b).val := (val_nonneg R).1 (hex.inv.nonneg a b ha hb')
        calc s ≤ _ := h2
          _ ≤ rho u ^ (countNodes edges ^ 2) * (g.dist a b).val := mul_le_mul_of_nonneg_right h3 nn
          _ ≤ rho u ^ (countNodes edges ^ 2) * ((1 + u) ^ countNodes edges * s') := mul_le_mul_of_nonneg_left h1 (pow_nonneg (by linarith) _)
          _ = _ := by rw [rho]; ring
      · intro hno
        obtain ⟨c, hc⟩ := Option.ne_none_iff_exists'.1 hx
        obtain ⟨s, hs, _⟩ := d2 (hex.some_lt a b c ha hb' hab hc).1
        rw [hno] at hs
        exact absurd hs (fun h => h)

/-- The edges of the example. -/
def chain : List (Nat × Nat) := [(0, 1), (1, 2)]

/-- The number `2^-53` of the example. -/
def exTiny : RN binary64_rounding := ⟨2 ^ (-53 : ℤ), by have := binary64_dyadic 1 (-53) (by norm_num); simpa using this⟩

/-- The largest number of the example. -/
def exBig : RN binary64_rounding := ⟨2 ^ (1000 : ℤ), by have := binary64_dyadic 1 1000 (by norm_num); simpa using this⟩

theorem exOne : (1 : RN binary64_rounding).val = 1 := b64_exact 1 0 (by norm_num) (by norm_num) (by norm_num)

theorem exLengths : Lengths chain [1, exTiny] 0 2 = {1 + (2 : ℝ) ^ (-53 : ℤ)} := by
  have arc0 : ∀ {b : Nat} {w : ℝ}, (∃ e : Nat, chain[e]? = some (0, b) ∧ ∃ w', [1, exTiny][e]? = some w' ∧ w'.val = w) → b = 1 ∧ w = 1 := by
    rintro b w ⟨e, h1, w', h2, h3⟩
    match e with
    | 0 => simp [chain] at h1 h2; subst h1 h2; exact ⟨rfl, h3.symm.trans exOne⟩
    | 1 => simp [chain] at h1
    | e + 2 => simp [chain] at h1
  have arc1 : ∀ {b : Nat} {w : ℝ}, (∃ e : Nat, chain[e]? = some (1, b) ∧ ∃ w', [1, exTiny][e]? = some w' ∧ w'.val = w) → b = 2 ∧ w = 2 ^ (-53 : ℤ) := by
    rintro b w ⟨e, h1, w', h2, h3⟩
    match e with
    | 0 => simp [chain] at h1
    | 1 => simp [chain] at h1 h2; subst h1 h2; exact ⟨rfl, h3.symm⟩
    | e + 2 => simp [chain] at h1
  have arc2 : ∀ {b : Nat} {w : ℝ}, ¬ ∃ e : Nat, chain[e]? = some (2, b) ∧ ∃ w', [1, exTiny][e]? = some w' ∧ w'.val = w := by
    rintro b w ⟨e, h1, _⟩
    match e with
    | 0 => simp [chain] at h1
    | 1 => simp [chain] at h1
    | e + 2 => simp [chain] at h1
  ext s
  simp only [Lengths, Set.mem_ofPred_eq, Set.mem_singleton_iff]
  constructor
  · rintro ⟨l, hp⟩
    unfold Walk at hp
    cases hp with
    | cons h hp =>
      obtain ⟨rfl, rfl⟩ := arc0 h
      cases hp with
      | cons h hp =>
        obtain ⟨rfl, rfl⟩ := arc1 h
        cases hp with
        | here => ring
        | cons h hp => exact absurd h arc2
  · rintro rfl
    refine ⟨[0, 1, 2], ?_⟩
    have h := Path.cons (A := fun a b w => ∃ e : Nat, chain[e]? = some (a, b) ∧ ∃ w', [1, exTiny][e]? = some w' ∧ w'.val = w) (a := 0) (b := 1) (w := 1)
      ⟨0, rfl, 1, rfl, exOne⟩ (Path.cons (b := 2) (w := 2 ^ (-53 : ℤ)) ⟨1, rfl, exTiny, rfl, rfl⟩ (Path.here 2))
    rw [add_zero] at h
    exact h

/-- **C93, an example in binary64.** `0 → 1 → 2` with weights `1` and `2^-53`: all hypotheses of `C93_relative` hold, so the stored distance is within `6 · 2^-53` (relative) of
`1 + 2^-53`; it cannot be that number, which is not a binary64 number. -/
theorem C93_example : ∃ g, runOps exBig chain ([.setWeight 1 exTiny] ++ [.shortestPathsFw]) = .ok g ∧ IsLeast (Lengths chain [1, exTiny] 0 2) (1 + 2 ^ (-53 : ℤ)) ∧
    |(g.dist 0 2).val - (1 + 2 ^ (-53 : ℤ))| ≤ 2 * (3 * 2 ^ (-53 : ℤ)) * (1 + 2 ^ (-53 : ℤ)) ∧ (g.dist 0 2).val ≠ 1 + 2 ^ (-53 : ℤ) ∧
    ∃ fuel l, path g fuel 0 2 = some (.ok l) ∧ Walk chain [1, exTiny] l 0 2 (1 + 2 ^ (-53 : ℤ)) := by
  have hids : GoodIds chain := by unfold GoodIds; decide
  have hn : countNodes chain = 3 := by decide
  have hnp : NoParallel chain := by unfold NoParallel; decide
  have h1 : (0 : ℝ) < 2 ^ (-53 : ℤ) := by positivity
  have h1' : (2 : ℝ) ^ (-53 : ℤ) ≤ 1 / 100 := by norm_num
  have hB : (8 : ℝ) ≤ exBig.val := le_trans (by norm_num) (zpow_le_zpow_right₀ (a := (2 : ℝ)) (m := 3) (by norm_num) (by norm_num))
  have hb : (0 : RN binary64_rounding) < exBig := by rw [val_lt, val_zero]; linarith
  have hl : chain.length = 2 := rfl
  have hwt : weightsAfter chain.length [.setWeight 1 exTiny] = [1, exTiny] := rfl
  obtain ⟨g, hg⟩ := C09_calls_succeed exBig chain hids ([.setWeight 1 exTiny] ++ [.shortestPathsFw])
    (by
      intro op hop
      simp only [List.cons_append, List.nil_append, List.mem_cons, List.not_mem_nil, or_false] at hop
      rcases hop with rfl | rfl
      · exact ⟨by decide, (val_nonneg _).2 h1.le⟩
      · trivial)
  have hw : ∀ w ∈ weightsAfter chain.length [.setWeight 1 exTiny], w < exBig := by
    rw [hwt]
    intro w hm
    simp only [List.mem_cons, List.not_mem_nil, or_false] at hm
    rcases hm with rfl | rfl
    · rw [val_lt, exOne]; linarith
    · rw [val_lt]; exact lt_of_lt_of_le (lt_of_le_of_lt h1' (by norm_num)) hB
  have hleast : IsLeast (Lengths chain [1, exTiny] 0 2) (1 + (2 : ℝ) ^ (-53 : ℤ)) := by rw [exLengths]; exact isLeast_singleton
  have hbig : (1 + (2 : ℝ) ^ (-53 : ℤ)) ^ countNodes chain * (1 + 2 ^ (-53 : ℤ)) < exBig.val := by
    rw [hn]
    have : (1 + (2 : ℝ) ^ (-53 : ℤ)) ^ 3 * (1 + 2 ^ (-53 : ℤ)) < 8 := by norm_num
    exact lt_of_lt_of_le this hB
  refine ⟨g, hg, hleast, ?_, ?_, ?_⟩
  · have := C93_relative exBig hb.le chain hids hnp _ hw g hg 0 2 (by decide) (by decide) (by decide) (by rw [hn]; norm_num) (by rw [hwt]; exact hleast)
      (by linarith) hbig
    rw [hn] at this
    exact_mod_cast this
  · intro h
    have h2 := (g.dist 0 2).2
    unfold IsFloat at h2
    change binary64 (g.dist 0 2).val = (g.dist 0 2).val at h2
    rw [h, b64_tie (y := 1) (2 ^ 52) 53 (by norm_num) (by norm_num) (by norm_num)] at h2
    linarith
  · obtain ⟨fuel, r, hr, hp, _⟩ := C93_path exBig hb chain hids hnp _ hw g hg 0 2 (by decide) (by decide)
    rw [hwt] at hp
    obtain ⟨l, s, rfl, _, hl, _⟩ := hp ⟨_, hleast.1, hbig⟩
    have hs : s ∈ Lengths chain [1, exTiny] 0 2 := ⟨l, hl⟩
    rw [exLengths, Set.mem_singleton_iff] at hs
    exact ⟨fuel, l, hr fuel le_rfl, hs ▸ hl⟩

end
end Gemlab.Props.GraphDir
