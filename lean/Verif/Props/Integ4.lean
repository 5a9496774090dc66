import Verif.Props.Integ3

/-!
# C37: what the routines do when something fails

No hypothesis on the geometry or on the results of the callbacks: whatever happens, an output that is too small (or a wrong geometry) is
rejected and the output is left as it was, and otherwise only the block is written to (apart from the optional clearing of the whole output).
The only assumption is that the callbacks and the inversion of small matrices do not panic themselves.
-/
namespace Gemlab.Props.Integ
open Gemlab Gemlab.Integ Gemlab.Spec.Integ
noncomputable section
variable {inv : MatInverse}

/-- The result of a routine with a vector output: `a'` and `r` are the output and the status, and the block has `n` entries from `ii0`. -/
def OnlyBlock1 {σ : Type} (a : Vec) (x : Vec × Res σ) (clear : Bool) (ii0 n : Nat) : Prop :=
  x.2 ≠ .panic ∧ ((∃ e, x = (a, .err e)) ∨
    (ii0 + n ≤ a.dim ∧ x.1.dim = a.dim ∧ ∀ i, ¬ (ii0 ≤ i ∧ i < ii0 + n) → x.1.val i = if clear then 0 else a.val i))

/-- The same for a matrix output. -/
def OnlyBlock2 {σ : Type} (k : Mat) (x : Mat × Res σ) (clear : Bool) (ii0 jj0 nr nc : Nat) : Prop :=
  x.2 ≠ .panic ∧ ((∃ e, x = (k, .err e)) ∨
    (ii0 + nr ≤ k.nrow ∧ jj0 + nc ≤ k.ncol ∧ x.1.nrow = k.nrow ∧ x.1.ncol = k.ncol ∧
      ∀ i j, ¬ ((ii0 ≤ i ∧ i < ii0 + nr) ∧ (jj0 ≤ j ∧ j < jj0 + nc)) → x.1.val (i, j) = if clear then 0 else k.val (i, j)))

/-- The oracle for small matrices does not panic. -/
def NoPanic (inv : MatInverse) : Prop := ∀ n a, inv n a ≠ .panic

/-- One step does not panic and its additions are in the block. -/
def Safe {I σ : Type} (block : I → Prop) (r : Res (σ × List (I × ℝ))) : Prop :=
  match r with
  | .ok (_, l) => ∀ e ∈ l, block e.1
  | .err _ => True
  | .panic => False

theorem Safe.bind {I σ α : Type} {block : I → Prop} {x : Res α} {f : α → Res (σ × List (I × ℝ))} (hx : x ≠ .panic) (hf : ∀ a, Safe block (f a)) :
    Safe block (x >>= f) := by
  cases x with
  | ok a => exact hf a
  | err e => trivial
  | panic => exact absurd rfl hx

theorem runVec_only {σ : Type} {a : Vec} {clear : Bool} {np : Nat} {s : σ} {step : Nat → σ → Res (σ × List (Nat × ℝ))} {ii0 n : Nat}
    (hn : ii0 + n ≤ a.dim) (h : ∀ p s, Safe (fun i => ii0 ≤ i ∧ i < ii0 + n) (step p s)) : OnlyBlock1 a (runVec a clear np s step) clear ii0 n := by
  have h1 := runPoints_frame (fun i => decide (i < a.dim)) step (fun i => ii0 ≤ i ∧ i < ii0 + n)
    (fun p s s' l e => by have := h p s; rw [e] at this; exact this) (fun i hi => by simp only [decide_eq_true_eq]; omega)
    (fun p s e => by have := h p s; rw [e] at this; exact this) np 0 s (if clear then fun _ => 0 else a.val)
  refine ⟨h1.2, Or.inr ⟨hn, rfl, fun i hi => ?_⟩⟩
  refine (h1.1 i hi).trans ?_
  cases clear <;> rfl

theorem runMat_only {σ : Type} {k : Mat} {clear : Bool} {np : Nat} {s : σ} {step : Nat → σ → Res (σ × List ((Nat × Nat) × ℝ))} {ii0 jj0 nr nc : Nat}
    (hr : ii0 + nr ≤ k.nrow) (hc : jj0 + nc ≤ k.ncol)
    (h : ∀ p s, Safe (fun i : Nat × Nat => (ii0 ≤ i.1 ∧ i.1 < ii0 + nr) ∧ (jj0 ≤ i.2 ∧ i.2 < jj0 + nc)) (step p s)) :
    OnlyBlock2 k (runMat k clear np s step) clear ii0 jj0 nr nc := by
  have h1 := runPoints_frame (fun i => decide (i.1 < k.nrow ∧ i.2 < k.ncol)) step
    (fun i : Nat × Nat => (ii0 ≤ i.1 ∧ i.1 < ii0 + nr) ∧ (jj0 ≤ i.2 ∧ i.2 < jj0 + nc))
    (fun p s s' l e => by have := h p s; rw [e] at this; exact this) (fun i hi => by simp only [decide_eq_true_eq]; omega)
    (fun p s e => by have := h p s; rw [e] at this; exact this) np 0 s (if clear then fun _ => 0 else k.val)
  refine ⟨h1.2, Or.inr ⟨hr, hc, rfl, rfl, fun i j hi => ?_⟩⟩
  refine (h1.1 (i, j) hi).trans ?_
  cases clear <;> rfl

theorem runMat_only_inv {σ : Type} {k : Mat} {clear : Bool} {np : Nat} {s : σ} {step : Nat → σ → Res (σ × List ((Nat × Nat) × ℝ))} {ii0 jj0 nr nc : Nat}
    (Inv : σ → Prop) (h0 : Inv s) (hr : ii0 + nr ≤ k.nrow) (hc : jj0 + nc ≤ k.ncol)
    (h : ∀ p s, Inv s → Safe (fun i : Nat × Nat => (ii0 ≤ i.1 ∧ i.1 < ii0 + nr) ∧ (jj0 ≤ i.2 ∧ i.2 < jj0 + nc)) (step p s) ∧
      ∀ s' l, step p s = .ok (s', l) → Inv s') :
    OnlyBlock2 k (runMat k clear np s step) clear ii0 jj0 nr nc := by
  have h1 := runPoints_frame_inv (fun i => decide (i.1 < k.nrow ∧ i.2 < k.ncol)) step
    (fun i : Nat × Nat => (ii0 ≤ i.1 ∧ i.1 < ii0 + nr) ∧ (jj0 ≤ i.2 ∧ i.2 < jj0 + nc)) Inv (fun p s s' l hs => (h p s hs).2 s' l)
    (fun p s s' l hs e => by have := (h p s hs).1; rw [e] at this; exact this) (fun i hi => by simp only [decide_eq_true_eq]; omega)
    (fun p s hs e => by have := (h p s hs).1; rw [e] at this; exact this) np 0 s (if clear then fun _ => 0 else k.val) h0
  refine ⟨h1.2, Or.inr ⟨hr, hc, rfl, rfl, fun i j hi => ?_⟩⟩
  refine (h1.1 (i, j) hi).trans ?_
  cases clear <;> rfl

theorem jacobian_np (hi : NoPanic inv) (pad : Scratchpad) (ξ : Nat → ℝ) : pad.calcJacobian inv ξ ≠ .panic := by
  unfold Scratchpad.calcJacobian
  split
  · simp
  dsimp only
  split
  · have := hi (pad.fillJacobian ξ).spaceNdim (pad.fillJacobian ξ).jacobian
    cases h : inv (pad.fillJacobian ξ).spaceNdim (pad.fillJacobian ξ).jacobian with
    | ok r => simp
    | err e => simp
    | panic => exact absurd h this
  split <;> simp

theorem gradient_np (hi : NoPanic inv) (pad : Scratchpad) (ξ : Nat → ℝ) : pad.calcGradient inv ξ ≠ .panic := by
  unfold Scratchpad.calcGradient
  split
  · simp
  · have := jacobian_np hi pad ξ
    cases h : pad.calcJacobian inv ξ with
    | ok r => simp
    | err e => simp
    | panic => exact absurd h this

theorem normal_np (pad : Scratchpad) (n : Nat) (ξ : Nat → ℝ) : pad.calcNormalVector n ξ ≠ .panic := by
  unfold Scratchpad.calcNormalVector
  dsimp only
  repeat' split
  all_goals simp

theorem rej1 {σ : Type} {a : Vec} {clear : Bool} {ii0 n : Nat} {e : String} : OnlyBlock1 (σ := σ) a (a, .err e) clear ii0 n := ⟨by simp, Or.inl ⟨e, rfl⟩⟩
theorem rej2 {σ : Type} {k : Mat} {clear : Bool} {ii0 jj0 nr nc : Nat} {e : String} : OnlyBlock2 (σ := σ) k (k, .err e) clear ii0 jj0 nr nc := ⟨by simp, Or.inl ⟨e, rfl⟩⟩


/-- Additions written out for each node (or pair of nodes) are in the block. -/
macro "in_block" : tactic => `(tactic|
  (dsimp only [Safe]
   simp only [List.forall_mem_flatMap, List.forall_mem_map, List.mem_range, List.forall_mem_cons, List.not_mem_nil, false_imp_iff, implies_true, and_true]
   intros
   omega))

/-- C37, `vec_01_ns`: rejected outputs are unchanged, and only the block is ever written to. -/
theorem C37_vec_01_ns_any (hi : NoPanic inv) (a : Vec) (args : CommonArgs) (hd : SpaceOk args.pad) (fn : Nat → (Nat → ℝ) → Res ℝ)
    (hf : ∀ p x, fn p x ≠ .panic) :
    OnlyBlock1 a (vec01Ns inv a args fn) args.clear args.ii0 (args.pad.kind.nnode) := by
  unfold vec01Ns
  dsimp only
  split
  · exact rej1
  refine runVec_only (by omega) fun p s => ?_
  refine Safe.bind (jacobian_np hi _ _) fun r => ?_
  refine Safe.bind (hf _ _) fun r => ?_
  in_block

/-- C37, `vec_01_ns_bry`: rejected outputs are unchanged, and only the block is ever written to. -/
theorem C37_vec_01_ns_bry_any (a : Vec) (args : CommonArgs) (hd : SpaceOk args.pad) (fn : Nat → (Nat → ℝ) → (Nat → ℝ) → Res ℝ)
    (hf : ∀ p x y, fn p x y ≠ .panic) :
    OnlyBlock1 a (vec01NsBry a args fn) args.clear args.ii0 (args.pad.kind.nnode) := by
  unfold vec01NsBry
  dsimp only
  split
  · exact rej1
  split
  · exact rej1
  split
  · exact rej1
  refine runVec_only (by omega) fun p s => ?_
  refine Safe.bind (normal_np _ _ _) fun r => ?_
  refine Safe.bind (hf _ _ _) fun r => ?_
  rcases hd with h | h
  · try simp only [h, if_true]
    in_block
  · try simp only [h, if_neg (show ¬ (3 = 2) by decide)]
    in_block

/-- C37, `vec_02_nv`: rejected outputs are unchanged, and only the block is ever written to. -/
theorem C37_vec_02_nv_any (hi : NoPanic inv) (a : Vec) (args : CommonArgs) (hd : SpaceOk args.pad) (fn : Nat → (Nat → ℝ) → Res (Nat → ℝ))
    (hf : ∀ p x, fn p x ≠ .panic) :
    OnlyBlock1 a (vec02Nv inv a args fn) args.clear args.ii0 (args.pad.kind.nnode * args.pad.spaceNdim) := by
  unfold vec02Nv
  dsimp only
  split
  · exact rej1
  refine runVec_only (by omega) fun p s => ?_
  refine Safe.bind (jacobian_np hi _ _) fun r => ?_
  refine Safe.bind (hf _ _) fun r => ?_
  rcases hd with h | h
  · try simp only [h, if_true]
    in_block
  · try simp only [h, if_neg (show ¬ (3 = 2) by decide)]
    in_block

/-- C37, `vec_02_nv_bry`: rejected outputs are unchanged, and only the block is ever written to. -/
theorem C37_vec_02_nv_bry_any (a : Vec) (args : CommonArgs) (hd : SpaceOk args.pad) (fn : Nat → (Nat → ℝ) → (Nat → ℝ) → Res (Nat → ℝ))
    (hf : ∀ p x y, fn p x y ≠ .panic) :
    OnlyBlock1 a (vec02NvBry a args fn) args.clear args.ii0 (args.pad.kind.nnode * args.pad.spaceNdim) := by
  unfold vec02NvBry
  dsimp only
  split
  · exact rej1
  split
  · exact rej1
  split
  · exact rej1
  refine runVec_only (by omega) fun p s => ?_
  refine Safe.bind (normal_np _ _ _) fun r => ?_
  refine Safe.bind (hf _ _ _) fun r => ?_
  rcases hd with h | h
  · try simp only [h, if_true]
    in_block
  · try simp only [h, if_neg (show ¬ (3 = 2) by decide)]
    in_block

/-- C37, `vec_03_bv`: rejected outputs are unchanged, and only the block is ever written to. -/
theorem C37_vec_03_bv_any (hi : NoPanic inv) (a : Vec) (args : CommonArgs) (hd : SpaceOk args.pad) (fn : Nat → (Nat → ℝ) → (Nat → Nat → ℝ) → Res (Nat → ℝ))
    (hf : ∀ p x y, fn p x y ≠ .panic) :
    OnlyBlock1 a (vec03Bv inv a args fn) args.clear args.ii0 (args.pad.kind.nnode) := by
  unfold vec03Bv
  dsimp only
  split
  · exact rej1
  refine runVec_only (by omega) fun p s => ?_
  refine Safe.bind (gradient_np hi _ _) fun r => ?_
  refine Safe.bind (hf _ _ _) fun r => ?_
  rcases hd with h | h
  · try simp only [h, if_true]
    in_block
  · try simp only [h, if_neg (show ¬ (3 = 2) by decide)]
    in_block

/-- C37, `vec_04_bt`: rejected outputs are unchanged, and only the block is ever written to. -/
theorem C37_vec_04_bt_any (hi : NoPanic inv) (a : Vec) (args : CommonArgs) (hd : SpaceOk args.pad) (fn : Nat → (Nat → ℝ) → (Nat → Nat → ℝ) → Res (Nat → ℝ))
    (hf : ∀ p x y, fn p x y ≠ .panic) :
    OnlyBlock1 a (vec04Bt inv a args fn) args.clear args.ii0 (args.pad.kind.nnode * args.pad.spaceNdim) := by
  unfold vec04Bt
  dsimp only
  split
  · exact rej1
  split
  · exact rej1
  refine runVec_only (by omega) fun p s => ?_
  refine Safe.bind (gradient_np hi _ _) fun r => ?_
  refine Safe.bind (hf _ _ _) fun r => ?_
  split
  · rename_i hax
    rename_i hax2 _
    have h2 : args.pad.spaceNdim = 2 := by simpa [hax] using hax2
    rw [h2]
    unfold addToDAxisymmetric
    in_block
  · unfold addToD
    rcases hd with h | h
    · try simp only [h, if_true]
      in_block
    · try simp only [h, if_false, if_neg (show ¬ (3 = 2) by decide)]
      in_block

/-- C37, `mat_01_nsn`: rejected outputs are unchanged, and only the block is ever written to. -/
theorem C37_mat_01_nsn_any (hi : NoPanic inv) (k : Mat) (args : CommonArgs) (hd : SpaceOk args.pad) (fn : Nat → (Nat → ℝ) → (Nat → Nat → ℝ) → Res ℝ)
    (hf : ∀ p x y, fn p x y ≠ .panic) :
    OnlyBlock2 k (mat01Nsn inv k args fn) args.clear args.ii0 args.jj0 (args.pad.kind.nnode) (args.pad.kind.nnode) := by
  unfold mat01Nsn
  dsimp only
  split
  · exact rej2
  split
  · exact rej2
  refine runMat_only (by omega) (by omega) fun p s => ?_
  refine Safe.bind (gradient_np hi _ _) fun r => ?_
  refine Safe.bind (hf _ _ _) fun r => ?_
  in_block

/-- C37, `mat_02_bvn`: rejected outputs are unchanged, and only the block is ever written to. -/
theorem C37_mat_02_bvn_any (hi : NoPanic inv) (k : Mat) (args : CommonArgs) (hd : SpaceOk args.pad) (fn : Nat → (Nat → ℝ) → (Nat → Nat → ℝ) → Res (Nat → ℝ))
    (hf : ∀ p x y, fn p x y ≠ .panic) :
    OnlyBlock2 k (mat02Bvn inv k args fn) args.clear args.ii0 args.jj0 (args.pad.kind.nnode) (args.pad.kind.nnode) := by
  unfold mat02Bvn
  dsimp only
  split
  · exact rej2
  split
  · exact rej2
  refine runMat_only (by omega) (by omega) fun p s => ?_
  refine Safe.bind (gradient_np hi _ _) fun r => ?_
  refine Safe.bind (hf _ _ _) fun r => ?_
  rcases hd with h | h
  · try simp only [h, if_true]
    in_block
  · try simp only [h, if_neg (show ¬ (3 = 2) by decide)]
    in_block

/-- C37, `mat_03_btb`: rejected outputs are unchanged, and only the block is ever written to. -/
theorem C37_mat_03_btb_any (hi : NoPanic inv) (k : Mat) (args : CommonArgs) (hd : SpaceOk args.pad) (fn : Nat → (Nat → ℝ) → (Nat → Nat → ℝ) → Res (Nat → ℝ))
    (hf : ∀ p x y, fn p x y ≠ .panic) :
    OnlyBlock2 k (mat03Btb inv k args fn) args.clear args.ii0 args.jj0 (args.pad.kind.nnode) (args.pad.kind.nnode) := by
  unfold mat03Btb
  dsimp only
  split
  · exact rej2
  split
  · exact rej2
  refine runMat_only (by omega) (by omega) fun p s => ?_
  refine Safe.bind (gradient_np hi _ _) fun r => ?_
  refine Safe.bind (hf _ _ _) fun r => ?_
  rcases hd with h | h
  · try simp only [h, if_true]
    in_block
  · try simp only [h, if_neg (show ¬ (3 = 2) by decide)]
    in_block

/-- C37, `mat_04_nsb`: rejected outputs are unchanged, and only the block is ever written to. -/
theorem C37_mat_04_nsb_any (hi : NoPanic inv) (k : Mat) (padB : Scratchpad) (args : CommonArgs) (hd : SpaceOk args.pad) (fn : Nat → (Nat → ℝ) → (Nat → ℝ) → (Nat → Nat → ℝ) → Res ℝ)
    (hf : ∀ p x y z, fn p x y z ≠ .panic) :
    OnlyBlock2 k (mat04Nsb inv k padB args fn) args.clear args.ii0 args.jj0 (padB.kind.nnode) (args.pad.kind.nnode * args.pad.spaceNdim) := by
  unfold mat04Nsb
  dsimp only
  split
  · exact rej2
  split
  · exact rej2
  refine runMat_only (by omega) (by omega) fun p s => ?_
  refine Safe.bind (gradient_np hi _ _) fun r => ?_
  refine Safe.bind (hf _ _ _ _) fun r => ?_
  rcases hd with h | h
  · try simp only [h, if_true]
    in_block
  · try simp only [h, if_neg (show ¬ (3 = 2) by decide)]
    in_block

/-- C37, `mat_05_btn`: rejected outputs are unchanged, and only the block is ever written to. -/
theorem C37_mat_05_btn_any (hi : NoPanic inv) (k : Mat) (padB : Scratchpad) (args : CommonArgs) (hd : SpaceOk args.pad) (fn : Nat → (Nat → Nat → ℝ) → (Nat → ℝ) → (Nat → Nat → ℝ) → Res (Nat → ℝ))
    (hf : ∀ p x y z, fn p x y z ≠ .panic) :
    OnlyBlock2 k (mat05Btn inv k padB args fn) args.clear args.ii0 args.jj0 (padB.kind.nnode) (args.pad.kind.nnode * args.pad.spaceNdim) := by
  unfold mat05Btn
  dsimp only
  split
  · exact rej2
  split
  · exact rej2
  refine runMat_only (by omega) (by omega) fun p s => ?_
  refine Safe.bind (gradient_np hi _ _) fun r => ?_
  refine Safe.bind (gradient_np hi _ _) fun r => ?_
  refine Safe.bind (hf _ _ _ _) fun r => ?_
  rcases hd with h | h
  · try simp only [h, if_true]
    in_block
  · try simp only [h, if_neg (show ¬ (3 = 2) by decide)]
    in_block

/-- C37, `mat_06_nvn`: rejected outputs are unchanged, and only the block is ever written to. -/
theorem C37_mat_06_nvn_any (hi : NoPanic inv) (k : Mat) (padB : Scratchpad) (args : CommonArgs) (hd : SpaceOk args.pad) (fn : Nat → (Nat → ℝ) → (Nat → Nat → ℝ) → (Nat → ℝ) → Res (Nat → ℝ))
    (hf : ∀ p x y z, fn p x y z ≠ .panic) :
    OnlyBlock2 k (mat06Nvn inv k args padB fn) args.clear args.ii0 args.jj0 (args.pad.kind.nnode * args.pad.spaceNdim) (padB.kind.nnode) := by
  unfold mat06Nvn
  dsimp only
  split
  · exact rej2
  split
  · exact rej2
  refine runMat_only (by omega) (by omega) fun p s => ?_
  refine Safe.bind (gradient_np hi _ _) fun r => ?_
  refine Safe.bind (hf _ _ _ _) fun r => ?_
  rcases hd with h | h
  · try simp only [h, if_true]
    in_block
  · try simp only [h, if_neg (show ¬ (3 = 2) by decide)]
    in_block

/-- C37, `mat_07_bsn`: rejected outputs are unchanged, and only the block is ever written to. -/
theorem C37_mat_07_bsn_any (hi : NoPanic inv) (k : Mat) (padB : Scratchpad) (args : CommonArgs) (hd : SpaceOk args.pad) (fn : Nat → (Nat → ℝ) → (Nat → Nat → ℝ) → (Nat → ℝ) → Res ℝ)
    (hf : ∀ p x y z, fn p x y z ≠ .panic) :
    OnlyBlock2 k (mat07Bsn inv k args padB fn) args.clear args.ii0 args.jj0 (args.pad.kind.nnode * args.pad.spaceNdim) (padB.kind.nnode) := by
  unfold mat07Bsn
  dsimp only
  split
  · exact rej2
  split
  · exact rej2
  refine runMat_only (by omega) (by omega) fun p s => ?_
  refine Safe.bind (gradient_np hi _ _) fun r => ?_
  refine Safe.bind (hf _ _ _ _) fun r => ?_
  rcases hd with h | h
  · try simp only [h, if_true]
    in_block
  · try simp only [h, if_neg (show ¬ (3 = 2) by decide)]
    in_block

/-- C37, `mat_08_ntn`: rejected outputs are unchanged, and only the block is ever written to. -/
theorem C37_mat_08_ntn_any (hi : NoPanic inv) (k : Mat) (args : CommonArgs) (hd : SpaceOk args.pad) (fn : Nat → (Nat → ℝ) → (Nat → Nat → ℝ) → Res (Nat → ℝ))
    (hf : ∀ p x y, fn p x y ≠ .panic) :
    OnlyBlock2 k (mat08Ntn inv k args fn) args.clear args.ii0 args.jj0 (args.pad.kind.nnode * args.pad.spaceNdim) (args.pad.kind.nnode * args.pad.spaceNdim) := by
  unfold mat08Ntn
  dsimp only
  split
  · exact rej2
  split
  · exact rej2
  refine runMat_only (by omega) (by omega) fun p s => ?_
  refine Safe.bind (gradient_np hi _ _) fun r => ?_
  refine Safe.bind (hf _ _ _) fun r => ?_
  rcases hd with h | h
  · try simp only [h, if_true]
    in_block
  · try simp only [h, if_neg (show ¬ (3 = 2) by decide)]
    in_block

/-- C37, `mat_09_nvb`: rejected outputs are unchanged, and only the block is ever written to. -/
theorem C37_mat_09_nvb_any (hi : NoPanic inv) (k : Mat) (args : CommonArgs) (hd : SpaceOk args.pad) (fn : Nat → (Nat → ℝ) → (Nat → Nat → ℝ) → Res (Nat → ℝ))
    (hf : ∀ p x y, fn p x y ≠ .panic) :
    OnlyBlock2 k (mat09Nvb inv k args fn) args.clear args.ii0 args.jj0 (args.pad.kind.nnode * args.pad.spaceNdim) (args.pad.kind.nnode * args.pad.spaceNdim) := by
  unfold mat09Nvb
  dsimp only
  split
  · exact rej2
  split
  · exact rej2
  refine runMat_only (by omega) (by omega) fun p s => ?_
  refine Safe.bind (gradient_np hi _ _) fun r => ?_
  refine Safe.bind (hf _ _ _) fun r => ?_
  rcases hd with h | h
  · try simp only [h, if_true]
    in_block
  · try simp only [h, if_neg (show ¬ (3 = 2) by decide)]
    in_block

/-- C37, `mat_10_bdb`: rejected outputs are unchanged, and only the block is ever written to. -/
theorem C37_mat_10_bdb_any (hi : NoPanic inv) (k : Mat) (args : CommonArgs) (hd : SpaceOk args.pad) (fn : Nat → (Nat → ℝ) → (Nat → Nat → ℝ) → Res (Nat → Nat → ℝ))
    (hf : ∀ p x y, fn p x y ≠ .panic) :
    OnlyBlock2 k (mat10Bdb inv k args fn) args.clear args.ii0 args.jj0 (args.pad.kind.nnode * args.pad.spaceNdim) (args.pad.kind.nnode * args.pad.spaceNdim) := by
  unfold mat10Bdb
  dsimp only
  split
  · exact rej2
  split
  · exact rej2
  split
  · exact rej2
  refine runMat_only (by omega) (by omega) fun p s => ?_
  refine Safe.bind (gradient_np hi _ _) fun r => ?_
  refine Safe.bind (hf _ _ _) fun r => ?_
  split
  · rename_i hax
    rename_i hax2 _
    have h2 : args.pad.spaceNdim = 2 := by simpa [hax] using hax2
    rw [h2]
    unfold addToKkAxisymmetric
    in_block
  · unfold addToKk
    rcases hd with h | h
    · try simp only [h, if_true]
      in_block
    · try simp only [h, if_false, if_neg (show ¬ (3 = 2) by decide)]
      in_block

/-- C37, `mat_01_nsn_bry`: the same; in particular the `unwrap` of the normal vector never panics. -/
theorem C37_mat_01_nsn_bry_any (k : Mat) (args : CommonArgs) (hd : SpaceOk args.pad) (fn : Nat → (Nat → ℝ) → (Nat → ℝ) → Res ℝ)
    (hf : ∀ p x y, fn p x y ≠ .panic) :
    OnlyBlock2 k (mat01NsnBry k args fn) args.clear args.ii0 args.jj0 args.pad.kind.nnode args.pad.kind.nnode := by
  unfold mat01NsnBry
  dsimp only
  split
  · exact rej2
  split
  · exact rej2
  split
  · exact rej2
  split
  · exact rej2
  rename_i c1 c2 _ _
  have hn : ∀ (s : Scratchpad) ξ, SameGeo s args.pad → ∃ r, (s.calcInterp ξ).calcNormalVector args.pad.spaceNdim ξ = .ok r ∧ SameGeo r.2.2 args.pad := by
    intro s ξ hs
    have h2 : (s.calcInterp ξ).spaceNdim = args.pad.spaceNdim := hs.2.1
    have h1 : (s.calcInterp ξ).kind = args.pad.kind := hs.1
    unfold Scratchpad.calcNormalVector
    rw [h1, h2, if_neg c1, if_neg c2, if_neg (by simp)]
    dsimp only
    split <;> exact ⟨_, rfl, hs⟩
  refine runMat_only_inv (fun s => SameGeo s args.pad) (SameGeo.refl _) (by omega) (by omega) fun p s hs => ?_
  obtain ⟨r, hr, hg⟩ := hn s (args.gauss.coords p) hs
  rw [hr]
  dsimp only
  rw [Res.bind_ok]
  have := hf p r.2.1 r.2.2.interp
  cases hc : fn p r.2.1 r.2.2.interp with
  | panic => exact absurd hc this
  | err e => exact ⟨trivial, fun _ _ h => by simp [hc] at h⟩
  | ok v =>
    refine ⟨?_, fun s' l h => ?_⟩
    · simp only [hc, Res.bind_ok]
      in_block
    · simp only [hc, Res.bind_ok, Res.ok.injEq, Prod.mk.injEq] at h
      rw [← h.1]
      exact hg

/-- C37, `mat_10_bdb_alt`: the matrix must have exactly the size of the element. If it is too small it is rejected, and if it is larger (or if
there is an offset) the routine panics as soon as one integration point is evaluated. -/
theorem C37_mat_10_bdb_alt_size (kk : Mat) (args : CommonArgs) (fnD : Nat → (Nat → ℝ) → (Nat → Nat → ℝ) → Res (Nat → Nat → ℝ)) (dd : Nat → Nat → ℝ)
    (hp : 0 < args.gauss.npoint) (hax : args.axisymmetric = true → args.pad.spaceNdim = 2)
    (hg : ∃ r, (args.pad.calcInterp (args.gauss.coords 0)).calcGradient inv (args.gauss.coords 0) = .ok r) (hD : ∀ n b, fnD 0 n b = .ok dd)
    (hsize : ¬ (kk.nrow = args.pad.kind.nnode * args.pad.spaceNdim ∧ kk.ncol = args.pad.kind.nnode * args.pad.spaceNdim)) :
    (mat10BdbAlt inv kk args fnD).2 = .panic ∨ ∃ e, mat10BdbAlt inv kk args fnD = (kk, .err e) := by
  unfold mat10BdbAlt
  dsimp only
  split
  · exact Or.inr ⟨_, rfl⟩
  split
  · exact Or.inr ⟨_, rfl⟩
  rw [if_neg (by cases h : args.axisymmetric <;> simp [hax, h])]
  left
  obtain ⟨n, hn⟩ : ∃ n, args.gauss.npoint = n + 1 := ⟨args.gauss.npoint - 1, by omega⟩
  obtain ⟨r, hr⟩ := hg
  unfold runMat
  dsimp only
  rw [hn, runPoints, hr]
  simp only [Res.bind_ok, hD]
  unfold addToStiffMat
  rw [if_neg hsize]
  rfl

/-! ## The hypotheses can be met -/

/-- Every kind of element that fills the space has a regular pad, whatever the integration rule. -/
theorem regular_exists (kd : GeoKind) (g : Gauss) :
    ∃ B, GradRegular exactInverse (Scratchpad.referencePad kd) g B ∧ JacRegular exactInverse (Scratchpad.referencePad kd) g := by
  have h : ∀ p, ∃ r, (Scratchpad.referencePad kd).calcGradient exactInverse (g.coords p) = .ok r := fun p => by
    obtain ⟨⟨d, pad', h⟩, _⟩ := Scratchpad.exists_gradient kd (g.coords p) (fun _ => 0)
    exact ⟨_, h⟩
  choose r hr using h
  refine ⟨fun p => (r p).2.gradient, fun p _ => ⟨⟨_, hr p⟩, gradient_exists exactInverse_spec (hr p)⟩, fun p _ => ?_⟩
  have := hr p
  unfold Scratchpad.calcGradient at this
  split at this
  · cases this
  · obtain ⟨r, hr, _⟩ := Res.bind_eq_ok.1 this
    exact ⟨r, hr⟩

/-- The stiffness of the reference quadrilateral: all hypotheses of `C37_mat_10_bdb` are met, in the axisymmetric case too, with
one integration point at `(1/2, 0)` (where the radius is `1/2`). -/
example : ∃ (args : CommonArgs) (B : Nat → Nat → Nat → ℝ) (kk : Mat), args.axisymmetric = true ∧ args.gauss.npoint = 1 ∧ SpaceOk args.pad ∧
    (args.axisymmetric = true → args.pad.spaceNdim = 2 ∧ ∀ p < args.gauss.npoint, radiusAt args p ≠ 0) ∧
    args.ii0 + args.pad.kind.nnode * args.pad.spaceNdim ≤ kk.nrow ∧ args.jj0 + args.pad.kind.nnode * args.pad.spaceNdim ≤ kk.ncol ∧
    GradRegular exactInverse args.pad args.gauss B := by
  let g : Gauss := { npoint := 1, data := fun _ i => if i = 0 then 1 / 2 else if i = 3 then 4 else 0 }
  obtain ⟨B, hB, _⟩ := regular_exists .qua4 g
  refine ⟨{ pad := Scratchpad.referencePad .qua4, gauss := g, clear := true, axisymmetric := true, alpha := 1, ii0 := 1, jj0 := 2 }, B,
    { nrow := 9, ncol := 10, val := fun _ => 5 }, rfl, rfl, Or.inl rfl, fun _ => ⟨rfl, fun p _ => ?_⟩, by decide, by decide, hB⟩
  have hX : ∀ m < GeoKind.nnode .qua4, ∀ i, (Scratchpad.referencePad .qua4).X m i = 0 + ∑ j ∈ Finset.range (GeoKind.ndim .qua4),
      (if i = j then (1 : ℝ) else 0) * Shapes.refCoord .qua4 m j := by
    intro m _ i
    simp [Scratchpad.X, Scratchpad.referencePad]
  have := Shapes.C28_calc_coords_affine .qua4 (Scratchpad.referencePad .qua4).X (fun _ => 0) (fun i j => if i = j then 1 else 0) hX (g.coords p) 0
  have h2 : radiusAt { pad := Scratchpad.referencePad .qua4, gauss := g, clear := true, axisymmetric := true, alpha := 1, ii0 := 1, jj0 := 2 } p =
      Gemlab.Shapes.calcCoords .qua4 (Scratchpad.referencePad .qua4).X (g.coords p) 0 := by
    unfold radiusAt Gemlab.Shapes.calcCoords
    refine Finset.sum_congr rfl fun m _ => ?_
    rw [mul_comm]
    rfl
  rw [h2, this]
  norm_num [g, Gauss.coords, GeoKind.ndim, Finset.sum_range_succ]

end
end Gemlab.Props.Integ
