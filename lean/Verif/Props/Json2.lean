import Verif.Spec.Json2
import Verif.Props.Json

/-!
# C80: JSON files of the data of blocks
-/
namespace Gemlab.MeshJson
open Gemlab Gemlab.Structured
open Gemlab.MeshText (Text showNat showInt parseUsize parseI32 InI32)

variable (F : JsonFloat ℝ)

theorem decOption_iff {α : Type} {d : Json → Option α} {R : Json → α → Prop} (h : ∀ v x, d v = some x ↔ R v x) (v : Json) (o : Option α) :
    decOption d v = some o ↔ IsOption R v o := by
  unfold decOption IsOption
  split
  · cases o <;> simp
  · rename_i hv
    cases o with
    | none => simp [show v ≠ .null from fun e => hv e]
    | some x => simp [← h, show v ≠ .null from fun e => hv e]

theorem decPair_iff (v : Json) (x : ℝ × ℝ) : decPair F v = some x ↔ IsPair F v x := by
  unfold decPair IsPair
  constructor
  · intro h
    split at h
    · simp only [Option.bind_eq_bind, Option.bind_eq_some_iff, Option.some.injEq] at h
      obtain ⟨a, h1, b, h2, rfl⟩ := h
      exact ⟨_, _, rfl, (decFloat_iff _ _ _).1 h1, (decFloat_iff _ _ _).1 h2⟩
    · simp at h
  · rintro ⟨a, b, rfl, h1, h2⟩
    simp only
    rw [(decFloat_iff _ _ _).2 h1, (decFloat_iff _ _ _).2 h2]
    rfl

theorem decTriple_iff (v : Json) (x : ℝ × ℝ × ℝ) : decTriple F v = some x ↔ IsTriple F v x := by
  unfold decTriple IsTriple
  constructor
  · intro h
    split at h
    · simp only [Option.bind_eq_bind, Option.bind_eq_some_iff, Option.some.injEq] at h
      obtain ⟨a, h1, b, h2, c, h3, rfl⟩ := h
      exact ⟨_, _, _, rfl, (decFloat_iff _ _ _).1 h1, (decFloat_iff _ _ _).1 h2, (decFloat_iff _ _ _).1 h3⟩
    · simp at h
  · rintro ⟨a, b, c, rfl, h1, h2, h3⟩
    simp only
    rw [(decFloat_iff _ _ _).2 h1, (decFloat_iff _ _ _).2 h2, (decFloat_iff _ _ _).2 h3]
    rfl

theorem decWeights2_iff (v : Json) (x : List ℝ × List ℝ) : decWeights2 F v = some x ↔ IsWeights2 F v x := by
  unfold decWeights2 IsWeights2
  constructor
  · intro h
    split at h
    · simp only [Option.bind_eq_bind, Option.bind_eq_some_iff, Option.some.injEq] at h
      obtain ⟨a, h1, b, h2, rfl⟩ := h
      exact ⟨_, _, rfl, (decVec_iff (decFloat_iff F) _ _).1 h1, (decVec_iff (decFloat_iff F) _ _).1 h2⟩
    · simp at h
  · rintro ⟨a, b, rfl, h1, h2⟩
    simp only
    rw [(decVec_iff (decFloat_iff F) _ _).2 h1, (decVec_iff (decFloat_iff F) _ _).2 h2]
    rfl

theorem decWeights3_iff (v : Json) (x : List ℝ × List ℝ × List ℝ) : decWeights3 F v = some x ↔ IsWeights3 F v x := by
  unfold decWeights3 IsWeights3
  constructor
  · intro h
    split at h
    · simp only [Option.bind_eq_bind, Option.bind_eq_some_iff, Option.some.injEq] at h
      obtain ⟨a, h1, b, h2, c, h3, rfl⟩ := h
      exact ⟨_, _, _, rfl, (decVec_iff (decFloat_iff F) _ _).1 h1, (decVec_iff (decFloat_iff F) _ _).1 h2,
        (decVec_iff (decFloat_iff F) _ _).1 h3⟩
    · simp at h
  · rintro ⟨a, b, c, rfl, h1, h2, h3⟩
    simp only
    rw [(decVec_iff (decFloat_iff F) _ _).2 h1, (decVec_iff (decFloat_iff F) _ _).2 h2, (decVec_iff (decFloat_iff F) _ _).2 h3]
    rfl

theorem decRegion3_iff (v : Json) (x : Int × Nat × Nat × Nat × Nat × Nat × Nat × Nat × Nat) : decRegion3 v = some x ↔ IsRegion3 v x := by
  unfold decRegion3 IsRegion3
  constructor
  · intro h
    split at h
    · simp only [Option.bind_eq_bind, Option.bind_eq_some_iff, Option.some.injEq] at h
      obtain ⟨_, h1, _, h2, _, h3, _, h4, _, h5, _, h6, _, h7, _, h8, _, h9, rfl⟩ := h
      exact ⟨_, _, _, _, _, _, _, _, _, rfl, (decInt_iff _ _).1 h1, (decNat_iff _ _).1 h2, (decNat_iff _ _).1 h3, (decNat_iff _ _).1 h4,
        (decNat_iff _ _).1 h5, (decNat_iff _ _).1 h6, (decNat_iff _ _).1 h7, (decNat_iff _ _).1 h8, (decNat_iff _ _).1 h9⟩
    · simp at h
  · rintro ⟨_, _, _, _, _, _, _, _, _, rfl, h1, h2, h3, h4, h5, h6, h7, h8, h9⟩
    simp only
    rw [(decInt_iff _ _).2 h1, (decNat_iff _ _).2 h2, (decNat_iff _ _).2 h3, (decNat_iff _ _).2 h4, (decNat_iff _ _).2 h5,
      (decNat_iff _ _).2 h6, (decNat_iff _ _).2 h7, (decNat_iff _ _).2 h8, (decNat_iff _ _).2 h9]
    rfl

theorem decConstraint2_iff (v : Json) (c : Constraint2d) : decConstraint2 F v = some c ↔ IsConstraint2 F v c := by
  cases c with
  | circle a b c =>
    unfold decConstraint2 IsConstraint2
    constructor
    · intro h
      split at h
      · split_ifs at h with hn
        rw [Option.map_eq_some_iff] at h
        obtain ⟨x, hx, e⟩ := h
        simp only [Constraint2d.circle.injEq] at e
        obtain ⟨rfl, rfl, rfl⟩ := e
        exact ⟨_, by rw [hn], (decTriple_iff F _ _).1 hx⟩
      · simp at h
    · rintro ⟨w, rfl, h⟩
      simp only
      rw [if_pos trivial, (decTriple_iff F _ _).2 h]
      rfl

theorem decConstraint3_iff (v : Json) (c : Constraint3d) : decConstraint3 F v = some c ↔ IsConstraint3 F v c := by
  constructor
  · intro h
    unfold decConstraint3 at h
    split at h
    · split_ifs at h with h1 h2 h3
      all_goals
        rw [Option.map_eq_some_iff] at h
        obtain ⟨x, hx, rfl⟩ := h
        rw [decTriple_iff] at hx
      · exact ⟨_, by rw [h1], hx⟩
      · exact ⟨_, by rw [h2], hx⟩
      · exact ⟨_, by rw [h3], hx⟩
    · simp at h
  · intro h
    cases c with
    | cylinderX a b c =>
      obtain ⟨w, rfl, h⟩ := h
      unfold decConstraint3
      simp only
      rw [if_pos trivial, (decTriple_iff F _ _).2 h]
      rfl
    | cylinderY a b c =>
      obtain ⟨w, rfl, h⟩ := h
      unfold decConstraint3
      simp only
      rw [if_neg (by decide), if_pos trivial, (decTriple_iff F _ _).2 h]
      rfl
    | cylinderZ a b c =>
      obtain ⟨w, rfl, h⟩ := h
      unfold decConstraint3
      simp only
      rw [if_neg (by decide), if_neg (by decide), if_pos trivial, (decTriple_iff F _ _).2 h]
      rfl

theorem decSide2_iff (v : Json) (x : Nat × Constraint2d) : decSide2 F v = some x ↔ IsSide2 F v x := by
  unfold decSide2 IsSide2
  constructor
  · intro h
    split at h
    · simp only [Option.bind_eq_bind, Option.bind_eq_some_iff, Option.some.injEq] at h
      obtain ⟨a, h1, b, h2, rfl⟩ := h
      exact ⟨_, _, rfl, (decNat_iff _ _).1 h1, (decConstraint2_iff _ _ _).1 h2⟩
    · simp at h
  · rintro ⟨a, b, rfl, h1, h2⟩
    simp only
    rw [(decNat_iff _ _).2 h1, (decConstraint2_iff _ _ _).2 h2]
    rfl

theorem decSide3_iff (v : Json) (x : Nat × Constraint3d) : decSide3 F v = some x ↔ IsSide3 F v x := by
  unfold decSide3 IsSide3
  constructor
  · intro h
    split at h
    · simp only [Option.bind_eq_bind, Option.bind_eq_some_iff, Option.some.injEq] at h
      obtain ⟨a, h1, b, h2, rfl⟩ := h
      exact ⟨_, _, rfl, (decNat_iff _ _).1 h1, (decConstraint3_iff _ _ _).1 h2⟩
    · simp at h
  · rintro ⟨a, b, rfl, h1, h2⟩
    simp only
    rw [(decNat_iff _ _).2 h1, (decConstraint3_iff _ _ _).2 h2]
    rfl

theorem decBlocks2d_iff (v : Json) (b : Blocks2d) : decBlocks2d F v = some b ↔ IsBlocks2d F v b := by
  have hf := fun vs => fields_iff ["points", "regions", "div_weights", "edge_constraints", "marked_edges"] v vs
  unfold decBlocks2d IsBlocks2d
  constructor
  · intro h
    split at h
    · rename_i n p c e f hx
      simp only [Option.bind_eq_bind, Option.bind_eq_some_iff, Option.some.injEq] at h
      obtain ⟨_, h1, _, h2, _, h3, _, h4, _, h5, rfl⟩ := h
      exact ⟨n, p, c, e, f, (hf _).1 hx, (decVec_iff (decPair_iff F) _ _).1 h1, (decVec_iff decFace_iff _ _).1 h2,
        (decVec_iff (decWeights2_iff F) _ _).1 h3, (decVec_iff (decOption_iff (decSide2_iff F)) _ _).1 h4, (decVec_iff decEdge_iff _ _).1 h5⟩
    · simp at h
  · rintro ⟨n, p, c, e, f, h, h1, h2, h3, h4, h5⟩
    have he : fields blocks2dNames v = some [n, p, c, e, f] := (hf _).2 h
    simp only [he]
    rw [(decVec_iff (decPair_iff F) _ _).2 h1, (decVec_iff decFace_iff _ _).2 h2, (decVec_iff (decWeights2_iff F) _ _).2 h3,
      (decVec_iff (decOption_iff (decSide2_iff F)) _ _).2 h4, (decVec_iff decEdge_iff _ _).2 h5]
    rfl

theorem decBlocks3d_iff (v : Json) (b : Blocks3d) : decBlocks3d F v = some b ↔ IsBlocks3d F v b := by
  have hf := fun vs => fields_iff ["points", "regions", "div_weights", "face_constraints", "marked_edges", "marked_faces"] v vs
  unfold decBlocks3d IsBlocks3d
  constructor
  · intro h
    split at h
    · rename_i n p c e f g hx
      simp only [Option.bind_eq_bind, Option.bind_eq_some_iff, Option.some.injEq] at h
      obtain ⟨_, h1, _, h2, _, h3, _, h4, _, h5, _, h6, rfl⟩ := h
      exact ⟨n, p, c, e, f, g, (hf _).1 hx, (decVec_iff (decTriple_iff F) _ _).1 h1, (decVec_iff decRegion3_iff _ _).1 h2,
        (decVec_iff (decWeights3_iff F) _ _).1 h3, (decVec_iff (decOption_iff (decSide3_iff F)) _ _).1 h4, (decVec_iff decEdge_iff _ _).1 h5,
        (decVec_iff decFace_iff _ _).1 h6⟩
    · simp at h
  · rintro ⟨n, p, c, e, f, g, h, h1, h2, h3, h4, h5, h6⟩
    have he : fields blocks3dNames v = some [n, p, c, e, f, g] := (hf _).2 h
    simp only [he]
    rw [(decVec_iff (decTriple_iff F) _ _).2 h1, (decVec_iff decRegion3_iff _ _).2 h2, (decVec_iff (decWeights3_iff F) _ _).2 h3,
      (decVec_iff (decOption_iff (decSide3_iff F)) _ _).2 h4, (decVec_iff decEdge_iff _ _).2 h5, (decVec_iff decFace_iff _ _).2 h6]
    rfl

/-- **C80 (reading blocks, 2D).** Reading a file returns data of blocks exactly when the file is a JSON document for them; otherwise it
fails with the same message. -/
theorem C80_read_blocks2d (t : Text) : (∀ b, readBlocks2d F t = .ok b ↔ ∃ v, Denotes t v ∧ IsBlocks2d F v b) ∧
    ((∀ v b, Denotes t v → ¬ IsBlocks2d F v b) → readBlocks2d F t = .err "cannot parse JSON file") := by
  have key : ∀ b, (parse t).bind (decBlocks2d F) = some b ↔ ∃ v, Denotes t v ∧ IsBlocks2d F v b := by
    intro b
    rw [Option.bind_eq_some_iff]
    constructor
    · rintro ⟨v, h1, h2⟩
      exact ⟨v, (parse_iff _ _).1 h1, (decBlocks2d_iff _ _ _).1 h2⟩
    · rintro ⟨v, h1, h2⟩
      exact ⟨v, (parse_iff _ _).2 h1, (decBlocks2d_iff _ _ _).2 h2⟩
  unfold readBlocks2d
  constructor
  · intro b
    rw [← key]
    cases (parse t).bind (decBlocks2d F) <;> simp
  · intro h
    cases hp : (parse t).bind (decBlocks2d F) with
    | none => rfl
    | some b =>
      obtain ⟨v, h1, h2⟩ := (key b).1 hp
      exact absurd h2 (h v b h1)

/-- **C80 (reading blocks, 3D).** -/
theorem C80_read_blocks3d (t : Text) : (∀ b, readBlocks3d F t = .ok b ↔ ∃ v, Denotes t v ∧ IsBlocks3d F v b) ∧
    ((∀ v b, Denotes t v → ¬ IsBlocks3d F v b) → readBlocks3d F t = .err "cannot parse JSON file") := by
  have key : ∀ b, (parse t).bind (decBlocks3d F) = some b ↔ ∃ v, Denotes t v ∧ IsBlocks3d F v b := by
    intro b
    rw [Option.bind_eq_some_iff]
    constructor
    · rintro ⟨v, h1, h2⟩
      exact ⟨v, (parse_iff _ _).1 h1, (decBlocks3d_iff _ _ _).1 h2⟩
    · rintro ⟨v, h1, h2⟩
      exact ⟨v, (parse_iff _ _).2 h1, (decBlocks3d_iff _ _ _).2 h2⟩
  unfold readBlocks3d
  constructor
  · intro b
    rw [← key]
    cases (parse t).bind (decBlocks3d F) <;> simp
  · intro h
    cases hp : (parse t).bind (decBlocks3d F) with
    | none => rfl
    | some b =>
      obtain ⟨v, h1, h2⟩ := (key b).1 hp
      exact absurd h2 (h v b h1)

/-! ## Writing -/

/-- The text is the document of a value that stands for `x`. -/
def Writes {α : Type} (R : Json → α → Prop) (t : Text) (x : α) : Prop := ∃ v, Denotes t v ∧ R v x

theorem writes_list {α : Type} {R : Json → α → Prop} {j : α → Text} (l : List α) (h : ∀ x ∈ l, Writes R (j x) x) :
    Writes (IsList R) (jArr (l.map j)) l := by
  haveI : Nonempty Json := ⟨.null⟩
  choose! v hv using h
  exact ⟨_, denotes_arr_map (v := v) l fun x hx => (hv x hx).1, isList_val' l fun x hx => (hv x hx).2⟩

theorem writes_nat {n : Nat} (h : n < 2 ^ 64) : Writes IsNat (jNat n) n := ⟨_, denotes_nat n, isNat_val h⟩

theorem writes_int {n : Int} (h : InI32 n) : Writes IsInt (jInt n) n := ⟨_, denotes_int n, isInt_val h⟩

variable {F}

theorem writes_float (hF : Proper F) {x : ℝ} (h : Reread F x x) : Writes (IsFloat F) (jFloat F x) x := by
  obtain ⟨t, h1, h2⟩ := h
  exact ⟨_, denotes_float hF x, t, by rw [valFloat, h1], h2⟩

theorem writes_edge {e : Int × Nat × Nat} (h : InI32 e.1 ∧ e.2.1 < 2 ^ 64 ∧ e.2.2 < 2 ^ 64) : Writes IsEdge (jEdge e) e :=
  ⟨_, denotes_edge e, _, _, _, rfl, isInt_val h.1, isNat_val h.2.1, isNat_val h.2.2⟩

theorem writes_face {f : Int × Nat × Nat × Nat × Nat}
    (h : InI32 f.1 ∧ f.2.1 < 2 ^ 64 ∧ f.2.2.1 < 2 ^ 64 ∧ f.2.2.2.1 < 2 ^ 64 ∧ f.2.2.2.2 < 2 ^ 64) : Writes IsFace (jFace f) f :=
  ⟨_, denotes_face f, _, _, _, _, _, rfl, isInt_val h.1, isNat_val h.2.1, isNat_val h.2.2.1, isNat_val h.2.2.2.1, isNat_val h.2.2.2.2⟩

theorem writes_triple (hF : Proper F) {a b c : ℝ} (ha : Reread F a a) (hb : Reread F b b) (hc : Reread F c c) :
    Writes (IsTriple F) (jArr [jFloat F a, jFloat F b, jFloat F c]) (a, b, c) := by
  obtain ⟨u, u1, u2⟩ := writes_float hF ha
  obtain ⟨v, v1, v2⟩ := writes_float hF hb
  obtain ⟨w, w1, w2⟩ := writes_float hF hc
  exact ⟨_, denotes_arr (.cons u1 (.cons v1 (.cons w1 .nil))), _, _, _, rfl, u2, v2, w2⟩

theorem writes_constraint2 (hF : Proper F) {c : Constraint2d} (h : ∀ x ∈ Constraint2d.numbers c, Reread F x x) :
    Writes (IsConstraint2 F) (jConstraint2 F c) c := by
  cases c with
  | circle a b c =>
    obtain ⟨v, v1, v2⟩ := writes_triple hF (h a (by simp [Constraint2d.numbers])) (h b (by simp [Constraint2d.numbers]))
      (h c (by simp [Constraint2d.numbers]))
    exact ⟨_, denotes_obj (.cons ⟨by dsimp only; decide, rfl, v1⟩ .nil), _, rfl, v2⟩

theorem writes_constraint3 (hF : Proper F) {c : Constraint3d} (h : ∀ x ∈ Constraint3d.numbers c, Reread F x x) :
    Writes (IsConstraint3 F) (jConstraint3 F c) c := by
  cases c with
  | cylinderX a b c =>
    obtain ⟨v, v1, v2⟩ := writes_triple hF (h a (by simp [Constraint3d.numbers])) (h b (by simp [Constraint3d.numbers]))
      (h c (by simp [Constraint3d.numbers]))
    exact ⟨_, denotes_obj (.cons ⟨by dsimp only; decide, rfl, v1⟩ .nil), _, rfl, v2⟩
  | cylinderY a b c =>
    obtain ⟨v, v1, v2⟩ := writes_triple hF (h a (by simp [Constraint3d.numbers])) (h b (by simp [Constraint3d.numbers]))
      (h c (by simp [Constraint3d.numbers]))
    exact ⟨_, denotes_obj (.cons ⟨by dsimp only; decide, rfl, v1⟩ .nil), _, rfl, v2⟩
  | cylinderZ a b c =>
    obtain ⟨v, v1, v2⟩ := writes_triple hF (h a (by simp [Constraint3d.numbers])) (h b (by simp [Constraint3d.numbers]))
      (h c (by simp [Constraint3d.numbers]))
    exact ⟨_, denotes_obj (.cons ⟨by dsimp only; decide, rfl, v1⟩ .nil), _, rfl, v2⟩

theorem writes_side2 (hF : Proper F) (o : Option (Nat × Constraint2d))
    (h : ∀ i c, some (i, c) = o → i < 2 ^ 64 ∧ ∀ x ∈ Constraint2d.numbers c, Reread F x x) : Writes (IsOption (IsSide2 F)) (jSide2 F o) o := by
  cases o with
  | none => exact ⟨_, denotes_null, rfl⟩
  | some x =>
    obtain ⟨i, c⟩ := x
    obtain ⟨h1, h2⟩ := h i c rfl
    obtain ⟨u, u1, u2⟩ := writes_nat h1
    obtain ⟨v, v1, v2⟩ := writes_constraint2 hF h2
    exact ⟨_, denotes_arr (.cons u1 (.cons v1 .nil)), by simp, _, _, rfl, u2, v2⟩

theorem writes_side3 (hF : Proper F) (o : Option (Nat × Constraint3d))
    (h : ∀ i c, some (i, c) = o → i < 2 ^ 64 ∧ ∀ x ∈ Constraint3d.numbers c, Reread F x x) : Writes (IsOption (IsSide3 F)) (jSide3 F o) o := by
  cases o with
  | none => exact ⟨_, denotes_null, rfl⟩
  | some x =>
    obtain ⟨i, c⟩ := x
    obtain ⟨h1, h2⟩ := h i c rfl
    obtain ⟨u, u1, u2⟩ := writes_nat h1
    obtain ⟨v, v1, v2⟩ := writes_constraint3 hF h2
    exact ⟨_, denotes_arr (.cons u1 (.cons v1 .nil)), by simp, _, _, rfl, u2, v2⟩

/-- **C80 (blocks, 2D).** The data of blocks written to a file are read again: points, regions, weights, circles and marked edges. -/
theorem C80_blocks2d (hF : Proper F) {b : Blocks2d} (h : Exact2d F b) : readBlocks2d F (writeBlocks2d F b) = .ok b := by
  rw [(C80_read_blocks2d F _).1]
  obtain ⟨p, p1, p2⟩ := writes_list (R := IsPair F) (j := fun p => jArr [jFloat F p.1, jFloat F p.2]) b.points fun x hx => by
    obtain ⟨u, u1, u2⟩ := writes_float hF (h.points x hx).1
    obtain ⟨v, v1, v2⟩ := writes_float hF (h.points x hx).2
    exact ⟨_, denotes_arr (.cons u1 (.cons v1 .nil)), _, _, rfl, u2, v2⟩
  obtain ⟨r, r1, r2⟩ := writes_list b.regions fun x hx => writes_face (h.regions x hx)
  obtain ⟨w, w1, w2⟩ := writes_list (R := IsWeights2 F) (j := fun w => jArr [jArr (w.1.map (jFloat F)), jArr (w.2.map (jFloat F))]) b.divWeights
    fun x hx => by
    obtain ⟨u, u1, u2⟩ := writes_list x.1 fun y hy => writes_float hF ((h.weights x hx).1 y hy)
    obtain ⟨v, v1, v2⟩ := writes_list x.2 fun y hy => writes_float hF ((h.weights x hx).2 y hy)
    exact ⟨_, denotes_arr (.cons u1 (.cons v1 .nil)), _, _, rfl, u2, v2⟩
  obtain ⟨c, c1, c2⟩ := writes_list b.edgeConstraints fun x hx => writes_side2 hF x fun i c hic => h.constraints i c (hic ▸ hx)
  obtain ⟨e, e1, e2⟩ := writes_list b.markedEdges fun x hx => writes_edge (h.edges x hx)
  exact ⟨.obj [("points".toList, p), ("regions".toList, r), ("div_weights".toList, w), ("edge_constraints".toList, c),
    ("marked_edges".toList, e)], denotes_obj (.cons ⟨by dsimp only; decide, rfl, p1⟩ (.cons ⟨by dsimp only; decide, rfl, r1⟩
    (.cons ⟨by dsimp only; decide, rfl, w1⟩ (.cons ⟨by dsimp only; decide, rfl, c1⟩ (.cons ⟨by dsimp only; decide, rfl, e1⟩ .nil))))),
    _, _, _, _, _, Or.inl ⟨_, rfl, .cons rfl (.cons rfl (.cons rfl (.cons rfl (.cons rfl .nil))))⟩, p2, r2, w2, c2, e2⟩

/-- **C80 (blocks, 3D).** The same for three dimensions: points, regions, weights, cylinders, marked edges and marked faces. -/
theorem C80_blocks3d (hF : Proper F) {b : Blocks3d} (h : Exact3d F b) : readBlocks3d F (writeBlocks3d F b) = .ok b := by
  rw [(C80_read_blocks3d F _).1]
  obtain ⟨p, p1, p2⟩ := writes_list (R := IsTriple F) (j := fun p => jArr [jFloat F p.1, jFloat F p.2.1, jFloat F p.2.2]) b.points fun x hx =>
    writes_triple hF (h.points x hx).1 (h.points x hx).2.1 (h.points x hx).2.2
  obtain ⟨r, r1, r2⟩ := writes_list (R := IsRegion3) (j := fun r =>
      jArr [jInt r.1, jNat r.2.1, jNat r.2.2.1, jNat r.2.2.2.1, jNat r.2.2.2.2.1, jNat r.2.2.2.2.2.1, jNat r.2.2.2.2.2.2.1,
        jNat r.2.2.2.2.2.2.2.1, jNat r.2.2.2.2.2.2.2.2]) b.regions fun x hx => by
    obtain ⟨h0, h1, h2, h3, h4, h5, h6, h7, h8⟩ := h.regions x hx
    exact ⟨_, denotes_arr (.cons (denotes_int _) (.cons (denotes_nat _) (.cons (denotes_nat _) (.cons (denotes_nat _) (.cons (denotes_nat _)
      (.cons (denotes_nat _) (.cons (denotes_nat _) (.cons (denotes_nat _) (.cons (denotes_nat _) .nil))))))))),
      _, _, _, _, _, _, _, _, _, rfl, isInt_val h0, isNat_val h1, isNat_val h2, isNat_val h3, isNat_val h4, isNat_val h5, isNat_val h6,
      isNat_val h7, isNat_val h8⟩
  obtain ⟨w, w1, w2⟩ := writes_list (R := IsWeights3 F)
    (j := fun w => jArr [jArr (w.1.map (jFloat F)), jArr (w.2.1.map (jFloat F)), jArr (w.2.2.map (jFloat F))]) b.divWeights fun x hx => by
    obtain ⟨u, u1, u2⟩ := writes_list x.1 fun y hy => writes_float hF ((h.weights x hx).1 y hy)
    obtain ⟨v, v1, v2⟩ := writes_list x.2.1 fun y hy => writes_float hF ((h.weights x hx).2.1 y hy)
    obtain ⟨z, z1, z2⟩ := writes_list x.2.2 fun y hy => writes_float hF ((h.weights x hx).2.2 y hy)
    exact ⟨_, denotes_arr (.cons u1 (.cons v1 (.cons z1 .nil))), _, _, _, rfl, u2, v2, z2⟩
  obtain ⟨c, c1, c2⟩ := writes_list b.faceConstraints fun x hx => writes_side3 hF x fun i c hic => h.constraints i c (hic ▸ hx)
  obtain ⟨e, e1, e2⟩ := writes_list b.markedEdges fun x hx => writes_edge (h.edges x hx)
  obtain ⟨f, f1, f2⟩ := writes_list b.markedFaces fun x hx => writes_face (h.faces x hx)
  exact ⟨.obj [("points".toList, p), ("regions".toList, r), ("div_weights".toList, w), ("face_constraints".toList, c),
    ("marked_edges".toList, e), ("marked_faces".toList, f)], denotes_obj (.cons ⟨by dsimp only; decide, rfl, p1⟩ (.cons ⟨by dsimp only; decide, rfl, r1⟩
    (.cons ⟨by dsimp only; decide, rfl, w1⟩ (.cons ⟨by dsimp only; decide, rfl, c1⟩ (.cons ⟨by dsimp only; decide, rfl, e1⟩
    (.cons ⟨by dsimp only; decide, rfl, f1⟩ .nil)))))),
    _, _, _, _, _, _, Or.inl ⟨_, rfl, .cons rfl (.cons rfl (.cons rfl (.cons rfl (.cons rfl (.cons rfl .nil)))))⟩, p2, r2, w2, c2, e2, f2⟩

/-! ## Example -/

/-- Integers are written in decimal notation; the other numbers count as not finite. -/
noncomputable def exReal : JsonFloat ℝ where
  fmt x := open Classical in if h : ∃ n : Int, InI32 n ∧ x = n then some (showInt h.choose) else none
  parse t := (parseI32 t).map fun n => (n : ℝ)

theorem exReal_proper : Proper exReal := by
  intro x t h
  simp only [exReal] at h
  split_ifs at h
  simp only [Option.some.injEq] at h
  subst h
  exact isNumber_showInt _

theorem exReal_reread {n : Int} (h : InI32 n) : Reread exReal (n : ℝ) n := by
  have hx : ∃ k : Int, InI32 k ∧ (n : ℝ) = k := ⟨n, h, rfl⟩
  refine ⟨showInt hx.choose, by simp only [exReal]; rw [dif_pos hx], ?_⟩
  change (parseI32 (showInt hx.choose)).map (fun n => (n : ℝ)) = _
  rw [MeshText.parseI32_showInt _ hx.choose_spec.1.1 hx.choose_spec.1.2]
  exact congrArg some hx.choose_spec.2.symm

/-- A point, a region, weights, a circle and a marked edge. -/
noncomputable def exBlocks : Blocks2d where
  points := [((0 : Int), (3 : Int))]
  regions := [(1, 0, 0, 0, 0)]
  divWeights := [([((1 : Int) : ℝ), ((2 : Int) : ℝ)], [])]
  edgeConstraints := [none, some (2, .circle (0 : Int) (0 : Int) (5 : Int))]
  markedEdges := [(-3, 0, 1)]

example : readBlocks2d exReal (writeBlocks2d exReal exBlocks) = .ok exBlocks := by
  have hi : ∀ n : Int, InI32 n → Reread exReal (n : ℝ) n := fun n h => exReal_reread h
  refine C80_blocks2d exReal_proper ⟨?_, ?_, ?_, ?_, ?_⟩
  · intro p hp
    obtain rfl : p = _ := List.mem_singleton.1 hp
    exact ⟨hi _ (by unfold InI32; decide), hi _ (by unfold InI32; decide)⟩
  · unfold InI32 exBlocks
    decide +kernel
  · intro w hw
    obtain rfl : w = _ := List.mem_singleton.1 hw
    refine ⟨fun x hx => ?_, by simp⟩
    rcases List.mem_cons.1 hx with rfl | hx
    · exact hi _ (by unfold InI32; decide)
    · simp only [List.mem_singleton] at hx
      subst hx
      exact hi _ (by unfold InI32; decide)
  · intro i c h
    simp only [exBlocks, List.mem_cons, reduceCtorEq, Option.some.injEq, Prod.mk.injEq, List.not_mem_nil, or_false, false_or] at h
    obtain ⟨rfl, rfl⟩ := h
    refine ⟨by decide, fun x hx => ?_⟩
    simp only [Constraint2d.numbers, List.mem_cons, List.not_mem_nil, or_false] at hx
    rcases hx with rfl | rfl | rfl <;> exact hi _ (by unfold InI32; decide)
  · unfold InI32 exBlocks
    decide +kernel

end Gemlab.MeshJson
