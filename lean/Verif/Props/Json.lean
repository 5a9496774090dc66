import Verif.Proofs.Json4

/-!
# C80: JSON files of meshes
-/
namespace Gemlab.MeshJson
open Gemlab Gemlab.Mesh
open Gemlab.MeshText (Text showNat showInt parseUsize parseI32 InI32)

variable {K : Type}

theorem read_eq (F : JsonFloat K) {t : Text} {v : Json} (h : Denotes t v) :
    readMesh F t = match decMesh F v with | some m => .ok m | none => .err msgParse := by
  unfold readMesh
  rw [(parse_iff t v).2 h]
  rfl

/-- **C80 (reading).** Reading a file returns a mesh exactly when the file is a JSON document (any blanks between the tokens) whose value is
an object in which each of the five fields occurs in exactly one member — in any order, among any other members — and the values of the
fields have the types of the fields and are those of the mesh. -/
theorem C80_read (F : JsonFloat K) (t : Text) (m : Mesh K) : readMesh F t = .ok m ↔ ∃ v, Denotes t v ∧ IsMesh F v m := by
  constructor
  · intro h
    unfold readMesh at h
    split at h
    · rename_i m' hm
      simp only [Res.ok.injEq] at h
      subst h
      rw [Option.bind_eq_some_iff] at hm
      obtain ⟨v, h1, h2⟩ := hm
      exact ⟨v, (parse_iff _ _).1 h1, (decMesh_iff _ _ _).1 h2⟩
    · simp at h
  · rintro ⟨v, h1, h2⟩
    rw [read_eq F h1, (decMesh_iff _ _ _).2 h2]

/-- **C80 (errors).** Reading never panics: every file that is not the document of a mesh is rejected with the same message. -/
theorem C80_read_total (F : JsonFloat K) (t : Text) :
    (∃ m, readMesh F t = .ok m) ∨ readMesh F t = .err "cannot parse JSON file" ∧ ¬ ∃ v m, Denotes t v ∧ IsMesh F v m := by
  by_cases h : ∃ v m, Denotes t v ∧ IsMesh F v m
  · obtain ⟨v, m, h1, h2⟩ := h
    exact Or.inl ⟨m, (C80_read F t m).2 ⟨v, h1, h2⟩⟩
  · right
    refine ⟨?_, h⟩
    cases hr : readMesh F t with
    | ok m =>
      obtain ⟨v, hv⟩ := (C80_read F t m).1 hr
      exact absurd ⟨v, m, hv⟩ h
    | err e =>
      unfold readMesh at hr
      split at hr
      · simp at hr
      · simpa [msgParse, eq_comm] using hr
    | panic =>
      unfold readMesh at hr
      split at hr <;> simp at hr

/-- **C80 (layout).** Blanks between the tokens, and the way of writing the characters of strings, are irrelevant. -/
theorem C80_layout (F : JsonFloat K) {t t' : Text} {v : Json} (h : Denotes t v) (h' : Denotes t' v) : readMesh F t = readMesh F t' := by
  rw [read_eq F h, read_eq F h']

/-- A document has one value. -/
theorem Denotes.unique {t : Text} {v v' : Json} (h : Denotes t v) (h' : Denotes t v') : v = v' := by
  have h1 := (parse_iff _ _).2 h
  rw [(parse_iff _ _).2 h'] at h1
  simpa [eq_comm] using h1

/-- **C80 (members).** The order of the members and members with other names are irrelevant. -/
theorem C80_members (F : JsonFloat K) {t t' : Text} {ms ms' extra : List (Text × Json)} (h : Denotes t (.obj ms)) (h' : Denotes t' (.obj ms'))
    (hperm : ms'.Perm (ms ++ extra))
    (hextra : ∀ x ∈ extra, x.1 ∉ ["ndim".toList, "points".toList, "cells".toList, "marked_edges".toList, "marked_faces".toList]) :
    readMesh F t' = readMesh F t := by
  rw [read_eq F h, read_eq F h']
  have key : fields meshNames (.obj ms') = fields meshNames (.obj ms) := by
    simp only [fields]
    have : ∀ n ∈ meshNames, (match ms'.filter (fun m => m.1 == n) with | [m] => some m.2 | _ => none) =
        (match ms.filter (fun m => m.1 == n) with | [m] => some m.2 | _ => (none : Option Json)) := by
      intro n hn
      have hp := hperm.filter (fun m => m.1 == n)
      rw [List.filter_append] at hp
      have he : extra.filter (fun m => m.1 == n) = [] := by
        rw [List.filter_eq_nil_iff]
        intro x hx hxn
        simp only [beq_iff_eq] at hxn
        exact hextra x hx (by rw [hxn]; exact hn)
      rw [he, List.append_nil] at hp
      generalize ms'.filter (fun m => m.1 == n) = l' at hp
      generalize ms.filter (fun m => m.1 == n) = l at hp
      have hl := hp.length_eq
      match l', l, hp, hl with
      | [], [], _, _ => rfl
      | [a], [b], hp, _ =>
        have := List.perm_singleton.1 hp
        rw [this]
      | a :: a' :: l', b :: b' :: l, _, _ => rfl
    have aux : ∀ (names : List Text) (f g : Text → Option Json), (∀ n ∈ names, f n = g n) → names.mapM f = names.mapM g := by
      intro names f g hfg
      induction names with
      | nil => rfl
      | cons n names ih =>
        rw [List.mapM_cons, List.mapM_cons, hfg n (by simp), ih fun x hx => hfg x (by simp [hx])]
    exact aux _ _ _ this
  unfold decMesh
  rw [key]

/-- **C80 (missing and repeated fields).** A field that is missing or occurs more than once is an error. -/
theorem C80_once (F : JsonFloat K) {t : Text} {ms : List (Text × Json)} (h : Denotes t (.obj ms)) {n : String}
    (hn : n ∈ ["ndim", "points", "cells", "marked_edges", "marked_faces"]) (hc : (ms.filter fun m => m.1 == n.toList).length ≠ 1) :
    readMesh F t = .err "cannot parse JSON file" := by
  rcases C80_read_total F t with ⟨m, hm⟩ | ⟨h, _⟩
  · obtain ⟨v, hv, hm⟩ := (C80_read F t m).1 hm
    have := h.unique hv
    subst this
    obtain ⟨a, b, c, d, e, hf, _⟩ := hm
    rcases hf with ⟨ms', e1, hf⟩ | ⟨e1, _⟩
    · simp only [Json.obj.injEq] at e1
      subst e1
      exfalso
      have : ∀ (names : List String) (vs : List Json), List.Forall₂ (fun n x => ms.filter (fun m => m.1 == n.toList) = [(n.toList, x)]) names vs →
          ∀ n ∈ names, (ms.filter fun m => m.1 == n.toList).length = 1 := by
        intro names vs hfa
        induction hfa with
        | nil => simp
        | cons h1 _ ih =>
          intro n hn
          rcases List.mem_cons.1 hn with rfl | hn
          · rw [h1]
            rfl
          · exact ih n hn
      exact hc (this _ _ hf n hn)
    · simp at e1
  · exact h

theorem IsNat.range {v : Json} {n : Nat} (h : IsNat v n) : n < 2 ^ 64 := by
  obtain ⟨_, _, h, _⟩ := h
  exact h

theorem IsInt.range {v : Json} {n : Int} (h : IsInt v n) : InI32 n := by
  obtain ⟨_, _, _, h1, h2, _⟩ := h
  exact ⟨h1, h2⟩

theorem IsList.all {α : Type} {R : Json → α → Prop} {v : Json} {l : List α} (h : IsList R v l) : ∀ x ∈ l, ∃ w, R w x := by
  obtain ⟨vs, -, h⟩ := h
  induction h with
  | nil => simp
  | cons h1 _ ih =>
    intro x hx
    rcases List.mem_cons.1 hx with rfl | hx
    · exact ⟨_, h1⟩
    · exact ih x hx

/-- **C80 (types).** The integers of a mesh that is read are values of their types: numbers out of range are errors, they never wrap. -/
theorem C80_types (F : JsonFloat K) (t : Text) (m : Mesh K) (h : readMesh F t = .ok m) : InRange m := by
  obtain ⟨v, _, n, p, c, e, f, _, h1, h2, h3, h4, h5⟩ := (C80_read F t m).1 h
  refine ⟨h1.range, fun q hq => ?_, fun q hq => ?_, fun q hq => ?_, fun q hq => ?_⟩
  · obtain ⟨w, _, _, _, _, a, b, _⟩ := h2.all q hq
    exact ⟨a.range, b.range⟩
  · obtain ⟨w, _, _, _, _, _, a, b, _, d⟩ := h3.all q hq
    exact ⟨a.range, b.range, fun x hx => by
      obtain ⟨w, hw⟩ := d.all x hx
      exact hw.range⟩
  · obtain ⟨w, _, _, _, _, a, b, d⟩ := h4.all q hq
    exact ⟨a.range, b.range, d.range⟩
  · obtain ⟨w, _, _, _, _, _, _, a, b, d, g, k⟩ := h5.all q hq
    exact ⟨a.range, b.range, d.range, g.range, k.range⟩

/-- **C80 (writing).** The file written is a JSON document whose value is that of the mesh: an object with the five fields. -/
theorem C80_write {F : JsonFloat K} (hF : Proper F) (m : Mesh K) : Denotes (writeMesh F m) (valMesh F m) := denotes_mesh hF m

theorem isNat_val {n : Nat} (h : n < 2 ^ 64) : IsNat (valNat n) n := by
  rw [← decNat_iff]
  exact MeshText.parseUsize_showNat n (by unfold usizeMax; omega)

theorem isInt_val {n : Int} (h : InI32 n) : IsInt (valInt n) n := by
  rw [← decInt_iff]
  unfold valInt decInt
  have : showInt n ≠ ['-', '0'] := by
    unfold showInt
    split_ifs with h0
    · intro e
      simp only [List.cons.injEq, true_and] at e
      have hp := MeshText.parseDigits_showNat n.natAbs
      rw [e] at hp
      have : MeshText.parseDigits ['0'] = some 0 := by decide
      rw [this] at hp
      simp only [Option.some.injEq] at hp
      omega
    · intro e
      have := (showNat_number n.natAbs).1.2 '-' (by rw [e]; simp)
      exact absurd this (by decide)
  simp only [if_neg this]
  exact MeshText.parseI32_showInt n h.1 h.2

theorem isList_val {α β : Type} {R : Json → β → Prop} {j : α → Json} {g : α → β} (l : List α) (h : ∀ x ∈ l, R (j x) (g x)) :
    IsList R (.arr (l.map j)) (l.map g) := by
  refine ⟨_, rfl, ?_⟩
  rw [List.forall₂_map_left_iff, List.forall₂_map_right_iff]
  exact List.forall₂_same.2 h

theorem isList_val' {α : Type} {R : Json → α → Prop} {j : α → Json} (l : List α) (h : ∀ x ∈ l, R (j x) x) : IsList R (.arr (l.map j)) l := by
  simpa using isList_val (g := id) l h

theorem isPoint_val {F : JsonFloat K} {p : Point K} {g : K → K} (h1 : p.id < 2 ^ 64) (h2 : InI32 p.marker)
    (hg : ∀ x ∈ p.coords, Reread F x (g x)) : IsPoint F (valPoint F p) { p with coords := p.coords.map g } := by
  refine ⟨_, _, _, Or.inl ⟨_, rfl, .cons rfl (.cons rfl (.cons rfl .nil))⟩, isNat_val h1, isInt_val h2, isList_val _ fun x hx => ?_⟩
  obtain ⟨t, ht1, ht2⟩ := hg x hx
  exact ⟨t, by rw [valFloat, ht1], ht2⟩

theorem isCell_val {c : Cell} (h1 : c.id < 2 ^ 64) (h2 : InI32 c.marker) (h3 : ∀ p ∈ c.points, p < 2 ^ 64) : IsCell (valCell c) c :=
  ⟨_, _, _, _, Or.inl ⟨_, rfl, .cons rfl (.cons rfl (.cons rfl (.cons rfl .nil)))⟩, isNat_val h1, isInt_val h2, Or.inl rfl,
    isList_val' _ fun x hx => isNat_val (h3 x hx)⟩

theorem isMesh_val {F : JsonFloat K} {m : Mesh K} {g : K → K} (hr : InRange m) (hg : ∀ p ∈ m.points, ∀ x ∈ p.coords, Reread F x (g x)) :
    IsMesh F (valMesh F m) { m with points := m.points.map fun p => { p with coords := p.coords.map g } } :=
  ⟨_, _, _, _, _, Or.inl ⟨_, rfl, .cons rfl (.cons rfl (.cons rfl (.cons rfl (.cons rfl .nil))))⟩, isNat_val hr.ndim,
    isList_val _ fun p hp => isPoint_val (hr.points p hp).1 (hr.points p hp).2 (hg p hp),
    isList_val' _ fun c hc => isCell_val (hr.cells c hc).1 (hr.cells c hc).2.1 (hr.cells c hc).2.2,
    isList_val' _ fun e he => ⟨_, _, _, rfl, isInt_val (hr.edges e he).1, isNat_val (hr.edges e he).2.1, isNat_val (hr.edges e he).2.2⟩,
    isList_val' _ fun f hf => ⟨_, _, _, _, _, rfl, isInt_val (hr.faces f hf).1, isNat_val (hr.faces f hf).2.1,
      isNat_val (hr.faces f hf).2.2.1, isNat_val (hr.faces f hf).2.2.2.1, isNat_val (hr.faces f hf).2.2.2.2⟩⟩

/-- **C80 (write and read, coordinates).** Writing a mesh with finite coordinates and reading the file returns the mesh in which each
coordinate is replaced by what its decimal notation is read as; everything else is unchanged. No consistency of the mesh is required, and
none is checked. -/
theorem C80_reread {F : JsonFloat K} (hF : Proper F) {m : Mesh K} (hr : InRange m) {g : K → K}
    (hg : ∀ p ∈ m.points, ∀ x ∈ p.coords, Reread F x (g x)) :
    readMesh F (writeMesh F m) = .ok { m with points := m.points.map fun p => { p with coords := p.coords.map g } } :=
  (C80_read _ _ _).2 ⟨_, C80_write hF m, isMesh_val hr hg⟩

/-- **C80 (round trip).** If the numbers are read as they were written, reading the file that was written returns the same mesh. -/
theorem C80_round_trip {F : JsonFloat K} (hF : Proper F) {m : Mesh K} (hr : InRange m)
    (hg : ∀ p ∈ m.points, ∀ x ∈ p.coords, Reread F x x) : readMesh F (writeMesh F m) = .ok m := by
  have := C80_reread hF hr (g := id) hg
  simpa using this

/-- **C80 (no loss).** Two meshes with the same file are equal. -/
theorem C80_injective {F : JsonFloat K} (hF : Proper F) {m m' : Mesh K} (hr : InRange m) (hr' : InRange m')
    (hg : ∀ p ∈ m.points, ∀ x ∈ p.coords, Reread F x x) (hg' : ∀ p ∈ m'.points, ∀ x ∈ p.coords, Reread F x x)
    (h : writeMesh F m = writeMesh F m') : m = m' := by
  have h1 := C80_round_trip hF hr hg
  rw [h, C80_round_trip hF hr' hg'] at h1
  simpa [eq_comm] using h1

/-- The fields of an object whose members are the fields. -/
theorem hasFields_val {names : List String} {vs vs' : List Json} (hlen : names.length = vs.length) (hnd : names.Nodup)
    (h : HasFields names (.obj ((names.zip vs).map fun x => (x.1.toList, x.2))) vs') : vs' = vs := by
  have hself : HasFields names (.obj ((names.zip vs).map fun x => (x.1.toList, x.2))) vs := by
    left
    refine ⟨_, rfl, ?_⟩
    rw [List.forall₂_iff_get]
    refine ⟨hlen, fun i hi hi' => ?_⟩
    rw [List.filter_map]
    have : (names.zip vs).filter ((fun m => m.1 == (names.get ⟨i, hi⟩).toList) ∘ fun x : String × Json => (x.1.toList, x.2)) =
        [(names[i], vs[i])] := by
      clear h
      induction names generalizing vs i with
      | nil => simp at hi
      | cons n names ih =>
        cases vs with
        | nil => simp at hi'
        | cons v vs =>
          obtain ⟨hn, hnd⟩ := List.nodup_cons.1 hnd
          rw [List.zip_cons_cons, List.filter_cons]
          cases i with
          | zero =>
            simp only [List.get_eq_getElem, List.getElem_cons_zero, Function.comp_apply, BEq.rfl, if_true, List.cons.injEq, true_and]
            rw [List.filter_eq_nil_iff]
            intro x hx hxn
            simp only [Function.comp_apply, beq_iff_eq] at hxn
            have : x.1 = n := String.toList_injective hxn
            exact hn (this ▸ (List.of_mem_zip hx).1)
          | succ i =>
            have hne : n ≠ names[i]'(by simpa using hi) := fun e => hn (e ▸ List.getElem_mem _)
            have hne' : (n.toList == (names[i]'(by simpa using hi)).toList) = false := by
              rw [beq_eq_false_iff_ne]
              exact fun e => hne (String.toList_injective e)
            simp only [List.get_eq_getElem, List.getElem_cons_succ, Function.comp_apply, hne', Bool.false_eq_true, if_false]
            exact ih (by simpa using hlen) hnd i (by simpa using hi) (by simpa using hi')
    rw [this]
    rfl
  have h1 := (fields_iff _ _ _).2 h
  rw [(fields_iff _ _ _).2 hself] at h1
  simpa [eq_comm] using h1

/-- **C80 (numbers that are not finite).** A mesh with a coordinate that is not finite (NaN, ±∞) is written, but the file cannot be read. -/
theorem C80_not_finite {F : JsonFloat K} (hF : Proper F) {m : Mesh K} {p : Point K} (hp : p ∈ m.points) {x : K} (hx : x ∈ p.coords)
    (hn : F.fmt x = none) : readMesh F (writeMesh F m) = .err "cannot parse JSON file" := by
  rcases C80_read_total F (writeMesh F m) with ⟨m', hm⟩ | ⟨h, _⟩
  · exfalso
    obtain ⟨v, hv, n, ps, c, e, f, hf, _, h2, _⟩ := (C80_read F _ m').1 hm
    have := hv.unique (C80_write hF m)
    subst this
    have := hasFields_val (names := ["ndim", "points", "cells", "marked_edges", "marked_faces"]) (vs := [_, _, _, _, _]) rfl (by decide) hf
    simp only [List.cons.injEq] at this
    obtain ⟨_, rfl, _⟩ := this
    have pick : ∀ {α β : Type} {R : Json → β → Prop} {j : α → Json} {l : List α} {l' : List β}, IsList R (.arr (l.map j)) l' →
        ∀ a ∈ l, ∃ b, R (j a) b := by
      rintro α β R j l l' ⟨vs, e, h⟩ a ha
      simp only [Json.arr.injEq] at e
      subst e
      rw [List.forall₂_map_left_iff] at h
      induction h with
      | nil => simp at ha
      | cons h1 _ ih =>
        rcases List.mem_cons.1 ha with rfl | ha
        · exact ⟨_, h1⟩
        · exact ih ha
    obtain ⟨p', i, mk, xs, hpf, _, _, hxs⟩ := pick h2 p hp
    have := hasFields_val (names := ["id", "marker", "coords"]) (vs := [_, _, _]) rfl (by decide) hpf
    simp only [List.cons.injEq] at this
    obtain ⟨_, _, rfl, _⟩ := this
    obtain ⟨y, t, ht, _⟩ := pick hxs x hx
    rw [valFloat, hn] at ht
    simp at ht
  · exact h

/-! ## Examples -/

/-- Integers, and one number that is not finite. -/
def exFloat : JsonFloat (Option Int) where
  fmt x := x.map showInt
  parse t := (parseI32 t).map some

theorem exFloat_proper : Proper exFloat := by
  intro x t h
  cases x with
  | none => simp [exFloat] at h
  | some n =>
    simp only [exFloat, Option.map_some, Option.some.injEq] at h
    subst h
    exact isNumber_showInt n

/-- Two points and a line. -/
def exMesh : Mesh (Option Int) where
  ndim := 2
  points := [⟨0, 0, [some 0, some (-7)]⟩, ⟨1, -10, [some 12, some 0]⟩]
  cells := [⟨0, 1, .lin2, [0, 1]⟩]
  markedEdges := [(-1, 0, 1)]
  markedFaces := []

example : writeMesh exFloat exMesh =
    ("{\"ndim\":2,\"points\":[{\"id\":0,\"marker\":0,\"coords\":[0,-7]},{\"id\":1,\"marker\":-10,\"coords\":[12,0]}]," ++
      "\"cells\":[{\"id\":0,\"marker\":1,\"kind\":\"Lin2\",\"points\":[0,1]}],\"marked_edges\":[[-1,0,1]],\"marked_faces\":[]}").toList := by
  decide +kernel

example : readMesh exFloat (writeMesh exFloat exMesh) = .ok exMesh :=
  C80_round_trip exFloat_proper
    ⟨by decide, by unfold InI32; decide +kernel, by unfold InI32; decide +kernel, by unfold InI32; decide +kernel, by unfold InI32; decide +kernel⟩
    (by
      intro p hp x hx
      have : ∀ p ∈ exMesh.points, ∀ x ∈ p.coords, (exFloat.fmt x).bind exFloat.parse = some x := by decide +kernel
      obtain ⟨t, h1, h2⟩ := Option.bind_eq_some_iff.1 (this p hp x hx)
      exact ⟨t, h1, h2⟩)

/-- The members may be in any order, there may be blanks and other members. -/
example : readMesh exFloat ("{ \"cells\" : [], \"comment\": [true, {}], \"points\":[ {\"coords\":[1 , 2], \"id\":3, \"marker\":-4} ],\n" ++
    "\"marked_faces\":[], \"marked_edges\":[], \"ndim\":2 }").toList = .ok ⟨2, [⟨3, -4, [some 1, some 2]⟩], [], [], []⟩ := by
  decide +kernel

/-- `null` instead of a number, a superfluous comma, a number that is too large, a repeated member. -/
example : readMesh exFloat (writeMesh exFloat { exMesh with points := [⟨0, 0, [none, some 1]⟩] }) = .err "cannot parse JSON file" :=
  C80_not_finite exFloat_proper (p := ⟨0, 0, [none, some 1]⟩) (by simp) (x := none) (by simp) rfl

example : ∀ t ∈ ["{\"ndim\":2,\"points\":[],\"cells\":[],\"marked_edges\":[],\"marked_faces\":[],}",
    "{\"ndim\":18446744073709551616,\"points\":[],\"cells\":[],\"marked_edges\":[],\"marked_faces\":[]}",
    "{\"ndim\":2,\"ndim\":2,\"points\":[],\"cells\":[],\"marked_edges\":[],\"marked_faces\":[]}",
    "{\"ndim\":02,\"points\":[],\"cells\":[],\"marked_edges\":[],\"marked_faces\":[]} 1"],
    readMesh exFloat t.toList = .err "cannot parse JSON file" := by
  decide +kernel

end Gemlab.MeshJson
