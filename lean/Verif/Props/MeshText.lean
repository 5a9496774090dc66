import Mathlib.Tactic.IntervalCases
import Mathlib.Data.List.Induction
import Verif.Proofs.MeshText5

/-!
# C17, C18: the text format of meshes

A text is a list of characters; integers are formatted and parsed as in Rust (64-bit `usize`, `i32`); formatting and parsing of floats is
a parameter `ft`, about which only `LosslessOn` (C17) is assumed.
-/
namespace Gemlab.Props.MeshText
open Gemlab Gemlab.Mesh Gemlab.MeshText

variable {K : Type} [Zero K] (ft : FloatText K)

/-- **C18.** `from_text` accepts exactly the texts that denote a mesh, and returns that mesh. -/
theorem C18_from_text_iff (t : Text) (m : Mesh K) : fromText ft t = .ok m ↔ Denotes ft (dataLines t) m := by
  rw [fromText_eq, parseT_ok]

/-- **C18.** The same for `read`. -/
theorem C18_read_iff (t : Text) (m : Mesh K) : read ft t = .ok m ↔ Denotes ft (dataLines t) m := by
  rw [read_eq, parseT_ok]

/-- **C18.** A mesh that has been read is consistent: ids are sequential, points have `ndim` coordinates (`ndim ≥ 2`) and cells have the
number of points of their kind; the numbers of entries are those of the first data line. -/
theorem C18_consistent (t : Text) (m : Mesh K) (h : fromText ft t = .ok m) :
    (∀ (i : Nat) p, m.points[i]? = some p → p.id = i ∧ p.coords.length = m.ndim ∧ 2 ≤ m.ndim ∧ InI32 p.marker) ∧
    (∀ (i : Nat) c, m.cells[i]? = some c → c.id = i ∧ c.points.length = c.kind.nnode ∧ InI32 c.marker) ∧
    (∀ e ∈ m.markedEdges, InI32 e.1) ∧ (∀ f ∈ m.markedFaces, InI32 f.1) ∧
    ∃ header rest, dataLines t = header :: rest ∧ 5 ≤ header.length ∧
      AreNats (header.take 5) [m.ndim, m.points.length, m.cells.length, m.markedEdges.length, m.markedFaces.length] := by
  have i32 : ∀ w v, parseI32 w = some v → InI32 v := by
    intro w v hw
    unfold parseI32 at hw
    have key : ∀ o : Option Int, (o.bind fun n => if -2 ^ 31 ≤ n ∧ n < 2 ^ 31 then some n else none) = some v → InI32 v := by
      intro o ho
      obtain ⟨n, _, hn⟩ := Option.bind_eq_some_iff.mp ho
      split at hn
      · rename_i hr; simp only [Option.some.injEq] at hn; rw [← hn]; exact hr
      · cases hn
    split at hw <;> exact key _ hw
  obtain ⟨header, pts, cls, es, fs, rest, hd, hh, hp, hpid, hdim, hc, hcid, he, hf, _⟩ := (C18_from_text_iff ft t m).mp h
  refine ⟨fun i p hi => ?_, fun i c hi => ?_, fun e hem => ?_, fun f hfm => ?_, header, _, hd, hh.1, hh.2⟩
  · have hne : m.points ≠ [] := by rintro hz; rw [hz] at hi; simp at hi
    have h2 := hdim hne
    obtain ⟨hi', hie⟩ := List.getElem?_eq_some_iff.mp hi
    have hlt : i < pts.length := by rw [hp.length_eq]; exact hi'
    obtain ⟨wid, wm, wx, _, _, hm, xs, hx, hxl, hco⟩ := hp.get hlt hi'
    rw [List.get_eq_getElem, hie] at hm hco
    refine ⟨hpid i p hi, ?_, h2, i32 _ _ hm⟩
    rw [hco]
    simp only [List.length_append, List.length_replicate, hxl]
    split <;> omega
  · obtain ⟨hi', hie⟩ := List.getElem?_eq_some_iff.mp hi
    have hlt : i < cls.length := by rw [hc.length_eq]; exact hi'
    obtain ⟨wid, wm, wk, wp, _, _, hm, _, _, hn⟩ := hc.get hlt hi'
    rw [List.get_eq_getElem, hie] at hm hn
    exact ⟨hcid i c hi, hn, i32 _ _ hm⟩
  · obtain ⟨i, hi', hie⟩ := List.mem_iff_getElem.mp hem
    have hlt : i < es.length := by rw [he.length_eq]; exact hi'
    obtain ⟨wm, wp, _, hm, _⟩ := he.get hlt hi'
    rw [List.get_eq_getElem, hie] at hm
    exact i32 _ _ hm
  · obtain ⟨i, hi', hie⟩ := List.mem_iff_getElem.mp hfm
    have hlt : i < fs.length := by rw [hf.length_eq]; exact hi'
    obtain ⟨wm, wp, _, hm, _⟩ := hf.get hlt hi'
    rw [List.get_eq_getElem, hie] at hm
    exact i32 _ _ hm

/-- A line that is blank or the first non-blank character of which is `#`. -/
def Ignorable (l : Text) : Prop := (∀ c ∈ l, isWs c = true) ∨ ∃ b r, l = b ++ '#' :: r ∧ ∀ c ∈ b, isWs c = true

theorem ignorable_data {l : Text} (h : Ignorable l) (hl : '\n' ∉ l) : dataOf l = none := by
  have drop_all : ∀ b r : Text, (∀ c ∈ b, isWs c = true) → (b ++ r).dropWhile isWs = r.dropWhile isWs := by
    intro b r hb
    induction b with
    | nil => rfl
    | cons c b ih => simp [hb c (by simp), ih fun c hc => hb c (by simp [hc])]
  unfold dataOf
  dsimp only
  rcases h with h | ⟨b, r, rfl, hb⟩
  · have : l.dropWhile isWs = [] := by have := drop_all l [] h; simpa using this
    rw [this]; simp
  · rw [drop_all b _ hb]
    have h1 : ('#' :: r).dropWhile isWs = '#' :: r := by
      rw [List.dropWhile_cons_of_neg (by decide)]
    have h2 : ('#' :: r).reverse.dropWhile (fun c => decide (c = '\n')) = ('#' :: r).reverse := by
      match ht : ('#' :: r).reverse with
      | [] => rfl
      | a :: t =>
        rw [List.dropWhile_cons_of_neg]
        have : a ∈ '#' :: r := by rw [← List.mem_reverse, ht]; simp
        simp only [decide_eq_true_eq]
        rintro rfl
        exact hl (by simp only [List.mem_append]; exact Or.inr this)
    rw [h1, h2, List.reverse_reverse]
    simp

/-- **C18.** Comments and blank lines, anywhere, have no effect. -/
theorem C18_comments_ignored (ls₁ ls₂ : List Text) (c : Text) (hc : Ignorable c)
    (hl : ∀ l ∈ c :: ls₁ ++ ls₂, '\n' ∉ l ∧ '\r' ∉ l) :
    fromText ft ((ls₁ ++ c :: ls₂).flatMap fun l => l ++ ['\n']) = fromText ft ((ls₁ ++ ls₂).flatMap fun l => l ++ ['\n']) := by
  rw [fromText_eq, fromText_eq]
  unfold dataLines
  rw [lines_join, lines_join]
  · rw [List.filterMap_append, List.filterMap_append, List.filterMap_cons, ignorable_data hc (hl c (by simp)).1]
  · intro l h; exact hl l (by simp only [List.cons_append, List.mem_cons, List.mem_append] at h ⊢; tauto)
  · intro l h; exact hl l (by simp only [List.cons_append, List.mem_cons, List.mem_append] at h ⊢; tauto)

/-- Blank characters within a line. -/
def Blank (s : Text) : Prop := ∀ c ∈ s, c = ' ' ∨ c = '\t'

theorem Blank.ws {s : Text} (h : Blank s) : ∀ c ∈ s, isWs c = true := by
  intro c hc
  rcases h c hc with rfl | rfl <;> decide

theorem wordsGo_blank (s r : Text) (hs : ∀ c ∈ s, isWs c = true) : wordsGo (s ++ r) [] = wordsGo r [] := by
  induction s with
  | nil => rfl
  | cons c s ih =>
    simp only [List.cons_append, wordsGo, hs c (by simp), if_true]
    exact ih fun c hc => hs c (by simp [hc])

theorem wordsGo_end (s r cur : Text) (hs : ∀ c ∈ s, isWs c = true) (hne : s ≠ []) (hc : cur ≠ []) :
    wordsGo (s ++ r) cur = cur.reverse :: wordsGo r [] := by
  cases s with
  | nil => exact absurd rfl hne
  | cons c s =>
    simp only [List.cons_append, wordsGo, hs c (by simp), if_true, if_neg hc]
    rw [wordsGo_blank s r fun c hc => hs c (by simp [hc])]

theorem words_items (items : List (Text × Text)) (h : ∀ i ∈ items, i.1 ≠ [] ∧ (∀ c ∈ i.1, isWs c = false) ∧ Blank i.2)
    (hsep : ∀ i ∈ items.dropLast, i.2 ≠ []) : wordsGo (items.flatMap fun i => i.1 ++ i.2) [] = items.map (·.1) := by
  induction items with
  | nil => rfl
  | cons i items ih =>
    obtain ⟨h1, h2, h3⟩ := h i (by simp)
    have hr : i.1.reverse ≠ [] := by simpa using h1
    rw [List.flatMap_cons, List.append_assoc, wordsGo_word _ h2, List.append_nil]
    cases items with
    | nil =>
      by_cases he : i.2 = []
      · rw [he]
        simp only [List.flatMap_nil, List.append_nil, List.map_cons, List.map_nil]
        match hrr : i.1.reverse with
        | [] => exact absurd hrr hr
        | a :: b => simp only [wordsGo]; rw [← hrr, List.reverse_reverse]
      · rw [wordsGo_end _ _ _ h3.ws he hr, List.reverse_reverse]; rfl
    | cons j items =>
      rw [wordsGo_end _ _ _ h3.ws (hsep i (by simp)) hr, List.reverse_reverse,
        ih (fun i hi => h i (by simp [hi])) (fun i hi => hsep i (by simp only [List.dropLast_cons_of_ne_nil (l := j :: items) (by simp), List.mem_cons]; exact Or.inr hi))]
      rfl

/-- **C18.** The layout of a line is free: any indentation, any non-empty separation by blanks or tabs and any trailing blanks give the
same data line. -/
theorem C18_layout (lead : Text) (items : List (Text × Text)) (hne : items ≠ []) (hl : Blank lead)
    (h : ∀ i ∈ items, i.1 ≠ [] ∧ (∀ c ∈ i.1, isWs c = false) ∧ Blank i.2) (hsep : ∀ i ∈ items.dropLast, i.2 ≠ [])
    (hh : ∀ i, items.head? = some i → i.1.head? ≠ some '#') :
    dataOf (lead ++ items.flatMap fun i => i.1 ++ i.2) = some (items.map (·.1)) := by
  match items, hne with
  | i :: items, _ =>
  obtain ⟨h1, h2, h3⟩ := h i (by simp)
  obtain ⟨c, cs, hi, hc⟩ := IsWord.head ⟨h1, h2⟩
  have hw := words_items (i :: items) h hsep
  have hnl : '\n' ∉ (i :: items).flatMap fun i => i.1 ++ i.2 := by
    intro hm
    obtain ⟨j, hj, hm⟩ := List.mem_flatMap.mp hm
    obtain ⟨_, q2, q3⟩ := h j hj
    rcases List.mem_append.mp hm with hm | hm
    · exact absurd (q2 _ hm) (by decide)
    · rcases q3 _ hm with e | e <;> exact absurd e (by decide)
  have hh := hh i rfl
  generalize ht : ((i :: items).flatMap fun i => i.1 ++ i.2) = t at hw hnl ⊢
  have hhead : t.head? = some c := by rw [← ht, List.flatMap_cons, hi]; rfl
  have hd : (lead ++ t).dropWhile isWs = t := by
    have := hl.ws
    clear hl
    induction lead with
    | nil =>
      match t, hhead with
      | d :: t, hd =>
        simp only [List.head?_cons, Option.some.injEq] at hd
        subst hd
        simp [hc]
    | cons a lead ih => simp only [List.cons_append, List.dropWhile_cons, this a (by simp), if_true]; exact ih fun c hc => this c (by simp [hc])
  have hd2 : t.reverse.dropWhile (fun c => decide (c = '\n')) = t.reverse := by
    match hr : t.reverse with
    | [] => rfl
    | a :: r =>
      rw [List.dropWhile_cons_of_neg]
      have : a ∈ t := by rw [← List.mem_reverse, hr]; simp
      simp only [decide_eq_true_eq]
      rintro rfl
      exact hnl this
  unfold dataOf
  dsimp only
  rw [hd, hd2, List.reverse_reverse, if_neg]
  · exact congrArg some hw
  · rw [hhead]
    simp only [not_or]
    constructor
    · rw [hi] at hh; simpa using hh
    · rintro rfl; simp at hhead

/-- **C18.** A carriage return before the end of a line is not part of it. -/
theorem C18_crlf (ls : List Text) (h : ∀ l ∈ ls, '\n' ∉ l ∧ '\r' ∉ l) :
    fromText ft (ls.flatMap fun l => l ++ ['\r', '\n']) = fromText ft (ls.flatMap fun l => l ++ ['\n']) := by
  rw [fromText_eq, fromText_eq]
  unfold dataLines
  have : lines (ls.flatMap fun l => l ++ ['\r', '\n']) = lines (ls.flatMap fun l => l ++ ['\n']) := by
    rw [lines_join ls h]
    unfold lines
    induction ls with
    | nil => rfl
    | cons l ls ih =>
      have ⟨h1, h2⟩ := h l (by simp)
      have e : (l :: ls).flatMap (fun l => l ++ ['\r', '\n']) = (l ++ ['\r']) ++ '\n' :: ls.flatMap fun l => l ++ ['\r', '\n'] := by simp
      rw [e, linesGo_line _ (by simp [h1]), ih fun l hl => h l (by simp [hl])]
      simp [stripCr]
  rw [this]

/-- **C18.** `from_text` panics exactly if the first data line is a header with `ndim < 2` and the second one begins with the id 0, a
marker and the coordinates up to the first that does not fit; every other malformed text is rejected with an error. -/
theorem C18_panics_iff (t : Text) : fromText ft t = .panic ↔ ∃ header ws rest, dataLines t = header :: ws :: rest ∧
    ∃ ndim npoint ncell nedge nface, 5 ≤ header.length ∧ AreNats (header.take 5) [ndim, npoint, ncell, nedge, nface] ∧ ndim < 2 ∧
      ∃ wid wm wx r, ws = wid :: wm :: wx :: r ∧ parseUsize wid = some 0 ∧ (∃ mk, parseI32 wm = some mk) ∧
      (∃ x, ft.parse wx = some x) ∧ (ndim = 1 → ∃ wy r', r = wy :: r' ∧ ∃ y, ft.parse wy = some y) := by
  rw [fromText_eq, parseT_panic]
  exact fun d hd => dataLines_ne_nil hd

/-- **C17.** Reading the text of a mesh gives the mesh back, if there are points or no cells, and cells or no marked edges and faces. -/
theorem C17_round_trip (m : Mesh K) (h : WellFormed m) (hf : LosslessOn ft m) (hr : MachineRange m)
    (h1 : m.points = [] → m.cells = []) (h2 : m.cells = [] → m.markedEdges = [] ∧ m.markedFaces = []) :
    ∃ t, display ft m = .ok t ∧ fromText ft t = .ok m ∧ read ft t = .ok m := by
  obtain ⟨t, ht, hd⟩ := display_dataLines ft m h hf
  refine ⟨t, ht, (C18_from_text_iff ft t m).mpr ?_, (C18_read_iff ft t m).mpr ?_⟩ <;> rw [hd] <;>
    exact denotes_display ft m h hf hr h1 h2

/-- **C17.** Writing a mesh with cells (the cells having points that exist) and reading the file gives the mesh back. -/
theorem C17_write_read (m : Mesh K) (h : WellFormed m) (hf : LosslessOn ft m) (hr : MachineRange m) (hc : m.cells ≠ [])
    (hp : m.points ≠ []) : ∃ t, write ft m = .ok t ∧ read ft t = .ok m := by
  obtain ⟨t, h1, _, h2⟩ := C17_round_trip ft m h hf hr (fun e => absurd e hp) (fun e => absurd e hc)
  refine ⟨t, ?_, h2⟩
  unfold write
  rw [if_neg, h1]
  have := List.length_pos_iff.mpr hc
  omega

/-- **C17.** Meshes without cells are not written. -/
theorem C17_write_no_cells (m : Mesh K) (hc : m.cells = []) : ∃ e, write ft m = .err e := by
  unfold write; rw [if_pos (by simp [hc])]; exact ⟨_, rfl⟩

/-- **C17.** Different meshes have different texts. -/
theorem C17_injective (m m' : Mesh K) (h : WellFormed m) (h' : WellFormed m') (hf : LosslessOn ft m) (hf' : LosslessOn ft m')
    (hr : MachineRange m) (hr' : MachineRange m') (hc : m.cells ≠ []) (hc' : m'.cells ≠ []) (hp : m.points ≠ []) (hp' : m'.points ≠ [])
    (heq : write ft m = write ft m') : m = m' := by
  obtain ⟨t, a1, a2⟩ := C17_write_read ft m h hf hr hc hp
  obtain ⟨t', b1, b2⟩ := C17_write_read ft m' h' hf' hr' hc' hp'
  have : t = t' := by have := a1.symm.trans (heq.trans b1); simpa using this
  subst this
  have := a2.symm.trans b2
  simpa using this

/-- **C17.** The exception (a finding): the text of a mesh with points, without cells but with marked edges or faces is printed but
cannot be read. -/
theorem C17_marked_without_cells (m : Mesh K) (h : WellFormed m) (hf : LosslessOn ft m) (hr : MachineRange m)
    (hc : m.cells = []) (he : m.markedEdges ≠ [] ∨ m.markedFaces ≠ []) :
    ∃ t, display ft m = .ok t ∧ ∀ m', fromText ft t ≠ .ok m' := by
  obtain ⟨t, ht, hd⟩ := display_dataLines ft m h hf
  refine ⟨t, ht, fun m' hm' => ?_⟩
  obtain ⟨header, pts, cls, es, fs, rest, hds, hh, hp, hpid, hdim, hcl, hcid, hed, hfa, hz1, hz2⟩ := (C18_from_text_iff ft t m').mp hm'
  rw [hd] at hds
  obtain ⟨rfl, hbody⟩ := List.cons.inj hds
  obtain ⟨_, hn⟩ := hh
  unfold headerWords at hn
  simp only [List.take_succ_cons, List.take_zero] at hn
  cases hn with
  | cons _ hn =>
  cases hn with
  | cons n2 hn =>
  cases hn with
  | cons n3 hn =>
  rw [parseUsize_showNat _ hr.npoint] at n2
  rw [parseUsize_showNat _ hr.ncell] at n3
  simp only [Option.some.injEq] at n2 n3
  have hc' : m'.cells = [] := List.length_eq_zero_iff.mp (by rw [← n3, hc]; rfl)
  have h0 := hz2 hc'
  have hcls : cls = [] := List.length_eq_zero_iff.mp (by rw [hcl.length_eq, hc']; rfl)
  have hl := congrArg List.length hbody
  have h0l := congrArg List.length h0
  have hpl := hp.length_eq
  have : m.markedEdges.length + m.markedFaces.length > 0 := by
    rcases he with he | he
    · have := List.length_pos_iff.mpr he; omega
    · have := List.length_pos_iff.mpr he; omega
  simp only [List.length_append, List.length_map, List.length_nil, hc, hcls] at hl h0l
  omega

/-! ## Numbers -/

theorem digitVal_iff (c : Char) (d : Nat) : digitVal c = some d ↔ (c, d) ∈ decimalDigits := by
  constructor
  · intro h
    unfold digitVal at h
    split at h
    · rename_i hc
      obtain ⟨h1, h2⟩ := hc
      have a1 : 48 ≤ c.toNat := by simpa [Char.le_def, UInt32.le_iff_toNat_le] using h1
      have a2 : c.toNat ≤ 57 := by simpa [Char.le_def, UInt32.le_iff_toNat_le] using h2
      have hc : c = Char.ofNat c.toNat := (Char.ofNat_toNat c).symm
      simp only [Option.some.injEq] at h
      subst h
      generalize c.toNat = n at a1 a2 hc
      subst hc
      interval_cases n <;> decide
    · cases h
  · intro h
    unfold decimalDigits at h
    simp only [List.mem_cons, Prod.mk.injEq, List.not_mem_nil, or_false] at h
    rcases h with ⟨rfl, rfl⟩ | ⟨rfl, rfl⟩ | ⟨rfl, rfl⟩ | ⟨rfl, rfl⟩ | ⟨rfl, rfl⟩ | ⟨rfl, rfl⟩ | ⟨rfl, rfl⟩ | ⟨rfl, rfl⟩ | ⟨rfl, rfl⟩ | ⟨rfl, rfl⟩ <;> decide

theorem parseDigits_iff (w : Text) (n : Nat) : parseDigits w = some n ↔ IsDecimal w n := by
  have fold_one : ∀ (w : Text) (c : Char), (w ++ [c]).foldlM (fun (acc : Nat) (c : Char) => do
      let d ← digitVal c
      some (10 * acc + d)) 0 = (w.foldlM (fun (acc : Nat) (c : Char) => do
      let d ← digitVal c
      some (10 * acc + d)) 0).bind fun acc => (digitVal c).bind fun d => some (10 * acc + d) := by
    intro w c
    rw [List.foldlM_append]
    simp
  constructor
  · intro h
    unfold parseDigits at h
    split at h
    · cases h
    · rename_i hne
      revert n hne
      induction w using List.reverseRecOn with
      | nil => intro n hne h; exact absurd rfl hne
      | append_singleton w c ih =>
        intro n hne h
        rw [fold_one] at h
        obtain ⟨acc, h1, h2⟩ := Option.bind_eq_some_iff.1 h
        obtain ⟨d, h3, h4⟩ := Option.bind_eq_some_iff.1 h2
        cases h4
        rw [digitVal_iff] at h3
        by_cases hw : w = []
        · subst hw
          cases h1
          simpa using IsDecimal.one h3
        · exact .more (ih acc hw h1) h3
  · intro h
    have : w ≠ [] ∧ w.foldlM (fun (acc : Nat) (c : Char) => do
      let d ← digitVal c
      some (10 * acc + d)) 0 = some n := by
      induction h with
      | one h => exact ⟨by simp, by simp [(digitVal_iff _ _).2 h]⟩
      | more _ h2 ih => exact ⟨by simp, by rw [fold_one, ih.2]; simp [(digitVal_iff _ _).2 h2]⟩
    unfold parseDigits
    rw [if_neg this.1, this.2]

theorem _root_.Gemlab.MeshText.IsDecimal.head {w : Text} {n : Nat} (h : IsDecimal w n) : ∀ r, w ≠ '+' :: r ∧ w ≠ '-' :: r := by
  have : ∀ c ∈ w, ∃ d, (c, d) ∈ decimalDigits := by
    induction h with
    | one h => intro c hc; rw [List.mem_singleton] at hc; exact ⟨_, hc ▸ h⟩
    | more _ h2 ih =>
      intro c hc
      rw [List.mem_append] at hc
      rcases hc with hc | hc
      · exact ih c hc
      · rw [List.mem_singleton] at hc; exact ⟨_, hc ▸ h2⟩
  intro r
  constructor
  · rintro rfl
    obtain ⟨d, hd⟩ := this '+' (by simp)
    simp [decimalDigits] at hd
  · rintro rfl
    obtain ⟨d, hd⟩ := this '-' (by simp)
    simp [decimalDigits] at hd

/-- **C18 (numbers).** The words accepted as numbers, and their values: `usize` and `i32`, without overflow. -/
theorem C18_usize (w : Text) (n : Nat) : parseUsize w = some n ↔ IsUsizeWord w n := by
  have bound : ∀ v : Option Nat, ((v.bind fun n => if n ≤ usizeMax then some n else none) = some n ↔ v = some n ∧ n < 2 ^ 64) := by
    intro v
    have : n ≤ usizeMax ↔ n < 2 ^ 64 := by unfold usizeMax; omega
    rw [← this]
    constructor
    · intro h
      obtain ⟨a, h1, h2⟩ := Option.bind_eq_some_iff.1 h
      split at h2
      · cases h2; exact ⟨h1, by assumption⟩
      · cases h2
    · rintro ⟨rfl, h⟩
      simp [h]
  unfold parseUsize IsUsizeWord
  simp only [Option.bind_eq_bind]
  split
  · rename_i r
    rw [bound, and_comm]
    refine and_congr_right fun _ => ?_
    rw [parseDigits_iff]
    constructor
    · intro h; exact .inr ⟨r, rfl, h⟩
    · rintro (h | ⟨r', h1, h2⟩)
      · exact absurd rfl (h.head r).1
      · cases h1; exact h2
  · rename_i w hne
    rw [bound, and_comm]
    refine and_congr_right fun _ => ?_
    rw [parseDigits_iff]
    constructor
    · intro h; exact .inl h
    · rintro (h | ⟨r', h1, h2⟩)
      · exact h
      · exact absurd h1 (hne r')

theorem C18_i32 (w : Text) (n : Int) : parseI32 w = some n ↔ IsI32Word w n := by
  have bound : ∀ v : Option Int, ((v.bind fun n => if -2 ^ 31 ≤ n ∧ n < 2 ^ 31 then some n else none) = some n ↔ v = some n ∧ -2 ^ 31 ≤ n ∧ n < 2 ^ 31) := by
    intro v
    constructor
    · intro h
      obtain ⟨a, h1, h2⟩ := Option.bind_eq_some_iff.1 h
      split at h2
      · cases h2; exact ⟨h1, by assumption⟩
      · cases h2
    · rintro ⟨rfl, h⟩
      rw [Option.bind_some, if_pos h]
  unfold parseI32 IsI32Word
  simp only [Option.bind_eq_bind]
  split
  · rename_i r
    rw [bound, Option.map_eq_some_iff, and_comm, and_assoc]
    refine and_congr_right fun _ => and_congr_right fun _ => ?_
    refine exists_congr fun v => ?_
    rw [parseDigits_iff]
    constructor
    · rintro ⟨h1, rfl⟩; exact .inr ⟨rfl, r, rfl, h1⟩
    · rintro (⟨h1, h2 | ⟨r', h2, -⟩⟩ | ⟨rfl, r', h2, h3⟩)
      · exact absurd rfl (h2.head r).2
      · cases h2
      · cases h2; exact ⟨h3, rfl⟩
  · rename_i r
    rw [bound, Option.map_eq_some_iff, and_comm, and_assoc]
    refine and_congr_right fun _ => and_congr_right fun _ => ?_
    refine exists_congr fun v => ?_
    rw [parseDigits_iff]
    constructor
    · rintro ⟨h1, rfl⟩; exact .inl ⟨rfl, .inr ⟨r, rfl, h1⟩⟩
    · rintro (⟨h1, h2 | ⟨r', h2, h3⟩⟩ | ⟨rfl, r', h2, h3⟩)
      · exact absurd rfl (h2.head r).1
      · cases h2; exact ⟨h3, h1.symm⟩
      · cases h2
  · rename_i w h1 h2
    rw [bound, Option.map_eq_some_iff, and_comm, and_assoc]
    refine and_congr_right fun _ => and_congr_right fun _ => ?_
    refine exists_congr fun v => ?_
    rw [parseDigits_iff]
    constructor
    · rintro ⟨h1, rfl⟩; exact .inl ⟨rfl, .inl h1⟩
    · rintro (⟨g1, g2 | ⟨r', g2, g3⟩⟩ | ⟨rfl, r', g2, g3⟩)
      · exact ⟨g2, g1.symm⟩
      · exact absurd g2 (h2 r')
      · exact absurd g2 (h1 r')

end Gemlab.Props.MeshText

namespace Gemlab.Props.MeshText.Examples
open Gemlab Gemlab.Mesh Gemlab.MeshText

/-- Coordinates are integers (printed as such). -/
def ftInt : FloatText Int := { fmt := showInt, parse := parseI32 }

/-- Two triangles with a marked edge, as a text with comments. -/
def sample : Text := "# header\n 2 4 2 1 0\n\n0 0 0 0\n1 0 1 0 \n  2 -7 1 1\n3 0 0 1\n# cells\n0 1 tri3 0 1 2\n1 1 tri3 2 3 0\n-1 0 1\n".toList

def sampleMesh : Mesh Int :=
  { ndim := 2,
    points := [⟨0, 0, [0, 0]⟩, ⟨1, 0, [1, 0]⟩, ⟨2, -7, [1, 1]⟩, ⟨3, 0, [0, 1]⟩],
    cells := [⟨0, 1, .tri3, [0, 1, 2]⟩, ⟨1, 1, .tri3, [2, 3, 0]⟩],
    markedEdges := [(-1, 0, 1)], markedFaces := [] }

example : fromText ftInt sample = .ok sampleMesh := by decide +kernel

example : WellFormed sampleMesh where
  dim := Or.inl rfl
  pointIds := by
    intro i p h
    match i, h with
    | 0, h => cases h; rfl
    | 1, h => cases h; rfl
    | 2, h => cases h; rfl
    | 3, h => cases h; rfl
  coords := by decide
  cellIds := by
    intro i p h
    match i, h with
    | 0, h => cases h; rfl
    | 1, h => cases h; rfl
  cellPoints := by decide

example : MachineRange sampleMesh where
  npoint := by decide
  ncell := by decide
  nedge := by decide
  nface := by decide
  points := by unfold InI32; decide +kernel
  cells := by unfold InI32; decide +kernel
  edges := by unfold InI32; decide +kernel
  faces := by unfold InI32; decide +kernel

example : LosslessOn ftInt sampleMesh := by
  intro p hp x hx
  refine ⟨?_, showInt_word x⟩
  have : InI32 x := by
    revert x
    revert p
    unfold InI32
    decide +kernel
  exact parseI32_showInt x this.1 this.2

example : ∃ t, write ftInt sampleMesh = .ok t ∧ read ftInt t = .ok sampleMesh := by
  refine ⟨_, rfl, ?_⟩
  decide +kernel

/-- A text with `ndim = 1` panics. -/
example : fromText ftInt "1 1 0 0 0\n0 0 5 6\n".toList = .panic := by decide +kernel

/-- Texts that are accepted although they contain more than the mesh: extra words in the header, extra data lines at the end, a fourth
dimension without coordinates. -/
example : ∃ m, fromText ftInt "4 1 1 0 0 what ever\n0 0 5 6\n0 1 lin2 0 0\nanything".toList = .ok m ∧ m.points = [⟨0, 0, [5, 6, 0, 0]⟩] :=
  ⟨{ ndim := 4, points := [⟨0, 0, [5, 6, 0, 0]⟩], cells := [⟨0, 1, .lin2, [0, 0]⟩], markedEdges := [], markedFaces := [] },
    by decide +kernel, by decide +kernel⟩

end Gemlab.Props.MeshText.Examples
