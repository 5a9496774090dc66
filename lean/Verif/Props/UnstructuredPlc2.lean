import Verif.Props.UnstructuredPlc

/-! # C70: the result does not depend on the hash maps (3D) -/
namespace Gemlab.Unstructured
open Gemlab.Mesh Gemlab.Shapes Gemlab.Props.Mesh Gemlab.Props.Features

variable {T : Type}

/-- **C70.** The result does not depend on the iteration orders of the hash maps (whatever the generator does). -/
theorem C70_deterministic_3d {lib : Tetgen T} {o : Orders} (ho : o.Valid)
    {keyOrder : List FaceKey → List FaceKey} (hk : IterOrder keyOrder) {m : Mesh ℝ} (h : ValidMesh m) (h3 : m.ndim = 3)
    (hb : ∀ p ∈ m.points, ∀ v ∈ p.coords, -f64Max ≤ v ∧ v ≤ f64Max) (hM : m.points.length ≤ usizeMax) (hs : FacetsSpread m)
    {o' : Orders} (ho' : o'.Valid) {keyOrder' : List FaceKey → List FaceKey} (hk' : IterOrder keyOrder')
    (regions : List (Int × ℝ × ℝ × ℝ)) (holes : List (ℝ × ℝ × ℝ)) (o2 : Bool) (maxs : Option (HMap Int ℝ)) (gmax gang : Option ℝ) (renumber : Bool) :
    callTetgen lib o keyOrder m regions holes o2 maxs gmax gang renumber = callTetgen lib o' keyOrder' m regions holes o2 maxs gmax gang renumber := by
  obtain ⟨x, F, hF, he, hx, hsh⟩ := features_ok3 h h3 hb hM ho hs
  obtain ⟨x', F', hF', he', hx', hsh'⟩ := features_ok3 h h3 hb hM ho' hs
  obtain ⟨k1, k2, k3⟩ := sorted_faceKeys x.faces hx.keysNodup.1 hk
  obtain ⟨k1', k2', k3'⟩ := sorted_faceKeys x'.faces hx'.keysNodup.1 hk'
  have hget : ∀ key, x.faces.get key = x'.faces.get key := by
    intro key
    have ha := hx.accepted key
    have ha' := hx'.accepted key
    cases hf : x.faces.get key with
    | none =>
      cases hf' : x'.faces.get key with
      | none => rfl
      | some f' =>
        rw [hf] at ha; rw [hf'] at ha'
        exact absurd (ha.2 (ha'.1 rfl)) (by simp)
    | some f =>
      cases hf' : x'.faces.get key with
      | none =>
        rw [hf] at ha; rw [hf'] at ha'
        exact absurd (ha'.2 (ha.1 rfl)) (by simp)
      | some f' =>
        obtain ⟨c, e, g1, ⟨cell, g2, g3, g4, g5⟩, g6⟩ := hx.data key f hf
        obtain ⟨c', e', g1', ⟨cell', g2', g3', g4', g5'⟩, g6'⟩ := hx'.data key f' hf'
        have hce : c' = c ∧ e' = e := by
          rcases g1.2 _ _ g1'.1 with h | ⟨h, h3⟩ <;> rcases g1'.2 _ _ g1.1 with h' | ⟨h', h3'⟩ <;> omega
        obtain ⟨rfl, rfl⟩ := hce
        rw [g2] at g2'
        cases g2'
        rw [g3] at g3'
        have hkind : f.kind = f'.kind := Option.some.inj g3'
        have hpts : f.points = f'.points := by
          apply List.ext_getElem?
          intro i
          by_cases hi : i < f.kind.nnode
          · rw [g5 i hi, g5' i (by rw [← hkind]; exact hi)]
          · rw [List.getElem?_eq_none (by omega), List.getElem?_eq_none (by rw [g4', ← hkind]; omega)]
        have hmk : f.marker = f'.marker := by rw [g6, g6']
        cases f; cases f'
        simp only at hkind hpts hmk
        subst hkind hpts hmk
        rfl
  have hkeys : (keyOrder (x.faces.map (·.1))).insertionSort faceKeyLe = (keyOrder' (x'.faces.map (·.1))).insertionSort faceKeyLe := by
    refine List.Perm.eq_of_pairwise ?_ k1 k1' ?_
    · rintro ⟨a, b, c, d⟩ ⟨a', b', c', d'⟩ _ _ h h'
      unfold faceKeyLt at h h'
      simp only at h h'
      exact absurd h (by omega)
    · apply List.perm_of_nodup_nodup_toFinset_eq
      · exact k1.imp (by rintro ⟨a, b, c, d⟩ ⟨a', b', c', d'⟩ hh; unfold faceKeyLt at hh; simp only [ne_eq, Prod.mk.injEq, not_and] at hh ⊢; omega)
      · exact k1'.imp (by rintro ⟨a, b, c, d⟩ ⟨a', b', c', d'⟩ hh; unfold faceKeyLt at hh; simp only [ne_eq, Prod.mk.injEq, not_and] at hh ⊢; omega)
      · ext key
        rw [List.mem_toFinset, List.mem_toFinset, k2, k2', hget]
  have hface : ∀ keys : List FaceKey, plcFace lib x.faces keys = plcFace lib x'.faces keys := by
    intro keys
    funext start t i
    unfold plcFace
    congr 1
    funext key
    rw [hget]
  have hcnt : ∀ keys : List FaceKey, faceCounts x.faces keys = faceCounts x'.faces keys := by
    intro keys
    unfold faceCounts
    congr 1
    funext key
    rw [hget]
  unfold callTetgen
  rw [if_neg (by simp [h3]), if_neg (by simp [h3]), hF, hF', Res.bind_ok, Res.bind_ok, he, he', hsh, hsh', hkeys]
  dsimp only
  rw [hface, hcnt]

end Gemlab.Unstructured
