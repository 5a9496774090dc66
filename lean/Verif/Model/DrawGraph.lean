import Verif.Model.GraphDir
import Verif.Lib.HMap
import Mathlib.Analysis.SpecialFunctions.Sqrt

/-!
# Model of `GraphDir::draw` (`/repo/src/graph/graph_dir.rs:372-529`)

The canvases and texts of `plotpy` are the lists of the calls they receive. Colors, line widths, fonts, the size of the figure and the file
written at the end are not modelled. Exact real arithmetic; `fmt p w` is the text of a weight with precision `p`.
-/
namespace Gemlab.DrawGraph
open Gemlab
noncomputable section

/-- A text: position, rotation (degrees) and contents — calls of `Text::draw` and `Text::set_rotation`. -/
structure Label where
  x : ℝ
  y : ℝ
  rotation : ℝ
  text : String

/-- What is added to the plot, in this order — graph_dir.rs:513-519. -/
inductive Layer
  | circles (l : List (ℝ × ℝ × ℝ))
  | arrows (l : List ((ℝ × ℝ) × (ℝ × ℝ)))
  | texts (l : List Label)

/-- The options — graph_dir.rs:376-384. -/
structure Options where
  showIds : Bool
  showWeights : Bool
  precision : Option Nat
  labelsN : Option (HMap Nat String)
  labelsE : Option (HMap Nat String)
  radius : Option ℝ
  gapArrows : Option ℝ
  gapLabels : Option ℝ

/-- The plot: the objects and the range `(xmin, xmax, ymin, ymax)`. -/
structure Picture where
  layers : List Layer
  range : ℝ × ℝ × ℝ × ℝ

/-- `coords[i][0]` and `coords[i][1]` — graph_dir.rs:423-424, 428, 465-466. -/
def at2 (coords : List (List ℝ)) (i : Nat) : Res (ℝ × ℝ) := do
  let p ← Res.idx coords i
  let x ← Res.idx p 0
  let y ← Res.idx p 1
  pure (x, y)

/-- A custom label, if any — graph_dir.rs:432-434, 497-499. -/
def custom (labels : Option (HMap Nat String)) (i : Nat) (default : String) : String :=
  match labels with
  | none => default
  | some m => (m.get i).getD default

/-- `radius.unwrap_or(0.2)` — graph_dir.rs:420. -/
def radiusOf (o : Options) : ℝ := o.radius.getD (2 / 10)

/-- `gap_arrows`, with its limit — graph_dir.rs:418, 447-449. -/
def gapOf (o : Options) : ℝ :=
  let gap := o.gapArrows.getD (15 / 100)
  if gap > 2 * radiusOf o then 18 / 10 * radiusOf o else gap

/-- The limits of the plot, one node at a time — graph_dir.rs:440-443. -/
def limit (s : ℝ × ℝ × ℝ × ℝ) (p : ℝ × ℝ) : ℝ × ℝ × ℝ × ℝ := (min s.1 p.1, max s.2.1 p.1, min s.2.2.1 p.2, max s.2.2.2 p.2)

/-- The label of an edge — graph_dir.rs:484-499. -/
def edgeText (fmt : Option Nat → ℝ → String) (o : Options) (k : Nat) (weight : ℝ) : String :=
  let lbl := if o.showIds then s!"{k}" else ""
  let sep := if o.showIds then "| " else ""
  let lbl := if o.showWeights then lbl ++ (sep ++ "$" ++ fmt o.precision weight) else lbl
  custom o.labelsE k lbl

/-- The arrow of an edge and the position of its label — graph_dir.rs:464-480. -/
def arrow (w l gapLabels : ℝ) (a b : ℝ × ℝ) : ((ℝ × ℝ) × (ℝ × ℝ)) × (ℝ × ℝ) :=
  let dx := (b.1 - a.1, b.2 - a.2)
  let ll := Real.sqrt (0 + dx.1 * dx.1 + dx.2 * dx.2)
  let mu := (dx.1 / ll, dx.2 / ll)
  let nu := (-dx.2 / ll, dx.1 / ll)
  let xi := (a.1 + l * mu.1 - w * nu.1, a.2 + l * mu.2 - w * nu.2)
  let xj := (b.1 - l * mu.1 - w * nu.1, b.2 - l * mu.2 - w * nu.2)
  ((xi, xj), ((xi.1 + xj.1) / 2 - gapLabels * nu.1, (xi.2 + xj.2) / 2 - gapLabels * nu.2))

/-- One edge: its arrow, and its label if asked for — graph_dir.rs:462-506. -/
def drawEdge (fmt : Option Nat → ℝ → String) (o : Options) (g : GraphDir.Graph ℝ) (coords : List (List ℝ)) (e : (Nat × Nat) × Nat) :
    Res (((ℝ × ℝ) × (ℝ × ℝ)) × List Label) := do
  let a ← at2 coords e.1.1
  let b ← at2 coords e.1.2
  let w := gapOf o / 2
  let l := Real.sqrt (radiusOf o * radiusOf o - w * w)
  let r := arrow w l (o.gapLabels.getD (12 / 100)) a b
  if o.showIds || o.showWeights then do
    let weight ← if o.showWeights then Res.idx g.weights e.2 else pure 0
    let rotation : ℝ := if (o.showIds && o.showWeights) = true ∧ |b.1 - a.1| < 1 / 1000 then 90 else 0
    pure (r.1, [⟨r.2.1, r.2.2, rotation, edgeText fmt o e.2 weight⟩])
  else pure (r.1, [])

/-- `GraphDir::draw` — graph_dir.rs:372-529. -/
def draw (fmt : Option Nat → ℝ → String) (o : Options) (g : GraphDir.Graph ℝ) (coords : List (List ℝ)) : Res Picture :=
  if coords.length ≠ g.nnode then .err "number of nodes in coordinates must match the number of nodes in the graph"
  else do
    let p0 ← at2 coords 0
    let ps ← (List.range coords.length).mapM (at2 coords)
    let lim := ps.foldl limit (p0.1, p0.1, p0.2, p0.2)
    let es ← g.edges.zipIdx.mapM (drawEdge fmt o g coords)
    let r := radiusOf o
    let textN := ps.zipIdx.map fun p => (⟨p.1.1, p.1.2, 0, custom o.labelsN p.2 s!"{p.2}"⟩ : Label)
    let textE := es.flatMap (·.2)
    pure ⟨[.circles (ps.map fun p => (p.1, p.2, r)), .arrows (es.map (·.1)), .texts textN] ++ (if o.showIds then [.texts textE] else []) ++
        [.texts textE],
      (lim.1 - 2 * r, lim.2.1 + 2 * r, lim.2.2.1 - 2 * r, lim.2.2.2 + 2 * r)⟩

end
end Gemlab.DrawGraph
