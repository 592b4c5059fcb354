import Verif.Model.Run
import Mathlib.Analysis.SpecialFunctions.Trigonometric.Basic
import Mathlib.Analysis.SpecialFunctions.Trigonometric.DerivHyp
import Mathlib.Analysis.SpecialFunctions.Pow.NNReal

/-!
Model of `aeolis/avalanching.py`.

The grid has `my + 1` rows and `mx + 1` columns (`my = p['ny']`, `mx = p['nx']`); grids are functions
of row `i` and column `j`, only values with `i ≤ my`, `j ≤ mx` matter.  Cell sizes `ds`, `dn` are
non-zero wherever a theorem needs it.
-/

namespace Aeolis.Ava

noncomputable section

/-- A grid. Arrays of aeolis/avalanching.py:72-187. -/
abbrev Grid := ℕ → ℕ → ℝ

/-- The inputs that stay fixed during avalanching. Models aeolis/avalanching.py:98-118. -/
structure Params where
  process : Bool
  mx : ℕ
  my : ℕ
  ds : Grid
  dn : Grid
  /-- level of the non-erodible layer; none (NaN) without a file, aeolis/bed.py:74 -/
  zne : ℕ → ℕ → Option ℝ
  thetaStat : ℝ
  thetaDyn : ℝ
  maxIter : ℕ

/-- `np.tan(np.deg2rad(s['theta_stat']))`, aeolis/avalanching.py:101.  (`theta_stat` is a number,
aeolis/avalanching.py:63-67.) -/
def Params.tanStat (p : Params) : ℝ := Real.tan (p.thetaStat * Real.pi / 180)

/-- `np.tan(np.deg2rad(s['theta_dyn']))`, aeolis/avalanching.py:102. -/
def Params.tanDyn (p : Params) : ℝ := Real.tan (p.thetaDyn * Real.pi / 180)

/-- The three assignments of one direction in `calc_gradients`, e.g.
aeolis/avalanching.py:207-211: `c` the cell, `fwd` and `bwd` its neighbours ahead and behind. -/
def downGrad (bwd c fwd : ℝ) : ℝ :=
  let g := c - fwd
  let g := if fwd > bwd then -(c - bwd) else g
  if fwd > c ∧ bwd > c then 0 else g

/-- Cells whose gradients are not zeroed by the borders, aeolis/avalanching.py:234-244, for a
gradient in x-direction (only set for inner columns). -/
def Params.innerX (p : Params) (i j : ℕ) : Prop :=
  (1 ≤ j ∧ j < p.mx) ∧ (p.my = 0 ∨ (1 ≤ i ∧ i < p.my))

/-- Likewise for a gradient in y-direction (only set for inner rows).
Models aeolis/avalanching.py:213-217,227-231. -/
def Params.innerY (p : Params) (i j : ℕ) : Prop :=
  (1 ≤ i ∧ i < p.my) ∧ (1 ≤ j ∧ j < p.mx)

open Classical in
/-- `grad_h_down[i,j,k]` as returned by `calc_gradients`, aeolis/avalanching.py:204-249;
`k = 0, 1, 2, 3` for positive x, positive y, negative x, negative y. -/
def gradDown (p : Params) (zb : Grid) (k : Fin 4) (i j : ℕ) : ℝ :=
  match k with
  | 0 => if p.innerX i j then downGrad (zb i (j - 1)) (zb i j) (zb i (j + 1)) / p.ds i j else 0
  | 1 => if p.innerY i j then downGrad (zb (i - 1) j) (zb i j) (zb (i + 1) j) / p.dn i j else 0
  | 2 => if p.innerX i j then downGrad (zb i (j + 1)) (zb i j) (zb i (j - 1)) / p.ds i j else 0
  | 3 => if p.innerY i j then downGrad (zb (i + 1) j) (zb i j) (zb (i - 1) j) / p.dn i j else 0

/-- `grad_h`, aeolis/avalanching.py:251,257. -/
def gradH (p : Params) (zb : Grid) (i j : ℕ) : ℝ :=
  Real.sqrt (0.5 * gradDown p zb 0 i j ^ 2 + 0.5 * gradDown p zb 1 i j ^ 2
    + 0.5 * gradDown p zb 2 i j ^ 2 + 0.5 * gradDown p zb 3 i j ^ 2)

/-- `max_grad_h`, aeolis/avalanching.py:259. -/
def maxGradH (p : Params) (zb : Grid) : ℝ :=
  gridMax fun c : Fin (p.my + 1) × Fin (p.mx + 1) => gradH p zb c.1 c.2

open Classical in
/-- `slope_diff`, aeolis/avalanching.py:137-143.  Where the level of the layer is NaN both comparisons with it are false. -/
def slopeDiff (p : Params) (zb : Grid) (i j : ℕ) : ℝ :=
  match p.zne i j with
  | none => 0
  | some z =>
    let g := gradH p zb i j
    let nonerod := (zb i j - z) / p.ds i j
    let d := 0
    let d := if g > p.tanDyn ∧ nonerod > 0 then Real.tanh g - Real.tanh (0.9 * p.tanDyn) else d
    if nonerod < g - p.tanDyn then Real.tanh nonerod else d

open Classical in
/-- `flux_down[i,j,k]`, aeolis/avalanching.py:145-150 (transects: only `k = 0, 2`) and 164-167. -/
def flux (p : Params) (zb : Grid) (k : Fin 4) (i j : ℕ) : ℝ :=
  if p.my = 0 ∧ (k = 1 ∨ k = 3) then 0
  else if gradH p zb i j ≠ 0 then
    slopeDiff p zb i j * gradDown p zb k i j / gradH p zb i j
  else 0

/-- `q_out`, aeolis/avalanching.py:156 and 173. -/
def qOut (p : Params) (zb : Grid) (i j : ℕ) : ℝ :=
  if p.my = 0 then 0.5 * |flux p zb 0 i j| + 0.5 * |flux p zb 2 i j|
  else 0.5 * |flux p zb 0 i j| + 0.5 * |flux p zb 1 i j| + 0.5 * |flux p zb 2 i j|
    + 0.5 * |flux p zb 3 i j|

open Classical in
/-- `q_in`, aeolis/avalanching.py:154,158-161 (transects) and 171,175-183. -/
def qIn (p : Params) (zb : Grid) (i j : ℕ) : ℝ :=
  let f := flux p zb
  if p.my = 0 then
    if i = 0 ∧ 1 ≤ j ∧ j < p.mx then
      0.5 * (max (f 0 i (j - 1)) 0 - min (f 0 i (j + 1)) 0
        + max (f 2 i (j + 1)) 0 - min (f 2 i (j - 1)) 0)
    else 0
  else if (1 ≤ i ∧ i < p.my) ∧ 1 ≤ j ∧ j < p.mx then
    0.5 * (max (f 0 i (j - 1)) 0 - min (f 0 i (j + 1)) 0
      + max (f 1 (i - 1) j) 0 - min (f 1 (i + 1) j) 0
      + max (f 2 i (j + 1)) 0 - min (f 2 i (j - 1)) 0
      + max (f 3 (i + 1) j) 0 - min (f 3 (i - 1) j) 0)
  else 0

/-- One redistribution, aeolis/avalanching.py:106,185. -/
def slide (p : Params) (zb : Grid) : Grid :=
  fun i j => zb i j + 0.2 * (qIn p zb i j - qOut p zb i j)

open Classical in
/-- The iteration, aeolis/avalanching.py:123-185, with `n` rounds left. -/
def iterate (p : Params) : ℕ → Grid → Grid
  | 0, zb => zb
  | n + 1, zb => if maxGradH p zb < p.tanDyn then zb else iterate p n (slide p zb)

open Classical in
/-- The bed after `avalanche`, aeolis/avalanching.py:72-187. -/
def avalanche (p : Params) (zb : Grid) : Grid :=
  if p.process then
    if maxGradH p zb > p.tanStat then iterate p p.maxIter zb else zb
  else zb

end

end Aeolis.Ava
