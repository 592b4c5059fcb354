import Mathlib.Analysis.SpecialFunctions.Pow.Real
import Mathlib.Analysis.SpecialFunctions.Sqrt
import Mathlib.Algebra.Order.Floor.Semiring
import Verif.Model.State

/-! Model of the wind generator, `WindGenerator` in aeolis/model.py:3010-3236 (without plots). Exact arithmetic; random
draws are an argument. -/

namespace Aeolis.Gen

open Finset

/-- `weibullpdf` at one speed, aeolis/model.py:3221-3226. -/
noncomputable def weibull (scale shape x : ℝ) : ℝ :=
  (shape / scale) * (x / scale) ^ (shape - 1) * Real.exp (-1 * (x / scale) ^ shape)

/-- `np.arange` with a positive step, as used at aeolis/model.py:3064-3066. -/
noncomputable def arange (start stop step : ℝ) : List ℝ :=
  (List.range ⌈(stop - start) / step⌉₊).map (fun i : ℕ => start + (i : ℝ) * step)

/-- Bin size, aeolis/model.py:3057. -/
noncomputable def binSize (maxSpeed : ℝ) (n : ℕ) : ℝ := maxSpeed / n

/-- Wind speed bins, aeolis/model.py:3064-3066. -/
noncomputable def bins (maxSpeed : ℝ) (n : ℕ) : List ℝ :=
  arange (binSize maxSpeed n / 2) (maxSpeed + binSize maxSpeed n / 2) (binSize maxSpeed n)

/-- Normalised probabilities of the bins, aeolis/model.py:3059-3070. -/
noncomputable def target (meanSpeed maxSpeed shape scale : ℝ) (n : ℕ) (j : ℕ) : ℝ :=
  let pdf := fun k => weibull (scale * meanSpeed / Real.sqrt Real.pi) shape ((bins maxSpeed n).getD k 0)
  pdf j / ∑ k ∈ range n, pdf k

/-- Decreasing function, aeolis/model.py:3073-3076. -/
noncomputable def decay (x y : ℕ) : ℝ := (2 : ℝ) ^ (-((|(x : ℤ) - y| : ℤ) : ℝ))

/-- Matrix-vector product, `matmult4`, aeolis/model.py:3230-3232. -/
noncomputable def mulVec (n : ℕ) (m : ℕ → ℕ → ℝ) (v : ℕ → ℝ) (x : ℕ) : ℝ := ∑ k ∈ range n, m x k * v k

/-- Matrix-matrix product, `matmult4` with a matrix as second argument, aeolis/model.py:3230-3232. -/
noncomputable def mulMat (n : ℕ) (m v : ℕ → ℕ → ℝ) (x y : ℕ) : ℝ := ∑ k ∈ range n, m x k * v k y

/-- `np.diag`, aeolis/model.py:3079,3091. -/
noncomputable def diag (v : ℕ → ℝ) (x y : ℕ) : ℝ := if x = y then v x else 0

/-- The vector `r`, aeolis/model.py:3088-3089. -/
noncomputable def response (n : ℕ) (p : ℕ → ℝ) (x : ℕ) : ℝ :=
  mulVec n (diag p) (mulVec n decay p) x / ∑ k ∈ range n, mulVec n (diag p) (mulVec n decay p) k

/-- One iteration, aeolis/model.py:3090. -/
noncomputable def improve (n : ℕ) (p0 p : ℕ → ℝ) (x : ℕ) : ℝ := p x + 0.5 * (p0 x - response n p x)

/-- Difference of two iterates, aeolis/model.py:3093. -/
noncomputable def rmse (n : ℕ) (p pp : ℕ → ℝ) : ℝ := Real.sqrt ((∑ k ∈ range n, (p k - pp k) ^ 2) / n)

open Classical in
/-- The iteration, aeolis/model.py:3084-3093; `none` when it does not end within the given number of iterations. -/
noncomputable def fit (n : ℕ) (p0 : ℕ → ℝ) : ℕ → (ℕ → ℝ) → Option (ℕ → ℝ)
  | 0, _ => none
  | fuel + 1, p =>
    let q := improve n p0 p
    if rmse n q p > 1e-10 then fit n p0 fuel q else some q

/-- Transition matrix, aeolis/model.py:3095-3096. -/
noncomputable def mtm (n : ℕ) (p : ℕ → ℝ) : ℕ → ℕ → ℝ :=
  mulMat n (diag (fun x => 1 / mulVec n decay p x)) (mulMat n decay (diag p))

/-- Cumulative transition matrix, aeolis/model.py:3097. -/
noncomputable def cum (n : ℕ) (p : ℕ → ℝ) (x j : ℕ) : ℝ := ∑ y ∈ range (j + 1), mtm n p x y

/-- The generator: settings and transition vector, aeolis/model.py:3040-3097. -/
structure Setup where
  maxSpeed : ℝ
  n : ℕ
  dt : ℝ
  p : ℕ → ℝ

/-- State of a generated series, aeolis/model.py:3121-3126. -/
structure Series where
  state : ℕ
  states : List ℕ
  speeds : List ℝ
  t : ℝ
  /-- number of draws used -/
  drawn : ℕ

open Classical in
/-- Next state, aeolis/model.py:3148. -/
noncomputable def next (g : Setup) (state : ℕ) (r1 : ℝ) : Option ℕ :=
  (List.range g.n).find? (fun j => decide (cum g.n g.p state j > r1))

/-- `update`, aeolis/model.py:3137-3154, with the draws given. -/
noncomputable def update (g : Setup) (draws : ℕ → ℝ × ℝ) (s : Series) : Except PyErr Series :=
  match next g s.state (draws s.drawn).1 with
  | none => .error .stopIteration
  | some j =>
    match (bins g.maxSpeed g.n)[j]? with
    | none => .error .indexError
    | some b =>
      .ok { state := j, states := s.states ++ [j],
            speeds := s.speeds ++ [max 0 (b - 0.5 + (draws s.drawn).2 * binSize g.maxSpeed g.n)],
            t := s.t + g.dt, drawn := s.drawn + 1 }

open Classical in
/-- The loop of `generate`, aeolis/model.py:3131-3132; `none` when it does not end within the given number of updates. -/
noncomputable def loop (g : Setup) (draws : ℕ → ℝ × ℝ) (duration : ℝ) : ℕ → Series → Option (Except PyErr Series)
  | 0, _ => none
  | fuel + 1, s =>
    if s.t < duration then
      match update g draws s with
      | .error e => some (.error e)
      | .ok s' => loop g draws duration fuel s'
    else some (.ok s)

/-- `generate`, aeolis/model.py:3113-3134. -/
noncomputable def generate (g : Setup) (draws : ℕ → ℝ × ℝ) (duration : ℝ) (fuel : ℕ) : Option (Except PyErr Series) :=
  match update g draws { state := 0, states := [], speeds := [], t := 0, drawn := 0 } with
  | .error e => some (.error e)
  | .ok s => loop g draws duration fuel { s with t := 0 }

/-- `get_time_series` and the rows written, aeolis/model.py:3157-3180. -/
noncomputable def rows (g : Setup) (s : Series) : List (ℝ × ℝ × ℝ) :=
  (List.zip ((List.range s.speeds.length).map (fun i : ℕ => (i : ℝ) * g.dt)) s.speeds).map (fun a => (a.1, a.2, 0))

end Aeolis.Gen
