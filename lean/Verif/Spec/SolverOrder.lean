import Verif.Spec.Solver

/-! Specification of comparisons between solutions of the transport solver. -/

namespace Aeolis.Solver

variable {K : Type*} [Field K] [LinearOrder K]

/-- Weighted transport capacity of a cell. -/
def weightedCapacity (v : Rhs K) (i j : ℕ) : K := v.w i j * (v.Cuf i j * (1 - v.S i j) + v.Cu i j * v.S i j)

/-- Nowhere less sand in the air before the step, nowhere less capacity, and no less at the ends. -/
structure NoLess (a : Adv K) (v v' : Rhs K) : Prop where
  air : ∀ i ≤ a.ny, ∀ j ≤ a.nx, v.lCt i j ≤ v'.lCt i j
  capacity : ∀ i ≤ a.ny, ∀ j ≤ a.nx, weightedCapacity v i j ≤ weightedCapacity v' i j
  offFlux : ∀ i ≤ a.ny, v.offFlux i ≤ v'.offFlux i
  onFlux : ∀ i ≤ a.ny, v.onFlux i ≤ v'.onFlux i
  offConst : ∀ i ≤ a.ny, v.offConst i ≤ v'.offConst i
  onConst : ∀ i ≤ a.ny, v.onConst i ≤ v'.onConst i

/-- Weighted transport capacity of a cell in the previous step, at the present saturation. -/
def previousCapacity (v : Rhs K) (i j : ℕ) : K := v.lw i j * (v.lCuf i j * (1 - v.S i j) + v.lCu i j * v.S i j)

/-- Equal data in the columns before `J` and at the offshore end. -/
structure SameUpTo (a : Adv K) (J : ℕ) (v v' : Rhs K) : Prop where
  air : ∀ i ≤ a.ny, ∀ j < J, v.lCt i j = v'.lCt i j
  capacity : ∀ i ≤ a.ny, ∀ j < J, weightedCapacity v i j = weightedCapacity v' i j
  previous : ∀ i ≤ a.ny, ∀ j < J, previousCapacity v i j = previousCapacity v' i j
  offFlux : ∀ i ≤ a.ny, v.offFlux i = v'.offFlux i
  offConst : ∀ i ≤ a.ny, v.offConst i = v'.offConst i

/-- The same inputs in all rows. -/
structure EqualRows (a : Adv K) (v : Rhs K) : Prop where
  ds : ∀ i ≤ a.ny, ∀ j, a.ds i j = a.ds 0 j
  dn : ∀ i ≤ a.ny, ∀ j, a.dn i j = a.dn 0 j
  dsdni : ∀ i ≤ a.ny, ∀ j, a.dsdni i j = a.dsdni 0 j
  us : ∀ i ≤ a.ny, ∀ j, a.us i j = a.us 0 j
  un : ∀ i ≤ a.ny, ∀ j, a.un i j = a.un 0 j
  w : ∀ i ≤ a.ny, ∀ j, v.w i j = v.w 0 j
  Cu : ∀ i ≤ a.ny, ∀ j, v.Cu i j = v.Cu 0 j
  Cuf : ∀ i ≤ a.ny, ∀ j, v.Cuf i j = v.Cuf 0 j
  S : ∀ i ≤ a.ny, ∀ j, v.S i j = v.S 0 j
  lw : ∀ i ≤ a.ny, ∀ j, v.lw i j = v.lw 0 j
  lCu : ∀ i ≤ a.ny, ∀ j, v.lCu i j = v.lCu 0 j
  lCuf : ∀ i ≤ a.ny, ∀ j, v.lCuf i j = v.lCuf 0 j
  lCt : ∀ i ≤ a.ny, ∀ j, v.lCt i j = v.lCt 0 j
  offFlux : ∀ i ≤ a.ny, v.offFlux i = v.offFlux 0
  onFlux : ∀ i ≤ a.ny, v.onFlux i = v.onFlux 0
  offConst : ∀ i ≤ a.ny, v.offConst i = v.offConst 0
  onConst : ∀ i ≤ a.ny, v.onConst i = v.onConst 0

/-- One row, and nothing moving across it. -/
def oneRow (a : Adv K) : Adv K := { a with ny := 0, un := fun _ _ => 0 }

end Aeolis.Solver
