import Mathlib.Analysis.SpecialFunctions.Sqrt
import Mathlib.Algebra.Order.Floor.Ring
import Mathlib.Algebra.Order.Archimedean.Real.Basic
import Verif.Heat.DiscretizationModel

/-! Model of the choice of time step and element size, `/repo/heat/src/discretization.rs:388-553`, over
the reals. -/

namespace Simple.Heat

noncomputable section

/-- `discretization.rs:21`, `MAX_RS`. -/
def maxRs : ℝ := 5 / 100

/-- `discretization.rs:388-403`, `min_dx`; the failed assertions are panics. -/
def minDx (dt k rho cp : ℝ) : Outcome ℝ :=
  let a : ℝ := 1
  let b := -dt / (rho * cp * maxRs)
  let c := -2 * dt * k / (rho * cp)
  let disc := b * b - 4 * a * c
  if disc ≥ 0 then
    if (-b - √disc) / (2 * a) < 0 then .ok ((-b + √disc) / (2 * a)) else .panic
  else .panic

/-- The loop of `discretization.rs:432-453`: `n` is the time step subdivision to try. -/
def nsegmentsLoop (modelDt minDt dx k rho cp : ℝ) (n : ℕ) : Outcome (Option ℕ) :=
  if modelDt / n < minDt then .ok none
  else
    (minDx (modelDt / n) k rho cp).bind fun m =>
      if dx ≥ 2 * m then .ok (some n)
      else if n > 12 then .ok none
      else nsegmentsLoop modelDt minDt dx k rho cp (n + 1)
termination_by 13 - n

/-- `discretization.rs:407-454`, `nsegments`; `expect` on a missing property panics. -/
def nsegments (modelDt maxDx minDt thickness : ℝ) : Subst ℝ → Outcome (Option (ℕ × ℕ))
  | .normal s =>
    match s.conductivity, s.density, s.specificHeat with
    | some k, some rho, some cp =>
      let nSegments := ⌈thickness / maxDx⌉
      let dx := thickness / nSegments
      (nsegmentsLoop modelDt minDt dx k rho cp 1).bind fun r =>
        .ok (r.map fun n => (nSegments.toNat, n))
    | _, _, _ => .panic
  | .gas _ => .ok none

/-- The loop of `discretization.rs:475-495` over the layers: `n`, the maximum subdivision so far, and
the elements of each layer. -/
def discretizeLoop (modelDt maxDx minDt : ℝ) : List (Mat ℝ) → (n : ℕ) → Outcome (ℕ × List ℕ)
  | [], n => .ok (n, [])
  | m :: rest, n =>
    (nsegments modelDt maxDx minDt m.thickness m.substance).bind fun r =>
      match r with
      | some (elements, nsubs) =>
        (discretizeLoop modelDt maxDx minDt rest (if nsubs > n then nsubs else n)).bind fun (n, l) =>
          .ok (n, elements :: l)
      | none =>
        (discretizeLoop modelDt maxDx minDt rest n).bind fun (n, l) => .ok (n, 0 :: l)

/-- The assertions of `discretization.rs:499-551`, in debug builds, for one layer. -/
def checkLayer (modelDt : ℝ) (n : ℕ) (m : Mat ℝ) (nelements : ℕ) : Outcome Unit :=
  if nelements = 0 then .ok ()
  else
    match m.substance with
    | .gas _ => .ok ()
    | .normal s =>
      (need s.conductivity).bind fun k => (need s.density).bind fun rho =>
        (need s.specificHeat).bind fun cp =>
          let dt := modelDt / n
          let dx := m.thickness / nelements
          let lambda1 := -dt / (maxRs * rho * cp * dx)
          let r := dx / k
          let lambda2 := lambda1 - 2 * dt / (r * rho * cp * dx)
          if lambda1 ≥ -2 ∧ lambda1 ≤ 0 ∧ lambda2 ≥ -2 ∧ lambda2 ≤ 0 then .ok () else .panic

/-- `discretization.rs:500-550`, the loop of the assertions. -/
def checkLayers (modelDt : ℝ) (n : ℕ) : List (Mat ℝ) → List ℕ → Outcome Unit
  | m :: ms, e :: es => (checkLayer modelDt n m e).bind fun _ => checkLayers modelDt n ms es
  | _, _ => .ok ()

/-- `discretization.rs:464-553`, `discretize_construction`, in a debug build or not. -/
def discretizeConstruction (debug : Bool) (layers : List (Mat ℝ)) (modelDt maxDx minDt : ℝ) :
    Outcome (ℕ × List ℕ) :=
  (discretizeLoop modelDt maxDx minDt layers 0).bind fun (n, es) =>
    (if debug then checkLayers modelDt n layers es else .ok ()).bind fun _ => .ok (n, es)

/-- `discretization.rs:90-108`, `Discretization::new`. -/
def discretizationNew (debug : Bool) (layers : List (Mat ℝ)) (modelDt maxDx minDt height angle : ℝ) :
    Outcome (Discretization ℝ) :=
  (discretizeConstruction debug layers modelDt maxDx minDt).bind fun (n, es) =>
    build layers n es height angle

end
end Simple.Heat
