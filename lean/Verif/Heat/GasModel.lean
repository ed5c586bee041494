import Mathlib.Analysis.SpecialFunctions.Pow.Real
import Mathlib.Analysis.SpecialFunctions.Trigonometric.Basic
import Verif.Prelude

/-! Model of gases and of the heat transfer through gas-filled cavities, `/repo/heat/src/gas.rs` and
`/repo/heat/src/cavity.rs`, over the reals. -/

namespace Simple.Heat

noncomputable section

open Real

/-- `gas.rs:26-41`, `struct Gas`; a polynomial is the list of its coefficients. -/
structure Gas where
  thermalConductivity : List ℝ
  dynamicViscosity : List ℝ
  heatCapacity : List ℝ
  mass : ℝ

/-- The loop of `polynomial/src/lib.rs:118-125`, from coefficient `i` on (see `Verif/Polynomial`). -/
def evalFrom (x : ℝ) : (i : ℕ) → List ℝ → (y : ℝ) → ℝ
  | _, [], y => y
  | i, c :: cs, y => evalFrom x (i + 1) cs (y + c * x ^ i)

/-- The value of a polynomial, `polynomial/src/lib.rs:118-125`. -/
def evalPoly (cs : List ℝ) (x : ℝ) : ℝ := evalFrom x 0 cs 0

/-- `gas.rs:45-50`, `AIR`. -/
def air : Gas where
  thermalConductivity := [2.873e-3, 7.760e-5]
  dynamicViscosity := [3.723e-6, 4.94e-8]
  heatCapacity := [1002.7370, 1.2324e-2]
  mass := 28.97

/-- `gas.rs:53-58`, `ARGON`. -/
def argon : Gas where
  thermalConductivity := [2.285e-3, 5.149e-5]
  dynamicViscosity := [3.379e-6, 6.451e-8]
  heatCapacity := [521.9285]
  mass := 39.948

/-- `gas.rs:61-66`, `KRYPTON`. -/
def krypton : Gas where
  thermalConductivity := [9.443e-4, 2.826e-5]
  dynamicViscosity := [2.213e-6, 7.777e-8]
  heatCapacity := [248.0907]
  mass := 83.8

/-- `gas.rs:69-74`, `XENON`. -/
def xenon : Gas where
  thermalConductivity := [4.538e-4, 1.723e-5]
  dynamicViscosity := [1.069e-6, 7.414e-8]
  heatCapacity := [158.3397]
  mass := 131.30

/-- `gas.rs:183-185`, `in_kelvin`. -/
def inKelvin (t : ℝ) : ℝ := t + 273.15

/-- `gas.rs:175-179`, `density`. -/
def Gas.density (g : Gas) (temp : ℝ) : ℝ := 101325 * g.mass / (8314.46261815324 * temp)

/-- `gas.rs:82-102`, `raleigh`. -/
def Gas.raleigh (g : Gas) (tFront tBack thickness : ℝ) : ℝ :=
  if |tFront - tBack| < 1e-10 then 0.0000001
  else
    let temp := (inKelvin tFront + inKelvin tBack) / 2
    let beta := 1 / temp
    let cp := evalPoly g.heatCapacity temp
    let mu := evalPoly g.dynamicViscosity temp
    let lambda := evalPoly g.thermalConductivity temp
    let rho := g.density temp
    rho ^ 2 * thickness ^ 3 * 9.81 * beta * cp * |tFront - tBack| / (mu * lambda)

/-- The closure `aux` of `gas.rs:234`. -/
def aux (x : ℝ) : ℝ := (x + |x|) / 2

/-- `gas.rs:227-244`, `nu_0_60` (without the message on the console). -/
def nu060 (ra gamma : ℝ) : ℝ :=
  let cosGamma := cos gamma
  let a := aux (1 - 1708 / (ra * cosGamma))
  let b := 1 - 1708 * sin (1.8 * gamma) ^ (1.6 : ℝ) / (ra * cosGamma)
  let c := (ra * cosGamma / 5830) ^ (1 / 3 : ℝ) - 1
  1 + 1.44 * a * b + aux c

/-- `gas.rs:249-264`, `nu_60`. -/
def nu60 (ra agi : ℝ) : ℝ :=
  let g := 0.5 / (1 + (ra / 3160) ^ (20.6 : ℝ)) ^ (0.1 : ℝ)
  let nu1 := (1 + (0.0936 * ra ^ (0.314 : ℝ) / (1 + g)) ^ 7) ^ (1 / 7 : ℝ)
  let nu2 := (0.104 + 0.175 / agi) * ra ^ (0.283 : ℝ)
  if nu1 > nu2 then nu1 else nu2

/-- `gas.rs:285-307`, `nu_90`; `unreachable!()` is a panic. -/
def nu90 (ra agi : ℝ) : Outcome ℝ :=
  (if ra ≤ 1e4 then .ok (1 + 1.7596678 * 1e-10 * ra ^ (2.2984755 : ℝ))
   else if ra < 5e4 then .ok (0.028154 * ra ^ (0.4134 : ℝ))
   else if ra > 5e4 then .ok (0.0673838 * ra ^ (1 / 3 : ℝ))
   else .panic : Outcome ℝ).bind fun nu1 =>
    let nu2 := 0.242 * (ra / agi) ^ (0.272 : ℝ)
    .ok (if nu1 > nu2 then nu1 else nu2)

/-- `gas.rs:269-280`, `nu_60_90` (without the message on the console). -/
def nu6090 (ra gamma agi : ℝ) : Outcome ℝ :=
  (nu90 ra agi).bind fun n90 =>
    let x := (gamma - π / 3) / (π / 2 - π / 3)
    .ok (nu60 ra agi + (n90 - nu60 ra agi) * x)

/-- `gas.rs:312-315`, `nu_90_180`. -/
def nu90180 (ra agi gamma : ℝ) : Outcome ℝ :=
  (nu90 ra agi).bind fun nuV => .ok (1 + (nuV - 1) * sin gamma)

/-- `%` on floating point numbers: the remainder of the division truncated towards zero. -/
def frem (x y : ℝ) : ℝ := x - y * (if 0 ≤ x / y then (⌊x / y⌋ : ℝ) else (⌈x / y⌉ : ℝ))

/-- `gas.rs:197-222`, `nusselt`. -/
def nusselt (ra gamma agi : ℝ) : Outcome ℝ :=
  let thirty := 30 * π / 180
  let eps := 0.5 * π / 180
  let gamma := frem gamma π
  if 0 ≤ gamma ∧ gamma < 2 * thirty - eps then .ok (nu060 ra gamma)
  else if gamma < 2 * thirty + eps then .ok (nu60 ra agi)
  else if gamma < 3 * thirty - eps then nu6090 ra gamma agi
  else if gamma < 3 * thirty + eps then nu90 ra agi
  else if gamma < 6 * thirty then nu90180 ra agi gamma
  else .panic

/-- `gas.rs:126-152`, `cavity_convection`; the failed `debug_assert`s are panics. -/
def Gas.cavityConvection (g : Gas) (height thickness gamma tFront tBack : ℝ) : Outcome ℝ :=
  if 0 ≤ gamma ∧ gamma ≤ π then
    let gamma := if tFront > tBack then π - gamma else gamma
    let agi := height / thickness
    let ra := g.raleigh tFront tBack thickness
    (nusselt ra gamma agi).bind fun nu =>
      let temp := (inKelvin tFront + inKelvin tBack) / 2
      let lambda := evalPoly g.thermalConductivity temp
      .ok (nu * lambda / thickness)
  else .panic

/-- `heat/src/lib.rs:49`, `SIGMA`. -/
def sigma : ℝ := 5.670374419e-8

/-- `cavity.rs:28-50`, `struct Cavity`. -/
structure GasCavity where
  thickness : ℝ
  height : ℝ
  gas : Gas
  eout : ℝ
  ein : ℝ
  angle : ℝ

/-- `cavity.rs:59-69`, `u_value`. -/
def GasCavity.uValue (c : GasCavity) (tFront tBack : ℝ) : Outcome ℝ :=
  (c.gas.cavityConvection c.height c.thickness c.angle tFront tBack).bind fun conv =>
    let tm := (tBack + tFront) / 2 + 273.15
    let rad := 4 * tm ^ 3 * sigma * c.ein * c.eout / (1 - (1 - c.ein) * (1 - c.eout))
    .ok (rad + conv)

end
end Simple.Heat
