import Mathlib.Analysis.SpecialFunctions.Trigonometric.Basic
import Mathlib.Analysis.SpecialFunctions.Complex.Arg
import Mathlib.Data.Rat.Floor
import Mathlib.Algebra.Order.Floor.Semiring
import Verif.Geometry.VecModel

/-! Model of `/repo/weather/src/solar/reinhart_sky.rs`.  `Float` is `ℝ` (`ℚ` in place of the `f32` of
`bins_in_row`); `usize` is `ℕ`, and a subtraction below zero panics. -/

namespace Simple.Weather.Reinhart

open Geometry

/-- `reinhart_sky.rs:31`, `TNAZ`. -/
def tnaz : List ℕ := [30, 30, 24, 24, 18, 12, 6]

/-- `reinhart_sky.rs:34-36`, `cone_solid_angle`. -/
noncomputable def coneSolidAngle (angle : ℝ) : ℝ := 2 * Real.pi * (1 - Real.cos angle)

/-- `reinhart_sky.rs:38-48`, `patch_solid_angle`. -/
noncomputable def patchSolidAngle (top low : ℝ) (binsInRow : ℕ) : ℝ :=
  2 * Real.pi * (Real.sin top - Real.sin low) / binsInRow

/-- `reinhart_sky.rs:52-69`, `bins_in_row`. -/
def binsInRow (mf row : ℕ) : Outcome ℕ :=
  let nrows := 7 * mf
  if row = nrows then .ok 1
  else if nrows < row then .panic
  else
    let i := ⌊((row : ℚ) + 1 / 2) / mf⌋.toNat
    (Outcome.index tnaz i).bind fun t => .ok (mf * t)

/-- `reinhart_sky.rs:73-75`, `row_height`. -/
noncomputable def rowHeight (mf : ℕ) : ℝ := Real.pi / 2 / (((tnaz.length * mf : ℕ) : ℝ) + 1 / 2)

/-- `reinhart_sky.rs:78-99`, `struct ReinhartSky`. -/
structure Sky where
  mf : ℕ
  nRows : ℕ
  rowMaxSin : List ℝ
  accBins : List ℕ
  nBins : ℕ

/-- `reinhart_sky.rs:102-117`, `ReinhartSky::n_bins`. -/
def nBins (mf : ℕ) : ℕ := 144 * mf ^ 2 + 2

/-- The body of the loop of `reinhart_sky.rs:320-331`, with `acc`, `row_max_sin` and `acc_bins`. -/
noncomputable def newStep (mf : ℕ) (st : ℝ × List ℝ × List ℕ) (row : ℕ) : Outcome (ℝ × List ℝ × List ℕ) :=
  let acc := st.1 + rowHeight mf
  let rowMaxSin := st.2.1 ++ [Real.sin acc]
  if row = 0 then .ok (acc, rowMaxSin, st.2.2 ++ [0])
  else
    (Outcome.index st.2.2 (row - 1)).bind fun prev =>
      (binsInRow mf (row - 1)).bind fun inRow => .ok (acc, rowMaxSin, st.2.2 ++ [prev + inRow])

/-- The loop of `reinhart_sky.rs:320-331`, for the rows given. -/
noncomputable def newLoop (mf : ℕ) : List ℕ → ℝ × List ℝ × List ℕ → Outcome (ℝ × List ℝ × List ℕ)
  | [], st => .ok st
  | row :: rows, st => (newStep mf st row).bind fun st => newLoop mf rows st

/-- `reinhart_sky.rs:306-341`, `new`. -/
noncomputable def new (mf : ℕ) : Outcome Sky :=
  if mf = 0 then .panic
  else
    let nRows := 7 * mf + 1
    (newLoop mf (List.range nRows) (0, [], [])).bind fun (_, rowMaxSin, accBins) =>
      (Outcome.index accBins (nRows - 1)).bind fun a =>
        .ok { mf, nRows, nBins := 1 + a + 1, rowMaxSin, accBins }

/-- The loop of `reinhart_sky.rs:125-130`; `row` is the number of the first one of those left. -/
def binsRowLoop (nbin : ℕ) (notFound : ℕ) : List ℕ → ℕ → Outcome ℕ
  | [], _ => .ok notFound
  | acc :: rest, row => if nbin < acc + 1 then (if row = 0 then .panic else .ok (row - 1)) else
      binsRowLoop nbin notFound rest (row + 1)

/-- `reinhart_sky.rs:119-132`, `bins_row`. -/
def binsRow (s : Sky) (nbin : ℕ) : Outcome ℕ :=
  if nbin > s.nBins then .panic
  else binsRowLoop nbin (s.nRows - 1) s.accBins 0

/-- `reinhart_sky.rs:173-183`, `row_altitude`. -/
noncomputable def rowAltitude (s : Sky) (row : ℕ) : ℝ × ℝ :=
  let h := rowHeight s.mf
  if row = s.nRows - 1 then (Real.pi / 2 - h / 2, Real.pi / 2)
  else (row * h, (row + 1) * h)

/-- `reinhart_sky.rs:135-156`, `bin_solid_angle`. -/
noncomputable def binSolidAngle (s : Sky) (nbin : ℕ) : Outcome ℝ :=
  if nbin = 0 then .ok (2 * Real.pi)
  else if nbin = s.nBins - 1 then .ok (coneSolidAngle (rowHeight s.mf / 2))
  else if nbin > s.nBins then .panic
  else
    (binsRow s nbin).bind fun row =>
      (binsInRow s.mf row).bind fun n => .ok (patchSolidAngle (rowAltitude s row).2 (rowAltitude s row).1 n)

/-- `reinhart_sky.rs:160-170`, `raccum`. -/
def raccum (s : Sky) (row : ℕ) : Outcome ℕ :=
  if row = s.nBins then .ok s.nBins else if s.nBins < row then .panic else Outcome.index s.accBins row

/-- The loop of `reinhart_sky.rs:195-199`. -/
noncomputable def altitudeLoop (sinAltitude : ℝ) : List ℝ → ℕ → Option ℕ
  | [], _ => none
  | m :: rest, row => if sinAltitude < m then some row else altitudeLoop sinAltitude rest (row + 1)

/-- `reinhart_sky.rs:190-202`, `sin_altitude_to_row`. -/
noncomputable def sinAltitudeToRow (s : Sky) (sinAltitude : ℝ) : Outcome ℕ :=
  if sinAltitude < 0 then .panic
  else .ok ((altitudeLoop sinAltitude s.rowMaxSin 0).getD (s.nRows - 1))

/-- `reinhart_sky.rs:208-227`, `xy_to_bin`.  `x.atan2(y)` is the argument of `y + x i`. -/
noncomputable def xyToBin (s : Sky) (row : ℕ) (x y : ℝ) : Outcome ℕ :=
  if row = s.nRows then .ok 1
  else
    let azimuth := Complex.arg ⟨y, x⟩
    let azimuth := if azimuth < 0 then azimuth + 2 * Real.pi else azimuth
    (binsInRow s.mf row).bind fun inRow =>
      let binSize := 2 * Real.pi / inRow
      if inRow = 0 then .panic else .ok (⌊(azimuth + binSize / 2) / binSize⌋.toNat % inRow)

/-- `reinhart_sky.rs:230-251`, `dir_to_bin`; the `debug_assert!` is left out. -/
noncomputable def dirToBin (s : Sky) (dir : V3 ℝ) : Outcome ℕ :=
  if dir.z < 0 then .ok 0
  else
    (sinAltitudeToRow s dir.z).bind fun row =>
      if row = s.nRows - 1 then .ok (s.nBins - 1)
      else
        (raccum s row).bind fun previous =>
          (xyToBin s row dir.x dir.y).bind fun bin => .ok (bin + previous + 1)

/-- `reinhart_sky.rs:254-303`, `bin_dir`. -/
noncomputable def binDir (s : Sky) (nbin : ℕ) : Outcome (V3 ℝ) :=
  if nbin = 0 then .ok ⟨0, 0, -1⟩
  else if nbin = s.nBins - 1 then .ok ⟨0, 0, 1⟩
  else if nbin > s.nBins then .panic
  else
    (binsRow s nbin).bind fun row =>
      let alt := ((rowAltitude s row).1 + (rowAltitude s row).2) / 2
      (raccum s row).bind fun prev =>
        (binsInRow s.mf row).bind fun n =>
          if nbin < prev + 1 then .panic
          else
            let azi := 2 * Real.pi / n * ((nbin - prev - 1 : ℕ) : ℝ)
            .ok ⟨Real.sin azi * Real.cos alt, Real.cos azi * Real.cos alt, Real.sin alt⟩

end Simple.Weather.Reinhart
