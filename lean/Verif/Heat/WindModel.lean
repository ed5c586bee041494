import Verif.Weather.SunModel

/-! Model of what the heat model does with the direction of the wind.  `Float` is `ℝ`. -/

namespace Simple.Heat.Wind

open Geometry Weather.Sun

/-- `/repo/heat/src/heat_model.rs:419`: the direction that is passed on by `march`, from that of the weather. -/
noncomputable def marchDirection (weather : ℝ) : ℝ := toRadians weather

/-- `/repo/heat/src/surface.rs:36-45`, `is_windward`. -/
noncomputable def isWindward (windDirection cosTilt : ℝ) (normal : V3 ℝ) : Bool :=
  if |cosTilt| < 0.98 then decide (0 < normal.dot ⟨Real.sin windDirection, Real.cos windDirection, 0⟩) else true

/-- Whether a surface is taken to be windward in a step of the simulation (`heat_model.rs:419-441`,
`surface.rs:581`), from the direction in the weather. -/
noncomputable def windwardInStep (weather cosTilt : ℝ) (normal : V3 ℝ) : Bool :=
  isWindward (marchDirection weather) cosTilt normal

end Simple.Heat.Wind
