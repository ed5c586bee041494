import Verif.Heat.GasProps

/-! # C32: the gases that there are -/

namespace Simple.Heat

namespace Spec

/-- The gas constant, in J/(kmol K). -/
noncomputable def gasConstant : ℝ := 8314.46261815324

/-- At `t` K, the gas has, within half a percent, the heat capacity of an ideal gas whose molecules have `f` degrees of freedom. -/
def IdealCapacity (g : Gas) (f t : ℝ) : Prop :=
  |evalPoly g.heatCapacity t * g.mass - (f / 2 + 1) * gasConstant| ≤ 0.005 * ((f / 2 + 1) * gasConstant)

/-- The Prandtl number of a gas at `t` K. -/
noncomputable def prandtl (g : Gas) (t : ℝ) : ℝ :=
  evalPoly g.dynamicViscosity t * evalPoly g.heatCapacity t / evalPoly g.thermalConductivity t

end Spec

open Spec

private theorem prandtl_bounds (g : Gas) (hg : PhysicalGas g) (t lo hi : ℝ) (ht : 0 < t)
    (h1 : lo * evalPoly g.thermalConductivity t ≤ evalPoly g.dynamicViscosity t * evalPoly g.heatCapacity t)
    (h2 : evalPoly g.dynamicViscosity t * evalPoly g.heatCapacity t ≤ hi * evalPoly g.thermalConductivity t) :
    lo ≤ prandtl g t ∧ prandtl g t ≤ hi := by
  have := (hg.2 t ht).1
  exact ⟨(le_div_iff₀ this).2 h1, (div_le_iff₀ this).2 h2⟩

/-- C32: at all temperatures between -73 and 127 degrees, argon, krypton and xenon have the heat capacity of gases of single atoms and the Prandtl
number that kinetic theory gives to them, 2/3. -/
theorem C32_noble (g : Gas) (hg : g = argon ∨ g = krypton ∨ g = xenon) (t : ℝ) (h1 : 200 ≤ t) (h2 : t ≤ 400) :
    IdealCapacity g 3 t ∧ |prandtl g t - 2 / 3| ≤ 0.022 := by
  obtain ⟨-, p1, p2, p3⟩ := C32_gases
  have h0 : 0 < t := by linarith
  constructor
  · rcases hg with rfl | rfl | rfl <;>
      (unfold IdealCapacity gasConstant; simp only [argon, krypton, xenon, evalPoly, evalFrom]; rw [abs_le]; constructor <;> norm_num)
  · have : 2 / 3 - 0.022 ≤ prandtl g t ∧ prandtl g t ≤ 2 / 3 + 0.022 := by
      rcases hg with rfl | rfl | rfl
      · refine prandtl_bounds _ p1 t _ _ h0 ?_ ?_ <;> simp only [argon, evalPoly, evalFrom] <;> norm_num <;> linarith
      · refine prandtl_bounds _ p2 t _ _ h0 ?_ ?_ <;> simp only [krypton, evalPoly, evalFrom] <;> norm_num <;> linarith
      · refine prandtl_bounds _ p3 t _ _ h0 ?_ ?_ <;> simp only [xenon, evalPoly, evalFrom] <;> norm_num <;> linarith
    rw [abs_le]
    constructor <;> linarith [this.1, this.2]

/-- C32: and air those of a gas of molecules of two atoms. -/
theorem C32_air (t : ℝ) (h1 : 200 ≤ t) (h2 : t ≤ 400) : IdealCapacity air 5 t ∧ 0.69 ≤ prandtl air t ∧ prandtl air t ≤ 0.75 := by
  have h0 : 0 < t := by linarith
  constructor
  · unfold IdealCapacity gasConstant
    simp only [air, evalPoly, evalFrom]
    rw [abs_le]
    constructor <;> norm_num <;> linarith
  · refine prandtl_bounds _ C32_gases.1 t _ _ h0 ?_ ?_ <;> simp only [air, evalPoly, evalFrom] <;> norm_num <;>
      nlinarith [mul_nonneg (sub_nonneg.2 h1) (sub_nonneg.2 h2)]

/-- C32: at all temperatures, argon conducts less heat than air, krypton less than argon and xenon less than krypton; and they are denser. -/
theorem C32_heavier (t : ℝ) (ht : 0 < t) :
    (evalPoly argon.thermalConductivity t < evalPoly air.thermalConductivity t ∧ air.density t < argon.density t) ∧
    (evalPoly krypton.thermalConductivity t < evalPoly argon.thermalConductivity t ∧ argon.density t < krypton.density t) ∧
    evalPoly xenon.thermalConductivity t < evalPoly krypton.thermalConductivity t ∧ krypton.density t < xenon.density t := by
  have hd : ∀ a b : Gas, a.mass < b.mass → a.density t < b.density t := fun a b h => by
    unfold Gas.density
    exact div_lt_div_of_pos_right (by linarith) (by positivity)
  refine ⟨⟨?_, hd _ _ ?_⟩, ⟨?_, hd _ _ ?_⟩, ?_, hd _ _ ?_⟩ <;> simp only [air, argon, krypton, xenon, evalPoly, evalFrom] <;> norm_num <;> linarith

/-- C32: gases are ideal: a kmol at 0 degrees and one atmosphere takes 22.41 m³. -/
theorem C32_molar_volume (g : Gas) (hg : PhysicalGas g) : |g.mass / g.density (inKelvin 0) - 22.414| ≤ 0.001 := by
  have hm := hg.1
  have : g.mass / g.density (inKelvin 0) = 8314.46261815324 * 273.15 / 101325 := by
    unfold Gas.density inKelvin
    rw [zero_add]
    field_simp
  rw [this, abs_le]
  constructor <;> norm_num

/-- They are not vacuous: argon at 20 degrees. -/
example : IdealCapacity argon 3 293.15 ∧ |prandtl argon 293.15 - 2 / 3| ≤ 0.022 := C32_noble argon (.inl rfl) _ (by norm_num) (by norm_num)

end Simple.Heat
