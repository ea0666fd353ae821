import Verif.Spec.DetailEnergyError
import Verif.Spec.GergEnergyError

/-! # Isobaric heat capacity, speed of sound, isentropic exponent and Joule-Thomson coefficient

The exact quantities, from the derivatives of `Spec/DetailEnergyError` and `Spec/GergEnergyError`, and the condition under which
their f64 values can be accurate: they divide by derivatives that are sums with cancellation, so these derivatives must not be
much smaller than their terms. No function of the model is mentioned. -/

namespace Aga8

/-- Isobaric heat capacity from the isochoric one, the density `D`, the temperature `T` and the derivatives of the pressure
`PT = (∂p/∂T)_D`, `PD = (∂p/∂D)_T`. -/
noncomputable def isobaric (cv D T PT PD : ℝ) : ℝ := cv + T * (PT / D) ^ 2 / PD
/-- The speed of sound in m/s, with the molar mass `M` in g/mol, `PD` in kPa l/mol. -/
noncomputable def soundSpeed (cp cv PD M : ℝ) : ℝ := √(1000 * cp / cv * PD / M)
/-- The isentropic exponent `w² M / (R T Z)`, with a factor 1000 for the units. -/
noncomputable def isentropic (w M R T Z : ℝ) : ℝ := w ^ 2 * M / (R * T * 1000 * Z)
/-- The Joule-Thomson coefficient `(∂T/∂p)_h`. -/
noncomputable def jouleThomson (cp D T PT PD : ℝ) : ℝ := (T / D * PT / PD - 1) / cp / D
/-- The size of its terms. -/
noncomputable def jouleThomsonAbs (cp D T PT PD : ℝ) : ℝ := (T / D * PT / PD + 1) / cp / D

/-- The value `v` is a sum with terms of total size `s`; the cancellation loses at most a factor `K`. The value is positive and
of ordinary size. -/
structure WellSized (v s K : ℝ) : Prop where
  cond : s ≤ K * v
  low : 1e-8 ≤ v
  high : v ≤ 1e20

namespace Eos

open Detail.Tab

/-- The molar mass. -/
noncomputable def mass (x : Fin 21 → ℝ) : ℝ := ∑ i, x i * c MMI i
/-- `(∂p/∂D)_T`. -/
noncomputable def pressureD (x : Fin 21 → ℝ) (D T : ℝ) : ℝ := 8.31451 * T * dPdD x D T
noncomputable def heatP (x : Fin 21 → ℝ) (D T : ℝ) : ℝ := isobaric (heatV x D T) D T (pressureT x D T) (pressureD x D T)
noncomputable def speed (x : Fin 21 → ℝ) (D T : ℝ) : ℝ := soundSpeed (heatP x D T) (heatV x D T) (pressureD x D T) (mass x)
noncomputable def exponent (x : Fin 21 → ℝ) (D T : ℝ) : ℝ := isentropic (speed x D T) (mass x) 8.31451 T (Z x D T)
noncomputable def jt (x : Fin 21 → ℝ) (D T : ℝ) : ℝ := jouleThomson (heatP x D T) D T (pressureT x D T) (pressureD x D T)
noncomputable def jtAbs (x : Fin 21 → ℝ) (D T : ℝ) : ℝ := jouleThomsonAbs (heatP x D T) D T (pressureT x D T) (pressureD x D T)

/-- The compression factor, the derivatives of the pressure and the isochoric heat capacity are positive, and none of them loses
more than a factor `K` to cancellation. -/
structure Conditioned (x : Fin 21 → ℝ) (D T K : ℝ) : Prop where
  K_le : K ≤ 10000
  z : WellSized (Z x D T) (Zabs x D T) K
  pd : WellSized (pressureD x D T) (8.31451 * T * dPdDabs x D T) K
  pt : WellSized (pressureT x D T) (pressureTAbs x D T) K
  cv : WellSized (heatV x D T) (heatVAbs x D T) K

end Eos

namespace GergEos

/-- The molar mass. -/
noncomputable def mass (x : Fin 22 → ℝ) : ℝ := ∑ i : Fin 22 with 1 ≤ i.1, x i * val Gerg.Tab.MMI_GERG[i.1]
/-- `(∂p/∂D)_T`. -/
noncomputable def pressureD (x : Fin 22 → ℝ) (D T : ℝ) : ℝ := 8.314472 * T * dPdD x D T
noncomputable def heatP (x : Fin 22 → ℝ) (D T : ℝ) : ℝ := isobaric (heatV x D T) D T (pressureT x D T) (pressureD x D T)
noncomputable def speed (x : Fin 22 → ℝ) (D T : ℝ) : ℝ := soundSpeed (heatP x D T) (heatV x D T) (pressureD x D T) (mass x)
noncomputable def exponent (x : Fin 22 → ℝ) (D T : ℝ) : ℝ := isentropic (speed x D T) (mass x) 8.314472 T (Z x D T)
noncomputable def jt (x : Fin 22 → ℝ) (D T : ℝ) : ℝ := jouleThomson (heatP x D T) D T (pressureT x D T) (pressureD x D T)
noncomputable def jtAbs (x : Fin 22 → ℝ) (D T : ℝ) : ℝ := jouleThomsonAbs (heatP x D T) D T (pressureT x D T) (pressureD x D T)

/-- The compression factor, the derivatives of the pressure and the isochoric heat capacity are positive, and none of them loses
more than a factor `K` to cancellation. -/
structure Conditioned (x : Fin 22 → ℝ) (D T K : ℝ) : Prop where
  K_le : K ≤ 10000
  z : WellSized (Z x D T) (Zabs x D T) K
  pd : WellSized (pressureD x D T) (8.314472 * T * dPdDabs x D T) K
  pt : WellSized (pressureT x D T) (pressureTAbs x D T) K
  cv : WellSized (heatV x D T) (heatVAbs x D T) K

end GergEos

end Aga8
