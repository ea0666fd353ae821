import Verif.Lemmas.F64Rel
import Verif.Lemmas.F64ApLit
import Verif.Lemmas.F64Newton
import Verif.Lemmas.DetailErrSetup

/-! # Heat capacity, speed of sound, isentropic exponent and Joule-Thomson coefficient in f64

The last steps of both `properties` functions, on floats, given that the derivatives of the pressure and the heat capacity are
known with a small relative error. -/

set_option linter.unusedSectionVars false

namespace Aga8.F64

variable [Libm]

theorem chk1000 : decChk true 0 10 ⟨1000, 0⟩ = true := by decide +kernel

theorem ap1000 : Ap (f% 1000.0 : Float) 1000 1000 0 0 10 := by
  have := Ap.litExPos chk1000 (by decide)
  have e : decR ⟨1000, 0⟩ = 1000 := by unfold decR; norm_num
  rw [e] at this
  exact this

/-- The inputs of the last steps: density and temperature, the molar mass, and four quantities with relative error `7 ε`. -/
structure CondIn (ε : ℝ) (t d mm z pd pt cv : Float) (T D M Z PD PT CV : ℝ) : Prop where
  u : RUnit ε
  T0 : 0 < T
  D0 : 0 < D
  M0 : 0 < M
  Z0 : 0 < Z
  PD0 : 0 < PD
  PT0 : 0 < PT
  CV0 : 0 < CV
  t : Rl ε t T T 0 0 10
  d : Rl ε d D D 0 14 10
  mm : Rl ε mm M M 3 8 14
  z : Rl ε z Z Z 7 30 100
  pd : Rl ε pd PD PD 7 30 100
  pt : Rl ε pt PT PT 7 30 100
  cv : Rl ε cv CV CV 7 30 100

variable {ε : ℝ} {t d mm z pd pt cv cp : Float} {T D M Z PD PT CV : ℝ}

/-- The isobaric heat capacity, as GERG-2008 computes it. -/
theorem CondIn.cpG (H : CondIn ε t d mm z pd pt cv T D M Z PD PT CV) :
    Rl ε (cv + t * (pt / d) * (pt / d) / pd) (CV + T * (PT / D) ^ 2 / PD) (CV + T * (PT / D) ^ 2 / PD) 27 190 270 := by
  have u := H.u
  have a := Rl.div u H.pt H.d H.D0
  have b := Rl.mul u (Rl.mul u H.t a) a
  have c := Rl.add u H.cv (Rl.div u b H.pd H.PD0)
  have e : T * (PT / D) * (PT / D) = T * (PT / D) ^ 2 := by ring
  rw [e] at c
  exact c.weak u (by norm_num) (by norm_num) (by norm_num)

/-- The isobaric heat capacity, as DETAIL computes it. -/
theorem CondIn.cpD (hL : LibmAccurate) (H : CondIn ε t d mm z pd pt cv T D M Z PD PT CV) :
    Rl ε (cv + t * Libm.powi (pt / d) 2 / pd) (CV + T * (PT / D) ^ 2 / PD) (CV + T * (PT / D) ^ 2 / PD) 27 190 270 := by
  have u := H.u
  have a := Rl.sq u hL (Rl.div u H.pt H.d H.D0) (div_pos H.PT0 H.D0)
  have c := Rl.add u H.cv (Rl.div u (Rl.mul u H.t a) H.pd H.PD0)
  exact c.weak u (by norm_num) (by norm_num) (by norm_num)

theorem CondIn.cp0 (H : CondIn ε t d mm z pd pt cv T D M Z PD PT CV) : 0 < CV + T * (PT / D) ^ 2 / PD := by
  have := H.T0; have := H.D0; have := H.PD0; have := H.PT0; have := H.CV0
  positivity

/-- The square of the speed of sound. -/
theorem CondIn.w2 (H : CondIn ε t d mm z pd pt cv T D M Z PD PT CV) {CP : ℝ} (C : Rl ε cp CP CP 27 190 270) :
    Rl ε (f% 1000.0 * cp / cv * pd / mm) (1000 * CP / CV * PD / M) (1000 * CP / CV * PD / M) 48 340 420 := by
  have u := H.u
  have a := Rl.mul u (Rl.div u (Rl.mul u (Rl.ofAp u (n := 0) ap1000 (by norm_num)) C) H.cv H.CV0) H.pd
  have b := Rl.div u a H.mm H.M0
  exact b.weak u (by norm_num) (by norm_num) (by norm_num)

/-- The speed of sound. -/
theorem CondIn.w (H : CondIn ε t d mm z pd pt cv T D M Z PD PT CV) {CP : ℝ} (hcp : 0 < CP) (C : Rl ε cp CP CP 27 190 270) :
    Rl ε (FOps.sqrt (if f% 1000.0 * cp / cv * pd / mm <. f% 0.0 then f% 0.0 else f% 1000.0 * cp / cv * pd / mm))
      (√(1000 * CP / CV * PD / M)) (√(1000 * CP / CV * PD / M)) 25 340 420 := by
  have u := H.u
  have a := H.w2 C
  have hp : 0 < 1000 * CP / CV * PD / M := by
    have := H.CV0; have := H.PD0; have := H.M0
    positivity
  obtain ⟨-, -, a0⟩ := Rl.rel_bounds u a hp (by norm_num)
  have hn : ¬ (f% 1000.0 * cp / cv * pd / mm <. (f% 0.0 : Float)) := by
    intro h
    have h' : f% 1000.0 * cp / cv * pd / mm < (f% 0.0 : Float) := of_decide_eq_true h
    have z0 := (Detail.ap0 0 0 0).zero rfl
    rw [lt_toR a.fin (Detail.ap0 0 0 0).fin, z0.1] at h'
    linarith
  rw [if_neg hn]
  exact Rl.sqrt u (n := 24) a hp

/-- The denominator of the isentropic exponent. -/
theorem CondIn.den (H : CondIn ε t d mm z pd pt cv T D M Z PD PT CV) {r : Float} {R : ℝ} (Ra : Ap r R R 1 0 4) :
    Rl ε (r * t * f% 1000.0 * z) (R * T * 1000 * Z) (R * T * 1000 * Z) 11 30 124 := by
  have u := H.u
  have a := Rl.mul u (Rl.mul u (Rl.mul u (Rl.ofAp u (n := 1) Ra (by norm_num)) H.t) (Rl.ofAp u (n := 0) ap1000 (by norm_num))) H.z
  exact a.weak u (by norm_num) (by norm_num) (by norm_num)

/-- The isentropic exponent, as GERG-2008 computes it. -/
theorem CondIn.kG (hL : LibmAccurate) (H : CondIn ε t d mm z pd pt cv T D M Z PD PT CV) {w r : Float} {W R : ℝ} (hW : 0 < W)
    (hR : 0 < R) (Wa : Rl ε w W W 25 340 420) (Ra : Ap r R R 1 0 4) :
    Rl ε (Libm.powi w 2 * mm / (r * t * f% 1000.0 * z)) (W ^ 2 * M / (R * T * 1000 * Z)) (W ^ 2 * M / (R * T * 1000 * Z))
      67 900 900 := by
  have u := H.u
  have T0 := H.T0
  have Z0 := H.Z0
  have a := Rl.div u (Rl.mul u (Rl.sq u hL Wa hW) H.mm) (H.den Ra) (by positivity)
  exact a.weak u (by norm_num) (by norm_num) (by norm_num)

/-- The isentropic exponent, as DETAIL computes it. -/
theorem CondIn.kD (H : CondIn ε t d mm z pd pt cv T D M Z PD PT CV) {w r : Float} {W R : ℝ}
    (hR : 0 < R) (Wa : Rl ε w W W 25 340 420) (Ra : Ap r R R 1 0 4) :
    Rl ε (w * w * mm / (r * t * f% 1000.0 * z)) (W ^ 2 * M / (R * T * 1000 * Z)) (W ^ 2 * M / (R * T * 1000 * Z))
      67 900 900 := by
  have u := H.u
  have T0 := H.T0
  have Z0 := H.Z0
  have a := Rl.div u (Rl.mul u (Rl.mul u Wa Wa) H.mm) (H.den Ra) (by positivity)
  rw [← pow_two] at a
  exact a.weak u (by norm_num) (by norm_num) (by norm_num)

/-- The Joule-Thomson coefficient. -/
theorem CondIn.jt (H : CondIn ε t d mm z pd pt cv T D M Z PD PT CV) {CP : ℝ} (hcp : 0 < CP) (C : Rl ε cp CP CP 27 190 270) :
    Rl ε ((t / d * pt / pd - f% 1.0) / cp / d) ((T / D * PT / PD - 1) / CP / D) ((T / D * PT / PD + 1) / CP / D)
      47 900 900 := by
  have u := H.u
  have a := Rl.sub u (Rl.div u (Rl.mul u (Rl.div u H.t H.d H.D0) H.pt) H.pd H.PD0) (Rl.ofAp u (n := 0) Detail.ap1 (by norm_num))
  have b := Rl.div u (Rl.div u a C hcp) H.d H.D0
  exact b.weak u (by norm_num) (by norm_num) (by norm_num)

end Aga8.F64
