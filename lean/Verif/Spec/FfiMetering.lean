import Verif.Spec.Metering
import Verif.Spec.GergMetering
import Verif.Spec.Ffi

/-! # Specification for metering through the C interface (C78) -/

namespace Aga8.Ffi

/-- The calls for one sample with the DETAIL handle `p`. -/
def sampleD (p : Nat) (m : Sample) : List (Call Float) :=
  [.aga8 p (.setComposition m.comp), .aga8 p (.setPressure m.p), .aga8 p (.setTemperature m.t), .aga8 p .calculateDensity,
    .aga8 p .calculateProperties, .aga8 p .getProperties]

/-- The calls for one sample with the GERG handle `p`. -/
def sampleG (p : Nat) (m : Sample) : List (Call Float) :=
  [.gerg p (.setComposition m.comp), .gerg p (.setPressure m.p), .gerg p (.setTemperature m.t), .gerg p .calculateDensity,
    .gerg p .calculateProperties, .gerg p .getProperties]

/-- What the six calls give back when they report success and read the properties `x`. -/
def successWith (x : Properties Float) : List (Ret Float) := [.comp .Ok, .unit, .unit, .dens .Ok, .unit, .props x]

/-- The struct `Properties` with the values of a Detail object. -/
def propsD (q : Detail.Pub Float) : Properties Float :=
  ⟨q.d, q.mm, q.z, q.dp_dd, q.d2p_dd2, q.dp_dt, q.u, q.h, q.s, q.cv, q.cp, q.w, q.g, q.jt, q.kappa⟩

/-- The struct `Properties` with the values of a Gerg2008 object. -/
def propsG (q : Gerg.Pub Float) : Properties Float :=
  ⟨q.d, q.mm, q.z, q.dp_dd, q.d2p_dd2, q.dp_dt, q.u, q.h, q.s, q.cv, q.cp, q.w, q.g, q.jt, q.kappa⟩

end Aga8.Ffi
