import Verif.Arith

/-! # Model of `src/composition.rs` -/

namespace Aga8

/-- `struct Composition`, src/composition.rs:24-67. -/
structure Composition (F : Type) where
  methane : F
  nitrogen : F
  carbon_dioxide : F
  ethane : F
  propane : F
  isobutane : F
  n_butane : F
  isopentane : F
  n_pentane : F
  hexane : F
  heptane : F
  octane : F
  nonane : F
  decane : F
  hydrogen : F
  oxygen : F
  carbon_monoxide : F
  water : F
  hydrogen_sulfide : F
  helium : F
  argon : F

/-- `enum CompositionError`, src/composition.rs:180-187. -/
inductive CompositionError where
  | Ok
  | Empty
  | BadSum
  deriving DecidableEq, Repr

/-- `enum DensityError`, src/lib.rs (declared after the module list). -/
inductive DensityError where
  | Ok
  | IterationFail
  | PressureTooLow
  deriving DecidableEq, Repr

deriving instance DecidableEq for Except

namespace Composition

variable {F : Type} [Add F] [Sub F] [Mul F] [Div F] [Neg F] [FOps F]

/-- `#[derive(Default)]` on `Composition`, src/composition.rs:23: all components `0.0`. -/
def default : Composition F :=
  let z : F := f% 0.0
  ⟨z, z, z, z, z, z, z, z, z, z, z, z, z, z, z, z, z, z, z, z, z⟩

/-- `Composition::sum`, src/composition.rs:83-105. -/
def sum (c : Composition F) : F :=
  c.methane + c.nitrogen + c.carbon_dioxide + c.ethane + c.propane + c.isobutane + c.n_butane
    + c.isopentane + c.n_pentane + c.hexane + c.heptane + c.octane + c.nonane + c.decane
    + c.hydrogen + c.oxygen + c.carbon_monoxide + c.water + c.hydrogen_sulfide + c.helium + c.argon

/-- `Composition::normalize`, src/composition.rs:122-152. Returns the composition after the call
and the returned value. -/
def normalize (c : Composition F) : Composition F × Except CompositionError Unit :=
  let sum := c.sum
  if f% 0.0 <. sum then
    let factor := f% 1.0 / sum
    let c := { c with methane := c.methane * factor }
    let c := { c with nitrogen := c.nitrogen * factor }
    let c := { c with carbon_dioxide := c.carbon_dioxide * factor }
    let c := { c with ethane := c.ethane * factor }
    let c := { c with propane := c.propane * factor }
    let c := { c with isobutane := c.isobutane * factor }
    let c := { c with n_butane := c.n_butane * factor }
    let c := { c with isopentane := c.isopentane * factor }
    let c := { c with n_pentane := c.n_pentane * factor }
    let c := { c with hexane := c.hexane * factor }
    let c := { c with heptane := c.heptane * factor }
    let c := { c with octane := c.octane * factor }
    let c := { c with nonane := c.nonane * factor }
    let c := { c with decane := c.decane * factor }
    let c := { c with hydrogen := c.hydrogen * factor }
    let c := { c with oxygen := c.oxygen * factor }
    let c := { c with carbon_monoxide := c.carbon_monoxide * factor }
    let c := { c with water := c.water * factor }
    let c := { c with hydrogen_sulfide := c.hydrogen_sulfide * factor }
    let c := { c with helium := c.helium * factor }
    let c := { c with argon := c.argon * factor }
    (c, .ok ())
  else
    (c, .error .Empty)

/-- `Composition::check`, src/composition.rs:166-174. -/
def check (c : Composition F) : Except CompositionError Unit :=
  if FOps.abs (c.sum - f% 0.0) <. f% 1.0e-10 then
    .error .Empty
  else if f% 1.0e-2 <. FOps.abs (c.sum - f% 1.0) then
    .error .BadSum
  else
    .ok ()

end Composition

end Aga8
