import Verif.Composition
import Mathlib.Data.Fin.VecNotation

/-! # Vocabulary for properties of compositions -/

namespace Aga8.Composition

variable {F : Type}

/-- The 21 fractions, in the order of the AGA 8 component list. -/
def frac (c : Composition F) : Fin 21 → F :=
  ![c.methane, c.nitrogen, c.carbon_dioxide, c.ethane, c.propane, c.isobutane, c.n_butane,
    c.isopentane, c.n_pentane, c.hexane, c.heptane, c.octane, c.nonane, c.decane, c.hydrogen,
    c.oxygen, c.carbon_monoxide, c.water, c.hydrogen_sulfide, c.helium, c.argon]

end Aga8.Composition
