import Mathlib.Data.Fin.VecNotation
import Mathlib.Algebra.Order.Ring.Rat

/-! # Molar masses from chemical formulas

Standard atomic weights, from general knowledge and not from the crate: an independent check, to 0.01 g/mol, of the
molar masses of the 21 components, in the order of `Composition.frac`. -/

namespace Aga8.Chem

/-- Atomic masses, g/mol. -/
def H : ℚ := 1008 / 1000
def C : ℚ := 12011 / 1000
def N : ℚ := 14007 / 1000
def O : ℚ := 15999 / 1000
def S : ℚ := 32065 / 1000
def He : ℚ := 40026 / 10000
def Ar : ℚ := 39948 / 1000

/-- Molar masses of the components, from their formulas. -/
def mass : Fin 21 → ℚ :=
  ![C + 4 * H,        -- methane
    2 * N,            -- nitrogen
    C + 2 * O,        -- carbon dioxide
    2 * C + 6 * H,    -- ethane
    3 * C + 8 * H,    -- propane
    4 * C + 10 * H,   -- isobutane
    4 * C + 10 * H,   -- n-butane
    5 * C + 12 * H,   -- isopentane
    5 * C + 12 * H,   -- n-pentane
    6 * C + 14 * H,   -- hexane
    7 * C + 16 * H,   -- heptane
    8 * C + 18 * H,   -- octane
    9 * C + 20 * H,   -- nonane
    10 * C + 22 * H,  -- decane
    2 * H,            -- hydrogen
    2 * O,            -- oxygen
    C + O,            -- carbon monoxide
    2 * H + O,        -- water
    2 * H + S,        -- hydrogen sulfide
    He,               -- helium
    Ar]               -- argon

end Aga8.Chem
