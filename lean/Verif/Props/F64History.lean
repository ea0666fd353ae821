import Verif.Lemmas.F64Zero
import Verif.Props.Detail
import Verif.Props.Gerg

/-! # History properties in f64 arithmetic

The general history theorems ask of the arithmetic that a value is never more than 1e-7 away from itself. In IEEE-754
arithmetic `a - a` is zero or NaN, and neither exceeds 1e-7 (`F64.selfDiff`), so they hold for f64 with any math
library. -/

namespace Aga8

open FOps F64

variable [Libm]

/-- C16 in f64. -/
theorem C16_detail_density_success_f64 (s s' : Detail Float) (h : s.density = .ok (s', .ok ())) :
    ∃ v s1 p1 s2, FOps.le (-(f% 7.0)) v = true ∧ FOps.le v (f% 100.0) = true ∧
      Detail.pressure { s with d := exp (-v) } = .ok (s1, p1) ∧
      Detail.properties { s with d := exp (-v) } = .ok s2 ∧
      FOps.lt p1 (f% 1e-15) = false ∧ FOps.lt s2.dp_dd (f% 1e-15) = false ∧
      FOps.lt (abs ((ln p1 - ln s.p) * p1 / (-exp (-v) * s2.dp_dd))) (f% 1e-7) = true ∧
      s'.d = exp (-(v - (ln p1 - ln s.p) * p1 / (-exp (-v) * s2.dp_dd))) ∧ s'.z = s1.z :=
  C16_detail_density_success selfDiff s s' h

/-- C19 in f64. -/
theorem C19_detail_history_independent_f64 (new0 : Detail Float) (hnew : Detail.new = .ok new0)
    (ops : List (Detail.Op Float)) (h : Detail.HistOK [] (Detail.pub new0) ops) :
    ∃ s' outs, Detail.runNew ops = .ok (s', outs) ∧
      Detail.freshRun (Detail.pub new0) ops = .ok (Detail.pub s', outs) :=
  C19_detail_history_independent selfDiff new0 hnew ops h

/-- C22 in f64. -/
theorem C22_gerg_history_independent_f64 (new0 : Gerg Float) (hnew : Gerg.new = .ok new0)
    (ops : List (Gerg.Op Float)) (h : Gerg.HistOK [] (Gerg.pub new0) ops) :
    ∃ s' outs, Gerg.runNew ops = .ok (s', outs) ∧
      Gerg.freshRun (Gerg.pub new0) ops = .ok (Gerg.pub s', outs) :=
  C22_gerg_history_independent selfDiff new0 hnew ops h

/-- C24 in f64, DETAIL. -/
theorem C24_detail_repeatable_f64 (s : Detail Float) :
    (∃ s' p, s.pressure = .ok (s', p) ∧ s'.pressure = .ok (s', p)) ∧
    (∃ s', s.properties = .ok s' ∧ s'.properties = .ok s') :=
  ⟨C24_detail_pressure_repeatable selfDiff s, C24_detail_properties_repeatable selfDiff s⟩

/-- C24 in f64, GERG. -/
theorem C24_gerg_repeatable_f64 (s : Gerg Float) (hs : Gerg.Reachable s) :
    (∃ s' p, s.pressure = .ok (s', p) ∧ s'.pressure = .ok (s', p)) ∧
    (∃ s' p, s.properties = .ok (s', p) ∧ s'.properties = .ok (s', p)) :=
  ⟨C24_gerg_pressure_repeatable selfDiff s hs, C24_gerg_properties_repeatable selfDiff s hs⟩

/-- C24 in f64, `density` of DETAIL: repeated on its own result it gives the same density. -/
theorem C24_detail_density_repeatable_f64 (s s' : Detail Float) (r : Except DensityError Unit)
    (h : s.density = .ok (s', r)) (h0 : FOps.lt (-(f% 1e-15)) s.d = true)
    (h1 : FOps.lt (-(f% 1e-15)) s'.d = true) : ∃ s'', s'.density = .ok (s'', r) ∧ s''.d = s'.d :=
  C24_detail_density_repeatable selfDiff s s' r h h0 h1

end Aga8
