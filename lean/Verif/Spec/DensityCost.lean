import Verif.Detail
import Verif.Gerg

/-! # Counting the work of `density` (C45)

`densityWith eval` is the text of `density` with the calls to `pressure` (and, for GERG, `properties`) replaced
by calls to a parameter, and a call to a further parameter at every restart of the GERG search, in an
arbitrary monad. With the model's own functions it *is* `density`
(when the restart parameter does nothing, proved in `Verif/Props`); with counting functions it also returns how often they were called. -/

namespace Aga8

/-- How often the equation of state was evaluated so far. -/
structure Work where
  /-- calls of `pressure()` -/
  pressures : Nat
  /-- calls of `properties()` -/
  properties : Nat
  /-- restarts of the GERG search -/
  restarts : Nat

/-- Computations that may panic and count evaluations. -/
abbrev Counted (α : Type) := StateT Work (Except Panic) α

/-- A counted call. -/
def countP {α β : Type} (f : α → Res β) (a : α) : Counted β := fun w => do
  let r ← f a
  pure (r, { w with pressures := w.pressures + 1 })

/-- A counted call. -/
def countQ {α β : Type} (f : α → Res β) (a : α) : Counted β := fun w => do
  let r ← f a
  pure (r, { w with properties := w.properties + 1 })

/-- A counted restart. -/
def countR : Counted Unit := fun w => pure ((), { w with restarts := w.restarts + 1 })

variable {F : Type} [Add F] [Sub F] [Mul F] [Div F] [Neg F] [FOps F]
variable {m : Type → Type} [Monad m]

open FOps

namespace Detail

/-- src/detail.rs:1319-1344 with the evaluation as a parameter. -/
def densityLoopWith (eval : Detail F → m (Detail F × F)) (plog : F) :
    Nat → F → Detail F → m (Detail F × Except DensityError Unit)
  | 0, _, s => pure ({ s with d := s.p / RDETAIL / s.t }, .error .IterationFail)
  | n + 1, vlog, s =>
    if !(-(f% 7.0) <=. vlog && vlog <=. f% 100.0) then
      pure ({ s with d := s.p / RDETAIL / s.t }, .error .IterationFail)
    else do
      let s := { s with d := exp (-vlog) }
      let (s, p2) ← eval s
      if s.dp_dd_save <. EPSILON || p2 <. EPSILON then
        densityLoopWith eval plog n (vlog + f% 0.1) s
      else
        let dpdlv := -s.d * s.dp_dd_save
        let vdiff := (ln p2 - plog) * p2 / dpdlv
        let vlog := vlog - vdiff
        if abs vdiff <. TOLR then
          pure ({ s with d := exp (-vlog) }, .ok ())
        else
          densityLoopWith eval plog n vlog s

/-- src/detail.rs:1302-1345 with the evaluation as a parameter. -/
def densityWith (eval : Detail F → m (Detail F × F)) (s : Detail F) :
    m (Detail F × Except DensityError Unit) :=
  if abs s.p <. EPSILON then
    pure ({ s with d := f% 0.0 }, .error .PressureTooLow)
  else
    let s := if -EPSILON <. s.d then { s with d := s.p / RDETAIL / s.t } else { s with d := abs s.d }
    let plog := ln s.p
    let vlog := -ln s.d
    densityLoopWith eval plog 20 vlog s

end Detail

namespace Gerg

/-- src/gerg2008.rs:4309-4376 with the evaluations as parameters. -/
def densityLoopWith (eval : Gerg F → m (Gerg F × F)) (props : Gerg F → m (Gerg F × F))
    (restarted : m Unit) (iflag : Int) (dcx plog : F) :
    (n it : Nat) → (nfail ifail : Int) → F → Gerg F → m (Gerg F × Except DensityError Unit)
  | 0, _, _, _, _, s => pure ({ s with d := s.p / RGERG / s.t }, .error .IterationFail)
  | n + 1, it, nfail, ifail, vlog, s =>
    let restart : Bool := !inRange vlog || it == 20 || it == 30 || it == 40 || ifail == 1
    if restart && nfail > 2 then
      pure ({ s with d := s.p / RGERG / s.t }, .error .IterationFail)
    else do
      if restart then restarted
      let ifail := if restart then 0 else ifail
      let nfail := if restart then nfail + 1 else nfail
      let s := if restart then { s with d := restartD dcx nfail s.d } else s
      let vlog := if restart then -ln s.d else vlog
      let s := { s with d := exp (-vlog) }
      let (s, p2) ← eval s
      if s.dpddsave <. EPSILON || p2 <. EPSILON then
        densityLoopWith eval props restarted iflag dcx plog n (it + 1) nfail ifail (vlog + vincAt dcx s.d it) s
      else
        let dpdlv := -s.d * s.dpddsave
        let vdiff := (ln p2 - plog) * p2 / dpdlv
        let vlog := vlog + -vdiff
        if abs vdiff <. TOLR then
          if s.dpddsave <. f% 0.0 then
            densityLoopWith eval props restarted iflag dcx plog n (it + 1) nfail 1 vlog s
          else
            let s := { s with d := exp (-vlog) }
            if iflag > 0 then do
              let (s, pp) ← props s
              if (pp <=. f% 0.0 || s.dp_dd <=. f% 0.0 || s.d2p_dtd <=. f% 0.0)
                  || (s.cv <=. f% 0.0 || s.cp <=. f% 0.0 || s.w <=. f% 0.0) then
                pure ({ s with d := s.p / RGERG / s.t }, .error .IterationFail)
              else
                pure (s, .error .IterationFail)
            else
              pure (s, .ok ())
        else
          densityLoopWith eval props restarted iflag dcx plog n (it + 1) nfail ifail vlog s

/-- src/gerg2008.rs:4290-4377 with the evaluations as parameters. -/
def densityWith (eval : Gerg F → m (Gerg F × F)) (props : Gerg F → m (Gerg F × F))
    (restarted : m Unit) (s : Gerg F) (iflag : Int) : m (Gerg F × Except DensityError Unit) :=
  let dcx := (pseudocriticalpoint s).1
  let s :=
    if -EPSILON <. s.d then
      let s := { s with d := s.p / RGERG / s.t }
      if iflag == 2 then { s with d := dcx * f% 3.0 } else s
    else { s with d := abs s.d }
  let plog := ln s.p
  let vlog := -ln s.d
  densityLoopWith eval props restarted iflag dcx plog 50 1 0 0 vlog s

end Gerg

end Aga8
