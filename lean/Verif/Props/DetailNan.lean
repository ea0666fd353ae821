import Verif.Lemmas.DetailNanExact
import Verif.Props.F64

/-! # NaN inputs and later results of a DETAIL object, in f64 arithmetic (C21)

The property "after a NaN input, valid inputs give valid results again" is false of the code: the next valid state is
evaluated as an ideal gas, Z = 1. These theorems prove, for every math library, that Z is exactly 1 or NaN; after a NaN
composition it is exactly 1 under two mild assumptions on the math library (`C21_detail_nan_composition_ideal`).
`DetailNanWitness` adds the contrast with a new object and complete runs. -/

namespace Aga8

open FOps Detail Detail.Tab F64

variable [Libm]

theorem nan_final {n0 : Detail Float} (h0 : Detail.new = .ok n0) {ops : List (Op Float)}
    {s : Detail Float} (e : (runP n0 ops).1 = s)
    (hv : ZView (view s)) : ∃ s outs, runNew ops = .ok (s, outs) ∧
      (∃ r, s.pressure = .ok r ∧ IdealOrNan r.1.z ∧ r.2 = s.d * RDETAIL * s.t * r.1.z) ∧
      (∃ r, s.properties = .ok r ∧ IdealOrNan r.z) := by
  subst e
  exact ⟨_, (runP n0 ops).2, by simp only [runNew, h0, bind, Except.bind, run_eq],
    ⟨_, pressure_ok _, z_pressure hv, pressureP_snd _⟩, ⟨_, properties_ok _, z_properties hv⟩⟩

theorem tDiff_nan_left {a : Float} (h : a.isNaN = true) (b : Float) : tDiff a b = false := by
  unfold tDiff; exact nan_far_left h b
theorem tDiff_nan_right (a : Float) {b : Float} (h : b.isNaN = true) : tDiff a b = false := by
  unfold tDiff; exact nan_far_right a h
theorem tDiff_self (a : Float) : tDiff a a = false := by
  unfold tDiff; exact selfDiff a

theorem told_step (s : Detail Float) : (stepP s .pressure).1.told = s.t := by
  simp only [stepP, told_pressureP]
theorem xold_step (s : Detail Float) : (stepP s .pressure).1.xold = s.x := by
  simp only [stepP, xold_pressureP]
theorem run_split (s : Detail Float) (op : Op Float) (ops1 ops2 : List (Op Float)) :
    (runP s (op :: (ops1 ++ .pressure :: ops2))).1
      = (runP (stepP (runP (stepP s op).1 ops1).1 .pressure).1 ops2).1 := by
  rw [runP, runP_append, runP]
theorem new_invT {n0 : Detail Float} (c1 : ∀ n, ZN (aget n0.tun n)) {q : Pub Float}
    (hq : q.t.isNaN = true) :
    InvT (fun a => a.isNaN = true) (fun _ => True) (stepP n0 (.write q)).1 :=
  ⟨c1, hq, trivial⟩

/-- C21, temperature. A new object is given a NaN temperature, any further use is made of it as long as the
temperature stays NaN, the pressure is evaluated, and then the temperature is set to any `T`. However the object is
used from then on (new densities, pressures, compositions, any calls), as long as the temperature is only ever set
to this `T` or to NaN, the compressibility factor of every evaluation is exactly 1 or NaN: the state is silently
evaluated as an ideal gas. -/
theorem C21_detail_nan_temperature_ideal_or_nan (T : Float) (q : Pub Float) (hq : q.t.isNaN = true)
    (ops1 ops2 : List (Op Float)) (h1 : ∀ op ∈ ops1, NanT op) (h2 : ∀ op ∈ ops2, KeepsT T op) :
    ∃ s outs, runNew (.write q :: (ops1 ++ .pressure :: ops2)) = .ok (s, outs) ∧
      (∃ r, s.pressure = .ok r ∧ IdealOrNan r.1.z ∧ r.2 = s.d * RDETAIL * s.t * r.1.z) ∧
      (∃ r, s.properties = .ok r ∧ IdealOrNan r.z) := by
  obtain ⟨c1, -, -, -, -⟩ := new_cache
  have h0 := Detail.new_ok (F := Float)
  generalize (newP : Detail Float) = n0 at *
  have i1 : InvT (fun a => a.isNaN = true) (fun _ => True) (stepP n0 (.write q)).1 :=
    new_invT c1 hq
  have i2 := invT_run (fun _ _ => trivial) (fun a b ha _ => tDiff_nan_left ha b) ops1 i1 (by
    rintro op hop q' rfl
    exact h1 _ hop)
  generalize hs : (runP (stepP n0 (.write q)).1 ops1).1 = s1 at i2
  have i3 := invT_step (fun _ _ => trivial) (fun a b ha _ => tDiff_nan_left ha b) i2 .pressure (by
    intro q' h; cases h)
  have hn : ∀ a b : Float, (a.isNaN = true ∨ a = T) → (b.isNaN = true ∨ b = T) → tDiff a b = false := by
    rintro a b (ha | rfl) (hb | rfl)
    · exact tDiff_nan_left ha b
    · exact tDiff_nan_left ha _
    · exact tDiff_nan_right _ hb
    · exact tDiff_self _
  have hto : (stepP s1 .pressure).1.told.isNaN = true := by rw [told_step]; exact i2.t
  have e := run_split n0 (.write q) ops1 ops2
  rw [hs] at e
  generalize (stepP s1 .pressure).1 = s2 at *
  have i4 : InvT (fun a => a.isNaN = true ∨ a = T) (fun a => a.isNaN = true ∨ a = T) s2 :=
    ⟨i3.tun, Or.inl i3.t, Or.inl hto⟩
  have i5 := invT_run (fun _ h => h) hn ops2 i4 (by
    rintro op hop q' rfl
    exact h2 _ hop)
  have hv := invT_view hn i5
  exact nan_final h0 e hv

/-- C21, composition. A new object is given fractions `x` that are NaN wherever they are not zero (such a
composition is accepted by `set_composition`), the pressure is evaluated with them, and then the fractions `y` of
any mixture of these components are set. However the object is used from then on (any temperatures, pressures,
densities, any calls), as long as the fractions are only ever set to `y` or `x`, the compressibility factor of every
evaluation is exactly 1 or NaN. -/
theorem C21_detail_nan_composition_ideal_or_nan (x y : Vector Float 21) (hxy : NanMask x y) (op : Op Float)
    (h0 : AssignsX x op) (ops1 ops2 : List (Op Float))
    (h1 : ∀ op ∈ ops1, LeavesX op ∨ AssignsX x op)
    (h2 : ∀ op ∈ ops2, LeavesX op ∨ AssignsX x op ∨ AssignsX y op) :
    ∃ s outs, runNew (op :: (ops1 ++ .pressure :: ops2)) = .ok (s, outs) ∧
      (∃ r, s.pressure = .ok r ∧ IdealOrNan r.1.z ∧ r.2 = s.d * RDETAIL * s.t * r.1.z) ∧
      (∃ r, s.properties = .ok r ∧ IdealOrNan r.z) := by
  obtain ⟨-, c2, c3, -, c5⟩ := new_cache
  have hnew := Detail.new_ok (F := Float)
  generalize (newP : Detail Float) = n0 at *
  have zz : ∀ {a b : Float}, IsZ a → IsZ b → ZN (a - b) := fun ha hb => zn_sub (Or.inl ha) (Or.inl hb)
  have xx : xDiff x x = false := xDiff_false fun i => sub_self_cases _
  have yy : xDiff y y = false := xDiff_false fun i => sub_self_cases _
  have xy : xDiff x y = false := xDiff_false fun i => by
    rcases hxy i with h | ⟨a, b⟩
    · exact Or.inr (nan_sub_left h _)
    · exact zz a b
  have yx : xDiff y x = false := xDiff_false fun i => by
    rcases hxy i with h | ⟨a, b⟩
    · exact Or.inr (nan_sub_right _ h)
    · exact zz b a
  have x0 : xDiff x (fill 21 (f% 0.0)) = false := xDiff_false fun i => by
    rw [aget_fill]
    rcases hxy i with h | ⟨a, b⟩
    · exact Or.inr (nan_sub_left h _)
    · exact zz a ⟨_, lit0⟩
  have hn1 : ∀ a b : Vector Float 21, a = x → (b = x ∨ b = fill 21 (f% 0.0)) → xDiff a b = false := by
    rintro a b rfl (rfl | rfl)
    · exact xx
    · exact x0
  have hx0 : (stepP n0 op).1.x = x ∧ cache (stepP n0 op).1 = cache n0 := by
    cases op with
    | write q => exact ⟨h0, cache_setPub _ _⟩
    | setComposition c =>
      refine ⟨?_, (set_composition_frame _ c).2⟩
      show (set_composition n0 c).1.x = x
      rw [set_composition_eq, h0.1]
      show compX _ c = x
      exact compX_eq _ _ _ h0.2
    | molarMass => exact h0.elim
    | pressure => exact h0.elim
    | density => exact h0.elim
    | properties => exact h0.elim
  have i1 : InvX (fun a => a = x) (fun b => b = x ∨ b = fill 21 (f% 0.0)) (stepP n0 op).1 := by
    refine ⟨?_, ?_, hx0.1, ?_⟩
    · rw [cache_bs hx0.2]; exact c2
    · rw [cache_csn hx0.2]; exact c3
    · rw [cache_xold hx0.2]; exact Or.inr c5
  have i2 := invX_run (fun _ h => Or.inl h) hn1 ops1 i1 (by
    intro o ho
    rcases h1 o ho with h | h
    · exact Or.inl h
    · exact Or.inr ⟨x, rfl, h⟩)
  generalize hs : (runP (stepP n0 op).1 ops1).1 = s1 at i2
  have i3 := invX_step (fun _ h => Or.inl h) hn1 i2 .pressure (Or.inl trivial)
  have hn2 : ∀ a b : Vector Float 21, (a = x ∨ a = y) → (b = x ∨ b = y) → xDiff a b = false := by
    rintro a b (rfl | rfl) (rfl | rfl)
    · exact xx
    · exact xy
    · exact yx
    · exact yy
  have hxo : (stepP s1 .pressure).1.xold = x := by rw [xold_step]; exact i2.x
  have e := run_split n0 op ops1 ops2
  rw [hs] at e
  generalize (stepP s1 .pressure).1 = s2 at *
  have i4 : InvX (fun a => a = x ∨ a = y) (fun a => a = x ∨ a = y) s2 :=
    ⟨i3.bs, i3.csn, Or.inl i3.x, Or.inl hxo⟩
  have i5 := invX_run (fun _ h => h) hn2 ops2 i4 (by
    intro o ho
    rcases h2 o ho with h | h | h
    · exact Or.inl h
    · exact Or.inr ⟨x, Or.inl rfl, h⟩
    · exact Or.inr ⟨y, Or.inr rfl, h⟩)
  have hv := invX_view hn2 i5
  exact nan_final hnew e hv

/-- C21, composition, exact form. The math library is only assumed to return numbers for `exp` of numbers that are not
positive, and for `powf` with a base from 1 to 10⁴ and an exponent up to ±30. A new object is given a state, then fractions
`x` that are NaN wherever they are not zero; the pressure is evaluated; any further use follows with temperatures from 1 K to
10⁴ K and fractions `x` or `y`; finally a valid state `q` with the fractions `y` is set. Then both `pressure` and `properties`
report a compressibility factor of exactly 1, whatever the mixture `y`, the temperature and the density are. -/
theorem C21_detail_nan_composition_ideal (hexp : ExpFinite) (hpow : PowfFinite)
    (x y : Vector Float 21) (hxy : NanMask x y) (q0 : Pub Float) (hq0 : GoodT q0.t) (op : Op Float)
    (h0 : AssignsX x op) (ops1 ops2 : List (Op Float))
    (h1 : ∀ op ∈ ops1, LeavesX op ∨ AssignsX x op)
    (h2 : ∀ op ∈ ops2, LeavesX op ∨ AssignsX x op ∨ AssignsX y op)
    (ht : ∀ o ∈ op :: (ops1 ++ ops2), ∀ q, o = .write q → GoodT q.t)
    (q : Pub Float) (hqx : q.x = y) (hqt : GoodT q.t) (hqd : IsFinite q.d) :
    ∃ s outs, runNew (.write q0 :: op :: (ops1 ++ .pressure :: (ops2 ++ [.write q]))) = .ok (s, outs) ∧ pub s = q ∧
      (∃ r, s.pressure = .ok r ∧ IsFinite r.1.z ∧ toR r.1.z = 1) ∧
      (∃ r, s.properties = .ok r ∧ IsFinite r.z ∧ toR r.z = 1) := by
  have hc : cache (newP : Detail Float) = cache default := newP_frame.2.1
  have hnew := Detail.new_ok (F := Float)
  have b1 : IsZ (newP : Detail Float).k3 := by
    rw [show (newP : Detail Float).k3 = f% 0.0 from congrArg Cache.k3 hc]; exact ⟨_, lit0⟩
  have b2 : ∀ n, IsZ (aget (newP : Detail Float).bs n) := by
    intro n
    rw [show (newP : Detail Float).bs = fill 18 (f% 0.0) from congrArg Cache.bs hc, aget_fill]; exact ⟨_, lit0⟩
  have b3 : ∀ n, IsZ (aget (csnRead (newP : Detail Float).csn) n) := by
    intro n
    rw [show (newP : Detail Float).csn = fill 58 (f% 0.0) from congrArg Cache.csn hc]
    unfold csnRead; rw [aget_ofFn, aget_fill, ite_self]; exact ⟨_, lit0⟩
  have b4 : ∀ n, IsFinite (aget (newP : Detail Float).tun n) := by
    intro n
    rw [show (newP : Detail Float).tun = fill 58 (f% 0.0) from congrArg Cache.tun hc, aget_fill]; exact fin0
  have b5 : (newP : Detail Float).xold = fill 21 (f% 0.0) := congrArg Cache.xold hc
  clear hc
  generalize (newP : Detail Float) = n0 at *
  have zz : ∀ {a b : Float}, IsZ a → IsZ b → ZN (a - b) := fun ha hb => zn_sub (Or.inl ha) (Or.inl hb)
  have xx : xDiff x x = false := xDiff_false fun i => sub_self_cases _
  have yy : xDiff y y = false := xDiff_false fun i => sub_self_cases _
  have xy : xDiff x y = false := xDiff_false fun i => by
    rcases hxy i with h | ⟨a, b⟩
    · exact Or.inr (nan_sub_left h _)
    · exact zz a b
  have yx : xDiff y x = false := xDiff_false fun i => by
    rcases hxy i with h | ⟨a, b⟩
    · exact Or.inr (nan_sub_right _ h)
    · exact zz b a
  have x0 : xDiff x (fill 21 (f% 0.0)) = false := xDiff_false fun i => by
    rw [aget_fill]
    rcases hxy i with h | ⟨a, b⟩
    · exact Or.inr (nan_sub_left h _)
    · exact zz a ⟨_, lit0⟩
  have hn1 : ∀ a b : Vector Float 21, a = x → (b = x ∨ b = fill 21 (f% 0.0)) → xDiff a b = false := by
    rintro a b rfl (rfl | rfl)
    · exact xx
    · exact x0
  have hn2 : ∀ a b : Vector Float 21, (a = x ∨ a = y) → (b = x ∨ b = y) → xDiff a b = false := by
    rintro a b (rfl | rfl) (rfl | rfl)
    · exact xx
    · exact xy
    · exact yx
    · exact yy
  have w0 : cache (stepP n0 (.write q0)).1 = cache n0 := cache_setPub _ _
  have w0t : (stepP n0 (.write q0)).1.t = q0.t := rfl
  have e : (runP n0 (.write q0 :: op :: (ops1 ++ .pressure :: (ops2 ++ [.write q])))).1
      = setPub (runP (stepP (runP (stepP (stepP n0 (.write q0)).1 op).1 ops1).1 .pressure).1 ops2).1 q := by
    simp only [runP, runP_append]
    rfl
  generalize (stepP n0 (.write q0)).1 = n1 at *
  have hx0 : (stepP n1 op).1.x = x ∧ cache (stepP n1 op).1 = cache n1 := by
    cases op with
    | write q => exact ⟨h0, cache_setPub _ _⟩
    | setComposition c =>
      refine ⟨?_, (set_composition_frame _ c).2⟩
      show (set_composition n1 c).1.x = x
      rw [set_composition_eq, h0.1]
      show compX _ c = x
      exact compX_eq _ _ _ h0.2
    | molarMass => exact h0.elim
    | pressure => exact h0.elim
    | density => exact h0.elim
    | properties => exact h0.elim
  have t1 : GoodT (stepP n1 op).1.t := by
    by_cases hw : ∃ q, op = .write q
    · obtain ⟨q', rfl⟩ := hw; exact ht _ (List.mem_cons_self ..) q' rfl
    · rw [step_t n1 op (fun q e => hw ⟨q, e⟩), w0t]; exact hq0
  have hc := hx0.2.trans w0
  have i1 : InvZ (fun a => a = x) (fun b => b = x ∨ b = fill 21 (f% 0.0)) (stepP n1 op).1 := by
    refine ⟨?_, ?_, ?_, ?_, hx0.1, ?_, t1⟩
    · rw [cache_k3 hc]; exact b1
    · rw [cache_bs hc]; exact b2
    · rw [cache_csn hc]; exact b3
    · rw [cache_tun hc]; exact b4
    · rw [cache_xold hc]; exact Or.inr b5
  generalize (stepP n1 op).1 = n2 at *
  have i2 := invZ_run hpow (fun _ h => Or.inl h) hn1 ops1 i1 (by
    intro o ho
    rcases h1 o ho with h | h
    · exact Or.inl h
    · exact Or.inr ⟨x, rfl, h⟩)
    (fun o ho => ht o (List.mem_cons_of_mem _ (List.mem_append_left _ ho)))
  generalize (runP n2 ops1).1 = n3 at *
  have i3 := invZ_step hpow (fun _ h => Or.inl h) hn1 i2 .pressure (Or.inl trivial) (fun _ h => by cases h)
  have hxo : (stepP n3 .pressure).1.xold = x := by rw [xold_step]; exact i2.x
  generalize (stepP n3 .pressure).1 = n4 at *
  have i4 : InvZ (fun a => a = x ∨ a = y) (fun a => a = x ∨ a = y) n4 :=
    ⟨i3.k3, i3.bs, i3.csn, i3.tun, Or.inl i3.x, Or.inl hxo, i3.t⟩
  have i5 := invZ_run hpow (fun _ h => h) hn2 ops2 i4 (by
    intro o ho
    rcases h2 o ho with h | h | h
    · exact Or.inl h
    · exact Or.inr ⟨x, Or.inl rfl, h⟩
    · exact Or.inr ⟨y, Or.inr rfl, h⟩)
    (fun o ho => ht o (List.mem_cons_of_mem _ (List.mem_append_right _ ho)))
  generalize (runP n4 ops2).1 = n5 at *
  have i6 : InvZ (fun a => a = x ∨ a = y) (fun a => a = x ∨ a = y) (setPub n5 q) :=
    invZ_step hpow (fun _ h => h) hn2 i5 (.write q) (Or.inr ⟨y, Or.inr rfl, hqx⟩) (by rintro _ ⟨⟩; exact hqt)
  have z := z_exact hexp (invZ_view hpow hn2 i6) (show IsFinite q.d from hqd) (show GoodT q.t from hqt)
  refine ⟨setPub n5 q, (runP n0 (.write q0 :: op :: (ops1 ++ .pressure :: (ops2 ++ [.write q])))).2, ?_, rfl,
    ⟨_, pressure_ok _, z.1⟩, ⟨_, properties_ok _, z.2⟩⟩
  rw [← e]
  simp only [runNew, hnew, bind, Except.bind, run_eq]

/-! ## Non-vacuity -/

/-- A NaN. -/
def nanF : Float := Float.ofBits 0x7ff8000000000000

omit [Libm] in
theorem nanF_nan : nanF.isNaN = true := by decide +kernel

/-- Methane and ethane, both NaN. -/
def nanComp : Composition Float := { Composition.default with methane := nanF, ethane := nanF }

/-- The fractions of `nanComp` and of a methane-ethane mixture. -/
def nanX : Vector Float 21 := Vector.ofFn nanComp.frac
def mixX : Vector Float 21 :=
  Vector.ofFn ({ Composition.default with methane := f% 0.83, ethane := f% 0.17 } : Composition Float).frac

/-- A user sets the NaN composition (it is accepted), evaluates, writes a proper state, and evaluates twice. -/
example (q : Pub Float) (hq : q.x = mixX) :
    ∃ s outs, runNew [.setComposition nanComp, .pressure, .write q, .density, .properties] = .ok (s, outs) ∧
      ∃ r, s.pressure = .ok r ∧ IdealOrNan r.1.z := by
  have hm : NanMask nanX mixX := by
    intro i
    unfold nanX mixX
    rw [aget_ofFn, aget_ofFn]
    fin_cases i
    · exact Or.inl nanF_nan
    · exact Or.inr ⟨⟨_, lit0⟩, ⟨_, lit0⟩⟩
    · exact Or.inr ⟨⟨_, lit0⟩, ⟨_, lit0⟩⟩
    · exact Or.inl nanF_nan
    all_goals exact Or.inr ⟨⟨_, lit0⟩, ⟨_, lit0⟩⟩
  have ha : AssignsX nanX (.setComposition nanComp) :=
    ⟨C02_f64_nan_accepted _ 0 nanF_nan, fun i => by unfold nanX; rw [aget_ofFn]⟩
  obtain ⟨s, outs, h1, ⟨r, h2, h3, -⟩, -⟩ := C21_detail_nan_composition_ideal_or_nan nanX mixX hm
    (.setComposition nanComp) ha [] [.write q, .density, .properties] (fun _ h => by cases h) (by
      intro op hop
      simp only [List.mem_cons, List.not_mem_nil, or_false] at hop
      rcases hop with rfl | rfl | rfl
      · exact Or.inr (Or.inr hq)
      · exact Or.inl trivial
      · exact Or.inl trivial)
  exact ⟨s, outs, h1, r, h2, h3⟩

/-- A user evaluates with a NaN temperature, then at 300 K. -/
example (q : Pub Float) (hq : q.t.isNaN = true) :
    ∃ s outs, runNew [.write q, .pressure, .write { q with t := f% 300.0 }, .density, .properties]
        = .ok (s, outs) ∧ ∃ r, s.pressure = .ok r ∧ IdealOrNan r.1.z := by
  obtain ⟨s, outs, h1, ⟨r, h2, h3, -⟩, -⟩ := C21_detail_nan_temperature_ideal_or_nan (f% 300.0) q hq []
    [.write { q with t := f% 300.0 }, .density, .properties] (fun _ h => by cases h) (by
      intro op hop
      simp only [List.mem_cons, List.not_mem_nil, or_false] at hop
      rcases hop with rfl | rfl | rfl
      · exact Or.inr rfl
      · trivial
      · trivial)
  exact ⟨s, outs, h1, r, h2, h3⟩

/-- The assumptions on the math library can be met. (Any real library meets them too; that is not provable here, as its
functions are not modelled.) -/
example : ∃ L : Libm, @ExpFinite L ∧ @PowfFinite L := by
  have h : IsFinite (Float.ofScientific 1 true 0) := by unfold IsFinite; rw [lit1']; trivial
  exact ⟨⟨fun _ => Float.ofScientific 1 true 0, fun a => a, fun _ _ => Float.ofScientific 1 true 0, fun a _ => a⟩,
    fun _ _ _ => h, fun _ _ _ _ _ _ _ => h⟩

theorem goodT_300 : GoodT (f% 300.0 : Float) := by
  have h : up (f% 300.0 : Float) = .finite .positive 5277655813324800 (-44) (by decide) := by
    show up (Float.ofScientific 300 true 0) = _
    decide +kernel
  have e : toR (f% 300.0 : Float) = 300 := by
    unfold toR; rw [h]; simp [val, sg, zpow_neg]; norm_num
  exact ⟨by unfold IsFinite; rw [h]; trivial, by rw [e]; norm_num, by rw [e]; norm_num⟩

/-- A user sets 300 K, then the NaN composition, evaluates, sets a methane-ethane mixture at 300 K and some density, and gets
the compressibility factor 1. -/
example (hexp : ExpFinite) (hpow : PowfFinite) (q : Pub Float) (hx : q.x = mixX) (ht : q.t = f% 300.0)
    (hd : IsFinite q.d) :
    ∃ s outs, runNew [.write q, .setComposition nanComp, .pressure, .density, .write q] = .ok (s, outs) ∧
      ∃ r, s.pressure = .ok r ∧ toR r.1.z = 1 := by
  have hm : NanMask nanX mixX := by
    intro i
    unfold nanX mixX
    rw [aget_ofFn, aget_ofFn]
    fin_cases i
    · exact Or.inl nanF_nan
    · exact Or.inr ⟨⟨_, lit0⟩, ⟨_, lit0⟩⟩
    · exact Or.inr ⟨⟨_, lit0⟩, ⟨_, lit0⟩⟩
    · exact Or.inl nanF_nan
    all_goals exact Or.inr ⟨⟨_, lit0⟩, ⟨_, lit0⟩⟩
  have ha : AssignsX nanX (.setComposition nanComp) :=
    ⟨C02_f64_nan_accepted _ 0 nanF_nan, fun i => by unfold nanX; rw [aget_ofFn]⟩
  obtain ⟨s, outs, h1, -, ⟨r, h2, -, h3⟩, -⟩ := C21_detail_nan_composition_ideal hexp hpow nanX mixX hm q
    (ht ▸ goodT_300) (.setComposition nanComp) ha [] [.density] (fun _ h => by cases h) (by
      intro op hop
      rw [List.mem_singleton] at hop
      subst hop
      exact Or.inl trivial) (by
      intro o ho q' e
      subst e
      simp at ho) q hx (ht ▸ goodT_300) hd
  exact ⟨s, outs, h1, r, h2, h3⟩

end Aga8
