import Verif.Lemmas.GergErrCond
import Verif.Lemmas.GergErrCondLow
import Verif.Lemmas.DetailErrCond
import Verif.Lemmas.DetailErrCondLow
import Verif.Props.DetailError
import Verif.Props.GergError

/-! # C67: the rounding error of the isobaric heat capacity, the speed of sound, the isentropic exponent and the Joule-Thomson
coefficient

These theorems are about IEEE-754 arithmetic, with any `exp`, `powf`, `powi` and `ln` that are accurate in the sense of
`Spec/F64Accuracy`. They compare the f64 results with the thermodynamic definitions of `Spec/CondError`, evaluated on real
numbers. The four results divide by sums with cancellation, so their relative error is proportional to the factor `K` that
`Conditioned` allows these sums to lose. -/

set_option linter.unusedSectionVars false

namespace Aga8

open F64

attribute [local irreducible] Gerg.newP Gerg.pressureP Gerg.propertiesP Detail.pressureP Detail.propertiesP

variable [Libm]

theorem rl_small {K : ℝ} {a : Float} {α m B : ℝ} {n l h : ℕ} (A : Rl (1e-10 * K) a α m n l h) (hB : (n : ℝ) * 1e-10 * K ≤ B) :
    |toR a - α| ≤ B * m := by
  have m0 : 0 ≤ m := (abs_nonneg α).trans A.mag
  refine A.err.trans (mul_le_mul_of_nonneg_right ?_ m0)
  linarith

/-- C67, DETAIL: with an accurate math library, on a new object with inputs in the stated range, non-negative mole fractions, a
temperature of at least 50 K and a state at which no derivative loses more than a factor `K` to cancellation, `properties`
stores an isobaric heat capacity, a speed of sound and an isentropic exponent that are finite and have relative errors of at
most 2.7e-9 K, 2.5e-9 K and 6.7e-9 K, and a finite Joule-Thomson coefficient with an error of at most 4.7e-9 K of the size of
its terms. -/
theorem C67_detail_error (hL : LibmAccurate) (hN : LnAccurate) (new0 : Detail Float) (hnew : Detail.new = .ok new0)
    (q : Detail.Pub Float) (hq : Detail.ErrDomain q) (hx : ∀ i, 0 ≤ toR (aget q.x i)) (hT : 50 ≤ toR q.t)
    (hD : 1e-4 ≤ toR q.d) (K : ℝ) (hC : Eos.Conditioned (Detail.fracs q) (toR q.d) (toR q.t) K) :
    ∃ s', (Detail.setPub new0 q).properties = .ok s' ∧
      IsFinite s'.cp ∧ IsFinite s'.w ∧ IsFinite s'.kappa ∧ IsFinite s'.jt ∧
      |toR s'.cp - Eos.heatP (Detail.fracs q) (toR q.d) (toR q.t)|
        ≤ 2.7e-9 * K * Eos.heatP (Detail.fracs q) (toR q.d) (toR q.t) ∧
      |toR s'.w - Eos.speed (Detail.fracs q) (toR q.d) (toR q.t)|
        ≤ 2.5e-9 * K * Eos.speed (Detail.fracs q) (toR q.d) (toR q.t) ∧
      |toR s'.kappa - Eos.exponent (Detail.fracs q) (toR q.d) (toR q.t)|
        ≤ 6.7e-9 * K * Eos.exponent (Detail.fracs q) (toR q.d) (toR q.t) ∧
      |toR s'.jt - Eos.jt (Detail.fracs q) (toR q.d) (toR q.t)|
        ≤ 4.7e-9 * K * Eos.jtAbs (Detail.fracs q) (toR q.d) (toR q.t) := by
  have e : new0 = Detail.newP := Except.ok.inj (hnew.symm.trans Detail.new_ok)
  subst e
  obtain ⟨A, B, C, E⟩ := Detail.cond_rls hL hN hq hT hD hx hC
  exact ⟨Detail.propertiesP (Detail.freshOf q), Detail.properties_ok _, A.fin, B.fin, C.fin, E.fin,
    rl_small A (le_of_eq (by norm_num)), rl_small B (le_of_eq (by norm_num)), rl_small C (le_of_eq (by norm_num)),
    rl_small E (le_of_eq (by norm_num))⟩

/-- C67, DETAIL methane: for pure methane at 184 K to 600 K and 1e-4 mol/l to 0.1 mol/l the condition holds with a factor 5, so
that the relative errors of the isobaric heat capacity, the speed of sound and the isentropic exponent are below 3.4e-8. -/
theorem C67_detail_methane (hL : LibmAccurate) (hN : LnAccurate) (new0 : Detail Float) (hnew : Detail.new = .ok new0)
    (q : Detail.Pub Float) (hx : ∀ i, IsFinite (aget q.x i) ∧ toR (aget q.x i) = if i = 0 then 1 else 0)
    (ht : IsFinite q.t) (ht1 : 184 ≤ toR q.t) (ht2 : toR q.t ≤ 600)
    (hd : IsFinite q.d) (hd1 : 1e-4 ≤ toR q.d) (hd2 : toR q.d ≤ 0.1) :
    ∃ s', (Detail.setPub new0 q).properties = .ok s' ∧
      |toR s'.cp - Eos.heatP (fun i => if i = 0 then 1 else 0) (toR q.d) (toR q.t)|
        ≤ 1.4e-8 * Eos.heatP (fun i => if i = 0 then 1 else 0) (toR q.d) (toR q.t) ∧
      |toR s'.w - Eos.speed (fun i => if i = 0 then 1 else 0) (toR q.d) (toR q.t)|
        ≤ 1.3e-8 * Eos.speed (fun i => if i = 0 then 1 else 0) (toR q.d) (toR q.t) ∧
      |toR s'.kappa - Eos.exponent (fun i => if i = 0 then 1 else 0) (toR q.d) (toR q.t)|
        ≤ 3.4e-8 * Eos.exponent (fun i => if i = 0 then 1 else 0) (toR q.d) (toR q.t) ∧
      |toR s'.jt - Eos.jt (fun i => if i = 0 then 1 else 0) (toR q.d) (toR q.t)|
        ≤ 2.4e-8 * Eos.jtAbs (fun i => if i = 0 then 1 else 0) (toR q.d) (toR q.t) := by
  have hf := Detail.fracs_methane hx
  have hf2 : (fun i => if i = 0 then 1 else 0) = Detail.fracs q := by
    funext i
    rw [hf, Detail.posPart_mx]
  have hq : Detail.ErrDomain q := by
    refine ⟨ht, by linarith, by linarith, hd, Or.inr ⟨hd1, by norm_num at hd2; linarith⟩, ?_, fun i => (hx i).1, ?_, 0, ?_⟩
    · rw [hf, Detail.Kcubed_mx]
      unfold Detail.mK
      norm_num at hd2 ⊢
      linarith
    · intro i
      rw [(hx i).2]
      split <;> norm_num
    · rw [(hx 0).2]; norm_num
  have hC := Detail.conditioned_low ht1 ht2 hd1 hd2
  rw [← hf] at hC
  have e : new0 = Detail.newP := Except.ok.inj (hnew.symm.trans Detail.new_ok)
  subst e
  obtain ⟨A, B, C, E⟩ := Detail.cond_rls hL hN hq (by linarith) hd1 (fun i => by rw [(hx i).2]; split <;> norm_num) hC
  rw [hf2]
  exact ⟨Detail.propertiesP (Detail.freshOf q), Detail.properties_ok _, rl_small A (by norm_num), rl_small B (by norm_num),
    rl_small C (by norm_num), rl_small E (by norm_num)⟩

/-- C67, GERG-2008: the same with the GERG-2008 equation, up to 1000 K. -/
theorem C67_gerg_error (hL : LibmAccurate) (hN : LnAccurate) (new0 : Gerg Float) (hnew : Gerg.new = .ok new0)
    (q : Gerg.Pub Float) (hq : Gerg.ErrDomain q) (hx : ∀ i : Fin 22, 1 ≤ i.1 → 0 ≤ toR (aget q.x i)) (hT1 : 50 ≤ toR q.t)
    (hT2 : toR q.t ≤ 1000) (hD : 1e-4 ≤ toR q.d) (K : ℝ)
    (hC : GergEos.Conditioned (Gerg.fracs q) (toR q.d) (toR q.t) K) :
    ∃ s' p, (Gerg.setPub new0 q).properties = .ok (s', p) ∧
      IsFinite s'.cp ∧ IsFinite s'.w ∧ IsFinite s'.kappa ∧ IsFinite s'.jt ∧
      |toR s'.cp - GergEos.heatP (Gerg.fracs q) (toR q.d) (toR q.t)|
        ≤ 2.7e-9 * K * GergEos.heatP (Gerg.fracs q) (toR q.d) (toR q.t) ∧
      |toR s'.w - GergEos.speed (Gerg.fracs q) (toR q.d) (toR q.t)|
        ≤ 2.5e-9 * K * GergEos.speed (Gerg.fracs q) (toR q.d) (toR q.t) ∧
      |toR s'.kappa - GergEos.exponent (Gerg.fracs q) (toR q.d) (toR q.t)|
        ≤ 6.7e-9 * K * GergEos.exponent (Gerg.fracs q) (toR q.d) (toR q.t) ∧
      |toR s'.jt - GergEos.jt (Gerg.fracs q) (toR q.d) (toR q.t)|
        ≤ 4.7e-9 * K * GergEos.jtAbs (Gerg.fracs q) (toR q.d) (toR q.t) := by
  have e := Gerg.new_inj hnew
  subst e
  obtain ⟨A, B, C, E⟩ := Gerg.cond_rls hL hN hq hT1 hT2 hD hx hC
  exact ⟨(Gerg.propertiesP (Gerg.freshOf q)).1, (Gerg.propertiesP (Gerg.freshOf q)).2,
    Gerg.properties_ok (Gerg.reachable_fresh q).idx, A.fin, B.fin, C.fin, E.fin,
    rl_small A (le_of_eq (by norm_num)), rl_small B (le_of_eq (by norm_num)), rl_small C (le_of_eq (by norm_num)),
    rl_small E (le_of_eq (by norm_num))⟩

/-- C67, GERG-2008 gas mixtures: for every mixture of the 21 components with fractions that sum to 0.99 to 1.01, above its
reducing temperature and up to a thousandth of its reducing density, the condition holds with a factor 5, so that the relative
errors of the isobaric heat capacity, the speed of sound and the isentropic exponent are below 3.4e-8. -/
theorem C67_gerg_gas (hL : LibmAccurate) (hN : LnAccurate) (new0 : Gerg Float) (hnew : Gerg.new = .ok new0)
    (q : Gerg.Pub Float) (hq : Gerg.ErrDomain q) (hx : ∀ i : Fin 22, 1 ≤ i.1 → 0 ≤ toR (aget q.x i))
    (hs1 : 0.99 ≤ ∑ i : Fin 22 with 1 ≤ i.1, toR (aget q.x i)) (hs2 : ∑ i : Fin 22 with 1 ≤ i.1, toR (aget q.x i) ≤ 1.01)
    (hT0 : 50 ≤ toR q.t) (hT1 : GergEos.Tr (Gerg.fracs q) ≤ toR q.t) (hT2 : toR q.t ≤ 1000) (hD : 1e-4 ≤ toR q.d)
    (hδ : toR q.d * GergEos.invRhoR (Gerg.fracs q) ≤ 1 / 1000) :
    ∃ s' p, (Gerg.setPub new0 q).properties = .ok (s', p) ∧
      |toR s'.cp - GergEos.heatP (Gerg.fracs q) (toR q.d) (toR q.t)|
        ≤ 1.4e-8 * GergEos.heatP (Gerg.fracs q) (toR q.d) (toR q.t) ∧
      |toR s'.w - GergEos.speed (Gerg.fracs q) (toR q.d) (toR q.t)|
        ≤ 1.3e-8 * GergEos.speed (Gerg.fracs q) (toR q.d) (toR q.t) ∧
      |toR s'.kappa - GergEos.exponent (Gerg.fracs q) (toR q.d) (toR q.t)|
        ≤ 3.4e-8 * GergEos.exponent (Gerg.fracs q) (toR q.d) (toR q.t) ∧
      |toR s'.jt - GergEos.jt (Gerg.fracs q) (toR q.d) (toR q.t)|
        ≤ 2.4e-8 * GergEos.jtAbs (Gerg.fracs q) (toR q.d) (toR q.t) := by
  have es : ∑ i : Fin 22 with 1 ≤ i.1, Gerg.fracs q i = ∑ i : Fin 22 with 1 ≤ i.1, toR (aget q.x i) :=
    Finset.sum_congr rfl fun i hi => max_eq_left (hx i (Finset.mem_filter.1 hi).2)
  have hC := Gerg.conditioned_low hL hq (by rw [es]; exact hs1) (by rw [es]; exact hs2) hT1 hD hδ
  have e := Gerg.new_inj hnew
  subst e
  obtain ⟨A, B, C, E⟩ := Gerg.cond_rls hL hN hq hT0 hT2 hD hx hC
  exact ⟨(Gerg.propertiesP (Gerg.freshOf q)).1, (Gerg.propertiesP (Gerg.freshOf q)).2,
    Gerg.properties_ok (Gerg.reachable_fresh q).idx, rl_small A (by norm_num), rl_small B (by norm_num),
    rl_small C (by norm_num), rl_small E (by norm_num)⟩

/-! ## The hypotheses can be met -/

/-- There is an accurate library. -/
example : ∃ L : Libm, @LibmAccurate L ∧ @LnAccurate L := ⟨idealLibm, idealLibm_accurate, idealLibm_ln⟩

theorem chkLow : decChk true 10 10 ⟨78125, 7⟩ = true := by decide +kernel

/-- Methane at 300 K and 1/128 mol/l. -/
def Detail.lowMethane : Detail.Pub Float := { Detail.errMethane with d := f% 0.0078125 }
def Gerg.lowMethane : Gerg.Pub Float := { Gerg.errMethane with d := f% 0.0078125 }

theorem toR_low : toR (f% 0.0078125 : Float) = 1 / 128 := by
  show toR (litF ⟨78125, 7⟩) = _
  rw [(decChk_val chkLow).2.1 rfl]
  norm_num [decR]

/-- DETAIL, methane at 300 K and 1/128 mol/l: the state meets the condition, so the speed of sound is accurate to 1.3e-8. -/
example (hL : LibmAccurate) (hN : LnAccurate) (new0 : Detail Float) (hnew : Detail.new = .ok new0) :
    Eos.Conditioned (Detail.fracs Detail.lowMethane) (1 / 128) 300 5 ∧
    ∃ s', (Detail.setPub new0 Detail.lowMethane).properties = .ok s' ∧
      |toR s'.w - Eos.speed (fun i => if i = 0 then 1 else 0) (1 / 128) 300|
        ≤ 1.3e-8 * Eos.speed (fun i => if i = 0 then 1 else 0) (1 / 128) 300 := by
  obtain ⟨hx, ht, ht', -, -⟩ := Detail.errMethane_ok
  have hd : toR Detail.lowMethane.d = 1 / 128 := toR_low
  have ht2 : toR Detail.lowMethane.t = 300 := ht'
  have hx2 : ∀ i, IsFinite (aget Detail.lowMethane.x i) ∧ toR (aget Detail.lowMethane.x i) = if i = 0 then 1 else 0 := hx
  constructor
  · rw [Detail.fracs_methane hx2]
    exact Detail.conditioned_low (by norm_num) (by norm_num) (by norm_num) (by norm_num)
  obtain ⟨s', h, -, h1, -⟩ := C67_detail_methane hL hN new0 hnew Detail.lowMethane hx2 ht (by rw [ht2]; norm_num)
    (by rw [ht2]; norm_num) (decChk_fin chkLow) (by rw [hd]; norm_num) (by rw [hd]; norm_num)
  rw [ht2, hd] at h1
  exact ⟨s', h, h1⟩

/-- GERG-2008, methane at 300 K and 1/128 mol/l. -/
example (hL : LibmAccurate) (hN : LnAccurate) (new0 : Gerg Float) (hnew : Gerg.new = .ok new0) :
    Gerg.ErrDomain Gerg.lowMethane ∧ ∃ s' p, (Gerg.setPub new0 Gerg.lowMethane).properties = .ok (s', p) ∧
      |toR s'.w - GergEos.speed (Gerg.fracs Gerg.lowMethane) (1 / 128) 300|
        ≤ 1.3e-8 * GergEos.speed (Gerg.fracs Gerg.lowMethane) (1 / 128) 300 := by
  obtain ⟨hx, ht, ht', -, -⟩ := Gerg.errMethane_ok
  have hd : toR Gerg.lowMethane.d = 1 / 128 := toR_low
  have ht2 : toR Gerg.lowMethane.t = 300 := ht'
  have hx2 : ∀ i, IsFinite (aget Gerg.lowMethane.x i) ∧ toR (aget Gerg.lowMethane.x i) = if i = 1 then 1 else 0 := hx
  have hf : Gerg.fracs Gerg.lowMethane = fun i => if i = 1 then 1 else 0 := by
    funext i
    unfold Gerg.fracs
    rw [(hx2 i).2]
    split <;> simp
  have hT : GergEos.Tr (Gerg.fracs Gerg.lowMethane) = GergEos.val Gerg.Tab.GTIJ[1][1] := by
    rw [hf]; exact GergEos.reducing_single _ _ (1 : Fin 22) (by decide)
  have hV : GergEos.invRhoR (Gerg.fracs Gerg.lowMethane) = GergEos.val Gerg.Tab.GVIJ[1][1] := by
    rw [hf]; exact GergEos.reducing_single _ _ (1 : Fin 22) (by decide)
  have h1 := Gerg.methane_Tc
  have h190 : (190 : ℝ) ≤ GergEos.val Gerg.Tab.GTIJ[1][1] := by exact_mod_cast h1.1
  have h2 := Gerg.methane_Vc
  have hq : Gerg.ErrDomain Gerg.lowMethane := by
    refine ⟨ht, by rw [ht2]; norm_num, by rw [ht2]; norm_num, by rw [hT, ht2]; linarith [h190], by rw [hT, ht2]; linarith [h1.2],
      decChk_fin chkLow, Or.inr ⟨by rw [hd]; norm_num, by rw [hd]; norm_num⟩, by rw [hV, hd]; linarith, fun i _ => (hx2 i).1, ?_,
      1, by decide, ?_⟩
    · intro i _
      rw [(hx2 i).2]
      split <;> norm_num
    · rw [(hx2 1).2, if_pos rfl]; norm_num
  have hs : ∑ i : Fin 22 with 1 ≤ i.1, toR (aget Gerg.lowMethane.x i) = 1 := by
    simp only [(hx2 _).2, Finset.sum_filter, ← ite_and]
    rw [Finset.sum_eq_single 1]
    · simp
    · intro b _ hb; simp [hb]
    · simp
  refine ⟨hq, ?_⟩
  obtain ⟨s', p, h, -, h3, -⟩ := C67_gerg_gas hL hN new0 hnew Gerg.lowMethane hq (fun i _ => by rw [(hx2 i).2]; split <;> norm_num)
    (by rw [hs]; norm_num) (by rw [hs]; norm_num) (by rw [ht2]; norm_num) (by rw [hT, ht2]; linarith [h1.2]) (by rw [ht2]; norm_num)
    (by rw [hd]; norm_num) (by rw [hV, hd]; linarith)
  rw [ht2, hd] at h3
  exact ⟨s', p, h, h3⟩

end Aga8
