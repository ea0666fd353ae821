import Verif.Spec.HeatOrder
import Verif.Lemmas.F64Order
import Verif.Props.GergReal
import Verif.Props.DetailReal
import Verif.Props.RoundTrip
import Verif.Props.MixProperties

/-! # C83: the isobaric heat capacity is never below the isochoric one, whatever the rounding does -/

set_option linter.unusedSectionVars false

namespace Aga8

open F64

variable [Libm]

/-- A number with a positive value is finite. -/
theorem fin_of_pos {a : Float} (h : 0 < toR a) : IsFinite a := by
  unfold toR at h
  unfold IsFinite
  generalize up a = x at *
  cases x with
  | notANumber => exact absurd h (lt_irrefl _)
  | infinity s => exact absurd h (lt_irrefl _)
  | zero s => trivial
  | finite s m e hm => trivial

theorem lit_nonneg {ex : Bool} {l h : ℕ} {d : Dec} (H : decChk ex l h d = true) (hd : 0 ≤ decR d) : 0 ≤ toR (litF d) := by
  have := (abs_le.1 (decChk_val H).1).1
  rw [abs_of_nonneg hd] at this
  have hu : uu ≤ 1 := by rw [uu_eq]; norm_num
  nlinarith

/-- C83, DETAIL: whatever the state and the history of the object, and with any math library whose squares are not negative, if
`properties` stores a positive `cv`, a positive `dp_dd` and a finite `cp` at a positive temperature, then `cp` is at least `cv`. -/
theorem C83_detail_cp_at_least_cv (hsq : SquareNonneg) (s s' : Detail Float) (h : s.properties = .ok s') (ht : 0 < toR s.t)
    (hv : 0 < toR s'.cv) (hd : 0 < toR s'.dp_dd) (fp : IsFinite s'.cp) : toR s'.cv ≤ toR s'.cp := by
  have e : Detail.propertiesP s = s' := Except.ok.inj ((Detail.properties_ok s).symm.trans h)
  subst e
  rw [Detail.propertiesP_eq] at *
  have c := Detail.propsFinish_cp (Detail.propsMid s) s.molar_mass.2
  rw [Detail.propsMid_d, Detail.propsMid_t] at c
  generalize Detail.propsFinish (Detail.propsMid s) s.molar_mass.2 = r at *
  split at c
  · rw [c] at fp ⊢
    have f1 := (fin_of_add fp).2
    have f2 := fin_of_div f1
    obtain ⟨f3, f4⟩ := fin_of_mul f2
    exact le_add_f64 fp hv (div_nonneg_f64 f2 (fin_of_pos hd) (mul_nonneg_f64 f3 f4 (mul_nonneg ht.le (hsq _))) hd)
  · rw [c] at fp ⊢
    exact le_add_f64 fp hv (lit_nonneg Detail.chkR (by norm_num [decR]))

/-- C83, GERG-2008: the same, with any math library at all. -/
theorem C83_gerg_cp_at_least_cv (s s' : Gerg Float) (p : Float) (hs : Gerg.Reachable s) (h : s.properties = .ok (s', p))
    (ht : 0 < toR s.t) (hv : 0 < toR s'.cv) (hd : 0 < toR s'.dp_dd) (fp : IsFinite s'.cp) : toR s'.cv ≤ toR s'.cp := by
  have e : (Gerg.propertiesP s).1 = s' := congrArg Prod.fst (Except.ok.inj ((Gerg.properties_ok hs.idx).symm.trans h))
  subst e
  clear h
  rw [Gerg.propertiesP_eq] at *
  have c := Gerg.propsFinish_cp (Gerg.propsMid s)
  rw [Gerg.propsMid_d, Gerg.propsMid_t] at c
  generalize (Gerg.propsFinish (Gerg.propsMid s)).1 = r at *
  split at c
  · rw [c] at fp ⊢
    have f1 := (fin_of_add fp).2
    have f2 := fin_of_div f1
    obtain ⟨f3, f4⟩ := fin_of_mul f2
    obtain ⟨f5, -⟩ := fin_of_mul f3
    refine le_add_f64 fp hv (div_nonneg_f64 f2 (fin_of_pos hd) (mul_nonneg_f64 f3 f4 ?_) hd)
    generalize r.dp_dt / s.d = q at *
    rcases le_total 0 (toR q) with hq | hq
    · exact mul_nonneg (mul_nonneg_f64 f5 f4 (mul_nonneg ht.le hq)) hq
    · exact mul_nonneg_of_nonpos_of_nonpos (mul_nonpos_f64 f5 f4 (mul_nonpos_of_nonneg_of_nonpos ht.le hq)) hq
  · rw [c] at fp ⊢
    exact le_add_f64 fp hv (lit_nonneg Gerg.chkRG (by norm_num [decR]))

/-- C83, GERG-2008 mixtures: with an accurate math library the conditions hold for every gas mixture from 1.1 times its reducing
temperature on, up to half its reducing density, so `cp` is at least `cv` there. -/
theorem C83_gerg_mixtures (hL : LibmAccurate) (hN : LnAccurate) (new0 : Gerg Float) (hnew : Gerg.new = .ok new0)
    (q : Gerg.Pub Float) (hq : Gerg.ErrDomain q) (hx : ∀ i : Fin 22, 1 ≤ i.1 → 0 ≤ toR (aget q.x i))
    (hs1 : 0.99 ≤ ∑ i : Fin 22 with 1 ≤ i.1, toR (aget q.x i)) (hs2 : ∑ i : Fin 22 with 1 ≤ i.1, toR (aget q.x i) ≤ 1.01)
    (hT0 : 50 ≤ toR q.t) (hT1 : 1.1 * GergEos.Tr (Gerg.fracs q) ≤ toR q.t) (hT2 : toR q.t ≤ 1000) (hD : 1e-4 ≤ toR q.d)
    (hδ : toR q.d * GergEos.invRhoR (Gerg.fracs q) ≤ 1 / 2) :
    ∃ s' p, (Gerg.setPub new0 q).properties = .ok (s', p) ∧ 0 < toR s'.cv ∧ toR s'.cv ≤ toR s'.cp := by
  obtain ⟨s', p, e1, -, ⟨-, -, k1, -, k2⟩, -⟩ := C71_gerg_mixture_properties hL hN new0 hnew q hq hx hs1 hs2 hT0 hT1 hT2 hD hδ _ rfl
  obtain ⟨s2, p2, e2, k3, -⟩ := C71_gerg_mixture_derived hL hN new0 hnew q hq hx hs1 hs2 hT0 hT1 hT2 hD hδ _ rfl
  have e := congrArg Prod.fst (Except.ok.inj (e1.symm.trans e2))
  dsimp only at e
  subst e
  refine ⟨s', p, e1, k2, C83_gerg_cp_at_least_cv (Gerg.setPub new0 q) s' p ?_ e1 ?_ k2 k1 k3⟩
  · exact ⟨[.write q], [.unit], by rw [Gerg.runNew, hnew]; rfl⟩
  · show 0 < toR q.t
    linarith

/-! ## The hypotheses can be met -/

/-- A library that squares by multiplying meets the hypothesis. -/
theorem square_of_mul (h : ∀ a : Float, Libm.powi a 2 = a * a) : SquareNonneg := fun a => by
  rw [h]
  by_cases f : IsFinite (a * a)
  · obtain ⟨f1, f2⟩ := fin_of_mul f
    exact mul_nonneg_f64 f1 f2 (mul_self_nonneg _)
  · unfold IsFinite at f
    unfold toR
    generalize up (a * a) = x at *
    cases x with
    | notANumber => exact le_refl _
    | infinity s => exact le_refl _
    | zero s => exact absurd trivial f
    | finite s m e hm => exact absurd trivial f

/-- So does the library that is next to the exact results. -/
theorem idealLibm_square : @SquareNonneg idealLibm := fun a => by
  show 0 ≤ toR (nearest (toR a ^ 2))
  unfold nearest
  split
  · rename_i h
    have := (abs_le.1 h.choose_spec.2).1
    have e := abs_of_nonneg (sq_nonneg (toR a))
    have := sq_nonneg (toR a)
    linarith
  · exact le_refl _

example : ∃ L : Libm, @LibmAccurate L ∧ @LnAccurate L ∧ @SquareNonneg L :=
  ⟨idealLibm, idealLibm_accurate, idealLibm_ln, idealLibm_square⟩

/-- A natural gas at 300 K and 0.25 mol/l meets the hypotheses. -/
example (hL : LibmAccurate) (hN : LnAccurate) (hsq : SquareNonneg) (new0 : Detail Float) (hnew : Detail.new = .ok new0) :
    ∃ s', (Detail.setPub new0 Detail.ngQuarter).properties = .ok s' ∧ 0 < toR s'.cv ∧ toR s'.cv ≤ toR s'.cp := by
  obtain ⟨hx, ht, -⟩ := Detail.ng1_ok
  have ht' : toR Detail.ngQuarter.t = 300 := ht
  have hd : toR Detail.ngQuarter.d = 0.25 := quarter_ok.2
  have hs : 0.99 ≤ ∑ i, toR (aget Detail.ng1.x i) := by
    simp only [fun i => (hx i).2, Fin.sum_univ_succ]
    simp [Detail.ng1x, Fin.ext_iff]
    norm_num
  obtain ⟨s', e1, k1, -, -, -, k2, -, k3, -⟩ := C75_detail_natural_gas_properties hL hN new0 hnew Detail.ngQuarter (fun i => (hx i).1)
    Detail.ng1_normal (fun i => Detail.ng1_min i) hs Detail.errLow_ok.2.1 (by rw [ht']; norm_num) (by rw [ht']; norm_num) quarter_ok.1
    (by rw [hd]; norm_num) (by rw [hd]; norm_num) _ rfl
  exact ⟨s', e1, k2, C83_detail_cp_at_least_cv hsq _ s' e1 (by show 0 < toR Detail.ngQuarter.t; rw [ht']; norm_num) k2 k1 k3⟩

/-- Methane with ethane at 300 K and 0.25 mol/l meets the hypotheses. -/
example (hL : LibmAccurate) (hN : LnAccurate) (new0 : Gerg Float) (hnew : Gerg.new = .ok new0) :
    ∃ s' p, (Gerg.setPub new0 Gerg.mixQuarter).properties = .ok (s', p) ∧ 0 < toR s'.cv ∧ toR s'.cv ≤ toR s'.cp := by
  obtain ⟨hx, ft, ht, fd, hd⟩ := Gerg.mixQuarter_ok
  obtain ⟨T1, T2⟩ := Gerg.errMix_Tr
  obtain ⟨V1, V2⟩ := Gerg.errMix_V
  have hs : ∑ i : Fin 22 with 1 ≤ i.1, toR (aget Gerg.mixQuarter.x i) = 1 := by
    simp only [(hx _).2]
    rw [Finset.sum_eq_add (1 : Fin 22) 2 (by decide)]
    · rw [if_pos rfl, if_neg (by decide), if_pos rfl]; norm_num
    · intro i _ h
      rw [if_neg h.1, if_neg h.2]
    · intro h; exact absurd (by decide) h
    · intro h; exact absurd (by decide) h
  exact C83_gerg_mixtures hL hN new0 hnew Gerg.mixQuarter Gerg.mixQuarter_dom
    (fun i _ => by rw [(hx i).2]; split <;> [norm_num; (split <;> norm_num)]) (by rw [hs]; norm_num) (by rw [hs]; norm_num)
    (by rw [ht]; norm_num) (by rw [ht, Gerg.mixQuarter_fracs]; norm_num; linarith) (by rw [ht]; norm_num) (by rw [hd]; norm_num)
    (by rw [hd, Gerg.mixQuarter_fracs]; norm_num at V2 ⊢; linarith)

end Aga8
