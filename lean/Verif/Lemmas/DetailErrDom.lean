import Verif.Lemmas.DetailErrFresh
import Verif.Lemmas.DetailEval
import Verif.Lemmas.F64ApLib

/-! # The DETAIL rounding-error estimates on a new object -/

set_option linter.unusedSectionVars false

namespace Aga8

open F64
open Detail (Pub setPub ErrDomain fracs)

namespace Detail

open FOps Tab

theorem close_of_domain [Libm] (hL : LibmAccurate) {q : Pub Float} (h : ErrDomain q) (r : Vector (Vector Float 4) 4) :
    Close (arTun { x_terms (freshOf q) with ar := r }) (fracs q) (toR q.d) (toR q.t) :=
  close_fresh hL ⟨h.x_fin, h.x_rng, h.x_big⟩ h.t_fin h.t_low (h.t_high.trans (by norm_num)) h.d_fin
    (h.d_rng.imp id fun ⟨h1, h2⟩ => ⟨by norm_num at h1 ⊢; linarith, h2.trans (by norm_num)⟩) h.d_red r

theorem ap_small {a : Float} {α m : ℝ} {k l h : ℕ} (A : Ap a α m k l h) (hk : k ≤ 9000000) :
    |toR a - α| ≤ 1e-9 * m := by
  refine A.err.trans (mul_le_mul_of_nonneg_right ?_ A.nonneg)
  have : (k : ℝ) ≤ 9000000 := by exact_mod_cast hk
  rw [uu_eq]
  norm_num
  linarith

theorem refresh_td {F : Type} [Add F] [Sub F] [Mul F] [Div F] [Neg F] [FOps F] (s : Detail F) (r : Vector (Vector F 4) 4) :
    (arTun { x_terms s with ar := r }).t = s.t ∧ (arTun { x_terms s with ar := r }).d = s.d := by
  constructor <;> (rw [arTun_eq, x_terms_eq]; split <;> rfl)

end Detail

end Aga8
