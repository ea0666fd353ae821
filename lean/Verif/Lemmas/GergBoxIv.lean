import Verif.Lemmas.GergBox
import Verif.Lemmas.DetailBoxCurve

/-! # A pure fluid: bounds of the GERG-2008 equation on rectangles of temperature and density

The bounds are in tables. `BoxTab.Ok` says that the tables are right; it is decided by computation. -/

set_option linter.unusedSectionVars false

namespace Aga8.GergEos

open Detail (expK hZ hP hZa hPa hZq hPq hZaq hPaq hZq_real hPq_real hZaq_real hPaq_real hZ_anti hP_anti hZa_mono hPa_mono
  Anti MonoPos In InL LeL lowS highS absS sum_in sum_abs elQ ehQ expK_in phiChk cover cover_from exp_el exp_eh)

/-! ## Density factors -/

section
variable {b k : ℕ} {r0 r1 : ℚ} {r : ℝ} (h0 : 0 ≤ r0) (h1 : (r0 : ℝ) ≤ r) (h2 : r ≤ r1) (h3 : r1 ≤ 1) (he : 0 ≤ elQ k r1)
include h0 h1 h2 h3 he

theorem powE_in : (0 : ℝ) ≤ (r0 : ℝ) ^ b * elQ k r1 ∧ (r0 : ℝ) ^ b * elQ k r1 ≤ r ^ b * expK k r ∧
    r ^ b * expK k r ≤ (r1 : ℝ) ^ b * ehQ k r0 := by
  obtain ⟨e1, e2⟩ := expK_in (k := k) h0 h1 h2 h3
  have o1' : (0 : ℝ) ≤ r0 := by exact_mod_cast h0
  have o5' : (0 : ℝ) ≤ elQ k r1 := by exact_mod_cast he
  have r0' := o1'.trans h1
  refine ⟨mul_nonneg (pow_nonneg o1' _) o5', ?_, ?_⟩
  · exact mul_le_mul (pow_le_pow_left₀ o1' h1 _) e1 o5' (pow_nonneg r0' _)
  · exact mul_le_mul (pow_le_pow_left₀ r0' h2 _) e2 (Real.exp_pos _).le (pow_nonneg (r0'.trans h2) _)

theorem phi_in {h : ℕ → ℕ → ℝ → ℝ} {hq : ℕ → ℕ → ℚ → ℚ} (hr : ∀ b k y, ((hq b k y : ℚ) : ℝ) = h b k y) (ha : Anti h)
    (hb : (k : ℚ) * r1 ^ k ≤ b) {p : ℤ × ℤ} (c : phiChk hq r0 r1 b k p = true) : In (phi h r (b, k)) p := by
  have o1' : (0 : ℝ) ≤ r0 := by exact_mod_cast h0
  unfold phiChk at c
  simp only [Bool.and_eq_true, decide_eq_true_eq] at c
  obtain ⟨⟨⟨d1, d2⟩, d3⟩, d4⟩ := c
  obtain ⟨p0, p1, p2⟩ := powE_in (b := b) h0 h1 h2 h3 he
  have q1 : (r0 : ℝ) ^ k ≤ r ^ k := pow_le_pow_left₀ o1' h1 _
  have q2 : r ^ k ≤ (r1 : ℝ) ^ k := pow_le_pow_left₀ (o1'.trans h1) h2 _
  have g : (k : ℝ) * (r1 : ℝ) ^ k ≤ b := by exact_mod_cast hb
  have k0 : (0 : ℝ) ≤ k := Nat.cast_nonneg _
  have t1 := ha b k _ _ q2 g
  have t2 := ha b k _ _ q1 (le_trans (mul_le_mul_of_nonneg_left q2 k0) g)
  have u1 := hr b k (r1 ^ k)
  have u0 := hr b k (r0 ^ k)
  push_cast at u0 u1
  rw [← u1] at t1
  rw [← u0] at t2
  have d1' : ((p.1 : ℤ) : ℝ) ≤ (r0 : ℝ) ^ b * elQ k r1 * hq b k (r1 ^ k) * 10 ^ 6 := by exact_mod_cast d1
  have d2' : ((p.1 : ℤ) : ℝ) ≤ (r1 : ℝ) ^ b * ehQ k r0 * hq b k (r1 ^ k) * 10 ^ 6 := by exact_mod_cast d2
  have d3' : (r0 : ℝ) ^ b * elQ k r1 * hq b k (r0 ^ k) * 10 ^ 6 ≤ (p.2 : ℤ) := by exact_mod_cast d3
  have d4' : (r1 : ℝ) ^ b * ehQ k r0 * hq b k (r0 ^ k) * 10 ^ 6 ≤ (p.2 : ℤ) := by exact_mod_cast d4
  unfold phi
  dsimp only
  generalize h b k (r ^ k) = H at *
  generalize ((hq b k (r1 ^ k) : ℚ) : ℝ) = H1 at *
  generalize ((hq b k (r0 ^ k) : ℚ) : ℝ) = H0 at *
  generalize r ^ b * expK k r = P at *
  generalize (r0 : ℝ) ^ b * elQ k r1 = P0 at *
  generalize (r1 : ℝ) ^ b * ehQ k r0 = P1 at *
  have Pn := p0.trans p1
  constructor
  · rcases le_total 0 H1 with s | s
    · have : P0 * H1 ≤ P * H := (mul_le_mul_of_nonneg_right p1 s).trans (mul_le_mul_of_nonneg_left t1 Pn)
      linarith
    · have : P1 * H1 ≤ P * H := (mul_le_mul_of_nonpos_right p2 s).trans (mul_le_mul_of_nonneg_left t1 Pn)
      linarith
  · rcases le_total 0 H0 with s | s
    · have : P * H ≤ P1 * H0 := (mul_le_mul_of_nonneg_left t2 Pn).trans (mul_le_mul_of_nonneg_right p2 s)
      linarith
    · have : P * H ≤ P0 * H0 := (mul_le_mul_of_nonneg_left t2 Pn).trans (mul_le_mul_of_nonpos_right p1 s)
      linarith

theorem phi_abs {h : ℕ → ℕ → ℝ → ℝ} {hq : ℕ → ℕ → ℚ → ℚ} (hr : ∀ b k y, ((hq b k y : ℚ) : ℝ) = h b k y) (ha : MonoPos h)
    {p : ℤ} (c : r1 ^ b * ehQ k r0 * hq b k (r1 ^ k) * 10 ^ 6 ≤ (p : ℚ)) :
    0 ≤ phi h r (b, k) ∧ phi h r (b, k) * 10 ^ 6 ≤ p := by
  have o1' : (0 : ℝ) ≤ r0 := by exact_mod_cast h0
  have rn := o1'.trans h1
  obtain ⟨p0, p1, p2⟩ := powE_in (b := b) h0 h1 h2 h3 he
  have q2 : r ^ k ≤ (r1 : ℝ) ^ k := pow_le_pow_left₀ rn h2 _
  obtain ⟨t0, t1⟩ := ha b k _ _ (pow_nonneg rn _) q2
  have u1 := hr b k (r1 ^ k)
  push_cast at u1
  rw [← u1] at t1
  have d : (r1 : ℝ) ^ b * ehQ k r0 * hq b k (r1 ^ k) * 10 ^ 6 ≤ (p : ℤ) := by exact_mod_cast c
  have Pn := p0.trans p1
  unfold phi
  dsimp only
  refine ⟨mul_nonneg Pn t0, ?_⟩
  have := mul_le_mul p2 t1 t0 (Pn.trans p2)
  linarith

end

/-- The density factors `G` on the interval from `r0` to `r1`. -/
def rowOkG (G : List (ℕ × ℕ)) (r0 r1 : ℚ) : Bool :=
  decide (0 ≤ r0 ∧ r1 ≤ 1) && G.all fun p => decide ((p.2 : ℚ) * r1 ^ p.2 ≤ p.1 ∧ 0 ≤ elQ p.2 r1)
def rowChkG (hq : ℕ → ℕ → ℚ → ℚ) (G : List (ℕ × ℕ)) (r0 r1 : ℚ) (p : List (ℤ × ℤ)) : Bool :=
  decide (p.length = G.length) && (List.finRange G.length).all fun j =>
    phiChk hq r0 r1 (G.get j).1 (G.get j).2 (p.getD j.1 (0, 0))
def rowAbsChkG (hq : ℕ → ℕ → ℚ → ℚ) (G : List (ℕ × ℕ)) (r0 r1 : ℚ) (p : List ℤ) : Bool :=
  decide (p.length = G.length) && (List.finRange G.length).all fun j =>
    decide (r1 ^ (G.get j).1 * ehQ (G.get j).2 r0 * hq (G.get j).1 (G.get j).2 (r1 ^ (G.get j).2) * 10 ^ 6
      ≤ ((p.getD j.1 0 : ℤ) : ℚ))

section
variable {G : List (ℕ × ℕ)} {r0 r1 : ℚ} {r : ℝ} (h1 : (r0 : ℝ) ≤ r) (h2 : r ≤ r1) (ok : rowOkG G r0 r1 = true)
include h1 h2 ok

theorem row_inG {h : ℕ → ℕ → ℝ → ℝ} {hq : ℕ → ℕ → ℚ → ℚ} (hr : ∀ b k y, ((hq b k y : ℚ) : ℝ) = h b k y) (ha : Anti h)
    {p : List (ℤ × ℤ)} (c : rowChkG hq G r0 r1 p = true) : InL (fun j : Fin G.length => phi h r (G.get j)) p := by
  unfold rowOkG at ok
  unfold rowChkG at c
  simp only [Bool.and_eq_true, decide_eq_true_eq, List.all_eq_true, List.mem_finRange, forall_const] at ok c
  refine ⟨c.1, fun j => ?_⟩
  obtain ⟨o1, o2⟩ := ok.2 _ (List.get_mem G j)
  exact phi_in ok.1.1 h1 h2 ok.1.2 o2 hr ha o1 (c.2 j)

theorem row_absG {h : ℕ → ℕ → ℝ → ℝ} {hq : ℕ → ℕ → ℚ → ℚ} (hr : ∀ b k y, ((hq b k y : ℚ) : ℝ) = h b k y) (ha : MonoPos h)
    {p : List ℤ} (c : rowAbsChkG hq G r0 r1 p = true) : LeL (fun j : Fin G.length => phi h r (G.get j)) p := by
  unfold rowOkG at ok
  unfold rowAbsChkG at c
  simp only [Bool.and_eq_true, decide_eq_true_eq, List.all_eq_true, List.mem_finRange, forall_const] at ok c
  refine ⟨c.1, fun j => ?_⟩
  exact phi_abs ok.1.1 h1 h2 ok.1.2 (ok.2 _ (List.get_mem G j)).2 hr ha (c.2 j)

end

/-! ## Temperature factors -/

/-- Eight times the temperature exponent. -/
def PureTerm.u (a : PureTerm) : ℕ := (a.t * 8).num.toNat

def cLowG (s0 s1 : ℚ) (a : PureTerm) : ℚ := if 0 ≤ a.n then a.n * s0 ^ a.u else a.n * s1 ^ a.u
def cHighG (s0 s1 : ℚ) (a : PureTerm) : ℚ := if 0 ≤ a.n then a.n * s1 ^ a.u else a.n * s0 ^ a.u
def cAbsG (s1 : ℚ) (a : PureTerm) : ℚ := |a.n| * s1 ^ a.u

def stripChkG (L : List PureTerm) (G : List (ℕ × ℕ)) (s0 s1 : ℚ) (p : List (ℤ × ℤ)) (q : List ℤ) : Bool :=
  decide (0 < s0 ∧ s0 ≤ s1) && decide (p.length = G.length) && decide (q.length = G.length) &&
    (List.finRange G.length).all fun j =>
      let l := L.filter fun a => (a.d, a.c) = G.get j
      decide (((p.getD j.1 (0, 0)).1 : ℚ) ≤ (l.map (cLowG s0 s1)).sum * 10 ^ 6) &&
      decide ((l.map (cHighG s0 s1)).sum * 10 ^ 6 ≤ (p.getD j.1 (0, 0)).2) &&
      decide ((l.map (cAbsG s1)).sum * 10 ^ 6 ≤ ((q.getD j.1 0 : ℤ) : ℚ))

theorem pow8_in {a b x : ℝ} (ha : 0 < a) (hb : 0 < b) (h1 : a ^ 8 ≤ x) (h2 : x ≤ b ^ 8) (u : ℕ) :
    a ^ u ≤ x ^ ((u : ℝ) / 8) ∧ x ^ ((u : ℝ) / 8) ≤ b ^ u := by
  have key : ∀ c : ℝ, 0 < c → (c ^ 8) ^ ((u : ℝ) / 8) = c ^ u := by
    intro c hc
    rw [← Real.rpow_natCast c 8, ← Real.rpow_mul hc.le, ← Real.rpow_natCast c u]
    congr 1
    push_cast
    ring
  have a8 : 0 < a ^ 8 := by positivity
  have hu : (0 : ℝ) ≤ (u : ℝ) / 8 := by positivity
  rw [← key a ha, ← key b hb]
  exact ⟨Real.rpow_le_rpow a8.le h1 hu, Real.rpow_le_rpow (a8.le.trans h1) h2 hu⟩

theorem sum_cast_le {l : List PureTerm} {f : PureTerm → ℚ} {g : PureTerm → ℝ} (h : ∀ a ∈ l, (f a : ℝ) ≤ g a) :
    (((l.map f).sum : ℚ) : ℝ) ≤ (l.map g).sum := by
  induction l with
  | nil => simp
  | cons a l ih =>
    rw [List.map_cons, List.map_cons, List.sum_cons, List.sum_cons, Rat.cast_add]
    exact add_le_add (h a List.mem_cons_self) (ih fun b hb => h b (List.mem_cons_of_mem _ hb))

theorem le_sum_cast {l : List PureTerm} {f : PureTerm → ℚ} {g : PureTerm → ℝ} (h : ∀ a ∈ l, g a ≤ (f a : ℝ)) :
    (l.map g).sum ≤ (((l.map f).sum : ℚ) : ℝ) := by
  induction l with
  | nil => simp
  | cons a l ih =>
    rw [List.map_cons, List.map_cons, List.sum_cons, List.sum_cons, Rat.cast_add]
    exact add_le_add (h a List.mem_cons_self) (ih fun b hb => h b (List.mem_cons_of_mem _ hb))

theorem strip_inG {L : List PureTerm} {G : List (ℕ × ℕ)} {s0 s1 : ℚ} {p : List (ℤ × ℤ)} {q : List ℤ} {τ : ℝ}
    (hu : ∀ a ∈ L, (a.u : ℚ) = a.t * 8) (c : stripChkG L G s0 s1 p q = true)
    (h1 : (s0 : ℝ) ^ 8 ≤ τ) (h2 : τ ≤ (s1 : ℝ) ^ 8) :
    InL (coefG L (fun a => a.n * τ ^ (a.t : ℝ)) G) p ∧ LeL (coefG L (fun a => |(a.n : ℝ)| * τ ^ (a.t : ℝ)) G) q := by
  unfold stripChkG at c
  simp only [Bool.and_eq_true, decide_eq_true_eq, List.all_eq_true, List.mem_finRange, forall_const] at c
  obtain ⟨⟨⟨⟨c0, c1⟩, c2⟩, c3⟩, c4⟩ := c
  have p0 : (0 : ℝ) < s0 := by exact_mod_cast c0
  have p1 : (0 : ℝ) < s1 := by exact_mod_cast c0.trans_le c1
  have τ0 : 0 < τ := lt_of_lt_of_le (by positivity) h1
  have th : ∀ a ∈ L, (s0 : ℝ) ^ a.u ≤ τ ^ (a.t : ℝ) ∧ τ ^ (a.t : ℝ) ≤ (s1 : ℝ) ^ a.u := by
    intro a ha
    have e : (a.t : ℝ) = (a.u : ℝ) / 8 := by
      have := hu a ha
      have h : ((a.u : ℚ) : ℝ) = ((a.t * 8 : ℚ) : ℝ) := by rw [this]
      push_cast at h
      rw [h]
      ring
    rw [e]
    exact pow8_in p0 p1 h1 h2 a.u
  refine ⟨⟨c2, fun j => ?_⟩, ⟨c3, fun j => ?_⟩⟩
  · obtain ⟨⟨d1, d2⟩, -⟩ := c4 j
    have d1' := (Rat.cast_le (K := ℝ)).2 d1
    have d2' := (Rat.cast_le (K := ℝ)).2 d2
    rw [Rat.cast_mul] at d1' d2'
    push_cast at d1' d2'
    unfold coefG
    refine ⟨d1'.trans (mul_le_mul_of_nonneg_right ?_ (by norm_num)), le_trans (mul_le_mul_of_nonneg_right ?_ (by norm_num)) d2'⟩
    · refine le_trans (le_of_eq ?_) (sum_cast_le (f := cLowG s0 s1) fun a ha => ?_)
      · push_cast; rfl
      · obtain ⟨t1, t2⟩ := th a (List.mem_filter.1 ha).1
        unfold cLowG
        split
        · rename_i h
          push_cast
          exact mul_le_mul_of_nonneg_left t1 (by exact_mod_cast h)
        · rename_i h
          push_cast
          exact mul_le_mul_of_nonpos_left t2 (by exact_mod_cast (not_le.1 h).le)
    · refine le_trans (le_sum_cast (f := cHighG s0 s1) fun a ha => ?_) (le_of_eq ?_)
      · obtain ⟨t1, t2⟩ := th a (List.mem_filter.1 ha).1
        unfold cHighG
        split
        · rename_i h
          push_cast
          exact mul_le_mul_of_nonneg_left t2 (by exact_mod_cast h)
        · rename_i h
          push_cast
          exact mul_le_mul_of_nonpos_left t1 (by exact_mod_cast (not_le.1 h).le)
      · push_cast; rfl
  · obtain ⟨-, d⟩ := c4 j
    have d' := (Rat.cast_le (K := ℝ)).2 d
    rw [Rat.cast_mul] at d'
    push_cast at d'
    unfold coefG
    constructor
    · refine List.sum_nonneg fun x hx => ?_
      obtain ⟨a, -, rfl⟩ := List.mem_map.1 hx
      positivity
    · refine le_trans (mul_le_mul_of_nonneg_right ?_ (by norm_num)) d'
      refine le_trans (le_sum_cast (f := cAbsG s1) fun a ha => ?_) (le_of_eq ?_)
      · obtain ⟨t1, t2⟩ := th a (List.mem_filter.1 ha).1
        unfold cAbsG
        push_cast
        exact mul_le_mul_of_nonneg_left t2 (abs_nonneg _)
      · push_cast; rfl

end Aga8.GergEos
