import Verif.Lemmas.DetailErrTab
import Verif.Lemmas.DetailEos

/-! # Rounding errors of the parameters computed by `setup` -/

set_option linter.unusedSectionVars false

namespace Aga8.Detail

open FOps Tab F64

variable [Libm]

/-! ## Constants -/

theorem apAN (n : Fin 58) : Ap (tab AN n : Float) (Eos.c AN n) |Eos.c AN n| 1 54 4 := Ap.lit (chkAN n)
theorem apEI (i : Fin 21) : Ap (tab EI i : Float) (Eos.c EI i) (Eos.c EI i) 1 0 10 := Ap.litPos (chkEI i).1 (chkEI i).2.le
theorem apKI (i : Fin 21) : Ap (tab KI i : Float) (Eos.c KI i) (Eos.c KI i) 1 2 0 := Ap.litPos (chkKI i).1 (chkKI i).2.le
theorem apGI (i : Fin 21) : Ap (tab GI i : Float) (Eos.c GI i) (Eos.c GI i) 1 6 0 := Ap.litPos (chkGI i).1 (chkGI i).2
theorem apQI (i : Fin 21) : Ap (tab QI i : Float) (Eos.c QI i) (Eos.c QI i) 1 1 1 := Ap.litPos (chkQI i).1 (chkQI i).2
theorem apFI (i : Fin 21) : Ap (tab FI i : Float) (Eos.c FI i) (Eos.c FI i) 1 0 0 := Ap.litPos (chkFI i).1 (chkFI i).2
theorem apSI (i : Fin 21) : Ap (tab SI i : Float) (Eos.c SI i) (Eos.c SI i) 1 2 1 := Ap.litPos (chkSI i).1 (chkSI i).2
theorem apWI (i : Fin 21) : Ap (tab WI i : Float) (Eos.c WI i) (Eos.c WI i) 1 0 0 := Ap.litPos (chkWI i).1 (chkWI i).2
theorem apEIJ (i j : Fin 21) : Ap (tab2 EIJ i j : Float) (tab2 EIJ i j) (tab2 EIJ i j) 1 1 1 :=
  Ap.litPos (chkEIJ i j).1 (chkEIJ i j).2.le
theorem apUIJ (i j : Fin 21) : Ap (tab2 UIJ i j : Float) (tab2 UIJ i j) (tab2 UIJ i j) 1 2 1 :=
  Ap.litPos (chkUIJ i j).1 (chkUIJ i j).2.le
theorem apKIJ (i j : Fin 21) : Ap (tab2 KIJ i j : Float) (tab2 KIJ i j) (tab2 KIJ i j) 1 1 1 :=
  Ap.litPos (chkKIJ i j).1 (chkKIJ i j).2.le
theorem apGIJ (i j : Fin 21) : Ap (tab2 GIJ i j : Float) (tab2 GIJ i j) (tab2 GIJ i j) 1 2 1 :=
  Ap.litPos (chkGIJ i j).1 (chkGIJ i j).2.le

theorem chk1 : decChk true 0 0 ⟨1, 0⟩ = true := by decide +kernel
theorem chk2 : decChk true 0 1 ⟨2, 0⟩ = true := by decide +kernel
theorem chk15 : decChk true 0 1 ⟨15, 1⟩ = true := by decide +kernel
theorem chk25 : decChk true 0 2 ⟨25, 1⟩ = true := by decide +kernel
theorem chk06 : decChk false 1 0 ⟨6, 1⟩ = true := by decide +kernel
theorem chk02 : decChk false 3 0 ⟨2, 1⟩ = true := by decide +kernel

theorem ap1 : Ap (f% 1.0 : Float) 1 1 0 0 0 := by
  have h : decR ⟨1, 0⟩ = 1 := by simp [decR]
  have := Ap.litExPos chk1 (by norm_num)
  rwa [h] at this
theorem ap2 : Ap (f% 2.0 : Float) 2 2 0 0 1 := by
  have h : decR ⟨2, 0⟩ = 2 := by simp [decR]
  have := Ap.litExPos chk2 (by norm_num)
  rwa [h] at this
theorem ap0 (k l h : ℕ) : Ap (f% 0.0 : Float) 0 0 k l h :=
  ⟨fin0, by simp, by rw [toR0]; simp, Or.inl rfl⟩

theorem eiPos (i : Fin 21) : 0 < Eos.c EI i := by
  show 0 < ((aget EI i).m : ℝ) / 10 ^ (aget EI i).e
  have : (0 : ℝ) < (aget EI i).m := by exact_mod_cast (chkEI i).2
  positivity
theorem kiPos (i : Fin 21) : 0 < Eos.c KI i := by
  show 0 < ((aget KI i).m : ℝ) / 10 ^ (aget KI i).e
  have : (0 : ℝ) < (aget KI i).m := by exact_mod_cast (chkKI i).2
  positivity
theorem tab2Pos {v : Vector (Vector Dec 21) 21} {i j : Fin 21} (h : 0 < (aget2 v i j).m) : (0 : ℝ) < tab2 v i j := by
  show 0 < ((aget2 v i j).m : ℝ) / 10 ^ (aget2 v i j).e
  have : (0 : ℝ) < (aget2 v i j).m := by exact_mod_cast h
  positivity

/-! ## Powers -/

variable (hL : LibmAccurate)
include hL

omit hL in
theorem y25 : toR (f% 2.5 : Float) = 2.5 ∧ IsFinite (f% 2.5 : Float) :=
  ⟨by have := (decChk_val chk25).2.1 rfl
      rw [litF_eq, this]; simp only [decR]; norm_num, decChk_fin chk25⟩
omit hL in
theorem y15 : toR (f% 1.5 : Float) = 1.5 ∧ IsFinite (f% 1.5 : Float) :=
  ⟨by have := (decChk_val chk15).2.1 rfl
      rw [litF_eq, this]; simp only [decR]; norm_num, decChk_fin chk15⟩

theorem ap25 {a : Float} {α : ℝ} {l h : ℕ} (A : Ap a α α 1 l h) (hα : 0 < α) (hr : 3 * max l h ≤ 890 := by norm_num) :
    Ap (powf a (f% 2.5)) (α ^ (2.5 : ℝ)) (α ^ (2.5 : ℝ)) 9 (3 * l) (3 * h) := by
  obtain ⟨e1, e2⟩ := (y25 : _)
  have := Ap.powf2 hL A hα (y := (f% 2.5 : Float)) (η := 2.5) 3 0 3 0 e2 (by rw [e1, abs_of_pos (by norm_num)]; norm_num)
    (by rw [e1]; norm_num) (by norm_num) (by norm_num) (by rw [abs_of_pos (by norm_num)]; norm_num) (by norm_num)
    (by norm_num) hr
  exact this.weak (by norm_num) (by simp) (by simp)

theorem apKi25 (i : Fin 21) : Ap (powf (tab KI i) (f% 2.5) : Float) (Eos.c KI i ^ (2.5 : ℝ)) (Eos.c KI i ^ (2.5 : ℝ)) 9 6 0 :=
  ap25 hL (apKI i) (kiPos i)
theorem apEi25 (i : Fin 21) : Ap (powf (tab EI i) (f% 2.5) : Float) (Eos.c EI i ^ (2.5 : ℝ)) (Eos.c EI i ^ (2.5 : ℝ)) 9 0 30 :=
  ap25 hL (apEI i) (eiPos i)

theorem apKval (i j : Fin 21) : Ap (kVal i j : Float) (kVal i j)
    (((tab2 KIJ i j : ℝ) ^ 5 + 1) * Eos.c KI i ^ (2.5 : ℝ) * Eos.c KI j ^ (2.5 : ℝ)) 42 17 6 := by
  have h := (((Ap.powi hL (apKIJ i j) 5).sub ap1).mul (apKi25 hL i)).mul (apKi25 hL j)
  have e : (kVal i j : ℝ) = ((tab2 KIJ i j : ℝ) ^ 5 - 1) * Eos.c KI i ^ (2.5 : ℝ) * Eos.c KI j ^ (2.5 : ℝ) := by
    unfold kVal; simp only [r_powi, r_powf, l1, l25, tab_c]
  rw [e]
  exact h.weak (by norm_num) (by norm_num) (by norm_num)

theorem apUval (i j : Fin 21) : Ap (uVal i j : Float) (uVal i j)
    (((tab2 UIJ i j : ℝ) ^ 5 + 1) * Eos.c EI i ^ (2.5 : ℝ) * Eos.c EI j ^ (2.5 : ℝ)) 42 10 66 := by
  have h := (((Ap.powi hL (apUIJ i j) 5).sub ap1).mul (apEi25 hL i)).mul (apEi25 hL j)
  have e : (uVal i j : ℝ) = ((tab2 UIJ i j : ℝ) ^ 5 - 1) * Eos.c EI i ^ (2.5 : ℝ) * Eos.c EI j ^ (2.5 : ℝ) := by
    unfold uVal; simp only [r_powi, r_powf, l1, l25, tab_c]
  rw [e]
  exact h.weak (by norm_num) (by norm_num) (by norm_num)

omit hL in
theorem apGval (i j : Fin 21) : Ap (gVal i j : Float) (gVal i j)
    (((tab2 GIJ i j : ℝ) + 1) * (Eos.c GI i + Eos.c GI j) / 2) 10 9 3 := by
  have h := (((apGIJ i j).sub ap1).mul ((apGI i).add (apGI j))).div ap2 (by norm_num)
  have e : (gVal i j : ℝ) = ((tab2 GIJ i j : ℝ) - 1) * (Eos.c GI i + Eos.c GI j) / 2 := by
    unfold gVal; simp only [l1, l2, tab_c]
  rw [e]
  exact h.weak (by norm_num) (by norm_num) (by norm_num)

omit hL in
theorem ap_ite {a b : Float} {α β m m' : ℝ} {k l h : ℕ} (p : Bool) (A : Ap a α m k l h) (B : Ap b β m' k l h) :
    Ap (if p = true then a else b) (if p = true then α else β) (if p = true then m else m') k l h := by
  cases p
  · exact B
  · exact A

omit hL in
/-- `b * v[i] * v[j]` under a flag. -/
theorem ap_flag {b : Float} {β : ℝ} {k l h l1 h1 : ℕ} (p : Bool) (v : Vector Dec 21) (B : Ap b β β k l h)
    (V : ∀ i : Fin 21, Ap (tab v i : Float) (Eos.c v i) (Eos.c v i) 1 l1 h1) (i j : Fin 21) (hk : k + 3 ≤ KMax)
    (hl : l + l1 + l1 ≤ 1000) (hh : h + h1 + h1 ≤ 1000) :
    Ap (if p = true then b * tab v i * tab v j else b) (if p = true then β * Eos.c v i * Eos.c v j else β)
      (if p = true then β * Eos.c v i * Eos.c v j else β) (k + 6) (l + l1 + l1) (h + h1 + h1) := by
  refine ap_ite p ?_ (B.weak (by omega) (by omega) (by omega))
  have h1 := (B.mul (V i) (by omega) (by norm_num) (by omega) (by omega)).mul (V j) (by omega) (by norm_num) (by omega) (by omega)
  exact h1.weak (by omega) (by omega) (by omega)

omit hL in
theorem apBsnij (i j : Fin 21) (n : Fin 18) : Ap (bsnij i j n : Float) (bsnij i j n) (bsnij i j n) 32 15 6 := by
  have g0 : Ap (if (aget GN ⟨n.1, by omega⟩ == 1) = true then tab2 GIJ i j * (tab GI i + tab GI j) / f% 2.0 else f% 1.0 : Float)
      (if (aget GN ⟨n.1, by omega⟩ == 1) = true then tab2 GIJ i j * (tab GI i + tab GI j) / f% 2.0 else f% 1.0)
      (if (aget GN ⟨n.1, by omega⟩ == 1) = true then tab2 GIJ i j * (tab GI i + tab GI j) / f% 2.0 else f% 1.0 : ℝ) 8 9 2 := by
    simp only [l1, l2, tab_c]
    refine ap_ite _ ?_ (ap1.weak (by norm_num) (by norm_num) (by norm_num))
    exact (((apGIJ i j).mul ((apGI i).add (apGI j))).div ap2 (by norm_num)).weak (by norm_num) (by norm_num) (by norm_num)
  have g1 := ap_flag (aget QN ⟨n.1, by omega⟩ == 1) QI g0 apQI i j (by norm_num) (by norm_num) (by norm_num)
  have g2 := ap_flag (aget FN ⟨n.1, by omega⟩ == 1) FI g1 apFI i j (by norm_num) (by norm_num) (by norm_num)
  have g3 := ap_flag (aget SN ⟨n.1, by omega⟩ == 1) SI g2 apSI i j (by norm_num) (by norm_num) (by norm_num)
  have g4 := ap_flag (aget WN ⟨n.1, by omega⟩ == 1) WI g3 apWI i j (by norm_num) (by norm_num) (by norm_num)
  exact g4

omit hL in
theorem apUN (n : Fin 58) : IsFinite (tab UN n : Float) ∧ toR (tab UN n : Float) = Eos.c UN n ∧
    Eos.c UN n ≤ 23 ∧ -13 ≤ Eos.c UN n ∧ |Eos.c UN n| ≤ 23 := by
  obtain ⟨h1, h2, h3⟩ := chkUN n
  have e : (10 : ℝ) ^ (aget UN n).e > 0 := by positivity
  have c1 : Eos.c UN n ≤ 23 := by
    show ((aget UN n).m : ℝ) / 10 ^ (aget UN n).e ≤ 23
    rw [div_le_iff₀ e]
    exact_mod_cast h3
  have c2 : -13 ≤ Eos.c UN n := by
    show -13 ≤ ((aget UN n).m : ℝ) / 10 ^ (aget UN n).e
    rw [le_div_iff₀ e]
    exact_mod_cast h2
  exact ⟨decChk_fin h1, (decChk_val h1).2.1 rfl, c1, c2, abs_le.2 ⟨by linarith, c1⟩⟩

/-- A power with exponent `u_n`. -/
theorem apPowUN {a : Float} {α : ℝ} {k l h : ℕ} (A : Ap a α α k l h) (hα : 0 < α) (n : Fin 58)
    (hk : 23 * (k + 1) ≤ KMax := by norm_num) (hr : 23 * max l h ≤ 890 := by norm_num) :
    Ap (powf a (tab UN n)) (α ^ Eos.c UN n) (α ^ Eos.c UN n) (23 * (k + 1) + 3) (max (23 * l) (13 * h)) (max (23 * h) (13 * l)) := by
  obtain ⟨h1, h2, h3, h4, h5⟩ := apUN n
  have := Ap.powf2 hL A hα (y := (tab UN n : Float)) (η := Eos.c UN n) 23 0 23 13 h1 (by rw [h2]; exact_mod_cast h5)
    (by rw [h2]; simp) (by exact_mod_cast h3) (by exact_mod_cast h4) (by exact_mod_cast h5) (by omega) (by simpa using hk) hr
  simp only [Nat.zero_mul, Nat.add_zero] at this
  exact this

theorem apBval (i j : Fin 21) (n : Fin 18) : Ap (bVal i j n : Float) (bVal i j n)
    (|Eos.c AN ⟨n.1, by omega⟩| * (tab2 EIJ i j * √(Eos.c EI i * Eos.c EI j)) ^ Eos.c UN ⟨n.1, by omega⟩
      * (Eos.c KI i * Eos.c KI j) ^ (1.5 : ℝ) * bsnij i j n) 285 350 493 := by
  have pe := mul_pos (eiPos i) (eiPos j)
  have pk := mul_pos (kiPos i) (kiPos j)
  have p0 : 0 < (tab2 EIJ i j : ℝ) * √(Eos.c EI i * Eos.c EI j) := mul_pos (tab2Pos (chkEIJ i j).2) (Real.sqrt_pos.2 pe)
  have t1 := apPowUN hL ((apEIJ i j).mul (((apEI i).mul (apEI j)).sqrt pe)) p0 ⟨n.1, by omega⟩
  obtain ⟨e1, e2⟩ := (y15 : _)
  have t2 := Ap.powf2 hL ((apKI i).mul (apKI j)) pk (y := (f% 1.5 : Float)) (η := 1.5) 2 0 2 0 e2
    (by rw [e1, abs_of_pos (by norm_num)]; norm_num)
    (by rw [e1]; norm_num) (by norm_num) (by norm_num) (by rw [abs_of_pos (by norm_num)]; norm_num) (by norm_num)
    (by norm_num) (by norm_num)
  have t3 := (((apAN ⟨n.1, by omega⟩).mul t1).mul t2).mul (apBsnij i j n)
  have e : (bVal i j n : ℝ) = Eos.c AN ⟨n.1, by omega⟩ * (tab2 EIJ i j * √(Eos.c EI i * Eos.c EI j)) ^ Eos.c UN ⟨n.1, by omega⟩
      * (Eos.c KI i * Eos.c KI j) ^ (1.5 : ℝ) * bsnij i j n := by
    unfold bVal; simp only [r_powf, r_sqrt, l15, tab_c]
  rw [e]
  exact t3.weak (by norm_num) (by norm_num) (by norm_num)

end Aga8.Detail
