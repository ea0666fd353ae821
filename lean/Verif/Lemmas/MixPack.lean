import Verif.Lemmas.Basic
import Mathlib.Tactic.Ring
import Mathlib.Tactic.Linarith
import Mathlib.Algebra.Order.Ring.Nat

/-! # Sums of products by one multiplication

Thirty six numbers are the digits of one number to the base `B`. The sum of the products of the digits of one number with given
numbers is a digit of a single product. -/

namespace Aga8.Mix

def B : ℕ := 2 ^ 96
def dig (x k : ℕ) : ℕ := x / B ^ k % B

/-- The digits of `x` are at most `M`. -/
def Small (x M : ℕ) : Prop := ∀ k < 36, dig x k ≤ M ∧ (B - 1) * (x % B ^ k) ≤ M * B ^ k

def smallChk (x M : ℕ) : Bool := (List.range 36).all fun k =>
  Nat.ble (dig x k) M && Nat.ble ((B - 1) * (x % B ^ k)) (M * B ^ k)

theorem small_of {x M : ℕ} (h : smallChk x M = true) : Small x M := by
  intro k hk
  have := List.all_eq_true.1 h k (List.mem_range.2 hk)
  rw [Bool.and_eq_true] at this
  exact ⟨Nat.le_of_ble_eq_true this.1, Nat.le_of_ble_eq_true this.2⟩

/-- The numbers of a list at the given places, from the top. -/
def packG : List (ℕ × ℕ) → ℕ
  | [] => 0
  | g :: l => g.2 * B ^ (35 - g.1) + packG l
def sumG : List (ℕ × ℕ) → ℕ
  | [] => 0
  | g :: l => g.2 + sumG l
def dotL (x : ℕ) : List (ℕ × ℕ) → ℕ
  | [] => 0
  | g :: l => g.2 * dig x g.1 + dotL x l

def dotp (x y : ℕ) : ℕ := x * y / B ^ 35 % B

theorem pack_split {x M : ℕ} (hx : Small x M) : ∀ l : List (ℕ × ℕ), (∀ g ∈ l, g.1 < 36) →
    ∃ H lo, x * packG l = H * B ^ 36 + dotL x l * B ^ 35 + lo ∧ (B - 1) * lo ≤ M * sumG l * B ^ 35
  | [], _ => ⟨0, 0, by simp [packG, dotL], by simp [sumG]⟩
  | g :: l, h => by
    obtain ⟨H, lo, e, hl⟩ := pack_split hx l fun g' hg => h g' (List.mem_cons_of_mem _ hg)
    have hk := h g List.mem_cons_self
    obtain ⟨-, h2⟩ := hx g.1 hk
    have e1 : x = x / B ^ (g.1 + 1) * B ^ (g.1 + 1) + dig x g.1 * B ^ g.1 + x % B ^ g.1 := by
      unfold dig
      have a1 := Nat.div_add_mod x (B ^ g.1)
      have a2 := Nat.div_add_mod (x / B ^ g.1) B
      rw [Nat.div_div_eq_div_mul, ← pow_succ] at a2
      calc x = B ^ g.1 * (x / B ^ g.1) + x % B ^ g.1 := a1.symm
        _ = B ^ g.1 * (B * (x / B ^ (g.1 + 1)) + x / B ^ g.1 % B) + x % B ^ g.1 := by rw [a2]
        _ = _ := by ring
    refine ⟨g.2 * (x / B ^ (g.1 + 1)) + H, g.2 * (x % B ^ g.1) * B ^ (35 - g.1) + lo, ?_, ?_⟩
    · have p1 : B ^ (g.1 + 1) * B ^ (35 - g.1) = B ^ 36 := by rw [← pow_add]; congr 1; omega
      have p2 : B ^ g.1 * B ^ (35 - g.1) = B ^ 35 := by rw [← pow_add]; congr 1; omega
      show x * (g.2 * B ^ (35 - g.1) + packG l) = _
      rw [mul_add, e]
      calc x * (g.2 * B ^ (35 - g.1)) + (H * B ^ 36 + dotL x l * B ^ 35 + lo)
          = (x / B ^ (g.1 + 1) * B ^ (g.1 + 1) + dig x g.1 * B ^ g.1 + x % B ^ g.1) * (g.2 * B ^ (35 - g.1))
            + (H * B ^ 36 + dotL x l * B ^ 35 + lo) := by rw [← e1]
        _ = g.2 * (x / B ^ (g.1 + 1)) * (B ^ (g.1 + 1) * B ^ (35 - g.1)) + g.2 * dig x g.1 * (B ^ g.1 * B ^ (35 - g.1))
            + g.2 * (x % B ^ g.1) * B ^ (35 - g.1) + (H * B ^ 36 + dotL x l * B ^ 35 + lo) := by ring
        _ = _ := by
          rw [p1, p2]
          show _ = _ + (g.2 * dig x g.1 + dotL x l) * B ^ 35 + _
          ring
    · have p2 : B ^ g.1 * B ^ (35 - g.1) = B ^ 35 := by rw [← pow_add]; congr 1; omega
      calc (B - 1) * (g.2 * (x % B ^ g.1) * B ^ (35 - g.1) + lo)
          = g.2 * B ^ (35 - g.1) * ((B - 1) * (x % B ^ g.1)) + (B - 1) * lo := by ring
        _ ≤ g.2 * B ^ (35 - g.1) * (M * B ^ g.1) + M * sumG l * B ^ 35 := Nat.add_le_add (Nat.mul_le_mul_left _ h2) hl
        _ = g.2 * M * (B ^ g.1 * B ^ (35 - g.1)) + M * sumG l * B ^ 35 := by ring
        _ = _ := by
          rw [p2]
          show _ = M * (g.2 + sumG l) * B ^ 35
          ring

theorem dotL_le {x M : ℕ} (hx : Small x M) : ∀ l : List (ℕ × ℕ), (∀ g ∈ l, g.1 < 36) → dotL x l ≤ M * sumG l
  | [], _ => by simp [dotL]
  | g :: l, h => by
    have h1 := dotL_le hx l fun g' hg => h g' (List.mem_cons_of_mem _ hg)
    have h2 := (hx g.1 (h g List.mem_cons_self)).1
    show g.2 * dig x g.1 + dotL x l ≤ M * (g.2 + sumG l)
    calc g.2 * dig x g.1 + dotL x l ≤ g.2 * M + M * sumG l := Nat.add_le_add (Nat.mul_le_mul_left _ h2) h1
      _ = _ := by ring

/-- The sum of products is a digit of the product. -/
theorem dotp_eq {x M : ℕ} (hx : Small x M) {l : List (ℕ × ℕ)} (hl : ∀ g ∈ l, g.1 < 36) (hM : M * sumG l < B - 1) :
    dotp x (packG l) = dotL x l := by
  obtain ⟨H, lo, e, h⟩ := pack_split hx l hl
  have hB : 1 < B := by decide
  have hlo : lo < B ^ 35 := by
    by_contra hc
    have h1 : (B - 1) * B ^ 35 ≤ (B - 1) * lo := Nat.mul_le_mul_left _ (not_lt.1 hc)
    have h2 : M * sumG l * B ^ 35 < (B - 1) * B ^ 35 := Nat.mul_lt_mul_of_pos_right hM (by positivity)
    omega
  have hd : dotL x l < B := lt_of_le_of_lt (dotL_le hx l hl) (by omega)
  unfold dotp
  have e2 : x * packG l = lo + B ^ 35 * (H * B + dotL x l) := by rw [e]; ring
  rw [e2, Nat.add_mul_div_left _ _ (by positivity), Nat.div_eq_of_lt hlo, zero_add, mul_comm H, Nat.mul_add_mod, Nat.mod_eq_of_lt hd]

end Aga8.Mix
