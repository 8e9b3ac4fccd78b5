import Verif.Spec.Rounded
import Mathlib.Tactic.Linarith
import Mathlib.Tactic.Ring
import Mathlib.Tactic.NormNum
import Mathlib.Tactic.Positivity
import Mathlib.Tactic.FieldSimp
import Mathlib.Algebra.Order.Floor.Ring
/-! Rounding to `p` binary digits is an `Arithmetic`. -/
namespace Artist.Rounded
open Artist

theorem nearestEven_int (k : Int) : nearestEven (k : ℝ) = k := by
  unfold nearestEven
  rw [Int.floor_intCast, if_pos (by norm_num)]

theorem nearestEven_bounds (y : ℝ) : ⌊y⌋ ≤ nearestEven y ∧ nearestEven y ≤ ⌊y⌋ + 1 := by
  unfold nearestEven
  split_ifs <;> constructor <;> omega

theorem nearestEven_close (y : ℝ) : |(nearestEven y : ℝ) - y| ≤ 1 / 2 := by
  have h1 := Int.floor_le y
  have h2 := Int.lt_floor_add_one y
  unfold nearestEven
  split_ifs with a b c
  · rw [abs_le]; constructor <;> linarith
  · push_cast; rw [abs_le]; constructor <;> linarith
  · rw [abs_le]; constructor <;> linarith
  · push_cast; rw [abs_le]; constructor <;> linarith

theorem nearestEven_mono {x y : ℝ} (h : x ≤ y) : nearestEven x ≤ nearestEven y := by
  rcases eq_or_lt_of_le (Int.floor_le_floor h) with he | hl
  · unfold nearestEven
    rw [he]
    split_ifs <;> first | omega | (exfalso; linarith)
  · have := (nearestEven_bounds x).2
    have := (nearestEven_bounds y).1
    omega

variable (p : Nat) (emin : Int)

theorem lastDigit_mono {x y : ℝ} (hx : 0 < x) (h : x ≤ y) : lastDigit p emin x ≤ lastDigit p emin y := by
  unfold lastDigit
  have := Int.log_mono_right (b := 2) hx h
  omega

theorem roundPos_nonneg {x : ℝ} (hx : 0 ≤ x) : 0 ≤ roundPos p emin x := by
  unfold roundPos
  have h : (0 : ℝ) < 2 ^ lastDigit p emin x := by positivity
  have : 0 ≤ nearestEven (x / 2 ^ lastDigit p emin x) :=
    le_trans (Int.floor_nonneg.2 (div_nonneg hx h.le)) (nearestEven_bounds _).1
  exact mul_nonneg (by exact_mod_cast this) h.le

theorem roundPos_zero : roundPos p emin 0 = 0 := by
  unfold roundPos
  have := nearestEven_int 0
  rw [Int.cast_zero] at this
  rw [zero_div, this]; simp

/-- whole multiples of a digit that is at least the last one are not changed -/
theorem roundPos_multiple {x : ℝ} (e : Int) (he : lastDigit p emin x ≤ e) (k : Int) (hx : x = k * 2 ^ e) : roundPos p emin x = x := by
  unfold roundPos
  set d := lastDigit p emin x
  have hq : (2 : ℝ) ^ d ≠ 0 := by positivity
  obtain ⟨n, hn⟩ : ∃ n : Nat, e = d + n := ⟨(e - d).toNat, by omega⟩
  have hdiv : x / 2 ^ d = ((k * 2 ^ n : Int) : ℝ) := by
    rw [hx, hn, zpow_add₀ (by norm_num)]
    push_cast
    rw [zpow_natCast]
    field_simp
  rw [hdiv, nearestEven_int, ← hdiv]
  field_simp

/-- the power of two above a number -/
theorem lt_top {x : ℝ} : x < 2 ^ (lastDigit p emin x + p) := by
  have h : x < (2 : ℝ) ^ (Int.log 2 x + 1) := by
    have := Int.lt_zpow_succ_log_self (b := 2) (by norm_num) x
    exact_mod_cast this
  refine h.trans_le (zpow_le_zpow_right₀ (by norm_num) ?_)
  unfold lastDigit; omega

theorem pow_le {x : ℝ} (hx : 0 < x) (h : emin < lastDigit p emin x) : (2 : ℝ) ^ (lastDigit p emin x + p - 1) ≤ x := by
  have h1 : (2 : ℝ) ^ (Int.log 2 x) ≤ x := by
    have := Int.zpow_log_le_self (b := 2) (by norm_num) hx
    exact_mod_cast this
  have : lastDigit p emin x + p - 1 = Int.log 2 x := by unfold lastDigit at h ⊢; omega
  rw [this]; exact h1

theorem roundPos_mono (hp : 1 ≤ p) {x y : ℝ} (hx : 0 ≤ x) (h : x ≤ y) : roundPos p emin x ≤ roundPos p emin y := by
  rcases eq_or_lt_of_le hx with h0 | h0
  · rw [← h0, roundPos_zero]; exact roundPos_nonneg p emin (hx.trans h)
  have hd := lastDigit_mono p emin h0 h
  rcases eq_or_lt_of_le hd with he | hl
  · unfold roundPos
    rw [he]
    have hq : (0 : ℝ) < 2 ^ lastDigit p emin y := by positivity
    exact mul_le_mul_of_nonneg_right (by exact_mod_cast nearestEven_mono (div_le_div_of_nonneg_right h hq.le)) hq.le
  · -- between them lies a power of two
    have hy0 : 0 < y := lt_of_lt_of_le h0 h
    have hmin : emin < lastDigit p emin y := lt_of_le_of_lt (by unfold lastDigit; omega) hl
    have htop : roundPos p emin x ≤ 2 ^ (lastDigit p emin x + p) := by
      unfold roundPos
      have hq : (0 : ℝ) < 2 ^ lastDigit p emin x := by positivity
      have hb : x / 2 ^ lastDigit p emin x ≤ ((2 ^ p : Int) : ℝ) := by
        rw [div_le_iff₀ hq]
        have := (lt_top p emin (x := x)).le
        rw [zpow_add₀ (by norm_num), zpow_natCast, mul_comm] at this
        exact_mod_cast this
      have := nearestEven_mono hb
      rw [nearestEven_int] at this
      rw [zpow_add₀ (by norm_num), zpow_natCast, mul_comm]
      exact mul_le_mul_of_nonneg_left (by exact_mod_cast this) hq.le
    have hbot : (2 : ℝ) ^ (lastDigit p emin x + p) ≤ roundPos p emin y := by
      have h1 : (2 : ℝ) ^ (lastDigit p emin x + p) ≤ 2 ^ (lastDigit p emin y + p - 1) := zpow_le_zpow_right₀ (by norm_num) (by omega)
      have h2 := pow_le p emin hy0 hmin
      unfold roundPos
      have hq : (0 : ℝ) < 2 ^ lastDigit p emin y := by positivity
      have hb : ((2 ^ (p - 1) : Int) : ℝ) ≤ y / 2 ^ lastDigit p emin y := by
        rw [le_div_iff₀ hq]
        have e : lastDigit p emin y + p - 1 = ((p - 1 : Nat) : Int) + lastDigit p emin y := by omega
        rw [e, zpow_add₀ (by norm_num), zpow_natCast] at h2
        exact_mod_cast h2
      have := nearestEven_mono hb
      rw [nearestEven_int] at this
      refine h1.trans ?_
      have e : lastDigit p emin y + p - 1 = ((p - 1 : Nat) : Int) + lastDigit p emin y := by omega
      rw [e, zpow_add₀ (by norm_num), zpow_natCast]
      exact mul_le_mul_of_nonneg_right (by exact_mod_cast this) hq.le
    exact htop.trans hbot

theorem roundPos_fixed {x : ℝ} : ∃ k : Int, roundPos p emin x = k * 2 ^ emin := by
  unfold roundPos
  obtain ⟨n, hn⟩ : ∃ n : Nat, lastDigit p emin x = emin + n := ⟨(lastDigit p emin x - emin).toNat, by unfold lastDigit; omega⟩
  refine ⟨nearestEven (x / 2 ^ lastDigit p emin x) * 2 ^ n, ?_⟩
  rw [hn, zpow_add₀ (by norm_num), zpow_natCast]
  push_cast
  ring

theorem roundPos_error (x : ℝ) : |roundPos p emin x - x| ≤ 2 ^ lastDigit p emin x / 2 := by
  unfold roundPos
  set q := (2 : ℝ) ^ lastDigit p emin x with hqd
  have hq : 0 < q := by rw [hqd]; positivity
  have h := nearestEven_close (x / q)
  have e : (nearestEven (x / q) : ℝ) * q - x = ((nearestEven (x / q) : ℝ) - x / q) * q := by field_simp
  rw [e, abs_mul, abs_of_pos hq]
  linarith [mul_le_mul_of_nonneg_right h hq.le]

/-- relative error of a normal number -/
theorem roundPos_normal {x : ℝ} (hx : 0 < x) (h : emin < lastDigit p emin x) : |roundPos p emin x - x| ≤ 1 / 2 ^ p * x := by
  refine (roundPos_error p emin x).trans ?_
  have h1 := pow_le p emin hx h
  rw [show lastDigit p emin x + p - 1 = lastDigit p emin x + (p : Int) + (-1) by ring, zpow_add₀ (by norm_num), zpow_add₀ (by norm_num), zpow_natCast] at h1
  have hp : (0 : ℝ) < 2 ^ p := by positivity
  rw [div_mul_eq_mul_div, one_mul, le_div_iff₀ hp]
  norm_num at h1 ⊢
  linarith

theorem roundPos_close {x : ℝ} (hx : 0 ≤ x) : |roundPos p emin x - x| ≤ 1 / 2 ^ p * x + 2 ^ emin / 2 := by
  have hpow : (0 : ℝ) ≤ 2 ^ emin / 2 := by positivity
  rcases eq_or_lt_of_le hx with h0 | h0
  · rw [← h0, roundPos_zero]; simp; positivity
  rcases eq_or_lt_of_le (show emin ≤ lastDigit p emin x by unfold lastDigit; omega) with he | hl
  · have := roundPos_error p emin x
    rw [← he] at this
    have h1 : (0 : ℝ) ≤ 1 / 2 ^ p * x := by positivity
    linarith
  · linarith [roundPos_normal p emin h0 hl]

theorem roundPos_idem (hp : 1 ≤ p) {x : ℝ} (hx : 0 ≤ x) : roundPos p emin (roundPos p emin x) = roundPos p emin x := by
  rcases eq_or_lt_of_le hx with h0 | h0
  · rw [← h0, roundPos_zero, roundPos_zero]
  rcases eq_or_lt_of_le (roundPos_nonneg p emin hx) with hz | hz
  · rw [← hz, roundPos_zero]
  -- the rounded number is at most the next power of two
  have hq : (0 : ℝ) < 2 ^ lastDigit p emin x := by positivity
  have htop : roundPos p emin x ≤ 2 ^ (lastDigit p emin x + p) := by
    have h1 : roundPos p emin x ≤ roundPos p emin (2 ^ (lastDigit p emin x + p)) := roundPos_mono p emin hp hx (lt_top p emin).le
    refine h1.trans (le_of_eq ?_)
    refine roundPos_multiple p emin (lastDigit p emin x + p) ?_ 1 (by simp)
    unfold lastDigit
    rw [show (2 : ℝ) = ((2 : Nat) : ℝ) by norm_num, Int.log_zpow (by norm_num)]
    push_cast
    omega
  rcases eq_or_lt_of_le htop with he | hl
  · refine roundPos_multiple p emin (lastDigit p emin x + p) ?_ 1 (by rw [he]; simp)
    rw [he]
    unfold lastDigit
    rw [show (2 : ℝ) = ((2 : Nat) : ℝ) by norm_num, Int.log_zpow (by norm_num)]
    push_cast
    omega
  · refine roundPos_multiple p emin (lastDigit p emin x) ?_ (nearestEven (x / 2 ^ lastDigit p emin x)) rfl
    have hlog : Int.log 2 (roundPos p emin x) < lastDigit p emin x + p := by
      rw [← Int.lt_zpow_iff_log_lt (by norm_num) hz]
      exact_mod_cast hl
    have : emin ≤ lastDigit p emin x := by unfold lastDigit; omega
    conv_lhs => unfold lastDigit
    omega

theorem binary_arithmetic (hp : 1 ≤ p) (he : emin ≤ 0) : Arithmetic (binary p emin) (1 / 2 ^ p) (2 ^ emin / 2) (2 ^ p) := by
  have hzero : binary p emin 0 = 0 := by unfold binary; rw [if_pos le_rfl, roundPos_zero]
  have hodd : ∀ x, binary p emin (-x) = -binary p emin x := by
    intro x
    unfold binary
    rcases lt_trichotomy x 0 with h | h | h
    · rw [if_pos (by linarith), if_neg (by linarith), neg_neg]
    · subst h; simp [roundPos_zero]
    · rw [if_neg (by linarith), if_pos h.le, neg_neg]
  have hpos : ∀ x, 0 ≤ x → binary p emin x = roundPos p emin x := by intro x hx; unfold binary; rw [if_pos hx]
  have hnn : ∀ x, 0 ≤ x → 0 ≤ binary p emin x := by intro x hx; rw [hpos x hx]; exact roundPos_nonneg p emin hx
  have hidem : ∀ x, binary p emin (binary p emin x) = binary p emin x := by
    have main : ∀ x, 0 ≤ x → binary p emin (binary p emin x) = binary p emin x := by
      intro x hx
      rw [hpos _ (hnn x hx), hpos x hx]
      exact roundPos_idem p emin hp hx
    intro x
    rcases le_total 0 x with h | h
    · exact main x h
    · have := main (-x) (by linarith)
      rw [hodd, hodd] at this
      linarith
  have hfix : ∀ x, binary p emin x = x → ∃ k : Int, x = k * 2 ^ emin := by
    intro x hx
    unfold binary at hx
    split_ifs at hx with h
    · obtain ⟨k, hk⟩ := roundPos_fixed p emin (x := x)
      exact ⟨k, by rw [← hk, hx]⟩
    · obtain ⟨k, hk⟩ := roundPos_fixed p emin (x := -x)
      refine ⟨-k, ?_⟩
      rw [hk] at hx
      push_cast
      linarith
  refine ⟨by positivity, ?_, by positivity, ?_, hodd, hidem, ?_, ?_, ?_⟩
  · rw [div_lt_one (by positivity)]
    exact one_lt_pow₀ (by norm_num) (by omega)
  · intro x y h
    rcases le_total 0 x with hx | hx
    · rw [hpos x hx, hpos y (hx.trans h)]
      exact roundPos_mono p emin hp hx h
    · rcases le_total 0 y with hy | hy
      · have h1 := hnn y hy
        have h2 := hnn (-x) (by linarith)
        rw [hodd] at h2
        linarith
      · have := roundPos_mono p emin hp (x := -y) (y := -x) (by linarith) (by linarith)
        rw [← hpos _ (by linarith), ← hpos _ (by linarith), hodd, hodd] at this
        linarith
  · intro n hn
    rw [hpos _ (Nat.cast_nonneg n)]
    rcases Nat.eq_zero_or_pos n with h0 | h0
    · subst h0; simpa using roundPos_zero p emin
    rcases eq_or_lt_of_le hn with h1 | h1
    · refine roundPos_multiple p emin p ?_ 1 (by rw [h1]; push_cast; simp)
      unfold lastDigit
      have : Int.log 2 ((n : Nat) : ℝ) = p := by
        rw [h1]
        have := Int.log_zpow (R := ℝ) (b := 2) (by norm_num) (p : Int)
        rw [← this]
        push_cast
        rw [zpow_natCast]
      omega
    · refine roundPos_multiple p emin 0 ?_ n (by simp)
      have hlog : Int.log 2 ((n : Nat) : ℝ) < p := by
        rw [← Int.lt_zpow_iff_log_lt (by norm_num) (by exact_mod_cast h0), zpow_natCast]
        exact_mod_cast h1
      unfold lastDigit
      omega
  · intro x
    rcases le_total 0 x with hx | hx
    · rw [hpos x hx, abs_of_nonneg hx]
      exact roundPos_close p emin hx
    · have := roundPos_close p emin (x := -x) (by linarith)
      rw [← hpos _ (by linarith), hodd] at this
      rw [abs_of_nonpos hx, ← abs_neg, neg_sub']
      simpa using this
  · intro x y hx hy
    obtain ⟨k, hk⟩ := hfix x hx
    obtain ⟨l, hl⟩ := hfix y hy
    have main : ∀ (z : ℝ) (m : Int), z = m * 2 ^ emin → 0 ≤ z → |binary p emin z - z| ≤ 1 / 2 ^ p * |z| := by
      intro z m hm hz
      rw [hpos z hz, abs_of_nonneg hz]
      rcases eq_or_lt_of_le hz with h0 | h0
      · rw [← h0, roundPos_zero]; simp
      rcases eq_or_lt_of_le (show emin ≤ lastDigit p emin z by unfold lastDigit; omega) with h1 | h1
      · rw [roundPos_multiple p emin emin h1.symm.le m hm, sub_self, abs_zero]
        positivity
      · exact roundPos_normal p emin h0 h1
    have hs : x + y = ((k + l : Int) : ℝ) * 2 ^ emin := by rw [hk, hl]; push_cast; ring
    rcases le_total 0 (x + y) with h | h
    · exact main _ _ hs h
    · have := main (-(x + y)) (-(k + l)) (by rw [hs]; push_cast; ring) (by linarith)
      rw [hodd, abs_neg] at this
      rw [← abs_neg, neg_sub']
      simpa [neg_add_eq_sub] using this

end Artist.Rounded
