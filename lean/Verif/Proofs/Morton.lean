import Verif.Model.Morton
import Verif.Spec.Morton
import Mathlib.Tactic.Common
import Mathlib.Tactic.Linarith
import Mathlib.Tactic.NormNum
import Mathlib.Tactic.FieldSimp
import Mathlib.Tactic.Positivity
import Mathlib.Data.Nat.Bitwise
import Mathlib.Algebra.Order.Floor.Semiring
/-! Helper lemmas for `Verif.Model.Morton`. -/
namespace Artist.Morton
open Artist

/-! ### expand_bits -/

/-- the whole table of `expand_bits`: bit `b` of the result for input `x` -/
theorem expand_table : ∀ x : Fin 1024,
    (match expandBits (BitVec.ofNat 32 x.val) with
     | .ok v => (List.range 32).all (fun b =>
        v.getLsbD b == (decide (b % 3 = 0) && (decide (b / 3 < 10) && x.val.testBit (b / 3))))
     | .error _ => false) = true := by
  decide +kernel

theorem expand_ok (x : Nat) (hx : x < 1024) :
    ∃ v, expandBits (BitVec.ofNat 32 x) = .ok v ∧
      ∀ b, b < 32 → v.getLsbD b = (decide (b % 3 = 0) && (decide (b / 3 < 10) && x.testBit (b / 3))) := by
  have h := expand_table ⟨x, hx⟩
  simp only at h
  cases hv : expandBits (BitVec.ofNat 32 x) with
  | error e => rw [hv] at h; simp at h
  | ok v =>
    rw [hv] at h
    simp only [List.all_eq_true, List.mem_range, beq_iff_eq] at h
    exact ⟨v, rfl, h⟩

/-! ### clz -/

theorem sshiftRight_eq_zero (x : BitVec 32) (k : Nat) (hk : k < 32) :
    (x.sshiftRight k == 0#32) = decide (x.toNat < 2 ^ k) := by
  have h1 : (x.sshiftRight k == 0#32) = true ↔ x.toNat < 2 ^ k := by
    rw [beq_iff_eq]
    constructor
    · intro h
      by_contra hn
      push Not at hn
      -- some bit ≥ k is set
      obtain ⟨j, hj, hb⟩ := Nat.exists_ge_and_testBit_of_ge_two_pow hn
      have hj32 : j < 32 := by
        by_contra hh
        have : x.toNat < 2 ^ j := lt_of_lt_of_le x.isLt (Nat.pow_le_pow_right (by norm_num) (by omega))
        rw [Nat.testBit_lt_two_pow this] at hb
        simp at hb
      have hbit : (x.sshiftRight k).getLsbD (j - k) = true := by
        rw [BitVec.getLsbD_sshiftRight]
        have : k + (j - k) = j := by omega
        simp only [this]
        rw [if_pos hj32]
        simp only [Bool.and_eq_true, Bool.not_eq_true', decide_eq_false_iff_not]
        exact ⟨by omega, by rw [← BitVec.testBit_toNat]; exact hb⟩
      rw [h] at hbit
      simp at hbit
    · intro h
      apply BitVec.eq_of_getLsbD_eq
      intro b hb
      rw [BitVec.getLsbD_sshiftRight]
      have hmsb : x.msb = false := by
        rw [BitVec.msb_eq_false_iff_two_mul_lt]
        have : (2:Nat) ^ k ≤ 2 ^ 31 := Nat.pow_le_pow_right (by norm_num) (by omega)
        have : (2:Nat)^32 = 2 * 2^31 := by norm_num
        omega
      have hz : ∀ c, k ≤ c → x.getLsbD c = false := by
        intro c hc
        rw [← BitVec.testBit_toNat]
        exact Nat.testBit_lt_two_pow (lt_of_lt_of_le h (Nat.pow_le_pow_right (by norm_num) hc))
      simp [hmsb, hz (k + b) (by omega)]
  by_cases hh : x.toNat < 2 ^ k
  · rw [h1.2 hh]; simp [hh]
  · have : ¬ (x.sshiftRight k == 0#32) = true := fun h => hh (h1.1 h)
    simp only [Bool.not_eq_true] at this
    rw [this]; simp [hh]

/-- invariant of the leading-zero loop -/
structure ClzInv (d : Nat) (lo : Nat) (st : Nat × BitVec 32) : Prop where
  val : st.2.toNat = d * 2 ^ st.1
  low : 2 ^ lo ≤ st.2.toNat

theorem clzStep_inv (d lo s : Nat) (st : Nat × BitVec 32) (hs : 0 < s) (hs16 : s ≤ 16)
    (hlo : lo + 2 * s = 32) (h : ClzInv d lo st) : ClzInv d (32 - s) (clzStep st s) := by
  unfold clzStep
  rw [sshiftRight_eq_zero _ _ (by omega)]
  have h32 : st.2.toNat < 2 ^ 32 := st.2.isLt
  by_cases hm : st.2.toNat < 2 ^ (32 - s)
  · simp only [hm, decide_true, if_true]
    have hmul : st.2.toNat * 2 ^ s < 2 ^ 32 := by
      have : (2:Nat) ^ 32 = 2 ^ (32 - s) * 2 ^ s := by rw [← Nat.pow_add]; congr 1; omega
      rw [this]; exact Nat.mul_lt_mul_of_pos_right hm (by positivity)
    have hval : (st.2 <<< s).toNat = st.2.toNat * 2 ^ s := by
      rw [BitVec.toNat_shiftLeft, Nat.shiftLeft_eq, Nat.mod_eq_of_lt hmul]
    refine ⟨?_, ?_⟩
    · simp only [hval, h.val, Nat.pow_add]; ring
    · simp only [hval]
      have : (2:Nat) ^ (32 - s) = 2 ^ lo * 2 ^ s := by rw [← Nat.pow_add]; congr 1; omega
      rw [this]; exact Nat.mul_le_mul_right _ h.low
  · simp only [hm, decide_false, Bool.false_eq_true, if_false, Nat.add_zero]
    exact ⟨h.val, by simpa using hm⟩

theorem clz_spec (x : BitVec 32) (hx : x ≠ 0#32) :
    let st := [16, 8, 4, 2, 1].foldl clzStep (0, x)
    st.2 ≠ 0#32 ∧ 2 ^ 31 ≤ x.toNat * 2 ^ st.1 ∧ x.toNat * 2 ^ st.1 < 2 ^ 32 ∧ st.1 ≤ 31 := by
  have h0 : ClzInv x.toNat 0 (0, x) := by
    refine ⟨by simp, ?_⟩
    have : x.toNat ≠ 0 := fun h => hx (BitVec.eq_of_toNat_eq (by simpa using h))
    simp; omega
  have h1 := clzStep_inv x.toNat 0 16 _ (by omega) (by omega) (by omega) h0
  have h2 := clzStep_inv x.toNat 16 8 _ (by omega) (by omega) (by omega) h1
  have h3 := clzStep_inv x.toNat 24 4 _ (by omega) (by omega) (by omega) h2
  have h4 := clzStep_inv x.toNat 28 2 _ (by omega) (by omega) (by omega) h3
  have h5 := clzStep_inv x.toNat 30 1 _ (by omega) (by omega) (by omega) h4
  simp only [List.foldl_cons, List.foldl_nil]
  set st := clzStep (clzStep (clzStep (clzStep (clzStep (0, x) 16) 8) 4) 2) 1 with hst
  have hlow := h5.low
  have hval := h5.val
  have hlt := st.2.isLt
  refine ⟨?_, ?_, ?_, ?_⟩
  · intro h; rw [h] at hlow; simp at hlow
  · rw [← hval]; exact hlow
  · rw [← hval]; exact hlt
  · by_contra hh
    push Not at hh
    have hxp : 1 ≤ x.toNat := by
      have : x.toNat ≠ 0 := fun h => hx (BitVec.eq_of_toNat_eq (by simpa using h))
      omega
    have : 2 ^ 32 ≤ x.toNat * 2 ^ st.1 := by
      calc 2 ^ 32 ≤ 2 ^ st.1 := Nat.pow_le_pow_right (by norm_num) (by omega)
        _ = 1 * 2 ^ st.1 := by ring
        _ ≤ x.toNat * 2 ^ st.1 := Nat.mul_le_mul_right _ hxp
    omega

theorem xor_shiftRight_eq_zero (a b k : Nat) : (a ^^^ b) < 2 ^ k ↔ a >>> k = b >>> k := by
  have h : (a ^^^ b) >>> k = (a >>> k) ^^^ (b >>> k) := by
    apply Nat.eq_of_testBit_eq; intro i; simp [Nat.testBit_shiftRight, Nat.testBit_xor]
  rw [← Nat.xor_eq_zero_iff, ← h, Nat.shiftRight_eq_div_pow, Nat.div_eq_zero_iff]
  constructor
  · intro h; exact Or.inr h
  · rintro (h | h)
    · simp at h
    · exact h

/-- value of `lcp` on valid indices, as a number of agreeing leading bits -/
theorem lcp_pair (a b : BitVec 32) (ha : Is30Bit a) (hb : Is30Bit b) :
    let differing := a ^^^ b
    let st := if differing = 0#32 then (0, differing) else [16, 8, 4, 2, 1].foldl clzStep (0, differing)
    let msb : Int := if differing = 0#32 then -1 else 31 - st.1
    ∃ r : Nat, (if st.2 = 0#32 then (30 : Int) else (30 - 1) - msb) = r ∧ r ≤ 30 ∧
      ∀ m, m ≤ 30 → (AgreeOnPrefix a b m ↔ m ≤ r) := by
  intro differing st msb
  have hx : differing.toNat = a.toNat ^^^ b.toNat := by simp [differing]
  have hagree : ∀ m, AgreeOnPrefix a b m ↔ differing.toNat < 2 ^ (30 - m) := by
    intro m; rw [hx, xor_shiftRight_eq_zero]; rfl
  by_cases h0 : differing = 0#32
  · have hs : st = (0, differing) := by simp [st, h0]
    refine ⟨30, by simp [hs, h0], le_refl _, ?_⟩
    intro m hm
    rw [hagree, h0]
    simp; omega
  · have hs : st = [16, 8, 4, 2, 1].foldl clzStep (0, differing) := by simp only [st, if_neg h0]
    obtain ⟨h1, h2, h3, h4⟩ := clz_spec differing h0
    rw [← hs] at h1 h2 h3 h4
    have h30 : differing.toNat < 2 ^ 30 := by
      rw [hx]; exact Nat.xor_lt_two_pow ha hb
    have hst2 : 2 ≤ st.1 := by
      by_contra hh
      have : st.1 ≤ 1 := by omega
      have : (2:Nat) ^ st.1 ≤ 2 ^ 1 := Nat.pow_le_pow_right (by norm_num) this
      have : differing.toNat * 2 ^ st.1 ≤ differing.toNat * 2 := Nat.mul_le_mul_left _ (by simpa using this)
      omega
    refine ⟨st.1 - 2, ?_, by omega, ?_⟩
    · rw [if_neg h1]
      simp only [msb, if_neg h0]
      omega
    · intro m hm
      rw [hagree]
      constructor
      · intro hlt
        by_contra hh
        -- m ≥ st.1 - 1, so differing < 2^(31 - st.1)
        have : differing.toNat * 2 ^ st.1 < 2 ^ 31 := by
          have hp : differing.toNat < 2 ^ (31 - st.1) :=
            lt_of_lt_of_le hlt (Nat.pow_le_pow_right (by norm_num) (by omega))
          have : (2:Nat) ^ 31 = 2 ^ (31 - st.1) * 2 ^ st.1 := by rw [← Nat.pow_add]; congr 1; omega
          rw [this]; exact Nat.mul_lt_mul_of_pos_right hp (by positivity)
        omega
      · intro hle
        have hp : (2:Nat) ^ (32 - st.1) ≤ 2 ^ (30 - m) := Nat.pow_le_pow_right (by norm_num) (by omega)
        have : differing.toNat < 2 ^ (32 - st.1) := by
          by_contra hh
          push Not at hh
          have h32 : (2:Nat) ^ 32 = 2 ^ (32 - st.1) * 2 ^ st.1 := by rw [← Nat.pow_add]; congr 1; omega
          have : 2 ^ (32 - st.1) * 2 ^ st.1 ≤ differing.toNat * 2 ^ st.1 := Nat.mul_le_mul_right _ hh
          omega
        omega

theorem lcp_spec (codes : List (BitVec 32)) (i j : Nat) (a b : BitVec 32)
    (hi : codes[i]? = some a) (hj : codes[j]? = some b) (ha : Is30Bit a) (hb : Is30Bit b) :
    ∃ r : Nat, lcp codes i (j : Int) = r ∧ r ≤ 30 ∧ ∀ m, m ≤ 30 → (AgreeOnPrefix a b m ↔ m ≤ r) := by
  have hjl : j < codes.length := (List.getElem?_eq_some_iff.1 hj).1
  have hcond : (0 : Int) ≤ (j : Int) ∧ (j : Int) < codes.length := ⟨by omega, by exact_mod_cast hjl⟩
  obtain ⟨r, h1, h2, h3⟩ := lcp_pair a b ha hb
  refine ⟨r, ?_, h2, h3⟩
  rw [← h1]
  unfold lcp
  rw [if_pos hcond]
  simp only [List.getD_eq_getElem?_getD, hi, hj, Int.toNat_natCast, Option.getD_some]

end Artist.Morton

namespace Artist.Morton
open Artist

theorem agree_mono_sorted {a b c : BitVec 32} (h1 : a.toNat ≤ b.toNat) (h2 : b.toNat ≤ c.toNat) (m : Nat) :
    AgreeOnPrefix a c m ↔ AgreeOnPrefix a b m ∧ AgreeOnPrefix b c m := by
  unfold AgreeOnPrefix
  simp only [Nat.shiftRight_eq_div_pow]
  have g1 := Nat.div_le_div_right (c := 2 ^ (30 - m)) h1
  have g2 := Nat.div_le_div_right (c := 2 ^ (30 - m)) h2
  constructor
  · intro h; omega
  · intro h; omega

/-- Pieces of the numeric value of an expanded coordinate: bit `k` at weight `8^k`. -/
def spread : Nat → Nat → Nat
  | 0, _ => 0
  | k + 1, x => 8 * spread k (x / 2) + x % 2

theorem spread_mono (k x y : Nat) (h : x ≤ y) (hy : y < 2 ^ k) : spread k x ≤ spread k y := by
  induction k generalizing x y with
  | zero => simp [spread]
  | succ k ih =>
    simp only [spread]
    have hy2 : y / 2 < 2 ^ k := by rw [Nat.pow_succ] at hy; omega
    have hd : x / 2 ≤ y / 2 := Nat.div_le_div_right h
    rcases Nat.lt_or_ge (x / 2) (y / 2) with hlt | hge
    · have : spread k (x / 2) < spread k (y / 2) := by
        -- strictness
        clear ih
        induction k generalizing x y with
        | zero => simp at hy2; omega
        | succ k ih2 =>
          have hy' : y / 2 < 2 ^ (k + 1) := hy2
          have key : ∀ k a b, a < b → b < 2 ^ k → spread k a < spread k b := by
            intro k
            induction k with
            | zero => intro a b hab hb; simp at hb; omega
            | succ k ih3 =>
              intro a b hab hb
              simp only [spread]
              have hb2 : b / 2 < 2 ^ k := by rw [Nat.pow_succ] at hb; omega
              rcases Nat.lt_or_ge (a / 2) (b / 2) with h' | h'
              · have := ih3 _ _ h' hb2; omega
              · have : a / 2 = b / 2 := by omega
                rw [this]; omega
          exact key _ _ _ hlt hy'
      omega
    · have : x / 2 = y / 2 := by omega
      rw [this]; omega

theorem spread_strict (k a b : Nat) (hab : a < b) (hb : b < 2 ^ k) : spread k a < spread k b := by
  induction k generalizing a b with
  | zero => simp at hb; omega
  | succ k ih3 =>
    simp only [spread]
    have hb2 : b / 2 < 2 ^ k := by rw [Nat.pow_succ] at hb; omega
    rcases Nat.lt_or_ge (a / 2) (b / 2) with h' | h'
    · have := ih3 _ _ h' hb2; omega
    · have : a / 2 = b / 2 := by omega
      rw [this]; omega

theorem expand_spread_table : ∀ x : Fin 1024,
    (match expandBits (BitVec.ofNat 32 x.val) with
     | .ok v => v.toNat == spread 10 x.val
     | .error _ => false) = true := by
  decide +kernel

theorem expand_spread (x : Nat) (hx : x < 1024) (v : BitVec 32)
    (hv : expandBits (BitVec.ofNat 32 x) = .ok v) : v.toNat = spread 10 x := by
  have h := expand_spread_table ⟨x, hx⟩
  simp only [hv, beq_iff_eq] at h
  exact h

theorem interleave_spec (e n u : Nat) (he : e < 1024) (hn : n < 1024) (hu : u < 1024) :
    ∃ code, interleave (BitVec.ofNat 32 e) (BitVec.ofNat 32 n) (BitVec.ofNat 32 u) = .ok code ∧
      code.toNat = 4 * spread 10 n + 2 * spread 10 e + spread 10 u ∧
      code.toNat < 2 ^ 30 ∧
      ∀ k, k < 10 → code.getLsbD (3 * k) = u.testBit k ∧ code.getLsbD (3 * k + 1) = e.testBit k ∧
        code.getLsbD (3 * k + 2) = n.testBit k := by
  obtain ⟨ve, hve, hbe⟩ := expand_ok e he
  obtain ⟨vn, hvn, hbn⟩ := expand_ok n hn
  obtain ⟨vu, hvu, hbu⟩ := expand_ok u hu
  have se := expand_spread e he ve hve
  have sn := expand_spread n hn vn hvn
  have su := expand_spread u hu vu hvu
  have bound : ∀ x, x < 1024 → spread 10 x ≤ spread 10 1023 := fun x hx =>
    spread_mono 10 x 1023 (by omega) (by norm_num)
  have b1023 : spread 10 1023 = 153391689 := by decide
  have be := bound e he
  have bn := bound n hn
  have bu := bound u hu
  rw [b1023] at be bn bu
  refine ⟨((vn <<< 2) ||| (ve <<< 1)) ||| vu, ?_, ?_, ?_, ?_⟩
  · simp [interleave, hve, hvn, hvu]
  · have d1 : (vn <<< 2) &&& (ve <<< 1) = 0#32 := by
      apply BitVec.eq_of_getLsbD_eq
      intro b hb
      simp only [BitVec.getLsbD_and, BitVec.getLsbD_shiftLeft, BitVec.getLsbD_zero, hb, decide_true, Bool.true_and]
      rw [hbn (b - 2) (by omega), hbe (b - 1) (by omega)]
      by_cases h2 : b < 2
      · simp [h2]
      · by_cases h3 : (b - 2) % 3 = 0
        · have : (b - 1) % 3 ≠ 0 := by omega
          simp [this]
        · simp [h3]
    have d2 : ((vn <<< 2) ||| (ve <<< 1)) &&& vu = 0#32 := by
      apply BitVec.eq_of_getLsbD_eq
      intro b hb
      simp only [BitVec.getLsbD_and, BitVec.getLsbD_or, BitVec.getLsbD_shiftLeft, BitVec.getLsbD_zero, hb,
        decide_true, Bool.true_and]
      rw [hbn (b - 2) (by omega), hbe (b - 1) (by omega), hbu b hb]
      by_cases h3 : b % 3 = 0
      · by_cases h1 : b < 1
        · have : b < 2 := by omega
          simp [h1, this]
        · have g1 : (b - 1) % 3 ≠ 0 := by omega
          have g2 : (b - 2) % 3 ≠ 0 := by omega
          simp [g1, g2]
      · simp [h3]
    rw [← BitVec.add_eq_or_of_and_eq_zero _ _ d2, ← BitVec.add_eq_or_of_and_eq_zero _ _ d1]
    simp only [BitVec.toNat_add, BitVec.toNat_shiftLeft, se, sn, su, Nat.shiftLeft_eq]
    omega
  · have : ∀ c : BitVec 32, (∀ b, 30 ≤ b → b < 32 → c.getLsbD b = false) → c.toNat < 2 ^ 30 := by
      intro c hc
      by_contra hh
      push Not at hh
      obtain ⟨j, hj, hb⟩ := Nat.exists_ge_and_testBit_of_ge_two_pow hh
      have hj32 : j < 32 := by
        by_contra hh
        have : c.toNat < 2 ^ j := lt_of_lt_of_le c.isLt (Nat.pow_le_pow_right (by norm_num) (by omega))
        rw [Nat.testBit_lt_two_pow this] at hb
        simp at hb
      have := hc j hj hj32
      rw [← BitVec.testBit_toNat] at this
      rw [this] at hb; simp at hb
    apply this
    intro b h30 h32
    simp only [BitVec.getLsbD_or, BitVec.getLsbD_shiftLeft, h32, decide_true, Bool.true_and]
    rw [hbn (b - 2) (by omega), hbe (b - 1) (by omega), hbu b h32]
    have g1 : ¬ b / 3 < 10 := by omega
    rcases (by omega : b = 30 ∨ b = 31) with h | h <;> subst h <;> simp
  · intro k hk
    refine ⟨?_, ?_, ?_⟩
    · simp only [BitVec.getLsbD_or, BitVec.getLsbD_shiftLeft, (by omega : 3 * k < 32), decide_true, Bool.true_and]
      rw [hbn _ (by omega), hbe _ (by omega), hbu _ (by omega)]
      rcases Nat.eq_zero_or_pos k with h | h
      · subst h; simp
      · have g1 : (3 * k - 1) % 3 ≠ 0 := by omega
        have g2 : (3 * k - 2) % 3 ≠ 0 := by omega
        have g3 : (3 * k) % 3 = 0 := by omega
        have g4 : (3 * k) / 3 = k := by omega
        simp [g1, g2, hk]
    · simp only [BitVec.getLsbD_or, BitVec.getLsbD_shiftLeft, (by omega : 3 * k + 1 < 32), decide_true, Bool.true_and]
      rw [hbn _ (by omega), hbe _ (by omega), hbu _ (by omega)]
      have g0 : (3 * k + 1) % 3 ≠ 0 := by omega
      have g1 : (3 * k + 1 - 1) % 3 = 0 := by omega
      have g4 : (3 * k + 1 - 1) / 3 = k := by omega
      rcases Nat.eq_zero_or_pos k with h | h
      · subst h; simp
      · have g2 : (3 * k + 1 - 2) % 3 ≠ 0 := by omega
        rw [g1, g4]
        simp [hk, g0]
        intro _ h3; omega
    · simp only [BitVec.getLsbD_or, BitVec.getLsbD_shiftLeft, (by omega : 3 * k + 2 < 32), decide_true, Bool.true_and]
      rw [hbn _ (by omega), hbe _ (by omega), hbu _ (by omega)]
      have g0 : (3 * k + 2) % 3 ≠ 0 := by omega
      have g1 : (3 * k + 2 - 1) % 3 ≠ 0 := by omega
      have g3 : (3 * k + 2 - 2) % 3 = 0 := by omega
      have g4 : (3 * k + 2 - 2) / 3 = k := by omega
      rw [g3, g4]
      simp [g0, g1, hk]

section
variable {K : Type} [Field K] [LinearOrder K] [IsStrictOrderedRing K] [FloorRing K]

theorem foldl_min_le (x : K) (xs : List K) : xs.foldl min x ≤ x ∧ ∀ y ∈ xs, xs.foldl min x ≤ y := by
  induction xs generalizing x with
  | nil => simp
  | cons a xs ih =>
    simp only [List.foldl_cons]
    obtain ⟨h1, h2⟩ := ih (min x a)
    refine ⟨le_trans h1 (min_le_left _ _), ?_⟩
    intro y hy
    rcases List.mem_cons.1 hy with rfl | hy
    · exact le_trans h1 (min_le_right _ _)
    · exact h2 y hy

theorem le_foldl_max (x : K) (xs : List K) : x ≤ xs.foldl max x ∧ ∀ y ∈ xs, y ≤ xs.foldl max x := by
  induction xs generalizing x with
  | nil => simp
  | cons a xs ih =>
    simp only [List.foldl_cons]
    obtain ⟨h1, h2⟩ := ih (max x a)
    refine ⟨le_trans (le_max_left _ _) h1, ?_⟩
    intro y hy
    rcases List.mem_cons.1 hy with rfl | hy
    · exact le_trans (le_max_right _ _) h1
    · exact h2 y hy

theorem minOf_le (x : K) (xs : List K) (y : K) (h : y ∈ x :: xs) : minOf x xs ≤ y := by
  rcases List.mem_cons.1 h with rfl | h
  · exact (foldl_min_le y xs).1
  · exact (foldl_min_le x xs).2 y h

theorem le_maxOf (x : K) (xs : List K) (y : K) (h : y ∈ x :: xs) : y ≤ maxOf x xs := by
  rcases List.mem_cons.1 h with rfl | h
  · exact (le_foldl_max y xs).1
  · exact (le_foldl_max x xs).2 y h

theorem quantise_range (range mn x eps : K) (heps : 0 < eps) (h1 : mn ≤ x) (h2 : x - mn + eps ≤ range) :
    0 ≤ quantise range mn x ∧ quantise range mn x ≤ 1022 := by
  have hr : 0 < range := by linarith
  have hnn : 0 ≤ (x - mn) * (1023 / range) := by
    apply mul_nonneg (by linarith); positivity
  have hlt : (x - mn) * (1023 / range) < 1023 := by
    rw [mul_div_assoc', div_lt_iff₀ hr]
    nlinarith
  unfold quantise truncToInt
  rw [if_pos hnn]
  refine ⟨Int.floor_nonneg.2 hnn, ?_⟩
  have : ⌊(x - mn) * (1023 / range)⌋ < 1023 := by
    rw [Int.floor_lt]; exact_mod_cast hlt
  omega

theorem quantise_mono (range mn x y : K) (hr : 0 < range) (h1 : mn ≤ x) (h2 : x ≤ y) :
    quantise range mn x ≤ quantise range mn y := by
  have hc : (0 : K) ≤ 1023 / range := by positivity
  have hx : 0 ≤ (x - mn) * (1023 / range) := mul_nonneg (by linarith) hc
  have hy : 0 ≤ (y - mn) * (1023 / range) := mul_nonneg (by linarith) hc
  unfold quantise truncToInt
  rw [if_pos hx, if_pos hy]
  exact Int.floor_le_floor (mul_le_mul_of_nonneg_right (by linarith) hc)

theorem quantised_range (eps : K) (heps : 0 < eps) (p : V3 K) (ps : List (V3 K)) (q : V3 Int)
    (hq : q ∈ quantised eps p ps) :
    (0 ≤ q.e ∧ q.e ≤ 1022) ∧ (0 ≤ q.n ∧ q.n ≤ 1022) ∧ (0 ≤ q.u ∧ q.u ≤ 1022) := by
  unfold quantised at hq
  simp only [List.mem_map] at hq
  obtain ⟨c, hc, rfl⟩ := hq
  have he : c.e ∈ p.e :: ps.map V3.e := by
    have := List.mem_map_of_mem (f := V3.e) hc; simpa using this
  have hn : c.n ∈ p.n :: ps.map V3.n := by
    have := List.mem_map_of_mem (f := V3.n) hc; simpa using this
  have hu : c.u ∈ p.u :: ps.map V3.u := by
    have := List.mem_map_of_mem (f := V3.u) hc; simpa using this
  simp only [extent]
  refine ⟨quantise_range _ _ _ eps heps (minOf_le _ _ _ he) ?_,
    quantise_range _ _ _ eps heps (minOf_le _ _ _ hn) ?_,
    quantise_range _ _ _ eps heps (minOf_le _ _ _ hu) ?_⟩
  · have h1 := le_maxOf _ _ _ he
    have h2 := le_max_left (maxOf p.e (ps.map V3.e) - minOf p.e (ps.map V3.e))
      (maxOf p.n (ps.map V3.n) - minOf p.n (ps.map V3.n))
    have h3 := le_max_left (max (maxOf p.e (ps.map V3.e) - minOf p.e (ps.map V3.e))
      (maxOf p.n (ps.map V3.n) - minOf p.n (ps.map V3.n))) (maxOf p.u (ps.map V3.u) - minOf p.u (ps.map V3.u))
    linarith
  · have h1 := le_maxOf _ _ _ hn
    have h2 := le_max_right (maxOf p.e (ps.map V3.e) - minOf p.e (ps.map V3.e))
      (maxOf p.n (ps.map V3.n) - minOf p.n (ps.map V3.n))
    have h3 := le_max_left (max (maxOf p.e (ps.map V3.e) - minOf p.e (ps.map V3.e))
      (maxOf p.n (ps.map V3.n) - minOf p.n (ps.map V3.n))) (maxOf p.u (ps.map V3.u) - minOf p.u (ps.map V3.u))
    linarith
  · have h1 := le_maxOf _ _ _ hu
    have h3 := le_max_right (max (maxOf p.e (ps.map V3.e) - minOf p.e (ps.map V3.e))
      (maxOf p.n (ps.map V3.n) - minOf p.n (ps.map V3.n))) (maxOf p.u (ps.map V3.u) - minOf p.u (ps.map V3.u))
    linarith

end

/-- value of the code of one quantised point -/
def codeNat (q : V3 Int) : Nat := 4 * spread 10 q.n.toNat + 2 * spread 10 q.e.toNat + spread 10 q.u.toNat

theorem interleave_int (q : V3 Int) (he : 0 ≤ q.e ∧ q.e ≤ 1023) (hn : 0 ≤ q.n ∧ q.n ≤ 1023)
    (hu : 0 ≤ q.u ∧ q.u ≤ 1023) :
    ∃ code, interleave (BitVec.ofInt 32 q.e) (BitVec.ofInt 32 q.n) (BitVec.ofInt 32 q.u) = .ok code ∧
      code.toNat = codeNat q ∧ code.toNat < 2 ^ 30 ∧
      ∀ k, k < 10 → code.getLsbD (3 * k) = q.u.toNat.testBit k ∧
        code.getLsbD (3 * k + 1) = q.e.toNat.testBit k ∧ code.getLsbD (3 * k + 2) = q.n.toNat.testBit k := by
  have conv : ∀ z : Int, 0 ≤ z → BitVec.ofInt 32 z = BitVec.ofNat 32 z.toNat := by
    intro z hz
    obtain ⟨m, rfl⟩ := Int.eq_ofNat_of_zero_le hz
    simp
  rw [conv _ he.1, conv _ hn.1, conv _ hu.1]
  exact interleave_spec q.e.toNat q.n.toNat q.u.toNat (by omega) (by omega) (by omega)

theorem codeNat_inj (q q' : V3 Int) (h : codeNat q = codeNat q')
    (he : 0 ≤ q.e ∧ q.e ≤ 1023) (hn : 0 ≤ q.n ∧ q.n ≤ 1023) (hu : 0 ≤ q.u ∧ q.u ≤ 1023)
    (he' : 0 ≤ q'.e ∧ q'.e ≤ 1023) (hn' : 0 ≤ q'.n ∧ q'.n ≤ 1023) (hu' : 0 ≤ q'.u ∧ q'.u ≤ 1023) : q = q' := by
  obtain ⟨c, h1, h2, _, h4⟩ := interleave_int q he hn hu
  obtain ⟨c', h1', h2', _, h4'⟩ := interleave_int q' he' hn' hu'
  have hc : c = c' := BitVec.eq_of_toNat_eq (by rw [h2, h2', h])
  subst hc
  have key : ∀ a b : Int, 0 ≤ a → a ≤ 1023 → 0 ≤ b → b ≤ 1023 →
      (∀ k, k < 10 → a.toNat.testBit k = b.toNat.testBit k) → a = b := by
    intro a b ha ha' hb hb' hk
    have : a.toNat = b.toNat := by
      apply Nat.eq_of_testBit_eq
      intro i
      by_cases hi : i < 10
      · exact hk i hi
      · have h1024 : (2:Nat) ^ 10 ≤ 2 ^ i := Nat.pow_le_pow_right (by norm_num) (by omega)
        rw [Nat.testBit_lt_two_pow (by omega), Nat.testBit_lt_two_pow (by omega)]
    omega
  have e1 := key q.e q'.e he.1 he.2 he'.1 he'.2 (fun k hk => by rw [← (h4 k hk).2.1, (h4' k hk).2.1])
  have e2 := key q.n q'.n hn.1 hn.2 hn'.1 hn'.2 (fun k hk => by rw [← (h4 k hk).2.2, (h4' k hk).2.2])
  have e3 := key q.u q'.u hu.1 hu.2 hu'.1 hu'.2 (fun k hk => by rw [← (h4 k hk).1, (h4' k hk).1])
  cases q; cases q'; simp_all

theorem mapM_ok {α β : Type} (f : α → Except PyErr β) (l : List α) (h : ∀ a ∈ l, ∃ b, f a = .ok b) :
    ∃ bs, l.mapM f = .ok bs ∧ bs.length = l.length ∧ ∀ (i : Nat) (a : α) (b : β), l[i]? = some a → bs[i]? = some b → f a = .ok b := by
  induction l with
  | nil => exact ⟨[], rfl, rfl, by simp⟩
  | cons a l ih =>
    obtain ⟨b, hb⟩ := h a (by simp)
    obtain ⟨bs, h1, h2, h3⟩ := ih (fun x hx => h x (by simp [hx]))
    refine ⟨b :: bs, ?_, by simp [h2], ?_⟩
    · simp [List.mapM_cons, hb, h1]; rfl
    · intro i x y hx hy
      cases i with
      | zero => simp at hx hy; rw [← hx, ← hy]; exact hb
      | succ i => exact h3 i x y (by simpa using hx) (by simpa using hy)

end Artist.Morton
