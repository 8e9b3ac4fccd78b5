import Verif.Proofs.LBVHGraph
import Verif.Props.Morton
/-! Helper lemmas: shape of the tree built from a prefix function `dl`. -/
namespace Artist.LBVH
open Artist Artist.Morton

/-- What the construction relies on: `dl` behaves like the common prefix length of distinct sorted codes. -/
structure Delta (n : Nat) (dl : Nat → Int → Int) : Prop where
  out : ∀ (i : Nat) (j : Int), (j < 0 ∨ (n : Int) ≤ j) → dl i j = -1
  nonneg : ∀ i j : Nat, i < n → j < n → 0 ≤ dl i j
  le30 : ∀ i j : Nat, i < n → j < n → dl i j ≤ 30
  symm : ∀ i j : Nat, i < n → j < n → dl i j = dl j i
  ultra : ∀ i j k : Nat, i ≤ j → j ≤ k → k < n → dl i k = min (dl i j) (dl j k)
  uniq : ∀ j k : Nat, j < k → k + 1 < n → dl j (j + 1 : Nat) = dl k (k + 1 : Nat) →
    dl j (k + 1 : Nat) < dl j (j + 1 : Nat)

/-! ### searches -/

theorem threshold_exists (f : Nat → Prop) (h1 : f 1 ∨ ¬ f 1) (hanti : ∀ l, 1 ≤ l → f (l + 1) → f l)
    (M : Nat) (hM : ¬ f M) (hM1 : 1 ≤ M) : ∃ L, L < M ∧ ∀ l, 1 ≤ l → (f l ↔ l ≤ L) := by
  classical
  have hex : ∃ m, 1 ≤ m ∧ ¬ f m := ⟨M, hM1, hM⟩
  have hf := Nat.find_spec hex
  have hmin := fun m => Nat.find_min hex (m := m)
  set m := Nat.find hex with hm
  have hle : m ≤ M := Nat.find_min' hex ⟨hM1, hM⟩
  refine ⟨m - 1, by omega, ?_⟩
  intro l hl
  constructor
  · intro hfl
    by_contra hlt
    -- f l with l ≥ m gives f m
    have down : ∀ d x, x = m + d → f x → f m := by
      intro d
      induction d with
      | zero => intro x hx h; subst hx; simpa using h
      | succ d ih => intro x hx h; subst hx; exact ih (m + d) rfl (hanti (m + d) (by omega) h)
    exact hf.2 (down (l - m) l (by omega) hfl)
  · intro hle'
    by_contra hn
    exact hmin l (by omega) ⟨hl, hn⟩

theorem searchLoop_spec (dl : Nat → Int → Int) (i : Nat) (d thr : Int) (L : Nat)
    (hL : ∀ l : Nat, 1 ≤ l → (dl i (i + (l : Int) * d) > thr ↔ l ≤ L)) :
    ∀ (fuel l t : Nat), t ≤ fuel → l ≤ L →
      l ≤ searchLoop dl i d thr fuel l t ∧ searchLoop dl i d thr fuel l t ≤ L ∧
      ∀ k, t = 2 ^ k → searchLoop dl i d thr fuel l t = min L (l + 2 ^ (k + 1) - 1) := by
  intro fuel
  induction fuel with
  | zero =>
    intro l t ht hl
    refine ⟨le_refl _, hl, ?_⟩
    intro k hk
    have : 1 ≤ 2 ^ k := Nat.one_le_two_pow
    omega
  | succ fuel ih =>
    intro l t ht hl
    unfold searchLoop
    by_cases h1 : 1 ≤ t
    · rw [if_pos h1]
      have hq := hL (l + t) (by omega)
      by_cases h2 : dl i (i + ((l + t : Nat) : Int) * d) > thr
      · rw [if_pos h2]
        have hlt := hq.1 h2
        obtain ⟨a, b, c⟩ := ih (l + t) (t / 2) (by omega) hlt
        refine ⟨by omega, b, ?_⟩
        intro k hk
        cases k with
        | zero =>
          simp at hk
          subst hk
          have e : (1:Nat) / 2 = 0 := rfl
          rw [e] at a b ⊢
          have : searchLoop dl i d thr fuel (l + 1) 0 = l + 1 := by
            cases fuel <;> simp [searchLoop]
          rw [this]; simp; omega
        | succ k =>
          have : t / 2 = 2 ^ k := by rw [hk, Nat.pow_succ]; omega
          rw [c k this]
          rw [hk]
          have e1 : 2 ^ (k + 1 + 1) = 2 ^ (k + 1) * 2 := Nat.pow_succ _ _
          omega
      · rw [if_neg h2]
        have hnot : ¬ (l + t ≤ L) := fun h => h2 (hq.2 h)
        obtain ⟨a, b, c⟩ := ih l (t / 2) (by omega) hl
        refine ⟨a, b, ?_⟩
        intro k hk
        cases k with
        | zero =>
          simp at hk
          subst hk
          have e : (1:Nat) / 2 = 0 := rfl
          rw [e] at a b ⊢
          have : searchLoop dl i d thr fuel l 0 = l := by
            cases fuel <;> simp [searchLoop]
          rw [this]; simp; omega
        | succ k =>
          have : t / 2 = 2 ^ k := by rw [hk, Nat.pow_succ]; omega
          rw [c k this]
          have e1 : 2 ^ (k + 1 + 1) = 2 ^ (k + 1) * 2 := Nat.pow_succ _ _
          omega
    · rw [if_neg h1]
      refine ⟨le_refl _, hl, ?_⟩
      intro k hk
      have : 1 ≤ 2 ^ k := Nat.one_le_two_pow
      omega

theorem expandLoop_spec (dl : Nat → Int → Int) (i : Nat) (d dmin : Int) (L : Nat)
    (hL : ∀ l : Nat, 1 ≤ l → (dl i (i + (l : Int) * d) > dmin ↔ l ≤ L)) :
    ∀ (fuel k : Nat), L < 2 ^ (k + 1) * 2 ^ fuel →
      ∃ k', expandLoop dl i d dmin fuel (2 ^ (k + 1)) = 2 ^ (k' + 1) ∧ L < 2 ^ (k' + 1) := by
  intro fuel
  induction fuel with
  | zero => intro k hk; exact ⟨k, rfl, by simpa using hk⟩
  | succ fuel ih =>
    intro k hk
    unfold expandLoop
    have hp : 1 ≤ 2 ^ (k + 1) := Nat.one_le_two_pow
    have hq := hL (2 ^ (k + 1)) hp
    by_cases h : dl i (i + ((2 ^ (k + 1) : Nat) : Int) * d) > dmin
    · rw [if_pos h]
      have : 2 ^ (k + 1) * 2 = 2 ^ ((k + 1) + 1) := (Nat.pow_succ _ _).symm
      rw [this]
      apply ih (k + 1)
      rw [Nat.pow_succ 2 fuel] at hk
      rw [← this]
      have e : 2 ^ (k + 1) * 2 * 2 ^ fuel = 2 ^ (k + 1) * (2 ^ fuel * 2) := by ring
      rw [e]; exact hk
    · rw [if_neg h]
      exact ⟨k, rfl, by
        by_contra hn
        exact h (hq.2 (by omega))⟩

theorem rangeLength_eq (n : Nat) (dl : Nat → Int → Int) (i L : Nat) (hLn : L < n)
    (hL : ∀ l : Nat, 1 ≤ l → (dl i (i + (l : Int) * direction dl i) > deltaMin dl i ↔ l ≤ L)) :
    rangeLength n dl i = L := by
  unfold rangeLength
  simp only
  have hb : L < 2 ^ (0 + 1) * 2 ^ n := by
    have : n < 2 ^ n := Nat.lt_two_pow_self
    omega
  obtain ⟨k', h1, h2⟩ := expandLoop_spec dl i (direction dl i) (deltaMin dl i) L hL n 0 hb
  have e : (2 : Nat) = 2 ^ (0 + 1) := by norm_num
  have hx : expandLoop dl i (direction dl i) (deltaMin dl i) n 2 = 2 ^ (k' + 1) := by
    rw [← h1]; rfl
  rw [hx]
  have hhalf : 2 ^ (k' + 1) / 2 = 2 ^ k' := by rw [Nat.pow_succ]; omega
  rw [hhalf]
  obtain ⟨_, _, h3⟩ := searchLoop_spec dl i (direction dl i) (deltaMin dl i) L hL (2 ^ k') 0 (2 ^ k') (le_refl _) (by omega)
  rw [h3 k' rfl]
  omega

/-! ### range of a node -/

/-- Node `i` covers the positions `a..b`, and the range is maximal. -/
def NodeRange (n : Nat) (dl : Nat → Int → Int) (i a b : Nat) : Prop :=
  a < b ∧ b < n ∧
  ((i = a ∧ dl a (a - 1 : Int) < dl a (b : Int) ∧ dl a (b + 1 : Int) ≤ dl a (a - 1 : Int)) ∨
   (i = b ∧ dl b (b + 1 : Int) < dl b (a : Int) ∧ dl b (a - 1 : Int) ≤ dl b (b + 1 : Int)))

theorem Delta.mono_right {n : Nat} {dl : Nat → Int → Int} (h : Delta n dl) (i j k : Nat) (hij : i ≤ j) (hjk : j ≤ k)
    (hk : k < n) : dl i k ≤ dl i j := by
  rw [h.ultra i j k hij hjk hk]; exact min_le_left _ _

theorem Delta.mono_left {n : Nat} {dl : Nat → Int → Int} (h : Delta n dl) (i j k : Nat) (hij : i ≤ j) (hjk : j ≤ k)
    (hk : k < n) : dl i k ≤ dl j k := by
  rw [h.ultra i j k hij hjk hk]; exact min_le_right _ _

/-- neighbours differ strictly in similarity -/
theorem Delta.neighbours_ne {n : Nat} {dl : Nat → Int → Int} (h : Delta n dl) (i : Nat) (h0 : 0 < i) (hi : i + 1 < n) :
    dl i (i + 1 : Int) ≠ dl i (i - 1 : Int) := by
  intro heq
  have e1 : ((i : Int) - 1) = ((i - 1 : Nat) : Int) := by omega
  have e2 : ((i : Int) + 1) = ((i + 1 : Nat) : Int) := by omega
  rw [e1, e2, h.symm i (i - 1) (by omega) (by omega)] at heq
  have hi1 : i - 1 + 1 = i := by omega
  have hu := h.uniq (i - 1) i (by omega) hi (by rw [hi1]; exact heq.symm)
  rw [hi1] at hu
  have hm := h.ultra (i - 1) i (i + 1) (by omega) (by omega) hi
  rw [hm, heq] at hu
  simp at hu

structure NodeInfo (n : Nat) (dl : Nat → Int → Int) (i a b : Nat) : Prop where
  range : NodeRange n dl i a b
  lenEq : rangeLength n dl i = b - a
  minEq : min (i : Int) (farthest n dl i) = a
  maxEq : max (i : Int) (farthest n dl i) = b
  dirA : i = a → direction dl i = 1
  dirB : i = b → direction dl i = -1
  farD : dl i (farthest n dl i) = dl a (b : Int)

theorem node_range {n : Nat} {dl : Nat → Int → Int} (h : Delta n dl) (i : Nat) (hn : 2 ≤ n) (hi : i < n) :
    ∃ a b, NodeInfo n dl i a b := by
  by_cases hd : dl i (i + 1 : Int) > dl i (i - 1 : Int)
  · -- direction +1
    have hdir : direction dl i = 1 := by unfold direction; rw [if_pos hd]
    have hmin : deltaMin dl i = dl i (i - 1 : Int) := by unfold deltaMin; exact min_eq_left (le_of_lt hd)
    have hm1 : -1 ≤ dl i (i - 1 : Int) := by
      by_cases h0 : i = 0
      · rw [h.out i _ (by omega)]
      · have e1 : ((i : Int) - 1) = ((i - 1 : Nat) : Int) := by omega
        rw [e1]; have := h.nonneg i (i - 1) hi (by omega); omega
    have hanti : ∀ l : Nat, 1 ≤ l → dl i (i + ((l + 1 : Nat) : Int) * 1) > dl i (i - 1 : Int) →
        dl i (i + (l : Int) * 1) > dl i (i - 1 : Int) := by
      intro l hl hf
      have e1 : (i : Int) + ((l + 1 : Nat) : Int) * 1 = ((i + (l + 1) : Nat) : Int) := by push_cast; ring
      have e2 : (i : Int) + (l : Int) * 1 = ((i + l : Nat) : Int) := by push_cast; ring
      rw [e1] at hf
      rw [e2]
      by_cases hr : i + (l + 1) < n
      · have := h.mono_right i (i + l) (i + (l + 1)) (by omega) (by omega) hr
        omega
      · rw [h.out i _ (by omega)] at hf; omega
    obtain ⟨L, hLn, hL⟩ := threshold_exists (fun l : Nat => dl i (i + (l : Int) * 1) > dl i (i - 1 : Int))
      (Classical.em _) hanti n (by
        rw [h.out i (i + (n : Int) * 1) (by omega)]; omega) (by omega)
    have hL1 : 1 ≤ L := (hL 1 (le_refl _)).1 (by simpa using hd)
    have hLin : i + L < n := by
      have := (hL L hL1).2 (le_refl _)
      by_contra hh
      rw [h.out i _ (by omega)] at this; omega
    have hlen : rangeLength n dl i = L := by
      apply rangeLength_eq n dl i L hLn
      rw [hdir, hmin]; exact hL
    have hfar : farthest n dl i = ((i + L : Nat) : Int) := by
      unfold farthest; rw [hlen, hdir]; push_cast; ring
    have hgt : dl i (i - 1 : Int) < dl i ((i + L : Nat) : Int) := by
      have := (hL L hL1).2 (le_refl _)
      have e2 : (i : Int) + (L : Int) * 1 = ((i + L : Nat) : Int) := by push_cast; ring
      rw [e2] at this; exact this
    refine ⟨i, i + L, ?_⟩
    refine ⟨⟨by omega, hLin, Or.inl ⟨rfl, hgt, ?_⟩⟩, by omega, ?_, ?_, fun _ => hdir, fun h => by omega, by rw [hfar]⟩
    · have hnot : ¬ (L + 1 ≤ L) := by omega
      have hf := fun hh => hnot ((hL (L + 1) (by omega)).1 hh)
      have e2 : (i : Int) + ((L + 1 : Nat) : Int) * 1 = ((i + L : Nat) : Int) + 1 := by push_cast; ring
      rw [e2] at hf
      exact not_lt.1 hf
    · rw [hfar]; omega
    · rw [hfar]; omega
  · -- direction -1
    have hdir : direction dl i = -1 := by unfold direction; rw [if_neg hd]
    have h0 : 0 < i := by
      by_contra hh
      have : i = 0 := by omega
      subst this
      apply hd
      rw [h.out 0 (((0 : Nat) : Int) - 1) (by omega)]
      have := h.nonneg 0 1 (by omega) (by omega)
      have e : ((0 : Nat) : Int) + 1 = ((1 : Nat) : Int) := rfl
      rw [e]
      omega
    have hlt : dl i (i + 1 : Int) < dl i (i - 1 : Int) := by
      by_cases hl : i + 1 < n
      · have := h.neighbours_ne i h0 hl; omega
      · rw [h.out i (i + 1 : Int) (by omega)]
        have e1 : ((i : Int) - 1) = ((i - 1 : Nat) : Int) := by omega
        rw [e1]; have := h.nonneg i (i - 1) hi (by omega); omega
    have hmin : deltaMin dl i = dl i (i + 1 : Int) := by unfold deltaMin; exact min_eq_right (le_of_lt hlt)
    have hm1 : -1 ≤ dl i (i + 1 : Int) := by
      by_cases h1 : i + 1 < n
      · have := h.nonneg i (i + 1) hi h1; push_cast at this; omega
      · rw [h.out i _ (by omega)]
    have hanti : ∀ l : Nat, 1 ≤ l → dl i (i + ((l + 1 : Nat) : Int) * (-1)) > dl i (i + 1 : Int) →
        dl i (i + (l : Int) * (-1)) > dl i (i + 1 : Int) := by
      intro l hl hf
      by_cases hr : l + 1 ≤ i
      · have e1 : (i : Int) + ((l + 1 : Nat) : Int) * (-1) = ((i - (l + 1) : Nat) : Int) := by omega
        have e2 : (i : Int) + (l : Int) * (-1) = ((i - l : Nat) : Int) := by omega
        rw [e1, h.symm i _ hi (by omega)] at hf
        rw [e2, h.symm i _ hi (by omega)]
        have := h.mono_left (i - (l + 1)) (i - l) i (by omega) (by omega) hi
        omega
      · rw [h.out i (i + ((l + 1 : Nat) : Int) * (-1)) (by omega)] at hf; omega
    obtain ⟨L, hLn, hL⟩ := threshold_exists (fun l : Nat => dl i (i + (l : Int) * (-1)) > dl i (i + 1 : Int))
      (Classical.em _) hanti n (by
        rw [h.out i (i + (n : Int) * (-1)) (by omega)]; omega) (by omega)
    have hL1 : 1 ≤ L := (hL 1 (le_refl _)).1 (by
      have e : (i : Int) + ((1 : Nat) : Int) * (-1) = (i : Int) - 1 := by omega
      rw [e]; exact hlt)
    have hLin : L ≤ i := by
      have := (hL L hL1).2 (le_refl _)
      by_contra hh
      rw [h.out i (i + (L : Int) * (-1)) (by omega)] at this; omega
    have hlen : rangeLength n dl i = L := by
      apply rangeLength_eq n dl i L hLn
      rw [hdir, hmin]; exact hL
    have hfar : farthest n dl i = ((i - L : Nat) : Int) := by
      unfold farthest; rw [hlen, hdir]; omega
    have hgt : dl i (i + 1 : Int) < dl i ((i - L : Nat) : Int) := by
      have := (hL L hL1).2 (le_refl _)
      have e2 : (i : Int) + (L : Int) * (-1) = ((i - L : Nat) : Int) := by omega
      rw [e2] at this; exact this
    refine ⟨i - L, i, ?_⟩
    refine ⟨⟨by omega, hi, Or.inr ⟨rfl, hgt, ?_⟩⟩, by omega, ?_, ?_, fun h => by omega, fun _ => hdir, ?_⟩
    · have hnot : ¬ (L + 1 ≤ L) := by omega
      have hf := fun hh => hnot ((hL (L + 1) (by omega)).1 hh)
      have e2 : (i : Int) + ((L + 1 : Nat) : Int) * (-1) = ((i - L : Nat) : Int) - 1 := by omega
      rw [e2] at hf
      exact not_lt.1 hf
    · rw [hfar]; omega
    · rw [hfar]; omega
    · rw [hfar, h.symm i _ hi (by omega)]

/-- Children of a node: both child ranges start or end at a position `γ` inside the range; if half the range
length is a power of two, `γ` is the true split. -/
theorem node_children {n : Nat} {dl : Nat → Int → Int} (h : Delta n dl) (i a b : Nat) (hi : i < n)
    (info : NodeInfo n dl i a b) :
    ∃ γ : Nat, a ≤ γ ∧ γ < b ∧ gamma n dl i = γ ∧
      leftChild n dl i = (if a = γ then ((n - 1 + γ : Nat) : Int) else (γ : Int)) ∧
      rightChild n dl i = (if b = γ + 1 then ((n - 1 + (γ + 1) : Nat) : Int) else ((γ + 1 : Nat) : Int)) ∧
      (∀ k, (b - a + 1) / 2 = 2 ^ k → dl γ (γ + 1 : Nat) = dl a b) := by
  obtain ⟨hab, hbn, hcase⟩ := info.range
  have finish : ∀ γ : Nat, a ≤ γ → γ < b → gamma n dl i = γ →
      leftChild n dl i = (if a = γ then ((n - 1 + γ : Nat) : Int) else (γ : Int)) ∧
      rightChild n dl i = (if b = γ + 1 then ((n - 1 + (γ + 1) : Nat) : Int) else ((γ + 1 : Nat) : Int)) := by
    intro γ h1 h2 h3
    unfold leftChild rightChild
    rw [info.minEq, info.maxEq, h3]
    constructor
    · by_cases hc : a = γ
      · rw [if_pos hc, if_pos (by exact_mod_cast hc)]; omega
      · rw [if_neg hc, if_neg (by exact_mod_cast hc)]
    · by_cases hc : b = γ + 1
      · rw [if_pos hc, if_pos (by exact_mod_cast hc)]; omega
      · rw [if_neg hc, if_neg (by exact_mod_cast hc)]; omega
  have hDle : ∀ γ : Nat, a ≤ γ → γ < b → dl a (b : Int) ≤ dl γ (γ + 1 : Nat) := by
    intro γ h1 h2
    have e1 := h.mono_left a γ b h1 (by omega) hbn
    have e2 := h.mono_right γ (γ + 1) b (by omega) (by omega) hbn
    omega
  rcases hcase with ⟨rfl, hgt, hend⟩ | ⟨rfl, hgt, hend⟩
  · -- i = a
    have hdir := info.dirA rfl
    have hanti : ∀ l : Nat, 1 ≤ l → dl i (i + ((l + 1 : Nat) : Int) * 1) > dl i (b : Int) →
        dl i (i + (l : Int) * 1) > dl i (b : Int) := by
      intro l hl hf
      have e1 : (i : Int) + ((l + 1 : Nat) : Int) * 1 = ((i + (l + 1) : Nat) : Int) := by push_cast; ring
      have e2 : (i : Int) + (l : Int) * 1 = ((i + l : Nat) : Int) := by push_cast; ring
      rw [e1] at hf
      rw [e2]
      by_cases hr : i + (l + 1) < n
      · have := h.mono_right i (i + l) (i + (l + 1)) (by omega) (by omega) hr
        omega
      · rw [h.out i _ (by omega)] at hf
        have := h.nonneg i b hi hbn; omega
    obtain ⟨S, hSn, hS⟩ := threshold_exists (fun l : Nat => dl i (i + (l : Int) * 1) > dl i (b : Int))
      (Classical.em _) hanti (b - i) (by
        have e2 : (i : Int) + ((b - i : Nat) : Int) * 1 = (b : Int) := by omega
        rw [e2]; omega) (by omega)
    obtain ⟨h1, h2, h3⟩ := searchLoop_spec dl i 1 (dl i (b : Int)) S hS ((b - i + 1) / 2) 0 ((b - i + 1) / 2) (le_refl _) (by omega)
    have hsplit : split n dl i = searchLoop dl i 1 (dl i (b : Int)) ((b - i + 1) / 2) 0 ((b - i + 1) / 2) := by
      unfold split; rw [info.lenEq, hdir, info.farD]
    have hγ : gamma n dl i = ((i + split n dl i : Nat) : Int) := by
      unfold gamma; rw [hdir]; push_cast
      have : min (1 : Int) 0 = 0 := by norm_num
      rw [this]; ring
    rw [← hsplit] at h1 h2 h3
    obtain ⟨f1, f2⟩ := finish (i + split n dl i) (by omega) (by omega) hγ
    refine ⟨i + split n dl i, by omega, by omega, hγ, f1, f2, ?_⟩
    intro k hk
    have hs : split n dl i = S := by
      rw [h3 k hk]
      have : 2 ^ (k + 1) = 2 ^ k * 2 := Nat.pow_succ _ _
      omega
    rw [hs]
    have hnot : ¬ dl i (i + ((S + 1 : Nat) : Int) * 1) > dl i (b : Int) := fun hh => by
      have := (hS (S + 1) (by omega)).1 hh; omega
    have e2 : (i : Int) + ((S + 1 : Nat) : Int) * 1 = ((i + S + 1 : Nat) : Int) := by push_cast; ring
    rw [e2] at hnot
    have hge := hDle (i + S) (by omega) (by omega)
    have hult := h.ultra i (i + S) (i + S + 1) (by omega) (by omega) (by omega)
    rcases Nat.eq_zero_or_pos S with hS0 | hSp
    · subst hS0
      simp only [Nat.add_zero] at *
      omega
    · have hQ := (hS S hSp).2 (le_refl _)
      have e3 : (i : Int) + (S : Int) * 1 = ((i + S : Nat) : Int) := by push_cast; ring
      rw [e3] at hQ
      omega
  · -- i = b
    have hdir := info.dirB rfl
    have hsym : dl i (a : Int) = dl a (i : Int) := h.symm i a hi (by omega)
    have hanti : ∀ l : Nat, 1 ≤ l → dl i (i + ((l + 1 : Nat) : Int) * (-1)) > dl a (i : Int) →
        dl i (i + (l : Int) * (-1)) > dl a (i : Int) := by
      intro l hl hf
      by_cases hr : l + 1 ≤ i
      · have e1 : (i : Int) + ((l + 1 : Nat) : Int) * (-1) = ((i - (l + 1) : Nat) : Int) := by omega
        have e2 : (i : Int) + (l : Int) * (-1) = ((i - l : Nat) : Int) := by omega
        rw [e1, h.symm i _ hi (by omega)] at hf
        rw [e2, h.symm i _ hi (by omega)]
        have := h.mono_left (i - (l + 1)) (i - l) i (by omega) (by omega) hi
        omega
      · rw [h.out i (i + ((l + 1 : Nat) : Int) * (-1)) (by omega)] at hf
        have := h.nonneg a i (by omega) hbn; omega
    obtain ⟨S, hSn, hS⟩ := threshold_exists (fun l : Nat => dl i (i + (l : Int) * (-1)) > dl a (i : Int))
      (Classical.em _) hanti (i - a) (by
        have e2 : (i : Int) + ((i - a : Nat) : Int) * (-1) = (a : Int) := by omega
        rw [e2]; omega) (by omega)
    obtain ⟨h1, h2, h3⟩ := searchLoop_spec dl i (-1) (dl a (i : Int)) S hS ((i - a + 1) / 2) 0 ((i - a + 1) / 2) (le_refl _) (by omega)
    have hsplit : split n dl i = searchLoop dl i (-1) (dl a (i : Int)) ((i - a + 1) / 2) 0 ((i - a + 1) / 2) := by
      unfold split; rw [info.lenEq, hdir, info.farD]
    rw [← hsplit] at h1 h2 h3
    have hγ : gamma n dl i = ((i - split n dl i - 1 : Nat) : Int) := by
      unfold gamma; rw [hdir]
      have : min (-1 : Int) 0 = -1 := by norm_num
      rw [this]; omega
    obtain ⟨f1, f2⟩ := finish (i - split n dl i - 1) (by omega) (by omega) hγ
    refine ⟨i - split n dl i - 1, by omega, by omega, hγ, f1, f2, ?_⟩
    intro k hk
    have hs : split n dl i = S := by
      rw [h3 k hk]
      have : 2 ^ (k + 1) = 2 ^ k * 2 := Nat.pow_succ _ _
      omega
    rw [hs]
    have hnot : ¬ dl i (i + ((S + 1 : Nat) : Int) * (-1)) > dl a (i : Int) := fun hh => by
      have := (hS (S + 1) (by omega)).1 hh; omega
    have e2 : (i : Int) + ((S + 1 : Nat) : Int) * (-1) = ((i - S - 1 : Nat) : Int) := by omega
    rw [e2, h.symm i _ hi (by omega)] at hnot
    have hge := hDle (i - S - 1) (by omega) (by omega)
    have hult := h.ultra (i - S - 1) (i - S) i (by omega) (by omega) hi
    have e4 : i - S - 1 + 1 = i - S := by omega
    rw [e4] at hge ⊢
    rcases Nat.eq_zero_or_pos S with hS0 | hSp
    · subst hS0
      simp only [Nat.sub_zero] at *
      omega
    · have hQ := (hS S hSp).2 (le_refl _)
      have e3 : (i : Int) + (S : Int) * (-1) = ((i - S : Nat) : Int) := by omega
      rw [e3, h.symm i _ hi (by omega)] at hQ
      omega

/-! ### the arrays -/

theorem leftArray_get (n : Nat) (dl : Nat → Int → Int) (i : Nat) (v : Int) :
    (leftArray n dl)[i]? = some v ↔ (i < n - 1 ∧ v = leftChild n dl i) ∨ (n - 1 ≤ i ∧ i < n - 1 + n ∧ v = -1) := by
  unfold leftArray
  by_cases h : i < n - 1
  · rw [List.getElem?_append_left (by simpa using h)]
    simp only [List.getElem?_map, List.getElem?_range h, Option.map_some, Option.some.injEq]
    constructor
    · intro h'; exact Or.inl ⟨h, h'.symm⟩
    · rintro (⟨_, h'⟩ | ⟨h', _⟩)
      · exact h'.symm
      · omega
  · rw [List.getElem?_append_right (by simpa using h)]
    simp only [List.length_map, List.length_range, List.getElem?_replicate]
    split
    · simp only [Option.some.injEq]; constructor
      · intro h'; exact Or.inr ⟨by omega, by omega, h'.symm⟩
      · rintro (⟨h', _⟩ | ⟨_, _, h'⟩)
        · omega
        · exact h'.symm
    · simp only [reduceCtorEq, false_iff]
      rintro (⟨h', _⟩ | ⟨_, _, _⟩) <;> omega

theorem rightArray_get (n : Nat) (dl : Nat → Int → Int) (i : Nat) (v : Int) :
    (rightArray n dl)[i]? = some v ↔ (i < n - 1 ∧ v = rightChild n dl i) ∨ (n - 1 ≤ i ∧ i < n - 1 + n ∧ v = -1) := by
  unfold rightArray
  by_cases h : i < n - 1
  · rw [List.getElem?_append_left (by simpa using h)]
    simp only [List.getElem?_map, List.getElem?_range h, Option.map_some, Option.some.injEq]
    constructor
    · intro h'; exact Or.inl ⟨h, h'.symm⟩
    · rintro (⟨_, h'⟩ | ⟨h', _⟩)
      · exact h'.symm
      · omega
  · rw [List.getElem?_append_right (by simpa using h)]
    simp only [List.length_map, List.length_range, List.getElem?_replicate]
    split
    · simp only [Option.some.injEq]; constructor
      · intro h'; exact Or.inr ⟨by omega, by omega, h'.symm⟩
      · rintro (⟨h', _⟩ | ⟨_, _, h'⟩)
        · omega
        · exact h'.symm
    · simp only [reduceCtorEq, false_iff]
      rintro (⟨h', _⟩ | ⟨_, _, _⟩) <;> omega

theorem isChild_iff (n : Nat) (dl : Nat → Int → Int) (a c : Nat) :
    IsChild (leftArray n dl) (rightArray n dl) a c ↔
      a < n - 1 ∧ ((c : Int) = leftChild n dl a ∨ (c : Int) = rightChild n dl a) := by
  unfold IsChild
  rw [leftArray_get, rightArray_get]
  constructor
  · rintro ((⟨h, h'⟩ | ⟨_, _, h'⟩) | (⟨h, h'⟩ | ⟨_, _, h'⟩))
    · exact ⟨h, Or.inl h'⟩
    · omega
    · exact ⟨h, Or.inr h'⟩
    · omega
  · rintro ⟨h, h' | h'⟩
    · exact Or.inl (Or.inl ⟨h, h'⟩)
    · exact Or.inr (Or.inl ⟨h, h'⟩)

/-! ### Child links of arbitrary codes -/

theorem searchLoop_le (dl : Nat → Int → Int) (i : Nat) (d thr : Int) :
    ∀ (fuel l t : Nat), searchLoop dl i d thr fuel l t ≤ l + (2 * t - 1) := by
  intro fuel
  induction fuel with
  | zero => intro l t; simp [searchLoop]
  | succ fuel ih =>
    intro l t
    unfold searchLoop
    split
    · split
      · have := ih (l + t) (t / 2); omega
      · have := ih l (t / 2); omega
    · omega

theorem searchLoop_hit (dl : Nat → Int → Int) (i : Nat) (d thr : Int) :
    ∀ (fuel l t : Nat), searchLoop dl i d thr fuel l t = l ∨
      dl i (i + (searchLoop dl i d thr fuel l t : Int) * d) > thr := by
  intro fuel
  induction fuel with
  | zero => intro l t; simp [searchLoop]
  | succ fuel ih =>
    intro l t
    unfold searchLoop
    split
    · split
      · rename_i hgt
        right
        rcases ih (l + t) (t / 2) with h | h
        · rw [h]; exact hgt
        · exact h
      · exact ih l (t / 2)
    · left; rfl

/-- Whatever the codes, the place where a node divides lies inside the list. -/
theorem gamma_bounds {n : Nat} {dl : Nat → Int → Int} (hout : ∀ (i : Nat) (j : Int), (j < 0 ∨ (n : Int) ≤ j) → dl i j = -1)
    (hpos : ∀ i j : Nat, i < n → j < n → 0 ≤ dl i j) (i : Nat) (hi : i < n - 1) : 0 ≤ gamma n dl i ∧ gamma n dl i + 2 ≤ n := by
  have hge : ∀ j : Int, -1 ≤ dl i j := by
    intro j
    by_cases h : j < 0 ∨ (n : Int) ≤ j
    · rw [hout i j h]
    · push Not at h
      obtain ⟨k, rfl⟩ := Int.eq_ofNat_of_zero_le h.1
      have := hpos i k (by omega) (by exact_mod_cast h.2)
      omega
  have hin : ∀ (j : Int), -1 < dl i j → 0 ≤ j ∧ j < n := by
    intro j hj
    by_contra hcon
    rw [hout i j (by omega)] at hj
    omega
  have hdmin : -1 ≤ deltaMin dl i := le_min (hge _) (hge _)
  have hlen : rangeLength n dl i = 0 ∨ (0 ≤ farthest n dl i ∧ farthest n dl i < n) := by
    unfold farthest rangeLength
    simp only
    rcases searchLoop_hit dl i (direction dl i) (deltaMin dl i) (expandLoop dl i (direction dl i) (deltaMin dl i) n 2 / 2) 0
      (expandLoop dl i (direction dl i) (deltaMin dl i) n 2 / 2) with h | h
    · exact Or.inl h
    · exact Or.inr (hin _ (by omega))
  have hsplit : split n dl i = 0 ∨ split n dl i < rangeLength n dl i := by
    have h1 := searchLoop_le dl i (direction dl i) (dl i (farthest n dl i)) ((rangeLength n dl i + 1) / 2) 0 ((rangeLength n dl i + 1) / 2)
    have h2 := searchLoop_hit dl i (direction dl i) (dl i (farthest n dl i)) ((rangeLength n dl i + 1) / 2) 0 ((rangeLength n dl i + 1) / 2)
    unfold split
    simp only
    rcases h2 with h2 | h2
    · exact Or.inl h2
    · right
      refine lt_of_le_of_ne (by omega) ?_
      intro heq
      rw [heq] at h2
      exact absurd h2 (by unfold farthest; exact lt_irrefl _)
  by_cases hd : dl i (i + 1 : Int) > dl i (i - 1 : Int)
  · have hdir : direction dl i = 1 := by unfold direction; rw [if_pos hd]
    unfold gamma
    unfold farthest at hlen
    rw [hdir] at hlen ⊢
    rcases hsplit with h | h
    · rw [h]; simp; omega
    · rcases hlen with h0 | h0
      · omega
      · simp; omega
  · have hdir : direction dl i = -1 := by unfold direction; rw [if_neg hd]
    have hi0 : 1 ≤ i := by
      by_contra hcon
      have : i = 0 := by omega
      subst this
      apply hd
      have h1 := hpos 0 1 (by omega) (by omega)
      have h2 := hout 0 (((0 : Nat) : Int) - 1) (by omega)
      have e : ((0 : Nat) : Int) + 1 = ((1 : Nat) : Int) := by norm_num
      rw [h2, e]; omega
    unfold gamma
    unfold farthest at hlen
    rw [hdir] at hlen ⊢
    rcases hsplit with h | h
    · rw [h]; simp; omega
    · rcases hlen with h0 | h0
      · omega
      · simp; omega

/-- Whatever the codes, every inner node has two children inside the table. -/
theorem children_any {n : Nat} {dl : Nat → Int → Int} (hout : ∀ (i : Nat) (j : Int), (j < 0 ∨ (n : Int) ≤ j) → dl i j = -1)
    (hpos : ∀ i j : Nat, i < n → j < n → 0 ≤ dl i j) (i : Nat) (hi : i < n - 1) :
    ∃ l r : Nat, leftChild n dl i = l ∧ rightChild n dl i = r ∧ l < n - 1 + n ∧ r < n - 1 + n := by
  obtain ⟨h0, h1⟩ := gamma_bounds hout hpos i hi
  obtain ⟨g, hg⟩ := Int.eq_ofNat_of_zero_le h0
  unfold leftChild rightChild
  rw [hg] at h1 ⊢
  refine ⟨if min (i : Int) (farthest n dl i) = g then n - 1 + g else g, if max (i : Int) (farthest n dl i) = (g : Int) + 1 then n - 1 + (g + 1) else g + 1, ?_, ?_, ?_, ?_⟩
  · split <;> push_cast <;> omega
  · split <;> push_cast <;> omega
  · split <;> omega
  · split <;> omega

theorem wf_any {n : Nat} {dl : Nat → Int → Int} (hout : ∀ (i : Nat) (j : Int), (j < 0 ∨ (n : Int) ≤ j) → dl i j = -1)
    (hpos : ∀ i j : Nat, i < n → j < n → 0 ≤ dl i j) : WF (leftArray n dl) (rightArray n dl) (n - 1 + n) := by
  refine ⟨by simp [leftArray], by simp [rightArray], ?_⟩
  intro a c hch
  obtain ⟨ha, hc⟩ := (isChild_iff n dl a c).1 hch
  obtain ⟨l, r, hl, hr, h1, h2⟩ := children_any hout hpos a ha
  rw [hl, hr] at hc
  omega

/-- Every child is a leaf of the range or an internal node strictly inside the range. -/
theorem child_cases {n : Nat} {dl : Nat → Int → Int} (h : Delta n dl) (i a b c : Nat) (hi : i < n)
    (info : NodeInfo n dl i a b)
    (hc : (c : Int) = leftChild n dl i ∨ (c : Int) = rightChild n dl i) :
    (∃ j, a ≤ j ∧ j ≤ b ∧ c = n - 1 + j) ∨ (a < c ∧ c < b) := by
  obtain ⟨γ, h1, h2, _, hl, hr, _⟩ := node_children h i a b hi info
  rcases hc with hc | hc
  · rw [hl] at hc
    split at hc
    · exact Or.inl ⟨γ, h1, by omega, by exact_mod_cast hc⟩
    · right; have : c = γ := by exact_mod_cast hc
      omega
  · rw [hr] at hc
    split at hc
    · exact Or.inl ⟨γ + 1, by omega, by omega, by exact_mod_cast hc⟩
    · right; have : c = γ + 1 := by exact_mod_cast hc
      omega

theorem delta_wf {n : Nat} {dl : Nat → Int → Int} (h : Delta n dl) (hn : 1 ≤ n) :
    WF (leftArray n dl) (rightArray n dl) (n - 1 + n) := by
  refine ⟨by simp [leftArray], by simp [rightArray], ?_⟩
  intro a c hch
  obtain ⟨ha, hc⟩ := (isChild_iff n dl a c).1 hch
  obtain ⟨x, y, info⟩ := node_range h a (by omega) (by omega)
  have hb := info.range.2.1
  rcases child_cases h a x y c (by omega) info hc with ⟨j, _, hj, rfl⟩ | ⟨_, _⟩ <;> omega

/-- rank of a node: internal nodes by decreasing prefix length, leaves last -/
def rank (n : Nat) (dl : Nat → Int → Int) (x : Nat) : Nat :=
  if x < n - 1 then (31 - dl x (farthest n dl x)).toNat else 0

theorem delta_ranked {n : Nat} {dl : Nat → Int → Int} (h : Delta n dl) :
    Ranked (leftArray n dl) (rightArray n dl) (rank n dl) := by
  intro i c hch
  obtain ⟨hi, hc⟩ := (isChild_iff n dl i c).1 hch
  obtain ⟨a, b, info⟩ := node_range h i (by omega) (by omega)
  have hb := info.range.2.1
  have hab := info.range.1
  have h30 := h.le30 a b (by omega) hb
  have hri : rank n dl i = (31 - dl a (b : Int)).toNat := by
    unfold rank; rw [if_pos hi, info.farD]
  rcases child_cases h i a b c (by omega) info hc with ⟨j, _, hj, rfl⟩ | ⟨h1, h2⟩
  · have : rank n dl (n - 1 + j) = 0 := by unfold rank; rw [if_neg (by omega)]
    rw [this, hri]; omega
  · obtain ⟨a', b', info'⟩ := node_range h c (by omega) (by omega)
    have hrc : rank n dl c = (31 - dl a' (b' : Int)).toNat := by
      unfold rank; rw [if_pos (by omega), info'.farD]
    have h30' := h.le30 a' b' (by have := info'.range.1; have := info'.range.2.1; omega) info'.range.2.1
    have hlt : dl a (b : Int) < dl a' (b' : Int) := by
      have g1 : dl a (b : Int) ≤ dl c ((c - 1 : Nat) : Int) := by
        rw [h.symm c (c - 1) (by omega) (by omega)]
        have e1 := h.mono_left a (c - 1) b (by omega) (by omega) hb
        have e2 := h.mono_right (c - 1) c b (by omega) (by omega) hb
        omega
      have g2 : dl a (b : Int) ≤ dl c ((c + 1 : Nat) : Int) := by
        have e1 := h.mono_left a c b (by omega) (by omega) hb
        have e2 := h.mono_right c (c + 1) b (by omega) (by omega) hb
        omega
      rcases info'.range.2.2 with ⟨rfl, hgt, _⟩ | ⟨rfl, hgt, _⟩
      · have e : ((c : Int) - 1) = ((c - 1 : Nat) : Int) := by omega
        rw [e] at hgt; omega
      · have e : ((c : Int) + 1) = ((c + 1 : Nat) : Int) := by omega
        rw [e, h.symm c a' (by omega) (by have := info'.range.1; omega)] at hgt
        omega
    rw [hri, hrc]; omega

/-! ### exact splits reach every leaf -/

/-- Every internal node splits where the codes really split. -/
def ExactSplits (n : Nat) (dl : Nat → Int → Int) : Prop :=
  ∀ i, i < n - 1 → ∀ a b, NodeInfo n dl i a b → ∀ γ : Nat, gamma n dl i = γ → dl γ (γ + 1 : Nat) = dl a b

theorem exact_child_ranges {n : Nat} {dl : Nat → Int → Int} (h : Delta n dl) (i a b γ : Nat)
    (info : NodeInfo n dl i a b) (hγ1 : a ≤ γ) (hγ2 : γ < b)
    (hex : dl γ (γ + 1 : Nat) = dl a b) :
    (a < γ → NodeRange n dl γ a γ) ∧ (γ + 1 < b → NodeRange n dl (γ + 1) (γ + 1) b) := by
  obtain ⟨hab, hbn, hcase⟩ := info.range
  -- outside the range the prefix is shorter
  have outL : ∀ j : Nat, a ≤ j → j < n → dl j (a - 1 : Int) < dl a (b : Int) := by
    intro j hj hjn
    by_cases h0 : a = 0
    · rw [h.out j _ (by omega)]; have := h.nonneg a b (by omega) hbn; omega
    · have e : ((a : Int) - 1) = ((a - 1 : Nat) : Int) := by omega
      rw [e, h.symm j (a - 1) hjn (by omega)]
      have m1 := h.mono_right (a - 1) a j (by omega) hj hjn
      rcases hcase with ⟨_, hgt, _⟩ | ⟨_, hgt, hend⟩
      · rw [e, h.symm a (a - 1) (by omega) (by omega)] at hgt; omega
      · rw [e, h.symm b (a - 1) hbn (by omega)] at hend
        rw [h.symm b a hbn (by omega)] at hgt
        have := h.ultra (a - 1) a b (by omega) (by omega) hbn
        omega
  have outR : ∀ j : Nat, j ≤ b → dl j (b + 1 : Int) < dl a (b : Int) := by
    intro j hj
    by_cases h0 : b + 1 < n
    · have e : ((b : Int) + 1) = ((b + 1 : Nat) : Int) := by omega
      rw [e]
      have m1 := h.mono_left j b (b + 1) hj (by omega) h0
      rcases hcase with ⟨_, hgt, hend⟩ | ⟨_, hgt, _⟩
      · rw [e] at hend
        have := h.ultra a b (b + 1) (by omega) (by omega) h0
        omega
      · rw [e, h.symm b a hbn (by omega)] at hgt; omega
    · rw [h.out j _ (by omega)]; have := h.nonneg a b (by omega) hbn; omega
  have other : ∀ j : Nat, a ≤ j → j < b → j ≠ γ → dl a (b : Int) < dl j (j + 1 : Nat) := by
    intro j h1 h2 h3
    have hge : dl a (b : Int) ≤ dl j (j + 1 : Nat) := by
      have e1 := h.mono_left a j b h1 (by omega) hbn
      have e2 := h.mono_right j (j + 1) b (by omega) (by omega) hbn
      omega
    rcases lt_or_eq_of_le hge with hlt | heq
    · exact hlt
    · exfalso
      rcases Nat.lt_or_ge j γ with hj | hj
      · have hu := h.uniq j γ hj (by omega) (by omega)
        have e1 := h.mono_left a j (γ + 1) h1 (by omega) (by omega)
        have e2 := h.mono_right a (γ + 1) b (by omega) (by omega) hbn
        omega
      · have hu := h.uniq γ j (by omega) (by omega) (by omega)
        have e1 := h.mono_left a γ (j + 1) hγ1 (by omega) (by omega)
        have e2 := h.mono_right a (j + 1) b (by omega) (by omega) hbn
        omega
  -- the prefix over an interval avoiding the split is longer
  have leftPart : ∀ j : Nat, a ≤ j → j ≤ γ → j < γ → dl a (b : Int) < dl j (γ : Int) := by
    intro j hj _ hjγ
    obtain ⟨d, hd⟩ : ∃ d, γ = j + 1 + d := ⟨γ - j - 1, by omega⟩
    have main : ∀ d, j + 1 + d ≤ γ → dl a (b : Int) < dl j ((j + 1 + d : Nat) : Int) := by
      intro d
      induction d with
      | zero => intro hle; exact other j hj (by omega) (by omega)
      | succ d ih =>
        intro hle
        have e := h.ultra j (j + 1 + d) (j + 1 + d + 1) (by omega) (by omega) (by omega)
        have o := other (j + 1 + d) (by omega) (by omega) (by omega)
        have i1 := ih (by omega)
        have : j + 1 + (d + 1) = j + 1 + d + 1 := by omega
        rw [this]
        omega
    have := main d (by omega)
    rw [← hd] at this; exact this
  have rightPart : ∀ j : Nat, γ + 1 < j → j ≤ b → dl a (b : Int) < dl (γ + 1) (j : Int) := by
    intro j hj hjb
    obtain ⟨d, hd⟩ : ∃ d, j = γ + 2 + d := ⟨j - γ - 2, by omega⟩
    have main : ∀ d, γ + 2 + d ≤ b → dl a (b : Int) < dl (γ + 1) ((γ + 2 + d : Nat) : Int) := by
      intro d
      induction d with
      | zero => intro hle; exact other (γ + 1) (by omega) (by omega) (by omega)
      | succ d ih =>
        intro hle
        have e := h.ultra (γ + 1) (γ + 2 + d) (γ + 2 + d + 1) (by omega) (by omega) (by omega)
        have o := other (γ + 2 + d) (by omega) (by omega) (by omega)
        have i1 := ih (by omega)
        have : γ + 2 + (d + 1) = γ + 2 + d + 1 := by omega
        rw [this]
        omega
    have := main d (by omega)
    rw [← hd] at this; exact this
  constructor
  · intro hlt
    refine ⟨hlt, by omega, Or.inr ⟨rfl, ?_, ?_⟩⟩
    · have e : ((γ : Int) + 1) = ((γ + 1 : Nat) : Int) := by omega
      rw [e, h.symm γ a (by omega) (by omega), hex]
      exact leftPart a (le_refl _) (by omega) hlt
    · have e : ((γ : Int) + 1) = ((γ + 1 : Nat) : Int) := by omega
      rw [e, hex]
      exact le_of_lt (outL γ hγ1 (by omega))
  · intro hlt
    refine ⟨hlt, hbn, Or.inl ⟨rfl, ?_, ?_⟩⟩
    · have e : (((γ + 1 : Nat) : Int) - 1) = (γ : Int) := by omega
      rw [e, h.symm (γ + 1) γ (by omega) (by omega), hex]
      exact rightPart b hlt (le_refl _)
    · have e : (((γ + 1 : Nat) : Int) - 1) = (γ : Int) := by omega
      rw [e, h.symm (γ + 1) γ (by omega) (by omega), hex]
      exact le_of_lt (outR (γ + 1) (by omega))

/-- The range of a node is determined by its index. -/
theorem nodeRange_unique {n : Nat} {dl : Nat → Int → Int} (h : Delta n dl) (i a b a' b' : Nat)
    (h1 : NodeRange n dl i a b) (h2 : NodeRange n dl i a' b') : a = a' ∧ b = b' := by
  obtain ⟨hab, hbn, hc⟩ := h1
  obtain ⟨hab', hbn', hc'⟩ := h2
  -- both ranges start at i: the ends agree
  have caseA : ∀ b b' : Nat, i < b → b < n → i < b' → b' < n → dl i (i - 1 : Int) < dl i (b : Int) →
      dl i (b' + 1 : Int) ≤ dl i (i - 1 : Int) → b ≤ b' := by
    intro b b' hb hbn hb' _ hgt hend
    by_contra hlt
    have e : ((b' : Int) + 1) = ((b' + 1 : Nat) : Int) := by omega
    rw [e] at hend
    have := h.mono_right i (b' + 1) b (by omega) (by omega) hbn
    omega
  have caseB : ∀ a a' : Nat, a < i → a' < i → i < n → dl i (i + 1 : Int) < dl i (a : Int) →
      dl i (a' - 1 : Int) ≤ dl i (i + 1 : Int) → a' ≤ a := by
    intro a a' ha ha' hin hgt hend
    by_contra hlt
    have e : ((a' : Int) - 1) = ((a' - 1 : Nat) : Int) := by omega
    rw [e, h.symm i (a' - 1) hin (by omega)] at hend
    rw [h.symm i a hin (by omega)] at hgt
    have := h.mono_left a (a' - 1) i (by omega) (by omega) hin
    omega
  have mixed : ∀ b a' : Nat, i < b → b < n → a' < i → dl i (i - 1 : Int) < dl i (b : Int) →
      dl i (i + 1 : Int) < dl i (a' : Int) → False := by
    intro b a' hb hbn ha' g1 g2
    have e : ((i : Int) - 1) = ((i - 1 : Nat) : Int) := by omega
    have e' : ((i : Int) + 1) = ((i + 1 : Nat) : Int) := by omega
    rw [e, h.symm i (i - 1) (by omega) (by omega)] at g1
    rw [e', h.symm i a' (by omega) (by omega)] at g2
    have m1 := h.mono_right i (i + 1) b (by omega) (by omega) hbn
    have m2 := h.mono_left a' (i - 1) i (by omega) (by omega) (by omega)
    omega
  rcases hc with ⟨rfl, g1, g2⟩ | ⟨rfl, g1, g2⟩ <;> rcases hc' with ⟨e, g1', g2'⟩ | ⟨e, g1', g2'⟩
  · subst e
    exact ⟨rfl, le_antisymm (caseA b b' hab hbn hab' hbn' g1 g2') (caseA b' b hab' hbn' hab hbn g1' g2)⟩
  · subst e; exact (mixed b a' hab hbn hab' g1 g1').elim
  · subst e; exact (mixed b' a hab' hbn' hab g1' g1).elim
  · subst e
    exact ⟨le_antisymm (caseB a' a hab' hab hbn g1' g2) (caseB a a' hab hab' hbn g1 g2'), rfl⟩

theorem leaves_reachable {n : Nat} {dl : Nat → Int → Int} (h : Delta n dl) (hex : ExactSplits n dl) :
    ∀ (len i a b : Nat), b - a ≤ len → i < n - 1 → NodeRange n dl i a b → ∀ j, a ≤ j → j ≤ b →
      ∃ k, Path (leftArray n dl) (rightArray n dl) i (n - 1 + j) k := by
  intro len
  induction len with
  | zero => intro i a b hle _ hr; have := hr.1; omega
  | succ len ih =>
    intro i a b hle hi hr j hj1 hj2
    obtain ⟨a', b', info⟩ := node_range h i (by omega) (by omega)
    obtain ⟨rfl, rfl⟩ := nodeRange_unique h i a b a' b' hr info.range
    have hbn := info.range.2.1
    obtain ⟨γ, h1, h2, hγ, hl, hrr, _⟩ := node_children h i a b (by omega) info
    obtain ⟨cL, cR⟩ := exact_child_ranges h i a b γ info h1 h2 (hex i hi a b info γ hγ)
    rcases Nat.lt_or_ge γ j with hjγ | hjγ
    · -- right part
      by_cases hc : b = γ + 1
      · rw [if_pos hc] at hrr
        have : j = γ + 1 := by omega
        subst this
        exact ⟨1, Path.step ((isChild_iff n dl i _).2 ⟨hi, Or.inr hrr.symm⟩) (Path.refl _)⟩
      · rw [if_neg hc] at hrr
        obtain ⟨k, hk⟩ := ih (γ + 1) (γ + 1) b (by omega) (by omega) (cR (by omega)) j (by omega) hj2
        exact ⟨k + 1, Path.step ((isChild_iff n dl i _).2 ⟨hi, Or.inr hrr.symm⟩) hk⟩
    · by_cases hc : a = γ
      · rw [if_pos hc] at hl
        have : j = γ := by omega
        subst this
        exact ⟨1, Path.step ((isChild_iff n dl i _).2 ⟨hi, Or.inl hl.symm⟩) (Path.refl _)⟩
      · rw [if_neg hc] at hl
        obtain ⟨k, hk⟩ := ih γ a γ (by omega) (by omega) (cL (by omega)) j hj1 hjγ
        exact ⟨k + 1, Path.step ((isChild_iff n dl i _).2 ⟨hi, Or.inl hl.symm⟩) hk⟩

theorem root_range {n : Nat} {dl : Nat → Int → Int} (h : Delta n dl) (hn : 2 ≤ n) : NodeRange n dl 0 0 (n - 1) := by
  refine ⟨by omega, by omega, Or.inl ⟨rfl, ?_, ?_⟩⟩
  · rw [h.out 0 _ (by omega)]; have := h.nonneg 0 (n - 1) (by omega) (by omega); omega
  · rw [h.out 0 _ (by omega), h.out 0 _ (by omega)]

theorem all_leaves_reachable {n : Nat} {dl : Nat → Int → Int} (h : Delta n dl) (hn : 1 ≤ n) (hex : ExactSplits n dl)
    (j : Nat) (hj : j < n) : ∃ k, Path (leftArray n dl) (rightArray n dl) 0 (n - 1 + j) k := by
  rcases Nat.lt_or_ge n 2 with h1 | h1
  · have : n = 1 := by omega
    subst this
    have : j = 0 := by omega
    subst this
    exact ⟨0, Path.refl _⟩
  · exact leaves_reachable h hex (n - 1) 0 0 (n - 1) (by omega) (by omega) (root_range h h1) j (by omega) (by omega)

/-- If half of every range length is a power of two, all splits are exact. -/
theorem exact_of_pow2 {n : Nat} {dl : Nat → Int → Int} (h : Delta n dl)
    (hp : ∀ i, i < n - 1 → ∃ k, (rangeLength n dl i + 1) / 2 = 2 ^ k) : ExactSplits n dl := by
  intro i hi a b info γ hγ
  obtain ⟨γ', h1, h2, hγ', _, _, hex⟩ := node_children h i a b (by omega) info
  have : γ = γ' := by rw [hγ] at hγ'; exact_mod_cast hγ'
  subst this
  obtain ⟨k, hk⟩ := hp i hi
  rw [info.lenEq] at hk
  exact hex k hk

theorem exact_of_le_five {n : Nat} {dl : Nat → Int → Int} (h : Delta n dl) (hn : n ≤ 5) : ExactSplits n dl := by
  apply exact_of_pow2 h
  intro i hi
  obtain ⟨a, b, info⟩ := node_range h i (by omega) (by omega)
  have := info.range.1
  have := info.range.2.1
  rw [info.lenEq]
  rcases (by omega : b - a = 1 ∨ b - a = 2 ∨ b - a = 3 ∨ b - a = 4) with e | e | e | e <;> rw [e]
  · exact ⟨0, rfl⟩
  · exact ⟨0, rfl⟩
  · exact ⟨1, rfl⟩
  · exact ⟨1, rfl⟩

/-! ### the prefix function of sorted 30-bit codes without three equal ones -/

theorem lcp_pos (codes : List (BitVec 32)) (h30 : ∀ c ∈ codes, Is30Bit c) (i j : Nat) (hi : i < codes.length) (hj : j < codes.length) :
    0 ≤ lcp codes i j :=
  (C13_lcp_counts_leading_bits codes i j _ _ (List.getElem?_eq_getElem hi) (List.getElem?_eq_getElem hj)
      (h30 _ (List.getElem_mem hi)) (h30 _ (List.getElem_mem hj))).1

theorem lcp_delta (codes : List (BitVec 32)) (hs' : codes.Pairwise (fun a b => a.toNat ≤ b.toNat))
    (h30 : ∀ c ∈ codes, Is30Bit c) (h3 : NoThree codes) : Delta codes.length (lcp codes) := by
  refine ⟨?_, ?_, ?_, ?_, ?_, ?_⟩
  · intro i j hj; exact C13_lcp_outside codes i j hj
  · intro i j hi hj
    exact (C13_lcp_counts_leading_bits codes i j _ _ (List.getElem?_eq_getElem hi) (List.getElem?_eq_getElem hj)
      (h30 _ (List.getElem_mem hi)) (h30 _ (List.getElem_mem hj))).1
  · intro i j hi hj
    exact (C13_lcp_counts_leading_bits codes i j _ _ (List.getElem?_eq_getElem hi) (List.getElem?_eq_getElem hj)
      (h30 _ (List.getElem_mem hi)) (h30 _ (List.getElem_mem hj))).2.1
  · intro i j hi hj; exact C13_lcp_symm codes i j hi hj
  · intro i j k hij hjk hk; exact C13_lcp_ultrametric codes hs' h30 i j k hij hjk hk
  · intro j k hjk hk heq
    by_contra hnot
    have hj0 : j < codes.length := by omega
    have hj1 : j + 1 < codes.length := by omega
    have hk0 : k < codes.length := by omega
    have a0 := h30 _ (List.getElem_mem hj0)
    have a1 := h30 _ (List.getElem_mem hj1)
    have b0 := h30 _ (List.getElem_mem hk0)
    have b1 := h30 _ (List.getElem_mem hk)
    obtain ⟨r1, e1, c1, s1⟩ := lcp_spec codes j (j + 1) _ _ (List.getElem?_eq_getElem hj0) (List.getElem?_eq_getElem hj1) a0 a1
    obtain ⟨r2, e2, c2, s2⟩ := lcp_spec codes k (k + 1) _ _ (List.getElem?_eq_getElem hk0) (List.getElem?_eq_getElem hk) b0 b1
    obtain ⟨r3, e3, c3, s3⟩ := lcp_spec codes j (k + 1) _ _ (List.getElem?_eq_getElem hj0) (List.getElem?_eq_getElem hk) a0 b1
    rw [e1, e2] at heq
    rw [e3, e1] at hnot
    have hr12 : r1 = r2 := by exact_mod_cast heq
    subst hr12
    have le1 : codes[j].toNat ≤ codes[j + 1].toNat := List.pairwise_iff_getElem.1 hs' j (j + 1) hj0 hj1 (by omega)
    have le2 : codes[k].toNat ≤ codes[k + 1].toNat := List.pairwise_iff_getElem.1 hs' k (k + 1) hk0 hk (by omega)
    have le3 : codes[j + 1].toNat ≤ codes[k].toNat := by
      rcases Nat.lt_or_ge (j + 1) k with h | h
      · exact List.pairwise_iff_getElem.1 hs' (j + 1) k hj1 hk0 h
      · have : j + 1 = k := by omega
        subst this; exact le_refl _
    have hr30 : r1 < 30 := by
      by_contra hh
      have : r1 = 30 := by omega
      subst this
      have h1 := (s1 30 (le_refl _)).2 (le_refl _)
      have h2 := (s3 30 (le_refl _)).2 (by omega)
      unfold AgreeOnPrefix at h1 h2
      simp at h1 h2
      have e1 : codes[j + 1] = codes[j] := BitVec.eq_of_toNat_eq h1.symm
      have e2 : codes[k + 1] = codes[j] := BitVec.eq_of_toNat_eq h2.symm
      exact h3 j (j + 1) (k + 1) codes[j] (by omega) (by omega) (by omega) (List.getElem?_eq_getElem hj0)
        (by rw [List.getElem?_eq_getElem hj1, e1]) (by rw [List.getElem?_eq_getElem hk, e2])
    have p1 := (s1 r1 c1).2 (le_refl _)
    have p1' : ¬ AgreeOnPrefix codes[j] codes[j + 1] (r1 + 1) := fun hh => absurd ((s1 (r1 + 1) (by omega)).1 hh) (by omega)
    have p2 := (s2 r1 c2).2 (le_refl _)
    have p2' : ¬ AgreeOnPrefix codes[k] codes[k + 1] (r1 + 1) := fun hh => absurd ((s2 (r1 + 1) (by omega)).1 hh) (by omega)
    have p3 := (s3 r1 c1).2 (by omega)
    unfold AgreeOnPrefix at *
    obtain ⟨s, hs30⟩ : ∃ s, 30 - r1 = s + 1 := ⟨29 - r1, by omega⟩
    have hs31 : 30 - (r1 + 1) = s := by omega
    rw [hs30] at p1 p2 p3
    rw [hs31] at p1' p2'
    have shift : ∀ x : Nat, x >>> (s + 1) = (x >>> s) / 2 := by
      intro x; rw [Nat.shiftRight_eq_div_pow, Nat.shiftRight_eq_div_pow, Nat.pow_succ, Nat.div_div_eq_div_mul]
    rw [shift, shift] at p1 p2 p3
    have mono : ∀ x y : Nat, x ≤ y → x >>> s ≤ y >>> s := by
      intro x y hxy; rw [Nat.shiftRight_eq_div_pow, Nat.shiftRight_eq_div_pow]; exact Nat.div_le_div_right hxy
    have m1 := mono _ _ le1
    have m2 := mono _ _ le2
    have m3 := mono _ _ le3
    have q1 : codes[j].toNat >>> s ≠ codes[j + 1].toNat >>> s := fun hh => p1' hh
    have q2 : codes[k].toNat >>> s ≠ codes[k + 1].toNat >>> s := fun hh => p2' hh
    omega

end Artist.LBVH
