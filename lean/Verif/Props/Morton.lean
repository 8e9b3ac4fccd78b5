import Verif.Model.Morton
import Verif.Spec.Morton
import Verif.Proofs.Morton
import Mathlib.Data.Rat.Floor
/-!
# Properties of Morton codes and common prefixes (C12, C13)
-/
namespace Artist.Morton
open Artist

/-! ## C12 -/

/-- Inputs outside `0..1023` are rejected, all others are accepted. -/
theorem C12_expand_rejects (x : BitVec 32) :
    ((∃ v, expandBits x = .ok v) ↔ 0 ≤ x.toInt ∧ x.toInt ≤ 1023) ∧
    ((∃ e, expandBits x = .error e) ↔ ¬ (0 ≤ x.toInt ∧ x.toInt ≤ 1023)) := by
  unfold expandBits
  by_cases h : x.toInt < 0 ∨ x.toInt > 1023
  · simp only [if_pos h]; constructor <;> constructor <;> intro h' <;> simp_all <;> omega
  · simp only [if_neg h]; constructor <;> constructor <;> intro h' <;> simp_all

/-- Bit `k` of the input goes to position `3k`; every other bit of the result is zero. -/
theorem C12_expand_bits (x : Nat) (hx : x < 1024) :
    ∃ v, expandBits (BitVec.ofNat 32 x) = .ok v ∧
      (∀ k, k < 10 → v.getLsbD (3 * k) = x.testBit k) ∧
      (∀ b, (b % 3 ≠ 0 ∨ 30 ≤ b) → v.getLsbD b = false) := by
  obtain ⟨v, h1, h2⟩ := expand_ok x hx
  refine ⟨v, h1, ?_, ?_⟩
  · intro k hk
    rw [h2 _ (by omega)]
    have : 3 * k / 3 = k := by omega
    simp [hk]
  · intro b hb
    by_cases h32 : b < 32
    · rw [h2 b h32]
      rcases hb with hb | hb
      · simp [hb]
      · have : ¬ b / 3 < 10 := by omega
        simp [this]
    · exact BitVec.getLsbD_of_ge _ _ (by omega)

example : ∃ x : Nat, x < 1024 ∧ x = 1023 := ⟨1023, by decide, rfl⟩

section
variable {K : Type} [Field K] [LinearOrder K] [IsStrictOrderedRing K] [FloorRing K]

/-- Quantised coordinates always fit the 10 bits (in fact they are at most 1022, because of the epsilon in the
denominator), and the order of any coordinate is kept. -/
theorem C12_quantised_range (eps : K) (heps : 0 < eps) (p : V3 K) (ps : List (V3 K)) :
    (quantised eps p ps).length = ps.length + 1 ∧
    ∀ q ∈ quantised eps p ps,
      (0 ≤ q.e ∧ q.e ≤ 1023) ∧ (0 ≤ q.n ∧ q.n ≤ 1023) ∧ (0 ≤ q.u ∧ q.u ≤ 1023) := by
  refine ⟨by simp [quantised], ?_⟩
  intro q hq
  have h := quantised_range eps heps p ps q hq
  omega

/-- The code of every point exists, is a 30-bit number, and holds the bits of the three quantised coordinates
(up in positions `3k`, east in `3k+1`, north in `3k+2`); nothing is rejected. -/
theorem C12_codes_lossless (eps : K) (heps : 0 < eps) (p : V3 K) (ps : List (V3 K)) :
    ∃ codes, mortonCodes eps p ps = .ok codes ∧ codes.length = ps.length + 1 ∧
      ∀ (i : Nat) (q : V3 Int) (c : BitVec 32), (quantised eps p ps)[i]? = some q → codes[i]? = some c →
        Is30Bit c ∧ ∀ k, k < 10 → c.getLsbD (3 * k) = q.u.toNat.testBit k ∧
          c.getLsbD (3 * k + 1) = q.e.toNat.testBit k ∧ c.getLsbD (3 * k + 2) = q.n.toNat.testBit k := by
  have hr := C12_quantised_range eps heps p ps
  obtain ⟨codes, h1, h2, h3⟩ := mapM_ok
    (fun q : V3 Int => interleave (BitVec.ofInt 32 q.e) (BitVec.ofInt 32 q.n) (BitVec.ofInt 32 q.u))
    (quantised eps p ps) (fun q hq => by
      obtain ⟨he, hn, hu⟩ := hr.2 q hq
      obtain ⟨c, hc, _⟩ := interleave_int q he hn hu
      exact ⟨c, hc⟩)
  refine ⟨codes, h1, by rw [h2, hr.1], ?_⟩
  intro i q c hq hc
  obtain ⟨he, hn, hu⟩ := hr.2 q (List.mem_of_getElem? hq)
  obtain ⟨c', hc', _, h30, hbits⟩ := interleave_int q he hn hu
  have := h3 i q c hq hc
  simp only [hc', Except.ok.injEq] at this
  subst this
  exact ⟨h30, hbits⟩

/-- Two points share a code exactly if they share the grid cell. -/
theorem C12_same_code_iff_same_cell (eps : K) (heps : 0 < eps) (p : V3 K) (ps : List (V3 K))
    (codes : List (BitVec 32)) (hcodes : mortonCodes eps p ps = .ok codes) (i j : Nat)
    (hi : i < ps.length + 1) (hj : j < ps.length + 1) :
    codes[i]? = codes[j]? ↔ (quantised eps p ps)[i]? = (quantised eps p ps)[j]? := by
  obtain ⟨codes', h1, hlen, h3⟩ := C12_codes_lossless eps heps p ps
  rw [h1, Except.ok.injEq] at hcodes
  subst hcodes
  have hr := C12_quantised_range eps heps p ps
  obtain ⟨qi, hqi⟩ : ∃ q, (quantised eps p ps)[i]? = some q := ⟨_, List.getElem?_eq_getElem (by omega)⟩
  obtain ⟨qj, hqj⟩ : ∃ q, (quantised eps p ps)[j]? = some q := ⟨_, List.getElem?_eq_getElem (by omega)⟩
  obtain ⟨ci, hci⟩ : ∃ q, codes'[i]? = some q := ⟨_, List.getElem?_eq_getElem (by omega)⟩
  obtain ⟨cj, hcj⟩ : ∃ q, codes'[j]? = some q := ⟨_, List.getElem?_eq_getElem (by omega)⟩
  obtain ⟨a1, a2, a3⟩ := hr.2 qi (List.mem_of_getElem? hqi)
  obtain ⟨b1, b2, b3⟩ := hr.2 qj (List.mem_of_getElem? hqj)
  obtain ⟨di, hdi, hni, _, hbi⟩ := interleave_int qi a1 a2 a3
  obtain ⟨dj, hdj, hnj, _, hbj⟩ := interleave_int qj b1 b2 b3
  have ei : ci = di := by
    obtain ⟨bs, g1, _, g3⟩ := mapM_ok
      (fun q : V3 Int => interleave (BitVec.ofInt 32 q.e) (BitVec.ofInt 32 q.n) (BitVec.ofInt 32 q.u))
      (quantised eps p ps) (fun q hq => by
        obtain ⟨he, hn, hu⟩ := hr.2 q hq
        obtain ⟨c, hc, _⟩ := interleave_int q he hn hu
        exact ⟨c, hc⟩)
    have : codes' = bs := by
      have e : mortonCodes eps p ps = .ok bs := g1
      rw [h1, Except.ok.injEq] at e; exact e
    subst this
    have := g3 i qi ci hqi hci
    simpa [hdi] using this.symm
  have ej : cj = dj := by
    obtain ⟨bs, g1, _, g3⟩ := mapM_ok
      (fun q : V3 Int => interleave (BitVec.ofInt 32 q.e) (BitVec.ofInt 32 q.n) (BitVec.ofInt 32 q.u))
      (quantised eps p ps) (fun q hq => by
        obtain ⟨he, hn, hu⟩ := hr.2 q hq
        obtain ⟨c, hc, _⟩ := interleave_int q he hn hu
        exact ⟨c, hc⟩)
    have : codes' = bs := by
      have e : mortonCodes eps p ps = .ok bs := g1
      rw [h1, Except.ok.injEq] at e; exact e
    subst this
    have := g3 j qj cj hqj hcj
    simpa [hdj] using this.symm
  subst ei ej
  rw [hqi, hqj, hci, hcj]
  simp only [Option.some.injEq]
  constructor
  · intro h
    exact codeNat_inj qi qj (by rw [← hni, ← hnj, h]) a1 a2 a3 b1 b2 b3
  · intro h
    subst h
    exact BitVec.eq_of_toNat_eq (by rw [hni, hnj])

/-- Codes respect the coordinate order: a point that is at least as far east, north and up has at least as large
a code, for every pair of points of every field. -/
theorem C12_codes_monotone (eps : K) (heps : 0 < eps) (p : V3 K) (ps : List (V3 K))
    (codes : List (BitVec 32)) (hcodes : mortonCodes eps p ps = .ok codes) (i j : Nat) (a b : V3 K) (ca cb : BitVec 32)
    (ha : (p :: ps)[i]? = some a) (hb : (p :: ps)[j]? = some b)
    (hca : codes[i]? = some ca) (hcb : codes[j]? = some cb)
    (he : a.e ≤ b.e) (hn : a.n ≤ b.n) (hu : a.u ≤ b.u) : ca.toNat ≤ cb.toNat := by
  have hr := C12_quantised_range eps heps p ps
  obtain ⟨bs, g1, _, g3⟩ := mapM_ok
    (fun q : V3 Int => interleave (BitVec.ofInt 32 q.e) (BitVec.ofInt 32 q.n) (BitVec.ofInt 32 q.u))
    (quantised eps p ps) (fun q hq => by
      obtain ⟨he, hn, hu⟩ := hr.2 q hq
      obtain ⟨c, hc, _⟩ := interleave_int q he hn hu
      exact ⟨c, hc⟩)
  have : codes = bs := by
    have e : mortonCodes eps p ps = .ok bs := g1
    rw [hcodes, Except.ok.injEq] at e; exact e
  subst this
  set mr := extent eps p ps with hmr
  have hqa : (quantised eps p ps)[i]? = some
      ⟨quantise mr.2 mr.1.e a.e, quantise mr.2 mr.1.n a.n, quantise mr.2 mr.1.u a.u⟩ := by
    simp only [quantised, List.getElem?_map, ha, Option.map_some, ← hmr]
  have hqb : (quantised eps p ps)[j]? = some
      ⟨quantise mr.2 mr.1.e b.e, quantise mr.2 mr.1.n b.n, quantise mr.2 mr.1.u b.u⟩ := by
    simp only [quantised, List.getElem?_map, hb, Option.map_some, ← hmr]
  obtain ⟨a1, a2, a3⟩ := hr.2 _ (List.mem_of_getElem? hqa)
  obtain ⟨b1, b2, b3⟩ := hr.2 _ (List.mem_of_getElem? hqb)
  obtain ⟨da, hda, hna, _, _⟩ := interleave_int _ a1 a2 a3
  obtain ⟨db, hdb, hnb, _, _⟩ := interleave_int _ b1 b2 b3
  have ea := g3 i _ ca hqa hca
  have eb := g3 j _ cb hqb hcb
  rw [hda, Except.ok.injEq] at ea
  rw [hdb, Except.ok.injEq] at eb
  subst ea eb
  rw [hna, hnb]
  have hmem : a ∈ p :: ps := List.mem_of_getElem? ha
  have hpos : 0 < mr.2 := by
    have h1 := le_maxOf p.e (ps.map V3.e) p.e (by simp)
    have h2 := minOf_le p.e (ps.map V3.e) p.e (by simp)
    have h3 := le_max_left (maxOf p.e (ps.map V3.e) - minOf p.e (ps.map V3.e))
      (maxOf p.n (ps.map V3.n) - minOf p.n (ps.map V3.n))
    have h4 := le_max_left (max (maxOf p.e (ps.map V3.e) - minOf p.e (ps.map V3.e))
      (maxOf p.n (ps.map V3.n) - minOf p.n (ps.map V3.n))) (maxOf p.u (ps.map V3.u) - minOf p.u (ps.map V3.u))
    simp only [hmr, extent]
    linarith
  have me : mr.1.e ≤ a.e := minOf_le _ _ _ (by have := List.mem_map_of_mem (f := V3.e) hmem; simpa using this)
  have mn : mr.1.n ≤ a.n := minOf_le _ _ _ (by have := List.mem_map_of_mem (f := V3.n) hmem; simpa using this)
  have mu : mr.1.u ≤ a.u := minOf_le _ _ _ (by have := List.mem_map_of_mem (f := V3.u) hmem; simpa using this)
  have qe := quantise_mono mr.2 mr.1.e a.e b.e hpos me he
  have qn := quantise_mono mr.2 mr.1.n a.n b.n hpos mn hn
  have qu := quantise_mono mr.2 mr.1.u a.u b.u hpos mu hu
  simp only at a1 a2 a3 b1 b2 b3
  unfold codeNat
  simp only
  have s1 := spread_mono 10 _ _ (Int.toNat_le_toNat qe) (by omega)
  have s2 := spread_mono 10 _ _ (Int.toNat_le_toNat qn) (by omega)
  have s3 := spread_mono 10 _ _ (Int.toNat_le_toNat qu) (by omega)
  omega

end

/-- the hypotheses are met by an ordinary field with three heliostats -/
example : ∃ (p : V3 ℚ) (ps : List (V3 ℚ)) (codes : List (BitVec 32)),
    mortonCodes (1 / 10 ^ 6) p ps = .ok codes ∧ codes.length = 3 :=
  ⟨⟨0, 0, 0⟩, [⟨100, 50, 1⟩, ⟨20, 80, 2⟩], [0x00000000#32, 0x16db6fbc#32, 0x244a54e0#32],
    by decide +kernel, rfl⟩

/-! ## C13 -/

/-- On 30-bit codes the result is the number of leading bits (out of 30) on which the codes agree: they agree on
their first `m` bits exactly if `m` is at most the result. -/
theorem C13_lcp_counts_leading_bits (codes : List (BitVec 32)) (i j : Nat) (a b : BitVec 32)
    (hi : codes[i]? = some a) (hj : codes[j]? = some b) (ha : Is30Bit a) (hb : Is30Bit b) :
    0 ≤ lcp codes i j ∧ lcp codes i j ≤ 30 ∧
    (∀ m : Nat, m ≤ 30 → (AgreeOnPrefix a b m ↔ (m : Int) ≤ lcp codes i j)) ∧
    (lcp codes i j = 30 ↔ a = b) := by
  obtain ⟨r, h1, h2, h3⟩ := lcp_spec codes i j a b hi hj ha hb
  rw [h1]
  refine ⟨by omega, by omega, ?_, ?_⟩
  · intro m hm; rw [h3 m hm]; omega
  · have := h3 30 (le_refl _)
    unfold AgreeOnPrefix at this
    simp only [Nat.sub_self, Nat.shiftRight_zero] at this
    constructor
    · intro h
      exact BitVec.eq_of_toNat_eq (this.2 (by omega))
    · intro h
      have := this.1 (by rw [h])
      omega

/-- An index outside the array gives `-1`. -/
theorem C13_lcp_outside (codes : List (BitVec 32)) (i : Nat) (j : Int) (hj : j < 0 ∨ (codes.length : Int) ≤ j) :
    lcp codes i j = -1 := by
  unfold lcp
  rw [if_neg (by omega)]

/-- The result does not depend on the order of the two indices. -/
theorem C13_lcp_symm (codes : List (BitVec 32)) (i j : Nat) (hi : i < codes.length) (hj : j < codes.length) :
    lcp codes i j = lcp codes j i := by
  unfold lcp
  have h1 : (0 : Int) ≤ (j : Int) ∧ (j : Int) < codes.length := ⟨by omega, by exact_mod_cast hj⟩
  have h2 : (0 : Int) ≤ (i : Int) ∧ (i : Int) < codes.length := ⟨by omega, by exact_mod_cast hi⟩
  rw [if_pos h1, if_pos h2]
  simp only [Int.toNat_natCast]
  rw [BitVec.xor_comm]

/-- On a sorted array the value for the outer pair is the minimum of the values for the two inner pairs. -/
theorem C13_lcp_ultrametric (codes : List (BitVec 32)) (hsorted : codes.Pairwise (fun a b => a.toNat ≤ b.toNat))
    (h30 : ∀ c ∈ codes, Is30Bit c) (i j k : Nat) (hij : i ≤ j) (hjk : j ≤ k) (hk : k < codes.length) :
    lcp codes i k = min (lcp codes i j) (lcp codes j k) := by
  obtain ⟨a, ha⟩ : ∃ q, codes[i]? = some q := ⟨_, List.getElem?_eq_getElem (by omega)⟩
  obtain ⟨b, hb⟩ : ∃ q, codes[j]? = some q := ⟨_, List.getElem?_eq_getElem (by omega)⟩
  obtain ⟨c, hc⟩ : ∃ q, codes[k]? = some q := ⟨_, List.getElem?_eq_getElem (by omega)⟩
  have pa := h30 a (List.mem_of_getElem? ha)
  have pb := h30 b (List.mem_of_getElem? hb)
  have pc := h30 c (List.mem_of_getElem? hc)
  have le_of : ∀ (x y : Nat) (u v : BitVec 32), codes[x]? = some u → codes[y]? = some v → x ≤ y → u.toNat ≤ v.toNat := by
    intro x y u v hu hv hxy
    rcases Nat.lt_or_ge x y with h | h
    · obtain ⟨hx1, rfl⟩ := List.getElem?_eq_some_iff.1 hu
      obtain ⟨hy1, rfl⟩ := List.getElem?_eq_some_iff.1 hv
      exact List.pairwise_iff_getElem.1 hsorted x y hx1 hy1 h
    · have : x = y := by omega
      subst this; rw [hu] at hv; cases hv; exact le_refl _
  have hab := le_of i j a b ha hb hij
  have hbc := le_of j k b c hb hc hjk
  obtain ⟨r1, e1, b1, s1⟩ := lcp_spec codes i k a c ha hc pa pc
  obtain ⟨r2, e2, b2, s2⟩ := lcp_spec codes i j a b ha hb pa pb
  obtain ⟨r3, e3, b3, s3⟩ := lcp_spec codes j k b c hb hc pb pc
  rw [e1, e2, e3]
  have t1 := s1 r1 b1
  rw [agree_mono_sorted hab hbc] at t1
  have u1 := t1.2 (le_refl _)
  have v2 := (s2 r1 b1).1 u1.1
  have v3 := (s3 r1 b1).1 u1.2
  have w2 := (s2 (min r2 r3) (by omega)).2 (by omega)
  have w3 := (s3 (min r2 r3) (by omega)).2 (by omega)
  have w1 := (s1 (min r2 r3) (by omega)).1 ((agree_mono_sorted hab hbc _).2 ⟨w2, w3⟩)
  omega

example : (([1#32, 5#32, 7#32] : List (BitVec 32)).Pairwise (fun a b => a.toNat ≤ b.toNat)) ∧
    (∀ c ∈ ([1#32, 5#32, 7#32] : List (BitVec 32)), Is30Bit c) ∧ lcp [1#32, 5#32, 7#32] 0 2 = 27 ∧
    lcp [1#32, 5#32, 7#32] 1 2 = 28 := by
  refine ⟨by decide, ?_, by decide, by decide⟩
  intro c hc
  simp only [List.mem_cons, List.not_mem_nil, or_false] at hc
  rcases hc with rfl | rfl | rfl <;> (unfold Is30Bit; decide)

end Artist.Morton
