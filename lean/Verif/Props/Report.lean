import Verif.Proofs.Report
import Mathlib.Data.Rat.Defs
import Mathlib.Algebra.Order.Ring.Rat
/-! Properties C33 and C52: losses are reported for the right heliostat; predictions are compared with their own measurements. -/
namespace Artist.Report
open Artist Artist.Training Artist.Env

/-- C33, ownership: whatever the numbers of processes, groups and active heliostats, exactly one process owns an active heliostat. -/
theorem C33_owner_unique (W G g a k h : Nat) (hW : 0 < W) (hg : g < G) (hh : h < a) (hk : 0 < k) : ∃! r, Owns W G r g a k h := by
  obtain ⟨T, n, inv, info, hsetup, hlen, hwork, hrank, -, -, hown⟩ := setup_all W G hW (by omega)
  obtain ⟨r, ⟨hr, hm⟩, hu⟩ := hown g a h hg hh
  have hiff : ∀ r, Owns W G r g a k h ↔ WorksOn T r g ∧ h % min a (info r).groupWorldSize = (info r).groupRank := by
    intro r
    constructor
    · rintro ⟨hrW, T', n', i', inv', e1, e2, e3⟩
      rw [hsetup r hrW] at e1
      simp only [Except.ok.injEq, Prod.mk.injEq] at e1
      obtain ⟨rfl, rfl, rfl, rfl⟩ := e1
      exact ⟨e2, (owns_iff_samples a k _ _ h hk (by have := hrank r hrW; omega) hh).1 e3⟩
    · rintro ⟨e1, e2⟩
      have hrW := (hwork r g e1).1
      exact ⟨hrW, T, n, info r, inv, hsetup r hrW, e1, (owns_iff_samples a k _ _ h hk (by have := hrank r hrW; omega) hh).2 e2⟩
  exact ⟨r, (hiff r).2 ⟨hr, hm⟩, fun r' hr' => hu r' ((hiff r').1 hr')⟩

/-- C33, bookkeeping, for any number of processes and groups including shared groups: if every process that works on a group with active heliostats
owns one of them and computes one loss `f r g h` for each heliostat of its share (in the order of its sampler), then after synchronisation
the entry of an active heliostat is the loss computed by its owner, and inactive heliostats read infinity (`none`). Without a share the
process raises (`C33_idle_raises`). -/
theorem C33_bookkeeping {L : Type} [LinearOrder L] (masks : List (List Nat)) (W : Nat) (hW : 0 < W) (hG : 0 < masks.length)
    (train : Nat → Nat) (ht : ∀ g, 0 < train g) (f : Nat → Nat → Nat → L)
    (hshare : ∀ T n r g, distribute W masks.length = .ok (T, n) → WorksOn T r g → 0 < numberActive (masks.getD g []) →
      ∃ h, h < numberActive (masks.getD g []) ∧ Owns W masks.length r g (numberActive (masks.getD g [])) (train g) h) :
    ∃ v, reported (fun r info g vector =>
        if (masks.getD g []).sum = 0 then .ok vector
        else
          let a := numberActive (masks.getD g [])
          let idx := Sampler.rankIndices (a * train g) a info.groupWorldSize info.groupRank
          record (masks.getD g []) (train g) idx (startIndex (masks.map List.length) g)
            (((stride (train g) idx).map (· / train g)).map (f r g)) vector)
        (masks.map List.length).sum W masks.length = .ok v ∧
      v.length = (masks.map List.length).sum ∧
      ∀ g m i c, masks[g]? = some m → m[i]? = some c →
        (c = 0 → v[((masks.map List.length).take g).sum + i]? = some none) ∧
        ∀ r, 0 < c → Owns W masks.length r g (numberActive m) (train g) (activeBefore m i) →
          v[((masks.map List.length).take g).sum + i]? = some (some (f r g (activeBefore m i))) := by
  classical
  obtain ⟨T, n, inv, info, hsetup, hlen, hwork, hrank, -, -, hown⟩ := setup_all W masks.length hW hG
  let own : Nat → Nat → List Nat := fun r g =>
    (stride (train g) (Sampler.rankIndices (numberActive (masks.getD g []) * train g) (numberActive (masks.getD g []))
      (info r).groupWorldSize (info r).groupRank)).map (· / train g)
  let F : Nat → Nat → Nat → Option L := fun r g i =>
    if 0 < (masks.getD g []).getD i 0 ∧ activeBefore (masks.getD g []) i ∈ own r g then some (f r g (activeBefore (masks.getD g []) i)) else none
  have hget : ∀ (m : List Nat) i, i < m.length → m[i]? = some (m.getD i 0) := by
    intro m i hi
    simp [List.getD, List.getElem?_eq_getElem hi]
  have hdist : ∃ n', distribute W masks.length = .ok (T, n') := by
    have := hsetup 0 hW
    unfold setupInfo at this
    cases hd : distribute W masks.length with
    | error e => rw [hd] at this; simp at this
    | ok x =>
      obtain ⟨T', n'⟩ := x
      rw [hd] at this
      refine ⟨n', ?_⟩
      cases n' <;> simp at this <;> rw [this.1]
  obtain ⟨n', hdist⟩ := hdist
  obtain ⟨v, h1, h2, h3⟩ := reported_spec masks W hW (fun r info g vector =>
        if (masks.getD g []).sum = 0 then .ok vector
        else
          let a := numberActive (masks.getD g [])
          let idx := Sampler.rankIndices (a * train g) a info.groupWorldSize info.groupRank
          record (masks.getD g []) (train g) idx (startIndex (masks.map List.length) g)
            (((stride (train g) idx).map (· / train g)).map (f r g)) vector) T n inv info hsetup hlen hwork F (by
    intro r g hw vector hv
    have hg := (hwork r g hw).2
    have hsz : (masks.map List.length)[g]? = some (masks.getD g []).length := by
      simp [List.getD, List.getElem?_eq_getElem hg]
    have hb := start_bound _ g _ hsz
    by_cases h0 : (masks.getD g []).sum = 0
    · refine ⟨vector, by simp only [if_pos h0], rfl, fun _ _ => rfl, fun i hi => ?_⟩
      have hc : (masks.getD g []).getD i 0 = 0 := by
        have hm := List.mem_of_getElem? (hget _ i hi)
        have := le_sum _ _ hm; omega
      have : F r g i = none := by
        simp only [F, hc]; simp
      rw [this]
    · obtain ⟨v', k1, k2, k3, k4⟩ := record_spec (masks.getD g []) (train g) (ht g)
        (Sampler.rankIndices (numberActive (masks.getD g []) * train g) (numberActive (masks.getD g []))
          (info r).groupWorldSize (info r).groupRank) (own r g) rfl (by
          obtain ⟨c, hc, hcp⟩ : ∃ c ∈ masks.getD g [], 0 < c := by
            by_contra hno
            push Not at hno
            exact h0 (sum_zero _ (fun c hc => by have := hno c hc; omega))
          obtain ⟨h, hh, hrW, T2, n2, i2, inv2, e1, e2, e3⟩ := hshare T n' r g hdist hw
            (List.countP_pos_iff.2 ⟨c, hc, by simpa using hcp⟩)
          rw [hsetup r hrW] at e1
          simp only [Except.ok.injEq, Prod.mk.injEq] at e1
          obtain ⟨rfl, rfl, rfl, rfl⟩ := e1
          have hpos : 0 < (info r).groupWorldSize := by have := hrank r hrW; omega
          have hmod := (owns_iff_samples _ _ _ _ h (ht g) hpos hh).1 e3
          have : h ∈ own r g := (mem_own _ _ _ _ _ (ht g)).2 ⟨hh, by rw [← hmod]; exact Nat.mod_lt _ (by omega), hmod⟩
          exact List.ne_nil_of_mem this) (fun h hh => ((mem_own _ _ _ _ _ (ht g)).1 hh).1)
        (startIndex (masks.map List.length) g) (f r g) vector (by omega)
      refine ⟨v', by simp only [if_neg h0]; exact k1, k2, k3, fun i hi => ?_⟩
      rw [k4 i _ (hget _ i hi)]
      by_cases hcond : 0 < (masks.getD g []).getD i 0 ∧ activeBefore (masks.getD g []) i ∈ own r g
      · have : F r g i = some (f r g (activeBefore (masks.getD g []) i)) := by simp only [F]; rw [if_pos hcond]
        rw [if_pos hcond, this]
      · have : F r g i = none := by simp only [F]; rw [if_neg hcond]
        rw [if_neg hcond, this])
  refine ⟨v, h1, h2, fun g m i c hm hc => ?_⟩
  have hg : g < masks.length := (List.getElem?_eq_some_iff.1 hm).1
  have hgd : masks.getD g [] = m := by simp [List.getD, hm]
  have hi : i < m.length := (List.getElem?_eq_some_iff.1 hc).1
  have hcd : m.getD i 0 = c := by simp [List.getD, hc]
  constructor
  · intro h0
    refine h3 g i 0 none hg (by rw [hgd]; exact hi) ?_ (Or.inl rfl)
    intro r _
    have : F r g i = none := by simp only [F, hgd, hcd, h0]; simp
    rw [this]; simp
  · rintro r hpos hO
    have hbefore : activeBefore m i < numberActive m := by
      have := nonzero_get m i c hc hpos
      rw [← nonzero_length]; exact (List.getElem?_eq_some_iff.1 this).1
    obtain ⟨hrW, T', n', i', inv', e1, e2, e3⟩ := hO
    rw [hsetup r hrW] at e1
    simp only [Except.ok.injEq, Prod.mk.injEq] at e1
    obtain ⟨rfl, rfl, rfl, rfl⟩ := e1
    have hmod := (owns_iff_samples (numberActive m) (train g) _ _ (activeBefore m i) (ht g) (by have := hrank r hrW; omega) hbefore).1 e3
    obtain ⟨r1, -, hu⟩ := hown g (numberActive m) (activeBefore m i) hg hbefore
    refine h3 g i r (some (f r g (activeBefore m i))) hg (by rw [hgd]; exact hi) ?_ (Or.inr e2)
    intro s hs
    have hmem : activeBefore m i ∈ own s g ↔ s = r := by
      simp only [own, hgd]
      rw [mem_own _ _ _ _ _ (ht g)]
      constructor
      · rintro ⟨-, -, h⟩
        rw [hu s ⟨hs, h⟩, hu r ⟨e2, hmod⟩]
      · rintro rfl
        refine ⟨hbefore, ?_, hmod⟩
        rw [← hmod]
        exact Nat.mod_lt _ (by have := hrank s hrW; omega)
    simp only [F, hgd, hcd, hpos, true_and]
    by_cases hs' : s = r
    · subst hs'
      rw [if_pos (hmem.2 rfl), if_pos rfl]
    · rw [if_neg (fun h => hs' (hmem.1 h)), if_neg hs']

/-- C52 without sharing: a process that is alone in its group compares the prediction of training sample `j` of active heliostat `h` with
the measurement of the same sample, and reduces over the samples of one heliostat.  Missing from the full statement: groups shared by
several processes (`C52_nested_raises`). -/
theorem C52_own_measurements_partial {P G L : Type} (testOf : Nat → Int) (loss : P → G → L) (reduction : List L → L) (mask : List Nat)
    (k t : Nat) (hu : ∀ c ∈ mask, c = 0 ∨ c = k) (ha : k ∈ mask) (ht : (k : Int) - max 1 (testOf k) = t) (ht0 : 0 < t)
    (p : Nat → P) (q : Nat → G) :
    ∃ idx losses, sampleLosses testOf loss mask (fun n => (List.range n).map p) ((List.range mask.sum).map q) 1 0 =
        .ok (t, idx, losses) ∧
      losses = (List.range (numberActive mask * t)).map (fun s => loss (p s) (q (s / t * k + s % t))) ∧
      reduceLoss reduction t losses =
        .ok ((List.range (numberActive mask)).map
          (fun h => reduction ((List.range t).map (fun j => loss (p (h * t + j)) (q (h * k + j)))))) := by
  have hk : 0 < k := by omega
  have hact : 0 < numberActive mask := List.countP_pos_iff.2 ⟨k, ha, by simpa using hk⟩
  rw [sampleLosses_eval testOf loss mask k t 1 0 hk hu hact ht ht0, rankIndices_alone _ _ hact]
  rw [if_neg (by simp; omega)]
  unfold pairLoss
  rw [if_pos (by simp)]
  refine ⟨_, _, rfl, ?_, reduce_own loss reduction _ k t ht0 p q⟩
  rw [List.zipWith_map, List.zipWith_self]

/-- C33 for flux-driven reconstructions when no group is shared (at most as many processes as groups): the entry of an active heliostat is the
reduction, over its own training samples, of the losses between the predictions made by the process that works on its group and the
measurements of the same samples; inactive heliostats read infinity.  Missing from the full statement: shared groups
(`C33_nested_raises`), alignment-driven reconstruction with several processes (`C33_alignment_other_processes`), unequal sample
counts (see C32). -/
theorem C33_flat_partial {P G L : Type} [LinearOrder L] (testOf : Nat → Int) (loss : P → G → L) (reduction : List L → L)
    (masks : List (List Nat)) (W : Nat) (hW : 0 < W) (hflat : W ≤ masks.length) (k t : Nat → Nat)
    (hu : ∀ g m, masks[g]? = some m → ∀ c ∈ m, c = 0 ∨ c = k g) (ht : ∀ g, (k g : Int) - max 1 (testOf (k g)) = t g)
    (ht0 : ∀ g, 0 < t g) (p : Nat → Nat → Nat → P) (q : Nat → Nat → G) :
    ∃ v, reported (fun r info g vector =>
        fluxGroup testOf loss reduction (masks.getD g []) (fun n => (List.range n).map (p r g))
          ((List.range (masks.getD g []).sum).map (q g)) info.groupWorldSize info.groupRank
          (startIndex (masks.map List.length) g) vector)
        (masks.map List.length).sum W masks.length = .ok v ∧
      v.length = (masks.map List.length).sum ∧
      ∀ g m i c, masks[g]? = some m → m[i]? = some c →
        (c = 0 → v[((masks.map List.length).take g).sum + i]? = some none) ∧
        ∀ r T, 0 < c → distribute W masks.length = .ok (T, false) → WorksOn T r g →
          v[((masks.map List.length).take g).sum + i]? = some (some (reduction ((List.range (t g)).map (fun j =>
            loss (p r g (activeBefore m i * t g + j)) (q g (activeBefore m i * k g + j)))))) := by
  classical
  obtain ⟨T, n, inv, info, hsetup, hlen, hwork, hrank, hdef, hn, hown⟩ := setup_all W masks.length hW (by omega)
  have hnf : n = false := by
    cases n with
    | false => rfl
    | true => have := hn.1 rfl; omega
  have hinfo : ∀ r, info r = defaultInfo := fun r => hdef r hnf
  obtain ⟨T', hT', huT, -, -⟩ := C01_flat_balanced W masks.length hW hflat
  have hTT : T' = T := by
    have := hsetup 0 hW
    unfold setupInfo at this
    rw [hT'] at this
    simp at this
    exact this.1
  subst hTT
  let val : Nat → Nat → Nat → L := fun r g h =>
    reduction ((List.range (t g)).map (fun j => loss (p r g (h * t g + j)) (q g (h * k g + j))))
  let F : Nat → Nat → Nat → Option L := fun r g i =>
    if 0 < (masks.getD g []).getD i 0 then some (val r g (activeBefore (masks.getD g []) i)) else none
  have hget : ∀ (m : List Nat) i, i < m.length → m[i]? = some (m.getD i 0) := by
    intro m i hi
    simp [List.getD, List.getElem?_eq_getElem hi]
  obtain ⟨v, h1, h2, h3⟩ := reported_spec masks W hW (fun r info g vector =>
        fluxGroup testOf loss reduction (masks.getD g []) (fun n => (List.range n).map (p r g))
          ((List.range (masks.getD g []).sum).map (q g)) info.groupWorldSize info.groupRank
          (startIndex (masks.map List.length) g) vector) T' n inv info hsetup hlen hwork F (by
    intro r g hw vector hv
    have hg := (hwork r g hw).2
    have hsz : (masks.map List.length)[g]? = some (masks.getD g []).length := by
      simp [List.getD, List.getElem?_eq_getElem hg]
    have hb := start_bound _ g _ hsz
    have hm : masks[g]? = some (masks.getD g []) := by simp [List.getD, List.getElem?_eq_getElem hg]
    by_cases h0 : (masks.getD g []).sum = 0
    · refine ⟨vector, by unfold fluxGroup; beta_reduce; rw [if_pos h0], rfl, fun _ _ => rfl, fun i hi => ?_⟩
      have hc : (masks.getD g []).getD i 0 = 0 := by
        have hmem := List.mem_of_getElem? (hget _ i hi)
        have := le_sum _ _ hmem; omega
      have : F r g i = none := by simp only [F, hc]; simp
      rw [this]
    · have hkm : k g ∈ masks.getD g [] := by
        by_contra hno
        apply h0
        apply sum_zero
        intro c hc
        rcases hu g _ hm c hc with h | h
        · exact h
        · exact absurd (h ▸ hc) hno
      obtain ⟨idx, losses, e1, e2, e3⟩ := C52_own_measurements_partial testOf loss reduction (masks.getD g []) (k g) (t g)
        (hu g _ hm) hkm (ht g) (ht0 g) (p r g) (q g)
      have hk : 0 < k g := by have := ht g; have := ht0 g; omega
      have hact : 0 < numberActive (masks.getD g []) := List.countP_pos_iff.2 ⟨k g, hkm, by simpa using hk⟩
      have hidx : idx = List.range (numberActive (masks.getD g []) * t g) := by
        rw [sampleLosses_eval testOf loss _ (k g) (t g) 1 0 hk (hu g _ hm) hact (ht g) (ht0 g), rankIndices_alone _ _ hact, if_neg (by rw [List.range_eq_nil]; exact Nat.ne_of_gt (Nat.mul_pos hact (ht0 g)))] at e1
        unfold pairLoss at e1
        rw [if_pos (by simp)] at e1
        simp at e1
        exact e1.1.symm
      have hownl : (stride (t g) idx).map (· / t g) = List.range (numberActive (masks.getD g [])) := by
        rw [hidx, ← rankIndices_alone _ _ hact, Sampler.C05_owned_heliostats _ _ _ _ (ht0 g)]
        apply List.filter_eq_self.2
        intro h hh
        have : min (numberActive (masks.getD g [])) 1 = 1 := by omega
        simp only [this, Nat.mod_one]
        decide
      obtain ⟨v', k1, k2, k3, k4⟩ := record_spec (masks.getD g []) (t g) (ht0 g) idx _ hownl (by rw [Ne, List.range_eq_nil]; omega) (fun h hh => List.mem_range.1 hh)
        (startIndex (masks.map List.length) g) (val r g) vector (by omega)
      refine ⟨v', ?_, k2, k3, fun i hi => ?_⟩
      · simp only [hinfo]
        unfold fluxGroup
        rw [if_neg h0]
        simp only [defaultInfo]
        rw [e1]
        simp only
        rw [e3]
        exact k1
      · rw [k4 i _ (hget _ i hi)]
        by_cases hcond : 0 < (masks.getD g []).getD i 0
        · have hbefore : activeBefore (masks.getD g []) i < numberActive (masks.getD g []) := by
            have := nonzero_get _ i _ (hget _ i hi) hcond
            rw [← nonzero_length]; exact (List.getElem?_eq_some_iff.1 this).1
          have : F r g i = some (val r g (activeBefore (masks.getD g []) i)) := by simp only [F]; rw [if_pos hcond]
          rw [if_pos ⟨hcond, List.mem_range.2 hbefore⟩, this]
        · have : F r g i = none := by simp only [F]; rw [if_neg hcond]
          rw [if_neg (fun h => hcond h.1), this])
  refine ⟨v, h1, h2, fun g m i c hm hc => ?_⟩
  have hg : g < masks.length := (List.getElem?_eq_some_iff.1 hm).1
  have hgd : masks.getD g [] = m := by simp [List.getD, hm]
  have hi : i < m.length := (List.getElem?_eq_some_iff.1 hc).1
  have hcd : m.getD i 0 = c := by simp [List.getD, hc]
  constructor
  · intro h0
    refine h3 g i 0 none hg (by rw [hgd]; exact hi) ?_ (Or.inl rfl)
    intro r _
    have : F r g i = none := by simp only [F, hgd, hcd, h0]; simp
    rw [this]; simp
  · intro r T hpos hT hw
    rw [hT'] at hT
    simp only [Except.ok.injEq, Prod.mk.injEq, and_true] at hT
    subst hT
    refine h3 g i r (some (val r g (activeBefore m i))) hg (by rw [hgd]; exact hi) ?_ (Or.inr hw)
    intro s hs
    have : s = r := (huT g hg).unique hs hw
    subst this
    simp only [F, hgd, hcd, hpos, if_true]

/-- C52 is false for shared groups: with at least two active heliostats and at least two processes, the loss of every process either raises
`IndexError` (if it has no sample) or `RuntimeError`, or compares all predictions of the group with one and the same measurement. -/
theorem C52_nested_wrong {P G L : Type} (testOf : Nat → Int) (loss : P → G → L) (mask : List Nat) (k t w r : Nat)
    (hu : ∀ c ∈ mask, c = 0 ∨ c = k) (ha : 2 ≤ numberActive mask) (hw : 2 ≤ w) (ht : (k : Int) - max 1 (testOf k) = t) (ht0 : 0 < t)
    (p : Nat → P) (q : Nat → G) :
    sampleLosses testOf loss mask (fun n => (List.range n).map p) ((List.range mask.sum).map q) w r =
      .error (if r < min (numberActive mask) w then .runtimeError else .indexError) ∨
    (t = 1 ∧ ∃ h, h < numberActive mask ∧
      sampleLosses testOf loss mask (fun n => (List.range n).map p) ((List.range mask.sum).map q) w r =
        .ok (1, [h], (List.range (numberActive mask)).map (fun s => loss (p s) (q (h * k))))) := by
  have hk : 0 < k := by omega
  rw [sampleLosses_eval testOf loss mask k t w r hk hu (by omega) ht ht0]
  have hne := rankIndices_not_all (numberActive mask) t w r ha hw ht0
  have hbig : 2 ≤ numberActive mask * t := le_trans ha (Nat.le_mul_of_pos_right _ ht0)
  by_cases hr : r < min (numberActive mask) w
  swap
  · left
    rw [if_pos (rankIndices_idle _ _ _ _ ht0 (by omega)), if_neg hr]
  rw [if_neg (rankIndices_busy _ _ _ _ ht0 hr), if_pos hr]
  by_cases h1 : (Sampler.rankIndices (numberActive mask * t) (numberActive mask) w r).length = 1
  · right
    obtain ⟨x, hx⟩ := List.length_eq_one_iff.1 h1
    obtain ⟨rfl, hxa⟩ := rankIndices_single _ t w r x (by omega) ht0 hx
    refine ⟨rfl, x, hxa, ?_⟩
    rw [hx]
    have hpl : pairLoss loss ((List.range (numberActive mask * 1)).map p) ([x].map (fun s => q (s / 1 * k + s % 1))) =
        .ok ((List.range (numberActive mask)).map (fun s => loss (p s) (q (x * k)))) := by
      unfold pairLoss
      rw [if_neg (by simp; omega)]
      simp [Nat.mod_one, Function.comp_def]
    rw [hpl]
  · left
    rw [pairLoss_mismatch loss _ _ (by simpa using hbig) (by simpa using hne) (by simpa using h1)]

theorem sum_ne_zero_of_active (mask : List Nat) (h : 0 < numberActive mask) : mask.sum ≠ 0 := by
  obtain ⟨c, hc, hp⟩ := List.countP_pos_iff.1 h
  have := le_sum _ _ hc
  have : 0 < c := by simpa using hp
  omega

/-- C33, synchronisation: after it an entry is infinite exactly if it is on every process, and otherwise the smallest value any process holds
for it. -/
theorem C33_synchronised {L : Type} [LinearOrder L] (vs : List (List (Option L))) (n i : Nat) (hne : vs ≠ [])
    (hn : ∀ v ∈ vs, v.length = n) (hi : i < n) :
    ((allReduceMin vs)[i]? = some none ↔ ∀ v ∈ vs, v[i]? = some none) ∧
    ∀ x, (allReduceMin vs)[i]? = some (some x) ↔
      (∃ v ∈ vs, v[i]? = some (some x)) ∧ ∀ v ∈ vs, ∀ y, v[i]? = some (some y) → x ≤ y := by
  induction vs with
  | nil => exact absurd rfl hne
  | cons v vs ih =>
    cases vs with
    | nil =>
      refine ⟨by simp [allReduceMin], fun x => ⟨fun h => ⟨⟨v, by simp, h⟩, ?_⟩, ?_⟩⟩
      · intro w hw y hy
        simp only [List.mem_singleton] at hw
        subst hw
        rw [show allReduceMin [w] = w from rfl, hy] at h
        simp only [Option.some.injEq] at h
        exact h.ge
      · rintro ⟨⟨w, hw, h⟩, -⟩
        simp only [List.mem_singleton] at hw
        subst hw
        exact h
    | cons w ws =>
      obtain ⟨h1, h2⟩ := ih (by simp) (fun v hv => hn v (List.mem_cons_of_mem _ hv))
      have hv : i < v.length := by rw [hn v (by simp)]; exact hi
      obtain ⟨a, ha⟩ : ∃ a, v[i]? = some a := ⟨_, List.getElem?_eq_getElem hv⟩
      have hlen : (allReduceMin (w :: ws)).length = n := by
        have := allReduceMin_length (List.range (w :: ws).length) (fun k => (w :: ws).getD k []) n (by
          intro r hr
          rw [List.mem_range] at hr
          rw [List.getD_eq_getElem?_getD, List.getElem?_eq_getElem hr, Option.getD_some]
          exact hn _ (List.mem_cons_of_mem _ (List.getElem_mem hr))) (by simp)
        rwa [show (List.range (w :: ws).length).map (fun k => (w :: ws).getD k []) = w :: ws from ?_] at this
        apply List.ext_getElem (by simp)
        intro k hk1 hk2
        rw [List.getElem_map, List.getElem_range, List.getD_eq_getElem?_getD, List.getElem?_eq_getElem hk2, Option.getD_some]
      obtain ⟨b, hb⟩ : ∃ b, (allReduceMin (w :: ws))[i]? = some b := ⟨_, List.getElem?_eq_getElem (by omega)⟩
      have hred : (allReduceMin (v :: w :: ws))[i]? = some (minInf a b) := by
        rw [show allReduceMin (v :: w :: ws) = List.zipWith minInf v (allReduceMin (w :: ws)) from rfl, List.getElem?_zipWith, ha, hb]
      rw [hb] at h1 h2
      rw [hred]
      simp only [Option.some.injEq, List.forall_mem_cons (a := v), ha] at h1 h2 ⊢
      refine ⟨?_, fun x => ?_⟩
      · rw [← h1]
        cases a <;> cases b <;> simp [minInf]
      · cases a with
        | none =>
          rw [show minInf none b = b from rfl, h2 x]
          simp [ha]
        | some a =>
          cases b with
          | none =>
            have hnone := h1.1 rfl
            constructor
            · intro h
              simp only [minInf, Option.some.injEq] at h
              subst h
              refine ⟨⟨v, by simp, ha⟩, by intro y hy; simp only [Option.some.injEq] at hy; exact hy.le, ?_⟩
              intro u hu y hy
              rw [hnone u hu] at hy
              simp at hy
            · rintro ⟨⟨u, hu, hux⟩, -⟩
              rcases List.mem_cons.1 hu with rfl | hu
              · rw [ha] at hux
                simpa [minInf] using hux
              · rw [hnone u hu] at hux
                simp at hux
          | some b =>
            obtain ⟨⟨ub, hub, hubx⟩, hmin⟩ := (h2 b).1 rfl
            simp only [minInf, Option.some.injEq]
            constructor
            · rintro rfl
              refine ⟨?_, fun y hy => hy ▸ min_le_left _ _, fun u hu y hy => (min_le_right _ _).trans (hmin u hu y hy)⟩
              rcases le_total a b with h | h
              · rw [min_eq_left h]; exact ⟨v, by simp, ha⟩
              · rw [min_eq_right h]; exact ⟨ub, List.mem_cons_of_mem _ hub, hubx⟩
            · rintro ⟨⟨u, hu, hux⟩, hxa, hxall⟩
              apply le_antisymm
              · rcases List.mem_cons.1 hu with rfl | hu
                · rw [ha] at hux
                  simp only [Option.some.injEq] at hux
                  rw [← hux]; exact min_le_left _ _
                · exact (min_le_right _ _).trans (hmin u hu x hux)
              · exact le_min (hxa a rfl) (hxall ub hub b hubx)

example : allReduceMin [[none, some 3, some 1, none], [none, some 2, none, some 5]] = [none, some 2, some (1 : Nat), some 5] := by decide

/-- A process that shares a group with at least as many other processes as there are active heliostats has no sample, and raises `IndexError`. -/
theorem C33_idle_raises {P G L : Type} (testOf : Nat → Int) (loss : P → G → L) (reduction : List L → L) (mask : List Nat)
    (k t w r start : Nat) (hu : ∀ c ∈ mask, c = 0 ∨ c = k) (ha : 0 < numberActive mask) (hr : min (numberActive mask) w ≤ r)
    (ht : (k : Int) - max 1 (testOf k) = t) (ht0 : 0 < t) (p : Nat → P) (q : Nat → G) (vector : List (Option L)) :
    fluxGroup testOf loss reduction mask (fun n => (List.range n).map p) ((List.range mask.sum).map q) w r start vector =
      .error .indexError := by
  unfold fluxGroup
  rw [if_neg (sum_ne_zero_of_active mask ha), sampleLosses_eval testOf loss mask k t w r (by omega) hu ha ht ht0,
    if_pos (rankIndices_idle _ _ _ _ ht0 hr)]

/-- Consequently a flux-driven reconstruction of a shared group with at least two active heliostats raises on every process that
works on it: `RuntimeError`, or `IndexError` on processes without any sample. -/
theorem C52_nested_raises {P G L : Type} (testOf : Nat → Int) (loss : P → G → L) (reduction : List L → L) (mask : List Nat)
    (k t w r start : Nat) (hu : ∀ c ∈ mask, c = 0 ∨ c = k) (ha : 2 ≤ numberActive mask) (hw : 2 ≤ w)
    (ht : (k : Int) - max 1 (testOf k) = t) (ht0 : 0 < t) (p : Nat → P) (q : Nat → G) (vector : List (Option L))
    (hlen : start + mask.length ≤ vector.length) :
    fluxGroup testOf loss reduction mask (fun n => (List.range n).map p) ((List.range mask.sum).map q) w r start vector =
      .error (if r < min (numberActive mask) w then .runtimeError else .indexError) := by
  by_cases hr : r < min (numberActive mask) w
  swap
  · rw [if_neg hr]
    exact C33_idle_raises testOf loss reduction mask k t w r start hu (by omega) (by omega) ht ht0 p q vector
  have hsum : mask.sum ≠ 0 := sum_ne_zero_of_active mask (by omega)
  unfold fluxGroup
  rw [if_neg hsum]
  rcases C52_nested_wrong testOf loss mask k t w r hu ha hw ht ht0 p q with h | ⟨rfl, h, hh, he⟩
  · rw [h]
  · rw [he, if_pos hr]
    simp only
    have hred : reduceLoss reduction 1 ((List.range (numberActive mask)).map (fun s => loss (p s) (q (h * k)))) =
        .ok ((List.range (numberActive mask)).map (fun x => reduction
          ((((List.range (numberActive mask)).map (fun s => loss (p s) (q (h * k)))).drop (x * 1)).take 1))) := by
      unfold reduceLoss
      rw [if_neg (by omega)]
      simp
    rw [hred]
    simp only
    have hb : h < (Trace.nonzero mask).length := by rw [nonzero_length]; exact hh
    obtain ⟨i, hi⟩ : ∃ i, (Trace.nonzero mask)[h]? = some i := ⟨_, List.getElem?_eq_getElem hb⟩
    have him := (nonzero_inv mask h i hi).1
    unfold record gatherOwn
    rw [if_neg (by omega)]
    simp only [stride, strideFrom, List.map_cons, List.map_nil, Nat.div_one, gather, hi, reduceCtorEq, if_false]
    unfold writeAt
    rw [if_neg (by simp; omega), if_neg (by simp; omega)]
    split
    · rename_i heq
      have := congrArg List.length heq
      simp at this
      omega
    · rfl

/-- C33 is false with shared groups: with more processes than groups, if a group that is shared (`g + G < W`) has an active heliostat, no result is reported,
whatever the other groups contain. -/
theorem C33_nested_raises {P G L : Type} [LinearOrder L] (testOf : Nat → Int) (loss : P → G → L) (reduction : List L → L)
    (masks : List (List Nat)) (W g : Nat) (m : List Nat) (hg : masks[g]? = some m) (hW : g + masks.length < W) (k t : Nat)
    (hu : ∀ c ∈ m, c = 0 ∨ c = k) (ha : 0 < numberActive m)
    (ht : (k : Int) - max 1 (testOf k) = t) (ht0 : 0 < t) (p : Nat → Nat → Nat → P) (q : Nat → Nat → G) :
    ∃ e, reported (fun r info g vector =>
        fluxGroup testOf loss reduction (masks.getD g []) (fun n => (List.range n).map (p r g))
          ((List.range (masks.getD g []).sum).map (q g)) info.groupWorldSize info.groupRank (startIndex (masks.map List.length) g) vector)
        (masks.map List.length).sum W masks.length = .error e := by
  have hgl : g < masks.length := (List.getElem?_eq_some_iff.1 hg).1
  obtain ⟨T, hT, hl, hrow⟩ := distribute_nested W masks.length (by omega) (by omega)
  have h1 : ∀ gs ∈ T, gs.length ≤ 1 := by
    intro gs hgs
    obtain ⟨k, hk, rfl⟩ := List.getElem_of_mem hgs
    have := hrow k (by omega)
    rw [List.getElem?_eq_getElem hk] at this
    simp at this; simp [this]
  have hw0 : WorksOn T g g := ⟨_, hrow g (by omega), by simp [Nat.mod_eq_of_lt hgl]⟩
  have hw1 : WorksOn T (g + masks.length) g := ⟨_, hrow _ hW, by simp [Nat.mod_eq_of_lt hgl]⟩
  obtain ⟨members, hnd, hmem, hall⟩ := C02_group_ranks T h1 g ⟨g, hw0⟩
  have hml : 2 ≤ members.length := by
    have hsub : [g, g + masks.length] ⊆ members := by
      intro x hx
      rcases List.mem_cons.1 hx with rfl | hx
      · exact (hmem _).2 hw0
      · rcases List.mem_cons.1 hx with rfl | hx
        · exact (hmem _).2 hw1
        · simp at hx
    have := (List.subperm_of_subset (l₁ := [g, g + masks.length]) (by
      have : g ≠ g + masks.length := by omega
      simpa using this) hsub).length_le
    simpa using this
  obtain ⟨r, hr⟩ : ∃ r, members[1]? = some r := ⟨_, List.getElem?_eq_getElem (by omega)⟩
  have hwr : WorksOn T r g := (hmem r).1 (List.mem_of_getElem? hr)
  obtain ⟨-, e2, e3⟩ := hall r hwr
  have hrank1 : (createSubgroups r T).1.groupRank = 1 := by
    obtain ⟨l1, f1⟩ := List.getElem?_eq_some_iff.1 e3
    obtain ⟨l2, f2⟩ := List.getElem?_eq_some_iff.1 hr
    exact (List.Nodup.getElem_inj_iff hnd).1 (f1.trans f2.symm)
  obtain ⟨gs, hgs, hgm⟩ := hwr
  have hrW : r < W := by rw [← hl]; exact (List.getElem?_eq_some_iff.1 hgs).1
  have hgs' : gs = [g] := by
    have := hrow r hrW
    rw [hgs] at this
    simp only [Option.some.injEq] at this
    subst this
    simp only [List.mem_singleton] at hgm
    rw [← hgm]
  have hrowr : T.getD r [] = [g] := by simp [List.getD, hgs, hgs']
  have hgd : masks.getD g [] = m := by simp [List.getD, hg]
  have hsz : (masks.map List.length)[g]? = some m.length := by simp [hg]
  have hb := start_bound _ g _ hsz
  have hsetup : setupInfo r W masks.length = .ok (T, true, (createSubgroups r T).1, invert T) := by
    simp [setupInfo, hT, createSubgroups]
  unfold reported
  obtain ⟨e, he⟩ := collect_error (rankVector (fun r info g vector =>
        fluxGroup testOf loss reduction (masks.getD g []) (fun n => (List.range n).map (p r g))
          ((List.range (masks.getD g []).sum).map (q g)) info.groupWorldSize info.groupRank (startIndex (masks.map List.length) g) vector)
        (masks.map List.length).sum W masks.length) (List.range W) r (List.mem_range.2 hrW) (by
    unfold rankVector
    rw [hsetup]
    simp only [hrowr, overGroups, hgd, e2, hrank1]
    rcases Nat.lt_or_ge 1 (numberActive m) with h2 | h2
    · rw [C52_nested_raises testOf loss reduction m k t members.length 1 _ hu h2 hml ht ht0 (p r g) (q g) _ (by
        rw [List.length_replicate]; exact hb)]
      exact ⟨_, rfl⟩
    · rw [C33_idle_raises testOf loss reduction m k t members.length 1 _ hu ha (by omega) ht ht0 (p r g) (q g) _]
      exact ⟨_, rfl⟩)
  rw [he]
  exact ⟨e, rfl⟩

/-- C33 is false for alignment-driven reconstruction with several processes, because nothing is synchronised: on a process the entries of its own
groups are right, and every heliostat of every other group reads infinity although it was reconstructed elsewhere. -/
theorem C33_alignment_other_processes {L : Type} (masks : List (List Nat)) (W : Nat) (hW : 0 < W) (hG : 0 < masks.length)
    (f : Nat → Nat → Nat → L) (r : Nat) (hr : r < W) (T : List (List Nat)) (n : Bool) (hT : distribute W masks.length = .ok (T, n)) :
    ∃ v, rankVector (fun r _ g vector =>
        alignmentGroup (masks.getD g []) (startIndex (masks.map List.length) g)
          ((List.range (numberActive (masks.getD g []))).map (f r g)) vector)
        (masks.map List.length).sum W masks.length r = .ok v ∧
      ∀ g m i c, masks[g]? = some m → m[i]? = some c →
        (WorksOn T r g → v[((masks.map List.length).take g).sum + i]? =
          some (if 0 < c then some (f r g (activeBefore m i)) else none)) ∧
        (¬ WorksOn T r g → v[((masks.map List.length).take g).sum + i]? = some none) := by
  classical
  obtain ⟨T', n', inv, info, hsetup, hlen, hwork, -, -, -, -⟩ := setup_all W masks.length hW hG
  have hTT : T' = T := by
    have := hsetup 0 hW
    unfold setupInfo at this
    rw [hT] at this
    cases n <;> simp at this <;> exact this.1.symm
  subst hTT
  let F : Nat → Nat → Nat → Option L := fun r g i =>
    if 0 < (masks.getD g []).getD i 0 then some (f r g (activeBefore (masks.getD g []) i)) else none
  have hget : ∀ (m : List Nat) i, i < m.length → m[i]? = some (m.getD i 0) := by
    intro m i hi
    simp [List.getD, List.getElem?_eq_getElem hi]
  have hstride : ∀ l : List Nat, stride 1 l = l := by
    intro l
    induction l with
    | nil => rfl
    | cons x l ih => unfold stride at ih ⊢; rw [strideFrom]; simp only [Nat.sub_self]; rw [ih]
  obtain ⟨v, h1, h2, h3⟩ := rankVector_spec masks W (fun r _ g vector =>
        alignmentGroup (masks.getD g []) (startIndex (masks.map List.length) g)
          ((List.range (numberActive (masks.getD g []))).map (f r g)) vector) T' n' inv info hsetup hlen hwork F (by
    intro r g hw vector hv
    have hg := (hwork r g hw).2
    have hsz : (masks.map List.length)[g]? = some (masks.getD g []).length := by
      simp [List.getD, List.getElem?_eq_getElem hg]
    have hb := start_bound _ g _ hsz
    by_cases h0 : (masks.getD g []).sum = 0
    · refine ⟨vector, by unfold alignmentGroup; beta_reduce; rw [if_pos h0], rfl, fun _ _ => rfl, fun i hi => ?_⟩
      have hc : (masks.getD g []).getD i 0 = 0 := by
        have hmem := List.mem_of_getElem? (hget _ i hi)
        have := le_sum _ _ hmem; omega
      have : F r g i = none := by simp only [F, hc]; simp
      rw [this]
    · have hown : (stride 1 (List.range (numberActive (masks.getD g [])))).map (· / 1) = List.range (numberActive (masks.getD g [])) := by
        rw [hstride]; simp
      obtain ⟨v', k1, k2, k3, k4⟩ := record_spec (masks.getD g []) 1 (by omega) (List.range (numberActive (masks.getD g []))) _ hown
        (by
          intro hnil
          rw [List.range_eq_nil] at hnil
          apply h0
          apply sum_zero
          intro c hc
          by_contra hc0
          have : 0 < numberActive (masks.getD g []) := List.countP_pos_iff.2 ⟨c, hc, by simpa using Nat.pos_of_ne_zero hc0⟩
          omega)
        (fun h hh => List.mem_range.1 hh) (startIndex (masks.map List.length) g) (f r g) vector (by omega)
      refine ⟨v', ?_, k2, k3, fun i hi => ?_⟩
      · have hga : gather (Trace.nonzero (masks.getD g [])) (List.range (numberActive (masks.getD g []))) = .ok (Trace.nonzero (masks.getD g [])) := by
          have := gather_map (Trace.nonzero (masks.getD g [])) (List.range (numberActive (masks.getD g []))) (fun h => h)
            (fun h => (Trace.nonzero (masks.getD g [])).getD h 0) (by
              intro h hh
              rw [List.mem_range, ← nonzero_length] at hh
              exact hget _ h hh)
          rw [List.map_id'] at this
          rw [this]
          congr 1
          apply List.ext_getElem?
          intro j
          rw [List.getElem?_map, ← nonzero_length]
          by_cases hj : j < (Trace.nonzero (masks.getD g [])).length
          · rw [List.getElem?_range hj, hget _ j hj]; rfl
          · rw [List.getElem?_eq_none (by simpa using hj), List.getElem?_eq_none (by omega)]; rfl
        unfold record gatherOwn at k1
        rw [if_neg (by omega)] at k1
        rw [hown] at k1
        simp only at k1
        rw [if_neg (by
          intro hnil
          rw [List.range_eq_nil] at hnil
          apply h0
          apply sum_zero
          intro c hc
          by_contra hc0
          have : 0 < numberActive (masks.getD g []) := List.countP_pos_iff.2 ⟨c, hc, by simpa using Nat.pos_of_ne_zero hc0⟩
          omega), hga] at k1
        unfold alignmentGroup
        beta_reduce
        rw [if_neg h0]
        exact k1
      · rw [k4 i _ (hget _ i hi)]
        by_cases hcond : 0 < (masks.getD g []).getD i 0
        · have hbefore : activeBefore (masks.getD g []) i < numberActive (masks.getD g []) := by
            have := nonzero_get _ i _ (hget _ i hi) hcond
            rw [← nonzero_length]; exact (List.getElem?_eq_some_iff.1 this).1
          have : F r g i = some (f r g (activeBefore (masks.getD g []) i)) := by simp only [F]; rw [if_pos hcond]
          rw [if_pos ⟨hcond, List.mem_range.2 hbefore⟩, this]
        · have : F r g i = none := by simp only [F]; rw [if_neg hcond]
          rw [if_neg (fun h => hcond h.1), this]) r hr
  refine ⟨v, h1, fun g m i c hm hc => ?_⟩
  have hg : g < masks.length := (List.getElem?_eq_some_iff.1 hm).1
  have hgd : masks.getD g [] = m := by simp [List.getD, hm]
  have hi : i < m.length := (List.getElem?_eq_some_iff.1 hc).1
  have hcd : m.getD i 0 = c := by simp [List.getD, hc]
  obtain ⟨a1, a2⟩ := h3 g i hg (by rw [hgd]; exact hi)
  refine ⟨fun hw => ?_, a2⟩
  rw [show ((masks.map List.length).take g).sum = startIndex (masks.map List.length) g from rfl, a1 hw]
  simp only [F, hgd, hcd]

/-- Two groups on two processes; heliostats 0 and 2 of the first and heliostat 1 of the second group are active with three samples, of which two
are for training.  Losses are differences of sample numbers, reduced by summation. -/
example : reported (fun r info g vector =>
      fluxGroup (fun _ => 0) (fun (x y : Nat) => 100 * x + y) List.sum ([[3, 0, 3], [0, 3]].getD g [])
        (fun n => (List.range n).map (fun s => s)) ((List.range ([[3, 0, 3], [0, 3]].getD g []).sum).map (fun s => s + 10 * g + 0 * r))
        info.groupWorldSize info.groupRank (startIndex [3, 2] g) vector) 5 2 2 =
    .ok [some 101, none, some 507, none, some 121] := by decide +kernel
/-- Hypotheses of `C33_flat_partial` and `C52_own_measurements_partial`. -/
example : (∀ c ∈ [3, 0, 3], c = 0 ∨ c = 3) ∧ 3 ∈ [3, 0, 3] ∧ ((3 : Nat) : Int) - max 1 0 = (2 : Nat) := by decide
/-- One active heliostat in a group shared by two processes: the second process has no sample. -/
example : fluxGroup (fun _ => 0) (fun (x y : Nat) => 100 * x + y) List.sum [0, 3] (fun n => (List.range n).map (fun s => s))
    ((List.range [0, 3].sum).map (fun s => s)) 2 1 0 (List.replicate 2 none) = .error .indexError := by decide +kernel
/-- One group on two processes: every process raises. -/
example : reported (fun r info g vector =>
      fluxGroup (fun _ => 0) (fun (x y : Nat) => 100 * x + y) List.sum ([[2, 0, 2]].getD g [])
        (fun n => (List.range n).map (fun s => s)) ((List.range ([[2, 0, 2]].getD g []).sum).map (fun s => s + 10 * g + 0 * r))
        info.groupWorldSize info.groupRank (startIndex [3] g) vector) 3 2 1 = .error .runtimeError ∧
    sampleLosses (fun _ => 0) (fun (x y : Nat) => 100 * x + y) [2, 0, 2] (fun n => List.range n) (List.range 4) 2 1 =
      .ok (1, [1], [2, 102]) := by
  constructor <;> decide +kernel
/-- With one loss per own heliostat the bookkeeping of shared groups is right: three processes, two groups (the first and the third process share group 0
with heliostats 0 and 2 active, the second has group 1). -/
example : reported (fun r info g vector =>
      if ([[1, 0, 1], [0, 1]].getD g []).sum = 0 then .ok vector
      else
        let a := numberActive ([[1, 0, 1], [0, 1]].getD g [])
        let idx := Sampler.rankIndices (a * 1) a info.groupWorldSize info.groupRank
        record ([[1, 0, 1], [0, 1]].getD g []) 1 idx (startIndex [3, 2] g) (((stride 1 idx).map (· / 1)).map (fun h => 100 * r + 10 * g + h)) vector)
      5 3 2 = .ok [some 0, none, some 201, none, some 110] := by decide +kernel
example : Owns 3 2 2 0 3 1 1 := by
  refine ⟨by decide, [[0], [1], [0]], true, ⟨1, 2, some [0, 2]⟩, [(0, [0, 2]), (1, [1])], by decide, ⟨[0], by decide, by decide⟩, by decide⟩
example : rankVector (fun r _ g vector =>
      alignmentGroup ([[3, 0, 3], [0, 3]].getD g []) (startIndex [3, 2] g) ((List.range (numberActive ([[3, 0, 3], [0, 3]].getD g []))).map (fun h => 100 * r + h)) vector)
      5 2 2 1 = .ok [none, none, none, none, some 100] := by decide +kernel

end Artist.Report
