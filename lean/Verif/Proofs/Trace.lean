import Verif.Model.Trace
import Verif.Proofs.Sampler
import Mathlib.Data.List.Basic
import Mathlib.Data.List.Range
import Mathlib.Data.List.Sort
import Mathlib.Algebra.BigOperators.Group.List.Basic
import Mathlib.Tactic.Common
/-! Helper lemmas for `Verif.Model.Trace`. -/
namespace Artist.Trace
open Artist

theorem select_range' {α : Type} (p : Nat → Bool) (data : List α) (o : Nat) :
    select data ((List.range' o data.length).map p)
      = ((List.range' o data.length).filter p).filterMap (fun i => data[i - o]?) := by
  induction data generalizing o with
  | nil => simp [select]
  | cons x xs ih =>
    simp only [List.length_cons, List.range'_succ, List.map_cons, select]
    rw [ih (o + 1)]
    have hcongr : ((List.range' (o+1) xs.length).filter p).filterMap (fun i => xs[i - (o+1)]?)
        = ((List.range' (o+1) xs.length).filter p).filterMap (fun i => (x :: xs)[i - o]?) := by
      apply List.filterMap_congr
      intro i hi
      have : o + 1 ≤ i := by
        have := (List.mem_filter.1 hi).1
        simp at this; omega
      rw [show i - o = (i - (o + 1)) + 1 by omega]; simp
    cases hp : p o
    · simp [hp, hcongr]
    · simp [hp, hcongr]

theorem select_eq {α : Type} (p : Nat → Bool) (data : List α) :
    select data ((List.range data.length).map p)
      = ((List.range data.length).filter p).filterMap (fun i => data[i]?) := by
  have := select_range' p data 0
  simpa [List.range_eq_range'] using this

/-- a strictly increasing list is the filter of the range by membership -/
theorem filter_mem_sorted (n : Nat) (l : List Nat) (hs : l.Pairwise (· < ·)) (hl : ∀ i ∈ l, i < n) :
    (List.range n).filter (fun i => decide (i ∈ l)) = l := by
  apply List.Perm.eq_of_pairwise (le := (· < ·))
  · intro a b _ _ h1 h2; omega
  · exact (List.pairwise_lt_range).filter _
  · exact hs
  · rw [List.perm_ext_iff_of_nodup (List.nodup_range.filter _) (hs.imp (fun h => Nat.ne_of_lt h))]
    intro a
    simp only [List.mem_filter, List.mem_range, decide_eq_true_eq]
    exact ⟨fun h => h.2, fun h => ⟨hl a h, h⟩⟩

theorem assign_range' {B : Type} (p : Nat → Bool) (f : Nat → B) (rows : List B) (o : Nat) (i : Nat) :
    (assign rows ((List.range' o rows.length).map p)
      (((List.range' o rows.length).filter p).map f))[i]?
      = (rows[i]?).map (fun old => if p (o + i) then f (o + i) else old) := by
  induction rows generalizing o i with
  | nil => simp [assign]
  | cons r rows ih =>
    simp only [List.length_cons, List.range'_succ, List.map_cons]
    cases hp : p o
    · simp only [List.filter_cons, hp]
      cases i with
      | zero => simp [assign, hp]
      | succ i =>
        simp only [assign, List.getElem?_cons_succ]
        have := ih (o + 1) i
        rw [show o + 1 + i = o + (i + 1) by omega] at this
        simpa using this
    · simp only [List.filter_cons, hp, if_true, List.map_cons]
      cases i with
      | zero => simp [assign, hp]
      | succ i =>
        simp only [assign, List.getElem?_cons_succ]
        have := ih (o + 1) i
        rw [show o + 1 + i = o + (i + 1) by omega] at this
        exact this

theorem assign_range {B : Type} (p : Nat → Bool) (f : Nat → B) (rows : List B) (i : Nat) :
    (assign rows ((List.range rows.length).map p)
      (((List.range rows.length).filter p).map f))[i]?
      = (rows[i]?).map (fun old => if p i then f i else old) := by
  have := assign_range' p f rows 0 i
  simpa [List.range_eq_range'] using this

theorem assign_length {B : Type} (rows : List B) (mask : List Bool) (vals : List B) :
    (assign rows mask vals).length = rows.length := by
  induction rows generalizing mask vals with
  | nil => cases mask <;> simp [assign]
  | cons r rows ih =>
    rcases mask with _ | ⟨_ | _, mask⟩
    · simp [assign]
    · simp [assign, ih]
    · cases vals <;> simp [assign, ih]

theorem filterMap_getElem {α : Type} (data : List α) (l : List Nat) (hl : ∀ i ∈ l, i < data.length)
    (d : α) : l.filterMap (fun i => data[i]?) = l.map (fun i => data.getD i d) := by
  induction l with
  | nil => rfl
  | cons i l ih =>
    have h := hl i List.mem_cons_self
    rw [List.filterMap_cons, List.getElem?_eq_getElem h, ih (fun j hj => hl j (List.mem_cons_of_mem _ hj))]
    simp [List.getD_eq_getElem?_getD, List.getElem?_eq_getElem h]

theorem zipWith_map_self {α β γ : Type} (f : α → β → γ) (g : α → β) (l : List α) :
    List.zipWith f l (l.map g) = l.map (fun a => f a (g a)) := by
  induction l with
  | nil => rfl
  | cons x xs ih => simp [ih]

/-- one batch step with an ascending in-range slice -/
theorem batchStep_spec {D S B : Type} (compute : D → S → B) (dist : Nat → D) (data : List S) (d : S)
    (idx : List Nat) (bs : Nat) (rows : List (Option B)) (b : Nat) (batch : List Nat)
    (hb : batch = (idx.drop (b * bs)).take bs) (hs : idx.Pairwise (· < ·))
    (hl : ∀ i ∈ idx, i < data.length) (hrows : rows.length = data.length) :
    ∃ rows', batchStep compute dist data idx bs rows b batch = .ok rows' ∧
      rows'.length = data.length ∧
      ∀ i : Nat, rows'[i]? = (rows[i]?).map (fun old =>
        if i ∈ batch then some (compute (dist i) (data.getD i d)) else old) := by
  have hsub : (b + 1) * bs - b * bs = bs := by rw [Nat.add_mul]; omega
  have hsl : batch.Sublist idx := by
    rw [hb]; exact (List.take_sublist _ _).trans (List.drop_sublist _ _)
  have hbs : batch.Pairwise (· < ·) := hs.sublist hsl
  have hbl : ∀ i ∈ batch, i < data.length := fun i hi => hl i (hsl.subset hi)
  have hno : ¬ ∃ i ∈ batch, data.length ≤ i := by
    rintro ⟨i, hi, h⟩; have := hbl i hi; omega
  unfold batchStep
  simp only [hsub, ← hb, batchMask, if_neg hno]
  rw [select_eq, filter_mem_sorted _ _ hbs hbl, filterMap_getElem data batch hbl d]
  have hlen : ¬ batch.length ≠ (batch.map (fun i => data.getD i d)).length := by simp
  rw [if_neg hlen, zipWith_map_self]
  refine ⟨_, rfl, by rw [assign_length, hrows], ?_⟩
  intro i
  have h2 := assign_range (fun i => decide (i ∈ batch))
    (fun a => some (compute (dist a) (data.getD a d))) rows i
  rw [hrows, filter_mem_sorted _ _ hbs hbl] at h2
  rw [h2]
  simp

theorem batchLoop_spec {D S B : Type} (compute : D → S → B) (dist : Nat → D) (data : List S) (d : S)
    (idx : List Nat) (bs : Nat) (hbs0 : 0 < bs) (hs : idx.Pairwise (· < ·))
    (hl : ∀ i ∈ idx, i < data.length) :
    ∀ (fuel b : Nat) (rows : List (Option B)), rows.length = data.length →
      (idx.drop (b * bs)).length ≤ fuel →
      ∃ rows', batchLoop compute dist data idx bs rows b (chunks bs fuel (idx.drop (b * bs))) = .ok rows' ∧
        rows'.length = data.length ∧
        ∀ i : Nat, rows'[i]? = (rows[i]?).map (fun old =>
          if i ∈ idx.drop (b * bs) then some (compute (dist i) (data.getD i d)) else old) := by
  intro fuel
  induction fuel with
  | zero =>
    intro b rows hr hf
    have hnil : idx.drop (b * bs) = [] := List.length_eq_zero_iff.1 (by omega)
    rw [hnil]
    refine ⟨rows, by simp [chunks, batchLoop], hr, ?_⟩
    intro i; cases rows[i]? <;> simp
  | succ fuel ih =>
    intro b rows hr hf
    rcases hd : idx.drop (b * bs) with _ | ⟨x, xs⟩
    · refine ⟨rows, by simp [chunks, batchLoop], hr, ?_⟩
      intro i; cases rows[i]? <;> simp
    · rw [← hd]
      have hch : chunks bs (fuel + 1) (idx.drop (b * bs))
          = (idx.drop (b * bs)).take bs :: chunks bs fuel (idx.drop ((b + 1) * bs)) := by
        rw [hd, chunks, ← hd, List.drop_drop, Nat.add_mul, Nat.one_mul]
      rw [hch, batchLoop]
      obtain ⟨rows1, h1, hl1, hr1⟩ := batchStep_spec compute dist data d idx bs rows b _ rfl hs hl hr
      rw [h1]
      obtain ⟨rows2, h2, hl2, hr2⟩ := ih (b + 1) rows1 hl1 (by
        have hpos : 0 < (idx.drop (b * bs)).length := by rw [hd]; simp
        rw [List.length_drop] at hf hpos ⊢
        rw [Nat.add_mul]; omega)
      refine ⟨rows2, h2, hl2, ?_⟩
      intro i
      rw [hr2 i, hr1 i, Option.map_map]
      congr 1
      funext old
      simp only [Function.comp_apply]
      have hmem : i ∈ idx.drop (b * bs) ↔
          i ∈ (idx.drop (b * bs)).take bs ∨ i ∈ idx.drop ((b + 1) * bs) := by
        conv_lhs => rw [← List.take_append_drop bs (idx.drop (b * bs))]
        rw [List.mem_append, List.drop_drop, Nat.add_mul, Nat.one_mul]
      by_cases ha : i ∈ idx.drop ((b + 1) * bs)
      · rw [if_pos ha, if_pos (hmem.2 (Or.inr ha))]
      · rw [if_neg ha]
        by_cases hb' : i ∈ (idx.drop (b * bs)).take bs
        · rw [if_pos hb', if_pos (hmem.2 (Or.inl hb'))]
        · rw [if_neg hb', if_neg (fun h => (hmem.1 h).elim hb' ha)]

theorem traceRays_spec {D S B : Type} (compute : D → S → B) (dist : Nat → D) (data : List S) (d : S)
    (idx : List Nat) (bs : Nat) (hbs0 : 0 < bs) (hs : idx.Pairwise (· < ·))
    (hl : ∀ i ∈ idx, i < data.length) :
    traceRays compute dist data idx bs = .ok ((List.range data.length).map (fun i =>
      if i ∈ idx then some (compute (dist i) (data.getD i d)) else none)) := by
  obtain ⟨rows', h1, h2, h3⟩ := batchLoop_spec compute dist data d idx bs hbs0 hs hl idx.length 0
    (List.replicate data.length none) (by simp) (by simp)
  have hb : ¬ bs = 0 := by omega
  simp only [Nat.zero_mul, List.drop_zero] at h1 h3
  unfold traceRays loader
  rw [if_neg hb, h1]
  congr 1
  apply List.ext_getElem?
  intro i
  rw [h3 i]
  by_cases hi : i < data.length
  · simp [hi]
  · simp [hi]

theorem getElem?_flatten_replicate {α : Type} : ∀ (l : List α) (k : Nat),
    repeatInterleave l (List.replicate l.length k) = l.flatMap (List.replicate k) := by
  intro l k
  induction l with
  | nil => rfl
  | cons x xs ih => simp [List.replicate_succ, repeatInterleave, ih]

theorem assign_spec {α : Type} (surfaces active : List α) (mask : List Nat) (hs : surfaces.length = mask.length)
    (h01 : ∀ c ∈ mask, c ≤ 1) (ha : active.length = mask.sum) (i c : Nat) (hi : mask[i]? = some c) :
    (assign surfaces (mask.map (fun c => decide (c ≠ 0))) active)[i]? =
      if c = 0 then surfaces[i]? else active[(mask.take i).sum]? := by
  induction mask generalizing surfaces active i with
  | nil => simp at hi
  | cons d ds ih =>
    cases surfaces with
    | nil => simp at hs
    | cons x xs =>
      have hd : d ≤ 1 := h01 d (by simp)
      have h01' : ∀ c ∈ ds, c ≤ 1 := fun c hc => h01 c (by simp [hc])
      have hs' : xs.length = ds.length := by simpa using hs
      rcases Nat.eq_zero_or_pos d with rfl | hpos
      · have ha' : active.length = ds.sum := by simpa using ha
        cases i with
        | zero => obtain rfl : 0 = c := by simpa using hi
                  simp [assign]
        | succ i =>
          have := ih xs active hs' h01' ha' i (by simpa using hi)
          simpa [assign] using this
      · obtain rfl : d = 1 := by omega
        cases active with
        | nil => simp at ha; omega
        | cons a as =>
          have ha' : as.length = ds.sum := by simp at ha; omega
          cases i with
          | zero => obtain rfl : 1 = c := by simpa using hi
                    simp [assign]
          | succ i =>
            have := ih xs as hs' h01' ha' i (by simpa using hi)
            simpa [assign, Nat.add_comm 1] using this

end Artist.Trace
