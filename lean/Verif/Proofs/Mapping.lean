import Verif.Model.Mapping
import Verif.Proofs.Tower
import Verif.Spec.Group
import Mathlib.Algebra.BigOperators.Group.List.Basic
import Mathlib.Algebra.Order.BigOperators.Group.List
/-! Helper lemmas for C29. -/
namespace Artist

theorem dictGet_dictAppend {K V : Type} [DecidableEq K] (d : List (K × List V)) (k k' : K) (x : V) :
    (dictGet (dictAppend d k x) k').getD [] = (dictGet d k').getD [] ++ if k' = k then [x] else [] := by
  induction d with
  | nil => by_cases h : k' = k
           · subst h; simp [dictAppend, dictGet]
           · simp [dictAppend, dictGet, h, Ne.symm h]
  | cons a as ih =>
    obtain ⟨a, b⟩ := a
    by_cases ha : a = k
    · subst ha
      by_cases h : k' = a
      · subst h; simp [dictAppend, dictGet]
      · simp [dictAppend, dictGet, h, Ne.symm h]
    · simp only [dictAppend, ha, if_false, dictGet]
      by_cases h2 : a = k'
      · subst h2; simp [ha]
      · simp only [h2, if_false]; exact ih

namespace Mapping

/-- target index and direction of an entry -/
def value {N D : Type} [DecidableEq N] (targetIndex : List (N × Nat)) (e : Entry N D) : Nat × D :=
  ((dictGet targetIndex e.target).getD 0, e.light)

theorem heliostatIndex_get {N : Type} [DecidableEq N] {names : List N} (hn : names.Nodup) {name : N} (h : name ∈ names) :
    dictGet (heliostatIndex names) name = some (names.idxOf name) := by
  rw [heliostatIndex, Tower.nameToIndexFrom_get names hn]; simp [h]

theorem collect_spec {N D : Type} [DecidableEq N] {names : List N} (hn : names.Nodup) (targetIndex : List (N × Nat))
    (es : List (Entry N D)) (he : ∀ e ∈ es, e.heliostat ∈ names ∧ (dictGet targetIndex e.target).isSome)
    (mask : List Nat) (hm : mask.length = names.length) (data : List (N × List (Nat × D))) :
    ∃ mask' data', collect (heliostatIndex names) targetIndex es mask data = .ok (mask', data') ∧
      mask'.length = names.length ∧
      (∀ (i : Nat) (name : N) (c : Nat), names[i]? = some name → mask[i]? = some c →
        mask'[i]? = some (c + (es.filter (fun e => decide (e.heliostat = name))).length)) ∧
      (∀ name, (dictGet data' name).getD [] =
        (dictGet data name).getD [] ++ (es.filter (fun e => decide (e.heliostat = name))).map (value targetIndex)) := by
  induction es generalizing mask data with
  | nil => exact ⟨mask, data, rfl, hm, fun i name c _ h => by simpa using h, fun name => by simp⟩
  | cons e es ih =>
    obtain ⟨h1, h2⟩ := he e (by simp)
    obtain ⟨t, ht⟩ := Option.isSome_iff_exists.1 h2
    obtain ⟨mask', data', hc, hl, hmask, hdata⟩ := ih (fun e' he' => he e' (by simp [he']))
      (mask.modify (names.idxOf e.heliostat) (· + 1)) (by simpa using hm) (dictAppend data e.heliostat (t, e.light))
    refine ⟨mask', data', ?_, hl, ?_, ?_⟩
    · simp only [collect, heliostatIndex_get hn h1, ht]
      exact hc
    · intro i name c hi hmi
      by_cases hname : e.heliostat = name
      · have hidx : names.idxOf e.heliostat = i := by
          obtain ⟨hlt, hx⟩ := List.getElem?_eq_some_iff.1 hi
          rw [hname, ← hx, hn.idxOf_getElem]
        have := hmask i name (c + 1) hi (by rw [List.getElem?_modify, hidx]; simp [hmi])
        rw [this]
        simp only [List.filter_cons, hname, decide_true, if_true, List.length_cons]
        congr 1; omega
      · have hidx : names.idxOf e.heliostat ≠ i := by
          intro hh
          apply hname
          have : names[names.idxOf e.heliostat]? = some e.heliostat := by
            rw [List.getElem?_eq_getElem (List.idxOf_lt_length_iff.2 h1), List.getElem_idxOf]
          rw [hh, hi] at this
          exact (Option.some.inj this).symm
        have := hmask i name c hi (by rw [List.getElem?_modify]; simp [hidx, hmi])
        rw [this]
        simp [hname]
    · intro name
      rw [hdata, dictGet_dictAppend, List.append_assoc]
      congr 1
      by_cases hname : name = e.heliostat
      · subst hname; simp [value, ht]
      · simp [hname, Ne.symm hname]

theorem write_spec {D : Type} (vals : List (Nat × D)) (ts : List (Option Int)) (ls : List (Option D))
    (pt : List (Option Int)) (pl : List (Option D)) (hp : pt.length = pl.length) (ht : vals.length ≤ ts.length)
    (hl : ts.length = ls.length) :
    write vals pt.length (pt ++ ts) (pl ++ ls) = .ok (pt.length + vals.length,
      pt ++ vals.map (fun v => some (v.1 : Int)) ++ ts.drop vals.length,
      pl ++ vals.map (fun v => some v.2) ++ ls.drop vals.length) := by
  induction vals generalizing ts ls pt pl with
  | nil => simp [write]
  | cons v vs ih =>
    obtain ⟨t, l⟩ := v
    cases ts with
    | nil => simp at ht
    | cons a ts =>
      cases ls with
      | nil => simp at hl
      | cons b ls =>
        have := ih ts ls (pt ++ [some (t : Int)]) (pl ++ [some l]) (by simp [hp]) (by simpa using ht) (by simpa using hl)
        simp only [List.length_append, List.length_singleton] at this
        rw [write, if_pos (by simp [hp])]
        have e1 : (pt ++ a :: ts).set pt.length (some (t : Int)) = pt ++ [some (t : Int)] ++ ts := by simp
        have e2 : (pl ++ b :: ls).set pt.length (some l) = pl ++ [some l] ++ ls := by rw [hp]; simp
        rw [e1, e2, this]
        simp [Nat.add_assoc, Nat.add_comm 1]

theorem writeAll_spec {N D : Type} [DecidableEq N] (data : List (N × List (Nat × D))) (names : List N)
    (ts : List (Option Int)) (ls : List (Option D)) (pt : List (Option Int)) (pl : List (Option D))
    (hp : pt.length = pl.length) (hl : ts.length = ls.length)
    (ht : (names.flatMap (fun n => (dictGet data n).getD [])).length = ts.length) :
    writeAll data names pt.length (pt ++ ts) (pl ++ ls) = .ok
      (pt ++ (names.flatMap (fun n => (dictGet data n).getD [])).map (fun v => some (v.1 : Int)),
       pl ++ (names.flatMap (fun n => (dictGet data n).getD [])).map (fun v => some v.2)) := by
  induction names generalizing ts ls pt pl with
  | nil =>
    have h1 : ts = [] := List.eq_nil_of_length_eq_zero (by simpa using ht.symm)
    have h2 : ls = [] := List.eq_nil_of_length_eq_zero (by rw [← hl, h1]; rfl)
    simp [writeAll, h1, h2]
  | cons n ns ih =>
    simp only [List.flatMap_cons, List.length_append] at ht
    rw [writeAll, write_spec _ ts ls pt pl hp (by omega) hl]
    simp only
    have := ih (ts.drop ((dictGet data n).getD []).length) (ls.drop ((dictGet data n).getD []).length)
      (pt ++ ((dictGet data n).getD []).map (fun v => some (v.1 : Int))) (pl ++ ((dictGet data n).getD []).map (fun v => some v.2))
      (by simp [hp]) (by simp [hl]) (by rw [List.length_drop]; omega)
    simp only [List.length_append, List.length_map] at this
    rw [this]
    simp

theorem length_flatMap_filter {N D : Type} [DecidableEq N] (names : List N) (hn : names.Nodup) (es : List (Entry N D))
    (he : ∀ e ∈ es, e.heliostat ∈ names) :
    (names.flatMap (fun n => es.filter (fun e => decide (e.heliostat = n)))).length = es.length := by
  induction es with
  | nil => simp
  | cons e es ih =>
    have ih := ih (fun e' h => he e' (by simp [h]))
    have key : ∀ (l : List N), l.Nodup →
        (l.flatMap (fun n => (e :: es).filter (fun e => decide (e.heliostat = n)))).length =
        (l.flatMap (fun n => es.filter (fun e => decide (e.heliostat = n)))).length + if e.heliostat ∈ l then 1 else 0 := by
      intro l
      induction l with
      | nil => simp
      | cons n l ihl =>
        intro hnd
        obtain ⟨h1, h2⟩ := List.nodup_cons.1 hnd
        simp only [List.flatMap_cons, List.length_append, ihl h2]
        by_cases h : e.heliostat = n
        · subst h; simp [h1]; omega
        · simp [h]; omega
    rw [key names hn, ih, if_pos (he e (by simp))]
    simp

/-- Rows of owner `i` in the concatenation of per-name blocks. -/
theorem rows_of_owner {N V X : Type} (names : List N) (block : N → List V) (g : V → X) (count : N → Nat)
    (hc : ∀ n ∈ names, count n = (block n).length) (i : Nat) (name : N) (hi : names[i]? = some name) :
    ((((Group.expand (List.range names.length) (names.map count)).zip ((names.flatMap block).map g)).filter
      (fun row => decide (row.1 = i))).map (·.2)) = (block name).map g := by
  have gen : ∀ (l : List N) (off : Nat), (∀ n ∈ l, count n = (block n).length) →
      ((Group.expand (List.range' off l.length) (l.map count)).zip ((l.flatMap block).map g)) =
      (l.zipIdx off).flatMap (fun p => ((block p.1).map g).map (fun x => (p.2, x))) := by
    intro l
    induction l with
    | nil => intro off _; simp [Group.expand]
    | cons n l ih =>
      intro off h
      have h1 := h n (by simp)
      have ih := ih (off + 1) (fun m hm => h m (by simp [hm]))
      simp only [Group.expand, List.length_cons, List.range'_succ, List.map_cons, List.zipWith_cons_cons, List.flatten_cons,
        List.flatMap_cons, List.map_append, List.zipIdx_cons] at ih ⊢
      rw [List.zip_append (by simp [h1]), ih, h1]
      congr 1
      rw [← List.length_map (f := g)]
      generalize (block n).map g = b
      induction b with
      | nil => rfl
      | cons x xs ihb => simp only [List.length_cons, List.replicate_succ, List.zip_cons_cons, List.map_cons, ihb]
  rw [List.range_eq_range', gen names 0 hc]
  have sel : ∀ (l : List N) (off : Nat),
      (((l.zipIdx off).flatMap (fun p => ((block p.1).map g).map (fun x => (p.2, x)))).filter
        (fun row => decide (row.1 = i))).map (·.2) =
      if off ≤ i then ((l[i - off]?).map (fun n => (block n).map g)).getD [] else [] := by
    intro l
    induction l with
    | nil => intro off; simp
    | cons n l ih =>
      intro off
      simp only [List.zipIdx_cons, List.flatMap_cons, List.filter_append, List.map_append, ih]
      by_cases h : off = i
      · subst h
        rw [if_neg (show ¬ off + 1 ≤ off by omega), List.filter_eq_self.2 (by simp)]
        simp
      · rw [List.filter_eq_nil_iff.2 (by simp [h])]
        by_cases h2 : off ≤ i
        · have : i - off = (i - (off + 1)) + 1 := by omega
          rw [if_pos h2, if_pos (show off + 1 ≤ i by omega), this]
          simp
        · rw [if_neg h2, if_neg (show ¬ off + 1 ≤ i by omega)]
          simp
  rw [sel names 0]
  simp [hi]

end Mapping
end Artist
