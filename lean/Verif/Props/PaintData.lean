import Verif.Proofs.PaintData
import Mathlib.Data.List.Zip
import Mathlib.Data.List.Lemmas
import Mathlib.Data.List.TakeWhile
import Mathlib.Algebra.Order.BigOperators.Group.List
import Mathlib.Tactic.Ring
/-!
# C42, C43 and C53: loading PAINT data
-/
namespace Artist.Paint
open Artist

/-! ## C43 -/
section
variable {H : Type}

theorem identifier_image (variant file : Name) : identifier (imageName variant file) = identifier file := by
  unfold imageName
  have hp : ∀ c ∈ identifier file, c ≠ '-' := by
    intro c hc
    have := List.mem_takeWhile_imp hc
    simpa using this
  unfold identifier at *
  rw [List.append_assoc, List.takeWhile_append_of_pos (by simpa using hp), List.cons_append, List.takeWhile_cons_of_neg (by simp), List.append_nil]

/-- The property files that have an image of the requested variant. -/
def usable (variant : Name) (d : Directory) : List Name := d.properties.filter (fun f => decide (imageName variant f ∈ d.images))

theorem measurements_fst (number : Int) (variant : Name) (d : Directory) :
    (measurements number variant d).1 = if 0 < number then (usable variant d).take number.toNat else usable variant d := by
  unfold measurements usable
  simp only [select_eq]
  simp

theorem keys_sublist {B : Type} (f : H → Option (H × B)) (hf : ∀ a b, f a = some b → b.1 = a) (l : List H) :
    ((l.filterMap f).map (·.1)).Sublist l := by
  induction l with
  | nil => exact .slnil
  | cons a as ih =>
    rw [List.filterMap_cons]
    cases h : f a with
    | none => exact ih.cons _
    | some b =>
      simp only [List.map_cons]
      rw [hf a b h]
      exact ih.cons₂ _

theorem mem_dataMapping {number : Int} {variant : Name} {disk : H → Option Directory} {names : List H} {name : H} {ps is : List Name} :
    (name, ps, is) ∈ dataMapping number variant disk names ↔
      name ∈ names ∧ ∃ d, disk name = some d ∧ ps = (measurements number variant d).1 ∧ is = ps.map (imageName variant) ∧ ps ≠ [] := by
  unfold dataMapping
  rw [List.mem_filterMap]
  constructor
  · rintro ⟨a, ha, h⟩
    split at h
    · cases h
    · rename_i d hd
      simp only at h
      split at h
      · rename_i hne
        simp only [Option.some.injEq, Prod.mk.injEq] at h
        obtain ⟨rfl, rfl, rfl⟩ := h
        exact ⟨ha, d, hd, rfl, rfl, hne.1⟩
      · cases h
  · rintro ⟨ha, d, hd, rfl, rfl, hne⟩
    refine ⟨name, ha, ?_⟩
    simp only [hd]
    have h2 : (measurements number variant d).2 = ((measurements number variant d).1).map (imageName variant) := rfl
    rw [if_pos ⟨hne, by rw [h2]; simpa using hne⟩, h2]

/-- Every entry of the mapping pairs property files of that heliostat with images: equally many, at least one, the k-th image exists and carries the
identifier of the k-th property file and the requested variant; files keep the order of the (shuffled or sorted) directory listing. -/
theorem C43_pairs (number : Int) (variant : Name) (disk : H → Option Directory) (names : List H) (name : H) (ps is : List Name)
    (h : (name, ps, is) ∈ dataMapping number variant disk names) :
    name ∈ names ∧ ∃ d, disk name = some d ∧ ps ≠ [] ∧ ps.length = is.length ∧ ps.Sublist d.properties ∧
      ∀ (k : Nat) (p i : Name), ps[k]? = some p → is[k]? = some i →
        i ∈ d.images ∧ i.takeWhile (· ≠ '-') = p.takeWhile (· ≠ '-') ∧ i = p.takeWhile (· ≠ '-') ++ ('-' :: variant ++ ".png".toList) := by
  obtain ⟨hn, d, hd, h1, h2, hne⟩ := mem_dataMapping.1 h
  have hsub : ps.Sublist (usable variant d) := by
    rw [h1, measurements_fst]
    split
    · exact List.take_sublist _ _
    · exact List.Sublist.refl _
  refine ⟨hn, d, hd, hne, by rw [h2, List.length_map], hsub.trans List.filter_sublist, ?_⟩
  intro k p i hp hi
  rw [h2, List.getElem?_map, hp, Option.map_some, Option.some.injEq] at hi
  subst hi
  have hu := hsub.subset (List.mem_of_getElem? hp)
  unfold usable at hu
  rw [List.mem_filter, decide_eq_true_eq] at hu
  refine ⟨hu.2, identifier_image variant p, ?_⟩
  unfold imageName identifier
  rw [List.append_assoc]
  rfl

/-- With a positive number of requested measurements, exactly the first `number` usable property files are returned, or all of them if there are fewer.
(Full claim: at most the requested number for every number; it fails for zero, `C43_zero_is_unlimited`.) -/
theorem C43_count_partial (number : Int) (hn : 0 < number) (variant : Name) (disk : H → Option Directory) (names : List H) (name : H)
    (ps is : List Name) (d : Directory) (hd : disk name = some d) (h : (name, ps, is) ∈ dataMapping number variant disk names) :
    ps = (d.properties.filter (fun f => decide (imageName variant f ∈ d.images))).take number.toNat ∧ (ps.length : Int) ≤ number ∧
      ((ps.length : Int) < number → ∀ f ∈ d.properties, imageName variant f ∈ d.images → f ∈ ps) := by
  obtain ⟨_, d', hd', h1, _, _⟩ := mem_dataMapping.1 h
  rw [hd] at hd'; cases hd'
  rw [measurements_fst, if_pos hn] at h1
  refine ⟨h1, ?_, ?_⟩
  · have : ps.length ≤ number.toNat := by rw [h1]; exact List.length_take_le _ _
    omega
  · intro hlt f hf hi
    have hmem : f ∈ usable variant d := by unfold usable; rw [List.mem_filter, decide_eq_true_eq]; exact ⟨hf, hi⟩
    have hl : ps.length = min number.toNat (usable variant d).length := by rw [h1, List.length_take]
    rw [h1, List.take_of_length_le (by omega)]
    exact hmem

/-- A heliostat appears exactly if it was asked for, its directory exists and at least one property file has an image; the heliostats keep their order. -/
theorem C43_present (number : Int) (variant : Name) (disk : H → Option Directory) (names : List H) :
    ((dataMapping number variant disk names).map (·.1)).Sublist names ∧
    ∀ name, name ∈ (dataMapping number variant disk names).map (·.1) ↔
      name ∈ names ∧ ∃ d, disk name = some d ∧ ∃ f ∈ d.properties, imageName variant f ∈ d.images := by
  constructor
  · unfold dataMapping
    apply keys_sublist
    intro a b hb
    split at hb
    · cases hb
    · simp only at hb
      split at hb
      · cases hb; rfl
      · cases hb
  · intro name
    rw [List.mem_map]
    constructor
    · rintro ⟨⟨a, ps, is⟩, hm, rfl⟩
      obtain ⟨hn, d, hd, h1, _, hne⟩ := mem_dataMapping.1 hm
      refine ⟨hn, d, hd, ?_⟩
      rw [h1, measurements_fst] at hne
      have : usable variant d ≠ [] := by
        intro hz; rw [hz] at hne; simp at hne
      obtain ⟨f, hf⟩ := List.exists_mem_of_ne_nil _ this
      unfold usable at hf
      rw [List.mem_filter, decide_eq_true_eq] at hf
      exact ⟨f, hf⟩
    · rintro ⟨hn, d, hd, f, hf, hi⟩
      refine ⟨(name, (measurements number variant d).1, _), mem_dataMapping.2 ⟨hn, d, hd, rfl, rfl, ?_⟩, rfl⟩
      rw [measurements_fst]
      have hmem : f ∈ usable variant d := by unfold usable; rw [List.mem_filter, decide_eq_true_eq]; exact ⟨hf, hi⟩
      have hne := List.ne_nil_of_mem hmem
      split
      · rename_i h0
        intro hz
        rw [List.take_eq_nil_iff] at hz
        rcases hz with hz | hz
        · omega
        · exact hne hz
      · exact hne

/-- The full claim of C43 is false: asking for zero (or a negative number of) measurements returns all of them. -/
theorem C43_zero_is_unlimited (number : Int) (hn : number ≤ 0) (variant : Name) (disk : H → Option Directory) (names : List H) (name : H)
    (ps is : List Name) (d : Directory) (hd : disk name = some d) (h : (name, ps, is) ∈ dataMapping number variant disk names) :
    ps = d.properties.filter (fun f => decide (imageName variant f ∈ d.images)) ∧ number < ps.length := by
  obtain ⟨_, d', hd', h1, _, hne⟩ := mem_dataMapping.1 h
  rw [hd] at hd'; cases hd'
  rw [measurements_fst, if_neg (by omega)] at h1
  refine ⟨h1, ?_⟩
  have := List.length_pos_of_ne_nil hne
  omega
end

/-- Three property files, two of them with an image, and a second heliostat without directory. -/
def diskExample : Nat → Option Directory
  | 0 => some ⟨["7-calibration-properties.json".toList, "12-calibration-properties.json".toList, "3-calibration-properties.json".toList],
      ["3-flux.png".toList, "7-flux.png".toList, "12-raw.png".toList]⟩
  | _ => none

example : dataMapping 5 "flux".toList diskExample [1, 0] =
      [(0, ["7-calibration-properties.json".toList, "3-calibration-properties.json".toList], ["7-flux.png".toList, "3-flux.png".toList])] ∧
    dataMapping 1 "flux".toList diskExample [1, 0] = [(0, ["7-calibration-properties.json".toList], ["7-flux.png".toList])] ∧
    dataMapping 0 "flux".toList diskExample [1, 0] = dataMapping 5 "flux".toList diskExample [1, 0] :=
  ⟨by decide +kernel, by decide +kernel, by decide +kernel⟩

/-! ## C42 -/
section
variable {H P I C : Type} [DecidableEq H]

/-- The limit is absent or positive. -/
def ProperLimit (limit : Option Int) : Prop := limit = none ∨ ∃ l : Int, 0 < l ∧ limit = some l

/-- Number of measurements used of `n` available ones. -/
def bounded (limit : Option Int) (n : Nat) : Nat :=
  match limit with
  | none => n
  | some l => min n l.toNat

theorem numberOf_proper {limit : Option Int} (hl : ProperLimit limit) (n : Nat) : numberOf limit n = (bounded limit n : Int) := by
  rcases hl with rfl | ⟨l, hl, rfl⟩
  · rfl
  · unfold numberOf bounded
    simp only
    rw [if_neg (by omega)]
    omega

theorem slice_proper {A : Type} {limit : Option Int} (hl : ProperLimit limit) (l : List A) (n : Nat) :
    slice l (numberOf limit n) = l.take (bounded limit n) := by
  rw [numberOf_proper hl]
  unfold slice
  rw [if_pos (by omega)]
  simp

theorem bounded_le (limit : Option Int) (n : Nat) : bounded limit n ≤ n := by
  unfold bounded
  split
  · exact le_refl _
  · exact min_le_left _ _

/-- The measurements of a heliostat that are used, in the order of its entry. -/
def measurementsOf (limit : Option Int) (mapping : List (H × List P × List I)) (name : H) : List (H × P × I) :=
  match dictGet mapping name with
  | none => []
  | some (ps, is) => ((ps.zip is).take (bounded limit ps.length)).map (fun x => (name, x.1, x.2))

/-- Measured fluxes and calibration data stay paired, if every heliostat occurs once in the mapping and has as many images as property files, and the
limit is absent or positive: there is a list of measurements such that the k-th flux is the image and the k-th row the content of the property file of the
k-th measurement, both from the same position of the same entry of the heliostat that owns row k under the returned mask; the number per heliostat is
the available number cut at the limit.  (Full claim: all mappings and limits; see `C42_duplicates`, `C42_zero_is_unlimited`, `C42_negative_raises`.) -/
theorem C42_paired_partial (limit : Option Int) (hl : ProperLimit limit) (read : P → Except PyErr C) (mapping : List (H × List P × List I))
    (names : List H) (hdistinct : (mapping.map (·.1)).Nodup) (hlen : ∀ m ∈ mapping, m.2.1.length = m.2.2.length)
    (fluxes : List I) (rows : List C) (mask : List Nat) (h : parse limit read mapping names = .ok (fluxes, rows, mask)) :
    ∃ ms : List (H × P × I),
      fluxes = ms.map (fun m => m.2.2) ∧ List.Forall₂ (fun m c => read m.2.1 = .ok c) ms rows ∧
      ms.map (fun m => m.1) = repeatInterleave names mask ∧ mask.length = names.length ∧
      (∀ m ∈ ms, ∃ (ps : List P) (is : List I) (k : Nat), (m.1, ps, is) ∈ mapping ∧ ps[k]? = some m.2.1 ∧ is[k]? = some m.2.2) ∧
      (∀ (i : Nat) (name : H) (count : Nat), names[i]? = some name → mask[i]? = some count →
        (∀ ps is, (name, ps, is) ∈ mapping → count = match limit with | none => ps.length | some l => min ps.length l.toNat) ∧
        ((∀ ps is, (name, ps, is) ∉ mapping) → count = 0)) := by
  unfold parse at h
  simp only at h
  set known := mapping.filter (fun m => decide (m.1 ∈ names)) with hknown
  have hk : ∀ name ∈ names, ∀ ps is, (name, ps, is) ∈ known ↔ (name, ps, is) ∈ mapping := by
    intro name hn ps is
    rw [hknown, List.mem_filter]
    simp [hn]
  have hkn : (known.map (·.1)).Nodup := hdistinct.sublist (List.filter_sublist.map _)
  have hn1 : ((known.map (fun m => (m.1, m.2.2))).map (·.1)).Nodup := by rw [List.map_map]; exact hkn
  have hn2 : ((known.map (fun m => (m.1, m.2.1))).map (·.1)).Nodup := by rw [List.map_map]; exact hkn
  split at h
  · cases h
  rename_i fl hfl
  split at h
  · cases h
  rename_i rs mk hcal
  simp only [Except.ok.injEq, Prod.mk.injEq] at h
  obtain ⟨rfl, rfl, rfl⟩ := h
  -- calibration data
  unfold parseCalibration at hcal
  split at hcal
  · cases hcal
  rename_i d hd
  simp only [Except.ok.injEq, Prod.mk.injEq] at hcal
  obtain ⟨rfl, rfl⟩ := hcal
  have hrows : ∀ name ∈ names, List.Forall₂ (fun m c => read m.2.1 = .ok c) (measurementsOf limit mapping name) ((dictGet d name).getD []) := by
    intro name hname
    obtain ⟨cs, h1, h2⟩ := readEntries_get limit read _ [] d hd name
    rw [h2]
    simp only [dictGet, Option.getD_none, List.nil_append]
    unfold measurementsOf
    cases hg : dictGet mapping name with
    | none =>
      rw [filesOf_none] at h1
      · cases h1; exact .nil
      · intro ps hps
        obtain ⟨⟨a, ps', is⟩, hm, he⟩ := List.mem_map.1 hps
        simp only [Prod.mk.injEq] at he
        obtain ⟨rfl, rfl⟩ := he
        rw [get_of_mem hdistinct ((hk _ hname _ _).1 hm)] at hg
        cases hg
    | some v =>
      obtain ⟨ps, is⟩ := v
      have hm := get_mem hg
      have hl' := hlen _ hm
      simp only at hl'
      rw [filesOf_mem limit hn2 (ps := ps) (List.mem_map.2 ⟨_, (hk _ hname _ _).2 hm, rfl⟩), slice_proper hl] at h1
      have e : ps.take (bounded limit ps.length) =
          (((ps.zip is).take (bounded limit ps.length)).map (fun x => (name, x.1, x.2))).map (fun m => m.2.1) := by
        rw [List.map_map]
        show _ = ((ps.zip is).take (bounded limit ps.length)).map Prod.fst
        rw [List.map_take, List.map_fst_zip (by omega)]
      rw [e] at h1
      exact List.forall₂_map_left_iff.1 h1
  have hflux : fl = names.flatMap (fun name => (measurementsOf limit mapping name).map (fun m => m.2.2)) := by
    have hpaths : ∀ name ∈ names, slice ((dictGet (toDict (known.map (fun m => (m.1, m.2.2)))) name).getD [])
        (numberOf limit ((dictGet (toDict (known.map (fun m => (m.1, m.2.2)))) name).getD []).length) =
        (measurementsOf limit mapping name).map (fun m => m.2.2) := by
      intro name hname
      unfold measurementsOf
      cases hg : dictGet mapping name with
      | none =>
        rw [toDict_get_none]
        · rw [slice_proper hl]; simp
        · intro ps hps
          obtain ⟨⟨a, ps', is⟩, hm, he⟩ := List.mem_map.1 hps
          simp only [Prod.mk.injEq] at he
          obtain ⟨rfl, rfl⟩ := he
          rw [get_of_mem hdistinct ((hk _ hname _ _).1 hm)] at hg
          cases hg
      | some v =>
        obtain ⟨ps, is⟩ := v
        have hm := get_mem hg
        have hl' := hlen _ hm
        simp only at hl'
        rw [toDict_get_of_mem hn1 (v := is) (List.mem_map.2 ⟨_, (hk _ hname _ _).2 hm, rfl⟩), slice_proper hl, Option.getD_some, List.map_map]
        show _ = ((ps.zip is).take (bounded limit ps.length)).map Prod.snd
        rw [List.map_take, List.map_snd_zip (by omega), hl']
    unfold loadFlux at hfl
    simp only at hfl
    rw [List.flatMap_congr (fun name hname => hpaths name hname)] at hfl
    split at hfl
    · rename_i hz
      cases hfl
      symm
      rw [List.flatMap_eq_nil_iff]
      intro name hname
      rw [← hpaths name hname, slice_proper hl]
      have hnn : ∀ x ∈ names.map (fun name => numberOf limit ((dictGet (toDict (known.map (fun m => (m.1, m.2.2)))) name).getD []).length), 0 ≤ x := by
        intro x hx
        obtain ⟨y, _, rfl⟩ := List.mem_map.1 hx
        rw [numberOf_proper hl]; omega
      have hle : ∀ (l : List Int), (∀ x ∈ l, 0 ≤ x) → ∀ x ∈ l, x ≤ l.sum := by
        intro l hl
        induction l with
        | nil => intro x hx; simp at hx
        | cons a as ih =>
          have hs : 0 ≤ as.sum := List.sum_nonneg (fun x hx => hl x (List.mem_cons_of_mem _ hx))
          intro x hx
          rw [List.sum_cons]
          rcases List.mem_cons.1 hx with rfl | hx
          · omega
          · have := ih (fun x hx => hl x (List.mem_cons_of_mem _ hx)) x hx
            have := hl a List.mem_cons_self
            omega
      have := hle _ hnn _ (List.mem_map.2 ⟨name, hname, rfl⟩)
      rw [hz, numberOf_proper hl] at this
      rw [show bounded limit ((dictGet (toDict (known.map (fun m => (m.1, m.2.2)))) name).getD []).length = 0 by omega]
      rfl
    · split at hfl
      · cases hfl
      · cases hfl; rfl
  have hcount : ∀ name ∈ names, ((dictGet d name).getD []).length = (measurementsOf limit mapping name).length :=
    fun name hname => (hrows name hname).length_eq.symm
  refine ⟨names.flatMap (measurementsOf limit mapping), ?_, ?_, ?_, by simp, ?_, ?_⟩
  · rw [hflux, List.map_flatMap]
  · exact forall₂_flatMap _ _ _ _ hrows
  · rw [repeatInterleave_map, List.map_flatMap]
    apply List.flatMap_congr
    intro name hname
    rw [hcount name hname]
    unfold measurementsOf
    split
    · rfl
    · rw [List.map_map]
      rw [List.eq_replicate_iff]
      constructor
      · simp
      · intro b hb
        obtain ⟨x, _, rfl⟩ := List.mem_map.1 hb
        rfl
  · intro m hm
    obtain ⟨name, hname, hm⟩ := List.mem_flatMap.1 hm
    unfold measurementsOf at hm
    split at hm
    · simp at hm
    · rename_i ps is hg
      obtain ⟨x, hx, rfl⟩ := List.mem_map.1 hm
      have hx := List.mem_of_mem_take hx
      obtain ⟨k, hk⟩ := List.mem_iff_getElem?.1 hx
      rw [List.getElem?_zip_eq_some] at hk
      exact ⟨ps, is, k, get_mem hg, hk.1, hk.2⟩
  · intro i name count hi hc
    rw [List.getElem?_map, hi, Option.map_some, Option.some.injEq] at hc
    have hname := List.mem_of_getElem? hi
    rw [hcount name hname] at hc
    constructor
    · intro ps is hm
      have hl' := hlen _ hm
      simp only at hl'
      rw [← hc]
      unfold measurementsOf
      rw [get_of_mem hdistinct hm]
      simp only [List.length_map, List.length_take, List.length_zip]
      have := bounded_le limit ps.length
      rw [← hl', min_self, min_eq_left this]
      rfl
    · intro hnot
      rw [← hc]
      unfold measurementsOf
      rw [get_none (fun v => by obtain ⟨ps, is⟩ := v; exact hnot ps is)]
      rfl

/-- Data collected by `build_heliostat_data_mapping` for distinct heliostats always satisfies the hypotheses, so the whole way from the directory to the
tensors keeps identifiers together: the k-th flux has the identifier of the property file whose content is in row k. -/
theorem C42_from_directory (limit : Option Int) (hl : ProperLimit limit) (number : Int) (variant : Name) (disk : H → Option Directory)
    (requested : List H) (hreq : requested.Nodup) (read : Name → Except PyErr C) (names : List H)
    (fluxes : List Name) (rows : List C) (mask : List Nat)
    (h : parse limit read (dataMapping number variant disk requested) names = .ok (fluxes, rows, mask)) :
    ∃ ms : List (H × Name × Name),
      fluxes = ms.map (fun m => m.2.2) ∧ List.Forall₂ (fun m c => read m.2.1 = .ok c) ms rows ∧
      ms.map (fun m => m.1) = repeatInterleave names mask ∧
      ∀ m ∈ ms, ∃ d, disk m.1 = some d ∧ m.2.1 ∈ d.properties ∧ m.2.2 ∈ d.images ∧
        m.2.2.takeWhile (· ≠ '-') = m.2.1.takeWhile (· ≠ '-') := by
  have hn : ((dataMapping number variant disk requested).map (·.1)).Nodup := hreq.sublist (C43_present number variant disk requested).1
  have hlen : ∀ m ∈ dataMapping number variant disk requested, m.2.1.length = m.2.2.length := by
    rintro ⟨name, ps, is⟩ hm
    obtain ⟨_, _, _, _, hl, _⟩ := C43_pairs number variant disk requested name ps is hm
    exact hl
  obtain ⟨ms, h1, h2, h3, _, h4, _⟩ := C42_paired_partial limit hl read _ names hn hlen fluxes rows mask h
  refine ⟨ms, h1, h2, h3, fun m hm => ?_⟩
  obtain ⟨ps, is, k, hmem, hp, hi⟩ := h4 m hm
  obtain ⟨_, d, hd, _, _, hsub, hk⟩ := C43_pairs number variant disk requested m.1 ps is hmem
  obtain ⟨q1, q2, _⟩ := hk k _ _ hp hi
  exact ⟨d, hd, hsub.subset (List.mem_of_getElem? hp), q1, q2⟩

/-- The full claim is false for a heliostat with two entries: all property files are read but only the images of the second entry. -/
theorem C42_duplicates (name : H) (ps qs : List P) (is js : List I) (hp : ps ≠ []) (hj : js ≠ []) (hq : qs.length = js.length)
    (read : P → Except PyErr C) (value : P → C) (hread : ∀ p, read p = .ok (value p)) :
    parse none read [(name, ps, is), (name, qs, js)] [name] = .ok (js, (ps ++ qs).map value, [ps.length + qs.length]) ∧
    js.length < ((ps ++ qs).map value).length := by
  have hall : ∀ (l : List P) (d : List (H × List C)), readAll read name l d = .ok (l.foldl (fun d p => dictAppend d name (value p)) d) := by
    intro l
    induction l with
    | nil => intro d; rfl
    | cons a as ih => intro d; simp only [readAll, hread, ih, List.foldl_cons]
  have hget : ∀ (l : List P) (d : List (H × List C)),
      (dictGet (l.foldl (fun d p => dictAppend d name (value p)) d) name).getD [] = (dictGet d name).getD [] ++ l.map value := by
    intro l
    induction l with
    | nil => intro d; simp
    | cons a as ih => intro d; rw [List.foldl_cons, ih, get_append]; simp
  have hs : ∀ {A : Type} (l : List A), slice l (numberOf none l.length) = l := by
    intro A l; rw [slice_proper (.inl rfl)]; exact List.take_length
  constructor
  · unfold parse loadFlux parseCalibration
    have hjl : 0 < js.length := List.length_pos_of_ne_nil hj
    have hd : dictGet (toDict [(name, is), (name, js)]) name = some js := by simp [toDict_get, dictGet]
    have hne : ¬ ((js.length : Int) = 0) := by omega
    have hnn : ¬ ((js.length : Int) < 0) := by omega
    have e0 := hs js
    have e1 := hs ps
    have e2 := hs qs
    simp only [numberOf] at e0 e1 e2
    simp [hd, numberOf, hj, hnn, readEntries, hall, hget, dictGet, e0, e1, e2]
  · have := List.length_pos_of_ne_nil hp
    simp; omega

/-- A limit of zero does not mean no samples but all samples. -/
theorem C42_zero_is_unlimited (read : P → Except PyErr C) (mapping : List (H × List P × List I)) (names : List H) :
    parse (some 0) read mapping names = parse none read mapping names := by
  have hn : ∀ n, numberOf (some 0) n = numberOf none n := by intro n; rfl
  have hr : ∀ (m : List (H × List P)) (d : List (H × List C)), readEntries (some 0) read m d = readEntries none read m d := by
    intro m
    induction m with
    | nil => intro d; rfl
    | cons a as ih => intro d; obtain ⟨x, y⟩ := a; simp only [readEntries, hn, ih]
  unfold parse loadFlux parseCalibration
  simp only [hn, hr]

/-- A negative limit raises for every group with heliostats, whatever the files. -/
theorem C42_negative_raises (l : Int) (hl : l < 0) (read : P → Except PyErr C) (mapping : List (H × List P × List I)) (names : List H)
    (hnames : names ≠ []) : parse (some l) read mapping names = .error .runtimeError := by
  have hn : ∀ n : Nat, numberOf (some l) n = l := by
    intro n; unfold numberOf; simp only; rw [if_neg (by omega)]; omega
  have hsum : ∀ (ns : List H) (f : H → Int), (∀ n, f n = l) → (ns.map f).sum = ns.length * l := by
    intro ns f hf
    induction ns with
    | nil => simp
    | cons a as ih => rw [List.map_cons, List.sum_cons, ih, hf]; push_cast [List.length_cons]; ring
  unfold parse loadFlux
  simp only
  rw [hsum names _ (fun n => hn _)]
  have hpos : 0 < (names.length : Int) := by have := List.length_pos_of_ne_nil hnames; omega
  have hneg : (names.length : Int) * l < 0 := mul_neg_of_pos_of_neg hpos hl
  rw [if_neg (by omega), if_pos hneg]
end

/-- Two heliostats in reversed order, one unknown; the limit cuts the first. -/
example : parse (some 2) (fun p : Nat => .ok (p * 10)) [("b", [1, 2, 3], ["x", "y", "z"]), ("c", [9], ["w"]), ("a", [4], ["v"])] ["a", "b"] =
    .ok (["v", "x", "y"], [40, 10, 20], [1, 2]) := by decide +kernel

/-! ## C53 -/
section
variable {N P D : Type}

theorem processPaths_ok (surface : Entry N P D → Option D) (paths : List (Entry N P D)) (hne : paths ≠ []) :
    ∃ list prototype, processPaths surface paths = .ok (list, prototype) ∧ list.getLast? = some prototype ∧
      list.map (fun h => (h.name, h.properties, h.fitted)) = paths.map (fun e => (e.name, e.properties, surface e)) ∧
      list.map (fun h => h.id) = List.range paths.length := by
  unfold processPaths
  simp only
  set list := paths.zipIdx.map (fun (e, i) => (⟨e.name, i, e.properties, surface e⟩ : Heliostat N P D)) with hlist
  have hn : list ≠ [] := by
    rw [hlist]; intro h; rw [List.map_eq_nil_iff, List.zipIdx_eq_nil_iff] at h; exact hne h
  cases hg : list.getLast? with
  | none => exact absurd (List.getLast?_eq_none_iff.1 hg) hn
  | some p =>
    refine ⟨list, p, rfl, hg, ?_, ?_⟩
    · rw [hlist, List.map_map]
      show List.map ((fun e => (e.name, e.properties, surface e)) ∘ Prod.fst) paths.zipIdx = _
      rw [← List.map_map, List.zipIdx_map_fst]
    · rw [hlist, List.map_map]
      show List.map Prod.snd paths.zipIdx = _
      rw [List.zipIdx_map_snd, List.range_eq_range']

/-- Loading heliostats of one kind with the dedicated functions keeps every heliostat once and in order, with distinct ids, and raises
only for the empty list. -/
theorem C53_single_kind (surface : Entry N P D → Option D) (paths : List (Entry N P D)) :
    (paths = [] → processPaths surface paths = .error .unboundLocal) ∧
    (paths ≠ [] → ∃ list prototype, processPaths surface paths = .ok (list, prototype) ∧
      list.map (fun h => (h.name, h.properties, h.fitted)) = paths.map (fun e => (e.name, e.properties, surface e)) ∧
      (list.map (fun h => h.id)).Nodup) := by
  constructor
  · rintro rfl; rfl
  · intro hne
    obtain ⟨l, p, h1, _, h2, h3⟩ := processPaths_ok surface paths hne
    exact ⟨l, p, h1, h2, by rw [h3]; exact List.nodup_range⟩

/-- If both kinds are present, mixed loading returns every heliostat exactly once with its own property file, fitted to its own deflectometry file exactly
where one is given; ideal surfaces come first, and the prototype has an ideal surface.  (Full claim: also distinct ids, and lists of one kind; see
`C53_duplicate_ids` and `C53_one_kind_raises`.) -/
theorem C53_mixed_partial (paths : List (Entry N P D)) (hi : ∃ e ∈ paths, e.deflectometry = none) (hf : ∃ e ∈ paths, e.deflectometry ≠ none) :
    ∃ list prototype, loadMixed paths = .ok (list, prototype) ∧
      (list.map (fun h => (h.name, h.properties, h.fitted))).Perm (paths.map (fun e => (e.name, e.properties, e.deflectometry))) ∧
      list.Pairwise (fun a b => b.fitted = none → a.fitted = none) ∧ prototype.fitted = none := by
  set f := paths.filter (fun e => e.deflectometry.isSome) with hfp
  set i := paths.filter (fun e => !e.deflectometry.isSome) with hip
  have hfn : f ≠ [] := by
    obtain ⟨e, he, h⟩ := hf
    exact List.ne_nil_of_mem (List.mem_filter.2 ⟨he, by simpa [Option.isSome_iff_ne_none] using h⟩)
  have hin : i ≠ [] := by
    obtain ⟨e, he, h⟩ := hi
    exact List.ne_nil_of_mem (List.mem_filter.2 ⟨he, by simp [h]⟩)
  obtain ⟨l1, p1, a1, a2, a3, a4⟩ := processPaths_ok (fun _ => (none : Option D)) i hin
  obtain ⟨l2, p2, b1, b2, b3, b4⟩ := processPaths_ok (fun e => e.deflectometry) f hfn
  have e1 : i.map (fun e => (e.name, e.properties, (none : Option D))) = i.map (fun e => (e.name, e.properties, e.deflectometry)) := by
    apply List.map_congr_left
    intro e he
    have := (List.mem_filter.1 he).2
    simp only [Bool.not_eq_true', Option.isSome_eq_false_iff, Option.isNone_iff_eq_none] at this
    rw [this]
  have n1 : ∀ h ∈ l1, h.fitted = none := by
    intro h hh
    have : (h.name, h.properties, h.fitted) ∈ i.map (fun e => (e.name, e.properties, (none : Option D))) := by
      rw [← a3]; exact List.mem_map.2 ⟨h, hh, rfl⟩
    obtain ⟨e, _, he⟩ := List.mem_map.1 this
    simp only [Prod.mk.injEq] at he
    exact he.2.2.symm
  have n2 : ∀ h ∈ l2, h.fitted ≠ none := by
    intro h hh
    have : (h.name, h.properties, h.fitted) ∈ f.map (fun e => (e.name, e.properties, e.deflectometry)) := by
      rw [← b3]; exact List.mem_map.2 ⟨h, hh, rfl⟩
    obtain ⟨e, he, he'⟩ := List.mem_map.1 this
    simp only [Prod.mk.injEq] at he'
    have := (List.mem_filter.1 he).2
    rw [← he'.2.2]
    exact Option.isSome_iff_ne_none.1 this
  refine ⟨l1 ++ l2, p1, ?_, ?_, ?_, ?_⟩
  · unfold loadMixed loadIdeal loadFitted
    simp only [← hfp, ← hip, a1, b1]
  · rw [List.map_append, a3, b3, e1, ← List.map_append]
    apply List.Perm.map
    have := List.filter_append_perm (fun e : Entry N P D => e.deflectometry.isSome) paths
    exact List.perm_append_comm.trans this
  · rw [List.pairwise_append]
    refine ⟨?_, ?_, ?_⟩
    · exact List.Pairwise.imp_of_mem (R := fun _ _ => True) (fun ha _ _ _ => n1 _ ha) (List.pairwise_of_forall (fun _ _ => trivial))
    · exact List.Pairwise.imp_of_mem (R := fun _ _ => True) (fun _ hb _ h => absurd h (n2 _ hb)) (List.pairwise_of_forall (fun _ _ => trivial))
    · intro a ha b hb h
      exact n1 a ha
  · exact n1 p1 (List.mem_of_getLast? a2)

/-- The claim of distinct ids is false in every case: whenever mixed loading succeeds, two heliostats have the id 0. -/
theorem C53_duplicate_ids (paths : List (Entry N P D)) (list : List (Heliostat N P D)) (prototype : Heliostat N P D)
    (h : loadMixed paths = .ok (list, prototype)) : ∃ (i j : Nat) (a b : Heliostat N P D), i ≠ j ∧ list[i]? = some a ∧ list[j]? = some b ∧ a.id = 0 ∧ b.id = 0 := by
  unfold loadMixed at h
  simp only at h
  have ne : ∀ (s : Entry N P D → Option D) (p : List (Entry N P D)) l q, processPaths s p = .ok (l, q) → p ≠ [] := by
    intro s p l q h hz
    subst hz
    simp [processPaths] at h
  split at h
  · cases h
  rename_i l1 p1 h1
  split at h
  · cases h
  rename_i l2 p2 h2
  simp only [Except.ok.injEq, Prod.mk.injEq] at h
  obtain ⟨rfl, rfl⟩ := h
  have head : ∀ (s : Entry N P D → Option D) (p : List (Entry N P D)) l q, processPaths s p = .ok (l, q) → ∃ a as, l = a :: as ∧ a.id = 0 := by
    intro s p l q h
    obtain ⟨l', q', b1, _, _, b4⟩ := processPaths_ok s p (ne s p l q h)
    rw [h] at b1
    simp only [Except.ok.injEq, Prod.mk.injEq] at b1
    obtain ⟨rfl, rfl⟩ := b1
    cases l with
    | nil =>
      have hp := List.length_pos_of_ne_nil (ne s p _ q h)
      have := congrArg List.length b4
      simp at this; omega
    | cons a as =>
      refine ⟨a, as, rfl, ?_⟩
      have := congrArg (fun l => l[0]?) b4
      simp only [List.map_cons, List.getElem?_cons_zero] at this
      have hp := List.length_pos_of_ne_nil (ne s p _ q h)
      rw [List.getElem?_range hp] at this
      simpa using this
  obtain ⟨a, as, rfl, ha⟩ := head _ _ _ _ h1
  obtain ⟨b, bs, rfl, hb⟩ := head _ _ _ _ h2
  refine ⟨0, (a :: as).length, a, b, by simp, rfl, ?_, ha, hb⟩
  rw [List.getElem?_append_right (le_refl _), Nat.sub_self]
  rfl

/-- Mixed loading raises whenever only one kind (or nothing) is present. -/
theorem C53_one_kind_raises (paths : List (Entry N P D))
    (h : (∀ e ∈ paths, e.deflectometry = none) ∨ (∀ e ∈ paths, e.deflectometry ≠ none)) : loadMixed paths = .error .unboundLocal := by
  unfold loadMixed loadIdeal loadFitted
  simp only
  rcases h with h | h
  · have hf : paths.filter (fun e => e.deflectometry.isSome) = [] := by
      rw [List.filter_eq_nil_iff]; intro e he; simp [h e he]
    have hi : paths.filter (fun e => !e.deflectometry.isSome) = paths := by
      rw [List.filter_eq_self]; intro e he; simp [h e he]
    rw [hf, hi]
    cases paths with
    | nil => rfl
    | cons e es =>
      obtain ⟨l, p, h1, _⟩ := processPaths_ok (fun _ => (none : Option D)) (e :: es) (by simp)
      rw [h1]; rfl
  · have hi : paths.filter (fun e => !e.deflectometry.isSome) = [] := by
      rw [List.filter_eq_nil_iff]; intro e he
      have := Option.isSome_iff_ne_none.2 (h e he)
      simp [this]
    rw [hi]; rfl
end

example : loadMixed [(⟨"A", 1, some "d1"⟩ : Entry String Nat String), ⟨"B", 2, none⟩, ⟨"C", 3, some "d3"⟩] =
    .ok ([⟨"B", 0, 2, none⟩, ⟨"A", 0, 1, some "d1"⟩, ⟨"C", 1, 3, some "d3"⟩], ⟨"B", 0, 2, none⟩) := by decide +kernel

end Artist.Paint
