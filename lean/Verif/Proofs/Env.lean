import Verif.Model.Env
import Mathlib.Data.List.Basic
import Mathlib.Data.List.Nodup
import Mathlib.Data.List.Range
import Mathlib.Tactic.Common
import Mathlib.Data.Nat.Basic
/-! Helper lemmas for `Verif.Model.Env`. -/
namespace Artist.Env
open Artist

theorem deal_spec (W : Nat) (hW : 0 < W) (groups : List Nat) :
    ∀ (table : List (List Nat)) (pos q : Nat), table.length = W → pos ≤ W → q % W = pos % W →
      ∃ T, deal table pos groups = .ok T ∧ T.length = W ∧
        ∀ r, T[r]? = (table[r]?).map
          (· ++ ((groups.zipIdx q).filter (fun x => x.2 % W == r)).map Prod.fst) := by
  induction groups with
  | nil =>
    intro table pos q hl _ _
    refine ⟨table, rfl, hl, ?_⟩
    intro r
    cases table[r]? <;> simp
  | cons g gs ih =>
    intro table pos q hl hp hq
    have hne : ¬ table.length = 0 := by omega
    set p := if pos < table.length then pos else 0 with hpdef
    have hpW : p < W := by rw [hpdef]; split <;> omega
    have hpmod : q % W = p := by
      rw [hq, hpdef]; split
      · exact Nat.mod_eq_of_lt (by omega)
      · have : pos = W := by omega
        subst this; simp
    have h1 : (q + 1) % W = (p + 1) % W := by
      rw [Nat.add_mod, hpmod]
      conv_rhs => rw [Nat.add_mod]
      rw [Nat.mod_eq_of_lt hpW]
    obtain ⟨T, hT, hTl, hTr⟩ := ih (table.modify p (· ++ [g])) (p + 1) (q + 1)
      (by simpa using hl) (by omega) h1
    refine ⟨T, ?_, hTl, ?_⟩
    · rw [deal]; simp only [hne, if_false]; exact hT
    · intro r
      rw [hTr r, List.getElem?_modify, List.zipIdx_cons]
      by_cases hr : p = r
      · subst hr
        rw [List.filter_cons]
        simp only [hpmod, beq_self_eq_true, if_true, List.map_cons]
        cases table[p]? <;> simp
      · rw [List.filter_cons]
        have : ¬ (q % W == r) = true := by simpa [hpmod] using hr
        simp only [this, if_neg hr]
        cases table[r]? <;> simp

theorem zipIdx_range_filter (G W r : Nat) :
    (((List.range G).zipIdx 0).filter (fun x => x.2 % W == r)).map Prod.fst
      = (List.range G).filter (fun g => g % W == r) := by
  have h : (List.range G).zipIdx 0 = (List.range G).map (fun i => (i, i)) := by
    apply List.ext_getElem <;> simp
  rw [h, List.filter_map, List.map_map]
  simp [Function.comp_def]

theorem cycleTakeFrom_getElem (G : Nat) (hG : 0 < G) :
    ∀ (n k : Nat), k ≤ G →
      cycleTakeFrom (List.range G) ((List.range G).drop k) n
        = (List.range n).map (fun j => (k + j) % G) := by
  intro n
  induction n with
  | zero => intro k _; simp [cycleTakeFrom]
  | succ n ih =>
    intro k hk
    rw [List.range_succ_eq_map, List.map_cons, List.map_map]
    by_cases hkG : k < G
    · rw [List.drop_eq_getElem_cons (by simpa using hkG), cycleTakeFrom, ih (k+1) (by omega)]
      simp only [List.getElem_range, Nat.add_zero, Nat.mod_eq_of_lt hkG]
      congr 1
      apply List.map_congr_left
      intro j _
      simp only [Function.comp_apply]
      congr 1; omega
    · have hkG' : k = G := by omega
      subst hkG'
      have hdrop : (List.range k).drop k = [] := by simp
      rw [hdrop]
      obtain ⟨m, rfl⟩ : ∃ m, k = m + 1 := ⟨k - 1, by omega⟩
      have := ih 1 (by omega)
      have hr : List.range (m+1) = 0 :: (List.range (m+1)).drop 1 := by
        rw [List.range_succ_eq_map]; simp
      have hstep : cycleTakeFrom (List.range (m+1)) [] (n+1)
          = 0 :: cycleTakeFrom (List.range (m+1)) ((List.range (m+1)).drop 1) n := by
        generalize hq : List.range (m+1) = l at hr ⊢
        cases l with
        | nil => simp at hr
        | cons y ys => simp only [List.drop_succ_cons, List.drop_zero, List.cons.injEq, and_true] at hr; subst hr; simp [cycleTakeFrom]
      rw [hstep, this]
      simp only [Nat.add_zero, Nat.mod_self]
      congr 1
      apply List.map_congr_left
      intro j _
      simp only [Function.comp_apply]
      rw [show m + 1 + (j+1) = (1 + j) + (m+1) by omega, Nat.add_mod_right]

theorem cycleTake_range (G W : Nat) (hG : 0 < G) :
    cycleTakeFrom (List.range G) (List.range G) W = (List.range W).map (· % G) := by
  have := cycleTakeFrom_getElem G hG W 0 (by omega)
  simpa using this

theorem range_filter_eq (W r : Nat) (hr : r < W) :
    (List.range W).filter (fun k => k == r) = [r] := by
  induction W with
  | zero => omega
  | succ n ih =>
    rw [List.range_succ, List.filter_append]
    by_cases h : r < n
    · rw [ih h]; simp [show ¬ n = r by omega]
    · have : r = n := by omega
      subst this
      have : (List.range r).filter (fun k => k == r) = [] := by
        rw [List.filter_eq_nil_iff]; intro a ha; simp at ha ⊢; omega
      rw [this]; simp

/-- closed form of the distribution, `W ≤ G` -/
theorem distribute_flat (W G : Nat) (hW : 0 < W) (h : W ≤ G) :
    ∃ T, distribute W G = .ok (T, false) ∧ T.length = W ∧
      ∀ r, r < W → T[r]? = some ((List.range G).filter (fun g => g % W == r)) := by
  obtain ⟨T, hT, hl, hr⟩ := deal_spec W hW (List.range G) (List.replicate W []) 0 0 (by simp)
    (by omega) rfl
  refine ⟨T, ?_, hl, ?_⟩
  · unfold distribute
    have : ¬ W > G := by omega
    simp only [this, decide_false]
    simp [hT]
  · intro r hrW
    rw [hr r, zipIdx_range_filter]
    simp [hrW]

/-- closed form of the distribution, `W > G` -/
theorem distribute_nested (W G : Nat) (hG : 0 < G) (h : G < W) :
    ∃ T, distribute W G = .ok (T, true) ∧ T.length = W ∧
      ∀ r, r < W → T[r]? = some [r % G] := by
  obtain ⟨T, hT, hl, hr⟩ := deal_spec W (by omega) ((List.range W).map (· % G))
    (List.replicate W []) 0 0 (by simp) (by omega) rfl
  refine ⟨T, ?_, hl, ?_⟩
  · unfold distribute
    have : W > G := by omega
    simp only [this, decide_true, if_true, cycleTake_range G W hG, hT]
  · intro r hrW
    rw [hr r]
    have hz : ((List.range W).map (· % G)).zipIdx 0 = (List.range W).map (fun i => (i % G, i)) := by
      apply List.ext_getElem <;> simp
    rw [hz, List.filter_map, List.map_map]
    have : (List.range W).filter ((fun x : Nat × Nat => x.2 % W == r) ∘ fun i => (i % G, i))
        = [r] := by
      rw [← range_filter_eq W r hrW]
      apply List.filter_congr
      intro a ha
      simp only [List.mem_range] at ha
      simp [Nat.mod_eq_of_lt ha]
    rw [this]
    simp [hrW]

/-- number of `k < n` in a residue class -/
theorem countP_residue (G g : Nat) (hg : g < G) (n : Nat) :
    (List.range n).countP (fun k => k % G == g) = (n + (G - 1 - g)) / G := by
  induction n with
  | zero => simp; rw [eq_comm, Nat.div_eq_zero_iff]; omega
  | succ n ih =>
    rw [List.range_succ, List.countP_append, ih]
    have hs := @Nat.succ_div (n + (G - 1 - g)) G
    rw [show n + 1 + (G - 1 - g) = n + (G - 1 - g) + 1 by omega, hs]
    congr 1
    simp only [List.countP_cons, List.countP_nil, Nat.zero_add]
    have : (n % G = g) ↔ G ∣ n + (G - 1 - g) + 1 := by
      rw [show n + (G - 1 - g) + 1 = n + (G - g) by omega]
      constructor
      · intro h
        have := Nat.div_add_mod n G
        refine ⟨n / G + 1, ?_⟩
        rw [Nat.mul_add]; omega
      · rintro ⟨c, hc⟩
        have hc1 : 1 ≤ c := by
          rcases c with _ | c
          · simp at hc; omega
          · omega
        have : n = g + G * (c - 1) := by
          obtain ⟨d, rfl⟩ : ∃ d, c = d + 1 := ⟨c - 1, by omega⟩
          rw [Nat.mul_add] at hc
          simp; omega
        rw [this, Nat.add_mul_mod_self_left, Nat.mod_eq_of_lt hg]
    by_cases hh : n % G = g
    · simp [hh, ← this]
    · simp only [← this]; simp [hh]

theorem div_close (a b G : Nat) (hG : 0 < G) (h : a < b + G) : a / G ≤ b / G + 1 := by
  have : a / G ≤ (b + G) / G := Nat.div_le_div_right (by omega)
  rwa [Nat.add_div_right _ hG] at this

/-! ### Inversion -/

theorem dictGet_dictAppend {K V : Type} [DecidableEq K] (d : List (K × List V)) (k k' : K) (x : V) :
    dictGet (dictAppend d k x) k' =
      if k' = k then some ((dictGet d k).getD [] ++ [x]) else dictGet d k' := by
  induction d with
  | nil =>
    simp only [dictAppend, dictGet]
    by_cases h : k' = k
    · simp [h]
    · simp [h, Ne.symm h]
  | cons e rest ih =>
    obtain ⟨k0, vs⟩ := e
    simp only [dictAppend]
    by_cases h0 : k0 = k
    · subst h0
      simp only [if_true, dictGet]
      by_cases h : k' = k0
      · simp [h]
      · simp [h, Ne.symm h]
    · simp only [if_neg h0, dictGet, ih]
      by_cases h : k0 = k'
      · subst h; simp [h0]
      · simp [h]

theorem dictAppend_keys {K V : Type} [DecidableEq K] (d : List (K × List V)) (k : K) (x : V) :
    (dictAppend d k x).map Prod.fst = if k ∈ d.map Prod.fst then d.map Prod.fst
      else d.map Prod.fst ++ [k] := by
  induction d with
  | nil => simp [dictAppend]
  | cons e rest ih =>
    obtain ⟨k0, vs⟩ := e
    simp only [dictAppend]
    by_cases h0 : k0 = k
    · subst h0; simp
    · simp only [if_neg h0, List.map_cons, ih]
      by_cases h : k ∈ rest.map Prod.fst
      · simp [h]
      · have : k ∉ k0 :: rest.map Prod.fst := by simp only [List.mem_cons, not_or]; exact ⟨Ne.symm h0, h⟩
        rw [if_neg h, if_neg this]; rfl

theorem dictAppend_keys_nodup {K V : Type} [DecidableEq K] (d : List (K × List V)) (k : K) (x : V)
    (h : (d.map Prod.fst).Nodup) : ((dictAppend d k x).map Prod.fst).Nodup := by
  rw [dictAppend_keys]
  split
  · exact h
  · rename_i hk
    rw [List.nodup_append]
    refine ⟨h, by simp, ?_⟩
    intro a ha b hb hab
    simp at hb; subst hb; subst hab; exact hk ha

theorem dictGet_eq_some_iff {K V : Type} [DecidableEq K] (d : List (K × V))
    (h : (d.map Prod.fst).Nodup) (k : K) (v : V) : dictGet d k = some v ↔ (k, v) ∈ d := by
  induction d with
  | nil => simp [dictGet]
  | cons e rest ih =>
    obtain ⟨k0, v0⟩ := e
    simp only [List.map_cons, List.nodup_cons] at h
    simp only [dictGet]
    by_cases h0 : k0 = k
    · subst h0
      simp only [if_true, Option.some.injEq, List.mem_cons, Prod.mk.injEq, true_and]
      constructor
      · intro h; exact Or.inl h.symm
      · rintro (h' | h')
        · exact h'.symm
        · exact absurd (List.mem_map_of_mem (f := Prod.fst) h') h.1
    · rw [if_neg h0, ih h.2]
      simp [Ne.symm h0]

/-- effect of one inner loop of the inversion -/
theorem foldl_dictAppend_get (groups : List Nat) (hn : groups.Nodup) (rank : Nat) :
    ∀ (d : List (Nat × List Nat)) (g : Nat),
      (dictGet (groups.foldl (fun d g => dictAppend d g rank) d) g)
        = if g ∈ groups then some ((dictGet d g).getD [] ++ [rank]) else dictGet d g := by
  induction groups with
  | nil => intro d g; simp
  | cons g0 gs ih =>
    intro d g
    rw [List.nodup_cons] at hn
    rw [List.foldl_cons, ih hn.2]
    by_cases h : g = g0
    · subst h; simp [hn.1, dictGet_dictAppend]
    · simp [dictGet_dictAppend, h]

theorem foldl_dictAppend_nodup (groups : List Nat) (rank : Nat) :
    ∀ (d : List (Nat × List Nat)), (d.map Prod.fst).Nodup →
      ((groups.foldl (fun d g => dictAppend d g rank) d).map Prod.fst).Nodup := by
  induction groups with
  | nil => intro d h; simpa
  | cons g0 gs ih => intro d h; exact ih _ (dictAppend_keys_nodup d g0 rank h)

theorem invertFrom_nodup (table : List (List Nat)) :
    ∀ (r0 : Nat) (d : List (Nat × List Nat)), (d.map Prod.fst).Nodup →
      ((invertFrom r0 table d).map Prod.fst).Nodup := by
  induction table with
  | nil => intro r0 d h; simpa [invertFrom]
  | cons gs rest ih =>
    intro r0 d h
    exact ih _ _ (foldl_dictAppend_nodup gs r0 d h)

/-- ranks (counted from `r0`) whose list contains `g` -/
def holders (r0 : Nat) (table : List (List Nat)) (g : Nat) : List Nat :=
  match table with
  | [] => []
  | gs :: rest => (if g ∈ gs then [r0] else []) ++ holders (r0 + 1) rest g

theorem holders_ge (table : List (List Nat)) (g : Nat) :
    ∀ (r0 r : Nat), r ∈ holders r0 table g → r0 ≤ r := by
  induction table with
  | nil => intro r0 r h; simp [holders] at h
  | cons gs rest ih =>
    intro r0 r h
    simp only [holders, List.mem_append] at h
    rcases h with h | h
    · split at h <;> simp at h; omega
    · have := ih _ _ h; omega

theorem holders_sorted (table : List (List Nat)) (g : Nat) :
    ∀ (r0 : Nat), (holders r0 table g).Pairwise (· < ·) := by
  induction table with
  | nil => intro r0; simp [holders]
  | cons gs rest ih =>
    intro r0
    simp only [holders]
    rw [List.pairwise_append]
    refine ⟨by split <;> simp, ih _, ?_⟩
    intro a ha b hb
    have := holders_ge rest g _ _ hb
    split at ha <;> simp at ha; omega

theorem mem_holders (table : List (List Nat)) (g : Nat) :
    ∀ (r0 r : Nat), r ∈ holders r0 table g ↔ r0 ≤ r ∧ ∃ gs, table[r - r0]? = some gs ∧ g ∈ gs := by
  induction table with
  | nil => intro r0 r; simp [holders]
  | cons gs rest ih =>
    intro r0 r
    simp only [holders, List.mem_append, ih]
    constructor
    · rintro (h | ⟨h1, gs', h2, h3⟩)
      · split at h
        · rename_i hg
          simp at h; subst h
          exact ⟨le_refl _, gs, by simp, hg⟩
        · simp at h
      · refine ⟨by omega, gs', ?_, h3⟩
        rw [show r - r0 = (r - (r0+1)) + 1 by omega]; simpa using h2
    · rintro ⟨h1, gs', h2, h3⟩
      by_cases h : r = r0
      · subst h
        simp at h2; subst h2
        left; simp [h3]
      · right
        refine ⟨by omega, gs', ?_, h3⟩
        rw [show r - r0 = (r - (r0+1)) + 1 by omega] at h2; simpa using h2

theorem invertFrom_get (table : List (List Nat)) (hn : ∀ gs ∈ table, gs.Nodup) :
    ∀ (r0 : Nat) (d : List (Nat × List Nat)) (g : Nat),
      dictGet (invertFrom r0 table d) g =
        if holders r0 table g = [] then dictGet d g
        else some ((dictGet d g).getD [] ++ holders r0 table g) := by
  induction table with
  | nil => intro r0 d g; simp [invertFrom, holders]
  | cons gs rest ih =>
    intro r0 d g
    simp only [invertFrom]
    rw [ih (fun x hx => hn x (List.mem_cons_of_mem _ hx)),
      foldl_dictAppend_get gs (hn gs List.mem_cons_self)]
    simp only [holders]
    by_cases hg : g ∈ gs
    · simp only [if_pos hg]
      split
      · rename_i h; simp [h]
      · simp
    · simp only [if_neg hg, List.nil_append]

theorem invert_get (table : List (List Nat)) (hn : ∀ gs ∈ table, gs.Nodup) (g : Nat) :
    dictGet (invert table) g = if holders 0 table g = [] then none
      else some (holders 0 table g) := by
  unfold invert
  rw [invertFrom_get table hn]
  simp [dictGet]

theorem invert_keys_nodup (table : List (List Nat)) : ((invert table).map Prod.fst).Nodup :=
  invertFrom_nodup table 0 [] (by simp)

theorem mem_invert (table : List (List Nat)) (hn : ∀ gs ∈ table, gs.Nodup) (g : Nat)
    (rs : List Nat) : (g, rs) ∈ invert table ↔ rs ≠ [] ∧ rs = holders 0 table g := by
  rw [← dictGet_eq_some_iff _ (invert_keys_nodup table), invert_get table hn]
  split
  · rename_i h; simp only [reduceCtorEq, false_iff, not_and]; intro h1 h2; exact h1 (h2.trans h)
  · rename_i h
    constructor
    · intro h2; simp at h2; subst h2; exact ⟨h, rfl⟩
    · rintro ⟨_, h2⟩; rw [h2]

theorem findSubgroup_unique (rank : Nat) (d : List (Nat × List Nat)) (e : Nat × List Nat)
    (he : e ∈ d) (hr : rank ∈ e.2) (hu : ∀ e' ∈ d, rank ∈ e'.2 → e'.2 = e.2) :
    findSubgroup rank d = ⟨e.2.idxOf rank, e.2.length, some e.2⟩ := by
  unfold findSubgroup
  have key : ∀ (d : List (Nat × List Nat)) (info : SubgroupInfo),
      (∀ e' ∈ d, rank ∈ e'.2 → e'.2 = e.2) →
      (info = ⟨e.2.idxOf rank, e.2.length, some e.2⟩ ∨ e ∈ d) →
      d.foldl (fun info entry =>
        if rank ∈ entry.2 then ⟨entry.2.idxOf rank, entry.2.length, some entry.2⟩ else info) info
        = ⟨e.2.idxOf rank, e.2.length, some e.2⟩ := by
    intro d
    induction d with
    | nil => intro info _ h; rcases h with h | h; exact h; simp at h
    | cons x xs ih =>
      intro info hu h
      rw [List.foldl_cons]
      apply ih _ (fun e' he' => hu e' (List.mem_cons_of_mem _ he'))
      by_cases hx : rank ∈ x.2
      · left; rw [if_pos hx, hu x List.mem_cons_self hx]
      · rw [if_neg hx]
        rcases h with h | h
        · left; exact h
        · rcases List.mem_cons.1 h with h | h
          · subst h; exact absurd hr hx
          · right; exact h
  exact key d _ hu (Or.inr he)

theorem findSubgroup_none (rank : Nat) (d : List (Nat × List Nat))
    (h : ∀ e ∈ d, rank ∉ e.2) : findSubgroup rank d = defaultInfo := by
  unfold findSubgroup
  induction d with
  | nil => rfl
  | cons x xs ih =>
    rw [List.foldl_cons, if_neg (h x List.mem_cons_self)]
    exact ih (fun e he => h e (List.mem_cons_of_mem _ he))

end Artist.Env
