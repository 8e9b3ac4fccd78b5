import Verif.Spec.Flatten
import Mathlib.Data.List.Nodup
/-! Helper lemmas on flattening. -/
namespace Artist.Flatten
open Artist

variable {V : Type}

/-- Leaves with their paths, in order. -/
def leaves : Tree V → List (List Key × V)
  | .nil => []
  | .leaf k v rest => ([k], v) :: leaves rest
  | .node k sub rest => (leaves sub).map (fun x => (k :: x.1, x.2)) ++ leaves rest

theorem path_ne_nil (t : Tree V) : ∀ x ∈ leaves t, x.1 ≠ [] := by
  induction t with
  | nil => intro x hx; cases hx
  | leaf k v rest ih =>
    intro x hx
    rcases List.mem_cons.1 hx with rfl | hx
    · simp
    · exact ih x hx
  | node k sub rest _ ih =>
    intro x hx
    rcases List.mem_append.1 hx with hx | hx
    · obtain ⟨y, _, rfl⟩ := List.mem_map.1 hx; simp
    · exact ih x hx

theorem join_cons {k : Key} {ks : List Key} (h : ks ≠ []) : join (k :: ks) = k ++ '/' :: join ks := by
  cases ks with
  | nil => exact absurd rfl h
  | cons a as => rfl

theorem gen_child (t : Tree V) : ∀ parent : Key, parent ≠ [] →
    gen '/' parent t = (leaves t).map (fun x => (parent ++ '/' :: join x.1, x.2)) := by
  induction t with
  | nil => intro _ _; rfl
  | leaf k v rest ih =>
    intro parent hp
    simp only [gen, leaves, List.map_cons, newKey, if_pos hp, join]
    rw [ih parent hp]
    simp
  | node k sub rest ih1 ih2 =>
    intro parent hp
    simp only [gen, leaves, List.map_append, List.map_map, newKey, if_pos hp]
    rw [ih2 parent hp, ih1 _ (by simp)]
    congr 1
    apply List.map_congr_left
    intro x hx
    have := path_ne_nil sub x hx
    simp [join_cons this]

theorem gen_top (t : Tree V) (hp : t.Proper) : gen '/' [] t = (leaves t).map (fun x => (join x.1, x.2)) := by
  induction t with
  | nil => rfl
  | leaf k v rest ih =>
    simp only [gen, leaves, List.map_cons, newKey, join]
    rw [ih hp.2.2.2]; rfl
  | node k sub rest ih1 ih2 =>
    simp only [gen, leaves, List.map_append, List.map_map, newKey]
    rw [ih2 hp.2.2.2.2]
    have hk : (if ([] : Key) ≠ [] then [] ++ ['/'] ++ k else k) = k := by simp
    rw [hk, gen_child sub k hp.1]
    congr 1
    apply List.map_congr_left
    intro x hx
    have := path_ne_nil sub x hx
    simp [join_cons this]

/-- Keys of a path are usable. -/
def Good (path : List Key) : Prop := ∀ k ∈ path, k ≠ [] ∧ '/' ∉ k

theorem leaves_good (t : Tree V) (hp : t.Proper) : ∀ x ∈ leaves t, Good x.1 := by
  induction t with
  | nil => intro x hx; cases hx
  | leaf k v rest ih =>
    intro x hx
    rcases List.mem_cons.1 hx with rfl | hx
    · intro k' hk'; rw [List.mem_singleton] at hk'; subst hk'; exact ⟨hp.1, hp.2.1⟩
    · exact ih hp.2.2.2 x hx
  | node k sub rest ih1 ih2 =>
    intro x hx
    rcases List.mem_append.1 hx with hx | hx
    · obtain ⟨y, hy, rfl⟩ := List.mem_map.1 hx
      intro k' hk'
      rcases List.mem_cons.1 hk' with rfl | hk'
      · exact ⟨hp.1, hp.2.1⟩
      · exact ih1 hp.2.2.2.1 y hy k' hk'
    · exact ih2 hp.2.2.2.2 x hx

theorem sep_split {a b x y : Key} (ha : '/' ∉ a) (hb : '/' ∉ b) (h : a ++ '/' :: x = b ++ '/' :: y) : a = b ∧ x = y := by
  induction a generalizing b with
  | nil =>
    cases b with
    | nil => simpa using h
    | cons c cs =>
      simp only [List.nil_append, List.cons_append, List.cons.injEq] at h
      exact absurd (by rw [h.1]; exact List.mem_cons_self) hb
  | cons c cs ih =>
    cases b with
    | nil =>
      simp only [List.nil_append, List.cons_append, List.cons.injEq] at h
      exact absurd (by rw [← h.1]; exact List.mem_cons_self) ha
    | cons d ds =>
      simp only [List.cons_append, List.cons.injEq] at h
      obtain ⟨h1, h2⟩ := ih (fun hc => ha (List.mem_cons_of_mem _ hc)) (fun hc => hb (List.mem_cons_of_mem _ hc)) h.2
      exact ⟨by rw [h.1, h1], h2⟩

theorem join_ne_nil {p : List Key} (h : p ≠ []) (hg : Good p) : join p ≠ [] := by
  match p, h with
  | [k], _ => exact (hg k (by simp)).1
  | k :: l :: ls, _ => simp [join]

theorem join_inj : ∀ {p q : List Key}, Good p → Good q → join p = join q → p = q
  | [], [], _, _, _ => rfl
  | [], q :: qs, _, hq, h => absurd h.symm (join_ne_nil (by simp) hq)
  | p :: ps, [], hp, _, h => absurd h (join_ne_nil (by simp) hp)
  | [p], [q], _, _, h => by simp only [join] at h; rw [h]
  | [p], q :: r :: rs, hp, _, h => by
    simp only [join] at h
    exact absurd (by rw [h]; simp) (hp p (by simp)).2
  | p :: r :: rs, [q], _, hq, h => by
    simp only [join] at h
    exact absurd (by rw [← h]; simp) (hq q (by simp)).2
  | p :: r :: rs, q :: s :: ss, hp, hq, h => by
    rw [join_cons (k := p) (by simp), join_cons (k := q) (by simp)] at h
    obtain ⟨h1, h2⟩ := sep_split (hp p (by simp)).2 (hq q (by simp)).2 h
    rw [h1, join_inj (fun k hk => hp k (List.mem_cons_of_mem _ hk)) (fun k hk => hq k (List.mem_cons_of_mem _ hk)) h2]

theorem head_mem_keys (t : Tree V) : ∀ x ∈ leaves t, ∃ k ps, x.1 = k :: ps ∧ k ∈ t.keys := by
  induction t with
  | nil => intro x hx; cases hx
  | leaf k v rest ih =>
    intro x hx
    rcases List.mem_cons.1 hx with rfl | hx
    · exact ⟨k, [], rfl, by simp [Tree.keys]⟩
    · obtain ⟨k', ps, h1, h2⟩ := ih x hx
      exact ⟨k', ps, h1, by simp [Tree.keys, h2]⟩
  | node k sub rest _ ih =>
    intro x hx
    rcases List.mem_append.1 hx with hx | hx
    · obtain ⟨y, _, rfl⟩ := List.mem_map.1 hx
      exact ⟨k, y.1, rfl, by simp [Tree.keys]⟩
    · obtain ⟨k', ps, h1, h2⟩ := ih x hx
      exact ⟨k', ps, h1, by simp [Tree.keys, h2]⟩

theorem leaves_nodup (t : Tree V) (hp : t.Proper) : ((leaves t).map (·.1)).Nodup := by
  induction t with
  | nil => exact List.nodup_nil
  | leaf k v rest ih =>
    simp only [leaves, List.map_cons, List.nodup_cons]
    refine ⟨?_, ih hp.2.2.2⟩
    intro hm
    obtain ⟨x, hx, he⟩ := List.mem_map.1 hm
    obtain ⟨k', ps, h1, h2⟩ := head_mem_keys rest x hx
    rw [he] at h1; cases h1
    exact hp.2.2.1 h2
  | node k sub rest ih1 ih2 =>
    simp only [leaves, List.map_append, List.map_map]
    rw [List.nodup_append]
    refine ⟨?_, ih2 hp.2.2.2.2, ?_⟩
    · have : ((fun x : List Key × V => x.1) ∘ fun x : List Key × V => (k :: x.1, x.2)) = (fun p => k :: p) ∘ (fun x => x.1) := rfl
      rw [this, ← List.map_map]
      exact (ih1 hp.2.2.2.1).map (fun a b h => by cases h; rfl)
    · intro a ha b hb hab
      subst hab
      obtain ⟨x, _, rfl⟩ := List.mem_map.1 ha
      obtain ⟨y, hy, he⟩ := List.mem_map.1 hb
      obtain ⟨k', ps, h1, h2⟩ := head_mem_keys rest y hy
      rw [he] at h1; cases h1
      exact hp.2.2.1 h2

theorem dictSet_fresh (d : List (Key × V)) (k : Key) (v : V) (h : k ∉ d.map (·.1)) : dictSet d k v = d ++ [(k, v)] := by
  induction d with
  | nil => rfl
  | cons a as ih =>
    obtain ⟨k', v'⟩ := a
    simp only [List.map_cons, List.mem_cons, not_or] at h
    rw [dictSet, if_neg (Ne.symm h.1), ih h.2]; rfl

theorem toDict_nodup (l : List (Key × V)) (h : (l.map (·.1)).Nodup) : toDict l = l := by
  suffices ∀ (l d : List (Key × V)), ((d ++ l).map (·.1)).Nodup → l.foldl (fun d p => dictSet d p.1 p.2) d = d ++ l by
    simpa [toDict] using this l [] (by simpa using h)
  intro l
  induction l with
  | nil => intro d _; simp
  | cons a as ih =>
    intro d hd
    rw [List.foldl_cons, dictSet_fresh, ih]
    · simp
    · simpa using hd
    · rw [List.map_append, List.nodup_append] at hd
      intro hm
      exact hd.2.2 _ hm _ (by simp) rfl

theorem flatten_eq (t : Tree V) (hp : t.Proper) : flatten t = (leaves t).map (fun x => (join x.1, x.2)) := by
  unfold flatten
  rw [gen_top t hp]
  apply toDict_nodup
  rw [List.map_map]
  have : ((fun x : Key × V => x.1) ∘ fun x : List Key × V => (join x.1, x.2)) = join ∘ (fun x => x.1) := rfl
  rw [this, ← List.map_map]
  apply List.Nodup.map_on _ (leaves_nodup t hp)
  intro p hpm q hqm h
  obtain ⟨x, hx, rfl⟩ := List.mem_map.1 hpm
  obtain ⟨y, hy, rfl⟩ := List.mem_map.1 hqm
  exact join_inj (leaves_good t hp x hx) (leaves_good t hp y hy) h

theorem mem_leaves (t : Tree V) (hp : t.Proper) (path : List Key) (v : V) : (path, v) ∈ leaves t ↔ t.lookup path = some v := by
  induction t generalizing path with
  | nil => simp [leaves, Tree.lookup]
  | leaf k w rest ih =>
    have ihr := ih hp.2.2.2
    have hno : ∀ (p : Key) (ps : List Key) (u : V), (p :: ps, u) ∈ leaves rest → p ≠ k := by
      intro p ps u hm he
      obtain ⟨k', ps', h1, h2⟩ := head_mem_keys rest _ hm
      cases h1
      exact hp.2.2.1 (he ▸ h2)
    simp only [leaves, List.mem_cons, Prod.mk.injEq]
    match path with
    | [] =>
      simp only [Tree.lookup]
      constructor
      · rintro (⟨h, _⟩ | h)
        · cases h
        · exact absurd rfl (path_ne_nil rest _ h)
      · intro h; cases h
    | [p] =>
      simp only [Tree.lookup]
      split
      · rename_i he
        subst he
        constructor
        · rintro (⟨_, h⟩ | h)
          · rw [h]
          · exact absurd rfl (hno _ _ _ h)
        · intro h; cases h; left; exact ⟨rfl, rfl⟩
      · rename_i he
        rw [← ihr]
        constructor
        · rintro (⟨h, _⟩ | h)
          · cases h; exact absurd rfl he
          · exact h
        · exact Or.inr
    | p :: q :: ps =>
      simp only [Tree.lookup]
      split
      · rename_i he
        subst he
        constructor
        · rintro (⟨h, _⟩ | h)
          · cases h
          · exact absurd rfl (hno _ _ _ h)
        · intro h; cases h
      · rw [← ihr]
        constructor
        · rintro (⟨h, _⟩ | h)
          · cases h
          · exact h
        · exact Or.inr
  | node k sub rest ih1 ih2 =>
    have ihs := ih1 hp.2.2.2.1
    have ihr := ih2 hp.2.2.2.2
    have hno : ∀ (p : Key) (ps : List Key) (u : V), (p :: ps, u) ∈ leaves rest → p ≠ k := by
      intro p ps u hm he
      obtain ⟨k', ps', h1, h2⟩ := head_mem_keys rest _ hm
      cases h1
      exact hp.2.2.1 (he ▸ h2)
    simp only [leaves, List.mem_append, List.mem_map]
    match path with
    | [] =>
      simp only [Tree.lookup]
      constructor
      · rintro (⟨x, _, h⟩ | h)
        · cases h
        · exact absurd rfl (path_ne_nil rest _ h)
      · intro h; cases h
    | p :: ps =>
      simp only [Tree.lookup]
      split
      · rename_i he
        subst he
        rw [← ihs]
        constructor
        · rintro (⟨x, hx, h⟩ | h)
          · cases h; exact hx
          · exact absurd rfl (hno _ _ _ h)
        · intro h; left; exact ⟨_, h, rfl⟩
      · rename_i he
        rw [← ihr]
        constructor
        · rintro (⟨x, hx, h⟩ | h)
          · cases h; exact absurd rfl he
          · exact h
        · exact Or.inr

theorem leaves_ne_nil (t : Tree V) (hn : t.NoEmpty) (h : t ≠ .nil) : leaves t ≠ [] := by
  induction t with
  | nil => exact absurd rfl h
  | leaf k v rest _ => simp [leaves]
  | node k sub rest ih _ =>
    have := ih hn.2.1 hn.1
    simp [leaves, this]

/-- First key of a path. -/
def under (k : Key) (x : List Key × V) : Bool := x.1.head? == some k

theorem filter_sub (k : Key) (sub : Tree V) :
    ((leaves sub).map (fun x => (k :: x.1, x.2))).filter (under k) = (leaves sub).map (fun x => (k :: x.1, x.2)) := by
  rw [List.filter_eq_self]
  intro x hx
  obtain ⟨y, _, rfl⟩ := List.mem_map.1 hx
  simp [under]

theorem filter_rest (k : Key) (rest : Tree V) (h : k ∉ rest.keys) : (leaves rest).filter (under k) = [] := by
  rw [List.filter_eq_nil_iff]
  intro x hx
  obtain ⟨k', ps, h1, h2⟩ := head_mem_keys rest x hx
  simp only [under, h1, List.head?_cons, beq_iff_eq, Option.some.injEq]
  rintro rfl
  exact h h2

theorem split_first {k : Key} {a b c d : List (List Key × V)} (h : a ++ b = c ++ d)
    (ha : a.filter (under k) = a) (hc : c.filter (under k) = c) (hb : b.filter (under k) = []) (hd : d.filter (under k) = []) : a = c ∧ b = d := by
  have := congrArg (List.filter (under k)) h
  rw [List.filter_append, List.filter_append, ha, hb, hc, hd, List.append_nil, List.append_nil] at this
  subst this
  exact ⟨rfl, List.append_cancel_left h⟩

theorem leaves_inj (s t : Tree V) (hs : s.Proper) (ht : t.Proper) (hs' : s.NoEmpty) (ht' : t.NoEmpty) (h : leaves s = leaves t) : s = t := by
  induction s generalizing t with
  | nil =>
    by_contra hne
    exact leaves_ne_nil t ht' (Ne.symm hne) h.symm
  | leaf k v rest ih =>
    cases t with
    | nil => simp [leaves] at h
    | leaf k' v' rest' =>
      simp only [leaves, List.cons.injEq, Prod.mk.injEq, and_true] at h
      obtain ⟨⟨rfl, rfl⟩, h⟩ := h
      rw [ih rest' hs.2.2.2 ht.2.2.2 hs' ht' h]
    | node k' sub' rest' =>
      exfalso
      have hne := leaves_ne_nil sub' ht'.2.1 ht'.1
      simp only [leaves] at h
      cases hl : leaves sub' with
      | nil => exact hne hl
      | cons x xs =>
        rw [hl] at h
        simp only [List.map_cons, List.cons_append, List.cons.injEq, Prod.mk.injEq] at h
        exact path_ne_nil sub' x (by rw [hl]; simp) h.1.1.2.symm
  | node k sub rest ih1 ih2 =>
    have hne := leaves_ne_nil sub hs'.2.1 hs'.1
    cases t with
    | nil => simp [leaves, hne] at h
    | leaf k' v' rest' =>
      exfalso
      simp only [leaves] at h
      cases hl : leaves sub with
      | nil => exact hne hl
      | cons x xs =>
        rw [hl] at h
        simp only [List.map_cons, List.cons_append, List.cons.injEq, Prod.mk.injEq] at h
        exact path_ne_nil sub x (by rw [hl]; simp) h.1.1.2
    | node k' sub' rest' =>
      have hne' := leaves_ne_nil sub' ht'.2.1 ht'.1
      simp only [leaves] at h
      have hk : k = k' := by
        cases hl : leaves sub with
        | nil => exact absurd hl hne
        | cons x xs =>
          cases hl' : leaves sub' with
          | nil => exact absurd hl' hne'
          | cons y ys =>
            rw [hl, hl'] at h
            simp only [List.map_cons, List.cons_append, List.cons.injEq, Prod.mk.injEq] at h
            exact h.1.1.1
      subst hk
      obtain ⟨h1, h2⟩ := split_first h (filter_sub k sub) (filter_sub k sub') (filter_rest k rest hs.2.2.1) (filter_rest k rest' ht.2.2.1)
      have h3 : leaves sub = leaves sub' := by
        refine (List.map_injective_iff.2 ?_) h1
        intro a b hab
        simp only [Prod.mk.injEq, List.cons.injEq, true_and] at hab
        exact Prod.ext hab.1 hab.2
      rw [ih1 sub' hs.2.2.2.1 ht.2.2.2.1 hs'.2.1 ht'.2.1 h3, ih2 rest' hs.2.2.2.2 ht.2.2.2.2 hs'.2.2 ht'.2.2 h2]

end Artist.Flatten
