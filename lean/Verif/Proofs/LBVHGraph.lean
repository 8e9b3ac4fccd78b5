import Verif.Spec.LBVH
import Mathlib.Tactic.Common
import Mathlib.Tactic.Linarith
import Mathlib.Algebra.BigOperators.Group.List.Basic
/-! Helper lemmas: depth computation and traversal on an arbitrary child table. -/
namespace Artist.LBVH
open Artist

variable {left right : List Int}

theorem Path.snoc {a b c k : Nat} (h : Path left right a b k) (hc : IsChild left right b c) :
    Path left right a c (k + 1) := by
  induction h with
  | refl a => exact Path.step hc (Path.refl _)
  | step h1 _ ih => exact Path.step h1 (ih hc)

theorem Path.trans {a b c k m : Nat} (h : Path left right a b k) (h2 : Path left right b c m) :
    Path left right a c (m + k) := by
  induction h with
  | refl a => exact h2
  | step h1 _ ih => exact Path.step h1 (ih h2)

/-- Well-formed child table on `N` nodes. -/
structure WF (left right : List Int) (N : Nat) : Prop where
  lenL : left.length = N
  lenR : right.length = N
  bound : ∀ a c, IsChild left right a c → c < N

/-- A rank that strictly decreases along child links. -/
def Ranked (left right : List Int) (ρ : Nat → Nat) : Prop := ∀ a c, IsChild left right a c → ρ c < ρ a

/-- A set of nodes closed under child links, inside the table, on which the rank strictly decreases along child links. -/
structure RankedOn (left right : List Int) (N : Nat) (S : Nat → Prop) (ρ : Nat → Nat) : Prop where
  bound : ∀ x, S x → x < N
  closed : ∀ a c, S a → IsChild left right a c → S c
  rank : ∀ a c, S a → IsChild left right a c → ρ c < ρ a

theorem Ranked.on {N : Nat} {ρ : Nat → Nat} (wf : WF left right N) (hr : Ranked left right ρ) : RankedOn left right N (fun x => x < N) ρ :=
  ⟨fun _ h => h, fun a c _ h => wf.bound a c h, fun a c _ h => hr a c h⟩

def cost (ρ : Nat → Nat) (x : Nat) : Nat := 2 ^ (ρ x + 1) - 1

theorem cost_pos (ρ : Nat → Nat) (x : Nat) : 1 ≤ cost ρ x := by
  unfold cost
  have : 2 ^ 1 ≤ 2 ^ (ρ x + 1) := Nat.pow_le_pow_right (by norm_num) (by omega)
  omega

theorem cost_child {ρ : Nat → Nat} {a c : Nat} (h : ρ c < ρ a) : 2 * cost ρ c + 1 ≤ cost ρ a := by
  unfold cost
  have h1 : 2 ^ (ρ c + 1 + 1) ≤ 2 ^ (ρ a + 1) := Nat.pow_le_pow_right (by norm_num) (by omega)
  rw [Nat.pow_succ] at h1
  have : 1 ≤ 2 ^ (ρ c + 1) := Nat.one_le_two_pow
  omega

def stackCost (ρ : Nat → Nat) (s : List Nat) : Nat := (s.map (cost ρ)).sum

theorem mem_push {α : Type} (l r : Int) (a b : α) (rest : List α) (x : α) :
    x ∈ (if 0 ≤ r then b :: (if 0 ≤ l then a :: rest else rest) else (if 0 ≤ l then a :: rest else rest)) ↔
      (x = b ∧ 0 ≤ r) ∨ (x = a ∧ 0 ≤ l) ∨ x ∈ rest := by
  by_cases h1 : 0 ≤ r <;> by_cases h2 : 0 ≤ l <;> simp only [h1, h2, if_true, if_false, List.mem_cons] <;> tauto

/-- what the two children contribute -/
theorem push_cost {ρ : Nat → Nat} (node : Nat) (hr : ∀ c, IsChild left right node c → ρ c < ρ node) (rest : List Nat)
    (l r : Int) (hl : left[node]? = some l) (hrr : right[node]? = some r) :
    stackCost ρ (if 0 ≤ r then r.toNat :: (if 0 ≤ l then l.toNat :: rest else rest)
      else (if 0 ≤ l then l.toNat :: rest else rest)) + 1 ≤ stackCost ρ (node :: rest) := by
  have cl : 0 ≤ l → 2 * cost ρ l.toNat + 1 ≤ cost ρ node := fun h =>
    cost_child (hr _ (Or.inl (by rw [hl]; simp [h])))
  have cr : 0 ≤ r → 2 * cost ρ r.toNat + 1 ≤ cost ρ node := fun h =>
    cost_child (hr _ (Or.inr (by rw [hrr]; simp [h])))
  have c0 := cost_pos ρ node
  unfold stackCost
  split <;> split <;> simp only [List.map_cons, List.sum_cons]
  · have := cl ‹_›; have := cr ‹_›; omega
  · have := cr ‹_›; omega
  · have := cl ‹_›; omega
  · omega

theorem path_cases {a b k : Nat} (h : Path left right a b k) :
    (a = b ∧ k = 0) ∨ ∃ c m, IsChild left right a c ∧ Path left right c b m ∧ k = m + 1 := by
  cases h with
  | refl => exact Or.inl ⟨rfl, rfl⟩
  | step h1 h2 => exact Or.inr ⟨_, _, h1, h2, rfl⟩

theorem depthLoop_spec {N : Nat} {S : Nat → Prop} {ρ : Nat → Nat} (wf : WF left right N) (hr : RankedOn left right N S ρ) :
    ∀ (fuel : Nat) (stack : List (Nat × Nat)) (md : Nat),
      (∀ x ∈ stack, S x.1) → stackCost ρ (stack.map Prod.fst) < fuel →
      ∃ m, depthLoop left right fuel stack md = some (.ok m) ∧ md ≤ m ∧
        (∀ x ∈ stack, ∀ y k, Path left right x.1 y k → x.2 + k ≤ m) ∧
        (m = md ∨ ∃ x ∈ stack, ∃ y k, Path left right x.1 y k ∧ m = x.2 + k) := by
  intro fuel
  induction fuel with
  | zero => intro stack md _ h; omega
  | succ fuel ih =>
    intro stack md hN hc
    cases stack with
    | nil => exact ⟨md, rfl, le_refl _, by simp, Or.inl rfl⟩
    | cons x rest =>
      obtain ⟨node, depth⟩ := x
      have hnS : S node := hN (node, depth) (by simp)
      have hn : node < N := hr.bound _ hnS
      obtain ⟨l, hl⟩ : ∃ l, left[node]? = some l :=
        ⟨_, List.getElem?_eq_getElem (by rw [wf.lenL]; exact hn)⟩
      obtain ⟨r, hrr⟩ : ∃ r, right[node]? = some r :=
        ⟨_, List.getElem?_eq_getElem (by rw [wf.lenR]; exact hn)⟩
      simp only [depthLoop, hl, hrr]
      have hpc := push_cost node (fun c => hr.rank node c hnS) (rest.map Prod.fst) l r hl hrr
      set stack' : List (Nat × Nat) := if 0 ≤ r then (r.toNat, depth + 1) :: (if 0 ≤ l then (l.toNat, depth + 1) :: rest else rest)
        else (if 0 ≤ l then (l.toNat, depth + 1) :: rest else rest) with hs
      have hmap : stack'.map Prod.fst = if 0 ≤ r then r.toNat :: (if 0 ≤ l then l.toNat :: (rest.map Prod.fst) else (rest.map Prod.fst))
        else (if 0 ≤ l then l.toNat :: (rest.map Prod.fst) else (rest.map Prod.fst)) := by
        rw [hs]; split <;> split <;> simp
      have mem' : ∀ x, x ∈ stack' ↔ (x = (r.toNat, depth + 1) ∧ 0 ≤ r) ∨ (x = (l.toNat, depth + 1) ∧ 0 ≤ l) ∨ x ∈ rest := by
        intro x; exact mem_push _ _ _ _ _ _
      have chl : 0 ≤ l → IsChild left right node l.toNat := fun h => Or.inl (by rw [hl]; simp [h])
      have chr : 0 ≤ r → IsChild left right node r.toNat := fun h => Or.inr (by rw [hrr]; simp [h])
      obtain ⟨m, h1, h2, h3, h4⟩ := ih stack' (max md depth) (by
          intro x hx
          rcases (mem' x).1 hx with ⟨rfl, h⟩ | ⟨rfl, h⟩ | h
          · exact hr.closed _ _ hnS (chr h)
          · exact hr.closed _ _ hnS (chl h)
          · exact hN x (by simp [h]))
        (by rw [hmap]; simp only [List.map_cons] at hc; omega)
      refine ⟨m, h1, by omega, ?_, ?_⟩
      · intro x hx y k hp
        rcases List.mem_cons.1 hx with rfl | hx
        · rcases path_cases hp with ⟨_, rfl⟩ | ⟨c, k', hch, hp', rfl⟩
          · simp only; omega
          · rcases hch with hch | hch
            · rw [hl] at hch
              simp only [Option.some.injEq] at hch
              subst hch
              have := h3 (c, depth + 1) ((mem' _).2 (Or.inr (Or.inl ⟨by simp, by omega⟩))) y k' hp'
              simp only at this ⊢; omega
            · rw [hrr] at hch
              simp only [Option.some.injEq] at hch
              subst hch
              have := h3 (c, depth + 1) ((mem' _).2 (Or.inl ⟨by simp, by omega⟩)) y k' hp'
              simp only at this ⊢; omega
        · exact h3 x ((mem' x).2 (Or.inr (Or.inr hx))) y k hp
      · rcases h4 with h4 | ⟨x, hx, y, k, hp, rfl⟩
        · rcases Nat.le_total md depth with h | h
          · right
            exact ⟨(node, depth), by simp, node, 0, Path.refl _, by simp only; omega⟩
          · left; omega
        · right
          rcases (mem' x).1 hx with ⟨rfl, h⟩ | ⟨rfl, h⟩ | h
          · exact ⟨(node, depth), by simp, y, k + 1, Path.step (chr h) hp, by simp only; omega⟩
          · exact ⟨(node, depth), by simp, y, k + 1, Path.step (chl h) hp, by simp only; omega⟩
          · exact ⟨x, by simp [h], y, k, hp, rfl⟩

/-- If the loop stops within `fuel` passes, no path from a node on the stack is as long as `fuel`. -/
theorem depthLoop_path_lt :
    ∀ (fuel : Nat) (stack : List (Nat × Nat)) (md : Nat) (res : Except PyErr Nat),
      depthLoop left right fuel stack md = some res → (∃ m, res = .ok m) →
      ∀ x ∈ stack, ∀ y k, Path left right x.1 y k → k < fuel := by
  intro fuel
  induction fuel with
  | zero => intro stack md res h; simp [depthLoop] at h
  | succ fuel ih =>
    intro stack md res h hok x hx y k hp
    cases stack with
    | nil => simp at hx
    | cons z rest =>
      obtain ⟨node, depth⟩ := z
      simp only [depthLoop] at h
      cases hl : left[node]? with
      | none =>
        rw [hl] at h; simp at h; subst h; obtain ⟨m, hm⟩ := hok; simp at hm
      | some l =>
        cases hrr : right[node]? with
        | none => rw [hl, hrr] at h; simp at h; subst h; obtain ⟨m, hm⟩ := hok; simp at hm
        | some r =>
          rw [hl, hrr] at h
          simp only at h
          have key := ih _ _ _ h hok
          rcases List.mem_cons.1 hx with rfl | hx
          · rcases path_cases hp with ⟨_, rfl⟩ | ⟨c, k', hch, hp', rfl⟩
            · omega
            · have : k' < fuel := by
                rcases hch with hch | hch
                · rw [hl] at hch
                  simp only [Option.some.injEq] at hch
                  subst hch
                  refine key (c, depth + 1) ?_ y k' hp'
                  split <;> simp
                · rw [hrr] at hch
                  simp only [Option.some.injEq] at hch
                  subst hch
                  refine key (c, depth + 1) ?_ y k' hp'
                  simp
              omega
          · have : k < fuel := by
              refine key x ?_ y k hp
              split <;> split <;> simp [hx]
            omega

/-- With in-range child links the loop never raises. -/
theorem depthLoop_no_error {N : Nat} (wf : WF left right N) :
    ∀ (fuel : Nat) (stack : List (Nat × Nat)) (md : Nat), (∀ x ∈ stack, x.1 < N) →
      ∀ res, depthLoop left right fuel stack md = some res → ∃ m, res = .ok m := by
  intro fuel
  induction fuel with
  | zero => intro stack md _ res h; simp [depthLoop] at h
  | succ fuel ih =>
    intro stack md hN res h
    cases stack with
    | nil => simp [depthLoop] at h; exact ⟨md, h.symm⟩
    | cons z rest =>
      obtain ⟨node, depth⟩ := z
      have hn : node < N := hN (node, depth) (by simp)
      obtain ⟨l, hl⟩ : ∃ l, left[node]? = some l :=
        ⟨_, List.getElem?_eq_getElem (by rw [wf.lenL]; exact hn)⟩
      obtain ⟨r, hrr⟩ : ∃ r, right[node]? = some r :=
        ⟨_, List.getElem?_eq_getElem (by rw [wf.lenR]; exact hn)⟩
      simp only [depthLoop, hl, hrr] at h
      refine ih _ _ ?_ res h
      intro x hx
      have chl : 0 ≤ l → l.toNat < N := fun h => wf.bound node _ (Or.inl (by rw [hl]; simp [h]))
      have chr : 0 ≤ r → r.toNat < N := fun h => wf.bound node _ (Or.inr (by rw [hrr]; simp [h]))
      rcases (mem_push _ _ _ _ _ _).1 hx with ⟨rfl, h⟩ | ⟨rfl, h⟩ | h
      · exact chr h
      · exact chl h
      · exact hN x (by simp [h])

/-- A cycle below the root: the depth computation never stops. -/
theorem depthLoop_cycle {N : Nat} (wf : WF left right N) (hN : 0 < N) (a k m : Nat)
    (h1 : Path left right 0 a k) (h2 : Path left right a a (m + 1)) (fuel : Nat) :
    maxDepth left right fuel = none := by
  have long : ∀ t, ∃ k', t ≤ k' ∧ Path left right 0 a k' := by
    intro t
    induction t with
    | zero => exact ⟨k, by omega, h1⟩
    | succ t ih =>
      obtain ⟨k', hk, hp⟩ := ih
      exact ⟨(m + 1) + k', by omega, hp.trans h2⟩
  by_contra hne
  obtain ⟨res, hres⟩ := Option.ne_none_iff_exists'.1 hne
  have hin : ∀ x ∈ [((0 : Nat), 1)], x.1 < N := by simpa using hN
  have hok := depthLoop_no_error wf fuel [(0, 1)] 1 hin res hres
  obtain ⟨k', hk, hp⟩ := long fuel
  have := depthLoop_path_lt fuel [(0, 1)] 1 res hres hok (0, 1) (by simp) a k' hp
  omega

/-! ### Traversal -/

/-- A path all of whose nodes are hit. -/
inductive HitPath (left right : List Int) (hit : Nat → Bool) : Nat → Nat → Prop
  | refl {a : Nat} : hit a = true → HitPath left right hit a a
  | step {a c b : Nat} : hit a = true → IsChild left right a c → HitPath left right hit c b →
      HitPath left right hit a b

theorem HitPath.toPath {hit : Nat → Bool} {a b : Nat} (h : HitPath left right hit a b) :
    ∃ k, Path left right a b k := by
  induction h with
  | refl => exact ⟨0, Path.refl _⟩
  | step _ h2 _ ih => obtain ⟨k, hk⟩ := ih; exact ⟨k + 1, Path.step h2 hk⟩

theorem HitPath.last {hit : Nat → Bool} {a b : Nat} (h : HitPath left right hit a b) : hit b = true := by
  induction h with
  | refl h => exact h
  | step _ _ _ ih => exact ih

theorem hitPath_cases {hit : Nat → Bool} {a b : Nat} (h : HitPath left right hit a b) :
    hit a = true ∧ (a = b ∨ ∃ c, IsChild left right a c ∧ HitPath left right hit c b) := by
  cases h with
  | refl h => exact ⟨h, Or.inl rfl⟩
  | step h1 h2 h3 => exact ⟨h1, Or.inr ⟨_, h2, h3⟩⟩

/-- The entry at height `p` of the stack is at least `p` links below the root. -/
def StackOK (left right : List Int) : List Nat → Prop
  | [] => True
  | x :: rest => (∃ k, rest.length ≤ k ∧ Path left right 0 x k) ∧ StackOK left right rest

theorem traverse_spec {N : Nat} {S : Nat → Prop} {ρ : Nat → Nat} {isLeaf : List Bool} {prim : List Int} {hit : Nat → Bool}
    {owner capacity : Nat} (wf : WF left right N) (hr : RankedOn left right N S ρ)
    (hleaf : ∀ a c, IsChild left right a c → isLeaf.getD a false = false)
    (hcap : ∀ y k, Path left right 0 y k → k + 1 ≤ capacity) :
    ∀ (fuel : Nat) (stack found : List Nat),
      (∀ x ∈ stack, S x) → stackCost ρ stack < fuel → StackOK left right stack →
      ∃ res, traverse left right isLeaf prim hit owner capacity fuel stack found = some (.ok res) ∧
        ∀ p, p ∈ res ↔ p ∈ found ∨ ∃ x ∈ stack, ∃ y, HitPath left right hit x y ∧
          isLeaf.getD y false = true ∧ (owner : Int) ≠ prim.getD y (-1) ∧ p = (prim.getD y (-1)).toNat := by
  intro fuel
  induction fuel with
  | zero => intro stack found _ h; omega
  | succ fuel ih =>
    intro stack found hN hc hok
    cases stack with
    | nil => exact ⟨found, rfl, by simp⟩
    | cons node rest =>
      have hnS : S node := hN node (by simp)
      have hn : node < N := hr.bound _ hnS
      have c0 := cost_pos ρ node
      have hc' : stackCost ρ rest < fuel := by
        simp only [stackCost, List.map_cons, List.sum_cons] at hc ⊢; omega
      have hNr : ∀ x ∈ rest, S x := fun x hx => hN x (by simp [hx])
      obtain ⟨⟨k, hk, hp⟩, hokr⟩ := hok
      obtain ⟨l, hl⟩ : ∃ l, left[node]? = some l :=
        ⟨_, List.getElem?_eq_getElem (by rw [wf.lenL]; exact hn)⟩
      obtain ⟨r, hrr⟩ : ∃ r, right[node]? = some r :=
        ⟨_, List.getElem?_eq_getElem (by rw [wf.lenR]; exact hn)⟩
      have gl : left.getD node (-1) = l := by rw [List.getD_eq_getElem?_getD, hl]; rfl
      have gr : right.getD node (-1) = r := by rw [List.getD_eq_getElem?_getD, hrr]; rfl
      by_cases hh : hit node = true
      · by_cases hlf : isLeaf.getD node false = true
        · -- a leaf that is hit
          obtain ⟨res, h1, h2⟩ := ih rest
            (if (owner : Int) ≠ prim.getD node (-1) then found ++ [(prim.getD node (-1)).toNat] else found) hNr hc' hokr
          refine ⟨res, ?_, ?_⟩
          · rw [← h1]
            simp only [traverse, hh, hlf, if_true]
          · intro p
            rw [h2 p]
            constructor
            · rintro (h | ⟨x, hx, y, h⟩)
              · by_cases ho : (owner : Int) ≠ prim.getD node (-1)
                · rw [if_pos ho] at h
                  simp only [List.mem_append, List.mem_singleton] at h
                  rcases h with h | h
                  · exact Or.inl h
                  · exact Or.inr ⟨node, by simp, node, HitPath.refl hh, hlf, ho, h⟩
                · rw [if_neg ho] at h; exact Or.inl h
              · exact Or.inr ⟨x, by simp [hx], y, h⟩
            · rintro (h | ⟨x, hx, y, hpath, hy1, hy2, hy3⟩)
              · left; split
                · simp [h]
                · exact h
              · rcases List.mem_cons.1 hx with rfl | hx
                · rcases (hitPath_cases hpath).2 with rfl | ⟨c, hch, _⟩
                  · left; rw [if_pos hy2]; simp [hy3]
                  · have := hleaf _ _ hch; rw [this] at hlf; simp at hlf
                · exact Or.inr ⟨x, hx, y, hpath, hy1, hy2, hy3⟩
        · -- an internal node that is hit
          have hpc := push_cost node (fun c => hr.rank node c hnS) rest l r hl hrr
          have chl : 0 ≤ l → IsChild left right node l.toNat := fun h => Or.inl (by rw [hl]; simp [h])
          have chr : 0 ≤ r → IsChild left right node r.toNat := fun h => Or.inr (by rw [hrr]; simp [h])
          set stack' : List Nat := if 0 ≤ r then r.toNat :: (if 0 ≤ l then l.toNat :: rest else rest)
            else (if 0 ≤ l then l.toNat :: rest else rest) with hs
          have mem' : ∀ x, x ∈ stack' ↔ (x = r.toNat ∧ 0 ≤ r) ∨ (x = l.toNat ∧ 0 ≤ l) ∨ x ∈ rest := by
            intro x; exact mem_push _ _ _ _ _ _
          have hok' : StackOK left right stack' := by
            rw [hs]
            have okl : StackOK left right (if 0 ≤ l then l.toNat :: rest else rest) := by
              split
              · exact ⟨⟨k + 1, by omega, hp.snoc (chl ‹_›)⟩, hokr⟩
              · exact hokr
            split
            · refine ⟨⟨k + 1, ?_, hp.snoc (chr ‹_›)⟩, okl⟩
              split
              · simp only [List.length_cons]; omega
              · omega
            · exact okl
          obtain ⟨res, h1, h2⟩ := ih stack' found (by
              intro x hx
              rcases (mem' x).1 hx with ⟨rfl, h⟩ | ⟨rfl, h⟩ | h
              · exact hr.closed _ _ hnS (chr h)
              · exact hr.closed _ _ hnS (chl h)
              · exact hNr x h)
            (by omega) hok'
          refine ⟨res, ?_, ?_⟩
          · rw [← h1]
            simp only [traverse, hh, hlf, if_true, gl, gr, Bool.false_eq_true, if_false, decide_eq_true_eq]
            rw [if_neg]
            intro hcon
            rcases hcon with ⟨h0, h⟩ | ⟨h0, h⟩
            · have := hcap _ _ (hp.snoc (chl h0)); omega
            · have := hcap _ _ (hp.snoc (chr h0))
              split at h <;> omega
          · intro p
            rw [h2 p]
            constructor
            · rintro (h | ⟨x, hx, y, hpath, hrest⟩)
              · exact Or.inl h
              · rcases (mem' x).1 hx with ⟨rfl, h⟩ | ⟨rfl, h⟩ | h
                · exact Or.inr ⟨node, by simp, y, HitPath.step hh (chr h) hpath, hrest⟩
                · exact Or.inr ⟨node, by simp, y, HitPath.step hh (chl h) hpath, hrest⟩
                · exact Or.inr ⟨x, by simp [h], y, hpath, hrest⟩
            · rintro (h | ⟨x, hx, y, hpath, hrest⟩)
              · exact Or.inl h
              · rcases List.mem_cons.1 hx with rfl | hx
                · rcases (hitPath_cases hpath).2 with rfl | ⟨c, hch, hpath'⟩
                  · exact absurd hrest.1 hlf
                  · rcases hch with hch | hch
                    · rw [hl] at hch
                      simp only [Option.some.injEq] at hch
                      subst hch
                      exact Or.inr ⟨c, (mem' c).2 (Or.inr (Or.inl ⟨by simp, by omega⟩)), y, hpath', hrest⟩
                    · rw [hrr] at hch
                      simp only [Option.some.injEq] at hch
                      subst hch
                      exact Or.inr ⟨c, (mem' c).2 (Or.inl ⟨by simp, by omega⟩), y, hpath', hrest⟩
                · exact Or.inr ⟨x, (mem' x).2 (Or.inr (Or.inr hx)), y, hpath, hrest⟩
      · -- a miss
        obtain ⟨res, h1, h2⟩ := ih rest found hNr hc' hokr
        refine ⟨res, ?_, ?_⟩
        · rw [← h1]; simp only [traverse, hh, Bool.false_eq_true, if_false]
        · intro p
          rw [h2 p]
          constructor
          · rintro (h | ⟨x, hx, y, h⟩)
            · exact Or.inl h
            · exact Or.inr ⟨x, by simp [hx], y, h⟩
          · rintro (h | ⟨x, hx, y, hpath, hrest⟩)
            · exact Or.inl h
            · rcases List.mem_cons.1 hx with rfl | hx
              · exact absurd (hitPath_cases hpath).1 hh
              · exact Or.inr ⟨x, hx, y, hpath, hrest⟩

end Artist.LBVH
