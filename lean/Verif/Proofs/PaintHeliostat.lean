import Verif.Model.PaintHeliostat
import Mathlib.Tactic.Linarith
/-!
# Helper lemmas about the extraction of PAINT heliostats
-/
namespace Artist.PaintHeliostat
open Artist Flatten Nurbs

theorem need_ok {A : Type} (o : Option A) (a : A) : need o = .ok a ↔ o = some a := by
  cases o <;> simp [need]

theorem bind_ok {A B : Type} (x : Except PyErr A) (g : A → Except PyErr B) : (∃ b, (x >>= g) = .ok b) ↔ ∃ a, x = .ok a ∧ ∃ b, g a = .ok b := by
  cases x <;> simp [bind, Except.bind]

theorem bind_eq_ok {A B : Type} (x : Except PyErr A) (g : A → Except PyErr B) (b : B) : (x >>= g) = .ok b ↔ ∃ a, x = .ok a ∧ g a = .ok b := by
  cases x <;> simp [bind, Except.bind]

theorem row_ok (l : List ℝ) : (∃ v, row l = .ok v) ↔ l.length = 3 ∨ l.length = 1 := by
  match l with
  | [] => simp [row]
  | [a] => simp [row]
  | [a, b] => simp [row]
  | [a, b, c] => simp [row]
  | a :: b :: c :: d :: t => simp [row]

theorem direction4_ok (l : List ℝ) : (∃ v, direction4 l = .ok v) ↔ l.length = 3 := by
  match l with
  | [] => simp [direction4]
  | [a] => simp [direction4]
  | [a, b] => simp [direction4]
  | [a, b, c] => simp [direction4]
  | a :: b :: c :: d :: t => simp [direction4]

theorem position4_ok (plant : Geo.Wgs) (l : List ℝ) : (∃ v, position4 plant l = .ok v) ↔ l.length = 3 := by
  match l with
  | [] => simp [position4]
  | [a] => simp [position4]
  | [a, b] => simp [position4]
  | [a, b, c] => simp [position4]
  | a :: b :: c :: d :: t => simp [position4]

theorem readFacets_take : ∀ (n : Nat) (l : List PaintFacet), readFacets n (l.take n) = readFacets n l
  | 0, _ => by simp [readFacets]
  | n + 1, [] => by simp
  | n + 1, f :: fs => by
    rw [List.take_succ_cons]
    unfold readFacets
    rw [readFacets_take n fs]

theorem loop_ok (plant : Geo.Wgs) (nu nv : Nat) : ∀ (paths : List (Key × File)) (hs : List (Key × Heliostat)), loop plant nu nv paths = .ok hs ↔
    List.Forall₂ (fun p h => h.1 = p.1 ∧ heliostat plant nu nv p.2 = .ok h.2) paths hs
  | [], hs => by simp [loop, eq_comm]
  | (name, f) :: rest, hs => by
    rw [loop, bind_eq_ok]
    constructor
    · rintro ⟨h, hh, h2⟩
      rw [bind_eq_ok] at h2
      obtain ⟨hs', hl, h3⟩ := h2
      cases h3
      exact .cons ⟨rfl, hh⟩ ((loop_ok plant nu nv rest hs').1 hl)
    · intro h
      cases h with
      | cons hd tl =>
        rename_i b bs
        refine ⟨b.2, hd.2, ?_⟩
        rw [bind_eq_ok]
        refine ⟨bs, (loop_ok plant nu nv rest bs).2 tl, ?_⟩
        have : (name, b.2) = b := Prod.ext hd.1.symm rfl
        rw [this]; rfl

end Artist.PaintHeliostat
