import Verif.Model.NurbsBatch
/-!
# Parts of a batch of surfaces (C97)
-/
namespace Artist.NurbsBatch
open Artist Nurbs Transforms

/-- the batch that consists of facet `f` of surface `s` only -/
def Controls.only {K : Type} (c : Controls K) (s f : Nat) : Controls K := ⟨1, 1, c.nu, c.nv, fun _ _ => c.at' s f⟩

/-- the evaluation points of one facet only; a batch with one set of points for all surfaces or facets keeps it -/
def onlyPoints {K : Type} (e : Points K) (s f : Nat) : Points K :=
  ⟨(1, 1, e.shape.2.2), fun _ _ p => e.get (if e.shape.1 = 1 then 0 else s) (if e.shape.2.1 = 1 then 0 else f) p⟩

/-- canting and translation of facet `f` of surface `s` only, with `F` facets on each surface -/
noncomputable def Placing.only (q : Placing) (F s f : Nat) : Placing :=
  ⟨1, 1, fun _ _ => q.cantE (if q.Sc = 1 then 0 else s) (if q.Fc = 1 then 0 else f), fun _ _ => q.cantN (if q.Sc = 1 then 0 else s) (if q.Fc = 1 then 0 else f),
    [q.translations.getD (s * F + f) 0]⟩

/-- surfaces are chosen, left out, repeated or put in another order: surface `i` of the new batch is surface `σ i` -/
def Controls.choose {K : Type} (c : Controls K) (n : Nat) (σ : Nat → Nat) : Controls K := { c with S := n, at' := fun i => c.at' (σ i) }

def choosePoints {K : Type} (e : Points K) (n : Nat) (σ : Nat → Nat) : Points K := ⟨(n, e.shape.2), fun i => e.get (σ i)⟩

noncomputable def Placing.choose (q : Placing) (F n : Nat) (σ : Nat → Nat) : Placing :=
  { q with Sc := n, cantE := fun i => q.cantE (σ i), cantN := fun i => q.cantN (σ i), translations := (List.range n).flatMap fun i => (q.translations.drop (σ i * F)).take F }

end Artist.NurbsBatch
