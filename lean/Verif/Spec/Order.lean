import Verif.Model.Config

/-!
# Documents that differ only in the order of their keys

Specification for C116: two configuration documents are the same up to the order of keys when they have the
same scalars, lists of the same values in the same order, and mappings with the same keys (each written once)
and the same values under each key, in any order.
-/

namespace OPE

/-- The same document up to the order in which the keys of its mappings are written. -/
inductive SameDoc {S A : Type} : Cfg S A → Cfg S A → Prop
  | scalar (s : S) : SameDoc (.scalar s) (.scalar s)
  | str (s : String) : SameDoc (.str s) (.str s)
  | arr (a : A) : SameDoc (.arr a) (.arr a)
  | list (xs ys : List (Cfg S A)) (hlen : xs.length = ys.length)
      (h : ∀ (i : ℕ) x y, xs[i]? = some x → ys[i]? = some y → SameDoc x y) : SameDoc (.list xs) (.list ys)
  | dict (xs ys : List (String × Cfg S A)) (hx : (xs.map Prod.fst).Nodup) (hy : (ys.map Prod.fst).Nodup)
      (hkeys : ∀ k, k ∈ xs.map Prod.fst ↔ k ∈ ys.map Prod.fst)
      (h : ∀ k x y, (k, x) ∈ xs → (k, y) ∈ ys → SameDoc x y) : SameDoc (.dict xs) (.dict ys)

end OPE
