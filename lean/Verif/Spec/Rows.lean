import Verif.Spec.Config

/-!
# Specification: the columns of the data file a configuration mentions (C136)
-/

namespace OPE.Main

/-- The column names a reference asks for. -/
def refNames {S A : Type} : Cfg S A → List String
  | .str s => [s]
  | .list xs => (Cfg.strings xs).getD []
  | _ => []

/-- A column name the configuration refers to. -/
def Mentions {S A : Type} (cfg : Cfg S A) (s : String) : Prop :=
  ∃ p name, Spec.RefAt cfg p name ∧ s ∈ refNames name

end OPE.Main
