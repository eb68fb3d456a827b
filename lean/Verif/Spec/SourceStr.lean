import Verif.Spec.SourceOps
import Verif.Model.StrLim

/-!
# What it means that the source text writes what the model says
-/

namespace Libsnmp.Src
open Libsnmp

/-- The outcome of a function of the model that makes a text. -/
def outS (r : Except Exc Str) (h : Heap) : R Str :=
  match r with
  | .ok s => okR s h
  | .error e => excR (.exc (excName e) []) h

/-- The tables of error texts and of trap names, as the class statements and constructors of the modules have left them. -/
structure Texts (d : Table) (h : Heap) : Prop where
  errors : h[1]? = some (dictOfTable d)
  traps : h[5]? = some (dictOfTable genericTraps)

end Libsnmp.Src
