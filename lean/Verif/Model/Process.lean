import Verif.Model.NamesData

/-!
# A process that imports modules of the package
-/

namespace Libsnmp.Names

/-- The modules executed so far, the newest first (`sys.modules` with what each module left behind). -/
abbrev Process := List (Module × Done)

/-- What a module being executed can see. -/
def Process.view (p : Process) : View where
  names m := ((p.lookup m).map Done.names).getD []
  key id k := p.findSome? fun e => (e.2.keys.find? fun x => x.1 == id && x.2.1 == k).map (·.2.2)

/-- `import m`: a module that has been executed is not executed again; otherwise the modules it imports come first, then its
own statements run.  Simplification: all imports are done before the first statement; in the source, only a logger is made
before them (rfc1157.py:9), and no module imports one that imports it.  The number bounds the depth of imports. -/
def load : Nat → Module → Process → Option Process
  | 0, _, _ => none
  | n + 1, m, p =>
    if (p.lookup m).isSome then some p
    else match (importsOf (body m)).foldlM (fun p m' => load n m' p) p with
      | none => none
      | some q => match execAll q.view m (body m) {} with
        | none => none
        | some d => some ((m, d) :: q)

/-- A program that imports these modules in this order; none if an import raises. -/
def run (l : List Module) : Option Process := l.foldlM (fun p m => load 8 m p) []

/-- The class registered for a tag: the last assignment to `tagDecodeDict[t]`. -/
def Process.tag (p : Process) (t : Nat) : Option Obj := p.findSome? fun e => e.2.tags.lookup t

end Libsnmp.Names
