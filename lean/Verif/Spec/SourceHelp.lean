import Verif.Spec.SourceMgr
import Verif.Model.Forms
import Verif.Model.Str

/-!
# What the helper methods of managers must do in the heap
-/

namespace Libsnmp.Src
open Libsnmp

/-- What the world says when `/proc/uptime` is opened and read: the text of the file (ASCII), or an exception (`none`). -/
inductive UptimeFile (cfg : Cfg) : Option Str → Prop
  | text (f : String) (t : Str) : (∀ h, cfg.ext "open" [.str (lit "/proc/uptime")] h = okR (.ext f) h) →
      (∀ h, cfg.ext (f ++ "." ++ "read") [] h = okR (.str t) h) → (∀ c ∈ t, c < 128) → UptimeFile cfg (some t)
  | closed (y : V) : (∀ h, cfg.ext "open" [.str (lit "/proc/uptime")] h = excR y h) → UptimeFile cfg none
  | unread (f : String) (y : V) : (∀ h, cfg.ext "open" [.str (lit "/proc/uptime")] h = okR (.ext f) h) →
      (∀ h, cfg.ext (f ++ "." ++ "read") [] h = excR y h) → UptimeFile cfg none

/-- Code that makes an object: the result stands for the value of the model, or the exception is the model's; nothing that was there
has changed. -/
def Builds (h : Heap) (r : R V) (m : Except Exc Val) : Prop :=
  ∃ h', Kept h.length h h' ∧ Outcome (Rep 9) h' r m

/-- The method that builds a trap. -/
def trapMethod : Libsnmp.Kind → String
  | .v2 => "createTrap"
  | _ => "createTrapPDU"

/-- Its arguments. -/
def trapArgs (k : Libsnmp.Kind) (varbindlist version enterprise agentAddr genericTrap specificTrap : V) : List V :=
  match k with
  | .sm => [varbindlist, version, enterprise, agentAddr, genericTrap, specificTrap]
  | _ => [varbindlist, enterprise, agentAddr, genericTrap, specificTrap]

/-- The arguments of that method.  The agent's address is a text, a number, a tuple or None: what is made from a list is no ASN.1 object
that could be encoded. -/
structure TrapGiven (cfg : Cfg) (h : Heap) (varbindlist : Val) (enterprise agentAddr : Arg) (xv xe xa : V) : Prop where
  binds : Rep 9 h varbindlist xv
  ent : RepArg 9 h enterprise xe
  entShort : ∀ s, enterprise = .str s → Short cfg s
  agent : RepArg 9 h agentAddr xa
  agentShort : ∀ s, agentAddr = .str s → Short cfg s
  noList : ∀ l, agentAddr ≠ .list l
  noObj : ∀ v, agentAddr ≠ .obj v

end Libsnmp.Src
