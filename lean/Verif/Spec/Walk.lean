import Verif.Spec.Scripts
import Verif.Spec.Relay

/-!
# An agent, the network between it and a program, and what a walk should show
-/

namespace Spec
open Libsnmp

/-- An agent's management information: names and values, in the order of the names. -/
def SortedMib (mib : List VB) : Prop := mib.Pairwise fun b c => b.name < c.name

/-- The part of it after a given name. -/
def after (mib : List VB) (name : List Nat) : List VB := mib.filter fun b => decide (name < b.name)

/-- The answer to a Get for one name (RFC 1905, 4.2.1): the value, or an exception value. -/
inductive GetAnswer (mib : List VB) (name : List Nat) : VB → Prop
  | found {b} : b ∈ mib → b.name = name → GetAnswer mib name b
  | noObject : (∀ b ∈ mib, b.name ≠ name) → GetAnswer mib name ⟨name, .null .noSuchObject⟩
  | noInstance : (∀ b ∈ mib, b.name ≠ name) → GetAnswer mib name ⟨name, .null .noSuchInstance⟩

/-- The answer to a GetNext for one name (RFC 1905, 4.2.2): the first entry after it, or EndOfMibView. -/
def nextAnswer (mib : List VB) (name : List Nat) : VB :=
  match after mib name with
  | b :: _ => b
  | [] => ⟨name, .null .endOfMibView⟩

/-- The longest payload of a UDP datagram (over IPv4). -/
def udpMax : Nat := 65507

/-- An agent, as a function from the datagrams it gets to its answers: it answers SNMPv2c Gets and GetNexts with its
community and one binding, without looking at the value in it, as `get` and `next` say; it says nothing to octets that are
no message.  Longer octets than fit into a datagram do not reach it. -/
structure Agent (community : Str) (get : List Nat → VB → Prop) (next : List Nat → VB) (agent : Str → Option Str) : Prop where
  get : ∀ o id b, o.length ≤ udpMax → MessageOctets 1 community { tag := 0xa0, requestID := id, bindings := [b] } o →
    ∃ a b', agent o = some a ∧ get b.name b' ∧
      MessageOctets 1 community { tag := 0xa2, requestID := id, bindings := [b'] } a
  getNext : ∀ o id b, o.length ≤ udpMax → MessageOctets 1 community { tag := 0xa1, requestID := id, bindings := [b] } o →
    ∃ a, agent o = some a ∧
      MessageOctets 1 community { tag := 0xa2, requestID := id, bindings := [next b.name] } a
  silent : ∀ o, (∀ v c p, ¬ MessageOctets v c p o) → agent o = none

/-- The first `n` turns of a program's loop when the network is the agent alone and nothing is lost: what is sent in one
turn is answered before the next. -/
def closedNet (agent : Str → Option Str) (prog : List Net → ScriptRun .sm) : Nat → List Net
  | 0 => []
  | n + 1 =>
    let net := closedNet agent prog n
    let sent := (sentOut (prog net).mgr.log).drop (sentOut (prog net.dropLast).mgr.log).length
    net ++ [{ datagram := match sent with
      | [] => none
      | (o, _) :: _ => (agent o).map .str }]

/-- What is printed for a list of bindings. -/
inductive AllLines : List VB → List Str → Prop
  | nil : AllLines [] []
  | cons {b bs l ls} : WalkLines b l → AllLines bs ls → AllLines (b :: bs) (l ++ ls)

/-- The bindings snmpwalk.py shows for a root whose Get is answered by `b`: the answer and, unless it is NoSuchObject,
everything after it to the end of the agent's information (whether or not it is below the root), and EndOfMibView under the
last name. -/
def shown (mib : List VB) (b : VB) : List VB :=
  if isEnd b.value then [b]
  else b :: (after mib b.name ++ [⟨((after mib b.name).getLast?.getD b).name, .null .endOfMibView⟩])

/-- The agent's information is in order, the library can hold it (C11), it does not contain the values that only stand for
"nothing here", and it is not larger than the number of request IDs. -/
structure GoodMib (mib : List VB) : Prop where
  sorted : SortedMib mib
  holdable : ∀ b ∈ mib, Holdable regFull b
  proper : ∀ b ∈ mib, isEnd b.value = false
  size : mib.length ≤ 2147483646

/-- Everything the program sends in its first `N` turns fits into datagrams. -/
def ShortUpTo (N : Nat) (agent : Str → Option Str) (prog : List Net → ScriptRun .sm) : Prop :=
  ∀ n ≤ N, ∀ d ∈ sentOut (prog (closedNet agent prog n)).mgr.log, d.1.length ≤ udpMax

/-- Everything the program ever sends fits into datagrams. -/
def ShortDatagrams (agent : Str → Option Str) (prog : List Net → ScriptRun .sm) : Prop := ∀ N, ShortUpTo N agent prog

end Spec
