import Verif.Model.Manager

/-!
# Decoding with a bounded Python stack

`Asn1Object.decode` calls `decodeContents` of the class it found, and `Sequence.decodeContents` calls `decode` again
(rfc1155.py:176, 842-846): every level of nesting in a datagram costs stack frames (two for a Sequence, three for a PDU,
whose `decodeContents` calls the inherited one first, rfc1157.py:155, 257, rfc1905.py:166).  CPython raises RecursionError when
its stack is used up.  Here the room left is a number `d`: how many calls of `decode` fit into one another.

Simplification: a level costs the same whatever its class, and the frames of functions that do not nest (`decodeTag`,
constructors, ...) always fit.
-/

namespace Libsnmp

/-- rfc1155.py:163-180, the loop of `decode`, with `contents` for `tagDecodeDict[tag]().decodeContents`. -/
def decodeLoop (reg : Reg) (contents : Cls → Str → Except Exc Val) (stream : Str) : Except Exc (List Val) :=
  if stream = [] then .ok []
  else
    match h1 : decodeTag stream with
    | .error e => .error e
    | .ok (tag, s1) =>
      match h2 : decodeLength s1 with
      | .error e => .error e
      | .ok (length, s2) =>
        match reg tag with
        | none => .error .valueError
        | some cls =>
          match contents cls (s2.take length) with
          | .error e => .error e
          | .ok obj =>
            match decodeLoop reg contents (s2.drop length) with
            | .error e => .error e
            | .ok objects => .ok (obj :: objects)
termination_by stream.length
decreasing_by
  have := decodeTag_length h1
  have := decodeLength_length h2
  simp only [List.length_drop]
  omega

/-- `decodeContents` by class, as `decodeContents` of `Model/Obj.lean`; `nested` is the call of `decode` in
rfc1155.py:846. -/
def contentsWith (nested : Str → Except Exc (List Val)) : Cls → Str → Except Exc Val
  | .asn1Object, _ => .error .attributeError
  | .int c, data =>
    match (if (Cls.int c).isSubclass (.int .counter) then counterDecode data else intDecode data) with
    | .error e => .error e
    | .ok v => .ok (.integer c v)
  | .oct c, data => .ok (.octets c data)
  | .oid, data => match oidDecode data with
    | .error e => .error e
    | .ok ids => .ok (.oid (some ids))
  | .null c, data => if data ≠ [] then .error .valueError else .ok (.null c)
  | .seq c, data => match nested data with
    | .error e => .error e
    | .ok items => finishSeq c items

/-- rfc1155.py:150-180 `decode` on a `str`, with room for `d` nested calls. -/
def decodeLim (reg : Reg) : (d : Nat) → Str → Except Exc (List Val)
  | 0, _ => .error .recursionError
  | d + 1, stream => decodeLoop reg (contentsWith (decodeLim reg d)) stream

/-- rfc1157.py:110-125 `Message.decode` with room for `d` nested calls of `decode`; as `msgDecode`. -/
def msgDecodeLim (reg : Reg) (d : Nat) (c : SeqCls) (stream : Val) : Except Exc Msg := do
  let objectList ← match stream with
    | .str s => decodeLim reg d s
    | _ => .error .typeError
  match objectList with
  | [o] =>
    let n ← o.len
    if n ≠ 3 then .error .messageError
    else
      let version ← o.getItem 0
      let community ← o.getItem 1
      let data ← o.getItem 2
      .ok { cls := c, version := version, community := community, data := data }
  | _ => .error .typeError

/-- `receiveData` when the stack has room for `d` nested calls of `decode`: if decoding the message fails, v1.py:204-208 and
snmpmanager.py raise, v2.py:186-190 returns unless the exception is not an `Exception`; otherwise it goes on as
`receiveData` with the message (which is then the one `receiveData` decodes, see `C71_limit_or_same`). -/
def receiveDataLim (env : Env) (d : Nat) (k : Kind) (user : User k) (data : Val) : M k Unit := fun s =>
  match msgDecodeLim env.reg d (if k = .v1 then .message else .message2) data with
  | .ok _ => receiveData env k user data s
  | .error e => if k = .v2 ∧ e.isException = true then (.ok (), s) else (.error e, s)

end Libsnmp
