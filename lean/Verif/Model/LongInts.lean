import Verif.Model.Depth

/-!
# Decoding under the interpreter's limit on the length of numerals

CPython 3.11 (and the security releases of 3.7-3.10 since 2022) refuses with ValueError to turn an `int` of more than
`sys.get_int_max_str_digits()` decimal digits (4300 unless configured; 0 is no limit) into text.  `Integer.decodeContents` does
that with every value it has decoded, for a debugging record that is never shown (C85): rfc1155.py:432
`if __debug__: log.debug('decoded as: %d' % self.value)`.  So the limit is a limit on the integers that can be decoded.  The
other models leave it out (that is: `python -O`, or no limit).

`D` is the limit.  The room on the stack is counted as in `Model/Depth.lean`.
-/

namespace Libsnmp

/-- `'%d' % n` raises. -/
def tooLong (D : Nat) (n : Int) : Bool := D ≠ 0 && 10 ^ D ≤ n.natAbs

/-- `decodeContents` by class, as `contentsWith`; rfc1155.py:401-434 with line 432, and rfc1155.py:977-991
`Counter.decodeContents`, which calls it. -/
def contentsDig (D : Nat) (nested : Str → Except Exc (List Val)) : Cls → Str → Except Exc Val
  | .int c, data =>
    match intDecode data with
    | .error e => .error e
    | .ok v =>
      if tooLong D v then .error .valueError
      else if (Cls.int c).isSubclass (.int .counter) then .ok (.integer c (if v < 0 then v + 0x100000000 else v))
      else .ok (.integer c v)
  | cls, data => contentsWith nested cls data

/-- rfc1155.py:150-180 `decode` on a `str`, with room for `d` nested calls and numerals of up to `D` digits. -/
def decodeDig (reg : Reg) (D : Nat) : (d : Nat) → Str → Except Exc (List Val)
  | 0, _ => .error .recursionError
  | d + 1, stream => decodeLoop reg (contentsDig D (decodeDig reg D d)) stream

/-- `decode` under the limit `D` when the stack suffices: every level of nesting takes two octets at least. -/
def decode311 (reg : Reg) (D : Nat) (stream : Str) : Except Exc (List Val) := decodeDig reg D (stream.length + 1) stream

/-- rfc1157.py:110-125 `Message.decode` under the limit; as `msgDecode`. -/
def msgDecode311 (reg : Reg) (D : Nat) (c : SeqCls) (stream : Val) : Except Exc Msg := do
  let objectList ← match stream with
    | .str s => decode311 reg D s
    | _ => .error .typeError
  match objectList with
  | [o] =>
    let n ← o.len
    if n ≠ 3 then .error .messageError
    else
      let version ← o.getItem 0
      let community ← o.getItem 1
      let data ← o.getItem 2
      .ok { cls := c, version := version, community := community, data := data }
  | _ => .error .typeError

/-- `receiveData` under the limit, as `receiveDataLim` of `Model/Depth.lean`. -/
def receiveData311 (env : Env) (D : Nat) (k : Kind) (user : User k) (data : Val) : M k Unit := fun s =>
  match msgDecode311 env.reg D (if k = .v1 then .message else .message2) data with
  | .ok _ => receiveData env k user data s
  | .error e => if k = .v2 ∧ e.isException = true then (.ok (), s) else (.error e, s)

end Libsnmp
