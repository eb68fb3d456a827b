import Verif.Py
import Mathlib.Data.Int.Bitwise

/-!
# `lib/libsnmp/rfc1155.py`: octet-level encoders and decoders
-/

namespace Libsnmp

/-! ## Identifier and length fields -/

/-- rfc1155.py:114-119, the `while 1` loop of `decodeTag`; `n` is the index into `stream`. -/
def decodeTagLoop (stream : Str) (tag n : Nat) : Except Exc (Nat × Nat) :=
  match h : stream[n]? with
  | none => .error .indexError
  | some byte =>
    let tag := (tag <<< 7) ||| (byte &&& 0x7F)
    if byte &&& 0x80 = 0 then .ok (tag, n + 1) else decodeTagLoop stream tag (n + 1)
termination_by stream.length - n
decreasing_by
  have := List.getElem?_eq_some_iff.mp h
  obtain ⟨hn, _⟩ := this
  omega

/-- rfc1155.py:99-122 `Asn1Object.decodeTag`: the tag and the remainder of the stream. -/
def decodeTag (stream : Str) : Except Exc (Nat × Str) :=
  match stream[0]? with
  | none => .error .indexError
  | some tag =>
    if tag &&& 0x1F = 0x1F then
      match decodeTagLoop stream 0 1 with
      | .error e => .error e
      | .ok (tag, n) => .ok (tag, stream.drop n)
    else .ok (tag, stream.drop 1)

/-- rfc1155.py:141-144, the `for i in range(run)` loop of `decodeLength`. -/
def decodeLengthLoop (stream : Str) : (run length n : Nat) → Except Exc (Nat × Nat)
  | 0, length, n => .ok (length, n)
  | run + 1, length, n =>
    match stream[n]? with
    | none => .error .indexError
    | some byte => decodeLengthLoop stream run ((length <<< 8) ||| byte) (n + 1)

/-- rfc1155.py:126-146 `Asn1Object.decodeLength`: the length and the remainder of the stream. -/
def decodeLength (stream : Str) : Except Exc (Nat × Str) :=
  match stream[0]? with
  | none => .error .indexError
  | some length =>
    if length &&& 0x80 ≠ 0 then
      match decodeLengthLoop stream (length &&& 0x7F) 0 1 with
      | .error e => .error e
      | .ok (length, n) => .ok (length, stream.drop n)
    else .ok (length, stream.drop 1)

/-- rfc1155.py:241-245, the `while length > 0` loop of `encodeLength`; returns the octets and their number. -/
def encodeLengthLoop (length : Nat) (resultlist : Str) (numOctets : Nat) : Str × Nat :=
  if h : length > 0 then
    encodeLengthLoop (length >>> 8) ((length &&& 0xff) :: resultlist) (numOctets + 1)
  else (resultlist, numOctets)
termination_by length
decreasing_by
  rw [Nat.shiftRight_eq_div_pow]
  exact Nat.div_lt_self h (by decide)

/-- rfc1155.py:219-255 `Asn1Object.encodeLength`. -/
def encodeLength (length : Nat) : Str :=
  if length < 127 then [length &&& 0xff]
  else
    let r := encodeLengthLoop length [] 0
    let numOctets := r.2 ||| 0x80
    (numOctets &&& 0xff) :: r.1

/-- rfc1155.py:210-213, the loop `while integer != -1` of `encodeIdentifier`, run for at most `fuel`
iterations; `none` means it is still running. -/
def encodeIdentifierLoop : (fuel : Nat) → (integer : Int) → Str → Option Str
  | 0, integer, acc => if integer = -1 then some acc else none
  | fuel + 1, integer, acc =>
    if integer = -1 then some acc
    else encodeIdentifierLoop fuel (integer >>> (8 : Nat)) (acc ++ [(Int.land integer 0xFF).toNat])

/-- rfc1155.py:189-217 `Asn1Object.encodeIdentifier` for the given class attributes. -/
def encodeIdentifier (fuel : Nat) (tagClass tagFormat tagNumber : Nat) : Option Str :=
  if tagNumber < 0x1F then some [tagClass ||| tagFormat ||| tagNumber]
  else encodeIdentifierLoop fuel (tagNumber : Int) [tagClass ||| tagFormat ||| 0x1F]

/-! ## Integer contents -/

/-- rfc1155.py:375-378, the loop for a positive integer. -/
def intEncodePos (integer : Nat) (result : Str) : Str :=
  if h : integer ≠ 0 then intEncodePos (integer >>> 8) ((integer &&& 0xff) :: result) else result
termination_by integer
decreasing_by
  rw [Nat.shiftRight_eq_div_pow]
  exact Nat.div_lt_self (by omega) (by decide)

/-- rfc1155.py:388-391, the loop `while integer != -1` for a negative integer.  (The guard is written
`integer < -1`: the code only enters this loop with `integer < -1`, and arithmetic shift keeps it negative.) -/
def intEncodeNeg (integer : Int) (result : Str) : Str :=
  if h : integer < -1 then intEncodeNeg (integer >>> (8 : Nat)) ((Int.land integer 0xff).toNat :: result) else result
termination_by integer.natAbs
decreasing_by
  rw [Int.shiftRight_eq_div_pow]
  have : ((2 ^ 8 : Nat) : Int) = 256 := by decide
  rw [this]
  omega

/-- rfc1155.py:360-399 `Integer.encodeContents`. -/
def intEncode (integer : Int) : Str :=
  if integer = 0 then [0]
  else if integer = -1 then [0xff]
  else if integer > 0 then
    let result := intEncodePos integer.toNat []
    -- rfc1155.py:380  if result[0] & 0x80
    if (result.headD 0) &&& 0x80 ≠ 0 then 0 :: result else result
  else
    let result := intEncodeNeg integer []
    -- rfc1155.py:393  if result[0] & 0x80 != 0x80
    if (result.headD 0) &&& 0x80 ≠ 0x80 then 0 :: result else result

/-- rfc1155.py:401-434 `Integer.decodeContents` (the value stored in `self.value`). -/
def intDecode (stream : Str) : Except Exc Int :=
  match stream with
  | [] => .error .indexError
  | byte :: rest =>
    if byte &&& 0x80 = 0x80 then
      let r := rest.foldl (fun (p : Nat × Nat) b => (p.1 <<< 8, (p.2 <<< 8) ||| b)) (0x80, byte &&& 0x7f)
      .ok ((r.2 : Int) - (r.1 : Int))
    else
      .ok ((rest.foldl (fun v b => (v <<< 8) ||| b) byte : Nat) : Int)

/-- rfc1155.py:436-450 `Integer.decodeTwosInteger1`. -/
def decodeTwosInteger1 (stream : Str) : Except Exc Int :=
  match stream with
  | [] => .error .indexError
  | b0 :: _ =>
    let bytes : List Int := stream.map Int.ofNat
    let bytes := if b0 &&& 0x80 ≠ 0 then (-1) :: bytes else bytes
    .ok (bytes.foldl (fun x y => Int.lor (x <<< (8 : Nat)) y) 0)

/-- rfc1155.py:452-478 `Integer.decodeTwosInteger2`. -/
def decodeTwosInteger2 (stream : Str) : Except Exc Int :=
  match stream[0]? with
  | none => .error .indexError
  | some byte =>
    if byte &&& 0x80 = 0x80 then
      let r := (List.range (stream.length - 1)).foldl
        (fun (p : Nat × Nat) i => (p.1 <<< 8, (p.2 <<< 8) ||| (stream[i + 1]?.getD 0))) (0x80, byte &&& 0x7f)
      .ok ((r.2 : Int) - (r.1 : Int))
    else
      .ok (((List.range (stream.length - 1)).foldl
        (fun v i => (v <<< 8) ||| (stream[i + 1]?.getD 0)) byte : Nat) : Int)

/-- rfc1155.py:480-503 `Integer.decodeTwosInteger3`. -/
def decodeTwosInteger3 (stream : Str) : Except Exc Int :=
  match stream with
  | [] => .error .indexError
  | b0 :: rest =>
    if b0 &&& 0x80 ≠ 0 then
      let bytes := (b0 &&& 0x7f) :: rest
      let r := bytes.foldl (fun (p : Nat × Nat) b => (p.1 <<< 8, (p.2 <<< 8) ||| b)) (0x80, 0)
      .ok ((r.2 : Int) - ((r.1 >>> 8 : Nat) : Int))
    else
      .ok ((stream.foldl (fun v b => (v <<< 8) ||| b) 0 : Nat) : Int)

/-- rfc1155.py:977-991 `Counter.decodeContents` (also used by Counter32 and Counter64). -/
def counterDecode (stream : Str) : Except Exc Int :=
  match intDecode stream with
  | .error e => .error e
  | .ok v => .ok (if v < 0 then v + 0x100000000 else v)

/-! ## ObjectID contents -/

/-- rfc1155.py:684-688: the loop inserting the leading 7-bit groups of a sub-identifier at `position`;
`acc` is the part of the result from `position` on. -/
def subidLoop (subid : Nat) (acc : Str) : Str :=
  if h : subid > 0 then subidLoop (subid >>> 7) ((0x80 ||| (subid &&& 0x7f)) :: acc) else acc
termination_by subid
decreasing_by
  rw [Nat.shiftRight_eq_div_pow]
  exact Nat.div_lt_self h (by decide)

/-- rfc1155.py:677-690: the octets one sub-identifier contributes.  A negative one takes the first branch. -/
def subidEncode (subid : Int) : Str :=
  if subid < 128 then [(Int.land subid 0x7f).toNat]
  else
    let subid := subid.toNat
    subidLoop (subid >>> 7) [subid &&& 0x7f]

/-- rfc1155.py:663-692 `ObjectID.encodeContents`.  `none` is `self.value is None`. -/
def oidEncode (value : Option (List Int)) : Except Exc Str :=
  match value with
  | none => .error .typeError                -- line 668: None[:]
  | some idlist =>
    match idlist with
    | a :: b :: rest => .ok (((a * 40 + b) :: rest).flatMap subidEncode)
    | _ => .error .indexError                -- line 673: pop from empty list

/-- rfc1155.py:743-747: the inner loop reading continuation octets; returns the value and the remaining octets.
(The index `n` of the code is represented by the remaining list.) -/
def subidDecodeLoop (val : Nat) : (bytes : Str) → Except Exc (Nat × Str)
  | [] => .error .indexError
  | subid :: rest =>
    let val := (val <<< 7) ||| (subid &&& 0x7f)
    if subid &&& 0x80 = 0x80 then subidDecodeLoop val rest else .ok (val, rest)

theorem subidDecodeLoop_length {bytes : Str} : ∀ {val v r}, subidDecodeLoop val bytes = .ok (v, r) →
    r.length < bytes.length := by
  induction bytes with
  | nil => intro val v r h; simp [subidDecodeLoop] at h
  | cons b bs ih =>
    intro val v r h
    rw [subidDecodeLoop] at h
    split at h
    · have := ih h; simp; omega
    · simp only [Except.ok.injEq, Prod.mk.injEq] at h
      obtain ⟨_, rfl⟩ := h
      simp

/-- rfc1155.py:733-752: the outer loop. -/
def oidDecodeLoop (bytes : Str) : Except Exc (List Int) :=
  match bytes with
  | [] => .ok []
  | subid :: rest =>
    if subid &&& 0x80 = 0x80 then
      match h : subidDecodeLoop (subid &&& 0x7f) rest with
      | .error e => .error e
      | .ok (val, rest') =>
        match oidDecodeLoop rest' with
        | .error e => .error e
        | .ok ids => .ok ((val : Int) :: ids)
    else
      match oidDecodeLoop rest with
      | .error e => .error e
      | .ok ids => .ok ((subid : Int) :: ids)
termination_by bytes.length
decreasing_by
  · have := subidDecodeLoop_length h; simp; omega
  · simp

/-- rfc1155.py:696-754 `ObjectID.decodeContents` (the list stored in `self.value`). `int(b / 40)` with `b < 128`
is the integer quotient (exact in floating point). -/
def oidDecode (stream : Str) : Except Exc (List Int) :=
  match stream with
  | [] => .error .valueError
  | b0 :: rest =>
    if b0 < 128 then
      match oidDecodeLoop rest with
      | .error e => .error e
      | .ok ids => .ok (((b0 / 40 : Nat) : Int) :: ((b0 % 40 : Nat) : Int) :: ids)
    else .error .notImplementedError

end Libsnmp
