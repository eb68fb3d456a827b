import Verif.Model.Manager
import Verif.Model.Eq
import Verif.Model.Role

/-!
# The project's own unit tests, replayed on the model

These are tests, not proofs of properties: each `example` evaluates the model on the literals of one unit test of
`/repo/test` and compares with the value the test expects.  They tie the model to behaviour the project itself documents.
-/

namespace Libsnmp.RepoTests

/-! ## test_encoder.py -/

/-- test_encoder.py:36-48 `test_integers`. -/
def testIntegers : List (Int × Str) :=
  [(0, [0]), (5, [5]), (15, [0o17]), (73, [0o111]), (128, [0, 0o200]), (-127, [0o201]), (-128, [0o200]),
   (124787, [1, 0o347, 0o163]), (-1, [0o377]), (-267, [0o376, 0o365]), (-5848548, [0o246, 0o302, 0o34])]

/-- test_integerEncode. -/
example : testIntegers.all (fun p => intEncode p.1 == p.2) = true := by decide +kernel
/-- test_integerEncodeDecode. -/
example : testIntegers.all (fun p => (intDecode (intEncode p.1)).toOption == some p.1) = true := by decide +kernel

/-- test_octetStringEncode, test_octetStringEncodeDecode (one of the strings). -/
example : (match decodeContents regV1 (.oct .octetString) (lit "43 403i 594 5908kjljdfj weljf") with
    | .ok (.octets .octetString s) => s | _ => []) = lit "43 403i 594 5908kjljdfj weljf" := by decide +kernel

/-- test_encoder.py:59-66 `test_objectids`. -/
def testObjectids : List (Str × Str × List Int) :=
  [(lit ".1.2.4.5.6", [0o52, 4, 5, 6], [1, 2, 4, 5, 6]), (lit "1.2.4.5.6", [0o52, 4, 5, 6], [1, 2, 4, 5, 6]),
   (lit ".2.3.3", [0o123, 3], [2, 3, 3]), (lit ".0.2.8.5", [2, 8, 5], [0, 2, 8, 5]), (lit "0.2.8.5", [2, 8, 5], [0, 2, 8, 5]),
   (lit ".1.2.65.7.3394.23.5.115.46", [0o52, 0o101, 7, 0o232, 0o102, 0o27, 5, 0o163, 0o56],
    [1, 2, 65, 7, 3394, 23, 5, 115, 46])]

/-- test_objectidEncode. -/
example : testObjectids.all (fun p => match mkOid (.str p.1) with
    | .ok v => (oidEncode v).toOption == some p.2.1 | .error _ => false) = true := by decide +kernel
/-- test_objectidEncodeDecode. -/
example : testObjectids.all (fun p => (oidDecode p.2.1).toOption == some p.2.2) = true := by decide +kernel

/-- test_nullEncodeDecode. -/
example : (match decodeContents regV1 (.null .null) [] with | .ok (.null .null) => true | _ => false) = true := by
  decide +kernel

/-- test_encoder.py:68-74, test_sequenceEncode. -/
example : (encodeItems [.integer .integer 14]).toOption = some [2, 1, 0o16] := by decide +kernel
example : (encodeItems [.integer .integer 1745]).toOption = some [2, 2, 6, 0o321] := by decide +kernel
example : (encodeItems [.integer .integer 63, .null .null]).toOption = some [2, 1, 0o77, 5, 0] := by decide +kernel
example : (encodeItems [.oid (some [1, 1, 6, 5, 44, 3, 5]), .octets .octetString (lit "blah"),
      .integer .integer 98847]).toOption
    = some [6, 6, 0o51, 6, 5, 0o54, 3, 5, 4, 4, 0o142, 0o154, 0o141, 0o150, 2, 3, 1, 0o202, 0o37] := by decide +kernel
/-- test_sequenceEncodeDecode (the last sequence). -/
example : (match decodeContents regV1 (.seq .sequence)
      [6, 6, 0o51, 6, 5, 0o54, 3, 5, 4, 4, 0o142, 0o154, 0o141, 0o150, 2, 3, 1, 0o202, 0o37] with
    | .ok (.seq .sequence [.oid (some [1, 1, 6, 5, 44, 3, 5]), .octets .octetString s, .integer .integer 98847]) =>
      s == lit "blah"
    | _ => false) = true := by decide +kernel

/-- test_encoder.py:83-87, test_ipAddressEncode. -/
example : (match mkIPAddress .ipAddress (.str (lit "10.232.8.4")) with
    | .ok (.octets .ipAddress s) => s == [10, 232, 8, 4] | _ => false) = true := by decide +kernel

/-- test_encoder.py:89-111, test_octetDecode (the test only asks that decoding succeeds; the comment of the third case says
-1 where the octet, 0o337, is -33). -/
example : (match decodeAll regV1 [2, 3, 0o246, 0o302, 0o34, 2, 3, 1, 0o347, 0o163, 2, 1, 0o337] with
    | .ok [.integer .integer (-5848548), .integer .integer 124787, .integer .integer (-33)] => true
    | _ => false) = true := by decide +kernel
example : (match decodeAll regV1 [6, 9, 0o52, 0o101, 7, 0o232, 0o102, 0o27, 5, 0o163, 0o56] with
    | .ok [.oid (some [1, 2, 65, 7, 3394, 23, 5, 115, 46])] => true | _ => false) = true := by decide +kernel
example : (match decodeAll regV1 ([4, 0o36] ++ lit "the small frog sat in the well") with
    | .ok [.octets .octetString s] => s == lit "the small frog sat in the well" | _ => false) = true := by decide +kernel
example : (match decodeAll regV1 [5, 0] with | .ok [.null .null] => true | _ => false) = true := by decide +kernel

/-! ## test_rfc1155.py -/

/-- test_objectid_equality: list, tuple, text with and without leading dot, and the decoded object hold the same list. -/
def oidA : List Int := [1, 3, 6, 1, 2, 1, 2, 3, 234, 23, 4, 23, 423, 234, 23423423, 4234]
def textA : Str := lit "1.3.6.1.2.1.2.3.234.23.4.23.423.234.23423423.4234"

example : (mkOid (.list oidA)).toOption = some (some oidA) ∧ (mkOid (.tuple oidA)).toOption = some (some oidA)
    ∧ (mkOid (.str textA)).toOption = some (some oidA) ∧ (mkOid (.str (lit "." ++ textA))).toOption = some (some oidA) := by
  decide +kernel
example : (match (Val.oid (some oidA)).encode with
    | .ok s => (match decodeAll regV1 s with | .ok [.oid (some v)] => v == oidA | _ => false)
    | .error _ => false) = true := by decide +kernel
/-- test_objectid_length. -/
example : (Val.oid (some oidA)).len.toOption = some 16 := by decide +kernel

/-- test_integer. -/
example : ([0, 0x7FFFFFFF, -1, -0x7FFFFFF].all fun v => (mkInteger .integer v).isOk) = true := by decide +kernel

/-- test_ip_address. -/
def addresses : List (Str × Str) :=
  [(lit "0.0.0.0", [64, 4, 0, 0, 0, 0]), (lit "255.255.255.255", [64, 4, 255, 255, 255, 255]),
   (lit "1.2.3.4", [64, 4, 1, 2, 3, 4]), (lit "10.0.0.1", [64, 4, 10, 0, 0, 1]),
   (lit "254.154.1.0", [64, 4, 254, 0x9a, 1, 0]), (lit "0.0.0.1", [64, 4, 0, 0, 0, 1]),
   (lit "255.0.0.0", [64, 4, 255, 0, 0, 0])]
example : addresses.all (fun p => match mkIPAddress .ipAddress (.str p.1) with
    | .ok v => (match v.encode with
      | .ok s => s == p.2 && (match decodeAll regV1 s with
        | .ok [.octets .ipAddress o] => (match v with | .octets .ipAddress o' => o == o' | _ => false)
        | _ => false)
      | .error _ => false)
    | .error _ => false) = true := by decide +kernel

/-! ## test_rfc1157.py: the three bindings of the PDU tests are encoded and decoded as Get, GetNext, Response and Set -/

def bindings : List Val :=
  [.seq .varBind [.oid (some [1, 0, 3, 4, 5, 7]), .integer .integer 47],
   .seq .varBind [.oid (some [1, 4, 5, 4, 55, 4465, 7]), .null .null],
   .seq .varBind [.oid (some [1, 2, 5, 8, 6858, 7]),
     .seq .sequence [.octets .octetString (lit "blah"), .octets .networkAddress [10, 232, 8, 6]]]]
example : ([SeqCls.get, .getNext, .response, .set].all fun c => match mkPDU c 5 0 0 bindings with
    | .ok p => (match p.encode with
      | .ok s => (match decodeAll regV1 s with | .ok [.seq _ [.integer _ 5, _, _, .seq _ [_, _, _]]] => true | _ => false)
      | .error _ => false)
    | .error _ => false) = true := by decide +kernel

/-! ## test_Messages.py: the data is already encoded text -/

example : (match (Val.seq .varBindList [.seq .varBind [.oid (some [1, 3, 6, 1, 2, 1, 1, 3, 0]), .null .null]]).encode with
    | .ok d => (match mkMessage .message 0 (lit "public") (.str d) with
      | .ok m => (match m.encode with
        | .ok s => (match msgDecode regV1 .message (.str s) with
          | .ok ⟨.message, .integer .integer 0, .octets .octetString _, .seq .sequence [.seq .sequence [.oid _, .null _]]⟩ => true
          | _ => false)
        | .error _ => false)
      | .error _ => false)
    | .error _ => false) = true := by decide +kernel

end Libsnmp.RepoTests
