import Verif.Model.Lang

/-!
# The source text of the codec

Generated by tools/extract_source.py from the text of util.py, rfc1155.py, rfc1157.py, rfc1902.py, rfc1905.py, role.py, asynrole.py, v1.py, v2.py, snmpmanager.py: every function and class, as syntax trees.  Comments and
documentation strings are left out.
-/

namespace Libsnmp.Src

/-! ## Functions -/

/-- util.py:13-16, the body of the loop. -/
def util_13 : List Stmt :=
 [.assign (.loc "byte") (.index (.loc "octets") (.int 0)),
  .assign (.loc "octets") (.slice (.loc "octets") (.int 1) .none),
  .aug (.loc "result") .add (.bin .mod (.str (lit "%.2x")) (.call (.glob "ord") [.loc "byte"]))]

/-- util.py:9-18 `octetsToHex`. -/
def util_9 : Fn where
  name := "octetsToHex"
  params := ["octets"]
  defaults := []
  locals := ["result", "byte"]
  body :=
   [.assign (.loc "result") (.str (lit "")),
    .whileS (.loc "octets") util_13,
    .ret (.loc "result")]

/-- util.py:24-27, the body of the loop. -/
def util_24 : List Stmt :=
 [.assign (.loc "byte") (.index (.loc "octets") (.int 0)),
  .assign (.loc "octets") (.slice (.loc "octets") (.int 1) .none),
  .aug (.loc "result") .add (.bin .mod (.str (lit "%.4s,")) (.call (.glob "oct") [.call (.glob "ord") [.loc "byte"]]))]

/-- util.py:20-29 `octetsToOct`. -/
def util_20 : Fn where
  name := "octetsToOct"
  params := ["octets"]
  defaults := []
  locals := ["result", "byte"]
  body :=
   [.assign (.loc "result") (.str (lit "")),
    .whileS (.loc "octets") util_24,
    .ret (.loc "result")]

/-- rfc1155.py:79-80 `Asn1Object.__init__`. -/
def rfc1155_79 : Fn where
  name := "__init__"
  params := ["self"]
  defaults := []
  locals := []
  body :=
   [.ret .none]

/-- rfc1155.py:82-95 `Asn1Object.encode`. -/
def rfc1155_82 : Fn where
  name := "encode"
  params := ["self"]
  defaults := []
  locals := ["contents", "resultlist", "result"]
  body :=
   [.assign (.loc "contents") (.call (.attr (.loc "self") "encodeContents") []),
    .assign (.loc "resultlist") (.list []),
    .expr (.call (.attr (.loc "resultlist") "append") [.call (.attr (.loc "self") "encodeIdentifier") []]),
    .expr (.call (.attr (.loc "resultlist") "append") [.call (.attr (.loc "self") "encodeLength") [.call (.glob "len") [.loc "contents"]]]),
    .expr (.call (.attr (.loc "resultlist") "append") [.loc "contents"]),
    .assign (.loc "result") (.call (.attr (.str (lit "")) "join") [.loc "resultlist"]),
    .ret (.loc "result")]

/-- rfc1155.py:114-119, the body of the loop. -/
def rfc1155_114 : List Stmt :=
 [.assign (.loc "byte") (.call (.glob "ord") [.index (.loc "stream") (.loc "n")]),
  .assign (.loc "tag") (.bin .bor (.bin .shl (.loc "tag") (.int 7)) (.bin .band (.loc "byte") (.int 127))),
  .aug (.loc "n") .add (.int 1),
  .ifS (.not (.bin .band (.loc "byte") (.int 128)))
    [.brk]
    [],
  .pass]

/-- rfc1155.py:99-122 `Asn1Object.decodeTag`. -/
def rfc1155_99 : Fn where
  name := "decodeTag"
  params := ["self", "stream"]
  defaults := []
  locals := ["tag", "n", "byte"]
  body :=
   [.assign (.loc "tag") (.call (.glob "ord") [.index (.loc "stream") (.int 0)]),
    .assign (.loc "n") (.int 1),
    .ifS (.cmp .eq (.bin .band (.loc "tag") (.int 31)) (.int 31))
      [.assign (.loc "tag") (.int 0),
       .whileS (.int 1) rfc1155_114,
       .pass]
      [],
    .ret (.tuple [.loc "tag", .slice (.loc "stream") (.loc "n") .none])]

/-- rfc1155.py:141-144, the body of the loop. -/
def rfc1155_141 : List Stmt :=
 [.assign (.loc "length") (.bin .bor (.bin .shl (.loc "length") (.int 8)) (.call (.glob "ord") [.index (.loc "stream") (.loc "n")])),
  .aug (.loc "n") .add (.int 1),
  .pass]

/-- rfc1155.py:126-146 `Asn1Object.decodeLength`. -/
def rfc1155_126 : Fn where
  name := "decodeLength"
  params := ["self", "stream"]
  defaults := []
  locals := ["length", "n", "run", "i"]
  body :=
   [.assign (.loc "length") (.call (.glob "ord") [.index (.loc "stream") (.int 0)]),
    .assign (.loc "n") (.int 1),
    .ifS (.bin .band (.loc "length") (.int 128))
      [.assign (.loc "run") (.bin .band (.loc "length") (.int 127)),
       .assign (.loc "length") (.int 0),
       .forS "i" (.call (.glob "range") [.loc "run"]) rfc1155_141,
       .pass]
      [],
    .ret (.tuple [.loc "length", .slice (.loc "stream") (.loc "n") .none])]

/-- rfc1155.py:164-178, the body of the loop. -/
def rfc1155_164 : List Stmt :=
 [.assign (.tuple ["tag", "stream"]) (.call (.attr (.loc "self") "decodeTag") [.loc "stream"]),
  .assign (.tuple ["length", "stream"]) (.call (.attr (.loc "self") "decodeLength") [.loc "stream"]),
  .assign (.loc "objectData") (.slice (.loc "stream") .none (.loc "length")),
  .assign (.loc "stream") (.slice (.loc "stream") (.loc "length") .none),
  .tryS
    [.assign (.loc "decoder") (.call (.index (.glob "tagDecodeDict") (.loc "tag")) [])] (some "KeyError")
    [.raise (.call (.glob "ValueError") [.bin .mod (.str (lit "Unknown ASN.1 Type %d")) (.loc "tag")])],
  .expr (.call (.attr (.loc "objects") "append") [.call (.attr (.loc "decoder") "decodeContents") [.loc "objectData"]]),
  .pass]

/-- rfc1155.py:150-180 `Asn1Object.decode`. -/
def rfc1155_150 : Fn where
  name := "decode"
  params := ["self", "stream"]
  defaults := []
  locals := ["objects", "tag", "length", "objectData", "decoder"]
  body :=
   [.ifS (.cmp .ne (.call (.glob "type") [.loc "stream"]) (.glob "str"))
      [.raise (.call (.glob "TypeError") [.bin .mod (.str (lit "stream should be of type StringType, not %s")) (.call (.glob "type") [.loc "stream"])])]
      [],
    .assign (.loc "objects") (.list []),
    .whileS (.cmp .gt (.call (.glob "len") [.loc "stream"]) (.int 0)) rfc1155_164,
    .ret (.loc "objects")]

/-- rfc1155.py:182-187 `Asn1Object.encodeContents`. -/
def rfc1155_182 : Fn where
  name := "encodeContents"
  params := ["self"]
  defaults := []
  locals := []
  body :=
   [.raise (.glob "NotImplementedError")]

/-- rfc1155.py:210-213, the body of the loop. -/
def rfc1155_210 : List Stmt :=
 [.expr (.call (.attr (.loc "resultlist") "append") [.call (.glob "chr") [.bin .band (.loc "integer") (.int 255)]]),
  .assign (.loc "integer") (.bin .shr (.loc "integer") (.int 8)),
  .pass]

/-- rfc1155.py:189-217 `Asn1Object.encodeIdentifier`. -/
def rfc1155_189 : Fn where
  name := "encodeIdentifier"
  params := ["self"]
  defaults := []
  locals := ["result", "resultlist", "integer"]
  body :=
   [.ifS (.cmp .lt (.attr (.loc "self") "asnTagNumber") (.int 31))
      [.assign (.loc "result") (.call (.glob "chr") [.bin .bor (.bin .bor (.attr (.loc "self") "asnTagClass") (.attr (.loc "self") "asnTagFormat")) (.attr (.loc "self") "asnTagNumber")])]
      [.assign (.loc "resultlist") (.list []),
       .expr (.call (.attr (.loc "resultlist") "append") [.call (.glob "chr") [.bin .bor (.bin .bor (.attr (.loc "self") "asnTagClass") (.attr (.loc "self") "asnTagFormat")) (.int 31)]]),
       .assign (.loc "integer") (.attr (.loc "self") "asnTagNumber"),
       .whileS (.cmp .ne (.loc "integer") (.int (-1))) rfc1155_210,
       .assign (.loc "result") (.call (.attr (.str (lit "")) "join") [.loc "resultlist"]),
       .pass],
    .ret (.loc "result")]

/-- rfc1155.py:241-245, the body of the loop. -/
def rfc1155_241 : List Stmt :=
 [.expr (.call (.attr (.loc "resultlist") "insert") [.int 0, .call (.glob "chr") [.bin .band (.loc "length") (.int 255)]]),
  .assign (.loc "length") (.bin .shr (.loc "length") (.int 8)),
  .aug (.loc "numOctets") .add (.int 1),
  .pass]

/-- rfc1155.py:219-255 `Asn1Object.encodeLength`. -/
def rfc1155_219 : Fn where
  name := "encodeLength"
  params := ["self", "length"]
  defaults := []
  locals := ["result", "resultlist", "numOctets"]
  body :=
   [.ifS (.cmp .lt (.loc "length") (.int 127))
      [.assign (.loc "result") (.call (.glob "chr") [.bin .band (.loc "length") (.int 255)]),
       .pass]
      [.ifS (.glob "__debug__")
         [.expr (.call (.attr (.glob "log") "debug") [.bin .mod (.str (lit "Long length encoding required for length of %d")) (.loc "length")])]
         [],
       .assign (.loc "resultlist") (.list []),
       .assign (.loc "numOctets") (.int 0),
       .whileS (.cmp .gt (.loc "length") (.int 0)) rfc1155_241,
       .ifS (.glob "__debug__")
         [.expr (.call (.attr (.glob "log") "debug") [.bin .mod (.str (lit "long length encoding of: %d octets")) (.loc "numOctets")])]
         [],
       .assign (.loc "numOctets") (.bin .bor (.loc "numOctets") (.int 128)),
       .expr (.call (.attr (.loc "resultlist") "insert") [.int 0, .call (.glob "chr") [.bin .band (.loc "numOctets") (.int 255)]]),
       .assign (.loc "result") (.call (.attr (.str (lit "")) "join") [.loc "resultlist"]),
       .pass],
    .ret (.loc "result")]

/-- rfc1155.py:257-258 `Asn1Object.encodeEndOfContents`. -/
def rfc1155_257 : Fn where
  name := "encodeEndOfContents"
  params := ["self"]
  defaults := []
  locals := []
  body :=
   [.ret (.str (lit "\x00\x00"))]

/-- rfc1155.py:262-268 `Asn1Object.__eq__`. -/
def rfc1155_262 : Fn where
  name := "__eq__"
  params := ["self", "other"]
  defaults := []
  locals := []
  body :=
   [.ret (.and (.call (.glob "isinstance") [.loc "other", .attr (.loc "self") "__class__"]) (.cmp .eq (.attr (.loc "self") "value") (.attr (.loc "other") "value")))]

/-- rfc1155.py:274-278 `Asn1Object.__ne__`. -/
def rfc1155_274 : Fn where
  name := "__ne__"
  params := ["self", "other"]
  defaults := []
  locals := []
  body :=
   [.ret (.not (.cmp .eq (.loc "self") (.loc "other")))]

/-- rfc1155.py:282-283 `Asn1Object.toObjectID`. -/
def rfc1155_282 : Fn where
  name := "toObjectID"
  params := ["self"]
  defaults := []
  locals := []
  body :=
   [.raise (.glob "TypeError")]

/-- rfc1155.py:297-305 `Integer.__init__`. -/
def rfc1155_297 : Fn where
  name := "__init__"
  params := ["self", "value"]
  defaults := [.int 0]
  locals := []
  body :=
   [.expr (.call (.attr (.glob "Asn1Object") "__init__") [.loc "self"]),
    .ifS (.not (.cmp2 .le .le (.attr (.loc "self") "MINVAL") (.loc "value") (.attr (.loc "self") "MAXVAL")))
      [.ifS (.glob "__debug__")
         [.expr (.call (.attr (.glob "log") "debug") [.bin .mod (.str (lit "minval: %d")) (.attr (.loc "self") "MINVAL")])]
         [],
       .ifS (.glob "__debug__")
         [.expr (.call (.attr (.glob "log") "debug") [.bin .mod (.str (lit "maxval: %d")) (.attr (.loc "self") "MAXVAL")])]
         [],
       .raise (.call (.glob "ValueError") [.bin .mod (.str (lit "Integer value of %d is out of bounds")) (.loc "value")])]
      [],
    .assign (.attr (.loc "self") "value") (.loc "value"),
    .ret .none]

/-- rfc1155.py:307-308 `Integer.__str__`. -/
def rfc1155_307 : Fn where
  name := "__str__"
  params := ["self"]
  defaults := []
  locals := []
  body :=
   [.ret (.bin .mod (.str (lit "%d")) (.attr (.loc "self") "value"))]

/-- rfc1155.py:310-311 `Integer.__int__`. -/
def rfc1155_310 : Fn where
  name := "__int__"
  params := ["self"]
  defaults := []
  locals := []
  body :=
   [.ret (.call (.glob "int") [.attr (.loc "self") "value"])]

/-- rfc1155.py:313-314 `Integer.__float__`. -/
def rfc1155_313 : Fn where
  name := "__float__"
  params := ["self"]
  defaults := []
  locals := []
  body :=
   [.ret (.call (.glob "float") [.attr (.loc "self") "value"])]

/-- rfc1155.py:316-317 `Integer.__long__`. -/
def rfc1155_316 : Fn where
  name := "__long__"
  params := ["self"]
  defaults := []
  locals := []
  body :=
   [.ret (.attr (.loc "self") "value")]

/-- rfc1155.py:319-320 `Integer.__hex__`. -/
def rfc1155_319 : Fn where
  name := "__hex__"
  params := ["self"]
  defaults := []
  locals := []
  body :=
   [.ret (.call (.glob "hex") [.attr (.loc "self") "value"])]

/-- rfc1155.py:322-323 `Integer.__oct__`. -/
def rfc1155_322 : Fn where
  name := "__oct__"
  params := ["self"]
  defaults := []
  locals := []
  body :=
   [.ret (.call (.glob "oct") [.attr (.loc "self") "value"])]

/-- rfc1155.py:325-328 `Integer.__call__`. -/
def rfc1155_325 : Fn where
  name := "__call__"
  params := ["self"]
  defaults := []
  locals := []
  body :=
   [.ret (.attr (.loc "self") "value")]

/-- rfc1155.py:331-339 `Integer.__eq__`. -/
def rfc1155_331 : Fn where
  name := "__eq__"
  params := ["self", "other"]
  defaults := []
  locals := []
  body :=
   [.tryS
      [.ifS (.cmp .eq (.attr (.loc "self") "value") (.call (.glob "int") [.loc "other"]))
         [.ret (.bool true)]
         []] none
      [.reraise],
    .ret (.bool false)]

/-- rfc1155.py:341-347 `Integer.__add__`. -/
def rfc1155_341 : Fn where
  name := "__add__"
  params := ["self", "integer"]
  defaults := []
  locals := []
  body :=
   [.ifS (.not (.call (.glob "isinstance") [.loc "integer", .attr (.loc "self") "__class__"]))
      [.assign (.loc "integer") (.call (.attr (.loc "self") "__class__") [.loc "integer"])]
      [],
    .ret (.call (.attr (.loc "self") "__class__") [.bin .add (.attr (.loc "self") "value") (.attr (.loc "integer") "value")])]

/-- rfc1155.py:349-352 `Integer.__sub__`. -/
def rfc1155_349 : Fn where
  name := "__sub__"
  params := ["self", "integer"]
  defaults := []
  locals := []
  body :=
   [.ifS (.not (.call (.glob "isinstance") [.loc "integer", .attr (.loc "self") "__class__"]))
      [.assign (.loc "integer") (.call (.attr (.loc "self") "__class__") [.loc "integer"])]
      [],
    .ret (.call (.attr (.loc "self") "__class__") [.bin .add (.attr (.loc "self") "value") (.attr (.loc "integer") "value")])]

/-- rfc1155.py:354-358 `Integer.__hash__`. -/
def rfc1155_354 : Fn where
  name := "__hash__"
  params := ["self"]
  defaults := []
  locals := []
  body :=
   [.ret (.call (.attr (.attr (.loc "self") "value") "__hash__") [])]

/-- rfc1155.py:375-378, the body of the loop. -/
def rfc1155_375 : List Stmt :=
 [.expr (.call (.attr (.loc "result") "insert") [.int 0, .bin .band (.loc "integer") (.int 255)]),
  .aug (.loc "integer") .shr (.int 8),
  .pass]

/-- rfc1155.py:388-391, the body of the loop. -/
def rfc1155_388 : List Stmt :=
 [.expr (.call (.attr (.loc "result") "insert") [.int 0, .bin .band (.loc "integer") (.int 255)]),
  .aug (.loc "integer") .shr (.int 8),
  .pass]

/-- rfc1155.py:360-399 `Integer.encodeContents`. -/
def rfc1155_360 : Fn where
  name := "encodeContents"
  params := ["self"]
  defaults := []
  locals := ["integer", "result"]
  body :=
   [.assign (.loc "integer") (.attr (.loc "self") "value"),
    .ifS (.cmp .eq (.loc "integer") (.int 0))
      [.ret (.str (lit "\x00"))]
      [.ifS (.cmp .eq (.loc "integer") (.int (-1)))
         [.ret (.str (lit "\xff"))]
         [.ifS (.cmp .gt (.loc "integer") (.int 0))
            [.assign (.loc "result") (.list []),
             .whileS (.cmp .ne (.loc "integer") (.int 0)) rfc1155_375,
             .ifS (.bin .band (.index (.loc "result") (.int 0)) (.int 128))
               [.expr (.call (.attr (.loc "result") "insert") [.int 0, .int 0]),
                .pass]
               [],
             .ret (.call (.attr (.str (lit "")) "join") [.call (.glob "map") [.glob "chr", .loc "result"]])]
            [.assign (.loc "result") (.list []),
             .whileS (.cmp .ne (.loc "integer") (.int (-1))) rfc1155_388,
             .ifS (.cmp .ne (.bin .band (.index (.loc "result") (.int 0)) (.int 128)) (.int 128))
               [.expr (.call (.attr (.loc "result") "insert") [.int 0, .int 0]),
                .pass]
               [],
             .ret (.call (.attr (.str (lit "")) "join") [.call (.glob "map") [.glob "chr", .loc "result"]])]]],
    .pass]

/-- rfc1155.py:418-421, the body of the loop. -/
def rfc1155_418 : List Stmt :=
 [.aug (.loc "negbit") .shl (.int 8),
  .assign (.attr (.loc "self") "value") (.bin .bor (.bin .shl (.attr (.loc "self") "value") (.int 8)) (.index (.loc "input") (.loc "i"))),
  .pass]

/-- rfc1155.py:427-429, the body of the loop. -/
def rfc1155_427 : List Stmt :=
 [.assign (.attr (.loc "self") "value") (.bin .bor (.bin .shl (.attr (.loc "self") "value") (.int 8)) (.index (.loc "input") (.loc "i"))),
  .pass]

/-- rfc1155.py:401-434 `Integer.decodeContents`. -/
def rfc1155_401 : Fn where
  name := "decodeContents"
  params := ["self", "stream"]
  defaults := []
  locals := ["input", "byte", "negbit", "i"]
  body :=
   [.assign (.loc "input") (.call (.glob "list") [.call (.glob "map") [.glob "ord", .loc "stream"]]),
    .ifS (.glob "__debug__")
      [.expr (.call (.attr (.glob "log") "debug") [.bin .mod (.str (lit "Decoding %s")) (.call (.attr (.glob "util") "octetsToHex") [.loc "stream"])])]
      [],
    .assign (.attr (.loc "self") "value") (.int 0),
    .assign (.loc "byte") (.index (.loc "input") (.int 0)),
    .ifS (.cmp .eq (.bin .band (.loc "byte") (.int 128)) (.int 128))
      [.assign (.loc "negbit") (.int 128),
       .assign (.attr (.loc "self") "value") (.bin .band (.loc "byte") (.int 127)),
       .forS "i" (.call (.glob "range") [.int 1, .call (.glob "len") [.loc "input"]]) rfc1155_418,
       .assign (.attr (.loc "self") "value") (.bin .sub (.attr (.loc "self") "value") (.loc "negbit"))]
      [.assign (.attr (.loc "self") "value") (.call (.glob "int") [.loc "byte"]),
       .forS "i" (.call (.glob "range") [.int 1, .call (.glob "len") [.loc "input"]]) rfc1155_427,
       .pass],
    .ifS (.glob "__debug__")
      [.expr (.call (.attr (.glob "log") "debug") [.bin .mod (.str (lit "decoded as: %d")) (.attr (.loc "self") "value")])]
      [],
    .ret (.loc "self")]

/-- rfc1155.py:436-450 `Integer.decodeTwosInteger1`. -/
def rfc1155_436 : Fn where
  name := "decodeTwosInteger1"
  params := ["self", "stream"]
  defaults := []
  locals := ["bytes", "result"]
  body :=
   [.assign (.loc "bytes") (.call (.glob "list") [.call (.glob "map") [.glob "ord", .loc "stream"]]),
    .ifS (.bin .band (.index (.loc "bytes") (.int 0)) (.int 128))
      [.expr (.call (.attr (.loc "bytes") "insert") [.int 0, .int (-1)]),
       .pass]
      [],
    .assign (.loc "result") (.call (.glob "reduce") [.lam ["x", "y"] (.bin .bor (.bin .shl (.loc "x") (.int 8)) (.loc "y")), .loc "bytes", .int 0]),
    .ret (.loc "result")]

/-- rfc1155.py:463-467, the body of the loop. -/
def rfc1155_463 : List Stmt :=
 [.assign (.loc "byte") (.call (.glob "ord") [.index (.loc "stream") (.bin .add (.loc "i") (.int 1))]),
  .aug (.loc "negbit") .shl (.int 8),
  .assign (.loc "val") (.bin .bor (.bin .shl (.loc "val") (.int 8)) (.loc "byte")),
  .pass]

/-- rfc1155.py:473-476, the body of the loop. -/
def rfc1155_473 : List Stmt :=
 [.assign (.loc "byte") (.call (.glob "ord") [.index (.loc "stream") (.bin .add (.loc "i") (.int 1))]),
  .assign (.loc "val") (.bin .bor (.bin .shl (.loc "val") (.int 8)) (.loc "byte")),
  .pass]

/-- rfc1155.py:452-478 `Integer.decodeTwosInteger2`. -/
def rfc1155_452 : Fn where
  name := "decodeTwosInteger2"
  params := ["self", "stream"]
  defaults := []
  locals := ["val", "byte", "negbit", "i"]
  body :=
   [.assign (.loc "val") (.int 0),
    .assign (.loc "byte") (.call (.glob "ord") [.index (.loc "stream") (.int 0)]),
    .ifS (.cmp .eq (.bin .band (.loc "byte") (.int 128)) (.int 128))
      [.assign (.loc "negbit") (.int 128),
       .assign (.loc "val") (.bin .band (.loc "byte") (.int 127)),
       .forS "i" (.call (.glob "range") [.bin .sub (.call (.glob "len") [.loc "stream"]) (.int 1)]) rfc1155_463,
       .assign (.loc "val") (.bin .sub (.loc "val") (.loc "negbit"))]
      [.assign (.loc "val") (.loc "byte"),
       .forS "i" (.call (.glob "range") [.bin .sub (.call (.glob "len") [.loc "stream"]) (.int 1)]) rfc1155_473,
       .pass],
    .ret (.loc "val")]

/-- rfc1155.py:491-494, the body of the loop. -/
def rfc1155_491 : List Stmt :=
 [.aug (.loc "negbit") .shl (.int 8),
  .assign (.loc "val") (.bin .bor (.bin .shl (.loc "val") (.int 8)) (.loc "i")),
  .pass]

/-- rfc1155.py:498-500, the body of the loop. -/
def rfc1155_498 : List Stmt :=
 [.assign (.loc "val") (.bin .bor (.bin .shl (.loc "val") (.int 8)) (.loc "i")),
  .pass]

/-- rfc1155.py:480-503 `Integer.decodeTwosInteger3`. -/
def rfc1155_480 : Fn where
  name := "decodeTwosInteger3"
  params := ["self", "stream"]
  defaults := []
  locals := ["val", "bytes", "negbit", "i"]
  body :=
   [.assign (.loc "val") (.int 0),
    .assign (.loc "bytes") (.call (.glob "list") [.call (.glob "map") [.glob "ord", .loc "stream"]]),
    .ifS (.bin .band (.index (.loc "bytes") (.int 0)) (.int 128))
      [.assign (.index (.loc "bytes") (.int 0)) (.bin .band (.index (.loc "bytes") (.int 0)) (.int 127)),
       .assign (.loc "negbit") (.int 128),
       .forS "i" (.loc "bytes") rfc1155_491,
       .assign (.loc "val") (.bin .sub (.loc "val") (.bin .shr (.loc "negbit") (.int 8)))]
      [.forS "i" (.loc "bytes") rfc1155_498,
       .pass],
    .ret (.loc "val")]

/-- rfc1155.py:507-508 `Integer.toObjectID`. -/
def rfc1155_507 : Fn where
  name := "toObjectID"
  params := ["self"]
  defaults := []
  locals := []
  body :=
   [.ret (.call (.glob "ObjectID") [.list [.attr (.loc "self") "value"]])]

/-- rfc1155.py:519-522 `OctetString.__init__`. -/
def rfc1155_519 : Fn where
  name := "__init__"
  params := ["self", "value"]
  defaults := [.str (lit "")]
  locals := []
  body :=
   [.expr (.call (.attr (.glob "Asn1Object") "__init__") [.loc "self"]),
    .assign (.attr (.loc "self") "value") (.call (.attr (.glob "copy") "copy") [.loc "value"]),
    .ret .none]

/-- rfc1155.py:524-525 `OctetString.__str__`. -/
def rfc1155_524 : Fn where
  name := "__str__"
  params := ["self"]
  defaults := []
  locals := []
  body :=
   [.ret (.attr (.loc "self") "value")]

/-- rfc1155.py:527-530 `OctetString.encodeContents`. -/
def rfc1155_527 : Fn where
  name := "encodeContents"
  params := ["self"]
  defaults := []
  locals := []
  body :=
   [.ret (.attr (.loc "self") "value")]

/-- rfc1155.py:532-536 `OctetString.decodeContents`. -/
def rfc1155_532 : Fn where
  name := "decodeContents"
  params := ["self", "stream"]
  defaults := []
  locals := []
  body :=
   [.assign (.attr (.loc "self") "value") (.loc "stream"),
    .ret (.loc "self")]

/-- rfc1155.py:538-539 `OctetString.__hex__`. -/
def rfc1155_538 : Fn where
  name := "__hex__"
  params := ["self"]
  defaults := []
  locals := []
  body :=
   [.ret (.call (.attr (.str (lit "")) "join") [.comp (.bin .mod (.str (lit "%.2X")) (.call (.glob "ord") [.loc "x"])) "x" (.attr (.loc "self") "value")])]

/-- rfc1155.py:541-542 `OctetString.__oct__`. -/
def rfc1155_541 : Fn where
  name := "__oct__"
  params := ["self"]
  defaults := []
  locals := []
  body :=
   [.ret (.call (.attr (.str (lit "")) "join") [.comp (.bin .mod (.str (lit "%3o")) (.call (.glob "ord") [.loc "x"])) "x" (.attr (.loc "self") "value")])]

/-- rfc1155.py:544-545 `OctetString.toObjectID`. -/
def rfc1155_544 : Fn where
  name := "toObjectID"
  params := ["self"]
  defaults := []
  locals := []
  body :=
   [.ret (.call (.glob "ObjectID") [.comp (.call (.glob "ord") [.loc "x"]) "x" (.attr (.loc "self") "value")])]

/-- rfc1155.py:570-575, the body of the loop. -/
def rfc1155_570 : List Stmt :=
 [.assign (.loc "number") (.call (.glob "int") [.loc "subid"]),
  .ifS (.or (.cmp .lt (.loc "number") (.int 0)) (.cmp .gt (.loc "number") (.int 2147483647)))
    [.raise (.call (.glob "ValueError") [.str (lit "SubID out of range")])]
    [],
  .expr (.call (.attr (.attr (.loc "self") "value") "append") [.loc "number"]),
  .pass]

/-- rfc1155.py:557-593 `ObjectID.__init__`. -/
def rfc1155_557 : Fn where
  name := "__init__"
  params := ["self", "value"]
  defaults := [.none]
  locals := ["subidlist", "subid", "number"]
  body :=
   [.expr (.call (.attr (.glob "Asn1Object") "__init__") [.loc "self"]),
    .ifS (.cmp .eq (.call (.glob "type") [.loc "value"]) (.glob "str"))
      [.assign (.loc "value") (.call (.attr (.loc "value") "strip") [.str (lit ".")]),
       .assign (.loc "subidlist") (.call (.attr (.loc "value") "split") [.str (lit ".")]),
       .assign (.attr (.loc "self") "value") (.list []),
       .forS "subid" (.loc "subidlist") rfc1155_570,
       .pass]
      [.ifS (.or (.cmp .eq (.call (.glob "type") [.loc "value"]) (.glob "list")) (.cmp .is (.loc "value") .none))
         [.assign (.attr (.loc "self") "value") (.call (.attr (.glob "copy") "copy") [.loc "value"])]
         [.ifS (.cmp .eq (.call (.glob "type") [.loc "value"]) (.glob "tuple"))
            [.assign (.attr (.loc "self") "value") (.call (.glob "list") [.loc "value"])]
            [.ifS (.cmp .eq (.call (.glob "type") [.loc "value"]) (.glob "int"))
               [.assign (.attr (.loc "self") "value") (.list [.loc "value"])]
               [.ifS (.call (.glob "isinstance") [.loc "value", .glob "ObjectID"])
                  [.assign (.attr (.loc "self") "value") (.slice (.attr (.loc "value") "value") .none .none)]
                  [.raise (.call (.glob "TypeError") [.str (lit "unknown type passed as OID")])]]]]],
    .ret .none]

/-- rfc1155.py:595-602 `ObjectID.__str__`. -/
def rfc1155_595 : Fn where
  name := "__str__"
  params := ["self"]
  defaults := []
  locals := []
  body :=
   [.ifS (.cmp .isNot (.attr (.loc "self") "value") .none)
      [.ret (.bin .add (.str (lit ".")) (.call (.attr (.str (lit ".")) "join") [.comp (.call (.glob "str") [.loc "x"]) "x" (.attr (.loc "self") "value")]))]
      [.ret (.str (lit ""))],
    .pass]

/-- rfc1155.py:604-612 `ObjectID.__len__`. -/
def rfc1155_604 : Fn where
  name := "__len__"
  params := ["self"]
  defaults := []
  locals := []
  body :=
   [.ifS (.cmp .is (.attr (.loc "self") "value") .none)
      [.ret (.int 0)]
      [.ret (.call (.glob "len") [.attr (.loc "self") "value"])],
    .pass]

/-- rfc1155.py:614-619 `ObjectID.__getitem__`. -/
def rfc1155_614 : Fn where
  name := "__getitem__"
  params := ["self", "key"]
  defaults := []
  locals := []
  body :=
   [.ifS (.call (.glob "isinstance") [.loc "key", .glob "int"])
      [.ret (.call (.attr (.attr (.loc "self") "value") "__getitem__") [.loc "key"])]
      [.ret (.call (.glob "ObjectID") [.call (.attr (.attr (.loc "self") "value") "__getitem__") [.loc "key"]])],
    .pass]

/-- rfc1155.py:621-623 `ObjectID.__delitem__`. -/
def rfc1155_621 : Fn where
  name := "__delitem__"
  params := ["self", "key"]
  defaults := []
  locals := []
  body :=
   [.expr (.call (.attr (.attr (.loc "self") "value") "__delitem__") [.loc "key"]),
    .ret .none]

/-- rfc1155.py:625-629 `ObjectID.copy`. -/
def rfc1155_625 : Fn where
  name := "copy"
  params := ["self"]
  defaults := []
  locals := []
  body :=
   [.ret (.call (.glob "ObjectID") [.attr (.loc "self") "value"])]

/-- rfc1155.py:631-636 `ObjectID.append`. -/
def rfc1155_631 : Fn where
  name := "append"
  params := ["self", "subid"]
  defaults := []
  locals := []
  body :=
   [.ifS (.cmp .eq (.call (.glob "type") [.loc "subid"]) (.glob "int"))
      [.expr (.call (.attr (.attr (.loc "self") "value") "append") [.loc "subid"])]
      [.raise (.glob "TypeError")],
    .ret .none]

/-- rfc1155.py:638-644 `ObjectID.extend`. -/
def rfc1155_638 : Fn where
  name := "extend"
  params := ["self", "other"]
  defaults := []
  locals := []
  body :=
   [.ifS (.call (.glob "isinstance") [.loc "other", .attr (.loc "self") "__class__"])
      [.expr (.call (.attr (.attr (.loc "self") "value") "extend") [.attr (.loc "other") "value"])]
      [.expr (.call (.attr (.attr (.loc "self") "value") "extend") [.loc "other"]),
       .pass],
    .ret .none]

/-- rfc1155.py:657-660, the body of the loop. -/
def rfc1155_657 : List Stmt :=
 [.ifS (.cmp .ne (.index (.attr (.loc "self") "value") (.loc "i")) (.index (.attr (.loc "other") "value") (.loc "i")))
    [.ret (.bool false)]
    [],
  .pass]

/-- rfc1155.py:646-661 `ObjectID.isPrefixOf`. -/
def rfc1155_646 : Fn where
  name := "isPrefixOf"
  params := ["self", "other"]
  defaults := []
  locals := ["i"]
  body :=
   [.ifS (.not (.call (.glob "isinstance") [.loc "other", .attr (.loc "self") "__class__"]))
      [.raise (.call (.glob "TypeError") [.bin .mod (.str (lit "Attempt to compare ObjectID with non-ObjectID: %s")) (.call (.attr (.loc "other") "__repr__") [])])]
      [],
    .ifS (.cmp .lt (.call (.glob "len") [.loc "other"]) (.call (.glob "len") [.loc "self"]))
      [.ret (.bool false)]
      [],
    .forS "i" (.call (.glob "range") [.call (.glob "len") [.loc "self"]]) rfc1155_657,
    .ret (.bool true)]

/-- rfc1155.py:685-688, the body of the loop. -/
def rfc1155_685 : List Stmt :=
 [.expr (.call (.attr (.loc "result") "insert") [.loc "position", .call (.glob "chr") [.bin .bor (.int 128) (.bin .band (.loc "subid") (.int 127))]]),
  .assign (.loc "subid") (.bin .shr (.loc "subid") (.int 7)),
  .pass]

/-- rfc1155.py:677-690, the body of the loop. -/
def rfc1155_677 : List Stmt :=
 [.ifS (.cmp .lt (.loc "subid") (.int 128))
    [.expr (.call (.attr (.loc "result") "append") [.call (.glob "chr") [.bin .band (.loc "subid") (.int 127)]])]
    [.assign (.loc "position") (.call (.glob "len") [.loc "result"]),
     .expr (.call (.attr (.loc "result") "append") [.call (.glob "chr") [.bin .band (.loc "subid") (.int 127)]]),
     .assign (.loc "subid") (.bin .shr (.loc "subid") (.int 7)),
     .whileS (.cmp .gt (.loc "subid") (.int 0)) rfc1155_685,
     .pass],
  .pass]

/-- rfc1155.py:663-692 `ObjectID.encodeContents`. -/
def rfc1155_663 : Fn where
  name := "encodeContents"
  params := ["self"]
  defaults := []
  locals := ["result", "idlist", "subid1", "subid", "position"]
  body :=
   [.assign (.loc "result") (.list []),
    .assign (.loc "idlist") (.slice (.attr (.loc "self") "value") .none .none),
    .expr (.call (.attr (.loc "idlist") "reverse") []),
    .assign (.loc "subid1") (.bin .add (.bin .mul (.call (.attr (.loc "idlist") "pop") []) (.int 40)) (.call (.attr (.loc "idlist") "pop") [])),
    .expr (.call (.attr (.loc "idlist") "reverse") []),
    .expr (.call (.attr (.loc "idlist") "insert") [.int 0, .loc "subid1"]),
    .forS "subid" (.loc "idlist") rfc1155_677,
    .ret (.call (.attr (.str (lit "")) "join") [.loc "result"])]

/-- rfc1155.py:743-747, the body of the loop. -/
def rfc1155_743 : List Stmt :=
 [.assign (.loc "subid") (.index (.loc "bytes") (.loc "n")),
  .aug (.loc "n") .add (.int 1),
  .assign (.loc "val") (.bin .bor (.bin .shl (.loc "val") (.int 7)) (.bin .band (.loc "subid") (.int 127))),
  .pass]

/-- rfc1155.py:733-752, the body of the loop. -/
def rfc1155_733 : List Stmt :=
 [.assign (.loc "subid") (.index (.loc "bytes") (.loc "n")),
  .aug (.loc "n") .add (.int 1),
  .ifS (.cmp .eq (.bin .band (.loc "subid") (.int 128)) (.int 128))
    [.assign (.loc "val") (.bin .band (.loc "subid") (.int 127)),
     .whileS (.cmp .eq (.bin .band (.loc "subid") (.int 128)) (.int 128)) rfc1155_743,
     .expr (.call (.attr (.attr (.loc "self") "value") "append") [.loc "val"])]
    [.expr (.call (.attr (.attr (.loc "self") "value") "append") [.loc "subid"]),
     .pass],
  .pass]

/-- rfc1155.py:696-754 `ObjectID.decodeContents`. -/
def rfc1155_696 : Fn where
  name := "decodeContents"
  params := ["self", "stream"]
  defaults := []
  locals := ["bytes", "n", "subid", "val"]
  body :=
   [.assign (.attr (.loc "self") "value") (.list []),
    .assign (.loc "bytes") (.call (.glob "list") [.call (.glob "map") [.glob "ord", .loc "stream"]]),
    .ifS (.cmp .eq (.call (.glob "len") [.loc "stream"]) (.int 0))
      [.raise (.call (.glob "ValueError") [.bin .mod (.str (lit "stream of zero length in %s")) (.attr (.attr (.loc "self") "__class__") "__name__")])]
      [],
    .ifS (.cmp .lt (.index (.loc "bytes") (.int 0)) (.int 128))
      [.expr (.call (.attr (.attr (.loc "self") "value") "append") [.call (.glob "int") [.bin .div (.index (.loc "bytes") (.int 0)) (.int 40)]]),
       .expr (.call (.attr (.attr (.loc "self") "value") "append") [.call (.glob "int") [.bin .mod (.index (.loc "bytes") (.int 0)) (.int 40)]])]
      [.raise (.call (.glob "NotImplementedError") [.str (lit "First octet is > 128! Unsupported oid detected")])],
    .assign (.loc "n") (.int 1),
    .whileS (.cmp .lt (.loc "n") (.call (.glob "len") [.loc "bytes"])) rfc1155_733,
    .ret (.loc "self")]

/-- rfc1155.py:756-757 `ObjectID.toObjectID`. -/
def rfc1155_756 : Fn where
  name := "toObjectID"
  params := ["self"]
  defaults := []
  locals := []
  body :=
   [.ret (.call (.glob "ObjectID") [.call (.attr (.glob "copy") "copy") [.attr (.loc "self") "value"]])]

/-- rfc1155.py:769-770 `Null.__str__`. -/
def rfc1155_769 : Fn where
  name := "__str__"
  params := ["self"]
  defaults := []
  locals := []
  body :=
   [.ret (.str (lit "<Null>"))]

/-- rfc1155.py:772-773 `Null.encodeContents`. -/
def rfc1155_772 : Fn where
  name := "encodeContents"
  params := ["self"]
  defaults := []
  locals := []
  body :=
   [.ret (.str (lit ""))]

/-- rfc1155.py:775-778 `Null.decodeContents`. -/
def rfc1155_775 : Fn where
  name := "decodeContents"
  params := ["self", "stream"]
  defaults := []
  locals := []
  body :=
   [.ifS (.cmp .ne (.call (.glob "len") [.loc "stream"]) (.int 0))
      [.raise (.call (.glob "ValueError") [.bin .mod (.str (lit "Input stream too long for %s")) (.attr (.attr (.loc "self") "__class__") "__name__")])]
      [],
    .ret (.loc "self")]

/-- rfc1155.py:796-801 `Sequence.__init__`. -/
def rfc1155_796 : Fn where
  name := "__init__"
  params := ["self", "value"]
  defaults := [.none]
  locals := []
  body :=
   [.expr (.call (.attr (.glob "Asn1Object") "__init__") [.loc "self"]),
    .ifS (.cmp .is (.loc "value") .none)
      [.assign (.loc "value") (.list [])]
      [],
    .assign (.attr (.loc "self") "value") (.loc "value"),
    .ret .none]

/-- rfc1155.py:806-808, the body of the loop. -/
def rfc1155_806 : List Stmt :=
 [.expr (.call (.attr (.loc "res") "append") [.bin .mod (.str (lit "%s")) (.loc "item")]),
  .pass]

/-- rfc1155.py:803-813 `Sequence.__str__`. -/
def rfc1155_803 : Fn where
  name := "__str__"
  params := ["self"]
  defaults := []
  locals := ["result", "res", "item"]
  body :=
   [.assign (.loc "result") (.str (lit "[")),
    .assign (.loc "res") (.list []),
    .forS "item" (.attr (.loc "self") "value") rfc1155_806,
    .aug (.loc "result") .add (.call (.attr (.str (lit ", ")) "join") [.loc "res"]),
    .aug (.loc "result") .add (.str (lit "]")),
    .ret (.loc "result")]

/-- rfc1155.py:815-816 `Sequence.__len__`. -/
def rfc1155_815 : Fn where
  name := "__len__"
  params := ["self"]
  defaults := []
  locals := []
  body :=
   [.ret (.call (.glob "len") [.attr (.loc "self") "value"])]

/-- rfc1155.py:818-819 `Sequence.__getitem__`. -/
def rfc1155_818 : Fn where
  name := "__getitem__"
  params := ["self", "index"]
  defaults := []
  locals := []
  body :=
   [.ret (.index (.attr (.loc "self") "value") (.loc "index"))]

/-- rfc1155.py:824-825 `Sequence.append`. -/
def rfc1155_824 : Fn where
  name := "append"
  params := ["self", "val"]
  defaults := []
  locals := []
  body :=
   [.expr (.call (.attr (.attr (.loc "self") "value") "append") [.loc "val"])]

/-- rfc1155.py:834-836, the body of the loop. -/
def rfc1155_834 : List Stmt :=
 [.expr (.call (.attr (.loc "resultlist") "append") [.ife (.cmp .isNot (.call (.glob "type") [.loc "elem"]) (.glob "str")) (.call (.attr (.loc "elem") "encode") []) (.loc "elem")]),
  .pass]

/-- rfc1155.py:827-840 `Sequence.encodeContents`. -/
def rfc1155_827 : Fn where
  name := "encodeContents"
  params := ["self"]
  defaults := []
  locals := ["resultlist", "elem", "result"]
  body :=
   [.ifS (.glob "__debug__")
      [.expr (.call (.attr (.glob "log") "debug") [.str (lit "Encoding sequence contents...")])]
      [],
    .assign (.loc "resultlist") (.list []),
    .forS "elem" (.attr (.loc "self") "value") rfc1155_834,
    .assign (.loc "result") (.call (.attr (.str (lit "")) "join") [.loc "resultlist"]),
    .ret (.loc "result")]

/-- rfc1155.py:842-850 `Sequence.decodeContents`. -/
def rfc1155_842 : Fn where
  name := "decodeContents"
  params := ["self", "stream"]
  defaults := []
  locals := ["objectList"]
  body :=
   [.assign (.loc "objectList") (.call (.attr (.loc "self") "decode") [.loc "stream"]),
    .assign (.attr (.loc "self") "value") (.loc "objectList"),
    .ret (.loc "self")]

/-- rfc1155.py:873-875, the body of the loop. -/
def rfc1155_873 : List Stmt :=
 [.expr (.call (.attr (.loc "self") "append") [.loc "item"]),
  .pass]

/-- rfc1155.py:864-877 `SequenceOf.__init__`. -/
def rfc1155_864 : Fn where
  name := "__init__"
  params := ["self", "componentType", "value"]
  defaults := [.cls (.rfc1155, 64), .none]
  locals := ["item"]
  body :=
   [.expr (.call (.attr (.glob "Sequence") "__init__") [.loc "self"]),
    .assign (.attr (.loc "self") "componentType") (.loc "componentType"),
    .assign (.attr (.loc "self") "value") (.list []),
    .ifS (.loc "value")
      [.forS "item" (.loc "value") rfc1155_873,
       .pass]
      [],
    .ret .none]

/-- rfc1155.py:879-884 `SequenceOf.append`. -/
def rfc1155_879 : Fn where
  name := "append"
  params := ["self", "value"]
  defaults := []
  locals := []
  body :=
   [.ifS (.not (.call (.glob "isinstance") [.loc "value", .attr (.loc "self") "componentType"]))
      [.raise (.call (.glob "ValueError") [.bin .mod (.str (lit "%s: cannot contain components of type: %s")) (.tuple [.attr (.attr (.loc "self") "__class__") "__name__", .attr (.attr (.loc "value") "__class__") "__name__"])])]
      [],
    .expr (.call (.attr (.glob "Sequence") "append") [.loc "self", .loc "value"]),
    .ret .none]

/-- rfc1155.py:908-910, the body of the loop. -/
def rfc1155_908 : List Stmt :=
 [.aug (.attr (.loc "self") "value") .add (.call (.glob "chr") [.call (.glob "int") [.loc "item"]]),
  .pass]

/-- rfc1155.py:898-919 `IPAddress.__init__`. -/
def rfc1155_898 : Fn where
  name := "__init__"
  params := ["self", "value"]
  defaults := [.none]
  locals := ["listform", "item"]
  body :=
   [.expr (.call (.attr (.glob "OctetString") "__init__") [.loc "self", .loc "value"]),
    .ifS (.cmp .eq (.call (.glob "type") [.loc "value"]) (.glob "str"))
      [.assign (.attr (.loc "self") "value") (.str (lit "")),
       .assign (.loc "listform") (.call (.attr (.loc "value") "split") [.str (lit ".")]),
       .ifS (.cmp .ne (.call (.glob "len") [.loc "listform"]) (.int 4))
         [.raise (.call (.glob "ValueError") [.str (lit "IPAddress must be of length 4")])]
         [],
       .forS "item" (.loc "listform") rfc1155_908,
       .pass]
      [.ifS (.cmp .eq (.call (.glob "type") [.loc "value"]) (.glob "list"))
         [.ifS (.cmp .ne (.call (.glob "len") [.loc "value"]) (.int 4))
            [.raise (.call (.glob "ValueError") [.str (lit "IPAddress must be of length 4")])]
            [],
          .pass]
         [.assign (.attr (.loc "self") "value") (.str (lit "")),
          .pass]],
    .ret .none]

/-- rfc1155.py:921-926 `IPAddress.decodeContents`. -/
def rfc1155_921 : Fn where
  name := "decodeContents"
  params := ["self", "stream"]
  defaults := []
  locals := []
  body :=
   [.assign (.attr (.loc "self") "value") (.loc "stream"),
    .ret (.loc "self")]

/-- rfc1155.py:930-932, the body of the loop. -/
def rfc1155_930 : List Stmt :=
 [.expr (.call (.attr (.loc "result") "append") [.bin .mod (.str (lit "%d")) (.call (.glob "ord") [.loc "item"])]),
  .pass]

/-- rfc1155.py:928-933 `IPAddress.__str__`. -/
def rfc1155_928 : Fn where
  name := "__str__"
  params := ["self"]
  defaults := []
  locals := ["result", "item"]
  body :=
   [.assign (.loc "result") (.list []),
    .forS "item" (.attr (.loc "self") "value") rfc1155_930,
    .ret (.call (.attr (.str (lit ".")) "join") [.loc "result"])]

/-- rfc1155.py:937-938 `IPAddress.toObjectID`. -/
def rfc1155_937 : Fn where
  name := "toObjectID"
  params := ["self"]
  defaults := []
  locals := []
  body :=
   [.ret (.call (.glob "ObjectID") [.comp (.call (.glob "ord") [.loc "x"]) "x" (.attr (.loc "self") "value")])]

/-- rfc1155.py:964-975 `Counter.__add__`. -/
def rfc1155_964 : Fn where
  name := "__add__"
  params := ["self", "val"]
  defaults := []
  locals := []
  body :=
   [.ifS (.cmp .gt (.bin .add (.attr (.loc "self") "value") (.loc "val")) (.attr (.loc "self") "MAXVAL"))
      [.assign (.attr (.loc "self") "value") (.bin .sub (.loc "val") (.bin .sub (.attr (.loc "self") "MAXVAL") (.attr (.loc "self") "value")))]
      [.aug (.attr (.loc "self") "value") .add (.loc "val"),
       .pass],
    .ret .none]

/-- rfc1155.py:977-991 `Counter.decodeContents`. -/
def rfc1155_977 : Fn where
  name := "decodeContents"
  params := ["self", "stream"]
  defaults := []
  locals := ["result"]
  body :=
   [.assign (.loc "result") (.call (.attr (.glob "Integer") "decodeContents") [.loc "self", .loc "stream"]),
    .ifS (.cmp .lt (.attr (.loc "self") "value") (.int 0))
      [.aug (.attr (.loc "self") "value") .add (.int 4294967296),
       .pass]
      [],
    .ret (.loc "self")]

/-- rfc1155.py:1008-1017 `Guage.__add__`. -/
def rfc1155_1008 : Fn where
  name := "__add__"
  params := ["self", "val"]
  defaults := []
  locals := []
  body :=
   [.ifS (.cmp .gt (.bin .add (.attr (.loc "self") "value") (.loc "val")) (.attr (.attr (.loc "self") "__class__") "MAXVAL"))
      [.assign (.attr (.loc "self") "value") (.attr (.attr (.loc "self") "__class__") "MAXVAL")]
      [.aug (.attr (.loc "self") "value") .add (.loc "val"),
       .pass],
    .ret .none]

/-- rfc1155.py:1019-1028 `Guage.__sub__`. -/
def rfc1155_1019 : Fn where
  name := "__sub__"
  params := ["self", "val"]
  defaults := []
  locals := []
  body :=
   [.ifS (.cmp .lt (.bin .sub (.attr (.loc "self") "value") (.loc "val")) (.attr (.loc "self") "MINVAL"))
      [.assign (.attr (.loc "self") "value") (.attr (.loc "self") "MINVAL")]
      [.aug (.attr (.loc "self") "value") .sub (.loc "val"),
       .pass],
    .ret .none]

/-- rfc1155.py:1047-1052 `TimeTicks.__init__`. -/
def rfc1155_1047 : Fn where
  name := "__init__"
  params := ["self", "value", "epoch"]
  defaults := [.int 0, .none]
  locals := []
  body :=
   [.expr (.call (.attr (.glob "Integer") "__init__") [.loc "self", .loc "value"]),
    .ifS (.loc "epoch")
      [.assign (.attr (.loc "self") "epoch") (.loc "epoch"),
       .pass]
      [],
    .ret .none]

/-- rfc1155.py:1056-1062 `TimeTicks._todo__str__`. -/
def rfc1155_1056 : Fn where
  name := "_todo__str__"
  params := ["self"]
  defaults := []
  locals := []
  body :=
   [.ret (.str (lit ""))]

/-- rfc1155.py:1076-1078 `DecodeError.__init__`. -/
def rfc1155_1076 : Fn where
  name := "__init__"
  params := ["self", "args"]
  defaults := [.none]
  locals := []
  body :=
   [.assign (.attr (.loc "self") "args") (.loc "args"),
    .ret .none]

/-- rfc1157.py:42-45 `ErrorStatus.__str__`. -/
def rfc1157_42 : Fn where
  name := "__str__"
  params := ["self"]
  defaults := []
  locals := []
  body :=
   [.ret (.bin .mod (.str (lit "%d: %s")) (.tuple [.attr (.loc "self") "value", .index (.attr (.loc "self") "errString") (.attr (.loc "self") "value")]))]

/-- rfc1157.py:47-55 `ErrorStatus.enum`. -/
def rfc1157_47 : Fn where
  name := "enum"
  params := ["self", "num"]
  defaults := [.none]
  locals := []
  body :=
   [.ifS (.cmp .is (.loc "num") .none)
      [.assign (.loc "num") (.attr (.loc "self") "value")]
      [],
    .ret (.call (.attr (.loc "self") "errNum") [.loc "num"])]

/-- rfc1157.py:63-73 `VarBind.__init__`. -/
def rfc1157_63 : Fn where
  name := "__init__"
  params := ["self", "name", "value"]
  defaults := [.none, .none]
  locals := []
  body :=
   [.ifS (.loc "name")
      [.ifS (.not (.call (.glob "isinstance") [.loc "name", .glob "ObjectID"]))
         [.raise (.call (.glob "ValueError") [.str (lit "name must be an ObjectID")])]
         []]
      [],
    .ifS (.loc "value")
      [.ifS (.not (.call (.glob "isinstance") [.loc "value", .glob "Asn1Object"]))
         [.raise (.call (.glob "ValueError") [.str (lit "name must be an Asn1Object")])]
         []]
      [],
    .assign (.attr (.loc "self") "objectID") (.loc "name"),
    .assign (.attr (.loc "self") "objectValue") (.loc "value"),
    .expr (.call (.attr (.glob "Sequence") "__init__") [.loc "self", .list [.attr (.loc "self") "objectID", .attr (.loc "self") "objectValue"]])]

/-- rfc1157.py:80-82 `VarBindList.__init__`. -/
def rfc1157_80 : Fn where
  name := "__init__"
  params := ["self", "value"]
  defaults := [.ref 3]
  locals := []
  body :=
   [.expr (.call (.attr (.glob "SequenceOf") "__init__") [.loc "self", .glob "VarBind", .loc "value"]),
    .ret .none]

/-- rfc1157.py:91-95 `Message.__init__`. -/
def rfc1157_91 : Fn where
  name := "__init__"
  params := ["self", "version", "community", "data"]
  defaults := [.int 0, .str (lit "public"), .none]
  locals := []
  body :=
   [.expr (.call (.attr (.glob "Sequence") "__init__") [.loc "self"]),
    .assign (.attr (.loc "self") "version") (.call (.glob "Integer") [.loc "version"]),
    .assign (.attr (.loc "self") "community") (.call (.glob "OctetString") [.loc "community"]),
    .assign (.attr (.loc "self") "data") (.loc "data")]

/-- rfc1157.py:97-101 `Message.__str__`. -/
def rfc1157_97 : Fn where
  name := "__str__"
  params := ["self"]
  defaults := []
  locals := ["result"]
  body :=
   [.assign (.loc "result") (.bin .mod (.str (lit "[%s, ")) (.attr (.loc "self") "version")),
    .aug (.loc "result") .add (.bin .mod (.str (lit "%s, ")) (.attr (.loc "self") "community")),
    .aug (.loc "result") .add (.bin .mod (.str (lit "%s]")) (.attr (.loc "self") "data")),
    .ret (.loc "result")]

/-- rfc1157.py:103-108 `Message.encodeContents`. -/
def rfc1157_103 : Fn where
  name := "encodeContents"
  params := ["self"]
  defaults := []
  locals := []
  body :=
   [.assign (.attr (.loc "self") "value") (.list []),
    .expr (.call (.attr (.attr (.loc "self") "value") "append") [.attr (.loc "self") "version"]),
    .expr (.call (.attr (.attr (.loc "self") "value") "append") [.attr (.loc "self") "community"]),
    .expr (.call (.attr (.attr (.loc "self") "value") "append") [.attr (.loc "self") "data"]),
    .ret (.call (.attr (.glob "Sequence") "encodeContents") [.loc "self"])]

/-- rfc1157.py:110-125 `Message.decode`. -/
def rfc1157_110 : Fn where
  name := "decode"
  params := ["self", "stream"]
  defaults := []
  locals := ["objectList"]
  body :=
   [.assign (.loc "objectList") (.call (.attr (.call (.glob "Sequence") []) "decode") [.loc "stream"]),
    .ifS (.cmp .ne (.call (.glob "len") [.loc "objectList"]) (.int 1))
      [.raise (.call (.glob "MessageError") [.bin .mod (.str (lit "Malformed Message: More than one object decoded.")) (.call (.glob "len") [.attr (.loc "self") "value"])])]
      [],
    .ifS (.cmp .ne (.call (.glob "len") [.index (.loc "objectList") (.int 0)]) (.int 3))
      [.raise (.call (.glob "MessageError") [.bin .mod (.str (lit "Malformed Message: Incorrect sequence length %d")) (.call (.glob "len") [.attr (.loc "self") "value"])])]
      [],
    .assign (.attr (.loc "self") "version") (.index (.index (.loc "objectList") (.int 0)) (.int 0)),
    .assign (.attr (.loc "self") "community") (.index (.index (.loc "objectList") (.int 0)) (.int 1)),
    .assign (.attr (.loc "self") "data") (.index (.index (.loc "objectList") (.int 0)) (.int 2)),
    .ret (.loc "self")]

/-- rfc1157.py:129-130 `MessageError.__init__`. -/
def rfc1157_129 : Fn where
  name := "__init__"
  params := ["self", "args"]
  defaults := [.none]
  locals := []
  body :=
   [.assign (.attr (.loc "self") "args") (.loc "args")]

/-- rfc1157.py:138-151 `PDU.__init__`. -/
def rfc1157_138 : Fn where
  name := "__init__"
  params := ["self", "requestID", "errorStatus", "errorIndex", "varBindList"]
  defaults := [.int 0, .int 0, .int 0, .ref 4]
  locals := []
  body :=
   [.expr (.call (.attr (.glob "Sequence") "__init__") [.loc "self"]),
    .assign (.attr (.loc "self") "requestID") (.call (.glob "Integer") [.loc "requestID"]),
    .assign (.attr (.loc "self") "errorStatus") (.call (.glob "ErrorStatus") [.loc "errorStatus"]),
    .assign (.attr (.loc "self") "errorIndex") (.call (.glob "Integer") [.loc "errorIndex"]),
    .assign (.attr (.loc "self") "varBindList") (.call (.glob "VarBindList") [.loc "varBindList"]),
    .assign (.attr (.loc "self") "value") (.list [.attr (.loc "self") "requestID", .attr (.loc "self") "errorStatus", .attr (.loc "self") "errorIndex", .attr (.loc "self") "varBindList"])]

/-- rfc1157.py:162-163, the body of the loop. -/
def rfc1157_162 : List Stmt :=
 [.expr (.call (.attr (.loc "myVarList") "append") [.call (.glob "VarBind") [.index (.loc "item") (.int 0), .index (.loc "item") (.int 1)]])]

/-- rfc1157.py:153-165 `PDU.decodeContents`. -/
def rfc1157_153 : Fn where
  name := "decodeContents"
  params := ["self", "stream"]
  defaults := []
  locals := ["objectList", "myVarList", "item"]
  body :=
   [.assign (.loc "objectList") (.call (.attr (.glob "Sequence") "decodeContents") [.loc "self", .loc "stream"]),
    .ifS (.cmp .ne (.call (.glob "len") [.attr (.loc "self") "value"]) (.int 4))
      [.raise (.call (.glob "PDUError") [.bin .mod (.str (lit "Malformed PDU: Incorrect length %d")) (.call (.glob "len") [.attr (.loc "self") "value"])])]
      [],
    .assign (.loc "myVarList") (.call (.glob "VarBindList") []),
    .forS "item" (.index (.loc "objectList") (.int 3)) rfc1157_162,
    .ret (.call (.attr (.loc "self") "__class__") [.call (.glob "int") [.index (.loc "objectList") (.int 0)], .call (.glob "int") [.index (.loc "objectList") (.int 1)], .call (.glob "int") [.index (.loc "objectList") (.int 2)], .loc "myVarList"])]

/-- rfc1157.py:169-170 `PDUError.__init__`. -/
def rfc1157_169 : Fn where
  name := "__init__"
  params := ["self", "args"]
  defaults := [.none]
  locals := []
  body :=
   [.assign (.attr (.loc "self") "args") (.loc "args")]

/-- rfc1157.py:211-214 `GenericTrap.__str__`. -/
def rfc1157_211 : Fn where
  name := "__str__"
  params := ["self"]
  defaults := []
  locals := []
  body :=
   [.ret (.bin .mod (.str (lit "%s: %d (%s)")) (.tuple [.attr (.attr (.loc "self") "__class__") "__name__", .attr (.loc "self") "value", .index (.attr (.loc "self") "genericTraps") (.attr (.loc "self") "value")]))]

/-- rfc1157.py:216-224 `GenericTrap.enum`. -/
def rfc1157_216 : Fn where
  name := "enum"
  params := ["self", "num"]
  defaults := [.none]
  locals := []
  body :=
   [.ifS (.cmp .is (.loc "num") .none)
      [.assign (.loc "num") (.attr (.loc "self") "value")]
      [],
    .ret (.index (.attr (.loc "self") "genericTraps") (.loc "num"))]

/-- rfc1157.py:233-250 `TrapPDU.__init__`. -/
def rfc1157_233 : Fn where
  name := "__init__"
  params := ["self", "enterprise", "agentAddr", "genericTrap", "specificTrap", "timestamp", "varBindList"]
  defaults := [.none, .none, .none, .none, .none, .none]
  locals := []
  body :=
   [.expr (.call (.attr (.glob "Sequence") "__init__") [.loc "self"]),
    .assign (.attr (.loc "self") "enterprise") (.loc "enterprise"),
    .assign (.attr (.loc "self") "agentAddr") (.loc "agentAddr"),
    .assign (.attr (.loc "self") "genericTrap") (.loc "genericTrap"),
    .assign (.attr (.loc "self") "specificTrap") (.loc "specificTrap"),
    .assign (.attr (.loc "self") "timestamp") (.loc "timestamp"),
    .assign (.attr (.loc "self") "varBindList") (.loc "varBindList"),
    .assign (.attr (.loc "self") "value") (.list []),
    .expr (.call (.attr (.attr (.loc "self") "value") "append") [.attr (.loc "self") "enterprise"]),
    .expr (.call (.attr (.attr (.loc "self") "value") "append") [.attr (.loc "self") "agentAddr"]),
    .expr (.call (.attr (.attr (.loc "self") "value") "append") [.attr (.loc "self") "genericTrap"]),
    .expr (.call (.attr (.attr (.loc "self") "value") "append") [.attr (.loc "self") "specificTrap"]),
    .expr (.call (.attr (.attr (.loc "self") "value") "append") [.attr (.loc "self") "timestamp"]),
    .expr (.call (.attr (.attr (.loc "self") "value") "append") [.attr (.loc "self") "varBindList"])]

/-- rfc1157.py:265-266, the body of the loop. -/
def rfc1157_265 : List Stmt :=
 [.expr (.call (.attr (.loc "myVarList") "append") [.call (.glob "VarBind") [.index (.loc "item") (.int 0), .index (.loc "item") (.int 1)]])]

/-- rfc1157.py:255-269 `TrapPDU.decodeContents`. -/
def rfc1157_255 : Fn where
  name := "decodeContents"
  params := ["self", "stream"]
  defaults := []
  locals := ["objectList", "myVarList", "item"]
  body :=
   [.assign (.loc "objectList") (.call (.attr (.glob "Sequence") "decodeContents") [.loc "self", .loc "stream"]),
    .ifS (.cmp .ne (.call (.glob "len") [.attr (.loc "self") "value"]) (.int 6))
      [.raise (.call (.glob "PDUError") [.bin .mod (.str (lit "Malformed TrapPDU: Incorrect length %d")) (.call (.glob "len") [.attr (.loc "self") "value"])])]
      [],
    .assign (.loc "myVarList") (.call (.glob "VarBindList") []),
    .forS "item" (.index (.loc "objectList") (.int 5)) rfc1157_265,
    .ret (.call (.attr (.loc "self") "__class__") [.index (.loc "objectList") (.int 0), .index (.loc "objectList") (.int 1), .call (.glob "GenericTrap") [.call (.glob "int") [.index (.loc "objectList") (.int 2)]], .index (.loc "objectList") (.int 3), .index (.loc "objectList") (.int 4), .loc "myVarList"])]

/-- rfc1902.py:60-64 `OctetString.__init__`. -/
def rfc1902_60 : Fn where
  name := "__init__"
  params := ["self", "value"]
  defaults := [.str (lit "")]
  locals := []
  body :=
   [.ifS (.cmp .gt (.call (.glob "len") [.loc "value"]) (.int 65535))
      [.raise (.call (.glob "ValueError") [.str (lit "OctetString must be shorter than 65535 bytes")])]
      [],
    .expr (.call (.attr (.glob "OctetString") "__init__") [.loc "self", .loc "value"])]

/-- rfc1905.py:32-33 `NoSuchObject.__str__`. -/
def rfc1905_32 : Fn where
  name := "__str__"
  params := ["self"]
  defaults := []
  locals := []
  body :=
   [.ret (.str (lit "No Such Object"))]

/-- rfc1905.py:38-39 `NoSuchInstance.__str__`. -/
def rfc1905_38 : Fn where
  name := "__str__"
  params := ["self"]
  defaults := []
  locals := []
  body :=
   [.ret (.str (lit "No Such Instance"))]

/-- rfc1905.py:44-45 `EndOfMibView.__str__`. -/
def rfc1905_44 : Fn where
  name := "__str__"
  params := ["self"]
  defaults := []
  locals := []
  body :=
   [.ret (.str (lit "EndOfMibView"))]

/-- rfc1905.py:52-55 `VarBindList.__init__`. -/
def rfc1905_52 : Fn where
  name := "__init__"
  params := ["self", "value"]
  defaults := [.ref 6]
  locals := []
  body :=
   [.ifS (.cmp .gt (.call (.glob "len") [.loc "value"]) (.glob "max_bindings"))
      [.raise (.call (.glob "ValueError") [.bin .mod (.str (lit "A VarBindList must be shorter than %d")) (.glob "max_bindings")])]
      [],
    .expr (.call (.attr (.attr (.glob "rfc1157") "VarBindList") "__init__") [.loc "self", .loc "value"])]

/-- rfc1905.py:60-61 `Message.__init__`. -/
def rfc1905_60 : Fn where
  name := "__init__"
  params := ["self", "version", "community", "data"]
  defaults := [.int 1, .str (lit "public"), .none]
  locals := []
  body :=
   [.expr (.call (.attr (.attr (.glob "rfc1157") "Message") "__init__") [.loc "self", .loc "version", .loc "community", .loc "data"])]

/-- rfc1905.py:68-97 `ErrorStatus.__init__`. -/
def rfc1905_68 : Fn where
  name := "__init__"
  params := ["self", "value"]
  defaults := []
  locals := []
  body :=
   [.expr (.call (.attr (.attr (.glob "rfc1157") "ErrorStatus") "__init__") [.loc "self", .loc "value"]),
    .assign (.index (.attr (.loc "self") "errString") (.int 6)) (.str (lit "Access is not permitted")),
    .assign (.index (.attr (.loc "self") "errString") (.int 7)) (.str (lit "Type is incorrect")),
    .assign (.index (.attr (.loc "self") "errString") (.int 8)) (.str (lit "Length is incorrect")),
    .assign (.index (.attr (.loc "self") "errString") (.int 9)) (.str (lit "Encoding is incorrect")),
    .assign (.index (.attr (.loc "self") "errString") (.int 10)) (.str (lit "Value is incorrect")),
    .assign (.index (.attr (.loc "self") "errString") (.int 11)) (.str (lit "No creation")),
    .assign (.index (.attr (.loc "self") "errString") (.int 12)) (.str (lit "Value is inconsistent")),
    .assign (.index (.attr (.loc "self") "errString") (.int 13)) (.str (lit "Resourse Unavailable")),
    .assign (.index (.attr (.loc "self") "errString") (.int 14)) (.str (lit "Commit Failed")),
    .assign (.index (.attr (.loc "self") "errString") (.int 15)) (.str (lit "Undo Failed")),
    .assign (.index (.attr (.loc "self") "errString") (.int 16)) (.str (lit "Authorization Error")),
    .assign (.index (.attr (.loc "self") "errString") (.int 17)) (.str (lit "Not Writable")),
    .assign (.index (.attr (.loc "self") "errString") (.int 18)) (.str (lit "Inconsistent Name")),
    .assign (.index (.attr (.loc "self") "errNum") (.int 6)) (.str (lit "noAccess")),
    .assign (.index (.attr (.loc "self") "errNum") (.int 7)) (.str (lit "wrongType")),
    .assign (.index (.attr (.loc "self") "errNum") (.int 8)) (.str (lit "wrongLength")),
    .assign (.index (.attr (.loc "self") "errNum") (.int 9)) (.str (lit "wrongEncoding")),
    .assign (.index (.attr (.loc "self") "errNum") (.int 10)) (.str (lit "wrongValue")),
    .assign (.index (.attr (.loc "self") "errNum") (.int 11)) (.str (lit "noCreation")),
    .assign (.index (.attr (.loc "self") "errNum") (.int 12)) (.str (lit "inconsistentValue")),
    .assign (.index (.attr (.loc "self") "errNum") (.int 13)) (.str (lit "resourceUnavailable")),
    .assign (.index (.attr (.loc "self") "errNum") (.int 14)) (.str (lit "commitFailed")),
    .assign (.index (.attr (.loc "self") "errNum") (.int 15)) (.str (lit "undoFailed")),
    .assign (.index (.attr (.loc "self") "errNum") (.int 16)) (.str (lit "authorizationError")),
    .assign (.index (.attr (.loc "self") "errNum") (.int 17)) (.str (lit "notWritable")),
    .assign (.index (.attr (.loc "self") "errNum") (.int 18)) (.str (lit "inconsistentName"))]

/-- rfc1905.py:105-121 `PDU.__init__`. -/
def rfc1905_105 : Fn where
  name := "__init__"
  params := ["self", "requestID", "errorStatus", "errorIndex", "varBindList"]
  defaults := [.int 0, .int 0, .int 0, .ref 7]
  locals := []
  body :=
   [.expr (.call (.attr (.attr (.glob "rfc1157") "PDU") "__init__") [.loc "self"]),
    .ifS (.cmp .gt (.loc "errorIndex") (.glob "max_bindings"))
      [.raise (.call (.glob "ValueError") [.bin .mod (.str (lit "errorIndex must be <= %d")) (.glob "max_bindings")])]
      [],
    .assign (.attr (.loc "self") "requestID") (.call (.glob "Integer32") [.loc "requestID"]),
    .assign (.attr (.loc "self") "errorStatus") (.call (.glob "ErrorStatus") [.loc "errorStatus"]),
    .assign (.attr (.loc "self") "errorIndex") (.call (.glob "Integer") [.loc "errorIndex"]),
    .assign (.attr (.loc "self") "varBindList") (.call (.glob "VarBindList") [.loc "varBindList"]),
    .assign (.attr (.loc "self") "value") (.list [.attr (.loc "self") "requestID", .attr (.loc "self") "errorStatus", .attr (.loc "self") "errorIndex", .attr (.loc "self") "varBindList"])]

/-- rfc1905.py:144-162 `BulkPDU.__init__`. -/
def rfc1905_144 : Fn where
  name := "__init__"
  params := ["self", "requestID", "nonRepeaters", "maxRepetitions", "varBindList"]
  defaults := [.int 0, .int 0, .int 0, .ref 8]
  locals := []
  body :=
   [.expr (.call (.attr (.glob "Sequence") "__init__") [.loc "self"]),
    .ifS (.cmp .gt (.loc "nonRepeaters") (.glob "max_bindings"))
      [.raise (.call (.glob "ValueError") [.bin .mod (.str (lit "nonRepeaters must be <= %d")) (.glob "max_bindings")])]
      [],
    .ifS (.cmp .gt (.loc "maxRepetitions") (.glob "max_bindings"))
      [.raise (.call (.glob "ValueError") [.bin .mod (.str (lit "nonRepeaters must be <= %d")) (.glob "max_bindings")])]
      [],
    .assign (.attr (.loc "self") "requestID") (.call (.glob "Integer32") [.loc "requestID"]),
    .assign (.attr (.loc "self") "nonRepeaters") (.call (.glob "Integer") [.loc "nonRepeaters"]),
    .assign (.attr (.loc "self") "maxRepetitions") (.call (.glob "Integer") [.loc "maxRepetitions"]),
    .assign (.attr (.loc "self") "varBindList") (.call (.glob "VarBindList") [.loc "varBindList"]),
    .assign (.attr (.loc "self") "value") (.list [.attr (.loc "self") "requestID", .attr (.loc "self") "nonRepeaters", .attr (.loc "self") "maxRepetitions", .attr (.loc "self") "varBindList"])]

/-- rfc1905.py:173-174, the body of the loop. -/
def rfc1905_173 : List Stmt :=
 [.expr (.call (.attr (.loc "myVarList") "append") [.call (.glob "VarBind") [.index (.loc "item") (.int 0), .index (.loc "item") (.int 1)]])]

/-- rfc1905.py:164-176 `BulkPDU.decodeContents`. -/
def rfc1905_164 : Fn where
  name := "decodeContents"
  params := ["self", "stream"]
  defaults := []
  locals := ["objectList", "myVarList", "item"]
  body :=
   [.assign (.loc "objectList") (.call (.attr (.glob "Sequence") "decodeContents") [.loc "self", .loc "stream"]),
    .ifS (.cmp .ne (.call (.glob "len") [.attr (.loc "self") "value"]) (.int 4))
      [.raise (.call (.glob "PDUError") [.bin .mod (.str (lit "Malformed BulkPDU: Incorrect length %d")) (.call (.glob "len") [.attr (.loc "self") "value"])])]
      [],
    .assign (.loc "myVarList") (.list []),
    .forS "item" (.index (.loc "objectList") (.int 3)) rfc1905_173,
    .ret (.call (.attr (.loc "self") "__class__") [.call (.glob "int") [.index (.loc "objectList") (.int 0)], .call (.glob "int") [.index (.loc "objectList") (.int 1)], .call (.glob "int") [.index (.loc "objectList") (.int 2)], .loc "myVarList"])]

/-- rfc1905.py:228-229 `PDUError.__init__`. -/
def rfc1905_228 : Fn where
  name := "__init__"
  params := ["self", "args"]
  defaults := [.none]
  locals := []
  body :=
   [.assign (.attr (.loc "self") "args") (.loc "args")]

/-- role.py:15-23 `manager.__init__`. -/
def role_15 : Fn where
  name := "__init__"
  params := ["self", "dest", "interface", "socksize"]
  defaults := [.tuple [.str (lit "0.0.0.0"), .int 0], .int 65536]
  locals := []
  body :=
   [.assign (.attr (.loc "self") "dest") (.loc "dest"),
    .assign (.attr (.loc "self") "interface") (.loc "interface"),
    .assign (.attr (.loc "self") "socket") .none,
    .assign (.attr (.loc "self") "socksize") (.loc "socksize"),
    .assign (.attr (.loc "self") "request_id") (.int 1),
    .ret .none]

/-- role.py:25-27 `manager.__del__`. -/
def role_25 : Fn where
  name := "__del__"
  params := ["self"]
  defaults := []
  locals := []
  body :=
   [.expr (.call (.attr (.loc "self") "close") []),
    .ret .none]

/-- role.py:29-30 `manager.get_socket`. -/
def role_29 : Fn where
  name := "get_socket"
  params := ["self"]
  defaults := []
  locals := []
  body :=
   [.ret (.attr (.loc "self") "socket")]

/-- role.py:32-38 `manager.open`. -/
def role_32 : Fn where
  name := "open"
  params := ["self"]
  defaults := []
  locals := []
  body :=
   [.assign (.attr (.loc "self") "socket") (.call (.attr (.glob "socket") "socket") [.attr (.glob "socket") "AF_INET", .attr (.glob "socket") "SOCK_DGRAM"]),
    .expr (.call (.attr (.attr (.loc "self") "socket") "bind") [.attr (.loc "self") "interface"]),
    .expr (.call (.attr (.attr (.loc "self") "socket") "setsockopt") [.attr (.glob "socket") "SOL_SOCKET", .attr (.glob "socket") "SO_RCVBUF", .attr (.loc "self") "socksize"]),
    .ret (.attr (.loc "self") "socket")]

/-- role.py:40-45 `manager.send`. -/
def role_40 : Fn where
  name := "send"
  params := ["self", "request", "dst"]
  defaults := [.tuple [.none, .int 0]]
  locals := []
  body :=
   [.ifS (.not (.attr (.loc "self") "socket"))
      [.expr (.call (.attr (.loc "self") "open") []),
       .pass]
      [],
    .expr (.call (.attr (.attr (.loc "self") "socket") "sendto") [.loc "request", .loc "dst"]),
    .ret .none]

/-- role.py:47-53 `manager.read`. -/
def role_47 : Fn where
  name := "read"
  params := ["self"]
  defaults := []
  locals := ["message", "src"]
  body :=
   [.ifS (.not (.attr (.loc "self") "socket"))
      [.raise (.call (.glob "ValueError") [.str (lit "Socket not initialized")])]
      [],
    .assign (.tuple ["message", "src"]) (.call (.attr (.attr (.loc "self") "socket") "recvfrom") [.attr (.loc "self") "socksize"]),
    .ret (.tuple [.loc "message", .loc "src"])]

/-- role.py:55-60 `manager.close`. -/
def role_55 : Fn where
  name := "close"
  params := ["self"]
  defaults := []
  locals := []
  body :=
   [.ifS (.attr (.loc "self") "socket")
      [.expr (.call (.attr (.attr (.loc "self") "socket") "close") []),
       .pass]
      [],
    .assign (.attr (.loc "self") "socket") .none,
    .ret .none]

/-- asynrole.py:15-31 `Manager.__init__`. -/
def asynrole_15 : Fn where
  name := "__init__"
  params := ["self", "callback_tuple", "dst", "interface", "timeout"]
  defaults := [.tuple [.none, .int 0], .tuple [.str (lit "0.0.0.0"), .int 0], .quot 1 4]
  locals := ["cb_fun", "cb_ctx"]
  body :=
   [.assign (.tuple ["cb_fun", "cb_ctx"]) (.loc "callback_tuple"),
    .ifS (.not (.call (.glob "callable") [.loc "cb_fun"]))
      [.raise (.call (.glob "ValueError") [.str (lit "Non-callable callback function")])]
      [],
    .assign (.attr (.loc "self") "cb_fun") (.loc "cb_fun"),
    .assign (.attr (.loc "self") "cb_ctx") (.loc "cb_ctx"),
    .assign (.attr (.loc "self") "timeout") (.loc "timeout"),
    .expr (.call (.attr (.attr (.glob "asyncore") "dispatcher") "__init__") [.loc "self"]),
    .assign (.attr (.loc "self") "manager") (.call (.attr (.glob "role") "manager") [.loc "dst", .loc "interface"]),
    .expr (.call (.attr (.loc "self") "set_socket") [.call (.attr (.attr (.loc "self") "manager") "open") []]),
    .ret .none]

/-- asynrole.py:33-35 `Manager.send`. -/
def asynrole_33 : Fn where
  name := "send"
  params := ["self", "req", "dst"]
  defaults := [.tuple [.none, .int 0]]
  locals := []
  body :=
   [.expr (.call (.attr (.attr (.loc "self") "manager") "send") [.loc "req", .loc "dst"]),
    .ret .none]

/-- asynrole.py:37-40 `Manager.handle_read`. -/
def asynrole_37 : Fn where
  name := "handle_read"
  params := ["self"]
  defaults := []
  locals := ["response", "src"]
  body :=
   [.assign (.tuple ["response", "src"]) (.call (.attr (.attr (.loc "self") "manager") "read") []),
    .expr (.call (.attr (.loc "self") "cb_fun") [.loc "self", .attr (.loc "self") "cb_ctx", .tuple [.loc "response", .loc "src"], .tuple [.none, .none, .none]]),
    .ret .none]

/-- asynrole.py:42-43 `Manager.writable`. -/
def asynrole_42 : Fn where
  name := "writable"
  params := ["self"]
  defaults := []
  locals := []
  body :=
   [.ret (.int 0)]

/-- asynrole.py:45-46 `Manager.handle_connect`. -/
def asynrole_45 : Fn where
  name := "handle_connect"
  params := ["self"]
  defaults := []
  locals := []
  body :=
   [.ret .none]

/-- asynrole.py:48-50 `Manager.handle_close`. -/
def asynrole_48 : Fn where
  name := "handle_close"
  params := ["self"]
  defaults := []
  locals := []
  body :=
   [.expr (.call (.attr (.attr (.loc "self") "manager") "close") []),
    .ret .none]

/-- asynrole.py:52-61 `Manager.handle_error`. -/
def asynrole_52 : Fn where
  name := "handle_error"
  params := ["self", "exc_type", "exc_value", "exc_traceback"]
  defaults := [.none, .none, .none]
  locals := []
  body :=
   [.ifS (.or (.cmp .is (.loc "exc_type") .none) (.or (.cmp .is (.loc "exc_value") .none) (.cmp .is (.loc "exc_traceback") .none)))
      [.assign (.tuple ["exc_type", "exc_value", "exc_traceback"]) (.call (.attr (.glob "sys") "exc_info") []),
       .pass]
      [],
    .ifS (.and (.cmp .eq (.call (.glob "type") [.loc "exc_type"]) (.glob "type")) (.call (.glob "issubclass") [.loc "exc_type", .glob "ValueError"]))
      [.expr (.call (.attr (.loc "self") "cb_fun") [.loc "self", .attr (.loc "self") "cb_ctx", .tuple [.none, .none], .tuple [.loc "exc_type", .loc "exc_value", .loc "exc_traceback"]])]
      [.reraise],
    .ret .none]

/-- asynrole.py:65-66 `Manager.poll`. -/
def asynrole_65 : Fn where
  name := "poll"
  params := ["self"]
  defaults := []
  locals := []
  body :=
   [.expr (.call (.attr (.glob "asyncore") "poll") [.attr (.loc "self") "timeout"])]

/-- v1.py:22-45 `SNMP.__init__`. -/
def v1_22 : Fn where
  name := "__init__"
  params := ["self", "interface", "queueEmpty", "trapCallback", "timeout"]
  defaults := [.tuple [.str (lit "0.0.0.0"), .int 0], .none, .none, .quot 1 4]
  locals := []
  body :=
   [.assign (.attr (.loc "self") "queueEmpty") (.loc "queueEmpty"),
    .assign (.attr (.loc "self") "outbound") (.call (.attr (.glob "queue") "Queue") []),
    .assign (.attr (.loc "self") "callbacks") .emptyDict,
    .assign (.attr (.loc "self") "trapCallback") (.loc "trapCallback"),
    .expr (.callK (.attr (.attr (.glob "asynrole") "Manager") "__init__") [.loc "self", .tuple [.attr (.loc "self") "receiveData", .none]] ["interface", "timeout"] [.loc "interface", .loc "timeout"]),
    .tryS
      [.pass] none
      [.reraise]]

/-- v1.py:47-52 `SNMP.assignRequestID`. -/
def v1_47 : Fn where
  name := "assignRequestID"
  params := ["self"]
  defaults := []
  locals := ["reqID"]
  body :=
   [.assign (.loc "reqID") (.attr (.loc "self") "nextRequestID"),
    .aug (.attr (.loc "self") "nextRequestID") .add (.int 1),
    .ret (.loc "reqID")]

/-- v1.py:54-57 `SNMP.createGetRequestPDU`. -/
def v1_54 : Fn where
  name := "createGetRequestPDU"
  params := ["self", "varbindlist"]
  defaults := []
  locals := ["reqID", "pdu"]
  body :=
   [.assign (.loc "reqID") (.call (.attr (.loc "self") "assignRequestID") []),
    .assign (.loc "pdu") (.callK (.glob "Get") [.loc "reqID"] ["varBindList"] [.loc "varbindlist"]),
    .ret (.loc "pdu")]

/-- v1.py:59-62 `SNMP.createGetNextRequestPDU`. -/
def v1_59 : Fn where
  name := "createGetNextRequestPDU"
  params := ["self", "varbindlist"]
  defaults := []
  locals := ["reqID", "pdu"]
  body :=
   [.assign (.loc "reqID") (.call (.attr (.loc "self") "assignRequestID") []),
    .assign (.loc "pdu") (.callK (.glob "GetNext") [.loc "reqID"] ["varBindList"] [.loc "varbindlist"]),
    .ret (.loc "pdu")]

/-- v1.py:64-72 `SNMP.createGetRequestMessage`. -/
def v1_64 : Fn where
  name := "createGetRequestMessage"
  params := ["self", "oid", "community"]
  defaults := [.str (lit "public")]
  locals := ["objID", "val", "varbindlist", "pdu"]
  body :=
   [.assign (.loc "objID") (.call (.glob "ObjectID") [.loc "oid"]),
    .assign (.loc "val") (.call (.glob "Null") []),
    .assign (.loc "varbindlist") (.call (.glob "VarBindList") [.list [.call (.glob "VarBind") [.loc "objID", .loc "val"]]]),
    .assign (.loc "pdu") (.call (.attr (.loc "self") "createGetRequestPDU") [.loc "varbindlist"]),
    .ret (.callK (.glob "Message") [] ["community", "data"] [.loc "community", .loc "pdu"])]

/-- v1.py:74-79 `SNMP.createGetNextRequestMessage`. -/
def v1_74 : Fn where
  name := "createGetNextRequestMessage"
  params := ["self", "varbindlist", "community"]
  defaults := [.str (lit "public")]
  locals := ["pdu"]
  body :=
   [.assign (.loc "pdu") (.call (.attr (.loc "self") "createGetNextRequestPDU") [.loc "varbindlist"]),
    .ret (.callK (.glob "Message") [] ["community", "data"] [.loc "community", .loc "pdu"])]

/-- v1.py:81-85 `SNMP.createTrapMessage`. -/
def v1_81 : Fn where
  name := "createTrapMessage"
  params := ["self", "pdu", "community"]
  defaults := [.str (lit "public")]
  locals := []
  body :=
   [.ret (.callK (.glob "Message") [] ["community", "data"] [.loc "community", .loc "pdu"])]

/-- v1.py:87-101 `SNMP.createTrapPDU`. -/
def v1_87 : Fn where
  name := "createTrapPDU"
  params := ["self", "varbindlist", "enterprise", "agentAddr", "genericTrap", "specificTrap"]
  defaults := [.str (lit ".1.3.6.1.4"), .none, .int 6, .int 0]
  locals := ["ent", "agent", "gTrap", "sTrap", "ts", "pdu"]
  body :=
   [.assign (.loc "ent") (.call (.glob "ObjectID") [.loc "enterprise"]),
    .ifS (.not (.loc "agentAddr"))
      [.assign (.loc "agentAddr") (.index (.call (.attr (.loc "self") "getsockname") []) (.int 0))]
      [],
    .assign (.loc "agent") (.call (.glob "NetworkAddress") [.loc "agentAddr"]),
    .assign (.loc "gTrap") (.call (.glob "GenericTrap") [.loc "genericTrap"]),
    .assign (.loc "sTrap") (.call (.glob "Integer") [.loc "specificTrap"]),
    .assign (.loc "ts") (.call (.glob "TimeTicks") [.call (.attr (.loc "self") "getSysUptime") []]),
    .assign (.loc "pdu") (.call (.glob "TrapPDU") [.loc "ent", .loc "agent", .loc "gTrap", .loc "sTrap", .loc "ts", .loc "varbindlist"]),
    .ret (.loc "pdu")]

/-- v1.py:103-116 `SNMP.snmpGet`. -/
def v1_103 : Fn where
  name := "snmpGet"
  params := ["self", "oid", "remote", "callback", "community"]
  defaults := [.str (lit "public")]
  locals := ["msg"]
  body :=
   [.assign (.loc "msg") (.call (.attr (.loc "self") "createGetRequestMessage") [.loc "oid", .loc "community"]),
    .expr (.call (.attr (.attr (.loc "self") "outbound") "put") [.tuple [.loc "msg", .loc "remote"]]),
    .assign (.index (.attr (.loc "self") "callbacks") (.call (.glob "int") [.attr (.attr (.loc "msg") "data") "requestID"])) (.loc "callback"),
    .ret (.attr (.attr (.loc "msg") "data") "requestID")]

/-- v1.py:118-131 `SNMP.snmpGetNext`. -/
def v1_118 : Fn where
  name := "snmpGetNext"
  params := ["self", "varbindlist", "remote", "callback", "community"]
  defaults := [.str (lit "public")]
  locals := ["msg"]
  body :=
   [.assign (.loc "msg") (.call (.attr (.loc "self") "createGetNextRequestMessage") [.loc "varbindlist", .loc "community"]),
    .expr (.call (.attr (.attr (.loc "self") "outbound") "put") [.tuple [.loc "msg", .loc "remote"]]),
    .assign (.index (.attr (.loc "self") "callbacks") (.call (.glob "int") [.attr (.attr (.loc "msg") "data") "requestID"])) (.loc "callback"),
    .ret (.attr (.attr (.loc "msg") "data") "requestID")]

/-- v1.py:133-149 `SNMP.snmpSet`. -/
def v1_133 : Fn where
  name := "snmpSet"
  params := ["self", "varbindlist", "remote", "callback", "community"]
  defaults := [.str (lit "public")]
  locals := ["reqID", "pdu", "msg"]
  body :=
   [.assign (.loc "reqID") (.call (.attr (.loc "self") "assignRequestID") []),
    .assign (.loc "pdu") (.callK (.glob "GetNext") [.loc "reqID"] ["varBindList"] [.loc "varbindlist"]),
    .assign (.loc "msg") (.callK (.glob "Message") [] ["community", "data"] [.loc "community", .loc "pdu"]),
    .expr (.call (.attr (.attr (.loc "self") "outbound") "put") [.tuple [.loc "msg", .loc "remote"]]),
    .assign (.index (.attr (.loc "self") "callbacks") (.call (.glob "int") [.attr (.attr (.loc "msg") "data") "requestID"])) (.loc "callback"),
    .ret (.attr (.attr (.loc "msg") "data") "requestID")]

/-- v1.py:151-156 `SNMP.snmpTrap`. -/
def v1_151 : Fn where
  name := "snmpTrap"
  params := ["self", "remote", "trapPDU", "community"]
  defaults := [.str (lit "public")]
  locals := ["msg"]
  body :=
   [.assign (.loc "msg") (.call (.attr (.loc "self") "createTrapMessage") [.loc "trapPDU", .loc "community"]),
    .expr (.call (.attr (.attr (.loc "self") "outbound") "put") [.tuple [.loc "msg", .loc "remote"]])]

/-- v1.py:158-161 `SNMP.createSetRequestMessage`. -/
def v1_158 : Fn where
  name := "createSetRequestMessage"
  params := ["self", "varBindList", "community"]
  defaults := [.str (lit "public")]
  locals := []
  body :=
   []

/-- v1.py:163-208 `SNMP.receiveData`. -/
def v1_163 : Fn where
  name := "receiveData"
  params := ["self", "manager", "cb_ctx", "data_src_tuple", "exc_tuple"]
  defaults := []
  locals := ["data", "src", "exc_type", "exc_value", "exc_traceback", "msg", "e"]
  body :=
   [.assign (.tuple ["data", "src"]) (.loc "data_src_tuple"),
    .assign (.tuple ["exc_type", "exc_value", "exc_traceback"]) (.loc "exc_tuple"),
    .ifS (.cmp .isNot (.loc "exc_type") .none)
      [.raise (.call (.loc "exc_type") [.loc "exc_value"])]
      [],
    .tryAs
      [.assign (.loc "msg") (.call (.attr (.call (.glob "Message") []) "decode") [.loc "data"]),
       .ifS (.cmp .eq (.attr (.loc "msg") "version") (.int 0))
         [.ifS (.glob "__debug__")
            [.expr (.call (.attr (.glob "log") "debug") [.str (lit "Detected SNMPv1 message")])]
            []]
         [.expr (.call (.attr (.glob "log") "error") [.bin .mod (.str (lit "Unknown message version %d detected")) (.attr (.loc "msg") "version")]),
          .expr (.call (.attr (.glob "log") "error") [.bin .mod (.str (lit "version is a %s")) (.call (.attr (.loc "msg") "version") [])]),
          .raise (.call (.glob "ValueError") [.bin .mod (.str (lit "Unknown message version %d detected")) (.attr (.loc "msg") "version")])],
       .ifS (.call (.glob "isinstance") [.attr (.loc "msg") "data", .glob "PDU"])
         [.expr (.call (.index (.attr (.loc "self") "callbacks") (.call (.glob "int") [.attr (.attr (.loc "msg") "data") "requestID"])) [.loc "self", .loc "msg"]),
          .del (.attr (.loc "self") "callbacks") (.call (.glob "int") [.attr (.attr (.loc "msg") "data") "requestID"])]
         [.ifS (.call (.glob "isinstance") [.attr (.loc "msg") "data", .glob "TrapPDU"])
            [.ifS (.glob "__debug__")
               [.expr (.call (.attr (.glob "log") "debug") [.str (lit "Detected an inbound Trap")])]
               [],
             .expr (.call (.attr (.loc "self") "trapCallback") [.loc "self", .loc "msg"])]
            [.ifS (.glob "__debug__")
               [.expr (.call (.attr (.glob "log") "debug") [.str (lit "Unknown message type")])]
               []]]] (some "Exception") (some "e")
      [.expr (.call (.attr (.glob "log") "error") [.bin .mod (.str (lit "Exception in receiveData: %s")) (.loc "e")]),
       .reraise]
      [.reraise]]

/-- v1.py:210-214 `SNMP.enterpriseOID`. -/
def v1_210 : Fn where
  name := "enterpriseOID"
  params := ["self", "partialOID"]
  defaults := []
  locals := []
  body :=
   [.ret (.bin .add (.str (lit ".1.3.6.1.2.1.")) (.loc "partialOID"))]

/-- v1.py:220-234, the body of the loop. -/
def v1_220 : List Stmt :=
 [.tryS
    [.assign (.loc "request") (.call (.attr (.attr (.loc "self") "outbound") "get") [.int 0]),
     .expr (.call (.attr (.loc "self") "send") [.call (.attr (.index (.loc "request") (.int 0)) "encode") [], .index (.loc "request") (.int 1)])] (some "queue.Empty")
    [.ifS (.cmp .isNot (.attr (.loc "self") "queueEmpty") .none)
       [.expr (.call (.attr (.loc "self") "queueEmpty") [.loc "self"])]
       [],
     .pass,
     .expr (.call (.attr (.loc "self") "poll") []),
     .expr (.call (.attr (.glob "time") "sleep") [.float 3602879701896397 36028797018963968])]]

/-- v1.py:216-234 `SNMP.run`. -/
def v1_216 : Fn where
  name := "run"
  params := ["self"]
  defaults := []
  locals := ["request"]
  body :=
   [.whileS (.bool true) v1_220]

/-- v1.py:236-251 `SNMP.getSysUptime`. -/
def v1_236 : Fn where
  name := "getSysUptime"
  params := ["self"]
  defaults := []
  locals := ["uptime", "upsecs"]
  body :=
   [.tryS
      [.assign (.loc "uptime") (.call (.attr (.call (.attr (.call (.glob "open") [.str (lit "/proc/uptime")]) "read") []) "split") []),
       .assign (.loc "upsecs") (.call (.glob "int") [.bin .mul (.call (.glob "float") [.index (.loc "uptime") (.int 0)]) (.int 100)]),
       .ret (.loc "upsecs")] none
      [.ret (.int 0)]]

/-- v2.py:26-29 `SNMP.createGetRequestPDU`. -/
def v2_26 : Fn where
  name := "createGetRequestPDU"
  params := ["self", "varbindlist"]
  defaults := []
  locals := ["reqID", "pdu"]
  body :=
   [.assign (.loc "reqID") (.call (.attr (.loc "self") "assignRequestID") []),
    .assign (.loc "pdu") (.callK (.attr (.glob "rfc1905") "Get") [.loc "reqID"] ["varBindList"] [.loc "varbindlist"]),
    .ret (.loc "pdu")]

/-- v2.py:31-34 `SNMP.createGetNextRequestPDU`. -/
def v2_31 : Fn where
  name := "createGetNextRequestPDU"
  params := ["self", "varbindlist"]
  defaults := []
  locals := ["reqID", "pdu"]
  body :=
   [.assign (.loc "reqID") (.call (.attr (.loc "self") "assignRequestID") []),
    .assign (.loc "pdu") (.callK (.attr (.glob "rfc1905") "GetNext") [.loc "reqID"] ["varBindList"] [.loc "varbindlist"]),
    .ret (.loc "pdu")]

/-- v2.py:43-47, the body of the loop. -/
def v2_43 : List Stmt :=
 [.assign (.loc "objID") (.call (.attr (.glob "rfc1155") "ObjectID") [.loc "oid"]),
  .assign (.loc "val") (.call (.attr (.glob "rfc1155") "Null") []),
  .expr (.call (.attr (.loc "varbinds") "append") [.call (.attr (.glob "rfc1157") "VarBind") [.loc "objID", .loc "val"]]),
  .pass]

/-- v2.py:36-50 `SNMP.createGetRequestMessage`. -/
def v2_36 : Fn where
  name := "createGetRequestMessage"
  params := ["self", "oidlist", "community"]
  defaults := [.str (lit "public")]
  locals := ["varbinds", "oid", "objID", "val", "varbindlist", "pdu"]
  body :=
   [.assign (.loc "varbinds") (.list []),
    .forS "oid" (.loc "oidlist") v2_43,
    .assign (.loc "varbindlist") (.call (.attr (.glob "rfc1905") "VarBindList") [.loc "varbinds"]),
    .assign (.loc "pdu") (.call (.attr (.loc "self") "createGetRequestPDU") [.loc "varbindlist"]),
    .ret (.callK (.attr (.glob "rfc1905") "Message") [] ["community", "data"] [.loc "community", .loc "pdu"])]

/-- v2.py:52-57 `SNMP.createGetNextRequestMessage`. -/
def v2_52 : Fn where
  name := "createGetNextRequestMessage"
  params := ["self", "varbindlist", "community"]
  defaults := [.str (lit "public")]
  locals := ["pdu"]
  body :=
   [.assign (.loc "pdu") (.call (.attr (.loc "self") "createGetNextRequest") [.loc "varbindlist"]),
    .ret (.callK (.attr (.glob "rfc1905") "Message") [] ["community", "data"] [.loc "community", .loc "pdu"])]

/-- v2.py:59-63 `SNMP.createTrapMessage`. -/
def v2_59 : Fn where
  name := "createTrapMessage"
  params := ["self", "pdu", "community"]
  defaults := [.str (lit "public")]
  locals := []
  body :=
   [.ret (.callK (.attr (.glob "rfc1905") "Message") [] ["community", "data"] [.loc "community", .loc "pdu"])]

/-- v2.py:65-78 `SNMP.createTrap`. -/
def v2_65 : Fn where
  name := "createTrap"
  params := ["self", "varbindlist", "enterprise", "agentAddr", "genericTrap", "specificTrap"]
  defaults := [.str (lit ".1.3.6.1.4"), .none, .int 6, .int 0]
  locals := ["ent", "agent", "gTrap", "sTrap", "ts", "pdu"]
  body :=
   [.assign (.loc "ent") (.call (.attr (.glob "rfc1155") "ObjectID") [.loc "enterprise"]),
    .ifS (.not (.loc "agentAddr"))
      [.assign (.loc "agentAddr") (.index (.call (.attr (.loc "self") "getsockname") []) (.int 0))]
      [],
    .assign (.loc "agent") (.call (.attr (.glob "rfc1155") "NetworkAddress") [.loc "agentAddr"]),
    .assign (.loc "gTrap") (.call (.attr (.glob "rfc1157") "GenericTrap") [.loc "genericTrap"]),
    .assign (.loc "sTrap") (.call (.attr (.glob "rfc1155") "Integer") [.loc "specificTrap"]),
    .assign (.loc "ts") (.call (.attr (.glob "rfc1155") "TimeTicks") [.call (.attr (.loc "self") "getSysUptime") []]),
    .assign (.loc "pdu") (.call (.attr (.glob "rfc1157") "TrapPDU") [.loc "ent", .loc "agent", .loc "gTrap", .loc "sTrap", .loc "ts", .loc "varbindlist"]),
    .ret (.loc "pdu")]

/-- v2.py:80-94 `SNMP.snmpGet`. -/
def v2_80 : Fn where
  name := "snmpGet"
  params := ["self", "oid", "remote", "callback", "community"]
  defaults := [.str (lit "public")]
  locals := ["msg"]
  body :=
   [.assign (.loc "msg") (.call (.attr (.loc "self") "createGetRequestMessage") [.loc "oid", .loc "community"]),
    .expr (.call (.attr (.attr (.loc "self") "outbound") "put") [.tuple [.loc "msg", .loc "remote"]]),
    .assign (.index (.attr (.loc "self") "callbacks") (.call (.glob "int") [.attr (.attr (.loc "msg") "data") "requestID"])) (.loc "callback"),
    .ret (.attr (.attr (.loc "msg") "data") "requestID")]

/-- v2.py:96-109 `SNMP.snmpGetNext`. -/
def v2_96 : Fn where
  name := "snmpGetNext"
  params := ["self", "varbindlist", "remote", "callback", "community"]
  defaults := [.str (lit "public")]
  locals := ["msg"]
  body :=
   [.assign (.loc "msg") (.call (.attr (.loc "self") "createGetNextRequestMessage") [.loc "varbindlist", .loc "community"]),
    .expr (.call (.attr (.attr (.loc "self") "outbound") "put") [.tuple [.loc "msg", .loc "remote"]]),
    .assign (.index (.attr (.loc "self") "callbacks") (.call (.glob "int") [.attr (.attr (.loc "msg") "data") "requestID"])) (.loc "callback"),
    .ret (.attr (.attr (.loc "msg") "data") "requestID")]

/-- v2.py:111-127 `SNMP.snmpSet`. -/
def v2_111 : Fn where
  name := "snmpSet"
  params := ["self", "varbindlist", "remote", "callback", "community"]
  defaults := [.str (lit "public")]
  locals := ["reqID", "pdu", "msg"]
  body :=
   [.assign (.loc "reqID") (.call (.attr (.loc "self") "assignRequestID") []),
    .assign (.loc "pdu") (.callK (.attr (.glob "rfc1157") "GetNextRequestPDU") [.loc "reqID"] ["varBindList"] [.loc "varbindlist"]),
    .assign (.loc "msg") (.callK (.attr (.glob "rfc1905") "Message") [] ["community", "data"] [.loc "community", .loc "pdu"]),
    .expr (.call (.attr (.attr (.loc "self") "outbound") "put") [.tuple [.loc "msg", .loc "remote"]]),
    .assign (.index (.attr (.loc "self") "callbacks") (.call (.glob "int") [.attr (.attr (.loc "msg") "data") "requestID"])) (.loc "callback"),
    .ret (.attr (.attr (.loc "msg") "data") "requestID")]

/-- v2.py:129-134 `SNMP.snmpTrap`. -/
def v2_129 : Fn where
  name := "snmpTrap"
  params := ["self", "remote", "trapPDU", "community"]
  defaults := [.str (lit "public")]
  locals := ["msg"]
  body :=
   [.assign (.loc "msg") (.call (.attr (.loc "self") "createTrapMessage") [.loc "trapPDU", .loc "community"]),
    .expr (.call (.attr (.attr (.loc "self") "outbound") "put") [.tuple [.loc "msg", .loc "remote"]])]

/-- v2.py:136-139 `SNMP.createSetRequestMessage`. -/
def v2_136 : Fn where
  name := "createSetRequestMessage"
  params := ["self", "varBindList", "community"]
  defaults := [.str (lit "public")]
  locals := []
  body :=
   []

/-- v2.py:141-189 `SNMP.receiveData`. -/
def v2_141 : Fn where
  name := "receiveData"
  params := ["self", "manager", "cb_ctx", "data_src_tuple", "exc_tuple"]
  defaults := []
  locals := ["data", "src", "exc_type", "exc_value", "exc_traceback", "msg", "e"]
  body :=
   [.assign (.tuple ["data", "src"]) (.loc "data_src_tuple"),
    .assign (.tuple ["exc_type", "exc_value", "exc_traceback"]) (.loc "exc_tuple"),
    .ifS (.cmp .isNot (.loc "exc_type") .none)
      [.raise (.call (.loc "exc_type") [.loc "exc_value"])]
      [],
    .tryAs
      [.assign (.loc "msg") (.call (.attr (.call (.attr (.glob "rfc1905") "Message") []) "decode") [.loc "data"]),
       .ifS (.cmp .eq (.attr (.loc "msg") "version") (.int 0))
         [.ifS (.glob "__debug__")
            [.expr (.call (.attr (.glob "log") "debug") [.str (lit "Detected SNMPv1 message")])]
            []]
         [.ifS (.cmp .eq (.attr (.loc "msg") "version") (.int 1))
            [.ifS (.glob "__debug__")
               [.expr (.call (.attr (.glob "log") "debug") [.str (lit "Detected SNMPv2 message")])]
               []]
            [.expr (.call (.attr (.glob "log") "error") [.bin .mod (.str (lit "Unknown message version %d detected")) (.attr (.loc "msg") "version")]),
             .expr (.call (.attr (.glob "log") "error") [.bin .mod (.str (lit "version is a %s")) (.call (.attr (.loc "msg") "version") [])]),
             .raise (.call (.glob "ValueError") [.bin .mod (.str (lit "Unknown message version %d detected")) (.attr (.loc "msg") "version")])]],
       .ifS (.call (.glob "isinstance") [.attr (.loc "msg") "data", .attr (.glob "rfc1157") "PDU"])
         [.expr (.call (.index (.attr (.loc "self") "callbacks") (.call (.glob "int") [.attr (.attr (.loc "msg") "data") "requestID"])) [.loc "self", .loc "msg"]),
          .del (.attr (.loc "self") "callbacks") (.call (.glob "int") [.attr (.attr (.loc "msg") "data") "requestID"])]
         [.ifS (.call (.glob "isinstance") [.attr (.loc "msg") "data", .attr (.glob "rfc1157") "TrapPDU"])
            [.ifS (.glob "__debug__")
               [.expr (.call (.attr (.glob "log") "debug") [.str (lit "Detected an inbound Trap")])]
               [],
             .expr (.call (.attr (.loc "self") "trapCallback") [.loc "self", .loc "msg"])]
            [.expr (.call (.attr (.glob "log") "debug") [.str (lit "Unknown message type")])]]] (some "Exception") (some "e")
      [.expr (.call (.attr (.glob "log") "error") [.bin .mod (.str (lit "Exception in receiveData: %s")) (.loc "e")]),
       .expr (.call (.attr (.glob "traceback") "print_exc") [])]
      [.reraise]]

/-- snmpmanager.py:40-61 `snmpManager.__init__`. -/
def snmpmanager_40 : Fn where
  name := "__init__"
  params := ["self", "queueEmpty", "trapCallback", "interface", "timeout"]
  defaults := [.none, .none, .tuple [.str (lit "0.0.0.0"), .int 0], .quot 1 4]
  locals := []
  body :=
   [.assign (.attr (.loc "self") "queueEmpty") (.loc "queueEmpty"),
    .assign (.attr (.loc "self") "outbound") (.call (.attr (.glob "queue") "Queue") []),
    .assign (.attr (.loc "self") "callbacks") .emptyDict,
    .assign (.attr (.loc "self") "trapCallback") (.loc "trapCallback"),
    .expr (.callK (.attr (.attr (.glob "asynrole") "Manager") "__init__") [.loc "self", .tuple [.attr (.loc "self") "receiveData", .none]] ["interface", "timeout"] [.loc "interface", .loc "timeout"]),
    .tryS
      [.pass] none
      [.reraise]]

/-- snmpmanager.py:63-68 `snmpManager.assignRequestID`. -/
def snmpmanager_63 : Fn where
  name := "assignRequestID"
  params := ["self"]
  defaults := []
  locals := ["reqID"]
  body :=
   [.assign (.loc "reqID") (.attr (.loc "self") "nextRequestID"),
    .aug (.attr (.loc "self") "nextRequestID") .add (.int 1),
    .ret (.loc "reqID")]

/-- snmpmanager.py:70-79 `snmpManager.createGetRequestPDU`. -/
def snmpmanager_70 : Fn where
  name := "createGetRequestPDU"
  params := ["self", "varbindlist", "version"]
  defaults := [.int 2]
  locals := ["reqID", "pdu"]
  body :=
   [.assign (.loc "reqID") (.call (.attr (.loc "self") "assignRequestID") []),
    .ifS (.cmp .eq (.loc "version") (.int 1))
      [.assign (.loc "pdu") (.callK (.attr (.glob "rfc1157") "Get") [.loc "reqID"] ["varBindList"] [.loc "varbindlist"])]
      [.ifS (.cmp .eq (.loc "version") (.int 2))
         [.assign (.loc "pdu") (.callK (.attr (.glob "rfc1905") "Get") [.loc "reqID"] ["varBindList"] [.loc "varbindlist"])]
         []],
    .ret (.loc "pdu")]

/-- snmpmanager.py:81-90 `snmpManager.createGetNextRequestPDU`. -/
def snmpmanager_81 : Fn where
  name := "createGetNextRequestPDU"
  params := ["self", "varbindlist", "version"]
  defaults := [.int 2]
  locals := ["reqID", "pdu"]
  body :=
   [.assign (.loc "reqID") (.call (.attr (.loc "self") "assignRequestID") []),
    .ifS (.cmp .eq (.loc "version") (.int 1))
      [.assign (.loc "pdu") (.callK (.attr (.glob "rfc1157") "GetNext") [.loc "reqID"] ["varBindList"] [.loc "varbindlist"])]
      [.ifS (.cmp .eq (.loc "version") (.int 2))
         [.assign (.loc "pdu") (.callK (.attr (.glob "rfc1905") "GetNext") [.loc "reqID"] ["varBindList"] [.loc "varbindlist"])]
         []],
    .ret (.loc "pdu")]

/-- snmpmanager.py:92-101 `snmpManager.createSetRequestPDU`. -/
def snmpmanager_92 : Fn where
  name := "createSetRequestPDU"
  params := ["self", "varbindlist", "version"]
  defaults := [.int 2]
  locals := ["reqID", "pdu"]
  body :=
   [.assign (.loc "reqID") (.call (.attr (.loc "self") "assignRequestID") []),
    .ifS (.cmp .eq (.loc "version") (.int 1))
      [.assign (.loc "pdu") (.callK (.attr (.glob "rfc1157") "Set") [.loc "reqID"] ["varBindList"] [.loc "varbindlist"])]
      [.ifS (.cmp .eq (.loc "version") (.int 2))
         [.assign (.loc "pdu") (.callK (.attr (.glob "rfc1905") "Set") [.loc "reqID"] ["varBindList"] [.loc "varbindlist"])]
         []],
    .ret (.loc "pdu")]

/-- snmpmanager.py:103-124 `snmpManager.createGetRequestMessage`. -/
def snmpmanager_103 : Fn where
  name := "createGetRequestMessage"
  params := ["self", "oid", "community", "version"]
  defaults := [.str (lit "public"), .int 2]
  locals := ["objID", "val", "varbindlist", "pdu", "message"]
  body :=
   [.ifS (.cmp .eq (.loc "version") (.int 1))
      [.assign (.loc "objID") (.call (.attr (.glob "rfc1157") "ObjectID") [.loc "oid"]),
       .assign (.loc "val") (.call (.attr (.glob "rfc1157") "Null") []),
       .assign (.loc "varbindlist") (.call (.attr (.glob "rfc1157") "VarBindList") [.list [.call (.attr (.glob "rfc1157") "VarBind") [.loc "objID", .loc "val"]]]),
       .assign (.loc "pdu") (.call (.attr (.loc "self") "createGetRequestPDU") [.loc "varbindlist", .int 1]),
       .assign (.loc "message") (.callK (.attr (.glob "rfc1157") "Message") [] ["community", "data"] [.loc "community", .loc "pdu"])]
      [.ifS (.cmp .eq (.loc "version") (.int 2))
         [.assign (.loc "objID") (.call (.attr (.glob "rfc1905") "ObjectID") [.loc "oid"]),
          .assign (.loc "val") (.call (.attr (.glob "rfc1905") "Null") []),
          .assign (.loc "varbindlist") (.call (.attr (.glob "rfc1905") "VarBindList") [.list [.call (.attr (.glob "rfc1905") "VarBind") [.loc "objID", .loc "val"]]]),
          .assign (.loc "pdu") (.call (.attr (.loc "self") "createGetRequestPDU") [.loc "varbindlist", .int 2]),
          .assign (.loc "message") (.callK (.attr (.glob "rfc1905") "Message") [] ["community", "data"] [.loc "community", .loc "pdu"])]
         [.raise (.call (.glob "ValueError") [.bin .mod (.str (lit "Unknown version %d")) (.loc "version")])]],
    .ret (.loc "message")]

/-- snmpmanager.py:126-136 `snmpManager.createGetNextRequestMessage`. -/
def snmpmanager_126 : Fn where
  name := "createGetNextRequestMessage"
  params := ["self", "varbindlist", "community", "version"]
  defaults := [.str (lit "public"), .int 2]
  locals := ["pdu"]
  body :=
   [.assign (.loc "pdu") (.call (.attr (.loc "self") "createGetNextRequestPDU") [.loc "varbindlist", .loc "version"]),
    .ifS (.cmp .eq (.loc "version") (.int 1))
      [.ret (.callK (.attr (.glob "rfc1157") "Message") [] ["community", "data"] [.loc "community", .loc "pdu"])]
      [],
    .ifS (.cmp .eq (.loc "version") (.int 2))
      [.ret (.callK (.attr (.glob "rfc1905") "Message") [] ["community", "data"] [.loc "community", .loc "pdu"])]
      []]

/-- snmpmanager.py:138-159 `snmpManager.createSetRequestMessage`. -/
def snmpmanager_138 : Fn where
  name := "createSetRequestMessage"
  params := ["self", "oid", "valtype", "value", "community", "version"]
  defaults := [.str (lit "public"), .int 2]
  locals := ["objID", "val", "varbindlist", "pdu", "message"]
  body :=
   [.ifS (.cmp .eq (.loc "version") (.int 1))
      [.assign (.loc "objID") (.call (.attr (.glob "rfc1157") "ObjectID") [.loc "oid"]),
       .assign (.loc "val") (.call (.index (.attr (.glob "rfc1157") "tagDecodeDict") (.loc "valtype")) [.loc "value"]),
       .assign (.loc "varbindlist") (.call (.attr (.glob "rfc1157") "VarBindList") [.list [.call (.attr (.glob "rfc1157") "VarBind") [.loc "objID", .loc "val"]]]),
       .assign (.loc "pdu") (.call (.attr (.loc "self") "createSetRequestPDU") [.loc "varbindlist", .int 1]),
       .assign (.loc "message") (.callK (.attr (.glob "rfc1157") "Message") [] ["community", "data"] [.loc "community", .loc "pdu"])]
      [.ifS (.cmp .eq (.loc "version") (.int 2))
         [.assign (.loc "objID") (.call (.attr (.glob "rfc1905") "ObjectID") [.loc "oid"]),
          .assign (.loc "val") (.call (.index (.attr (.glob "rfc1905") "tagDecodeDict") (.loc "valtype")) [.loc "value"]),
          .assign (.loc "varbindlist") (.call (.attr (.glob "rfc1905") "VarBindList") [.list [.call (.attr (.glob "rfc1905") "VarBind") [.loc "objID", .loc "val"]]]),
          .assign (.loc "pdu") (.call (.attr (.loc "self") "createSetRequestPDU") [.loc "varbindlist", .int 1]),
          .assign (.loc "message") (.callK (.attr (.glob "rfc1905") "Message") [] ["community", "data"] [.loc "community", .loc "pdu"])]
         [.raise (.call (.glob "ValueError") [.bin .mod (.str (lit "Unknown version %d")) (.loc "version")])]],
    .ret (.loc "message")]

/-- snmpmanager.py:161-168 `snmpManager.createTrapMessage`. -/
def snmpmanager_161 : Fn where
  name := "createTrapMessage"
  params := ["self", "pdu", "community", "version"]
  defaults := [.str (lit "public"), .int 2]
  locals := []
  body :=
   [.ifS (.cmp .eq (.loc "version") (.int 1))
      [.ret (.callK (.attr (.glob "v1") "createTrapMessage") [] ["community", "data"] [.loc "community", .loc "pdu"])]
      [.ifS (.cmp .eq (.loc "version") (.int 2))
         [.ret (.callK (.attr (.glob "v2") "createTrapMessage") [] ["community", "data"] [.loc "community", .loc "pdu"])]
         []]]

/-- snmpmanager.py:170-197 `snmpManager.createTrapPDU`. -/
def snmpmanager_170 : Fn where
  name := "createTrapPDU"
  params := ["self", "varbindlist", "version", "enterprise", "agentAddr", "genericTrap", "specificTrap"]
  defaults := [.int 2, .str (lit ".1.3.6.1.4"), .none, .int 6, .int 0]
  locals := ["ent", "agent", "gTrap", "sTrap", "ts", "pdu"]
  body :=
   [.ifS (.cmp .is (.loc "agentAddr") .none)
      [.assign (.loc "agentAddr") (.index (.call (.attr (.loc "self") "getsockname") []) (.int 0)),
       .pass]
      [],
    .ifS (.cmp .eq (.loc "version") (.int 1))
      [.assign (.loc "ent") (.call (.attr (.glob "rfc1157") "ObjectID") [.loc "enterprise"]),
       .assign (.loc "agent") (.call (.attr (.glob "rfc1157") "NetworkAddress") [.loc "agentAddr"]),
       .assign (.loc "gTrap") (.call (.attr (.glob "rfc1157") "GenericTrap") [.loc "genericTrap"]),
       .assign (.loc "sTrap") (.call (.attr (.glob "rfc1157") "Integer") [.loc "specificTrap"]),
       .assign (.loc "ts") (.call (.attr (.glob "rfc1157") "TimeTicks") [.call (.attr (.loc "self") "getSysUptime") []]),
       .assign (.loc "pdu") (.call (.attr (.glob "rfc1157") "TrapPDU") [.loc "ent", .loc "agent", .loc "gTrap", .loc "sTrap", .loc "ts", .loc "varbindlist"])]
      [.ifS (.cmp .eq (.loc "version") (.int 2))
         [.assign (.loc "ent") (.call (.attr (.glob "rfc1905") "ObjectID") [.loc "enterprise"]),
          .assign (.loc "agent") (.call (.attr (.glob "rfc1905") "NetworkAddress") [.loc "agentAddr"]),
          .assign (.loc "gTrap") (.call (.attr (.glob "rfc1157") "GenericTrap") [.loc "genericTrap"]),
          .assign (.loc "sTrap") (.call (.attr (.glob "rfc1905") "Integer") [.loc "specificTrap"]),
          .assign (.loc "ts") (.call (.attr (.glob "rfc1905") "TimeTicks") [.call (.attr (.loc "self") "getSysUptime") []]),
          .assign (.loc "pdu") (.call (.attr (.glob "rfc1157") "TrapPDU") [.loc "ent", .loc "agent", .loc "gTrap", .loc "sTrap", .loc "ts", .loc "varbindlist"]),
          .pass]
         []],
    .ret (.loc "pdu")]

/-- snmpmanager.py:199-213 `snmpManager.snmpGet`. -/
def snmpmanager_199 : Fn where
  name := "snmpGet"
  params := ["self", "oid", "remote", "callback", "community", "version"]
  defaults := [.str (lit "public"), .int 2]
  locals := ["msg"]
  body :=
   [.assign (.loc "msg") (.call (.attr (.loc "self") "createGetRequestMessage") [.loc "oid", .loc "community", .loc "version"]),
    .expr (.call (.attr (.attr (.loc "self") "outbound") "put") [.tuple [.loc "msg", .loc "remote"]]),
    .assign (.index (.attr (.loc "self") "callbacks") (.attr (.attr (.loc "msg") "data") "requestID")) (.loc "callback"),
    .ret (.attr (.attr (.loc "msg") "data") "requestID")]

/-- snmpmanager.py:215-228 `snmpManager.snmpGetNext`. -/
def snmpmanager_215 : Fn where
  name := "snmpGetNext"
  params := ["self", "varbindlist", "remote", "callback", "community", "version"]
  defaults := [.str (lit "public"), .int 2]
  locals := ["msg"]
  body :=
   [.assign (.loc "msg") (.call (.attr (.loc "self") "createGetNextRequestMessage") [.loc "varbindlist", .loc "community", .loc "version"]),
    .expr (.call (.attr (.attr (.loc "self") "outbound") "put") [.tuple [.loc "msg", .loc "remote"]]),
    .assign (.index (.attr (.loc "self") "callbacks") (.attr (.attr (.loc "msg") "data") "requestID")) (.loc "callback"),
    .ret (.attr (.attr (.loc "msg") "data") "requestID")]

/-- snmpmanager.py:230-245 `snmpManager.snmpSet`. -/
def snmpmanager_230 : Fn where
  name := "snmpSet"
  params := ["self", "oid", "valtype", "value", "remote", "callback", "community", "version"]
  defaults := [.str (lit "public"), .int 2]
  locals := ["msg"]
  body :=
   [.assign (.loc "msg") (.call (.attr (.loc "self") "createSetRequestMessage") [.loc "oid", .loc "valtype", .loc "value", .loc "community", .loc "version"]),
    .expr (.call (.attr (.attr (.loc "self") "outbound") "put") [.tuple [.loc "msg", .loc "remote"]]),
    .assign (.index (.attr (.loc "self") "callbacks") (.attr (.attr (.loc "msg") "data") "requestID")) (.loc "callback"),
    .ret (.attr (.attr (.loc "msg") "data") "requestID")]

/-- snmpmanager.py:247-252 `snmpManager.snmpTrap`. -/
def snmpmanager_247 : Fn where
  name := "snmpTrap"
  params := ["self", "remote", "trapPDU", "community", "version"]
  defaults := [.str (lit "public"), .int 2]
  locals := ["msg"]
  body :=
   [.assign (.loc "msg") (.call (.attr (.loc "self") "createTrapMessage") [.loc "trapPDU", .loc "community", .loc "version"]),
    .expr (.call (.attr (.attr (.loc "self") "outbound") "put") [.tuple [.loc "msg", .loc "remote"]])]

/-- snmpmanager.py:254-282 `snmpManager.receiveData`. -/
def snmpmanager_254 : Fn where
  name := "receiveData"
  params := ["self", "manager", "cb_ctx", "data_src_tuple", "exc_tuple"]
  defaults := []
  locals := ["data", "src", "exc_type", "exc_value", "exc_traceback", "msg"]
  body :=
   [.assign (.tuple ["data", "src"]) (.loc "data_src_tuple"),
    .assign (.tuple ["exc_type", "exc_value", "exc_traceback"]) (.loc "exc_tuple"),
    .ifS (.cmp .isNot (.loc "exc_type") .none)
      [.raise (.call (.loc "exc_type") [.loc "exc_value"])]
      [],
    .assign (.loc "msg") (.call (.attr (.call (.attr (.glob "rfc1905") "Message") []) "decode") [.loc "data"]),
    .ifS (.cmp .eq (.attr (.loc "msg") "version") (.int 0))
      [.expr (.call (.attr (.loc "self") "handleV1Message") [.loc "msg"])]
      [.ifS (.cmp .eq (.attr (.loc "msg") "version") (.int 1))
         [.expr (.call (.attr (.loc "self") "handleV2Message") [.loc "msg"])]
         [.expr (.call (.attr (.glob "log") "error") [.bin .mod (.str (lit "Unknown message version %d detected")) (.attr (.loc "msg") "version")]),
          .expr (.call (.attr (.glob "log") "error") [.bin .mod (.str (lit "version is a %s")) (.call (.attr (.loc "msg") "version") [])]),
          .raise (.call (.glob "ValueError") [.bin .mod (.str (lit "Unknown message version %d detected")) (.attr (.loc "msg") "version")])]]]

/-- snmpmanager.py:284-298 `snmpManager.handleV1Message`. -/
def snmpmanager_284 : Fn where
  name := "handleV1Message"
  params := ["self", "msg"]
  defaults := []
  locals := []
  body :=
   [.ifS (.call (.glob "isinstance") [.attr (.loc "msg") "data", .attr (.glob "rfc1157") "PDU"])
      [.expr (.call (.index (.attr (.loc "self") "callbacks") (.attr (.attr (.loc "msg") "data") "requestID")) [.loc "self", .loc "msg"]),
       .del (.attr (.loc "self") "callbacks") (.attr (.attr (.loc "msg") "data") "requestID")]
      [.ifS (.call (.glob "isinstance") [.attr (.loc "msg") "data", .attr (.glob "rfc1157") "TrapPDU"])
         [.expr (.call (.attr (.loc "self") "trapCallback") [.loc "self", .loc "msg"])]
         [.expr (.call (.attr (.glob "log") "info") [.str (lit "Unknown SNMPv1 Message type received")])]],
    .pass]

/-- snmpmanager.py:300-314 `snmpManager.handleV2Message`. -/
def snmpmanager_300 : Fn where
  name := "handleV2Message"
  params := ["self", "msg"]
  defaults := []
  locals := []
  body :=
   [.ifS (.call (.glob "isinstance") [.attr (.loc "msg") "data", .attr (.glob "rfc1905") "PDU"])
      [.expr (.call (.index (.attr (.loc "self") "callbacks") (.attr (.attr (.loc "msg") "data") "requestID")) [.loc "self", .loc "msg"]),
       .del (.attr (.loc "self") "callbacks") (.attr (.attr (.loc "msg") "data") "requestID")]
      [.ifS (.call (.glob "isinstance") [.attr (.loc "msg") "data", .attr (.glob "rfc1905") "TrapPDU"])
         [.expr (.call (.attr (.loc "self") "trapCallback") [.loc "self", .loc "msg"])]
         [.expr (.call (.attr (.glob "log") "info") [.str (lit "Unknown SNMPv2 Message type received")])]],
    .pass]

/-- snmpmanager.py:316-320 `snmpManager.enterpriseOID`. -/
def snmpmanager_316 : Fn where
  name := "enterpriseOID"
  params := ["self", "partialOID"]
  defaults := []
  locals := []
  body :=
   [.ret (.bin .add (.str (lit ".1.3.6.1.2.1.")) (.loc "partialOID"))]

/-- snmpmanager.py:327-342, the body of the loop. -/
def snmpmanager_327 : List Stmt :=
 [.tryAs
    [.expr (.call (.attr (.loc "self") "poll") []),
     .assign (.loc "request") (.call (.attr (.attr (.loc "self") "outbound") "get") [.int 0]),
     .expr (.call (.attr (.loc "self") "send") [.call (.attr (.index (.loc "request") (.int 0)) "encode") [], .index (.loc "request") (.int 1)])] (some "queue.Empty") none
    [.ifS (.attr (.loc "self") "queueEmpty")
       [.expr (.call (.attr (.loc "self") "queueEmpty") [.loc "self"])]
       [],
     .pass]
    [.reraise]]

/-- snmpmanager.py:322-342 `snmpManager.run`. -/
def snmpmanager_322 : Fn where
  name := "run"
  params := ["self"]
  defaults := []
  locals := ["request"]
  body :=
   [.whileS (.int 1) snmpmanager_327]

/-- snmpmanager.py:344-359 `snmpManager.getSysUptime`. -/
def snmpmanager_344 : Fn where
  name := "getSysUptime"
  params := ["self"]
  defaults := []
  locals := ["uptime", "upsecs"]
  body :=
   [.tryS
      [.assign (.loc "uptime") (.call (.attr (.call (.attr (.call (.glob "open") [.str (lit "/proc/uptime")]) "read") []) "split") []),
       .assign (.loc "upsecs") (.call (.glob "int") [.bin .mul (.call (.glob "float") [.index (.loc "uptime") (.int 0)]) (.int 100)]),
       .ret (.loc "upsecs")] none
      [.ret (.int 0)]]

/-- snmpmanager.py:361-368 `snmpManager.typeSetter`. -/
def snmpmanager_361 : Fn where
  name := "typeSetter"
  params := ["self", "typestring"]
  defaults := []
  locals := []
  body :=
   [.ret (.index (.glob "typeValDict") (.loc "typestring"))]

/-- The functions by module and line. -/
def code : Module → Nat → Option Fn
  | .util, 9 => some util_9
  | .util, 20 => some util_20
  | .rfc1155, 79 => some rfc1155_79
  | .rfc1155, 82 => some rfc1155_82
  | .rfc1155, 99 => some rfc1155_99
  | .rfc1155, 126 => some rfc1155_126
  | .rfc1155, 150 => some rfc1155_150
  | .rfc1155, 182 => some rfc1155_182
  | .rfc1155, 189 => some rfc1155_189
  | .rfc1155, 219 => some rfc1155_219
  | .rfc1155, 257 => some rfc1155_257
  | .rfc1155, 262 => some rfc1155_262
  | .rfc1155, 274 => some rfc1155_274
  | .rfc1155, 282 => some rfc1155_282
  | .rfc1155, 297 => some rfc1155_297
  | .rfc1155, 307 => some rfc1155_307
  | .rfc1155, 310 => some rfc1155_310
  | .rfc1155, 313 => some rfc1155_313
  | .rfc1155, 316 => some rfc1155_316
  | .rfc1155, 319 => some rfc1155_319
  | .rfc1155, 322 => some rfc1155_322
  | .rfc1155, 325 => some rfc1155_325
  | .rfc1155, 331 => some rfc1155_331
  | .rfc1155, 341 => some rfc1155_341
  | .rfc1155, 349 => some rfc1155_349
  | .rfc1155, 354 => some rfc1155_354
  | .rfc1155, 360 => some rfc1155_360
  | .rfc1155, 401 => some rfc1155_401
  | .rfc1155, 436 => some rfc1155_436
  | .rfc1155, 452 => some rfc1155_452
  | .rfc1155, 480 => some rfc1155_480
  | .rfc1155, 507 => some rfc1155_507
  | .rfc1155, 519 => some rfc1155_519
  | .rfc1155, 524 => some rfc1155_524
  | .rfc1155, 527 => some rfc1155_527
  | .rfc1155, 532 => some rfc1155_532
  | .rfc1155, 538 => some rfc1155_538
  | .rfc1155, 541 => some rfc1155_541
  | .rfc1155, 544 => some rfc1155_544
  | .rfc1155, 557 => some rfc1155_557
  | .rfc1155, 595 => some rfc1155_595
  | .rfc1155, 604 => some rfc1155_604
  | .rfc1155, 614 => some rfc1155_614
  | .rfc1155, 621 => some rfc1155_621
  | .rfc1155, 625 => some rfc1155_625
  | .rfc1155, 631 => some rfc1155_631
  | .rfc1155, 638 => some rfc1155_638
  | .rfc1155, 646 => some rfc1155_646
  | .rfc1155, 663 => some rfc1155_663
  | .rfc1155, 696 => some rfc1155_696
  | .rfc1155, 756 => some rfc1155_756
  | .rfc1155, 769 => some rfc1155_769
  | .rfc1155, 772 => some rfc1155_772
  | .rfc1155, 775 => some rfc1155_775
  | .rfc1155, 796 => some rfc1155_796
  | .rfc1155, 803 => some rfc1155_803
  | .rfc1155, 815 => some rfc1155_815
  | .rfc1155, 818 => some rfc1155_818
  | .rfc1155, 824 => some rfc1155_824
  | .rfc1155, 827 => some rfc1155_827
  | .rfc1155, 842 => some rfc1155_842
  | .rfc1155, 864 => some rfc1155_864
  | .rfc1155, 879 => some rfc1155_879
  | .rfc1155, 898 => some rfc1155_898
  | .rfc1155, 921 => some rfc1155_921
  | .rfc1155, 928 => some rfc1155_928
  | .rfc1155, 937 => some rfc1155_937
  | .rfc1155, 964 => some rfc1155_964
  | .rfc1155, 977 => some rfc1155_977
  | .rfc1155, 1008 => some rfc1155_1008
  | .rfc1155, 1019 => some rfc1155_1019
  | .rfc1155, 1047 => some rfc1155_1047
  | .rfc1155, 1056 => some rfc1155_1056
  | .rfc1155, 1076 => some rfc1155_1076
  | .rfc1157, 42 => some rfc1157_42
  | .rfc1157, 47 => some rfc1157_47
  | .rfc1157, 63 => some rfc1157_63
  | .rfc1157, 80 => some rfc1157_80
  | .rfc1157, 91 => some rfc1157_91
  | .rfc1157, 97 => some rfc1157_97
  | .rfc1157, 103 => some rfc1157_103
  | .rfc1157, 110 => some rfc1157_110
  | .rfc1157, 129 => some rfc1157_129
  | .rfc1157, 138 => some rfc1157_138
  | .rfc1157, 153 => some rfc1157_153
  | .rfc1157, 169 => some rfc1157_169
  | .rfc1157, 211 => some rfc1157_211
  | .rfc1157, 216 => some rfc1157_216
  | .rfc1157, 233 => some rfc1157_233
  | .rfc1157, 255 => some rfc1157_255
  | .rfc1902, 60 => some rfc1902_60
  | .rfc1905, 32 => some rfc1905_32
  | .rfc1905, 38 => some rfc1905_38
  | .rfc1905, 44 => some rfc1905_44
  | .rfc1905, 52 => some rfc1905_52
  | .rfc1905, 60 => some rfc1905_60
  | .rfc1905, 68 => some rfc1905_68
  | .rfc1905, 105 => some rfc1905_105
  | .rfc1905, 144 => some rfc1905_144
  | .rfc1905, 164 => some rfc1905_164
  | .rfc1905, 228 => some rfc1905_228
  | .role, 15 => some role_15
  | .role, 25 => some role_25
  | .role, 29 => some role_29
  | .role, 32 => some role_32
  | .role, 40 => some role_40
  | .role, 47 => some role_47
  | .role, 55 => some role_55
  | .asynrole, 15 => some asynrole_15
  | .asynrole, 33 => some asynrole_33
  | .asynrole, 37 => some asynrole_37
  | .asynrole, 42 => some asynrole_42
  | .asynrole, 45 => some asynrole_45
  | .asynrole, 48 => some asynrole_48
  | .asynrole, 52 => some asynrole_52
  | .asynrole, 65 => some asynrole_65
  | .v1, 22 => some v1_22
  | .v1, 47 => some v1_47
  | .v1, 54 => some v1_54
  | .v1, 59 => some v1_59
  | .v1, 64 => some v1_64
  | .v1, 74 => some v1_74
  | .v1, 81 => some v1_81
  | .v1, 87 => some v1_87
  | .v1, 103 => some v1_103
  | .v1, 118 => some v1_118
  | .v1, 133 => some v1_133
  | .v1, 151 => some v1_151
  | .v1, 158 => some v1_158
  | .v1, 163 => some v1_163
  | .v1, 210 => some v1_210
  | .v1, 216 => some v1_216
  | .v1, 236 => some v1_236
  | .v2, 26 => some v2_26
  | .v2, 31 => some v2_31
  | .v2, 36 => some v2_36
  | .v2, 52 => some v2_52
  | .v2, 59 => some v2_59
  | .v2, 65 => some v2_65
  | .v2, 80 => some v2_80
  | .v2, 96 => some v2_96
  | .v2, 111 => some v2_111
  | .v2, 129 => some v2_129
  | .v2, 136 => some v2_136
  | .v2, 141 => some v2_141
  | .snmpmanager, 40 => some snmpmanager_40
  | .snmpmanager, 63 => some snmpmanager_63
  | .snmpmanager, 70 => some snmpmanager_70
  | .snmpmanager, 81 => some snmpmanager_81
  | .snmpmanager, 92 => some snmpmanager_92
  | .snmpmanager, 103 => some snmpmanager_103
  | .snmpmanager, 126 => some snmpmanager_126
  | .snmpmanager, 138 => some snmpmanager_138
  | .snmpmanager, 161 => some snmpmanager_161
  | .snmpmanager, 170 => some snmpmanager_170
  | .snmpmanager, 199 => some snmpmanager_199
  | .snmpmanager, 215 => some snmpmanager_215
  | .snmpmanager, 230 => some snmpmanager_230
  | .snmpmanager, 247 => some snmpmanager_247
  | .snmpmanager, 254 => some snmpmanager_254
  | .snmpmanager, 284 => some snmpmanager_284
  | .snmpmanager, 300 => some snmpmanager_300
  | .snmpmanager, 316 => some snmpmanager_316
  | .snmpmanager, 322 => some snmpmanager_322
  | .snmpmanager, 344 => some snmpmanager_344
  | .snmpmanager, 361 => some snmpmanager_361
  | _, _ => none

/-! ## Classes -/

/-- The classes by module and line. -/
def classes : CId → Option Class
  | (.rfc1155, 64) => some ⟨(.rfc1155, 64), "Asn1Object", none,
     [("toObjectID", .func .rfc1155 282),
      ("__ne__", .func .rfc1155 274),
      ("__eq__", .func .rfc1155 262),
      ("encodeEndOfContents", .func .rfc1155 257),
      ("encodeLength", .func .rfc1155 219),
      ("encodeIdentifier", .func .rfc1155 189),
      ("encodeContents", .func .rfc1155 182),
      ("decode", .func .rfc1155 150),
      ("decodeLength", .func .rfc1155 126),
      ("decodeTag", .func .rfc1155 99),
      ("encode", .func .rfc1155 82),
      ("__init__", .func .rfc1155 79),
      ("value", .none),
      ("asnTagNumber", .none),
      ("asnTagFormat", .int 0),
      ("asnTagClass", .int 0)]⟩
  | (.rfc1155, 288) => some ⟨(.rfc1155, 288), "Integer", (some (.cls (.rfc1155, 64))),
     [("toObjectID", .func .rfc1155 507),
      ("decodeTwosInteger3", .func .rfc1155 480),
      ("decodeTwosInteger2", .func .rfc1155 452),
      ("decodeTwosInteger1", .func .rfc1155 436),
      ("decodeContents", .func .rfc1155 401),
      ("encodeContents", .func .rfc1155 360),
      ("__hash__", .func .rfc1155 354),
      ("__sub__", .func .rfc1155 349),
      ("__add__", .func .rfc1155 341),
      ("__eq__", .func .rfc1155 331),
      ("__call__", .func .rfc1155 325),
      ("__oct__", .func .rfc1155 322),
      ("__hex__", .func .rfc1155 319),
      ("__long__", .func .rfc1155 316),
      ("__float__", .func .rfc1155 313),
      ("__int__", .func .rfc1155 310),
      ("__str__", .func .rfc1155 307),
      ("__init__", .func .rfc1155 297),
      ("MAXVAL", .int 2147483647),
      ("MINVAL", .int (-2147483648)),
      ("asnTagNumber", .int 2),
      ("asnTagClass", .int 0)]⟩
  | (.rfc1155, 513) => some ⟨(.rfc1155, 513), "OctetString", (some (.cls (.rfc1155, 64))),
     [("toObjectID", .func .rfc1155 544),
      ("__oct__", .func .rfc1155 541),
      ("__hex__", .func .rfc1155 538),
      ("decodeContents", .func .rfc1155 532),
      ("encodeContents", .func .rfc1155 527),
      ("__str__", .func .rfc1155 524),
      ("__init__", .func .rfc1155 519),
      ("asnTagNumber", .int 4),
      ("asnTagClass", .int 0)]⟩
  | (.rfc1155, 550) => some ⟨(.rfc1155, 550), "ObjectID", (some (.cls (.rfc1155, 64))),
     [("toObjectID", .func .rfc1155 756),
      ("decodeContents", .func .rfc1155 696),
      ("encodeContents", .func .rfc1155 663),
      ("isPrefixOf", .func .rfc1155 646),
      ("extend", .func .rfc1155 638),
      ("append", .func .rfc1155 631),
      ("copy", .func .rfc1155 625),
      ("__delitem__", .func .rfc1155 621),
      ("__getitem__", .func .rfc1155 614),
      ("__len__", .func .rfc1155 604),
      ("__str__", .func .rfc1155 595),
      ("__init__", .func .rfc1155 557),
      ("asnTagNumber", .int 6),
      ("asnTagFormat", .int 0),
      ("asnTagClass", .int 0)]⟩
  | (.rfc1155, 762) => some ⟨(.rfc1155, 762), "Null", (some (.cls (.rfc1155, 64))),
     [("decodeContents", .func .rfc1155 775),
      ("encodeContents", .func .rfc1155 772),
      ("__str__", .func .rfc1155 769),
      ("asnTagNumber", .int 5),
      ("asnTagFormat", .int 0),
      ("asnTagClass", .int 0)]⟩
  | (.rfc1155, 785) => some ⟨(.rfc1155, 785), "Sequence", (some (.cls (.rfc1155, 64))),
     [("decodeContents", .func .rfc1155 842),
      ("encodeContents", .func .rfc1155 827),
      ("append", .func .rfc1155 824),
      ("__getitem__", .func .rfc1155 818),
      ("__len__", .func .rfc1155 815),
      ("__str__", .func .rfc1155 803),
      ("__init__", .func .rfc1155 796),
      ("value", .ref 0),
      ("asnTagNumber", .int 16),
      ("asnTagFormat", .int 32),
      ("asnTagClass", .int 0)]⟩
  | (.rfc1155, 855) => some ⟨(.rfc1155, 855), "SequenceOf", (some (.cls (.rfc1155, 785))),
     [("append", .func .rfc1155 879),
      ("__init__", .func .rfc1155 864),
      ("asnTagNumber", .int 16),
      ("asnTagFormat", .int 32),
      ("asnTagClass", .int 0)]⟩
  | (.rfc1155, 889) => some ⟨(.rfc1155, 889), "IPAddress", (some (.cls (.rfc1155, 513))),
     [("toObjectID", .func .rfc1155 937),
      ("__str__", .func .rfc1155 928),
      ("decodeContents", .func .rfc1155 921),
      ("__init__", .func .rfc1155 898),
      ("asnTagNumber", .int 0),
      ("asnTagFormat", .int 0),
      ("asnTagClass", .int 64)]⟩
  | (.rfc1155, 943) => some ⟨(.rfc1155, 943), "NetworkAddress", (some (.cls (.rfc1155, 889))),
     [("name", .str (lit "internet"))]⟩
  | (.rfc1155, 952) => some ⟨(.rfc1155, 952), "Counter", (some (.cls (.rfc1155, 288))),
     [("decodeContents", .func .rfc1155 977),
      ("__add__", .func .rfc1155 964),
      ("MAXVAL", .int 4294967295),
      ("MINVAL", .int 0),
      ("asnTagNumber", .int 1),
      ("asnTagFormat", .int 0),
      ("asnTagClass", .int 64)]⟩
  | (.rfc1155, 996) => some ⟨(.rfc1155, 996), "Guage", (some (.cls (.rfc1155, 288))),
     [("__sub__", .func .rfc1155 1019),
      ("__add__", .func .rfc1155 1008),
      ("MAXVAL", .int 4294967295),
      ("MINVAL", .int 0),
      ("asnTagNumber", .int 2),
      ("asnTagFormat", .int 0),
      ("asnTagClass", .int 64)]⟩
  | (.rfc1155, 1033) => some ⟨(.rfc1155, 1033), "TimeTicks", (some (.cls (.rfc1155, 288))),
     [("_todo__str__", .func .rfc1155 1056),
      ("__init__", .func .rfc1155 1047),
      ("epoch", .none),
      ("MAXVAL", .int 4294967295),
      ("MINVAL", .int 0),
      ("asnTagNumber", .int 3),
      ("asnTagFormat", .int 0),
      ("asnTagClass", .int 64)]⟩
  | (.rfc1155, 1065) => some ⟨(.rfc1155, 1065), "Opaque", (some (.cls (.rfc1155, 513))),
     []⟩
  | (.rfc1155, 1075) => some ⟨(.rfc1155, 1075), "DecodeError", (some (.builtin "Exception")),
     [("__init__", .func .rfc1155 1076)]⟩
  | (.rfc1157, 20) => some ⟨(.rfc1157, 20), "ErrorStatus", (some (.cls (.rfc1155, 288))),
     [("enum", .func .rfc1157 47),
      ("__str__", .func .rfc1157 42),
      ("errNum", .ref 2),
      ("errString", .ref 1)]⟩
  | (.rfc1157, 58) => some ⟨(.rfc1157, 58), "VarBind", (some (.cls (.rfc1155, 785))),
     [("__init__", .func .rfc1157 63)]⟩
  | (.rfc1157, 76) => some ⟨(.rfc1157, 76), "VarBindList", (some (.cls (.rfc1155, 855))),
     [("__init__", .func .rfc1157 80)]⟩
  | (.rfc1157, 87) => some ⟨(.rfc1157, 87), "Message", (some (.cls (.rfc1155, 785))),
     [("decode", .func .rfc1157 110),
      ("encodeContents", .func .rfc1157 103),
      ("__str__", .func .rfc1157 97),
      ("__init__", .func .rfc1157 91)]⟩
  | (.rfc1157, 128) => some ⟨(.rfc1157, 128), "MessageError", (some (.builtin "Exception")),
     [("__init__", .func .rfc1157 129)]⟩
  | (.rfc1157, 133) => some ⟨(.rfc1157, 133), "PDU", (some (.cls (.rfc1155, 785))),
     [("decodeContents", .func .rfc1157 153),
      ("__init__", .func .rfc1157 138),
      ("asnTagClass", .int 128)]⟩
  | (.rfc1157, 168) => some ⟨(.rfc1157, 168), "PDUError", (some (.builtin "Exception")),
     [("__init__", .func .rfc1157 169)]⟩
  | (.rfc1157, 173) => some ⟨(.rfc1157, 173), "Get", (some (.cls (.rfc1157, 133))),
     [("asnTagNumber", .int 0)]⟩
  | (.rfc1157, 179) => some ⟨(.rfc1157, 179), "GetNext", (some (.cls (.rfc1157, 133))),
     [("asnTagNumber", .int 1)]⟩
  | (.rfc1157, 185) => some ⟨(.rfc1157, 185), "Response", (some (.cls (.rfc1157, 133))),
     [("asnTagNumber", .int 0)]⟩
  | (.rfc1157, 191) => some ⟨(.rfc1157, 191), "Set", (some (.cls (.rfc1157, 133))),
     [("asnTagNumber", .int 3)]⟩
  | (.rfc1157, 197) => some ⟨(.rfc1157, 197), "GenericTrap", (some (.cls (.rfc1155, 288))),
     [("enum", .func .rfc1157 216),
      ("__str__", .func .rfc1157 211),
      ("genericTraps", .ref 5)]⟩
  | (.rfc1157, 227) => some ⟨(.rfc1157, 227), "TrapPDU", (some (.cls (.rfc1155, 785))),
     [("decodeContents", .func .rfc1157 255),
      ("__init__", .func .rfc1157 233),
      ("asnTagNumber", .int 4),
      ("asnTagClass", .int 128)]⟩
  | (.rfc1902, 27) => some ⟨(.rfc1902, 27), "Integer32", (some (.cls (.rfc1155, 288))),
     [("MAXVAL", .int 2147483648),
      ("MINVAL", .int (-2147483648))]⟩
  | (.rfc1902, 34) => some ⟨(.rfc1902, 34), "Counter32", (some (.cls (.rfc1155, 952))),
     []⟩
  | (.rfc1902, 40) => some ⟨(.rfc1902, 40), "Guage32", (some (.cls (.rfc1155, 996))),
     []⟩
  | (.rfc1902, 46) => some ⟨(.rfc1902, 46), "Counter64", (some (.cls (.rfc1155, 952))),
     [("asnTagClass", .int 6),
      ("MAXVAL", .int 18446744073709551615),
      ("MINVAL", .int 0)]⟩
  | (.rfc1902, 55) => some ⟨(.rfc1902, 55), "OctetString", (some (.cls (.rfc1155, 513))),
     [("__init__", .func .rfc1902 60)]⟩
  | (.rfc1905, 22) => some ⟨(.rfc1905, 22), "VarBind", (some (.cls (.rfc1157, 58))),
     []⟩
  | (.rfc1905, 30) => some ⟨(.rfc1905, 30), "NoSuchObject", (some (.cls (.rfc1155, 762))),
     [("__str__", .func .rfc1905 32)]⟩
  | (.rfc1905, 36) => some ⟨(.rfc1905, 36), "NoSuchInstance", (some (.cls (.rfc1155, 762))),
     [("__str__", .func .rfc1905 38)]⟩
  | (.rfc1905, 42) => some ⟨(.rfc1905, 42), "EndOfMibView", (some (.cls (.rfc1155, 762))),
     [("__str__", .func .rfc1905 44)]⟩
  | (.rfc1905, 48) => some ⟨(.rfc1905, 48), "VarBindList", (some (.cls (.rfc1157, 76))),
     [("__init__", .func .rfc1905 52)]⟩
  | (.rfc1905, 58) => some ⟨(.rfc1905, 58), "Message", (some (.cls (.rfc1157, 87))),
     [("__init__", .func .rfc1905 60)]⟩
  | (.rfc1905, 64) => some ⟨(.rfc1905, 64), "ErrorStatus", (some (.cls (.rfc1157, 20))),
     [("__init__", .func .rfc1905 68)]⟩
  | (.rfc1905, 100) => some ⟨(.rfc1905, 100), "PDU", (some (.cls (.rfc1157, 133))),
     [("__init__", .func .rfc1905 105),
      ("asnTagClass", .int 128)]⟩
  | (.rfc1905, 137) => some ⟨(.rfc1905, 137), "BulkPDU", (some (.cls (.rfc1155, 785))),
     [("decodeContents", .func .rfc1905 164),
      ("__init__", .func .rfc1905 144),
      ("asnTagClass", .int 128)]⟩
  | (.rfc1905, 179) => some ⟨(.rfc1905, 179), "Get", (some (.cls (.rfc1905, 100))),
     [("asnTagNumber", .int 0)]⟩
  | (.rfc1905, 185) => some ⟨(.rfc1905, 185), "GetNext", (some (.cls (.rfc1905, 100))),
     [("asnTagNumber", .int 1)]⟩
  | (.rfc1905, 191) => some ⟨(.rfc1905, 191), "Response", (some (.cls (.rfc1905, 100))),
     [("asnTagNumber", .int 2)]⟩
  | (.rfc1905, 197) => some ⟨(.rfc1905, 197), "Set", (some (.cls (.rfc1905, 100))),
     [("asnTagNumber", .int 3)]⟩
  | (.rfc1905, 203) => some ⟨(.rfc1905, 203), "GetBulk", (some (.cls (.rfc1905, 137))),
     [("asnTagNumber", .int 5)]⟩
  | (.rfc1905, 209) => some ⟨(.rfc1905, 209), "Inform", (some (.cls (.rfc1905, 100))),
     [("asnTagNumber", .int 6)]⟩
  | (.rfc1905, 215) => some ⟨(.rfc1905, 215), "TrapV2", (some (.cls (.rfc1905, 100))),
     [("asnTagNumber", .int 7)]⟩
  | (.rfc1905, 221) => some ⟨(.rfc1905, 221), "Report", (some (.cls (.rfc1905, 100))),
     [("asnTagNumber", .int 8)]⟩
  | (.rfc1905, 227) => some ⟨(.rfc1905, 227), "PDUError", (some (.builtin "Exception")),
     [("__init__", .func .rfc1905 228)]⟩
  | (.role, 13) => some ⟨(.role, 13), "manager", none,
     [("close", .func .role 55),
      ("read", .func .role 47),
      ("send", .func .role 40),
      ("open", .func .role 32),
      ("get_socket", .func .role 29),
      ("__del__", .func .role 25),
      ("__init__", .func .role 15)]⟩
  | (.asynrole, 13) => some ⟨(.asynrole, 13), "Manager", (some (.ext "asyncore.dispatcher")),
     [("poll", .func .asynrole 65),
      ("handle_error", .func .asynrole 52),
      ("handle_close", .func .asynrole 48),
      ("handle_connect", .func .asynrole 45),
      ("writable", .func .asynrole 42),
      ("handle_read", .func .asynrole 37),
      ("send", .func .asynrole 33),
      ("__init__", .func .asynrole 15)]⟩
  | (.v1, 19) => some ⟨(.v1, 19), "SNMP", (some (.cls (.asynrole, 13))),
     [("getSysUptime", .func .v1 236),
      ("run", .func .v1 216),
      ("enterpriseOID", .func .v1 210),
      ("receiveData", .func .v1 163),
      ("createSetRequestMessage", .func .v1 158),
      ("snmpTrap", .func .v1 151),
      ("snmpSet", .func .v1 133),
      ("snmpGetNext", .func .v1 118),
      ("snmpGet", .func .v1 103),
      ("createTrapPDU", .func .v1 87),
      ("createTrapMessage", .func .v1 81),
      ("createGetNextRequestMessage", .func .v1 74),
      ("createGetRequestMessage", .func .v1 64),
      ("createGetNextRequestPDU", .func .v1 59),
      ("createGetRequestPDU", .func .v1 54),
      ("assignRequestID", .func .v1 47),
      ("__init__", .func .v1 22),
      ("nextRequestID", .int 0)]⟩
  | (.v2, 24) => some ⟨(.v2, 24), "SNMP", (some (.cls (.v1, 19))),
     [("receiveData", .func .v2 141),
      ("createSetRequestMessage", .func .v2 136),
      ("snmpTrap", .func .v2 129),
      ("snmpSet", .func .v2 111),
      ("snmpGetNext", .func .v2 96),
      ("snmpGet", .func .v2 80),
      ("createTrap", .func .v2 65),
      ("createTrapMessage", .func .v2 59),
      ("createGetNextRequestMessage", .func .v2 52),
      ("createGetRequestMessage", .func .v2 36),
      ("createGetNextRequestPDU", .func .v2 31),
      ("createGetRequestPDU", .func .v2 26)]⟩
  | (.snmpmanager, 37) => some ⟨(.snmpmanager, 37), "snmpManager", (some (.cls (.asynrole, 13))),
     [("typeSetter", .func .snmpmanager 361),
      ("getSysUptime", .func .snmpmanager 344),
      ("run", .func .snmpmanager 322),
      ("enterpriseOID", .func .snmpmanager 316),
      ("handleV2Message", .func .snmpmanager 300),
      ("handleV1Message", .func .snmpmanager 284),
      ("receiveData", .func .snmpmanager 254),
      ("snmpTrap", .func .snmpmanager 247),
      ("snmpSet", .func .snmpmanager 230),
      ("snmpGetNext", .func .snmpmanager 215),
      ("snmpGet", .func .snmpmanager 199),
      ("createTrapPDU", .func .snmpmanager 170),
      ("createTrapMessage", .func .snmpmanager 161),
      ("createSetRequestMessage", .func .snmpmanager 138),
      ("createGetNextRequestMessage", .func .snmpmanager 126),
      ("createGetRequestMessage", .func .snmpmanager 103),
      ("createSetRequestPDU", .func .snmpmanager 92),
      ("createGetNextRequestPDU", .func .snmpmanager 81),
      ("createGetRequestPDU", .func .snmpmanager 70),
      ("assignRequestID", .func .snmpmanager 63),
      ("__init__", .func .snmpmanager 40),
      ("nextRequestID", .int 0)]⟩
  | _ => none

/-! ## Global names -/

def globals_util : String → Option V
  | "octetsToHex" => some (.func .util 9)
  | "octetsToOct" => some (.func .util 20)
  | _ => none

def globals_rfc1155 : String → Option V
  | "copy" => some (.builtin "copy")
  | "logging" => some (.builtin "logging")
  | "reduce" => some (.builtin "reduce")
  | "util" => some (.mod .util)
  | "log" => some (.logger)
  | "Asn1Object" => some (.cls (.rfc1155, 64))
  | "Integer" => some (.cls (.rfc1155, 288))
  | "OctetString" => some (.cls (.rfc1155, 513))
  | "ObjectID" => some (.cls (.rfc1155, 550))
  | "Null" => some (.cls (.rfc1155, 762))
  | "Sequence" => some (.cls (.rfc1155, 785))
  | "SequenceOf" => some (.cls (.rfc1155, 855))
  | "IPAddress" => some (.cls (.rfc1155, 889))
  | "NetworkAddress" => some (.cls (.rfc1155, 943))
  | "Counter" => some (.cls (.rfc1155, 952))
  | "Guage" => some (.cls (.rfc1155, 996))
  | "TimeTicks" => some (.cls (.rfc1155, 1033))
  | "Opaque" => some (.cls (.rfc1155, 1065))
  | "DecodeError" => some (.cls (.rfc1155, 1075))
  | "tagDecodeDict" => some (.registry)
  | _ => none

def globals_rfc1157 : String → Option V
  | "logging" => some (.builtin "logging")
  | "log" => some (.logger)
  | "copy" => some (.builtin "copy")
  | "reduce" => some (.builtin "reduce")
  | "util" => some (.mod .util)
  | "Asn1Object" => some (.cls (.rfc1155, 64))
  | "Integer" => some (.cls (.rfc1155, 288))
  | "OctetString" => some (.cls (.rfc1155, 513))
  | "ObjectID" => some (.cls (.rfc1155, 550))
  | "Null" => some (.cls (.rfc1155, 762))
  | "Sequence" => some (.cls (.rfc1155, 785))
  | "SequenceOf" => some (.cls (.rfc1155, 855))
  | "IPAddress" => some (.cls (.rfc1155, 889))
  | "NetworkAddress" => some (.cls (.rfc1155, 943))
  | "Counter" => some (.cls (.rfc1155, 952))
  | "Guage" => some (.cls (.rfc1155, 996))
  | "TimeTicks" => some (.cls (.rfc1155, 1033))
  | "Opaque" => some (.cls (.rfc1155, 1065))
  | "DecodeError" => some (.cls (.rfc1155, 1075))
  | "tagDecodeDict" => some (.registry)
  | "ErrorStatus" => some (.cls (.rfc1157, 20))
  | "VarBind" => some (.cls (.rfc1157, 58))
  | "VarBindList" => some (.cls (.rfc1157, 76))
  | "Message" => some (.cls (.rfc1157, 87))
  | "MessageError" => some (.cls (.rfc1157, 128))
  | "PDU" => some (.cls (.rfc1157, 133))
  | "PDUError" => some (.cls (.rfc1157, 168))
  | "Get" => some (.cls (.rfc1157, 173))
  | "GetNext" => some (.cls (.rfc1157, 179))
  | "Response" => some (.cls (.rfc1157, 185))
  | "Set" => some (.cls (.rfc1157, 191))
  | "GenericTrap" => some (.cls (.rfc1157, 197))
  | "TrapPDU" => some (.cls (.rfc1157, 227))
  | _ => none

def globals_rfc1902 : String → Option V
  | "copy" => some (.builtin "copy")
  | "logging" => some (.builtin "logging")
  | "reduce" => some (.builtin "reduce")
  | "util" => some (.mod .util)
  | "log" => some (.logger)
  | "Asn1Object" => some (.cls (.rfc1155, 64))
  | "Integer" => some (.cls (.rfc1155, 288))
  | "OctetString" => some (.cls (.rfc1902, 55))
  | "ObjectID" => some (.cls (.rfc1155, 550))
  | "Null" => some (.cls (.rfc1155, 762))
  | "Sequence" => some (.cls (.rfc1155, 785))
  | "SequenceOf" => some (.cls (.rfc1155, 855))
  | "IPAddress" => some (.cls (.rfc1155, 889))
  | "NetworkAddress" => some (.cls (.rfc1155, 943))
  | "Counter" => some (.cls (.rfc1155, 952))
  | "Guage" => some (.cls (.rfc1155, 996))
  | "TimeTicks" => some (.cls (.rfc1155, 1033))
  | "Opaque" => some (.cls (.rfc1155, 1065))
  | "DecodeError" => some (.cls (.rfc1155, 1075))
  | "tagDecodeDict" => some (.registry)
  | "Integer32" => some (.cls (.rfc1902, 27))
  | "Counter32" => some (.cls (.rfc1902, 34))
  | "Guage32" => some (.cls (.rfc1902, 40))
  | "Counter64" => some (.cls (.rfc1902, 46))
  | _ => none

def globals_rfc1905 : String → Option V
  | "rfc1157" => some (.mod .rfc1157)
  | "copy" => some (.builtin "copy")
  | "logging" => some (.builtin "logging")
  | "reduce" => some (.builtin "reduce")
  | "util" => some (.mod .util)
  | "log" => some (.logger)
  | "Asn1Object" => some (.cls (.rfc1155, 64))
  | "Integer" => some (.cls (.rfc1155, 288))
  | "OctetString" => some (.cls (.rfc1902, 55))
  | "ObjectID" => some (.cls (.rfc1155, 550))
  | "Null" => some (.cls (.rfc1155, 762))
  | "Sequence" => some (.cls (.rfc1155, 785))
  | "SequenceOf" => some (.cls (.rfc1155, 855))
  | "IPAddress" => some (.cls (.rfc1155, 889))
  | "NetworkAddress" => some (.cls (.rfc1155, 943))
  | "Counter" => some (.cls (.rfc1155, 952))
  | "Guage" => some (.cls (.rfc1155, 996))
  | "TimeTicks" => some (.cls (.rfc1155, 1033))
  | "Opaque" => some (.cls (.rfc1155, 1065))
  | "DecodeError" => some (.cls (.rfc1155, 1075))
  | "tagDecodeDict" => some (.registry)
  | "Integer32" => some (.cls (.rfc1902, 27))
  | "Counter32" => some (.cls (.rfc1902, 34))
  | "Guage32" => some (.cls (.rfc1902, 40))
  | "Counter64" => some (.cls (.rfc1902, 46))
  | "max_bindings" => some (.int 2147483647)
  | "VarBind" => some (.cls (.rfc1905, 22))
  | "NoSuchObject" => some (.cls (.rfc1905, 30))
  | "NoSuchInstance" => some (.cls (.rfc1905, 36))
  | "EndOfMibView" => some (.cls (.rfc1905, 42))
  | "VarBindList" => some (.cls (.rfc1905, 48))
  | "Message" => some (.cls (.rfc1905, 58))
  | "ErrorStatus" => some (.cls (.rfc1905, 64))
  | "PDU" => some (.cls (.rfc1905, 100))
  | "BulkPDU" => some (.cls (.rfc1905, 137))
  | "Get" => some (.cls (.rfc1905, 179))
  | "GetNext" => some (.cls (.rfc1905, 185))
  | "Response" => some (.cls (.rfc1905, 191))
  | "Set" => some (.cls (.rfc1905, 197))
  | "GetBulk" => some (.cls (.rfc1905, 203))
  | "Inform" => some (.cls (.rfc1905, 209))
  | "TrapV2" => some (.cls (.rfc1905, 215))
  | "Report" => some (.cls (.rfc1905, 221))
  | "PDUError" => some (.cls (.rfc1905, 227))
  | _ => none

def globals_role : String → Option V
  | "logging" => some (.builtin "logging")
  | "socket" => some (.ext "socket")
  | "log" => some (.logger)
  | "manager" => some (.cls (.role, 13))
  | _ => none

def globals_asynrole : String → Option V
  | "asyncore" => some (.ext "asyncore")
  | "sys" => some (.ext "sys")
  | "role" => some (.mod .role)
  | "Manager" => some (.cls (.asynrole, 13))
  | _ => none

def globals_v1 : String → Option V
  | "queue" => some (.builtin "queue")
  | "time" => some (.ext "time")
  | "asynrole" => some (.mod .asynrole)
  | "logging" => some (.builtin "logging")
  | "log" => some (.logger)
  | "copy" => some (.builtin "copy")
  | "reduce" => some (.builtin "reduce")
  | "util" => some (.mod .util)
  | "Asn1Object" => some (.cls (.rfc1155, 64))
  | "Integer" => some (.cls (.rfc1155, 288))
  | "OctetString" => some (.cls (.rfc1155, 513))
  | "ObjectID" => some (.cls (.rfc1155, 550))
  | "Null" => some (.cls (.rfc1155, 762))
  | "Sequence" => some (.cls (.rfc1155, 785))
  | "SequenceOf" => some (.cls (.rfc1155, 855))
  | "IPAddress" => some (.cls (.rfc1155, 889))
  | "NetworkAddress" => some (.cls (.rfc1155, 943))
  | "Counter" => some (.cls (.rfc1155, 952))
  | "Guage" => some (.cls (.rfc1155, 996))
  | "TimeTicks" => some (.cls (.rfc1155, 1033))
  | "Opaque" => some (.cls (.rfc1155, 1065))
  | "DecodeError" => some (.cls (.rfc1155, 1075))
  | "tagDecodeDict" => some (.registry)
  | "ErrorStatus" => some (.cls (.rfc1157, 20))
  | "VarBind" => some (.cls (.rfc1157, 58))
  | "VarBindList" => some (.cls (.rfc1157, 76))
  | "Message" => some (.cls (.rfc1157, 87))
  | "MessageError" => some (.cls (.rfc1157, 128))
  | "PDU" => some (.cls (.rfc1157, 133))
  | "PDUError" => some (.cls (.rfc1157, 168))
  | "Get" => some (.cls (.rfc1157, 173))
  | "GetNext" => some (.cls (.rfc1157, 179))
  | "Response" => some (.cls (.rfc1157, 185))
  | "Set" => some (.cls (.rfc1157, 191))
  | "GenericTrap" => some (.cls (.rfc1157, 197))
  | "TrapPDU" => some (.cls (.rfc1157, 227))
  | "SNMP" => some (.cls (.v1, 19))
  | _ => none

def globals_v2 : String → Option V
  | "logging" => some (.builtin "logging")
  | "traceback" => some (.ext "traceback")
  | "rfc1155" => some (.mod .rfc1155)
  | "rfc1157" => some (.mod .rfc1157)
  | "rfc1905" => some (.mod .rfc1905)
  | "v1" => some (.mod .v1)
  | "log" => some (.logger)
  | "SNMP" => some (.cls (.v2, 24))
  | _ => none

def globals_snmpmanager : String → Option V
  | "logging" => some (.builtin "logging")
  | "queue" => some (.builtin "queue")
  | "asynrole" => some (.mod .asynrole)
  | "rfc1157" => some (.mod .rfc1157)
  | "rfc1905" => some (.mod .rfc1905)
  | "v1" => some (.mod .v1)
  | "v2" => some (.mod .v2)
  | "log" => some (.logger)
  | "typeValDict" => some (.ref 9)
  | "snmpManager" => some (.cls (.snmpmanager, 37))
  | _ => none

/-- The global names of the modules (dictionaries left out: only class bodies use them). -/
def globals : Module → String → Option V
  | .util => globals_util
  | .rfc1155 => globals_rfc1155
  | .rfc1157 => globals_rfc1157
  | .rfc1902 => globals_rfc1902
  | .rfc1905 => globals_rfc1905
  | .role => globals_role
  | .asynrole => globals_asynrole
  | .v1 => globals_v1
  | .v2 => globals_v2
  | .snmpmanager => globals_snmpmanager
  | _ => fun _ => none

def program : Program := ⟨code, classes, globals⟩

/-! ## Objects made when the modules are imported: mutable defaults and class attributes -/

def statics : Heap :=
  [ -- 0: rfc1155.py:794, Sequence.value
   .list [],
    -- 1: rfc1157.py:24, ErrorStatus.errString
   .dict [(.int 0, .str (lit "No Error")),
      (.int 1, .str (lit "Response message would have been too large")),
      (.int 2, .str (lit "There is no such variable name in this MIB")),
      (.int 3, .str (lit "The value given has the wrong type")),
      (.int 4, .str (lit "Object is Read Only")),
      (.int 5, .str (lit "An unknown error occurred"))],
    -- 2: rfc1157.py:33, ErrorStatus.errNum
   .dict [(.str (lit "noError"), .int 0),
      (.str (lit "tooBig"), .int 1),
      (.str (lit "noSuchName"), .int 2),
      (.str (lit "badValue"), .int 3),
      (.str (lit "readOnly"), .int 4),
      (.str (lit "genErr"), .int 5)],
    -- 3: rfc1157.py:80, default of __init__
   .list [],
    -- 4: rfc1157.py:138, default of __init__
   .list [],
    -- 5: rfc1157.py:201, GenericTrap.genericTraps
   .dict [(.int 0, .str (lit "coldStart")),
      (.int 1, .str (lit "warmStart")),
      (.int 2, .str (lit "linkDown")),
      (.int 3, .str (lit "linkUp")),
      (.int 4, .str (lit "authenticationFailure")),
      (.int 5, .str (lit "egpNeighborLoss")),
      (.int 6, .str (lit "enterpriseSpecific"))],
    -- 6: rfc1905.py:52, default of __init__
   .list [],
    -- 7: rfc1905.py:105, default of __init__
   .list [],
    -- 8: rfc1905.py:144, default of __init__
   .list [],
    -- 9: snmpmanager.py:24, typeValDict
   .dict [(.str (lit "i"), .int 2),
      (.str (lit "s"), .int 4),
      (.str (lit "o"), .int 6),
      (.str (lit "t"), .int 67),
      (.str (lit "a"), .int 64),
      (.str (lit "c"), .int 65),
      (.str (lit "C"), .int 70)] ]

end Libsnmp.Src
