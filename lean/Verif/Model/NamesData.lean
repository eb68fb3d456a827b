import Verif.Model.Names

/-!
# The names of the package, as its source has them

Generated by tools/extract_names.py from the text of /repo/lib/libsnmp/*.py: every statement at the top level of each module
except documentation strings, with the line numbers of classes, functions and data; every name that a function body takes
from its module; every attribute of a package module and every attribute of `self` that a function body uses.
-/

namespace Libsnmp.Names

/-- The top level of each module, in order. -/
def body : Module → List Stmt
  | .util => -- lib/libsnmp/util.py
   [.func 9 "octetsToHex", .func 20 "octetsToOct"]
  | .debug => -- lib/libsnmp/debug.py
   [.importExt "logging", .importExt "os", .cls 9 "snmpLogger" [.attr "logging" "Logger"] [("__init__", .func 11)],
    .use ["snmpLogger", "logging"]]
  | .role => -- lib/libsnmp/role.py
   [.importExt "logging", .importExt "socket", .compute 10 "log" ["logging"],
    .cls 13 "manager" []
      [("__init__", .func 15), ("__del__", .func 25), ("get_socket", .func 29), ("open", .func 32),
       ("send", .func 40), ("read", .func 47), ("close", .func 55)]]
  | .asynrole => -- lib/libsnmp/asynrole.py
   [.importExt "asyncore", .importExt "sys", .importMod .role,
    .cls 13 "Manager" [.attr "asyncore" "dispatcher"]
      [("__init__", .func 15), ("send", .func 33), ("handle_read", .func 37), ("writable", .func 42),
       ("handle_connect", .func 45), ("handle_close", .func 48), ("handle_error", .func 52), ("poll", .func 65)]]
  | .rfc1155 => -- lib/libsnmp/rfc1155.py
   [.importExt "copy", .importExt "logging", .importExt "reduce", .importMod .util, .compute 22 "log" ["logging"],
    .use ["log", "logging"],
    .dict 34 "asnTagClasses" [("UNIVERSAL", 0), ("APPLICATION", 64), ("CONTEXT", 128), ("PRIVATE", 192)],
    .dict 41 "asnTagFormats" [("PRIMITIVE", 0), ("CONSTRUCTED", 32)],
    .dict 46 "asnTagNumbers" [("Integer", 2), ("OctetString", 4), ("Null", 5), ("ObjectID", 6), ("Sequence", 16), ("IPAddress", 0), ("Counter", 1), ("Guage", 2), ("TimeTicks", 3), ("Opaque", 4)],
    .cls 64 "Asn1Object" []
      [("asnTagClass", .val (.item "asnTagClasses" "UNIVERSAL")),
       ("asnTagFormat", .val (.item "asnTagFormats" "PRIMITIVE")), ("asnTagNumber", .val (.other)),
       ("value", .val (.other)), ("__init__", .func 79), ("encode", .func 82), ("decodeTag", .func 99),
       ("decodeLength", .func 126), ("decode", .func 150), ("encodeContents", .func 182),
       ("encodeIdentifier", .func 189), ("encodeLength", .func 219), ("encodeEndOfContents", .func 257),
       ("__eq__", .func 262), ("__ne__", .func 274), ("toObjectID", .func 282)],
    .cls 288 "Integer" [.name "Asn1Object"]
      [("asnTagClass", .val (.item "asnTagClasses" "UNIVERSAL")),
       ("asnTagNumber", .val (.item "asnTagNumbers" "Integer")), ("MINVAL", .val (.num (-2147483648))),
       ("MAXVAL", .val (.num 2147483647)), ("__init__", .func 297), ("__str__", .func 307), ("__int__", .func 310),
       ("__float__", .func 313), ("__long__", .func 316), ("__hex__", .func 319), ("__oct__", .func 322),
       ("__call__", .func 325), ("__eq__", .func 331), ("__add__", .func 341), ("__sub__", .func 349),
       ("__hash__", .func 354), ("encodeContents", .func 360), ("decodeContents", .func 401),
       ("decodeTwosInteger1", .func 436), ("decodeTwosInteger2", .func 452), ("decodeTwosInteger3", .func 480),
       ("toObjectID", .func 507)],
    .cls 513 "OctetString" [.name "Asn1Object"]
      [("asnTagClass", .val (.item "asnTagClasses" "UNIVERSAL")),
       ("asnTagNumber", .val (.item "asnTagNumbers" "OctetString")), ("__init__", .func 519), ("__str__", .func 524),
       ("encodeContents", .func 527), ("decodeContents", .func 532), ("__hex__", .func 538), ("__oct__", .func 541),
       ("toObjectID", .func 544)],
    .cls 550 "ObjectID" [.name "Asn1Object"]
      [("asnTagClass", .val (.item "asnTagClasses" "UNIVERSAL")),
       ("asnTagFormat", .val (.item "asnTagFormats" "PRIMITIVE")),
       ("asnTagNumber", .val (.item "asnTagNumbers" "ObjectID")), ("__init__", .func 557), ("__str__", .func 595),
       ("__len__", .func 604), ("__getitem__", .func 614), ("__delitem__", .func 621), ("copy", .func 625),
       ("append", .func 631), ("extend", .func 638), ("isPrefixOf", .func 646), ("encodeContents", .func 663),
       ("decodeContents", .func 696), ("toObjectID", .func 756)],
    .cls 762 "Null" [.name "Asn1Object"]
      [("asnTagClass", .val (.item "asnTagClasses" "UNIVERSAL")),
       ("asnTagFormat", .val (.item "asnTagFormats" "PRIMITIVE")),
       ("asnTagNumber", .val (.item "asnTagNumbers" "Null")), ("__str__", .func 769), ("encodeContents", .func 772),
       ("decodeContents", .func 775)],
    .cls 785 "Sequence" [.name "Asn1Object"]
      [("asnTagClass", .val (.item "asnTagClasses" "UNIVERSAL")),
       ("asnTagFormat", .val (.item "asnTagFormats" "CONSTRUCTED")),
       ("asnTagNumber", .val (.item "asnTagNumbers" "Sequence")), ("value", .val (.other)), ("__init__", .func 796),
       ("__str__", .func 803), ("__len__", .func 815), ("__getitem__", .func 818), ("append", .func 824),
       ("encodeContents", .func 827), ("decodeContents", .func 842)],
    .cls 855 "SequenceOf" [.name "Sequence"]
      [("asnTagClass", .val (.item "asnTagClasses" "UNIVERSAL")),
       ("asnTagFormat", .val (.item "asnTagFormats" "CONSTRUCTED")),
       ("asnTagNumber", .val (.item "asnTagNumbers" "Sequence")), ("__init__", .func 864), ("append", .func 879)],
    .cls 889 "IPAddress" [.name "OctetString"]
      [("asnTagClass", .val (.item "asnTagClasses" "APPLICATION")),
       ("asnTagFormat", .val (.item "asnTagFormats" "PRIMITIVE")),
       ("asnTagNumber", .val (.item "asnTagNumbers" "IPAddress")), ("__init__", .func 898),
       ("decodeContents", .func 921), ("__str__", .func 928), ("toObjectID", .func 937)],
    .cls 943 "NetworkAddress" [.name "IPAddress"] [("name", .val (.other))],
    .cls 952 "Counter" [.name "Integer"]
      [("asnTagClass", .val (.item "asnTagClasses" "APPLICATION")),
       ("asnTagFormat", .val (.item "asnTagFormats" "PRIMITIVE")),
       ("asnTagNumber", .val (.item "asnTagNumbers" "Counter")), ("MINVAL", .val (.num 0)),
       ("MAXVAL", .val (.num 4294967295)), ("__add__", .func 964), ("decodeContents", .func 977)],
    .cls 996 "Guage" [.name "Integer"]
      [("asnTagClass", .val (.item "asnTagClasses" "APPLICATION")),
       ("asnTagFormat", .val (.item "asnTagFormats" "PRIMITIVE")),
       ("asnTagNumber", .val (.item "asnTagNumbers" "Guage")), ("MINVAL", .val (.num 0)),
       ("MAXVAL", .val (.num 4294967295)), ("__add__", .func 1008), ("__sub__", .func 1019)],
    .cls 1033 "TimeTicks" [.name "Integer"]
      [("asnTagClass", .val (.item "asnTagClasses" "APPLICATION")),
       ("asnTagFormat", .val (.item "asnTagFormats" "PRIMITIVE")),
       ("asnTagNumber", .val (.item "asnTagNumbers" "TimeTicks")), ("MINVAL", .val (.num 0)),
       ("MAXVAL", .val (.num 4294967295)), ("epoch", .val (.other)), ("__init__", .func 1047),
       ("_todo__str__", .func 1056)],
    .cls 1065 "Opaque" [.name "OctetString"] [],
    .cls 1075 "DecodeError" [.name "Exception"] [("__init__", .func 1076)],
    .registry "tagDecodeDict" [(2, .name "Integer"), (4, .name "OctetString"), (5, .name "Null"), (6, .name "ObjectID"), (48, .name "Sequence"), (64, .name "IPAddress"), (65, .name "Counter"), (66, .name "Guage"), (67, .name "TimeTicks"), (68, .name "Opaque")]]
  | .rfc1157 => -- lib/libsnmp/rfc1157.py
   [.importExt "logging", .compute 9 "log" ["logging"], .star .rfc1155, .setKey "asnTagNumbers" "Get" 0,
    .setKey "asnTagNumbers" "GetNext" 1, .setKey "asnTagNumbers" "Response" 2, .setKey "asnTagNumbers" "Set" 3,
    .setKey "asnTagNumbers" "Trap" 4,
    .cls 20 "ErrorStatus" [.name "Integer"]
      [("errString", .val (.other)), ("errNum", .val (.other)), ("__str__", .func 42), ("enum", .func 47)],
    .cls 58 "VarBind" [.name "Sequence"] [("__init__", .func 63)],
    .cls 76 "VarBindList" [.name "SequenceOf"] [("__init__", .func 80)],
    .cls 87 "Message" [.name "Sequence"]
      [("__init__", .func 91), ("__str__", .func 97), ("encodeContents", .func 103), ("decode", .func 110)],
    .cls 128 "MessageError" [.name "Exception"] [("__init__", .func 129)],
    .cls 133 "PDU" [.name "Sequence"]
      [("asnTagClass", .val (.item "asnTagClasses" "CONTEXT")), ("__init__", .func 138),
       ("decodeContents", .func 153)],
    .cls 168 "PDUError" [.name "Exception"] [("__init__", .func 169)],
    .cls 173 "Get" [.name "PDU"] [("asnTagNumber", .val (.item "asnTagNumbers" "Get"))],
    .cls 179 "GetNext" [.name "PDU"] [("asnTagNumber", .val (.item "asnTagNumbers" "GetNext"))],
    .cls 185 "Response" [.name "PDU"] [("asnTagNumber", .val (.item "asnTagNumbers" "Get"))],
    .cls 191 "Set" [.name "PDU"] [("asnTagNumber", .val (.item "asnTagNumbers" "Set"))],
    .cls 197 "GenericTrap" [.name "Integer"]
      [("genericTraps", .val (.other)), ("__str__", .func 211), ("enum", .func 216)],
    .cls 227 "TrapPDU" [.name "Sequence"]
      [("asnTagClass", .val (.item "asnTagClasses" "CONTEXT")),
       ("asnTagNumber", .val (.item "asnTagNumbers" "Trap")), ("__init__", .func 233), ("decodeContents", .func 255)],
    .setTag "tagDecodeDict" 160 (.name "Get"), .setTag "tagDecodeDict" 161 (.name "GetNext"),
    .setTag "tagDecodeDict" 162 (.name "Response"), .setTag "tagDecodeDict" 163 (.name "Set"),
    .setTag "tagDecodeDict" 164 (.name "TrapPDU")]
  | .rfc1902 => -- lib/libsnmp/rfc1902.py
   [.star .rfc1155, .compute 11 "log" ["logging"], .use ["log", "logging"], .setKey "asnTagNumbers" "Counter64" 6,
    .cls 27 "Integer32" [.name "Integer"] [("MINVAL", .val (.num (-2147483648))), ("MAXVAL", .val (.num 2147483648))],
    .cls 34 "Counter32" [.name "Counter"] [], .cls 40 "Guage32" [.name "Guage"] [],
    .cls 46 "Counter64" [.name "Counter"]
      [("MINVAL", .val (.num 0)), ("MAXVAL", .val (.num 18446744073709551615)),
       ("asnTagClass", .val (.item "asnTagNumbers" "Counter64"))],
    .cls 55 "OctetString" [.name "OctetString"] [("__init__", .func 60)],
    .setTag "tagDecodeDict" 2 (.name "Integer32"), .setTag "tagDecodeDict" 65 (.name "Counter32"),
    .setTag "tagDecodeDict" 66 (.name "Guage32"), .setTag "tagDecodeDict" 70 (.name "Counter64")]
  | .rfc1905 => -- lib/libsnmp/rfc1905.py
   [.importMod .rfc1157, .star .rfc1902, .compute 12 "log" ["logging"], .setKey "asnTagNumbers" "GetBulk" 5,
    .setKey "asnTagNumbers" "Inform" 6, .setKey "asnTagNumbers" "TrapV2" 7, .setKey "asnTagNumbers" "Report" 8,
    .assign "max_bindings" (.num 2147483647), .cls 22 "VarBind" [.attr "rfc1157" "VarBind"] [],
    .cls 30 "NoSuchObject" [.attr "rfc1157" "Null"] [("__str__", .func 32)],
    .cls 36 "NoSuchInstance" [.attr "rfc1157" "Null"] [("__str__", .func 38)],
    .cls 42 "EndOfMibView" [.attr "rfc1157" "Null"] [("__str__", .func 44)],
    .cls 48 "VarBindList" [.attr "rfc1157" "VarBindList"] [("__init__", .func 52)],
    .cls 58 "Message" [.attr "rfc1157" "Message"] [("__init__", .func 60)],
    .cls 64 "ErrorStatus" [.attr "rfc1157" "ErrorStatus"] [("__init__", .func 68)],
    .cls 100 "PDU" [.attr "rfc1157" "PDU"] [("asnTagClass", .val (.item "asnTagClasses" "CONTEXT")), ("__init__", .func 105)],
    .cls 137 "BulkPDU" [.name "Sequence"]
      [("asnTagClass", .val (.item "asnTagClasses" "CONTEXT")), ("__init__", .func 144),
       ("decodeContents", .func 164)],
    .cls 179 "Get" [.name "PDU"] [("asnTagNumber", .val (.item "asnTagNumbers" "Get"))],
    .cls 185 "GetNext" [.name "PDU"] [("asnTagNumber", .val (.item "asnTagNumbers" "GetNext"))],
    .cls 191 "Response" [.name "PDU"] [("asnTagNumber", .val (.item "asnTagNumbers" "Response"))],
    .cls 197 "Set" [.name "PDU"] [("asnTagNumber", .val (.item "asnTagNumbers" "Set"))],
    .cls 203 "GetBulk" [.name "BulkPDU"] [("asnTagNumber", .val (.item "asnTagNumbers" "GetBulk"))],
    .cls 209 "Inform" [.name "PDU"] [("asnTagNumber", .val (.item "asnTagNumbers" "Inform"))],
    .cls 215 "TrapV2" [.name "PDU"] [("asnTagNumber", .val (.item "asnTagNumbers" "TrapV2"))],
    .cls 221 "Report" [.name "PDU"] [("asnTagNumber", .val (.item "asnTagNumbers" "Report"))],
    .cls 227 "PDUError" [.name "Exception"] [("__init__", .func 228)],
    .setTag "tagDecodeDict" 162 (.name "Response"), .setTag "tagDecodeDict" 165 (.name "GetBulk"),
    .setTag "tagDecodeDict" 166 (.name "Inform"), .setTag "tagDecodeDict" 167 (.name "TrapV2"),
    .setTag "tagDecodeDict" 168 (.name "Report"), .setTag "tagDecodeDict" 128 (.name "NoSuchObject"),
    .setTag "tagDecodeDict" 129 (.name "NoSuchInstance"), .setTag "tagDecodeDict" 130 (.name "EndOfMibView")]
  | .v1 => -- lib/libsnmp/v1.py
   [.importExt "queue", .importExt "time", .importMod .asynrole, .star .rfc1157, .compute 15 "log" ["logging"],
    .use ["log", "logging"],
    .cls 19 "SNMP" [.attr "asynrole" "Manager"]
      [("nextRequestID", .val (.num 0)), ("__init__", .func 22), ("assignRequestID", .func 47),
       ("createGetRequestPDU", .func 54), ("createGetNextRequestPDU", .func 59),
       ("createGetRequestMessage", .func 64), ("createGetNextRequestMessage", .func 74),
       ("createTrapMessage", .func 81), ("createTrapPDU", .func 87), ("snmpGet", .func 103),
       ("snmpGetNext", .func 118), ("snmpSet", .func 133), ("snmpTrap", .func 151),
       ("createSetRequestMessage", .func 158), ("receiveData", .func 163), ("enterpriseOID", .func 210),
       ("run", .func 216), ("getSysUptime", .func 236)]]
  | .v2 => -- lib/libsnmp/v2.py
   [.importExt "logging", .importExt "traceback", .importMod .rfc1155, .importMod .rfc1157, .importMod .rfc1905,
    .importMod .v1, .compute 19 "log" ["logging"], .use ["log", "logging"],
    .cls 24 "SNMP" [.attr "v1" "SNMP"]
      [("createGetRequestPDU", .func 26), ("createGetNextRequestPDU", .func 31),
       ("createGetRequestMessage", .func 36), ("createGetNextRequestMessage", .func 52),
       ("createTrapMessage", .func 59), ("createTrap", .func 65), ("snmpGet", .func 80), ("snmpGetNext", .func 96),
       ("snmpSet", .func 111), ("snmpTrap", .func 129), ("createSetRequestMessage", .func 136),
       ("receiveData", .func 141)]]
  | .snmpmanager => -- lib/libsnmp/snmpmanager.py
   [.importExt "logging", .importExt "queue", .importMod .asynrole, .importMod .rfc1157, .importMod .rfc1905,
    .importMod .v1, .importMod .v2, .compute 20 "log" ["logging"],
    .dict 24 "typeValDict" [("i", 2), ("s", 4), ("o", 6), ("t", 67), ("a", 64), ("c", 65), ("C", 70)],
    .cls 37 "snmpManager" [.attr "asynrole" "Manager"]
      [("nextRequestID", .val (.num 0)), ("__init__", .func 40), ("assignRequestID", .func 63),
       ("createGetRequestPDU", .func 70), ("createGetNextRequestPDU", .func 81), ("createSetRequestPDU", .func 92),
       ("createGetRequestMessage", .func 103), ("createGetNextRequestMessage", .func 126),
       ("createSetRequestMessage", .func 138), ("createTrapMessage", .func 161), ("createTrapPDU", .func 170),
       ("snmpGet", .func 199), ("snmpGetNext", .func 215), ("snmpSet", .func 230), ("snmpTrap", .func 247),
       ("receiveData", .func 254), ("handleV1Message", .func 284), ("handleV2Message", .func 300),
       ("enterpriseOID", .func 316), ("run", .func 322), ("getSysUptime", .func 344), ("typeSetter", .func 361)]]

/-- Names that function bodies of the module take from the module or from the built-ins, with the first line. -/
def globalUses : Module → List (Nat × String)
  | .util =>
   [(16, "ord"), (27, "oct")]
  | .debug =>
   [(12, "os"), (14, "str"), (15, "logging")]
  | .role =>
   [(34, "socket"), (49, "ValueError")]
  | .asynrole =>
   [(18, "callable"), (19, "ValueError"), (26, "asyncore"), (28, "role"), (54, "sys"), (56, "issubclass"),
    (56, "type")]
  | .rfc1155 =>
   [(90, "len"), (104, "ord"), (141, "range"), (160, "str"), (160, "type"), (161, "TypeError"),
    (173, "tagDecodeDict"), (174, "KeyError"), (175, "ValueError"), (187, "NotImplementedError"), (195, "chr"),
    (237, "log"), (268, "isinstance"), (298, "Asn1Object"), (311, "int"), (314, "float"), (320, "hex"), (323, "oct"),
    (384, "map"), (408, "list"), (410, "util"), (448, "reduce"), (508, "ObjectID"), (521, "copy"), (581, "tuple"),
    (865, "Sequence"), (899, "OctetString"), (979, "Integer")]
  | .rfc1157 =>
   [(65, "ObjectID"), (65, "isinstance"), (66, "ValueError"), (68, "Asn1Object"), (73, "Sequence"),
    (81, "SequenceOf"), (81, "VarBind"), (93, "Integer"), (94, "OctetString"), (114, "len"), (115, "MessageError"),
    (147, "ErrorStatus"), (149, "VarBindList"), (158, "PDUError"), (165, "int"), (268, "GenericTrap")]
  | .rfc1902 =>
   [(61, "len"), (62, "ValueError"), (64, "OctetString")]
  | .rfc1905 =>
   [(53, "len"), (53, "max_bindings"), (54, "ValueError"), (55, "rfc1157"), (111, "Integer32"), (112, "ErrorStatus"),
    (113, "Integer"), (114, "VarBindList"), (145, "Sequence"), (169, "PDUError"), (174, "VarBind"), (176, "int")]
  | .v1 =>
   [(30, "queue"), (37, "asynrole"), (56, "Get"), (61, "GetNext"), (68, "ObjectID"), (69, "Null"), (70, "VarBind"),
    (70, "VarBindList"), (72, "Message"), (94, "NetworkAddress"), (95, "GenericTrap"), (96, "Integer"),
    (97, "TimeTicks"), (99, "TrapPDU"), (115, "int"), (182, "log"), (187, "ValueError"), (190, "PDU"),
    (190, "isinstance"), (205, "Exception"), (234, "time"), (245, "open"), (246, "float")]
  | .v2 =>
   [(28, "rfc1905"), (44, "rfc1155"), (46, "rfc1157"), (93, "int"), (160, "log"), (168, "ValueError"),
    (171, "isinstance"), (186, "Exception"), (189, "traceback")]
  | .snmpmanager =>
   [(46, "queue"), (53, "asynrole"), (74, "rfc1157"), (77, "rfc1905"), (122, "ValueError"), (166, "v1"), (168, "v2"),
    (280, "log"), (287, "isinstance"), (353, "open"), (354, "float"), (354, "int"), (368, "typeValDict")]

/-- `module.name` in function bodies, for modules of the package, with the first line. -/
def moduleUses : Module → List (Nat × String × String)
  | .util => []
  | .debug => []
  | .role => []
  | .asynrole =>
   [(28, "role", "manager")]
  | .rfc1155 =>
   [(410, "util", "octetsToHex")]
  | .rfc1157 => []
  | .rfc1902 => []
  | .rfc1905 =>
   [(55, "rfc1157", "VarBindList"), (61, "rfc1157", "Message"), (69, "rfc1157", "ErrorStatus"),
    (106, "rfc1157", "PDU")]
  | .v1 =>
   [(37, "asynrole", "Manager")]
  | .v2 =>
   [(28, "rfc1905", "Get"), (33, "rfc1905", "GetNext"), (44, "rfc1155", "ObjectID"), (45, "rfc1155", "Null"),
    (46, "rfc1157", "VarBind"), (48, "rfc1905", "VarBindList"), (50, "rfc1905", "Message"),
    (72, "rfc1155", "NetworkAddress"), (73, "rfc1157", "GenericTrap"), (74, "rfc1155", "Integer"),
    (75, "rfc1155", "TimeTicks"), (77, "rfc1157", "TrapPDU"), (119, "rfc1157", "GetNextRequestPDU"),
    (171, "rfc1157", "PDU")]
  | .snmpmanager =>
   [(53, "asynrole", "Manager"), (74, "rfc1157", "Get"), (77, "rfc1905", "Get"), (85, "rfc1157", "GetNext"),
    (88, "rfc1905", "GetNext"), (96, "rfc1157", "Set"), (99, "rfc1905", "Set"), (108, "rfc1157", "ObjectID"),
    (109, "rfc1157", "Null"), (110, "rfc1157", "VarBind"), (110, "rfc1157", "VarBindList"),
    (112, "rfc1157", "Message"), (115, "rfc1905", "ObjectID"), (116, "rfc1905", "Null"), (117, "rfc1905", "VarBind"),
    (117, "rfc1905", "VarBindList"), (119, "rfc1905", "Message"), (144, "rfc1157", "tagDecodeDict"),
    (151, "rfc1905", "tagDecodeDict"), (166, "v1", "createTrapMessage"), (168, "v2", "createTrapMessage"),
    (181, "rfc1157", "NetworkAddress"), (182, "rfc1157", "GenericTrap"), (183, "rfc1157", "Integer"),
    (184, "rfc1157", "TimeTicks"), (185, "rfc1157", "TrapPDU"), (190, "rfc1905", "NetworkAddress"),
    (192, "rfc1905", "Integer"), (193, "rfc1905", "TimeTicks"), (287, "rfc1157", "PDU"), (303, "rfc1905", "PDU"),
    (309, "rfc1905", "TrapPDU")]

/-- Of each class (by the line of its class statement): attributes of `self` that its methods read or call, with the first line,
and those they assign. -/
def selfUses : Module → List (Nat × List (Nat × String) × List String)
  | .util => []
  | .debug =>
   [(9, [(21, "addHandler")], [])]
  | .role =>
   [(13, [(26, "close"), (30, "socket"), (35, "interface"), (36, "socksize"), (42, "open")], ["dest", "interface", "request_id", "socket", "socksize"])]
  | .asynrole =>
   [(13, [(30, "manager"), (30, "set_socket"), (39, "cb_ctx"), (39, "cb_fun"), (66, "timeout")], ["cb_ctx", "cb_fun", "manager", "timeout"])]
  | .rfc1155 =>
   [(64, [(86, "encodeContents"), (89, "encodeIdentifier"), (90, "encodeLength"), (166, "decodeTag"), (167, "decodeLength"), (194, "asnTagNumber"), (195, "asnTagClass"), (195, "asnTagFormat"), (268, "__class__"), (268, "value")], []),
    (288, [(299, "MAXVAL"), (299, "MINVAL"), (308, "value"), (344, "__class__")], ["value"]),
    (513, [(525, "value")], ["value"]), (550, [(574, "value"), (639, "__class__")], ["value"]),
    (762, [(777, "__class__")], []), (785, [(806, "value"), (846, "decode")], ["value"]),
    (855, [(874, "append"), (880, "componentType"), (882, "__class__")], ["componentType", "value"]),
    (889, [(930, "value")], ["value"]), (952, [(970, "MAXVAL"), (970, "value")], ["value"]),
    (996, [(1012, "__class__"), (1012, "value"), (1023, "MINVAL")], ["value"]), (1033, [], ["epoch"]),
    (1075, [], ["args"])]
  | .rfc1157 =>
   [(20, [(45, "errString"), (45, "value"), (55, "errNum")], []),
    (58, [(73, "objectID"), (73, "objectValue")], ["objectID", "objectValue"]),
    (87, [(98, "version"), (99, "community"), (100, "data"), (105, "value")], ["community", "data", "value", "version"]),
    (128, [], ["args"]),
    (133, [(151, "errorIndex"), (151, "errorStatus"), (151, "requestID"), (151, "varBindList"), (157, "value"), (165, "__class__")], ["errorIndex", "errorStatus", "requestID", "value", "varBindList"]),
    (168, [], ["args"]), (197, [(214, "__class__"), (214, "genericTraps"), (214, "value")], []),
    (227, [(245, "enterprise"), (245, "value"), (246, "agentAddr"), (247, "genericTrap"), (248, "specificTrap"), (249, "timestamp"), (250, "varBindList"), (268, "__class__")], ["agentAddr", "enterprise", "genericTrap", "specificTrap", "timestamp", "value", "varBindList"])]
  | .rfc1902 => []
  | .rfc1905 =>
   [(64, [(71, "errString"), (85, "errNum")], []),
    (100, [(117, "requestID"), (118, "errorStatus"), (119, "errorIndex"), (120, "varBindList")], ["errorIndex", "errorStatus", "requestID", "value", "varBindList"]),
    (137, [(158, "requestID"), (159, "nonRepeaters"), (160, "maxRepetitions"), (161, "varBindList"), (168, "value"), (176, "__class__")], ["maxRepetitions", "nonRepeaters", "requestID", "value", "varBindList"]),
    (227, [], ["args"])]
  | .v1 =>
   [(19, [(37, "receiveData"), (50, "nextRequestID"), (55, "assignRequestID"), (71, "createGetRequestPDU"), (78, "createGetNextRequestPDU"), (93, "getsockname"), (97, "getSysUptime"), (109, "createGetRequestMessage"), (112, "outbound"), (115, "callbacks"), (124, "createGetNextRequestMessage"), (154, "createTrapMessage"), (199, "trapCallback"), (224, "send"), (227, "queueEmpty"), (232, "poll")], ["callbacks", "nextRequestID", "outbound", "queueEmpty", "trapCallback"])]
  | .v2 =>
   [(24, [(27, "assignRequestID"), (49, "createGetRequestPDU"), (56, "createGetNextRequest"), (71, "getsockname"), (75, "getSysUptime"), (86, "createGetRequestMessage"), (90, "outbound"), (93, "callbacks"), (102, "createGetNextRequestMessage"), (132, "createTrapMessage"), (180, "trapCallback")], [])]
  | .snmpmanager =>
   [(37, [(53, "receiveData"), (66, "nextRequestID"), (71, "assignRequestID"), (111, "createGetRequestPDU"), (130, "createGetNextRequestPDU"), (146, "createSetRequestPDU"), (176, "getsockname"), (184, "getSysUptime"), (205, "createGetRequestMessage"), (208, "outbound"), (211, "callbacks"), (221, "createGetNextRequestMessage"), (238, "createSetRequestMessage"), (250, "createTrapMessage"), (273, "handleV1Message"), (277, "handleV2Message"), (294, "trapCallback"), (330, "poll"), (334, "send"), (337, "queueEmpty")], ["callbacks", "nextRequestID", "outbound", "queueEmpty", "trapCallback"])]

/-- CPython 3.11, asyncore.py: the attributes of `dispatcher` objects. -/
def dispatcherAttrs : List String :=
  ["__init__", "__repr__", "_fileno", "_map", "accept", "accepting", "add_channel", "addr", "bind", "close",
   "closing", "connect", "connected", "connecting", "create_socket", "debug", "del_channel", "family_and_type",
   "handle_accept", "handle_accepted", "handle_close", "handle_connect", "handle_connect_event", "handle_error",
   "handle_expt", "handle_expt_event", "handle_read", "handle_read_event", "handle_write", "handle_write_event",
   "ignore_log_types", "listen", "log", "log_info", "readable", "recv", "send", "set_reuse_addr", "set_socket",
   "socket", "writable"]

/-- Built-in names (those the package uses). -/
def builtinNames : List String :=
  ["Exception", "KeyError", "NotImplementedError", "TypeError", "ValueError", "callable", "chr", "float", "hex",
   "int", "isinstance", "issubclass", "len", "list", "map", "oct", "open", "ord", "range", "str", "tuple", "type"]

end Libsnmp.Names
