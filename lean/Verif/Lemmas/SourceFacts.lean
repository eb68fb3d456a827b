import Verif.Lemmas.Interp

/-!
# Facts about the source text, by evaluation

Generated by tools/extract_source.py: what each global name in a function body is, the local names at the start of each call,
the pieces of each format.
-/

namespace Libsnmp.Src
open Libsnmp

variable {cfg : Cfg}

/-! ## Global names -/

@[src] theorem glob_asynrole_ValueError : program.glob cfg .asynrole "ValueError" = some (.builtin "ValueError") := rfl
@[src] theorem glob_asynrole_asyncore : program.glob cfg .asynrole "asyncore" = some (.ext "asyncore") := rfl
@[src] theorem glob_asynrole_callable : program.glob cfg .asynrole "callable" = some (.builtin "callable") := rfl
@[src] theorem glob_asynrole_issubclass : program.glob cfg .asynrole "issubclass" = some (.builtin "issubclass") := rfl
@[src] theorem glob_asynrole_role : program.glob cfg .asynrole "role" = some (.mod .role) := rfl
@[src] theorem glob_asynrole_sys : program.glob cfg .asynrole "sys" = some (.ext "sys") := rfl
@[src] theorem glob_asynrole_type : program.glob cfg .asynrole "type" = some (.builtin "type") := rfl
@[src] theorem glob_rfc1155_Asn1Object : program.glob cfg .rfc1155 "Asn1Object" = some (.cls (.rfc1155, 64)) := rfl
@[src] theorem glob_rfc1155_Integer : program.glob cfg .rfc1155 "Integer" = some (.cls (.rfc1155, 288)) := rfl
@[src] theorem glob_rfc1155_NotImplementedError : program.glob cfg .rfc1155 "NotImplementedError" = some (.builtin "NotImplementedError") := rfl
@[src] theorem glob_rfc1155_ObjectID : program.glob cfg .rfc1155 "ObjectID" = some (.cls (.rfc1155, 550)) := rfl
@[src] theorem glob_rfc1155_OctetString : program.glob cfg .rfc1155 "OctetString" = some (.cls (.rfc1155, 513)) := rfl
@[src] theorem glob_rfc1155_Sequence : program.glob cfg .rfc1155 "Sequence" = some (.cls (.rfc1155, 785)) := rfl
@[src] theorem glob_rfc1155_TypeError : program.glob cfg .rfc1155 "TypeError" = some (.builtin "TypeError") := rfl
@[src] theorem glob_rfc1155_ValueError : program.glob cfg .rfc1155 "ValueError" = some (.builtin "ValueError") := rfl
@[src] theorem glob_rfc1155_debug : program.glob cfg .rfc1155 "__debug__" = some (.bool cfg.debug) := rfl
@[src] theorem glob_rfc1155_chr : program.glob cfg .rfc1155 "chr" = some (.builtin "chr") := rfl
@[src] theorem glob_rfc1155_copy : program.glob cfg .rfc1155 "copy" = some (.builtin "copy") := rfl
@[src] theorem glob_rfc1155_float : program.glob cfg .rfc1155 "float" = some (.builtin "float") := rfl
@[src] theorem glob_rfc1155_hex : program.glob cfg .rfc1155 "hex" = some (.builtin "hex") := rfl
@[src] theorem glob_rfc1155_int : program.glob cfg .rfc1155 "int" = some (.builtin "int") := rfl
@[src] theorem glob_rfc1155_isinstance : program.glob cfg .rfc1155 "isinstance" = some (.builtin "isinstance") := rfl
@[src] theorem glob_rfc1155_len : program.glob cfg .rfc1155 "len" = some (.builtin "len") := rfl
@[src] theorem glob_rfc1155_list : program.glob cfg .rfc1155 "list" = some (.builtin "list") := rfl
@[src] theorem glob_rfc1155_log : program.glob cfg .rfc1155 "log" = some (.logger) := rfl
@[src] theorem glob_rfc1155_map : program.glob cfg .rfc1155 "map" = some (.builtin "map") := rfl
@[src] theorem glob_rfc1155_oct : program.glob cfg .rfc1155 "oct" = some (.builtin "oct") := rfl
@[src] theorem glob_rfc1155_ord : program.glob cfg .rfc1155 "ord" = some (.builtin "ord") := rfl
@[src] theorem glob_rfc1155_range : program.glob cfg .rfc1155 "range" = some (.builtin "range") := rfl
@[src] theorem glob_rfc1155_reduce : program.glob cfg .rfc1155 "reduce" = some (.builtin "reduce") := rfl
@[src] theorem glob_rfc1155_str : program.glob cfg .rfc1155 "str" = some (.builtin "str") := rfl
@[src] theorem glob_rfc1155_tagDecodeDict : program.glob cfg .rfc1155 "tagDecodeDict" = some (.registry) := rfl
@[src] theorem glob_rfc1155_tuple : program.glob cfg .rfc1155 "tuple" = some (.builtin "tuple") := rfl
@[src] theorem glob_rfc1155_type : program.glob cfg .rfc1155 "type" = some (.builtin "type") := rfl
@[src] theorem glob_rfc1155_util : program.glob cfg .rfc1155 "util" = some (.mod .util) := rfl
@[src] theorem glob_rfc1157_Asn1Object : program.glob cfg .rfc1157 "Asn1Object" = some (.cls (.rfc1155, 64)) := rfl
@[src] theorem glob_rfc1157_ErrorStatus : program.glob cfg .rfc1157 "ErrorStatus" = some (.cls (.rfc1157, 20)) := rfl
@[src] theorem glob_rfc1157_GenericTrap : program.glob cfg .rfc1157 "GenericTrap" = some (.cls (.rfc1157, 197)) := rfl
@[src] theorem glob_rfc1157_Integer : program.glob cfg .rfc1157 "Integer" = some (.cls (.rfc1155, 288)) := rfl
@[src] theorem glob_rfc1157_MessageError : program.glob cfg .rfc1157 "MessageError" = some (.cls (.rfc1157, 128)) := rfl
@[src] theorem glob_rfc1157_ObjectID : program.glob cfg .rfc1157 "ObjectID" = some (.cls (.rfc1155, 550)) := rfl
@[src] theorem glob_rfc1157_OctetString : program.glob cfg .rfc1157 "OctetString" = some (.cls (.rfc1155, 513)) := rfl
@[src] theorem glob_rfc1157_PDUError : program.glob cfg .rfc1157 "PDUError" = some (.cls (.rfc1157, 168)) := rfl
@[src] theorem glob_rfc1157_Sequence : program.glob cfg .rfc1157 "Sequence" = some (.cls (.rfc1155, 785)) := rfl
@[src] theorem glob_rfc1157_SequenceOf : program.glob cfg .rfc1157 "SequenceOf" = some (.cls (.rfc1155, 855)) := rfl
@[src] theorem glob_rfc1157_ValueError : program.glob cfg .rfc1157 "ValueError" = some (.builtin "ValueError") := rfl
@[src] theorem glob_rfc1157_VarBind : program.glob cfg .rfc1157 "VarBind" = some (.cls (.rfc1157, 58)) := rfl
@[src] theorem glob_rfc1157_VarBindList : program.glob cfg .rfc1157 "VarBindList" = some (.cls (.rfc1157, 76)) := rfl
@[src] theorem glob_rfc1157_int : program.glob cfg .rfc1157 "int" = some (.builtin "int") := rfl
@[src] theorem glob_rfc1157_isinstance : program.glob cfg .rfc1157 "isinstance" = some (.builtin "isinstance") := rfl
@[src] theorem glob_rfc1157_len : program.glob cfg .rfc1157 "len" = some (.builtin "len") := rfl
@[src] theorem glob_rfc1902_OctetString : program.glob cfg .rfc1902 "OctetString" = some (.cls (.rfc1902, 55)) := rfl
@[src] theorem glob_rfc1902_ValueError : program.glob cfg .rfc1902 "ValueError" = some (.builtin "ValueError") := rfl
@[src] theorem glob_rfc1902_len : program.glob cfg .rfc1902 "len" = some (.builtin "len") := rfl
@[src] theorem glob_rfc1905_ErrorStatus : program.glob cfg .rfc1905 "ErrorStatus" = some (.cls (.rfc1905, 64)) := rfl
@[src] theorem glob_rfc1905_Integer : program.glob cfg .rfc1905 "Integer" = some (.cls (.rfc1155, 288)) := rfl
@[src] theorem glob_rfc1905_Integer32 : program.glob cfg .rfc1905 "Integer32" = some (.cls (.rfc1902, 27)) := rfl
@[src] theorem glob_rfc1905_PDUError : program.glob cfg .rfc1905 "PDUError" = some (.cls (.rfc1905, 227)) := rfl
@[src] theorem glob_rfc1905_Sequence : program.glob cfg .rfc1905 "Sequence" = some (.cls (.rfc1155, 785)) := rfl
@[src] theorem glob_rfc1905_ValueError : program.glob cfg .rfc1905 "ValueError" = some (.builtin "ValueError") := rfl
@[src] theorem glob_rfc1905_VarBind : program.glob cfg .rfc1905 "VarBind" = some (.cls (.rfc1905, 22)) := rfl
@[src] theorem glob_rfc1905_VarBindList : program.glob cfg .rfc1905 "VarBindList" = some (.cls (.rfc1905, 48)) := rfl
@[src] theorem glob_rfc1905_int : program.glob cfg .rfc1905 "int" = some (.builtin "int") := rfl
@[src] theorem glob_rfc1905_len : program.glob cfg .rfc1905 "len" = some (.builtin "len") := rfl
@[src] theorem glob_rfc1905_max_bindings : program.glob cfg .rfc1905 "max_bindings" = some (.int 2147483647) := rfl
@[src] theorem glob_rfc1905_rfc1157 : program.glob cfg .rfc1905 "rfc1157" = some (.mod .rfc1157) := rfl
@[src] theorem glob_role_ValueError : program.glob cfg .role "ValueError" = some (.builtin "ValueError") := rfl
@[src] theorem glob_role_socket : program.glob cfg .role "socket" = some (.ext "socket") := rfl
@[src] theorem glob_snmpmanager_ValueError : program.glob cfg .snmpmanager "ValueError" = some (.builtin "ValueError") := rfl
@[src] theorem glob_snmpmanager_asynrole : program.glob cfg .snmpmanager "asynrole" = some (.mod .asynrole) := rfl
@[src] theorem glob_snmpmanager_float : program.glob cfg .snmpmanager "float" = some (.builtin "float") := rfl
@[src] theorem glob_snmpmanager_int : program.glob cfg .snmpmanager "int" = some (.builtin "int") := rfl
@[src] theorem glob_snmpmanager_isinstance : program.glob cfg .snmpmanager "isinstance" = some (.builtin "isinstance") := rfl
@[src] theorem glob_snmpmanager_log : program.glob cfg .snmpmanager "log" = some (.logger) := rfl
@[src] theorem glob_snmpmanager_open : program.glob cfg .snmpmanager "open" = some (.ext "open") := rfl
@[src] theorem glob_snmpmanager_queue : program.glob cfg .snmpmanager "queue" = some (.builtin "queue") := rfl
@[src] theorem glob_snmpmanager_rfc1157 : program.glob cfg .snmpmanager "rfc1157" = some (.mod .rfc1157) := rfl
@[src] theorem glob_snmpmanager_rfc1905 : program.glob cfg .snmpmanager "rfc1905" = some (.mod .rfc1905) := rfl
@[src] theorem glob_snmpmanager_typeValDict : program.glob cfg .snmpmanager "typeValDict" = some (.ref 9) := rfl
@[src] theorem glob_snmpmanager_v1 : program.glob cfg .snmpmanager "v1" = some (.mod .v1) := rfl
@[src] theorem glob_snmpmanager_v2 : program.glob cfg .snmpmanager "v2" = some (.mod .v2) := rfl
@[src] theorem glob_util_oct : program.glob cfg .util "oct" = some (.builtin "oct") := rfl
@[src] theorem glob_util_ord : program.glob cfg .util "ord" = some (.builtin "ord") := rfl
@[src] theorem glob_v1_GenericTrap : program.glob cfg .v1 "GenericTrap" = some (.cls (.rfc1157, 197)) := rfl
@[src] theorem glob_v1_Get : program.glob cfg .v1 "Get" = some (.cls (.rfc1157, 173)) := rfl
@[src] theorem glob_v1_GetNext : program.glob cfg .v1 "GetNext" = some (.cls (.rfc1157, 179)) := rfl
@[src] theorem glob_v1_Integer : program.glob cfg .v1 "Integer" = some (.cls (.rfc1155, 288)) := rfl
@[src] theorem glob_v1_Message : program.glob cfg .v1 "Message" = some (.cls (.rfc1157, 87)) := rfl
@[src] theorem glob_v1_NetworkAddress : program.glob cfg .v1 "NetworkAddress" = some (.cls (.rfc1155, 943)) := rfl
@[src] theorem glob_v1_Null : program.glob cfg .v1 "Null" = some (.cls (.rfc1155, 762)) := rfl
@[src] theorem glob_v1_ObjectID : program.glob cfg .v1 "ObjectID" = some (.cls (.rfc1155, 550)) := rfl
@[src] theorem glob_v1_PDU : program.glob cfg .v1 "PDU" = some (.cls (.rfc1157, 133)) := rfl
@[src] theorem glob_v1_TimeTicks : program.glob cfg .v1 "TimeTicks" = some (.cls (.rfc1155, 1033)) := rfl
@[src] theorem glob_v1_TrapPDU : program.glob cfg .v1 "TrapPDU" = some (.cls (.rfc1157, 227)) := rfl
@[src] theorem glob_v1_ValueError : program.glob cfg .v1 "ValueError" = some (.builtin "ValueError") := rfl
@[src] theorem glob_v1_VarBind : program.glob cfg .v1 "VarBind" = some (.cls (.rfc1157, 58)) := rfl
@[src] theorem glob_v1_VarBindList : program.glob cfg .v1 "VarBindList" = some (.cls (.rfc1157, 76)) := rfl
@[src] theorem glob_v1_debug : program.glob cfg .v1 "__debug__" = some (.bool cfg.debug) := rfl
@[src] theorem glob_v1_asynrole : program.glob cfg .v1 "asynrole" = some (.mod .asynrole) := rfl
@[src] theorem glob_v1_float : program.glob cfg .v1 "float" = some (.builtin "float") := rfl
@[src] theorem glob_v1_int : program.glob cfg .v1 "int" = some (.builtin "int") := rfl
@[src] theorem glob_v1_isinstance : program.glob cfg .v1 "isinstance" = some (.builtin "isinstance") := rfl
@[src] theorem glob_v1_log : program.glob cfg .v1 "log" = some (.logger) := rfl
@[src] theorem glob_v1_open : program.glob cfg .v1 "open" = some (.ext "open") := rfl
@[src] theorem glob_v1_queue : program.glob cfg .v1 "queue" = some (.builtin "queue") := rfl
@[src] theorem glob_v1_time : program.glob cfg .v1 "time" = some (.ext "time") := rfl
@[src] theorem glob_v2_ValueError : program.glob cfg .v2 "ValueError" = some (.builtin "ValueError") := rfl
@[src] theorem glob_v2_debug : program.glob cfg .v2 "__debug__" = some (.bool cfg.debug) := rfl
@[src] theorem glob_v2_int : program.glob cfg .v2 "int" = some (.builtin "int") := rfl
@[src] theorem glob_v2_isinstance : program.glob cfg .v2 "isinstance" = some (.builtin "isinstance") := rfl
@[src] theorem glob_v2_log : program.glob cfg .v2 "log" = some (.logger) := rfl
@[src] theorem glob_v2_rfc1155 : program.glob cfg .v2 "rfc1155" = some (.mod .rfc1155) := rfl
@[src] theorem glob_v2_rfc1157 : program.glob cfg .v2 "rfc1157" = some (.mod .rfc1157) := rfl
@[src] theorem glob_v2_rfc1905 : program.glob cfg .v2 "rfc1905" = some (.mod .rfc1905) := rfl
@[src] theorem glob_v2_traceback : program.glob cfg .v2 "traceback" = some (.ext "traceback") := rfl
@[src] theorem globals_util_octetsToHex : program.globals .util "octetsToHex" = some (.func .util 9) := rfl
@[src] theorem globals_util_octetsToOct : program.globals .util "octetsToOct" = some (.func .util 20) := rfl
@[src] theorem globals_rfc1155_copy : program.globals .rfc1155 "copy" = some (.builtin "copy") := rfl
@[src] theorem globals_rfc1155_logging : program.globals .rfc1155 "logging" = some (.builtin "logging") := rfl
@[src] theorem globals_rfc1155_reduce : program.globals .rfc1155 "reduce" = some (.builtin "reduce") := rfl
@[src] theorem globals_rfc1155_util : program.globals .rfc1155 "util" = some (.mod .util) := rfl
@[src] theorem globals_rfc1155_log : program.globals .rfc1155 "log" = some (.logger) := rfl
@[src] theorem globals_rfc1155_Asn1Object : program.globals .rfc1155 "Asn1Object" = some (.cls (.rfc1155, 64)) := rfl
@[src] theorem globals_rfc1155_Integer : program.globals .rfc1155 "Integer" = some (.cls (.rfc1155, 288)) := rfl
@[src] theorem globals_rfc1155_OctetString : program.globals .rfc1155 "OctetString" = some (.cls (.rfc1155, 513)) := rfl
@[src] theorem globals_rfc1155_ObjectID : program.globals .rfc1155 "ObjectID" = some (.cls (.rfc1155, 550)) := rfl
@[src] theorem globals_rfc1155_Null : program.globals .rfc1155 "Null" = some (.cls (.rfc1155, 762)) := rfl
@[src] theorem globals_rfc1155_Sequence : program.globals .rfc1155 "Sequence" = some (.cls (.rfc1155, 785)) := rfl
@[src] theorem globals_rfc1155_SequenceOf : program.globals .rfc1155 "SequenceOf" = some (.cls (.rfc1155, 855)) := rfl
@[src] theorem globals_rfc1155_IPAddress : program.globals .rfc1155 "IPAddress" = some (.cls (.rfc1155, 889)) := rfl
@[src] theorem globals_rfc1155_NetworkAddress : program.globals .rfc1155 "NetworkAddress" = some (.cls (.rfc1155, 943)) := rfl
@[src] theorem globals_rfc1155_Counter : program.globals .rfc1155 "Counter" = some (.cls (.rfc1155, 952)) := rfl
@[src] theorem globals_rfc1155_Guage : program.globals .rfc1155 "Guage" = some (.cls (.rfc1155, 996)) := rfl
@[src] theorem globals_rfc1155_TimeTicks : program.globals .rfc1155 "TimeTicks" = some (.cls (.rfc1155, 1033)) := rfl
@[src] theorem globals_rfc1155_Opaque : program.globals .rfc1155 "Opaque" = some (.cls (.rfc1155, 1065)) := rfl
@[src] theorem globals_rfc1155_DecodeError : program.globals .rfc1155 "DecodeError" = some (.cls (.rfc1155, 1075)) := rfl
@[src] theorem globals_rfc1155_tagDecodeDict : program.globals .rfc1155 "tagDecodeDict" = some (.registry) := rfl
@[src] theorem globals_rfc1157_logging : program.globals .rfc1157 "logging" = some (.builtin "logging") := rfl
@[src] theorem globals_rfc1157_log : program.globals .rfc1157 "log" = some (.logger) := rfl
@[src] theorem globals_rfc1157_copy : program.globals .rfc1157 "copy" = some (.builtin "copy") := rfl
@[src] theorem globals_rfc1157_reduce : program.globals .rfc1157 "reduce" = some (.builtin "reduce") := rfl
@[src] theorem globals_rfc1157_util : program.globals .rfc1157 "util" = some (.mod .util) := rfl
@[src] theorem globals_rfc1157_Asn1Object : program.globals .rfc1157 "Asn1Object" = some (.cls (.rfc1155, 64)) := rfl
@[src] theorem globals_rfc1157_Integer : program.globals .rfc1157 "Integer" = some (.cls (.rfc1155, 288)) := rfl
@[src] theorem globals_rfc1157_OctetString : program.globals .rfc1157 "OctetString" = some (.cls (.rfc1155, 513)) := rfl
@[src] theorem globals_rfc1157_ObjectID : program.globals .rfc1157 "ObjectID" = some (.cls (.rfc1155, 550)) := rfl
@[src] theorem globals_rfc1157_Null : program.globals .rfc1157 "Null" = some (.cls (.rfc1155, 762)) := rfl
@[src] theorem globals_rfc1157_Sequence : program.globals .rfc1157 "Sequence" = some (.cls (.rfc1155, 785)) := rfl
@[src] theorem globals_rfc1157_SequenceOf : program.globals .rfc1157 "SequenceOf" = some (.cls (.rfc1155, 855)) := rfl
@[src] theorem globals_rfc1157_IPAddress : program.globals .rfc1157 "IPAddress" = some (.cls (.rfc1155, 889)) := rfl
@[src] theorem globals_rfc1157_NetworkAddress : program.globals .rfc1157 "NetworkAddress" = some (.cls (.rfc1155, 943)) := rfl
@[src] theorem globals_rfc1157_Counter : program.globals .rfc1157 "Counter" = some (.cls (.rfc1155, 952)) := rfl
@[src] theorem globals_rfc1157_Guage : program.globals .rfc1157 "Guage" = some (.cls (.rfc1155, 996)) := rfl
@[src] theorem globals_rfc1157_TimeTicks : program.globals .rfc1157 "TimeTicks" = some (.cls (.rfc1155, 1033)) := rfl
@[src] theorem globals_rfc1157_Opaque : program.globals .rfc1157 "Opaque" = some (.cls (.rfc1155, 1065)) := rfl
@[src] theorem globals_rfc1157_DecodeError : program.globals .rfc1157 "DecodeError" = some (.cls (.rfc1155, 1075)) := rfl
@[src] theorem globals_rfc1157_tagDecodeDict : program.globals .rfc1157 "tagDecodeDict" = some (.registry) := rfl
@[src] theorem globals_rfc1157_ErrorStatus : program.globals .rfc1157 "ErrorStatus" = some (.cls (.rfc1157, 20)) := rfl
@[src] theorem globals_rfc1157_VarBind : program.globals .rfc1157 "VarBind" = some (.cls (.rfc1157, 58)) := rfl
@[src] theorem globals_rfc1157_VarBindList : program.globals .rfc1157 "VarBindList" = some (.cls (.rfc1157, 76)) := rfl
@[src] theorem globals_rfc1157_Message : program.globals .rfc1157 "Message" = some (.cls (.rfc1157, 87)) := rfl
@[src] theorem globals_rfc1157_MessageError : program.globals .rfc1157 "MessageError" = some (.cls (.rfc1157, 128)) := rfl
@[src] theorem globals_rfc1157_PDU : program.globals .rfc1157 "PDU" = some (.cls (.rfc1157, 133)) := rfl
@[src] theorem globals_rfc1157_PDUError : program.globals .rfc1157 "PDUError" = some (.cls (.rfc1157, 168)) := rfl
@[src] theorem globals_rfc1157_Get : program.globals .rfc1157 "Get" = some (.cls (.rfc1157, 173)) := rfl
@[src] theorem globals_rfc1157_GetNext : program.globals .rfc1157 "GetNext" = some (.cls (.rfc1157, 179)) := rfl
@[src] theorem globals_rfc1157_Response : program.globals .rfc1157 "Response" = some (.cls (.rfc1157, 185)) := rfl
@[src] theorem globals_rfc1157_Set : program.globals .rfc1157 "Set" = some (.cls (.rfc1157, 191)) := rfl
@[src] theorem globals_rfc1157_GenericTrap : program.globals .rfc1157 "GenericTrap" = some (.cls (.rfc1157, 197)) := rfl
@[src] theorem globals_rfc1157_TrapPDU : program.globals .rfc1157 "TrapPDU" = some (.cls (.rfc1157, 227)) := rfl
@[src] theorem globals_rfc1905_rfc1157 : program.globals .rfc1905 "rfc1157" = some (.mod .rfc1157) := rfl
@[src] theorem globals_rfc1905_copy : program.globals .rfc1905 "copy" = some (.builtin "copy") := rfl
@[src] theorem globals_rfc1905_logging : program.globals .rfc1905 "logging" = some (.builtin "logging") := rfl
@[src] theorem globals_rfc1905_reduce : program.globals .rfc1905 "reduce" = some (.builtin "reduce") := rfl
@[src] theorem globals_rfc1905_util : program.globals .rfc1905 "util" = some (.mod .util) := rfl
@[src] theorem globals_rfc1905_log : program.globals .rfc1905 "log" = some (.logger) := rfl
@[src] theorem globals_rfc1905_Asn1Object : program.globals .rfc1905 "Asn1Object" = some (.cls (.rfc1155, 64)) := rfl
@[src] theorem globals_rfc1905_Integer : program.globals .rfc1905 "Integer" = some (.cls (.rfc1155, 288)) := rfl
@[src] theorem globals_rfc1905_OctetString : program.globals .rfc1905 "OctetString" = some (.cls (.rfc1902, 55)) := rfl
@[src] theorem globals_rfc1905_ObjectID : program.globals .rfc1905 "ObjectID" = some (.cls (.rfc1155, 550)) := rfl
@[src] theorem globals_rfc1905_Null : program.globals .rfc1905 "Null" = some (.cls (.rfc1155, 762)) := rfl
@[src] theorem globals_rfc1905_Sequence : program.globals .rfc1905 "Sequence" = some (.cls (.rfc1155, 785)) := rfl
@[src] theorem globals_rfc1905_SequenceOf : program.globals .rfc1905 "SequenceOf" = some (.cls (.rfc1155, 855)) := rfl
@[src] theorem globals_rfc1905_IPAddress : program.globals .rfc1905 "IPAddress" = some (.cls (.rfc1155, 889)) := rfl
@[src] theorem globals_rfc1905_NetworkAddress : program.globals .rfc1905 "NetworkAddress" = some (.cls (.rfc1155, 943)) := rfl
@[src] theorem globals_rfc1905_Counter : program.globals .rfc1905 "Counter" = some (.cls (.rfc1155, 952)) := rfl
@[src] theorem globals_rfc1905_Guage : program.globals .rfc1905 "Guage" = some (.cls (.rfc1155, 996)) := rfl
@[src] theorem globals_rfc1905_TimeTicks : program.globals .rfc1905 "TimeTicks" = some (.cls (.rfc1155, 1033)) := rfl
@[src] theorem globals_rfc1905_Opaque : program.globals .rfc1905 "Opaque" = some (.cls (.rfc1155, 1065)) := rfl
@[src] theorem globals_rfc1905_DecodeError : program.globals .rfc1905 "DecodeError" = some (.cls (.rfc1155, 1075)) := rfl
@[src] theorem globals_rfc1905_tagDecodeDict : program.globals .rfc1905 "tagDecodeDict" = some (.registry) := rfl
@[src] theorem globals_rfc1905_Integer32 : program.globals .rfc1905 "Integer32" = some (.cls (.rfc1902, 27)) := rfl
@[src] theorem globals_rfc1905_Counter32 : program.globals .rfc1905 "Counter32" = some (.cls (.rfc1902, 34)) := rfl
@[src] theorem globals_rfc1905_Guage32 : program.globals .rfc1905 "Guage32" = some (.cls (.rfc1902, 40)) := rfl
@[src] theorem globals_rfc1905_Counter64 : program.globals .rfc1905 "Counter64" = some (.cls (.rfc1902, 46)) := rfl
@[src] theorem globals_rfc1905_max_bindings : program.globals .rfc1905 "max_bindings" = some (.int 2147483647) := rfl
@[src] theorem globals_rfc1905_VarBind : program.globals .rfc1905 "VarBind" = some (.cls (.rfc1905, 22)) := rfl
@[src] theorem globals_rfc1905_NoSuchObject : program.globals .rfc1905 "NoSuchObject" = some (.cls (.rfc1905, 30)) := rfl
@[src] theorem globals_rfc1905_NoSuchInstance : program.globals .rfc1905 "NoSuchInstance" = some (.cls (.rfc1905, 36)) := rfl
@[src] theorem globals_rfc1905_EndOfMibView : program.globals .rfc1905 "EndOfMibView" = some (.cls (.rfc1905, 42)) := rfl
@[src] theorem globals_rfc1905_VarBindList : program.globals .rfc1905 "VarBindList" = some (.cls (.rfc1905, 48)) := rfl
@[src] theorem globals_rfc1905_Message : program.globals .rfc1905 "Message" = some (.cls (.rfc1905, 58)) := rfl
@[src] theorem globals_rfc1905_ErrorStatus : program.globals .rfc1905 "ErrorStatus" = some (.cls (.rfc1905, 64)) := rfl
@[src] theorem globals_rfc1905_PDU : program.globals .rfc1905 "PDU" = some (.cls (.rfc1905, 100)) := rfl
@[src] theorem globals_rfc1905_BulkPDU : program.globals .rfc1905 "BulkPDU" = some (.cls (.rfc1905, 137)) := rfl
@[src] theorem globals_rfc1905_Get : program.globals .rfc1905 "Get" = some (.cls (.rfc1905, 179)) := rfl
@[src] theorem globals_rfc1905_GetNext : program.globals .rfc1905 "GetNext" = some (.cls (.rfc1905, 185)) := rfl
@[src] theorem globals_rfc1905_Response : program.globals .rfc1905 "Response" = some (.cls (.rfc1905, 191)) := rfl
@[src] theorem globals_rfc1905_Set : program.globals .rfc1905 "Set" = some (.cls (.rfc1905, 197)) := rfl
@[src] theorem globals_rfc1905_GetBulk : program.globals .rfc1905 "GetBulk" = some (.cls (.rfc1905, 203)) := rfl
@[src] theorem globals_rfc1905_Inform : program.globals .rfc1905 "Inform" = some (.cls (.rfc1905, 209)) := rfl
@[src] theorem globals_rfc1905_TrapV2 : program.globals .rfc1905 "TrapV2" = some (.cls (.rfc1905, 215)) := rfl
@[src] theorem globals_rfc1905_Report : program.globals .rfc1905 "Report" = some (.cls (.rfc1905, 221)) := rfl
@[src] theorem globals_rfc1905_PDUError : program.globals .rfc1905 "PDUError" = some (.cls (.rfc1905, 227)) := rfl
@[src] theorem globals_role_logging : program.globals .role "logging" = some (.builtin "logging") := rfl
@[src] theorem globals_role_socket : program.globals .role "socket" = some (.ext "socket") := rfl
@[src] theorem globals_role_log : program.globals .role "log" = some (.logger) := rfl
@[src] theorem globals_role_manager : program.globals .role "manager" = some (.cls (.role, 13)) := rfl
@[src] theorem globals_asynrole_asyncore : program.globals .asynrole "asyncore" = some (.ext "asyncore") := rfl
@[src] theorem globals_asynrole_sys : program.globals .asynrole "sys" = some (.ext "sys") := rfl
@[src] theorem globals_asynrole_role : program.globals .asynrole "role" = some (.mod .role) := rfl
@[src] theorem globals_asynrole_Manager : program.globals .asynrole "Manager" = some (.cls (.asynrole, 13)) := rfl
@[src] theorem globals_v1_queue : program.globals .v1 "queue" = some (.builtin "queue") := rfl
@[src] theorem globals_v1_time : program.globals .v1 "time" = some (.ext "time") := rfl
@[src] theorem globals_v1_asynrole : program.globals .v1 "asynrole" = some (.mod .asynrole) := rfl
@[src] theorem globals_v1_logging : program.globals .v1 "logging" = some (.builtin "logging") := rfl
@[src] theorem globals_v1_log : program.globals .v1 "log" = some (.logger) := rfl
@[src] theorem globals_v1_copy : program.globals .v1 "copy" = some (.builtin "copy") := rfl
@[src] theorem globals_v1_reduce : program.globals .v1 "reduce" = some (.builtin "reduce") := rfl
@[src] theorem globals_v1_util : program.globals .v1 "util" = some (.mod .util) := rfl
@[src] theorem globals_v1_Asn1Object : program.globals .v1 "Asn1Object" = some (.cls (.rfc1155, 64)) := rfl
@[src] theorem globals_v1_Integer : program.globals .v1 "Integer" = some (.cls (.rfc1155, 288)) := rfl
@[src] theorem globals_v1_OctetString : program.globals .v1 "OctetString" = some (.cls (.rfc1155, 513)) := rfl
@[src] theorem globals_v1_ObjectID : program.globals .v1 "ObjectID" = some (.cls (.rfc1155, 550)) := rfl
@[src] theorem globals_v1_Null : program.globals .v1 "Null" = some (.cls (.rfc1155, 762)) := rfl
@[src] theorem globals_v1_Sequence : program.globals .v1 "Sequence" = some (.cls (.rfc1155, 785)) := rfl
@[src] theorem globals_v1_SequenceOf : program.globals .v1 "SequenceOf" = some (.cls (.rfc1155, 855)) := rfl
@[src] theorem globals_v1_IPAddress : program.globals .v1 "IPAddress" = some (.cls (.rfc1155, 889)) := rfl
@[src] theorem globals_v1_NetworkAddress : program.globals .v1 "NetworkAddress" = some (.cls (.rfc1155, 943)) := rfl
@[src] theorem globals_v1_Counter : program.globals .v1 "Counter" = some (.cls (.rfc1155, 952)) := rfl
@[src] theorem globals_v1_Guage : program.globals .v1 "Guage" = some (.cls (.rfc1155, 996)) := rfl
@[src] theorem globals_v1_TimeTicks : program.globals .v1 "TimeTicks" = some (.cls (.rfc1155, 1033)) := rfl
@[src] theorem globals_v1_Opaque : program.globals .v1 "Opaque" = some (.cls (.rfc1155, 1065)) := rfl
@[src] theorem globals_v1_DecodeError : program.globals .v1 "DecodeError" = some (.cls (.rfc1155, 1075)) := rfl
@[src] theorem globals_v1_tagDecodeDict : program.globals .v1 "tagDecodeDict" = some (.registry) := rfl
@[src] theorem globals_v1_ErrorStatus : program.globals .v1 "ErrorStatus" = some (.cls (.rfc1157, 20)) := rfl
@[src] theorem globals_v1_VarBind : program.globals .v1 "VarBind" = some (.cls (.rfc1157, 58)) := rfl
@[src] theorem globals_v1_VarBindList : program.globals .v1 "VarBindList" = some (.cls (.rfc1157, 76)) := rfl
@[src] theorem globals_v1_Message : program.globals .v1 "Message" = some (.cls (.rfc1157, 87)) := rfl
@[src] theorem globals_v1_MessageError : program.globals .v1 "MessageError" = some (.cls (.rfc1157, 128)) := rfl
@[src] theorem globals_v1_PDU : program.globals .v1 "PDU" = some (.cls (.rfc1157, 133)) := rfl
@[src] theorem globals_v1_PDUError : program.globals .v1 "PDUError" = some (.cls (.rfc1157, 168)) := rfl
@[src] theorem globals_v1_Get : program.globals .v1 "Get" = some (.cls (.rfc1157, 173)) := rfl
@[src] theorem globals_v1_GetNext : program.globals .v1 "GetNext" = some (.cls (.rfc1157, 179)) := rfl
@[src] theorem globals_v1_Response : program.globals .v1 "Response" = some (.cls (.rfc1157, 185)) := rfl
@[src] theorem globals_v1_Set : program.globals .v1 "Set" = some (.cls (.rfc1157, 191)) := rfl
@[src] theorem globals_v1_GenericTrap : program.globals .v1 "GenericTrap" = some (.cls (.rfc1157, 197)) := rfl
@[src] theorem globals_v1_TrapPDU : program.globals .v1 "TrapPDU" = some (.cls (.rfc1157, 227)) := rfl
@[src] theorem globals_v1_SNMP : program.globals .v1 "SNMP" = some (.cls (.v1, 19)) := rfl
@[src] theorem globals_v2_logging : program.globals .v2 "logging" = some (.builtin "logging") := rfl
@[src] theorem globals_v2_traceback : program.globals .v2 "traceback" = some (.ext "traceback") := rfl
@[src] theorem globals_v2_rfc1155 : program.globals .v2 "rfc1155" = some (.mod .rfc1155) := rfl
@[src] theorem globals_v2_rfc1157 : program.globals .v2 "rfc1157" = some (.mod .rfc1157) := rfl
@[src] theorem globals_v2_rfc1905 : program.globals .v2 "rfc1905" = some (.mod .rfc1905) := rfl
@[src] theorem globals_v2_v1 : program.globals .v2 "v1" = some (.mod .v1) := rfl
@[src] theorem globals_v2_log : program.globals .v2 "log" = some (.logger) := rfl
@[src] theorem globals_v2_SNMP : program.globals .v2 "SNMP" = some (.cls (.v2, 24)) := rfl

/-! ## Calls -/

theorem call_util_9 (x0 : V) (h : Heap) : call program cfg (.func .util 9) [x0] h =
    result (block program cfg .util [("octets", some x0), ("result", none), ("byte", none)] util_9.body h) := by
  rw [call.eq_1]; rfl
theorem call_util_20 (x0 : V) (h : Heap) : call program cfg (.func .util 20) [x0] h =
    result (block program cfg .util [("octets", some x0), ("result", none), ("byte", none)] util_20.body h) := by
  rw [call.eq_1]; rfl
theorem call_rfc1155_79 (x0 : V) (h : Heap) : call program cfg (.func .rfc1155 79) [x0] h =
    result (block program cfg .rfc1155 [("self", some x0)] rfc1155_79.body h) := by
  rw [call.eq_1]; rfl
theorem call_rfc1155_82 (x0 : V) (h : Heap) : call program cfg (.func .rfc1155 82) [x0] h =
    result (block program cfg .rfc1155 [("self", some x0), ("contents", none), ("resultlist", none), ("result", none)] rfc1155_82.body h) := by
  rw [call.eq_1]; rfl
theorem call_rfc1155_99 (x0 x1 : V) (h : Heap) : call program cfg (.func .rfc1155 99) [x0, x1] h =
    result (block program cfg .rfc1155 [("self", some x0), ("stream", some x1), ("tag", none), ("n", none), ("byte", none)] rfc1155_99.body h) := by
  rw [call.eq_1]; rfl
theorem call_rfc1155_126 (x0 x1 : V) (h : Heap) : call program cfg (.func .rfc1155 126) [x0, x1] h =
    result (block program cfg .rfc1155 [("self", some x0), ("stream", some x1), ("length", none), ("n", none), ("run", none), ("i", none)] rfc1155_126.body h) := by
  rw [call.eq_1]; rfl
theorem call_rfc1155_150 (x0 x1 : V) (h : Heap) : call program cfg (.func .rfc1155 150) [x0, x1] h =
    result (block program cfg .rfc1155 [("self", some x0), ("stream", some x1), ("objects", none), ("tag", none), ("length", none), ("objectData", none), ("decoder", none)] rfc1155_150.body h) := by
  rw [call.eq_1]; rfl
theorem call_rfc1155_182 (x0 : V) (h : Heap) : call program cfg (.func .rfc1155 182) [x0] h =
    result (block program cfg .rfc1155 [("self", some x0)] rfc1155_182.body h) := by
  rw [call.eq_1]; rfl
theorem call_rfc1155_189 (x0 : V) (h : Heap) : call program cfg (.func .rfc1155 189) [x0] h =
    result (block program cfg .rfc1155 [("self", some x0), ("result", none), ("resultlist", none), ("integer", none)] rfc1155_189.body h) := by
  rw [call.eq_1]; rfl
theorem call_rfc1155_219 (x0 x1 : V) (h : Heap) : call program cfg (.func .rfc1155 219) [x0, x1] h =
    result (block program cfg .rfc1155 [("self", some x0), ("length", some x1), ("result", none), ("resultlist", none), ("numOctets", none)] rfc1155_219.body h) := by
  rw [call.eq_1]; rfl
theorem call_rfc1155_257 (x0 : V) (h : Heap) : call program cfg (.func .rfc1155 257) [x0] h =
    result (block program cfg .rfc1155 [("self", some x0)] rfc1155_257.body h) := by
  rw [call.eq_1]; rfl
theorem call_rfc1155_262 (x0 x1 : V) (h : Heap) : call program cfg (.func .rfc1155 262) [x0, x1] h =
    result (block program cfg .rfc1155 [("self", some x0), ("other", some x1)] rfc1155_262.body h) := by
  rw [call.eq_1]; rfl
theorem call_rfc1155_274 (x0 x1 : V) (h : Heap) : call program cfg (.func .rfc1155 274) [x0, x1] h =
    result (block program cfg .rfc1155 [("self", some x0), ("other", some x1)] rfc1155_274.body h) := by
  rw [call.eq_1]; rfl
theorem call_rfc1155_282 (x0 : V) (h : Heap) : call program cfg (.func .rfc1155 282) [x0] h =
    result (block program cfg .rfc1155 [("self", some x0)] rfc1155_282.body h) := by
  rw [call.eq_1]; rfl
theorem call_rfc1155_297_1 (x0 : V) (h : Heap) : call program cfg (.func .rfc1155 297) [x0] h =
    result (block program cfg .rfc1155 [("self", some x0), ("value", some (.int 0))] rfc1155_297.body h) := by
  rw [call.eq_1]; rfl
theorem call_rfc1155_297 (x0 x1 : V) (h : Heap) : call program cfg (.func .rfc1155 297) [x0, x1] h =
    result (block program cfg .rfc1155 [("self", some x0), ("value", some x1)] rfc1155_297.body h) := by
  rw [call.eq_1]; rfl
theorem call_rfc1155_307 (x0 : V) (h : Heap) : call program cfg (.func .rfc1155 307) [x0] h =
    result (block program cfg .rfc1155 [("self", some x0)] rfc1155_307.body h) := by
  rw [call.eq_1]; rfl
theorem call_rfc1155_310 (x0 : V) (h : Heap) : call program cfg (.func .rfc1155 310) [x0] h =
    result (block program cfg .rfc1155 [("self", some x0)] rfc1155_310.body h) := by
  rw [call.eq_1]; rfl
theorem call_rfc1155_313 (x0 : V) (h : Heap) : call program cfg (.func .rfc1155 313) [x0] h =
    result (block program cfg .rfc1155 [("self", some x0)] rfc1155_313.body h) := by
  rw [call.eq_1]; rfl
theorem call_rfc1155_316 (x0 : V) (h : Heap) : call program cfg (.func .rfc1155 316) [x0] h =
    result (block program cfg .rfc1155 [("self", some x0)] rfc1155_316.body h) := by
  rw [call.eq_1]; rfl
theorem call_rfc1155_319 (x0 : V) (h : Heap) : call program cfg (.func .rfc1155 319) [x0] h =
    result (block program cfg .rfc1155 [("self", some x0)] rfc1155_319.body h) := by
  rw [call.eq_1]; rfl
theorem call_rfc1155_322 (x0 : V) (h : Heap) : call program cfg (.func .rfc1155 322) [x0] h =
    result (block program cfg .rfc1155 [("self", some x0)] rfc1155_322.body h) := by
  rw [call.eq_1]; rfl
theorem call_rfc1155_325 (x0 : V) (h : Heap) : call program cfg (.func .rfc1155 325) [x0] h =
    result (block program cfg .rfc1155 [("self", some x0)] rfc1155_325.body h) := by
  rw [call.eq_1]; rfl
theorem call_rfc1155_331 (x0 x1 : V) (h : Heap) : call program cfg (.func .rfc1155 331) [x0, x1] h =
    result (block program cfg .rfc1155 [("self", some x0), ("other", some x1)] rfc1155_331.body h) := by
  rw [call.eq_1]; rfl
theorem call_rfc1155_341 (x0 x1 : V) (h : Heap) : call program cfg (.func .rfc1155 341) [x0, x1] h =
    result (block program cfg .rfc1155 [("self", some x0), ("integer", some x1)] rfc1155_341.body h) := by
  rw [call.eq_1]; rfl
theorem call_rfc1155_349 (x0 x1 : V) (h : Heap) : call program cfg (.func .rfc1155 349) [x0, x1] h =
    result (block program cfg .rfc1155 [("self", some x0), ("integer", some x1)] rfc1155_349.body h) := by
  rw [call.eq_1]; rfl
theorem call_rfc1155_354 (x0 : V) (h : Heap) : call program cfg (.func .rfc1155 354) [x0] h =
    result (block program cfg .rfc1155 [("self", some x0)] rfc1155_354.body h) := by
  rw [call.eq_1]; rfl
theorem call_rfc1155_360 (x0 : V) (h : Heap) : call program cfg (.func .rfc1155 360) [x0] h =
    result (block program cfg .rfc1155 [("self", some x0), ("integer", none), ("result", none)] rfc1155_360.body h) := by
  rw [call.eq_1]; rfl
theorem call_rfc1155_401 (x0 x1 : V) (h : Heap) : call program cfg (.func .rfc1155 401) [x0, x1] h =
    result (block program cfg .rfc1155 [("self", some x0), ("stream", some x1), ("input", none), ("byte", none), ("negbit", none), ("i", none)] rfc1155_401.body h) := by
  rw [call.eq_1]; rfl
theorem call_rfc1155_436 (x0 x1 : V) (h : Heap) : call program cfg (.func .rfc1155 436) [x0, x1] h =
    result (block program cfg .rfc1155 [("self", some x0), ("stream", some x1), ("bytes", none), ("result", none)] rfc1155_436.body h) := by
  rw [call.eq_1]; rfl
theorem call_rfc1155_452 (x0 x1 : V) (h : Heap) : call program cfg (.func .rfc1155 452) [x0, x1] h =
    result (block program cfg .rfc1155 [("self", some x0), ("stream", some x1), ("val", none), ("byte", none), ("negbit", none), ("i", none)] rfc1155_452.body h) := by
  rw [call.eq_1]; rfl
theorem call_rfc1155_480 (x0 x1 : V) (h : Heap) : call program cfg (.func .rfc1155 480) [x0, x1] h =
    result (block program cfg .rfc1155 [("self", some x0), ("stream", some x1), ("val", none), ("bytes", none), ("negbit", none), ("i", none)] rfc1155_480.body h) := by
  rw [call.eq_1]; rfl
theorem call_rfc1155_507 (x0 : V) (h : Heap) : call program cfg (.func .rfc1155 507) [x0] h =
    result (block program cfg .rfc1155 [("self", some x0)] rfc1155_507.body h) := by
  rw [call.eq_1]; rfl
theorem call_rfc1155_519_1 (x0 : V) (h : Heap) : call program cfg (.func .rfc1155 519) [x0] h =
    result (block program cfg .rfc1155 [("self", some x0), ("value", some (.str (lit "")))] rfc1155_519.body h) := by
  rw [call.eq_1]; rfl
theorem call_rfc1155_519 (x0 x1 : V) (h : Heap) : call program cfg (.func .rfc1155 519) [x0, x1] h =
    result (block program cfg .rfc1155 [("self", some x0), ("value", some x1)] rfc1155_519.body h) := by
  rw [call.eq_1]; rfl
theorem call_rfc1155_524 (x0 : V) (h : Heap) : call program cfg (.func .rfc1155 524) [x0] h =
    result (block program cfg .rfc1155 [("self", some x0)] rfc1155_524.body h) := by
  rw [call.eq_1]; rfl
theorem call_rfc1155_527 (x0 : V) (h : Heap) : call program cfg (.func .rfc1155 527) [x0] h =
    result (block program cfg .rfc1155 [("self", some x0)] rfc1155_527.body h) := by
  rw [call.eq_1]; rfl
theorem call_rfc1155_532 (x0 x1 : V) (h : Heap) : call program cfg (.func .rfc1155 532) [x0, x1] h =
    result (block program cfg .rfc1155 [("self", some x0), ("stream", some x1)] rfc1155_532.body h) := by
  rw [call.eq_1]; rfl
theorem call_rfc1155_538 (x0 : V) (h : Heap) : call program cfg (.func .rfc1155 538) [x0] h =
    result (block program cfg .rfc1155 [("self", some x0)] rfc1155_538.body h) := by
  rw [call.eq_1]; rfl
theorem call_rfc1155_541 (x0 : V) (h : Heap) : call program cfg (.func .rfc1155 541) [x0] h =
    result (block program cfg .rfc1155 [("self", some x0)] rfc1155_541.body h) := by
  rw [call.eq_1]; rfl
theorem call_rfc1155_544 (x0 : V) (h : Heap) : call program cfg (.func .rfc1155 544) [x0] h =
    result (block program cfg .rfc1155 [("self", some x0)] rfc1155_544.body h) := by
  rw [call.eq_1]; rfl
theorem call_rfc1155_557_1 (x0 : V) (h : Heap) : call program cfg (.func .rfc1155 557) [x0] h =
    result (block program cfg .rfc1155 [("self", some x0), ("value", some (.none)), ("subidlist", none), ("subid", none), ("number", none)] rfc1155_557.body h) := by
  rw [call.eq_1]; rfl
theorem call_rfc1155_557 (x0 x1 : V) (h : Heap) : call program cfg (.func .rfc1155 557) [x0, x1] h =
    result (block program cfg .rfc1155 [("self", some x0), ("value", some x1), ("subidlist", none), ("subid", none), ("number", none)] rfc1155_557.body h) := by
  rw [call.eq_1]; rfl
theorem call_rfc1155_595 (x0 : V) (h : Heap) : call program cfg (.func .rfc1155 595) [x0] h =
    result (block program cfg .rfc1155 [("self", some x0)] rfc1155_595.body h) := by
  rw [call.eq_1]; rfl
theorem call_rfc1155_604 (x0 : V) (h : Heap) : call program cfg (.func .rfc1155 604) [x0] h =
    result (block program cfg .rfc1155 [("self", some x0)] rfc1155_604.body h) := by
  rw [call.eq_1]; rfl
theorem call_rfc1155_614 (x0 x1 : V) (h : Heap) : call program cfg (.func .rfc1155 614) [x0, x1] h =
    result (block program cfg .rfc1155 [("self", some x0), ("key", some x1)] rfc1155_614.body h) := by
  rw [call.eq_1]; rfl
theorem call_rfc1155_621 (x0 x1 : V) (h : Heap) : call program cfg (.func .rfc1155 621) [x0, x1] h =
    result (block program cfg .rfc1155 [("self", some x0), ("key", some x1)] rfc1155_621.body h) := by
  rw [call.eq_1]; rfl
theorem call_rfc1155_625 (x0 : V) (h : Heap) : call program cfg (.func .rfc1155 625) [x0] h =
    result (block program cfg .rfc1155 [("self", some x0)] rfc1155_625.body h) := by
  rw [call.eq_1]; rfl
theorem call_rfc1155_631 (x0 x1 : V) (h : Heap) : call program cfg (.func .rfc1155 631) [x0, x1] h =
    result (block program cfg .rfc1155 [("self", some x0), ("subid", some x1)] rfc1155_631.body h) := by
  rw [call.eq_1]; rfl
theorem call_rfc1155_638 (x0 x1 : V) (h : Heap) : call program cfg (.func .rfc1155 638) [x0, x1] h =
    result (block program cfg .rfc1155 [("self", some x0), ("other", some x1)] rfc1155_638.body h) := by
  rw [call.eq_1]; rfl
theorem call_rfc1155_646 (x0 x1 : V) (h : Heap) : call program cfg (.func .rfc1155 646) [x0, x1] h =
    result (block program cfg .rfc1155 [("self", some x0), ("other", some x1), ("i", none)] rfc1155_646.body h) := by
  rw [call.eq_1]; rfl
theorem call_rfc1155_663 (x0 : V) (h : Heap) : call program cfg (.func .rfc1155 663) [x0] h =
    result (block program cfg .rfc1155 [("self", some x0), ("result", none), ("idlist", none), ("subid1", none), ("subid", none), ("position", none)] rfc1155_663.body h) := by
  rw [call.eq_1]; rfl
theorem call_rfc1155_696 (x0 x1 : V) (h : Heap) : call program cfg (.func .rfc1155 696) [x0, x1] h =
    result (block program cfg .rfc1155 [("self", some x0), ("stream", some x1), ("bytes", none), ("n", none), ("subid", none), ("val", none)] rfc1155_696.body h) := by
  rw [call.eq_1]; rfl
theorem call_rfc1155_756 (x0 : V) (h : Heap) : call program cfg (.func .rfc1155 756) [x0] h =
    result (block program cfg .rfc1155 [("self", some x0)] rfc1155_756.body h) := by
  rw [call.eq_1]; rfl
theorem call_rfc1155_769 (x0 : V) (h : Heap) : call program cfg (.func .rfc1155 769) [x0] h =
    result (block program cfg .rfc1155 [("self", some x0)] rfc1155_769.body h) := by
  rw [call.eq_1]; rfl
theorem call_rfc1155_772 (x0 : V) (h : Heap) : call program cfg (.func .rfc1155 772) [x0] h =
    result (block program cfg .rfc1155 [("self", some x0)] rfc1155_772.body h) := by
  rw [call.eq_1]; rfl
theorem call_rfc1155_775 (x0 x1 : V) (h : Heap) : call program cfg (.func .rfc1155 775) [x0, x1] h =
    result (block program cfg .rfc1155 [("self", some x0), ("stream", some x1)] rfc1155_775.body h) := by
  rw [call.eq_1]; rfl
theorem call_rfc1155_796_1 (x0 : V) (h : Heap) : call program cfg (.func .rfc1155 796) [x0] h =
    result (block program cfg .rfc1155 [("self", some x0), ("value", some (.none))] rfc1155_796.body h) := by
  rw [call.eq_1]; rfl
theorem call_rfc1155_796 (x0 x1 : V) (h : Heap) : call program cfg (.func .rfc1155 796) [x0, x1] h =
    result (block program cfg .rfc1155 [("self", some x0), ("value", some x1)] rfc1155_796.body h) := by
  rw [call.eq_1]; rfl
theorem call_rfc1155_803 (x0 : V) (h : Heap) : call program cfg (.func .rfc1155 803) [x0] h =
    result (block program cfg .rfc1155 [("self", some x0), ("result", none), ("res", none), ("item", none)] rfc1155_803.body h) := by
  rw [call.eq_1]; rfl
theorem call_rfc1155_815 (x0 : V) (h : Heap) : call program cfg (.func .rfc1155 815) [x0] h =
    result (block program cfg .rfc1155 [("self", some x0)] rfc1155_815.body h) := by
  rw [call.eq_1]; rfl
theorem call_rfc1155_818 (x0 x1 : V) (h : Heap) : call program cfg (.func .rfc1155 818) [x0, x1] h =
    result (block program cfg .rfc1155 [("self", some x0), ("index", some x1)] rfc1155_818.body h) := by
  rw [call.eq_1]; rfl
theorem call_rfc1155_824 (x0 x1 : V) (h : Heap) : call program cfg (.func .rfc1155 824) [x0, x1] h =
    result (block program cfg .rfc1155 [("self", some x0), ("val", some x1)] rfc1155_824.body h) := by
  rw [call.eq_1]; rfl
theorem call_rfc1155_827 (x0 : V) (h : Heap) : call program cfg (.func .rfc1155 827) [x0] h =
    result (block program cfg .rfc1155 [("self", some x0), ("resultlist", none), ("elem", none), ("result", none)] rfc1155_827.body h) := by
  rw [call.eq_1]; rfl
theorem call_rfc1155_842 (x0 x1 : V) (h : Heap) : call program cfg (.func .rfc1155 842) [x0, x1] h =
    result (block program cfg .rfc1155 [("self", some x0), ("stream", some x1), ("objectList", none)] rfc1155_842.body h) := by
  rw [call.eq_1]; rfl
theorem call_rfc1155_864_1 (x0 : V) (h : Heap) : call program cfg (.func .rfc1155 864) [x0] h =
    result (block program cfg .rfc1155 [("self", some x0), ("componentType", some (.cls (.rfc1155, 64))), ("value", some (.none)), ("item", none)] rfc1155_864.body h) := by
  rw [call.eq_1]; rfl
theorem call_rfc1155_864_2 (x0 x1 : V) (h : Heap) : call program cfg (.func .rfc1155 864) [x0, x1] h =
    result (block program cfg .rfc1155 [("self", some x0), ("componentType", some x1), ("value", some (.none)), ("item", none)] rfc1155_864.body h) := by
  rw [call.eq_1]; rfl
theorem call_rfc1155_864 (x0 x1 x2 : V) (h : Heap) : call program cfg (.func .rfc1155 864) [x0, x1, x2] h =
    result (block program cfg .rfc1155 [("self", some x0), ("componentType", some x1), ("value", some x2), ("item", none)] rfc1155_864.body h) := by
  rw [call.eq_1]; rfl
theorem call_rfc1155_879 (x0 x1 : V) (h : Heap) : call program cfg (.func .rfc1155 879) [x0, x1] h =
    result (block program cfg .rfc1155 [("self", some x0), ("value", some x1)] rfc1155_879.body h) := by
  rw [call.eq_1]; rfl
theorem call_rfc1155_898_1 (x0 : V) (h : Heap) : call program cfg (.func .rfc1155 898) [x0] h =
    result (block program cfg .rfc1155 [("self", some x0), ("value", some (.none)), ("listform", none), ("item", none)] rfc1155_898.body h) := by
  rw [call.eq_1]; rfl
theorem call_rfc1155_898 (x0 x1 : V) (h : Heap) : call program cfg (.func .rfc1155 898) [x0, x1] h =
    result (block program cfg .rfc1155 [("self", some x0), ("value", some x1), ("listform", none), ("item", none)] rfc1155_898.body h) := by
  rw [call.eq_1]; rfl
theorem call_rfc1155_921 (x0 x1 : V) (h : Heap) : call program cfg (.func .rfc1155 921) [x0, x1] h =
    result (block program cfg .rfc1155 [("self", some x0), ("stream", some x1)] rfc1155_921.body h) := by
  rw [call.eq_1]; rfl
theorem call_rfc1155_928 (x0 : V) (h : Heap) : call program cfg (.func .rfc1155 928) [x0] h =
    result (block program cfg .rfc1155 [("self", some x0), ("result", none), ("item", none)] rfc1155_928.body h) := by
  rw [call.eq_1]; rfl
theorem call_rfc1155_937 (x0 : V) (h : Heap) : call program cfg (.func .rfc1155 937) [x0] h =
    result (block program cfg .rfc1155 [("self", some x0)] rfc1155_937.body h) := by
  rw [call.eq_1]; rfl
theorem call_rfc1155_964 (x0 x1 : V) (h : Heap) : call program cfg (.func .rfc1155 964) [x0, x1] h =
    result (block program cfg .rfc1155 [("self", some x0), ("val", some x1)] rfc1155_964.body h) := by
  rw [call.eq_1]; rfl
theorem call_rfc1155_977 (x0 x1 : V) (h : Heap) : call program cfg (.func .rfc1155 977) [x0, x1] h =
    result (block program cfg .rfc1155 [("self", some x0), ("stream", some x1), ("result", none)] rfc1155_977.body h) := by
  rw [call.eq_1]; rfl
theorem call_rfc1155_1008 (x0 x1 : V) (h : Heap) : call program cfg (.func .rfc1155 1008) [x0, x1] h =
    result (block program cfg .rfc1155 [("self", some x0), ("val", some x1)] rfc1155_1008.body h) := by
  rw [call.eq_1]; rfl
theorem call_rfc1155_1019 (x0 x1 : V) (h : Heap) : call program cfg (.func .rfc1155 1019) [x0, x1] h =
    result (block program cfg .rfc1155 [("self", some x0), ("val", some x1)] rfc1155_1019.body h) := by
  rw [call.eq_1]; rfl
theorem call_rfc1155_1047_1 (x0 : V) (h : Heap) : call program cfg (.func .rfc1155 1047) [x0] h =
    result (block program cfg .rfc1155 [("self", some x0), ("value", some (.int 0)), ("epoch", some (.none))] rfc1155_1047.body h) := by
  rw [call.eq_1]; rfl
theorem call_rfc1155_1047_2 (x0 x1 : V) (h : Heap) : call program cfg (.func .rfc1155 1047) [x0, x1] h =
    result (block program cfg .rfc1155 [("self", some x0), ("value", some x1), ("epoch", some (.none))] rfc1155_1047.body h) := by
  rw [call.eq_1]; rfl
theorem call_rfc1155_1047 (x0 x1 x2 : V) (h : Heap) : call program cfg (.func .rfc1155 1047) [x0, x1, x2] h =
    result (block program cfg .rfc1155 [("self", some x0), ("value", some x1), ("epoch", some x2)] rfc1155_1047.body h) := by
  rw [call.eq_1]; rfl
theorem call_rfc1155_1056 (x0 : V) (h : Heap) : call program cfg (.func .rfc1155 1056) [x0] h =
    result (block program cfg .rfc1155 [("self", some x0)] rfc1155_1056.body h) := by
  rw [call.eq_1]; rfl
theorem call_rfc1155_1076_1 (x0 : V) (h : Heap) : call program cfg (.func .rfc1155 1076) [x0] h =
    result (block program cfg .rfc1155 [("self", some x0), ("args", some (.none))] rfc1155_1076.body h) := by
  rw [call.eq_1]; rfl
theorem call_rfc1155_1076 (x0 x1 : V) (h : Heap) : call program cfg (.func .rfc1155 1076) [x0, x1] h =
    result (block program cfg .rfc1155 [("self", some x0), ("args", some x1)] rfc1155_1076.body h) := by
  rw [call.eq_1]; rfl
theorem call_rfc1157_42 (x0 : V) (h : Heap) : call program cfg (.func .rfc1157 42) [x0] h =
    result (block program cfg .rfc1157 [("self", some x0)] rfc1157_42.body h) := by
  rw [call.eq_1]; rfl
theorem call_rfc1157_47_1 (x0 : V) (h : Heap) : call program cfg (.func .rfc1157 47) [x0] h =
    result (block program cfg .rfc1157 [("self", some x0), ("num", some (.none))] rfc1157_47.body h) := by
  rw [call.eq_1]; rfl
theorem call_rfc1157_47 (x0 x1 : V) (h : Heap) : call program cfg (.func .rfc1157 47) [x0, x1] h =
    result (block program cfg .rfc1157 [("self", some x0), ("num", some x1)] rfc1157_47.body h) := by
  rw [call.eq_1]; rfl
theorem call_rfc1157_63_1 (x0 : V) (h : Heap) : call program cfg (.func .rfc1157 63) [x0] h =
    result (block program cfg .rfc1157 [("self", some x0), ("name", some (.none)), ("value", some (.none))] rfc1157_63.body h) := by
  rw [call.eq_1]; rfl
theorem call_rfc1157_63_2 (x0 x1 : V) (h : Heap) : call program cfg (.func .rfc1157 63) [x0, x1] h =
    result (block program cfg .rfc1157 [("self", some x0), ("name", some x1), ("value", some (.none))] rfc1157_63.body h) := by
  rw [call.eq_1]; rfl
theorem call_rfc1157_63 (x0 x1 x2 : V) (h : Heap) : call program cfg (.func .rfc1157 63) [x0, x1, x2] h =
    result (block program cfg .rfc1157 [("self", some x0), ("name", some x1), ("value", some x2)] rfc1157_63.body h) := by
  rw [call.eq_1]; rfl
theorem call_rfc1157_80_1 (x0 : V) (h : Heap) : call program cfg (.func .rfc1157 80) [x0] h =
    result (block program cfg .rfc1157 [("self", some x0), ("value", some (.ref 3))] rfc1157_80.body h) := by
  rw [call.eq_1]; rfl
theorem call_rfc1157_80 (x0 x1 : V) (h : Heap) : call program cfg (.func .rfc1157 80) [x0, x1] h =
    result (block program cfg .rfc1157 [("self", some x0), ("value", some x1)] rfc1157_80.body h) := by
  rw [call.eq_1]; rfl
theorem call_rfc1157_91_1 (x0 : V) (h : Heap) : call program cfg (.func .rfc1157 91) [x0] h =
    result (block program cfg .rfc1157 [("self", some x0), ("version", some (.int 0)), ("community", some (.str (lit "public"))), ("data", some (.none))] rfc1157_91.body h) := by
  rw [call.eq_1]; rfl
theorem call_rfc1157_91_2 (x0 x1 : V) (h : Heap) : call program cfg (.func .rfc1157 91) [x0, x1] h =
    result (block program cfg .rfc1157 [("self", some x0), ("version", some x1), ("community", some (.str (lit "public"))), ("data", some (.none))] rfc1157_91.body h) := by
  rw [call.eq_1]; rfl
theorem call_rfc1157_91_3 (x0 x1 x2 : V) (h : Heap) : call program cfg (.func .rfc1157 91) [x0, x1, x2] h =
    result (block program cfg .rfc1157 [("self", some x0), ("version", some x1), ("community", some x2), ("data", some (.none))] rfc1157_91.body h) := by
  rw [call.eq_1]; rfl
theorem call_rfc1157_91 (x0 x1 x2 x3 : V) (h : Heap) : call program cfg (.func .rfc1157 91) [x0, x1, x2, x3] h =
    result (block program cfg .rfc1157 [("self", some x0), ("version", some x1), ("community", some x2), ("data", some x3)] rfc1157_91.body h) := by
  rw [call.eq_1]; rfl
theorem call_rfc1157_97 (x0 : V) (h : Heap) : call program cfg (.func .rfc1157 97) [x0] h =
    result (block program cfg .rfc1157 [("self", some x0), ("result", none)] rfc1157_97.body h) := by
  rw [call.eq_1]; rfl
theorem call_rfc1157_103 (x0 : V) (h : Heap) : call program cfg (.func .rfc1157 103) [x0] h =
    result (block program cfg .rfc1157 [("self", some x0)] rfc1157_103.body h) := by
  rw [call.eq_1]; rfl
theorem call_rfc1157_110 (x0 x1 : V) (h : Heap) : call program cfg (.func .rfc1157 110) [x0, x1] h =
    result (block program cfg .rfc1157 [("self", some x0), ("stream", some x1), ("objectList", none)] rfc1157_110.body h) := by
  rw [call.eq_1]; rfl
theorem call_rfc1157_129_1 (x0 : V) (h : Heap) : call program cfg (.func .rfc1157 129) [x0] h =
    result (block program cfg .rfc1157 [("self", some x0), ("args", some (.none))] rfc1157_129.body h) := by
  rw [call.eq_1]; rfl
theorem call_rfc1157_129 (x0 x1 : V) (h : Heap) : call program cfg (.func .rfc1157 129) [x0, x1] h =
    result (block program cfg .rfc1157 [("self", some x0), ("args", some x1)] rfc1157_129.body h) := by
  rw [call.eq_1]; rfl
theorem call_rfc1157_138_1 (x0 : V) (h : Heap) : call program cfg (.func .rfc1157 138) [x0] h =
    result (block program cfg .rfc1157 [("self", some x0), ("requestID", some (.int 0)), ("errorStatus", some (.int 0)), ("errorIndex", some (.int 0)), ("varBindList", some (.ref 4))] rfc1157_138.body h) := by
  rw [call.eq_1]; rfl
theorem call_rfc1157_138_2 (x0 x1 : V) (h : Heap) : call program cfg (.func .rfc1157 138) [x0, x1] h =
    result (block program cfg .rfc1157 [("self", some x0), ("requestID", some x1), ("errorStatus", some (.int 0)), ("errorIndex", some (.int 0)), ("varBindList", some (.ref 4))] rfc1157_138.body h) := by
  rw [call.eq_1]; rfl
theorem call_rfc1157_138_3 (x0 x1 x2 : V) (h : Heap) : call program cfg (.func .rfc1157 138) [x0, x1, x2] h =
    result (block program cfg .rfc1157 [("self", some x0), ("requestID", some x1), ("errorStatus", some x2), ("errorIndex", some (.int 0)), ("varBindList", some (.ref 4))] rfc1157_138.body h) := by
  rw [call.eq_1]; rfl
theorem call_rfc1157_138_4 (x0 x1 x2 x3 : V) (h : Heap) : call program cfg (.func .rfc1157 138) [x0, x1, x2, x3] h =
    result (block program cfg .rfc1157 [("self", some x0), ("requestID", some x1), ("errorStatus", some x2), ("errorIndex", some x3), ("varBindList", some (.ref 4))] rfc1157_138.body h) := by
  rw [call.eq_1]; rfl
theorem call_rfc1157_138 (x0 x1 x2 x3 x4 : V) (h : Heap) : call program cfg (.func .rfc1157 138) [x0, x1, x2, x3, x4] h =
    result (block program cfg .rfc1157 [("self", some x0), ("requestID", some x1), ("errorStatus", some x2), ("errorIndex", some x3), ("varBindList", some x4)] rfc1157_138.body h) := by
  rw [call.eq_1]; rfl
theorem call_rfc1157_153 (x0 x1 : V) (h : Heap) : call program cfg (.func .rfc1157 153) [x0, x1] h =
    result (block program cfg .rfc1157 [("self", some x0), ("stream", some x1), ("objectList", none), ("myVarList", none), ("item", none)] rfc1157_153.body h) := by
  rw [call.eq_1]; rfl
theorem call_rfc1157_169_1 (x0 : V) (h : Heap) : call program cfg (.func .rfc1157 169) [x0] h =
    result (block program cfg .rfc1157 [("self", some x0), ("args", some (.none))] rfc1157_169.body h) := by
  rw [call.eq_1]; rfl
theorem call_rfc1157_169 (x0 x1 : V) (h : Heap) : call program cfg (.func .rfc1157 169) [x0, x1] h =
    result (block program cfg .rfc1157 [("self", some x0), ("args", some x1)] rfc1157_169.body h) := by
  rw [call.eq_1]; rfl
theorem call_rfc1157_211 (x0 : V) (h : Heap) : call program cfg (.func .rfc1157 211) [x0] h =
    result (block program cfg .rfc1157 [("self", some x0)] rfc1157_211.body h) := by
  rw [call.eq_1]; rfl
theorem call_rfc1157_216_1 (x0 : V) (h : Heap) : call program cfg (.func .rfc1157 216) [x0] h =
    result (block program cfg .rfc1157 [("self", some x0), ("num", some (.none))] rfc1157_216.body h) := by
  rw [call.eq_1]; rfl
theorem call_rfc1157_216 (x0 x1 : V) (h : Heap) : call program cfg (.func .rfc1157 216) [x0, x1] h =
    result (block program cfg .rfc1157 [("self", some x0), ("num", some x1)] rfc1157_216.body h) := by
  rw [call.eq_1]; rfl
theorem call_rfc1157_233_1 (x0 : V) (h : Heap) : call program cfg (.func .rfc1157 233) [x0] h =
    result (block program cfg .rfc1157 [("self", some x0), ("enterprise", some (.none)), ("agentAddr", some (.none)), ("genericTrap", some (.none)), ("specificTrap", some (.none)), ("timestamp", some (.none)), ("varBindList", some (.none))] rfc1157_233.body h) := by
  rw [call.eq_1]; rfl
theorem call_rfc1157_233_2 (x0 x1 : V) (h : Heap) : call program cfg (.func .rfc1157 233) [x0, x1] h =
    result (block program cfg .rfc1157 [("self", some x0), ("enterprise", some x1), ("agentAddr", some (.none)), ("genericTrap", some (.none)), ("specificTrap", some (.none)), ("timestamp", some (.none)), ("varBindList", some (.none))] rfc1157_233.body h) := by
  rw [call.eq_1]; rfl
theorem call_rfc1157_233_3 (x0 x1 x2 : V) (h : Heap) : call program cfg (.func .rfc1157 233) [x0, x1, x2] h =
    result (block program cfg .rfc1157 [("self", some x0), ("enterprise", some x1), ("agentAddr", some x2), ("genericTrap", some (.none)), ("specificTrap", some (.none)), ("timestamp", some (.none)), ("varBindList", some (.none))] rfc1157_233.body h) := by
  rw [call.eq_1]; rfl
theorem call_rfc1157_233_4 (x0 x1 x2 x3 : V) (h : Heap) : call program cfg (.func .rfc1157 233) [x0, x1, x2, x3] h =
    result (block program cfg .rfc1157 [("self", some x0), ("enterprise", some x1), ("agentAddr", some x2), ("genericTrap", some x3), ("specificTrap", some (.none)), ("timestamp", some (.none)), ("varBindList", some (.none))] rfc1157_233.body h) := by
  rw [call.eq_1]; rfl
theorem call_rfc1157_233_5 (x0 x1 x2 x3 x4 : V) (h : Heap) : call program cfg (.func .rfc1157 233) [x0, x1, x2, x3, x4] h =
    result (block program cfg .rfc1157 [("self", some x0), ("enterprise", some x1), ("agentAddr", some x2), ("genericTrap", some x3), ("specificTrap", some x4), ("timestamp", some (.none)), ("varBindList", some (.none))] rfc1157_233.body h) := by
  rw [call.eq_1]; rfl
theorem call_rfc1157_233_6 (x0 x1 x2 x3 x4 x5 : V) (h : Heap) : call program cfg (.func .rfc1157 233) [x0, x1, x2, x3, x4, x5] h =
    result (block program cfg .rfc1157 [("self", some x0), ("enterprise", some x1), ("agentAddr", some x2), ("genericTrap", some x3), ("specificTrap", some x4), ("timestamp", some x5), ("varBindList", some (.none))] rfc1157_233.body h) := by
  rw [call.eq_1]; rfl
theorem call_rfc1157_233 (x0 x1 x2 x3 x4 x5 x6 : V) (h : Heap) : call program cfg (.func .rfc1157 233) [x0, x1, x2, x3, x4, x5, x6] h =
    result (block program cfg .rfc1157 [("self", some x0), ("enterprise", some x1), ("agentAddr", some x2), ("genericTrap", some x3), ("specificTrap", some x4), ("timestamp", some x5), ("varBindList", some x6)] rfc1157_233.body h) := by
  rw [call.eq_1]; rfl
theorem call_rfc1157_255 (x0 x1 : V) (h : Heap) : call program cfg (.func .rfc1157 255) [x0, x1] h =
    result (block program cfg .rfc1157 [("self", some x0), ("stream", some x1), ("objectList", none), ("myVarList", none), ("item", none)] rfc1157_255.body h) := by
  rw [call.eq_1]; rfl
theorem call_rfc1902_60_1 (x0 : V) (h : Heap) : call program cfg (.func .rfc1902 60) [x0] h =
    result (block program cfg .rfc1902 [("self", some x0), ("value", some (.str (lit "")))] rfc1902_60.body h) := by
  rw [call.eq_1]; rfl
theorem call_rfc1902_60 (x0 x1 : V) (h : Heap) : call program cfg (.func .rfc1902 60) [x0, x1] h =
    result (block program cfg .rfc1902 [("self", some x0), ("value", some x1)] rfc1902_60.body h) := by
  rw [call.eq_1]; rfl
theorem call_rfc1905_32 (x0 : V) (h : Heap) : call program cfg (.func .rfc1905 32) [x0] h =
    result (block program cfg .rfc1905 [("self", some x0)] rfc1905_32.body h) := by
  rw [call.eq_1]; rfl
theorem call_rfc1905_38 (x0 : V) (h : Heap) : call program cfg (.func .rfc1905 38) [x0] h =
    result (block program cfg .rfc1905 [("self", some x0)] rfc1905_38.body h) := by
  rw [call.eq_1]; rfl
theorem call_rfc1905_44 (x0 : V) (h : Heap) : call program cfg (.func .rfc1905 44) [x0] h =
    result (block program cfg .rfc1905 [("self", some x0)] rfc1905_44.body h) := by
  rw [call.eq_1]; rfl
theorem call_rfc1905_52_1 (x0 : V) (h : Heap) : call program cfg (.func .rfc1905 52) [x0] h =
    result (block program cfg .rfc1905 [("self", some x0), ("value", some (.ref 6))] rfc1905_52.body h) := by
  rw [call.eq_1]; rfl
theorem call_rfc1905_52 (x0 x1 : V) (h : Heap) : call program cfg (.func .rfc1905 52) [x0, x1] h =
    result (block program cfg .rfc1905 [("self", some x0), ("value", some x1)] rfc1905_52.body h) := by
  rw [call.eq_1]; rfl
theorem call_rfc1905_60_1 (x0 : V) (h : Heap) : call program cfg (.func .rfc1905 60) [x0] h =
    result (block program cfg .rfc1905 [("self", some x0), ("version", some (.int 1)), ("community", some (.str (lit "public"))), ("data", some (.none))] rfc1905_60.body h) := by
  rw [call.eq_1]; rfl
theorem call_rfc1905_60_2 (x0 x1 : V) (h : Heap) : call program cfg (.func .rfc1905 60) [x0, x1] h =
    result (block program cfg .rfc1905 [("self", some x0), ("version", some x1), ("community", some (.str (lit "public"))), ("data", some (.none))] rfc1905_60.body h) := by
  rw [call.eq_1]; rfl
theorem call_rfc1905_60_3 (x0 x1 x2 : V) (h : Heap) : call program cfg (.func .rfc1905 60) [x0, x1, x2] h =
    result (block program cfg .rfc1905 [("self", some x0), ("version", some x1), ("community", some x2), ("data", some (.none))] rfc1905_60.body h) := by
  rw [call.eq_1]; rfl
theorem call_rfc1905_60 (x0 x1 x2 x3 : V) (h : Heap) : call program cfg (.func .rfc1905 60) [x0, x1, x2, x3] h =
    result (block program cfg .rfc1905 [("self", some x0), ("version", some x1), ("community", some x2), ("data", some x3)] rfc1905_60.body h) := by
  rw [call.eq_1]; rfl
theorem call_rfc1905_68 (x0 x1 : V) (h : Heap) : call program cfg (.func .rfc1905 68) [x0, x1] h =
    result (block program cfg .rfc1905 [("self", some x0), ("value", some x1)] rfc1905_68.body h) := by
  rw [call.eq_1]; rfl
theorem call_rfc1905_105_1 (x0 : V) (h : Heap) : call program cfg (.func .rfc1905 105) [x0] h =
    result (block program cfg .rfc1905 [("self", some x0), ("requestID", some (.int 0)), ("errorStatus", some (.int 0)), ("errorIndex", some (.int 0)), ("varBindList", some (.ref 7))] rfc1905_105.body h) := by
  rw [call.eq_1]; rfl
theorem call_rfc1905_105_2 (x0 x1 : V) (h : Heap) : call program cfg (.func .rfc1905 105) [x0, x1] h =
    result (block program cfg .rfc1905 [("self", some x0), ("requestID", some x1), ("errorStatus", some (.int 0)), ("errorIndex", some (.int 0)), ("varBindList", some (.ref 7))] rfc1905_105.body h) := by
  rw [call.eq_1]; rfl
theorem call_rfc1905_105_3 (x0 x1 x2 : V) (h : Heap) : call program cfg (.func .rfc1905 105) [x0, x1, x2] h =
    result (block program cfg .rfc1905 [("self", some x0), ("requestID", some x1), ("errorStatus", some x2), ("errorIndex", some (.int 0)), ("varBindList", some (.ref 7))] rfc1905_105.body h) := by
  rw [call.eq_1]; rfl
theorem call_rfc1905_105_4 (x0 x1 x2 x3 : V) (h : Heap) : call program cfg (.func .rfc1905 105) [x0, x1, x2, x3] h =
    result (block program cfg .rfc1905 [("self", some x0), ("requestID", some x1), ("errorStatus", some x2), ("errorIndex", some x3), ("varBindList", some (.ref 7))] rfc1905_105.body h) := by
  rw [call.eq_1]; rfl
theorem call_rfc1905_105 (x0 x1 x2 x3 x4 : V) (h : Heap) : call program cfg (.func .rfc1905 105) [x0, x1, x2, x3, x4] h =
    result (block program cfg .rfc1905 [("self", some x0), ("requestID", some x1), ("errorStatus", some x2), ("errorIndex", some x3), ("varBindList", some x4)] rfc1905_105.body h) := by
  rw [call.eq_1]; rfl
theorem call_rfc1905_144_1 (x0 : V) (h : Heap) : call program cfg (.func .rfc1905 144) [x0] h =
    result (block program cfg .rfc1905 [("self", some x0), ("requestID", some (.int 0)), ("nonRepeaters", some (.int 0)), ("maxRepetitions", some (.int 0)), ("varBindList", some (.ref 8))] rfc1905_144.body h) := by
  rw [call.eq_1]; rfl
theorem call_rfc1905_144_2 (x0 x1 : V) (h : Heap) : call program cfg (.func .rfc1905 144) [x0, x1] h =
    result (block program cfg .rfc1905 [("self", some x0), ("requestID", some x1), ("nonRepeaters", some (.int 0)), ("maxRepetitions", some (.int 0)), ("varBindList", some (.ref 8))] rfc1905_144.body h) := by
  rw [call.eq_1]; rfl
theorem call_rfc1905_144_3 (x0 x1 x2 : V) (h : Heap) : call program cfg (.func .rfc1905 144) [x0, x1, x2] h =
    result (block program cfg .rfc1905 [("self", some x0), ("requestID", some x1), ("nonRepeaters", some x2), ("maxRepetitions", some (.int 0)), ("varBindList", some (.ref 8))] rfc1905_144.body h) := by
  rw [call.eq_1]; rfl
theorem call_rfc1905_144_4 (x0 x1 x2 x3 : V) (h : Heap) : call program cfg (.func .rfc1905 144) [x0, x1, x2, x3] h =
    result (block program cfg .rfc1905 [("self", some x0), ("requestID", some x1), ("nonRepeaters", some x2), ("maxRepetitions", some x3), ("varBindList", some (.ref 8))] rfc1905_144.body h) := by
  rw [call.eq_1]; rfl
theorem call_rfc1905_144 (x0 x1 x2 x3 x4 : V) (h : Heap) : call program cfg (.func .rfc1905 144) [x0, x1, x2, x3, x4] h =
    result (block program cfg .rfc1905 [("self", some x0), ("requestID", some x1), ("nonRepeaters", some x2), ("maxRepetitions", some x3), ("varBindList", some x4)] rfc1905_144.body h) := by
  rw [call.eq_1]; rfl
theorem call_rfc1905_164 (x0 x1 : V) (h : Heap) : call program cfg (.func .rfc1905 164) [x0, x1] h =
    result (block program cfg .rfc1905 [("self", some x0), ("stream", some x1), ("objectList", none), ("myVarList", none), ("item", none)] rfc1905_164.body h) := by
  rw [call.eq_1]; rfl
theorem call_rfc1905_228_1 (x0 : V) (h : Heap) : call program cfg (.func .rfc1905 228) [x0] h =
    result (block program cfg .rfc1905 [("self", some x0), ("args", some (.none))] rfc1905_228.body h) := by
  rw [call.eq_1]; rfl
theorem call_rfc1905_228 (x0 x1 : V) (h : Heap) : call program cfg (.func .rfc1905 228) [x0, x1] h =
    result (block program cfg .rfc1905 [("self", some x0), ("args", some x1)] rfc1905_228.body h) := by
  rw [call.eq_1]; rfl
theorem call_role_15_2 (x0 x1 : V) (h : Heap) : call program cfg (.func .role 15) [x0, x1] h =
    result (block program cfg .role [("self", some x0), ("dest", some x1), ("interface", some (.tuple [.str (lit "0.0.0.0"), .int 0])), ("socksize", some (.int 65536))] role_15.body h) := by
  rw [call.eq_1]; rfl
theorem call_role_15_3 (x0 x1 x2 : V) (h : Heap) : call program cfg (.func .role 15) [x0, x1, x2] h =
    result (block program cfg .role [("self", some x0), ("dest", some x1), ("interface", some x2), ("socksize", some (.int 65536))] role_15.body h) := by
  rw [call.eq_1]; rfl
theorem call_role_15 (x0 x1 x2 x3 : V) (h : Heap) : call program cfg (.func .role 15) [x0, x1, x2, x3] h =
    result (block program cfg .role [("self", some x0), ("dest", some x1), ("interface", some x2), ("socksize", some x3)] role_15.body h) := by
  rw [call.eq_1]; rfl
theorem call_role_25 (x0 : V) (h : Heap) : call program cfg (.func .role 25) [x0] h =
    result (block program cfg .role [("self", some x0)] role_25.body h) := by
  rw [call.eq_1]; rfl
theorem call_role_29 (x0 : V) (h : Heap) : call program cfg (.func .role 29) [x0] h =
    result (block program cfg .role [("self", some x0)] role_29.body h) := by
  rw [call.eq_1]; rfl
theorem call_role_32 (x0 : V) (h : Heap) : call program cfg (.func .role 32) [x0] h =
    result (block program cfg .role [("self", some x0)] role_32.body h) := by
  rw [call.eq_1]; rfl
theorem call_role_40_2 (x0 x1 : V) (h : Heap) : call program cfg (.func .role 40) [x0, x1] h =
    result (block program cfg .role [("self", some x0), ("request", some x1), ("dst", some (.tuple [.none, .int 0]))] role_40.body h) := by
  rw [call.eq_1]; rfl
theorem call_role_40 (x0 x1 x2 : V) (h : Heap) : call program cfg (.func .role 40) [x0, x1, x2] h =
    result (block program cfg .role [("self", some x0), ("request", some x1), ("dst", some x2)] role_40.body h) := by
  rw [call.eq_1]; rfl
theorem call_role_47 (x0 : V) (h : Heap) : call program cfg (.func .role 47) [x0] h =
    result (block program cfg .role [("self", some x0), ("message", none), ("src", none)] role_47.body h) := by
  rw [call.eq_1]; rfl
theorem call_role_55 (x0 : V) (h : Heap) : call program cfg (.func .role 55) [x0] h =
    result (block program cfg .role [("self", some x0)] role_55.body h) := by
  rw [call.eq_1]; rfl
theorem call_asynrole_15_2 (x0 x1 : V) (h : Heap) : call program cfg (.func .asynrole 15) [x0, x1] h =
    result (block program cfg .asynrole [("self", some x0), ("callback_tuple", some x1), ("dst", some (.tuple [.none, .int 0])), ("interface", some (.tuple [.str (lit "0.0.0.0"), .int 0])), ("timeout", some (.quot 1 4)), ("cb_fun", none), ("cb_ctx", none)] asynrole_15.body h) := by
  rw [call.eq_1]; rfl
theorem call_asynrole_15_3 (x0 x1 x2 : V) (h : Heap) : call program cfg (.func .asynrole 15) [x0, x1, x2] h =
    result (block program cfg .asynrole [("self", some x0), ("callback_tuple", some x1), ("dst", some x2), ("interface", some (.tuple [.str (lit "0.0.0.0"), .int 0])), ("timeout", some (.quot 1 4)), ("cb_fun", none), ("cb_ctx", none)] asynrole_15.body h) := by
  rw [call.eq_1]; rfl
theorem call_asynrole_15_4 (x0 x1 x2 x3 : V) (h : Heap) : call program cfg (.func .asynrole 15) [x0, x1, x2, x3] h =
    result (block program cfg .asynrole [("self", some x0), ("callback_tuple", some x1), ("dst", some x2), ("interface", some x3), ("timeout", some (.quot 1 4)), ("cb_fun", none), ("cb_ctx", none)] asynrole_15.body h) := by
  rw [call.eq_1]; rfl
theorem call_asynrole_15 (x0 x1 x2 x3 x4 : V) (h : Heap) : call program cfg (.func .asynrole 15) [x0, x1, x2, x3, x4] h =
    result (block program cfg .asynrole [("self", some x0), ("callback_tuple", some x1), ("dst", some x2), ("interface", some x3), ("timeout", some x4), ("cb_fun", none), ("cb_ctx", none)] asynrole_15.body h) := by
  rw [call.eq_1]; rfl
theorem call_asynrole_33_2 (x0 x1 : V) (h : Heap) : call program cfg (.func .asynrole 33) [x0, x1] h =
    result (block program cfg .asynrole [("self", some x0), ("req", some x1), ("dst", some (.tuple [.none, .int 0]))] asynrole_33.body h) := by
  rw [call.eq_1]; rfl
theorem call_asynrole_33 (x0 x1 x2 : V) (h : Heap) : call program cfg (.func .asynrole 33) [x0, x1, x2] h =
    result (block program cfg .asynrole [("self", some x0), ("req", some x1), ("dst", some x2)] asynrole_33.body h) := by
  rw [call.eq_1]; rfl
theorem call_asynrole_37 (x0 : V) (h : Heap) : call program cfg (.func .asynrole 37) [x0] h =
    result (block program cfg .asynrole [("self", some x0), ("response", none), ("src", none)] asynrole_37.body h) := by
  rw [call.eq_1]; rfl
theorem call_asynrole_42 (x0 : V) (h : Heap) : call program cfg (.func .asynrole 42) [x0] h =
    result (block program cfg .asynrole [("self", some x0)] asynrole_42.body h) := by
  rw [call.eq_1]; rfl
theorem call_asynrole_45 (x0 : V) (h : Heap) : call program cfg (.func .asynrole 45) [x0] h =
    result (block program cfg .asynrole [("self", some x0)] asynrole_45.body h) := by
  rw [call.eq_1]; rfl
theorem call_asynrole_48 (x0 : V) (h : Heap) : call program cfg (.func .asynrole 48) [x0] h =
    result (block program cfg .asynrole [("self", some x0)] asynrole_48.body h) := by
  rw [call.eq_1]; rfl
theorem call_asynrole_52_1 (x0 : V) (h : Heap) : call program cfg (.func .asynrole 52) [x0] h =
    result (block program cfg .asynrole [("self", some x0), ("exc_type", some (.none)), ("exc_value", some (.none)), ("exc_traceback", some (.none))] asynrole_52.body h) := by
  rw [call.eq_1]; rfl
theorem call_asynrole_52_2 (x0 x1 : V) (h : Heap) : call program cfg (.func .asynrole 52) [x0, x1] h =
    result (block program cfg .asynrole [("self", some x0), ("exc_type", some x1), ("exc_value", some (.none)), ("exc_traceback", some (.none))] asynrole_52.body h) := by
  rw [call.eq_1]; rfl
theorem call_asynrole_52_3 (x0 x1 x2 : V) (h : Heap) : call program cfg (.func .asynrole 52) [x0, x1, x2] h =
    result (block program cfg .asynrole [("self", some x0), ("exc_type", some x1), ("exc_value", some x2), ("exc_traceback", some (.none))] asynrole_52.body h) := by
  rw [call.eq_1]; rfl
theorem call_asynrole_52 (x0 x1 x2 x3 : V) (h : Heap) : call program cfg (.func .asynrole 52) [x0, x1, x2, x3] h =
    result (block program cfg .asynrole [("self", some x0), ("exc_type", some x1), ("exc_value", some x2), ("exc_traceback", some x3)] asynrole_52.body h) := by
  rw [call.eq_1]; rfl
theorem call_asynrole_65 (x0 : V) (h : Heap) : call program cfg (.func .asynrole 65) [x0] h =
    result (block program cfg .asynrole [("self", some x0)] asynrole_65.body h) := by
  rw [call.eq_1]; rfl
theorem call_v1_22_1 (x0 : V) (h : Heap) : call program cfg (.func .v1 22) [x0] h =
    result (block program cfg .v1 [("self", some x0), ("interface", some (.tuple [.str (lit "0.0.0.0"), .int 0])), ("queueEmpty", some (.none)), ("trapCallback", some (.none)), ("timeout", some (.quot 1 4))] v1_22.body h) := by
  rw [call.eq_1]; rfl
theorem call_v1_22_2 (x0 x1 : V) (h : Heap) : call program cfg (.func .v1 22) [x0, x1] h =
    result (block program cfg .v1 [("self", some x0), ("interface", some x1), ("queueEmpty", some (.none)), ("trapCallback", some (.none)), ("timeout", some (.quot 1 4))] v1_22.body h) := by
  rw [call.eq_1]; rfl
theorem call_v1_22_3 (x0 x1 x2 : V) (h : Heap) : call program cfg (.func .v1 22) [x0, x1, x2] h =
    result (block program cfg .v1 [("self", some x0), ("interface", some x1), ("queueEmpty", some x2), ("trapCallback", some (.none)), ("timeout", some (.quot 1 4))] v1_22.body h) := by
  rw [call.eq_1]; rfl
theorem call_v1_22_4 (x0 x1 x2 x3 : V) (h : Heap) : call program cfg (.func .v1 22) [x0, x1, x2, x3] h =
    result (block program cfg .v1 [("self", some x0), ("interface", some x1), ("queueEmpty", some x2), ("trapCallback", some x3), ("timeout", some (.quot 1 4))] v1_22.body h) := by
  rw [call.eq_1]; rfl
theorem call_v1_22 (x0 x1 x2 x3 x4 : V) (h : Heap) : call program cfg (.func .v1 22) [x0, x1, x2, x3, x4] h =
    result (block program cfg .v1 [("self", some x0), ("interface", some x1), ("queueEmpty", some x2), ("trapCallback", some x3), ("timeout", some x4)] v1_22.body h) := by
  rw [call.eq_1]; rfl
theorem call_v1_47 (x0 : V) (h : Heap) : call program cfg (.func .v1 47) [x0] h =
    result (block program cfg .v1 [("self", some x0), ("reqID", none)] v1_47.body h) := by
  rw [call.eq_1]; rfl
theorem call_v1_54 (x0 x1 : V) (h : Heap) : call program cfg (.func .v1 54) [x0, x1] h =
    result (block program cfg .v1 [("self", some x0), ("varbindlist", some x1), ("reqID", none), ("pdu", none)] v1_54.body h) := by
  rw [call.eq_1]; rfl
theorem call_v1_59 (x0 x1 : V) (h : Heap) : call program cfg (.func .v1 59) [x0, x1] h =
    result (block program cfg .v1 [("self", some x0), ("varbindlist", some x1), ("reqID", none), ("pdu", none)] v1_59.body h) := by
  rw [call.eq_1]; rfl
theorem call_v1_64_2 (x0 x1 : V) (h : Heap) : call program cfg (.func .v1 64) [x0, x1] h =
    result (block program cfg .v1 [("self", some x0), ("oid", some x1), ("community", some (.str (lit "public"))), ("objID", none), ("val", none), ("varbindlist", none), ("pdu", none)] v1_64.body h) := by
  rw [call.eq_1]; rfl
theorem call_v1_64 (x0 x1 x2 : V) (h : Heap) : call program cfg (.func .v1 64) [x0, x1, x2] h =
    result (block program cfg .v1 [("self", some x0), ("oid", some x1), ("community", some x2), ("objID", none), ("val", none), ("varbindlist", none), ("pdu", none)] v1_64.body h) := by
  rw [call.eq_1]; rfl
theorem call_v1_74_2 (x0 x1 : V) (h : Heap) : call program cfg (.func .v1 74) [x0, x1] h =
    result (block program cfg .v1 [("self", some x0), ("varbindlist", some x1), ("community", some (.str (lit "public"))), ("pdu", none)] v1_74.body h) := by
  rw [call.eq_1]; rfl
theorem call_v1_74 (x0 x1 x2 : V) (h : Heap) : call program cfg (.func .v1 74) [x0, x1, x2] h =
    result (block program cfg .v1 [("self", some x0), ("varbindlist", some x1), ("community", some x2), ("pdu", none)] v1_74.body h) := by
  rw [call.eq_1]; rfl
theorem call_v1_81_2 (x0 x1 : V) (h : Heap) : call program cfg (.func .v1 81) [x0, x1] h =
    result (block program cfg .v1 [("self", some x0), ("pdu", some x1), ("community", some (.str (lit "public")))] v1_81.body h) := by
  rw [call.eq_1]; rfl
theorem call_v1_81 (x0 x1 x2 : V) (h : Heap) : call program cfg (.func .v1 81) [x0, x1, x2] h =
    result (block program cfg .v1 [("self", some x0), ("pdu", some x1), ("community", some x2)] v1_81.body h) := by
  rw [call.eq_1]; rfl
theorem call_v1_87_2 (x0 x1 : V) (h : Heap) : call program cfg (.func .v1 87) [x0, x1] h =
    result (block program cfg .v1 [("self", some x0), ("varbindlist", some x1), ("enterprise", some (.str (lit ".1.3.6.1.4"))), ("agentAddr", some (.none)), ("genericTrap", some (.int 6)), ("specificTrap", some (.int 0)), ("ent", none), ("agent", none), ("gTrap", none), ("sTrap", none), ("ts", none), ("pdu", none)] v1_87.body h) := by
  rw [call.eq_1]; rfl
theorem call_v1_87_3 (x0 x1 x2 : V) (h : Heap) : call program cfg (.func .v1 87) [x0, x1, x2] h =
    result (block program cfg .v1 [("self", some x0), ("varbindlist", some x1), ("enterprise", some x2), ("agentAddr", some (.none)), ("genericTrap", some (.int 6)), ("specificTrap", some (.int 0)), ("ent", none), ("agent", none), ("gTrap", none), ("sTrap", none), ("ts", none), ("pdu", none)] v1_87.body h) := by
  rw [call.eq_1]; rfl
theorem call_v1_87_4 (x0 x1 x2 x3 : V) (h : Heap) : call program cfg (.func .v1 87) [x0, x1, x2, x3] h =
    result (block program cfg .v1 [("self", some x0), ("varbindlist", some x1), ("enterprise", some x2), ("agentAddr", some x3), ("genericTrap", some (.int 6)), ("specificTrap", some (.int 0)), ("ent", none), ("agent", none), ("gTrap", none), ("sTrap", none), ("ts", none), ("pdu", none)] v1_87.body h) := by
  rw [call.eq_1]; rfl
theorem call_v1_87_5 (x0 x1 x2 x3 x4 : V) (h : Heap) : call program cfg (.func .v1 87) [x0, x1, x2, x3, x4] h =
    result (block program cfg .v1 [("self", some x0), ("varbindlist", some x1), ("enterprise", some x2), ("agentAddr", some x3), ("genericTrap", some x4), ("specificTrap", some (.int 0)), ("ent", none), ("agent", none), ("gTrap", none), ("sTrap", none), ("ts", none), ("pdu", none)] v1_87.body h) := by
  rw [call.eq_1]; rfl
theorem call_v1_87 (x0 x1 x2 x3 x4 x5 : V) (h : Heap) : call program cfg (.func .v1 87) [x0, x1, x2, x3, x4, x5] h =
    result (block program cfg .v1 [("self", some x0), ("varbindlist", some x1), ("enterprise", some x2), ("agentAddr", some x3), ("genericTrap", some x4), ("specificTrap", some x5), ("ent", none), ("agent", none), ("gTrap", none), ("sTrap", none), ("ts", none), ("pdu", none)] v1_87.body h) := by
  rw [call.eq_1]; rfl
theorem call_v1_103_4 (x0 x1 x2 x3 : V) (h : Heap) : call program cfg (.func .v1 103) [x0, x1, x2, x3] h =
    result (block program cfg .v1 [("self", some x0), ("oid", some x1), ("remote", some x2), ("callback", some x3), ("community", some (.str (lit "public"))), ("msg", none)] v1_103.body h) := by
  rw [call.eq_1]; rfl
theorem call_v1_103 (x0 x1 x2 x3 x4 : V) (h : Heap) : call program cfg (.func .v1 103) [x0, x1, x2, x3, x4] h =
    result (block program cfg .v1 [("self", some x0), ("oid", some x1), ("remote", some x2), ("callback", some x3), ("community", some x4), ("msg", none)] v1_103.body h) := by
  rw [call.eq_1]; rfl
theorem call_v1_118_4 (x0 x1 x2 x3 : V) (h : Heap) : call program cfg (.func .v1 118) [x0, x1, x2, x3] h =
    result (block program cfg .v1 [("self", some x0), ("varbindlist", some x1), ("remote", some x2), ("callback", some x3), ("community", some (.str (lit "public"))), ("msg", none)] v1_118.body h) := by
  rw [call.eq_1]; rfl
theorem call_v1_118 (x0 x1 x2 x3 x4 : V) (h : Heap) : call program cfg (.func .v1 118) [x0, x1, x2, x3, x4] h =
    result (block program cfg .v1 [("self", some x0), ("varbindlist", some x1), ("remote", some x2), ("callback", some x3), ("community", some x4), ("msg", none)] v1_118.body h) := by
  rw [call.eq_1]; rfl
theorem call_v1_133_4 (x0 x1 x2 x3 : V) (h : Heap) : call program cfg (.func .v1 133) [x0, x1, x2, x3] h =
    result (block program cfg .v1 [("self", some x0), ("varbindlist", some x1), ("remote", some x2), ("callback", some x3), ("community", some (.str (lit "public"))), ("reqID", none), ("pdu", none), ("msg", none)] v1_133.body h) := by
  rw [call.eq_1]; rfl
theorem call_v1_133 (x0 x1 x2 x3 x4 : V) (h : Heap) : call program cfg (.func .v1 133) [x0, x1, x2, x3, x4] h =
    result (block program cfg .v1 [("self", some x0), ("varbindlist", some x1), ("remote", some x2), ("callback", some x3), ("community", some x4), ("reqID", none), ("pdu", none), ("msg", none)] v1_133.body h) := by
  rw [call.eq_1]; rfl
theorem call_v1_151_3 (x0 x1 x2 : V) (h : Heap) : call program cfg (.func .v1 151) [x0, x1, x2] h =
    result (block program cfg .v1 [("self", some x0), ("remote", some x1), ("trapPDU", some x2), ("community", some (.str (lit "public"))), ("msg", none)] v1_151.body h) := by
  rw [call.eq_1]; rfl
theorem call_v1_151 (x0 x1 x2 x3 : V) (h : Heap) : call program cfg (.func .v1 151) [x0, x1, x2, x3] h =
    result (block program cfg .v1 [("self", some x0), ("remote", some x1), ("trapPDU", some x2), ("community", some x3), ("msg", none)] v1_151.body h) := by
  rw [call.eq_1]; rfl
theorem call_v1_158_2 (x0 x1 : V) (h : Heap) : call program cfg (.func .v1 158) [x0, x1] h =
    result (block program cfg .v1 [("self", some x0), ("varBindList", some x1), ("community", some (.str (lit "public")))] v1_158.body h) := by
  rw [call.eq_1]; rfl
theorem call_v1_158 (x0 x1 x2 : V) (h : Heap) : call program cfg (.func .v1 158) [x0, x1, x2] h =
    result (block program cfg .v1 [("self", some x0), ("varBindList", some x1), ("community", some x2)] v1_158.body h) := by
  rw [call.eq_1]; rfl
theorem call_v1_163 (x0 x1 x2 x3 x4 : V) (h : Heap) : call program cfg (.func .v1 163) [x0, x1, x2, x3, x4] h =
    result (block program cfg .v1 [("self", some x0), ("manager", some x1), ("cb_ctx", some x2), ("data_src_tuple", some x3), ("exc_tuple", some x4), ("data", none), ("src", none), ("exc_type", none), ("exc_value", none), ("exc_traceback", none), ("msg", none), ("e", none)] v1_163.body h) := by
  rw [call.eq_1]; rfl
theorem call_v1_210 (x0 x1 : V) (h : Heap) : call program cfg (.func .v1 210) [x0, x1] h =
    result (block program cfg .v1 [("self", some x0), ("partialOID", some x1)] v1_210.body h) := by
  rw [call.eq_1]; rfl
theorem call_v1_216 (x0 : V) (h : Heap) : call program cfg (.func .v1 216) [x0] h =
    result (block program cfg .v1 [("self", some x0), ("request", none)] v1_216.body h) := by
  rw [call.eq_1]; rfl
theorem call_v1_236 (x0 : V) (h : Heap) : call program cfg (.func .v1 236) [x0] h =
    result (block program cfg .v1 [("self", some x0), ("uptime", none), ("upsecs", none)] v1_236.body h) := by
  rw [call.eq_1]; rfl
theorem call_v2_26 (x0 x1 : V) (h : Heap) : call program cfg (.func .v2 26) [x0, x1] h =
    result (block program cfg .v2 [("self", some x0), ("varbindlist", some x1), ("reqID", none), ("pdu", none)] v2_26.body h) := by
  rw [call.eq_1]; rfl
theorem call_v2_31 (x0 x1 : V) (h : Heap) : call program cfg (.func .v2 31) [x0, x1] h =
    result (block program cfg .v2 [("self", some x0), ("varbindlist", some x1), ("reqID", none), ("pdu", none)] v2_31.body h) := by
  rw [call.eq_1]; rfl
theorem call_v2_36_2 (x0 x1 : V) (h : Heap) : call program cfg (.func .v2 36) [x0, x1] h =
    result (block program cfg .v2 [("self", some x0), ("oidlist", some x1), ("community", some (.str (lit "public"))), ("varbinds", none), ("oid", none), ("objID", none), ("val", none), ("varbindlist", none), ("pdu", none)] v2_36.body h) := by
  rw [call.eq_1]; rfl
theorem call_v2_36 (x0 x1 x2 : V) (h : Heap) : call program cfg (.func .v2 36) [x0, x1, x2] h =
    result (block program cfg .v2 [("self", some x0), ("oidlist", some x1), ("community", some x2), ("varbinds", none), ("oid", none), ("objID", none), ("val", none), ("varbindlist", none), ("pdu", none)] v2_36.body h) := by
  rw [call.eq_1]; rfl
theorem call_v2_52_2 (x0 x1 : V) (h : Heap) : call program cfg (.func .v2 52) [x0, x1] h =
    result (block program cfg .v2 [("self", some x0), ("varbindlist", some x1), ("community", some (.str (lit "public"))), ("pdu", none)] v2_52.body h) := by
  rw [call.eq_1]; rfl
theorem call_v2_52 (x0 x1 x2 : V) (h : Heap) : call program cfg (.func .v2 52) [x0, x1, x2] h =
    result (block program cfg .v2 [("self", some x0), ("varbindlist", some x1), ("community", some x2), ("pdu", none)] v2_52.body h) := by
  rw [call.eq_1]; rfl
theorem call_v2_59_2 (x0 x1 : V) (h : Heap) : call program cfg (.func .v2 59) [x0, x1] h =
    result (block program cfg .v2 [("self", some x0), ("pdu", some x1), ("community", some (.str (lit "public")))] v2_59.body h) := by
  rw [call.eq_1]; rfl
theorem call_v2_59 (x0 x1 x2 : V) (h : Heap) : call program cfg (.func .v2 59) [x0, x1, x2] h =
    result (block program cfg .v2 [("self", some x0), ("pdu", some x1), ("community", some x2)] v2_59.body h) := by
  rw [call.eq_1]; rfl
theorem call_v2_65_2 (x0 x1 : V) (h : Heap) : call program cfg (.func .v2 65) [x0, x1] h =
    result (block program cfg .v2 [("self", some x0), ("varbindlist", some x1), ("enterprise", some (.str (lit ".1.3.6.1.4"))), ("agentAddr", some (.none)), ("genericTrap", some (.int 6)), ("specificTrap", some (.int 0)), ("ent", none), ("agent", none), ("gTrap", none), ("sTrap", none), ("ts", none), ("pdu", none)] v2_65.body h) := by
  rw [call.eq_1]; rfl
theorem call_v2_65_3 (x0 x1 x2 : V) (h : Heap) : call program cfg (.func .v2 65) [x0, x1, x2] h =
    result (block program cfg .v2 [("self", some x0), ("varbindlist", some x1), ("enterprise", some x2), ("agentAddr", some (.none)), ("genericTrap", some (.int 6)), ("specificTrap", some (.int 0)), ("ent", none), ("agent", none), ("gTrap", none), ("sTrap", none), ("ts", none), ("pdu", none)] v2_65.body h) := by
  rw [call.eq_1]; rfl
theorem call_v2_65_4 (x0 x1 x2 x3 : V) (h : Heap) : call program cfg (.func .v2 65) [x0, x1, x2, x3] h =
    result (block program cfg .v2 [("self", some x0), ("varbindlist", some x1), ("enterprise", some x2), ("agentAddr", some x3), ("genericTrap", some (.int 6)), ("specificTrap", some (.int 0)), ("ent", none), ("agent", none), ("gTrap", none), ("sTrap", none), ("ts", none), ("pdu", none)] v2_65.body h) := by
  rw [call.eq_1]; rfl
theorem call_v2_65_5 (x0 x1 x2 x3 x4 : V) (h : Heap) : call program cfg (.func .v2 65) [x0, x1, x2, x3, x4] h =
    result (block program cfg .v2 [("self", some x0), ("varbindlist", some x1), ("enterprise", some x2), ("agentAddr", some x3), ("genericTrap", some x4), ("specificTrap", some (.int 0)), ("ent", none), ("agent", none), ("gTrap", none), ("sTrap", none), ("ts", none), ("pdu", none)] v2_65.body h) := by
  rw [call.eq_1]; rfl
theorem call_v2_65 (x0 x1 x2 x3 x4 x5 : V) (h : Heap) : call program cfg (.func .v2 65) [x0, x1, x2, x3, x4, x5] h =
    result (block program cfg .v2 [("self", some x0), ("varbindlist", some x1), ("enterprise", some x2), ("agentAddr", some x3), ("genericTrap", some x4), ("specificTrap", some x5), ("ent", none), ("agent", none), ("gTrap", none), ("sTrap", none), ("ts", none), ("pdu", none)] v2_65.body h) := by
  rw [call.eq_1]; rfl
theorem call_v2_80_4 (x0 x1 x2 x3 : V) (h : Heap) : call program cfg (.func .v2 80) [x0, x1, x2, x3] h =
    result (block program cfg .v2 [("self", some x0), ("oid", some x1), ("remote", some x2), ("callback", some x3), ("community", some (.str (lit "public"))), ("msg", none)] v2_80.body h) := by
  rw [call.eq_1]; rfl
theorem call_v2_80 (x0 x1 x2 x3 x4 : V) (h : Heap) : call program cfg (.func .v2 80) [x0, x1, x2, x3, x4] h =
    result (block program cfg .v2 [("self", some x0), ("oid", some x1), ("remote", some x2), ("callback", some x3), ("community", some x4), ("msg", none)] v2_80.body h) := by
  rw [call.eq_1]; rfl
theorem call_v2_96_4 (x0 x1 x2 x3 : V) (h : Heap) : call program cfg (.func .v2 96) [x0, x1, x2, x3] h =
    result (block program cfg .v2 [("self", some x0), ("varbindlist", some x1), ("remote", some x2), ("callback", some x3), ("community", some (.str (lit "public"))), ("msg", none)] v2_96.body h) := by
  rw [call.eq_1]; rfl
theorem call_v2_96 (x0 x1 x2 x3 x4 : V) (h : Heap) : call program cfg (.func .v2 96) [x0, x1, x2, x3, x4] h =
    result (block program cfg .v2 [("self", some x0), ("varbindlist", some x1), ("remote", some x2), ("callback", some x3), ("community", some x4), ("msg", none)] v2_96.body h) := by
  rw [call.eq_1]; rfl
theorem call_v2_111_4 (x0 x1 x2 x3 : V) (h : Heap) : call program cfg (.func .v2 111) [x0, x1, x2, x3] h =
    result (block program cfg .v2 [("self", some x0), ("varbindlist", some x1), ("remote", some x2), ("callback", some x3), ("community", some (.str (lit "public"))), ("reqID", none), ("pdu", none), ("msg", none)] v2_111.body h) := by
  rw [call.eq_1]; rfl
theorem call_v2_111 (x0 x1 x2 x3 x4 : V) (h : Heap) : call program cfg (.func .v2 111) [x0, x1, x2, x3, x4] h =
    result (block program cfg .v2 [("self", some x0), ("varbindlist", some x1), ("remote", some x2), ("callback", some x3), ("community", some x4), ("reqID", none), ("pdu", none), ("msg", none)] v2_111.body h) := by
  rw [call.eq_1]; rfl
theorem call_v2_129_3 (x0 x1 x2 : V) (h : Heap) : call program cfg (.func .v2 129) [x0, x1, x2] h =
    result (block program cfg .v2 [("self", some x0), ("remote", some x1), ("trapPDU", some x2), ("community", some (.str (lit "public"))), ("msg", none)] v2_129.body h) := by
  rw [call.eq_1]; rfl
theorem call_v2_129 (x0 x1 x2 x3 : V) (h : Heap) : call program cfg (.func .v2 129) [x0, x1, x2, x3] h =
    result (block program cfg .v2 [("self", some x0), ("remote", some x1), ("trapPDU", some x2), ("community", some x3), ("msg", none)] v2_129.body h) := by
  rw [call.eq_1]; rfl
theorem call_v2_136_2 (x0 x1 : V) (h : Heap) : call program cfg (.func .v2 136) [x0, x1] h =
    result (block program cfg .v2 [("self", some x0), ("varBindList", some x1), ("community", some (.str (lit "public")))] v2_136.body h) := by
  rw [call.eq_1]; rfl
theorem call_v2_136 (x0 x1 x2 : V) (h : Heap) : call program cfg (.func .v2 136) [x0, x1, x2] h =
    result (block program cfg .v2 [("self", some x0), ("varBindList", some x1), ("community", some x2)] v2_136.body h) := by
  rw [call.eq_1]; rfl
theorem call_v2_141 (x0 x1 x2 x3 x4 : V) (h : Heap) : call program cfg (.func .v2 141) [x0, x1, x2, x3, x4] h =
    result (block program cfg .v2 [("self", some x0), ("manager", some x1), ("cb_ctx", some x2), ("data_src_tuple", some x3), ("exc_tuple", some x4), ("data", none), ("src", none), ("exc_type", none), ("exc_value", none), ("exc_traceback", none), ("msg", none), ("e", none)] v2_141.body h) := by
  rw [call.eq_1]; rfl
theorem call_snmpmanager_40_1 (x0 : V) (h : Heap) : call program cfg (.func .snmpmanager 40) [x0] h =
    result (block program cfg .snmpmanager [("self", some x0), ("queueEmpty", some (.none)), ("trapCallback", some (.none)), ("interface", some (.tuple [.str (lit "0.0.0.0"), .int 0])), ("timeout", some (.quot 1 4))] snmpmanager_40.body h) := by
  rw [call.eq_1]; rfl
theorem call_snmpmanager_40_2 (x0 x1 : V) (h : Heap) : call program cfg (.func .snmpmanager 40) [x0, x1] h =
    result (block program cfg .snmpmanager [("self", some x0), ("queueEmpty", some x1), ("trapCallback", some (.none)), ("interface", some (.tuple [.str (lit "0.0.0.0"), .int 0])), ("timeout", some (.quot 1 4))] snmpmanager_40.body h) := by
  rw [call.eq_1]; rfl
theorem call_snmpmanager_40_3 (x0 x1 x2 : V) (h : Heap) : call program cfg (.func .snmpmanager 40) [x0, x1, x2] h =
    result (block program cfg .snmpmanager [("self", some x0), ("queueEmpty", some x1), ("trapCallback", some x2), ("interface", some (.tuple [.str (lit "0.0.0.0"), .int 0])), ("timeout", some (.quot 1 4))] snmpmanager_40.body h) := by
  rw [call.eq_1]; rfl
theorem call_snmpmanager_40_4 (x0 x1 x2 x3 : V) (h : Heap) : call program cfg (.func .snmpmanager 40) [x0, x1, x2, x3] h =
    result (block program cfg .snmpmanager [("self", some x0), ("queueEmpty", some x1), ("trapCallback", some x2), ("interface", some x3), ("timeout", some (.quot 1 4))] snmpmanager_40.body h) := by
  rw [call.eq_1]; rfl
theorem call_snmpmanager_40 (x0 x1 x2 x3 x4 : V) (h : Heap) : call program cfg (.func .snmpmanager 40) [x0, x1, x2, x3, x4] h =
    result (block program cfg .snmpmanager [("self", some x0), ("queueEmpty", some x1), ("trapCallback", some x2), ("interface", some x3), ("timeout", some x4)] snmpmanager_40.body h) := by
  rw [call.eq_1]; rfl
theorem call_snmpmanager_63 (x0 : V) (h : Heap) : call program cfg (.func .snmpmanager 63) [x0] h =
    result (block program cfg .snmpmanager [("self", some x0), ("reqID", none)] snmpmanager_63.body h) := by
  rw [call.eq_1]; rfl
theorem call_snmpmanager_70_2 (x0 x1 : V) (h : Heap) : call program cfg (.func .snmpmanager 70) [x0, x1] h =
    result (block program cfg .snmpmanager [("self", some x0), ("varbindlist", some x1), ("version", some (.int 2)), ("reqID", none), ("pdu", none)] snmpmanager_70.body h) := by
  rw [call.eq_1]; rfl
theorem call_snmpmanager_70 (x0 x1 x2 : V) (h : Heap) : call program cfg (.func .snmpmanager 70) [x0, x1, x2] h =
    result (block program cfg .snmpmanager [("self", some x0), ("varbindlist", some x1), ("version", some x2), ("reqID", none), ("pdu", none)] snmpmanager_70.body h) := by
  rw [call.eq_1]; rfl
theorem call_snmpmanager_81_2 (x0 x1 : V) (h : Heap) : call program cfg (.func .snmpmanager 81) [x0, x1] h =
    result (block program cfg .snmpmanager [("self", some x0), ("varbindlist", some x1), ("version", some (.int 2)), ("reqID", none), ("pdu", none)] snmpmanager_81.body h) := by
  rw [call.eq_1]; rfl
theorem call_snmpmanager_81 (x0 x1 x2 : V) (h : Heap) : call program cfg (.func .snmpmanager 81) [x0, x1, x2] h =
    result (block program cfg .snmpmanager [("self", some x0), ("varbindlist", some x1), ("version", some x2), ("reqID", none), ("pdu", none)] snmpmanager_81.body h) := by
  rw [call.eq_1]; rfl
theorem call_snmpmanager_92_2 (x0 x1 : V) (h : Heap) : call program cfg (.func .snmpmanager 92) [x0, x1] h =
    result (block program cfg .snmpmanager [("self", some x0), ("varbindlist", some x1), ("version", some (.int 2)), ("reqID", none), ("pdu", none)] snmpmanager_92.body h) := by
  rw [call.eq_1]; rfl
theorem call_snmpmanager_92 (x0 x1 x2 : V) (h : Heap) : call program cfg (.func .snmpmanager 92) [x0, x1, x2] h =
    result (block program cfg .snmpmanager [("self", some x0), ("varbindlist", some x1), ("version", some x2), ("reqID", none), ("pdu", none)] snmpmanager_92.body h) := by
  rw [call.eq_1]; rfl
theorem call_snmpmanager_103_2 (x0 x1 : V) (h : Heap) : call program cfg (.func .snmpmanager 103) [x0, x1] h =
    result (block program cfg .snmpmanager [("self", some x0), ("oid", some x1), ("community", some (.str (lit "public"))), ("version", some (.int 2)), ("objID", none), ("val", none), ("varbindlist", none), ("pdu", none), ("message", none)] snmpmanager_103.body h) := by
  rw [call.eq_1]; rfl
theorem call_snmpmanager_103_3 (x0 x1 x2 : V) (h : Heap) : call program cfg (.func .snmpmanager 103) [x0, x1, x2] h =
    result (block program cfg .snmpmanager [("self", some x0), ("oid", some x1), ("community", some x2), ("version", some (.int 2)), ("objID", none), ("val", none), ("varbindlist", none), ("pdu", none), ("message", none)] snmpmanager_103.body h) := by
  rw [call.eq_1]; rfl
theorem call_snmpmanager_103 (x0 x1 x2 x3 : V) (h : Heap) : call program cfg (.func .snmpmanager 103) [x0, x1, x2, x3] h =
    result (block program cfg .snmpmanager [("self", some x0), ("oid", some x1), ("community", some x2), ("version", some x3), ("objID", none), ("val", none), ("varbindlist", none), ("pdu", none), ("message", none)] snmpmanager_103.body h) := by
  rw [call.eq_1]; rfl
theorem call_snmpmanager_126_2 (x0 x1 : V) (h : Heap) : call program cfg (.func .snmpmanager 126) [x0, x1] h =
    result (block program cfg .snmpmanager [("self", some x0), ("varbindlist", some x1), ("community", some (.str (lit "public"))), ("version", some (.int 2)), ("pdu", none)] snmpmanager_126.body h) := by
  rw [call.eq_1]; rfl
theorem call_snmpmanager_126_3 (x0 x1 x2 : V) (h : Heap) : call program cfg (.func .snmpmanager 126) [x0, x1, x2] h =
    result (block program cfg .snmpmanager [("self", some x0), ("varbindlist", some x1), ("community", some x2), ("version", some (.int 2)), ("pdu", none)] snmpmanager_126.body h) := by
  rw [call.eq_1]; rfl
theorem call_snmpmanager_126 (x0 x1 x2 x3 : V) (h : Heap) : call program cfg (.func .snmpmanager 126) [x0, x1, x2, x3] h =
    result (block program cfg .snmpmanager [("self", some x0), ("varbindlist", some x1), ("community", some x2), ("version", some x3), ("pdu", none)] snmpmanager_126.body h) := by
  rw [call.eq_1]; rfl
theorem call_snmpmanager_138_4 (x0 x1 x2 x3 : V) (h : Heap) : call program cfg (.func .snmpmanager 138) [x0, x1, x2, x3] h =
    result (block program cfg .snmpmanager [("self", some x0), ("oid", some x1), ("valtype", some x2), ("value", some x3), ("community", some (.str (lit "public"))), ("version", some (.int 2)), ("objID", none), ("val", none), ("varbindlist", none), ("pdu", none), ("message", none)] snmpmanager_138.body h) := by
  rw [call.eq_1]; rfl
theorem call_snmpmanager_138_5 (x0 x1 x2 x3 x4 : V) (h : Heap) : call program cfg (.func .snmpmanager 138) [x0, x1, x2, x3, x4] h =
    result (block program cfg .snmpmanager [("self", some x0), ("oid", some x1), ("valtype", some x2), ("value", some x3), ("community", some x4), ("version", some (.int 2)), ("objID", none), ("val", none), ("varbindlist", none), ("pdu", none), ("message", none)] snmpmanager_138.body h) := by
  rw [call.eq_1]; rfl
theorem call_snmpmanager_138 (x0 x1 x2 x3 x4 x5 : V) (h : Heap) : call program cfg (.func .snmpmanager 138) [x0, x1, x2, x3, x4, x5] h =
    result (block program cfg .snmpmanager [("self", some x0), ("oid", some x1), ("valtype", some x2), ("value", some x3), ("community", some x4), ("version", some x5), ("objID", none), ("val", none), ("varbindlist", none), ("pdu", none), ("message", none)] snmpmanager_138.body h) := by
  rw [call.eq_1]; rfl
theorem call_snmpmanager_161_2 (x0 x1 : V) (h : Heap) : call program cfg (.func .snmpmanager 161) [x0, x1] h =
    result (block program cfg .snmpmanager [("self", some x0), ("pdu", some x1), ("community", some (.str (lit "public"))), ("version", some (.int 2))] snmpmanager_161.body h) := by
  rw [call.eq_1]; rfl
theorem call_snmpmanager_161_3 (x0 x1 x2 : V) (h : Heap) : call program cfg (.func .snmpmanager 161) [x0, x1, x2] h =
    result (block program cfg .snmpmanager [("self", some x0), ("pdu", some x1), ("community", some x2), ("version", some (.int 2))] snmpmanager_161.body h) := by
  rw [call.eq_1]; rfl
theorem call_snmpmanager_161 (x0 x1 x2 x3 : V) (h : Heap) : call program cfg (.func .snmpmanager 161) [x0, x1, x2, x3] h =
    result (block program cfg .snmpmanager [("self", some x0), ("pdu", some x1), ("community", some x2), ("version", some x3)] snmpmanager_161.body h) := by
  rw [call.eq_1]; rfl
theorem call_snmpmanager_170_2 (x0 x1 : V) (h : Heap) : call program cfg (.func .snmpmanager 170) [x0, x1] h =
    result (block program cfg .snmpmanager [("self", some x0), ("varbindlist", some x1), ("version", some (.int 2)), ("enterprise", some (.str (lit ".1.3.6.1.4"))), ("agentAddr", some (.none)), ("genericTrap", some (.int 6)), ("specificTrap", some (.int 0)), ("ent", none), ("agent", none), ("gTrap", none), ("sTrap", none), ("ts", none), ("pdu", none)] snmpmanager_170.body h) := by
  rw [call.eq_1]; rfl
theorem call_snmpmanager_170_3 (x0 x1 x2 : V) (h : Heap) : call program cfg (.func .snmpmanager 170) [x0, x1, x2] h =
    result (block program cfg .snmpmanager [("self", some x0), ("varbindlist", some x1), ("version", some x2), ("enterprise", some (.str (lit ".1.3.6.1.4"))), ("agentAddr", some (.none)), ("genericTrap", some (.int 6)), ("specificTrap", some (.int 0)), ("ent", none), ("agent", none), ("gTrap", none), ("sTrap", none), ("ts", none), ("pdu", none)] snmpmanager_170.body h) := by
  rw [call.eq_1]; rfl
theorem call_snmpmanager_170_4 (x0 x1 x2 x3 : V) (h : Heap) : call program cfg (.func .snmpmanager 170) [x0, x1, x2, x3] h =
    result (block program cfg .snmpmanager [("self", some x0), ("varbindlist", some x1), ("version", some x2), ("enterprise", some x3), ("agentAddr", some (.none)), ("genericTrap", some (.int 6)), ("specificTrap", some (.int 0)), ("ent", none), ("agent", none), ("gTrap", none), ("sTrap", none), ("ts", none), ("pdu", none)] snmpmanager_170.body h) := by
  rw [call.eq_1]; rfl
theorem call_snmpmanager_170_5 (x0 x1 x2 x3 x4 : V) (h : Heap) : call program cfg (.func .snmpmanager 170) [x0, x1, x2, x3, x4] h =
    result (block program cfg .snmpmanager [("self", some x0), ("varbindlist", some x1), ("version", some x2), ("enterprise", some x3), ("agentAddr", some x4), ("genericTrap", some (.int 6)), ("specificTrap", some (.int 0)), ("ent", none), ("agent", none), ("gTrap", none), ("sTrap", none), ("ts", none), ("pdu", none)] snmpmanager_170.body h) := by
  rw [call.eq_1]; rfl
theorem call_snmpmanager_170_6 (x0 x1 x2 x3 x4 x5 : V) (h : Heap) : call program cfg (.func .snmpmanager 170) [x0, x1, x2, x3, x4, x5] h =
    result (block program cfg .snmpmanager [("self", some x0), ("varbindlist", some x1), ("version", some x2), ("enterprise", some x3), ("agentAddr", some x4), ("genericTrap", some x5), ("specificTrap", some (.int 0)), ("ent", none), ("agent", none), ("gTrap", none), ("sTrap", none), ("ts", none), ("pdu", none)] snmpmanager_170.body h) := by
  rw [call.eq_1]; rfl
theorem call_snmpmanager_170 (x0 x1 x2 x3 x4 x5 x6 : V) (h : Heap) : call program cfg (.func .snmpmanager 170) [x0, x1, x2, x3, x4, x5, x6] h =
    result (block program cfg .snmpmanager [("self", some x0), ("varbindlist", some x1), ("version", some x2), ("enterprise", some x3), ("agentAddr", some x4), ("genericTrap", some x5), ("specificTrap", some x6), ("ent", none), ("agent", none), ("gTrap", none), ("sTrap", none), ("ts", none), ("pdu", none)] snmpmanager_170.body h) := by
  rw [call.eq_1]; rfl
theorem call_snmpmanager_199_4 (x0 x1 x2 x3 : V) (h : Heap) : call program cfg (.func .snmpmanager 199) [x0, x1, x2, x3] h =
    result (block program cfg .snmpmanager [("self", some x0), ("oid", some x1), ("remote", some x2), ("callback", some x3), ("community", some (.str (lit "public"))), ("version", some (.int 2)), ("msg", none)] snmpmanager_199.body h) := by
  rw [call.eq_1]; rfl
theorem call_snmpmanager_199_5 (x0 x1 x2 x3 x4 : V) (h : Heap) : call program cfg (.func .snmpmanager 199) [x0, x1, x2, x3, x4] h =
    result (block program cfg .snmpmanager [("self", some x0), ("oid", some x1), ("remote", some x2), ("callback", some x3), ("community", some x4), ("version", some (.int 2)), ("msg", none)] snmpmanager_199.body h) := by
  rw [call.eq_1]; rfl
theorem call_snmpmanager_199 (x0 x1 x2 x3 x4 x5 : V) (h : Heap) : call program cfg (.func .snmpmanager 199) [x0, x1, x2, x3, x4, x5] h =
    result (block program cfg .snmpmanager [("self", some x0), ("oid", some x1), ("remote", some x2), ("callback", some x3), ("community", some x4), ("version", some x5), ("msg", none)] snmpmanager_199.body h) := by
  rw [call.eq_1]; rfl
theorem call_snmpmanager_215_4 (x0 x1 x2 x3 : V) (h : Heap) : call program cfg (.func .snmpmanager 215) [x0, x1, x2, x3] h =
    result (block program cfg .snmpmanager [("self", some x0), ("varbindlist", some x1), ("remote", some x2), ("callback", some x3), ("community", some (.str (lit "public"))), ("version", some (.int 2)), ("msg", none)] snmpmanager_215.body h) := by
  rw [call.eq_1]; rfl
theorem call_snmpmanager_215_5 (x0 x1 x2 x3 x4 : V) (h : Heap) : call program cfg (.func .snmpmanager 215) [x0, x1, x2, x3, x4] h =
    result (block program cfg .snmpmanager [("self", some x0), ("varbindlist", some x1), ("remote", some x2), ("callback", some x3), ("community", some x4), ("version", some (.int 2)), ("msg", none)] snmpmanager_215.body h) := by
  rw [call.eq_1]; rfl
theorem call_snmpmanager_215 (x0 x1 x2 x3 x4 x5 : V) (h : Heap) : call program cfg (.func .snmpmanager 215) [x0, x1, x2, x3, x4, x5] h =
    result (block program cfg .snmpmanager [("self", some x0), ("varbindlist", some x1), ("remote", some x2), ("callback", some x3), ("community", some x4), ("version", some x5), ("msg", none)] snmpmanager_215.body h) := by
  rw [call.eq_1]; rfl
theorem call_snmpmanager_230_6 (x0 x1 x2 x3 x4 x5 : V) (h : Heap) : call program cfg (.func .snmpmanager 230) [x0, x1, x2, x3, x4, x5] h =
    result (block program cfg .snmpmanager [("self", some x0), ("oid", some x1), ("valtype", some x2), ("value", some x3), ("remote", some x4), ("callback", some x5), ("community", some (.str (lit "public"))), ("version", some (.int 2)), ("msg", none)] snmpmanager_230.body h) := by
  rw [call.eq_1]; rfl
theorem call_snmpmanager_230_7 (x0 x1 x2 x3 x4 x5 x6 : V) (h : Heap) : call program cfg (.func .snmpmanager 230) [x0, x1, x2, x3, x4, x5, x6] h =
    result (block program cfg .snmpmanager [("self", some x0), ("oid", some x1), ("valtype", some x2), ("value", some x3), ("remote", some x4), ("callback", some x5), ("community", some x6), ("version", some (.int 2)), ("msg", none)] snmpmanager_230.body h) := by
  rw [call.eq_1]; rfl
theorem call_snmpmanager_230 (x0 x1 x2 x3 x4 x5 x6 x7 : V) (h : Heap) : call program cfg (.func .snmpmanager 230) [x0, x1, x2, x3, x4, x5, x6, x7] h =
    result (block program cfg .snmpmanager [("self", some x0), ("oid", some x1), ("valtype", some x2), ("value", some x3), ("remote", some x4), ("callback", some x5), ("community", some x6), ("version", some x7), ("msg", none)] snmpmanager_230.body h) := by
  rw [call.eq_1]; rfl
theorem call_snmpmanager_247_3 (x0 x1 x2 : V) (h : Heap) : call program cfg (.func .snmpmanager 247) [x0, x1, x2] h =
    result (block program cfg .snmpmanager [("self", some x0), ("remote", some x1), ("trapPDU", some x2), ("community", some (.str (lit "public"))), ("version", some (.int 2)), ("msg", none)] snmpmanager_247.body h) := by
  rw [call.eq_1]; rfl
theorem call_snmpmanager_247_4 (x0 x1 x2 x3 : V) (h : Heap) : call program cfg (.func .snmpmanager 247) [x0, x1, x2, x3] h =
    result (block program cfg .snmpmanager [("self", some x0), ("remote", some x1), ("trapPDU", some x2), ("community", some x3), ("version", some (.int 2)), ("msg", none)] snmpmanager_247.body h) := by
  rw [call.eq_1]; rfl
theorem call_snmpmanager_247 (x0 x1 x2 x3 x4 : V) (h : Heap) : call program cfg (.func .snmpmanager 247) [x0, x1, x2, x3, x4] h =
    result (block program cfg .snmpmanager [("self", some x0), ("remote", some x1), ("trapPDU", some x2), ("community", some x3), ("version", some x4), ("msg", none)] snmpmanager_247.body h) := by
  rw [call.eq_1]; rfl
theorem call_snmpmanager_254 (x0 x1 x2 x3 x4 : V) (h : Heap) : call program cfg (.func .snmpmanager 254) [x0, x1, x2, x3, x4] h =
    result (block program cfg .snmpmanager [("self", some x0), ("manager", some x1), ("cb_ctx", some x2), ("data_src_tuple", some x3), ("exc_tuple", some x4), ("data", none), ("src", none), ("exc_type", none), ("exc_value", none), ("exc_traceback", none), ("msg", none)] snmpmanager_254.body h) := by
  rw [call.eq_1]; rfl
theorem call_snmpmanager_284 (x0 x1 : V) (h : Heap) : call program cfg (.func .snmpmanager 284) [x0, x1] h =
    result (block program cfg .snmpmanager [("self", some x0), ("msg", some x1)] snmpmanager_284.body h) := by
  rw [call.eq_1]; rfl
theorem call_snmpmanager_300 (x0 x1 : V) (h : Heap) : call program cfg (.func .snmpmanager 300) [x0, x1] h =
    result (block program cfg .snmpmanager [("self", some x0), ("msg", some x1)] snmpmanager_300.body h) := by
  rw [call.eq_1]; rfl
theorem call_snmpmanager_316 (x0 x1 : V) (h : Heap) : call program cfg (.func .snmpmanager 316) [x0, x1] h =
    result (block program cfg .snmpmanager [("self", some x0), ("partialOID", some x1)] snmpmanager_316.body h) := by
  rw [call.eq_1]; rfl
theorem call_snmpmanager_322 (x0 : V) (h : Heap) : call program cfg (.func .snmpmanager 322) [x0] h =
    result (block program cfg .snmpmanager [("self", some x0), ("request", none)] snmpmanager_322.body h) := by
  rw [call.eq_1]; rfl
theorem call_snmpmanager_344 (x0 : V) (h : Heap) : call program cfg (.func .snmpmanager 344) [x0] h =
    result (block program cfg .snmpmanager [("self", some x0), ("uptime", none), ("upsecs", none)] snmpmanager_344.body h) := by
  rw [call.eq_1]; rfl
theorem call_snmpmanager_361 (x0 x1 : V) (h : Heap) : call program cfg (.func .snmpmanager 361) [x0, x1] h =
    result (block program cfg .snmpmanager [("self", some x0), ("typestring", some x1)] snmpmanager_361.body h) := by
  rw [call.eq_1]; rfl

/-! ## Formats -/

@[src] theorem pieces_0 : pieces ((lit "%.2x").length + 1) (lit "%.2x") =
    some [.conv 0 (some 2) 120] := by decide +kernel
@[src] theorem pieces_1 : pieces ((lit "%.4s,").length + 1) (lit "%.4s,") =
    some [.conv 0 (some 4) 115, .text (lit ",")] := by decide +kernel
@[src] theorem pieces_2 : pieces ((lit "stream should be of type StringType, not %s").length + 1) (lit "stream should be of type StringType, not %s") =
    some [.text (lit "stream should be of type StringType, not "), .conv 0 none 115] := by decide +kernel
@[src] theorem pieces_3 : pieces ((lit "Unknown ASN.1 Type %d").length + 1) (lit "Unknown ASN.1 Type %d") =
    some [.text (lit "Unknown ASN.1 Type "), .conv 0 none 100] := by decide +kernel
@[src] theorem pieces_4 : pieces ((lit "Long length encoding required for length of %d").length + 1) (lit "Long length encoding required for length of %d") =
    some [.text (lit "Long length encoding required for length of "), .conv 0 none 100] := by decide +kernel
@[src] theorem pieces_5 : pieces ((lit "long length encoding of: %d octets").length + 1) (lit "long length encoding of: %d octets") =
    some [.text (lit "long length encoding of: "), .conv 0 none 100, .text (lit " octets")] := by decide +kernel
@[src] theorem pieces_6 : pieces ((lit "minval: %d").length + 1) (lit "minval: %d") =
    some [.text (lit "minval: "), .conv 0 none 100] := by decide +kernel
@[src] theorem pieces_7 : pieces ((lit "maxval: %d").length + 1) (lit "maxval: %d") =
    some [.text (lit "maxval: "), .conv 0 none 100] := by decide +kernel
@[src] theorem pieces_8 : pieces ((lit "Integer value of %d is out of bounds").length + 1) (lit "Integer value of %d is out of bounds") =
    some [.text (lit "Integer value of "), .conv 0 none 100, .text (lit " is out of bounds")] := by decide +kernel
@[src] theorem pieces_9 : pieces ((lit "%d").length + 1) (lit "%d") =
    some [.conv 0 none 100] := by decide +kernel
@[src] theorem pieces_10 : pieces ((lit "Decoding %s").length + 1) (lit "Decoding %s") =
    some [.text (lit "Decoding "), .conv 0 none 115] := by decide +kernel
@[src] theorem pieces_11 : pieces ((lit "decoded as: %d").length + 1) (lit "decoded as: %d") =
    some [.text (lit "decoded as: "), .conv 0 none 100] := by decide +kernel
@[src] theorem pieces_12 : pieces ((lit "%.2X").length + 1) (lit "%.2X") =
    some [.conv 0 (some 2) 88] := by decide +kernel
@[src] theorem pieces_13 : pieces ((lit "%3o").length + 1) (lit "%3o") =
    some [.conv 3 none 111] := by decide +kernel
@[src] theorem pieces_14 : pieces ((lit "Attempt to compare ObjectID with non-ObjectID: %s").length + 1) (lit "Attempt to compare ObjectID with non-ObjectID: %s") =
    some [.text (lit "Attempt to compare ObjectID with non-ObjectID: "), .conv 0 none 115] := by decide +kernel
@[src] theorem pieces_15 : pieces ((lit "stream of zero length in %s").length + 1) (lit "stream of zero length in %s") =
    some [.text (lit "stream of zero length in "), .conv 0 none 115] := by decide +kernel
@[src] theorem pieces_16 : pieces ((lit "Input stream too long for %s").length + 1) (lit "Input stream too long for %s") =
    some [.text (lit "Input stream too long for "), .conv 0 none 115] := by decide +kernel
@[src] theorem pieces_17 : pieces ((lit "%s").length + 1) (lit "%s") =
    some [.conv 0 none 115] := by decide +kernel
@[src] theorem pieces_18 : pieces ((lit "%s: cannot contain components of type: %s").length + 1) (lit "%s: cannot contain components of type: %s") =
    some [.conv 0 none 115, .text (lit ": cannot contain components of type: "), .conv 0 none 115] := by decide +kernel
@[src] theorem pieces_19 : pieces ((lit "%d: %s").length + 1) (lit "%d: %s") =
    some [.conv 0 none 100, .text (lit ": "), .conv 0 none 115] := by decide +kernel
@[src] theorem pieces_20 : pieces ((lit "[%s, ").length + 1) (lit "[%s, ") =
    some [.text (lit "["), .conv 0 none 115, .text (lit ", ")] := by decide +kernel
@[src] theorem pieces_21 : pieces ((lit "%s, ").length + 1) (lit "%s, ") =
    some [.conv 0 none 115, .text (lit ", ")] := by decide +kernel
@[src] theorem pieces_22 : pieces ((lit "%s]").length + 1) (lit "%s]") =
    some [.conv 0 none 115, .text (lit "]")] := by decide +kernel
@[src] theorem pieces_23 : pieces ((lit "Malformed Message: More than one object decoded.").length + 1) (lit "Malformed Message: More than one object decoded.") =
    some [.text (lit "Malformed Message: More than one object decoded.")] := by decide +kernel
@[src] theorem pieces_24 : pieces ((lit "Malformed Message: Incorrect sequence length %d").length + 1) (lit "Malformed Message: Incorrect sequence length %d") =
    some [.text (lit "Malformed Message: Incorrect sequence length "), .conv 0 none 100] := by decide +kernel
@[src] theorem pieces_25 : pieces ((lit "Malformed PDU: Incorrect length %d").length + 1) (lit "Malformed PDU: Incorrect length %d") =
    some [.text (lit "Malformed PDU: Incorrect length "), .conv 0 none 100] := by decide +kernel
@[src] theorem pieces_26 : pieces ((lit "%s: %d (%s)").length + 1) (lit "%s: %d (%s)") =
    some [.conv 0 none 115, .text (lit ": "), .conv 0 none 100, .text (lit " ("), .conv 0 none 115, .text (lit ")")] := by decide +kernel
@[src] theorem pieces_27 : pieces ((lit "Malformed TrapPDU: Incorrect length %d").length + 1) (lit "Malformed TrapPDU: Incorrect length %d") =
    some [.text (lit "Malformed TrapPDU: Incorrect length "), .conv 0 none 100] := by decide +kernel
@[src] theorem pieces_28 : pieces ((lit "A VarBindList must be shorter than %d").length + 1) (lit "A VarBindList must be shorter than %d") =
    some [.text (lit "A VarBindList must be shorter than "), .conv 0 none 100] := by decide +kernel
@[src] theorem pieces_29 : pieces ((lit "errorIndex must be <= %d").length + 1) (lit "errorIndex must be <= %d") =
    some [.text (lit "errorIndex must be <= "), .conv 0 none 100] := by decide +kernel
@[src] theorem pieces_30 : pieces ((lit "nonRepeaters must be <= %d").length + 1) (lit "nonRepeaters must be <= %d") =
    some [.text (lit "nonRepeaters must be <= "), .conv 0 none 100] := by decide +kernel
@[src] theorem pieces_31 : pieces ((lit "Malformed BulkPDU: Incorrect length %d").length + 1) (lit "Malformed BulkPDU: Incorrect length %d") =
    some [.text (lit "Malformed BulkPDU: Incorrect length "), .conv 0 none 100] := by decide +kernel
@[src] theorem pieces_32 : pieces ((lit "Unknown message version %d detected").length + 1) (lit "Unknown message version %d detected") =
    some [.text (lit "Unknown message version "), .conv 0 none 100, .text (lit " detected")] := by decide +kernel
@[src] theorem pieces_33 : pieces ((lit "version is a %s").length + 1) (lit "version is a %s") =
    some [.text (lit "version is a "), .conv 0 none 115] := by decide +kernel
@[src] theorem pieces_34 : pieces ((lit "Exception in receiveData: %s").length + 1) (lit "Exception in receiveData: %s") =
    some [.text (lit "Exception in receiveData: "), .conv 0 none 115] := by decide +kernel
@[src] theorem pieces_35 : pieces ((lit "Unknown version %d").length + 1) (lit "Unknown version %d") =
    some [.text (lit "Unknown version "), .conv 0 none 100] := by decide +kernel

end Libsnmp.Src
