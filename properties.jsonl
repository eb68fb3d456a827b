{"id": "C01", "title": "Length octets round-trip", "statement": "Decoding the length field produced for a contents of n octets, followed by any further data, yields exactly n and exactly the further data.", "quantifier": "every length n < 256^127 (so every length a Python str can have) and every trailing stream", "why_tests_cant": "there are 2^63 possible lengths and unboundedly many suffixes; the boundary between short and long form (127/128) and each extra length octet behave differently", "anchors": ["lib/libsnmp/rfc1155.py:Asn1Object.encodeLength", "lib/libsnmp/rfc1155.py:Asn1Object.decodeLength"]}
{"id": "C02", "title": "Length octets are well-formed BER", "statement": "The emitted length field consists of octets only, is definite form, uses the one-octet form for every length up to 126, and otherwise a first octet 128+k followed by exactly k octets with no leading zero that spell the length in base 256; the indefinite form 0x80 is never emitted.", "quantifier": "every length n < 256^127", "why_tests_cant": "only a sample of lengths can be tried; peers reject non-definite or mis-counted length fields", "anchors": ["lib/libsnmp/rfc1155.py:Asn1Object.encodeLength"]}
{"id": "C03", "title": "decodeLength is exactly the definite-length rule", "statement": "On any stream decodeLength either raises IndexError, exactly when the stream is empty or ends inside the announced length octets, or returns the announced length and the untouched rest of the stream.", "quantifier": "every stream of characters", "why_tests_cant": "adversarial streams are unbounded; the error condition has to be exact", "anchors": ["lib/libsnmp/rfc1155.py:Asn1Object.decodeLength"]}
{"id": "C04", "title": "decodeTag reads one identifier and no more", "statement": "A one-octet identifier is returned verbatim; an identifier with low five bits all ones is the base-128 value of the following octets up to the first one below 128; IndexError is raised exactly when the stream ends before the identifier does; the rest of the stream is untouched. (The class and format bits of a high-form identifier are dropped, so it can alias a one-octet identifier.)", "quantifier": "every stream of characters", "why_tests_cant": "identifiers have unbounded length", "anchors": ["lib/libsnmp/rfc1155.py:Asn1Object.decodeTag"]}
{"id": "C05", "title": "Identifier octet of every type", "statement": "Every concrete SNMP type is encoded with the single identifier octet the RFCs assign to it; the exceptions in this code are Counter64 (emits 0x07 rather than 0x46), Opaque (0x04 rather than 0x44), the SNMPv1 Response PDU (0xA0 rather than 0xA2) and the three SNMPv2 exception values (0x05). For a user-defined subclass with tag number 31 or more, encode() never returns.", "quantifier": "every class in the library, and every user-defined (class, format, number) triple", "why_tests_cant": "non-termination cannot be observed by a test; the table must be total over classes", "anchors": ["lib/libsnmp/rfc1155.py:Asn1Object.encodeIdentifier", "lib/libsnmp/rfc1155.py:asnTagNumbers", "lib/libsnmp/rfc1157.py:Response", "lib/libsnmp/rfc1902.py:Counter64", "lib/libsnmp/rfc1905.py:NoSuchObject"]}
{"id": "C06", "title": "Integer contents decode as two's complement", "statement": "Decoding the contents octets of an Integer yields the two's complement value of the octets, whatever their number; an empty contents raises IndexError.", "quantifier": "every octet string", "why_tests_cant": "2^32 four-octet inputs, unboundedly many longer ones", "anchors": ["lib/libsnmp/rfc1155.py:Integer.decodeContents"]}
{"id": "C07", "title": "The four integer decoders agree", "statement": "decodeContents, decodeTwosInteger1, decodeTwosInteger2 and decodeTwosInteger3 return the same integer on the same octets and all raise IndexError on an empty stream.", "quantifier": "every octet string", "why_tests_cant": "equality of four algorithms over an unbounded domain", "anchors": ["lib/libsnmp/rfc1155.py:Integer.decodeContents", "lib/libsnmp/rfc1155.py:Integer.decodeTwosInteger1", "lib/libsnmp/rfc1155.py:Integer.decodeTwosInteger2", "lib/libsnmp/rfc1155.py:Integer.decodeTwosInteger3"]}
{"id": "C08", "title": "Integer contents round-trip", "statement": "Decoding the contents octets emitted for an integer returns that integer. In this code the property is false exactly for negative values in [-256^k, -256^k/2 - 1] (e.g. -129..-256), which come back increased by 256^k.", "quantifier": "every integer, of any magnitude", "why_tests_cant": "2^32 valid values and the failing band is hit by no example in the test-suite", "anchors": ["lib/libsnmp/rfc1155.py:Integer.encodeContents", "lib/libsnmp/rfc1155.py:Integer.decodeContents"]}
{"id": "C09", "title": "Integer contents are minimal octets", "statement": "The emitted contents of an Integer is a non-empty string of octets, and unless the value lies in the failing band of C08 no shorter octet string has that two's complement value; a value within the 32-bit signed range takes at most 4 octets (5 for unsigned 32-bit).", "quantifier": "every integer", "why_tests_cant": "minimality quantifies over all shorter strings", "anchors": ["lib/libsnmp/rfc1155.py:Integer.encodeContents"]}
{"id": "C10", "title": "Counters decode as unsigned", "statement": "Decoding the contents of a Counter of at most 4 octets always gives a value in [0, 2^32-1], equal to the two's complement value modulo 2^32; in particular a 4-octet contents is read as an unsigned 32-bit number even when the agent encoded it as a negative one.", "quantifier": "every octet string of length 1 to 4 (and the precise formula for longer ones)", "why_tests_cant": "4 billion contents", "anchors": ["lib/libsnmp/rfc1155.py:Counter.decodeContents"]}
{"id": "C11", "title": "ObjectID contents round-trip", "statement": "For an ObjectID of at least two non-negative sub-identifiers, decoding the emitted contents gives the same sub-identifier list if and only if the second sub-identifier is below 40 and 40*first+second is below 128; sub-identifiers of any size survive. Outside that region the decoder raises NotImplementedError or silently returns a different ObjectID.", "quantifier": "every list of natural numbers", "why_tests_cant": "unbounded lists of unbounded numbers", "anchors": ["lib/libsnmp/rfc1155.py:ObjectID.encodeContents", "lib/libsnmp/rfc1155.py:ObjectID.decodeContents"]}
{"id": "C12", "title": "ObjectID encoding errors", "statement": "Encoding an ObjectID raises IndexError exactly when it has fewer than two sub-identifiers and TypeError exactly when it has no value; in all other cases it returns octets.", "quantifier": "every ObjectID value, including empty, unset and negative sub-identifiers", "why_tests_cant": "the domain is unbounded", "anchors": ["lib/libsnmp/rfc1155.py:ObjectID.encodeContents"]}
{"id": "C13", "title": "ObjectID contents decode exactly per X.690 groups", "statement": "On any octet contents the decoder returns the first octet split by 40 followed by the base-128 groups; it raises ValueError exactly on an empty contents, NotImplementedError exactly when the first octet is 128 or more, and IndexError exactly when the last group is unterminated.", "quantifier": "every octet string", "why_tests_cant": "adversarial contents are unbounded", "anchors": ["lib/libsnmp/rfc1155.py:ObjectID.decodeContents"]}
{"id": "C14", "title": "ObjectID re-encoding", "statement": "Re-encoding a successfully decoded ObjectID reproduces the contents octets exactly when every sub-identifier group was minimal (no leading 0x80).", "quantifier": "every octet string the decoder accepts", "why_tests_cant": "unbounded domain", "anchors": ["lib/libsnmp/rfc1155.py:ObjectID.encodeContents", "lib/libsnmp/rfc1155.py:ObjectID.decodeContents"]}
{"id": "C15", "title": "ObjectID text round-trip", "statement": "str() of an ObjectID is its dotted decimal form with a leading dot, and constructing an ObjectID from that text (with or without the leading dot) gives back the same ObjectID, for every non-empty ObjectID with sub-identifiers in 0..2^31-1.", "quantifier": "every such list of sub-identifiers", "why_tests_cant": "unbounded domain of texts and lists", "anchors": ["lib/libsnmp/rfc1155.py:ObjectID.__init__", "lib/libsnmp/rfc1155.py:ObjectID.__str__"]}
{"id": "C16", "title": "ObjectID text validation", "statement": "Constructing an ObjectID from text either raises ValueError or yields a non-empty ObjectID all of whose sub-identifiers lie in 0..2^31-1; a list, tuple or int argument is taken unchecked.", "quantifier": "every text, list, tuple, int", "why_tests_cant": "the set of texts is unbounded", "anchors": ["lib/libsnmp/rfc1155.py:ObjectID.__init__"]}
{"id": "C17", "title": "isPrefixOf is the prefix order", "statement": "a.isPrefixOf(b) is True exactly when b's sub-identifiers start with a's; hence it is reflexive, transitive and antisymmetric, and an unset ObjectID is a prefix of everything.", "quantifier": "every pair of ObjectIDs", "why_tests_cant": "order laws quantify over all pairs and triples", "anchors": ["lib/libsnmp/rfc1155.py:ObjectID.isPrefixOf", "lib/libsnmp/rfc1155.py:ObjectID.__len__"]}
{"id": "C18", "title": "OctetString is binary transparent", "statement": "The contents of an OctetString is emitted unchanged and read back unchanged, whatever characters it holds, including embedded NULs and bytes that look like BER.", "quantifier": "every string", "why_tests_cant": "unbounded domain", "anchors": ["lib/libsnmp/rfc1155.py:OctetString.encodeContents", "lib/libsnmp/rfc1155.py:OctetString.decodeContents"]}
{"id": "C19", "title": "Whole-object round-trip", "statement": "decode(x.encode() + rest) returns x (with the class the registry assigns to x's identifier octet) followed by the objects in rest, for every object tree built from well-formed values nested to any depth.", "quantifier": "every well-formed object tree, every trailing stream, every import state of the library", "why_tests_cant": "object trees are unbounded in depth and width", "anchors": ["lib/libsnmp/rfc1155.py:Asn1Object.encode", "lib/libsnmp/rfc1155.py:Asn1Object.decode", "lib/libsnmp/rfc1155.py:Sequence.encodeContents", "lib/libsnmp/rfc1155.py:Sequence.decodeContents", "lib/libsnmp/rfc1155.py:tagDecodeDict"]}
{"id": "C20", "title": "Every valid BER encoding is accepted", "statement": "decode() accepts every definite-length BER encoding of an SNMP value, whatever legal length form or padding the peer chose, and returns the value encoded; not only the octets this library would have produced.", "quantifier": "every SNMP abstract value and every definite-length encoding of it", "why_tests_cant": "each value has infinitely many encodings", "anchors": ["lib/libsnmp/rfc1155.py:Asn1Object.decode"]}
{"id": "C21", "title": "encode emits valid BER", "statement": "encode() of a well-formed object is a valid definite-length BER encoding of its abstract value.", "quantifier": "every well-formed object tree", "why_tests_cant": "unbounded object trees", "anchors": ["lib/libsnmp/rfc1155.py:Asn1Object.encode"]}
{"id": "C22", "title": "Encodings are uniquely decodable", "statement": "Two well-formed objects of the same registry class with the same encoding are equal, and no encoding of a well-formed object is a proper prefix of another one's.", "quantifier": "every pair of well-formed objects", "why_tests_cant": "quantifies over all pairs", "anchors": ["lib/libsnmp/rfc1155.py:Asn1Object.encode"]}
{"id": "C23", "title": "decode always terminates, with a known exception set", "statement": "On every str input decode() returns a list of objects or raises one of ValueError, TypeError, IndexError, NotImplementedError, PDUError; on any other input type it raises TypeError; it yields at most one object per two characters of input.", "quantifier": "every input", "why_tests_cant": "a test cannot establish termination or the absence of other exceptions for all inputs", "anchors": ["lib/libsnmp/rfc1155.py:Asn1Object.decode"]}
{"id": "C24", "title": "Unknown tags are rejected", "statement": "A stream whose next identifier is not in the registry makes decode() raise ValueError if the identifier and length are complete; no object with an unregistered identifier is ever returned.", "quantifier": "every stream", "why_tests_cant": "the set of identifiers is unbounded", "anchors": ["lib/libsnmp/rfc1155.py:Asn1Object.decode", "lib/libsnmp/rfc1155.py:tagDecodeDict"]}
{"id": "C25", "title": "Truncated values are detected", "statement": "A stream that announces more contents octets than are present is rejected. In this code the property is false: the truncated contents is decoded as if it were complete.", "quantifier": "every encoding and every proper prefix of it", "why_tests_cant": "every cut point of every message", "anchors": ["lib/libsnmp/rfc1155.py:Asn1Object.decode"]}
{"id": "C26", "title": "Concatenated encodings decode independently", "statement": "Decoding the concatenation of complete encodings yields the concatenation of the decodings, and a Sequence's contents is the concatenation of its elements' encodings in order.", "quantifier": "every list of well-formed objects", "why_tests_cant": "unbounded lists", "anchors": ["lib/libsnmp/rfc1155.py:Sequence.encodeContents", "lib/libsnmp/rfc1155.py:Asn1Object.decode"]}
{"id": "C27", "title": "PDU round-trip", "statement": "Encoding and decoding a PDU preserves its kind, request ID, error status, error index (or non-repeaters and max-repetitions) and the variable bindings in order, for every PDU kind except the SNMPv1 Response, which comes back as a Get.", "quantifier": "every PDU kind, every 32-bit field values outside the failing band, every list of variable bindings", "why_tests_cant": "unbounded variable-binding lists and 2^96 field values", "anchors": ["lib/libsnmp/rfc1157.py:PDU", "lib/libsnmp/rfc1905.py:PDU", "lib/libsnmp/rfc1905.py:BulkPDU"]}
{"id": "C28", "title": "Decoded PDUs are well-formed", "statement": "Every PDU returned by decode() has integer request ID, error status and error index within range, and a variable-binding list each of whose elements is a name/value pair; a PDU sequence without exactly four components is rejected with PDUError.", "quantifier": "every input stream", "why_tests_cant": "must hold for adversarial input", "anchors": ["lib/libsnmp/rfc1157.py:PDU.decodeContents", "lib/libsnmp/rfc1905.py:BulkPDU.decodeContents"]}
{"id": "C29", "title": "Trap PDU round-trip", "statement": "Encoding and decoding an SNMPv1 Trap PDU preserves enterprise, agent address, generic trap, specific trap, time stamp and variable bindings.", "quantifier": "every well-formed trap", "why_tests_cant": "unbounded domain", "anchors": ["lib/libsnmp/rfc1157.py:TrapPDU"]}
{"id": "C30", "title": "Message round-trip", "statement": "Message().decode(Message(version, community, pdu).encode()) has the same version, community and PDU.", "quantifier": "every version, community string and PDU", "why_tests_cant": "unbounded domain", "anchors": ["lib/libsnmp/rfc1157.py:Message"]}
{"id": "C31", "title": "Message framing is enforced", "statement": "Message.decode succeeds only if the stream holds exactly one object and that object has exactly three components; otherwise it raises (TypeError for the wrong number of objects - the MessageError cannot be built - and MessageError for the wrong number of components). A three-arc ObjectID is also accepted as a message.", "quantifier": "every stream", "why_tests_cant": "must hold for adversarial input", "anchors": ["lib/libsnmp/rfc1157.py:Message.decode"]}
{"id": "C32", "title": "Constructors enforce integer ranges", "statement": "Constructing an Integer, Counter, Guage, TimeTicks, ErrorStatus, GenericTrap, Integer32 or Counter64 succeeds exactly for ints within the class bounds and raises ValueError for all other ints. The bounds are the RFC's except Integer32, whose upper bound is 2^31.", "quantifier": "every class and every int", "why_tests_cant": "unbounded ints", "anchors": ["lib/libsnmp/rfc1155.py:Integer.__init__", "lib/libsnmp/rfc1902.py:Integer32"]}
{"id": "C33", "title": "Integer arithmetic", "statement": "a + b on Integers returns a new object of a's class holding the sum, or raises ValueError if the sum is out of bounds, leaving a unchanged; a - b should hold the difference, but in this code it holds the sum.", "quantifier": "every pair of values", "why_tests_cant": "unbounded pairs", "anchors": ["lib/libsnmp/rfc1155.py:Integer.__add__", "lib/libsnmp/rfc1155.py:Integer.__sub__"]}
{"id": "C34", "title": "Counter wraps", "statement": "Over any history of non-negative increments of at most the maximum, a Counter stays within [0, max] and equals the sum of increments wrapped; the wrap modulus in this code is 2^32-1, not 2^32, and the counter passes from the maximum to 1, not to 0.", "quantifier": "every history of increments", "why_tests_cant": "histories are unbounded; the error shows only at the wrap", "anchors": ["lib/libsnmp/rfc1155.py:Counter.__add__"]}
{"id": "C35", "title": "Guage latches", "statement": "Over any history of non-negative additions and subtractions a Guage stays within [0, 2^32-1]; each addition gives min(value+n, max) and each subtraction max(value-n, 0).", "quantifier": "every history of operations", "why_tests_cant": "unbounded histories", "anchors": ["lib/libsnmp/rfc1155.py:Guage.__add__", "lib/libsnmp/rfc1155.py:Guage.__sub__"]}
{"id": "C36", "title": "Equality and hashing of integers", "statement": "== on Integer-family objects is an equivalence relation (equality of values across classes) consistent with hash(), so such objects can be dictionary keys.", "quantifier": "every pair and triple of Integer-family objects", "why_tests_cant": "relation laws quantify over all triples", "anchors": ["lib/libsnmp/rfc1155.py:Integer.__eq__", "lib/libsnmp/rfc1155.py:Integer.__hash__"]}
{"id": "C37", "title": "Equality of other objects", "statement": "== on SNMP objects is reflexive, and symmetric and transitive wherever it returns; non-integer objects are equal exactly when they have the same class and equal values; != is its negation. Comparing an Integer with a non-numeric object raises TypeError while the reversed comparison returns False. (OctetStrings made to hold an Integer object are compared through that number and are left out of the laws.)", "quantifier": "every pair and triple of objects, nested to any depth", "why_tests_cant": "relation laws quantify over all triples of unbounded trees", "anchors": ["lib/libsnmp/rfc1155.py:Asn1Object.__eq__", "lib/libsnmp/rfc1155.py:Asn1Object.__ne__"]}
{"id": "C38", "title": "ObjectIDs do not share storage", "statement": "Mutating an ObjectID (append, extend, del) never changes another ObjectID nor the list it was built from, whatever sequence of constructions, copies, slices and mutations preceded.", "quantifier": "every history of operations on every set of objects", "why_tests_cant": "aliasing bugs depend on the history", "anchors": ["lib/libsnmp/rfc1155.py:ObjectID.__init__", "lib/libsnmp/rfc1155.py:ObjectID.copy", "lib/libsnmp/rfc1155.py:ObjectID.append", "lib/libsnmp/rfc1155.py:ObjectID.extend", "lib/libsnmp/rfc1155.py:ObjectID.__getitem__", "lib/libsnmp/rfc1155.py:ObjectID.toObjectID"]}
{"id": "C39", "title": "Default arguments are not shared", "statement": "PDUs and variable-binding lists built with default arguments start empty and never share their list with another object, whatever was appended to earlier ones; a plain Sequence built from a list does share that list with its caller.", "quantifier": "every history of constructions and appends", "why_tests_cant": "mutable-default bugs depend on the history", "anchors": ["lib/libsnmp/rfc1157.py:VarBindList.__init__", "lib/libsnmp/rfc1157.py:PDU.__init__", "lib/libsnmp/rfc1155.py:SequenceOf.__init__", "lib/libsnmp/rfc1155.py:Sequence.__init__"]}
{"id": "C40", "title": "SequenceOf only holds its component type", "statement": "After any history of constructions and appends every element of a SequenceOf is an instance of its component type; a rejected append raises ValueError and leaves the list unchanged.", "quantifier": "every history", "why_tests_cant": "unbounded histories", "anchors": ["lib/libsnmp/rfc1155.py:SequenceOf.__init__", "lib/libsnmp/rfc1155.py:SequenceOf.append"]}
{"id": "C41", "title": "IPAddress text round-trip", "statement": "str(IPAddress(t)) is the dotted form, and IPAddress(str(a)) holds the same four octets; construction succeeds exactly for four dot-separated integers acceptable to chr(), so components above 255 are accepted and produce non-octets.", "quantifier": "every four octets, every text", "why_tests_cant": "2^32 addresses and unboundedly many texts", "anchors": ["lib/libsnmp/rfc1155.py:IPAddress.__init__", "lib/libsnmp/rfc1155.py:IPAddress.__str__"]}
{"id": "C42", "title": "Hex dump is faithful", "statement": "octetsToHex yields exactly two lower-case hex digits per octet and is injective on octet strings; octetsToOct truncates and is not injective.", "quantifier": "every octet string", "why_tests_cant": "injectivity quantifies over all pairs", "anchors": ["lib/libsnmp/util.py:octetsToHex", "lib/libsnmp/util.py:octetsToOct"]}
{"id": "C43", "title": "Request IDs are unique", "statement": "Over any single-threaded history of one manager object, no two requests ever get the same request ID: the n-th ID assigned is n-1, whatever calls failed in between.", "quantifier": "every history of API calls, received datagrams and callbacks", "why_tests_cant": "histories are unbounded", "anchors": ["lib/libsnmp/v1.py:SNMP.assignRequestID", "lib/libsnmp/snmpmanager.py:snmpManager.assignRequestID"]}
{"id": "C44", "title": "Request IDs run out", "statement": "Once 2^31 (v1) or 2^31+1 (v2) IDs have been assigned every further request raises ValueError and queues nothing.", "quantifier": "every history long enough", "why_tests_cant": "no test can issue 2^31 requests", "anchors": ["lib/libsnmp/v1.py:SNMP.createGetRequestPDU", "lib/libsnmp/rfc1157.py:PDU.__init__", "lib/libsnmp/rfc1902.py:Integer32"]}
{"id": "C45", "title": "Outbound messages leave in order, once", "statement": "Over any history every message queued by a request or trap call is taken by run() exactly once, in the order queued, addressed to the remote given in the call; a message is never taken before it was queued.", "quantifier": "every history of API calls, callbacks and loop iterations", "why_tests_cant": "unbounded histories", "anchors": ["lib/libsnmp/v1.py:SNMP.run", "lib/libsnmp/snmpmanager.py:snmpManager.run", "lib/libsnmp/v1.py:SNMP.snmpGet"]}
{"id": "C46", "title": "Responses reach the right callback", "statement": "A PDU received with a request ID invokes exactly the callback registered by the request that was given that ID, with the decoded message, and no other callback.", "quantifier": "every history, every received datagram", "why_tests_cant": "unbounded histories and adversarial datagrams", "anchors": ["lib/libsnmp/v1.py:SNMP.receiveData", "lib/libsnmp/v2.py:SNMP.receiveData", "lib/libsnmp/snmpmanager.py:snmpManager.handleV1Message", "lib/libsnmp/snmpmanager.py:snmpManager.handleV2Message"]}
{"id": "C47", "title": "A callback completes at most once", "statement": "Over any history in which callbacks do not themselves receive data or run the loop, a request's callback returns normally at most once; in every history, once it has returned normally and its entry is removed, a further response with the same ID invokes nothing. A callback that raises stays registered and may be invoked again; a callback that itself receives a duplicate of its response completes twice.", "quantifier": "every history with duplicated, reordered and forged responses", "why_tests_cant": "unbounded histories", "anchors": ["lib/libsnmp/v1.py:SNMP.receiveData", "lib/libsnmp/v2.py:SNMP.receiveData", "lib/libsnmp/snmpmanager.py:snmpManager.receiveData"]}
{"id": "C48", "title": "Unsolicited datagrams change nothing", "statement": "A datagram that does not decode, has an unknown version, or carries a request ID that is not pending leaves the outbound queue, the pending callbacks and the ID counter unchanged.", "quantifier": "every state and datagram", "why_tests_cant": "adversarial datagrams", "anchors": ["lib/libsnmp/v1.py:SNMP.receiveData", "lib/libsnmp/v2.py:SNMP.receiveData", "lib/libsnmp/snmpmanager.py:snmpManager.receiveData"]}
{"id": "C49", "title": "v2 managers survive any datagram", "statement": "v2.SNMP.receiveData never raises an Exception on any received data, whatever it contains and whatever the callback does (SystemExit and KeyboardInterrupt raised by a callback pass through); v1.SNMP and snmpManager raise for every undecodable or unsolicited datagram, and that exception ends run().", "quantifier": "every state, datagram and callback behaviour", "why_tests_cant": "adversarial input", "anchors": ["lib/libsnmp/v2.py:SNMP.receiveData", "lib/libsnmp/v1.py:SNMP.receiveData", "lib/libsnmp/snmpmanager.py:snmpManager.receiveData", "lib/libsnmp/asynrole.py:Manager.handle_error"]}
{"id": "C50", "title": "Failed requests register nothing", "statement": "If a request call raises, no message is queued and no callback is registered.", "quantifier": "every state and argument", "why_tests_cant": "all failure points", "anchors": ["lib/libsnmp/v1.py:SNMP.snmpGet", "lib/libsnmp/v1.py:SNMP.snmpGetNext", "lib/libsnmp/snmpmanager.py:snmpManager.snmpSet"]}
{"id": "C51", "title": "Requests carry what was asked", "statement": "The message queued by a successful request has the caller's community and remote, the requested variable bindings, and the PDU kind of the call. In this code v1.SNMP.snmpSet queues a GetNext.", "quantifier": "every argument", "why_tests_cant": "unbounded arguments", "anchors": ["lib/libsnmp/v1.py:SNMP.snmpGet", "lib/libsnmp/v1.py:SNMP.snmpGetNext", "lib/libsnmp/v1.py:SNMP.snmpSet", "lib/libsnmp/snmpmanager.py:snmpManager.snmpSet"]}
{"id": "C52", "title": "API calls that cannot succeed", "statement": "v2.SNMP.snmpGetNext and snmpSet, and snmpManager.snmpTrap with version 1 or 2, raise AttributeError for every argument and state and queue nothing (v2 snmpSet still consumes a request ID); ErrorStatus.enum always raises TypeError; the rfc1902/rfc1905 OctetString constructor never returns a value. snmpManager.snmpSet of an OctetString or Opaque with a value that is no text (int, None, bytes, list, SNMP object) is accepted: it returns a request ID, queues and registers, and the turn of the loop that takes the message raises TypeError with nothing sent.", "quantifier": "every state and argument", "why_tests_cant": "a universally failing call", "anchors": ["lib/libsnmp/v2.py:SNMP.createGetNextRequestMessage", "lib/libsnmp/v2.py:SNMP.snmpSet", "lib/libsnmp/snmpmanager.py:snmpManager.createTrapMessage", "lib/libsnmp/rfc1157.py:ErrorStatus.enum", "lib/libsnmp/rfc1902.py:OctetString", "lib/libsnmp/snmpmanager.py:snmpManager.createSetRequestMessage"]}
{"id": "C53", "title": "Trap dispatch", "statement": "A received SNMPv1 Trap-PDU invokes the trap callback exactly once and leaves queue, callbacks and counter as the trap callback leaves them; with no trap callback it raises TypeError. snmpManager raises AttributeError for a Trap-PDU in a version 1 (SNMPv2c) message. An SNMPv2-Trap PDU (0xa7) is never treated as a trap: every class looks up its request ID as if it were a response.", "quantifier": "every state and trap datagram", "why_tests_cant": "unbounded domain", "anchors": ["lib/libsnmp/v1.py:SNMP.receiveData", "lib/libsnmp/snmpmanager.py:snmpManager.handleV2Message"]}
{"id": "C54", "title": "Python 3 datagrams", "statement": "Data as delivered by the socket (bytes) is never dispatched to any callback - receiveData raises TypeError, which v2.SNMP swallows - and no queued message can be handed to the socket: an encoded message is a str, send raises TypeError and the message is lost.", "quantifier": "every state and every bytes object", "why_tests_cant": "universal over datagrams", "anchors": ["lib/libsnmp/asynrole.py:Manager.handle_read", "lib/libsnmp/role.py:manager.read", "lib/libsnmp/role.py:manager.send", "lib/libsnmp/rfc1155.py:Asn1Object.decode"]}
{"id": "C55", "title": "Thread-safety of request IDs", "statement": "Under every schedule of any number of threads in which calls of assignRequestID do not overlap (in particular with one requesting thread) IDs are 0, 1, 2, ..., every response reaches the callback of the one call that returned its ID and no callback is lost. Without that, there are schedules in which two threads get the same ID and one callback is lost for ever, in which one thread sees its own ID again, and - even with one requesting thread - in which a response arrives before its callback is registered. Making only the increment atomic keeps each thread's IDs increasing but does not prevent duplicates.", "quantifier": "every schedule", "why_tests_cant": "schedules cannot be enumerated by tests", "anchors": ["lib/libsnmp/v1.py:SNMP.assignRequestID", "lib/libsnmp/v1.py:SNMP.snmpGet"]}
{"id": "C56", "title": "Import order does not matter", "statement": "Whatever order a program imports the library's modules in, the same final set of imported modules gives the same tag registry, and every registry maps an identifier to a decoder of the matching type.", "quantifier": "every sequence of imports", "why_tests_cant": "all import orders", "anchors": ["lib/libsnmp/rfc1155.py:tagDecodeDict", "lib/libsnmp/rfc1157.py:tagDecodeDict", "lib/libsnmp/rfc1902.py:tagDecodeDict", "lib/libsnmp/rfc1905.py:tagDecodeDict"]}
{"id": "C57", "title": "Error status texts", "statement": "str() of an ErrorStatus with value 0..5 always succeeds; values 6..18 succeed exactly after some SNMPv2 error status has been created in the process (directly, or by building or decoding an SNMPv2 PDU); any other value raises KeyError.", "quantifier": "every value and history of object creations", "why_tests_cant": "depends on process history", "anchors": ["lib/libsnmp/rfc1157.py:ErrorStatus", "lib/libsnmp/rfc1905.py:ErrorStatus"]}
{"id": "C58", "title": "Socket life cycle", "statement": "Over any history of open, send, read and close: read raises ValueError exactly when no socket is open; send opens a socket if none is open; close is idempotent; at most one socket is current, and every socket superseded without close is the result of an explicit second open.", "quantifier": "every history of calls", "why_tests_cant": "unbounded histories", "anchors": ["lib/libsnmp/role.py:manager"]}
{"id": "C59", "title": "Errors during read reach the caller", "statement": "An exception raised while a datagram is read or handled leaves poll() with its original type, except that UnicodeDecodeError becomes TypeError: ValueErrors are passed once to the manager callback (which raises them again), all others are re-raised unchanged. v2.SNMP's own receiveData swallows what is raised while handling a message.", "quantifier": "every exception", "why_tests_cant": "quantifies over all exceptions and callbacks", "anchors": ["lib/libsnmp/asynrole.py:Manager.handle_error", "lib/libsnmp/asynrole.py:Manager.poll"]}
{"id": "C60", "title": "Encoded messages are octets", "statement": "If every string in an object consists of octets, its encoding consists of octets only, so it can be sent; conversely non-octet characters in any string appear in the encoding.", "quantifier": "every object tree", "why_tests_cant": "unbounded trees", "anchors": ["lib/libsnmp/rfc1155.py:Asn1Object.encode"]}
{"id": "C61", "title": "Index values", "statement": "toObjectID() turns an integer into an ObjectID with that one sub-identifier, a string or address into one sub-identifier per character and an ObjectID into an equal ObjectID; it is injective on strings, raises TypeError for Null and sequences, and does not keep different types apart.", "quantifier": "every SNMP object", "why_tests_cant": "injectivity and shape over all strings and integers", "anchors": ["lib/libsnmp/rfc1155.py: Asn1Object.toObjectID, Integer.toObjectID, OctetString.toObjectID, ObjectID.toObjectID, IPAddress.toObjectID"]}
{"id": "C62", "title": "Text of any object", "statement": "str() of any object tree is its components' texts in order, separated and bracketed as the class prescribes; it fails only with KeyError, and only because of an error status or generic trap number without a name.", "quantifier": "every object tree, every message", "why_tests_cant": "unbounded trees", "anchors": ["lib/libsnmp/rfc1155.py: Asn1Object.__str__, Sequence.__str__", "lib/libsnmp/rfc1157.py: Message.__str__, PDU.__str__, ErrorStatus.__str__, GenericTrap.__str__"]}
{"id": "C63", "title": "Building trap PDUs", "statement": "createTrapPDU/createTrap without an agent address always raises; with one it succeeds exactly when enterprise and address are well formed, the trap numbers are 32-bit and the host's uptime is below 2^32 hundredths of a second (497 days), and then carries exactly these values. snmpManager with a version other than 1 or 2 raises UnboundLocalError.", "quantifier": "every argument and every uptime", "why_tests_cant": "universal over arguments and over the age of the host", "anchors": ["lib/libsnmp/v1.py:SNMP.createTrapPDU", "lib/libsnmp/v2.py:SNMP.createTrap", "lib/libsnmp/snmpmanager.py:snmpManager.createTrapPDU"]}
{"id": "C64", "title": "Type letters and enterprise names", "statement": "typeSetter accepts exactly the seven letters and each leads snmpSet to the class it stands for; numeric types reject text values. enterpriseOID(x) names x below mib-2 (1.3.6.1.2.1), not below enterprises.", "quantifier": "every string and value", "why_tests_cant": "all strings", "anchors": ["lib/libsnmp/snmpmanager.py:snmpManager.typeSetter", "lib/libsnmp/v1.py:SNMP.enterpriseOID"]}
{"id": "C65", "title": "The exact language decode() accepts", "statement": "decode() accepts a stream exactly when it is a concatenation of elements of the library's grammar (BER identifier, a length field in which 0x80 counts as 0, contents cut at the announced length or at the end of the stream; PDUs of the stated shape and ranges), and returns exactly the objects the grammar assigns; every other stream raises. Every stream has at most one reading.", "quantifier": "every octet string, every order of imports", "why_tests_cant": "an if-and-only-if over all streams and nesting depths", "anchors": ["lib/libsnmp/rfc1155.py:Asn1Object.decode", "lib/libsnmp/rfc1155.py:Sequence.decodeContents", "lib/libsnmp/rfc1157.py:PDU.decodeContents", "lib/libsnmp/rfc1157.py:TrapPDU.decodeContents", "lib/libsnmp/rfc1905.py:BulkPDU.decodeContents"]}
{"id": "C66", "title": "v2.SNMP.snmpGet with a dotted string", "statement": "v2.SNMP.snmpGet called with the dotted string its documentation asks for never asks for that object: any text containing a character that is not a decimal digit (so every dotted name) raises ValueError and changes nothing; a non-empty text of digits is accepted but the queued message has no encoding, so the loop turn that takes it raises; the empty text sends a request without any name.", "quantifier": "every text, every reachable state of the manager", "why_tests_cant": "all strings and all states; the code documents the opposite", "anchors": ["lib/libsnmp/v2.py:SNMP.snmpGet", "lib/libsnmp/v2.py:SNMP.createGetRequestMessage", "lib/libsnmp/rfc1155.py:ObjectID.__init__"]}
{"id": "C67", "title": "Several managers in one process", "statement": "However many manager objects a process has and whatever its code and callbacks do with them, each manager behaves as it would alone: its request IDs are unique and count from 0, an answer invokes only a callback registered with that very manager (even if others use the same ID), its queue holds only what its own calls asked for, and a manager nobody uses does not change. But they share the loop: the loop of one reads the datagrams of all, and a datagram of another manager that does not decode ends it.", "quantifier": "every number and mix of managers, every program, every nesting of callbacks across managers, every set of ready datagrams", "why_tests_cant": "universal over programs and interleavings of several objects", "anchors": ["lib/libsnmp/asynrole.py:manager.poll", "lib/libsnmp/v1.py:SNMP", "lib/libsnmp/v2.py:SNMP", "lib/libsnmp/snmpmanager.py:snmpManager"]}
{"id": "C68", "title": "Fields and the octets sent", "statement": "Every VarBind, PDU, BulkPDU and TrapPDU a program can get hold of starts with each field being the very object at its position in the object's list of components. encode() sends the components of that list as they are at that moment, so changing a component in place is sent; but assigning the field (pdu.requestID = x, vb.objectValue = x, ...) is read back yet changes nothing that any encode() returns. A Message is the other way round: it sends its fields version, community and data as they are at the moment of encode().", "quantifier": "every program (any sequence of constructors, assignments, in-place changes, aliasing, encodes, requests, received datagrams), every object, every field and value", "why_tests_cant": "universal over programs and object graphs with sharing and cycles", "anchors": ["lib/libsnmp/rfc1155.py:Sequence.encodeContents", "lib/libsnmp/rfc1157.py:PDU.__init__", "lib/libsnmp/rfc1157.py:VarBind.__init__", "lib/libsnmp/rfc1157.py:TrapPDU.__init__", "lib/libsnmp/rfc1157.py:Message.encodeContents", "lib/libsnmp/rfc1905.py:BulkPDU.__init__"]}
{"id": "C69", "title": "Equality, length and truth of Messages", "statement": "A Message that was built or decoded has length 0 and is false, and any two such Messages of one class are equal, whatever version, community and PDU they hold. encode(), even if it raises, makes its length 3; a Message that was encoded differs from one that was not; two that were both encoded are equal exactly when classes, versions, communities and PDUs are equal.", "quantifier": "every memory, every Message, every contents", "why_tests_cant": "universal over object graphs; comparing contents is what a test would expect", "anchors": ["lib/libsnmp/rfc1157.py:Message", "lib/libsnmp/rfc1155.py:Asn1Object.__eq__", "lib/libsnmp/rfc1155.py:Sequence"]}
{"id": "C70", "title": "Changes made while a request waits in the queue", "statement": "Between a successful request call and the datagram, whatever the program does with everything it can reach, a queued Get keeps its names, community, version and PDU type, and its request ID is the current value of the object snmpGet returned (so assigning to that object's value changes the datagram); a queued GetNext (and v1 Set) stands for the binding objects that were in the list at the call, with their current contents, and later changes of the list do not matter; a queued Trap is the caller's PDU as it is when sent. In snmpManager, once the returned request ID object was changed, no datagram finds its callback, whichever ID it carries. Without changes the message is exactly that of C51. Messages leave the queue in the order in which they were put into it, each exactly once, whether or not sending it succeeds.", "quantifier": "every program before and after the call, every argument, every manager class and version", "why_tests_cant": "universal over two histories and all aliasing between the caller's objects and the queue", "anchors": ["lib/libsnmp/v1.py:SNMP.snmpGet", "lib/libsnmp/v2.py:SNMP.snmpGet", "lib/libsnmp/snmpmanager.py:snmpManager.snmpGet", "lib/libsnmp/v1.py:SNMP.snmpGetNext", "lib/libsnmp/v1.py:SNMP.snmpTrap", "lib/libsnmp/snmpmanager.py:snmpManager.receiveData"]}
{"id": "C71", "title": "Nesting and the Python stack", "statement": "With room on the stack for d nested calls of decode, decoding either raises RecursionError or gives exactly the result it gives with an unlimited stack; more room never changes a result that is not RecursionError; streams of fewer than 2d characters never raise it. Decoding the BER form of a value raises it exactly when the value's sequences are nested d deep or more. For every d up to 16383 there is a datagram of 4d octets that decodes with unlimited stack and raises RecursionError with room for d; receiving it ends the v1 manager's and snmpManager's handler with RecursionError and is dropped silently by the v2 manager, in every case without changing any state.", "quantifier": "every stream, every stack size, every registry, every manager state", "why_tests_cant": "universal over streams and stack sizes; the attack size depends on the host's limit", "anchors": ["lib/libsnmp/rfc1155.py:Asn1Object.decode", "lib/libsnmp/rfc1155.py:Sequence.decodeContents", "lib/libsnmp/v1.py:SNMP.receiveData", "lib/libsnmp/v2.py:SNMP.receiveData", "lib/libsnmp/snmpmanager.py:snmpManager.receiveData"]}
{"id": "C72", "title": "From request call to wire and from wire to callback", "statement": "Every datagram the manager sends is the BER form of the message that some earlier successful request call asked for: its version, community, PDU type, names and values, error fields 0, and as request ID the number that call returned; datagrams go out in the order of the calls, each to the address of its call. Any datagram that is a BER form (any valid length encoding) of a Response with the ID of a request that was issued and not finished invokes the callback of exactly that request, once, with a message holding exactly the version, community, ID, error fields and bindings of the datagram, and afterwards the request is finished unless the callback raised. The PDU type is not looked at: a Get, GetNext or Set datagram with that ID is taken as the answer too.", "quantifier": "every reachable state of every manager class, every request, every callback program, every BER form of a message", "why_tests_cant": "composition of encoder, queue, request table and decoder over all histories and all datagrams", "anchors": ["lib/libsnmp/v1.py:SNMP.snmpGet", "lib/libsnmp/v1.py:SNMP.receiveData", "lib/libsnmp/v2.py:SNMP.receiveData", "lib/libsnmp/snmpmanager.py:snmpManager.receiveData", "lib/libsnmp/rfc1157.py:Message.encode", "lib/libsnmp/rfc1157.py:Message.decode"]}
{"id": "C73", "title": "Traps end to end", "statement": "snmpTrap of v1.SNMP (v2.SNMP) on a trap PDU queues a message whose octets are the BER form of a version 0 (version 1) message with the given community and the enterprise, agent address, generic and specific numbers, time stamp and bindings of the PDU. Any BER form of such a message received by a manager invokes the trap callback exactly once with a message holding exactly these contents; without a trap callback the v2 manager ignores it and the others raise TypeError, in both cases without changing any state.", "quantifier": "every trap PDU, community, reachable state, trap callback program, BER form", "why_tests_cant": "composition of encoder, queue and decoder over all histories and datagrams", "anchors": ["lib/libsnmp/v1.py:SNMP.snmpTrap", "lib/libsnmp/v2.py:SNMP.snmpTrap", "lib/libsnmp/rfc1157.py:TrapPDU", "lib/libsnmp/v1.py:SNMP.receiveData", "lib/libsnmp/v2.py:SNMP.receiveData", "lib/libsnmp/snmpmanager.py:snmpManager.receiveData"]}
{"id": "C74", "title": "The main loop: latency, idle callback, draining", "statement": "Over any run of the main loop: after n turns without an exception at least the first n messages that waited at its start have been taken from the queue, whatever callbacks and datagrams did in between. A turn of v1/v2 that finds a queued message sends it and neither reads the socket nor invokes any callback; a turn of snmpManager polls and then sends one message. A send that fails loses its message and ends the run, while the request stays registered. A turn that finds the queue empty invokes the idle callback, whether or not requests are still unanswered. n waiting messages are sent, in order, in exactly n quiet turns.", "quantifier": "every reachable state, every finite run, every behaviour of sockets, datagrams and callbacks per turn", "why_tests_cant": "ranges over all schedules and all callback programs", "anchors": ["lib/libsnmp/v1.py:SNMP.run", "lib/libsnmp/v1.py:SNMP.handle_write", "lib/libsnmp/snmpmanager.py:snmpManager.run", "lib/libsnmp/asynrole.py:manager.poll"]}
{"id": "C75", "title": "snmpget.py and snmpset.py as programs", "statement": "For all command lines and everything the network may do, snmpget.py and snmpset.py are over after at most two passes of the main loop and send at most one datagram. A well-formed command line makes the program send one BER message to the given host, with the given community, request ID 0, and a Get (Set) of exactly the named object (and value). If an answer without error arrives before the second poll, whatever its BER form, exactly the text of its first binding is printed (plus a hex line for octet strings, snmpget only) and the exit status is 0; with an error status in 1..18 its number and text are printed, also with exit status 0; with any other status the program dies of KeyError, with no bindings of IndexError. Without an answer by the second poll it ends with status 0 and prints nothing. A refused datagram, a well-formed answer to another request and a failing sendto end it with a traceback. A wrong number of arguments gives the usage line and status 1; a text that is no object identifier is a ValueError; the letters t, c, C of snmpset.py are always a TypeError and unknown letters a KeyError, all without anything having been sent.", "quantifier": "every command line, every sequence of sendto outcomes and datagrams, every BER form of every answer", "why_tests_cant": "ranges over all datagrams, values and timings", "anchors": ["snmpget.py", "snmpset.py", "lib/libsnmp/snmpmanager.py:snmpManager.run"]}
{"id": "C76", "title": "What a relay sends on", "statement": "Sending on a received object (encode(decode(s))) never fails, and what the next receiver gets is determined by the value: the same value, except that integers in [-256^k, -256^k/2 - 1] arrive as v + 256^k, Opaque arrives as OctetString, and the exception values noSuchObject, noSuchInstance and endOfMibView arrive as NULL; an object with a Counter64 anywhere in it is sent as octets that are no BER encoding of any value. A GetNext request for the bindings of a received response is therefore always accepted and asks for the received names with those changed values; snmpSet of an integer in a failing band asks, without an error, to set another number.", "quantifier": "every value in every BER form, every registry after an import, every manager class and version", "why_tests_cant": "all values of unbounded depth and all encodings", "anchors": ["lib/libsnmp/rfc1155.py:Integer.encodeContents", "lib/libsnmp/rfc1155.py:decode", "lib/libsnmp/rfc1902.py:Counter64", "lib/libsnmp/snmpmanager.py:snmpManager.snmpGetNext"]}
{"id": "C77", "title": "snmpwalk.py as a program", "statement": "Against an agent that answers Get and GetNext for a finite ordered MIB without Counter64, over a network that loses nothing, snmpwalk.py prints the answer to the Get for its argument, and unless that was NoSuchObject then every entry of the agent after it, in order, each with its type and value, to the end of the agent's information and not just of the subtree, then EndOfMibView, and ends with status 0. At the first entry with a Counter64 the walk breaks off: that entry is printed, the next request is no SNMP message, and the program ends with status 0 as if it were done. One lost datagram, at any point, also ends it, with status 0 and what was printed so far. Against an agent whose answers never end it goes on for as long as there are request IDs. Octets are an encoding of at most one message, so an agent can know what to answer, and agents as described exist. What else can come instead of an answer: a response with an error status prints the status and its text and ends the program with status 0 (KeyError if there is no text), one without bindings is an IndexError, an answer that came twice a KeyError, octets that are no message an exception; in each case what was printed before stays printed. With a wrong number of arguments, or an argument that is no object identifier, nothing is sent.", "quantifier": "every MIB (sizes, names, values), every agent with that MIB, every form of its answers, every position of a loss", "why_tests_cant": "induction over the length of the walk; every BER form of every answer", "anchors": ["snmpwalk.py", "lib/libsnmp/snmpmanager.py:snmpManager.run"]}
{"id": "C78", "title": "traplistener.py, trapsender.py and the old snmpget programs", "statement": "traplistener.py survives every sequence of datagrams and never sends anything; it prints, datagram by datagram, for an SNMPv1 trap in a message of version 0 or 1 one line with enterprise, agent address, number and name of the generic trap, specific trap and timestamp, and one line per binding, and nothing for a trap with a generic number other than 0 to 6, for a message of another version, for any other PDU (in particular the SNMPv2 trap), and for what the decoder refuses (on Python 3, where sockets deliver bytes: for everything). trapsender.py never sends a trap: the first time its loop is idle it ends with AttributeError, whatever the time, uptime and network. snmpget-v1.py and snmpget-v2.py end with TypeError before they look at the command line.", "quantifier": "every sequence of datagrams, every BER form of every trap, every history of error texts; every time and uptime; every command line", "why_tests_cant": "unbounded sequences of adversarial datagrams; every BER form", "anchors": ["traplistener.py", "trapsender.py", "snmpget-v1.py", "snmpget-v2.py", "lib/libsnmp/v2.py:SNMP.receiveData", "lib/libsnmp/v2.py:SNMP.createTrap"]}
{"id": "C79", "title": "Hexadecimal, octal, floating-point and call forms of values", "statement": "obj.__hex__() / obj.__oct__() of an integer object of any class is the base-16 / base-8 numeral of its value with sign and 0x / 0o prefix, and different values give different texts. Of an octet string of any class, __hex__ is two upper-case hexadecimal digits per octet and __oct__ three characters per octet (octal digits, blanks instead of leading zeros); both are injective (unlike util.octetsToOct). Calling an integer object gives its value; float() of it is exact below 2^53 in magnitude (hence for every class but Counter64) and within one part in 2^53 below 2^64. ObjectIDs, nulls and sequences have none of these forms.", "quantifier": "every integer class and value, every octet-string class and string of octets", "why_tests_cant": "the forms must be right and lossless for all values; only a proof covers every value and length", "anchors": ["lib/libsnmp/rfc1155.py: Integer.__hex__, __oct__, __call__, __float__, OctetString.__hex__, __oct__"]}
{"id": "C80", "title": "Uptime and the time stamp of traps", "statement": "For every uptime of d < 2^52 hundredths of a second as the kernel writes it, getSysUptime gives d or d-1 (d-1 does occur, e.g. for 0.29 s, because the number is read as a binary64 float and cut off after multiplying), exactly d when d is a whole number of seconds, and never less for a later time; it gives 0 when the file is missing, empty or not numeric. So the time stamp of a trap PDU is the uptime or one hundredth less, and once the machine has been up for more than 2^32 hundredths of a second (497 days) no trap PDU can be built at all: the time stamp does not wrap around.", "quantifier": "every uptime, every text of the file, every argument of the trap constructors", "why_tests_cant": "depends on binary64 rounding of every possible reading and on uptimes of over a year", "anchors": ["lib/libsnmp/v1.py: SNMP.getSysUptime, createTrapPDU", "lib/libsnmp/snmpmanager.py: snmpManager.getSysUptime"]}
{"id": "C81", "title": "Decoding does not amplify", "statement": "Whatever octets arrive, the objects that Decoder.decode makes of them take no more room than the octets did: objects, characters of strings and sub-identifiers together number at most the octets of the stream, at every depth of nesting, and no integer in them has more bits than the stream (or than 32 bits). For a whole message the version, community and PDU together stay below the size of the datagram. A small datagram cannot make the receiver build a large object.", "quantifier": "every octet string, any registry of an import of the library, every message class", "why_tests_cant": "an attacker chooses the octets; only a proof over all nested encodings excludes a decompression bomb", "anchors": ["lib/libsnmp/rfc1155.py: Decoder.decode, Asn1Object.decodeTag, ObjectID.decodeContents, Sequence.decodeContents", "lib/libsnmp/rfc1157.py: MessageBase.decode, PDUBase.decodeContents", "lib/libsnmp/rfc1905.py: PDU.decodeContents"]}
{"id": "C82", "title": "The size of an encoding", "statement": "The size of an encoding can be bounded from the object alone: headers take 2 to 4 octets, integers of 32 bits at most 4 octets of contents, each sub-identifier 1 to 5 octets. So a request of any manager for names of k1..kn sub-identifiers has at least 20 + |community| + sum(5 + k) octets and at most 40 + |community| + sum(10 + 5k), which tells the caller how many names fit in one datagram.", "quantifier": "every object with 64-bit integers and 31-bit sub-identifiers whose bound is within a UDP datagram; every list of names and every community of a request", "why_tests_cant": "holds for all numbers and lengths of names; the longest encodings are not the ones a test tries", "anchors": ["lib/libsnmp/rfc1155.py: Asn1Object.encode, encodeLength, Integer.encodeContents, ObjectID.encodeContents, Sequence.encodeContents", "lib/libsnmp/rfc1157.py: MessageBase.encodeContents"]}
{"id": "C83", "title": "The journey of a trap", "statement": "A trap PDU built by createTrapPDU from an enterprise given as text, an agent address in dotted form, generic trap 0 to 6, a specific trap and a list of bindings, and sent with snmpTrap by v1.SNMP or v2.SNMP in any state, is queued once for the given address and encodes to a datagram which, if it fits into one, makes any traplistener.py that receives it (amid any events without datagrams) print exactly this trap: the header line with enterprise, agent, number and name of the trap, specific trap, and a time stamp equal to the sender's uptime or one hundredth of a second less, then one line for each binding, in order.", "quantifier": "every choice of the arguments within the ranges, every uptime below 497 days, every state of the sender, every history of the receiving process", "why_tests_cant": "composes text parsing, floating-point uptime, encoding, decoding, dispatch and printing for all values", "anchors": ["lib/libsnmp/v1.py: SNMP.createTrapPDU, snmpTrap, getSysUptime", "lib/libsnmp/v2.py: SNMP.createTrap, snmpTrap", "traplistener.py: trapCallback", "lib/libsnmp/rfc1157.py: TrapPDU"]}
{"id": "C84", "title": "Opening and closing managers in one process", "statement": "Managers register in the process-wide asyncore loop by descriptor number. As long as they are only created, used and closed with close(), then, whatever numbers the operating system gives out and whatever else the process opens and closes, polling never fails, every manager that was not closed is served, and a datagram is always read by the manager that sends from where it arrived. After close() a manager is never read for again, and its send() raises OSError for ever. After handle_close() instead, every poll of every manager in the process raises OSError until the number is given out again or some manager is closed; a send() of that manager opens a new socket, which is only read if it happens to get the same number; and if a new manager got the number, a later close() of the old one silently takes the new one out of the loop for good.", "quantifier": "every history of creations, sends, closings of both kinds and foreign descriptors, every choice of descriptor numbers by the operating system", "why_tests_cant": "depends on descriptor reuse and on interleavings of several managers' life cycles", "anchors": ["lib/libsnmp/asynrole.py: Manager.__init__, send, handle_read, writable, handle_close, poll", "lib/libsnmp/role.py: manager.open, send, read, close, get_socket"]}
{"id": "C85", "title": "What is logged", "statement": "Whatever modules a program imports, in whatever order, with or without libsnmp.debug, and whatever it does with loggers of its own: every ERROR record of the library's loggers is written to the terminal, exactly once unless the program configures the root logger (then once per root handler, plus once if debug was imported before the module that made the logger); the debugging records of the codec and of the managers are never written; snmpManager's INFO record appears only with debug imported first or the root logger configured. A logger the program makes after importing debug writes everything from DEBUG up. For every datagram in every reachable state, v1.SNMP and v2.SNMP tell the operator once of data that does not decode, of an unknown version (with one or two extra lines naming it), of an answer nobody waits for, of an unwanted trap and of a callback that raises, and nothing when the callback returns; a message with neither answer nor trap is dropped in silence.", "quantifier": "all sequences of imports and logging calls of a program that leaves the library's logger names alone; all reachable manager states, datagrams and callbacks", "why_tests_cant": "import orders and interleavings with the program's own logging calls are unbounded, and the set of datagrams is infinite; a test shows one of each", "anchors": ["lib/libsnmp/debug.py:snmpLogger", "lib/libsnmp/rfc1155.py:log", "lib/libsnmp/v1.py:SNMP.receiveData", "lib/libsnmp/v2.py:SNMP.receiveData", "lib/libsnmp/snmpmanager.py:snmpManager.receiveData", "snmpwalk.py:log"]}
{"id": "C86", "title": "Integers too long to print", "statement": "On interpreters that limit int-to-text conversion to D decimal digits (4300 by default since CPython 3.11), decoding a stream either does exactly what it does without the limit or raises ValueError; any BER encoding of an SNMP value decodes if and only if every integer in the value has at most D digits. Streams of octets up to 1785 long are never affected. A datagram carrying a longer integer (every length from 1790 octets exists) makes the receiveData of v1.SNMP and snmpManager raise ValueError in any state, with nothing dispatched and no state changed, and is ignored by v2.SNMP; on every other datagram a manager behaves as without the limit.", "quantifier": "all limits, all streams, all BER encodings of all SNMP values, all manager states and callbacks", "why_tests_cant": "the set of streams is infinite and the exact boundary runs through values nested at any depth", "anchors": ["lib/libsnmp/rfc1155.py:Integer.decodeContents", "lib/libsnmp/rfc1155.py:Asn1Object.decode", "lib/libsnmp/v1.py:SNMP.receiveData", "lib/libsnmp/v2.py:SNMP.receiveData", "lib/libsnmp/snmpmanager.py:snmpManager.receiveData"]}
{"id": "C87", "title": "What the names of the package mean, whatever is imported in whatever order", "statement": "No order of imports of the package's modules raises; exactly the imported modules and those they import are executed, each leaving the same names and classes as when imported alone. Afterwards issubclass, the tag attributes, the integer bounds, the method that runs for each class, the decoder registered for each tag and the entries of typeValDict are those of the class hierarchy used in the other properties. Every global name, module attribute and self attribute used in a function body is there, except in eight places (rfc1157.GetNextRequestPDU, v1.createTrapMessage, v2.createTrapMessage, rfc1905.TrapPDU, self.createGetNextRequest, self.getsockname three times), where it is an AttributeError whatever has been imported.", "quantifier": "every list of imports in every order with repetitions; every class, method name, tag and text; every name used in every function body of the package", "why_tests_cant": "a test process imports modules in one order, and sees an AttributeError only in the branches it runs", "anchors": ["lib/libsnmp/rfc1155.py", "lib/libsnmp/rfc1157.py:9-11,273-277", "lib/libsnmp/rfc1902.py:9,70-73", "lib/libsnmp/rfc1905.py:9-12,234-243", "lib/libsnmp/v1.py", "lib/libsnmp/v2.py:56,71,119", "lib/libsnmp/snmpmanager.py:24,166,168,176,309"]}
{"id": "C88", "title": "The text of the decoding code, executed statement by statement, gives new objects for every string", "statement": "Calling decode(s) on any object of the package ends for every string s, whatever objects exist in the process and whatever modules were imported: it returns a new list whose elements are new objects, with the classes and values of the decoding described in the other properties, or raises the exception described there. Nothing that existed before - objects, lists, dictionaries of other messages - is changed, and no part of the result is shared with anything that existed. decodeTag and decodeLength likewise.", "quantifier": "every string, every heap of existing objects, every object the method is called on, every import history, with and without python -O, every admissible limit on numerals", "why_tests_cant": "a test sees finitely many strings and checks values, not that no other object was touched and that nothing is shared", "anchors": ["lib/libsnmp/rfc1155.py:99-180,401-434,532,696-750,775,842,921,977", "lib/libsnmp/rfc1157.py:153-166,255-272", "lib/libsnmp/rfc1905.py:164-177"]}
{"id": "C89", "title": "The text of the encoding code, executed statement by statement, changes nothing", "statement": "Calling encode() on any object of the package (not a message) ends, with the octets or the exception described in the other properties, also when its parts are shared with other objects, and every object that existed is afterwards as it was: encoding twice, or encoding two objects with common parts in any order, gives the same octets.", "quantifier": "every object of every class with any nesting and sharing, every heap", "why_tests_cant": "object graphs and sharing patterns are unbounded", "anchors": ["lib/libsnmp/rfc1155.py:82-95,189-265,360-399,527,663-694,772,827-840"]}
{"id": "C90", "title": "The text of the constructors and of Message, executed statement by statement, carries a message from one process to another", "statement": "VarBind, the PDU classes and Message construct the object described in the other properties from any arguments or raise the exception described there, changing nothing that existed. encode() on a Message returns the octets of its fields and leaves the fields; decode(s) on a Message sets its three fields to new objects and touches nothing else, and if it raises the message is as it was. A message with a PDU encoded by one process and decoded by another arrives with the same version, community, integers and bindings.", "quantifier": "every version, community, PDU and list of bindings, every string of octets, every pair of processes with any existing objects", "why_tests_cant": "all messages and all heaps of two processes", "anchors": ["lib/libsnmp/rfc1157.py:59-125,138-151,169", "lib/libsnmp/rfc1905.py:22-177"]}
{"id": "C91", "title": "The text of the comparison code, executed statement by statement, answers as described and changes nothing", "statement": "For any two values - objects of the package, numbers, texts, None - x == y and x != y, executed on the source text with Python's rules for trying the left and then the reflected method, end with the answer or the exception of the other properties on equality, also when the two share parts, and no object is changed. The hash of an Integer is the hash of its number.", "quantifier": "every pair of values of any nesting, every heap, every sharing of parts, every limit on numerals", "why_tests_cant": "nested values are unbounded, and a test does not see whether comparing changed some other object", "anchors": ["lib/libsnmp/rfc1155.py:262-286,331-339,354-358"]}
{"id": "C92", "title": "The text of the Integer constructors and arithmetic, executed statement by statement", "statement": "Calling a constructor of an Integer class with any value gives a new object with that number if it is an int in the range of the class, ValueError if it is out of the range and TypeError if it is not an int. x + y and x - y on an Integer, a Counter, a Guage or TimeTicks give the result and the new number of x that the other properties describe, a result is a new object that shares nothing, and no object but x is changed.", "quantifier": "every class of Integers, every number, every operand of any type, every heap", "why_tests_cant": "numbers are unbounded, boundaries differ per class, and tests do not see effects on other objects", "anchors": ["lib/libsnmp/rfc1155.py:297-313,341-352,964-975,1008-1031,1047-1063", "lib/libsnmp/rfc1157.py:28-36", "lib/libsnmp/rfc1905.py:68-72"]}
{"id": "C93", "title": "The text of the ObjectID class, executed through any history of a program", "statement": "Whatever a program does with ObjectIDs and its own lists - constructing from texts, numbers, lists, tuples, other ObjectIDs; copying, slicing, converting, decoding, appending, extending, deleting, in any order and with failures on the way - each operation executed on the source text ends, with the exception of the model or none, and the program then sees exactly the values that the model computes. In particular an operation changes no ObjectID but the one it is applied to, and no list of the program.", "quantifier": "every history of operations of any length, every argument, every index and slice", "why_tests_cant": "sharing of lists between objects shows only in certain histories, and there are infinitely many", "anchors": ["lib/libsnmp/rfc1155.py:550-760"]}
{"id": "C94", "title": "The text of __str__, __hex__, __oct__, __call__, toObjectID, enum and __len__, executed statement by statement", "statement": "str(x) of any value and of any message, executed on the source text, ends with the text or the exception that the other properties describe, also when a number has more digits than Python may write (ValueError), and leaves every existing object as it was. x.__hex__(), x.__oct__(), x(), x.toObjectID(), enum() and len(x) give the described results or exceptions; the ObjectID of toObjectID shares nothing with x. The table of error texts is always one of two: that of rfc1157, or the one with the texts of rfc1905, and making an rfc1905 ErrorStatus of a number in range is what changes it, for the objects of rfc1157 too.", "quantifier": "every value of any nesting, every heap and sharing of parts, both tables of texts, every limit on numerals", "why_tests_cant": "values are unbounded, the texts depend on which objects were made before, and a test does not see whether writing an object changed another one", "anchors": ["lib/libsnmp/rfc1155.py:280-283,302-328,507-511,532-548,595-606,756-760,776-782,803-818,924-941", "lib/libsnmp/rfc1157.py:42-55,97-101,211-224", "lib/libsnmp/rfc1905.py:68-97"]}
{"id": "C95", "title": "The text of the other integer decoders and of the OctetString and IPAddress constructors, executed statement by statement", "statement": "Each of decodeTwosInteger1, decodeTwosInteger2 and decodeTwosInteger3, called on any Integer with any string of octets, ends with the number that decodeContents decodes, or IndexError for the empty string, and changes no object. OctetString(text) and Opaque(text) make a new object with the text. IPAddress and NetworkAddress make, of a text with four numerals, a new object with the four characters, and raise ValueError or OverflowError for any other text; of a list of four they keep a copy, of another list ValueError; of anything else an empty address. No existing object is changed.", "quantifier": "every string of octets, every text, list, tuple and number, every heap, every limit on numerals", "why_tests_cant": "strings and texts are unbounded, and a test does not see whether another object was changed", "anchors": ["lib/libsnmp/rfc1155.py:436-503,519-522,898-919"]}
{"id": "C96", "title": "The text of the request methods of v1.SNMP and v2.SNMP, executed statement by statement", "statement": "A call of snmpGet, snmpGetNext, snmpSet or snmpTrap of a v1.SNMP or v2.SNMP object, with any arguments of the documented types and the community given or left out, returns the request number of the model's call or raises its exception; afterwards the object's counter, queue and dictionary of callbacks are those of the model's manager after the call (also when the call raised), and no other existing object has changed.", "quantifier": "every manager state reachable or not, every argument (texts, numbers, lists, objects), every heap, every limit on numerals", "why_tests_cant": "the states, the arguments and the heaps are unbounded, and a test does not see whether another object was changed", "anchors": ["lib/libsnmp/v1.py:47-161", "lib/libsnmp/v2.py:24-140"]}
{"id": "C97", "title": "The text of the request methods of snmpManager, and of any sequence of requests of any manager, executed statement by statement", "statement": "A call of snmpGet, snmpGetNext, snmpSet or snmpTrap of an snmpManager object, with any version and the community and the version given or left out, returns the Integer of the model's call or raises its exception (ValueError or UnboundLocalError for an unknown version, AttributeError for a trap of version 1 or 2, KeyError for an unknown tag); afterwards the object's counter, queue and dictionary of callbacks, whose keys are Integer objects looked up by their hash and their ==, are those of the model's manager, and no other existing object has changed. The same holds at each step of any sequence of request calls of a v1.SNMP, v2.SNMP or snmpManager object, whatever the calls return or raise.", "quantifier": "every manager state, every sequence of calls, every argument and version, every heap, every limit on numerals", "why_tests_cant": "sequences, states and arguments are unbounded", "anchors": ["lib/libsnmp/snmpmanager.py:63-168,199-252", "lib/libsnmp/v1.py", "lib/libsnmp/v2.py"]}
{"id": "C98", "title": "The text of receiveData, executed statement by statement", "statement": "receiveData of a v1.SNMP, v2.SNMP or snmpManager object, called with any datagram held in a str and no exception, does what the model's receiveData does: it decodes the message, checks the version, finds the callback of the request, calls it with the manager and the message, deletes it (or calls the trap callback), and ends the same way - v1 and snmpManager pass the exception on, v2 logs and drops every Exception; afterwards the object's counter, queue and dictionary of callbacks are those of the model's manager, and apart from them and from objects of the user's own code no existing object has changed. This holds for callbacks that do anything to the manager that the model describes, in particular for callbacks that make the next request.", "quantifier": "every datagram (shorter than 10^640), every manager state, every described user code, every heap, every limit on numerals, debugging on or off", "why_tests_cant": "datagrams, states and user code are unbounded", "anchors": ["lib/libsnmp/v1.py:163-208 SNMP.receiveData", "lib/libsnmp/v2.py:141-190 SNMP.receiveData", "lib/libsnmp/snmpmanager.py:254-314 snmpManager.receiveData, handleV1Message, handleV2Message"]}
{"id": "C99", "title": "The text of one turn of run(), executed statement by statement", "statement": "run() of a v1.SNMP, v2.SNMP or snmpManager object is an endless repetition of one turn, which an exception ends and nothing else; and one turn does what the model's turn does: v1 and v2 take the first request of the queue, encode it and pass the octets and the address to the socket, and only when the queue is empty call queueEmpty, poll the network and sleep; snmpManager polls first, then takes and sends, and calls queueEmpty when the queue is empty; a datagram that polling finds is read from the socket and given to receiveData, and an exception that receiveData raises goes through asyncore to handle_error, which ends as the model says. Afterwards the object's counter, queue and dictionary of callbacks are those of the model's manager, and apart from them, the user's own objects and the attribute value of a message that was encoded, no existing object has changed; of the manager's attributes only the counter may have changed.", "quantifier": "every manager state (queue of any length with messages of moderate size or None, any callbacks), every datagram or none, every outcome of the socket, every described user code, every heap, every limit on numerals, debugging on or off", "why_tests_cant": "states, datagrams, socket outcomes and user code are unbounded, and run() never returns", "anchors": ["lib/libsnmp/v1.py:216-234 SNMP.run", "lib/libsnmp/snmpmanager.py:322-342 snmpManager.run", "lib/libsnmp/asynrole.py:33-66 Manager.send, handle_read, handle_error, poll", "lib/libsnmp/role.py:29-55 manager.get_socket, send, read"]}
{"id": "C100", "title": "The text of the manager constructors, executed statement by statement", "statement": "v1.SNMP(interface, queueEmpty, trapCallback, timeout), v2.SNMP with the same arguments and snmpManager(queueEmpty, trapCallback, interface, timeout) return a new manager with an empty queue, no callbacks, first request number 0, the two functions stored where run() and receiveData look for them, the manager's own receiveData as the function that handle_read calls, and a socket bound to interface with a buffer of 65536 octets; each argument has the documented default; if the system refuses the socket, the address or the buffer, the constructor raises that exception. In both cases no existing object has changed.", "quantifier": "every heap, every arguments, every exception of the system, whatever attributes asyncore.dispatcher sets", "why_tests_cant": "heaps, arguments and worlds are unbounded", "anchors": ["lib/libsnmp/v1.py:22-45 SNMP.__init__", "lib/libsnmp/snmpmanager.py:40-61 snmpManager.__init__", "lib/libsnmp/asynrole.py:15-31 Manager.__init__", "lib/libsnmp/role.py:15-38 manager.__init__, open"]}
{"id": "C101", "title": "The text of the managers' helper methods, executed statement by statement", "statement": "getSysUptime() of every manager returns the first word of /proc/uptime, read as a float, times a hundred and cut off to an integer, and 0 if the file cannot be opened, read or understood; enterpriseOID(text) is '.1.3.6.1.2.1.' followed by text; snmpManager.typeSetter(text) looks the text up in typeValDict or raises KeyError; createTrapPDU of v1.SNMP and snmpManager and createTrap of v2.SNMP build exactly the trap of the model, with getSysUptime() as its time stamp, or raise its exception (AttributeError without an agent address, whatever the other arguments that can be built); the documented defaults are version 2, enterprise .1.3.6.1.4, no agent address, generic trap 6 and specific trap 0. None of these methods changes an existing object.", "quantifier": "every heap, manager, text of /proc/uptime, variable bindings, enterprise, agent address, version and trap numbers", "why_tests_cant": "heaps, file contents and arguments are unbounded", "anchors": ["lib/libsnmp/v1.py:87-117 createTrapPDU, 210-213 enterpriseOID, 236-243 getSysUptime", "lib/libsnmp/v2.py:65-95 createTrap", "lib/libsnmp/snmpmanager.py:170-208 createTrapPDU, 316-319 enterpriseOID, 344-351 getSysUptime, 361-363 typeSetter"]}
{"id": "C102", "title": "The whole history of a manager, on the source text", "statement": "From the moment its constructor returns, through any sequence of calls of its request methods and turns of run(), each in its own world (whatever datagram waits, whatever the socket does with what is sent, whatever the callbacks do to the manager), every step of the source text returns or raises, as the model says; the object in the heap is always in a state that a program of the model reaches, so that every property of reachable states holds of it; and the numbers that the request methods return ascend strictly along the history, so no request number is given out twice.", "quantifier": "every manager class, every heap, every finite history of calls and turns, every world of each step", "why_tests_cant": "histories, heaps and worlds are unbounded", "anchors": ["lib/libsnmp/v1.py SNMP", "lib/libsnmp/v2.py SNMP", "lib/libsnmp/snmpmanager.py snmpManager", "lib/libsnmp/asynrole.py Manager", "lib/libsnmp/role.py manager"]}
{"id": "C103", "title": "role.manager's sockets, on the source text", "statement": "From the moment role.manager(...) returns an object (which asks the operating system for nothing), through any sequence of open, send, read, close and __del__ calls, whatever the operating system answers to each (a socket or an exception, a refused bind or buffer size, a failing sendto, recvfrom or close), every call of the source text returns or raises what the model says, touches no other object, and get_socket() is None exactly when no socket has been obtained since the last successful close; then read() raises ValueError. handle_close() of a manager closes the socket of its role.manager; writable() is 0 and handle_connect() does nothing.", "quantifier": "every heap, every finite sequence of calls, every world of each call", "why_tests_cant": "sequences of calls, heaps and answers of the operating system are unbounded", "anchors": ["lib/libsnmp/role.py manager", "lib/libsnmp/asynrole.py Manager.handle_close", "lib/libsnmp/asynrole.py Manager.writable", "lib/libsnmp/asynrole.py Manager.handle_connect"]}
{"id": "C104", "title": "The functions that nothing else in the package calls", "statement": "rfc1902.OctetString cannot be constructed: with any arguments, in any world, the constructor never returns (it calls itself), except that a text longer than 65535 is refused with ValueError. float() of an Integer is the nearest float or OverflowError, __long__() its number. encodeContents of the base class raises NotImplementedError and encodeEndOfContents gives two zero octets for every class. DecodeError(text or tuple) holds it as a tuple; DecodeError() raises TypeError. createSetRequestMessage of the v1 and v2 managers returns None, uses no request number and builds no message; createGetNextRequestPDU of the v2 manager takes the next number and builds an rfc1905 GetNext from the given bindings.", "quantifier": "every heap, every object, every argument, every world", "why_tests_cant": "arguments and heaps are unbounded; that a call never returns cannot be observed", "anchors": ["lib/libsnmp/rfc1902.py OctetString.__init__", "lib/libsnmp/rfc1155.py Integer.__float__", "lib/libsnmp/rfc1155.py Integer.__long__", "lib/libsnmp/rfc1155.py Asn1Object.encodeContents", "lib/libsnmp/rfc1155.py Asn1Object.encodeEndOfContents", "lib/libsnmp/rfc1155.py DecodeError", "lib/libsnmp/v1.py SNMP.createSetRequestMessage", "lib/libsnmp/v2.py SNMP.createSetRequestMessage", "lib/libsnmp/v2.py SNMP.createGetNextRequestPDU"]}
{"id": "C105", "title": "The main guarantees, stated of the source text alone", "statement": "Executed from the parsed source text: encode() of a well-formed object returns the BER encoding of the value it stands for; another process that decodes those octets gets one object that stands for the same value and encodes to the same octets again; objects encode to the same octets exactly if they stand for the same value; decode() of any text ends, with at most one object per two characters or one of six exceptions, and leaves all existing objects alone; == of Integers of any classes is an equivalence that compares numbers and agrees with hash(); == of trees of objects is an equivalence, True exactly for trees with the same contents, and != is False where == is True; ObjectID(str(x)) == x for every x with numbers below 2^31; a v2.SNMP at any point of its history returns from receiveData whatever text arrives and whatever exceptions callbacks raise; and text that answers no waiting request leaves a manager of any kind exactly as it was.", "quantifier": "every heap, every object tree of any depth, every text, every pair of processes, every history of a manager and every callback program", "why_tests_cant": "trees, texts, heaps and histories are unbounded", "anchors": ["lib/libsnmp/rfc1155.py Asn1Object.encode", "lib/libsnmp/rfc1155.py Asn1Object.decode", "lib/libsnmp/rfc1155.py Asn1Object.__eq__", "lib/libsnmp/rfc1155.py Integer.__eq__", "lib/libsnmp/rfc1155.py Integer.__hash__", "lib/libsnmp/rfc1155.py ObjectID.__str__", "lib/libsnmp/v1.py SNMP.receiveData", "lib/libsnmp/v2.py SNMP.receiveData", "lib/libsnmp/snmpmanager.py snmpManager.receiveData"]}
{"id": "C106", "title": "Graphs of shared, linked and changed objects, executed from the source text", "statement": "Executed from the parsed source text, on any graph of objects in which objects and lists may be shared and linked at will: encode() returns the octets, or raises the exception, that the model of objects with identities gives, and leaves the graph the model leaves (only Messages get a new value list); x.f = y is read back and, unless x is a Message, changes nothing that encode() of any object anywhere returns; encoding one object changes nothing that another's encode() returns, even if they share parts; a Message sends what its version, community and data refer to at that moment; any other Sequence sends what its value list refers to at that moment, x.value.append(y) included.", "quantifier": "every heap in which a graph of objects of any size, depth and sharing lies, every object of it, every field and every value assigned", "why_tests_cant": "graphs, their sharing and the order of changes are unbounded", "anchors": ["lib/libsnmp/rfc1155.py Asn1Object.encode", "lib/libsnmp/rfc1155.py Sequence.encodeContents", "lib/libsnmp/rfc1157.py Message.encodeContents"]}
{"id": "C107", "title": "Programs that make, share, change and encode objects, executed from the source text", "statement": "Start from the loaded package and run any sequence of operations, each executed from the parsed source text: Integer(n) and its subclasses, OctetString(s), Opaque(s), IPAddress(s), NetworkAddress(s), ObjectID(x), Null() and its subclasses, [x, y, ...], Sequence(l), VarBind(x, y), VarBindList(l), all PDU constructors, TrapPDU(...), Message(...), x.f, x[i], x.f = y, x.value, x.value = y, l.append(y), l[:] = [...], x.append(y), x.value = [n, ...] of an ObjectID and x.encode(). At every step the outcome (None, a number, the octets, an object, or the exception class) is the one that the model of objects with identities gives, whatever earlier operations shared, changed or failed at.", "quantifier": "every finite sequence of these operations, every argument, every way of sharing objects and lists between them", "why_tests_cant": "sequences, arguments and sharing are unbounded", "anchors": ["lib/libsnmp/rfc1155.py Integer.__init__", "lib/libsnmp/rfc1155.py Sequence.append", "lib/libsnmp/rfc1157.py PDU.__init__", "lib/libsnmp/rfc1157.py VarBindList.__init__", "lib/libsnmp/rfc1905.py PDU.__init__", "lib/libsnmp/rfc1155.py Asn1Object.encode"]}
{"id": "C108", "title": "More guarantees of the source text alone", "statement": "Of the parsed source text, executed, without reference to a model of it: decode returns exactly the objects that the grammar finds in the octets, with well-formed PDUs and traps, and raises exactly if there are none; decoding s + t, s of whole elements, gives the objects of s then those of t, or the exception of t; what it makes is of registered classes only and never bigger than its input; an object decoded from any BER element encodes to a BER element of the same value; an encoding has at least and at most the stated number of octets; the class constructors take exactly the values of their range; a Counter after any additions is its start plus their sum wrapped round, a Guage after any additions and subtractions is latched at its bounds; isPrefixOf is being a prefix; ObjectID(text) and IPAddress(text) accept exactly the texts of the stated form, and IPAddress(str(x)) == x; strings with the same hex dump are equal.", "quantifier": "every string of octets, every value, every text, every finite sequence of additions and subtractions, every heap", "why_tests_cant": "strings, values, texts and sequences are unbounded", "anchors": ["lib/libsnmp/rfc1155.py Asn1Object.decode", "lib/libsnmp/rfc1155.py Asn1Object.encode", "lib/libsnmp/rfc1155.py Integer.__init__", "lib/libsnmp/rfc1155.py Counter.__add__", "lib/libsnmp/rfc1155.py Guage.__add__", "lib/libsnmp/rfc1155.py Guage.__sub__", "lib/libsnmp/rfc1155.py ObjectID.__init__", "lib/libsnmp/rfc1155.py ObjectID.isPrefixOf", "lib/libsnmp/rfc1155.py IPAddress.__init__", "lib/libsnmp/rfc1155.py IPAddress.__str__", "lib/libsnmp/rfc1155.py OctetString.__hex__"]}
{"id": "C109", "title": "What a manager promises about its requests, read off the heap by the source text alone", "statement": "At any point of the history of a manager made by its constructor (request calls, turns of run(), callbacks that do whatever they like), executed from the source text: a request method that returns gives an Integer object holding nextRequestID, a number under which nothing waits; afterwards the request waits under it with the given callback beside those that waited, nextRequestID is one more, and the queue has one more item at its end, for the given address, carrying the given community, that number and the PDU kind asked for (v1 snmpSet excepted); snmpTrap that returns gives None, adds the trap's message at the end of the queue and takes no number; a method that raises leaves the waiting requests and the contents of the queue as they were; with the numbers used up a request raises, ValueError if its arguments are acceptable; the datagram that answers a waiting request ends its waiting if the callback returns, whatever the callback did, and, if the callback calls no method of the manager, only then, and touches no other; and a turn of run() that sends takes the first item off the queue and touches nothing else.", "quantifier": "every kind of manager, every history, every call, every datagram, every callback", "why_tests_cant": "histories, arguments and datagrams are unbounded; exhaustion takes 2^31 calls", "anchors": ["lib/libsnmp/v1.py SNMP.snmpGet", "lib/libsnmp/v1.py SNMP.assignRequestID", "lib/libsnmp/v1.py SNMP.receiveData", "lib/libsnmp/v2.py SNMP.receiveData", "lib/libsnmp/snmpmanager.py snmpManager.snmpGet", "lib/libsnmp/snmpmanager.py snmpManager.receiveData", "lib/libsnmp/asynrole.py manager"]}
