{
 "C05": {
  "note": "Table over all classes by kernel evaluation; the exceptions to the RFC octets are part of the statement and proved."
 },
 "C08": {
  "note": "Expected property is false: C08_int_roundtrip_false gives the witness, C08_int_roundtrip_iff the exact region, C08_int_band what happens outside it."
 },
 "C10": {
  "note": "Holds for contents of at most 4 octets; C10_counter_decode_any and C10_counter64_element state what happens for longer contents."
 },
 "C11": {
  "note": "iff characterisation of the identifiers that survive; outside it the decoder raises NotImplementedError or returns another list."
 },
 "C25": {
  "note": "Expected property is false: C25_false. C25_truncation_accepted: truncated contents always decode as if complete."
 },
 "C27": {
  "note": "SNMPv1 Response comes back as Get (C27_response_becomes_get)."
 },
 "C31": {
  "note": "Outcome of every stream characterised; the MessageError for a wrong object count cannot be built and surfaces as TypeError."
 },
 "C33": {
  "note": "Subtraction adds (C33_sub_adds); C33_sub_wrong refutes the expected property."
 },
 "C34": {
  "note": "Modulus is 2^32-1 (C34_wraps_to_one); negative increments escape (C34_escapes)."
 },
 "C37": {
  "note": "Comparisons that raise are part of the statement (C37_integer_asymmetry). OctetStrings holding an Integer object are excluded by ObjectTree."
 },
 "C39": {
  "note": "A plain Sequence shares the caller's list (C39_sequence_shares); everything else is isolated."
 },
 "C47": {
  "note": "At most once without re-entrancy; C47_reentrant_callback_twice shows that the restriction is needed."
 },
 "C49": {
  "note": "True of v2.SNMP; C49_others_raise, C49_ends_loop: false of v1.SNMP and snmpManager."
 },
 "C51": {
  "note": "v1.SNMP.snmpSet never sends a Set (C51_v1_set_never_set)."
 },
 "C52": {
  "note": "Each call fails for every argument and state; C52_unencodable_set: the failure can also come late, when the message is encoded."
 },
 "C53": {
  "note": "SNMPv2 traps are looked up as responses (C53_v2_trap_is_an_answer)."
 },
 "C54": {
  "note": "Under Python 3 no datagram is dispatched and none can be sent."
 },
 "C55": {
  "note": "Interleaving model with sequential consistency and atomic dict/queue operations; the expected property is refuted by explicit schedules and proved under non-overlap."
 },
 "C58": {
  "note": "Model of role.manager; a second open leaks the first socket (C58_superseded)."
 },
 "C59": {
  "note": "asyncore's dispatch and asynrole's handler as pure functions of what is raised."
 },
 "C63": {
  "note": "Host uptime is a parameter."
 },
 "C67": {
  "note": "Managers are independent except for the shared asyncore loop (C67_loop_serves_all, C67_foreign_garbage_ends_my_loop)."
 },
 "C68": {
  "note": "Object-graph model with identity and arbitrary programs."
 },
 "C70": {
  "note": "Programs over all references reachable from API results; separation invariant."
 },
 "C71": {
  "note": "A level is counted as one unit of stack whatever its class; the managers are covered for decode only."
 },
 "C72": {
  "note": "The octets of lengths beyond 256^127 are excluded (unencodable in BER)."
 },
 "C73": {
  "note": "snmpManager.snmpTrap is C52: it cannot send."
 },
 "C74": {
  "note": "A call of run that never returns is described by its finite prefixes."
 },
 "C75": {
  "note": "getopt, name resolution and print are not modelled; `addr server` stands for (server, 161)."
 },
 "C76": {
  "note": "Stated for registries after an import of the library (`Imported`), lengths below 256^127."
 },
 "C77": {
  "note": "getopt, name resolution and print are not modelled. The agent gets each request and its answer is there at the next poll; requests are assumed to fit into UDP datagrams (65507 octets)."
 },
 "C78": {
  "note": "Text of a timestamp that is not an Integer (only in broken traps) is a parameter. C78_old_get is immediate from the model of bind: an AF_INET address must be a tuple."
 },
 "C79": {
  "note": "Python 3's hex()/oct() do not call these methods; they are modelled as called by name."
 },
 "C80": {
  "note": "binary64 arithmetic is modelled as correctly rounded rationals (53 bits, gradual underflow, overflow to infinity); inf/nan and non-ASCII digits in /proc/uptime are treated as unreadable, which gives the same 0."
 },
 "C81": {
  "note": "Space is counted as one per object plus one per character/sub-identifier (Spec/Size.lean)."
 },
 "C82": {
  "note": "Bounds are stated for encodings within a UDP datagram (65507 octets), where a header has at most four octets."
 },
 "C83": {
  "note": "Specific trap numbers in the bands C08 found to be mis-encoded, and names whose second arc is 40 or more (C11), are excluded; trapsender.py itself gives no agent address and fails (C78)."
 },
 "C84": {
  "note": "asyncore.py of CPython 3.11 (poll, read, set_socket, add_channel, del_channel, close) is modelled as the library uses it; bind/setsockopt/close failures are C58's."
 },
 "C85": {
  "note": "Python's logging is modelled as far as the library uses it (levels, handlers along the dotted name, handler of last resort); logging.disable, filters, propagate=False and handlers with levels are not. What a callback itself logs is not counted."
 },
 "C86": {
  "note": "The limit is modelled where decoding meets it (the debugging record of rfc1155.py:432); str() and int() of giant numbers elsewhere (ObjectID texts, IPAddress texts) are not."
 },
 "C87": {
  "note": "The statements executed at import are extracted from the source text by tools/extract_names.py into Model/NamesData.lean, so the class table, attribute tables, registry and typeSetter of the hand-written model are proved equal to what the source's own statements compute."
 },
 "C88": {
  "note": "The function bodies are extracted from the source text by tools/extract_source.py into Model/SourceData.lean and run by the interpreter of Model/Interp.lean (heap, aliasing, attribute lookup, exceptions, loops without bound). Strings of 10^640 characters and more are excluded (the debugging records of the code would print numerals that the interpreter may refuse)."
 },
 "C89": {
  "note": "Same extraction. Values with a part of 10^640 octets or more are excluded, and values with a Message inside another object (Message.encodeContents changes the message; C90)."
 },
 "C90": {
  "note": "Same extraction. The receiver of C90_wire runs python -O or has no limit on numerals; C90_message_decode has any limit. No Message inside the PDU."
 },
 "C91": {
  "note": "Interpreted source text related to the model's pyEq/pyNe for all pairs of representable values (texts with at most as many digits as int() accepts)."
 },
 "C92": {
  "note": "Interpreted source text related to mkInteger, pyAdd and pySub."
 },
 "C93": {
  "note": "A simulation between the interpreter running the source text and the model's memory of ObjectIDs, by induction over the history; isolation (C38) carried over to the source text."
 },
 "C94": {
  "note": "C94_str/_message_str: run of the source text = valStrDig/msgStrDig (valStr when no number is too long: C94_str_short); bytes and OctetStrings that hold no str are outside Rep; a message inside a value is outside (NoMessage)."
 },
 "C95": {
  "note": "C95_twos via the model functions of C07; the constructors of IPAddress on objects of the package and on bytes, and rfc1902.OctetString (endless recursion, C52/C61 on the model), are not run on the source text."
 },
 "C96": {
  "note": "The model's methods are those about which C27-C44 and the histories speak. Limits: a text argument has no numeral longer than the limit of int(). The community is a str."
 },
 "C97": {
  "note": "snmpSet is proved for the values of Settable (Spec/SourceAsk.lean): numbers, texts, None and objects for Integer classes, texts for OctetStrings, anything but lists and objects for addresses, anything for ObjectID and Null; tags of sequence classes are not run."
 },
 "C98": {
  "note": "The user's code is any function that Obeys (Spec/SourceRecv.lean) a function of the model: it may change the manager in any way the model expresses, and objects of its own, but not, for example, the message it is given; C98_asking shows it for callbacks that make requests. In v2 the standard library's traceback.print_exc() is assumed to return."
 },
 "C99": {
  "note": "asyncore.poll, sys.exc_info, time.sleep and the socket are described by Around, SendsTo and readEvent (Spec/SourceTurn.lean), user code by Obeys and Heeds. C99_run, C99_run_next and C99_run_raises unfold run() into turns; C99_same: for datagrams that decode alike under the limit on numerals the turn is the model's iterate. C99_never_returns needs no assumption at all: in every world, for any object that is a manager, run() never ends with a normal return."
 },
 "C100": {
  "note": "asyncore.dispatcher's __init__ and set_socket are assumed to return and to set only attributes of their own on the object (Tunes, Spec/SourceInit.lean); socket.socket, bind and setsockopt return or raise (Opens, Refuses). The state that C100_new establishes is the one from which C97, C98 and C99 start."
 },
 "C101": {
  "note": "open() and read() on /proc/uptime return or raise (UptimeFile, Spec/SourceHelp.lean); the text is ASCII. The agent address is a text, bytes, a number, a tuple or None (TrapGiven). C63, C80 and C83 speak of the functions of the model that C101 proves equal to the source text."
 },
 "C102": {
  "note": "History (Spec/SourceHistory.lean) runs the interpreter step by step; beside the heap it carries the state of the model, which the assumptions about each step mention: the world of a turn as in C99 (Around, SendsTo, Obeys, Heeds), messages of moderate size in the queue (Fine), datagrams in which no number is longer than the process allows (any of up to 1785 octets, C86), arguments as in C97 (Ask). Callbacks are programs of the model (Act)."
 },
 "C103": {
  "note": "RoleLife (Spec/SourceRole.lean) runs the interpreter call by call. The world of a call says how each socket function ends, whatever is in the heap (Says): socket calls that change the package's objects are not covered. The interpreted language has no value for bytes, so the octets of a datagram are a str."
 },
 "C104": {
  "note": "The interpreter has no recursion limit: where CPython raises RecursionError from rfc1902.OctetString.__init__, its evaluation is endless; the theorem says that no value is ever returned (fixpoint induction over the whole interpreter). With C88-C103 every one of the 166 functions of the package is executed by some theorem."
 },
 "C105": {
  "note": "Corollaries of the executions C88-C102 and of the properties of the model (C15, C19, C22, C23, C36, C37, C48, C49). C105_object_wire needs python -O or no limit on numerals at the receiver (C86 says what the limit does)."
 },
 "C106": {
  "note": "Ties gEncode of Model/Graph.lean (C68-C71) to the interpreter running the source. Graphs in which encode would recurse for ever (cycles) are outside: the model gives RecursionError at every depth, the interpreter has no value. Messages must have their three fields, as every constructor gives them."
 },
 "C107": {
  "note": "Ties Prog.step of Model/Program.lean (C68-C71) to the interpreter running the source, for these operations. Not covered: decode, slices, the rfc1902.OctetString constructor, and encode of cyclic graphs."
 },
 "C108": {
  "note": "Theorems about executions of the extracted source only; proved from C88-C95 and the theorems about the models."
 },
 "C109": {
  "note": "C109_answered is about callbacks that call no method of the manager (they return or raise); in C109_sends, for snmpManager, no datagram is waiting, since it polls before it sends."
 }
}