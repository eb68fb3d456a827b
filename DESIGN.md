# A Lean 4 model of jpwarren/libsnmp

## 1. What is modelled, and how

The library (`/repo/lib/libsnmp`, about 1900 lines of Python 3) is modelled function by function as total,
computable Lean functions.  Python exceptions are values (`Except Exc α`, or a state paired with such a
result when effects made before the exception remain visible).  Loops are well-founded recursions or folds
that mirror the Python loop.  Python `int` is `Int`/`Nat` (both unbounded), Python `str` is the list of its
code points (`Str = List Nat`, because the library uses `str` with `chr`/`ord` as its octet buffer), Python
`bytes` is a separate constructor because the library distinguishes them.

Layout (`/verif/lean/Verif`):

* `Py.lean` - Python primitives: exceptions, `chr`, `int(str)`, `str(int)`, `split`, `strip`, indexing.
* `Model/*.lean` - the code, one definition per function, each citing file and lines:
  `Ber` (length, tag, integer and OID contents octets), `Cls` (class hierarchy and class attributes), `Obj` (objects as
  trees, encode/decode, PDUs, messages, registries), `Text` (constructors from text, `isPrefixOf`), `Str` (`str()`,
  `toObjectID`, hex dumps), `Arith`, `Eq`, `Heap` (lists with identity, for the sharing properties), `Manager` (the three
  manager classes and their loops), `World` (several managers and the shared asyncore loop), `Role` (`role.manager`,
  `asynrole`), `Threads` (small steps of the request path), `Imports` (module start-up), `Logging` (loggers and what is
  logged), `NamesData` (generated from the source text by `tools/extract_names.py`: the top-level statements of every module
  and the names its functions use), `Names` and `Process` (what executing those statements does), `Graph` and `Program` (every SNMP
  object as a mutable Python object with identity, and programs that hold references to them), `Lang`, `Interp` and `SourceData` (the
  language of the source text, its interpreter, and the source text itself, extracted).
* `Spec/*.lean` - small independent specifications (two's complement value, base-128 groups, BER grammar,
  SNMP abstract values, request/response traces).  They do not mention the model.
* `Lemmas/*.lean` - helper lemmas.
* `Props/*.lean` - the property theorems only, with a non-vacuity `example` beside each.
* `Tests/RepoTests.lean` - the project's own unit tests (`/repo/lib/libsnmp/test*`) replayed against the model: a check of the
  model, not counted as proof of anything.

`tools/mkmanifest.py` regenerates `MANIFEST.json` (theorems are found by their `Cnn_` prefix, notes come from
`tools/notes.json`) and `lean/Verif.lean`.  `seeded/LOG.jsonl` records the wrong programs the theorems were tried against.

## 2. Trusted base

* Lean 4.33.0's kernel.  Axioms: at most `propext`, `Classical.choice`, `Quot.sound` (checked by `vcheck`);
  no axiom of our own, no compiled evaluation.
* The reading of the Python source: each definition cites the lines it models, and every simplification is
  stated there.  The code was not executed.
* `tools/extract_names.py`, a Python script over the `ast` of the source text, as far as C87 is concerned: it writes
  `Model/NamesData.lean` and has to be believed to copy the statements correctly.  C87 then ties the hand-written class
  tables to the extracted statements.
* `tools/extract_source.py`, likewise, as far as C88-C109 are concerned: it writes the bodies of all 166 functions of rfc1155,
  rfc1157, rfc1902, rfc1905, util, role, asynrole, v1, v2 and snmpmanager as syntax trees (`Model/SourceData.lean`), and the
  equations of `Lemmas/SourceFacts.lean`, which are proved.  `Model/Lang.lean` and `Model/Interp.lean` say what the trees mean:
  the reading of Python.  C88-C109 then tie the hand-written definitions of the models to the extracted bodies: every one of the
  166 functions is executed by some theorem (C88-C95 rfc1155, rfc1157, rfc1902, rfc1905 and util; C96-C103 the managers, asynrole
  and role; C104 the functions that nothing in the package calls).
* Python semantics assumed: see section 4.

## 3. Plan per property

| id | modelled | proof |
|----|----------|-------|
| C01-C03 | `encodeLength`, `decodeLength` as byte loops | induction on the loop; base-256 value `beNat` as the spec |
| C04 | `decodeTag` loop with index | induction; spec: `takeWhile` of continuation octets and base-128 value |
| C05 | class table with Python attribute lookup along the parent chain; `encodeIdentifier` with a step budget for its loop | finite table by kernel evaluation; divergence: for every budget the loop is still running |
| C06-C10 | `Integer.encodeContents`, the four decoders, `Counter.decodeContents` | induction over octets; spec `twos` |
| C11-C14 | `ObjectID.encodeContents/decodeContents` | induction on sub-identifiers; spec base-128 groups |
| C15-C16 | `ObjectID.__init__/__str__`, `int()`, `split`, `strip` | induction on digits and on the list |
| C17 | `isPrefixOf` index loop | induction; spec `List.IsPrefix` |
| C18 | `OctetString` | direct, and inside C19 |
| C19-C26 | `Asn1Object.encode/decode`, `Sequence`, registry | mutual induction over object trees / stream length; spec: inductive BER relation over SNMP abstract values |
| C27-C31 | `PDU`, `BulkPDU`, `TrapPDU`, `VarBind`, `VarBindList`, `Message` | from C19-C21 plus the constructors |
| C32-C35 | constructors, `__add__`, `__sub__` | case analysis; induction on operation histories |
| C36-C37 | `==` with Python's reflected-operand rule | structural induction over trees |
| C38-C40 | explicit heap of Python lists, objects hold addresses | separation invariant, induction over histories |
| C41-C42 | `IPAddress`, `util` | induction on strings |
| C43-C53 | `v1.SNMP`, `v2.SNMP`, `snmpManager` as state machines; user callbacks are arbitrary functions constrained to act through the request API | invariants and refinement by induction over histories |
| C54 | data type tag `str`/`bytes`, `role.manager` and `asyncore` hand-over | direct |
| C55 | small-step interleaving model of the request path | explicit bad schedules; single-thread invariant |
| C56 | module imports as updates of the shared dict | invariant over import sequences |
| C57 | class-level dict as process state | induction over histories |
| C58-C59 | `role.manager`, `asynrole.Manager` | induction over histories / case analysis |
| C60 | `encode` | structural induction |
| C61-C62 | `toObjectID`, `__str__` of every class | structural recursion; spec: text layout per class |
| C63-C64 | `createTrapPDU`, `createTrap`, `getSysUptime` (uptime is a parameter), `typeSetter`, `enterpriseOID` | case analysis, iff characterisations |
| C65 | `decode` | spec: an inductive grammar `Spec.Parses` that does not mention the decoder; soundness and completeness by strong induction on the stream |
| C66 | `v2.SNMP.snmpGet` on text | from C12, C16 and the manager model |
| C67 | `World`: any number of managers, one asyncore map | projection: each manager's part of a process history is a history of the single-manager model |
| C68-C69 | `Graph`: objects in memory, encode reads `value` or fields | frame lemmas per memory operation, invariant over all programs |
| C70 | `Program`: a program with every operation on every reference it can reach, the queue and the callbacks dict | reachability/separation invariant (`Region`), then refinement to C51 |
| C71 | `Depth`: `decode` with room for d nested calls | induction on d; against the BER grammar and the nesting depth of `Spec/Depth` |
| C72-C73 | nothing new: the manager model on top of encoder and decoder | composition of C45, C51, C12, C65, C46; spec: `Spec/Protocol`, a message layout that does not mention the model's encoder |
| C74 | `Model/Run`: `run` as its finite prefixes, one `Turn` (outcome of `sendto`, datagram, callback code) per pass | induction over the turns with the queue invariants of C45/C47 |
| C75 | `Model/Scripts`: the two scripts as callback code and main program on top of the manager model; the network is a list of (sendto outcome, datagram) | composition of C72 with C74; spec: `Spec/Scripts`, the printed lines in terms of abstract SNMP values |
| C76 | no new model: `decode` then `encode` | structural induction over values; spec: `Spec/Relay`, the echo of an abstract value |
| C77 | `Model/Scripts`: snmpwalk.py's callback, which asks again, on top of the manager model; `Spec/Walk`: an agent is any function on octets that answers as the protocol says, the network is the closed loop of program and agent | invariant of the loop (`Walking`), then induction along the path through the MIB; existence of agents from the uniqueness of encodings |
| C78 | `Model/Scripts.lean`: traplistener.py, trapsender.py, constructors of snmpget-v1/-v2; `Spec/Listener.lean` | invariant over the turns of the loop (no callbacks, empty queue), then each datagram's lines from C73_trap_decoded and C62_text |
| C79 | `Integer.__hex__/__oct__/__call__/__float__`, `OctetString.__hex__/__oct__` (Model/Forms.lean) | numerals against `Spec.Prefixed`; injectivity by equal block lengths; rounding error lemmas (Lemmas/Float.lean) |
| C80 | `getSysUptime`: first word of the file, `float()` grammar, two binary64 roundings, truncation (Model/Forms.lean) | relative error ≤ 2⁻⁵³ per rounding, monotone rounding; composed with C63 for the trap's time stamp |
| C81 | `Decoder.decode` through the grammar of C65 | induction over the grammar: `weight` (Spec/Size.lean) of what is parsed against the octets consumed |
| C82 | `Asn1Object.encode` of every class, `MessageBase.encode` | mutual induction over the object with bounds for identifier, length, integer and base-128 fields; instantiated for request messages |
| C83 | composition of C41, C63, C73, C78, C80 | the theorems compose; existence of the printed lines by `displayed_exists` |
| C84 | Model/Channels.lean: sockets, descriptors, `asyncore.socket_map`, `asynrole.Manager` with its two socket references | invariants over all histories (`Sane` always, `Orderly` without `handle_close`); descriptor choices universally quantified |
| C85 | Model/Logging.lean: logging state, each module's getLogger/setLevel statements, the records of `receiveData` | invariant over all import/logging histories (Lemmas/Logging.lean), then the records of each datagram from the receive equation of C46 |
| C86 | Model/LongInts.lean: `decode` with the limit on numerals, `receiveData` on top | agreement up to ValueError by induction on the stream; exactness by induction on the BER derivation; the bound of 1785 octets from the two's complement range |
| C87 | The top-level statements of all modules, generated from the text (Model/NamesData.lean), executed by Model/Names.lean in a process that imports modules (Model/Process.lean) | Execution depends only on what it reads; every module reads the same in every order (Lemmas/Names.lean), so a run in any order leaves what each module leaves alone; class facts by induction along the base-class relation |
| C88 | Function bodies extracted from the text (Model/SourceData.lean), run by an interpreter with heap, attribute lookup and exceptions (Model/Lang.lean, Model/Interp.lean, a least fixed point, so that a loop that does not end has no outcome) | Spec/Source.lean relates heap objects to model values; symbolic execution by simp lemmas; loop invariants by induction; decode by induction on the nesting |
| C89 | As C88 | Mutual induction over the value and its components; frame: heap only grows |
| C90 | As C88 | Constructors by symbolic execution; Message.decode from C88, Message.encode from C89; C90_wire with C30 |
| C91 | the interpreter runs `__eq__`, `__ne__`, `__hash__` of the source text; the reflected methods and the identity fall-back are rules of the interpreter | induction on the size of the two values |
| C92 | the interpreter runs the constructors and `__add__`, `__sub__` | cases over classes and operands, symbolic execution |
| C93 | client code of the operations of `OidOp` run by the interpreter on one heap (`Spec/SourceOid.lean`) | simulation relation between the heap and `OidMem`, induction over the history |
| C94 | the interpreter on __str__, __hex__, __oct__, __call__, toObjectID, enum, __len__ of all classes; Model/StrLim is Model/Str with the limit on numerals | structural induction on the value, running each body symbolically; the % operator is run on the parsed format |
| C95 | the interpreter on decodeTwosInteger1/2/3 (with map, reduce and a lambda), OctetString.__init__, IPAddress.__init__ | induction over the octets or the pieces of the text, symbolic execution of the bodies |
| C96 | the interpreter on the request methods of v1.SNMP and v2.SNMP; a manager object in the heap (Spec/SourceMgr.lean) | symbolic execution of each method down to the constructors (C88-C94), with a simulation relation between the object, its Queue and its dict and the model's Mgr |
| C97 | the interpreter on the request methods of snmpManager; sequences of calls of the three classes | symbolic execution; the dictionary with object keys simulated by findKey (hash and ==); induction over the sequence with C96/C97 as the step |
| C98 | the interpreter on receiveData of the three classes, with the user's callbacks as functions described by the model | symbolic execution; decoding by C90; deletion from the dictionary simulated; the handlers of the exceptions; the callback through the hypothesis Obeys |
| C99 | the interpreter on run(), send, poll, handle_read, handle_error and role.manager's send and read, with asyncore.poll calling the manager back as asyncore.read does | symbolic execution; encoding of the queued message by C89's run with the write to its attribute value tracked; C98 for receiveData; the exception handlers; the loop unfolded by the interpreter's equation for while |
| C100 | the interpreter on the constructors of the three classes, asynrole.Manager.__init__, role.manager.__init__ and open, with keyword arguments and defaults | symbolic execution; the object's attributes followed through the calls of asyncore |
| C101 | the interpreter on getSysUptime, enterpriseOID, typeSetter, createTrapPDU and createTrap of the three classes, with `float`, `split` and float multiplication as binary64 (Model/Floats.lean) | symbolic execution; one run of the common tail of the three trap builders for any six class expressions |
| C102 | the interpreter from the constructor through calls and turns in any order; a trace relation that runs the source text | forward simulation: invariant (object, wires, socket, fixed objects) kept by C97 and C99, established by C100; reachability of the model's state; C43 carried over to what the source text returns |
| C103 | the interpreter on role.py and three methods of asynrole.py; a trace relation that runs any sequence of calls, each in its own world | forward simulation to Model/Role (each method, each answer of the operating system), so that C58 holds of the source text |
| C104 | the interpreter on the functions that nothing else calls | execution for all arguments; for rfc1902.OctetString fixpoint induction over the mutually recursive interpreter |
| C105 | interpreter and reference semantics together | composition: execution theorems rewrite the call to the model's value, then the model's theorem applies |
| C106 | a relation between memories of `Model/Graph.lean` and heaps of the interpreter (`Spec/SourceGraph.lean`) | induction on the depth of the recursion and on the list of elements; the relation is kept by encode, by assignments to fields and by append |
| C107 | each operation of `Model/Program.lean` as an execution (`Spec/SourceProgram.lean`) | the relation of C106 holds at the start and is kept by every operation; induction on the history |
| C108 | executions of the source text; `Spec/SourceMore.lean` (sequences of additions, the accepted texts), `Spec/Grammar.lean` | the properties of the models C16, C24, C28, C41, C64, C65, C76, C79, C81 carried over with C88-C95; induction on the sequence for Counter and Guage |
| C109 | executions of the source text along the histories of C102; what waits, the queue and the next number are read off the heap (`Spec/SourceWaiting.lean`) | C102 (the object follows the model) with C43-C46, C50, C51 for the step |

Where the property one would expect is false of the code, the property list states what is true, the negation of the
expected property is proved with a concrete witness, and the exact region in which it does hold is characterised.
These are listed in section 5.

## 4. Python semantics assumed and what is left out

Assumed: CPython up to 3.11 (the library needs `asyncore`; it does not start on 3.12+); `asyncore` as in 3.11 (no
`dispatcher.__getattr__`, which older versions had).  `int` is unbounded.  `chr` accepts
0..0x10FFFF and raises ValueError otherwise.  `dict` and `queue.Queue` operations are atomic (only used by C55).
`except Exception` does not catch SystemExit and KeyboardInterrupt.  `sock.sendto` refuses `str` with TypeError.

Not modelled, in one place:

* the recursion limit, except in C71.  `decode` of nested sequences and `encode`/`==`/`str` of deep trees raise RecursionError
  beyond some hundred levels in CPython; the other models recurse to any depth.  C71 shows for `decode` that this is the
  only way in which results differ, and from which depth.
* `int(text)` with non-ASCII digits and the 4300-digit limit of newer versions on `int(text)` and `str(n)` (C86 models it where decoding meets it); texts are ASCII as far as digits and blanks
  are concerned.
* logging and `debug.py` (except for C85), `time.sleep`, the contents of exception messages (only the exception class is kept; an exception
  whose construction itself fails is modelled, e.g. MessageError in C31).
* the command line scripts in `/repo/*.py` except as far as section 3 says (C75 and later).
* floats as arguments; subclasses written by users except where a property names them (C05).
* sockets: a socket either delivers a datagram, or an error; descriptor reuse is modelled in C84 only, CPython's collection
  of unreferenced sockets is not.
* `Mem.eq` compares both sides completely where Python stops at the first difference or at identical objects (`is`); this
  can only matter if an element comparison raises, which for the Graph model's objects means Integer against non-number.
* threads: sequential consistency, atomic dictionary and queue operations (C55).  All other properties are single-threaded;
  callbacks are arbitrary programs over the public API that may call back into the manager.

## 5. Where the code disagrees with what one would expect

| property | expected | what the code does (proved) |
|----|----|----|
| C05 | RFC identifier octets | Counter64 emits 0x07, Opaque 0x04, v1 Response 0xA0, v2 exceptions 0x05; tag numbers >= 31 never return |
| C08 | integers round-trip | false exactly in [-256^k, -256^k/2-1] |
| C10 | counters are unsigned | Counter64 contents above 4 octets with the top bit set stay negative or are shifted by 2^32 |
| C11 | ObjectIDs round-trip | only if second < 40 and 40*first+second < 128 |
| C25 | truncation detected | never detected |
| C27 | PDUs keep their kind | a v1 Response is sent as a Get |
| C31 | MessageError on bad framing | TypeError for a wrong object count; a three-arc ObjectID passes as a message |
| C32 | bounds of Integer32 | upper bound 2^31 |
| C33 | `a - b` subtracts | adds |
| C34 | wraps modulo 2^32 | modulo 2^32-1, from the maximum to 1; negative increments leave the range |
| C36-C37 | == is an equivalence | not transitive through text; Integer == other raises, the reverse returns False; everything but integers unhashable |
| C39 | constructors copy | a plain Sequence shares the caller's list |
| C41 | IPAddress refuses > 255 | accepted up to chr's limit |
| C42 | octal dump faithful | truncates |
| C47 | callback at most once | a raising callback stays registered; a re-entrant one completes twice |
| C49 | managers survive garbage | v1 and snmpManager do not |
| C51 | v1 snmpSet sends Set | sends GetNext |
| C52 | calls exist | always AttributeError / TypeError |
| C52 | snmpSet of a text type refuses a number | it is accepted, registered and queued; `run()` dies with TypeError when it encodes it |
| C53 | v2 traps dispatched | looked up as responses |
| C54 | works on Python 3 | nothing is ever received or sent |
| C55 | thread-safe | duplicate IDs, lost callbacks |
| C57 | error texts | 6..18 only after the first SNMPv2 error status |
| C58 | no socket leak | a second open leaks the first |
| C59 | original exception | UnicodeDecodeError becomes TypeError |
| C62 | str() total | KeyError for unnamed numbers |
| C63 | default agent address | always raises |
| C64 | enterpriseOID | below mib-2 |
| C66 | snmpGet("1.3...") | always ValueError |
| C67 | managers independent | they share the loop |
| C68 | fields are what is sent | assigning a PDU field changes nothing that is sent |
| C69 | messages compare by contents | all unsent messages of a class are equal |
| C70 | a queued request is fixed | its request ID is aliased with the returned object; changing it loses the answer |
| C71 | decoding is safe on any datagram | four octets per level exhaust the stack; the v1 manager and snmpManager die of it |
| C72 | only a Response answers a request | a Get, GetNext or Set datagram with the ID does, too |
| C74 | the idle callback (`whenDone`) means that all requests are done | it is invoked in every turn that finds the queue empty, whatever requests are pending |
| C75 | snmpget.py waits for the answer, and says so if there is none | it exits with status 0 and prints nothing if the answer is not there at the second poll; a stray datagram kills it; snmpset.py cannot set three of its seven types |
| C76 | re-encoding what was decoded gives the same value | four kinds of values change, Counter64 becomes garbage |
| C77 | snmpwalk.py walks a subtree | it walks to the end of the agent's information, stops without a word at the first Counter64 and at the first lost datagram, always with status 0 |
| C78 | snmpget-v1.py, snmpget-v2.py send a request | the constructor raises TypeError |
| C79 | `__oct__` is the octal dump | blanks instead of leading zeros, unlike `__hex__` |
| C80 | uptime in hundredths | one hundredth low for some readings (0.29 → 28); traps impossible after 497 days |
| C84 | `handle_close()` closes a manager | the asyncore loop keeps its descriptor: every later poll in the process raises; `close()` leaves `role.manager` a closed socket that it never replaces |
| C85 | importing debug turns on the library's debugging output | the codec and the v1/v2 modules set their loggers to INFO, so nothing is shown; what debug does change is every logger the program itself makes afterwards (C85_own_logger) |
| C86 | a debugging record that is never shown costs only time | it formats every decoded integer in decimal, so 1790 octets make decode raise ValueError on CPython 3.11 (C86_datagram) |
| C87 | each module logs to its own logger | `log` in rfc1157 is rfc1155's: the star import after line 9 replaces it |
| C104 | rfc1902.OctetString limits an OctetString to 65535 octets | its `__init__` calls itself: no such object can ever be made; `DecodeError()` raises TypeError; `createSetRequestMessage` returns None |
