# Formal model of py-apx: design

Everything lives in `lean/Verif`. `Verif/Model/*` is the model (one file per
source module), `Verif/Spec/*` holds small specifications that do not mention
the model, `Verif/Proofs/*` helper lemmas, `Verif/Props/*` the property
theorems (named `Cnn_...`) with concrete non-vacuity examples beside them.

## Trusted base

* Lean 4.33.0's kernel. Theorems may depend on `propext`, `Classical.choice`,
  `Quot.sound` and nothing else (no own axioms, no `sorry`, no
  `native_decide`, no `bv_decide`).
* The reading of the Python code embodied in `Verif/Model` (every definition
  cites file and lines). The correspondence is by inspection, and checked by
  running the unit tests of the repository on the model: `Verif/Conformance`
  transcribes them as `example`s evaluated by the kernel (`Wire`, `Text`, `Swc`,
  `Prog`, `Data`, `Gen`: every test file; in `Gen` the text of the
  generated C files is compared with the expected files of the
  repository). They are tests of the model and count as no
  proof of any property.
* The reading of Python/CPython library behaviour: `struct`, `bisect`,
  `int`, `str` methods, `re`, utf-8 codecs, `queue.Queue` (FIFO),
  `threading.Lock` (non-reentrant).

## Modelling conventions

* bytes / bytearray: `List UInt8`. Python `int`: `Int` (or `Nat` where the
  code has already established non-negativity; said where done).
* `str`: `List Char`. Python strings containing lone surrogates do not exist
  in the model. utf-8 is Lean core's `List.utf8Encode` / `utf8Decode?`.
* Exceptions are values: `Py α := Except PyErr α`, one constructor of `PyErr`
  per exception class raised. Messages are dropped. `print`/stderr dropped.
* A blocked `Lock.acquire` is an explicit outcome.
* Objects with identity (files, ports) get explicit identifiers where the
  code relies on identity; otherwise structural values.
* Loops are structural recursions mirroring the code branch by branch; no
  fuel except where Python itself has a bound (`MAX_RECURSE_DEPTH`).

## What is modelled / not modelled

Modelled, one file of `Verif/Model` each:

| source | model |
|--------|-------|
| numheader.py | `NumHeader` |
| remotefile/\_\_init\_\_.py: headers, FILE_INFO/OPEN/CLOSE codecs | `RmfHeader`, `RmfCmd` (with `Struct` for `struct.pack`) |
| remotefile/\_\_init\_\_.py: FileManager, its worker, start/stop | `FileManager`, `Lifecycle`; two or more writing threads in `Concurrent` |
| remotefile/socket_adapter.py: reassembly, worker loop | `Socket`; sends taken in part: `Transmit` |
| remotefile/proto.py: readLine | `Proto` |
| apx/file.py, apx/file_map.py, apx/file_manager.py | `File`, `FileMap`, `ManyNodes` |
| apx/base.py: match_pair, signatures, elements, init data, attributes | `PyStr`, `Signature`, `Element`, `InitValue`, `PortAttr` |
| apx/base.py: AUTOSAR integer types, value tables | `Autosar` |
| apx/node.py: import of AUTOSAR components; apx/context.py: nodes of a partition | `Import`, `Context` |
| apx/context.py: save_apx, dumps | `Context` |
| apx/base.py: elements made by calls, shared and changed in place | `Builder` |
| apx/compiler.py, apx/vm*.py | `Compiler`, `Vm` (with `PyVal` for Python values); objects with a history in `CompilerObj`, `VmObj` |
| apx/node_data.py | `NodeData`, `NodeBuild`; used by several threads in `Threads` |
| apx/node.py, apx/parser.py | `Node`, `Parser` |
| apx/client.py | `Client`; two connected endpoints in `Endpoint`; a client made for a node and its file manager in `Session`; connect_tcp and stop in `Connect`; create_node(text) in `FromText` |
| apx/tester.py (ramp) | `Tester` |
| apx/generator.py: NodeGenerator (offsets, lengths, initial data; read and write functions; definition literal, initializers, callback code; the files and their text; execution of the initialization) | `Generator`, `GenCode`, `GenText`, `GenFile`, `GenPrint`, `GenInit` |
| apx/generator.py: ComGenerator (what the emitted send and receive functions do, the static variables, the node; the files and their text) | `Com`, `ComFile`, `ComPrint` |
| apx/apx_writer.py; apx/base.py: AutosarRequirePort, AutosarProvidePort | `Writer` |
| util/apx_split.py, apx_join.py, apx_size.py, apx_normalize.py, apx_finalize.py, apx_mirror.py (from the parsed arguments and the input texts to what is written) | `Tools` |

Simplifications that matter:

* Floats (`Tester.ramp`, `math.log` in the AUTOSAR import) are rationals; every
  float operation returns the exact result plus an arbitrary error, bounded
  by a parameter. The theorems hold for every such error.
* Sockets are the byte stream they deliver, in chunks of arbitrary size.
  A `send` is assumed to take all bytes, except in `Transmit`; that it can fail is modelled in
  `Connect` only, where the outcome of each socket call is an input. Sleeping, printing and memory exhaustion
  are left out, and so is Python's recursion limit.
* Threads: the file manager's worker is a function of the queue; C40 has an
  interleaving model of any number of writing threads, C74/C75 interleave
  the steps of the file manager's thread with everything else, and C90 those of
  any number of threads calling one node data object. Elsewhere
  operations are atomic. A `Lock` left acquired is part of the state, so a later
  `acquire` is an explicit outcome (blocked for ever).
* Python's numeric keys: negative indexes are modelled where the code can be
  reached with them.

Not modelled: the external package `autosar` (a workspace is an arbitrary function
from references to objects, of which only what py-apx reads is represented), OS socket
calls beyond their outcomes in `Connect`, file system access (`save_apx` writes the
text that is modelled; for C76-C79 a file is its text, and paths are plain names),
argument parsing of `util/*`.

Mathlib modules used (only by the ramp's arithmetic):
`Mathlib.Data.Rat.Floor`, `Mathlib.Tactic.Linarith`, `Mathlib.Tactic.FieldSimp`,
`Mathlib.Tactic.Ring`. Everything else uses Lean core only.

## Properties

| id | model | proof |
|----|-------|-------|
| C01-C04 | `Model/NumHeader`: `_encode`, `_decode` over bytes with offset/end | case split on the size classes, byte arithmetic lemmas by omega |
| C05,C06 | `Model/RmfHeader`: packHeader, unpackHeader | exact result of unpack∘pack as a function of payload emptiness; counterexample + `_partial` |
| C07-C09 | `Model/RmfCmd`: struct.pack/unpack of FileInfo/Open/Close | byte-order generic integer codec round trip; NUL search lemma; close: universally raising |
| C10-C12 | `Model/Socket`: `_parseMessage`, `_parseData`, worker loop as fold over chunks, events list | key lemma: parse(a++b) = resume(parse a, b); induction on chunk list; framing by induction on message list |
| C13-C18 | `Model/FileMap`: bisect, insert, remove, find, assign | invariant over op histories; refinement of binary-search lookup to "the file containing a" |
| C19-C21 | `Model/File` | refinement to a function `Nat → UInt8`; history induction |
| C22 | `Model/Signature`: match_pair, parseDataSignature, to_string | mutual structural induction on elements |
| C23,C24 | `Model/Element` packLen, `Model/Compiler` | mutual induction against `Spec` size |
| C25-C30 | `Model/Vm` + `Model/Compiler`, value semantics in `Spec/Layout`, `Spec/LaxLayout` (what is packed) and `Spec/Reading` (what is read) | simulation: executing the compiled code of an element from any VM state appends exactly the layout; induction on element; negations by witness |
| C31-C35 | `Model/NodeData` | induction on port list; frame lemmas from C19; lock modelled explicitly |
| C36-C39,C41 | `Model/FileManager` | case analysis of `onMsgReceived`; induction over histories |
| C40 | small-step interleaving model of two writers | a schedule as counterexample for every two conflicting calls; sequential case is C39 |
| C42-C46 | `Model/Node` | invariants over building operations; merge-sort lemmas |
| C47-C50 | `Model/Parser` | line-level round trip; state-machine lemmas; counterexamples |
| C51 | `Model/PortAttr` | mutual structural induction |
| C52 | `Model/Tester` over rationals (Python floats idealised) | induction on steps; counterexample for downward ramps |
| C53 | `Model/Generator` | induction on port list, equality with NodeData layout |
| C54 | `Model/Client` | case analysis |
| C55 | composition of the models above | composition of C25/C26, C32, C05, C36, C34, C11 |
| C56 | integer type code with exact ceil(log2) (float rounding idealised) | arithmetic; counterexample at powers of two |
| C57 | `Model/Vm` | text that fits: corollary of C26; witnesses for text that is cut |
| C58 | `Model/Vm`, arbitrary byte code | frame invariant, induction on fuel over all instructions |
| C59 | `Model/NodeData` | witnesses; scalar ports by computation |
| C60 | `Model/Lifecycle` | induction over start/stop histories |
| C61 | `Model/Node`, `Model/NodeBuild` | types of one name agree: invariant kept by copying; failures for all such ports |
| C62 | `Model/Autosar` | induction on the value table; witnesses |
| C63 | `Model/Client` | from C34; every three-parameter listener raises |
| C64 | `Model/Signature` against the grammar in `Spec/Grammar` | soundness by induction on the recursion bound, completeness by induction on derivations |
| C65 | `Model/Vm` | header check; invariant over the instruction loop; simulation of the machine with bytes put in front of the buffer |
| C66 | `Model/NodeData`, `Model/NodeBuild`, `Model/Parser` | composition of C47 with the construction of node data; readable exactly if types refer to earlier ones |
| C67 | Model/GenCode: the code the generator emits as a small abstract syntax (pack/unpack integer, memcpy, loops, memory pointer moves, lock, notification) and its execution on a machine with the buffer and the argument | C67_*: emission succeeds and execution computes the runtime's layout, by mutual induction over the type with locals, offset and pointer as invariants; lifted to nodes with C53; six witnesses where the emitted code is wrong |
| C68 | `Model/GenText`: the emitted literal and initializers as text; `Spec/GenText`: what C string literals and initializers denote | induction over the lines of the literal and the chunks of 32 items; reload through C50 and C47; two witnesses |
| C69 | `Model/GenText`: entries, macros, cases of the emitted switch and the emitted loop | the entries form a gapless chain; induction over the suffix from the start of the range; macro look-up under distinct upper-cased names; four witnesses |
| C70 | `Model/GenText`: the state a generator keeps between calls and the declared names | computation of the emitted parts for a new generator (sorting is the identity on a chain); witnesses for renaming, no ports and reuse |
| C71 | existing models composed | C51 gives the value, the layout theorems of C31 and C35 the bytes |
| C72 | FileManager and Socket models | iff by cases on the header, the command and the lookups; reachable states by the invariant of C36; C11 for the stream |
| C73 | `Model/Session` (client made for a node), `Model/Endpoint`, `Model/FileManager`, `Model/NodeData` | invariant `Linked` over all histories: the manager's three files are the node data's files and the manager is one reachable in `Spec/FileManager`; then C36, C37, C39, C66 |
| C74 | `Model/Connect` (adapters, connect_tcp, stop, manager thread step by step) on `Model/Lifecycle` | invariants `Fresh`, `Open`, `Stuck` over all histories; violations for every history |
| C75 | `Model/Connect` | invariant `Inv` relating sent frames, handler and rest of the queue to the worker of C41 |
| C76 | `Model/Tools` | copying of a port is total on compatible nodes and adds its content only (`addPortFrom_total`, `Assembled`), induction over the names and ports; reload by C47 |
| C77 | `Model/Tools` | same invariant as C76, induction over the definitions; a parser that is used again loads like a new one (`load_any`); refusal: what is copied so far has the lines of all definitions so far, so a contradiction meets its counterpart |
| C78 | `Model/Tools` | from the partition of the files (C31), by induction over the ports |
| C79 | `Model/Tools` | the text depends only on the sorted definition (`finalized_lines_eq`), which reloading keeps (`Reload.same`); a text can be loaded exactly if every type comes after the types it refers to (`tool_text_iff`, induction over the type lines) |
| C80 | `Model/Import`: workspace as a function from references to objects, the import function by function | invariant over the added ports (every port of the component linked to a port of the node and to a type made from its data type); negation for short names that clash and for interfaces that are not found |
| C81 | `Model/Import` with `Model/PortAttr` and `Model/NodeData` | structural induction over constants (the text written spells the value), C51 and C71; negations with a witness text and an empty array |
| C82 | `Model/Import`, `Model/Node`, `Model/Parser`, `Model/NodeData` | the imported node with its attributes parsed meets the invariant of nodes built through the API, so the round trip of C47/C66 applies; negation with enumeration texts that contain parentheses or a hash sign |
| C83 | `Model/Context`, `Model/Import` | both orders of visiting the ports keep the invariant of C80, which determines ports and types when no two data types share a name; induction over the partition; negation with two data types of the same name |
| C84 | `Model/Import` | copying a port is the copy of C71 applied to the imported node with its attributes parsed, if the target does not have the type; induction over the ports for extend(); negation for every component with two ports of one type: extending an empty node raises |
| C85 | `Model/Context`, `Model/Node`, `Model/Parser` | round trip of C47 for each file, last write wins for the directory; for texts of several nodes, induction over the nodes with the section of the parser: refused, or merged into the first node; negations hold for all such contexts |
| C86 | `Model/FromText` (`nodeDataOfText`, `Client.create`), `Node.afterNodeData` of `Model/NodeBuild` | resolving a resolved element changes nothing, so the layout of the rewritten node is the layout of the node; the rewritten ports are printed and read back (`stored_lines`). `NodeData(text)` always raises `AttributeError` (violated). A text with a record port that refers to a type by number loads, but no client can be created from it (violated); that is the text a finalized node publishes the second time |
| C87 | `Model/Com` | invariant over the calls (variables, buffer, notifications) on top of the write and read functions of C67. Sending the initial value of the data element first writes nothing, even if the port has another initial value (violated); functions of different ports share a variable when port and element names join to the same text, and a value is then lost (violated) |
| C88 | `Model/GenFile`: the three files as syntax trees, with all names and types; `Spec/GenFile`: what a compiler checks of them | the lists of prototypes and definitions are equal, by induction over the ports; generated names are distinct (a name followed by a suffix is not the name after a prefix, by induction on the name); types of arguments through the members of the union. Violated for two ports of one name, for callbacks with another name than the node's, and for a generator used before |
| C89 | `Model/GenInit`: the statements of the function and their execution on the static variables | case analysis of the emitted statements over arbitrary memory; the data through C53, the definition through C68 |
| C90 | `Model/Threads`: threads, the lock and the virtual machine as shared state, one instruction, file access or lock operation per step; `Spec/Threads`: interleavings of writes, sequential execution | invariant over schedules: mutual exclusion, the machine's state belongs to the lock's holder and the rest of its program gives what the whole program gives alone; linearization at the file accesses; the values read back through the pending writes; a bound on the steps left that every step lowers. Violated for two threads writing one port (the file is written after the lock is released) |
| C91 | `Model/Proto`: the loop over the positions | induction over the number of positions left. Violated at the first position: an empty line and the absence of a newline give the same result |
| C92 | `Model/ComFile`: constructor, header and source as declarations, definitions and includes; `Spec/ComFile`: what a compiler checks | the ports of the mirrored import (C80, C45) have the names and types of the component's ports; the variables keep the first type. Violated when the source is generated before the header (it includes a file called None) and for functions sharing a variable |
| C93 | `Model/Transmit`: sends of which the operating system takes a part; `Spec/Transmit`: the messages received and the beginning of the next | induction over the messages, with the frame that is cut; violated when a message taken in part is followed by another one |
| C94 | `Model/Session` (two clients), `Spec/Forward`: last successful write, server's copy, place of a port | the data of a port is kept by every act except a write of it that returns (induction over the history); with C73 for the copy and C36/C55 for the reader |
| C95 | `Model/Session` (two clients), `Spec/Forward`: writes that returned, wiring, a server that relays | induction over the provider's acts (each queues the message of its write or nothing), then over the messages for the reader (C94) |
| C96 | `Model/Vm` (instructions), `Spec/VmArray`: descriptions, their programs, and the bytes of a value | induction over the description, with the place in the machine's state where a value is read or stored; converse by inversion of each instruction |
| C97 | `Model/Builder`: heap of element and list objects, one call at a time; `Spec/Builder`: what the calls and their results describe | invariant between heap and history (lists are never shared between records and the program); induction over the described element; a cycle gives an infinite descent |
| C98 | `Model/GenCode`, `Model/Endpoint`, `Model/Session`; places of ports by `Spec/Forward` | composition of C67 (what emitted functions store and deliver) with the lemmas of C94 (what arrives at a client, what the server's copy holds) |
| C99 | `Model/Writer`: the writer classes, with the undefined names they use as exceptions | the line splitter on lines of this form (lemmas of C47), the attribute parser on every spelling (lemmas of C51), the signature grammar of C64 |
| C100 | `Model/CompilerObj`: compiler objects with the attribute `prog` the methods append to, `Compiler.exec`, `Port.data_element` | induction over elements: what the methods append equals the program of `Model/Compiler`; then the two ways to look up names are compared by the number of names |
| C101 | `Model/VmObj`: VM objects with all attributes; what a failing call leaves behind is arbitrary; node data with its one machine | simulation: the loop on an initialised object equals the loop of `Model/Vm`; the operations of node data one by one, then induction over the history |
| C102 | `Model/VmObj`: the constructor with its unused parameter | C101 and the layout theorem C25 |
| C103 | `Model/ManyNodes`: `attachNodeData` on the manager of `Model/FileManager`, node data objects given by their file objects | induction over the nodes with the invariant that the attached files lie side by side in the two regions; static attributes of local files are kept by every later step; then C39 for openings and replays. Violations: a node without provide ports first, two nodes of one name |
| C104 | `Spec/CText`: an independent reader of C text (tokens, declarations, statements, heads), which refuses everything it does not know; `Model/GenPrint`: the printed text | the reader undoes the printer: tokens of concatenated texts, then statement by statement, loops, declarations; invariants of the emitted code (an advance of `p` follows a statement of the same size, `*` is applied last, `p` and `i` are declared if used); then C67 for the meaning. Violation: names that are no identifiers |
| C105 | `Spec/CUnit`: an independent reader of a source file (macros, arrays with their numbers, objects, literals, functions) and of the statements of the initialization function, with a memory; `Spec/CDispatch`: a reader of the function with the `switch`, of the union and of header files, and what a call does; `Model/GenPrint`: the printed text | the reader undoes the printer, section by section; macros and arrays are found by name (names do not clash); the statements run on any memory; the loop over the cases makes the calls of the loop of C69. Violation: names that are no identifiers, in general |
| C106 | `Model/ComPrint`: the printed header and source; `Spec/ComText`: an independent reader of the source (variables, functions, conditions, assignments, copies, calls) that checks the types, and what calls of its functions do, the functions of the node being arbitrary or those of the text of its source file (C104) | the reader undoes the printer; types fit by C92 and C88, so that every statement can be executed; a call of the text and a step of C87 agree (simulation), so that the history theorem of C87 carries over. Violation: a parameter with the name of the variable, in general |
| C107 | `Spec/CReceive`: running the text of the function that is told of received data: read functions of the same file are run by their text (C104) on a member of the union, calls of other functions are the result; the contents of the union are arbitrary before and between the calls | the calls are those of C105; each read stores the value (C67), whatever the member contained, for types without text by a lemma on types; callbacks are no functions of the file (C88). Violation: a read of text computed exactly, for every byte in the union |
| C108 | `Spec/Reading`: the relation between bytes and the value they stand for, for every type; `Spec/LaxLayout`; node data as in C31-C34 | C27_exactly and C28_exactly (execution of the compiled program, by induction on the type, in both directions) composed with the partition of the file into ports, which holds in every state that can be reached |
| C109 | `Model/Endpoint`, histories of a client as in `Spec/Session` | every byte pattern of a numeric type unpacks (C27), every value that fits packs (C28_exactly); invariant over histories: lock free and receive thread going, with the invariant of C73-C76 that the node data is in a state it can reach by itself |

Where the code violates a property, the model keeps the violation, the
property's violation is proved by a concrete witness (`Cnn_..._violated`) and
the part that does hold is proved as `Cnn_..._partial`.

## Findings (defects in the code surfaced by the model)

Each is proved for the model (`_violated` theorem or `example`) unless marked (r),
which means found by reading while modelling.

Protocol layer
* C05: a header of 4 bytes followed by no payload is taken as incomplete.
* C09: `unpackFileClose` raises NameError on every well-formed command.
* C14/C15: files of length zero share an address with another file and cannot be
  found; in every map the two files placed after one of length zero overlap (`C14_zero_violated`).
  Re-inserting a removed file uses its old address and can overlap. `C15_exactly` says what
  `findByAddress` gives in every map that can be reached.
* C16: `findByName` looks at the first file only.
* C17: inserting raises UnboundLocalError when the region is empty but another is not.
* C19: reading a negative length returns bytes instead of failing.
* C21: after a fragmented write only the last fragment is notified.
* C38: FILE_INFO of a file not requested, with another length, or truncated raises
  in the receive thread, which ends.
* C40: file contents and queue are updated in two steps; two writers can leave the
  peer with the older value for ever.
* C60: after `stop()` the manager cannot be started again, and stopping after such
  an attempt raises.
* C73: when a peer announces a file again after a reconnection the receive thread
  raises AssertionError; files attached while connected are never announced.
* C74: `stop()` raises OSError after the server has reset the connection and the
  manager's thread goes on for ever; called from a data listener it raises
  RuntimeError, with the same effect; a second `stop()` raises OSError. A stopped
  client cannot connect again (AttributeError). A second `connect_tcp` abandons the
  first connection and its thread, even if it is refused.
* C75: `stop()` closes the socket before the queue is empty; values written just
  before are not sent.
* (r) `send` ignores the number of bytes `socket.send` has taken.
* (r) the worker packs FILE_INFO with '<' whatever the manager's byte order is.

Virtual machine and data
* C26: records inside records can be packed but never unpacked; C55: on a
  connection every message for such a port ends the reader's receive thread and leaks the lock.
* C27: what was unpacked from a record with an array longer than the number of
  fields cannot be packed again. What is read from any bytes is said by `C27_exactly`, with
  `Elem.ReadsAs` in `Spec/Reading`.
* C108: a port with a record inside a record can never be read, whatever its bytes are; the attempt
  leaves the lock behind.
* C55: once a lock has leaked (C33), the next data message is stored but nobody is
  told, and the receive thread waits for ever.
* C28: an empty record inside a record accepts any value, and nothing else that does not
  fit is accepted (`C28_exactly`, with `Elem.laxLayout` in `Spec/LaxLayout`).
* C25: a record with a name containing a character of code 128..255 compiles, but every execution of
  its programs raises UnicodeDecodeError.
* C23: `packLen` ignores the array length of a record unless it is reached through a reference (records
  get array lengths only by assigning the attribute).
* C29: an array in a record is packed only if it is no longer than the number of
  fields of the record.
* C30: array lengths are taken modulo 65536; 0 and 65536 give the scalar code.
* C32: with provide ports of no bytes the failing write replaces the value.
* C33: an exception in packing or unpacking leaves the lock acquired: every later
  access of any port blocks. A remote peer can cause it by sending text that is
  not UTF-8.
* C34: a port that cannot be decoded prevents the notification of the ports after it, and (C33)
  all later accesses wait for ever (`C33_remote_violated`, for every node and every such write).
* C35: init values are written as Latin-1 and read as UTF-8; lists of the wrong
  length shift the data of the following ports if the total happens to fit (`C35_exactly`, `C35_shifted_violated`);
  integers wrap.
* C71: a require port with a record inside a record cannot be read, so its init value is lost.
* C57: text is cut at the field length, possibly inside a character.
* C59: before the first write a provide port reads as an InitValue object, or as 0.
* (r) `NodeData` of a text always raises AttributeError (`node.name` of a str).
* (r) an unknown instruction as last byte of a program gives IndexError; a record
  field that refers to an array, string or another reference does not compile.

Nodes and text
* C42: `dumps()`, `finalize(sort)` and `mirror()` leave identifiers that differ from
  positions; `NodeData(node)` then fails (for every mirror with a port, and for every node whose
  ports are not already in the order of their names).
* C44: `append`, `add_require_port` and `add_provide_port` accept a second port of the
  same name; `ignore_duplicates` is not used (both for all nodes).
* C45: a record port with a type number inside cannot be mirrored; nameless fields
  become "None" (`C45_nameless_violated`, for every such port).
* C46: `T[-k]` is accepted and taken for the `k`th type from the end; sorting can put a record before its member types.
* C47: the sorted text cannot be loaded then; compact names differ from the
  normalized references, so any port using a type not named T0, T1, … makes the text unreadable
  (`C47_compact_violated`); '#' in names or attributes is cut off as a comment. A node with a quote, a hash
  sign or a line feed in a name, or an attribute with a hash sign, a line feed or a blank end, all of which `Node`
  accepts, cannot be loaded from any text (`C47_name_violated`).
* C48: `load` ignores the first line of a file without version line: every such text that
  `loads` accepts and whose first line says something is refused.
* C49: `loads('')` returns the node of the previous text, as does every text that says nothing. If that text
  was refused with a parse error, it returns the node of the lines before the refused one.
* C50: type lines, node lines and nonsense after a provide line are dropped (after a require
  line they are refused); comments or blank lines before the version line make every text
  unreadable.
* C54: a type of the same name hides a port; negative numbers select from the end; a
  require and a provide port of one name; a node sorted while attached.
* C61: `add_port_from_node` copies the types of a port that is a reference, not those of a record with references. Every record
  port holding a reference to a type that the receiving node does not know, or knows as another type, is copied without an error
  and has no data layout or another one there.
  The texts of types are compared, not their meaning: every port of a record type that reads alike in the receiving node gets
  that node's type (`C61_alike_violated`).
  A provided record port copied after the node data of its node was created refers to types by their number in the other node
  (`C61_numbers_violated`).
* (r) types added after `finalize` get no number; the second `finalize` returns None;
  `add_data_type_from_node` refuses aliases, and references inside nested records are
  not copied; `Client(text)` with a text without node leaves `client.node` unset;
  error messages of `Client.write` use `self.port`, which does not exist.

Tools
* C52: ramps downwards go up first; the ramp fails on a port that has an init value
  and has not been written, and divides by zero for no steps.
* C53: the generator sorts a node that has not been finalized, so every such node with unsorted ports
  gets another layout (`C53_sorted_violated`); two ports of one name
  get the same initial data, so the emitted data is that of node data exactly if such ports have equal
  initial data (`C53_exactly`).
* C56: upper bounds that are powers of two get a type that is too small; lower bounds
  are ignored; small signed ranges and arrays raise.
* C62: value tables are positional and joined by commas. The table is right exactly for enumerations that count from 0 on without gap (all others with distinct texts are proved wrong), and every text with a comma adds entries.
* C66: the text of a sorted node can list types in an order in which it cannot be
  loaded again, so the definition file sent to the peer is unusable.
* C67 (emitted C code): a field that refers to a record is skipped and the fields after
  it are stored in its place; fields that refer to an array or string make the generator
  fail; text that fills its field loses its last byte when written and its terminator
  when read; text of length zero asks `memcpy` for -1 bytes; the member suffix is
  left out inside nested records, so no call of the read or write function of a record with a nested integer is defined
  (`C67_nested_suffix_violated`).
* C68: backslashes in names are not escaped in the emitted literal; its length counts
  characters, not bytes. The literal denotes the definition exactly if that has neither
  backslashes nor carriage returns (`C68_exactly`). C89 fails for such definitions, and for two
  ports of one name with different initial data.
* C69: a write that starts inside a port calls no callback at all, not even those of
  the ports after it; ports of length zero and names that differ only in case give code
  that does not compile (or a loop that does not end); callbacks for other nodes only
  raise AttributeError. Each is proved for all such nodes (`C69_every_*`).
* C70: with a name of its own, or without require ports, the code assigns a handler it
  does not define; a generator used twice declares the callbacks of both nodes, and
  may define the notification function of the first node for the second one.
* C88: with two ports of one name the source defines a function twice; with callbacks and
  another name than the node's, or with callbacks and nothing to receive, the handler it
  installs is declared nowhere; a generator used before can define a function the header
  does not declare. `C88_exactly` says for which nodes and options the files of a new
  generator fit.
* C76: `apx_split` drops the second of two ports of one name; refuses names of types and
  ports whose type is an alias, the latter possibly after the head file was written;
  `--mirror` mirrors the tail before it has any ports; `--tail_name` is never used and
  `--head_name` not with `--head`.
* C77: `apx_join` refuses every port that one definition provides and another requires
  (`C77_direction_violated`); record types of equal text are taken to be equal whatever their members refer
  to, so a port silently gets another type (`C77_meaning_violated`, for all definitions with such types).
  Two definitions that share a port are also joined silently if the type of that port has the same
  name and another meaning (`T"A"C(0,3)` and `T"A"L`, both with a port of type `A`): only the
  text of the port line is compared, and the second meaning is dropped. A file without a definition,
  for example an empty one, cannot be loaded by a new parser, but `apx_join` uses one parser for all
  files, so such a file is taken for a second copy of the file before it and ignored silently.
* C78: `apx_size` raises AssertionError for a record port with a reference inside.
* C79: `-p` needs a file name or `-o`, although neither is used; a tool that fails, or
  sorts types into an order that cannot be loaded, has already overwritten its input. The second
  happens exactly for the definitions with a record type that refers to a type whose name is not
  smaller than its own (`C79_order_violated`, for all of them; also `apx_join`, `C77_order_violated`).
* C80: data types of different packages with the same short name: every port gets the
  layout of the first; ports whose interface is not found are dropped without notice.
* C81: a text constant with a quote is cut there and the rest is read as attributes (`a"Q`
  makes the port queued); empty records and arrays count as no init value.
* C82: enumeration texts with an unpaired parenthesis or a hash sign give a definition that no
  peer can load; more generally no text gives back an imported node with a name or attribute that cannot be
  written (`C82_unsayable_violated`).
* C83: with two data types of the same short name, the context keeps the layout of the require
  port's type and the import of the same component that of the provide port's, for every component with
  one type of the name on each side (`C83_order_violated`).
* C84: extend() with an imported component raises AttributeError as soon as two of its ports have
  the same type (types of imported nodes have no `dsg`), after some ports have been copied.
* C85: dumps() of a context with several nodes is either refused by the parser (if the first node
  has a require port, or no port) or loads as one node: the first, with the ports of all the others
  and without their types. Nodes of the same name overwrite each other's file.
* C86: `NodeData(text)` always raises AttributeError (it reads `node.name` of the text). After node
  data has been made for a finalized node, references inside record ports are printed by number; that
  text can be loaded, but `Client(text)` raises RuntimeError for it.
* C87: a send function of the communication layer writes nothing if the first value sent is the
  initial value of the data element, even if the port was generated with another initial value. The
  static variables are named after port and element joined by `_`: the functions of element `b_c` of
  port `a` and of element `c` of port `a_b` share one, and a value sent through the second is lost.
* C90: `write_provide_port` writes the file after it has released the lock. When two threads write
  the same port, `read_provide_port` may return the value of one for ever while the file that is sent
  holds that of the other. Such a schedule exists for every port and any two values it accepts
  (`C90_every_port_violated`).
* C91: `readLine` returns the first position both for an empty line and when there is no newline.
* C92: `ComGenerator.generateSource` called before `generateHeader` includes a file called `None`. The
  variable shared by the functions of element `b_c` of port `a` and element `c` of port `a_b` has the
  type of the first, whatever the type of the second.
* C93: `send` ignores how many bytes `socket.send` has taken. After a message taken in part the next one
  follows at once, and the peer is given a message made of both (`C93_taken_violated`, for every such run).
* C63: listeners with the documented parameters are called with other ones.
* C96: between `ARRAY_ENTER` and `ARRAY_LEAVE` an instruction for a number takes the whole list: lists of
  numbers cannot be packed, and unpacking gives the last number only. A record directly inside a record
  cannot be unpacked, whereas a list of records inside a record can.
* C97: `DataSignature(element)` copies the class `DataElement` instead of its argument
  (/repo/apx/base.py:235), so ports and types made from an element have neither text nor length; a single
  limit (`minVal` without `maxVal`) is not written by `to_string`; a record's field without a name is
  written with the name `None`. What is read from the text of any element is stated in `C97_read`;
  it is the element itself exactly if limits come in pairs and fields have names (`C97_exactly`).
* C99: `ApxType` raises NameError or TypeError for every integer, array and non-empty record type:
  apx_writer.py neither imports `math` nor defines `typeData`. The parser stops reading attributes
  after `Q`, so the `P` that `getAttrStr` writes behind it is lost. `AutosarRequirePort` and
  `AutosarProvidePort` call a method `_calcAttribute` that does not exist and otherwise leave `attr`
  unset, so `str` and `mirror` raise AttributeError.
* C100: `Port.data_element` follows one reference and the compiler one more, while node data follows
  all of them first. With `T"A"C[4]`, `T"B"T["A"]`, `P"p"T["B"]` the node can be used, but
  `Compiler().exec(port)` raises NotImplementedError; with three names in a row this happens for every
  type.
* C102: `VM(little_endian_format=False)` behaves as `VM()`; the parameter is not stored.
* C103: `FileManager.attachNodeData` cannot be called for a node with provide ports after nodes without any: `assignFileAddress` raises `UnboundLocalError` because all attached files lie above the port data region (C17). The order of the calls decides whether a program starts.
* C103: `requestRemoteFile` keeps requests in a dictionary by name, so of two nodes with the same name in one manager only the later one ever receives data; nothing is reported.
* C104: names are copied into the generated C code as they are. The parser accepts member names such as `default`, `a b` or `2nd`; the functions generated for them are no C (or, with `a.b`, say something else).
* C105: the same holds for whole files: for every name with a character other than letters, digits and underscores the generator writes header and source files that are no C, without a complaint.
* C106: a send function of the communication layer whose parameter has the name of its variable (`m_<port>_<element>`) compares the parameter with itself and never sends anything, whatever it is called with; no such clash is looked for.
* C107: the callback of a port with text gets an array whose last byte is whatever the stack contained: the generated function that is told of received data has an uninitialized union, and the generated read function copies all bytes of a text but the last (the line that stored the zero is commented out).
