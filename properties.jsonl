{"id": "C01", "title": "NumHeader16 round-trips", "statement": "For every integer v in 0..32895, numheader.encode16(v) succeeds and decode16 of those bytes (followed by any other bytes) returns v and consumes exactly the encoded length; for every other integer encode16 raises ValueError.", "quantifier": "every Python integer v, every trailing byte string", "why_tests_cant": "The domain has 32896 legal values times unbounded trailing data, and all illegal integers; tests sample a handful of boundaries.", "anchors": ["numheader.py:_encode", "numheader.py:_decode", "numheader.py:encode16", "numheader.py:decode16"]}
{"id": "C02", "title": "NumHeader32 round-trips", "statement": "For every integer v in 0..2^31-1, encode32(v) succeeds and decode32 of those bytes at any offset inside a larger buffer returns v and consumes exactly the encoded length; every other integer raises ValueError.", "quantifier": "every integer, every prefix and suffix of surrounding bytes", "why_tests_cant": "2^31 values and unbounded surrounding buffers.", "anchors": ["numheader.py:_encode", "numheader.py:_decode", "numheader.py:encode32", "numheader.py:decode32"]}
{"id": "C03", "title": "NumHeader decoding never over-reads and waits on incomplete input", "statement": "For every buffer, offset and end, decode16/decode32 looks only at bytes in [offset,end): the result does not depend on bytes at or after end, bytesParsed never exceeds end-offset, and a proper prefix of an encoded header yields (0, None) so the caller waits.", "quantifier": "every byte string, offset and end, both modes", "why_tests_cant": "Requires non-interference over all buffers, not a finite list of inputs.", "anchors": ["numheader.py:_decode"]}
{"id": "C04", "title": "NumHeader encodings are canonical and self-delimiting", "statement": "Two different values never share an encoding and no encoding is a proper prefix of another; moreover NumHeader16 decoding is a bijection (re-encoding whatever was decoded gives back the bytes consumed), whereas NumHeader32 re-encoding can only be shorter than or equal to the bytes consumed.", "quantifier": "all pairs of values; all byte strings", "why_tests_cant": "Pairwise property over the complete value domain.", "anchors": ["numheader.py:_encode", "numheader.py:_decode"]}
{"id": "C05", "title": "RemoteFile address headers round-trip", "statement": "For every address 0..2^30-1, every more_bit and every payload, unpackHeader(packHeader(address, more_bit)+payload) returns the header length, the address and the more bit. (The code violates this for a 4-byte header followed by an empty payload, where it reports nothing parsed.)", "quantifier": "every address, more bit, payload", "why_tests_cant": "2^30 addresses times unbounded payloads; the defect sits on a single boundary.", "anchors": ["remotefile/__init__.py:packHeader", "remotefile/__init__.py:unpackHeader"]}
{"id": "C06", "title": "RemoteFile headers reject addresses of 2^30 and above and are unambiguous", "statement": "packHeader raises ValueError exactly for addresses >= 2^30, always emits 2 bytes below 16384 and 4 bytes otherwise, and for non-negative addresses equal headers mean equal address and more bit.", "quantifier": "every integer address, pairs of addresses and flags", "why_tests_cant": "Pairwise property over a 2^30 domain.", "anchors": ["remotefile/__init__.py:packHeader"]}
{"id": "C07", "title": "FILE_INFO commands round-trip", "statement": "For both byte orders, any file whose address and length fit 32 bits, type and digest type fit 16 bits, with 32 bytes of digest and an ASCII name without NUL is reproduced exactly (all six fields) by unpackFileInfo(packFileInfo(file)); a file without address raises ValueError; a record shorter than 48 bytes yields None.", "quantifier": "every file record, both byte orders, every name", "why_tests_cant": "Names are unbounded and fields are 32-bit.", "anchors": ["remotefile/__init__.py:packFileInfo", "remotefile/__init__.py:unpackFileInfo"]}
{"id": "C08", "title": "FILE_OPEN commands round-trip and wrong commands are rejected", "statement": "unpackFileOpen(packFileOpen(a)) = a for every a in 0..2^32-1 and both byte orders; any buffer that is not 8 bytes long or carries another command code raises an error instead of returning an address.", "quantifier": "every address, every byte string", "why_tests_cant": "All byte strings of all lengths.", "anchors": ["remotefile/__init__.py:packFileOpen", "remotefile/__init__.py:unpackFileOpen"]}
{"id": "C09", "title": "FILE_CLOSE commands round-trip", "statement": "unpackFileClose(packFileClose(a)) = a for every address. (The code violates this for every input: unpackFileClose never returns.)", "quantifier": "every address, every byte string", "why_tests_cant": "The claim that no input whatsoever succeeds cannot be settled by examples.", "anchors": ["remotefile/__init__.py:packFileClose", "remotefile/__init__.py:unpackFileClose"]}
{"id": "C10", "title": "Message reassembly does not depend on how TCP chunks the stream", "statement": "For any byte stream and any way of cutting it into received chunks, the receive handler sees the same sequence of events (connect, messages, failure) as when the whole stream arrives at once, and the unprocessed remainder is the same.", "quantifier": "every byte stream and every chunking of it", "why_tests_cant": "There are exponentially many chunkings of unboundedly long streams.", "anchors": ["remotefile/socket_adapter.py:TcpSocketAdapter", "remotefile/socket_adapter.py:_parseData", "remotefile/socket_adapter.py:_parseMessage"]}
{"id": "C11", "title": "Every framed message is delivered exactly once, in order", "statement": "If the peer sends the acknowledge followed by any list of messages, each framed as TcpSocketAdapter.send does, then under every chunking the handler gets onConnected once and then exactly those messages in that order, with no bytes left over.", "quantifier": "every list of messages (any lengths below 2^31), every chunking", "why_tests_cant": "Unbounded lists of unbounded messages.", "anchors": ["remotefile/socket_adapter.py:send", "remotefile/socket_adapter.py:_parseData"]}
{"id": "C12", "title": "Nothing is delivered before the acknowledge", "statement": "For every stream and chunking, onMsgReceived is never called before onConnected, onConnected is called at most once, and a first message other than the acknowledge kills the connection with no callback at all.", "quantifier": "every byte stream and chunking", "why_tests_cant": "Safety property over all traces.", "anchors": ["remotefile/socket_adapter.py:_parseMessage"]}
{"id": "C13", "title": "FileMap stays sorted under any history", "statement": "After any sequence of inserts and removes (successful or raising), iteration over the FileMap yields files in ascending address order and len() equals the number of successful inserts minus removes.", "quantifier": "every history of operations with arbitrary files", "why_tests_cant": "Invariant over unbounded histories.", "anchors": ["apx/file_map.py:insert", "apx/file_map.py:remove", "apx/file_map.py:__len__", "apx/file_map.py:__getitem__"]}
{"id": "C14", "title": "Automatically placed files never overlap, are aligned and stay in their region", "statement": "In any history where files are inserted without a preset address, every two files in the FileMap occupy disjoint address ranges; .in/.out files lie in [0,64M) on 1K boundaries, .apx files in [64M,512M) on 1M boundaries, all other files in [512M,0x3FFFFC00) on 1M boundaries. (The code violates this when a file of length zero is involved.)", "quantifier": "every history of inserts and removes of files with any names and lengths", "why_tests_cant": "Needs an invariant over unbounded histories.", "anchors": ["apx/file_map.py:assignFileAddress", "apx/file_map.py:_assignFileAddressDefault", "apx/file_map.py:insert"]}
{"id": "C15", "title": "findByAddress returns the file containing the address", "statement": "In a FileMap whose files have positive length and do not overlap, findByAddress(a) returns the file whose range contains a, and None if and only if no file contains a. (With a zero-length file sharing a start address the code can miss the containing file.)", "quantifier": "every such map and every address", "why_tests_cant": "All maps of all sizes, all addresses.", "anchors": ["apx/file_map.py:findByAddress"]}
{"id": "C16", "title": "findByName finds a file by name", "statement": "findByName(n) returns a file named n whenever the map contains one. (The code violates this: only the file with the lowest address is ever examined.)", "quantifier": "every map and name", "why_tests_cant": "A test with one file passes; the defect needs a second one at any position.", "anchors": ["apx/file_map.py:findByName"]}
{"id": "C17", "title": "Inserting a file succeeds whenever its region has room", "statement": "Inserting a file without an address succeeds when the region selected by its suffix is empty and large enough, regardless of what the other regions contain. (The code violates this: when every existing file lies at or beyond the end of the region, insertion raises UnboundLocalError.)", "quantifier": "every map and every file", "why_tests_cant": "Depends on insertion order across regions.", "anchors": ["apx/file_map.py:assignFileAddress"]}
{"id": "C18", "title": "Removing a file removes exactly that file", "statement": "remove(f) of a file in the map deletes f and nothing else; remove of a file not in the map raises (ValueError; TypeError if the file never had an address) and changes nothing.", "quantifier": "every map, every file, including several files at one address", "why_tests_cant": "Histories and duplicate keys are unbounded.", "anchors": ["apx/file_map.py:remove", "apx/file_map.py:index"]}
{"id": "C19", "title": "File reads and writes are bounds-checked byte-array accesses", "statement": "write(offset,data) stores data exactly at [offset,offset+len) leaving all other bytes unchanged and returns len(data), or returns -1 and changes nothing when the range leaves the file; read(offset,length) returns exactly the stored bytes, or None out of range; the file length never changes. Hence a read returns for every byte the last successfully written value or the initial value.", "quantifier": "every history of reads and writes with any integer offsets and any data", "why_tests_cant": "Histories are unbounded.", "anchors": ["apx/file.py:File", "apx/file.py:read", "apx/file.py:write"]}
{"id": "C20", "title": "Input file notifications", "statement": "An input file notifies its node-data handler exactly for successful writes with more_bit False, after the bytes are stored, with that write's offset and length; failed writes and writes with more_bit set notify nothing.", "quantifier": "every history of writes", "why_tests_cant": "Histories are unbounded.", "anchors": ["apx/file.py:InputFile"]}
{"id": "C21", "title": "Fragmented writes notify the complete written range", "statement": "When a write is split into fragments using the more bit, after the last fragment the handler has been notified of every byte written. (The code violates this: only the last fragment's range is notified.)", "quantifier": "every fragmentation of every write", "why_tests_cant": "Unboundedly many fragmentations.", "anchors": ["apx/file.py:InputFile.write", "remotefile/__init__.py:_processFileWrite"]}
{"id": "C22", "title": "Data signatures print and parse back", "statement": "For every well-formed data element (any nesting of records, arrays, ranges, strings and named or numbered references), parsing the printed signature consumes all of it and yields the same element.", "quantifier": "every data element tree of any depth and width", "why_tests_cant": "Recursive grammar with unbounded nesting.", "anchors": ["apx/base.py:DataElement.to_string", "apx/base.py:DataSignature.parseDataSignature", "apx/base.py:match_pair"]}
{"id": "C23", "title": "Pack length equals the number of bytes", "statement": "packLen of a signature equals the sum over all leaves of element size times array length, with type references replaced by the types they denote, for any nesting.", "quantifier": "every resolved data element", "why_tests_cant": "Unbounded nesting.", "anchors": ["apx/base.py:packLen", "apx/base.py:_calcElemSize"]}
{"id": "C24", "title": "Compiled programs announce the right length", "statement": "Whenever Compiler.compilePackProg/compileUnpackProg succeeds on an element (array lengths below 65536), the program's header length equals the signature's packLen.", "quantifier": "every data element for which compilation succeeds", "why_tests_cant": "Unbounded nesting.", "anchors": ["apx/compiler.py", "apx/base.py:packLen"]}
{"id": "C25", "title": "Packing writes the little-endian layout of the value", "statement": "For every element the compiler accepts (array lengths 1..65535, names of record elements ASCII without NUL) and every value of matching shape and range, running the compiled pack program succeeds, fills exactly packLen bytes with the concatenated little-endian encodings of the leaves in declaration order, and touches no other byte of the buffer. (For array fields in records the code additionally requires the record to have at least as many fields as the array has elements. A record with a name containing a character of code 128..255 compiles, but its programs always raise; with a character above 255 it does not compile.)", "quantifier": "every supported type, every matching value, any buffer and offset", "why_tests_cant": "Types and values are unbounded trees.", "anchors": ["apx/compiler.py:compilePackProg", "apx/vm.py:exec_pack_prog", "apx/vm_state.py:VmPackState"]}
{"id": "C26", "title": "Unpacking inverts packing", "statement": "For every supported type and every value of matching shape, unpacking the packed bytes returns the value (strings: without NUL). (The code violates this for nested records, which can be packed but not unpacked.)", "quantifier": "every supported type and value", "why_tests_cant": "Types and values are unbounded trees.", "anchors": ["apx/vm.py:exec_unpack_prog", "apx/vm_state.py:VmUnpackState", "apx/vm_state.py:VmPackState"]}
{"id": "C27", "title": "Unpacking accepts every byte pattern of a numeric type", "statement": "For scalar and numeric-array (and flat numeric record) types every byte string of packLen bytes unpacks to a value in the type's range, and packing that value gives back the bytes.", "quantifier": "every such type and all byte strings of the right length", "why_tests_cant": "256^n inputs.", "anchors": ["apx/vm_state.py:unpack_struct", "apx/vm_state.py:pack_struct"]}
{"id": "C28", "title": "Out-of-range or mis-shaped values are rejected", "statement": "If a value does not fit the type (integer out of the encoding range, missing record field, too short list, wrong kind), running the pack program raises an exception instead of writing a truncated value.", "quantifier": "every supported type and every non-matching value", "why_tests_cant": "Unbounded set of wrong values.", "anchors": ["apx/vm_state.py:pack_struct", "apx/vm_state.py:record_enter", "apx/vm_state.py:record_select"]}
{"id": "C29", "title": "Arrays inside records can be packed", "statement": "A record containing an array field can be packed with any value of matching shape. (The code violates this: pack_struct compares the number of record fields with the array length.)", "quantifier": "every record type with array fields", "why_tests_cant": "Depends on the relation of two unrelated sizes.", "anchors": ["apx/vm_state.py:pack_struct"]}
{"id": "C30", "title": "Array lengths are not truncated", "statement": "A compiled program for an array of n elements processes n elements. (The code violates this for n >= 65536 and n = 0.)", "quantifier": "every array length", "why_tests_cant": "Unbounded lengths.", "anchors": ["apx/compiler.py", "apx/vm_state.py:pack_struct"]}
{"id": "C31", "title": "Port data layout partitions the port data files", "statement": "In a node's in/out port data files the ports occupy consecutive, disjoint ranges in port order, each packLen long, covering the file exactly.", "quantifier": "every node", "why_tests_cant": "Any number of ports of any types.", "anchors": ["apx/node_data.py:_createInPortDataFile", "apx/node_data.py:_createOutPortDataFile", "apx/node_data.py:mapInPort", "apx/node_data.py:mapOutPort"]}
{"id": "C32", "title": "Writing a provide port changes only that port", "statement": "A successful write_provide_port(i,v) changes exactly the bytes of port i to the encoding of v, leaves every other port's bytes and values unchanged, and read_provide_port(i) then returns v; a failed one changes neither file nor values. (The code violates the last clause when the provide ports have no bytes at all.)", "quantifier": "every node, every history of writes", "why_tests_cant": "Histories and nodes are unbounded.", "anchors": ["apx/node_data.py:write_provide_port", "apx/node_data.py:_packProvidePort", "apx/node_data.py:read_provide_port"]}
{"id": "C33", "title": "A failed port access does not block later ones", "statement": "After write_provide_port or read_require_port raises, other ports can still be read and written. (The code violates this: the VM lock is left acquired, so every later access blocks forever.)", "quantifier": "every history containing a failing access", "why_tests_cant": "Needs reasoning about all continuations; a test would hang.", "anchors": ["apx/node_data.py:_packProvidePort", "apx/node_data.py:_unpackRequirePort"]}
{"id": "C34", "title": "Data notifications reach exactly the affected ports", "statement": "After a remote write of [o,o+n) in the in-port file the client is notified once for each port whose bytes overlap that range, in port order, and for no other port. (The code violates this when decoding one of the ports raises: the ports after it are not notified.)", "quantifier": "every node layout, every offset and length", "why_tests_cant": "All layouts and ranges.", "anchors": ["apx/node_data.py:byte_to_port", "apx/node_data.py:inPortDataWriteNotify"]}
{"id": "C35", "title": "Init values are what a reader sees before any write", "statement": "For every require port with an init value matching its type, reading the port before any remote write yields that init value; without init value it yields zero (empty string). The initial data always has exactly packLen bytes. (The code violates this for non-ASCII text and for array init lists of the wrong length.)", "quantifier": "every port type and init value", "why_tests_cant": "Types and values are unbounded trees.", "anchors": ["apx/base.py:createInitData", "apx/node_data.py:_createInPortDataFile", "apx/node_data.py:read_require_port"]}
{"id": "C36", "title": "Remote writes are confined to open requested files", "statement": "Whatever message arrives, onMsgReceived modifies no local file content, and modifies a remote file's bytes only if that file is open, contains the address and the data fits entirely in it; then exactly the addressed bytes change.", "quantifier": "every file manager state and every message byte string", "why_tests_cant": "All byte strings.", "anchors": ["remotefile/__init__.py:onMsgReceived", "remotefile/__init__.py:_processFileWrite"]}
{"id": "C37", "title": "Requesting a file leads to exactly one open request", "statement": "When FILE_INFO for a requested file of equal length arrives, the file gets the announced address, becomes open, is no longer requested, and exactly one FILE_OPEN carrying that address is queued; a second identical FILE_INFO does not open it again.", "quantifier": "every manager state and file", "why_tests_cant": "All states and records.", "anchors": ["remotefile/__init__.py:_processCmd", "remotefile/__init__.py:requestRemoteFile"]}
{"id": "C38", "title": "Unexpected FILE_INFO commands are tolerated", "statement": "A FILE_INFO for an unrequested file, for a file with another length, or truncated, does not bring down message reception. (The code violates each of these.)", "quantifier": "every manager state and every such message", "why_tests_cant": "All states and messages.", "anchors": ["remotefile/__init__.py:_processCmd", "apx/file_map.py:insert"]}
{"id": "C39", "title": "Opening a file transmits its current content, and later writes follow", "statement": "After FILE_OPEN for a local file the queue receives the file's complete current content at its address; afterwards every successful write to the open file queues exactly the written range with the new bytes. Applying the queued writes in order to a copy of any initial content makes the copy equal to the local file (when operations do not interleave).", "quantifier": "every history of opens and writes", "why_tests_cant": "Unbounded histories.", "anchors": ["remotefile/__init__.py:_processCmd", "remotefile/__init__.py:outPortDataWriteNotify", "apx/file.py:OutputFile.write"]}
{"id": "C40", "title": "Concurrent writers leave the peer with the final value", "statement": "When several threads write the same open file, after all are done and the queue is drained the peer's copy equals the local file. (The code violates this: the write, the re-read and the enqueue are separate steps.)", "quantifier": "every interleaving of the steps of two writers", "why_tests_cant": "Depends on the thread schedule.", "anchors": ["apx/file.py:OutputFile.write", "remotefile/__init__.py:outPortDataWriteNotify"]}
{"id": "C41", "title": "The worker transmits queued messages in order, only after connect", "statement": "For every sequence of queued messages, the worker sends exactly those queued after the connect message and before the stop message, one frame each, in queue order.", "quantifier": "every queue content", "why_tests_cant": "Unbounded sequences.", "anchors": ["remotefile/__init__.py:FileManager", "remotefile/__init__.py:onConnected"]}
{"id": "C42", "title": "Port positions and identifiers agree", "statement": "Ports added through the node API get the identifier equal to their position, unique per direction, so NodeData can be built. (finalize with sorting and mirror() break this: positions change or identifiers are missing.)", "quantifier": "every sequence of node building operations", "why_tests_cant": "Unbounded sequences.", "anchors": ["apx/node.py:add_require_port", "apx/node.py:add_provide_port", "apx/node.py:finalize", "apx/node.py:mirror"]}
{"id": "C43", "title": "Finalizing a node sorts without losing anything", "statement": "finalize(sort) leaves the same types and ports as a permutation, sorted by name, numbers types by position, and a second finalize changes nothing.", "quantifier": "every node", "why_tests_cant": "Any number of types and ports.", "anchors": ["apx/node.py:finalize", "apx/node.py:_sort_elements", "apx/node.py:_set_type_ids"]}
{"id": "C44", "title": "Duplicate ports are rejected or merged consistently", "statement": "Adding a port whose name already exists is reported as error or ignored exactly as documented, so port names in a node stay unique for API-built nodes.", "quantifier": "every sequence of additions", "why_tests_cant": "Unbounded sequences.", "anchors": ["apx/node.py:add_port_from_node", "apx/node.py:_check_duplicate_port"]}
{"id": "C45", "title": "Mirroring swaps directions and is an involution", "statement": "mirror() turns every require port into a provide port with the same name, signature and attributes and vice versa; mirroring twice gives back the node's ports.", "quantifier": "every node", "why_tests_cant": "Any number of ports.", "anchors": ["apx/node.py:mirror", "apx/base.py:mirror"]}
{"id": "C46", "title": "Type references always resolve to earlier types", "statement": "In a node built via add_type every resolved reference points to a type added earlier, so resolution terminates and packLen is defined; unknown names or indexes raise.", "quantifier": "every sequence of add_type calls", "why_tests_cant": "Unbounded chains.", "anchors": ["apx/node.py:add_type", "apx/base.py:resolve_type", "apx/base.py:resolve_data_element"]}
{"id": "C47", "title": "Text definitions survive dump and load", "statement": "Loading the text dumped from a node gives a node with the same types and ports. (The code violates this when sorting moves a record type before a type it refers to.)", "quantifier": "every node", "why_tests_cant": "Any number of types and reference structures.", "anchors": ["apx/node.py:dumps", "apx/node.py:lines", "apx/parser.py:loads"]}
{"id": "C48", "title": "load and loads agree", "statement": "Parsing a file with load gives the same node as parsing its text with loads. (The code violates this for files without the APX header line: the first line is dropped.)", "quantifier": "every definition text", "why_tests_cant": "All texts.", "anchors": ["apx/parser.py:load", "apx/parser.py:loads", "apx/parser.py:_parseV12"]}
{"id": "C49", "title": "Parser results depend only on the text", "statement": "Parsing a text gives the same outcome whatever was parsed before with the same parser object. (The code violates this for texts without a node line.)", "quantifier": "every pair of texts", "why_tests_cant": "All pairs of texts.", "anchors": ["apx/parser.py:loads"]}
{"id": "C50", "title": "Sections are enforced and layout does not matter", "statement": "In any accepted text the node line comes first and all type lines precede all port lines; the node gets exactly the ports of its port lines, in order; provide and require ports may be mixed. Comments, trailing blanks and blank lines never change the result. (The code violates this after a provide port, where unknown and misplaced lines are silently dropped, and for comments or blank lines before the version line, which make the text unreadable.)", "quantifier": "every list of lines", "why_tests_cant": "All texts.", "anchors": ["apx/parser.py:apx_split_line", "apx/parser.py:_parseV12"]}
{"id": "C51", "title": "Init value attributes round-trip", "statement": "For every init value built from integers, strings without quote or brace characters and non-empty lists of any nesting, parsing the printed attribute gives back the value.", "quantifier": "every init value tree", "why_tests_cant": "Unbounded nesting.", "anchors": ["apx/base.py:PortAttribute", "apx/base.py:InitValue"]}
{"id": "C52", "title": "Ramps stay between start and target", "statement": "A ramp from the current value to a target writes a monotone sequence between the two, ending exactly in the target. (The code violates this for ramps downwards.)", "quantifier": "every start, target and step count", "why_tests_cant": "Infinite numeric domain.", "anchors": ["apx/tester.py:ramp"]}
{"id": "C53", "title": "Generated C code uses the same layout as the runtime", "statement": "For every node the port offsets, lengths and initial data emitted by the code generator equal those used by NodeData.", "quantifier": "every node", "why_tests_cant": "Any number of ports and types.", "anchors": ["apx/generator.py:SignalInfo", "apx/generator.py"]}
{"id": "C54", "title": "Client port lookup", "statement": "Client.read_port/write_port with a name, index or port object act on the port so designated; unknown designators raise and change nothing.", "quantifier": "every node and designator", "why_tests_cant": "All nodes and names.", "anchors": ["apx/client.py", "apx/node.py:find"]}
{"id": "C55", "title": "A written value arrives at a connected reader", "statement": "If a provider writes v to a port whose file is open and the resulting message is delivered to a peer that has the same file mapped and open at the same address, the peer's read of the corresponding require port returns v and it is notified.", "quantifier": "every port layout, every value, every chunking of the transport", "why_tests_cant": "End-to-end composition over unbounded data.", "anchors": ["apx/client.py", "apx/node_data.py", "remotefile/__init__.py", "remotefile/socket_adapter.py"]}
{"id": "C56", "title": "Integer type selection covers the value range", "statement": "The signature code chosen for an integer AUTOSAR type with bounds min..max can represent every value of the range. (The code violates this for upper bounds that are an exact power of two.)", "quantifier": "every pair of bounds", "why_tests_cant": "Infinite domain with defects at exact powers of two.", "anchors": ["apx/base.py:_getIntegerTypeCode"]}
{"id": "C57", "title": "Text written to a string port is read back", "statement": "A string packed into a string field and unpacked again is returned unchanged. (The code violates this: strings whose UTF-8 encoding is longer than the field are cut off silently, possibly in the middle of a character so that reading raises UnicodeDecodeError.)", "quantifier": "every field length and every string", "why_tests_cant": "Unbounded strings; the failure depends on byte length versus character boundaries.", "anchors": ["apx/vm_state.py:pack_str", "apx/vm_state.py:unpack_str"]}
{"id": "C58", "title": "Running any program leaves the rest of the buffer alone", "statement": "Whatever byte code is given to VM.exec_pack_prog (also malformed or truncated code), a successful run keeps the buffer's length and every byte before the data offset; programs whose first instruction is not the header of the right kind are refused.", "quantifier": "every byte string used as program, every buffer, offset and value", "why_tests_cant": "Quantifies over all byte strings as programs.", "anchors": ["apx/vm.py:exec_pack_prog", "apx/vm.py:exec_unpack_prog", "apx/vm.py:parse_next_instruction"]}
{"id": "C59", "title": "A provide port reads as its initial value before its first write", "statement": "Before the first write_provide_port(i, ...), read_provide_port(i) returns the port's initial value as a Python value of the port's type. (The code violates this: it returns the internal InitValue object, or the integer 0 for ports of any type without init value.)", "quantifier": "every node, every history without a write to the port", "why_tests_cant": "All types, init values and histories.", "anchors": ["apx/node_data.py:createOutPortValue", "apx/node_data.py:read_provide_port"]}
{"id": "C60", "title": "A file manager can be stopped and started again", "statement": "After stop(), FileManager.start() brings the manager back: it transmits again, as after the first start. (The code violates this: the first stop() discards the worker thread object, so every later start() raises AttributeError, and starting a running manager raises RuntimeError; a stopped manager still accepts writes and queues their messages for ever.)", "quantifier": "every history of start, stop and use of a manager", "why_tests_cant": "All histories of calls.", "anchors": ["remotefile/file_manager.py:start", "remotefile/file_manager.py:stop", "apx/client.py:stop"]}
{"id": "C61", "title": "A port copied into another node keeps its data layout", "statement": "Node.add_port_from_node / extend / mirror-copied ports have the same data layout (length and meaning of every byte) in the receiving node as in the node they come from, or the call raises. (The code violates this when a type of the same name and normalized text already exists but refers to different types, and when type numbers are kept across nodes.)", "quantifier": "every pair of nodes and every port", "why_tests_cant": "All pairs of nodes with arbitrary type tables.", "anchors": ["apx/node.py:add_port_from_node", "apx/node.py:add_data_type_from_node", "apx/base.py:clone"]}
{"id": "C62", "title": "The value table of an imported enumeration names its values", "statement": "The value table attribute made for an AUTOSAR enumeration gives each value v of the enumeration the text the enumeration gives it: position v of the table read back is that text. (The code violates this for enumerations that do not start at 0 or have gaps, and for texts with quotes or commas.)", "quantifier": "every enumeration", "why_tests_cant": "All enumerations.", "anchors": ["apx/base.py:AutosarDataType"]}
{"id": "C63", "title": "Data listeners are called with the data received", "statement": "A listener that implements the interface DataListener and is set with Client.set_listener is called once for every require port whose data a remote write touches, with the port and its new value. (The code violates this: the interface declares three parameters and the call passes two, so every notification raises TypeError in the receiving thread.)", "quantifier": "every node, listener and history of remote writes", "why_tests_cant": "All nodes and write histories.", "anchors": ["apx/client.py:DataListener", "apx/client.py:on_require_port_data"]}
{"id": "C64", "title": "The language of data signatures", "statement": "A text is accepted as data signature exactly if it follows the grammar of data signatures (letters with optional range and non-negative array length, references by name or number, records), and the resulting element is the one the grammar gives, which is unique; every other text raises an exception.", "quantifier": "every string", "why_tests_cant": "All strings; unbounded nesting; both directions (nothing wrong accepted, nothing right refused).", "anchors": ["apx/base.py:DataSignature.parseDataSignature", "apx/base.py:DataSignature._parseRecordSignature", "apx/base.py:DataSignature._parseExtendedTypeCode", "apx/base.py:match_pair"]}
{"id": "C65", "title": "The virtual machine stays inside its buffer", "statement": "Packing into, or unpacking from, a buffer that is too short at the given offset for the type is refused. Whatever program is run, compiled or not, it never moves past the end of the buffer, never changes the buffer's length, and treats the bytes before the offset as absent. A program that ends inside an instruction is refused when it gets there.", "quantifier": "every program (also ones no compiler made), buffer, offset and value", "why_tests_cant": "Arbitrary programs, lengths and truncation points.", "anchors": ["apx/vm.py:VM.exec_pack_prog", "apx/vm.py:VM.exec_unpack_prog", "apx/vm.py:VM.verify_data_len", "apx/vm_state.py"]}
{"id": "C66", "title": "The definition file describes the data files", "statement": "The definition file of a node's data contains exactly the ASCII codes of the definition text. Whoever receives it, decodes it and parses it obtains the same name, types and ports and computes from them the same offsets, lengths, initial contents and programs of both data files. A definition that is not ASCII is refused. (The code violates this for nodes finalized with sorting, when the order by name puts a type before one it uses.)", "quantifier": "every node built through the API", "why_tests_cant": "All nodes; composition of printing, encoding, parsing and layout.", "anchors": ["apx/node_data.py:NodeData._createDefinitionFile", "apx/node_data.py:NodeData.__init__", "apx/context.py:Context.dumps", "apx/parser.py:Parser.loads"]}
{"id": "C67", "title": "Generated C read/write functions transfer exactly the bytes of their port", "statement": "For every node for which the C generator succeeds, the C write function emitted for a provide port stores the encoding of the value it is given in the bytes of this port in the output buffer (the same bytes the Python runtime would store), changes no other byte and reports exactly this range; the C read function emitted for a require port delivers the value whose encoding stands in the bytes of this port in the input buffer and leaves the buffer unchanged. Both hold the lock while they touch more than one byte.", "quantifier": "all nodes, all ports, all values of the port's type, all buffer contents, all field-name suffixes", "why_tests_cant": "The existing tests compare the generator's output with one expected file; the emitted code is never executed, and its behaviour depends on the nesting of types, on the values and on the buffer contents, all unbounded.", "anchors": ["apx/generator.py:NodeGenerator.genPackUnpackFunc", "apx/generator.py:NodeGenerator.genPackUnpackItem", "apx/generator.py:NodeGenerator.genPackUnpackInteger", "apx/generator.py:NodeGenerator.generate"]}
{"id": "C68", "title": "Generated C code carries the node's definition and initial data as text", "statement": "The string literal the C generator emits for a node denotes, as a C compiler reads it, the node's definition text (followed by one line feed), the length emitted with it is the number of bytes of this string, and a peer that parses it obtains the node's name, types and ports. The initializers emitted for the two data buffers list exactly the initial bytes, in order. (The code violates this for names with a backslash, which is not escaped, and names outside ASCII, where characters are counted instead of bytes.)", "quantifier": "every node built through the API for which generation succeeds; initializers of every length", "why_tests_cant": "All definitions and lengths; meaning of the emitted text in C, which no test executes.", "anchors": ["apx/generator.py:NodeGenerator._writeSourceFile", "apx/context.py:Context.dumps", "apx/parser.py:Parser.loads"]}
{"id": "C69", "title": "Generated C code calls the callbacks of exactly the ports written", "statement": "The notification function the C generator emits for a node with callbacks calls, when told that a range of the input buffer was written, the callback of every port starting in this range, each exactly once, in the order of the ports, with the value of its port, and no others; and it returns. (The code violates this for ranges that start inside a port, for ports of length zero, for port names that differ only in case, and if no port of the node has a callback.)", "quantifier": "every node for which generation succeeds, assignment of callbacks to ports, and written range", "why_tests_cant": "All layouts, callback assignments and ranges; the emitted loop is never executed by a test.", "anchors": ["apx/generator.py:CallbackInfo", "apx/generator.py:NodeGenerator._writeSourceFile", "apx/generator.py:NodeGenerator.generate"]}
{"id": "C70", "title": "Generated callback code belongs to its node", "statement": "The callback code emitted for a node assigns the notification function it defines as handler, declares exactly the callbacks of the node's ports, and has room for exactly the values of the ports with callbacks; it does not depend on what the generator was used for before or on the name chosen for the generated code. Without callbacks nothing of this is emitted. (The code violates this if another name is chosen, if the node has no require ports, and if a generator is used twice.)", "quantifier": "every node for which generation succeeds, assignment of callbacks, name, and history of the generator", "why_tests_cant": "All nodes and histories of generator use.", "anchors": ["apx/generator.py:NodeGenerator.generate", "apx/generator.py:CallbackInfo.create", "apx/generator.py:CallbackInfo.finalize", "apx/generator.py:NodeGenerator._writeCallbackPrototypes"]}
{"id": "C71", "title": "An init value in the definition is the port's first value", "statement": "If the attribute text of a port of a node spells an init value that fits the port's type, in any of the spellings allowed, then the data file of the provide ports starts out with the encoding of this value in the range of the port (this is what a peer receives when it opens the file), and a require port reads as this value until a remote write arrives. A provide port without init value starts out with the encoding of zero.", "quantifier": "every node, port, type without nested records, init value and spelling of it, and every sequence of local operations", "why_tests_cant": "Composition of attribute parsing, node building, init data and decoding over all types and values.", "anchors": ["apx/base.py:PortAttribute", "apx/base.py:createInitData", "apx/node_data.py:_createOutPortDataFile", "apx/node_data.py:_createInPortDataFile"]}
{"id": "C72", "title": "Which messages end the reception", "statement": "For every message a peer can send, it is decided by the message, the requested files and the open remote files alone whether the file manager raises, and what: an address above the command address, a FILE_INFO that is too short, has a name that is not UTF-8, announces a file that is not (or no longer) requested or has another length than the requested file, a FILE_OPEN of the wrong length, any FILE_CLOSE, and data inside an open remote file that is not an input file. No other message raises. A message that raises changes nothing, and of the messages of a connection exactly those before the first such message take effect.", "quantifier": "every history of a manager that does not use one file as local and as requested file, every message of any bytes, every sequence of messages and every cutting of the stream into chunks", "why_tests_cant": "All byte strings are possible messages, in all states of the manager.", "anchors": ["remotefile/__init__.py:FileManager.onMsgReceived", "remotefile/__init__.py:FileManager._processCmd", "remotefile/__init__.py:FileManager._processFileWrite", "remotefile/socket_adapter.py:TcpSocketAdapter"]}
{"id": "C73", "title": "A client keeps its node and the server in step", "statement": "Client(node) succeeds exactly if the out-port data has at most 0x4000000 bytes and the definition ends below 0x20000000, otherwise it raises ValueError. Whatever sequence of connections, received messages, port writes and reads and stops follows: on each connection the client announces its out-port data (at address 0) and its definition (at 0x4000000) with name and length and nothing else; when the server opens the definition file it gets one message with the definition text; when it opens the out-port data file it gets the current values, and a copy updated with the messages queued from then on always equals the node's out-port data; when the node's in-port file is announced with the right length it is opened with one FILE_OPEN and data sent for it is stored in the node's in-port data; FILE_OPEN is sent at most once. A second announcement (after a reconnection) is expected to be handled like the first, and files attached while connected to be announced.", "quantifier": "every node that can be built, every history of connections, messages (arbitrary bytes), writes, reads and stops, before and after", "why_tests_cant": "the invariant links three objects (node data, files, manager) over arbitrary interleavings of remote messages and local calls; a test exercises a few fixed sessions", "anchors": ["apx/client.py:Client.__init__", "apx/client.py:Client.attach_node", "apx/node_data.py:NodeData", "remotefile/__init__.py:FileManager.onConnected", "remotefile/__init__.py:FileManager.onMsgReceived", "apx/file.py:OutputFile.write", "apx/file.py:InputFile.write"]}
{"id": "C74", "title": "Connecting and stopping a client", "statement": "connect_tcp returns False if the server refuses the connection and True if it accepts; after True the receive thread and the manager's thread run and the greeting was sent, and refused or failed attempts before do not matter. stop() never raises, and after it no thread of the client runs and no connection is open, whoever calls it and whatever the server did; a stopped client can be connected again. (The code violates the last part: stop() raises after a reset by the server, when called from the data listener and when called twice; a stopped client cannot connect; a second connect_tcp abandons the first connection.)", "quantifier": "every history of connection attempts with any outcome, calls of stop from any thread, acknowledgements, messages, closes and resets by the server and steps of the manager's thread", "why_tests_cant": "depends on the history of attempts and failures of the network and on which thread calls; threads left behind are not seen by a test that just ends", "anchors": ["apx/client.py:Client.connect_tcp", "apx/client.py:Client.stop", "remotefile/socket_adapter.py:TcpSocketAdapter", "remotefile/__init__.py:FileManager.start", "remotefile/__init__.py:FileManager.stop"]}
{"id": "C75", "title": "What was written before stop() reaches the connection", "statement": "At every moment the frames sent on a connection are a prefix of those queued for it, and once the manager's thread has emptied its queue they are all of them. What was queued before stop() is sent before the connection is closed. (The code violates the last part: stop() closes the socket first, and nothing still queued is ever sent.)", "quantifier": "every history of connection attempts, calls of stop, acknowledgements, messages, closes and resets by the server and every interleaving of the steps of the manager's thread", "why_tests_cant": "depends on how far the manager's thread has got when stop() is called", "anchors": ["apx/client.py:Client.stop", "remotefile/socket_adapter.py:TcpSocketAdapter.stop", "remotefile/__init__.py:FileManager"]}
{"id": "C76", "title": "Splitting a definition loses and duplicates nothing", "statement": "apx_split on a definition that loads writes a head with exactly the ports named and a tail with exactly the other ports, each with its type and attributes; both can be loaded again. With --mirror the directions are reversed, with --sort the ports are sorted, --head_name and --tail_name set the names of the nodes. Names given with --file are those on the file's lines, without blanks around them and without comments. (The code violates parts of it: a provide and a require port of one name lose one of the two; the name of a type, and types that are names of other types, are refused, possibly after the head was written; --mirror does not reach the tail; --tail_name is ignored, and --head_name is if --head is given.)", "quantifier": "every definition text, every list of names, every combination of options", "why_tests_cant": "the tool copies ports and the types they need through several loops; that nothing is lost, changed or duplicated has to hold for every set of names and every type graph", "anchors": ["util/apx_split.py", "apx/node.py:Node.add_port_from_node", "apx/node.py:Node.add_data_type_from_node", "apx/node.py:Node.save_apx", "util/apx_split.py:parse_lines_in_file"]}
{"id": "C77", "title": "Joining definitions gives their union", "statement": "apx_join on definitions in which shared names mean the same writes one file, under the name given, that can be loaded and has exactly the ports of all the definitions, each once, with type and attributes. Definitions that contradict each other, and files that cannot be loaded, are refused, and nothing is written. (The code violates parts of it: a port required by one and provided by another definition is refused; record types with equal text whose members mean something else are mixed silently, and so are definitions that share a port whose type has the same name and another meaning; a file without a definition is ignored silently unless it is the first; sorting can make the result unreadable.)", "quantifier": "every list of definition texts, with or without sorting and normalizing", "why_tests_cant": "the result depends on all pairs of definitions and on the types nested in them", "anchors": ["util/apx_join.py", "apx/node.py:Node.extend", "apx/node.py:Node.add_port_from_node"]}
{"id": "C78", "title": "The sizes printed by apx_size are those of the data files", "statement": "apx_size prints, for every definition for which node data can be built, the number of bytes of its in-port and its out-port data. (The code raises for records in which a port refers to another type.)", "quantifier": "every definition text", "why_tests_cant": "two independent computations of sizes must agree on every nesting of types", "anchors": ["util/apx_size.py", "apx/base.py:DataSignature.packLen", "apx/node_data.py:NodeData"]}
{"id": "C79", "title": "Rewriting a definition keeps it", "statement": "apx_normalize, apx_finalize and apx_mirror write a text that loads to the same definition, sorted, with the directions reversed by apx_mirror. A text they have written is not changed by the first two, and mirroring twice gives what they make of the original. They work on files and, with -p, as a filter; when a tool fails the file it has read is unchanged. (The code violates parts of it: the filter needs a file name that it does not use; a failure destroys the file; sorting can make it unreadable.)", "quantifier": "every definition text, every combination of options", "why_tests_cant": "idempotence and being an involution are claims about all definitions; the failures depend on types inside records", "anchors": ["util/apx_normalize.py", "util/apx_finalize.py", "util/apx_mirror.py", "apx/node.py:Node.finalize", "apx/node.py:Node.mirror", "apx/node.py:Node.save_apx"]}
{"id": "C80", "title": "Importing an AUTOSAR component gives a node with its ports", "statement": "Node.from_autosar_swc(swc, name) returns a node named `name` (or as the component) that has, in each direction, one port per port of the component, in the order of the component, with the same name and with a type named as the data type of the port's data element and able to represent every value of that data type; data types used by several ports appear once. Ports that cannot be imported make the import raise.", "quantifier": "every AUTOSAR workspace, every software component of it with any number of ports, every name", "why_tests_cant": "tests import one component of one workspace; the claim is about every combination of ports, interfaces, data types and references, including types that share a short name in different packages and references that lead nowhere", "anchors": ["apx/node.py:Node.from_autosar_swc", "apx/node.py:Node.import_autosar_swc", "apx/node.py:Node.add_autosar_port", "apx/node.py:Node._updateDataType", "apx/base.py:AutosarDataType"]}
{"id": "C81", "title": "Imported ports have the init values of the component", "statement": "A port imported from an AUTOSAR component has no init value if the component's port has none; otherwise its init value is the value of the constant the port refers to, the port is neither queued nor a parameter because of it, and the node's data starts with the encoding of that value.", "quantifier": "every workspace, every component, every port of it, every constant: integers, texts, records and arrays of any depth", "why_tests_cant": "the value is written to a text and parsed again; that this is the identity for every nested constant cannot be settled by examples, and fails for texts with quotes and for empty records", "anchors": ["apx/node.py:Node._calcAttributeFromAutosarPort", "apx/node.py:Node._deriveInitValueFromAutosarConstant", "apx/base.py:PortAttribute", "apx/node_data.py:NodeData"]}
{"id": "C82", "title": "The definition text of an imported component describes it", "statement": "The definition text made for a node imported from an AUTOSAR component, by dumps() or for the definition file that a client publishes, can be loaded again and gives a node with the same name, the same types with the same layout and attribute text, and ports with the same names, types and init values; the node data built from it has the same layout and initial contents, and enumeration texts arrive as value tables.", "quantifier": "every workspace, every importable component, every name given to the node, both ways of writing type references, every state of the parser", "why_tests_cant": "an imported node keeps attributes as plain text and has types made by another class than parsed nodes; that its text can be loaded for every combination of types, enumerations and init values cannot be settled by examples", "anchors": ["apx/node.py:Node.import_autosar_swc", "apx/node.py:Node.lines", "apx/node.py:Node.dumps", "apx/base.py:AutosarDataType", "apx/parser.py:Parser", "apx/node_data.py:NodeData"]}
{"id": "C83", "title": "A context made from a partition has one node per application component", "statement": "Making a context from an AUTOSAR partition gives one node for each application software component, in the order of the partition, and none for other components; each node has the name of the component and the ports and types that importing the component alone gives, and its definition text can be loaded again. It raises if and only if importing one of the components would.", "quantifier": "every workspace, every partition with any number of components of any kind", "why_tests_cant": "no test makes a context from a partition; the code visits the ports in another order than the import of a single component, so equality needs an argument about every order of ports and shared types", "anchors": ["apx/context.py:createContextfromPartition", "apx/node.py:Node.append", "apx/node.py:Node.from_autosar_swc", "apx/node.py:Node.add_autosar_port"]}
{"id": "C84", "title": "Ports of an imported component can be copied into another node", "statement": "append() of a port of a node imported from an AUTOSAR component, with from_node given, adds a port of the same direction, name, type and init value to another node that has no port of that name, and brings its type along; extend() does this for all ports of the imported node.", "quantifier": "every workspace, every importable component, every port of it, every target node", "why_tests_cant": "types of imported nodes are of another class than those of parsed nodes; whether copying works depends on whether the target already has the type, which happens for every component with two ports of the same type", "anchors": ["apx/node.py:Node.append", "apx/node.py:Node.extend", "apx/node.py:Node._updateDataType", "apx/base.py:AutosarDataType"]}
{"id": "C85", "title": "A context is written as files and as a text that can be loaded", "statement": "save_apx() of a context writes one file per node, named after the node, into the directory, and returns the names in order; each file can be loaded and gives the name, types and ports of its node. dumps() of a context gives a text that can be loaded and gives what the nodes define. Nothing is written if the directory does not exist.", "quantifier": "every list of nodes built through the API, every directory name, both ways of writing type references, every state of the parser", "why_tests_cant": "tests save a context of one node; what the text of several nodes means to the parser depends on which sections each node has, and files of nodes with equal names overwrite each other", "anchors": ["apx/context.py:Context.save_apx", "apx/context.py:Context.dumps", "apx/node.py:Node.write", "apx/node.py:Node.lines", "apx/parser.py:Parser"]}
{"id": "C86", "title": "Node data can be made again, and a client can be created from a text", "statement": "Making the node data of a node rewrites the references in its ports. It can nevertheless be made again: offsets, lengths, pack and unpack programs, initial contents and initial values come out the same, the definition file still describes the node (decoded and loaded it gives a node with the same name, types and ports and the same layout), and making it once more changes nothing. A client created from a definition text publishes a definition that describes the node of that text, and node data can be made from a text directly.", "quantifier": "all nodes for which node data can be made; for the definition all nodes that can be written, whose types refer to earlier types; all definition texts", "why_tests_cant": "The rewriting happens inside the elements of records at any depth; a test sees a few nodes, and the second definition text differs from the first.", "anchors": ["apx/node_data.py:NodeData.__init__", "apx/node_data.py:NodeData._create_port_map_and_data_elements", "apx/client.py:Client.create_node", "apx/parser.py:Parser.loads"]}
{"id": "C87", "title": "The communication layer sends changes and keeps the value last sent", "statement": "For an AUTOSAR component the communication generator emits one send function per data element that is sent and one receive function per data element that is received. After any sequence of calls of the send functions every provide port of the emitted node holds the value last sent through its function, or its initial value if none was sent; the connection is notified once for each call that sends another value than the one before, in the order of the calls, with the place of the port; ports without a function do not change; nothing undefined happens. A receive function stores the value that is in the input buffer. The node is the component seen from the other side: its provide ports are the require ports of the component.", "quantifier": "all components and all sequences of calls of the emitted send functions with values of the types of their ports", "why_tests_cant": "Whether a value is written depends on a static variable per function, so on all calls made before; tests see a few calls.", "anchors": ["apx/generator.py:ComGenerator", "apx/generator.py:ComGenerator.createSendBody", "apx/generator.py:ComGenerator.createReceiveBody", "apx/generator.py:ComGenerator._local_var"]}
{"id": "C88", "title": "The generated C files fit together", "statement": "The header, the source and the callback header generated for a node fit together: the source includes both headers and defines exactly the functions its header declares, with the same result and parameter types and each once; the function it installs as handler is declared and has the type of a handler; every function it calls with received data is declared, and the argument has the declared type; the union received data are read into has one member for each port with a callback, of the type of the port and, for arrays, with as many items.", "quantifier": "all nodes for which code is generated, all options (name, includes, callbacks, direct writes, flags, record suffix)", "why_tests_cant": "The tests compare six sample outputs; whether declarations and uses agree depends on the names and types of all ports and callbacks.", "anchors": ["apx/generator.py:NodeGenerator.generate", "apx/generator.py:NodeGenerator._writeHeaderFile", "apx/generator.py:NodeGenerator._writeSourceFile", "apx/generator.py:NodeGenerator._writeCallbackPrototypes", "apx/generator.py:CallbackInfo", "apx/base.py:DataSignature.ctypename"]}
{"id": "C89", "title": "The generated initialization resets a node to what the Python client starts with", "statement": "Whatever was in memory before, a call of the generated initialization function leaves in the two buffers the initial data the Python node data has for the same node, with no port marked as written or received; the node object has the node's name, a definition that denotes the definition text, and for each direction with data the length of its buffer; there is a handler exactly if callbacks were given. The generated connection test returns true exactly if some direction has data and the file of every such direction is open.", "quantifier": "all nodes for which code is generated, all options, all memory contents before the call", "why_tests_cant": "Tests compare the text for sample nodes and execute none of it.", "anchors": ["apx/generator.py:NodeGenerator._writeSourceFile", "apx/node_data.py:NodeData"]}
{"id": "C90", "title": "Several threads can use one node's data", "statement": "Threads may write provide ports and read require ports of one node while another thread receives data. Whatever the interleaving: a read returns the value the port had, as a whole, when the read began; the client of the receiving thread is told the values the ports have after the data received so far; the file that is sent is the one that results when the writes are made one after the other in some order that keeps each thread's own order; the value read back from a provide port agrees with that file as soon as no call is in progress; while no call raises, some thread can always go on; and no schedule keeps threads that can go on busy for ever, so all calls end.", "quantifier": "all nodes, all numbers of threads and programs of writes, reads and receptions, all schedules of their steps (each instruction of the virtual machine, each file access and each lock operation being a step)", "why_tests_cant": "The shared virtual machine is used by all threads; whether calls disturb each other depends on the schedule, and tests run single-threaded.", "anchors": ["apx/node_data.py:NodeData._packProvidePort", "apx/node_data.py:NodeData._unpackRequirePort", "apx/node_data.py:NodeData.inPortDataWriteNotify", "apx/vm.py:VirtualMachine.exec_pack_prog", "apx/vm.py:VirtualMachine.exec_unpack_prog", "apx/file.py:File"]}
{"id": "C91", "title": "Finding the end of a line", "statement": "Searching a received buffer for the end of a line between two positions returns the position of the first newline there, and a result by which the caller can tell that there is none.", "quantifier": "all buffers and all pairs of positions in them", "why_tests_cant": "The result must be the first newline for every content and every range; the case in which two answers coincide is found by considering all buffers.", "anchors": ["remotefile/proto.py:readLine"]}
{"id": "C92", "title": "The files of the communication layer fit together and to the node", "statement": "The header and the source generated for a communication component fit together and fit the files generated for its node: the source includes both headers, defines exactly what its header declares, declares each variable once with the type of the values stored in it, and calls only functions that the node's header declares, with arguments of the types of their parameters.", "quantifier": "all workspaces and components that can be imported, all functions of the upper layer that belong to ports of the component, all file names and options of the generators", "why_tests_cant": "Whether generated C code compiles for every component is a statement about all combinations of port names, element names and types; there is no unit test of this generator.", "anchors": ["apx/generator.py:ComGenerator", "apx/generator.py:ComVariable", "apx/generator.py:NodeGenerator.generate"]}
{"id": "C93", "title": "A connection that breaks has delivered a prefix of the messages", "statement": "Wherever a connection breaks, at any byte, the receive handler of the peer has been given exactly those of the sent messages that had arrived completely, in order, and nothing of the message that was cut off; the rest is kept until more arrives. The same holds when the operating system takes less than it is given. (The code violates the last part: the return value of socket.send is ignored, so that a message taken in part is followed by the next one and the peer is given a message that was never sent.)", "quantifier": "all lists of messages, all points at which the stream can break, all ways of cutting the bytes before into received chunks, all numbers of bytes taken by each send", "why_tests_cant": "The point at which a connection breaks and what the operating system takes of a message are not under the control of a test; the tests use neither sockets nor broken streams.", "anchors": ["remotefile/socket_adapter.py:TcpSocketAdapter.send", "remotefile/socket_adapter.py:_parseData", "remotefile/socket_adapter.py:_parseMessage"]}
{"id": "C94", "title": "A value written by one client reaches another through a server that forwards it", "statement": "Two clients are made for two nodes and have any histories. At some time the server opened the provider's out-port data file, and announced the in-port data file of the reader. If the server keeps its copy of the former up to date with the provider's data messages, whatever the copy held at first, and sends the bytes of one provide port to the place of a require port of the same type in the reader's file, then the reader's client is called exactly once, for that require port, with a value equal to the one that the last successful write of the provide port was given; if there was none, with the value of its init value. Reading the port gives that value and all other require ports read as before. Conditions: the reader's node is not waiting for its lock (C33), the type has no nested records (C24) and at least one byte, the value is one that the type represents exactly.", "quantifier": "all pairs of nodes for which a client can be made, all histories of both clients (connections, messages of any content, reads and writes that return or raise, stop), all addresses below the command area, all pairs of ports of the same type, all values", "why_tests_cant": "The claim connects the port layout of two nodes, the file managers of two clients and the virtual machine over arbitrary histories; tests exercise each part with one node, one value and one fixed sequence.", "anchors": ["apx/client.py:Client", "apx/node_data.py:NodeData.write_provide_port", "apx/node_data.py:NodeData.inPortDataWriteNotify", "remotefile/__init__.py:FileManager", "apx/file.py:OutputFile.write", "apx/file.py:InputFile.write"]}
{"id": "C95", "title": "No update is lost, repeated or reordered between two clients", "statement": "Once the server has opened a provider's out-port data file, and until it sends a command, the provider is stopped or connected anew, the messages the provider queues are exactly one per write of a provide port that returned, in the order of the writes. If a server relays the messages of connected ports to a reader whose in-port data file it has announced, then the reader's client is called exactly once for each such write of a connected port, in the same order, with the connected require port and a value equal to the one written, and reception goes on. Conditions: the reader's node is not waiting for its lock (C33); connected ports have the same type, without nested records (C24) and not empty; the values are ones that the type represents exactly.", "quantifier": "all pairs of nodes for which a client can be made, all connections between their ports, all histories of both clients, all sequences of writes (returning or raising), reads and received data, all values", "why_tests_cant": "Loss, repetition and reordering show only over sequences of operations; the claim is about all of them, for all port layouts and all wirings, where tests run one write.", "anchors": ["apx/client.py:Client", "apx/node_data.py:NodeData.write_provide_port", "apx/node_data.py:NodeData.inPortDataWriteNotify", "apx/file.py:OutputFile.write", "remotefile/__init__.py:FileManager.outPortDataWriteNotify", "remotefile/__init__.py:FileManager._processFileWrite"]}
{"id": "C96", "title": "Lists described with the array instructions are packed and unpacked item by item", "statement": "A program for the virtual machine can describe lists with the instructions ARRAY_ENTER and ARRAY_LEAVE, whose items are records or lists again, to any depth. Packing with such a program succeeds exactly if the value fits (lists at least as long, all fields present, numbers in range) and there is room in the buffer, and then writes the items one after the other and nothing else; values of another kind are refused with ValueError. Unpacking with the corresponding program gives back exactly the value packed, provided that no record is directly inside a record. Violated for lists of numbers, which cannot be packed this way, and for records inside records, which cannot be unpacked.", "quantifier": "all descriptions built from numbers, text, records and lists (any nesting, any lengths), all values, buffers and offsets", "why_tests_cant": "The machine keeps a stack of suspended lists and dicts; that every nesting is left correctly needs induction over the nesting. The unit tests only decode the two instructions, the compiler never emits them.", "anchors": ["apx/vm_state.py:VmPackState.array_enter", "apx/vm_state.py:VmPackState.array_leave", "apx/vm_state.py:VmPackState.record_leave", "apx/vm_state.py:VmUnpackState.array_enter", "apx/vm_state.py:VmUnpackState.array_leave", "apx/vm_state.py:VmUnpackState.record_leave", "apx/vm.py:VM.exec_pack_prog", "apx/vm.py:VM.exec_unpack_prog"]}
{"id": "C97", "title": "Elements made by calls have the text that the calls describe", "statement": "For every sequence of calls of DataElement.UInt8 .. SInt32, String, Record, TypeReference and append (and of changes to the lists given to Record): str of an element is the text of what the calls describe. A record holds the elements that were in the given list when it was made (later changes of that list are not seen), followed by those appended to it, each as it is now even if it was changed after it was put in. That text, parsed as a data signature, gives the same element, and DataSignature(element) has that text and length. A negative array length is refused with ValueError and append to an element that is no record with ParseError, and nothing is changed; the text of an element that contains itself cannot be made and raises. Violated: a single limit is not written, a field without name gets the name None, and DataSignature(element) copies the class instead of the element, so neither its text nor its length can be had.", "quantifier": "all sequences of calls, with all sharing of elements and lists between records, all names, limits and lengths", "why_tests_cant": "Elements and lists are shared objects that are changed in place; which change is seen where depends on the history of calls. The unit tests make few elements by calls and no shared ones.", "anchors": ["apx/base.py:DataElement.__init__", "apx/base.py:DataElement.UInt8", "apx/base.py:DataElement.SInt32", "apx/base.py:DataElement.String", "apx/base.py:DataElement.Record", "apx/base.py:DataElement.TypeReference", "apx/base.py:DataElement.append", "apx/base.py:DataElement.arrayLen", "apx/base.py:DataElement.to_string", "apx/base.py:DataSignature.__init__"]}
{"id": "C98", "title": "C programs with generated code and Python clients exchange values", "statement": "A value handed to the write function generated for a provide port is, once the reported bytes have been sent on to a require port of the same type, the value the Python client of that port is called with and reads; a value last written by a Python client is, once its bytes are in the input buffer of a C program, the value the generated read function stores; and the same between two C programs. Other ports are not affected. Types: integers of at most 32 bits, arrays of them, text shorter than its field, and records of these without records inside; not empty.", "quantifier": "All nodes on both sides, all supported port types, all values of the type and C objects representing them, all contents of the buffers and objects before the calls, all histories of the Python client, all announced addresses and all contents of the server's copy.", "why_tests_cant": "The generator and the interpreter are different pieces of code and agree only if layout, byte order, padding and port positions agree for every type and every combination of ports; the C side cannot be run by the Python tests at all.", "anchors": ["apx/generator.py:NodeGenerator.generate", "apx/generator.py:NodeGenerator.genPackUnpackFunc", "apx/client.py:Client.write_port", "apx/client.py:Client.read_port", "apx/node_data.py:NodeData.inPortDataWriteNotify", "apx/node_data.py:NodeData.write_provide_port"]}
{"id": "C99", "title": "Lines made by the writer classes say what they were made from", "statement": "The text of an `ApxSignature` of a port, appended to a node, adds the port with that name, data signature and attributes. The attribute text of an `ApxPort` is read back as the init value, queue, queue length and parameter mark it was made from. The line of an `ApxType` is loaded as a type with that name and the described data element. An AUTOSAR port object has the text of a port with its name, the number of its type and its attributes, and its mirror is the same port on the other side.", "quantifier": "All names, data signatures and attributes that fit on a line, all init values and spellings of them, all queue lengths, all type descriptions, all type numbers, all nodes the text is appended to.", "why_tests_cant": "The text and the parser are separate pieces of code; they agree only if they do for every combination of attributes and every description, and the repository's tests do not call these classes at all.", "anchors": ["apx/apx_writer.py:ApxSignature", "apx/apx_writer.py:ApxType", "apx/apx_writer.py:ApxPort.getAttrStr", "apx/base.py:AutosarRequirePort", "apx/base.py:AutosarProvidePort"]}
{"id": "C100", "title": "Compiling a port by itself gives the program its node uses", "statement": "`Compiler.exec(port)` on a port of a node gives exactly the byte-code program that the node data of the node runs when that port is written or read, whatever the compiler object was used for before, also without success. Things that are not ports, and ports whose type has not been looked up, are refused with ValueError and ApxTypeError. (The code violates the first part: if two type names lead to an array, or three to anything, the port cannot be compiled by itself although its node can use it.)", "quantifier": "All nodes for which node data can be made, all their ports of both sides, all histories of uses of the compiler object including failing ones.", "why_tests_cant": "The two ways look up the type names in different ways (one level here, all levels there); that they agree must hold for every chain of names and every element, and a compiler object is reused after arbitrary failures.", "anchors": ["apx/compiler.py:Compiler.exec", "apx/compiler.py:Compiler.compilePackProg", "apx/compiler.py:Compiler.compileUnpackProg", "apx/base.py:Port.data_element", "apx/node_data.py:NodeData.createPackProg", "apx/node_data.py:NodeData.createUnpackProg"]}
{"id": "C101", "title": "A virtual machine can be used again, also after errors", "statement": "After any sequence of calls of its methods, failing ones included, a VM object packs and unpacks as a new one does. A node therefore, which uses one machine for all its ports and for both directions, gives for every history of writes, reads and received data the results that a new machine for every operation would give. Before the first program and after reset() there is no value to read or replace (RuntimeError), and no instruction is executed: RuntimeError for the beginning of a program, AttributeError for any other. Where there is a value, it can be replaced, and is then the value read.", "quantifier": "All histories of method calls, all states a failing call can leave behind, all programs, data, offsets and values; all node data objects and histories of operations on them.", "why_tests_cant": "A leftover attribute would show only in particular sequences of a failing program and a later one; there are unboundedly many.", "anchors": ["apx/vm.py:VM.reset", "apx/vm.py:VM.init_pack_prog", "apx/vm.py:VM.init_unpack_prog", "apx/vm.py:VM.exec_pack_prog", "apx/vm.py:VM.exec_unpack_prog", "apx/vm.py:VM.value", "apx/node_data.py:NodeData._packProvidePort", "apx/node_data.py:NodeData._unpackRequirePort"]}
{"id": "C102", "title": "A virtual machine uses the byte order it was made for", "statement": "A VM made with little_endian_format=True packs numbers in little-endian order, one made with little_endian_format=False in big-endian order. (The code violates this: the parameter is not used, and every machine packs in little-endian order.)", "quantifier": "All types the compiler accepts, all values that fit them, all buffers and offsets, all previous uses of the machine.", "why_tests_cant": "The order must be right for every type and value, nested or not; no test makes a big-endian machine.", "anchors": ["apx/vm.py:VM.__init__", "apx/vm_state.py:VmPackState.pack_struct"]}
{"id": "C103", "title": "One file manager serves several nodes", "statement": "Several node data objects can be given to one file manager with attachNodeData, in any order. Nothing is raised as long as their files fit the address space. On connection the out-port data and the definition of every node are announced, each once, with its name, its length and an address of its own; opening one of them is answered with the content of that file; and replaying what was sent gives, for every open file, its current content, undisturbed by the other nodes. The in-port data file of every node is requested and can be received.", "quantifier": "all lists of nodes with any mixture of provide and require ports and any file sizes, all orders in which they are attached, and all histories of messages, connections and writes afterwards", "why_tests_cant": "the repository's test attaches a single node; which addresses the files get depends on all files attached before, so an unlucky order or a name used twice shows only for particular combinations of nodes", "anchors": ["apx/file_manager.py:FileManager.attachNodeData", "apx/file_map.py:FileMap.assignFileAddress", "remotefile/__init__.py:FileManager.attachLocalFile", "remotefile/__init__.py:FileManager.requestRemoteFile", "remotefile/__init__.py:FileManager.onConnected"]}
{"id": "C104", "title": "The text of the generated functions says what they are meant to do", "statement": "The C text that the code generator writes for the read and write functions of the ports is well formed and means what it should: read by the rules of C - tokens, declarations, one statement after the other, operators with their precedence - every head declares the function of the port with its argument, and every body is exactly the sequence of locking, pointer setting, loads, stores, copies, loops and notification that moves the bytes of the value between the argument and the port data; every variable used in a body is declared in it.", "quantifier": "all nodes, all data elements with any nesting of records, arrays and strings, all suffixes of field names, all offsets, and all names of nodes, ports, types and members", "why_tests_cant": "the tests compare the generated files with a few expected files; whether the spelling chosen for a statement (p++, p+=sizeof(T), *val, val->x.y[i], p[n]) still says the right thing for another combination of types, nesting and offsets can only be settled by a reader of C applied to all texts", "anchors": ["apx/generator.py:NodeGenerator.genPackUnpackInteger", "apx/generator.py:NodeGenerator.genPackUnpackItem", "apx/generator.py:NodeGenerator.genPackUnpackFunc", "apx/generator.py:NodeGenerator._writeSourceFile"]}
{"id": "C105", "title": "The text of the generated files, as a compiler reads it, initializes, declares and dispatches as it should", "statement": "The generated source and header files are C: read line by line by the rules of C, the source consists of the macros, arrays, objects and functions that belong to the node, and the header files, between their guards, of exactly the declarations of these functions and of the callbacks. The macros have the lengths and positions of the data. Whatever the memory contains, a call of the initialization function leaves the initial data in the port data, clears the flags, touches nothing else and hands over the node with its name, definition, buffers, lengths and handler. The function that tells whether the node is connected asks about the directions that have data. The function that is told of received bytes calls, for exactly the ports with callbacks that start in these bytes and in the order of the ports, the read function of the port and then its callback with the value just read.", "quantifier": "all nodes, all options of the generator (name, suffix, callbacks, flags, includes, direct variables), all contents of the memory, all offsets and lengths of received data", "why_tests_cant": "the tests compare a handful of generated files with expected ones; that macros, labels, arrays, union members and calls agree with each other and with the layout in every file, and what the code does for every offset, length and memory content, can only be settled by reading all texts with a reader of C", "anchors": ["apx/generator.py:NodeGenerator.generate", "apx/generator.py:NodeGenerator._writeHeaderFile", "apx/generator.py:NodeGenerator._writeSourceFile", "apx/generator.py:NodeGenerator._writeCallbackPrototypes", "apx/generator.py:CallbackInfo"]}
{"id": "C106", "title": "The text of the communication layer, as a compiler reads it, passes on exactly the values that changed", "statement": "The header and the source that are generated for the communication layer of a component are C: read line by line by the rules of C, the header declares exactly the functions of the component, and the source defines exactly these, with one initialized variable for each function that sends. A call of a send function with the value its variable already has does nothing; with another value it stores the value and calls the write function of the node for this port, with that value. A call of a receive function delivers what the read function of the node for this port delivers. Together with the text of the node's own source file: whatever is sent, in whatever order, every port holds the bytes of the value last sent, or its initial data, ports without functions are untouched, and there is exactly one notification for each change.", "quantifier": "all components with functions for their ports, all options of the generator of the node, all initial values, all sequences of calls with all values, all contents of memory", "why_tests_cant": "there is no test of these generated files; whether names, types, pointers and sizes in the text belong together, and what the text does in every sequence of calls, can only be settled by reading and executing all such texts", "anchors": ["apx/generator.py:ComGenerator.generateHeader", "apx/generator.py:ComGenerator.generateSource", "apx/generator.py:ComGenerator.createSendBody", "apx/generator.py:ComGenerator.createReceiveBody", "apx/generator.py:ComGenerator._local_var", "apx/generator.py:ComGenerator._generateGlobalFunctionsSource"]}
{"id": "C107", "title": "The callbacks of a generated program get the values that were received", "statement": "A C program with generated code that is told that bytes have been received calls, for each port with a callback that starts in these bytes, in the order of the ports, this callback exactly once, with the value whose bytes have been received for the port, and calls nothing else outside the generated file - whatever the memory contained before. In particular the value a Python client has last written to a port reaches the callback of a port of the same type. (The code violates this for text: the byte behind the text is never stored, so the callback gets whatever the stack contained there.)", "quantifier": "all nodes and options for which the generator succeeds, all callbacks, all received data, all ranges, all contents of uninitialized memory, all histories of the Python client", "why_tests_cant": "no test compiles or runs the generated C; uninitialized memory happens to be zero in most runs; that the read function, the local object and the callback belong together for every node and every range cannot be enumerated", "anchors": ["apx/generator.py:NodeGenerator.generate", "apx/generator.py:NodeGenerator.genPackUnpackFunc", "apx/generator.py:NodeGenerator.genPackUnpackItem", "apx/generator.py:CallbackInfo._generate_code_fragment"]}
{"id": "C108", "title": "Reading a port gives exactly the value its bytes stand for", "statement": "After any history of writes, reads and received data, reading a required port returns the value that the port's bytes in the file stand for by its declared type - integers little-endian, text up to the first null byte, records by field name - and changes nothing; if the bytes stand for no value (for example invalid UTF-8), an exception is raised. The values reported to the client when data arrive are those that the ports' bytes stand for after the write. Writing a provided port succeeds exactly for the values that have a layout by the declared type, and sends exactly this layout. (The code violates this for records inside records, which can never be read, and for arrays in records, C29.)", "quantifier": "all nodes that can be constructed, all histories, all bytes that may be received, all ports, all values", "why_tests_cant": "the received bytes are arbitrary and may come from a peer that never packed a value; tests only unpack what was packed, so neither the raising cases nor the bytes behind a terminator are exercised, and not every type and history can be enumerated", "anchors": ["apx/node_data.py:NodeData.read_require_port", "apx/node_data.py:NodeData.write_provide_port", "apx/node_data.py:NodeData.inPortDataWriteNotify", "apx/vm.py:VM.exec_unpack_prog"]}
{"id": "C109", "title": "A client of a node with numeric required ports is never hung", "statement": "If the types of all required ports of a node consist of integers, arrays of integers and flat records of these, then a client of this node is never left waiting: after connecting, any bytes received in any order, any reads, and any writes of values that fit the types of the provided ports (or go to ports that do not exist), no call waits for a lock, the receive thread goes on, and every required port can be read. Hence everything a connected provider writes reaches such a reader, whatever it has received before. (For other types one message can hang the client for ever, C33, C55.)", "quantifier": "all such nodes, all histories of a client, all sequences of received bytes", "why_tests_cant": "the received bytes come from another program and are arbitrary; a lock that is left behind in one rare state is noticed only by what happens later", "anchors": ["apx/client.py:Client", "apx/node_data.py:NodeData.inPortDataWriteNotify", "apx/node_data.py:NodeData.write_provide_port", "apx/node_data.py:NodeData.read_require_port", "remotefile/__init__.py:FileManager.onMsgReceived"]}
