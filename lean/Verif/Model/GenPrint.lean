import Verif.Model.GenFile

/-!
The text of the generated files. The library `cfile`, which prints them, is not part of /repo; its
output formats are those of the files in /repo/tests/expected_gen, with which `Conformance.Gen` compares
the text below.
-/

namespace Apx

/-- Decimal number with a sign: `'%d'`. -/
def decText (n : Int) : Str := intStr n

/-- `indent` blanks before a line. -/
def indentBy (n : Nat) (s : Str) : Str := List.replicate n ' ' ++ s

/-- `C.variable` as a parameter or declaration: `T x`, `T *x`. -/
def CParam.text (p : CParam) : Str :=
  p.type.base ++ (if p.type.pointer then " *".toList else " ".toList) ++ p.name

/-- `C.function` as text. -/
def CProto.text (p : CProto) : Str :=
  p.result.base ++ (if p.result.pointer then " * ".toList else " ".toList) ++ p.name ++ ['('] ++
    (if p.params = [] then "void".toList else joinItems (p.params.map CParam.text)) ++ [')']

/-- `C.statement(func)`. -/
def CProto.line (p : CProto) : Str := p.text ++ [';']

/-- `_genCommentHeader(comment)`. /repo/apx/generator.py:13-18. -/
def commentHeader (s : Str) : List Str :=
  [List.replicate 78 '/', "// ".toList ++ s, List.replicate 78 '/']

/-- `C.include(...)`. -/
def includeLine (s : Str) : Str := "#include \"".toList ++ s ++ ['"']

/-- `C.sysinclude(...)`. -/
def sysincludeLine (s : Str) : Str := "#include <".toList ++ s ++ ['>']

/-- `C.define(...)` with the suffix `u`. -/
def defineLine (name : Str) (n : Nat) : Str := "#define ".toList ++ name ++ [' '] ++ natStr n ++ ['u']

/-- Every line is ended. -/
def fileText (l : List Str) : Str := (l.map fun s => s ++ ['\n']).flatten

/-- `C.hfile`: the guard around the lines. -/
def guarded (guard : Str) (l : List Str) : List Str :=
  ["#ifndef ".toList ++ guard, "#define ".toList ++ guard, []] ++ l ++ [[], "#endif //".toList ++ guard]

/-- The header file. /repo/apx/generator.py:405-437. -/
def GenHeader.text (h : GenHeader) : Str :=
  fileText (guarded h.guard
    ([sysincludeLine "stdbool.h".toList, includeLine "apx_nodeData.h".toList] ++ h.includes.map includeLine ++ [[]] ++
      commentHeader "CONSTANTS".toList ++ [[]] ++ commentHeader "FUNCTION PROTOTYPES".toList ++
      h.node.map CProto.line ++ [[]] ++ h.ports.map CProto.line ++ h.notify.map CProto.line))

/-- The header of the callbacks. /repo/apx/generator.py:707-718. -/
def GenCbHeader.text (h : GenCbHeader) : Str :=
  fileText (guarded h.guard
    (commentHeader "INCLUDES".toList ++ [includeLine "Rte_Type.h".toList, []] ++
      commentHeader "FUNCTION PROTOTYPES".toList ++ h.protos.map CProto.line))

/-! ### Statements -/

/-- The types of casts. /repo/apx/generator.py:243-250. -/
def IntT.cname : IntT → Str
  | .u8 => "uint8_t".toList
  | .u16 => "uint16_t".toList
  | .u32 => "uint32_t".toList
  | .s8 => "int8_t".toList
  | .s16 => "int16_t".toList
  | .s32 => "int32_t".toList

/-- `valname`. -/
def CPath.text (p : CPath) : Str :=
  p.foldl (fun s a => match a with
    | .star => '*' :: s
    | .arrow f => s ++ "->".toList ++ f
    | .dot f => s ++ ['.'] ++ f
    | .idx => s ++ "[i]".toList) "val".toList

/-- An element of the buffer: `*p`, `p[k]` or `buf[k]`. -/
def CLoc.elem (buf : Str) : CLoc → Str
  | .rel k => if k = 0 then "*p".toList else "p[".toList ++ decText k ++ [']']
  | .abs k => buf ++ ['['] ++ decText k ++ [']']

/-- The address of an element of the buffer: `p` or `&buf[k]`. -/
def CLoc.address (buf : Str) : CLoc → Str
  | .rel _ => ['p']
  | .abs k => ['&'] ++ buf ++ ['['] ++ decText k ++ [']']

/-- A statement; `prev` is the one before it, on which the spelling of `p+=n` depends.
/repo/apx/generator.py:254-278,303-325. -/
def CSimple.text (buf : Str) (prev : Option CSimple) : CSimple → Str
  | .storeByte d v => d.elem buf ++ "=(uint8_t) ".toList ++ CPath.text v
  | .packLE d v t => "packLE(".toList ++ d.address buf ++ ",(uint32_t) ".toList ++ CPath.text v ++
      ",(uint8_t) sizeof(".toList ++ t.cname ++ "))".toList
  | .loadByte v t s => CPath.text v ++ " = (".toList ++ t.cname ++ ") ".toList ++ s.elem buf
  | .unpackLE v t s => CPath.text v ++ " = (".toList ++ t.cname ++ ") unpackLE(".toList ++ s.address buf ++
      ",(uint8_t) sizeof(".toList ++ t.cname ++ "))".toList
  | .advance n =>
    match prev with
    | some (.packLE _ _ t) => "p+=sizeof(".toList ++ t.cname ++ [')']
    | some (.unpackLE _ t _) => "p+=sizeof(".toList ++ t.cname ++ [')']
    | some (.storeByte _ _) => "p++".toList
    | some (.loadByte _ _ _) => "p++".toList
    | _ => "p+=".toList ++ natStr n
  | .copyIn d v n => "memcpy(".toList ++ d.address buf ++ [','] ++ CPath.text v ++ [','] ++ decText n ++ [')']
  | .copyOut v s n => "memcpy(".toList ++ CPath.text v ++ [','] ++ s.address buf ++ [','] ++ decText n ++ [')']
  | .zero (.rel k) => "p[".toList ++ decText k ++ "]='\\0'".toList
  | .zero (.abs k) => buf ++ ['['] ++ decText k ++ "]='\\0'".toList

/-- Statements, each on its line. -/
def simpleLines (buf : Str) (indent : Nat) : Option CSimple → List CSimple → List Str
  | _, [] => []
  | prev, s :: l => indentBy indent (s.text buf prev ++ [';']) :: simpleLines buf indent (some s) l

/-- Statements and loops. /repo/apx/generator.py:359-365. -/
def stmtLines (buf : Str) (indent : Nat) : Option CSimple → List CStmt → List Str
  | _, [] => []
  | prev, .simple s :: l => indentBy indent (s.text buf prev ++ [';']) :: stmtLines buf indent (some s) l
  | _, .loop n body :: l =>
    [indentBy indent ("for(i=0;i<".toList ++ natStr n ++ ";i++)".toList), indentBy indent ['{']] ++
      simpleLines buf (indent + 3) none body ++ [indentBy indent ['}']] ++ stmtLines buf indent none l

/-- A statement on the outermost level that is not part of the code for the value. -/
def CTop.text (buf : Str) : CTop → Str
  | .lockOut => "apx_nodeData_lockOutPortData(&m_nodeData)".toList
  | .lockIn => "apx_nodeData_lockInPortData(&m_nodeData)".toList
  | .unlockIn => "apx_nodeData_unlockInPortData(&m_nodeData)".toList
  | .setP k => "p=&".toList ++ buf ++ ['['] ++ natStr k ++ [']']
  | .stmt _ => []
  | .notify o n d => "apx_nodeData_outPortDataWriteNotify(&m_nodeData, ".toList ++ natStr o ++ ", ".toList ++ natStr n ++
      ", ".toList ++ (if d then "true".toList else "false".toList) ++ [')']

/-- The statements of a list of which only the statements for the value are taken. -/
def topStmts (l : List CTop) : List CStmt :=
  l.filterMap fun t => match t with
    | .stmt s => some s
    | _ => none

/-- The statements on the outermost level: those before the code for the value, the code, and those
after it. -/
def topLines (buf : Str) (l : List CTop) : List Str :=
  let isStmt : CTop → Bool := fun t => match t with
    | .stmt _ => true
    | _ => false
  let others (l : List CTop) := l.map fun t => indentBy 3 (t.text buf ++ [';'])
  others (l.takeWhile fun t => !isStmt t) ++ stmtLines buf 3 none (topStmts l) ++
    others ((l.dropWhile fun t => !isStmt t).filter fun t => !isStmt t)

/-- The body of a read or write function. /repo/apx/generator.py:369-403. -/
def CFunc.lines (op : COp) (f : CFunc) : List Str :=
  let buf := match op with
    | .pack => "m_outPortdata".toList
    | .unpack => "m_inPortdata".toList
  (if f.body.any fun t => match t with
      | .setP _ => true
      | _ => false
    then [indentBy 3 "uint8_t *p;".toList] else []) ++
  (match f.loopBits with
    | some w => [indentBy 3 ("uint".toList ++ natStr w ++ "_t i;".toList)]
    | none => []) ++
  topLines buf f.body ++ [indentBy 3 "return E_OK;".toList]

/-- /repo/apx/generator.py:568-597. -/
def CInitStmt.text : CInitStmt → Str
  | .declareTable => "apx_nodeDataHandlerTable_t nodeDataHandler;".toList
  | .copyIn => "memcpy(&m_inPortdata[0], &m_inPortInitData[0], APX_IN_PORT_DATA_LEN);".toList
  | .clearIn => "memset(&m_inPortSyncedFlags[0], 0, sizeof(m_inPortSyncedFlags));".toList
  | .copyOut => "memcpy(&m_outPortdata[0], &m_outPortInitData[0], APX_OUT_PORT_DATA_LEN);".toList
  | .clearOut => "memset(&m_outPortDirtyFlags[0], 0, sizeof(m_outPortDirtyFlags));".toList
  | .create name hasIn flags hasOut =>
    "apx_nodeData_create(".toList ++ joinItems
      (["&m_nodeData".toList, ['"'] ++ name ++ ['"'], "(uint8_t*) &m_apxDefinitionData[0]".toList,
        "APX_DEFINITON_LEN".toList] ++
        (if hasIn then ["&m_inPortdata[0]".toList, if flags then "&m_inPortSyncedFlags[0]".toList else "NULL".toList,
          "APX_IN_PORT_DATA_LEN".toList] else [['0'], ['0'], ['0']]) ++
        (if hasOut then ["&m_outPortdata[0]".toList, "&m_outPortDirtyFlags[0]".toList, "APX_OUT_PORT_DATA_LEN".toList]
          else [['0'], ['0'], ['0']])) ++ ");".toList
  | .clearTable => "memset(&nodeDataHandler, 0, sizeof(nodeDataHandler));".toList
  | .assign f => "nodeDataHandler.inPortDataWritten = ".toList ++ f ++ [';']
  | .install => "apx_nodeData_setHandlerTable(&m_nodeData, &nodeDataHandler);".toList
  | .done => "return &m_nodeData;".toList

/-- The returned expression. /repo/apx/generator.py:604-611. -/
def connectedLine : Bool → Bool → Str
  | true, true => "return ( apx_nodeData_isInPortDataOpen(&m_nodeData) && apx_nodeData_isOutPortDataOpen(&m_nodeData) );".toList
  | true, false => "return apx_nodeData_isInPortDataOpen(&m_nodeData);".toList
  | false, true => "return apx_nodeData_isOutPortDataOpen(&m_nodeData);".toList
  | false, false => "return false;".toList

/-- A member of the union. -/
def CMember.text (m : CMember) : Str :=
  m.typename ++ [' '] ++ m.name ++ (match m.arrayLen with
    | some n => ['['] ++ natStr n ++ [']']
    | none => [])

/-- A call. /repo/apx/generator.py:104-107. -/
def CDataCall.text (c : CDataCall) : Str :=
  c.func ++ ['('] ++ (if c.ref then ['&'] else []) ++ "data.".toList ++ c.member ++
    (if c.first then "[0]".toList else []) ++ [')']

/-- The lines of a case; the result of the read function is discarded. /repo/apx/generator.py:98-112,664-672. -/
def CSwitchItem.lines : CSwitchItem → List Str
  | .comment p => [indentBy 6 ("//case APX_RX_OFFSET_".toList ++ macroName p ++ [':'])]
  | .case p calls =>
    [indentBy 6 ("case APX_RX_OFFSET_".toList ++ macroName p ++ [':'])] ++
    (match calls with
      | [] => []
      | r :: l => indentBy 9 ("(void) ".toList ++ r.text ++ [';']) :: l.map fun c => indentBy 9 (c.text ++ [';'])) ++
    [indentBy 9 ("offset += APX_RX_LEN_".toList ++ macroName p ++ [';']), indentBy 9 "break;".toList]

/-- The lines of a body. -/
def CBody.lines : CBody → List Str
  | .init l => l.map fun s => indentBy 3 s.text
  | .nodeData => [indentBy 3 "return &m_nodeData;".toList]
  | .connected i o => [indentBy 3 (connectedLine i o)]
  | .code op f => f.lines op
  | .ignore => ["(void)arg;", "(void)nodeData;", "(void)offset;", "(void)len;"].map fun s => indentBy 3 s.toList
  | .dispatch ms start items =>
    [indentBy 3 "union data_tag".toList, indentBy 3 ['{']] ++
    ms.map (fun m => indentBy 6 (m.text ++ [';'])) ++
    [indentBy 3 "} data;".toList, indentBy 3 "uint32_t endOffset = offset + len;".toList, [],
      indentBy 3 "(void)arg;".toList, indentBy 3 "(void)nodeData;".toList, []] ++
    (match start with
      | some p => [indentBy 3 ("if (offset < APX_RX_OFFSET_".toList ++ macroName p ++ [')']), indentBy 3 ['{'],
          indentBy 6 ("offset = APX_RX_OFFSET_".toList ++ macroName p ++ [';']), indentBy 3 ['}']]
      | none => []) ++
    [indentBy 3 "while (offset < endOffset)".toList, indentBy 3 ['{'], indentBy 6 "switch(offset)".toList,
      indentBy 6 ['{']] ++
    (items.map CSwitchItem.lines).flatten ++
    [indentBy 6 "default:".toList, indentBy 9 "offset = endOffset;".toList, indentBy 6 ['}'], indentBy 3 ['}']]

/-- The blank line after a function; there is none after the last one. -/
def CBody.after : CBody → List Str
  | .ignore => []
  | .dispatch _ _ _ => []
  | _ => [[]]

/-- A function. -/
def CDef.lines (d : CDef) : List Str := [d.proto.text, ['{']] ++ d.body.lines ++ [['}']] ++ d.body.after

/-- The buffers for one direction. /repo/apx/generator.py:495-554. -/
def bufferLines (dir macroDir flagsName : Str) (flags : Bool) (b : Bytes) : List Str :=
  if b.length > 0 then
    ["static const uint8_t m_".toList ++ dir ++ "PortInitData[APX_".toList ++ macroDir ++ "_PORT_DATA_LEN]= {".toList] ++
      initLines (b.map fun x => natStr x.toNat) ++
    ["};".toList, [], "static uint8_t m_".toList ++ dir ++ "Portdata[APX_".toList ++ macroDir ++ "_PORT_DATA_LEN];".toList] ++
    (if flags then ["static uint8_t m_".toList ++ dir ++ "Port".toList ++ flagsName ++ "Flags[APX_".toList ++ macroDir ++
      "_PORT_DATA_LEN];".toList] else [])
  else []

/-- The macros of the ports. /repo/apx/generator.py:467-484. -/
def macroLines : Option (List (Str × Nat) × List (Str × Nat)) → List Str
  | none => []
  | some (lens, offsets) =>
    [[]] ++ lens.map (fun x => defineLine ("APX_RX_LEN_".toList ++ macroName x.1) x.2) ++
    [[]] ++ offsets.map (fun x => defineLine ("APX_RX_OFFSET_".toList ++ macroName x.1) x.2)

/-- `ApxVer`. /repo/apx/__init__.py:1. -/
def apxVersion : Str := "0.4.1".toList

/-- The source file. /repo/apx/generator.py:440-705. -/
def GenSource.text (s : GenSource) : Str :=
  fileText
    (["/* ".toList ++ s.nodeName ++ " has been autogenerated by py-apx generator ".toList ++ apxVersion ++ " */".toList, []] ++
    commentHeader "INCLUDES".toList ++ [sysincludeLine "string.h".toList, sysincludeLine "stdio.h".toList] ++
    s.includes.map includeLine ++ [[]] ++
    commentHeader "CONSTANTS AND DATA TYPES".toList ++
    [defineLine "APX_DEFINITON_LEN".toList s.defLen, defineLine "APX_IN_PORT_DATA_LEN".toList s.inLen,
      defineLine "APX_OUT_PORT_DATA_LEN".toList s.outLen] ++
    macroLines s.macros ++ [[]] ++
    commentHeader "LOCAL FUNCTIONS".toList ++ [[]] ++ commentHeader "LOCAL VARIABLES".toList ++
    bufferLines "out".toList "OUT".toList "Dirty".toList true s.outInit ++
    bufferLines "in".toList "IN".toList "Synced".toList s.flags s.inInit ++
    ["static apx_nodeData_t m_nodeData;".toList, "static const char *m_apxDefinitionData=".toList, s.literal, []] ++
    commentHeader "GLOBAL FUNCTIONS".toList ++ (s.defs.map CDef.lines).flatten ++
    commentHeader "LOCAL FUNCTIONS".toList)

end Apx
