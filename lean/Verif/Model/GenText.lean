import Verif.Model.Generator

/-!
More of the text emitted by the code generator (apx/generator.py): the string literal with the
definition, the initializers of the data buffers, and the callback code.  The text of the literal and
of the initializers is modelled as text; of the callback code what matters for its meaning.

Simplification: `str.upper()` is modelled for ASCII letters (a C compiler accepts no others in macro
names); the types of callback arguments are left out.
-/

namespace Apx

/-! ### The definition -/

/-- `line.replace('"', '\\"')`. /repo/apx/generator.py:560. -/
def escapeQuotes : Str → Str
  | [] => []
  | c :: s => if c = '"' then '\\' :: '"' :: escapeQuotes s else c :: escapeQuotes s

/-- The line of the literal for one line of the text. /repo/apx/generator.py:560-561. -/
def literalLine (line : Str) : Str := '"' :: (escapeQuotes line ++ ['\\', 'n', '"'])

/-- The emitted literal, up to and including the semicolon. /repo/apx/generator.py:559-562. -/
def definitionLiteral (nodeText : Str) : Str :=
  joinLines ((splitOn '\n' nodeText).map literalLine) ++ [';']

/-- `APX_DEFINITON_LEN`. /repo/apx/generator.py:464. -/
def definitionLen (nodeText : Str) : Nat := nodeText.length + 1

/-- The literal and the length emitted for a node; the context does not finalize the node.
/repo/apx/generator.py:444-446,464,559-562. -/
def emitDefinition (g : Generated) : Py (Str × Nat) := do
  let text ← g.node.definitionText false
  .ok (definitionLiteral text, definitionLen text)

/-! ### Initializers -/

/-- `', '.join(items)`. -/
def joinItems : List Str → Str
  | [] => []
  | [a] => a
  | a :: b :: l => a ++ (',' :: ' ' :: joinItems (b :: l))

/-- The lines of an initializer, 32 items each. /repo/apx/generator.py:504-516,534-546. -/
def initLines (items : List Str) : List Str :=
  if items.length > 32 then
    (' ' :: ' ' :: ' ' :: (joinItems (items.take 32) ++ [','])) :: initLines (items.drop 32)
  else if items.length > 0 then [' ' :: ' ' :: ' ' :: joinItems items]
  else []
termination_by items.length
decreasing_by simp only [List.length_drop]; omega

/-- The text between the braces of an initializer for these bytes.
/repo/apx/generator.py:499-518,529-548. -/
def initText (b : Bytes) : Str := joinLines (initLines (b.map fun x => natStr x.toNat))

/-! ### Callbacks -/

/-- A `Callback` object: a require port with its place in the buffer and the name of the callback.
/repo/apx/generator.py:53-61,78-90. -/
structure CbEntry where
  name : Str
  offset : Nat
  len : Nat
  callback : Option Str
  deriving DecidableEq

/-- The attributes of a `NodeGenerator` that outlive a call of `generate`: `callbacks.pending`,
`callbacks.local_vars`, `callbacks.functions` and `InPortDataNotifyFunc`. (`firstCallback` and
`lastCallbackOffset` are set before each use.) /repo/apx/generator.py:70-76,123-130. -/
structure GenState where
  pending : List CbEntry
  localVars : List Str
  functions : List Str
  notify : Option Str
  deriving DecidableEq

/-- A new `NodeGenerator`. /repo/apx/generator.py:123-130. -/
def GenState.new : GenState := ⟨[], [], [], none⟩

/-- Insertion before the first element whose key is not smaller. -/
def insertByKey {α : Type} (key : α → Nat) (x : α) : List α → List α
  | [] => [x]
  | y :: l => if key x ≤ key y then x :: y :: l else y :: insertByKey key x l

/-- `sorted(list, key=...)` with a number as key; stable. -/
def sortedByKey {α : Type} (key : α → Nat) : List α → List α
  | [] => []
  | x :: l => insertByKey key x (sortedByKey key l)

/-- `callbacks.create(info, name)`: what is put into `pending`. /repo/apx/generator.py:78-90,196-200. -/
def mkEntry (callbacks : Str → Option Str) (s : Signal) : CbEntry := ⟨s.name, s.offset, s.packLen, callbacks s.name⟩

/-- The first entry with a callback. /repo/apx/generator.py:476-483. -/
def firstCallback (es : List CbEntry) : Option CbEntry := es.find? fun e => e.callback.isSome

/-- The offset of the last entry with a callback, or 0. /repo/apx/generator.py:477-481. -/
def lastCallbackOffset (es : List CbEntry) : Nat :=
  (es.filter fun e => e.callback.isSome).getLast?.elim 0 CbEntry.offset

/-- The cases of the `switch`. Without a callback, `self.firstCallback.port_info` raises.
/repo/apx/generator.py:668-676. -/
def switchCases (first : Option CbEntry) (last : Nat) : List CbEntry → Py (List CbEntry)
  | [] => .ok []
  | e :: es =>
    if e.offset ≤ last then
      match first with
      | none => .error .attributeError
      | some f => do
        let r ← switchCases first last es
        .ok (if f.offset ≤ e.offset then e :: r else r)
    else switchCases first last es

/-- The port in `if (offset < APX_RX_OFFSET_...)`, if this statement is emitted.
/repo/apx/generator.py:653-657. -/
def startName (first : Option CbEntry) : Option Str :=
  first.bind fun f => if f.offset ≠ 0 then some f.name else none

/-- The emitted callback code: the functions declared in the header of callbacks, the members of the
union, the ports for which macros with offset and length are defined, the function assigned to
`nodeDataHandler.inPortDataWritten`, the function with that purpose that is defined, and in its body
the port whose macro bounds `offset` from below and the ports with a case in the `switch`. -/
structure CallbackCode where
  prototypes : List Str
  members : List Str
  macros : List CbEntry
  handler : Option Str
  notify : Option Str
  start : Option Str
  cases : List CbEntry
  deriving DecidableEq

/-- `name + '_inPortDataWritten'`. /repo/apx/generator.py:431,595. -/
def notifyName (name : Str) : Str := name ++ "_inPortDataWritten".toList

/-- `InPortDataNotifyFunc` after the header has been written. /repo/apx/generator.py:429-436. -/
def notifyAfter (inLen : Nat) (name : Str) (old : Option Str) : Option Str :=
  if inLen > 0 then some (notifyName name) else old

/-- The body of the function `inPortDataWritten` is only made if there is such a function.
/repo/apx/generator.py:635. -/
def notifyCases (notify : Option Str) (es : List CbEntry) : Py (List CbEntry) :=
  match notify with
  | none => .ok []
  | some _ => switchCases (firstCallback es) (lastCallbackOffset es) es

/-- The callback part of `generate(dir, node, name, callbacks=...)` of a generator in state `st`;
`callbacks` is `none` if no callbacks are given. `localVars` are sorted by name when they are printed.
/repo/apx/generator.py:92-115,155-166,196-200,223-237,429-436,467-484,592-596,635-690. -/
def GenState.generate (st : GenState) (g : Generated) (name : Option Str) (callbacks : Option (Str → Option Str)) :
    GenState × Py CallbackCode :=
  match callbacks with
  | none =>
    -- `finalize` makes the code fragments of what is still pending
    let functions := st.functions ++ (sortedByKey CbEntry.offset st.pending).filterMap CbEntry.callback
    let notify := notifyAfter g.inLen (name.getD g.node.name) st.notify
    (⟨st.pending, st.localVars, functions, notify⟩, .ok ⟨[], [], [], none, notify, none, []⟩)
  | some cb =>
    let pending := st.pending ++ g.require.map (mkEntry cb)
    let localVars := st.localVars ++ (g.require.filter fun s => (cb s.name).isSome).map Signal.name
    let es := sortedByKey CbEntry.offset pending
    let functions := st.functions ++ es.filterMap CbEntry.callback
    let notify := notifyAfter g.inLen (name.getD g.node.name) st.notify
    match notifyCases notify es with
    | .error x => (⟨pending, localVars, functions, notify⟩, .error x)
    | .ok cases =>
      (⟨if notify.isSome then [] else pending, localVars, functions, notify⟩,
        .ok ⟨functions, sortedByName id localVars, es, some (notifyName g.node.name), notify,
          startName (firstCallback es), cases⟩)

/-- `APX_RX_OFFSET_...`, `APX_RX_LEN_...`: the part of the macro names made from a port name.
/repo/apx/generator.py:88-89. -/
def macroName (name : Str) : Str := name.map Char.toUpper

/-- The value of a macro defined by these definitions, one for each entry: the last one counts. -/
def macroValue (value : CbEntry → Nat) (defs : List CbEntry) (name : Str) : Nat :=
  (defs.reverse.find? fun e => macroName e.name = macroName name).elim 0 value

/-- `APX_RX_OFFSET_...`, defined in the order of the offsets. /repo/apx/generator.py:476-477. -/
def CallbackCode.offsetMacro (c : CallbackCode) (name : Str) : Nat :=
  macroValue CbEntry.offset (sortedByKey CbEntry.offset c.macros) name

/-- `APX_RX_LEN_...`, defined in the order of the lengths. /repo/apx/generator.py:469-470. -/
def CallbackCode.lenMacro (c : CallbackCode) (name : Str) : Nat :=
  macroValue CbEntry.len (sortedByKey CbEntry.len c.macros) name

/-- A case as the compiler sees it: `case APX_RX_OFFSET_...:` ... `offset += APX_RX_LEN_...`.
/repo/apx/generator.py:101-113. -/
def CallbackCode.expand (c : CallbackCode) (e : CbEntry) : CbEntry :=
  { e with offset := c.offsetMacro e.name, len := c.lenMacro e.name }

/-- The emitted loop `while (offset < endOffset) { switch(offset) ... }`: the ports for which the read
function and then the callback are called; `none` if it does not end. /repo/apx/generator.py:100-113,658-684. -/
def dispatchLoop (cases : List CbEntry) (offset stop : Nat) : Option (List (Str × Str)) :=
  if offset < stop then
    match cases.find? fun e => e.offset = offset with
    | none => some []
    | some e =>
      if 0 < e.len then
        (dispatchLoop cases (offset + e.len) stop).map fun l => (e.callback.map fun f => (f, e.name)).toList ++ l
      else none
  else some []
termination_by stop - offset

/-- `if (offset < APX_RX_OFFSET_...) { offset = APX_RX_OFFSET_...; }`. /repo/apx/generator.py:653-657. -/
def CallbackCode.from (c : CallbackCode) (offset : Nat) : Nat :=
  c.start.elim offset fun name => if offset < c.offsetMacro name then c.offsetMacro name else offset

/-- A call of the function `inPortDataWritten(arg, nodeData, offset, len)`: the callbacks it calls, each
with the port whose value it gets; `none` if the loop does not end, or if the function does not compile
because two cases have one label. (The additions are made in `uint32_t`; offsets and lengths of a
buffer are far below its range.) /repo/apx/generator.py:648-684. -/
def CallbackCode.written (c : CallbackCode) (offset len : Nat) : Option (List (Str × Str)) :=
  let cases := c.cases.map c.expand
  if (cases.map CbEntry.offset).Nodup then dispatchLoop cases (c.from offset) (offset + len) else none

end Apx
