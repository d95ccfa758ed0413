import Verif.Model.FileMap
import Verif.Model.File
import Verif.Model.RmfCmd

/-!
Model of `FileManager` in /repo/remotefile/__init__.py:241-396 together with the file objects it
handles (/repo/apx/file.py).

File objects are mutable and shared between the maps, the dictionary of requested files and the
program; they live in a heap (`Mgr.files`) and are referred to by their index.  A file map stores
indices; what it sees of a file is read from the heap at each access, so that a change of an
object's address is seen by every map that contains it.
-/

namespace Apx.Manager

/-- The classes of apx/file.py: `File`, `InputFile`, `OutputFile`. -/
inductive Kind
  | plain
  | input
  | output
  deriving DecidableEq, Repr

/-- An `apx.File` object: remotefile/__init__.py:199-208, apx/file.py:25-33 and 66-68.
`length` is not stored: it equals the length of `data` from construction on (apx/file.py:26-33)
and neither is reassigned or resized.  `hasManager`: `fileManager is not None`; `hasHandler`:
`nodeDataHandler is not None`. -/
structure FObj where
  kind : Kind
  name : Str
  fileType : Int
  address : Option Int
  digestType : Int
  digestData : Bytes
  isOpen : Bool
  hasManager : Bool
  hasHandler : Bool
  content : FileData
  deriving DecidableEq, Repr

def FObj.length (o : FObj) : Nat := o.content.data.length

/-- A freshly constructed file: remotefile/__init__.py:199-208, apx/file.py:25-33. -/
def FObj.create (kind : Kind) (name : Str) (content : FileData) (hasHandler : Bool := false) : FObj :=
  { kind := kind, name := name, fileType := 0, address := none, digestType := 0,
    digestData := List.replicate 32 0, isOpen := false, hasManager := false,
    hasHandler := hasHandler, content := content }

/-- A message in `msgQueue`: remotefile/__init__.py:25-29 and the `put` calls.  `H` is the type
of transmit handlers. -/
inductive Msg (H : Type)
  | connect (handler : H)
  | fileInfo (data : Bytes)
  | writeData (address : Int) (data : Bytes)
  | fileOpen (address : Int)
  | stop
  deriving DecidableEq, Repr

/-- What an `apx.FileMap` stores: its keys and the identities of its items. -/
structure MapRef where
  keys : List Int
  ids : List Nat
  deriving DecidableEq, Repr

/-- The manager, remotefile/__init__.py:246-252 and 287: the two maps, the requested files (a
dictionary), the byte order used for received commands, and every message ever put in the queue
(taking messages out is the worker's business, see `worker`). -/
structure Mgr (H : Type) where
  files : List FObj
  localMap : MapRef
  remoteMap : MapRef
  requested : List (Str × Nat)
  byteOrder : Char
  queue : List (Msg H)
  deriving DecidableEq, Repr

/-- What a file map sees of an object.  (An index outside the heap cannot occur in the program;
it is shown as something that is not an `apx.File`.) -/
def ent (files : List FObj) (i : Nat) : FileEnt :=
  match files[i]? with
  | some o => ⟨i, true, o.name, o.length, o.address⟩
  | none => ⟨i, false, [], 0, none⟩

def MapRef.view (files : List FObj) (m : MapRef) : FileMap := ⟨m.keys, m.ids.map (ent files)⟩

/-- A file map after a call. -/
def MapRef.ofView (m : FileMap) : MapRef := ⟨m.keys, m.items.map (·.id)⟩

/-- `file.address = …` etc.: update one object. -/
def update (files : List FObj) (i : Nat) (f : FObj → FObj) : List FObj := files.modify i f

def Mgr.put {H : Type} (s : Mgr H) (msg : Msg H) : Mgr H := { s with queue := s.queue ++ [msg] }

/-- A call: the new state (also when it raises) and `None` or the exception. -/
abbrev Result (H : Type) := Mgr H × Option PyErr

/-- remotefile/__init__.py:312-314 `attachLocalFile(file)`. -/
def attachLocalFile {H : Type} (s : Mgr H) (i : Nat) : Result H :=
  match (s.localMap.view s.files).insert (ent s.files i) with
  | .error e => (s, some e)
  | .ok (m, f) =>
    ({ s with
        localMap := MapRef.ofView m
        files := update s.files i fun o => { o with address := f.address, hasManager := true } }, none)

/-- `d[key] = value` on a dictionary. -/
def dictSet {α : Type} (d : List (Str × α)) (key : Str) (value : α) : List (Str × α) :=
  if (d.lookup key).isSome then d.map fun p => if p.1 = key then (key, value) else p
  else d ++ [(key, value)]

/-- `del d[key]` on a dictionary that has the key. -/
def dictDel {α : Type} (d : List (Str × α)) (key : Str) : List (Str × α) :=
  d.filter fun p => p.1 ≠ key

/-- remotefile/__init__.py:316-317 `requestRemoteFile(file)`. -/
def requestRemoteFile {H : Type} (s : Mgr H) (i : Nat) : Result H :=
  match s.files[i]? with
  | none => (s, some .attributeError)
  | some o => ({ s with requested := dictSet s.requested o.name i }, none)

/-- The FILEINFO part of an object. -/
def FObj.info (o : FObj) : Rmf.FileInfo :=
  ⟨o.name, o.length, o.fileType, o.address, o.digestType, o.digestData⟩

/-- remotefile/__init__.py:336-337: one FILEINFO message per local file; `packFileInfo` may
raise, which ends the loop. -/
def announce {H : Type} (s : Mgr H) : List Nat → Result H
  | [] => (s, none)
  | i :: is =>
    match s.files[i]? with
    | none => (s, some .attributeError)
    | some o =>
      match Rmf.packFileInfo o.info with
      | .error e => (s, some e)
      | .ok bs => announce (s.put (.fileInfo bs)) is

/-- remotefile/__init__.py:330-337 `onConnected(transmitHandler)`. -/
def onConnected {H : Type} (s : Mgr H) (handler : H) : Result H :=
  announce (s.put (.connect handler)) s.localMap.ids

/-- A call `nodeDataHandler.inPortDataWriteNotify(file, offset, len)` made on the way. -/
structure Note where
  file : Nat
  notification : FileData.Notification
  deriving DecidableEq, Repr

/-- Result of processing a message: state, exception, and the call of the node data handler, if
one was made (what the handler does with it is not part of the manager; see Model/Client). -/
abbrev Received (H : Type) := Mgr H × Option PyErr × Option Note

/-- remotefile/__init__.py:344-364: FILE_INFO. -/
def processFileInfo {H : Type} (s : Mgr H) (data : Bytes) : Received H :=
  match Rmf.unpackFileInfo data s.byteOrder with
  | .error e => (s, some e, none)
  | .ok none => (s, some .attributeError, none)       -- `None.name`
  | .ok (some remote) =>
    match s.requested.lookup remote.name with
    | some i =>
      match s.files[i]? with
      | none => (s, some .attributeError, none)
      | some o =>
        if (o.length : Int) = remote.length then
          let files := update s.files i fun o =>
            { o with address := remote.address, fileType := remote.fileType,
                     digestType := remote.digestType, digestData := remote.digestData,
                     isOpen := true }
          let s := { s with requested := dictDel s.requested o.name, files := files }
          match (s.remoteMap.view s.files).insert (ent s.files i) with
          | .error e => (s, some e, none)
          | .ok (m, f) =>
            let s := { s with remoteMap := MapRef.ofView m }
            match f.address with
            | none => (s, some .assertionError, none)
            | some a => (s.put (.fileOpen a), none, none)
        else (s, some .nameError, none)               -- `requstedFile`
    | none =>
      -- `remoteFileMap.insert(remoteFile)`: a `remotefile.File`, not an `apx.File`
      match (s.remoteMap.view s.files).insert ⟨s.files.length, false, remote.name, 0, remote.address⟩ with
      | .error e => (s, some e, none)
      | .ok _ => (s, none, none)

/-- remotefile/__init__.py:365-374: FILE_OPEN. -/
def processFileOpen {H : Type} (s : Mgr H) (data : Bytes) : Received H :=
  match Rmf.unpackFileOpen data s.byteOrder with
  | .error e => (s, some e, none)
  | .ok address =>
    match (s.localMap.view s.files).findByAddress address with
    | none => (s, none, none)
    | some f =>
      let s := { s with files := update s.files f.id fun o => { o with isOpen := true } }
      match s.files[f.id]? with
      | none => (s, some .attributeError, none)
      | some o =>
        match o.content.read 0 o.length, o.address with
        | some bs, some a => (s.put (.writeData a bs), none, none)
        | some _, none => (s, some .assertionError, none)   -- unreachable: found by address
        | none, _ => (s, none, none)

/-- remotefile/__init__.py:375-380: FILE_CLOSE. -/
def processFileClose {H : Type} (s : Mgr H) (data : Bytes) : Received H :=
  match Rmf.unpackFileClose data s.byteOrder with
  | .error e => (s, some e, none)
  | .ok address =>
    match (s.localMap.view s.files).findByAddress address with
    | none => (s, none, none)
    | some f =>
      ({ s with files := update s.files f.id fun o => { o with isOpen := false } }, none, none)

/-- remotefile/__init__.py:339-382 `_processCmd(data)`. -/
def processCmd {H : Type} (s : Mgr H) (data : Bytes) : Received H :=
  if data.length ≥ 4 then
    let cmd := unpackUInt s.byteOrder (data.take 4)
    if cmd = Rmf.cmdFileInfo then processFileInfo s data
    else if cmd = Rmf.cmdFileOpen then processFileOpen s data
    else if cmd = Rmf.cmdFileClose then processFileClose s data
    else (s, none, none)
  else (s, none, none)

/-- `remoteFile.write(offset, data, more_bit)` for each class: `File.write` and
`OutputFile.write` take two arguments (apx/file.py:48, 70, 85). -/
def writeRemote {H : Type} (s : Mgr H) (i : Nat) (o : FObj) (offset : Int) (data : Bytes)
    (moreBit : Bool) : Received H :=
  match o.kind with
  | .input =>
    match o.content.inputWrite offset data moreBit o.hasHandler with
    | (c, _, note) =>
      ({ s with files := update s.files i fun o => { o with content := c } }, none,
        note.map fun n => ⟨i, n⟩)
  | .plain => (s, some .typeError, none)
  | .output => (s, some .typeError, none)

/-- remotefile/__init__.py:384-389 `_processFileWrite(address, more_bit, data)`. -/
def processFileWrite {H : Type} (s : Mgr H) (address : Nat) (moreBit : Bool) (data : Bytes) :
    Received H :=
  match (s.remoteMap.view s.files).findByAddress address with
  | none => (s, none, none)
  | some f =>
    match s.files[f.id]? with
    | none => (s, some .attributeError, none)
    | some o =>
      if o.isOpen then
        match o.address with
        | none => (s, some .typeError, none)               -- unreachable: found by address
        | some a =>
          let offset := (address : Int) - a
          if offset ≥ 0 ∧ offset + data.length ≤ o.length then
            writeRemote s f.id o offset data moreBit
          else (s, none, none)
      else (s, none, none)

/-- remotefile/__init__.py:320-328 `onMsgReceived(msg)`. -/
def onMsgReceived {H : Type} (s : Mgr H) (msg : Bytes) : Received H :=
  match Rmf.unpackHeader msg with
  | (bytesParsed, address, moreBit) =>
    if bytesParsed > 0 then
      match address with
      | none => (s, some .typeError, none)                 -- unreachable
      | some address =>
        if address = Rmf.cmdStartAddr then processCmd s (msg.drop bytesParsed)
        else if address < Rmf.cmdStartAddr then
          processFileWrite s address moreBit (msg.drop bytesParsed)
        else (s, some .valueError, none)
    else (s, none, none)

/-- remotefile/__init__.py:391-396 `outPortDataWriteNotify(file, offset, length)`. -/
def outPortDataWriteNotify {H : Type} (s : Mgr H) (i : Nat) (offset length : Int) : Result H :=
  match s.files[i]? with
  | none => (s, some .attributeError)
  | some o =>
    match o.address with
    | none => (s, some .assertionError)
    | some a =>
      match o.content.read offset length with
      | some bs => (s.put (.writeData (a + offset) bs), none)
      | none => (s, none)

/-- apx/file.py:85-89 `OutputFile.write(offset, data)`, called by the program: the file's own
part (`FileData.outputWrite`), then the manager's.  Second component: exception, third: the
returned number.  For an `InputFile` or plain `File` nothing is queued (apx/file.py:48-59). -/
def writeLocal {H : Type} (s : Mgr H) (i : Nat) (offset : Int) (data : Bytes) :
    Mgr H × Option PyErr × Int :=
  match s.files[i]? with
  | none => (s, some .attributeError, 0)
  | some o =>
    match o.content.outputWrite offset data (o.hasManager && o.kind = .output) o.isOpen with
    | (c, retval, call) =>
      let s := { s with files := update s.files i fun o => { o with content := c } }
      match call with
      | none => (s, none, retval)
      | some (off, len) =>
        match outPortDataWriteNotify s i off len with
        | (s, e) => (s, e, retval)

/-- remotefile/__init__.py:254-285: the worker thread, run on the messages in queue order.
`handler` is the local variable `transmitHandler`.  Result: the frames sent, with the handler
they were given to, and the exception that ended the thread, if any (`none`: it stopped on
`None`, or waits for more messages).  `send` is assumed not to raise. -/
def worker {H : Type} (handler : Option H) : List (Msg H) → List (H × Bytes) × Option PyErr
  | [] => ([], none)
  | .stop :: _ => ([], none)
  | .connect h :: rest => worker (some h) rest
  | .fileInfo info :: rest =>
    match Rmf.packHeader Rmf.cmdStartAddr with
    | .error e => ([], some e)
    | .ok header =>
      let (sent, e) := worker handler rest
      (match handler with | some h => (h, header ++ info) :: sent | none => sent, e)
  | .writeData address data :: rest =>
    match Rmf.packHeader address with
    | .error e => ([], some e)
    | .ok header =>
      let (sent, e) := worker handler rest
      (match handler with | some h => (h, header ++ data) :: sent | none => sent, e)
  | .fileOpen address :: rest =>
    match Rmf.packFileOpen address with
    | .error e => ([], some e)
    | .ok data =>
      match Rmf.packHeader Rmf.cmdStartAddr with
      | .error e => ([], some e)
      | .ok header =>
        let (sent, e) := worker handler rest
        (match handler with | some h => (h, header ++ data) :: sent | none => sent, e)

end Apx.Manager
