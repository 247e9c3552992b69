import Verif.Model.Loader

/-!
Model of the directory of cached files on the level of bytes: `brel/data/file/pyfs_file_repository.py`, `brel/services/file/file_service.py` and their use in
`brel/services/xml/xml_service.py`; and of the steps in which a file gets there, for several processes that use the directory (`brel/data/factory.py` 88-89: it is the same for all).
-/

namespace Brel

/-! ## Bytes -/

/-- The directory: the bytes of each file. -/
abbrev ByteFiles := Dict String ByteArray

/-- pyfs_file_repository.py 30-34 (`add_file`): `decode` raises before the file is opened, a `UnicodeDecodeError`, which is a `ValueError`. `fs.writetext` encodes the text in UTF-8 and leaves
line ends as they are (its defaults). -/
def addFile (fs : ByteFiles) (uri : String) (content : ByteArray) : Except PyErr ByteFiles :=
  match String.fromUTF8? content with
  | none => .error .valueError
  | some text => .ok (fs.set (fileName uri) text.toUTF8)

/-- pyfs_file_repository.py 36-38 (`get_file`) with the reading of the whole file. -/
def getFile (fs : ByteFiles) (uri : String) : Except PyErr ByteArray :=
  match fs.get? (fileName uri) with
  | none => .error .fileNotFoundError
  | some b => .ok b

/-- pyfs_file_repository.py 40-42 (`has_file`) -/
def hasFile (fs : ByteFiles) (uri : String) : Bool := fs.has (fileName uri)

/-- The answer of a server. -/
structure Response where
  status : Nat
  content : ByteArray

/-- `raise_for_status` raises for these. -/
def Response.failed (r : Response) : Bool := 400 ≤ r.status && r.status < 600

/-- The directory, the reports `UNAVAILABLE_REMOTE_FILE` (the URI and the status) and what the call gives. The first two stay when there is an exception. -/
structure Fetched where
  files : ByteFiles
  reports : List (String × Nat)
  result : Except PyErr ByteArray

/-- file_service.py 40-63 (`download_and_add_file`): `none` if `session.get` raises (that is outside of `try`). The bare `except` also takes what `add_file` raises. -/
def downloadAndAdd (fs : ByteFiles) (uri : String) : Option Response → Fetched
  | none => ⟨fs, [], .error .fileNotFoundError⟩
  | some r =>
    match (if r.failed then .error .valueError else addFile fs uri r.content : Except PyErr ByteFiles) with
    | .error _ => ⟨fs, [(uri, r.status)], getFile fs uri⟩
    | .ok fs' => ⟨fs', [], getFile fs' uri⟩

/-- file_service.py 65-68 (`copy_and_add_file`): `none` if there is no such file. -/
def copyAndAdd (fs : ByteFiles) (path : String) : Option ByteArray → Fetched
  | none => ⟨fs, [], .error .fileNotFoundError⟩
  | some content =>
    match addFile fs path content with
    | .error e => ⟨fs, [], .error e⟩
    | .ok fs' => ⟨fs', [], getFile fs' path⟩

/-- What the outside world gives when a document is needed: the document, whether it is remote (xml_service.py 61), its path, and the answer of the server or the file on the disk. -/
structure Need where
  uri : String
  remote : Bool
  path : String
  web : Option Response
  disk : Option ByteArray

/-- xml_service.py 69-78 -/
def fetchBytes (fs : ByteFiles) (d : Need) : Fetched :=
  if hasFile fs d.uri then ⟨fs, [], getFile fs d.uri⟩
  else if d.remote then downloadAndAdd fs d.uri d.web
  else copyAndAdd fs d.path d.disk

/-- Documents are needed one after the other, by one opening or by many (the directory stays): what each call gives, and the directory at the end. -/
def fetchHistory : ByteFiles → List Need → List (Except PyErr ByteArray) × ByteFiles
  | fs, [] => ([], fs)
  | fs, d :: ds =>
    let r := fetchBytes fs d
    let (rs, fs') := fetchHistory r.files ds
    (r.result :: rs, fs')

/-! ## Steps -/

/-- Where a process is on its way to the content of a document that the server has. -/
inductive Proc where
  /-- Before `has_file`, xml_service.py 69. -/
  | start
  /-- `has_file` said no; the content has been downloaded and decoded, file_service.py 52-55. -/
  | absent
  /-- The file has been opened for writing, which empties it, and this many bytes have been written: `fs.writetext`, pyfs_file_repository.py 31. -/
  | writing (n : Nat)
  /-- The file is there: `has_file` said yes, or it was written and closed. -/
  | present
  /-- The document has been read, xml_service.py 70-71 and 73-74. -/
  | done (content : List UInt8)
  /-- The process was ended, or the computer; the second argument tells if a file was open for writing. -/
  | dead (open_ : Bool)
  deriving DecidableEq, Repr

/-- What can happen next in a process: its next call, the writing of some bytes (a buffer of any size), or its end. -/
inductive Act where
  | next
  | write (k : Nat)
  | crash
  deriving DecidableEq, Repr

/-- Writing at a position: bytes between the end of the file and the position are zero (POSIX). -/
def writeAt (f : List UInt8) (n : Nat) (d : List UInt8) : List UInt8 :=
  (f ++ List.replicate (n - f.length) 0).take n ++ d ++ f.drop (n + d.length)

/-- One step of a process, for one document with the content `c` on the server; other files have other names and are not touched. The file is `none` if it does not exist. A step that is not
possible changes nothing. A document is read in one step (a simplification). -/
def stepProc (c : List UInt8) (file : Option (List UInt8)) : Proc → Act → Option (List UInt8) × Proc
  | .start, .next => (file, if file.isSome then .present else .absent)
  | .absent, .next => (some [], .writing 0)
  | .writing n, .write k => (some (writeAt (file.getD []) n ((c.drop n).take k)), .writing (n + ((c.drop n).take k).length))
  | .writing n, .next => if c.length ≤ n then (file, .present) else (file, .writing n)
  | .present, .next => match file with
    | some b => (file, .done b)
    | none => (file, .present)
  | .writing _, .crash => (file, .dead true)
  | .start, .crash => (file, .dead false)
  | .absent, .crash => (file, .dead false)
  | .present, .crash => (file, .dead false)
  | p, _ => (file, p)

/-- The file and the processes. -/
structure World where
  file : Option (List UInt8)
  procs : List Proc

/-- A step of the process with the number `i`. -/
def World.step (c : List UInt8) (w : World) (a : Nat × Act) : World :=
  match w.procs[a.1]? with
  | none => w
  | some p => ⟨(stepProc c w.file p a.2).1, w.procs.set a.1 (stepProc c w.file p a.2).2⟩

/-- All steps, in any order. -/
def World.run (c : List UInt8) (w : World) (sched : List (Nat × Act)) : World := sched.foldl (World.step c) w

end Brel
