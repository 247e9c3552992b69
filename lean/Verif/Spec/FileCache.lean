import Verif.Model.FileCache

/-! What the directory of cached files should do (C117, C118). -/

namespace Brel

/-- What the outside world has for a document: the content of an answer without an error status, or of the file on the disk. -/
def Need.offers (d : Need) (b : ByteArray) : Prop :=
  if d.remote = true then ∃ r, d.web = some r ∧ ¬ (400 ≤ r.status ∧ r.status < 600) ∧ r.content = b else d.disk = some b

/-- The name of the cached file that is written for a document: remote documents are stored by their URI, local ones by their path. -/
def Need.writes (d : Need) : String := if d.remote = true then fileName d.uri else fileName d.path

/-- A world as the processes find it: nobody has begun. -/
def World.Fresh (w : World) : Prop := ∀ p ∈ w.procs, p = .start

/-- Nobody is writing, and nobody was ended while writing. -/
def World.Quiet (w : World) : Prop := ∀ p ∈ w.procs, (∀ n, p ≠ .writing n) ∧ p ≠ .dead true

/-- The steps of one process alone that fetches a document: look for it, open the file, write it at once, close it, read it. -/
def fetchAlone (i : Nat) (c : List UInt8) : List (Nat × Act) := [(i, .next), (i, .next), (i, .write c.length), (i, .next), (i, .next)]

end Brel
