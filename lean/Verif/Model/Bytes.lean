import Verif.Model.Files
/-!
# Files as bytes

`util.rs` once more, with files that hold bytes.  A file is text in UTF-8; the encoding of a
character and the decoder are those of Lean's library.
-/

namespace Verif.Files

/-- The bytes of a text (`write!` on a file, src/util.rs 35). -/
def encode (s : Str) : List UInt8 := s.flatMap String.utf8EncodeChar

/-- The text that bytes stand for (`read_to_string`, src/util.rs 17), if they are valid UTF-8. -/
def decode (b : List UInt8) : Option Str := b.toByteArray.utf8Decode?.map Array.toList

/-- The file system behind src/util.rs 11-44: the bytes of each file that can be opened. -/
structure ByteDisk where
  bytes : Str → Option (List UInt8)

/-- What the operating system does with one write (src/util.rs 22-44): the file cannot be
created; writing fails after `n` bytes; everything is written. -/
inductive ByteFate
  | refused
  | cut (n : Nat)
  | done
  deriving DecidableEq, Repr

/-- The disk with a new content of a file (src/util.rs 22-44). -/
def ByteDisk.set (d : ByteDisk) (name : Str) (b : List UInt8) : ByteDisk :=
  ⟨fun p => if p = name then some b else d.bytes p⟩

/-- `util::read_file` (src/util.rs 11-19): opening fails, or the content is not UTF-8. -/
def readBytes (d : ByteDisk) (name : Str) : Res Str :=
  match d.bytes name with
  | none => .err .io
  | some b =>
    match decode b with
    | none => .err .io
    | some s => .ok s

/-- `util::write_file` (src/util.rs 22-44). -/
def writeBytes (fate : ByteFate) (d : ByteDisk) (name data : Str) : Res Unit × ByteDisk :=
  match fate with
  | .refused => (.err .other, d)
  | .cut n => (.err .other, d.set name ((encode data).take n))
  | .done => (.ok (), d.set name (encode data))

end Verif.Files
