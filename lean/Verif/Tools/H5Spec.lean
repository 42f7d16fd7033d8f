import Mathlib.Data.List.Basic

/-!
# Splitting a file and group specification

Model of the loops in `H5StateWriter::open` (/repo/src/h5writer.cpp:64-112), `H5Loader::open`
(/repo/src/h5loader.cpp:49-85) and `unary_h5file` (/repo/src/glps_ops.cpp:171-204).  The files that can be opened are
given by a fixed predicate; text is a list of characters.
-/

namespace Flame.Tools

/-- Strings. -/
abbrev Str := List Char

/-- `find_last_of('/', lim)`; `none` as argument is a limit beyond the end, `none` as result is `npos`. -/
def lastSlash (s : Str) (lim : Option Nat) : Option Nat :=
  ((List.range s.length).filter (fun i => s[i]? == some '/' && (match lim with | none => true | some l => i ≤ l))).getLast?

/-- `sep = spec.find_last_of('/', sep-1)` (/repo/src/h5writer.cpp:78, /repo/src/h5loader.cpp:61,
/repo/src/glps_ops.cpp:186).  `none` is `npos`; `npos-1` is beyond the end of any string, and `0-1` is `npos` because
`size_t` wraps around. -/
def nextSep (s : Str) : Option Nat → Option Nat
  | none => lastSlash s none
  | some 0 => lastSlash s none
  | some (k + 1) => lastSlash s (some k)

/-- `spec.substr(0, sep)`. -/
def fileName (s : Str) : Option Nat → Str
  | none => s
  | some k => s.take k

/-- State of the loop: file opened with this name and separator, given up, or not yet ended. -/
inductive Opened
  | file (fname : Str) (sep : Option Nat)
  | failed
  | running
  deriving DecidableEq, Repr

/-- `n` rounds of the loop (/repo/src/h5writer.cpp:77-91, /repo/src/h5loader.cpp:60-74, /repo/src/glps_ops.cpp:185-197). -/
def openN (canOpen : Str → Bool) (s : Str) : Nat → Option Nat → Opened
  | 0, _ => .running
  | n + 1, sep =>
    if canOpen (fileName s (nextSep s sep)) then .file (fileName s (nextSep s sep)) (nextSep s sep)
    else
      match nextSep s sep with
      | none => .failed
      | some k => openN canOpen s n (some k)

/-- The loop from its start, `n` rounds. -/
def openSpec (canOpen : Str → Bool) (s : Str) (n : Nat) : Opened := openN canOpen s n none

/-- The group that `H5StateWriter` creates: `none` is the root group (/repo/src/h5writer.cpp:93-108). -/
def writerGroup (s : Str) : Option Nat → Option Str
  | none => none
  | some k => some (s.drop (k + 1))

/-- The group that `H5Loader` opens: `spec.substr(sep+1)` (/repo/src/h5loader.cpp:76), where `npos+1` is 0. -/
def loaderGroup (s : Str) : Option Nat → Str
  | none => s
  | some k => s.drop (k + 1)

/-- The text that `h5file` appends to the file name: `inp.substr(sep)` (/repo/src/glps_ops.cpp:191), `none` for the exception
`out_of_range`. -/
def h5fileGroup (s : Str) : Option Nat → Option Str
  | none => none
  | some k => some (s.drop k)

end Flame.Tools
