import Mathlib.Data.List.Basic
/-!
# Data files fetched from the server

Model of `get_datafile` (`/repo/py_gnome/gnome/utilities/remote_data.py` 19-94).

A file is the list of its bytes; the file system a function from paths to files.  A connection hands out pieces of what the server has, as `resp.read(CHUNKSIZE)` does: at the
end, or where the connection was closed, an empty piece; or it breaks off with an exception (a timeout).  `http.client` does not compare what it has read with `Content-Length` when it is read in
pieces.  Simplifications: the folder can be made and written to; the progress bar is left out, but for the length which it needs (71-73).
-/
namespace Verif.Persist.Fetch

/-- what a file holds -/
abbrev Bytes := List UInt8

/-- the files there are -/
abbrev Disk := String → Option Bytes

/-- write a file (`open(filename, 'wb')`, 79) -/
def Disk.put (d : Disk) (p : String) (b : Bytes) : Disk := fun q => if q = p then some b else d q

/-- A connection: refused (`HTTPError`), or open with or without `Content-Length` and the pieces that come over it; `none` is an exception while reading. -/
inductive Conn where
  | refused
  | opened (length : Option Nat) (pieces : List (Option Bytes))

/-- What the caller sees. -/
inductive Res where
  | name (p : String)
  | raised
deriving DecidableEq

/-- The loop (82-91): write until an empty piece; what has been written, and whether the loop came to its end.  After the last piece every further one is empty. -/
def loop : List (Option Bytes) → Bytes → Bytes × Bool
  | [], acc => (acc, true)
  | none :: _, acc => (acc, false)
  | some [] :: _, acc => (acc, true)
  | some b :: ps, acc => loop ps (acc ++ b)

/-- `data_server` (59-63) -/
def serverDir (subdir : String) : String :=
  if subdir = "" then "" else if subdir.toList.getLast? = some '/' then subdir else subdir ++ "/"

/-- the name after the last slash, `os.path.split` (65) -/
def baseName (p : String) : String := String.ofList (p.toList.reverse.takeWhile (· ≠ '/')).reverse

/-- `get_datafile`: `net` is what is got when a file of the server is asked for. -/
def getDatafile (net : String → Conn) (filename subdir : String) (d : Disk) : Res × Disk :=
  if (d filename).isSome then (.name filename, d)
  else
    match net (serverDir subdir ++ baseName filename) with
    | .refused => (.raised, d)
    | .opened none _ => (.raised, d)
    | .opened (some _) pieces =>
      let r := loop pieces []
      (if r.2 then .name filename else .raised, d.put filename r.1)

end Verif.Persist.Fetch
