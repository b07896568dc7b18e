/-
Loading of the native library: boofcpp-jni/src/main/java/cz/adamh/utils/NativeUtils.java and the static initialiser of
org/boofcpp/BoofCPP.java.

The virtual machine is a state (`Vm`) and everything which can go wrong outside of the program is decided by `Env`: every
operation which may fail asks `fault` with a running number, so `Env` ranges over all schedules of failures.

Simplifications: a file is named by its directory and its name in it (`new File(dir, name)`); deleting an existing file always
succeeds; printed messages are counted only; strings are lists of characters.  `printResourceInPath` is not called by anything
and not modelled.
-/
namespace Boof

/-- Java strings. -/
abbrev JString := List Char

/-- Contents of files and resources. -/
abbrev Bytes := List UInt8

/-- The Java exceptions and errors which the loader meets. -/
inductive Exc where
  | io | fileNotFound | nullPointer | illegalArgument | stringIndex | link
deriving DecidableEq, Repr

/-- `catch (IOException e)`: `FileNotFoundException` is one. -/
def Exc.isIO : Exc → Bool
  | .io => true
  | .fileNotFound => true
  | _ => false

/-- `catch (Exception e)`: all but `UnsatisfiedLinkError`, which is an `Error`. -/
def Exc.isException : Exc → Bool
  | .link => false
  | _ => true

/-- A file: directory and name. -/
abbrev JFile := JString × JString

/-- A file system. -/
structure FS where
  dirs : List JString
  files : List (JFile × Bytes)
deriving DecidableEq, Repr

/-- What `deleteOnExit` was called for. -/
inductive Node where
  | dir (d : JString)
  | file (f : JFile)
deriving DecidableEq, Repr

/-- The virtual machine.  `past` records the file system before every change, so it shows what a crash at any moment leaves. -/
structure Vm where
  fs : FS
  past : List FS
  onExit : List Node
  /-- NativeUtils.java:54 -/
  temporaryDir : Option JString
  /-- NativeUtils.java:44 -/
  libraryName : JString
  /-- contents of the libraries loaded so far -/
  loaded : List Bytes
  /-- number of operations which could have failed so far -/
  step : Nat
  messages : Nat
deriving DecidableEq, Repr

/-- The rest of the world. -/
structure Env where
  /-- the n-th operation which may fail does so -/
  fault : Nat → Bool
  /-- how much of the data a failing write leaves in the file -/
  torn : Nat → Nat
  /-- resources of the jar: what the successive calls of `read` give -/
  resource : JString → Option (List Bytes)
  /-- whether the operating system can load a library with these contents -/
  loadable : Bytes → Bool
  /-- the library found by `System.loadLibrary`, if any -/
  onPath : Option Bytes
  /-- name of the next temporary directory, made of the time -/
  tempName : Nat → JString
  posix : Bool

/-- A Java computation. -/
def L (α : Type) := Vm → Except Exc α × Vm

namespace L

def pure (a : α) : L α := fun v => (.ok a, v)

def bind (m : L α) (k : α → L β) : L β := fun v =>
  match m v with
  | (.ok a, v') => k a v'
  | (.error e, v') => (.error e, v')

instance : Monad L where
  pure := pure
  bind := bind

def throw (e : Exc) : L α := fun v => (.error e, v)

/-- `try { m } catch`. -/
def catchE (m : L α) (k : Exc → L α) : L α := fun v =>
  match m v with
  | (.ok a, v') => (.ok a, v')
  | (.error e, v') => k e v'

/-- `try { m } finally { f }`: an exception of `f` replaces the one of `m`. -/
def finallyE (m : L α) (f : L Unit) : L α := fun v =>
  match m v with
  | (r, v') => match f v' with
    | (.ok _, v'') => (r, v'')
    | (.error e, v'') => (.error e, v'')

/-- `try (resource) { m }`: the resource is closed by `f`; an exception of `m` wins over the one of `f`. -/
def withClose (m : L α) (f : L Unit) : L α := fun v =>
  match m v with
  | (.ok a, v') => (match f v' with
    | (.ok _, v'') => (.ok a, v'')
    | (.error e, v'') => (.error e, v''))
  | (.error e, v') => (.error e, (f v').2)

def get : L Vm := fun v => (.ok v, v)

/-- Changes which are not changes of the file system. -/
def modify (f : Vm → Vm) : L Unit := fun v => (.ok (), f v)

/-- Changes of the file system. -/
def change (f : FS → FS) : L Unit := fun v => (.ok (), { v with fs := f v.fs, past := v.past ++ [v.fs] })

/-- An operation which may fail with exception `e`. -/
def mayFail (env : Env) (e : Exc) : L Unit := fun v =>
  if env.fault v.step then (.error e, { v with step := v.step + 1 }) else (.ok (), { v with step := v.step + 1 })

end L

namespace FS

/-- Contents of a file. -/
def read (s : FS) (f : JFile) : Option Bytes := s.files.lookup f

/-- Creates or replaces a file. -/
def put (s : FS) (f : JFile) (b : Bytes) : FS := { s with files := (f, b) :: s.files.filter (fun x => x.1 ≠ f) }

/-- `File.delete` of a file. -/
def remove (s : FS) (f : JFile) : FS := { s with files := s.files.filter (fun x => x.1 ≠ f) }

def mkdir (s : FS) (d : JString) : FS := { s with dirs := d :: s.dirs }

/-- `File.delete` of a directory: only if there is nothing in it. -/
def rmdir (s : FS) (d : JString) : FS :=
  if s.files.any (fun x => x.1.1 = d) then s else { s with dirs := s.dirs.filter (· ≠ d) }

end FS

namespace NativeUtils

/-- `setLibraryName`, NativeUtils.java:62-64. -/
def setLibraryName (name : JString) : L Unit := L.modify (fun v => { v with libraryName := name })

/-- `getFullNames`, NativeUtils.java:66-68. -/
def fullNames (name : JString) : List JString :=
  ["lib".toList ++ name ++ ".so".toList, "lib".toList ++ name ++ ".dll".toList, "lib".toList ++ name ++ ".dylib".toList]

/-- `System.load`: the file must be there and loadable. -/
def load (env : Env) (f : JFile) : L Unit := fun v =>
  match v.fs.read f with
  | some b => if env.loadable b then (.ok (), { v with loaded := v.loaded ++ [b] }) else (.error .link, v)
  | none => (.error .link, v)

/-- The loop of `loadLocalPath`, NativeUtils.java:71-77. -/
def localLoop (env : Env) (path : JString) : List JString → L Bool
  | [] => pure false
  | n :: ns => do
    let v ← L.get
    if (v.fs.read (path, n)).isSome then do
      load env (path, n)
      pure true
    else localLoop env path ns

/-- `loadLocalPath`, NativeUtils.java:70-79. -/
def loadLocalPath (env : Env) (path : JString) : L Bool := do
  let v ← L.get
  localLoop env path (fullNames v.libraryName)

/-- `String.split("/")` before empty strings at the end are dropped. -/
def splitSlash : JString → List JString
  | [] => [[]]
  | c :: cs => if c = '/' then [] :: splitSlash cs else
    match splitSlash cs with
    | w :: ws => (c :: w) :: ws
    | [] => [[c]]

/-- `String.split("/")`.  (For a string without a slash Java gives the string itself; here and there it is at most one part.) -/
def split (s : JString) : List JString := ((splitSlash s).reverse.dropWhile (·.isEmpty)).reverse

/-- `filename`, NativeUtils.java:132-133. -/
def fileName (path : JString) : Option JString :=
  let parts := split path
  if 1 < parts.length then parts.getLast? else none

/-- `FileOutputStream(dst)`: creates an empty file. -/
def openOut (env : Env) (f : JFile) : L Unit := do
  L.mayFail env .fileNotFound
  let v ← L.get
  if f.1 ∈ v.fs.dirs then L.change (fun s => s.put f []) else L.throw .fileNotFound

/-- `out.write`: adds to the file; a failing write may leave a part. -/
def write (env : Env) (f : JFile) (c : Bytes) : L Unit := fun v =>
  let old := (v.fs.read f).getD []
  if env.fault v.step then
    (.error .io, { v with fs := v.fs.put f (old ++ c.take (env.torn v.step)), past := v.past ++ [v.fs], step := v.step + 1 })
  else (.ok (), { v with fs := v.fs.put f (old ++ c), past := v.past ++ [v.fs], step := v.step + 1 })

/-- The loop NativeUtils.java:178-180; the list is what the next calls of `in.read` give, -1 at its end. -/
def readLoop (env : Env) (f : JFile) : List Bytes → L Unit
  | [] => L.mayFail env .io
  | c :: cs => do
    L.mayFail env .io
    if 0 < c.length then do
      write env f c
      readLoop env f cs
    else pure ()

/-- `in.close()`. -/
def closeIn (env : Env) (is : Option (List Bytes)) : L Unit :=
  match is with
  | none => L.throw .nullPointer
  | some _ => L.mayFail env .io

/-- `copy`, NativeUtils.java:171-187. -/
def copy (env : Env) (is : Option (List Bytes)) (f : JFile) : L Unit :=
  L.finallyE
    (do
      openOut env f
      L.finallyE
        (match is with
         | none => L.throw .nullPointer
         | some cs => readLoop env f cs)
        (L.mayFail env .io))
    (closeIn env is)

/-- `temp.delete()`. -/
def delete (f : JFile) : L Unit := L.change (fun s => s.remove f)

/-- `deleteOnExit()`. -/
def deleteOnExit (n : Node) : L Unit := L.modify (fun v => { v with onExit := v.onExit ++ [n] })

/-- `createTempDirectory`, NativeUtils.java:204-213. -/
def createTempDirectory (env : Env) : L JString := fun v =>
  let d := env.tempName v.step
  if env.fault v.step ∨ d ∈ v.fs.dirs then (.error .io, { v with step := v.step + 1 })
  else (.ok d, { v with fs := v.fs.mkdir d, past := v.past ++ [v.fs], step := v.step + 1 })

/-- The temporary directory, NativeUtils.java:141-144. -/
def tempDirectory (env : Env) : L JString := do
  let v ← L.get
  match v.temporaryDir with
  | some d => pure d
  | none => do
    let d ← createTempDirectory env
    L.modify (fun v => { v with temporaryDir := some d })
    deleteOnExit (.dir d)
    pure d

/-- Closing the resource of `try (InputStream is = ...)`: nothing to do if it is null. -/
def closeResource (env : Env) (is : Option (List Bytes)) : L Unit :=
  match is with
  | none => pure ()
  | some _ => L.mayFail env .io

/-- The copy of the resource in `_loadLibraryFromJar`, NativeUtils.java:148-156. -/
def extract (env : Env) (path : JString) (temp : JFile) : L Unit :=
  let is := env.resource path
  L.catchE
    (L.withClose (copy env is temp) (closeResource env is))
    (fun e =>
      if e.isIO then do delete temp; L.throw e
      else if e = .nullPointer then do delete temp; L.throw .fileNotFound
      else L.throw e)

/-- `_loadLibraryFromJar`, NativeUtils.java:125-169. -/
def loadResource (env : Env) (path : JString) : L Unit :=
  if path.head? ≠ some '/' then L.throw .illegalArgument
  else match fileName path with
  | none => L.throw .illegalArgument
  | some filename =>
    if filename.length < 3 then L.throw .illegalArgument
    else do
      let d ← tempDirectory env
      let temp := (d, filename)
      extract env path temp
      L.finallyE (load env temp) (if env.posix then delete temp else deleteOnExit (.file temp))

/-- The loop of `loadLibraryFromJar`, NativeUtils.java:89-94. -/
def jarLoop (env : Env) (path : JString) : List JString → L Bool
  | [] => pure false
  | n :: ns =>
    L.bind (L.catchE (L.bind (loadResource env (path ++ n)) (fun _ => pure true)) (fun e => if e.isIO then pure false else L.throw e))
      (fun ok => if ok then pure true else jarLoop env path ns)

/-- `loadLibraryFromJar`, NativeUtils.java:81-96. -/
def loadLibraryFromJar (env : Env) (path : JString) : L Bool := do
  match path.getLast? with
  | none => L.throw .stringIndex
  | some c => do
    let path := if c ≠ '/' then path ++ ['/'] else path
    let v ← L.get
    jarLoop env path (fullNames v.libraryName)

/-- `File.delete` of what `deleteOnExit` was called for. -/
def removeNode (s : FS) : Node → FS
  | .dir d => s.rmdir d
  | .file f => s.remove f

/-- The end of the virtual machine: what `deleteOnExit` was called for is deleted, the last first. -/
def exit (v : Vm) : FS := v.onExit.reverse.foldl removeNode v.fs

end NativeUtils

namespace BoofCPP
open NativeUtils

/-- `success = success || f`. -/
def orElse (success : Bool) (f : L Bool) : L Bool := if success then pure true else f

/-- `System.loadLibrary`, BoofCPP.java:23-26, with the error ignored. -/
def loadLibrary (env : Env) : L Bool := fun v =>
  match env.onPath with
  | some b => (.ok true, { v with loaded := v.loaded ++ [b] })
  | none => (.ok false, v)

/-- The second part of the static initialiser, BoofCPP.java:28-38; the result is `success`. -/
def search (env : Env) (success : Bool) : L Bool := do
  setLibraryName "JNIBoofCPP".toList
  let success ← orElse success (loadLocalPath env "build/boofcpp-jni".toList)
  let success ← orElse success (loadLocalPath env "../build/boofcpp-jni".toList)
  let success ← orElse success (loadLibraryFromJar env "/".toList)
  let success ← orElse success (loadLibraryFromJar env "/arm64-v8a".toList)
  let success ← orElse success (loadLibraryFromJar env "/armeabi-v7a".toList)
  if !success then L.modify (fun v => { v with messages := v.messages + 1 })
  pure success

/-- The static initialiser, BoofCPP.java:19-42.  An `Error` leaves it. -/
def staticInit (env : Env) : L Unit := do
  let success ← loadLibrary env
  L.catchE (do let _ ← search env success; pure ())
    (fun e => if e.isException then L.modify (fun v => { v with messages := v.messages + 1 }) else L.throw e)

end BoofCPP
end Boof
