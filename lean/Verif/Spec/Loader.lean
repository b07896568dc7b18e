import Verif.Model.Loader
/-
What a user of the loader of the native library relies on.
-/
namespace Boof
open NativeUtils

/-- Every file lies in a directory of the file system. -/
def FS.Wf (s : FS) : Prop := ∀ x ∈ s.files, x.1.1 ∈ s.dirs

/-- `s` has all files and directories of `s0`, and what it has more lies in directories which `s0` does not have. -/
def Untouched (s0 s : FS) : Prop :=
  (∀ x ∈ s0.files, x ∈ s.files) ∧ (∀ d ∈ s0.dirs, d ∈ s.dirs) ∧ ∀ x ∈ s.files, x ∈ s0.files ∨ x.1.1 ∉ s0.dirs

/-- Calls of the loader: `setLibraryName`, `loadLocalPath`, `loadLibraryFromJar` and the static initialiser of `BoofCPP`. -/
inductive LoaderCall where
  | setName (n : JString)
  | localPath (d : JString)
  | jar (p : JString)
  | staticInit

/-- The state after one call, whether it ends normally or not. -/
def LoaderCall.after (env : Env) (v : Vm) : LoaderCall → Vm
  | .setName n => (setLibraryName n v).2
  | .localPath d => (loadLocalPath env d v).2
  | .jar p => (loadLibraryFromJar env p v).2
  | .staticInit => (BoofCPP.staticInit env v).2

/-- The state after any calls. -/
def loaderHistory (env : Env) (calls : List LoaderCall) (v : Vm) : Vm := calls.foldl (LoaderCall.after env) v

/-- The contract of `InputStream.read` with a buffer which is not empty: it gives at least one byte, or the end. -/
def ReadContract (env : Env) : Prop := ∀ p cs, env.resource p = some cs → ∀ c ∈ cs, c ≠ []

/-- The contents of a resource. -/
def Env.contents (env : Env) (p : JString) : Option Bytes := (env.resource p).map List.flatten

/-- File names of a library on the supported systems. -/
def systemNames (name : JString) : List JString := [".so", ".dll", ".dylib"].map (fun e => "lib".toList ++ name ++ e.toList)

/-- The libraries which `BoofCPP` looks for, in the documented order: directories of the build, then the jar. -/
def libraryCandidates (env : Env) (s : FS) : List (Option Bytes) :=
  (["build/boofcpp-jni", "../build/boofcpp-jni"].flatMap
    (fun d => (systemNames "JNIBoofCPP".toList).map (fun n => s.read (d.toList, n)))) ++
  (["/", "/arm64-v8a/", "/armeabi-v7a/"].flatMap
    (fun d => (systemNames "JNIBoofCPP".toList).map (fun n => env.contents (d.toList ++ n))))

/-- The first one there is. -/
def firstFound (l : List (Option Bytes)) : Option Bytes := l.findSome? id

/-- Nothing fails by itself: no errors of the disk, and there is a temporary directory or a new one can be made. -/
def Calm (env : Env) (v : Vm) : Prop :=
  (∀ n, env.fault n = false) ∧
    ((v.temporaryDir = none ∧ ∀ n, env.tempName n ∉ v.fs.dirs) ∨ ∃ d, v.temporaryDir = some d ∧ d ∈ v.fs.dirs)

end Boof
