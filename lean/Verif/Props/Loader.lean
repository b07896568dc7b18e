import Verif.Proofs.LoaderRun
/-
C85: the loader of the native library leaves nothing behind.
C86: it loads the right bytes.
-/
namespace Boof
open NativeUtils Loader

/-- A jar with libraries for two processors. -/
def sampleEnv (loadable : Bytes → Bool) (fault : Nat → Bool) (posix : Bool) : Env where
  fault := fault
  torn _ := 1
  resource p :=
    if p = "/arm64-v8a/libJNIBoofCPP.so".toList then some [[64, 1], [2]]
    else if p = "/armeabi-v7a/libJNIBoofCPP.so".toList then some [[32], [3, 4]]
    else none
  loadable := loadable
  onPath := none
  tempName _ := "/tmp/boofcpplibs1".toList
  posix := posix

/-- A virtual machine which was just started, with one file on the disk. -/
def sampleVm : Vm where
  fs := ⟨["/tmp".toList], [(("/tmp".toList, "a".toList), [7])]⟩
  past := []
  onExit := []
  temporaryDir := none
  libraryName := []
  loaded := []
  step := 0
  messages := 0

theorem sample_contract (l : Bytes → Bool) (f : Nat → Bool) (b : Bool) : ReadContract (sampleEnv l f b) := by
  intro p cs h
  simp only [sampleEnv] at h
  split at h
  · cases h; decide
  · split at h
    · cases h; decide
    · cases h

theorem sample_calm (l : Bytes → Bool) (b : Bool) : Calm (sampleEnv l (fun _ => false) b) sampleVm :=
  ⟨fun _ => rfl, .inl ⟨rfl, fun _ => by simp only [sampleEnv, sampleVm]; decide⟩⟩

example : sampleVm.fs.Wf ∧ sampleVm.temporaryDir = none := ⟨by unfold FS.Wf; decide, rfl⟩

/-- C85: whatever is called how often, and whatever fails, at the end of the virtual machine the file system is what it would be
without the calls. -/
theorem C85_exit (env : Env) (v : Vm) (hw : v.fs.Wf) (ht : v.temporaryDir = none) (calls : List LoaderCall) :
    exit (loaderHistory env calls v) = exit v :=
  (good_history hw env calls v (good_start ht)).exit hw

/-- Loading leaves a copy on systems which are not POSIX, until the end. -/
example : (loaderHistory (sampleEnv (fun _ => true) (fun _ => false) false) [.staticInit] sampleVm).fs.files.length = 2 ∧
    exit (loaderHistory (sampleEnv (fun _ => true) (fun _ => false) false) [.staticInit] sampleVm) = sampleVm.fs := by
  decide +kernel

/-- C85: on systems where loaded files can be deleted there is no file more after the calls than before. -/
theorem C85_posix (env : Env) (hp : env.posix = true) (v : Vm) (hw : v.fs.Wf) (ht : v.temporaryDir = none)
    (calls : List LoaderCall) : (loaderHistory env calls v).fs.files = v.fs.files := by
  rcases (good_history hw env calls v (good_start ht)).state with ⟨_, h, _⟩ | ⟨d, ex, nodes, _, _, h, _, _, h6⟩
  · rw [h]
  · rw [h]
    show ex ++ v.fs.files = v.fs.files
    cases ex with
    | nil => rfl
    | cons x ex =>
      rcases (h6 x (by simp)).2 with h | h
      · exact h.elim
      · rw [hp] at h; cases h.1

/-- A write which fails, and a second attempt. -/
example : ((loaderHistory (sampleEnv (fun _ => true) (fun n => n = 13) true) [.staticInit, .staticInit] sampleVm).loaded,
    (loaderHistory (sampleEnv (fun _ => true) (fun n => n = 13) true) [.staticInit, .staticInit] sampleVm).fs.files.length) =
      ([[32, 3, 4], [64, 1, 2]], 1) := by
  decide +kernel

/-- C85: a crash at any moment leaves all files as they were; what there is more lies in a directory which was not there. -/
theorem C85_crash (env : Env) (v : Vm) (hw : v.fs.Wf) (ht : v.temporaryDir = none) (calls : List LoaderCall) (s : FS)
    (hs : s ∈ (loaderHistory env calls v).past ++ [(loaderHistory env calls v).fs]) : s ∈ v.past ∨ Untouched v.fs s := by
  have h := good_history hw env calls v (good_start (posix := env.posix) ht)
  obtain ⟨p, e, hp⟩ := h.past_snoc
  rw [e] at hs
  rcases List.mem_append.1 hs with hs | hs
  · exact .inl hs
  · exact .inr (hp s hs)

/-- C86: what `loadLibraryFromJar` loads is a resource of that directory, all of it and nothing else; unless it returns `true`
nothing is loaded.  Whatever fails, and however many bytes each `read` gives. -/
theorem C86_bytes (env : Env) (hc : ReadContract env) (p : JString) (v : Vm) :
    (∃ dir n b, (dir = p ∨ dir = p ++ ['/']) ∧ n ∈ systemNames v.libraryName ∧ env.contents (dir ++ n) = some b ∧
        env.loadable b = true ∧ (loadLibraryFromJar env p v).1 = .ok true ∧
        (loadLibraryFromJar env p v).2.loaded = v.loaded ++ [b]) ∨
    ((loadLibraryFromJar env p v).1 ≠ .ok true ∧ (loadLibraryFromJar env p v).2.loaded = v.loaded) := by
  by_cases hp : p = []
  · subst hp; exact .inr ⟨(fun h => by cases h), rfl⟩
  · rw [jar_run env p hp v]
    have hdir : withSlash p = p ∨ withSlash p = p ++ ['/'] := by unfold withSlash; split <;> simp
    have hns : ∀ n ∈ fullNames v.libraryName, n ∈ systemNames v.libraryName := fun n h => h
    generalize fullNames v.libraryName = ns at hns
    induction ns generalizing v with
    | nil => exact .inr ⟨(fun h => by cases h), rfl⟩
    | cons n ns ih =>
      obtain ⟨h1, _, h3⟩ := loadResource_loaded env hc (withSlash p ++ n) v
      rcases e : loadResource env (withSlash p ++ n) v with ⟨r, v1⟩
      rw [e] at h1 h3
      rcases h3 with ⟨b, h4, h5, h6, h7⟩ | ⟨x, h4, h5⟩
      · simp only at h4; subst h4
        have hrun : jarLoop env (withSlash p) (n :: ns) v = (.ok true, v1) := by
          unfold jarLoop L.bind L.catchE
          simp only [e]
          rfl
        rw [hrun]
        exact .inl ⟨_, n, b, hdir, hns n (by simp), h5, h6, rfl, h7⟩
      · simp only at h4; subst h4
        by_cases hio : x.isIO = true
        · have hrun : jarLoop env (withSlash p) (n :: ns) v = jarLoop env (withSlash p) ns v1 := by
            unfold jarLoop L.bind L.catchE
            simp only [e]
            rw [if_pos hio]
            cases ns <;> rfl
          rw [hrun]
          have h8 := ih v1 (fun n hn => by rw [h1]; exact hns n (List.mem_cons_of_mem _ hn))
          simp only at h1 h5
          rw [h1, h5] at h8
          exact h8
        · have hrun : jarLoop env (withSlash p) (n :: ns) v = (.error x, v1) := by
            unfold jarLoop L.bind L.catchE
            simp only [e]
            rw [if_neg hio]
            rfl
          rw [hrun]
          exact .inr ⟨(fun h => by cases h), h5⟩

example : (loadLibraryFromJar (sampleEnv (fun _ => true) (fun _ => false) true) "/arm64-v8a".toList
    { sampleVm with libraryName := "JNIBoofCPP".toList }).2.loaded = [[64, 1, 2]] := by decide +kernel

/-- C86: the static initialiser of `BoofCPP` loads the library on the path of the system, and nothing else, if there is one. -/
theorem C86_path (env : Env) (v : Vm) {b : Bytes} (hb : env.onPath = some b) :
    (BoofCPP.staticInit env v).1 = .ok () ∧ (BoofCPP.staticInit env v).2.loaded = v.loaded ++ [b] ∧
      (BoofCPP.staticInit env v).2.fs = v.fs ∧ (BoofCPP.staticInit env v).2.messages = v.messages := by
  have h : BoofCPP.staticInit env v =
      (.ok (), { v with loaded := v.loaded ++ [b], libraryName := "JNIBoofCPP".toList }) := by
    unfold BoofCPP.staticInit
    refine (bind_ok (a := true) (v' := { v with loaded := v.loaded ++ [b] }) ?_).trans ?_
    · unfold BoofCPP.loadLibrary; rw [hb]
    · rfl
  rw [h]
  exact ⟨rfl, rfl, rfl, rfl⟩

example : (BoofCPP.staticInit { sampleEnv (fun _ => true) (fun _ => false) true with onPath := some [9] } sampleVm).2.loaded =
    [[9]] := by decide +kernel

/-- C86: without faults of the disk the static initialiser takes the first library there is.  If it can be loaded it is, and
nothing else; if not, the error of the system leaves the initialiser; if there is none, a message is printed. -/
theorem C86_first (env : Env) (hc : ReadContract env) (v : Vm) (h : Calm env v) (hb : env.onPath = none) :
    match firstFound (libraryCandidates env v.fs) with
    | none => (BoofCPP.staticInit env v).1 = .ok () ∧ (BoofCPP.staticInit env v).2.loaded = v.loaded ∧
        (BoofCPP.staticInit env v).2.messages = v.messages + 1
    | some b => (BoofCPP.staticInit env v).2.messages = v.messages ∧
        if env.loadable b then
          (BoofCPP.staticInit env v).1 = .ok () ∧ (BoofCPP.staticInit env v).2.loaded = v.loaded ++ [b]
        else (BoofCPP.staticInit env v).1 = .error .link ∧ (BoofCPP.staticInit env v).2.loaded = v.loaded := by
  have h1 := (search_run env hc v h).1
  have hrun : BoofCPP.staticInit env v = L.catchE (do let _ ← BoofCPP.search env false; pure ())
      (fun e => if e.isException then L.modify (fun v => { v with messages := v.messages + 1 }) else L.throw e) v := by
    unfold BoofCPP.staticInit
    refine bind_ok (a := false) (v' := v) ?_
    unfold BoofCPP.loadLibrary; rw [hb]
  rw [hrun]
  rcases e : BoofCPP.search env false v with ⟨r, v1⟩
  rw [e] at h1
  obtain ⟨_, _, h2, h3⟩ := h1
  have hok : ∀ x, r = .ok x → L.catchE (do let _ ← BoofCPP.search env false; pure ())
      (fun e => if e.isException then L.modify (fun v => { v with messages := v.messages + 1 }) else L.throw e) v = (.ok (), v1) := by
    rintro x rfl
    unfold L.catchE
    have : (do let _ ← BoofCPP.search env false; pure () : L Unit) v = (.ok (), v1) := bind_ok e
    rw [this]
  have her : r = .error .link → L.catchE (do let _ ← BoofCPP.search env false; pure ())
      (fun e => if e.isException then L.modify (fun v => { v with messages := v.messages + 1 }) else L.throw e) v =
        (.error .link, v1) := by
    rintro rfl
    unfold L.catchE
    have : (do let _ ← BoofCPP.search env false; pure () : L Unit) v = (.error .link, v1) := bind_error e
    rw [this]
    rfl
  rcases hf : firstFound (libraryCandidates env v.fs) with _ | b
  · rw [hf] at h2 h3
    simp only at h2 h3 ⊢
    rw [hok _ h3.1]
    exact ⟨rfl, h3.2, h2⟩
  · rw [hf] at h2 h3
    simp only at h3 ⊢
    have h2' : v1.messages = v.messages := h2
    by_cases hl : env.loadable b = true
    · rw [if_pos hl] at h3 ⊢
      rw [hok _ h3.1]
      exact ⟨h2', rfl, h3.2⟩
    · rw [if_neg hl] at h3 ⊢
      rw [her h3.1]
      exact ⟨h2', rfl, h3.2⟩

example : firstFound (libraryCandidates (sampleEnv (fun _ => true) (fun _ => false) true) sampleVm.fs) = some [64, 1, 2] := by
  decide +kernel

/-- C86: a library for another processor keeps the right one from being loaded. -/
theorem C86_fallback_refuted : ∃ (env : Env) (v : Vm), ReadContract env ∧ Calm env v ∧ env.onPath = none ∧
    (∃ b, some b ∈ libraryCandidates env v.fs ∧ env.loadable b = true) ∧
    (BoofCPP.staticInit env v).1 = .error .link ∧ (BoofCPP.staticInit env v).2.loaded = [] := by
  have h := C86_first (sampleEnv (fun b => b.head? = some 32) (fun _ => false) true) (sample_contract _ _ _) sampleVm
    (sample_calm _ _) rfl
  rw [show firstFound (libraryCandidates (sampleEnv (fun b => b.head? = some 32) (fun _ => false) true) sampleVm.fs) =
    some [64, 1, 2] by decide +kernel] at h
  exact ⟨_, sampleVm, sample_contract _ _ _, sample_calm _ _, rfl, ⟨[32, 3, 4], by decide +kernel, by decide⟩, h.2⟩

end Boof
