import Verif.Spec.Loader
/-
Lemmas about the loader of the native library.
-/
namespace Boof
open NativeUtils

theorem Untouched.refl (s : FS) : Untouched s s := ⟨fun _ h => h, fun _ h => h, fun _ h => .inl h⟩

namespace Loader

/-- `Q` holds afterwards, whatever the outcome. -/
def After (m : L α) (P Q : Vm → Prop) : Prop := ∀ v, P v → Q (m v).2

theorem After.pure (a : α) (P : Vm → Prop) : After (Pure.pure a : L α) P P := fun _ h => h

theorem After.bind {m : L α} {k : α → L β} {P Q : Vm → Prop} (h : After m P Q) (hk : ∀ a, After (k a) Q Q) :
    After (m >>= k) P Q := by
  intro v hv
  have h1 := h v hv
  show Q (L.bind m k v).2
  unfold L.bind
  rcases e : m v with ⟨r, v'⟩
  rw [e] at h1
  cases r with
  | ok a => exact hk a v' h1
  | error e => exact h1

theorem After.throw (e : Exc) (P : Vm → Prop) : After (L.throw e : L α) P P := fun _ h => h

theorem After.finallyE {m : L α} {f : L Unit} {P Q R : Vm → Prop} (h : After m P Q) (hf : After f Q R) :
    After (L.finallyE m f) P R := by
  intro v hv
  have h1 := h v hv
  unfold L.finallyE
  rcases e : m v with ⟨r, v'⟩
  rw [e] at h1
  have h2 := hf v' h1
  rcases e2 : f v' with ⟨r2, v2⟩
  rw [e2] at h2
  cases r2 <;> simpa [e2] using h2

theorem After.withClose {m : L α} {f : L Unit} {P Q R : Vm → Prop} (h : After m P Q) (hf : After f Q R) :
    After (L.withClose m f) P R := by
  intro v hv
  have h1 := h v hv
  unfold L.withClose
  rcases e : m v with ⟨r, v'⟩
  rw [e] at h1
  have h2 := hf v' h1
  cases r with
  | error x => exact h2
  | ok a =>
    rcases e2 : f v' with ⟨r2, v2⟩
    rw [e2] at h2
    cases r2 <;> simpa [e2] using h2

theorem After.mono {m : L α} {P P' Q Q' : Vm → Prop} (h : After m P Q) (hp : ∀ v, P' v → P v) (hq : ∀ v, Q v → Q' v) :
    After m P' Q' := fun v hv => hq _ (h v (hp v hv))

/-- The states of a loader which was started in `v0`; files for which `T` holds may be left in the temporary directory. -/
structure Good (posix : Bool) (v0 : Vm) (T : JFile → Prop) (v : Vm) : Prop where
  past : ∃ p, v.past = v0.past ++ p ∧ ∀ s ∈ p, Untouched v0.fs s
  state : (v.temporaryDir = none ∧ v.fs = v0.fs ∧ v.onExit = v0.onExit) ∨
    ∃ (d : JString) (ex : List (JFile × Bytes)) (nodes : List JFile), v.temporaryDir = some d ∧ d ∉ v0.fs.dirs ∧ v.fs = ⟨d :: v0.fs.dirs, ex ++ v0.fs.files⟩ ∧
      v.onExit = v0.onExit ++ Node.dir d :: nodes.map Node.file ∧ (∀ f ∈ nodes, f.1 = d) ∧
      ∀ x ∈ ex, x.1.1 = d ∧ (T x.1 ∨ (posix = false ∧ x.1 ∈ nodes))

theorem Good.untouched {posix v0 T v} (h : Good posix v0 T v) : Untouched v0.fs v.fs := by
  rcases h.state with ⟨_, h2, _⟩ | ⟨d, ex, nodes, _, h2, h3, _, _, h6⟩
  · rw [h2]; exact Untouched.refl _
  · rw [h3]
    refine ⟨fun x hx => List.mem_append_right _ hx, fun x hx => List.mem_cons_of_mem _ hx, fun x hx => ?_⟩
    rcases List.mem_append.1 hx with hx | hx
    · right; rw [(h6 x hx).1]; exact h2
    · left; exact hx

theorem Good.step {posix v0 T v} (h : Good posix v0 T v) {v' : Vm} (h1 : v'.past = v.past)
    (h2 : v'.temporaryDir = v.temporaryDir) (h3 : v'.fs = v.fs) (h4 : v'.onExit = v.onExit) : Good posix v0 T v' := by
  refine ⟨by rw [h1]; exact h.past, ?_⟩
  rw [h2, h3, h4]; exact h.state

theorem good_mayFail {posix v0 T} (env : Env) (e : Exc) :
    After (L.mayFail env e) (Good posix v0 T) (Good posix v0 T) := by
  intro v h
  unfold L.mayFail
  split <;> exact h.step rfl rfl rfl rfl

theorem filter_old {s0 : FS} (hw : s0.Wf) {d : JString} (hd : d ∉ s0.dirs) {f : JFile} (hf : f.1 = d) :
    s0.files.filter (fun x => x.1 ≠ f) = s0.files := by
  apply List.filter_eq_self.2
  intro x hx
  have := hw x hx
  simp only [ne_eq, decide_eq_true_eq]
  rintro rfl
  exact hd (hf ▸ this)

theorem Good.past_snoc {posix v0 T v} (h : Good posix v0 T v) :
    ∃ p, v.past ++ [v.fs] = v0.past ++ p ∧ ∀ s ∈ p, Untouched v0.fs s := by
  obtain ⟨p, e, hp⟩ := h.past
  refine ⟨p ++ [v.fs], by rw [e, List.append_assoc], fun s hs => ?_⟩
  rcases List.mem_append.1 hs with hs | hs
  · exact hp s hs
  · simp only [List.mem_singleton] at hs
    rw [hs]; exact h.untouched

/-- States with the temporary directory of `f`. -/
def Busy (posix : Bool) (v0 : Vm) (f : JFile) (v : Vm) : Prop := Good posix v0 (· = f) v ∧ v.temporaryDir = some f.1

theorem Busy.put {posix v0 f v} (hw : v0.fs.Wf) (h : Busy posix v0 f v) (b : Bytes) {v' : Vm}
    (h1 : v'.past = v.past ++ [v.fs]) (h2 : v'.temporaryDir = v.temporaryDir) (h3 : v'.fs = v.fs.put f b)
    (h4 : v'.onExit = v.onExit) : Busy posix v0 f v' := by
  refine ⟨⟨by rw [h1]; exact h.1.past_snoc, ?_⟩, by rw [h2]; exact h.2⟩
  rcases h.1.state with ⟨e, _⟩ | ⟨d, ex, nodes, e1, e2, e3, e4, e5, e6⟩
  · rw [h.2] at e; cases e
  · have hd : f.1 = d := by rw [h.2] at e1; exact Option.some.inj e1
    right
    refine ⟨d, (f, b) :: ex.filter (fun x => x.1 ≠ f), nodes, h2.trans e1, e2, ?_, h4.trans e4, e5, ?_⟩
    · rw [h3, e3]
      simp only [FS.put, List.filter_append, filter_old hw e2 hd, List.cons_append]
    · intro x hx
      rcases List.mem_cons.1 hx with rfl | hx
      · exact ⟨hd, .inl rfl⟩
      · exact e6 x (List.mem_filter.1 hx).1

theorem Busy.removed {posix v0 f v} (hw : v0.fs.Wf) (h : Busy posix v0 f v) :
    Good posix v0 (fun _ => False) (delete f v).2 := by
  refine ⟨h.1.past_snoc, ?_⟩
  rcases h.1.state with ⟨e, _⟩ | ⟨d, ex, nodes, e1, e2, e3, e4, e5, e6⟩
  · rw [h.2] at e; cases e
  · have hd : f.1 = d := by rw [h.2] at e1; exact Option.some.inj e1
    right
    refine ⟨d, ex.filter (fun x => x.1 ≠ f), nodes, e1, e2, ?_, e4, e5, ?_⟩
    · show v.fs.remove f = _
      rw [e3]
      simp only [FS.remove, List.filter_append, filter_old hw e2 hd]
    · intro x hx
      have h1 := e6 x (List.mem_filter.1 hx).1
      refine ⟨h1.1, ?_⟩
      rcases h1.2 with h2 | h2
      · have := (List.mem_filter.1 hx).2
        simp only [ne_eq, decide_eq_true_eq] at this
        exact absurd h2 this
      · exact .inr h2

theorem Busy.registered {v0 f v} (h : Busy false v0 f v) :
    Good false v0 (fun _ => False) (deleteOnExit (.file f) v).2 := by
  refine ⟨h.1.past, ?_⟩
  rcases h.1.state with ⟨e, _⟩ | ⟨d, ex, nodes, e1, e2, e3, e4, e5, e6⟩
  · rw [h.2] at e; cases e
  · have hd : f.1 = d := by rw [h.2] at e1; exact Option.some.inj e1
    right
    refine ⟨d, ex, nodes ++ [f], e1, e2, e3, ?_, ?_, ?_⟩
    · show v.onExit ++ [Node.file f] = _
      rw [e4]; simp
    · intro g hg
      rcases List.mem_append.1 hg with hg | hg
      · exact e5 g hg
      · simp only [List.mem_singleton] at hg; rw [hg]; exact hd
    · intro x hx
      have h1 := e6 x hx
      refine ⟨h1.1, .inr ⟨rfl, ?_⟩⟩
      rcases h1.2 with h2 | h2
      · rw [h2]; simp
      · exact List.mem_append_left _ h2.2

theorem busy_mayFail {posix v0 f} (env : Env) (e : Exc) :
    After (L.mayFail env e) (Busy posix v0 f) (Busy posix v0 f) := by
  intro v h
  refine ⟨good_mayFail env e v h.1, ?_⟩
  unfold L.mayFail
  split <;> exact h.2

theorem busy_openOut {posix v0 f} (hw : v0.fs.Wf) (env : Env) :
    After (openOut env f) (Busy posix v0 f) (Busy posix v0 f) := by
  refine After.bind (busy_mayFail env _) fun _ => ?_
  intro v h
  change Busy posix v0 f (((if f.1 ∈ v.fs.dirs then L.change (fun s => s.put f []) else L.throw .fileNotFound : L Unit)) v).2
  by_cases hd : f.1 ∈ v.fs.dirs
  · rw [if_pos hd]; exact h.put hw [] rfl rfl rfl rfl
  · rw [if_neg hd]; exact h

theorem busy_write {posix v0 f} (hw : v0.fs.Wf) (env : Env) (c : Bytes) :
    After (write env f c) (Busy posix v0 f) (Busy posix v0 f) := by
  intro v h
  unfold write
  simp only
  split
  · exact h.put hw _ rfl rfl rfl rfl
  · exact h.put hw _ rfl rfl rfl rfl

theorem busy_readLoop {posix v0 f} (hw : v0.fs.Wf) (env : Env) (cs : List Bytes) :
    After (readLoop env f cs) (Busy posix v0 f) (Busy posix v0 f) := by
  induction cs with
  | nil => exact busy_mayFail env _
  | cons c cs ih =>
    refine After.bind (busy_mayFail env _) fun _ => ?_
    by_cases hc : 0 < c.length
    · simp only [if_pos hc]; exact After.bind (busy_write hw env c) fun _ => ih
    · simp only [if_neg hc]; exact After.pure _ _

theorem busy_copy {posix v0 f} (hw : v0.fs.Wf) (env : Env) (is : Option (List Bytes)) :
    After (copy env is f) (Busy posix v0 f) (Busy posix v0 f) := by
  refine After.finallyE (Q := Busy posix v0 f) ?_ ?_
  · refine After.bind (busy_openOut hw env) fun _ => ?_
    refine After.finallyE (Q := Busy posix v0 f) ?_ (busy_mayFail env _)
    cases is with
    | none => exact After.throw _ _
    | some cs => exact busy_readLoop hw env cs
  · cases is with
    | none => exact After.throw _ _
    | some cs => exact busy_mayFail env _

/-- The exceptions which `copy` may throw. -/
def Caught (r : Except Exc α) : Prop := ∀ e, r = .error e → e.isIO = true ∨ e = .nullPointer

theorem caught_bind {m : L α} {k : α → L β} (h : ∀ v, Caught (m v).1) (hk : ∀ a v, Caught (k a v).1) (v : Vm) :
    Caught ((m >>= k) v).1 := by
  have h1 := h v
  show Caught (L.bind m k v).1
  unfold L.bind
  rcases e : m v with ⟨r, v'⟩
  rw [e] at h1
  cases r with
  | ok a => exact hk a v'
  | error x => intro y hy; cases hy; exact h1 _ rfl

theorem caught_finally {m : L α} {f : L Unit} (h : ∀ v, Caught (m v).1) (hf : ∀ v, Caught (f v).1) (v : Vm) :
    Caught (L.finallyE m f v).1 := by
  have h1 := h v
  unfold L.finallyE
  rcases e : m v with ⟨r, v'⟩
  rw [e] at h1
  have h2 := hf v'
  rcases e2 : f v' with ⟨r2, v2⟩
  rw [e2] at h2
  cases r2 with
  | ok _ => simpa [e2] using h1
  | error x => intro y hy; simp only [e2] at hy; cases hy; exact h2 _ rfl

theorem caught_withClose {m : L α} {f : L Unit} (h : ∀ v, Caught (m v).1) (hf : ∀ v, Caught (f v).1) (v : Vm) :
    Caught (L.withClose m f v).1 := by
  have h1 := h v
  unfold L.withClose
  rcases e : m v with ⟨r, v'⟩
  rw [e] at h1
  cases r with
  | error x => intro y hy; cases hy; exact h1 _ rfl
  | ok a =>
    have h2 := hf v'
    rcases e2 : f v' with ⟨r2, v2⟩
    rw [e2] at h2
    cases r2 with
    | ok _ => intro y hy; simp [e2] at hy
    | error x => intro y hy; simp only [e2] at hy; cases hy; exact h2 _ rfl

theorem caught_mayFail (env : Env) {e : Exc} (he : e.isIO = true) (v : Vm) : Caught (L.mayFail env e v).1 := by
  unfold L.mayFail
  split
  · intro y hy; cases hy; exact .inl he
  · intro y hy; cases hy

theorem caught_ok {α} (a : α) : Caught (.ok a : Except Exc α) := fun _ h => by cases h

theorem caught_openOut (env : Env) (f : JFile) (v : Vm) : Caught (openOut env f v).1 := by
  refine caught_bind (caught_mayFail env rfl) (fun _ w => ?_) v
  change Caught (((if f.1 ∈ w.fs.dirs then L.change (fun s => s.put f []) else L.throw .fileNotFound : L Unit)) w).1
  by_cases hd : f.1 ∈ w.fs.dirs
  · rw [if_pos hd]; exact caught_ok _
  · rw [if_neg hd]; intro y hy; cases hy; exact .inl rfl

theorem caught_readLoop (env : Env) (f : JFile) (cs : List Bytes) (v : Vm) : Caught (readLoop env f cs v).1 := by
  induction cs generalizing v with
  | nil => exact caught_mayFail env rfl v
  | cons c cs ih =>
    refine caught_bind (caught_mayFail env rfl) (fun _ => ?_) v
    by_cases hc : 0 < c.length
    · simp only [if_pos hc]
      refine caught_bind (fun w => ?_) (fun _ w => ih w)
      unfold write
      simp only
      split
      · intro y hy; cases hy; exact .inl rfl
      · exact caught_ok _
    · simp only [if_neg hc]; exact fun w => caught_ok _

theorem caught_copy (env : Env) (is : Option (List Bytes)) (f : JFile) (v : Vm) : Caught (copy env is f v).1 := by
  refine caught_finally (caught_bind (caught_openOut env f) (fun _ => caught_finally ?_ (caught_mayFail env rfl))) ?_ v
  · cases is with
    | none => intro w y hy; cases hy; exact .inr rfl
    | some cs => exact caught_readLoop env f cs
  · cases is with
    | none => intro w y hy; cases hy; exact .inr rfl
    | some cs => exact caught_mayFail env rfl

/-- After a failed copy the file is gone and the exception is an input or output exception. -/
theorem extract_spec {posix v0 f} (hw : v0.fs.Wf) (env : Env) (path : JString) (v : Vm) (h : Busy posix v0 f v) :
    ((extract env path f v).1 = .ok () ∧ Busy posix v0 f (extract env path f v).2) ∨
    ((∃ e, (extract env path f v).1 = .error e ∧ e.isIO = true) ∧
      Good posix v0 (fun _ => False) (extract env path f v).2) := by
  have h1 : After (L.withClose (copy env (env.resource path) f) (closeResource env (env.resource path)))
      (Busy posix v0 f) (Busy posix v0 f) := by
    refine After.withClose (busy_copy hw env _) ?_
    cases env.resource path with
    | none => exact After.pure _ _
    | some cs => exact busy_mayFail env _
  have h2 := caught_withClose (caught_copy env (env.resource path) f)
    (f := closeResource env (env.resource path)) (by
        cases env.resource path with
        | none => intro w; exact caught_ok _
        | some cs => exact caught_mayFail env rfl) v
  have h3 := h1 v h
  unfold extract L.catchE
  simp only
  rcases e : L.withClose (copy env (env.resource path) f) (closeResource env (env.resource path)) v with ⟨r, v'⟩
  rw [e] at h2 h3
  cases r with
  | ok a => exact .inl ⟨rfl, h3⟩
  | error x =>
    right
    by_cases hx : x.isIO = true
    · simp only [if_pos hx]
      exact ⟨⟨x, rfl, hx⟩, h3.removed hw⟩
    · have h4 : x = .nullPointer := (h2 x rfl).resolve_left hx
      subst h4
      simp only [if_neg hx, if_true]
      exact ⟨⟨.fileNotFound, rfl, rfl⟩, h3.removed hw⟩

theorem bind_ok {m : L α} {k : α → L β} {v v' : Vm} {a : α} (h : m v = (.ok a, v')) : (m >>= k) v = k a v' := by
  show L.bind m k v = _
  unfold L.bind; rw [h]

theorem bind_error {m : L α} {k : α → L β} {v v' : Vm} {e : Exc} (h : m v = (.error e, v')) : (m >>= k) v = (.error e, v') := by
  show L.bind m k v = _
  unfold L.bind; rw [h]

theorem tempDirectory_old (env : Env) (v : Vm) {d : JString} (hd : v.temporaryDir = some d) :
    tempDirectory env v = (.ok d, v) := by
  unfold tempDirectory
  refine (bind_ok (m := L.get) (v' := v) (a := v) rfl).trans ?_
  simp only [hd]
  rfl

theorem tempDirectory_fails (env : Env) (v : Vm) (hd : v.temporaryDir = none)
    (hf : env.fault v.step = true ∨ env.tempName v.step ∈ v.fs.dirs) :
    tempDirectory env v = (.error .io, { v with step := v.step + 1 }) := by
  unfold tempDirectory
  refine (bind_ok (m := L.get) (v' := v) (a := v) rfl).trans ?_
  simp only [hd]
  refine (bind_error (e := .io) (v' := { v with step := v.step + 1 }) ?_).trans ?_
  · unfold createTempDirectory
    simp only [if_pos hf]
  · simp only [hd]

theorem tempDirectory_new (env : Env) (v : Vm) (hd : v.temporaryDir = none)
    (hf : ¬(env.fault v.step = true ∨ env.tempName v.step ∈ v.fs.dirs)) :
    tempDirectory env v = (.ok (env.tempName v.step), { v with
      fs := v.fs.mkdir (env.tempName v.step), past := v.past ++ [v.fs], step := v.step + 1,
      temporaryDir := some (env.tempName v.step), onExit := v.onExit ++ [.dir (env.tempName v.step)] }) := by
  unfold tempDirectory
  refine (bind_ok (m := L.get) (v' := v) (a := v) rfl).trans ?_
  simp only [hd]
  refine (bind_ok (a := env.tempName v.step) (v' := { v with
      fs := v.fs.mkdir (env.tempName v.step), past := v.past ++ [v.fs], step := v.step + 1 }) ?_).trans ?_
  · unfold createTempDirectory
    simp only [if_neg hf]
  · rfl

theorem tempDirectory_spec {posix v0} (env : Env) (v : Vm) (h : Good posix v0 (fun _ => False) v) :
    Good posix v0 (fun _ => False) (tempDirectory env v).2 ∧
      ∀ d, (tempDirectory env v).1 = .ok d → (tempDirectory env v).2.temporaryDir = some d := by
  rcases hd : v.temporaryDir with _ | d
  · by_cases hf : env.fault v.step = true ∨ env.tempName v.step ∈ v.fs.dirs
    · rw [tempDirectory_fails env v hd hf]
      exact ⟨h.step rfl rfl rfl rfl, fun d hd => by cases hd⟩
    · rw [tempDirectory_new env v hd hf]
      refine ⟨⟨h.past_snoc, ?_⟩, fun d hd => by cases hd; rfl⟩
      rcases h.state with ⟨e1, e2, e3⟩ | ⟨d, ex, nodes, e1, _⟩
      · right
        refine ⟨env.tempName v.step, [], [], rfl, ?_, ?_, ?_, ?_, ?_⟩
        · rw [← e2]; exact fun hx => hf (.inr hx)
        · simp only [FS.mkdir, e2, List.nil_append]
        · rw [← e3]; rfl
        · intro f hf; cases hf
        · intro f hf; cases hf
      · rw [hd] at e1; cases e1
  · rw [tempDirectory_old env v hd]
    exact ⟨h, fun d' hd' => by cases hd'; exact hd⟩

theorem busy_load {posix v0 f} (env : Env) (g : JFile) : After (load env g) (Busy posix v0 f) (Busy posix v0 f) := by
  intro v h
  unfold load
  split
  · split
    · exact ⟨h.1.step rfl rfl rfl rfl, h.2⟩
    · exact h
  · exact h

theorem good_weaken {posix v0} {T : JFile → Prop} {v} (h : Good posix v0 (fun _ => False) v) : Good posix v0 T v := by
  refine ⟨h.past, ?_⟩
  rcases h.state with h1 | ⟨d, ex, nodes, e1, e2, e3, e4, e5, e6⟩
  · exact .inl h1
  · exact .inr ⟨d, ex, nodes, e1, e2, e3, e4, e5, fun x hx => ⟨(e6 x hx).1, (e6 x hx).2.elim False.elim .inr⟩⟩

theorem good_loadResource {v0} (hw : v0.fs.Wf) (env : Env) (path : JString) :
    After (loadResource env path) (Good env.posix v0 (fun _ => False)) (Good env.posix v0 (fun _ => False)) := by
  intro v h
  unfold loadResource
  by_cases hp : path.head? ≠ some '/'
  · rw [if_pos hp]; exact h
  · rw [if_neg hp]
    rcases hfn : fileName path with _ | fn
    · exact h
    · simp only
      by_cases hl : fn.length < 3
      · rw [if_pos hl]; exact h
      · rw [if_neg hl]
        show Good _ _ _ (L.bind (tempDirectory env) _ v).2
        have ht := tempDirectory_spec env v h
        unfold L.bind
        rcases e : tempDirectory env v with ⟨r, v1⟩
        rw [e] at ht
        cases r with
        | error x => exact ht.1
        | ok d =>
          have hb : Busy env.posix v0 (d, fn) v1 := ⟨good_weaken ht.1, ht.2 d rfl⟩
          have hx := extract_spec hw env path v1 hb
          show Good _ _ _ (L.bind (extract env path (d, fn)) _ v1).2
          unfold L.bind
          rcases e2 : extract env path (d, fn) v1 with ⟨r2, v2⟩
          rw [e2] at hx
          cases r2 with
          | error x =>
            rcases hx with ⟨h1, _⟩ | ⟨_, h1⟩
            · cases h1
            · exact h1
          | ok u =>
            rcases hx with ⟨_, h1⟩ | ⟨⟨e, h1, _⟩, _⟩
            · refine After.finallyE (busy_load env _) ?_ v2 h1
              intro w hw'
              by_cases hp : env.posix = true
              · rw [if_pos hp]; exact hw'.removed hw
              · rw [if_neg hp]
                rw [Bool.not_eq_true] at hp
                rw [hp] at hw' ⊢
                exact hw'.registered
            · cases h1

theorem After.catchE {m : L α} {k : Exc → L α} {P : Vm → Prop} (h : After m P P) (hk : ∀ e, After (k e) P P) :
    After (L.catchE m k) P P := by
  intro v hv
  have h1 := h v hv
  unfold L.catchE
  rcases e : m v with ⟨r, v'⟩
  rw [e] at h1
  cases r with
  | ok a => exact h1
  | error x => exact hk x v' h1

theorem good_jarLoop {v0} (hw : v0.fs.Wf) (env : Env) (path : JString) (ns : List JString) :
    After (jarLoop env path ns) (Good env.posix v0 (fun _ => False)) (Good env.posix v0 (fun _ => False)) := by
  induction ns with
  | nil => exact After.pure _ _
  | cons n ns ih =>
    refine After.bind (After.catchE (After.bind (good_loadResource hw env _) fun _ => After.pure _ _) fun e => ?_) fun ok => ?_
    · by_cases he : e.isIO = true
      · simp only [if_pos he]; exact After.pure _ _
      · simp only [if_neg he]; exact After.throw _ _
    · cases ok
      · exact ih
      · exact After.pure _ _

theorem after_get {P : Vm → Prop} {k : Vm → L α} (h : ∀ w, After (k w) P P) : After (L.get >>= k) P P :=
  After.bind (fun _ h => h) h

theorem good_jar {v0} (hw : v0.fs.Wf) (env : Env) (path : JString) :
    After (loadLibraryFromJar env path) (Good env.posix v0 (fun _ => False)) (Good env.posix v0 (fun _ => False)) := by
  unfold loadLibraryFromJar
  split
  · exact After.throw _ _
  · exact after_get fun w => good_jarLoop hw env _ _

theorem good_local {v0 posix T} (env : Env) (path : JString) :
    After (loadLocalPath env path) (Good posix v0 T) (Good posix v0 T) := by
  refine after_get fun w => ?_
  generalize fullNames w.libraryName = ns
  induction ns with
  | nil => exact After.pure _ _
  | cons n ns ih =>
    refine after_get fun w => ?_
    split
    · refine After.bind (fun v h => ?_) fun _ => After.pure _ _
      unfold load
      split
      · split
        · exact h.step rfl rfl rfl rfl
        · exact h
      · exact h
    · exact ih

theorem good_setName {v0 posix T} (n : JString) : After (setLibraryName n) (Good posix v0 T) (Good posix v0 T) :=
  fun _ h => h.step rfl rfl rfl rfl

theorem After.orElse {P : Vm → Prop} (b : Bool) {m : L Bool} (h : After m P P) : After (BoofCPP.orElse b m) P P := by
  unfold BoofCPP.orElse
  split
  · exact After.pure _ _
  · exact h

theorem good_staticInit {v0} (hw : v0.fs.Wf) (env : Env) :
    After (BoofCPP.staticInit env) (Good env.posix v0 (fun _ => False)) (Good env.posix v0 (fun _ => False)) := by
  refine After.bind (fun v h => ?_) fun b => After.catchE (After.bind ?_ fun _ => After.pure _ _) fun e => ?_
  · unfold BoofCPP.loadLibrary
    split
    · exact h.step rfl rfl rfl rfl
    · exact h
  · refine After.bind (good_setName _) fun _ => After.bind (After.orElse _ (good_local env _)) fun _ =>
      After.bind (After.orElse _ (good_local env _)) fun _ => After.bind (After.orElse _ (good_jar hw env _)) fun _ =>
      After.bind (After.orElse _ (good_jar hw env _)) fun _ => After.bind (After.orElse _ (good_jar hw env _)) fun b => ?_
    cases b
    · exact After.bind (fun v h => h.step rfl rfl rfl rfl) fun _ => After.pure _ _
    · exact After.bind (After.pure () _) fun _ => After.pure _ _
  · by_cases he : e.isException = true
    · simp only [if_pos he]; exact fun v h => h.step rfl rfl rfl rfl
    · simp only [if_neg he]; exact After.throw _ _

theorem good_history {v0} (hw : v0.fs.Wf) (env : Env) (calls : List LoaderCall) (v : Vm)
    (h : Good env.posix v0 (fun _ => False) v) : Good env.posix v0 (fun _ => False) (loaderHistory env calls v) := by
  induction calls generalizing v with
  | nil => exact h
  | cons c cs ih =>
    refine ih _ ?_
    cases c with
    | setName n => exact good_setName n v h
    | localPath d => exact good_local env d v h
    | jar p => exact good_jar hw env p v h
    | staticInit => exact good_staticInit hw env v h

theorem good_start {posix v0} (h : v0.temporaryDir = none) : Good posix v0 (fun _ => False) v0 :=
  ⟨⟨[], by simp, fun s hs => by cases hs⟩, .inl ⟨h, rfl, rfl⟩⟩

/-- Deleting the files of `nodes`. -/
theorem foldl_remove (nodes : List JFile) (s : FS) :
    (nodes.map Node.file).foldl removeNode s = ⟨s.dirs, s.files.filter (fun x => x.1 ∉ nodes)⟩ := by
  induction nodes generalizing s with
  | nil => simp only [List.map_nil, List.foldl_nil, List.not_mem_nil, not_false_eq_true, decide_true]
           rw [List.filter_eq_self.2 (fun _ _ => rfl)]
  | cons f nodes ih =>
    rw [List.map_cons, List.foldl_cons, ih]
    simp only [removeNode, FS.remove, List.filter_filter, FS.mk.injEq, true_and]
    apply List.filter_congr
    intro x _
    simp only [List.mem_cons, not_or, Bool.decide_and, ne_eq, decide_not]
    rw [Bool.and_comm]

theorem Good.exit {posix v0 v} (hw : v0.fs.Wf) (h : Good posix v0 (fun _ => False) v) : exit v = exit v0 := by
  rcases h.state with ⟨_, e2, e3⟩ | ⟨d, ex, nodes, e1, e2, e3, e4, e5, e6⟩
  · unfold NativeUtils.exit; rw [e2, e3]
  · unfold NativeUtils.exit
    rw [e4, List.reverse_append, List.foldl_append, List.reverse_cons, List.foldl_append, ← List.map_reverse, foldl_remove, e3]
    have h1 : (ex ++ v0.fs.files).filter (fun x => x.1 ∉ nodes.reverse) = v0.fs.files := by
      rw [List.filter_append]
      have a1 : ex.filter (fun x => x.1 ∉ nodes.reverse) = [] := by
        apply List.filter_eq_nil_iff.2
        intro x hx
        have := (e6 x hx).2.elim False.elim And.right
        simp [this]
      have a2 : v0.fs.files.filter (fun x => x.1 ∉ nodes.reverse) = v0.fs.files := by
        apply List.filter_eq_self.2
        intro x hx
        have := hw x hx
        simp only [List.mem_reverse, decide_eq_true_eq]
        intro hn
        rw [e5 _ hn] at this
        exact e2 this
      rw [a1, a2, List.nil_append]
    simp only [h1, List.foldl_cons, List.foldl_nil]
    congr 1
    show FS.rmdir _ d = _
    unfold FS.rmdir
    rw [if_neg]
    · have : List.filter (fun x => x ≠ d) (d :: v0.fs.dirs) = v0.fs.dirs := by
        rw [List.filter_cons_of_neg (by simp)]
        apply List.filter_eq_self.2
        intro x hx
        simp only [ne_eq, decide_eq_true_eq]
        rintro rfl
        exact e2 hx
      simp only [this]
    · simp only [List.any_eq_true, decide_eq_true_eq, not_exists, not_and]
      rintro x hx rfl
      exact e2 (hw x hx)

end Loader
end Boof
