import Verif.Proofs.Loader
/-
What the loader loads.
-/
namespace Boof
open NativeUtils
namespace Loader

/-- What copying does not change. -/
def Kept (v v' : Vm) : Prop :=
  v'.temporaryDir = v.temporaryDir ∧ v'.fs.dirs = v.fs.dirs ∧ v'.loaded = v.loaded ∧ v'.libraryName = v.libraryName ∧
    v'.messages = v.messages

theorem Kept.refl (v : Vm) : Kept v v := ⟨rfl, rfl, rfl, rfl, rfl⟩

theorem Kept.trans {a b c : Vm} (h : Kept a b) (h' : Kept b c) : Kept a c :=
  ⟨h'.1.trans h.1, h'.2.1.trans h.2.1, h'.2.2.1.trans h.2.2.1, h'.2.2.2.1.trans h.2.2.2.1, h'.2.2.2.2.trans h.2.2.2.2⟩

theorem kept_mayFail (v : Vm) (env : Env) (e : Exc) : After (L.mayFail env e) (Kept v) (Kept v) := by
  intro w h
  unfold L.mayFail
  split <;> exact h.trans ⟨rfl, rfl, rfl, rfl, rfl⟩

theorem kept_openOut (v : Vm) (env : Env) (f : JFile) : After (openOut env f) (Kept v) (Kept v) := by
  refine After.bind (kept_mayFail v env _) fun _ => ?_
  intro w h
  change Kept v (((if f.1 ∈ w.fs.dirs then L.change (fun s => s.put f []) else L.throw .fileNotFound : L Unit)) w).2
  by_cases hd : f.1 ∈ w.fs.dirs
  · rw [if_pos hd]; exact h.trans ⟨rfl, rfl, rfl, rfl, rfl⟩
  · rw [if_neg hd]; exact h

theorem kept_readLoop (v : Vm) (env : Env) (f : JFile) (cs : List Bytes) :
    After (readLoop env f cs) (Kept v) (Kept v) := by
  induction cs with
  | nil => exact kept_mayFail v env _
  | cons c cs ih =>
    refine After.bind (kept_mayFail v env _) fun _ => ?_
    by_cases hc : 0 < c.length
    · simp only [if_pos hc]
      refine After.bind (fun w h => ?_) fun _ => ih
      unfold write
      simp only
      split <;> exact h.trans ⟨rfl, rfl, rfl, rfl, rfl⟩
    · simp only [if_neg hc]; exact After.pure _ _

theorem kept_copy (v : Vm) (env : Env) (is : Option (List Bytes)) (f : JFile) :
    After (copy env is f) (Kept v) (Kept v) := by
  refine After.finallyE (Q := Kept v) ?_ ?_
  · refine After.bind (kept_openOut v env f) fun _ => ?_
    refine After.finallyE (Q := Kept v) ?_ (kept_mayFail v env _)
    cases is with
    | none => exact After.throw _ _
    | some cs => exact kept_readLoop v env f cs
  · cases is with
    | none => exact After.throw _ _
    | some cs => exact kept_mayFail v env _

theorem kept_extract (v : Vm) (env : Env) (path : JString) (f : JFile) :
    After (extract env path f) (Kept v) (Kept v) := by
  refine After.catchE (After.withClose (kept_copy v env _ f) ?_) fun e => ?_
  · cases env.resource path with
    | none => exact After.pure _ _
    | some cs => exact kept_mayFail v env _
  · have hdel : After (delete f) (Kept v) (Kept v) := fun w h => h.trans ⟨rfl, rfl, rfl, rfl, rfl⟩
    by_cases h1 : e.isIO = true
    · simp only [if_pos h1]; exact After.bind hdel fun _ => After.throw _ _
    · by_cases h2 : e = .nullPointer
      · simp only [if_neg h1, if_pos h2]; exact After.bind hdel fun _ => After.throw _ _
      · simp only [if_neg h1, if_neg h2]; exact After.throw _ _

/-! ### What a normal end says -/

theorem bind_inv {m : L α} {k : α → L β} {v v'' : Vm} {b : β} (h : (m >>= k) v = (.ok b, v'')) :
    ∃ a v', m v = (.ok a, v') ∧ k a v' = (.ok b, v'') := by
  have h' : L.bind m k v = (.ok b, v'') := h
  unfold L.bind at h'
  rcases e : m v with ⟨r, v'⟩
  rw [e] at h'
  cases r with
  | ok a => exact ⟨a, v', rfl, h'⟩
  | error x => cases h'

theorem finally_inv {m : L α} {f : L Unit} {v v'' : Vm} {a : α} (h : L.finallyE m f v = (.ok a, v'')) :
    ∃ v', m v = (.ok a, v') ∧ f v' = (.ok (), v'') := by
  unfold L.finallyE at h
  rcases e : m v with ⟨r, v'⟩
  rw [e] at h
  simp only at h
  rcases e2 : f v' with ⟨r2, v2⟩
  rw [e2] at h
  cases r2 with
  | ok u => simp only at h; cases h; exact ⟨v', rfl, e2⟩
  | error x => cases h

theorem withClose_inv {m : L α} {f : L Unit} {v v'' : Vm} {a : α} (h : L.withClose m f v = (.ok a, v'')) :
    ∃ v', m v = (.ok a, v') ∧ f v' = (.ok (), v'') := by
  unfold L.withClose at h
  rcases e : m v with ⟨r, v'⟩
  rw [e] at h
  cases r with
  | error x => cases h
  | ok b =>
    simp only at h
    rcases e2 : f v' with ⟨r2, v2⟩
    rw [e2] at h
    cases r2 with
    | ok u => simp only at h; cases h; exact ⟨v', rfl, e2⟩
    | error x => cases h

theorem mayFail_fs (env : Env) (e : Exc) (v : Vm) : (L.mayFail env e v).2.fs = v.fs := by
  unfold L.mayFail
  split <;> rfl

theorem mayFail_fs' {env : Env} {e : Exc} {v v' : Vm} {r} (h : L.mayFail env e v = (r, v')) : v'.fs = v.fs := by
  rw [← mayFail_fs env e v, h]

theorem read_put (s : FS) (f : JFile) (b : Bytes) : (s.put f b).read f = some b := by
  unfold FS.read FS.put
  exact List.lookup_cons_self

theorem write_inv {env : Env} {f : JFile} {c : Bytes} {v v' : Vm} (h : write env f c v = (.ok (), v')) :
    v'.fs.read f = some ((v.fs.read f).getD [] ++ c) := by
  unfold write at h
  simp only at h
  split at h
  · cases h
  · cases h; exact read_put _ _ _

theorem readLoop_inv {env : Env} {f : JFile} (cs : List Bytes) (hc : ∀ c ∈ cs, c ≠ []) {v v' : Vm} {b : Bytes}
    (hb : v.fs.read f = some b) (h : readLoop env f cs v = (.ok (), v')) : v'.fs.read f = some (b ++ cs.flatten) := by
  induction cs generalizing v b with
  | nil => rw [mayFail_fs' h, hb]; simp
  | cons c cs ih =>
    obtain ⟨_, v1, e1, e2⟩ := bind_inv h
    have hlen : 0 < c.length := List.length_pos_iff.2 (hc c (by simp))
    rw [if_pos hlen] at e2
    obtain ⟨_, v2, e3, e4⟩ := bind_inv e2
    have := write_inv e3
    rw [mayFail_fs' e1, hb, Option.getD_some] at this
    rw [ih (fun c hc' => hc c (List.mem_cons_of_mem _ hc')) this e4, List.flatten_cons, List.append_assoc]

theorem openOut_inv {env : Env} {f : JFile} {v v' : Vm} (h : openOut env f v = (.ok (), v')) : v'.fs.read f = some [] := by
  obtain ⟨_, v1, _, e2⟩ := bind_inv h
  obtain ⟨w, v2, e3, e4⟩ := bind_inv e2
  split at e4
  · cases e4; exact read_put _ _ _
  · cases e4

theorem copy_inv {env : Env} {is : Option (List Bytes)} (hc : ∀ cs, is = some cs → ∀ c ∈ cs, c ≠ []) {f : JFile} {v v' : Vm}
    (h : copy env is f v = (.ok (), v')) : ∃ cs, is = some cs ∧ v'.fs.read f = some cs.flatten := by
  obtain ⟨v1, e1, e2⟩ := finally_inv h
  obtain ⟨_, v2, e3, e4⟩ := bind_inv e1
  obtain ⟨v3, e5, e6⟩ := finally_inv e4
  cases is with
  | none => cases e2
  | some cs =>
    refine ⟨cs, rfl, ?_⟩
    have := readLoop_inv cs (hc cs rfl) (openOut_inv e3) e5
    rw [mayFail_fs' e2, mayFail_fs' e6, this, List.nil_append]

theorem extract_inv {env : Env} (hc : ReadContract env) {path : JString} {f : JFile} {v v' : Vm}
    (h : extract env path f v = (.ok (), v')) : ∃ b, env.contents path = some b ∧ v'.fs.read f = some b := by
  have h' : L.withClose (copy env (env.resource path) f) (closeResource env (env.resource path)) v = (.ok (), v') := by
    unfold extract L.catchE at h
    simp only at h
    rcases e : L.withClose (copy env (env.resource path) f) (closeResource env (env.resource path)) v with ⟨r, w⟩
    rw [e] at h
    cases r with
    | ok u => exact h
    | error x =>
      simp only at h
      split at h
      · cases h
      · split at h <;> cases h
  obtain ⟨v1, e1, e2⟩ := withClose_inv h'
  obtain ⟨cs, e3, e4⟩ := copy_inv (fun cs hcs => hc path cs hcs) e1
  refine ⟨cs.flatten, by unfold Env.contents; rw [e3]; rfl, ?_⟩
  rw [e3] at e2
  rw [mayFail_fs' e2, e4]

/-! ### Loading one resource -/

/-- The end of `_loadLibraryFromJar`. -/
theorem load_finally_run (env : Env) (f : JFile) (v : Vm) {b : Bytes} (hb : v.fs.read f = some b) :
    ∃ v', Kept { v with loaded := if env.loadable b then v.loaded ++ [b] else v.loaded } v' ∧
      L.finallyE (load env f) (if env.posix then delete f else deleteOnExit (.file f)) v =
        (if env.loadable b then .ok () else .error .link, v') := by
  unfold L.finallyE load
  rw [hb]
  by_cases hl : env.loadable b = true <;> by_cases hp : env.posix = true <;>
    simp only [hl, hp, if_true, if_false, Bool.false_eq_true]
  all_goals exact ⟨_, by unfold Kept; exact ⟨rfl, rfl, rfl, rfl, rfl⟩, rfl⟩

theorem tempDirectory_loaded (env : Env) (v : Vm) :
    (tempDirectory env v).2.loaded = v.loaded ∧ (tempDirectory env v).2.libraryName = v.libraryName ∧
      (tempDirectory env v).2.messages = v.messages := by
  rcases hd : v.temporaryDir with _ | d
  · by_cases hf : env.fault v.step = true ∨ env.tempName v.step ∈ v.fs.dirs
    · rw [tempDirectory_fails env v hd hf]; exact ⟨rfl, rfl, rfl⟩
    · rw [tempDirectory_new env v hd hf]; exact ⟨rfl, rfl, rfl⟩
  · rw [tempDirectory_old env v hd]; exact ⟨rfl, rfl, rfl⟩

/-- What a call of `_loadLibraryFromJar` loads. -/
theorem loadResource_loaded (env : Env) (hc : ReadContract env) (path : JString) (v : Vm) :
    (loadResource env path v).2.libraryName = v.libraryName ∧ (loadResource env path v).2.messages = v.messages ∧
    ((∃ b, (loadResource env path v).1 = .ok () ∧ env.contents path = some b ∧ env.loadable b = true ∧
        (loadResource env path v).2.loaded = v.loaded ++ [b]) ∨
     (∃ e, (loadResource env path v).1 = .error e ∧ (loadResource env path v).2.loaded = v.loaded)) := by
  unfold loadResource
  by_cases hp : path.head? ≠ some '/'
  · rw [if_pos hp]; exact ⟨rfl, rfl, .inr ⟨_, rfl, rfl⟩⟩
  · rw [if_neg hp]
    rcases hfn : fileName path with _ | fn
    · exact ⟨rfl, rfl, .inr ⟨_, rfl, rfl⟩⟩
    · simp only
      by_cases hl : fn.length < 3
      · rw [if_pos hl]; exact ⟨rfl, rfl, .inr ⟨_, rfl, rfl⟩⟩
      · rw [if_neg hl]
        have ht := tempDirectory_loaded env v
        rcases e : tempDirectory env v with ⟨r, v1⟩
        rw [e] at ht
        cases r with
        | error x => rw [bind_error e]; exact ⟨ht.2.1, ht.2.2, .inr ⟨_, rfl, ht.1⟩⟩
        | ok d =>
          rw [bind_ok e]
          have hk := kept_extract v1 env path (d, fn) v1 (Kept.refl v1)
          rcases e2 : extract env path (d, fn) v1 with ⟨r2, v2⟩
          rw [e2] at hk
          cases r2 with
          | error x =>
            rw [bind_error e2]
            exact ⟨hk.2.2.2.1.trans ht.2.1, hk.2.2.2.2.trans ht.2.2, .inr ⟨_, rfl, hk.2.2.1.trans ht.1⟩⟩
          | ok u =>
            rw [bind_ok e2]
            obtain ⟨b, h1, h2⟩ := extract_inv hc e2
            obtain ⟨v3, h3, h4⟩ := load_finally_run env (d, fn) v2 h2
            rw [h4]
            refine ⟨h3.2.2.2.1.trans (hk.2.2.2.1.trans ht.2.1), h3.2.2.2.2.trans (hk.2.2.2.2.trans ht.2.2), ?_⟩
            have h5 := h3.2.2.1
            simp only at h5
            by_cases hlo : env.loadable b = true
            · rw [if_pos hlo] at h5 ⊢
              exact .inl ⟨b, rfl, h1, hlo, by rw [h5, hk.2.2.1, ht.1]⟩
            · rw [if_neg hlo] at h5 ⊢
              exact .inr ⟨_, rfl, by rw [h5, hk.2.2.1, ht.1]⟩

/-! ### When nothing fails -/

section calm
variable {env : Env} (hf : ∀ n, env.fault n = false)
include hf

theorem mayFail_calm (e : Exc) (v : Vm) : L.mayFail env e v = (.ok (), { v with step := v.step + 1 }) := by
  unfold L.mayFail
  rw [hf]; rfl

theorem readLoop_calm (f : JFile) (cs : List Bytes) (v : Vm) : ∃ v', readLoop env f cs v = (.ok (), v') := by
  induction cs generalizing v with
  | nil => exact ⟨_, mayFail_calm hf _ v⟩
  | cons c cs ih =>
    unfold readLoop
    rw [bind_ok (mayFail_calm hf _ v)]
    by_cases hc : 0 < c.length
    · rw [if_pos hc]
      have hw : ∃ v', write env f c { v with step := v.step + 1 } = (.ok (), v') := by
        unfold write
        simp only [hf, Bool.false_eq_true, if_false]
        exact ⟨_, rfl⟩
      obtain ⟨v', e⟩ := hw
      rw [bind_ok e]
      exact ih v'
    · rw [if_neg hc]; exact ⟨_, rfl⟩

omit hf in
theorem finally_ok {m : L α} {f : L Unit} {v v1 v2 : Vm} {a : α} (h : m v = (.ok a, v1)) (h' : f v1 = (.ok (), v2)) :
    L.finallyE m f v = (.ok a, v2) := by
  unfold L.finallyE
  simp only [h, h']

omit hf in
theorem withClose_ok {m : L α} {f : L Unit} {v v1 v2 : Vm} {a : α} (h : m v = (.ok a, v1)) (h' : f v1 = (.ok (), v2)) :
    L.withClose m f v = (.ok a, v2) := by
  unfold L.withClose
  simp only [h, h']

theorem copy_calm (cs : List Bytes) (f : JFile) (v : Vm) (hd : f.1 ∈ v.fs.dirs) :
    ∃ v', copy env (some cs) f v = (.ok (), v') := by
  have h1 : openOut env f v = L.change (fun s => s.put f []) { v with step := v.step + 1 } := by
    unfold openOut
    rw [bind_ok (mayFail_calm hf _ v)]
    refine (bind_ok (m := L.get) (a := { v with step := v.step + 1 }) (v' := { v with step := v.step + 1 }) rfl).trans ?_
    rw [if_pos hd]
  obtain ⟨v2, h2⟩ := readLoop_calm hf f cs
    { v with step := v.step + 1, fs := v.fs.put f [], past := v.past ++ [v.fs] }
  exact ⟨_, finally_ok ((bind_ok h1).trans (finally_ok h2 (mayFail_calm hf _ v2))) (mayFail_calm hf _ _)⟩

theorem extract_calm {path : JString} {cs : List Bytes} (hr : env.resource path = some cs) (f : JFile) (v : Vm)
    (hd : f.1 ∈ v.fs.dirs) : ∃ v', extract env path f v = (.ok (), v') := by
  obtain ⟨v1, h1⟩ := copy_calm hf cs f v hd
  unfold extract L.catchE
  simp only [hr]
  rw [withClose_ok h1 (show closeResource env (some cs) v1 = _ from mayFail_calm hf _ v1)]
  exact ⟨_, rfl⟩

omit hf in
theorem extract_result (env : Env) (path : JString) (f : JFile) (v : Vm) :
    (extract env path f v).1 = .ok () ∨ ∃ e, (extract env path f v).1 = .error e ∧ e.isIO = true := by
  have h2 := caught_withClose (caught_copy env (env.resource path) f)
    (f := closeResource env (env.resource path)) (by
        cases env.resource path with
        | none => intro w; exact caught_ok _
        | some cs => exact caught_mayFail env rfl) v
  unfold extract L.catchE
  simp only
  rcases e : L.withClose (copy env (env.resource path) f) (closeResource env (env.resource path)) v with ⟨r, v'⟩
  rw [e] at h2
  cases r with
  | ok a => exact .inl rfl
  | error x =>
    right
    by_cases hx : x.isIO = true
    · simp only [if_pos hx]; exact ⟨x, rfl, hx⟩
    · have h4 : x = .nullPointer := (h2 x rfl).resolve_left hx
      subst h4
      simp only [if_neg hx, if_true]
      exact ⟨.fileNotFound, rfl, rfl⟩

end calm

/-- The temporary directory when nothing fails. -/
theorem tempDirectory_calm {env : Env} {v : Vm} (h : Calm env v) :
    ∃ d v', tempDirectory env v = (.ok d, v') ∧ v'.temporaryDir = some d ∧ d ∈ v'.fs.dirs := by
  rcases h.2 with ⟨h1, h2⟩ | ⟨d, h1, h2⟩
  · refine ⟨_, _, tempDirectory_new env v h1 ?_, rfl, ?_⟩
    · rw [h.1]; rintro (h | h)
      · cases h
      · exact h2 _ h
    · simp [FS.mkdir]
  · exact ⟨d, v, tempDirectory_old env v h1, h1, h2⟩

theorem loadResource_calm {env : Env} {v : Vm} (h : Calm env v) (hc : ReadContract env) {path fn : JString}
    (hp : path.head? = some '/') (hfn : fileName path = some fn) (hl : 3 ≤ fn.length) :
    ∃ r v', loadResource env path v = (r, v') ∧ Calm env v' ∧
      match env.contents path with
      | none => ∃ e, r = .error e ∧ e.isIO = true
      | some b => r = if env.loadable b then .ok () else .error .link := by
  obtain ⟨d, v1, e1, e2, e3⟩ := tempDirectory_calm h
  have hrun : loadResource env path v = (extract env path (d, fn) >>= fun _ =>
      L.finallyE (load env (d, fn)) (if env.posix then delete (d, fn) else deleteOnExit (.file (d, fn)))) v1 := by
    unfold loadResource
    rw [if_neg (by simp [hp]), hfn]
    simp only
    rw [if_neg (by omega), bind_ok e1]
  rw [hrun]
  have hk := kept_extract v1 env path (d, fn) v1 (Kept.refl v1)
  have hres := extract_result env path (d, fn) v1
  rcases hr : env.resource path with _ | cs
  · have hco : env.contents path = none := by unfold Env.contents; rw [hr]; rfl
    rw [hco]
    rcases e4 : extract env path (d, fn) v1 with ⟨r, v2⟩
    rw [e4] at hk hres
    cases r with
    | ok u =>
      obtain ⟨b, hb, _⟩ := extract_inv hc e4
      rw [hco] at hb; cases hb
    | error x =>
      rw [bind_error e4]
      refine ⟨_, _, rfl, ⟨h.1, .inr ⟨d, hk.1.trans e2, by rw [hk.2.1]; exact e3⟩⟩, x, rfl, ?_⟩
      rcases hres with h1 | ⟨e, h1, h2⟩
      · cases h1
      · cases h1; exact h2
  · obtain ⟨v2, e4⟩ := extract_calm h.1 hr (d, fn) v1 e3
    rw [e4] at hk
    obtain ⟨b, hb, hb2⟩ := extract_inv hc e4
    rw [bind_ok e4, hb]
    obtain ⟨v3, h3, h4⟩ := load_finally_run env (d, fn) v2 hb2
    rw [h4]
    refine ⟨_, _, rfl, ⟨h.1, .inr ⟨d, ?_, ?_⟩⟩, rfl⟩
    · rw [h3.1]; exact hk.1.trans e2
    · rw [h3.2.1]; show d ∈ v2.fs.dirs; rw [hk.2.1]; exact e3

/-- What a search among `c` gives; `m` messages if there is nothing. -/
def Outcome (env : Env) (c : List (Option Bytes)) (m : Nat) (v : Vm) (x : Except Exc Bool × Vm) : Prop :=
  Calm env x.2 ∧ x.2.libraryName = v.libraryName ∧
    x.2.messages = v.messages + (if firstFound c = none then m else 0) ∧
    match firstFound c with
    | none => x.1 = .ok false ∧ x.2.loaded = v.loaded
    | some b => if env.loadable b then x.1 = .ok true ∧ x.2.loaded = v.loaded ++ [b]
        else x.1 = .error .link ∧ x.2.loaded = v.loaded

theorem firstFound_none_cons (c : List (Option Bytes)) : firstFound (none :: c) = firstFound c := rfl

theorem firstFound_some_cons (b : Bytes) (c : List (Option Bytes)) : firstFound (some b :: c) = some b := rfl

theorem firstFound_append (c c' : List (Option Bytes)) :
    firstFound (c ++ c') = (firstFound c).or (firstFound c') := by
  unfold firstFound
  exact List.findSome?_append

theorem jarLoop_calm {env : Env} (hc : ReadContract env) (path : JString) (ns : List JString) {v : Vm} (h : Calm env v)
    (hn : ∀ n ∈ ns, (path ++ n).head? = some '/' ∧ ∃ fn, fileName (path ++ n) = some fn ∧ 3 ≤ fn.length) :
    Outcome env (ns.map (fun n => env.contents (path ++ n))) 0 v (jarLoop env path ns v) := by
  induction ns generalizing v with
  | nil => exact ⟨h, rfl, rfl, rfl, rfl⟩
  | cons n ns ih =>
    obtain ⟨hp, fn, hfn, hl⟩ := hn n (by simp)
    obtain ⟨r, v1, e1, h1, h2⟩ := loadResource_calm h hc hp hfn hl
    have h3 := loadResource_loaded env hc (path ++ n) v
    rw [e1] at h3
    simp only at h3
    obtain ⟨h31, h32, h33⟩ := h3
    unfold jarLoop
    rw [List.map_cons]
    rcases hco : env.contents (path ++ n) with _ | b
    · rw [hco] at h2
      obtain ⟨x, hx, hio⟩ := h2
      subst hx
      have hrun : L.bind (L.catchE (L.bind (loadResource env (path ++ n)) (fun _ => Pure.pure true))
            (fun e => if e.isIO then Pure.pure false else L.throw e))
          (fun ok => if ok then Pure.pure true else jarLoop env path ns) v = jarLoop env path ns v1 := by
        unfold L.bind L.catchE
        simp only [e1]
        rw [if_pos hio]
        rfl
      rw [hrun]
      have h4 := ih h1 (fun n hn' => hn n (List.mem_cons_of_mem _ hn'))
      unfold Outcome at h4 ⊢
      rw [firstFound_none_cons]
      rcases h33 with ⟨b, hb, _⟩ | ⟨e, _, he⟩
      · cases hb
      · rw [h31, h32, he] at h4; exact h4
    · rw [hco] at h2
      simp only at h2
      unfold Outcome
      rw [firstFound_some_cons]
      by_cases hlo : env.loadable b = true
      · rw [if_pos hlo] at h2
        subst h2
        have hrun : L.bind (L.catchE (L.bind (loadResource env (path ++ n)) (fun _ => Pure.pure true))
              (fun e => if e.isIO then Pure.pure false else L.throw e))
            (fun ok => if ok then Pure.pure true else jarLoop env path ns) v = (.ok true, v1) := by
          unfold L.bind L.catchE
          simp only [e1]
          rfl
        rw [hrun]
        simp only [hlo, if_true]
        rcases h33 with ⟨b', _, hb, _, h5⟩ | ⟨e, he, _⟩
        · rw [hco] at hb; cases hb
          exact ⟨h1, h31, by rw [h32]; rfl, trivial, h5⟩
        · cases he
      · rw [if_neg hlo] at h2
        subst h2
        have hrun : L.bind (L.catchE (L.bind (loadResource env (path ++ n)) (fun _ => Pure.pure true))
              (fun e => if e.isIO then Pure.pure false else L.throw e))
            (fun ok => if ok then Pure.pure true else jarLoop env path ns) v = (.error .link, v1) := by
          unfold L.bind L.catchE
          simp only [e1]
          rfl
        rw [hrun]
        simp only [hlo, if_false, Bool.false_eq_true]
        rcases h33 with ⟨b', hb, _⟩ | ⟨e, _, he⟩
        · cases hb
        · exact ⟨h1, h31, by rw [h32]; rfl, trivial, he⟩

theorem localLoop_run (env : Env) (path : JString) (ns : List JString) (v : Vm) (h : Calm env v) :
    Outcome env (ns.map (fun n => v.fs.read (path, n))) 0 v (localLoop env path ns v) ∧
      (localLoop env path ns v).2.fs = v.fs := by
  induction ns with
  | nil => exact ⟨⟨h, rfl, rfl, rfl, rfl⟩, rfl⟩
  | cons n ns ih =>
    unfold localLoop
    rw [List.map_cons]
    have hg := bind_ok (m := L.get) (v := v) (v' := v) (a := v) (k := fun v => if (v.fs.read (path, n)).isSome then do
      load env (path, n)
      Pure.pure true
    else localLoop env path ns) rfl
    rw [hg]
    rcases hr : v.fs.read (path, n) with _ | b
    · simp only [Option.isSome_none, Bool.false_eq_true, if_false]
      refine ⟨?_, ih.2⟩
      have h1 := ih.1
      unfold Outcome at h1 ⊢
      rw [firstFound_none_cons]
      exact h1
    · simp only [Option.isSome_some, if_true]
      unfold Outcome
      rw [firstFound_some_cons]
      by_cases hlo : env.loadable b = true
      · have e : load env (path, n) v = (.ok (), { v with loaded := v.loaded ++ [b] }) := by
          unfold load; simp only [hr, if_pos hlo]
        rw [bind_ok e]
        simp only [hlo, if_true]
        exact ⟨⟨h, rfl, rfl, rfl, rfl⟩, rfl⟩
      · have e : load env (path, n) v = (.error .link, v) := by
          unfold load; simp only [hr, if_neg hlo]
        rw [bind_error e]
        simp only [hlo, Bool.false_eq_true, if_false]
        exact ⟨⟨h, trivial, rfl, trivial, trivial⟩, trivial⟩

/-! ### Names -/

theorem splitSlash_append (p n : JString) : splitSlash (p ++ '/' :: n) = splitSlash p ++ splitSlash n := by
  induction p with
  | nil => simp [splitSlash]
  | cons c p ih =>
    simp only [List.cons_append, splitSlash, ih]
    by_cases hc : c = '/'
    · simp [hc]
    · simp only [if_neg hc]
      rcases e : splitSlash p with _ | ⟨w, ws⟩
      · exfalso
        cases p with
        | nil => simp [splitSlash] at e
        | cons d p =>
          simp only [splitSlash] at e
          split at e
          · cases e
          · split at e <;> cases e
      · rfl

theorem splitSlash_ne_nil (p : JString) : splitSlash p ≠ [] := by
  cases p with
  | nil => simp [splitSlash]
  | cons d p =>
    simp only [splitSlash]
    split
    · simp
    · split <;> simp

theorem splitSlash_name (n : JString) (h : '/' ∉ n) : splitSlash n = [n] := by
  induction n with
  | nil => rfl
  | cons c n ih =>
    have hc : c ≠ '/' := by rintro rfl; exact h (by simp)
    simp only [splitSlash, if_neg hc, ih (fun hn => h (List.mem_cons_of_mem _ hn))]

theorem fileName_of (p n : JString) (h : '/' ∉ n) (hn : n ≠ []) : fileName ((p ++ ['/']) ++ n) = some n := by
  have h1 : split ((p ++ ['/']) ++ n) = splitSlash p ++ [n] := by
    unfold split
    rw [List.append_assoc, List.singleton_append, splitSlash_append, splitSlash_name n h, List.reverse_append,
      List.reverse_singleton, List.singleton_append, List.dropWhile_cons_of_neg (by simpa using hn)]
    simp
  have h2 := List.length_pos_iff.2 (splitSlash_ne_nil p)
  unfold fileName
  simp only [h1, List.length_append, List.length_singleton]
  rw [if_pos (by omega)]
  simp

theorem fullNames_eq (name : JString) : fullNames name = systemNames name := rfl

theorem fullNames_mem {name n : JString} (h : '/' ∉ name) (hn : n ∈ fullNames name) : '/' ∉ n ∧ 3 ≤ n.length := by
  unfold fullNames at hn
  have h1 : ∀ e : JString, '/' ∉ e → '/' ∉ "lib".toList ++ name ++ e ∧ 3 ≤ ("lib".toList ++ name ++ e).length := by
    intro e he
    refine ⟨?_, ?_⟩
    · simp only [List.mem_append, not_or]
      exact ⟨⟨by decide, h⟩, he⟩
    · have : "lib".toList.length = 3 := by decide
      simp only [List.length_append, this]
      omega
  simp only [List.mem_cons, List.not_mem_nil, or_false] at hn
  rcases hn with rfl | rfl | rfl
  · exact h1 _ (by decide)
  · exact h1 _ (by decide)
  · exact h1 _ (by decide)

/-- The directory in the jar, with a slash at the end. -/
def withSlash (p : JString) : JString := if p.getLast? = some '/' then p else p ++ ['/']

theorem withSlash_eq {p : JString} (hp : p.head? = some '/') : ∃ q, withSlash p = q ++ ['/'] ∧ (withSlash p).head? = some '/' := by
  unfold withSlash
  split
  · rename_i h
    have hne : p ≠ [] := by rintro rfl; cases hp
    refine ⟨p.dropLast, ?_, hp⟩
    rw [List.getLast?_eq_some_getLast hne] at h
    have := List.dropLast_concat_getLast hne
    rw [Option.some.inj h] at this
    exact this.symm
  · refine ⟨p, rfl, ?_⟩
    cases p with
    | nil => cases hp
    | cons c p => exact hp

theorem jar_run (env : Env) (p : JString) (hp : p ≠ []) (v : Vm) :
    loadLibraryFromJar env p v = jarLoop env (withSlash p) (fullNames v.libraryName) v := by
  unfold loadLibraryFromJar withSlash
  rw [List.getLast?_eq_some_getLast hp]
  simp only [Option.some.injEq]
  refine (bind_ok (m := L.get) (v := v) (v' := v) (a := v) rfl).trans ?_
  by_cases h : p.getLast hp = '/'
  · rw [if_neg (by simpa using h), if_pos h]
  · rw [if_pos h, if_neg h]

theorem jar_calm {env : Env} (hc : ReadContract env) {p : JString} (hp : p.head? = some '/') {v : Vm} (h : Calm env v)
    (hn : '/' ∉ v.libraryName) :
    Outcome env ((systemNames v.libraryName).map (fun n => env.contents (withSlash p ++ n))) 0 v (loadLibraryFromJar env p v) := by
  rw [jar_run env p (by rintro rfl; cases hp) v, ← fullNames_eq]
  refine jarLoop_calm hc _ _ h fun n hm => ?_
  obtain ⟨q, h1, h2⟩ := withSlash_eq hp
  obtain ⟨h3, h4⟩ := fullNames_mem hn hm
  refine ⟨?_, n, ?_, h4⟩
  · rcases e : withSlash p with _ | ⟨c, cs⟩
    · rw [e] at h2; cases h2
    · rw [e] at h2; exact h2
  · rw [h1]
    exact fileName_of q n h3 (by rintro rfl; simp at h4)

/-! ### The static initialiser -/

/-- `k` goes on with a search among `c`, unless there was success before. -/
def Continues (env : Env) (P : Vm → Prop) (c : List (Option Bytes)) (k : Bool → L Bool) : Prop :=
  ∀ v, Calm env v → v.libraryName = "JNIBoofCPP".toList → P v → Outcome env c 1 v (k false v) ∧ k true v = (.ok true, v)

theorem Continues.step {env : Env} {P Q : Vm → Prop} {c c' : List (Option Bytes)} {m : L Bool} {k : Bool → L Bool}
    (hk : Continues env Q c' k) (hm : ∀ v, Calm env v → v.libraryName = "JNIBoofCPP".toList → P v →
      Outcome env c 0 v (m v) ∧ Q (m v).2) (hPQ : ∀ v, P v → Q v) :
    Continues env P (c ++ c') (fun b => BoofCPP.orElse b m >>= k) := by
  intro v hv hn hP
  refine ⟨?_, ?_⟩
  · obtain ⟨h1, h2⟩ := hm v hv hn hP
    rcases e : m v with ⟨r, v1⟩
    rw [e] at h1 h2
    obtain ⟨g1, g2, g3, g4⟩ := h1
    show Outcome env (c ++ c') 1 v ((BoofCPP.orElse false m >>= k) v)
    simp only at g1 g2 g3 g4 h2
    rcases hf : firstFound c with _ | b
    · rw [hf] at g4
      simp only at g4
      obtain ⟨g5, g6⟩ := g4
      subst g5
      rw [bind_ok (show BoofCPP.orElse false m v = (.ok false, v1) from e)]
      unfold Outcome
      rw [firstFound_append, hf]
      obtain ⟨k1, k2, k3, k4⟩ := (hk v1 g1 (g2.trans hn) h2).1
      have g3' : v1.messages = v.messages := by rw [g3, ite_self, Nat.add_zero]
      rw [g2] at k2
      rw [g3'] at k3
      rw [g6] at k4
      simp only [Option.none_or]
      exact ⟨k1, k2, k3, k4⟩
    · rw [hf] at g4
      have g3' : v1.messages = v.messages := by rw [g3, ite_self, Nat.add_zero]
      simp only at g4
      by_cases hlo : env.loadable b = true
      · rw [if_pos hlo] at g4
        obtain ⟨g5, g6⟩ := g4
        subst g5
        rw [bind_ok (show BoofCPP.orElse false m v = (.ok true, v1) from e), (hk v1 g1 (g2.trans hn) h2).2]
        unfold Outcome
        rw [firstFound_append, hf]
        simp only [Option.some_or, hlo, if_true]
        exact ⟨g1, g2, by rw [g3']; rfl, trivial, g6⟩
      · rw [if_neg hlo] at g4
        obtain ⟨g5, g6⟩ := g4
        subst g5
        rw [bind_error (show BoofCPP.orElse false m v = (.error .link, v1) from e)]
        unfold Outcome
        rw [firstFound_append, hf]
        simp only [Option.some_or, hlo, Bool.false_eq_true, if_false]
        exact ⟨g1, g2, by rw [g3']; rfl, trivial, g6⟩
  · show (BoofCPP.orElse true m >>= k) v = _
    rw [bind_ok (show BoofCPP.orElse true m v = (.ok true, v) from rfl)]
    exact (hk v hv hn (hPQ v hP)).2

theorem search_eq (env : Env) (b : Bool) (v : Vm) : BoofCPP.search env b v =
    (fun b => BoofCPP.orElse b (loadLocalPath env "build/boofcpp-jni".toList) >>= (fun b =>
      BoofCPP.orElse b (loadLocalPath env "../build/boofcpp-jni".toList) >>= (fun b =>
      BoofCPP.orElse b (loadLibraryFromJar env "/".toList) >>= (fun b =>
      BoofCPP.orElse b (loadLibraryFromJar env "/arm64-v8a".toList) >>= (fun b =>
      BoofCPP.orElse b (loadLibraryFromJar env "/armeabi-v7a".toList) >>= (fun b => do
        if !b then L.modify (fun v => { v with messages := v.messages + 1 })
        pure b)))))) b { v with libraryName := "JNIBoofCPP".toList } := by
  unfold BoofCPP.search
  exact bind_ok rfl

theorem search_run (env : Env) (hc : ReadContract env) (v : Vm) (h : Calm env v) :
    Outcome env (libraryCandidates env v.fs) 1 { v with libraryName := "JNIBoofCPP".toList } (BoofCPP.search env false v) ∧
      BoofCPP.search env true v = (.ok true, { v with libraryName := "JNIBoofCPP".toList }) := by
  have hjar : ∀ p : JString, p.head? = some '/' → ∀ w, Calm env w → w.libraryName = "JNIBoofCPP".toList → True →
      Outcome env ((systemNames "JNIBoofCPP".toList).map (fun n => env.contents (withSlash p ++ n))) 0 w
        (loadLibraryFromJar env p w) ∧ True := by
    intro p hp w hw hn _
    refine ⟨?_, trivial⟩
    rw [← hn]
    exact jar_calm hc hp hw (by rw [hn]; decide)
  have hloc : ∀ d : JString, ∀ w, Calm env w → w.libraryName = "JNIBoofCPP".toList → w.fs = v.fs →
      Outcome env ((systemNames "JNIBoofCPP".toList).map (fun n => v.fs.read (d, n))) 0 w
        (loadLocalPath env d w) ∧ (loadLocalPath env d w).2.fs = v.fs := by
    intro d w hw hn hfs
    have h1 := localLoop_run env d (systemNames "JNIBoofCPP".toList) w hw
    have e : loadLocalPath env d w = localLoop env d (systemNames "JNIBoofCPP".toList) w := by
      unfold loadLocalPath
      refine (bind_ok (m := L.get) (v := w) (v' := w) (a := w) rfl).trans ?_
      rw [hn]; rfl
    rw [e]
    rw [hfs] at h1
    exact h1
  have h0 : Continues env (fun _ => True) [] (fun b => do
      if !b then L.modify (fun v => { v with messages := v.messages + 1 })
      pure b) := by
    intro w hw hn _
    exact ⟨⟨hw, rfl, rfl, rfl, rfl⟩, rfl⟩
  have h1 := h0.step (m := loadLibraryFromJar env "/armeabi-v7a".toList) (P := fun _ => True) (hjar _ rfl) (fun _ h => h)
  have h2 := h1.step (m := loadLibraryFromJar env "/arm64-v8a".toList) (P := fun _ => True) (hjar _ rfl) (fun _ h => h)
  have h3 := h2.step (m := loadLibraryFromJar env "/".toList) (P := fun _ => True) (hjar _ rfl) (fun _ h => h)
  have h4 := h3.step (m := loadLocalPath env "../build/boofcpp-jni".toList) (P := fun w => w.fs = v.fs)
    (fun w hw hn hfs => ⟨(hloc _ w hw hn hfs).1, trivial⟩) (fun _ _ => trivial)
  have h5 := h4.step (m := loadLocalPath env "build/boofcpp-jni".toList) (P := fun w => w.fs = v.fs)
    (hloc _) (fun _ h => h)
  have h6 := h5 { v with libraryName := "JNIBoofCPP".toList } h rfl rfl
  have hs1 : withSlash "/".toList = "/".toList := by decide
  have hs2 : withSlash "/arm64-v8a".toList = "/arm64-v8a/".toList := by decide
  have hs3 : withSlash "/armeabi-v7a".toList = "/armeabi-v7a/".toList := by decide
  rw [hs1, hs2, hs3] at h6
  have hcand : libraryCandidates env v.fs =
      (systemNames "JNIBoofCPP".toList).map (fun n => v.fs.read ("build/boofcpp-jni".toList, n)) ++
      ((systemNames "JNIBoofCPP".toList).map (fun n => v.fs.read ("../build/boofcpp-jni".toList, n)) ++
      ((systemNames "JNIBoofCPP".toList).map (fun n => env.contents ("/".toList ++ n)) ++
      ((systemNames "JNIBoofCPP".toList).map (fun n => env.contents ("/arm64-v8a/".toList ++ n)) ++
      ((systemNames "JNIBoofCPP".toList).map (fun n => env.contents ("/armeabi-v7a/".toList ++ n)) ++ [])))) := by
    unfold libraryCandidates
    rfl
  rw [hcand, search_eq, search_eq]
  exact h6

end Loader
end Boof
