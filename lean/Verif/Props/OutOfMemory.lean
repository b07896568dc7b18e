import Verif.Proofs.OutOfMemory
/-
C116: objects when memory runs out.
-/
namespace Boof
open M
variable {V : Type}

/-! ### The functions are those modelled elsewhere -/

/-- When there is memory, the functions are the ones the other theorems are about. -/
theorem C116_enough_image (z : V) (g src : Gray) (k : Interleaved) (w ht b : Nat) :
    Gray.newOom true z w ht = (do let g ← Gray.new z w ht; pure (some g)) ∧
    g.reshapeOom true z w ht = (do let g ← g.reshape z w ht; pure (.done g)) ∧
    g.copyOom true z src = (do let g ← g.copy z src; pure (.done g)) ∧
    k.reshape3Oom true z w ht b = (do let g ← k.reshape3 z w ht b; pure (.done g)) ∧
    k.reshapeOom true z w ht = (do let g ← k.reshape z w ht; pure (.done g)) ∧
    k.setNumberOfBandsOom true z b = (do let g ← k.setNumberOfBands z b; pure (.done g)) :=
  ⟨rfl, g.reshape_enough z w ht, g.copy_of_reshape true z src (g.reshape_enough z _ _),
    k.reshape3_of true z w ht b (k.ensure_enough z _), k.reshape_of true z w ht (k.ensure_enough z _),
    k.bands_of true z b (k.ensure_enough z _)⟩

theorem C116_enough_array (E : GrowArray.Elem V) (a b : ArrObj V) (n s i : Nat) (l : List V) :
    a.resizeOom true E n = (do let a ← a.resize E n; pure (.done a)) ∧
    a.growArrayOom true E n = (do let a ← a.growArray E n; pure (.done a)) ∧
    a.assignOom true E b = (do let a ← a.assign E b; pure (.done a)) ∧
    a.setToOom true E l = (do let a ← a.setTo E l; pure (.done a)) ∧
    a.setOom true E s i n = (do let a ← a.set E s i n; pure (.done a)) :=
  ⟨a.resize_enough E n, a.grow_enough E n, a.assign_of true E b (ArrObj.grow_enough E _ _),
    a.setTo_of true E l (a.resize_enough E _), a.set_of true E s i n (a.grow_enough E n)⟩

theorem C116_enough_packed (junk : V) (e : ElemRef V) (o : PackedObj) (n : Nat) (h : Heap (Slot V)) :
    PackedObj.newOom Supply.full junk n h = (do let o ← PackedObj.new junk n; pure (some o) : M (Slot V) _) h ∧
    o.startNewSetOom Supply.full h = (do let o ← o.startNewSet; pure (.done o) : M (Slot V) _) h ∧
    o.pushTailOom Supply.full junk e h = (do let o ← o.pushTail junk e; pure (.done o) : M (Slot V) _) h := by
  refine ⟨?_, by rw [PackedObj.start_enough rfl]; rfl, PackedObj.push_enough junk e o (fun _ => rfl) (fun _ => ⟨rfl, rfl⟩) h⟩
  unfold PackedObj.newOom PackedObj.new Supply.full
  rw [M.assoc]
  simp only [if_true, M.assoc, M.pure_then]

/-! ### Images -/

/-- Making an image without memory leaves nothing behind. -/
theorem C116_image_new (z : V) (w ht : Nat) (h : Heap V) : Gray.newOom false z w ht h = .ok none h := rfl

/-- When the array is large enough no memory is needed, so none can be missing. -/
theorem C116_reshape_fits (mem : Bool) (z : V) (g : Gray) {w ht : Nat} (hf : w * ht ≤ g.dataLength) :
    g.reshapeOom mem z w ht = (do let g ← g.reshape z w ht; pure (.done g)) :=
  g.reshape_fits mem z (Nat.le_trans (Nat.mod_le _ _) hf)

theorem Gray.Valid.owner_fits {g : Gray} {h : Heap V} (hv : g.Valid h) (ho : g.subimage = false) : g.width * g.height ≤ g.dataLength := by
  obtain ⟨h1, h2⟩ := hv.owner ho
  rcases hc : g.height with _ | n
  · simp
  · have := hv.fits n (by omega)
    rw [h1, h2] at this
    rw [Nat.mul_succ, Nat.mul_comm g.width n]
    omega

/-- Every image which owns its pixels, when `reshape` runs out of memory: its members are what they were, but its array is
gone.  Reading any pixel, or destroying the image, is undefined behaviour. -/
theorem C116_reshape_refuted (z : V) {g : Gray} {h : Heap V} (hv : g.Valid h) (ho : g.subimage = false) {w ht : Nat}
    (ha : w * ht < P32) (hn : g.dataLength < w * ht) :
    ∃ h', g.reshapeOom false z w ht h = .ok (.failed g) h' ∧ g.destroy h' = .ub ∧
      (∀ x y, x < g.width → y < g.height → g.at' x y h' = .ub) ∧ (∀ b, b ≠ g.buf → h'.get b = h.get b) := by
  obtain ⟨l, hl⟩ := Option.isSome_iff_exists.mp hv.live
  have hne : ¬ (g.width = w ∧ g.height = ht) := by
    rintro ⟨rfl, rfl⟩
    have := hv.owner_fits ho
    omega
  refine ⟨h.free g.buf, ?_, ?_, ?_, fun b hb => by rw [Heap.get_free, if_neg hb]⟩
  · unfold Gray.reshapeOom
    rw [if_neg hne, if_neg (by rw [ho]; exact Bool.noConfusion)]
    simp only [wrap32_of_lt ha, if_pos hn]
    have : delArr g.buf h = .ok () (h.free g.buf) := by unfold delArr; rw [hl]
    exact M.bind_ok this
  · unfold Gray.destroy
    rw [if_neg (by rw [ho]; exact Bool.noConfusion)]
    unfold delArr
    rw [Heap.get_free, if_pos rfl]
  · intro x y hx hy
    unfold Gray.at'
    rw [if_neg (by omega)]
    apply M.rd_ub
    rw [Heap.cell_free, if_pos rfl]

/-- So after `copy` from a larger image, when memory runs out. -/
theorem C116_copy_refuted (z : V) {g src : Gray} {h : Heap V} (hv : g.Valid h) (ho : g.subimage = false)
    (ha : src.width * src.height < P32) (hn : g.dataLength < src.width * src.height) :
    ∃ h', g.copyOom false z src h = .ok (.failed g) h' ∧ g.destroy h' = .ub := by
  obtain ⟨h', e, d, -⟩ := C116_reshape_refuted z hv ho ha hn
  refine ⟨h', ?_, d⟩
  unfold Gray.copyOom
  rw [if_neg (by rw [ho]; rintro ⟨c, -⟩; cases c), M.bind_ok e]
  rfl

/-- A 2x2 image which becomes 3x3 without memory. -/
example : ∃ (h : Heap Int) (g : Gray), g.Valid h ∧ g.subimage = false ∧ 3 * 3 < P32 ∧ g.dataLength < 3 * 3 := by
  refine ⟨⟨[some [1,2,3,4]]⟩, { buf := 0, dataLength := 4, width := 2, height := 2, offset := 0, stride := 2, subimage := false }, ?_, rfl,
    by decide, by decide⟩
  refine ⟨rfl, ?_, by decide, by decide, by decide, by decide, ?_, fun _ => ⟨rfl, rfl⟩⟩
  · intro i hi
    change i < 4 at hi
    rcases i with _ | _ | _ | _ | i <;> first | exact ⟨_, rfl⟩ | omega
  · intro y hy
    change y < 2 at hy
    show 0 + y * 2 + 2 ≤ 4
    omega

/-- The same for interleaved images: `reshape` (both), and more bands. -/
theorem C116_interleaved_refuted (z : V) {g : Interleaved} {h : Heap V} (hl : (h.get g.buf).isSome) (ho : g.subimage = false)
    (w ht b : Nat) (hs : ¬ (g.width = w ∧ g.height = ht)) (hn : g.dataLength < wrap32 (w * ht * b)) :
    (∃ h', g.reshape3Oom false z w ht b h = .ok (.failed g) h' ∧ g.destroy h' = .ub) ∧
    (b = g.numBands → ∃ h', g.reshapeOom false z w ht h = .ok (.failed g) h' ∧ g.destroy h' = .ub) := by
  obtain ⟨l, hl⟩ := Option.isSome_iff_exists.mp hl
  have he : g.ensureOom false z (wrap32 (w * ht * b)) h = .ok (.failed g) (h.free g.buf) := by
    unfold Interleaved.ensureOom
    rw [if_pos hn]
    have : delArr g.buf h = .ok () (h.free g.buf) := by unfold delArr; rw [hl]
    exact M.bind_ok this
  have hd : g.destroy (h.free g.buf) = .ub := by
    unfold Interleaved.destroy
    rw [if_neg (by rw [ho]; exact Bool.noConfusion)]
    unfold delArr
    rw [Heap.get_free, if_pos rfl]
  refine ⟨⟨_, ?_, hd⟩, fun hb => ⟨_, ?_, hd⟩⟩
  · unfold Interleaved.reshape3Oom
    rw [if_neg (fun c => hs ⟨c.1, c.2.1⟩), if_neg (by rw [ho]; exact Bool.noConfusion), M.bind_ok he]
    rfl
  · subst hb
    unfold Interleaved.reshapeOom
    rw [if_neg hs, if_neg (by rw [ho]; exact Bool.noConfusion), M.bind_ok he]
    rfl

theorem C116_bands_refuted (z : V) {g : Interleaved} {h : Heap V} (hl : (h.get g.buf).isSome) (ho : g.subimage = false)
    (b : Nat) (hs : g.numBands ≠ b) (hn : g.dataLength < wrap32 (g.width * g.height * b)) :
    ∃ h', g.setNumberOfBandsOom false z b h = .ok (.failed g) h' ∧ g.destroy h' = .ub := by
  obtain ⟨l, hl⟩ := Option.isSome_iff_exists.mp hl
  refine ⟨h.free g.buf, ?_, ?_⟩
  · have he : g.ensureOom false z (wrap32 (g.width * g.height * b)) h = .ok (.failed g) (h.free g.buf) := by
      unfold Interleaved.ensureOom
      rw [if_pos hn]
      have : delArr g.buf h = .ok () (h.free g.buf) := by unfold delArr; rw [hl]
      exact M.bind_ok this
    unfold Interleaved.setNumberOfBandsOom
    rw [if_neg hs, if_neg (by rw [ho]; exact Bool.noConfusion), M.bind_ok he]
    rfl
  · unfold Interleaved.destroy
    rw [if_neg (by rw [ho]; exact Bool.noConfusion)]
    unfold delArr
    rw [Heap.get_free, if_pos rfl]

/-! ### Growable arrays -/

theorem ArrWorld.onOom_returns {w : ArrWorld V} {i : Nat} {f : ArrObj V → M V (ArrObj V)} {g : ArrObj V → M V (Left (ArrObj V))}
    (hfg : ∀ a, w.var i = some a → g a = (f a).returns) : w.onOom i g = w.on i f := by
  unfold ArrWorld.onOom ArrWorld.on
  rcases hi : w.var i with _ | a
  · rfl
  · simp only
    rw [hfg a hi]
    unfold M.returns
    rw [M.bind_run]
    rcases f a w.heap with ⟨b, h⟩ | _ | _ | _ <;> rfl

/-- When there is memory. -/
theorem ArrWorld.stepOom_true (E : GrowArray.Elem V) (w : ArrWorld V) (op : AOp V) : w.stepOom E true op = w.step E op := by
  cases op with
  | make n =>
    simp only [ArrWorld.stepOom, ArrWorld.step, ArrObj.newOom, if_true, M.bind_run]
    rcases ArrObj.new E n w.heap with ⟨b, h⟩ | _ | _ | _ <;> rfl
  | list l =>
    simp only [ArrWorld.stepOom, ArrWorld.step, ArrObj.ofListOom, if_true, M.bind_run]
    rcases ArrObj.ofList E l w.heap with ⟨b, h⟩ | _ | _ | _ <;> rfl
  | resize i n => exact ArrWorld.onOom_returns (fun a _ => a.resize_enough E n)
  | grow i n => exact ArrWorld.onOom_returns (fun a _ => a.grow_enough E n)
  | setTo i l => exact ArrWorld.onOom_returns (fun a _ => a.setTo_of true E l (a.resize_enough E _))
  | assign i j =>
    simp only [ArrWorld.stepOom, ArrWorld.step]
    split
    · rfl
    · rcases w.var j with _ | b
      · rfl
      · exact ArrWorld.onOom_returns (fun a _ => a.assign_of true E b (ArrObj.grow_enough E _ _))
  | setFrom i j start n =>
    simp only [ArrWorld.stepOom, ArrWorld.step]
    rcases w.var j with _ | b
    · rfl
    · exact ArrWorld.onOom_returns (fun a _ => a.set_of true E b.data start n (a.grow_enough E n))
  | fill i v => rfl
  | put i k v => rfl
  | drop i => rfl

open ArrWorld in
/-- One operation which may run out of memory, other than those which release the old array first: it does what it does
to the values, where an operation without memory for its array has no effect. -/
theorem C116_array_step (E : GrowArray.Elem V) {h0 : Heap V} {w : ArrWorld V} {vs : Arrays V} (hd : Holds h0 w vs) (op : AOp V)
    (mem : Bool) (hm : mem = true ∨ op.releasesFirst = false) :
    (∀ vs', op.specOom E vs mem = .ok () vs' → ∃ w', w.stepOom E mem op = .ok () w' ∧ Holds h0 w' vs') ∧
    (∀ vs', op.specOom E vs mem = .throw vs' → ∃ w', w.stepOom E mem op = .throw w' ∧ Holds h0 w' vs') := by
  by_cases hmem : mem = true
  · subst hmem
    have : op.specOom E vs true = op.spec E vs := by
      unfold AOp.specOom; rw [if_neg (fun c => absurd c.1 (by decide))]
    rw [this, ArrWorld.stepOom_true]
    exact C112_step E hd op
  have hmem : mem = false := by
    rcases mem with _ | _
    · rfl
    · exact absurd rfl hmem
  subst hmem
  have hrf : op.releasesFirst = false := by
    rcases hm with c | c
    · cases c
    · exact c
  -- an operation which needs no memory
  have fits : op.needs vs = false → w.stepOom E false op = w.step E op →
      (∀ vs', op.specOom E vs false = .ok () vs' → ∃ w', w.stepOom E false op = .ok () w' ∧ Holds h0 w' vs') ∧
      (∀ vs', op.specOom E vs false = .throw vs' → ∃ w', w.stepOom E false op = .throw w' ∧ Holds h0 w' vs') := by
    intro hn hs
    have : op.specOom E vs false = op.spec E vs := by
      unfold AOp.specOom; rw [if_neg (fun c => by rw [hn] at c; exact absurd c.2 (by decide))]
    rw [this, hs]
    exact C112_step E hd op
  -- an operation which is refused
  have refused : op.needs vs = true → (∃ objs, w.stepOom E false op = .throw ⟨objs, w.heap⟩ ∧ objs = w.objs) →
      (∀ vs', op.specOom E vs false = .ok () vs' → ∃ w', w.stepOom E false op = .ok () w' ∧ Holds h0 w' vs') ∧
      (∀ vs', op.specOom E vs false = .throw vs' → ∃ w', w.stepOom E false op = .throw w' ∧ Holds h0 w' vs') := by
    rintro hn ⟨objs, hs, rfl⟩
    have : op.specOom E vs false = .throw vs := by
      unfold AOp.specOom; rw [if_pos ⟨rfl, hn⟩]
    rw [this, hs]
    exact ⟨fun _ e => (by cases e), fun vs' e => by cases e; exact ⟨w, rfl, hd⟩⟩
  have same : ∀ {i : Nat} {o : ArrObj V}, w.var i = some o → w.objs.set i (some o) = w.objs := by
    intro i o e
    have hi := lt_of_var e
    apply List.ext_getElem?
    intro j
    rw [List.getElem?_set]
    split
    · rename_i hj
      subst hj
      unfold ArrWorld.var at e
      rw [List.getElem?_eq_getElem hi] at e ⊢
      simp only [Option.join_some] at e
      rw [e]
    · rfl
  cases op with
  | make n => exact refused rfl ⟨_, rfl, rfl⟩
  | list l => exact refused rfl ⟨_, rfl, rfl⟩
  | resize i n =>
    rcases ei : w.var i with _ | o
    · refine fits ?_ (by simp only [ArrWorld.stepOom, ArrWorld.step, ArrWorld.onOom, ArrWorld.on, ei])
      simp only [AOp.needs, hd.gone i ei]; rfl
    · obtain ⟨a, ea, is, hr⟩ := hd.held i o ei
      by_cases c : n > a.data.length
      · refine refused (by simp [AOp.needs, ea, c]) ?_
        have : o.resizeOom false E n w.heap = .ok (.failed o) w.heap := by
          unfold ArrObj.resizeOom
          rw [if_neg (show ¬ o.canResize = false by rw [is.canResize, hr]; exact Bool.noConfusion), if_pos (by rw [is.length]; exact c)]
          rfl
        exact ⟨_, by simp only [ArrWorld.stepOom, ArrWorld.onOom, ei, this], same ei⟩
      · refine fits (by simp [AOp.needs, ea]; omega) ?_
        refine ArrWorld.onOom_returns (fun a' e' => ?_)
        rw [ei] at e'; cases e'
        exact ArrObj.resize_fits false E (by rw [is.length]; omega)
  | setTo i l =>
    rcases ei : w.var i with _ | o
    · refine fits ?_ (by simp only [ArrWorld.stepOom, ArrWorld.step, ArrWorld.onOom, ArrWorld.on, ei])
      simp only [AOp.needs, hd.gone i ei]; rfl
    · obtain ⟨a, ea, is, hr⟩ := hd.held i o ei
      by_cases c : l.length > a.data.length
      · refine refused (by simp [AOp.needs, ea, c]) ?_
        have h1 : o.resizeOom false E l.length w.heap = .ok (.failed o) w.heap := by
          unfold ArrObj.resizeOom
          rw [if_neg (show ¬ o.canResize = false by rw [is.canResize, hr]; exact Bool.noConfusion), if_pos (by rw [is.length]; exact c)]
          rfl
        have : o.setToOom false E l w.heap = .ok (.failed o) w.heap := by
          unfold ArrObj.setToOom
          rw [M.bind_ok h1]
          rfl
        exact ⟨_, by simp only [ArrWorld.stepOom, ArrWorld.onOom, ei, this], same ei⟩
      · refine fits (by simp [AOp.needs, ea]; omega) ?_
        refine ArrWorld.onOom_returns (fun a' e' => ?_)
        rw [ei] at e'; cases e'
        exact o.setTo_of false E l (ArrObj.resize_fits false E (by rw [is.length]; omega))
  | fill i v => exact fits rfl rfl
  | put i k v => exact fits rfl rfl
  | drop i => exact fits rfl rfl
  | grow i n => cases hrf
  | assign i j => cases hrf
  | setFrom i j start n => cases hrf

/-- Any history of a program with any number of arrays, in which memory may run out at any operation which does not release
the old array first: each array is what it is as a value, where operations without memory have no effect; memory made by
others is as it was; and nothing is left behind when the arrays are gone. -/
theorem C116_array_history (E : GrowArray.Elem V) (ops : List (AOp V × Bool)) (h0 : Heap V)
    (hm : ∀ x ∈ ops, x.2 = true ∨ x.1.releasesFirst = false) {vs : Arrays V} (hv : arraysRunOom E ops [] = some vs) :
    ∃ w, ArrWorld.runOom E ops ⟨[], h0⟩ = some w ∧
      (∀ i, match w.var i with
        | some o => ∃ a, (vs[i]?).join = some a ∧ ArrObj.Is w.heap o a
        | none => (vs[i]?).join = none) ∧
      (∀ b, b < h0.next → w.heap.get b = h0.get b) ∧
      ((∀ i, w.var i = none) → ∀ b, h0.next ≤ b → w.heap.get b = none) := by
  suffices hs : ∀ (ops : List (AOp V × Bool)) (w : ArrWorld V) (us vs : Arrays V), (∀ x ∈ ops, x.2 = true ∨ x.1.releasesFirst = false) →
      ArrWorld.Holds h0 w us → arraysRunOom E ops us = some vs →
      ∃ w', ArrWorld.runOom E ops w = some w' ∧ ArrWorld.Holds h0 w' vs by
    have h00 : ArrWorld.Holds h0 ⟨[], h0⟩ [] := by
      refine ⟨rfl, ?_, ?_, ?_, fun _ _ => rfl, ?_, fun b hb hs => (no_live_beyond hb hs).elim, Nat.le_refl _⟩
      · intro i o e; cases e
      · intro i _; rfl
      · intro i j o o' _ e; cases e
      · intro i o e; cases e
    obtain ⟨w, e, hd⟩ := hs ops _ _ vs hm h00 hv
    refine ⟨w, e, ?_, hd.old, ?_⟩
    · intro i
      rcases ei : w.var i with _ | o
      · exact hd.gone i ei
      · obtain ⟨a, h1, h2, -⟩ := hd.held i o ei
        exact ⟨a, h1, h2⟩
    · intro hn b hb
      rcases hg : w.heap.get b with _ | l
      · rfl
      · obtain ⟨i, o, ei, -⟩ := hd.all b hb (by rw [hg]; rfl)
        rw [hn i] at ei; cases ei
  intro ops
  induction ops with
  | nil =>
    intro w us vs _ hd e
    cases e
    exact ⟨w, rfl, hd⟩
  | cons op ops ih =>
    intro w us vs hm hd e
    unfold arraysRunOom at e
    obtain ⟨h1, h2⟩ := C116_array_step E hd op.1 op.2 (hm op (List.mem_cons_self ..))
    have hm' : ∀ x ∈ ops, x.2 = true ∨ x.1.releasesFirst = false := fun x hx => hm x (List.mem_cons_of_mem _ hx)
    rcases ho : op.1.specOom E us op.2 with ⟨_, us'⟩ | us' | _ | _
    · rw [ho] at e
      obtain ⟨w1, e1, hd1⟩ := h1 us' ho
      obtain ⟨w2, e2, hd2⟩ := ih w1 us' vs hm' hd1 e
      exact ⟨w2, by unfold ArrWorld.runOom; rw [e1]; exact e2, hd2⟩
    · rw [ho] at e
      obtain ⟨w1, e1, hd1⟩ := h2 us' ho
      obtain ⟨w2, e2, hd2⟩ := ih w1 us' vs hm' hd1 e
      exact ⟨w2, by unfold ArrWorld.runOom; rw [e1]; exact e2, hd2⟩
    · rw [ho] at e; cases e
    · rw [ho] at e; cases e

/-- A history in which growing to 12 fails twice and then succeeds; the elements are kept throughout. -/
example : (∀ x ∈ [(AOp.list [5,6,(7:Int)], true), (.make 4, false), (.resize 0 12, false), (.setTo 0 [1,2,3,4], false), (.resize 0 5, true)],
      x.2 = true ∨ x.1.releasesFirst = false) ∧
    (arraysRunOom (intElem U8 (fun _ => 9)) [(AOp.list [5,6,(7:Int)], true), (.make 4, false), (.resize 0 12, false),
      (.setTo 0 [1,2,3,4], false), (.resize 0 5, true)] []).map (fun vs => vs.map (fun a => a.map (fun a => (a.size, a.data)))) =
      some [some (5, [5,6,7,0,0])] := by
  refine ⟨?_, by decide⟩
  intro x hx
  simp only [List.mem_cons, List.not_mem_nil, or_false] at hx
  rcases hx with rfl | rfl | rfl | rfl | rfl <;> simp [AOp.releasesFirst]

/-- The other operations leave an array which cannot be used, nor destroyed, whenever they run out of memory. -/
theorem C116_grow_refuted (E : GrowArray.Elem V) {h : Heap V} {o : ArrObj V} {a : GrowArray V} (is : ArrObj.Is h o a)
    (hr : a.canResize = true) {n : Nat} (hn : a.data.length < n) (ob : ArrObj V) (s i : Nat) :
    ∃ h', (o.growArrayOom false E n h = .ok (.failed o) h' ∧ o.destroy h' = .ub ∧ ∀ k, M.rd o.data k h' = .ub) ∧
      o.setOom false E s i n h = .ok (.failed o) h' ∧
      (ob.size = n → o.assignOom false E ob h = .ok (.failed { o with default := ob.default }) h' ∧
        ArrObj.destroy { o with default := ob.default } h' = .ub) := by
  have hcr : ¬ o.canResize = false := by rw [is.canResize, hr]; exact Bool.noConfusion
  have hlen : n > o.arrayLength := by rw [is.length]; exact hn
  have hdel : delArr o.data h = .ok () (h.free o.data) := by unfold delArr; rw [is.data]
  have grow : ∀ d, ArrObj.growArrayOom false E n { o with default := d } h = .ok (.failed { o with default := d }) (h.free o.data) := by
    intro d
    unfold ArrObj.growArrayOom
    rw [if_neg hcr, if_pos hlen, M.bind_ok hdel]
    rfl
  have hdes : ∀ d, ArrObj.destroy { o with default := d } (h.free o.data) = .ub := by
    intro d
    unfold ArrObj.destroy
    rw [if_neg hcr]
    unfold delArr
    rw [Heap.get_free, if_pos rfl]
  refine ⟨h.free o.data, ⟨grow o.default, hdes o.default, ?_⟩, ?_, ?_⟩
  · intro k
    apply M.rd_ub
    rw [Heap.cell_free, if_pos rfl]
  · unfold ArrObj.setOom
    rw [M.bind_ok (grow o.default)]
    rfl
  · rintro rfl
    refine ⟨?_, hdes _⟩
    unfold ArrObj.assignOom
    rw [M.bind_ok (grow ob.default)]
    rfl

/-- An array with its object. -/
example : ArrObj.Is (⟨[some [1,2]]⟩ : Heap Int) { data := 0, size := 2, arrayLength := 2, default := 0, canResize := true }
    { data := [1,2], size := 2, default := 0, canResize := true } := ⟨rfl, rfl, rfl, rfl, rfl⟩

/-! ### Packed sets -/

/-- The state of an object in a history which started with the memory `h0` and in which the arrays `G` were left behind. -/
structure MemShort (h0 h : Heap (Slot V)) (o : PackedObj) (p : PackedSet V) (L : List (List V)) (A G : List Nat) : Prop
    extends MemCore h o p L A where
  old : ∀ b, b < h0.next → h.get b = h0.get b
  mine : ∀ b ∈ o.blocks :: A, h0.next ≤ b
  all : ∀ b, h0.next ≤ b → (h.get b).isSome → b ∈ o.blocks :: A ∨ b ∈ G
  next : h0.next ≤ h.next

theorem MemShort.kept {h0 h h' : Heap (Slot V)} {o o' : PackedObj} {p q : PackedSet V} {L L' : List (List V)} {A A' G : List Nat}
    (r : MemShort h0 h o p L A G) (c : MemCore h' o' q L' A') (k : KeptBlocks h h' (o.blocks :: A) (o'.blocks :: A')) :
    MemShort h0 h' o' q L' A' G := by
  have hn := r.next
  have hk := k.next
  refine ⟨c, ?_, ?_, ?_, by omega⟩
  · intro b hb
    rw [k.other b (by omega) (fun c => by have := r.mine b c; omega), r.old b hb]
  · intro b hb
    rcases k.fresh b hb with c | c
    · exact r.mine b c
    · omega
  · intro b hb hs
    by_cases c : b < h.next
    · by_cases c1 : b ∈ o.blocks :: A
      · by_cases c2 : b ∈ o'.blocks :: A'
        · exact Or.inl c2
        · rw [k.gone b c1 c2] at hs; cases hs
      · rw [k.other b c c1] at hs
        rcases r.all b hb hs with d | d
        · exact absurd d c1
        · exact Or.inr d
    · exact Or.inl (k.live b (by omega) hs)

theorem MemShort.extra {h0 h h' : Heap (Slot V)} {o o' : PackedObj} {p q : PackedSet V} {L L' : List (List V)} {A G G' : List Nat}
    (r : MemShort h0 h o p L A G) (c : MemCore h' o' q L' A) (eb : o'.blocks = o.blocks) (x : Extra h h' G') :
    MemShort h0 h' o' q L' A (G' ++ G) := by
  have hn := r.next
  have hk := x.next
  refine ⟨c, fun b hb => by rw [x.old b (by omega), r.old b hb], by rw [eb]; exact r.mine, ?_, by omega⟩
  intro b hb hs
  rw [eb]
  by_cases c : b < h.next
  · rw [x.old b c] at hs
    rcases r.all b hb hs with d | d
    · exact Or.inl d
    · exact Or.inr (List.mem_append_right _ d)
  · exact Or.inr (List.mem_append_left _ (x.new b (by omega) hs))

/-- An operation adds at most one element. -/
theorem spec_length_le (op : MOp V) (L : List (List V)) : ((op.spec L).getD L).flatten.length ≤ L.flatten.length + 1 := by
  cases op with
  | pushOwn k e =>
    simp only [MOp.spec]
    rcases (L[k]?).bind (fun l => l[e]?) with _ | v
    · simp
    · simp only [Option.map_some, Option.getD_some]
      rw [length_pushLast]; exact Nat.le_refl _
  | op op =>
    cases op with
    | clear => simp [MOp.spec, POp.spec]
    | start => simp [MOp.spec, POp.spec]
    | push v => simp only [MOp.spec, POp.spec, Option.getD_some]; rw [length_pushLast]; exact Nat.le_refl _
    | remove =>
      simp only [MOp.spec, POp.spec, Option.getD_some]
      rw [List.length_flatten, List.length_flatten]
      rcases List.eq_nil_or_concat L with rfl | ⟨L, l, rfl⟩
      · simp
      · simp only [List.concat_eq_append, List.dropLast_concat, List.map_append, List.sum_append]; omega
    | write i v =>
      simp only [MOp.spec, POp.spec]
      split
      · rename_i hc
        simp only [Option.getD_some]
        have : (L.set i v).map List.length = L.map List.length := by
          apply List.ext_getElem?
          intro j
          rw [List.getElem?_map, List.getElem?_map, List.getElem?_set]
          split
          · rename_i hij
            subst hij
            rw [hc]
            split
            · rfl
            · rename_i hlt
              rw [List.getElem?_eq_none (by omega)] at hc
              cases hc
          · rfl
        rw [flatten_length_eq this]; omega
      · simp

/-- One operation. -/
theorem MemShort.step (junk : V) {h0 h : Heap (Slot V)} {o : PackedObj} {p : PackedSet V} {L : List (List V)} {A G : List Nat}
    (r : MemShort h0 h o p L A G) (op : MOp V) (s : Supply) (hb : L.flatten.length + 1 < P32) :
    (∃ L' o' h' q A', op.spec L = some L' ∧ op.runOom s junk o h = .ok (.done o') h' ∧ MemShort h0 h' o' q L' A' G) ∨
    (op.spec L = none ∧ op.runOom s junk o h = .throw h) ∨
    (op.grows = true ∧ s ≠ Supply.full ∧ ∃ L' o' h' q G', (L' = L ∨ L = [] ∧ L' = [[]]) ∧
      op.runOom s junk o h = .ok (.failed o') h' ∧ MemShort h0 h' o' q L' A G' ∧ G'.length ≤ G.length + 1) := by
  have hst := r.toMemCore.step junk op (Nat.lt_of_le_of_lt (spec_length_le op L) hb)
  -- a function which behaves as with enough memory
  have like : op.runOom s junk o h = (op.run junk o).returns h →
      (∃ L' o' h' q A', op.spec L = some L' ∧ op.runOom s junk o h = .ok (.done o') h' ∧ MemShort h0 h' o' q L' A' G) ∨
      (op.spec L = none ∧ op.runOom s junk o h = .throw h) := by
    intro e
    rw [e]
    rcases ho : op.spec L with _ | L'
    · rw [ho] at hst
      right
      exact ⟨rfl, by unfold M.returns; rw [M.bind_throw hst]⟩
    · rw [ho] at hst
      obtain ⟨o', h', q, A', e1, c, k, -⟩ := hst
      left
      exact ⟨L', o', h', q, A', rfl, by unfold M.returns; rw [M.bind_ok e1]; rfl, r.kept c k⟩
  have orElse : op.runOom s junk o h = (op.run junk o).returns h →
      (∃ L' o' h' q A', op.spec L = some L' ∧ op.runOom s junk o h = .ok (.done o') h' ∧ MemShort h0 h' o' q L' A' G) ∨
      (op.spec L = none ∧ op.runOom s junk o h = .throw h) ∨
      (op.grows = true ∧ s ≠ Supply.full ∧ ∃ L' o' h' q G', (L' = L ∨ L = [] ∧ L' = [[]]) ∧
        op.runOom s junk o h = .ok (.failed o') h' ∧ MemShort h0 h' o' q L' A G' ∧ G'.length ≤ G.length + 1) := fun e => (like e).elim Or.inl (fun x => Or.inr (Or.inl x))
  cases op with
  | pushOwn k e =>
    rcases hv : (L[k]?).bind (fun l => l[e]?) with _ | v
    · refine Or.inr (Or.inl ⟨by simp [MOp.spec, hv], ?_⟩)
      simp only [MOp.runOom]
      rw [M.bind_throw (r.toMemCore.at_throw hv)]
    · rcases hl : L[k]? with _ | l
      · rw [hl] at hv; cases hv
      rw [hl] at hv
      obtain ⟨a, -, e1, e2⟩ := r.toMemCore.at_run hl hv
      rcases r.toMemCore.push_short junk s (.place a (((L.take k).flatten.length + e) % p.sizeOfBlock)) hb with e3 | ⟨f0, o', h', q, L', G', f1, f2, f3, f4, f5, f6, -⟩
      · refine orElse ?_
        simp only [MOp.runOom, MOp.run, M.returns]
        rw [M.bind_ok e1, e3, M.assoc, M.bind_ok e1]
        rfl
      · refine Or.inr (Or.inr ⟨rfl, f0, L', o', h', q, G' ++ G, f2, ?_, r.extra f3 f4 f5, by rw [List.length_append]; omega⟩)
        simp only [MOp.runOom]
        rw [M.bind_ok e1]
        exact f1
  | op op =>
    cases op with
    | clear => exact orElse rfl
    | remove => exact orElse rfl
    | write i v => exact orElse rfl
    | start =>
      by_cases hs : s.info = true
      · exact orElse (congrFun (PackedObj.start_enough hs o) h)
      · have hs' : s.info = false := by
          rcases hc : s.info with _ | _
          · rfl
          · exact absurd hc hs
        have h0' : o.sizeOfBlock ≠ 0 := by have := r.rep.pos; have := r.mirrors.size; omega
        refine Or.inr (Or.inr ⟨rfl, by rintro rfl; exact hs rfl, L, o, h, p, G, Or.inl rfl, ?_, r, by omega⟩)
        simp only [MOp.runOom, PackedObj.startNewSetOom]
        rw [if_neg h0', hs']
        rfl
    | push v =>
      rcases r.toMemCore.push_short junk s (.value v) hb with e3 | ⟨f0, o', h', q, L', G', f1, f2, f3, f4, f5, f6, -⟩
      · exact orElse e3
      · exact Or.inr (Or.inr ⟨rfl, f0, L', o', h', q, G' ++ G, f2, f1, r.extra f3 f4 f5, by rw [List.length_append]; omega⟩)

/-- A history. -/
theorem MemShort.run (junk : V) {h0 : Heap (Slot V)} (ops : List (MOp V × Supply)) {h : Heap (Slot V)} {o : PackedObj} {p : PackedSet V}
    {L : List (List V)} {A G : List Nat} (r : MemShort h0 h o p L A G) (hb : L.flatten.length + ops.length < P32) :
    ∃ rs o' h' q L' A' G', memRunOom junk ops (o, h) = some (rs, o', h') ∧ Explains ops rs L L' ∧ MemShort h0 h' o' q L' A' G' ∧
      G'.length ≤ G.length + rs.count .outOfMemory := by
  induction ops generalizing h o p L A G with
  | nil => exact ⟨[], o, h, p, L, A, G, rfl, .nil L, r, by simp⟩
  | cons op ops ih =>
    obtain ⟨op, s⟩ := op
    rw [List.length_cons] at hb
    rcases r.step junk op s (by omega) with ⟨L', o', h', q, A', e1, e2, r'⟩ | ⟨e1, e2⟩ | ⟨e0, e1, L', o', h', q, G', e2, e3, r', e4⟩
    · have hl := spec_length_le op L
      rw [e1] at hl
      simp only [Option.getD_some] at hl
      obtain ⟨rs, o2, h2, q2, L2, A2, G2, f1, f2, f3, f4⟩ := ih r' (by omega)
      refine ⟨.done :: rs, o2, h2, q2, L2, A2, G2, ?_, .done e1 f2, f3, by rw [List.count_cons]; simp; exact f4⟩
      unfold memRunOom
      simp only [e2, f1]; rfl
    · obtain ⟨rs, o2, h2, q2, L2, A2, G2, f1, f2, f3, f4⟩ := ih r (by omega)
      refine ⟨.refused :: rs, o2, h2, q2, L2, A2, G2, ?_, .refused e1 f2, f3, by rw [List.count_cons]; simp; exact f4⟩
      unfold memRunOom
      simp only [e2, f1]; rfl
    · have hl : L'.flatten.length ≤ L.flatten.length := by
        rcases e2 with rfl | ⟨rfl, rfl⟩ <;> simp
      obtain ⟨rs, o2, h2, q2, L2, A2, G2, f1, f2, f3, f4⟩ := ih r' (by omega)
      refine ⟨.outOfMemory :: rs, o2, h2, q2, L2, A2, G2, ?_, .outOfMemory e0 e1 e2 f2, f3, by rw [List.count_cons]; simp; omega⟩
      unfold memRunOom
      simp only [e3, f1]; rfl

/-- A packed set in any history in which memory may run out at any allocation: each operation is done, refused or out of
memory; every query answers as for the list of lists this makes (an operation out of memory changes no element); the memory
of others is as it was; and the object can be destroyed, after which only pointer arrays are left which failed operations
left behind, at most one each. -/
theorem C116_packed_life (junk : V) {n : Nat} (hn : 0 < n) (ops : List (MOp V × Supply)) (hb : ops.length < P32) (h0 : Heap (Slot V)) :
    ∃ o1 h1 rs o h L, PackedObj.newOom Supply.full junk n h0 = .ok (some o1) h1 ∧ memRunOom junk ops (o1, h1) = some (rs, o, h) ∧
      Explains ops rs [] L ∧ MemObserves o h L ∧ (∀ b, b < h0.next → h.get b = h0.get b) ∧
      ∃ (h' : Heap (Slot V)) (G : List Nat), o.destroy h = .ok () h' ∧ (∀ b, b < h0.next → h'.get b = h0.get b) ∧
        (∀ b, h0.next ≤ b → (h'.get b).isSome → b ∈ G) ∧ G.length ≤ rs.count .outOfMemory := by
  obtain ⟨o1, h1, A, e, r⟩ := MemRep.new junk hn h0
  have r0 : MemShort h0 h1 o1 (PackedSet.new junk n) [] A [] :=
    ⟨r.toMemCore, r.old, r.mine, fun b hb hs => Or.inl (r.all b hb hs), r.next⟩
  obtain ⟨rs, o, h, q, L, A', G, f1, f2, f3, f4⟩ := r0.run junk ops (by simpa using hb)
  refine ⟨o1, h1, rs, o, h, L, ?_, f1, f2, f3.toMemCore.observes, f3.old, ?_⟩
  · rw [(C116_enough_packed junk (.value junk) o1 n h0).1, M.bind_ok e]
    rfl
  · obtain ⟨h', d1, d2, d3⟩ := f3.mirrors.destroy_run
    refine ⟨h', G, d1, ?_, ?_, by simpa using f4⟩
    · intro b hb
      rw [d2, if_neg (fun c => by have := f3.mine b c; omega), f3.old b hb]
    · intro b hb hs
      rw [d2] at hs
      split at hs
      · cases hs
      · rename_i hc
        rcases f3.all b hb hs with c | c
        · exact absurd c hc
        · exact c

/-- A history in which the second element finds no memory for a block (the first call leaves a pointer array behind), and
then does. -/
example : ∃ rs o h, (do
      let o ← PackedObj.newOom Supply.full (0:Int) 1
      match o with
      | some o => pure o
      | none => M.ub : M (Slot Int) PackedObj) ⟨[]⟩ = .ok { blocks := 0, count := 1, sizeOfBlock := 1, total := 0, setInfo := [] }
        ⟨[some [.addr 1], some [.elem 0]]⟩ ∧
    memRunOom 0 [(MOp.op (.push (1:Int)), Supply.full), (.op (.push 2), ⟨true, true, false⟩), (.op (.push 3), ⟨true, false, true⟩),
      (.op (.push 4), Supply.full)] ({ blocks := 0, count := 1, sizeOfBlock := 1, total := 0, setInfo := [] },
        ⟨[some [.addr 1], some [.elem 0]]⟩) = some (rs, o, h) ∧
      rs = [.done, .outOfMemory, .outOfMemory, .done] ∧ (o.loadSet 0 [] h : Res _ _) = .ok [1,4] h := by
  refine ⟨_, _, _, rfl, rfl, rfl, by decide⟩

/-- Memory is lost: the array of pointers which a failed `push_tail` had made is left when the object is destroyed. -/
theorem C116_packed_leak_refuted : ∃ o1 h1 o h h',
    PackedObj.newOom Supply.full (0:Int) 1 ⟨[]⟩ = .ok (some o1) h1 ∧
    memRunOom 0 [(MOp.op (.push 1), Supply.full), (.op (.push 2), ⟨true, true, false⟩)] (o1, h1) = some ([.done, .outOfMemory], o, h) ∧
    o.destroy h = .ok () h' ∧ (h'.get 2).isSome := by
  exact ⟨_, _, _, _, _, rfl, rfl, rfl, rfl⟩

/-- So does a construction which finds memory for the pointers but not for the block. -/
theorem C116_packed_new_refuted (junk : V) (n : Nat) (h : Heap (Slot V)) :
    ∃ h', PackedObj.newOom ⟨true, true, false⟩ junk n h = .ok none h' ∧ (h'.get h.next).isSome := by
  refine ⟨h.alloc (List.replicate 1 (.elem junk)), rfl, ?_⟩
  rw [Heap.get_alloc, if_pos rfl]
  rfl
end Boof
