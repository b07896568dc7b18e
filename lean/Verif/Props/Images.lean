import Verif.Proofs.World
/-
C01-C07: grayscale images.
-/
namespace Boof
variable {V : Type}

/-! ## C01 checked pixel access -/

/-- Reading inside the image returns the pixel and changes nothing. -/
theorem C01_at_reads {h : Heap V} {g : Gray} (hv : g.Valid h) {x y : Nat} (hx : x < g.width)
    (hy : y < g.height) : ∃ v, g.at' x y h = .ok v h ∧ h.px g x y = some v := by
  obtain ⟨v, e⟩ := hv.px_some hx hy
  refine ⟨v, ?_, e⟩
  unfold Gray.at'
  rw [if_neg (by omega), hv.index_eq hx hy]
  exact M.rd_run e

/-- Different coordinates are different cells of the array. -/
theorem C01_injective {h : Heap V} {g : Gray} (hv : g.Valid h) {x y x' y' : Nat} (hx : x < g.width)
    (hy : y < g.height) (hx' : x' < g.width) (hy' : y' < g.height)
    (e : g.indexOf x y = g.indexOf x' y') : x = x' ∧ y = y' := by
  rw [hv.index_eq hx hy, hv.index_eq hx' hy'] at e
  exact hv.addr_inj hx hx' e

/-- Writing inside the image sets that pixel and nothing else, and reading it back returns the value. -/
theorem C01_at_writes {h : Heap V} {g : Gray} (hv : g.Valid h) {x y : Nat} (hx : x < g.width)
    (hy : y < g.height) (v : V) :
    ∃ h', g.setAt x y v h = .ok () h' ∧
      Painted h h' g (fun x' y' => if x' = x ∧ y' = y then some v else none) ∧
      g.at' x y h' = .ok v h' := by
  obtain ⟨h', e, p⟩ := (Painted.refl h g).write hv hx hy v
  refine ⟨h', ?_, p, ?_⟩
  · unfold Gray.setAt
    rw [if_neg (by omega), hv.index_eq hx hy]; exact e
  · have hp := p.pix x y hx hy
    simp only [and_self, if_true, Option.or] at hp
    unfold Gray.at'
    rw [if_neg (by omega), hv.index_eq hx hy]
    exact M.rd_run hp

/-- Outside the image both throw and change nothing; `isInBounds` tells exactly which case applies. -/
theorem C01_at_throws (h : Heap V) (g : Gray) {x y : Nat} (ho : ¬(x < g.width ∧ y < g.height)) (v : V) :
    g.at' x y h = .throw h ∧ g.setAt x y v h = .throw h ∧ g.isInBounds x y = false := by
  have : x ≥ g.width ∨ y ≥ g.height := by omega
  refine ⟨?_, ?_, ?_⟩
  · unfold Gray.at'; rw [if_pos this]; rfl
  · unfold Gray.setAt; rw [if_pos this]; rfl
  · simp only [Gray.isInBounds, Bool.and_eq_false_iff, decide_eq_false_iff_not]; omega

/-- A concrete sub-image (2x2 window in a 4x3 image) meets the hypotheses. -/
example : (Gray.wrap 0 12 2 2 5 4).Valid (⟨[some (List.replicate 12 (7:Int))]⟩ : Heap Int) := by
  decide

/-! ## C02 construction and reshape -/

/-- A constructed image has the requested shape, all pixels zero, and existing arrays are untouched. -/
theorem C02_new (z : V) (h : Heap V) {w ht : Nat} (hw : w < P32) (hh : ht < P32) (ha : w * ht < P32) :
    ∃ g h', Gray.new z w ht h = .ok g h' ∧ g.width = w ∧ g.height = ht ∧ g.subimage = false ∧
      g.Valid h' ∧ g.Shows h' (fun _ _ => z) ∧ (∀ b i, b < h.next → h'.cell b i = h.cell b i) := by
  obtain ⟨g, e, eb, e1, e2, e3, hv, el⟩ := new_spec z h hw hh ha
  refine ⟨g, _, e, e1, e2, e3, hv, ?_, ?_⟩
  · intro x y hx hy
    have := hv.addr_lt hx hy
    unfold Heap.px
    rw [eb, Heap.cell_alloc, if_pos rfl, List.getElem?_replicate, if_pos (by rw [← el]; exact this)]
  · intro b i hb
    rw [Heap.cell_alloc, if_neg (by omega)]

/-- Reshape yields a usable image of the requested shape and leaves other arrays alone. -/
theorem C02_reshape {h : Heap V} (z : V) {g : Gray} {w ht : Nat} (hv : g.Valid h)
    (hw : w < P32) (hh : ht < P32) (ha : w * ht < P32) (hc : g.CanBe w ht) :
    ∃ g' h', g.reshape z w ht h = .ok g' h' ∧ Reshaped h h' g g' w ht :=
  reshape_spec z hv hw hh ha hc

/-- The array is kept, with its contents, when it is large enough. -/
theorem C02_reshape_keeps (h : Heap V) (z : V) {g : Gray} {w ht : Nat} (hs : g.subimage = false)
    (ha : w * ht < P32) (hfit : w * ht ≤ g.dataLength) :
    ∃ g', g.reshape z w ht h = .ok g' h ∧ g'.buf = g.buf ∧ g'.dataLength = g.dataLength := by
  unfold Gray.reshape
  by_cases e : g.width = w ∧ g.height = ht
  · rw [if_pos e]; exact ⟨g, rfl, rfl, rfl⟩
  · rw [if_neg e]
    simp only [hs, Bool.false_eq_true, if_false]
    rw [wrap32_of_lt ha, if_neg (by omega)]
    exact ⟨_, rfl, rfl, rfl⟩

/-- Otherwise the old array is released and replaced by one with all elements zero. -/
theorem C02_reshape_grows {h : Heap V} (z : V) {g : Gray} {w ht : Nat} (hv : g.Valid h)
    (hs : g.subimage = false) (hw : w < P32) (hh : ht < P32) (ha : w * ht < P32)
    (hfit : g.dataLength < w * ht) :
    ∃ g' h', g.reshape z w ht h = .ok g' h' ∧ g'.dataLength = w * ht ∧ g'.Shows h' (fun _ _ => z) ∧
      h'.get g.buf = none := by
  have hne : ¬(g.width = w ∧ g.height = ht) := by
    rintro ⟨rfl, rfl⟩; have := hv.area_le; omega
  have hok := reshape_spec z hv hw hh ha (Or.inl hs)
  obtain ⟨l, el⟩ := Option.isSome_iff_exists.mp hv.live
  have hlt := hv.lt_next
  have hrun : g.reshape z w ht h = .ok { g with buf := h.next, dataLength := w*ht, width := w, height := ht, stride := w }
      ((h.free g.buf).alloc (List.replicate (w*ht) z)) := by
    unfold Gray.reshape
    rw [if_neg hne]
    simp only [hs, Bool.false_eq_true, if_false]
    rw [wrap32_of_lt ha, if_pos hfit]
    simp only [M.bind_run, M.delArr, el, M.newArr, Heap.next_free]
    rfl
  obtain ⟨g', h', e, r⟩ := hok
  refine ⟨g', h', e, ?_, ?_, ?_⟩
  · rw [hrun] at e; cases e; rfl
  · intro x y hx hy
    have hlt' := r.valid.addr_lt hx hy
    rw [hrun] at e; cases e
    unfold Heap.px
    rw [Heap.cell_alloc, Heap.next_free, if_pos rfl, List.getElem?_replicate]
    exact if_pos hlt'
  · rw [hrun] at e; cases e
    rw [Heap.get_alloc, Heap.next_free, if_neg (by omega), Heap.get_free, if_pos rfl]

/-- Reshaping to the current shape does nothing, also on a sub-image. -/
theorem C02_reshape_same (h : Heap V) (z : V) (g : Gray) : g.reshape z g.width g.height h = .ok g h := by
  unfold Gray.reshape; rw [if_pos ⟨rfl, rfl⟩]; rfl

/-- Any other reshape of a sub-image throws and changes nothing. -/
theorem C02_reshape_sub_throws (h : Heap V) (z : V) {g : Gray} {w ht : Nat} (hs : g.subimage = true)
    (he : ¬(g.width = w ∧ g.height = ht)) : g.reshape z w ht h = .throw h := reshape_throws z hs he

/-- The bound `w*h < 2^32` cannot be dropped: a 65536 x 65536 image is constructed without error but has no
storage, and the in-range access `at(0,0)` is undefined behaviour. -/
theorem C02_overflow_refuted (z : V) (h : Heap V) :
    (Gray.new z 65536 65536 >>= fun g => g.at' 0 0) h = .ub := by
  simp only [Gray.new, M.bind_run, M.newArr, show wrap32 (65536 * 65536) = 0 from rfl, M.pure_run]
  unfold Gray.at'
  rw [if_neg (by simp)]
  apply M.rd_ub
  simp [Heap.cell_alloc]

/-! ## C03 histories -/

open World in
/-- One operation: it completes and keeps the invariant, or throws.  A throw leaves the variables alone and keeps the
invariant, and unless it comes from a picture with rows of different length it leaves the world exactly as it was.
Undefined behaviour is impossible. -/
theorem C03_step (z : V) {w : World V} (hI : w.Inv) (op : IOp V) (ha : w.Allowed op) :
    (∃ w', w.step z op = .ok () w' ∧ w'.Inv) ∨
    (∃ w', w.step z op = .throw w' ∧ w'.Inv ∧ w'.vars = w.vars ∧ ((∀ rows, op ≠ .rows rows) → w' = w)) := by
  suffices hs : (∃ w', w.step z op = .ok () w' ∧ w'.Inv) ∨ w.step z op = .throw w ∨
      (∃ w', w.step z op = .throw w' ∧ w'.Inv ∧ w'.vars = w.vars ∧ ∃ rows, op = .rows rows) by
    rcases hs with hs | hs | ⟨w', h1, h2, h3, r, h4⟩
    · exact Or.inl hs
    · exact Or.inr ⟨w, hs, hI, rfl, fun _ => rfl⟩
    · exact Or.inr ⟨w', h1, h2, h3, fun h => absurd h4 (h r)⟩
  cases op with
  | mk wd ht =>
    left
    obtain ⟨h1, h2, h3⟩ := ha
    obtain ⟨g, e, eb, _, _, es, hv, _⟩ := new_spec z w.heap h1 h2 h3
    exact ⟨_, by simp only [step, e], inv_append_new hI (new_oneMore z w.heap wd ht) hv eb⟩
  | assign d s =>
    rcases ed : w.var d with _ | g
    · left; exact ⟨w, by simp only [step, ed], hI⟩
    rcases es : w.var s with _ | src
    · left; exact ⟨w, by simp only [step, ed, es], hI⟩
    have hv := hI.valid d g ed
    have hs := hI.valid s src es
    by_cases hds : d = s
    · left
      subst hds
      rw [es] at ed; cases ed
      refine ⟨_, by simp only [step, es, decide_true, Gray.assign, if_true]; rfl, ?_⟩
      refine inv_congr hI ?_
      intro j
      split
      · exact var_set_same es j
      · exact var_updated_same es j
    · rcases hsb : src.subimage with _ | _
      · by_cases hc : g.CanBe src.width src.height
        · left
          have hf := hs.shows z
          obtain ⟨g', h', e, r⟩ := copy_spec z hv hs hc (ha hds g src ed es hsb) hf
          refine ⟨⟨h', updated w.vars d g g'⟩, ?_, inv_updated hI ed r.valid r.sub r.frame r.alive r.buf⟩
          simp only [step, ed, es, hds, decide_false, Gray.assign, Bool.false_eq_true, if_false, hsb, e]
        · right; left
          have hg : g.subimage = true := by
            rcases hb : g.subimage with _ | _
            · exact absurd (Or.inl hb) hc
            · rfl
          have e := copy_throws (h := w.heap) z hg (src := src) (fun e => hc (Or.inr e))
          simp only [step, ed, es, hds, decide_false, Gray.assign, Bool.false_eq_true, if_false, hsb, e]
      · left
        refine ⟨_, by simp only [step, ed, es, hds, decide_false, assign_view w.heap z hsb]; rfl, ?_⟩
        simp only [hsb, if_true]
        exact inv_set_view hI ed hs hsb
  | clone i =>
    left
    rcases ei : w.var i with _ | g
    · exact ⟨w, by simp only [step, ei], hI⟩
    · exact ⟨_, by simp only [step, ei]; rfl, inv_append_view hI (hI.valid i g ei) (ha g ei)⟩
  | rows rows =>
    obtain ⟨h1, h2, h3⟩ := ha
    rcases rows_cases rows with c | ⟨first, rest, rfl, c⟩
    · left
      obtain ⟨g, h', e, _, _, _, eb, hv, _, hm⟩ := ofRows_run z w.heap h2 h1 h3 c (by rintro rfl; rfl)
      exact ⟨_, by simp only [step, e], inv_append_new hI hm hv eb⟩
    · right; right
      obtain ⟨h', e, hm⟩ := ofRows_throws z w.heap h2 h1 h3 c
      replace e : Gray.ofRows z (first :: rest) w.heap = .throw h' := e
      exact ⟨_, by simp only [step, e], inv_oneMore hI hm, rfl, _, rfl⟩
  | reshape i wd ht =>
    obtain ⟨h1, h2, h3⟩ := ha
    rcases ei : w.var i with _ | g
    · left; exact ⟨w, by simp only [step, ei], hI⟩
    · have hv := hI.valid i g ei
      by_cases hc : g.CanBe wd ht
      · left
        obtain ⟨g', h', e, r⟩ := reshape_spec z hv h1 h2 h3 hc
        refine ⟨⟨h', updated w.vars i g g'⟩, by simp only [step, ei, e], ?_⟩
        refine inv_updated hI ei r.valid r.sub r.frame r.alive ?_
        rcases r.buf with ⟨e1, e2⟩ | ⟨e1, _⟩
        · exact Or.inl ⟨e1, fun a ha => by rw [e2]; exact ha⟩
        · exact Or.inr (by omega)
      · right; left
        have hs : g.subimage = true := by
          rcases hb : g.subimage with _ | _
          · exact absurd (Or.inl hb) hc
          · rfl
        have := reshape_throws (h := w.heap) z hs (fun e => hc (Or.inr e))
        simp only [step, ei, this]
  | copy d s =>
    rcases ed : w.var d with _ | g
    · left; exact ⟨w, by simp only [step, ed], hI⟩
    rcases es : w.var s with _ | src
    · left; exact ⟨w, by simp only [step, ed, es], hI⟩
    have hv := hI.valid d g ed
    have hs := hI.valid s src es
    by_cases hc : g.CanBe src.width src.height
    · left
      have hf := hs.shows z
      obtain ⟨g', h', e, r⟩ := copy_spec z hv hs hc (ha g src ed es) hf
      refine ⟨⟨h', updated w.vars d g g'⟩, by simp only [step, ed, es, e], ?_⟩
      exact inv_updated hI ed r.valid r.sub r.frame r.alive r.buf
    · right; left
      have hsb : g.subimage = true := by
        rcases hb : g.subimage with _ | _
        · exact absurd (Or.inl hb) hc
        · rfl
      have := copy_throws (h := w.heap) z hsb (src := src) (fun e => hc (Or.inr e))
      simp only [step, ed, es, this]
  | view i x0 y0 x1 y1 =>
    rcases ei : w.var i with _ | g
    · left; exact ⟨w, by simp only [step, ei], hI⟩
    have hv := hI.valid i g ei
    by_cases hb : x1 > g.width ∨ y1 > g.height ∨ x1 < x0 ∨ y1 < y0
    · right; left
      have : (g.makeSubimage x0 y0 x1 y1 : M V Gray) w.heap = .throw w.heap := by
        unfold Gray.makeSubimage; rw [if_pos hb]; rfl
      simp only [step, ei, this]
    · left
      have e : (g.makeSubimage x0 y0 x1 y1 : M V Gray) w.heap = .ok (Gray.wrap g.buf g.dataLength (x1 - x0) (y1 - y0)
          (wrap32 (g.offset + y0 * g.stride + x0)) g.stride) w.heap := by
        unfold Gray.makeSubimage; rw [if_neg hb]; rfl
      have hsv := sub_valid (x0 := x0) (y0 := y0) (x1 := x1) (y1 := y1) hv (by omega) (by omega) (by omega) (by omega)
      refine ⟨⟨w.heap, w.vars ++ [some (Gray.wrap g.buf g.dataLength (x1 - x0) (y1 - y0)
          (wrap32 (g.offset + y0 * g.stride + x0)) g.stride)]⟩, by simp only [step, ei, e], ?_, ?_⟩
      · intro j a ea
        rw [var_append (h' := w.heap)] at ea
        split at ea
        · cases ea; exact hsv
        · exact hI.valid j a ea
      · intro j k a b hjk ea eb sa sb
        rw [var_append (h' := w.heap)] at ea eb
        split at ea
        · cases ea; cases sa
        · split at eb
          · cases eb; cases sb
          · exact hI.owners j k a b hjk ea eb sa sb
  | put i x y v =>
    rcases ei : w.var i with _ | g
    · left; exact ⟨w, by simp only [step, ei], hI⟩
    have hv := hI.valid i g ei
    by_cases hb : x < g.width ∧ y < g.height
    · left
      obtain ⟨h', e, p, _⟩ := C01_at_writes hv hb.1 hb.2 v
      refine ⟨⟨h', w.vars⟩, by simp only [step, ei, e], ?_, ?_⟩
      · intro j a ea
        exact p.valid hv (hI.valid j a ea)
      · intro j k a b; exact hI.owners j k a b
    · right; left
      have := (C01_at_throws w.heap g hb v).2.1
      simp only [step, ei, this]
  | get i x y =>
    rcases ei : w.var i with _ | g
    · left; exact ⟨w, by simp only [step, ei], hI⟩
    have hv := hI.valid i g ei
    by_cases hb : x < g.width ∧ y < g.height
    · left
      obtain ⟨v, e, _⟩ := C01_at_reads hv hb.1 hb.2
      exact ⟨w, by simp only [step, ei, e], hI⟩
    · right; left
      have := (C01_at_throws w.heap g hb z).1
      simp only [step, ei, this]
  | drop i =>
    rcases ei : w.var i with _ | g
    · left; exact ⟨w, by simp only [step, ei], hI⟩
    left
    have hv := hI.valid i g ei
    rcases hs : g.subimage with _ | _
    · -- owner: the array is released
      obtain ⟨l, el⟩ := Option.isSome_iff_exists.mp hv.live
      have e : (g.destroy : M V Unit) w.heap = .ok () (w.heap.free g.buf) := by
        unfold Gray.destroy; rw [hs]; simp [M.delArr, el]
      refine ⟨⟨w.heap.free g.buf, w.vars.map (fun o => o.bind (fun a => if a.buf = g.buf then none else some a))⟩,
        by simp only [step, ei, e, hs]; rfl, ?_, ?_⟩
      · intro j a ea
        rw [var_map] at ea
        rcases ha' : (World.mk (w.heap.free g.buf) w.vars).var j with _ | a'
        · rw [ha'] at ea; cases ea
        · rw [ha'] at ea
          simp only [Option.bind_some] at ea
          split at ea
          · cases ea
          · cases ea
            have hva := hI.valid j a ha'
            refine hva.transfer ?_ ?_
            · rw [Heap.get_free, if_neg (by assumption)]; exact hva.live
            · intro k hk; rw [Heap.cell_free, if_neg (by assumption)]; exact hva.cells k hk
      · intro j k a b hjk ea eb sa sb
        rw [var_map] at ea eb
        rcases ha' : (World.mk (w.heap.free g.buf) w.vars).var j with _ | a'
        · rw [ha'] at ea; cases ea
        rcases hb' : (World.mk (w.heap.free g.buf) w.vars).var k with _ | b'
        · rw [hb'] at eb; cases eb
        rw [ha'] at ea; rw [hb'] at eb
        simp only [Option.bind_some] at ea eb
        split at ea
        · cases ea
        · split at eb
          · cases eb
          · cases ea; cases eb
            exact hI.owners j k a b hjk ha' hb' sa sb
    · have e : (g.destroy : M V Unit) w.heap = .ok () w.heap := by
        unfold Gray.destroy; rw [hs]; rfl
      refine ⟨⟨w.heap, w.vars.set i none⟩, by simp only [step, ei, e, hs]; rfl, ?_, ?_⟩
      · intro j a ea
        rw [var_set (lt_of_var ei)] at ea
        split at ea
        · cases ea
        · exact hI.valid j a ea
      · intro j k a b hjk ea eb sa sb
        rw [var_set (lt_of_var ei)] at ea eb
        split at ea
        · cases ea
        · split at eb
          · cases eb
          · exact hI.owners j k a b hjk ea eb sa sb

open World in
/-- No history of allowed operations reaches undefined behaviour, and afterwards every image variable still is a
valid image (so by C01 all its pixels can be read and written). -/
theorem C03_history (z : V) {w : World V} (hI : w.Inv) (ops : List (IOp V)) (ha : w.AllowedAll z ops) :
    ∃ w', w.run z ops = some w' ∧ w'.Inv := by
  induction ops generalizing w with
  | nil => exact ⟨w, rfl, hI⟩
  | cons op ops ih =>
    obtain ⟨h1, h2⟩ := ha
    rcases C03_step z hI op h1 with ⟨w', e, hI'⟩ | e
    · obtain ⟨w'', e', hI''⟩ := ih hI' (h2 w' (Or.inl e))
      exact ⟨w'', by simp only [run, e, e'], hI''⟩
    · obtain ⟨w', e, hI', _⟩ := e
      obtain ⟨w'', e', hI''⟩ := ih hI' (h2 w' (Or.inr e))
      exact ⟨w'', by simp only [run, e, e'], hI''⟩

/-- The empty world satisfies the invariant, so the theorem covers every program that starts from nothing. -/
theorem C03_init (h : Heap V) : (World.mk h []).Inv :=
  ⟨fun i g e => by simp [World.var] at e, fun i j a b _ e => by simp [World.var] at e⟩

/-- Without the rule that views of a replaced array are not used any more the property fails: reading a view
after its parent was reshaped is a use after free. -/
theorem C03_dangling_view_refuted :
    (do let g ← Gray.new (0:Int) 2 2
        let v ← g.makeSubimage 0 0 1 1
        let _ ← g.reshape 0 3 3
        v.at' 0 0) ⟨[]⟩ = Res.ub := by decide

/-- A non-trivial history that is allowed. -/
example : (World.mk (⟨[]⟩ : Heap Int) []).AllowedAll 0
    [.mk 4 3, .view 0 1 1 3 2, .put 1 0 0 7, .reshape 0 2 2, .get 0 1 1, .drop 0] := by
  simp [World.AllowedAll, World.Allowed, P32]

/-- One with a picture given by rows, of which a view is made, copy-constructed and assigned. -/
example : (World.mk (⟨[]⟩ : Heap Int) []).AllowedAll 0
    [.rows [[1,2],[3,4]], .view 0 0 0 1 1, .clone 1, .assign 2 1, .rows [[1],[2,3]]] := by
  refine World.allowedAll_ok rfl (show _ ∧ _ ∧ _ by decide) ?_
  refine World.allowedAll_ok rfl trivial ?_
  refine World.allowedAll_ok rfl (fun g e => by cases e; rfl) ?_
  refine World.allowedAll_ok rfl (fun _ g s _ es hs => by cases es; cases hs) ?_
  exact World.allowedAll_throw rfl (show _ ∧ _ ∧ _ by decide) trivial

/-! ## C04 sub-images -/

/-- `makeSubimage` throws, changing nothing, exactly for illegal rectangles. -/
theorem C04_bounds (h : Heap V) (g : Gray) (x0 y0 x1 y1 : Nat) :
    ((g.makeSubimage x0 y0 x1 y1 : M V Gray) h = .throw h ↔
      ¬(x0 ≤ x1 ∧ x1 ≤ g.width ∧ y0 ≤ y1 ∧ y1 ≤ g.height)) := by
  unfold Gray.makeSubimage
  by_cases hb : x1 > g.width ∨ y1 > g.height ∨ x1 < x0 ∨ y1 < y0
  · rw [if_pos hb]
    exact ⟨fun _ => by omega, fun _ => rfl⟩
  · rw [if_neg hb]
    constructor
    · intro e; cases e
    · intro e; omega

/-- Otherwise it returns a valid image of the rectangle's shape whose pixels *are* the parent's pixels. -/
theorem C04_window {h : Heap V} {g : Gray} (hv : g.Valid h) {x0 y0 x1 y1 : Nat}
    (hx : x0 ≤ x1) (hx1 : x1 ≤ g.width) (hy : y0 ≤ y1) (hy1 : y1 ≤ g.height) :
    ∃ s, (g.makeSubimage x0 y0 x1 y1 : M V Gray) h = .ok s h ∧ s.Valid h ∧ s.subimage = true ∧
      s.width = x1 - x0 ∧ s.height = y1 - y0 ∧ s.buf = g.buf ∧
      ∀ x y, x < s.width → y < s.height → s.addr x y = g.addr (x0 + x) (y0 + y) := by
  refine ⟨Gray.wrap g.buf g.dataLength (x1 - x0) (y1 - y0) (wrap32 (g.offset + y0 * g.stride + x0)) g.stride,
    ?_, sub_valid hv hx hy hx1 hy1, rfl, rfl, rfl, rfl, ?_⟩
  · unfold Gray.makeSubimage; rw [if_neg (by omega)]; rfl
  · intro x y hx' hy'
    exact sub_addr hv hy1 hx1 hx' hy'

/-- Writing through the window is writing the parent's pixel, and the parent's other pixels do not change. -/
theorem C04_write_through {h h' : Heap V} {g s : Gray} (hv : g.Valid h) {x0 y0 x1 y1 x y : Nat} (v : V)
    (es : (g.makeSubimage x0 y0 x1 y1 : M V Gray) h = .ok s h) (hx : x < s.width) (hy : y < s.height)
    (ew : s.setAt x y v h = .ok () h') :
    Painted h h' g (fun x' y' => if x' = x0 + x ∧ y' = y0 + y then some v else none) ∧
      g.at' (x0 + x) (y0 + y) h' = .ok v h' := by
  have hb : x0 ≤ x1 ∧ x1 ≤ g.width ∧ y0 ≤ y1 ∧ y1 ≤ g.height := by
    apply Classical.byContradiction
    intro hn
    rw [(C04_bounds h g x0 y0 x1 y1).mpr hn] at es; cases es
  obtain ⟨s', e', hsv, _, ew1, eh1, ebuf, hadr⟩ := C04_window hv hb.1 hb.2.1 hb.2.2.1 hb.2.2.2
  rw [es] at e'
  cases e'
  have hgx : x0 + x < g.width := by omega
  have hgy : y0 + y < g.height := by omega
  obtain ⟨h2, e2, p2, r2⟩ := C01_at_writes hv hgx hgy v
  have e3 : s.setAt x y v h = g.setAt (x0 + x) (y0 + y) v h := by
    unfold Gray.setAt
    rw [if_neg (by omega), if_neg (by omega), hsv.index_eq hx hy, hv.index_eq hgx hgy, hadr x y hx hy, ebuf]
  rw [e3, e2] at ew
  cases ew
  exact ⟨p2, r2⟩

/-- A sub-image of a sub-image is the sub-image of the composed rectangle. -/
theorem C04_nested {h : Heap V} {g s : Gray} {x0 y0 x1 y1 u0 v0 u1 v1 : Nat}
    (es : (g.makeSubimage x0 y0 x1 y1 : M V Gray) h = .ok s h)
    (hu : u0 ≤ u1) (hu1 : u1 ≤ s.width) (hw : v0 ≤ v1) (hw1 : v1 ≤ s.height) :
    (s.makeSubimage u0 v0 u1 v1 : M V Gray) h = g.makeSubimage (x0+u0) (y0+v0) (x0+u1) (y0+v1) h := by
  have hb : x0 ≤ x1 ∧ x1 ≤ g.width ∧ y0 ≤ y1 ∧ y1 ≤ g.height := by
    apply Classical.byContradiction
    intro hn
    rw [(C04_bounds h g x0 y0 x1 y1).mpr hn] at es; cases es
  unfold Gray.makeSubimage at es
  rw [if_neg (by omega)] at es
  have es' : s = Gray.wrap g.buf g.dataLength (x1 - x0) (y1 - y0) (wrap32 (g.offset + y0 * g.stride + x0)) g.stride := by
    cases es; rfl
  have e1 : s.width = x1 - x0 := by rw [es']; rfl
  have e2 : s.height = y1 - y0 := by rw [es']; rfl
  unfold Gray.makeSubimage
  rw [if_neg (by omega), if_neg (by omega), es']
  simp only [Gray.wrap]
  have e7 : x0 + u1 - (x0 + u0) = u1 - u0 := by omega
  have e8 : y0 + v1 - (y0 + v0) = v1 - v0 := by omega
  have e9 : wrap32 (wrap32 (g.offset + y0 * g.stride + x0) + v0 * g.stride + u0) =
      wrap32 (g.offset + (y0 + v0) * g.stride + (x0 + u0)) := by
    unfold wrap32
    rw [Nat.add_mul, Nat.add_assoc, Nat.mod_add_mod]
    congr 1; omega
  rw [e7, e8, e9]

/-! ## C05 copy -/

/-- `g.copy(src)`: the destination gets the source's shape and pixels; the source, other arrays, and (when the
destination already had the right shape, e.g. a sub-image) every cell outside the destination are unchanged. -/
theorem C05_copy {h : Heap V} (z : V) {g src : Gray} {f : Nat → Nat → V} (hv : g.Valid h)
    (hs : src.Valid h) (hc : g.CanBe src.width src.height) (hsep : src.Sep g src.width src.height)
    (hf : src.Shows h f) :
    ∃ g' h', g.copy z src h = .ok g' h' ∧ Produced h h' g g' src.width src.height f ∧ src.Shows h' f := by
  obtain ⟨g', h', e, p⟩ := copy_spec z hv hs hc hsep hf
  refine ⟨g', h', e, p, ?_⟩
  intro x y hx hy
  rcases hsep with hne | ⟨ew, eh, hd⟩
  · unfold Heap.px
    rw [p.frame _ _ hne hs.lt_next]; exact hf x y hx hy
  · rw [(p.inPlace ew eh).2.px_disjoint hd hx hy]; exact hf x y hx hy

/-- It throws, changing nothing, exactly when the destination is a sub-image of another shape. -/
theorem C05_copy_throws {h : Heap V} (z : V) {g src : Gray} (hv : g.Valid h) (hs : src.Valid h)
    (hsep : src.Sep g src.width src.height) :
    ((∃ h', g.copy z src h = .throw h') → g.copy z src h = .throw h) ∧
    (g.copy z src h = .throw h ↔
      (g.subimage = true ∧ ¬(g.width = src.width ∧ g.height = src.height))) := by
  have key : (∃ h', g.copy z src h = .throw h') →
      (g.subimage = true ∧ ¬(g.width = src.width ∧ g.height = src.height)) := by
    rintro ⟨h', e⟩
    apply Classical.byContradiction
    intro hn
    have hc : g.CanBe src.width src.height := by
      rcases hb : g.subimage with _ | _
      · exact Or.inl hb
      · exact Or.inr (Classical.byContradiction (fun hne => hn ⟨hb, hne⟩))
    obtain ⟨g', h'', e', _⟩ := copy_spec z hv hs hc hsep (hs.shows z)
    rw [e] at e'; cases e'
  exact ⟨fun e => copy_throws z (key e).1 (key e).2, fun e => key ⟨h, e⟩, fun e => copy_throws z e.1 e.2⟩

/-! ## C06 copy assignment -/

/-- Assigning from an image that owns its pixels copies it: equal shape and pixels, separate storage, and no other cell of
memory changes (`Produced`). -/
theorem C06_assign_owner {h : Heap V} (z : V) {g src : Gray} {f : Nat → Nat → V} (hv : g.Valid h)
    (hs : src.Valid h) (ho : src.subimage = false) (hc : g.CanBe src.width src.height)
    (hne : src.buf ≠ g.buf) (hf : src.Shows h f) :
    ∃ g' h', g.assign z src false h = .ok g' h' ∧ Produced h h' g g' src.width src.height f ∧
      g'.width = src.width ∧ g'.height = src.height ∧
      g'.Shows h' f ∧ src.Shows h' f ∧ g'.buf ≠ src.buf := by
  obtain ⟨g', h', e, p, ps⟩ := C05_copy z hv hs hc (Or.inl hne) hf
  refine ⟨g', h', ?_, p, p.width, p.height, ?_, ps, ?_⟩
  · unfold Gray.assign; simp only [ho, Bool.false_eq_true, if_false]; exact e
  · intro x y hx hy
    exact p.pix x y (by rw [← p.width]; exact hx) (by rw [← p.height]; exact hy)
  · rcases p.buf with ⟨e1, _⟩ | e1
    · rw [e1]; exact fun e => hne e.symm
    · have := hs.lt_next; omega

/-- Assigning from a sub-image makes another view of the same pixels. -/
theorem C06_assign_view (h : Heap V) (z : V) {g src : Gray} (hs : src.subimage = true) :
    g.assign z src false h = .ok src h := World.assign_view h z hs

/-- A view of another shape cannot be assigned an image which owns its pixels: exception, nothing changes. -/
theorem C06_assign_throws (h : Heap V) (z : V) {g src : Gray} (ho : src.subimage = false) (hg : g.subimage = true)
    (hne : ¬(g.width = src.width ∧ g.height = src.height)) : g.assign z src false h = .throw h := by
  unfold Gray.assign; simp only [ho, Bool.false_eq_true, if_false]; exact copy_throws z hg hne

/-- Self-assignment does nothing. -/
theorem C06_self_assign (h : Heap V) (z : V) (g src : Gray) : g.assign z src true h = .ok g h := rfl

/-! ## C07 shape getters -/

/-- Proved part: `getWidth` is the number of columns; `getHeight` is right for square images only. -/
theorem C07_getters_partial (g : Gray) :
    g.getWidth = g.width ∧ (g.getHeight = g.height ↔ g.width = g.height) := ⟨rfl, Iff.rfl⟩

/-- The property is false of the code: `Gray(3,2).getHeight()` is 3. -/
theorem C07_getHeight_refuted (h : Heap V) (z : V) :
    ∃ g h', Gray.new z 3 2 h = .ok g h' ∧ g.height = 2 ∧ g.getHeight = 3 :=
  ⟨_, _, rfl, rfl, rfl⟩

/-- `total_pixels` is the number of pixels of a valid image. -/
theorem C07_total_pixels {h : Heap V} {g : Gray} (hv : g.Valid h) : g.totalPixels = g.width * g.height :=
  wrap32_of_lt hv.area_lt

end Boof
