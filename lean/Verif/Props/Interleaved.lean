import Verif.Proofs.Interleaved
/-
C08-C10: interleaved (colour) images.
-/
namespace Boof
variable {V : Type}

/-! ## C08 -/

/-- Reading band `b` of an in-range pixel returns its cell and changes nothing. -/
theorem C08_at_reads {h : Heap V} {g : Interleaved} (hv : g.Valid h) {x y b : Nat} (hx : x < g.width)
    (hy : y < g.height) (hb : b < g.numBands) :
    ∃ v, g.at' x y b h = .ok v h ∧ h.px3 g x y b = some v := by
  obtain ⟨v, e⟩ := hv.px_some hx hy hb
  refine ⟨v, ?_, e⟩
  unfold Interleaved.at'
  rw [if_neg (by omega), hv.index_eq hx hy hb]
  exact M.rd_run e

/-- Different (x,y,band) are different cells. -/
theorem C08_injective {h : Heap V} {g : Interleaved} (hv : g.Valid h) {x y b x' y' b' : Nat}
    (hx : x < g.width) (hy : y < g.height) (hb : b < g.numBands) (hx' : x' < g.width) (hy' : y' < g.height)
    (hb' : b' < g.numBands) (e : g.indexOf x y b = g.indexOf x' y' b') : x = x' ∧ y = y' ∧ b = b' := by
  rw [hv.index_eq hx hy hb, hv.index_eq hx' hy' hb'] at e
  exact hv.addr_inj hx hb hx' hb' hy e

/-- Writing sets that cell and nothing else; reading it back returns the value. -/
theorem C08_at_writes {h : Heap V} {g : Interleaved} (hv : g.Valid h) {x y b : Nat} (hx : x < g.width)
    (hy : y < g.height) (hb : b < g.numBands) (v : V) :
    ∃ h', g.setAt x y b v h = .ok () h' ∧
      Painted3 h h' g (fun x' y' b' => if x' = x ∧ y' = y ∧ b' = b then some v else none) ∧
      g.at' x y b h' = .ok v h' := by
  obtain ⟨h', e, p⟩ := (Painted.refl h g.flat).write hv.flat (x := x * g.numBands + b) (band_lt hx hb) hy v
  have hp : Painted3 h h' g (fun x' y' b' => if x' = x ∧ y' = y ∧ b' = b then some v else none) := by
    refine p.to3.congr ?_
    intro x' y' b' hx' hy' hb'
    by_cases e : x' = x ∧ y' = y ∧ b' = b
    · obtain ⟨rfl, rfl, rfl⟩ := e; simp
    · rw [if_neg e, if_neg]
      rintro ⟨e1, e2⟩
      obtain ⟨e3, e4⟩ := addr_inj_aux hb' hb e1
      exact e ⟨e4, e2, e3⟩
  refine ⟨h', ?_, hp, ?_⟩
  · unfold Interleaved.setAt
    rw [if_neg (by omega), hv.index_eq hx hy hb, g.addr_flat]; exact e
  · have h2 := hp.pix x y b hx hy hb
    simp only [and_self, if_true, Option.or] at h2
    unfold Interleaved.at'
    rw [if_neg (by omega), hv.index_eq hx hy hb]
    exact M.rd_run h2

/-- Out-of-range `x` or `y` throws and changes nothing. -/
theorem C08_at_throws (h : Heap V) (g : Interleaved) {x y : Nat} (ho : ¬(x < g.width ∧ y < g.height))
    (b : Nat) (v : V) : g.at' x y b h = .throw h ∧ g.setAt x y b v h = .throw h := by
  have : x ≥ g.width ∨ y ≥ g.height := by omega
  exact ⟨by unfold Interleaved.at'; rw [if_pos this]; rfl, by unfold Interleaved.setAt; rw [if_pos this]; rfl⟩

/-- The constructor. -/
theorem C08_new (z : V) (h : Heap V) {w ht nb : Nat} (hw : w < P32) (hh : ht < P32) (hb : nb < P32)
    (hr : w * nb < P32) (ha : w * ht * nb < P32) :
    ∃ g h', Interleaved.new z w ht nb h = .ok g h' ∧ g.width = w ∧ g.height = ht ∧ g.numBands = nb ∧
      g.subimage = false ∧ g.Valid h' ∧ g.Shows h' (fun _ _ _ => z) ∧
      (∀ b i, b < h.next → h'.cell b i = h.cell b i) := by
  have hv : Interleaved.Valid (h.alloc (List.replicate (w * ht * nb) z))
      { buf := h.next, dataLength := w * ht * nb, width := w, height := ht, numBands := nb, offset := 0,
        stride := w * nb, subimage := false } := by
    refine Interleaved.Owns.valid ⟨?_, ?_, ha, rfl, rfl⟩ hw hh hb rfl hr (Nat.le_refl _)
    · simp [Heap.get_alloc]
    · intro i hi
      exact ⟨z, by rw [Heap.cell_alloc, if_pos rfl, List.getElem?_replicate, if_pos hi]⟩
  refine ⟨⟨h.next, w * ht * nb, w, ht, nb, 0, w * nb, false⟩, h.alloc (List.replicate (w * ht * nb) z), ?_, rfl, rfl, rfl, rfl, hv, ?_, ?_⟩
  · simp only [Interleaved.new, M.bind_run, M.newArr, wrap32_of_lt ha, wrap32_of_lt hr]; rfl
  · intro x y b hx hy hb'
    have := hv.addr_lt hx hy hb'
    unfold Heap.px3
    rw [Heap.cell_alloc, if_pos rfl, List.getElem?_replicate, if_pos this]
  · intro b i hlt
    rw [Heap.cell_alloc, if_neg (by omega)]

/-- `reshape(w,h,bands)`: exactly the requested shape, every cell addressable, other arrays untouched. -/
theorem C08_reshape3 {h : Heap V} (z : V) {g : Interleaved} {w ht nb : Nat} (hv : g.Valid h)
    (hw : w < P32) (hh : ht < P32) (hb : nb < P32) (hr : w * nb < P32) (ha : w * ht * nb < P32)
    (hc : g.CanBe w ht nb) :
    ∃ g' h', g.reshape3 z w ht nb h = .ok g' h' ∧ Reshaped3 h h' g g' w ht nb :=
  reshape3_spec z hv hw hh hb hr ha hc

/-- `reshape(w,h)` keeps the number of bands. -/
theorem C08_reshape {h : Heap V} (z : V) {g : Interleaved} {w ht : Nat} (hv : g.Valid h)
    (hw : w < P32) (hh : ht < P32) (hr : w * g.numBands < P32) (ha : w * ht * g.numBands < P32)
    (hc : g.CanBe w ht g.numBands) :
    ∃ g' h', g.reshape z w ht h = .ok g' h' ∧ Reshaped3 h h' g g' w ht g.numBands :=
  reshape_spec3 z hv hw hh hr ha hc

/-- `setNumberOfBands(n)` keeps width and height. -/
theorem C08_set_bands {h : Heap V} (z : V) {g : Interleaved} {nb : Nat} (hv : g.Valid h)
    (hb : nb < P32) (hr : g.width * nb < P32) (ha : g.width * g.height * nb < P32)
    (hc : g.CanBe g.width g.height nb) :
    ∃ g' h', g.setNumberOfBands z nb h = .ok g' h' ∧ Reshaped3 h h' g g' g.width g.height nb :=
  bands_spec z hv hb hr ha hc

/-- A sub-image refuses every change of shape, leaving everything as it was. -/
theorem C08_sub_throws (h : Heap V) (z : V) {g : Interleaved} (hs : g.subimage = true) (w ht nb : Nat) :
    (¬(g.width = w ∧ g.height = ht ∧ g.numBands = nb) → g.reshape3 z w ht nb h = .throw h) ∧
    (¬(g.width = w ∧ g.height = ht) → g.reshape z w ht h = .throw h) ∧
    (g.numBands ≠ nb → g.setNumberOfBands z nb h = .throw h) := by
  refine ⟨fun e => ?_, fun e => ?_, fun e => ?_⟩
  · unfold Interleaved.reshape3; rw [if_neg e, if_pos hs]; rfl
  · unfold Interleaved.reshape; rw [if_neg e, if_pos hs]; rfl
  · unfold Interleaved.setNumberOfBands; rw [if_neg e, if_pos hs]; rfl

/-- Only `x` and `y` are checked: `at` with a band number equal to the number of bands does not throw, it reads
the next pixel. -/
theorem C08_band_not_checked :
    (⟨0, 6, 3, 1, 2, 0, 6, false⟩ : Interleaved).at' 0 0 2 (⟨[some [10, 11, 12, 13, 14, 15]]⟩ : Heap Int)
      = .ok 12 ⟨[some [10, 11, 12, 13, 14, 15]]⟩ := by decide

/-- A 2x2 window of a 4x2 two-band image, and an owner that can change shape, meet the hypotheses. -/
example : (⟨0, 16, 2, 2, 2, 2, 8, true⟩ : Interleaved).Valid (⟨[some (List.replicate 16 (7:Int))]⟩ : Heap Int) ∧
    (⟨0, 16, 4, 2, 2, 0, 8, false⟩ : Interleaved).Valid (⟨[some (List.replicate 16 (7:Int))]⟩ : Heap Int) ∧
    (⟨0, 16, 4, 2, 2, 0, 8, false⟩ : Interleaved).CanBe 5 2 3 := by
  refine ⟨by decide, by decide, Or.inl rfl⟩

/-! ## C09 -/

/-- `makeSubimage` throws exactly for illegal rectangles, changing nothing either way. -/
theorem C09_bounds (h : Heap V) (g : Interleaved) (x0 y0 x1 y1 : Nat) :
    (∃ s, g.makeSubimage x0 y0 x1 y1 h = .ok s h) ↔ (x0 ≤ x1 ∧ x1 ≤ g.width ∧ y0 ≤ y1 ∧ y1 ≤ g.height) := by
  unfold Interleaved.makeSubimage
  constructor
  · rintro ⟨s, e⟩
    split at e
    · cases e
    · split at e
      · cases e
      · omega
  · rintro ⟨h1, h2, h3, h4⟩
    rw [if_neg (by omega), if_neg (by omega)]
    exact ⟨_, rfl⟩

theorem C09_throws (h : Heap V) (g : Interleaved) {x0 y0 x1 y1 : Nat}
    (hn : ¬(x0 ≤ x1 ∧ x1 ≤ g.width ∧ y0 ≤ y1 ∧ y1 ≤ g.height)) : g.makeSubimage x0 y0 x1 y1 h = .throw h := by
  unfold Interleaved.makeSubimage
  split
  · rfl
  · split
    · rfl
    · omega

/-- The window: same storage, shifted coordinates; it is itself a valid image and does not own the array. -/
theorem C09_window {h : Heap V} {g s : Interleaved} {x0 y0 x1 y1 : Nat} (hv : g.Valid h)
    (hr : g.makeSubimage x0 y0 x1 y1 h = .ok s h) :
    s.width = x1 - x0 ∧ s.height = y1 - y0 ∧ s.numBands = g.numBands ∧ s.buf = g.buf ∧ s.subimage = true ∧
      s.Valid h ∧
      ∀ x y b, x < s.width → y < s.height → b < s.numBands → s.addr x y b = g.addr (x0 + x) (y0 + y) b := by
  obtain ⟨h1, h2, h3, h4⟩ := (C09_bounds h g x0 y0 x1 y1).mp ⟨s, hr⟩
  unfold Interleaved.makeSubimage at hr
  rw [if_neg (by omega), if_neg (by omega)] at hr
  cases hr
  have hwl := hv.widthLt
  have hhl := hv.heightLt
  have hll := hv.lenLt
  have key : ∀ y, y < y1 - y0 → g.offset + y0 * g.stride + x0 * g.numBands + y * g.stride +
      (x1 - x0) * g.numBands ≤ g.dataLength := by
    intro y hy
    have hf := hv.fits (y0 + y) (by omega)
    have hm : x1 * g.numBands ≤ g.width * g.numBands := Nat.mul_le_mul_right _ h2
    have he : x1 * g.numBands = x0 * g.numBands + (x1 - x0) * g.numBands := by
      rw [← Nat.add_mul]; congr 1; omega
    rw [Nat.add_mul] at hf
    omega
  refine ⟨rfl, rfl, rfl, rfl, rfl, ?_, ?_⟩
  · refine ⟨hv.live, hv.cells, hv.lenLt, ?_, ?_, hv.bandsLt, hv.strideLt, ?_, ?_, fun e => by cases e⟩
    · simp only [Interleaved.wrap]; omega
    · simp only [Interleaved.wrap]; omega
    · simp only [Interleaved.wrap]
      have : (x1 - x0) * g.numBands ≤ g.width * g.numBands := Nat.mul_le_mul_right _ (by omega)
      exact Nat.le_trans this hv.rowLe
    · simp only [Interleaved.wrap]
      intro y hy
      have := key y hy
      rw [wrap32_of_lt (by omega)]; omega
  · intro x y b hx hy hb
    simp only [Interleaved.wrap] at hx hy hb
    have := key y hy
    simp only [Interleaved.addr, Interleaved.wrap]
    rw [wrap32_of_lt (by omega), Nat.add_mul, Nat.add_mul]
    omega

/-- A value written through the window is read back through the parent, and conversely. -/
theorem C09_write_through {h : Heap V} {g s : Interleaved} {x0 y0 x1 y1 x y b : Nat} (hv : g.Valid h)
    (hr : g.makeSubimage x0 y0 x1 y1 h = .ok s h) (hx : x < s.width) (hy : y < s.height) (hb : b < s.numBands)
    (v : V) :
    (∃ h', s.setAt x y b v h = .ok () h' ∧ g.at' (x0 + x) (y0 + y) b h' = .ok v h') ∧
    (∃ h', g.setAt (x0 + x) (y0 + y) b v h = .ok () h' ∧ s.at' x y b h' = .ok v h') := by
  obtain ⟨b1, b2, b3, b4⟩ := (C09_bounds h g x0 y0 x1 y1).mp ⟨s, hr⟩
  obtain ⟨ew, eh, en, eb, -, hvs, hadr⟩ := C09_window hv hr
  have hgx : x0 + x < g.width := by omega
  have hgy : y0 + y < g.height := by omega
  have hgb : b < g.numBands := by omega
  have hpx : ∀ h' : Heap V, h'.px3 s x y b = h'.px3 g (x0 + x) (y0 + y) b := by
    intro h'; unfold Heap.px3; rw [eb, hadr x y b hx hy hb]
  refine ⟨?_, ?_⟩
  · obtain ⟨h', e, hp, -⟩ := C08_at_writes hvs hx hy hb v
    refine ⟨h', e, ?_⟩
    have h2 := hp.pix x y b hx hy hb
    simp only [and_self, if_true, Option.or] at h2
    unfold Interleaved.at'
    rw [if_neg (by omega), hv.index_eq hgx hgy hgb]
    exact M.rd_run (by rw [hpx] at h2; exact h2)
  · obtain ⟨h', e, hp, -⟩ := C08_at_writes hv hgx hgy hgb v
    refine ⟨h', e, ?_⟩
    have h2 := hp.pix _ _ b hgx hgy hgb
    simp only [and_self, if_true, Option.or] at h2
    unfold Interleaved.at'
    rw [if_neg (by omega), hvs.index_eq hx hy hb]
    exact M.rd_run (by rw [← hpx] at h2; exact h2)

example : ∃ s, (⟨0, 16, 4, 2, 2, 0, 8, false⟩ : Interleaved).makeSubimage 1 0 3 2
    (⟨[some (List.replicate 16 (7:Int))]⟩ : Heap Int) = .ok s ⟨[some (List.replicate 16 (7:Int))]⟩ :=
  (C09_bounds _ _ _ _ _ _).mpr (by decide)

/-! ## C10 -/

/-- What `setTo` promises: the destination shows `f`, nothing outside it changes. -/
structure SetTo (h h' : Heap V) (g g' : Interleaved) (w ht nb : Nat) (f : Nat → Nat → Nat → V) : Prop where
  shape : g'.width = w ∧ g'.height = ht ∧ g'.numBands = nb
  valid : g'.Valid h'
  shows' : g'.Shows h' f
  frame : ∀ b i, b ≠ g.buf → b < h.next → h'.cell b i = h.cell b i
  inPlace : g.width = w → g.height = ht → g.numBands = nb →
    g' = g ∧ Painted3 h h' g (fun x y b => some (f x y b))
  sub : g'.subimage = g.subimage
  alive : ∀ b, b ≠ g.buf → b < h.next → (h'.get b).isSome = (h.get b).isSome
  /-- nothing is leaked -/
  fresh : ∀ b, h.next ≤ b → (h'.get b).isSome → b = g'.buf
  released : g'.buf ≠ g.buf → h'.get g.buf = none

/-- `setTo` for element types of one byte.  MISSING for the full property: element types of more than one
byte, for which the property is false of the code (`C10_setTo_refuted`). -/
theorem C10_setTo_partial {h : Heap V} (z : V) (splice : Nat → V → V → V) {g src : Interleaved}
    {f : Nat → Nat → Nat → V} (hv : g.Valid h) (hs : src.Valid h)
    (hc : g.CanBe src.width src.height src.numBands) (hsep : src.Sep g) (hf : src.Shows h f) :
    ∃ g' h', g.setTo 1 splice z src h = .ok g' h' ∧
      SetTo h h' g g' src.width src.height src.numBands f := by
  have : Spec (g.setTo 1 splice z src) h
      (fun g' h' => SetTo h h' g g' src.width src.height src.numBands f) := by
    unfold Interleaved.setTo
    rw [if_neg]
    · have hrow : src.width * src.numBands < P32 := Nat.lt_of_le_of_lt hs.rowLe hs.strideLt
      refine Spec.bind (setTo_shape z hv hs.widthLt hs.heightLt hs.bandsLt hrow hs.area_lt hc) ?_
      intro g' h1 hr
      obtain ⟨hs1, hpx, hd⟩ := hr.input hs hsep
      have hf1 : src.Shows h1 f := fun x y b hx hy hb => by rw [hpx]; exact hf x y b hx hy hb
      refine Spec.bind (setTo_rows splice hr.valid hs1 hd hr.shape.1 hr.shape.2.1 hr.shape.2.2 hf1) ?_
      intro _ h2 hp
      have hp3 : Painted3 h1 h2 g' (fun x y b => some (f x y b)) := by
        refine hp.to3.congr ?_
        intro x y b hx hy hb
        rw [Nat.mul_comm, Nat.mul_add_div (by omega), Nat.div_eq_of_lt hb, Nat.mul_add_mod, Nat.mod_eq_of_lt hb]
        rfl
      refine Spec.pure ⟨hr.shape, ?_, ?_, ?_, ?_, hr.sub, ?_, ?_, ?_⟩
      · have := hp.valid hr.valid.flat hr.valid.flat
        exact { hr.valid with live := this.live, cells := this.cells }
      · intro x y b hx hy hb
        rw [hp3.pix x y b hx hy hb]; rfl
      · intro b i hb hlt
        rw [hp.frame b i, hr.frame b i hb hlt]
        intro x y _ _ ⟨e, _⟩
        simp only [Interleaved.flat] at e
        rcases hr.buf with ⟨e', _⟩ | e'
        · exact hb (e.trans e')
        · omega
      · intro ew eh eb
        obtain ⟨e1, e2⟩ := hr.same ew eh eb
        subst e1; subst e2
        exact ⟨rfl, hp3⟩
      · intro b hb hlt
        rw [hp.alive, hr.alive b hb hlt]
      · intro b hb hl
        rw [hp.alive] at hl
        exact hr.fresh b hb hl
      · intro c
        have h0 := hr.released c
        have := hp.alive g.buf
        rw [h0] at this
        cases e : h2.get g.buf with
        | none => rfl
        | some l => rw [e] at this; cases this
    · rintro ⟨h1, h2⟩
      rcases hc with hc | ⟨hc1, hc2, hc3⟩
      · rw [hc] at h1; cases h1
      · omega
  exact this

/-- The rows copied by `setTo` for elements of `sz` bytes, seen as rows of cells: of each row of `n` cells the first `n/sz`
are copied, and `n%sz` bytes of the next one. -/
theorem setTo_rows_wide {h : Heap V} {g src : Interleaved} {fl old : Nat → Nat → V} (splice : Nat → V → V → V) {sz : Nat}
    (hsz : 1 ≤ sz) (hv : g.Valid h) (hs : src.Valid h) (hd : src.Disjoint g) (hw : g.width = src.width)
    (hh : g.height = src.height) (hb : g.numBands = src.numBands) (hf : src.flat.Shows h fl) (hold : g.flat.Shows h old) :
    Spec (M.loop g.height (fun y =>
      Interleaved.memcpyBytes sz splice g.buf (g.offset + wrap32 (y * g.stride)) src.buf
        (src.offset + wrap32 (y * src.stride)) (wrap32 (src.width * g.numBands)))) h
      (fun _ h2 => Painted h h2 g.flat (fun c y =>
        if c < src.width * g.numBands / sz then some (fl c y)
        else if c = src.width * g.numBands / sz ∧ src.width * g.numBands % sz ≠ 0
          then some (splice (src.width * g.numBands % sz) (fl c y) (old c y)) else none)) := by
  generalize hN : src.width * g.numBands = N
  have hNlt : N < P32 := by
    have := Nat.lt_of_le_of_lt hv.rowLe hv.strideLt
    rw [hw, hN] at this; exact this
  have hfw : g.flat.width = N := by simp only [Interleaved.flat]; rw [hw, hN]
  have hsw : src.flat.width = N := by simp only [Interleaved.flat]; rw [← hb, hN]
  have hqN : N / sz ≤ N := Nat.div_le_self _ _
  have hqr : N % sz ≠ 0 → N / sz < N := by
    intro hr
    rcases Nat.lt_or_ge (N / sz) N with hl | hl
    · exact hl
    · have e : N / sz = N := by omega
      have := Nat.div_add_mod N sz
      rw [e] at this
      have : N ≤ sz * N := Nat.le_mul_of_pos_left N hsz
      omega
  let F : Nat → Nat → V := fun c y => if c < N / sz then fl c y else splice (N % sz) (fl c y) (old c y)
  let n : Nat := N / sz + if N % sz = 0 then 0 else 1
  have hn : ∀ c, c < n ↔ c < N / sz ∨ (c = N / sz ∧ N % sz ≠ 0) := by
    intro c; show c < N / sz + _ ↔ _
    by_cases e : N % sz = 0
    · simp [e]
    · simp only [if_neg e]; omega
  refine Spec.conseq (Spec.loop (fun y h2 => Painted h h2 g.flat (sel (fun c y' => y' < y ∧ c < n) F))
        (Painted.sel_none (fun x y _ _ => by omega)) ?_) ?_
  · intro y h2 hy hp
    have hrow := hv.flat.rowEnd_lt (y := y) hy
    have hrow' := hs.flat.rowEnd_lt (y := y) (by simp only [Interleaved.flat]; omega)
    have hy' : y < src.height := by omega
    simp only [Interleaved.flat] at hrow hrow'
    rw [wrap32_of_lt (by omega), wrap32_of_lt (by omega), wrap32_of_lt hNlt]
    have hsrc : ∀ {P : Nat → Nat → Prop} {h3 : Heap V}, Painted h h3 g.flat (sel P F) → ∀ c, c < N →
        h3.cell src.buf (src.offset + y * src.stride + c) = some (fl c y) := by
      intro P h3 hp3 c hc
      have := hp3.px_disjoint hd.flat (x := c) (y := y) (by omega) hy'
      have e2 := hf c y (by omega) hy'
      rw [← this] at e2; exact e2
    unfold Interleaved.memcpyBytes
    refine Spec.bind (P := fun _ h3 => Painted h h3 g.flat
      (sel (fun c y' => (y' < y ∧ c < n) ∨ (y' = y ∧ c < N / sz)) F)) ?_ ?_
    · unfold memcpy
      rw [if_neg]
      · refine Spec.loop (fun x h3 => Painted h h3 g.flat (sel (fun c y' => (y' < y ∧ c < n) ∨ (y' = y ∧ c < x)) F))
          (hp.sel_iff (fun c y' _ _ => by omega)) ?_
        intro x h3 hx hp3
        refine Spec.bind_eq (a := fl x y) (h' := h3) (M.rd_run (hsrc hp3 x (by omega))) ?_
        refine hp3.sel_wr hv.flat (x := x) (y := y) (by omega) hy rfl (if_pos hx).symm (fun c y' _ _ => by omega)
      · rintro ⟨eb, l1, l2⟩
        rcases Nat.le_total (g.offset + y * g.stride) (src.offset + y * src.stride) with hle | hle
        · refine hd.flat 0 y (src.offset + y * src.stride - (g.offset + y * g.stride)) y (by omega) hy'
            (by omega) hy eb.symm ?_
          simp only [Gray.addr, Interleaved.flat]; omega
        · refine hd.flat (g.offset + y * g.stride - (src.offset + y * src.stride)) y 0 y (by omega) hy'
            (by omega) hy eb.symm ?_
          simp only [Gray.addr, Interleaved.flat]; omega
    · intro _ h3 hp3
      by_cases hr : N % sz = 0
      · simp only [hr, if_true]
        refine Spec.pure (hp3.sel_iff (fun c y' _ _ => ?_))
        have := hn c; omega
      · simp only [if_neg hr]
        have hlt := hqr hr
        refine Spec.bind_eq (a := fl (N / sz) y) (h' := h3) (M.rd_run (hsrc hp3 _ hlt)) ?_
        refine Spec.bind_eq (a := old (N / sz) y) (h' := h3) (M.rd_run ?_) ?_
        · have e1 := hp3.sel_px (x := N / sz) (y := y) (by omega) hy (by omega)
          have e2 := hold (N / sz) y (by omega) hy
          rw [← e1] at e2; exact e2
        · refine hp3.sel_wr hv.flat (x := N / sz) (y := y) (by omega) hy rfl (if_neg (Nat.lt_irrefl _)).symm
            (fun c y' _ _ => ?_)
          have := hn c; omega
  · intro _ h2 hp2
    refine hp2.congr ?_
    intro c y hc hy
    have hy : y < g.height := hy
    unfold sel
    by_cases h1 : c < N / sz
    · rw [if_pos ⟨hy, (hn c).mpr (Or.inl h1)⟩, if_pos h1]; exact congrArg some (if_pos h1)
    · by_cases h2 : c = N / sz ∧ N % sz ≠ 0
      · rw [if_pos ⟨hy, (hn c).mpr (Or.inr h2)⟩, if_neg h1, if_pos h2]; exact congrArg some (if_neg h1)
      · rw [if_neg (fun e => ((hn c).mp e.2).elim h1 h2), if_neg h1, if_neg h2]

/-- What `setTo` does for elements of `sz` bytes: of the `n` cells of each row, the first `n/sz` are copied, `n%sz` bytes of
the next one are merged in, and the others are left as they were after the shape was changed. -/
theorem C10_setTo_wide {h : Heap V} (z : V) (splice : Nat → V → V → V) {g src : Interleaved} {sz : Nat} (hsz : 1 ≤ sz)
    {f : Nat → Nat → Nat → V} (hv : g.Valid h) (hs : src.Valid h)
    (hc : g.CanBe src.width src.height src.numBands) (hsep : src.Sep g) (hf : src.Shows h f) :
    ∃ g' hm h', g.setTo sz splice z src h = .ok g' h' ∧ Reshaped3 h hm g g' src.width src.height src.numBands ∧
      Painted3 hm h' g' (fun x y b =>
        let n := src.width * src.numBands
        if x * src.numBands + b < n / sz then some (f x y b)
        else if x * src.numBands + b = n / sz ∧ n % sz ≠ 0 then (hm.px3 g' x y b).map (splice (n % sz) (f x y b))
        else none) := by
  have hrow : src.width * src.numBands < P32 := Nat.lt_of_le_of_lt hs.rowLe hs.strideLt
  obtain ⟨g', hm, e1, hr⟩ := setTo_shape z hv hs.widthLt hs.heightLt hs.bandsLt hrow hs.area_lt hc
  obtain ⟨hs1, hpx, hd⟩ := hr.input hs hsep
  have hfl : src.flat.Shows hm (fun c y => f (c / src.numBands) y (c % src.numBands)) := by
    intro c y hcw hy
    obtain ⟨h1, h2, h3⟩ := band_split (w := src.width) (nb := src.numBands) (c := c) hcw
    have := hf (c / src.numBands) y (c % src.numBands) h1 hy h2
    rw [← hpx, hm.px3_flat, h3] at this
    exact this
  have hold := hr.valid.flat.shows z
  obtain ⟨_, h', e2, hp⟩ := setTo_rows_wide splice hsz hr.valid hs1 hd hr.shape.1 hr.shape.2.1 hr.shape.2.2 hfl hold
  refine ⟨g', hm, h', ?_, hr, hp.to3.congr ?_⟩
  · unfold Interleaved.setTo
    rw [if_neg, M.bind_ok e1, M.bind_ok e2]
    · rfl
    · rintro ⟨h1, h2⟩
      rcases hc with hc | ⟨hc1, hc2, hc3⟩
      · rw [hc] at h1; cases h1
      · omega
  · intro x y b hx hy hb
    rw [hr.shape.2.2] at hb ⊢
    have e3 : (x * src.numBands + b) / src.numBands = x := by
      rw [Nat.mul_comm, Nat.mul_add_div (by omega), Nat.div_eq_of_lt hb, Nat.add_zero]
    have e4 : (x * src.numBands + b) % src.numBands = b := by
      rw [Nat.mul_comm, Nat.mul_add_mod, Nat.mod_eq_of_lt hb]
    have e5 : hm.px3 g' x y b = some ((hm.px g'.flat (x * src.numBands + b) y).getD z) := by
      have h6 := hold (x * g'.numBands + b) y (band_lt hx (by rw [hr.shape.2.2]; exact hb)) hy
      rw [hr.shape.2.2] at h6
      rw [hm.px3_flat, hr.shape.2.2]; exact h6
    simp only [e3, e4, e5, Option.map_some]

/-- Hence for elements of more than one byte the last band of the last pixel of every row is never copied: it keeps its
old value (rows of at least two cells). -/
theorem C10_setTo_last_refuted {h h' : Heap V} (z : V) (splice : Nat → V → V → V) {g g' src : Interleaved} {sz : Nat} (hsz : 2 ≤ sz)
    {f : Nat → Nat → Nat → V} (hv : g.Valid h) (hs : src.Valid h)
    (hw : g.width = src.width) (hh : g.height = src.height) (hb : g.numBands = src.numBands)
    (hsep : src.Sep g) (hf : src.Shows h f) (hbig : 2 ≤ src.width * src.numBands)
    (e : g.setTo sz splice z src h = .ok g' h') {y : Nat} (hy : y < src.height) :
    h'.px3 g' (src.width - 1) y (src.numBands - 1) = h.px3 g (src.width - 1) y (src.numBands - 1) := by
  obtain ⟨g1, hm, h1, e1, hr, hp⟩ := C10_setTo_wide z splice (sz := sz) (by omega) hv hs (Or.inr ⟨hw, hh, hb⟩) hsep hf
  rw [e] at e1
  obtain ⟨rfl, rfl⟩ : g' = g1 ∧ h' = h1 := by cases e1; exact ⟨rfl, rfl⟩
  obtain ⟨rfl, rfl⟩ := hr.same hw hh hb
  have h0 : 0 < src.width := Nat.pos_of_ne_zero (fun e => by rw [e, Nat.zero_mul] at hbig; omega)
  have h1 : 0 < src.numBands := Nat.pos_of_ne_zero (fun e => by rw [e, Nat.mul_zero] at hbig; omega)
  have hlast : (src.width - 1) * src.numBands + (src.numBands - 1) = src.width * src.numBands - 1 := by
    obtain ⟨n, e⟩ : ∃ n, src.width = n + 1 := ⟨src.width - 1, by omega⟩
    rw [e, Nat.add_sub_cancel, Nat.succ_mul]; omega
  have hq : src.width * src.numBands / sz < src.width * src.numBands - 1 ∨
      (src.width * src.numBands / sz = src.width * src.numBands - 1 ∧ src.width * src.numBands % sz = 0) := by
    generalize src.width * src.numBands = N at hbig ⊢
    have h2 : N / sz ≤ N / 2 := Nat.div_le_div_left hsz (by omega)
    rcases Nat.lt_or_ge 2 N with h3 | h3
    · omega
    · obtain rfl : N = 2 := by omega
      rcases Nat.lt_or_ge 2 sz with h4 | h4
      · have : 2 / sz = 0 := Nat.div_eq_of_lt h4
        omega
      · obtain rfl : sz = 2 := by omega
        right; decide
  rw [hp.pix _ y _ (by omega) (by omega) (by omega)]
  simp only [hlast]
  rw [if_neg (by omega), if_neg (by rintro ⟨e1, e2⟩; omega)]
  rfl

/-- A sub-image of another shape throws and nothing changes. -/
theorem C10_setTo_throws (h : Heap V) (z : V) (sz : Nat) (splice : Nat → V → V → V) {g src : Interleaved}
    (hc : ¬ g.CanBe src.width src.height src.numBands) : g.setTo sz splice z src h = .throw h := by
  unfold Interleaved.setTo Interleaved.CanBe at *
  rw [if_pos]
  · rfl
  · refine ⟨?_, ?_⟩
    · cases hg : g.subimage with
      | true => rfl
      | false => exact absurd (Or.inl hg) hc
    · apply Classical.byContradiction
      intro hn
      exact hc (Or.inr (by omega))

/-- For a two-byte element type (`U16`, `S16`) the property is false of the code: the byte count passed to
`memcpy` is the number of elements, so only half of every row is copied.  Copying the 2x1 one-band image
`[1,2]` onto `[7,7]` leaves `[1,7]`, whatever partial-element copies do. -/
theorem C10_setTo_refuted (splice : Nat → Int → Int → Int) :
    (⟨0, 2, 2, 1, 1, 0, 2, false⟩ : Interleaved).setTo 2 splice 0 ⟨1, 2, 2, 1, 1, 0, 2, false⟩
      (⟨[some [7, 7], some [1, 2]]⟩ : Heap Int)
      = .ok ⟨0, 2, 2, 1, 1, 0, 2, false⟩ ⟨[some [1, 7], some [1, 2]]⟩ := by
  rfl

/-- A 3x1 image of three-byte elements meets the hypotheses: one element is copied, the others stay. -/
example (splice : Nat → Int → Int → Int) :
    (⟨0, 3, 3, 1, 1, 0, 3, false⟩ : Interleaved).setTo 3 splice 0 ⟨1, 3, 3, 1, 1, 0, 3, false⟩
      (⟨[some [7, 7, 7], some [1, 2, 3]]⟩ : Heap Int)
      = .ok ⟨0, 3, 3, 1, 1, 0, 3, false⟩ ⟨[some [1, 7, 7], some [1, 2, 3]]⟩ ∧
    (⟨1, 3, 3, 1, 1, 0, 3, false⟩ : Interleaved).Sep ⟨0, 3, 3, 1, 1, 0, 3, false⟩ ∧ 2 ≤ 3 * 1 :=
  ⟨rfl, Or.inl (by decide), by decide⟩

example : (⟨0, 4, 2, 1, 2, 0, 4, false⟩ : Interleaved).CanBe 3 2 1 ∧
    (⟨1, 6, 3, 2, 1, 0, 3, false⟩ : Interleaved).Sep ⟨0, 4, 2, 1, 2, 0, 4, false⟩ ∧
    (⟨1, 6, 3, 2, 1, 0, 3, false⟩ : Interleaved).Valid
      (⟨[some [7, 7, 7, 7], some [1, 2, 3, 4, 5, 6]]⟩ : Heap Int) := by
  refine ⟨Or.inl rfl, Or.inl (by decide), by decide⟩

end Boof
