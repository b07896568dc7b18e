import Verif.Proofs.ScanPixel
import Verif.Proofs.TwoStage
import Verif.Props.MiscOps
/-
`LinearContourLabelChang2004::process`: preparation of the images and the loops over the pixels.
-/
namespace Boof
open M

/-- The framed picture of the black pixels of `f`: pixel `(x, y)` of the image is `(x + 1, y + 1)`. -/
def framed (w ht : Nat) (f : Nat → Nat → Int) (p : Pix) : Bool :=
  decide (1 ≤ p.1 ∧ 1 ≤ p.2 ∧ p.1 ≤ w ∧ p.2 ≤ ht ∧ f (p.1 - 1) (p.2 - 1) = 1)

theorem framed_in (w ht : Nat) (f : Nat → Nat → Int) : InFrame w ht (framed w ht f) := by
  intro p hp
  unfold framed at hp
  have := of_decide_eq_true hp
  exact ⟨this.1, this.2.1, this.2.2.1, this.2.2.2.1⟩

theorem framed_eq {w ht : Nat} {f : Nat → Nat → Int} {x y : Nat} (hx : x < w) (hy : y < ht) :
    framed w ht f (x + 1, y + 1) = true ↔ f x y = 1 := by
  simp [framed]; omega

/-- Class invariant of labellers between calls. -/
structure Labeller.Ready (h : Heap Int) (l : Labeller) : Prop where
  valid : l.border.Valid h
  owns : l.border.subimage = false
  /-- the frame has no black pixel -/
  ring : ∀ x y, x < l.border.width → y < l.border.height →
    (x = 0 ∨ y = 0 ∨ x + 1 = l.border.width ∨ y + 1 = l.border.height) → h.px l.border x y ≠ some 1
  base4 : Base l.tracer4 false
  base8 : Base l.tracer8 true
  points : ∃ L, PackedSet.Rep l.packedPoints L
  block : l.packedPoints.sizeOfBlock = 2000

variable {e : Bool} {B : Pix → Bool} {w ht : Nat} {bg lab : Gray} {h0 h h1 : Heap Int}

theorem base_new (junk : Tracer) : Base (Tracer.new .four junk) false ∧ Base (Tracer.new .eight junk) true :=
  ⟨⟨rfl, rfl, by simp only [Tracer.new]; decide⟩, ⟨rfl, rfl, by simp only [Tracer.new]; decide⟩⟩

/-- A new labeller is ready. -/
theorem new_ready (rule : ConnectRule) (junk : Tracer) (h : Heap Int) :
    ∃ l h', Labeller.new rule junk h = .ok l h' ∧ l.Ready h' ∧ l.rule = rule ∧ l.limits = ⟨0, 4294967295, true⟩ ∧
      l.border.buf = h.next ∧ h.next < h'.next ∧
      (∀ b i, b < h.next → h'.cell b i = h.cell b i) ∧ (∀ b, b < h.next → (h'.get b).isSome = (h.get b).isSome) := by
  obtain ⟨g, e, a1, a2, a3, a4, a5, a6⟩ := new_spec (V := Int) 0 h (w := 0) (ht := 0) (by decide) (by decide) (by decide)
  refine ⟨_, h.alloc (List.replicate (0 * 0) 0), by unfold Labeller.new; rw [M.bind_ok e]; rfl, ⟨a5, a4, ?_, (base_new junk).1, (base_new junk).2,
    ⟨[], PackedSet.new_rep _ (by decide : 0 < 2000)⟩, rfl⟩, rfl, rfl, a1, by rw [Heap.next_alloc]; exact Nat.lt_succ_self _, ?_, ?_⟩
  · intro x y hx
    change x < g.width at hx
    omega
  · intro b i hb
    rw [Heap.cell_alloc, if_neg (by omega)]
  · intro b hb
    rw [Heap.get_alloc, if_neg (by omega)]

theorem setOffsets4_run {s : Nat} (hs : s < 2147483647) (h : Heap Int) : Tracer.setOffsets4 s h = .ok (offs false s) h := by
  have hs' : toS32 s = (s : Int) := toS32_of_lt (by omega)
  unfold Tracer.setOffsets4
  simp only [hs']
  rw [M.bind_ok (arith_ok (by omega) (by omega) _)]
  rfl

theorem setOffsets8_run {s : Nat} (hs : s < 2147483647) (h : Heap Int) : Tracer.setOffsets8 s h = .ok (offs true s) h := by
  have hs' : toS32 s = (s : Int) := toS32_of_lt (by omega)
  unfold Tracer.setOffsets8
  simp only [hs']
  rw [M.bind_ok (arith_ok (by omega) (by omega) _), M.bind_ok (arith_ok (by omega) (by omega) _),
    M.bind_ok (arith_ok (by omega) (by omega) _), M.bind_ok (arith_ok (by omega) (by omega) _),
    M.bind_ok (arith_ok (by omega) (by omega) _)]
  rfl

theorem setInputs_spec {t : Tracer} (hb : Base t e) (h1 : bg.stride < 2147483647) (h2 : lab.stride < 2147483647) (h : Heap Int) :
    ∃ t', t.setInputs bg lab h = .ok t' h ∧ Tuned t' e bg lab := by
  refine ⟨{ t with binary := some bg, labeled := some lab, offsetsBinary := offs e bg.stride, offsetsLabeled := offs e lab.stride },
    ?_, ⟨hb.rule, hb.ruleN, rfl, rfl, rfl, rfl, hb.nd⟩⟩
  have r := hb.rule
  unfold Tracer.setInputs
  cases e
  · change t.rule = .four at r
    simp only [r]
    rw [M.bind_ok (setOffsets4_run h1 h), M.bind_ok (setOffsets4_run h2 h)]
    rfl
  · change t.rule = .eight at r
    simp only [r]
    rw [M.bind_ok (setOffsets8_run h1 h), M.bind_ok (setOffsets8_run h2 h)]
    rfl

/-! ### The loops -/

theorem PInv.row {c : Limits} {k : Nat} {done : List (Pix × Bool)} {l : Labeller}
    (hP : PInv c e B w ht bg lab h0 (w + 1, k + 1) done l h) : PInv c e B w ht bg lab h0 (1, k + 2) done l h := by
  have hB := hP.img.fr.fr
  have key : ∀ q, B q = true → (Bef q (w + 1, k + 1) ↔ Bef q (1, k + 2)) := by
    intro q hq
    obtain ⟨a1, a2, a3, a4⟩ := hB q hq
    unfold Bef; simp only []; omega
  have tr := trd_congr (e := e) (B := B) (F := fun q => Bef q (w + 1, k + 1)) (F' := fun q => Bef q (1, k + 2))
    (D := fun q => Bef q (w + 1, k + 1)) (D' := fun q => Bef q (1, k + 2)) (fun q hq => key q hq.1) key
  have mono : ∀ q, Bef q (w + 1, k + 1) → Bef q (1, k + 2) := by
    intro q; unfold Bef; simp only []; omega
  exact ⟨hP.img.congr tr (fun q hq => hq.mono mono mono) key, hP.lbr, fun s hs => (tr _).1 (hP.trd s hs)⟩

theorem scan_spec {c : Limits} {l : Labeller} (hP : PInv c e B w ht bg lab h0 (1, 1) [] l h) (hsz : 8 * ((w + 2) * (ht + 2)) < P32)
    {fuel : Nat} (hf : 8 * (w * ht) ≤ fuel) :
    Spec (loopS ht l (fun k l => loopS w l (fun j l => Labeller.scanPixel fuel lab (j + 1) (k + 1)
      (wrap32 (wrap32 (bg.offset + (k + 1) * bg.stride + 1) + j)) (wrap32 (wrap32 (lab.offset + (k + 1 - 1) * lab.stride) + j)) l))) h
      (PInv c e B w ht bg lab h0 (1, ht + 1) (starts e B (raster w ht))) := by
  have hsz' : 8 * (w * ht) < P32 := by
    have : w * ht ≤ (w + 2) * (ht + 2) := Nat.mul_le_mul (by omega) (by omega)
    omega
  rw [← before_last]
  refine Spec.loopS (I := fun k => PInv c e B w ht bg lab h0 (1, k + 1) (starts e B (before w k 0))) (by rw [before_zero]; exact hP)
    (fun k l1 h1 hk hI => ?_)
  rw [← before_row]
  refine Spec.conseq (Spec.loopS (I := fun j => PInv c e B w ht bg lab h0 (j + 1, k + 1) (starts e B (before w k j))) hI
    (fun j l2 h2 hj hJ => ?_)) (fun _ _ hQ => hQ.row)
  obtain ⟨post, hs⟩ := before_split hk hj
  obtain ⟨l3, h3, r, hP3⟩ := scanPixel_spec hs hJ hsz' hf
  have hfr := hJ.img.fr
  have a1 := hfr.bv.addr_lt32 (x := j + 1) (y := k + 1) (by rw [hfr.bw]; omega) (by rw [hfr.bh]; omega)
  have a2 := hfr.lv.addr_lt32 (x := j) (y := k) (by rw [hfr.lw]; omega) (by rw [hfr.lh]; omega)
  have b1 : wrap32 (wrap32 (bg.offset + (k + 1) * bg.stride + 1) + j) = bg.addr (j + 1) (k + 1) := by
    unfold Gray.addr at a1 ⊢
    rw [wrap32_of_lt (show bg.offset + (k + 1) * bg.stride + 1 < P32 by omega), wrap32_of_lt (by omega)]; omega
  have b2 : wrap32 (wrap32 (lab.offset + (k + 1 - 1) * lab.stride) + j) = lab.addr j k := by
    unfold Gray.addr at a2 ⊢
    rw [Nat.add_sub_cancel, wrap32_of_lt (show lab.offset + k * lab.stride < P32 by omega), wrap32_of_lt (by omega)]
  rw [b1, b2, before_succ]
  exact ⟨l3, h3, r, hP3⟩

/-! ### Preparing the images -/

/-- The effect of preparing the frame for a picture of shape `w × ht`. -/
structure Bordered (h h' : Heap Int) (g g' : Gray) (w ht : Nat) : Prop where
  width : g'.width = w + 2
  height : g'.height = ht + 2
  valid : g'.Valid h'
  owns : g'.subimage = false
  ring : ∀ x y, x < w + 2 → y < ht + 2 → (x = 0 ∨ y = 0 ∨ x = w + 1 ∨ y = ht + 1) → h'.px g' x y ≠ some 1
  frame : ∀ b i, b ≠ g.buf → b < h.next → h'.cell b i = h.cell b i
  alive : ∀ b, b ≠ g.buf → b < h.next → (h'.get b).isSome = (h.get b).isSome
  buf : g'.buf = g.buf ∨ g'.buf = h.next
  next : h.next ≤ h'.next

theorem Bordered.other {g g' a : Gray} (hr : Bordered h h1 g g' w ht) (ha : a.Valid h) (hne : a.buf ≠ g.buf) :
    a.Valid h1 ∧ (∀ x y, h1.px a x y = h.px a x y) ∧ a.buf ≠ g'.buf := by
  have hl := ha.lt_next
  refine ⟨ha.transfer (by rw [hr.alive _ hne hl]; exact ha.live) (fun i hi => by rw [hr.frame _ _ hne hl]; exact ha.cells i hi),
    fun x y => hr.frame _ _ hne hl, ?_⟩
  rcases hr.buf with q | q <;> omega

theorem border_spec {l : Labeller} (hl : l.Ready h) (hsz : 8 * ((w + 2) * (ht + 2)) < P32) (hw : w + 2 < P32) (hh : ht + 2 < P32) :
    Spec (if l.border.width ≠ wrap32 (w + 2) ∨ l.border.height ≠ wrap32 (ht + 2) then do
      let b ← l.border.reshape 0 (wrap32 (w + 2)) (wrap32 (ht + 2))
      ImageMiscOps.fillBorder b 0 1
      pure b
    else pure l.border) h (fun g h' => Bordered h h' l.border g w ht) := by
  rw [wrap32_of_lt hw, wrap32_of_lt hh]
  by_cases hc : l.border.width ≠ w + 2 ∨ l.border.height ≠ ht + 2
  · rw [if_pos hc]
    refine Spec.bind (reshape_spec 0 hl.valid hw hh (by omega) (Or.inl hl.owns)) (fun g h1 hr => ?_)
    obtain ⟨h2, e2, hp⟩ := C22_fill_border (h := h1) hr.valid (0 : Int) 1
    refine Spec.bind_eq e2 ?_
    have hbl := hl.valid.lt_next
    refine Spec.pure ⟨hr.width, hr.height, hp.valid hr.valid hr.valid, by rw [hr.sub]; exact hl.owns, ?_, ?_, ?_, ?_, ?_⟩
    · intro x y hx hy hring
      rw [hp.pix x y (by rw [hr.width]; exact hx) (by rw [hr.height]; exact hy), if_pos]
      · simp
      · unfold NearEdge; rw [hr.width, hr.height]; omega
    · intro b i hb hn
      rw [hp.frame b i, hr.frame b i hb hn]
      intro x y _ _ q
      rcases hr.buf with ⟨q1, _⟩ | ⟨q1, _⟩ <;> omega
    · intro b hb hn
      rw [hp.alive, hr.alive b hb hn]
    · rcases hr.buf with ⟨q1, _⟩ | ⟨q1, _⟩
      · exact Or.inl q1
      · exact Or.inr q1
    · rw [hp.next]
      rcases hr.buf with ⟨_, q1⟩ | ⟨_, q1⟩
      · rw [q1]
      · omega
  · rw [if_neg hc]
    have h1 : l.border.width = w + 2 := by omega
    have h2 : l.border.height = ht + 2 := by omega
    refine Spec.pure ⟨h1, h2, hl.valid, hl.owns, ?_, fun _ _ _ _ => rfl, fun _ _ _ => rfl, Or.inl rfl, Nat.le_refl _⟩
    intro x y hx hy hring
    exact hl.ring x y (by omega) (by omega) (by omega)

/-- Copying the picture into the middle of the frame. -/
theorem inner_spec {binary : Gray} {f : Nat → Nat → Int} (hv : bg.Valid h) (hw : bg.width = binary.width + 2)
    (hh : bg.height = binary.height + 2) (hb : binary.Valid h) (hne : binary.buf ≠ bg.buf) (hf : binary.Shows h f)
    {α : Type} {k : M Int α} {Q : α → Heap Int → Prop}
    (hk : ∀ h', Painted h h' bg (fun x y =>
      if 1 ≤ x ∧ 1 ≤ y ∧ x ≤ binary.width ∧ y ≤ binary.height then some (f (x - 1) (y - 1)) else none) → Spec k h' Q) :
    Spec (do
      let inner ← bg.makeSubimage 1 1 (sub32 bg.width 1) (sub32 bg.height 1)
      let _ ← inner.copy 0 binary
      k) h Q := by
  have w32 := hv.widthLt
  have h32 := hv.heightLt
  rw [sub32_of_le (by omega) (by omega), sub32_of_le (by omega) (by omega)]
  unfold Gray.makeSubimage
  rw [if_neg (by omega)]
  refine Spec.bind_eq rfl ?_
  have sv := sub_valid (x0 := 1) (y0 := 1) (x1 := bg.width - 1) (y1 := bg.height - 1) hv (by omega) (by omega) (by omega) (by omega)
  have sa := fun x y => @sub_addr Int h bg 1 1 (bg.width - 1) (bg.height - 1) x y hv (by omega) (by omega)
  generalize hg : Gray.wrap bg.buf bg.dataLength (bg.width - 1 - 1) (bg.height - 1 - 1) (wrap32 (bg.offset + 1 * bg.stride + 1)) bg.stride
    = g at sv sa ⊢
  have gw : g.width = binary.width := by rw [← hg]; show bg.width - 1 - 1 = _; omega
  have gh : g.height = binary.height := by rw [← hg]; show bg.height - 1 - 1 = _; omega
  have gb : g.buf = bg.buf := by rw [← hg]; rfl
  refine Spec.bind (copy_spec 0 sv hb (Or.inr ⟨gw, gh⟩) (Or.inl (by rw [gb]; exact hne)) hf) (fun _ h1 hp => ?_)
  obtain ⟨_, p⟩ := hp.inPlace gw gh
  have ga : ∀ x y, x < binary.width → y < binary.height → g.addr x y = bg.addr (x + 1) (y + 1) := by
    intro x y hx hy
    rw [sa x y (by omega) (by omega), Nat.add_comm 1 x, Nat.add_comm 1 y]
  refine hk _ ⟨?_, ?_, p.alive, p.next⟩
  · intro x y hx hy
    by_cases hc : 1 ≤ x ∧ 1 ≤ y ∧ x ≤ binary.width ∧ y ≤ binary.height
    · rw [if_pos hc]
      have := p.pix (x - 1) (y - 1) (by omega) (by omega)
      unfold Heap.px at this ⊢
      rw [gb, ga _ _ (by omega) (by omega), Nat.sub_add_cancel hc.1, Nat.sub_add_cancel hc.2.1] at this
      rw [this]
    · rw [if_neg hc]
      show h1.px bg x y = h.px bg x y
      unfold Heap.px
      refine p.frame _ _ (fun x' y' hx' hy' q => hc ?_)
      rw [ga _ _ (by omega) (by omega)] at q
      obtain ⟨q1, q2⟩ := hv.addr_inj hx (by omega) q.2
      omega
  · intro b i hb
    refine p.frame b i (fun x y hx hy q => ?_)
    rw [ga _ _ (by omega) (by omega), gb] at q
    exact hb (x + 1) (y + 1) (by omega) (by omega) q

/-! ### The whole operation -/

/-- What `process` does: `l` and `labeled` become `l'` and `lab`. -/
structure Processed (f : Nat → Nat → Int) (h h' : Heap Int) (l l' : Labeller) (binary labeled lab : Gray) : Prop where
  width : lab.width = binary.width
  height : lab.height = binary.height
  valid : lab.Valid h'
  sub : lab.subimage = labeled.subimage
  labels : ∀ x y, x < binary.width → y < binary.height →
    h'.px lab x y = some (if f x y = 1 then
      (idOf (decide (l.rule = .eight)) (framed binary.width binary.height f) binary.width binary.height (x + 1, y + 1) : Int) else 0)
  points : PackedSet.Rep l'.packedPoints
    ((starts (decide (l.rule = .eight)) (framed binary.width binary.height f) (raster binary.width binary.height)).map
      (stored l.limits (decide (l.rule = .eight)) (framed binary.width binary.height f)))
  contours : l'.contours = book
    ((starts (decide (l.rule = .eight)) (framed binary.width binary.height f) (raster binary.width binary.height)).map
      (fun s => (idOf (decide (l.rule = .eight)) (framed binary.width binary.height f) binary.width binary.height s.1, s.2)))
  orbits : ((starts (decide (l.rule = .eight)) (framed binary.width binary.height f) (raster binary.width binary.height)).map
    (startSt (decide (l.rule = .eight)))).Pairwise
      (fun a b => ¬Orb (decide (l.rule = .eight)) (framed binary.width binary.height f) a b)
  ready : l'.Ready h'
  rule : l'.rule = l.rule
  limits : l'.limits = l.limits
  input : binary.Valid h' ∧ binary.Shows h' f
  frame : ∀ b i, b ≠ labeled.buf → b ≠ l.border.buf → b < h.next → h'.cell b i = h.cell b i
  alive : ∀ b, b ≠ labeled.buf → b ≠ l.border.buf → b < h.next → (h'.get b).isSome = (h.get b).isSome
  bufL : lab.buf = labeled.buf ∨ h.next ≤ lab.buf
  bufB : l'.border.buf = l.border.buf ∨ h.next ≤ l'.border.buf
  apart : lab.buf ≠ l'.border.buf
  nextLe : h.next ≤ h'.next
  inPlace : labeled.width = binary.width → labeled.height = binary.height → lab = labeled ∧
    ∀ b i, b ≠ l.border.buf → b < h.next →
      (∀ x y, x < lab.width → y < lab.height → ¬(b = lab.buf ∧ i = lab.addr x y)) → h'.cell b i = h.cell b i

theorem ruleOf_decide (r : ConnectRule) : r = ruleOf (decide (r = .eight)) := by cases r <;> rfl

theorem process_spec {l : Labeller} {binary labeled : Gray} {f : Nat → Nat → Int} (hl : l.Ready h) (hb : binary.Valid h)
    (hf : binary.Shows h f) (h01 : ∀ x y, x < binary.width → y < binary.height → f x y = 0 ∨ f x y = 1)
    (hsz : 8 * ((binary.width + 2) * (binary.height + 2)) < P32)
    (ho : labeled.Valid h) (hc : labeled.CanBe binary.width binary.height) (hs : binary.Sep labeled binary.width binary.height)
    (hst : labeled.stride < 2147483647) (hlb : labeled.buf ≠ l.border.buf) (hbb : binary.buf ≠ l.border.buf)
    {fuel : Nat} (hfu : 8 * (binary.width * binary.height) ≤ fuel) :
    Spec (l.process fuel binary labeled) h (fun r h' => Processed f h h' l r.1 binary labeled r.2) := by
  have P : P32 = 4294967296 := rfl
  generalize hw : binary.width = w at *
  generalize hh : binary.height = ht at *
  have s1 : (w + 2) * 2 ≤ (w + 2) * (ht + 2) := Nat.mul_le_mul_left _ (by omega)
  have s2 : 2 * (ht + 2) ≤ (w + 2) * (ht + 2) := Nat.mul_le_mul_right _ (by omega)
  have s3 : w * ht ≤ (w + 2) * (ht + 2) := Nat.mul_le_mul (by omega) (by omega)
  have hbo := hl.valid.lt_next
  unfold Labeller.process
  rw [hw, hh]
  refine Spec.bind (reshape_spec 0 ho (by omega) (by omega) (by omega) hc) (fun lab ha hr => ?_)
  obtain ⟨vb, pb, db⟩ := hr.input hb hs
  have hfa : binary.Shows ha f := fun x y hx hy => by rw [pb]; exact hf x y hx hy
  obtain ⟨vr, pr, dr⟩ := hr.input hl.valid (Or.inl (Ne.symm hlb) : l.border.Sep labeled w ht)
  have hna : h.next ≤ ha.next := by
    rcases hr.buf with ⟨_, q⟩ | ⟨_, q⟩
    · rw [q]
    · omega
  have hlr : lab.buf ≠ l.border.buf := by
    rcases hr.buf with ⟨q, _⟩ | ⟨q, _⟩ <;> omega
  have hrda : l.Ready ha := ⟨vr, hl.owns, fun x y hx hy hc => by rw [pr]; exact hl.ring x y hx hy hc, hl.base4, hl.base8, hl.points, hl.block⟩
  refine Spec.bind (border_spec hrda hsz (by omega) (by omega)) (fun bg hB hbd => ?_)
  obtain ⟨vb2, pb2, nb2⟩ := hbd.other vb hbb
  obtain ⟨vl2, pl2, nl2⟩ := hbd.other hr.valid hlr
  have hfb : binary.Shows hB f := fun x y hx hy => by rw [pb2]; exact hfa x y hx hy
  refine inner_spec hbd.valid (by rw [hbd.width, hw]) (by rw [hbd.height, hh]) vb2 nb2 hfb (fun hC pC => ?_)
  rw [hw, hh] at pC
  have vC := pC.valid hbd.valid hbd.valid
  have vl3 := pC.valid hbd.valid vl2
  obtain ⟨vb3, hfc⟩ := pC.reads hbd.valid vb2 (Gray.Disjoint.of_buf nb2) hfb
  obtain ⟨hD, eD, pD⟩ := C21_fill vl3 (0 : Int)
  refine Spec.bind_eq eD ?_
  have vD := pD.valid vl3 vC
  have vlD := pD.valid vl3 vl3
  obtain ⟨vb4, hfd⟩ := pD.reads vl3 vb3 db hfc
  obtain ⟨L, hL⟩ := hl.points
  obtain ⟨q, eq, hq, hqb⟩ := PackedSet.clear_rep hL
  refine Spec.bind_eq (by rw [eq]; rfl) ?_
  have ow := hbd.valid.owner hbd.owns
  have hstr : lab.stride < 2147483647 := by
    rcases hc with q | ⟨q1, q2⟩
    · have := hr.valid.owner (by rw [hr.sub]; exact q)
      rw [this.2, hr.width]; omega
    · rw [(hr.same q1 q2).1]; exact hst
  have hbs : bg.stride < 2147483647 := by rw [ow.2, hbd.width]; omega
  generalize he : decide (l.rule = .eight) = e
  have hre : l.rule = ruleOf e := by rw [← he]; exact ruleOf_decide _
  have hbase : Base (Labeller.tracer { l with border := bg, packedPoints := q, contours := [] }) e := by
    unfold Labeller.tracer
    cases e
    · rw [show ({ l with border := bg, packedPoints := q, contours := [] } : Labeller).rule = .four from hre]; exact hl.base4
    · rw [show ({ l with border := bg, packedPoints := q, contours := [] } : Labeller).rule = .eight from hre]; exact hl.base8
  obtain ⟨t, et, hT⟩ := setInputs_spec hbase hbs hstr hD
  refine Spec.bind_eq et ?_
  have B0 : ∀ x y, x < w + 2 → y < ht + 2 → hD.px bg x y =
      (if 1 ≤ x ∧ 1 ≤ y ∧ x ≤ w ∧ y ≤ ht then some (f (x - 1) (y - 1)) else none).or (hB.px bg x y) := by
    intro x y hx hy
    rw [pD.px_disjoint (Gray.Disjoint.of_buf (Ne.symm nl2)) (by rw [hbd.width]; exact hx) (by rw [hbd.height]; exact hy)]
    exact pC.pix x y (by rw [hbd.width]; exact hx) (by rw [hbd.height]; exact hy)
  have nobef : ∀ q, framed w ht f q = true → ¬Bef q (1, 1) := by
    intro q hq
    obtain ⟨a1, a2, a3, a4⟩ := framed_in w ht f q hq
    unfold Bef; simp only []; omega
  have notrd : ∀ s, ¬Trd e (framed w ht f) (fun q => Bef q (1, 1)) (fun q => Bef q (1, 1)) s := by
    rintro s (⟨p, a, b, _⟩ | ⟨p, a, b, _⟩)
    · exact nobef p b.1 a
    · exact nobef p b a
  have hP : PInv l.limits e (framed w ht f) w ht bg lab hD (1, 1) []
      (Labeller.setTracer { l with border := bg, packedPoints := q, contours := [] } t) hD := by
    refine ⟨⟨⟨hbd.width, hbd.height, hr.width, hr.height, vD, vlD, Gray.Disjoint.of_buf (Ne.symm nl2), framed_in w ht f, ?_, ?_, hbs, hstr⟩,
      ?_, ?_, ?_, ?_, ?_, ?_, fun _ _ _ _ => rfl, fun _ => rfl, rfl⟩, ⟨?_, ?_, ?_, ?_, ?_, ?_, ?_, ?_, ?_, ?_, ?_, ?_, ?_, ?_, ?_⟩, ?_⟩
    · intro p hp
      have := of_decide_eq_true hp
      rw [B0 p.1 p.2 (by omega) (by omega), if_pos (by omega), this.2.2.2.2]; rfl
    · intro x y hx hy hfalse
      have hnot := of_decide_eq_false hfalse
      rw [B0 x y hx hy]
      by_cases hc : 1 ≤ x ∧ 1 ≤ y ∧ x ≤ w ∧ y ≤ ht
      · rw [if_pos hc]
        exact ⟨_, rfl, fun hf1 => hnot ⟨hc.1, hc.2.1, hc.2.2.1, hc.2.2.2, hf1⟩⟩
      · rw [if_neg hc]
        obtain ⟨u, hu⟩ := hbd.valid.px_some (x := x) (y := y) (by rw [hbd.width]; exact hx) (by rw [hbd.height]; exact hy)
        refine ⟨u, hu, fun h1 => hbd.ring x y hx hy (by omega) (by rw [hu, h1])⟩
    · rintro p hp hp2 (hp3 | ⟨j, hp3⟩)
      · exact absurd hp3 (nobef p hp2)
      · exact absurd hp3 (notrd _)
    · intro p hp _
      rw [mem_raster] at hp
      rw [pD.pix _ _ (by rw [hr.width]; omega) (by rw [hr.height]; omega)]; rfl
    · intro p hp hfalse
      rw [mem_raster] at hp
      have hnot := of_decide_eq_false hfalse
      rw [B0 p.1 p.2 (by omega) (by omega), if_pos (by omega)]
      rcases h01 (p.1 - 1) (p.2 - 1) (by omega) (by omega) with q | q
      · rw [q]; exact Or.inl rfl
      · exact absurd ⟨by omega, by omega, by omega, by omega, q⟩ hnot
    · intro p hp hp2
      rw [mem_raster] at hp
      rw [B0 p.1 p.2 (by omega) (by omega), if_pos (by omega)] at hp2
      have : f (p.1 - 1) (p.2 - 1) = 255 := by simpa using hp2
      rcases h01 (p.1 - 1) (p.2 - 1) (by omega) (by omega) with q | q <;> omega
    · exact fun r j h2 => absurd h2 (notrd _)
    · exact fun s h2 => absurd h2 (notrd _)
    · rw [setTracer_min]; rfl
    · rw [setTracer_max]; rfl
    · rw [setTracer_save]; rfl
    · rw [setTracer_rule]; exact hre
    · rw [setTracer_border]
    · rw [setTracer_tracer]; exact hT
    · exact setTracer_base4 _ _ hre hl.base4 hT.base
    · exact setTracer_base8 _ _ hre hl.base8 hT.base
    · rw [setTracer_points]; exact hq
    · rw [setTracer_contours]; rfl
    · exact fun s hs => by cases hs
    · exact List.Pairwise.nil
    · intro k hk; cases hk
    · exact fun s hs => by cases hs
    · rw [setTracer_points]; exact hqb.trans hl.block
    · exact fun s hs => by cases hs
  have e1 : sub32 bg.height 1 - 1 = ht := by
    have := vC.heightLt
    rw [sub32_of_le (by rw [hbd.height]; omega) this, hbd.height]; omega
  have e2 : sub32 bg.width 1 - 1 = w := by
    have := vC.widthLt
    rw [sub32_of_le (by rw [hbd.width]; omega) this, hbd.width]; omega
  rw [e1, e2]
  refine Spec.bind (scan_spec hP hsz hfu) (fun l' hE hE' => Spec.pure ?_)
  obtain ⟨hI, hLb, _⟩ := hE'
  have hlb' : l'.border = bg := hLb.border
  have fr1 : ∀ b i, b ≠ l.border.buf → b < ha.next →
      (∀ x y, x < lab.width → y < lab.height → ¬(b = lab.buf ∧ i = lab.addr x y)) → hE.cell b i = ha.cell b i := by
    intro b i hb1 hb2 hb3
    have nbg : b ≠ bg.buf := by rcases hbd.buf with q | q <;> omega
    rw [hI.frame b i (fun x y _ _ q => nbg q.1) hb3, pD.frame b i hb3, pC.frame b i (fun x y _ _ q => nbg q.1),
      hbd.frame b i hb1 hb2]
  have nlab : ∀ b, b ≠ labeled.buf → b < h.next → b ≠ lab.buf := by
    intro b hb1 hb2
    rcases hr.buf with ⟨q, _⟩ | ⟨q, _⟩ <;> omega
  refine ⟨?_, ?_, hI.fr.lv, hr.sub, ?_, ?_, ?_, ?_, ⟨?_, ?_, ?_, hLb.base4, hLb.base8, ⟨_, hLb.rep⟩, hLb.block⟩, ?_, ?_, ?_, ?_, ?_, ?_, ?_, ?_, ?_, ?_⟩
  · rw [hw]; exact hr.width
  · rw [hh]; exact hr.height
  · rw [hw, hh, he]
    intro x y hx hy
    have hm : (x + 1, y + 1) ∈ raster w ht := by rw [mem_raster]; simp only []; omega
    have hbef : Bef (x + 1, y + 1) (1, ht + 1) := by unfold Bef; simp only []; omega
    by_cases h1 : f x y = 1
    · rw [if_pos h1]
      exact hI.lbl _ hm ((framed_eq hx hy).2 h1) (Or.inl hbef)
    · rw [if_neg h1]
      exact hI.unl _ hm (fun q => h1 ((framed_eq hx hy).1 q.1))
  · rw [hw, hh, he]; exact hLb.rep
  · rw [hw, hh, he]; exact hLb.cont
  · rw [hw, hh, he]; exact hLb.apart
  · rw [hlb']; exact hI.fr.bv
  · rw [hlb']; exact hbd.owns
  · rw [hlb', hbd.width, hbd.height]
    intro x y hx hy hring
    obtain ⟨u, hu, hu1⟩ := hI.fr.white x y hx hy (by
      cases hq : framed w ht f (x, y)
      · rfl
      · obtain ⟨a1, a2, a3, a4⟩ := framed_in w ht f _ hq
        simp only [] at a1 a2 a3 a4
        omega)
    rw [hu]
    simpa using hu1
  · rw [hLb.rule, ← hre]
  · unfold Labeller.limits
    rw [hLb.mn, hLb.mx, hLb.save]; rfl
  · have hvE : binary.Valid hE := by
      refine vb4.transfer (by rw [hI.alive]; exact vb4.live) (fun i hi => ?_)
      by_cases hc : ∃ x y, x < lab.width ∧ y < lab.height ∧ binary.buf = lab.buf ∧ i = lab.addr x y
      · obtain ⟨x, y, hx, hy, q1, q2⟩ := hc
        rw [q1, q2]; exact hI.fr.lv.px_some hx hy
      · rw [hI.frame _ i (fun x y _ _ q => nb2 q.1) (fun x y hx hy q => hc ⟨x, y, hx, hy, q⟩)]
        exact vb4.cells i hi
    refine ⟨hvE, fun x y hx hy => ?_⟩
    rw [← hfd x y hx hy]
    exact hI.frame _ _ (fun x y _ _ q => nb2 q.1) (fun x' y' hx' hy' q => db x y x' y' hx hy hx' hy' q.1 q.2)
  · intro b i hb1 hb2 hb3
    rw [fr1 b i hb2 (by omega) (fun x y _ _ q => nlab b hb1 hb3 q.1), hr.frame b i hb1 hb3]
  · intro b hb1 hb2 hb3
    rw [hI.alive, pD.alive, pC.alive, hbd.alive b hb2 (by omega), hr.alive b hb1 hb3]
  · rcases hr.buf with ⟨q, _⟩ | ⟨q, _⟩
    · exact Or.inl q
    · exact Or.inr (show h.next ≤ lab.buf by omega)
  · rw [hlb']
    rcases hbd.buf with q | q
    · exact Or.inl q
    · exact Or.inr (by omega)
  · rw [hlb']; exact nl2
  · rw [hI.next, pD.next, pC.next]
    have := hbd.next
    omega
  · intro q1 q2
    rw [hw] at q1
    rw [hh] at q2
    obtain ⟨q3, q4⟩ := hr.same q1 q2
    refine ⟨q3, fun b i hb1 hb2 hb3 => ?_⟩
    rw [fr1 b i hb1 (by omega) hb3, q4]

end Boof
