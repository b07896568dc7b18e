import Verif.Proofs.ThreadParts
import Verif.Props.Threads
/-
C125: threads which work on parts of the same image.
-/
namespace Boof
open M
variable {V : Type}

/-- Cell `i` of array `b` is a pixel of image `g`. -/
def Gray.Pixel (g : Gray) (b i : Nat) : Prop := ∃ x y, x < g.width ∧ y < g.height ∧ b = g.buf ∧ i = g.addr x y

/-- The cells of the images which a job writes: its output and storage. -/
def Job.Marks (j : Job V) (b i : Nat) : Prop := ∃ u, u ∈ j.written ∧ u.Pixel b i

/-- The cells of the images of a job. -/
def Job.Sees (j : Job V) (b i : Nat) : Prop := (∃ p, p ∈ j.inputs ∧ p.1.Pixel b i) ∨ j.Marks b i

/-- `p` is the job as a program of single accesses.  Wherever the job may be called it accesses cells in `S` only, writes cells in `M` only,
and the pixels of the image it returns are in `S`. -/
structure Job.IsFine (j : Job V) (S M : Nat → Nat → Prop) (p : Accesses V Gray) : Prop where
  run : ∀ h, p.run h = j.run h
  sees : ∀ b k, M b k → S b k
  touches : ∀ h, j.Ready h → p.On S M (fun g => ∀ b k, g.Pixel b k → S b k) h

theorem Gray.Valid.alike {h h' : Heap V} {g : Gray} (hv : g.Valid h) (ha : h'.Alike h) : g.Valid h' where
  live := (ha.1 _).trans hv.live
  cells := fun i hi => by
    obtain ⟨v, e⟩ := hv.cells i hi
    have := ha.2 g.buf i
    rw [e] at this
    exact Option.isSome_iff_exists.1 this
  lenLt := hv.lenLt
  widthLt := hv.widthLt
  heightLt := hv.heightLt
  rowLe := hv.rowLe
  fits := hv.fits
  owner := hv.owner

/-- Calls made at the same time by threads which may write different parts of the same arrays: if no call writes a cell which another one
accesses, then however their accesses are interleaved, no access is undefined, there is never a data race, a thread which has made its
`N i` accesses has returned, and then the image it returned shows the picture of its call; cells which no call writes are as before. -/
theorem C125_parts {ι : Type} [DecidableEq ι] {job : ι → Job V} {p : ι → Accesses V Gray} {S M : ι → Nat → Nat → Prop}
    (hp : ∀ i, (job i).IsFine (S i) (M i) (p i))
    (ha : ∀ i j, i ≠ j → ∀ b k, M i b k → ¬S j b k) (hs : ∀ i, (job i).Sound) {h : Heap V} (hr : ∀ i, (job i).Ready h) :
    ∃ N : ι → Nat, ∀ l : List ι, ∃ (q : ι → Accesses V Gray) (h' : Heap V), schedule l p h = some (q, h') ∧ ¬Race q ∧
      (∀ i, N i ≤ l.count i → ∃ g, q i = .done g) ∧
      (∀ i g, q i = .done g → (job i).Done g h') ∧
      (∀ b k, (∀ i, ¬M i b k) → h'.cell b k = h.cell b k) := by
  have hsolo := fun i => hs i _ (hr i)
  choose a e he hdone _ _ _ _ using hsolo
  have hWR : ∀ i b k, M i b k → S i b k := fun i => (hp i).sees
  refine ⟨fun i => (p i).length h, fun l => ?_⟩
  obtain ⟨q, h', s', e1, r1, l1, k1, a1⟩ := schedule_parts (R := S) (W := M)
    (P := fun i g => ∀ b k, g.Pixel b k → S i b k) (a := a) (e := e) hWR ha l (p := p) (h := h) (s := fun _ => h) (fun i =>
      ⟨fun _ _ _ => rfl, ((hp i).run h).trans (he i), (hp i).touches h (hr i), .refl h, Accesses.run_alike (((hp i).run h).trans (he i))⟩)
  refine ⟨q, h', e1, ?_, fun i hi => ?_, fun i g hg => ?_, k1⟩
  · rintro ⟨i, j, hij, b, k, w, w', n1, n2, hw⟩
    obtain ⟨a1, w1⟩ := (r1 i).access (hWR i) n1
    obtain ⟨a2, w2⟩ := (r1 j).access (hWR j) n2
    rcases hw with hw | hw
    · exact ha i j hij b k (w1 hw) a2
    · exact ha j i (Ne.symm hij) b k (w2 hw) a1
  · exact ⟨a i, ((r1 i).ended ((l1 i).trans (Nat.sub_eq_zero_of_le hi))).1⟩
  · have hrun := (r1 i).run
    have ht := (r1 i).touches
    rw [hg] at hrun ht
    have hres : Res.ok g (s' i) = Res.ok (a i) (e i) := hrun
    injection hres with eg es
    subst eg
    obtain ⟨d1, d2, d3, d4⟩ := hdone i
    refine ⟨d1, d2, d3.alike ((r1 i).alike.trans (r1 i).ends), fun x y hx hy => ?_⟩
    have := (r1 i).same (a i).buf ((a i).addr x y) (ht _ _ ⟨x, y, hx, hy, rfl, rfl⟩)
    show h'.cell _ _ = _
    rw [← this, es]
    exact d4 x y hx hy

/-- `Job.IsFine` from the rules for `Fine`. -/
theorem Fine.job {j : Job V} (h : Fine j.Sees j.Marks (fun g => g ∈ j.written) j.run) : ∃ p, j.IsFine j.Sees j.Marks p := by
  obtain ⟨p, hp, wp⟩ := h
  exact ⟨p, hp, fun _ _ hm => Or.inr hm, fun h _ => (wp.on h).mono (fun _ _ h => h) (fun _ _ h => h)
    (fun g hg b k hk => Or.inr ⟨g, hg, hk⟩)⟩

/-! ## Calls which read and write their pixels only -/

/-- `threshold` into an image of the right size reads pixels of the input and writes pixels of the output. -/
theorem Fine.threshold {R W : Nat → Nat → Prop} (le gt : V → V → Bool) (bit : Bool → V) (z thr : V) (down : Bool) {input output : Gray}
    {h h' : Heap V} (hi : input.Valid h) (ho : output.Valid h') (ew : output.width = input.width) (eh : output.height = input.height)
    (hR : ∀ b k, input.Pixel b k → R b k) (hW : ∀ b k, output.Pixel b k → W b k) :
    Fine R W (fun g => g = output) (ThresholdOps.threshold le gt bit z input thr down output) := by
  have hloop : ∀ t : V → Bool, Fine R W (fun _ => True) (M.loop input.height (fun y => M.loop input.width (fun x => do
      let v ← M.rd input.buf (wrap32 (input.offset + y * input.stride) + x)
      M.wr output.buf (wrap32 (output.offset + y * output.stride) + x) (bit (t v))))) := by
    intro t
    refine Fine.loop (fun y hy => Fine.loop (fun x hx => ?_))
    refine (Fine.rd ?_).bind (fun v _ => Fine.wr ?_)
    · rw [hi.row_eq hy]
      exact hR _ _ ⟨x, y, hx, hy, rfl, rfl⟩
    · rw [ho.row_eq (by rw [eh]; exact hy)]
      exact hW _ _ ⟨x, y, by rw [ew]; exact hx, by rw [eh]; exact hy, rfl, rfl⟩
  unfold ThresholdOps.threshold
  rw [reshape_same ew eh, M.pure_after]
  split
  · exact (hloop (fun v => le v thr)).bind (fun _ _ => Fine.pure rfl)
  · exact (hloop (fun v => gt v thr)).bind (fun _ _ => Fine.pure rfl)

/-- `threshold`, into an image of the right size or in place -/
theorem C125_threshold_pixels (le gt : V → V → Bool) (bit : Bool → V) (z thr : V) (down : Bool) {input output : Gray} {f F : Nat → Nat → V}
    {h : Heap V} (hi : input.Valid h) (ho : output.Valid h) (ew : output.width = input.width) (eh : output.height = input.height) :
    ∃ p, let j := Job.mk (ThresholdOps.threshold le gt bit z input thr down output) [(input, f)] [output] input.width input.height F
      j.IsFine j.Sees j.Marks p := by
  refine Fine.job ((Fine.threshold le gt bit z thr down hi ho ew eh ?_ ?_).weaken (fun _ e => by rw [e]; exact List.mem_singleton.2 rfl))
  · exact fun b k hk => Or.inl ⟨(input, f), List.mem_singleton.2 rfl, hk⟩
  · exact fun b k hk => ⟨output, List.mem_singleton.2 rfl, hk⟩

/-- Windows of an image at rectangles which do not meet have no pixel in common. -/
theorem C125_windows {h : Heap V} {g s t : Gray} (hv : g.Valid h) {x0 y0 x1 y1 x2 y2 x3 y3 : Nat}
    (es : (g.makeSubimage x0 y0 x1 y1 : M V Gray) h = .ok s h) (et : (g.makeSubimage x2 y2 x3 y3 : M V Gray) h = .ok t h)
    (hd : x1 ≤ x2 ∨ x3 ≤ x0 ∨ y1 ≤ y2 ∨ y3 ≤ y0) (b k : Nat) (hs : s.Pixel b k) : ¬t.Pixel b k := by
  have hb : ∀ {x0 y0 x1 y1 : Nat} {s : Gray}, (g.makeSubimage x0 y0 x1 y1 : M V Gray) h = .ok s h → s.Pixel b k →
      ∃ x y, x0 ≤ x ∧ x < x1 ∧ y0 ≤ y ∧ y < y1 ∧ x < g.width ∧ y < g.height ∧ k = g.addr x y := by
    intro x0 y0 x1 y1 s es hs
    have hb : x0 ≤ x1 ∧ x1 ≤ g.width ∧ y0 ≤ y1 ∧ y1 ≤ g.height := by
      apply Classical.byContradiction
      intro hn
      rw [(C04_bounds h g x0 y0 x1 y1).mpr hn] at es; cases es
    obtain ⟨s', e', hsv, _, ew1, eh1, ebuf, hadr⟩ := C04_window hv hb.1 hb.2.1 hb.2.2.1 hb.2.2.2
    rw [es] at e'
    cases e'
    obtain ⟨x, y, hx, hy, _, ek⟩ := hs
    exact ⟨x0 + x, y0 + y, by omega, by omega, by omega, by omega, by omega, by omega, ek.trans (hadr x y hx hy)⟩
  intro ht
  obtain ⟨x, y, a1, a2, a3, a4, a5, a6, e1⟩ := hb es hs
  obtain ⟨x', y', c1, c2, c3, c4, c5, c6, e2⟩ := hb et ht
  obtain ⟨rfl, rfl⟩ := hv.addr_inj a5 c5 (e1.symm.trans e2)
  omega

/-- `logicAnd` and `logicOr`, into an image of the right size or in place -/
theorem C125_logic_pixels {a b output : Gray} {fa fb F : Nat → Nat → Int} {h : Heap Int} (hA : a.Valid h) (hB : b.Valid h) (ho : output.Valid h)
    (bw : b.width = a.width) (bh : b.height = a.height) (ew : output.width = a.width) (eh : output.height = a.height) :
    (∃ p, let j := Job.mk (BinaryImageOps.logicAnd a b output) [(a, fa), (b, fb)] [output] a.width a.height F
      j.IsFine j.Sees j.Marks p) ∧
    ∃ p, let j := Job.mk (BinaryImageOps.logicOr a b output) [(a, fa), (b, fb)] [output] a.width a.height F
      j.IsFine j.Sees j.Marks p := by
  have hrow : ∀ y, y < a.height → wrap32 (wrap32 (a.offset + y * a.stride) + a.width) - wrap32 (a.offset + y * a.stride) = a.width := by
    intro y hy
    rw [hA.row_eq hy, wrap32_of_lt (hA.rowEnd_lt hy)]
    omega
  have key : ∀ {R W : Nat → Nat → Prop}, (∀ c k, a.Pixel c k → R c k) → (∀ c k, b.Pixel c k → R c k) → (∀ c k, output.Pixel c k → W c k) →
      Fine R W (fun g => g = output) (BinaryImageOps.logicAnd a b output) ∧ Fine R W (fun g => g = output) (BinaryImageOps.logicOr a b output) := by
    intro R W hR hR' hW
    have hr : ∀ x y, x < a.width → y < a.height → R a.buf (wrap32 (a.offset + y * a.stride) + x) := by
      intro x y hx hy
      rw [hA.row_eq hy]; exact hR _ _ ⟨x, y, hx, hy, rfl, rfl⟩
    have hr' : ∀ x y, x < a.width → y < a.height → R b.buf (wrap32 (wrap32 (b.offset + y * b.stride) + x)) := by
      intro x y hx hy
      rw [hB.row_eq (by omega), wrap32_of_lt (n := b.offset + y * b.stride + x) (hB.addr_lt32 (x := x) (y := y) (by omega) (by omega))]
      exact hR' _ _ ⟨x, y, by omega, by omega, rfl, rfl⟩
    have hw : ∀ x y, x < a.width → y < a.height → W output.buf (wrap32 (wrap32 (output.offset + y * output.stride) + x)) := by
      intro x y hx hy
      rw [ho.row_eq (by omega), wrap32_of_lt (n := output.offset + y * output.stride + x) (ho.addr_lt32 (x := x) (y := y) (by omega) (by omega))]
      exact hW _ _ ⟨x, y, by omega, by omega, rfl, rfl⟩
    constructor
    · unfold BinaryImageOps.logicAnd checkSameShape2
      rw [if_neg (by omega), reshape_same ew eh, M.pure_after, M.pure_after]
      refine Fine.bind (P := fun _ => True) (Fine.loop (fun y hy => ?_)) (fun _ _ => Fine.pure rfl)
      show Fine R W _ (M.loop (wrap32 (wrap32 (a.offset + y * a.stride) + a.width) - wrap32 (a.offset + y * a.stride)) _)
      rw [hrow y hy]
      refine Fine.loop (fun x hx => (Fine.rd (hr x y hx hy)).bind (fun v _ => ?_))
      split
      · exact (Fine.rd (hr' x y hx hy)).bind (fun _ _ => Fine.wr (hw x y hx hy))
      · exact Fine.wr (hw x y hx hy)
    · unfold BinaryImageOps.logicOr checkSameShape2
      rw [if_neg (by omega), reshape_same ew eh, M.pure_after, M.pure_after]
      refine Fine.bind (P := fun _ => True) (Fine.loop (fun y hy => ?_)) (fun _ _ => Fine.pure rfl)
      show Fine R W _ (M.loop (wrap32 (wrap32 (a.offset + y * a.stride) + a.width) - wrap32 (a.offset + y * a.stride)) _)
      rw [hrow y hy]
      refine Fine.loop (fun x hx => (Fine.rd (hr x y hx hy)).bind (fun v _ => ?_))
      split
      · exact Fine.wr (hw x y hx hy)
      · exact (Fine.rd (hr' x y hx hy)).bind (fun _ _ => Fine.wr (hw x y hx hy))
  constructor
  · refine Fine.job ((key ?_ ?_ ?_).1.weaken (fun _ e => by rw [e]; exact List.mem_singleton.2 rfl))
    · exact fun c k hk => Or.inl ⟨(a, fa), by simp, hk⟩
    · exact fun c k hk => Or.inl ⟨(b, fb), by simp, hk⟩
    · exact fun c k hk => ⟨output, List.mem_singleton.2 rfl, hk⟩
  · refine Fine.job ((key ?_ ?_ ?_).2.weaken (fun _ e => by rw [e]; exact List.mem_singleton.2 rfl))
    · exact fun c k hk => Or.inl ⟨(a, fa), by simp, hk⟩
    · exact fun c k hk => Or.inl ⟨(b, fb), by simp, hk⟩
    · exact fun c k hk => ⟨output, List.mem_singleton.2 rfl, hk⟩

/-- Copying into an image of the right size -/
theorem C125_copy_pixels (z : V) {src dst : Gray} {f F : Nat → Nat → V} {h : Heap V} (hs : src.Valid h) (hd : dst.Valid h)
    (ew : dst.width = src.width) (eh : dst.height = src.height) :
    ∃ p, let j := Job.mk (dst.copy z src) [(src, f)] [dst] src.width src.height F
      j.IsFine j.Sees j.Marks p := by
  have key : ∀ {R W : Nat → Nat → Prop}, (∀ c k, src.Pixel c k → R c k) → (∀ c k, dst.Pixel c k → W c k) →
      Fine R W (fun g => g = dst) (dst.copy z src) := by
    intro R W hR hW
    unfold Gray.copy
    rw [if_neg (by rw [ew, eh]; simp), reshape_same ew eh, M.pure_after]
    refine Fine.bind (P := fun _ => True) (Fine.loop (fun y hy => ?_)) (fun _ _ => Fine.pure rfl)
    unfold memcpy
    split
    · exact Fine.ub
    · refine Fine.loop (fun x hx => (Fine.rd ?_).bind (fun v _ => Fine.wr ?_))
      · rw [hs.row_eq (by omega)]; exact hR _ _ ⟨x, y, hx, by omega, rfl, rfl⟩
      · rw [hd.row_eq hy]; exact hW _ _ ⟨x, y, by omega, hy, rfl, rfl⟩
  refine Fine.job ((key ?_ ?_).weaken (fun _ e => by rw [e]; exact List.mem_singleton.2 rfl))
  · exact fun c k hk => Or.inl ⟨(src, f), List.mem_singleton.2 rfl, hk⟩
  · exact fun c k hk => ⟨dst, List.mem_singleton.2 rfl, hk⟩

/-! ## Filters: the output by pixels, inputs and storage by arrays -/

/-- The cells a filter writes: the pixels of its output and the arrays of its storage. -/
def Job.PartMarks (j : Job V) (b k : Nat) : Prop := (∃ o, j.written.head? = some o ∧ o.Pixel b k) ∨ ∃ u, u ∈ j.written.tail ∧ b = u.buf

/-- The cells a filter reads or writes: also the arrays of its inputs. -/
def Job.PartSees (j : Job V) (b k : Nat) : Prop := j.Reads b ∨ j.PartMarks b k

/-- A job which does not read its output, and returns it with the cells which are not its pixels unchanged, whatever is in them, does not write
these cells: any of the calls above, with an output of the right size in an array which is not that of an input or of storage. -/
theorem C125_filter_pixels [Nontrivial V] {j : Job V} {out : Gray} {st : List Gray} (hw : j.written = out :: st)
    (hin : ∀ q, q ∈ j.inputs → q.1.buf ≠ out.buf) (hst : ∀ u, u ∈ st → u.buf ≠ out.buf) {p : Accesses V Gray} (hp : j.Is p)
    (ow : out.width = j.width) (oh : out.height = j.height) (hs : j.Sound) : j.IsFine j.PartSees j.PartMarks p := by
  have hf : ∀ h, j.Ready h → ∃ e, j.run h = .ok out e ∧ ∀ k, ¬out.Pixel out.buf k → e.cell out.buf k = h.cell out.buf k := fun h hr => by
    obtain ⟨g, e, he, -, -, -, -, hk⟩ := hs h hr
    obtain ⟨rfl, k2⟩ := hk out (by rw [hw]; rfl) ow oh
    exact ⟨e, he, fun k hk => k2 k (fun x y hx hy e => hk ⟨x, y, hx, hy, rfl, e⟩)⟩
  have hmem : ∀ {u}, u ∈ j.written → u = out ∨ u ∈ st := fun hu => by rw [hw] at hu; exact List.mem_cons.1 hu
  have htail : j.written.tail = st := by rw [hw]; rfl
  have hread : ¬j.Reads out.buf := by
    rintro (⟨q, hq, e⟩ | ⟨u, hu, e⟩)
    · exact hin q hq e.symm
    · exact hst u (htail ▸ hu) e.symm
  refine ⟨hp.run, fun _ _ h => Or.inr h, fun h hr => ?_⟩
  obtain ⟨e, he, fe⟩ := hf h hr
  have he' := (hp.run h).trans he
  refine (Accesses.on_of (X := fun b i => b = out.buf ∧ ¬out.Pixel b i) (P := fun g => g = out) hp.reads hp.writes he' rfl ?_).mono
    (fun b k hb => Or.inl hb) (fun b k hb => ?_) (fun g hg b k hk => Or.inr (Or.inl ⟨out, by rw [hw]; rfl, by rw [← hg]; exact hk⟩))
  · rintro b i ⟨rfl, hni⟩ hsome
    obtain ⟨w, hc⟩ := Option.isSome_iff_exists.1 hsome
    obtain ⟨v, hv⟩ := exists_ne w
    have hal : (h.setCell out.buf i v).Alike h := .setCell hc
    have hr' : j.Ready (h.setCell out.buf i v) := by
      refine ⟨fun q hq => ?_, fun u hu => (hr.2 u hu).alike hal⟩
      have hk : ∀ k, (h.setCell out.buf i v).cell q.1.buf k = h.cell q.1.buf k := fun k => by
        rw [Heap.cell_setCell hc, if_neg (fun h => hin q hq h.1)]
      exact ⟨(hr.1 q hq).1.alike hal, (hr.1 q hq).2.kept hk⟩
    obtain ⟨e2, he2, fe2⟩ := hf _ hr'
    obtain ⟨e3, he3, h3⟩ := Accesses.not_written hp.reads hread (o := out.buf) (c := i) (h := h) (h' := h.setCell out.buf i v)
      (fun b k hne => by rw [Heap.cell_setCell hc, if_neg hne]) hal he'
    rw [hp.run, he2] at he3
    cases he3
    rcases h3 with h3 | h3
    · rw [fe2 i hni, fe i hni, Heap.cell_setCell hc, if_pos ⟨rfl, rfl⟩, hc] at h3
      exact absurd (Option.some.inj h3) hv
    · exact h3.2.mono (fun _ _ h => h) (fun _ _ h => h) (fun _ _ => trivial)
  · obtain ⟨⟨u, hu, rfl⟩, hX⟩ := hb
    rcases hmem hu with rfl | hu'
    · exact Or.inl ⟨u, by rw [hw]; rfl, Classical.byContradiction (fun hn => hX ⟨rfl, hn⟩)⟩
    · exact Or.inr ⟨u, by rw [htail]; exact hu', rfl⟩

/-- Two threads which threshold the two halves of one image into the two halves of another one. -/
example : let a : Gray := ⟨0, 4, 2, 2, 0, 2, false⟩
    let u : Gray := ⟨1, 6, 3, 2, 0, 3, false⟩
    let inp : Bool → Gray := fun i => ⟨0, 4, 2, 1, if i then 2 else 0, 2, true⟩
    let out : Bool → Gray := fun i => ⟨1, 6, 2, 1, if i then 3 else 0, 3, true⟩
    let fa : Nat → Nat → Int := fun x y => 10 * (x + 2 * y : Nat)
    let job : Bool → Job Int := fun i => ⟨ThresholdOps.threshold (fun a b => decide (a ≤ b)) (fun a b => decide (b < a)) b2i 0 (inp i) 15 true (out i),
      [(inp i, fun x y => fa x (y + if i then 1 else 0))], [out i], 2, 1, fun x y => b2i (decide (fa x (y + if i then 1 else 0) ≤ 15))⟩
    let h : Heap Int := ⟨[some [0, 10, 20, 30], some [7, 7, 7, 7, 7, 7]]⟩
    (∀ i, (a.makeSubimage 0 (if i then 1 else 0) 2 (if i then 2 else 1) : M Int Gray) h = .ok (inp i) h) ∧
    (∀ i, (u.makeSubimage 0 (if i then 1 else 0) 2 (if i then 2 else 1) : M Int Gray) h = .ok (out i) h) ∧
    (∀ i j, i ≠ j → ∀ b k, (job i).Marks b k → ¬(job j).Sees b k) ∧ (∀ i, (job i).Sound) ∧ (∀ i, (job i).Ready h) ∧
    ∀ i, ∃ p, (job i).IsFine (job i).Sees (job i).Marks p := by
  intro a u inp out fa job h
  have va : ∀ i, (inp i).Valid h := by decide
  have vo : ∀ i, (out i).Valid h := by decide
  have ha : ∀ i, (inp i).Shows h (fun x y => fa x (y + if i then 1 else 0)) := fun i x y hx hy => by
    have : ∀ i : Bool, ∀ x : Nat, x < 2 → ∀ y : Nat, y < 1 → h.px (inp i) x y = some (fa x (y + if i then 1 else 0)) := by decide
    exact this i x hx y hy
  have e1 : ∀ i : Bool, (a.makeSubimage 0 (if i then 1 else 0) 2 (if i then 2 else 1) : M Int Gray) h = .ok (inp i) h := by
    intro i; cases i <;> rfl
  have e2 : ∀ i : Bool, (u.makeSubimage 0 (if i then 1 else 0) 2 (if i then 2 else 1) : M Int Gray) h = .ok (out i) h := by
    intro i; cases i <;> rfl
  refine ⟨e1, e2, ?_, fun i => ?_, fun i => ⟨fun p hp => ?_, fun u hu => ?_⟩, fun i => ?_⟩
  · rintro i j hij b k ⟨w, hw, hp⟩ hs
    rw [List.mem_singleton.1 hw] at hp
    rcases hs with ⟨q, hq, x, y, _, _, eb, _⟩ | ⟨w', hw', hs⟩
    · rw [List.mem_singleton.1 hq] at eb
      obtain ⟨_, _, _, _, eb', _⟩ := hp
      exact absurd (eb'.symm.trans eb) (by cases i <;> cases j <;> decide)
    · rw [List.mem_singleton.1 hw'] at hs
      exact C125_windows (g := u) (h := h) (by decide) (e2 i) (e2 j) (by cases i <;> cases j <;> simp_all) b k hp hs
  · exact C98_threshold _ _ _ _ _ true (Or.inr ⟨rfl, rfl⟩) (Or.inr (Or.inl (by cases i <;> decide)))
  · rw [List.mem_singleton.1 hp]; exact ⟨va i, ha i⟩
  · rw [List.mem_singleton.1 hu]; exact vo i
  · exact C125_threshold_pixels _ _ _ _ _ _ (va i) (vo i) rfl rfl


/-- Two threads which blur the upper and the lower half of one 8 bit image into the halves of another one, each with storage of its own. -/
example : let u : Gray := ⟨1, 24, 4, 6, 0, 4, false⟩
    let inp : Bool → Gray := fun i => ⟨0, 18, 3, 3, if i then 9 else 0, 3, true⟩
    let out : Bool → Gray := fun i => ⟨1, 24, 3, 3, if i then 12 else 0, 4, true⟩
    let st : Bool → Gray := fun i => ⟨if i then 2 else 3, 9, 3, 3, 0, 3, false⟩
    let f : Bool → Nat → Nat → Int := fun i x y => ((x + 3 * y + if i then 9 else 0 : Nat) : Int)
    let h : Heap Int := ⟨[some ((List.range 18).map Int.ofNat), some (List.replicate 24 7), some (List.replicate 9 1), some (List.replicate 9 2)]⟩
    ∃ job : Bool → Job Int, (∀ i, (job i).run = (do let p ← BlurImageOps.meanInt U8 (intElem U8 (fun _ => 7)) (inp i) (out i) 1 (st i); pure p.1)) ∧
      (∀ i, (job i).written = [out i, st i]) ∧ (∀ i, (job i).inputs = [(inp i, f i)]) ∧
      (∀ i, (u.makeSubimage 0 (if i then 3 else 0) 3 (if i then 6 else 3) : M Int Gray) h = .ok (out i) h) ∧
      (∀ i j, i ≠ j → ∀ b k, (job i).PartMarks b k → ¬(job j).PartSees b k) ∧ (∀ i, (job i).Sound) ∧ (∀ i, (job i).Ready h) ∧
      ∀ i, ∃ p, (job i).IsFine (job i).PartSees (job i).PartMarks p := by
  intro u inp out st f h
  have va : ∀ i, (inp i).Valid h := by decide +kernel
  have vo : ∀ i, (out i).Valid h := by decide +kernel
  have vs : ∀ i, (st i).Valid h := by decide +kernel
  have ha : ∀ i, (inp i).Shows h (f i) := fun i x y hx hy => by
    have : ∀ i : Bool, ∀ x : Nat, x < 3 → ∀ y : Nat, y < 3 → h.px (inp i) x y = some (f i x y) := by decide +kernel
    exact this i x hx y hy
  have e2 : ∀ i : Bool, (u.makeSubimage 0 (if i then 3 else 0) 3 (if i then 6 else 3) : M Int Gray) h = .ok (out i) h := by
    intro i; cases i <;> rfl
  have S := fun i => C98_mean (t := U8) (by decide) (fun _ => 7) (input := inp i) (output := out i) (storage := st i) (f := f i) (r := 1) (P := 17)
    ⟨Or.inr ⟨rfl, rfl⟩, Or.inl rfl, Or.inl (by cases i <;> decide), Or.inl (by cases i <;> decide), by cases i <;> decide, by cases i <;> decide,
      by cases i <;> decide, by cases i <;> decide, by cases i <;> decide⟩ (by decide) (Or.inl (by cases i <;> decide))
    ⟨by decide, by decide, fun x y hx hy => by
      have : ∀ i : Bool, ∀ x : Nat, x < 3 → ∀ y : Nat, y < 3 → U8.InRange (f i x y) ∧ |f i x y| ≤ 17 := by decide +kernel
      exact this i x hx y hy, by decide⟩
  refine ⟨fun i => ⟨_, _, _, _, _, _⟩, fun i => rfl, fun i => rfl, fun i => rfl, e2, ?_, S, fun i => ⟨fun p hp => ?_, fun w hw => ?_⟩, fun i => ?_⟩
  · have hb : ∀ i j : Bool, (out i).buf ≠ (inp j).buf ∧ (out i).buf ≠ (st j).buf ∧ (st i).buf ≠ (inp j).buf ∧
        (i ≠ j → (st i).buf ≠ (st j).buf) := by decide
    intro i j hij b k hm hse
    obtain ⟨n1, n2, n3, n4⟩ := hb i j
    have n5 := (hb j i).2.1
    rcases hm with ⟨o, ho, hp⟩ | ⟨w, hw, rfl⟩
    · cases ho
      have eb : b = (out i).buf := hp.choose_spec.choose_spec.2.2.1
      rcases hse with (⟨q, hq, e⟩ | ⟨w, hw, e⟩) | (⟨o, ho, hp'⟩ | ⟨w, hw, e⟩)
      · rw [List.mem_singleton.1 hq] at e; exact n1 (eb.symm.trans e)
      · rw [List.mem_singleton.1 hw] at e; exact n2 (eb.symm.trans e)
      · cases ho
        exact C125_windows (g := u) (h := h) (by decide +kernel) (e2 i) (e2 j) (by cases i <;> cases j <;> simp_all) b k hp hp'
      · rw [List.mem_singleton.1 hw] at e; exact n2 (eb.symm.trans e)
    · rw [List.mem_singleton.1 hw] at hse
      rcases hse with (⟨q, hq, e⟩ | ⟨w, hw, e⟩) | (⟨o, ho, hp'⟩ | ⟨w, hw, e⟩)
      · rw [List.mem_singleton.1 hq] at e; exact n3 e
      · rw [List.mem_singleton.1 hw] at e; exact n4 hij e
      · cases ho
        exact n5 (hp'.choose_spec.choose_spec.2.2.1.symm)
      · rw [List.mem_singleton.1 hw] at e; exact n4 hij e
  · rw [List.mem_singleton.1 hp]; exact ⟨va i, ha i⟩
  · simp only [List.mem_cons, List.not_mem_nil, or_false] at hw
    rcases hw with rfl | rfl
    · exact vo i
    · exact vs i
  · obtain ⟨p, hp⟩ := C125_mean U8 (intElem U8 (fun _ => 7)) (input := inp i) (output := out i) (storage := st i) (f := f i)
      (F := meanImage U8 1 (inp i).width (inp i).height (f i)) 1 rfl rfl rfl rfl
    exact ⟨p, C125_filter_pixels (out := out i) (st := [st i]) rfl (by simp [inp, out]) (by cases i <;> simp [st, out]) hp rfl rfl (S i)⟩

end Boof
