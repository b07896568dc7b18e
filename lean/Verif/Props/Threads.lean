import Verif.Proofs.StepsFilters
import Verif.Props.Jobs
/-
C125: calls made at the same time in several threads.
-/
namespace Boof
open M
variable {V : Type}

/-- The arrays a job reads: those of its inputs and of its storage (the output comes first among the images written). -/
def Job.Reads (j : Job V) (b : Nat) : Prop := (∃ p, p ∈ j.inputs ∧ b = p.1.buf) ∨ ∃ u, u ∈ j.written.tail ∧ b = u.buf

/-- `p` is the job as a program of single accesses, which reads arrays of its inputs and storage and writes arrays of its output and storage
only. -/
structure Job.Is (j : Job V) (p : Accesses V Gray) : Prop where
  run : ∀ h, p.run h = j.run h
  reads : p.ReadsIn j.Reads
  writes : p.WritesIn (fun b => ∃ u, u ∈ j.written ∧ b = u.buf)

/-- The arrays of the images of a job. -/
def Job.Uses (j : Job V) (b : Nat) : Prop := (∃ p, p ∈ j.inputs ∧ b = p.1.buf) ∨ ∃ u, u ∈ j.written ∧ b = u.buf

theorem Job.Ready.only {j : Job V} {h : Heap V} (hr : j.Ready h) : j.Ready (h.only j.Uses) := by
  have hk : ∀ b, j.Uses b → ((h.only j.Uses).get b).isSome = (h.get b).isSome ∧ ∀ i, (h.only j.Uses).cell b i = h.cell b i := by
    intro b hb
    have := Heap.get_only (h := h) hb
    exact ⟨by rw [this], fun i => by unfold Heap.cell; rw [this]⟩
  refine ⟨fun p hp => ?_, fun u hu => ?_⟩
  · obtain ⟨k1, k2⟩ := hk p.1.buf (Or.inl ⟨p, hp, rfl⟩)
    exact ⟨(hr.1 p hp).1.kept k1 k2, (hr.1 p hp).2.kept k2⟩
  · obtain ⟨k1, k2⟩ := hk u.buf (Or.inr ⟨u, hu, rfl⟩)
    exact (hr.2 u hu).kept k1 k2

/-- Calls made at the same time by threads which do not write what another one uses: however their accesses to memory are
interleaved, no access is undefined, there is never a data race, a thread which has made its `N i` accesses has returned,
and then the image it returned shows the picture of its call; arrays which no call writes are as before. -/
theorem C125_threads {ι : Type} [DecidableEq ι] {job : ι → Job V} {p : ι → Accesses V Gray} (hp : ∀ i, (job i).Is (p i))
    (ha : ∀ i j, i ≠ j → (job i).Apart (job j)) (hs : ∀ i, (job i).Sound) {h : Heap V} (hr : ∀ i, (job i).Ready h) :
    ∃ N : ι → Nat, ∀ l : List ι, ∃ (q : ι → Accesses V Gray) (h' : Heap V), schedule l p h = some (q, h') ∧ ¬Race q ∧
      (∀ i, N i ≤ l.count i → ∃ g, q i = .done g) ∧
      (∀ i g, q i = .done g → (job i).Done g h') ∧
      (∀ b, (∀ i, ∀ u, u ∈ (job i).written → b ≠ u.buf) → h'.get b = h.get b) := by
  have hsolo := fun i => hs i _ (hr i).only
  choose a e he hdone _ _ _ _ using hsolo
  have hd : ∀ i j, i ≠ j → ∀ b, (∃ u, u ∈ (job i).written ∧ b = u.buf) → ¬(job j).Uses b := by
    rintro i j hij b ⟨u, hu, rfl⟩ (⟨p, hp, e⟩ | ⟨v, hv, e⟩)
    · exact ((ha i j hij).1 u hu).2 p hp e
    · exact ((ha i j hij).1 u hu).1 v hv e
  refine ⟨fun i => (p i).length (h.only (job i).Uses), fun l => ?_⟩
  obtain ⟨q, h', s', e1, r1, l1, k1⟩ := schedule_spec (A := fun i => (job i).Uses) (a := a) (e := e) hd l (p := p) (h := h)
    (s := fun i => h.only (job i).Uses) (fun i => ⟨fun b hb => Heap.get_only hb, fun b hb => Heap.get_only_not hb,
      ((hp i).run _).trans (he i), (hp i).writes⟩)
  refine ⟨q, h', e1, ?_, fun i hi => ?_, fun i g hg => ?_, fun b hb => k1 b (fun i ⟨u, hu, e⟩ => hb i u hu e)⟩
  · rintro ⟨i, j, hij, b, k, w, w', n1, n2, hw⟩
    obtain ⟨a1, w1⟩ := (r1 i).access n1
    obtain ⟨a2, w2⟩ := (r1 j).access n2
    rcases hw with hw | hw
    · exact hd i j hij b (w1 hw) a2
    · exact hd j i (Ne.symm hij) b (w2 hw) a1
  · exact ⟨a i, ((r1 i).ended ((l1 i).trans (Nat.sub_eq_zero_of_le hi))).1⟩
  · have hrun := (r1 i).run
    rw [hg] at hrun
    have hres : Res.ok g (s' i) = Res.ok (a i) (e i) := hrun
    injection hres with eg es
    subst eg
    obtain ⟨d1, d2, d3, d4⟩ := hdone i
    have hA : (job i).Uses (a i).buf := by
      by_contra hb
      have := d3.live
      rw [← es, (r1 i).gone _ hb] at this; cases this
    have hk := (r1 i).same _ hA
    rw [es] at hk
    have hc : ∀ j, h'.cell (a i).buf j = (e i).cell (a i).buf j := fun j => by unfold Heap.cell; rw [hk]
    exact ⟨d1, d2, d3.kept (by rw [hk]) hc, d4.kept hc⟩

/-- `Job.Is` from the rules for `Steps`. -/
theorem Steps.job {j : Job V} (h : Steps j.Reads (fun b => ∃ u, u ∈ j.written ∧ b = u.buf) j.run) : ∃ p, j.Is p := by
  obtain ⟨p, hp, rp, wp⟩ := h
  exact ⟨p, hp, rp, wp⟩

/-- `threshold`, into an image of the right size or in place -/
theorem C125_threshold (le gt : V → V → Bool) (bit : Bool → V) (z thr : V) (down : Bool) {input output : Gray} {f F : Nat → Nat → V}
    (ew : output.width = input.width) (eh : output.height = input.height) :
    ∃ p, (Job.mk (ThresholdOps.threshold le gt bit z input thr down output) [(input, f)] [output] input.width input.height F).Is p :=
  Steps.job (Steps.threshold le gt bit z thr down (Or.inl ⟨(input, f), List.mem_singleton.2 rfl, rfl⟩) ⟨output, List.mem_singleton.2 rfl, rfl⟩ ew eh)

/-- Copying into an image of the right size -/
theorem C125_copy (z : V) {src dst : Gray} {f F : Nat → Nat → V} (ew : dst.width = src.width) (eh : dst.height = src.height) :
    ∃ p, (Job.mk (dst.copy z src) [(src, f)] [dst] src.width src.height F).Is p :=
  Steps.job (Steps.copy (Or.inl ⟨(src, f), List.mem_singleton.2 rfl, rfl⟩) ⟨dst, List.mem_singleton.2 rfl, rfl⟩ ew eh)

/-- `logicAnd` and `logicOr`, into an image of the right size or in place -/
theorem C125_logic {a b output : Gray} {fa fb F : Nat → Nat → Int} (ew : output.width = a.width) (eh : output.height = a.height) :
    (∃ p, (Job.mk (BinaryImageOps.logicAnd a b output) [(a, fa), (b, fb)] [output] a.width a.height F).Is p) ∧
    ∃ p, (Job.mk (BinaryImageOps.logicOr a b output) [(a, fa), (b, fb)] [output] a.width a.height F).Is p :=
  ⟨Steps.job (Steps.logicAnd (Or.inl ⟨(a, fa), by simp, rfl⟩) (Or.inl ⟨(b, fb), by simp, rfl⟩) ⟨output, List.mem_singleton.2 rfl, rfl⟩ ew eh), Steps.job (Steps.logicOr (Or.inl ⟨(a, fa), by simp, rfl⟩) (Or.inl ⟨(b, fb), by simp, rfl⟩) ⟨output, List.mem_singleton.2 rfl, rfl⟩ ew eh)⟩

/-- `ConvolveImage::horizontal`, `vertical` and `convolve`, into an image of the right size; the kernel is read by any number of threads -/
theorem C125_convolve {S : Type} (z : V) (A : Arith V S) (k : Kernel S) (b : Border V) {input output : Gray} {f F : Nat → Nat → V}
    (ew : output.width = input.width) (eh : output.height = input.height) :
    (∃ p, (Job.mk (ConvolveImage.convolve z A k b input output) [(input, f)] [output] input.width input.height F).Is p) ∧
    (∃ p, (Job.mk (ConvolveImage.horizontal z A k b input output) [(input, f)] [output] input.width input.height F).Is p) ∧
    ∃ p, (Job.mk (ConvolveImage.vertical z A k b input output) [(input, f)] [output] input.width input.height F).Is p :=
  ⟨Steps.job (Steps.image_c A k b (Or.inl ⟨(input, f), List.mem_singleton.2 rfl, rfl⟩) ⟨output, List.mem_singleton.2 rfl, rfl⟩ z ew eh),
    Steps.job (Steps.image_h A k b (Or.inl ⟨(input, f), List.mem_singleton.2 rfl, rfl⟩) ⟨output, List.mem_singleton.2 rfl, rfl⟩ z ew eh),
    Steps.job (Steps.image_v A k b (Or.inl ⟨(input, f), List.mem_singleton.2 rfl, rfl⟩) ⟨output, List.mem_singleton.2 rfl, rfl⟩ z ew eh)⟩

/-- `BlurImageOps::mean`, integral pixels, with output and storage of the right size -/
theorem C125_mean (t : IntTy) (E : GrowArray.Elem Int) {input output storage : Gray} {f F : Nat → Nat → Int} (r : Nat)
    (ow : output.width = input.width) (oh : output.height = input.height)
    (sw : storage.width = input.width) (sh : storage.height = input.height) :
    ∃ p, (Job.mk (do let p ← BlurImageOps.meanInt t E input output r storage; pure p.1) [(input, f)] [output, storage]
      input.width input.height F).Is p :=
  Steps.job ((Steps.meanInt t E r (Or.inl ⟨(input, f), List.mem_singleton.2 rfl, rfl⟩) (Or.inr ⟨storage, by simp, rfl⟩) ⟨output, by simp, rfl⟩ ⟨storage, by simp, rfl⟩ ow oh sw sh).bind (fun _ => Steps.pure _))

/-- `BlurImageOps::mean`, floating point pixels -/
theorem C125_mean_float {K : Type} [Field K] [LinearOrder K] [IsStrictOrderedRing K] [FloorRing K] (E : GrowArray.Elem K)
    {input output storage : Gray} {f F : Nat → Nat → K} (r : Nat) (ow : output.width = input.width) (oh : output.height = input.height)
    (sw : storage.width = input.width) (sh : storage.height = input.height) :
    ∃ p, (Job.mk (do let p ← BlurImageOps.meanFloat E input output r storage; pure p.1) [(input, f)] [output, storage]
      input.width input.height F).Is p :=
  Steps.job ((Steps.meanFloat E r (Or.inl ⟨(input, f), List.mem_singleton.2 rfl, rfl⟩) (Or.inr ⟨storage, by simp, rfl⟩) ⟨output, by simp, rfl⟩ ⟨storage, by simp, rfl⟩ ow oh sw sh).bind (fun _ => Steps.pure _))

/-- Two threads which threshold the same image into two others, one of them downwards. -/
example : let a : Gray := ⟨0, 4, 2, 2, 0, 2, false⟩
    let out : Bool → Gray := fun i => if i then ⟨1, 4, 2, 2, 0, 2, false⟩ else ⟨2, 6, 2, 2, 0, 3, true⟩
    let fa : Nat → Nat → Int := fun x y => 10 * (x + 2 * y : Nat)
    let job : Bool → Job Int := fun i => ⟨ThresholdOps.threshold (fun a b => decide (a ≤ b)) (fun a b => decide (b < a)) b2i 0 a 15 i (out i),
      [(a, fa)], [out i], 2, 2, fun x y => b2i (if i then decide (fa x y ≤ 15) else decide (15 < fa x y))⟩
    let h : Heap Int := ⟨[some [0, 10, 20, 30], some [7, 7, 7, 7], some [8, 8, 8, 8, 8, 8]]⟩
    (∀ i j, i ≠ j → (job i).Apart (job j)) ∧ (∀ i, (job i).Sound) ∧ (∀ i, (job i).Ready h) ∧ ∀ i, ∃ p, (job i).Is p := by
  intro a out fa job h
  have ha : a.Shows h fa := fun x y hx hy => by
    have : ∀ x : Nat, x < 2 → ∀ y : Nat, y < 2 → h.px a x y = some (fa x y) := by decide
    exact this x hx y hy
  have va : a.Valid h := by decide
  have vo : ∀ i, (out i).Valid h := by decide
  refine ⟨?_, fun i => ?_, fun i => ⟨fun p hp => ?_, fun u hu => ?_⟩, fun i => ?_⟩
  · intro i j hij
    cases i <;> cases j <;> first | exact absurd rfl hij | simp [job, Job.Apart, a, out]
  · cases i
    · exact C98_threshold _ _ _ _ _ false (Or.inr ⟨rfl, rfl⟩) (Or.inr (Or.inl (by decide)))
    · exact C98_threshold _ _ _ _ _ true (Or.inl rfl) (Or.inr (Or.inl (by decide)))
  · rw [List.mem_singleton.1 hp]; exact ⟨va, ha⟩
  · rw [List.mem_singleton.1 hu]; exact vo i
  · cases i <;> exact C125_threshold _ _ _ _ _ _ rfl rfl

/-- A call as a program of accesses: a threshold of one pixel.  Two threads which make it with the same output race; the hypothesis
that no call writes what another one uses is needed. -/
example : let a : Gray := ⟨0, 1, 1, 1, 0, 1, false⟩
    let u : Gray := ⟨1, 1, 1, 1, 0, 1, false⟩
    let job : Job Int := ⟨ThresholdOps.threshold (fun a b => decide (a ≤ b)) (fun a b => decide (b < a)) b2i 0 a 5 true u,
      [(a, fun _ _ => 3)], [u], 1, 1, fun _ _ => 1⟩
    let p : Accesses Int Gray := .rd 0 0 (fun v => .wr 1 0 (b2i (decide (v ≤ 5))) (.done u))
    let h : Heap Int := ⟨[some [3], some [7]]⟩
    job.Is p ∧ ¬job.Apart job ∧
    ∃ q h', schedule [true, false] (fun _ : Bool => p) h = some (q, h') ∧ Race q := by
  intro a u job p h
  refine ⟨⟨fun h => ?_, ⟨Or.inl ⟨_, List.mem_singleton.2 rfl, rfl⟩, fun _ => trivial⟩, ?_⟩, by simp [job, Job.Apart], ?_⟩
  · show M.bind (M.rd 0 0) (fun v => M.bind (M.wr 1 0 (b2i (decide (v ≤ 5)))) (fun _ => M.pure u)) h =
      M.bind (M.loop 1 (fun _ => M.loop 1 (fun _ => M.bind (M.rd 0 0) (fun v => M.wr 1 0 (b2i (decide (v ≤ 5))))))) (fun _ => M.pure u) h
    unfold M.loop M.loopS
    rcases hc : h.cell 0 0 with _ | v <;> rcases hc' : h.cell 1 0 with _ | w <;>
      simp [M.bind, M.rd, M.wr, M.loopS, M.pure, hc, hc']
  · exact fun v => ⟨⟨u, List.mem_singleton.2 rfl, rfl⟩, trivial⟩
  · exact ⟨_, _, rfl, true, false, by decide, 1, 0, true, true, rfl, rfl, Or.inl rfl⟩

end Boof
