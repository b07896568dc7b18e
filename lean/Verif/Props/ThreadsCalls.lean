import Verif.Props.ThreadsContour
import Verif.Props.ThreadsMore
import Verif.Props.Blocks
import Verif.Model.BlocksFloat
import Verif.Props.Statistics
/-
C125: image statistics, filling, averaging of bands and block thresholds in several threads.
-/
namespace Boof
open M OtsuSpec
variable {V α : Type}

theorem Steps.fine {R W : Nat → Prop} {m : M V α} (hm : Steps R W m) :
    Fine (fun b _ => R b ∨ W b) (fun b _ => W b) (fun _ => True) m := by
  obtain ⟨p, hp, rp, wp⟩ := hm
  refine ⟨p, hp, ?_⟩
  clear hp
  induction p with
  | done a => trivial
  | throw => trivial
  | ub => trivial
  | timeout => trivial
  | rd b i k ih => exact ⟨.inl rp.1, fun v => ih v (rp.2 v) (wp v)⟩
  | wr b i v k ih => exact ⟨wp.1, ih rp wp.2⟩

/-- Calls of functions which are programs of single accesses, made at the same time.  If no call writes an array which another one reads or
writes, and each call alone would return, then however the accesses are interleaved, no access is undefined, there is never a data race,
every thread returns what its call alone returns, and then its arrays are as after that call alone; other arrays are as before. -/
theorem C125_calls {ι : Type} [DecidableEq ι] {m : ι → M V α} {R W : ι → Nat → Prop} (hm : ∀ i, Steps (R i) (W i) (m i)) {h : Heap V}
    {a : ι → α} {e : ι → Heap V} (he : ∀ i, m i h = .ok (a i) (e i)) (hd : ∀ i j, i ≠ j → ∀ b, W i b → ¬R j b ∧ ¬W j b) :
    ∃ p : ι → Accesses V α, (∀ i k, (p i).run k = m i k) ∧
      ∃ N : ι → Nat, ∀ s : List ι, ∃ (q : ι → Accesses V α) (h' : Heap V), schedule s p h = some (q, h') ∧ ¬Race q ∧
        (∀ i, N i ≤ s.count i → ∃ r, q i = .done r) ∧
        (∀ i r, q i = .done r → r = a i ∧ ∀ b c, R i b ∨ W i b → h'.cell b c = (e i).cell b c) ∧
        (∀ b c, (∀ i, ¬W i b) → h'.cell b c = h.cell b c) := by
  choose p hp ht using fun i => (hm i).fine
  refine ⟨p, hp, ?_⟩
  exact C125_results (p := p) (S := fun i b _ => R i b ∨ W i b) (M := fun i b _ => W i b) (fun i => (hp i h).trans (he i))
    (fun i => (ht i).on h) (fun i b _ hw => .inr hw) (fun i j hij b _ hw hu => hu.elim (hd i j hij b hw).1 (hd i j hij b hw).2)

/-! ## Statistics and filling -/

section
variable {R W : Nat → Prop}

theorem Steps.statMin (lt : V → V → Bool) (top : V) {g : Gray} (hr : R g.buf) : Steps R W (ImageStatistics.min lt top g) := by
  unfold ImageStatistics.min; steps
theorem Steps.statMax (lt : V → V → Bool) (bot : V) {g : Gray} (hr : R g.buf) : Steps R W (ImageStatistics.max lt bot g) := by
  unfold ImageStatistics.max; steps
theorem Steps.statSum (t : IntTy) {g : Gray} (hr : R g.buf) : Steps R W (ImageStatistics.sum t g) := by
  unfold ImageStatistics.sum; steps
theorem Steps.divU32 (t : IntTy) (a : Int) (n : Nat) : Steps R W (ImageStatistics.divU32 t a n) := by
  unfold ImageStatistics.divU32; steps
theorem Steps.statMean (t : IntTy) {g : Gray} (hr : R g.buf) : Steps R W (ImageStatistics.mean t g) := by
  unfold ImageStatistics.mean
  exact (Steps.statSum t hr).bind (fun _ => (Steps.divU32 _ _ _).bind (fun _ => Steps.pure _))
theorem Steps.fillGray {g : Gray} (hw : W g.buf) (v : V) : Steps R W (ImageMiscOps.fill g v) := by
  unfold ImageMiscOps.fill; steps
theorem Steps.fill3 {g : Interleaved} (hw : W g.buf) (v : V) : Steps R W (ImageMiscOps.fill3 g v) := by
  unfold ImageMiscOps.fill3; steps
theorem Steps.fillBorder {g : Gray} (hw : W g.buf) (v : V) (r : Nat) : Steps R W (ImageMiscOps.fillBorder g v r) := by
  have := Steps.fillGray (R := R) hw v
  unfold ImageMiscOps.fillBorder
  split
  · assumption
  · steps
theorem Steps.convertAverage (t : IntTy) {input : Interleaved} {output : Gray} (hr : R input.buf) (hw : W output.buf)
    (ew : output.width = input.width) (eh : output.height = input.height) : Steps R W (convertAverage t input output) := by
  unfold Boof.convertAverage
  rw [reshape_same ew eh, M.pure_after]
  have := fun a n => Steps.divU32 (R := R) (W := W) t.sumType a n
  refine Steps.bind (Steps.loop (fun _ => Steps.loop (fun _ => Steps.bind ?_ (fun _ => Steps.bind (this _ _) (fun _ => ?_))))) (fun _ => Steps.pure _)
  · steps
  · steps

end

/-- What a thread may compute of an image of integers, or do to it. -/
inductive Glance
  | min (t : IntTy) | max (t : IntTy) | sum (t : IntTy) | mean (t : IntTy)
  | fill (v : Int) | fillBorder (v : Int) (radius : Nat)

/-- The call of the library; filling returns 0. -/
def Glance.call (g : Gray) : Glance → M Int Int
  | .min t => ImageStatistics.min (fun a b => decide (a < b)) t.hi g
  | .max t => ImageStatistics.max (fun a b => decide (a < b)) t.lo g
  | .sum t => ImageStatistics.sum t g
  | .mean t => ImageStatistics.mean t g
  | .fill v => do ImageMiscOps.fill g v; pure 0
  | .fillBorder v r => do ImageMiscOps.fillBorder g v r; pure 0

/-- Does it write the image? -/
def Glance.writes : Glance → Prop
  | .fill _ | .fillBorder _ _ => True
  | _ => False

/-- Statistics of images and filling of images in several threads: several threads may read the same image, and no image may be filled by
one thread and used by another.  Each returns what the call alone returns. -/
theorem C125_statistics {ι : Type} [DecidableEq ι] {g : ι → Gray} {t : ι → Glance} {h : Heap Int} {a : ι → Int} {e : ι → Heap Int}
    (he : ∀ i, (t i).call (g i) h = .ok (a i) (e i)) (hd : ∀ i j, i ≠ j → (t i).writes → (g i).buf ≠ (g j).buf) :
    ∃ p : ι → Accesses Int Int, (∀ i k, (p i).run k = (t i).call (g i) k) ∧
      ∃ N : ι → Nat, ∀ s : List ι, ∃ (q : ι → Accesses Int Int) (h' : Heap Int), schedule s p h = some (q, h') ∧ ¬Race q ∧
        (∀ i, N i ≤ s.count i → ∃ r, q i = .done r) ∧
        (∀ i r, q i = .done r → r = a i ∧ ∀ c, h'.cell (g i).buf c = (e i).cell (g i).buf c) ∧
        (∀ b c, (∀ i, (t i).writes → b ≠ (g i).buf) → h'.cell b c = h.cell b c) := by
  have hm : ∀ i, Steps (fun b => b = (g i).buf) (fun b => (t i).writes ∧ b = (g i).buf) ((t i).call (g i)) := fun i => by
    cases ht : t i with
    | min t => exact Steps.statMin _ _ rfl
    | max t => exact Steps.statMax _ _ rfl
    | sum t => exact Steps.statSum _ rfl
    | mean t => exact Steps.statMean _ rfl
    | fill v => exact (Steps.fillGray ⟨trivial, rfl⟩ _).bind (fun _ => Steps.pure _)
    | fillBorder v r => exact (Steps.fillBorder ⟨trivial, rfl⟩ _ _).bind (fun _ => Steps.pure _)
  obtain ⟨p, hp, N, hN⟩ := C125_calls hm he (fun i j hij b hw =>
    ⟨fun e => hd i j hij hw.1 (hw.2.symm.trans e), fun e => hd i j hij hw.1 (hw.2.symm.trans e.2)⟩)
  refine ⟨p, hp, N, fun s => ?_⟩
  obtain ⟨q, h', e1, e2, e3, e4, e5⟩ := hN s
  exact ⟨q, h', e1, e2, e3, fun i r hr => ⟨(e4 i r hr).1, fun c => (e4 i r hr).2 _ c (.inl rfl)⟩,
    fun b c hb => e5 b c (fun i hw => hb i hw.1 hw.2)⟩

/-- Two threads take the sum and the smallest pixel of one image, and a third one fills another image. -/
example : let h : Heap Int := ⟨[some [3, 1, 2, 5], some [0, 0]]⟩
    let g : Fin 3 → Gray := fun i => if i = 2 then ⟨1, 2, 2, 1, 0, 2, false⟩ else ⟨0, 4, 2, 2, 0, 2, false⟩
    let t : Fin 3 → Glance := fun i => if i = 0 then .sum U8 else if i = 1 then .min U8 else .fill 7
    (∃ e : Fin 3 → Heap Int, ∀ i, (t i).call (g i) h = .ok (if i = 0 then 11 else if i = 1 then 1 else 0) (e i)) ∧
    ∀ i j, i ≠ j → (t i).writes → (g i).buf ≠ (g j).buf := by
  intro h g t
  refine ⟨⟨fun i => if i = 2 then ⟨[some [3, 1, 2, 5], some [7, 7]]⟩ else h, fun i => ?_⟩, fun i j hij hw => ?_⟩
  · fin_cases i <;> rfl
  · fin_cases i
    · exact absurd hw (by intro h; exact h)
    · exact absurd hw (by intro h; exact h)
    · fin_cases j
      · decide
      · decide
      · exact absurd rfl hij

/-- Why the calls must be apart: two threads which fill the same image race, and what the image shows afterwards depends on the schedule. -/
theorem C125_shared_output_races : let g : Gray := ⟨0, 1, 1, 1, 0, 1, false⟩
    ∃ p : Bool → Accesses Int Unit, (∀ i k, (p i).run k = ImageMiscOps.fill g (if i then 1 else 2) k) ∧ Race p ∧
      ∃ q, schedule [false, true] p ⟨[some [0]]⟩ = some (q, ⟨[some [1]]⟩) ∧ schedule [true, false] p ⟨[some [0]]⟩ = some (q, ⟨[some [2]]⟩) ∧
        ∀ i, q i = .done () := by
  intro g
  refine ⟨fun i => .wr 0 0 (if i then 1 else 2) (.done ()), fun i k => ?_, ⟨false, true, by decide, 0, 0, true, true, rfl, rfl, Or.inl rfl⟩,
    fun _ => .done (), ?_, ?_, fun _ => rfl⟩
  · show M.bind (M.wr 0 0 _) (fun _ => M.pure ()) k = M.bind (M.pure ()) (fun _ => M.wr 0 (0 : Nat) _) k
    unfold M.bind M.wr M.pure
    cases hc : k.cell 0 0 <;> simp [hc]
  · exact congrArg some (Prod.ext (funext (fun i => by cases i <;> rfl)) rfl)
  · exact congrArg some (Prod.ext (funext (fun i => by cases i <;> rfl)) rfl)

/-- The average of the bands of images, in several threads, into images of the right sizes; several threads may read the same image. -/
theorem C125_average {ι : Type} [DecidableEq ι] {t : ι → IntTy} {input : ι → Interleaved} {output : ι → Gray}
    (hs : ∀ i, (output i).width = (input i).width ∧ (output i).height = (input i).height) {h : Heap Int} {a : ι → Gray}
    {e : ι → Heap Int} (he : ∀ i, convertAverage (t i) (input i) (output i) h = .ok (a i) (e i))
    (hd : ∀ i j, i ≠ j → (output i).buf ≠ (output j).buf ∧ (output i).buf ≠ (input j).buf) :
    ∃ p : ι → Accesses Int Gray, (∀ i k, (p i).run k = convertAverage (t i) (input i) (output i) k) ∧
      ∃ N : ι → Nat, ∀ s : List ι, ∃ (q : ι → Accesses Int Gray) (h' : Heap Int), schedule s p h = some (q, h') ∧ ¬Race q ∧
        (∀ i, N i ≤ s.count i → ∃ r, q i = .done r) ∧
        (∀ i r, q i = .done r → r = a i ∧ ∀ c, h'.cell (output i).buf c = (e i).cell (output i).buf c) ∧
        (∀ b c, (∀ i, b ≠ (output i).buf) → h'.cell b c = h.cell b c) := by
  obtain ⟨p, hp, N, hN⟩ := C125_calls (R := fun i b => b = (input i).buf) (W := fun i b => b = (output i).buf)
    (fun i => Steps.convertAverage (t i) rfl rfl (hs i).1 (hs i).2) he
    (fun i j hij b hw => by subst hw; exact ⟨(hd i j hij).2, (hd i j hij).1⟩)
  refine ⟨p, hp, N, fun s => ?_⟩
  obtain ⟨q, h', e1, e2, e3, e4, e5⟩ := hN s
  exact ⟨q, h', e1, e2, e3, fun i r hr => ⟨(e4 i r hr).1, fun c => (e4 i r hr).2 _ c (.inr rfl)⟩, e5⟩

/-- Two threads average the bands of one image. -/
example : let h : Heap Int := ⟨[some [3, 1, 2, 5], some [0, 0], some [0, 0]]⟩
    let output : Bool → Gray := fun i => ⟨if i then 2 else 1, 2, 2, 1, 0, 2, false⟩
    (∃ e : Bool → Heap Int, ∀ i, convertAverage U8 ⟨0, 4, 2, 1, 2, 0, 4, false⟩ (output i) h = .ok (output i) (e i) ∧
      (e i).get (output i).buf = some [2, 3]) ∧
    ∀ i j, i ≠ j → (output i).buf ≠ (output j).buf ∧ (output i).buf ≠ 0 := by
  intro h output
  refine ⟨⟨fun i => if i then ⟨[some [3, 1, 2, 5], some [0, 0], some [2, 3]]⟩ else ⟨[some [3, 1, 2, 5], some [2, 3], some [0, 0]]⟩,
    fun i => ?_⟩, by decide⟩
  cases i <;> exact ⟨rfl, rfl⟩

/-! ## Block thresholds -/

/-- The virtual functions of a block filter are programs of single accesses, which read the input and the statistics and write the
statistics and the output. -/
structure BlockOps.Plain (ops : BlockOps V) : Prop where
  init : ∀ {R W : Nat → Prop} (st : Interleaved), W st.buf → Steps R W (ops.init st)
  stats : ∀ {R W : Nat → Prop} {st : Interleaved} {input : Gray} (x y w ht k : Nat), R st.buf → W st.buf → R input.buf →
    Steps R W (ops.blockStats st x y w ht k input)
  threshold : ∀ {R W : Nat → Prop} {b : Blocks} {input output : Gray} (x y : Nat), R b.stats.buf → R input.buf → W output.buf →
    Steps R W (ops.thresholdBlock b x y input output)

section
variable {K : Type} [Field K] [LinearOrder K] [IsStrictOrderedRing K] [FloorRing K]

theorem Steps.interAt {R W : Nat → Prop} {g : Interleaved} (hr : R g.buf) (x y b : Nat) : Steps R W (g.at' x y b : M V V) := by
  unfold Interleaved.at'; steps

theorem BlockMean.plain (t : IntTy) (scaled : Int → Nat → K) (useLocal down : Bool) : (BlockMean.ops t scaled useLocal down).Plain where
  init := fun _ _ => Steps.pure _
  stats := fun {R W st input} x y w ht k h1 h2 h3 => by
    show Steps R W (BlockMean.blockStats t scaled st x y w ht k input)
    unfold BlockMean.blockStats
    refine Steps.bind ?_ (fun _ => Steps.bind (Steps.toInt _ _) (fun _ => Steps.wr _ _ h2))
    steps
  threshold := fun {R W b input output} x y h1 h2 h3 => by
    show Steps R W (BlockMean.thresholdBlock t useLocal down b x y input output)
    unfold BlockMean.thresholdBlock
    dsimp only
    refine Steps.bind ?_ (fun _ => Steps.bind (Steps.divU32 _ _ _) (fun _ => ?_))
    · steps
    · steps

theorem BlockMinMax.plain (t : IntTy) (spread : K) (scaleMul : Int → K) (useLocal down : Bool) :
    (BlockMinMax.ops t spread scaleMul useLocal down).Plain where
  init := fun _ _ => Steps.pure _
  stats := fun {R W st input} x y w ht k h1 h2 h3 => by
    show Steps R W (BlockMinMax.blockStats st x y w ht k input)
    unfold BlockMinMax.blockStats
    steps
  threshold := fun {R W b input output} x y h1 h2 h3 => by
    show Steps R W (BlockMinMax.thresholdBlock t spread scaleMul useLocal down b x y input output)
    unfold BlockMinMax.thresholdBlock
    dsimp only
    refine Steps.bind ?_ (fun mm => Steps.bind (Steps.toInt _ _) (fun _ => ?_))
    · exact Steps.loopS (fun _ _ => Steps.loopS (fun _ _ => Steps.bind (Steps.interAt h1 _ _ _) (fun _ =>
        Steps.bind (Steps.interAt h1 _ _ _) (fun _ => Steps.pure _))))
    · refine Steps.forRange (fun _ => Steps.loop (fun _ => Steps.bind (Steps.arith _ _) (fun _ => ?_)))
      split
      · exact Steps.wr _ _ h3
      · exact Steps.bind (Steps.arith _ _) (fun _ => Steps.bind (Steps.toInt _ _) (fun _ => Steps.bind (Steps.rd _ h2) (fun _ =>
          Steps.wr _ _ h3)))

theorem BlockOtsu.plain (otsu : ComputeOtsu K) (useLocal : Bool) : (BlockOtsu.ops otsu useLocal).Plain where
  init := fun _ h => Steps.fill3 h _
  stats := fun {R W st input} x y w ht k h1 h2 h3 => by
    show Steps R W (BlockOtsu.blockStats st x y w ht k input)
    unfold BlockOtsu.blockStats
    steps
  threshold := fun {R W b input output} x y h1 h2 h3 => by
    show Steps R W (BlockOtsu.thresholdBlockWith otsu.compute otsu.down useLocal b x y input output)
    unfold BlockOtsu.thresholdBlockWith
    dsimp only
    refine Steps.bind ?_ (fun hist => Steps.bind ?_ (fun total => Steps.bind (Steps.otsuCompute K _ _ _) (fun _ => ?_)))
    · steps
    · steps
    · steps

theorem BlockMeanF.plain (A : MeanOps V) (useLocal down : Bool) : (BlockMeanF.ops A useLocal down).Plain where
  init := fun _ _ => Steps.pure _
  stats := fun {R W st input} x y w ht k h1 h2 h3 => by
    show Steps R W (BlockMeanF.blockStats A st x y w ht k input)
    unfold BlockMeanF.blockStats
    steps
  threshold := fun {R W b input output} x y h1 h2 h3 => by
    show Steps R W (BlockMeanF.thresholdBlock A useLocal down b x y input output)
    unfold BlockMeanF.thresholdBlock
    dsimp only
    steps

theorem BlockMinMaxF.plain [LT V] [DecidableLT V] [LE V] [DecidableLE V] (A : MinMaxOps V) (spread : V) (useLocal down : Bool) :
    (BlockMinMaxF.ops A spread useLocal down).Plain where
  init := fun _ _ => Steps.pure _
  stats := fun {R W st input} x y w ht k h1 h2 h3 => by
    show Steps R W (BlockMinMaxF.blockStats st x y w ht k input)
    unfold BlockMinMaxF.blockStats
    steps
  threshold := fun {R W b input output} x y h1 h2 h3 => by
    show Steps R W (BlockMinMaxF.thresholdBlock A spread useLocal down b x y input output)
    unfold BlockMinMaxF.thresholdBlock
    dsimp only
    refine Steps.bind ?_ (fun mm => ?_)
    · exact Steps.loopS (fun _ _ => Steps.loopS (fun _ _ => Steps.bind (Steps.interAt h1 _ _ _) (fun _ =>
        Steps.bind (Steps.interAt h1 _ _ _) (fun _ => Steps.pure _))))
    · steps

theorem BlockOtsuF.plain (A : OtsuOps V) (otsu : ComputeOtsu K) (useLocal : Bool) : (BlockOtsuF.ops A otsu useLocal).Plain where
  init := fun _ h => Steps.fill3 h _
  stats := fun {R W st input} x y w ht k h1 h2 h3 => by
    show Steps R W (BlockOtsuF.blockStats A st x y w ht k input)
    unfold BlockOtsuF.blockStats BlockOtsuF.convert
    steps
  threshold := fun {R W b input output} x y h1 h2 h3 => by
    show Steps R W (BlockOtsuF.thresholdBlockWith A otsu.compute otsu.down useLocal b x y input output)
    unfold BlockOtsuF.thresholdBlockWith BlockOtsuF.convert
    dsimp only
    refine Steps.bind ?_ (fun hist => Steps.bind ?_ (fun total => Steps.bind (Steps.otsuCompute K _ _ _) (fun _ => ?_)))
    · steps
    · steps
    · steps

theorem computeI_always {c : ConfigLength K} {x : K} {r : Int} {h : Heap V} (e : (c.computeI x : M V Int) h = .ok r h) (k : Heap V) :
    (c.computeI x : M V Int) k = .ok r k := by
  unfold ConfigLength.computeI M.toInt at *
  split at e
  · rename_i h1
    rw [if_pos h1]
    split at e
    · rename_i h2
      rw [if_pos h2]
      cases e; rfl
    · cases e
  · rename_i h1
    rw [if_neg h1]
    cases e; rfl

/-- What one call of a block filter reads and writes, when its statistics image has the right size already. -/
theorem Steps.blocks {ops : BlockOps V} (ho : ops.Plain) {z : V} {config : ConfigLength K} {st : Interleaved} {input output : Gray}
    {req : Nat} (h1 : 1 ≤ req) (hw : req ≤ input.width) (hh : req ≤ input.height) (hwl : input.width < P32) (hhl : input.height < P32)
    (ew : output.width = input.width) (eh : output.height = input.height) {h : Heap V}
    (hr : config.computeI ((min input.width input.height : Nat) : K) h = .ok (req : Int) h)
    (sw : st.width = Grid.count input.width req) (sh : st.height = Grid.count input.height req)
    (hl : st.width * st.height * st.numBands < P32) {R W : Nat → Prop} (hi : R input.buf) (hs : R st.buf) (hs' : W st.buf)
    (hout : W output.buf) : Steps R W (Blocks.process ops z config st input output) := by
  refine Steps.congr (m := do
      ops.init st
      M.loop (Grid.count input.height req) (fun j => M.loop (Grid.count input.width req) (fun i =>
        ops.blockStats st (Grid.lo input.width req i) (Grid.lo input.height req j)
          (Grid.hi input.width req i - Grid.lo input.width req i)
          (Grid.hi input.height req j - Grid.lo input.height req j)
          ((j * Grid.count input.width req + i) * st.numBands) input))
      M.loop st.height (fun j => M.loop st.width (fun i =>
        ops.thresholdBlock ⟨st, Grid.size input.width req, Grid.size input.height req⟩ i j input output))
      Pure.pure ⟨st, Grid.size input.width req, Grid.size input.height req⟩) ?_ (fun k => ?_)
  · exact Steps.bind (ho.init st hs') (fun _ => Steps.bind (Steps.loop (fun _ => Steps.loop (fun _ => ho.stats _ _ _ _ _ hs hs' hi)))
      (fun _ => Steps.bind (Steps.loop (fun _ => Steps.loop (fun _ => ho.threshold _ _ hs hi hout))) (fun _ => Steps.pure _)))
  · rw [process_run ew eh hw hwl (computeI_always hr k)]
    refine C37_process ops z st output h1 hw hh hwl hhl k (st' := st) (h' := k) ?_ (by rw [← sw, ← sh]; exact hl)
    unfold Interleaved.reshape
    rw [if_pos ⟨sw, sh⟩]; rfl

/-- Block threshold filters in several threads, each with its own filter object and output; several threads may read the same picture.
`ops i` are the functions of the mean, min-max or Otsu filter (`BlockMean.plain`, `BlockMinMax.plain`, `BlockOtsu.plain`, and with `F` for
pixels of floating point).  The filters have
worked on pictures of these sizes before, so that nothing is allocated.  However the accesses are interleaved, no access is undefined, there
is never a data race, every thread returns what its call alone returns, and then its output shows what it shows after that call alone;
only outputs and statistics change. -/
theorem C125_blocks {ι : Type} [DecidableEq ι] {ops : ι → BlockOps V} (ho : ∀ i, (ops i).Plain) {z : V} {config : ι → ConfigLength K}
    {st : ι → Interleaved} {input output : ι → Gray} {f : ι → Nat → Nat → V} {h : Heap V}
    (ha : ∀ i, BlockArgs h (st i) (input i) (output i) (f i)) {req : ι → Nat}
    (h1 : ∀ i, 1 ≤ req i ∧ req i ≤ (input i).width ∧ req i ≤ (input i).height)
    (hr : ∀ i, (config i).computeI ((min (input i).width (input i).height : Nat) : K) h = .ok (req i : Int) h)
    (hs : ∀ i, (st i).width = Grid.count (input i).width (req i) ∧ (st i).height = Grid.count (input i).height (req i) ∧
      (st i).width * (st i).height * (st i).numBands < P32)
    {a : ι → Blocks} {e : ι → Heap V} (he : ∀ i, Blocks.process (ops i) z (config i) (st i) (input i) (output i) h = .ok (a i) (e i))
    (hd : ∀ i j, i ≠ j → ∀ b, b = (output i).buf ∨ b = (st i).buf → b ≠ (input j).buf ∧ b ≠ (output j).buf ∧ b ≠ (st j).buf) :
    ∃ p : ι → Accesses V Blocks, (∀ i k, (p i).run k = Blocks.process (ops i) z (config i) (st i) (input i) (output i) k) ∧
      ∃ N : ι → Nat, ∀ s : List ι, ∃ (q : ι → Accesses V Blocks) (h' : Heap V), schedule s p h = some (q, h') ∧ ¬Race q ∧
        (∀ i, N i ≤ s.count i → ∃ r, q i = .done r) ∧
        (∀ i r, q i = .done r → r = a i ∧ ∀ F, (output i).Shows (e i) F → (output i).Shows h' F) ∧
        (∀ b c, (∀ i, b ≠ (output i).buf ∧ b ≠ (st i).buf) → h'.cell b c = h.cell b c) := by
  obtain ⟨p, hp, N, hN⟩ := C125_calls (R := fun i b => b = (input i).buf ∨ b = (st i).buf)
    (W := fun i b => b = (output i).buf ∨ b = (st i).buf)
    (fun i => Steps.blocks (ho i) (h1 i).1 (h1 i).2.1 (h1 i).2.2 (ha i).inValid.widthLt (ha i).inValid.heightLt (ha i).width (ha i).height
      (hr i) (hs i).1 (hs i).2.1 (hs i).2.2 (.inl rfl) (.inr rfl) (.inr rfl) (.inl rfl)) he
    (fun i j hij b hw => by
      obtain ⟨d1, d2, d3⟩ := hd i j hij b hw
      exact ⟨fun h => h.elim d1 d3, fun h => h.elim d2 d3⟩)
  refine ⟨p, hp, N, fun s => ?_⟩
  obtain ⟨q, h', e1, e2, e3, e4, e5⟩ := hN s
  refine ⟨q, h', e1, e2, e3, fun i r hr => ⟨(e4 i r hr).1, fun F hF x y hx hy => ?_⟩, fun b c hb => e5 b c (fun i hw => ?_)⟩
  · rw [← hF x y hx hy]
    exact (e4 i r hr).2 _ _ (.inr (.inl rfl))
  · exact hw.elim (hb i).1 (hb i).2

/-- Two block mean filters with blocks of 2 pixels read one picture of 5x2 pixels; their statistics images have 2x1 pixels. -/
example : let pixels : List Int := [1,2,30,10,10, 3,4,10,10,20]
    let h : Heap Int := ⟨[some pixels, some (List.replicate 10 9), some (List.replicate 10 9), some [0, 0], some [0, 0]]⟩
    let input : Gray := ⟨0, 10, 5, 2, 0, 5, false⟩
    let output : Bool → Gray := fun i => ⟨if i then 2 else 1, 10, 5, 2, 0, 5, false⟩
    let st : Bool → Interleaved := fun i => ⟨if i then 4 else 3, 2, 2, 1, 1, 0, 2, false⟩
    (∀ i, BlockArgs h (st i) input (output i) (fun x y => pixels.getD (y * 5 + x) 0)) ∧
    (1 ≤ 2 ∧ 2 ≤ input.width ∧ 2 ≤ input.height) ∧
    (ConfigLength.fixed (2 : ℚ)).computeI ((min input.width input.height : Nat) : ℚ) h = .ok ((2 : Nat) : Int) h ∧
    (∀ i, (st i).width = Grid.count input.width 2 ∧ (st i).height = Grid.count input.height 2 ∧
      (st i).width * (st i).height * (st i).numBands < P32) ∧
    (∃ (a : Bool → Blocks) (e : Bool → Heap Int), ∀ i,
      Blocks.process (BlockMean.ops U8 exactScaled true true) 0 (ConfigLength.fixed (2 : ℚ)) (st i) input (output i) h = .ok (a i) (e i)) ∧
    ∀ i j, i ≠ j → ∀ b, b = (output i).buf ∨ b = (st i).buf → b ≠ input.buf ∧ b ≠ (output j).buf ∧ b ≠ (st j).buf := by
  intro pixels h input output st
  have hA : ∀ i, BlockArgs h (st i) input (output i) (fun x y => pixels.getD (y * 5 + x) 0) := fun i => by
    refine ⟨by decide, ?_, by cases i <;> decide, rfl, rfl, Or.inr ?_, ?_, rfl, by cases i <;> decide, by cases i <;> decide⟩
    · have : ∀ x, x < 5 → ∀ y, y < 2 → h.px input x y = some (pixels.getD (y * 5 + x) 0) := by decide
      exact fun x y hx hy => this x hx y hy
    · intro _ _ _ _ _ _ _ _ e
      cases i <;> exact absurd e (by decide)
    · have two : ∀ (b c : Nat), (b = 3 ∨ b = 4) → c < 2 → ∃ v, h.cell b c = some v := fun b c hb hc => by
        rcases hb with rfl | rfl <;> (rcases (show c = 0 ∨ c = 1 by omega) with rfl | rfl <;> exact ⟨0, rfl⟩)
      cases i <;> exact ⟨by decide, fun c hc => two _ c (by decide) hc, by decide, by decide, by decide, by decide, by decide, by decide, by decide, by decide⟩
  have hreq : (ConfigLength.fixed (2 : ℚ)).computeI ((min input.width input.height : Nat) : ℚ) h = .ok ((2 : Nat) : Int) h := by
    decide +kernel
  refine ⟨hA, by decide, hreq, fun i => by cases i <;> decide, ?_, ?_⟩
  · have hmean := fun i => C39_mean_partial (K := ℚ) (t := U8) (Or.inl rfl) (scaled := exactScaled) (useLocal := true) (down := true)
      (z := 0) (config := ConfigLength.fixed (2 : ℚ)) (hA i) rfl (req := 2) (by decide) (by decide) (by decide) hreq
      (fun x y hx hy => by
        have : ∀ x, x < 5 → ∀ y, y < 2 → 0 ≤ pixels.getD (y * 5 + x) 0 := by decide
        exact this x hx y hy)
      (fun i j hi hj => by
        have : ∀ i, i < Grid.count 5 2 → ∀ j, j < Grid.count 2 2 → rectSum (fun x y => pixels.getD (y * 5 + x) 0) (Grid.lo 5 2 i) (Grid.hi 5 2 i) (Grid.lo 2 2 j)
          (Grid.hi 2 2 j) ≤ U8.sumType.hi := by decide +kernel
        exact this i hi j hj)
      (fun i j hi hj => by
        have : ∀ i, i < Grid.count 5 2 → ∀ j, j < Grid.count 2 2 → 0 ≤ meanStat exactScaled 5 2 2 (fun x y => pixels.getD (y * 5 + x) 0) i j ∧
          meanStat exactScaled 5 2 2 (fun x y => pixels.getD (y * 5 + x) 0) i j ≤ U8.hi := by decide +kernel
        exact this i hi j hj)
    choose a e hae _ using hmean
    exact ⟨a, e, hae⟩
  · intro i j hij b hb
    cases i <;> cases j <;> simp [output, st, input] at hij hb ⊢ <;> omega

/-- The block mean filter in several threads: the output of each shows, when its call has returned, for every pixel whether it is at most
the average of the statistics of the blocks around it (C39), whatever the other threads do.  The case above meets the hypotheses; its proof
shows those about sums and statistics. -/
theorem C125_block_mean {ι : Type} [DecidableEq ι] {t : IntTy} (ht : t = U8 ∨ t = U16 ∨ t = S16) {scaled : Int → Nat → K}
    {useLocal down : Bool} {z : Int} {config : ConfigLength K} {st : ι → Interleaved} {input output : ι → Gray}
    {f : ι → Nat → Nat → Int} {h : Heap Int} (ha : ∀ i, BlockArgs h (st i) (input i) (output i) (f i)) (hnb : ∀ i, (st i).numBands = 1)
    {req : ι → Nat} (h1 : ∀ i, 1 ≤ req i ∧ req i ≤ (input i).width ∧ req i ≤ (input i).height)
    (hr : ∀ i, config.computeI ((min (input i).width (input i).height : Nat) : K) h = .ok (req i : Int) h)
    (hs : ∀ i, (st i).width = Grid.count (input i).width (req i) ∧ (st i).height = Grid.count (input i).height (req i))
    (hf0 : ∀ k x y, x < (input k).width → y < (input k).height → 0 ≤ f k x y)
    (hsum : ∀ k i j, i < Grid.count (input k).width (req k) → j < Grid.count (input k).height (req k) →
      rectSum (f k) (Grid.lo (input k).width (req k) i) (Grid.hi (input k).width (req k) i) (Grid.lo (input k).height (req k) j)
        (Grid.hi (input k).height (req k) j) ≤ t.sumType.hi)
    (hstat : ∀ k i j, i < Grid.count (input k).width (req k) → j < Grid.count (input k).height (req k) →
      0 ≤ meanStat scaled (input k).width (input k).height (req k) (f k) i j ∧
      meanStat scaled (input k).width (input k).height (req k) (f k) i j ≤ t.hi)
    (hd : ∀ i j, i ≠ j → ∀ b, b = (output i).buf ∨ b = (st i).buf → b ≠ (input j).buf ∧ b ≠ (output j).buf ∧ b ≠ (st j).buf) :
    ∃ p : ι → Accesses Int Blocks,
      (∀ i k, (p i).run k = Blocks.process (BlockMean.ops t scaled useLocal down) z config (st i) (input i) (output i) k) ∧
      ∃ N : ι → Nat, ∀ s : List ι, ∃ (q : ι → Accesses Int Blocks) (h' : Heap Int), schedule s p h = some (q, h') ∧ ¬Race q ∧
        (∀ i, N i ≤ s.count i → ∃ r, q i = .done r) ∧
        (∀ i r, q i = .done r → (output i).Shows h' (fun x y =>
          if down = decide (f i x y ≤ localMean useLocal (input i).width (input i).height (req i)
            (meanStat scaled (input i).width (input i).height (req i) (f i)) (Grid.blockOf (input i).width (req i) x)
            (Grid.blockOf (input i).height (req i) y)) then 1 else 0)) ∧
        (∀ b c, (∀ i, b ≠ (output i).buf ∧ b ≠ (st i).buf) → h'.cell b c = h.cell b c) := by
  have hm := fun k => C39_mean_partial ht (scaled := scaled) (useLocal := useLocal) (down := down) (z := z) (config := config) (ha k) (hnb k)
    (h1 k).1 (h1 k).2.1 (h1 k).2.2 (hr k) (hf0 k) (hsum k) (hstat k)
  choose a e he hF using hm
  obtain ⟨p, hp, N, hN⟩ := C125_blocks (fun _ => BlockMean.plain t scaled useLocal down) ha h1 hr (fun i => ⟨(hs i).1, (hs i).2, by
    rw [hnb i, (hs i).1, (hs i).2, Nat.mul_one]; exact count_area (ha i).inValid _⟩) he hd
  refine ⟨p, hp, N, fun s => ?_⟩
  obtain ⟨q, h', e1, e2, e3, e4, e5⟩ := hN s
  exact ⟨q, h', e1, e2, e3, fun i r hr => (e4 i r hr).2 _ (fun x y hx hy => (hF i).pix x y hx hy), e5⟩

/-- The standard block Otsu filter in several threads: each output shows the comparison of its picture with thresholds which maximise the
between-class variance of the pixels in the blocks around (C41), whatever the other threads do. -/
theorem C125_block_otsu {ι : Type} [DecidableEq ι] {useLocal down : Bool} {z : Int} {config : ConfigLength K} {st : ι → Interleaved}
    {input output : ι → Gray} {f : ι → Nat → Nat → Int} {h : Heap Int} (ha : ∀ i, BlockArgs h (st i) (input i) (output i) (f i))
    (hnb : ∀ i, (st i).numBands = 256) {req : ι → Nat} (h1 : ∀ i, 1 ≤ req i ∧ req i ≤ (input i).width ∧ req i ≤ (input i).height)
    (hr : ∀ i, config.computeI ((min (input i).width (input i).height : Nat) : K) h = .ok (req i : Int) h)
    (hs : ∀ i, (st i).width = Grid.count (input i).width (req i) ∧ (st i).height = Grid.count (input i).height (req i))
    (hf : ∀ k x y, x < (input k).width → y < (input k).height → 0 ≤ f k x y ∧ f k x y ≤ 255)
    (harea : ∀ k, (input k).width * (input k).height < 2147483648)
    (hsize : ∀ k, Grid.count (input k).width (req k) * Grid.count (input k).height (req k) * 256 < 4294967296)
    (hd : ∀ i j, i ≠ j → ∀ b, b = (output i).buf ∨ b = (st i).buf → b ≠ (input j).buf ∧ b ≠ (output j).buf ∧ b ≠ (st j).buf) :
    ∃ (p : ι → Accesses Int Blocks) (th : ι → Nat → Nat → Nat),
      (∀ i k, (p i).run k = Blocks.process (BlockOtsu.ops (ComputeOtsu.mk false (0 : K) down 1) useLocal) z config (st i) (input i)
        (output i) k) ∧
      (∀ k i j, i < Grid.count (input k).width (req k) → j < Grid.count (input k).height (req k) →
        IsOtsu K 256 (fun v => rectCount (f k) v (localLo useLocal (input k).width (req k) i) (localHi useLocal (input k).width (req k) i)
          (localLo useLocal (input k).height (req k) j) (localHi useLocal (input k).height (req k) j)) (th k i j)) ∧
      ∃ N : ι → Nat, ∀ s : List ι, ∃ (q : ι → Accesses Int Blocks) (h' : Heap Int), schedule s p h = some (q, h') ∧ ¬Race q ∧
        (∀ i, N i ≤ s.count i → ∃ r, q i = .done r) ∧
        (∀ i r, q i = .done r → (output i).Shows h' (fun x y => if down = decide (f i x y ≤ th i (Grid.blockOf (input i).width (req i) x)
          (Grid.blockOf (input i).height (req i) y)) then 1 else 0)) ∧
        (∀ b c, (∀ i, b ≠ (output i).buf ∧ b ≠ (st i).buf) → h'.cell b c = h.cell b c) := by
  have hm := fun k => C41_standard (useLocal := useLocal) (down := down) (z := z) (config := config) (ha k) (hnb k)
    (h1 k).1 (h1 k).2.1 (h1 k).2.2 (hr k) (hf k) (harea k) (hsize k)
  choose a e S th he hO hF using hm
  obtain ⟨p, hp, N, hN⟩ := C125_blocks (fun _ => BlockOtsu.plain (ComputeOtsu.mk false (0 : K) down 1) useLocal) ha h1 hr
    (fun i => ⟨(hs i).1, (hs i).2, by rw [hnb i, (hs i).1, (hs i).2]; exact hsize i⟩) he hd
  refine ⟨p, th, hp, hO, N, fun s => ?_⟩
  obtain ⟨q, h', e1, e2, e3, e4, e5⟩ := hN s
  exact ⟨q, h', e1, e2, e3, fun i r hr => (e4 i r hr).2 _ (fun x y hx hy => (hF i).pix x y hx hy), e5⟩

/-- The block min-max filter in several threads: each output is 1 where the blocks around have little texture and otherwise shows the
comparison of its picture with the scaled mid-value (C40), whatever the other threads do. -/
theorem C125_block_minmax {ι : Type} [DecidableEq ι] {t : IntTy} (ht : t = U8 ∨ t = U16 ∨ t = S16) {minimumSpread : K} {scaleMul : Int → K}
    {useLocal down : Bool} {z : Int} {config : ConfigLength K} {st : ι → Interleaved}
    {input output : ι → Gray} {f : ι → Nat → Nat → Int} {h : Heap Int} (ha : ∀ i, BlockArgs h (st i) (input i) (output i) (f i))
    (hnb : ∀ i, (st i).numBands = 2) {req : ι → Nat} (h1 : ∀ i, 1 ≤ req i ∧ req i ≤ (input i).width ∧ req i ≤ (input i).height)
    (hr : ∀ i, config.computeI ((min (input i).width (input i).height : Nat) : K) h = .ok (req i : Int) h)
    (hs : ∀ i, (st i).width = Grid.count (input i).width (req i) ∧ (st i).height = Grid.count (input i).height (req i))
    (hfr : ∀ k x y, x < (input k).width → y < (input k).height → t.InRange (f k x y))
    (hsize : ∀ k, Grid.count (input k).width (req k) * Grid.count (input k).height (req k) * 2 < 4294967296)
    (hspread : t.sumType.InRange (truncK minimumSpread))
    (hscale : ∀ m, t.InRange m → t.sumType.InRange (truncK (scaleMul m)))
    (hd : ∀ i j, i ≠ j → ∀ b, b = (output i).buf ∨ b = (st i).buf → b ≠ (input j).buf ∧ b ≠ (output j).buf ∧ b ≠ (st j).buf) :
    ∃ (p : ι → Accesses Int Blocks) (mn mx : ι → Nat → Nat → Int),
      (∀ i k, (p i).run k = Blocks.process (BlockMinMax.ops t minimumSpread scaleMul useLocal down) z config (st i) (input i) (output i) k) ∧
      (∀ k i j, i < Grid.count (input k).width (req k) → j < Grid.count (input k).height (req k) →
        IsRectMin (f k) (localLo useLocal (input k).width (req k) i) (localHi useLocal (input k).width (req k) i)
          (localLo useLocal (input k).height (req k) j) (localHi useLocal (input k).height (req k) j) (mn k i j) ∧
        IsRectMax (f k) (localLo useLocal (input k).width (req k) i) (localHi useLocal (input k).width (req k) i)
          (localLo useLocal (input k).height (req k) j) (localHi useLocal (input k).height (req k) j) (mx k i j)) ∧
      ∃ N : ι → Nat, ∀ s : List ι, ∃ (q : ι → Accesses Int Blocks) (h' : Heap Int), schedule s p h = some (q, h') ∧ ¬Race q ∧
        (∀ i, N i ≤ s.count i → ∃ r, q i = .done r) ∧
        (∀ k r, q k = .done r → (output k).Shows h' (fun x y =>
          let i := Grid.blockOf (input k).width (req k) x
          let j := Grid.blockOf (input k).height (req k) y
          if mx k i j - mn k i j ≤ truncK minimumSpread then 1
          else if down = decide (f k x y ≤ truncK (scaleMul ((mx k i j + mn k i j).tdiv 2))) then 1 else 0)) ∧
        (∀ b c, (∀ i, b ≠ (output i).buf ∧ b ≠ (st i).buf) → h'.cell b c = h.cell b c) := by
  have hm := fun k => C40_minmax_partial ht (minimumSpread := minimumSpread) (scaleMul := scaleMul) (useLocal := useLocal) (down := down)
    (z := z) (config := config) (ha k) (hnb k) (h1 k).1 (h1 k).2.1 (h1 k).2.2 (hr k) (hfr k) (hsize k) hspread hscale
  choose a e S mn mx he hO hF using hm
  obtain ⟨p, hp, N, hN⟩ := C125_blocks (fun _ => BlockMinMax.plain t minimumSpread scaleMul useLocal down) ha h1 hr
    (fun i => ⟨(hs i).1, (hs i).2, by rw [hnb i, (hs i).1, (hs i).2]; exact hsize i⟩) he hd
  refine ⟨p, mn, mx, hp, hO, N, fun s => ?_⟩
  obtain ⟨q, h', e1, e2, e3, e4, e5⟩ := hN s
  exact ⟨q, h', e1, e2, e3, fun i r hr => (e4 i r hr).2 _ (fun x y hx hy => (hF i).pix x y hx hy), e5⟩

/-- Two threads which meet the hypotheses of the last two theorems (`nb` is the number of bands of the statistics): a picture of 2x1 pixels
and blocks of one pixel. -/
example : ∀ nb, nb = 2 ∨ nb = 256 →
    let h : Heap Int := ⟨[some [1, 9], some [0, 0], some [0, 0], some (List.replicate (2 * nb) 0), some (List.replicate (2 * nb) 0)]⟩
    let input : Gray := ⟨0, 2, 2, 1, 0, 2, false⟩
    let output : Bool → Gray := fun i => ⟨if i then 2 else 1, 2, 2, 1, 0, 2, false⟩
    let st : Bool → Interleaved := fun i => ⟨if i then 4 else 3, 2 * nb, 2, 1, nb, 0, 2 * nb, false⟩
    let f : Nat → Nat → Int := fun x y => ([1, 9] : List Int).getD (y * 2 + x) 0
    (∀ i, BlockArgs h (st i) input (output i) f) ∧ (∀ i, (st i).numBands = nb) ∧ (1 ≤ 1 ∧ 1 ≤ input.width ∧ 1 ≤ input.height) ∧
    (ConfigLength.fixed (1 : ℚ)).computeI ((min input.width input.height : Nat) : ℚ) h = .ok ((1 : Nat) : Int) h ∧
    (∀ i, (st i).width = Grid.count input.width 1 ∧ (st i).height = Grid.count input.height 1) ∧
    (∀ x y, x < input.width → y < input.height → 0 ≤ f x y ∧ f x y ≤ 255 ∧ U8.InRange (f x y)) ∧
    input.width * input.height < 2147483648 ∧ Grid.count input.width 1 * Grid.count input.height 1 * nb < 4294967296 ∧
    U8.sumType.InRange (truncK (5 : ℚ)) ∧ (∀ m : Int, U8.InRange m → U8.sumType.InRange (truncK ((m : ℚ)))) ∧
    ∀ i j, i ≠ j → ∀ b, b = (output i).buf ∨ b = (st i).buf → b ≠ input.buf ∧ b ≠ (output j).buf ∧ b ≠ (st j).buf := by
  intro nb hnb h input output st f
  have cells : ∀ (b c : Nat), (b = 3 ∨ b = 4) → c < 2 * nb → ∃ v, h.cell b c = some v := fun b c hb hc => by
    refine ⟨0, ?_⟩
    have : (List.replicate (2 * nb) (0 : Int))[c]? = some 0 := by rw [List.getElem?_replicate, if_pos hc]
    rcases hb with rfl | rfl <;> exact this
  refine ⟨fun i => ?_, fun _ => rfl, by decide, ?_, fun i => ⟨(Nat.div_one 2).symm, (Nat.div_one 1).symm⟩, ?_, by decide, ?_, by decide +kernel, ?_, ?_⟩
  · refine ⟨?_, ?_, ?_, rfl, rfl, Or.inr ?_, ?_, rfl, by cases i <;> simp [input, st], by cases i <;> simp [output, st]⟩
    · rcases hnb with rfl | rfl <;> decide
    · have : ∀ x, x < 2 → ∀ y, y < 1 → ([1, 9] : List Int)[input.addr x y]? = some (f x y) := by decide
      exact fun x y hx hy => this x hx y hy
    · rcases hnb with rfl | rfl <;> cases i <;> decide
    · intro _ _ _ _ _ _ _ _ e
      cases i <;> exact absurd e (by simp [input, output])
    · rcases hnb with rfl | rfl <;> cases i <;>
        exact ⟨rfl, fun c hc => cells _ c (by simp [st]) hc, by decide, by decide, by decide, by decide, by decide, by decide, by decide, by decide⟩
  · exact computeI_always (h := ⟨[]⟩) (by decide +kernel) h
  · have : ∀ x, x < 2 → ∀ y, y < 1 → 0 ≤ f x y ∧ f x y ≤ 255 ∧ U8.InRange (f x y) := by decide
    exact fun x y hx hy => this x hx y hy
  · rcases hnb with rfl | rfl <;> decide
  · intro m hm
    have e : truncK (m : ℚ) = m := by unfold truncK; split <;> simp
    rw [e]
    have h1 : (0 : Int) ≤ m ∧ m ≤ 255 := hm
    have h2 : (U8.sumType.lo ≤ 0 ∧ 255 ≤ U8.sumType.hi) := by decide
    exact ⟨by omega, by omega⟩
  · intro i j hij b hb
    cases i <;> cases j <;> simp [output, st, input] at hij hb ⊢ <;> omega

end

end Boof
