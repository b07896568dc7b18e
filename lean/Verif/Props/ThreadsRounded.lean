import Verif.Props.ThreadsCalls
import Verif.Props.RoundedBlocks
import Verif.Props.ThreadsBlur
import Verif.Props.ThreadsMore
import Verif.Model.RoundedGauss
import Verif.Model.RoundedLocal
import Verif.Model.RoundedOtsuFloat
/-
C125 with rounded floating point arithmetic: the block threshold filters of C114 in several threads.
-/
namespace Boof
open M OtsuSpec
variable {V K : Type} [Field K] [LinearOrder K] [IsStrictOrderedRing K] [FloorRing K] {rnd rndD : K → Option K}

theorem computeIR_always {c : ConfigLength K} {x : K} {r : Int} {h : Heap V} (e : (c.computeIR rnd x : M V Int) h = .ok r h) (k : Heap V) :
    (c.computeIR rnd x : M V Int) k = .ok r k := by
  unfold ConfigLength.computeIR at *
  cases e1 : c.computeR rnd x with
  | none => rw [e1] at e; cases e
  | some size =>
    rw [e1] at e
    have e' : ((if size ≥ 0 then do
        let s ← opt (rnd (size + 1/2))
        M.toInt S32 s
      else Pure.pure (-1) : M V Int)) h = .ok r h := e
    show ((if size ≥ 0 then do
        let s ← opt (rnd (size + 1/2))
        M.toInt S32 s
      else Pure.pure (-1) : M V Int)) k = .ok r k
    split at e'
    · rename_i h1
      rw [if_pos h1]
      cases e2 : rnd (size + 1/2) with
      | none => rw [e2] at e'; cases e'
      | some s =>
        rw [e2] at e'
        have e3 : (M.toInt S32 s : M V Int) h = .ok r h := e'
        show (M.toInt S32 s : M V Int) k = .ok r k
        unfold M.toInt at *
        split at e3
        · rename_i h2
          rw [if_pos h2]
          cases e3; rfl
        · cases e3
    · rename_i h1
      rw [if_neg h1]
      cases e'; rfl

section
variable {R W : Nat → Prop}

theorem Steps.scanR (rnd : K → Option K) (hist : GrowArray Int) (sum : K) (n : Nat) :
    Steps R W (ComputeOtsu.scanR rnd hist sum n : M V (ComputeOtsu.Scan K)) := by
  unfold ComputeOtsu.scanR
  dsimp only
  steps

theorem Steps.totalR (rnd : K → Option K) (hist : GrowArray Int) : Steps R W (ComputeOtsu.totalR rnd hist : M V K) := by
  unfold ComputeOtsu.totalR
  steps

theorem Steps.otsuComputeR (rnd : K → Option K) (o : ComputeOtsu K) (hist : GrowArray Int) (n : Nat) :
    Steps R W (o.computeR rnd hist n : M V Int) := by
  unfold ComputeOtsu.computeR ComputeOtsu.computeOtsu2R ComputeOtsu.computeOtsuR
  refine Steps.bind ?_ (fun _ => ?_)
  · split
    · exact Steps.bind (Steps.totalR _ _) (fun _ => Steps.bind (Steps.scanR _ _ _ _) (fun _ => by steps))
    · exact Steps.bind (Steps.totalR _ _) (fun _ => Steps.bind (Steps.scanR _ _ _ _) (fun _ => Steps.pure _))
  · steps
end

theorem BlockOtsu.plainR (rnd : K → Option K) (otsu : ComputeOtsu K) (useLocal : Bool) : (BlockOtsu.opsR rnd otsu useLocal).Plain where
  init := fun _ h => Steps.fill3 h _
  stats := fun {R W st input} x y w ht k h1 h2 h3 => by
    show Steps R W (BlockOtsu.blockStats st x y w ht k input)
    unfold BlockOtsu.blockStats
    steps
  threshold := fun {R W b input output} x y h1 h2 h3 => by
    show Steps R W (BlockOtsu.thresholdBlockWith (fun a T => otsu.computeR rnd a T) otsu.down useLocal b x y input output)
    unfold BlockOtsu.thresholdBlockWith
    dsimp only
    refine Steps.bind ?_ (fun hist => Steps.bind ?_ (fun total => Steps.bind (Steps.otsuComputeR _ _ _ _) (fun _ => ?_)))
    · steps
    · steps
    · steps

/-- `C125_blocks` with rounded arithmetic: block threshold filters in several threads, each with its own filter object and output.  `ops i`
are the functions of the mean, min-max or Otsu filter with rounded arithmetic (`BlockMean.plain`, `BlockMinMax.plain`,
`BlockOtsu.plainR`). -/
theorem C125_rounded_blocks {ι : Type} [DecidableEq ι] {ops : ι → BlockOps V} (ho : ∀ i, (ops i).Plain) {z : V} {config : ι → ConfigLength K}
    {st : ι → Interleaved} {input output : ι → Gray} {f : ι → Nat → Nat → V} {h : Heap V}
    (ha : ∀ i, BlockArgs h (st i) (input i) (output i) (f i)) {req : ι → Nat}
    (h1 : ∀ i, 1 ≤ req i ∧ req i ≤ (input i).width ∧ req i ≤ (input i).height)
    (hr : ∀ i, (config i).computeIR rndD ((min (input i).width (input i).height : Nat) : K) h = .ok (req i : Int) h)
    (hs : ∀ i, (st i).width = Grid.count (input i).width (req i) ∧ (st i).height = Grid.count (input i).height (req i) ∧
      (st i).width * (st i).height * (st i).numBands < P32)
    {a : ι → Blocks} {e : ι → Heap V}
    (he : ∀ i, Blocks.processR rndD (ops i) z (config i) (st i) (input i) (output i) h = .ok (a i) (e i))
    (hd : ∀ i j, i ≠ j → ∀ b, b = (output i).buf ∨ b = (st i).buf → b ≠ (input j).buf ∧ b ≠ (output j).buf ∧ b ≠ (st j).buf) :
    ∃ p : ι → Accesses V Blocks, (∀ i k, (p i).run k = Blocks.processR rndD (ops i) z (config i) (st i) (input i) (output i) k) ∧
      ∃ N : ι → Nat, ∀ s : List ι, ∃ (q : ι → Accesses V Blocks) (h' : Heap V), schedule s p h = some (q, h') ∧ ¬Race q ∧
        (∀ i, N i ≤ s.count i → ∃ r, q i = .done r) ∧
        (∀ i r, q i = .done r → r = a i ∧ ∀ F, (output i).Shows (e i) F → (output i).Shows h' F) ∧
        (∀ b c, (∀ i, b ≠ (output i).buf ∧ b ≠ (st i).buf) → h'.cell b c = h.cell b c) := by
  have key := fun i (k : Heap V) => processR_fixed (rndD := rndD) (ops := ops i) (z := z) (st := st i) (ha i).width (ha i).height (h1 i).2.1
    (ha i).inValid.widthLt (computeIR_always (hr i) k)
  obtain ⟨p, hp, rest⟩ := C125_blocks ho (config := fun i => ConfigLength.fixed (req i : K)) ha h1 (fun i => (key i h).2) hs
    (fun i => (key i h).1 ▸ he i) hd
  exact ⟨p, fun i k => (hp i k).trans (key i k).1.symm, rest⟩

/-- The block mean filter of 8 bit pixels in several threads, with `float` arithmetic: the output of each shows, when its call has returned,
for every pixel whether it is at most the average of the rounded means of the blocks around it (C114), whatever the other threads do. -/
theorem C125_rounded_block_mean {ι : Type} [DecidableEq ι] {useLocal down : Bool} {z : Int} {config : ConfigLength K}
    {st : ι → Interleaved} {input output : ι → Gray} {f : ι → Nat → Nat → Int} {h : Heap Int}
    (ha : ∀ i, BlockArgs h (st i) (input i) (output i) (f i)) (hnb : ∀ i, (st i).numBands = 1)
    {req : ι → Nat} (h1 : ∀ i, 1 ≤ req i ∧ req i ≤ (input i).width ∧ req i ≤ (input i).height)
    (hr : ∀ i, config.computeIR float64 ((min (input i).width (input i).height : Nat) : K) h = .ok (req i : Int) h)
    (hs : ∀ i, (st i).width = Grid.count (input i).width (req i) ∧ (st i).height = Grid.count (input i).height (req i))
    (hf : ∀ k x y, x < (input k).width → y < (input k).height → 0 ≤ f k x y ∧ f k x y ≤ 255)
    (hA : ∀ k i j, i < Grid.count (input k).width (req k) → j < Grid.count (input k).height (req k) →
      blockArea (input k).width (input k).height (req k) i j ≤ 10000)
    (hd : ∀ i j, i ≠ j → ∀ b, b = (output i).buf ∨ b = (st i).buf → b ≠ (input j).buf ∧ b ≠ (output j).buf ∧ b ≠ (st j).buf) :
    ∃ p : ι → Accesses Int Blocks,
      (∀ i k, (p i).run k =
        Blocks.processR float64 (BlockMean.opsR (float32 : K → Option K) U8 1 useLocal down) z config (st i) (input i) (output i) k) ∧
      ∃ N : ι → Nat, ∀ s : List ι, ∃ (q : ι → Accesses Int Blocks) (h' : Heap Int), schedule s p h = some (q, h') ∧ ¬Race q ∧
        (∀ i, N i ≤ s.count i → ∃ r, q i = .done r) ∧
        (∀ k r, q k = .done r → (output k).Shows h' (fun x y =>
          if down = decide (f k x y ≤ localMean useLocal (input k).width (input k).height (req k)
            (fun i j => nearest (blockSum (input k).width (input k).height (req k) (f k) i j)
              (blockArea (input k).width (input k).height (req k) i j))
            (Grid.blockOf (input k).width (req k) x) (Grid.blockOf (input k).height (req k) y)) then 1 else 0)) ∧
        (∀ b c, (∀ i, b ≠ (output i).buf ∧ b ≠ (st i).buf) → h'.cell b c = h.cell b c) := by
  have hm := fun k => C114_mean_u8 (K := K) (useLocal := useLocal) (down := down) (z := z) (config := config) (ha k) (hnb k)
    (h1 k).1 (h1 k).2.1 (h1 k).2.2 (hr k) (hf k) (hA k)
  choose a e he hF using hm
  obtain ⟨p, hp, N, hN⟩ := C125_rounded_blocks (config := fun _ => config) (fun _ => BlockMean.plain U8 _ useLocal down) ha h1 hr
    (fun i => ⟨(hs i).1, (hs i).2, by
      rw [hnb i, (hs i).1, (hs i).2, Nat.mul_one]; exact count_area (ha i).inValid _⟩) he hd
  refine ⟨p, hp, N, fun s => ?_⟩
  obtain ⟨q, h', e1, e2, e3, e4, e5⟩ := hN s
  exact ⟨q, h', e1, e2, e3, fun i r hr => (e4 i r hr).2 _ (fun x y hx hy => (hF i).pix x y hx hy), e5⟩

/-- The two threads of the example before `C125_block_mean` (5x2 pixels, blocks of 2) meet the hypotheses which are not shown there. -/
example (h : Heap Int) : (ConfigLength.fixed (2 : ℚ)).computeIR float64 ((min 5 2 : Nat) : ℚ) h = .ok ((2 : Nat) : Int) h ∧
    (∀ x, x < 5 → ∀ y, y < 2 → (0 : Int) ≤ [1,2,30,10,10, 3,4,10,10,20].getD (y * 5 + x) 0 ∧
      ([1,2,30,10,10, 3,4,10,10,20] : List Int).getD (y * 5 + x) 0 ≤ 255) ∧
    (∀ i, i < Grid.count 5 2 → ∀ j, j < Grid.count 2 2 → blockArea 5 2 2 i j ≤ 10000) :=
  ⟨computeIR_always (h := ⟨[]⟩) (by decide +kernel) h, by decide, by decide +kernel⟩

/-- The block Otsu filter in several threads, with `double` arithmetic: each output shows the comparison of its picture with thresholds
which are near Otsu's, up to rounding errors (C114), whatever the other threads do. -/
theorem C125_rounded_block_otsu {ι : Type} [DecidableEq ι] {otsu2 useLocal down : Bool} {tuning scale : K} (ht : |tuning| ≤ 1) (hs0 : 0 ≤ scale)
    (hs4 : scale ≤ 4) {z : Int} {config : ConfigLength K} {st : ι → Interleaved}
    {input output : ι → Gray} {f : ι → Nat → Nat → Int} {h : Heap Int} (ha : ∀ i, BlockArgs h (st i) (input i) (output i) (f i))
    (hnb : ∀ i, (st i).numBands = 256) {req : ι → Nat} (h1 : ∀ i, 1 ≤ req i ∧ req i ≤ (input i).width ∧ req i ≤ (input i).height)
    (hr : ∀ i, config.computeIR float64 ((min (input i).width (input i).height : Nat) : K) h = .ok (req i : Int) h)
    (hs : ∀ i, (st i).width = Grid.count (input i).width (req i) ∧ (st i).height = Grid.count (input i).height (req i))
    (hf : ∀ k x y, x < (input k).width → y < (input k).height → 0 ≤ f k x y ∧ f k x y ≤ 255)
    (harea : ∀ k, (input k).width * (input k).height < 2147483648)
    (hsize : ∀ k, Grid.count (input k).width (req k) * Grid.count (input k).height (req k) * 256 < 4294967296)
    (hlocal : ∀ k i j, i < Grid.count (input k).width (req k) → j < Grid.count (input k).height (req k) →
      (localHi useLocal (input k).width (req k) i - localLo useLocal (input k).width (req k) i) *
        (localHi useLocal (input k).height (req k) j - localLo useLocal (input k).height (req k) j) ≤ 1048576)
    (hd : ∀ i j, i ≠ j → ∀ b, b = (output i).buf ∨ b = (st i).buf → b ≠ (input j).buf ∧ b ≠ (output j).buf ∧ b ≠ (st j).buf) :
    ∃ (p : ι → Accesses Int Blocks) (th : ι → Nat → Nat → Int),
      (∀ i k, (p i).run k = Blocks.processR float64 (BlockOtsu.opsR float64 (ComputeOtsu.mk otsu2 tuning down scale) useLocal) z config
        (st i) (input i) (output i) k) ∧
      (∀ k i j, i < Grid.count (input k).width (req k) → j < Grid.count (input k).height (req k) →
        NearTuned K otsu2 down tuning scale 256
          ((localHi useLocal (input k).width (req k) i - localLo useLocal (input k).width (req k) i) *
            (localHi useLocal (input k).height (req k) j - localLo useLocal (input k).height (req k) j))
          (fun v => rectCount (f k) v (localLo useLocal (input k).width (req k) i) (localHi useLocal (input k).width (req k) i)
            (localLo useLocal (input k).height (req k) j) (localHi useLocal (input k).height (req k) j)) (th k i j)) ∧
      ∃ N : ι → Nat, ∀ s : List ι, ∃ (q : ι → Accesses Int Blocks) (h' : Heap Int), schedule s p h = some (q, h') ∧ ¬Race q ∧
        (∀ i, N i ≤ s.count i → ∃ r, q i = .done r) ∧
        (∀ i r, q i = .done r → (output i).Shows h' (fun x y => if down = decide (f i x y ≤ th i (Grid.blockOf (input i).width (req i) x)
          (Grid.blockOf (input i).height (req i) y)) then 1 else 0)) ∧
        (∀ b c, (∀ i, b ≠ (output i).buf ∧ b ≠ (st i).buf) → h'.cell b c = h.cell b c) := by
  have hm := fun k => C114_otsu (otsu2 := otsu2) (useLocal := useLocal) (down := down) ht hs0 hs4 (z := z) (config := config) (ha k) (hnb k)
    (h1 k).1 (h1 k).2.1 (h1 k).2.2 (hr k) (hf k) (harea k) (hsize k) (hlocal k)
  choose a e S th he hO hF using hm
  obtain ⟨p, hp, N, hN⟩ := C125_rounded_blocks (config := fun _ => config)
    (fun _ => BlockOtsu.plainR float64 (ComputeOtsu.mk otsu2 tuning down scale) useLocal) ha h1 hr
    (fun i => ⟨(hs i).1, (hs i).2, by rw [hnb i, (hs i).1, (hs i).2]; exact hsize i⟩) he hd
  refine ⟨p, th, hp, hO, N, fun s => ?_⟩
  obtain ⟨q, h', e1, e2, e3, e4, e5⟩ := hN s
  exact ⟨q, h', e1, e2, e3, fun i r hr => (e4 i r hr).2 _ (fun x y hx hy => (hF i).pix x y hx hy), e5⟩

/-- The two threads of the last example of Props/ThreadsCalls.lean (2x1 pixels, blocks of 1, 256 bands) meet the hypotheses which are not
shown there. -/
example (h : Heap Int) : |(0 : ℚ)| ≤ 1 ∧ (0 : ℚ) ≤ 1 ∧ (1 : ℚ) ≤ 4 ∧
    (ConfigLength.fixed (1 : ℚ)).computeIR float64 ((min 2 1 : Nat) : ℚ) h = .ok ((1 : Nat) : Int) h ∧
    (∀ useLocal, ∀ i, i < Grid.count 2 1 → ∀ j, j < Grid.count 1 1 →
      (localHi useLocal 2 1 i - localLo useLocal 2 1 i) * (localHi useLocal 1 1 j - localLo useLocal 1 1 j) ≤ 1048576) :=
  ⟨by norm_num, by norm_num, by norm_num, computeIR_always (h := ⟨[]⟩) (by decide +kernel) h, by decide +kernel⟩

/-! ## Blurs, local mean and global Otsu thresholds -/

section
variable {R W : Nat → Prop}

theorem Steps.normalizeR (rnd : K → Option K) (k : Kernel K) : Steps R W (FactoryKernel.normalizeR rnd k : M V (Kernel K)) := by
  unfold FactoryKernel.normalizeR; steps

theorem Steps.mean1DR (rnd : K → Option K) (E : GrowArray.Elem K) (n : Nat) : Steps R W (FactoryKernel.mean1DR rnd E n : M V (Kernel K)) :=
  (Steps.table1D E 1 n).bind (fun k => Steps.normalizeR rnd k)

theorem Steps.meanR_returns (rnd : K → Option K) (E : GrowArray.Elem K) {input output storage : Gray} (r : Nat) (hi : R input.buf)
    (hr : R storage.buf) (ho : W output.buf) (hs : W storage.buf) (ow : output.width = input.width) (oh : output.height = input.height)
    (sw : storage.width = input.width) (sh : storage.height = input.height) :
    ∃ m : M K Unit, Steps R W m ∧ BlurImageOps.meanR rnd E input output r storage = m >>= fun _ => Pure.pure (output, storage) :=
  Steps.mean_returns 0 r (Steps.mean_h _ hi hs _ (Steps.mean1DR rnd E) (fun k => Steps.norm_hF _ k hi hs) r)
    (Steps.mean_v _ hr ho _ (Steps.mean1DR rnd E) (fun k => Steps.norm_vF _ k hr ho) r) ow oh sw sh

theorem Steps.gaussian1DR (rnd rndE : K → Option K) (E : GrowArray.Elem K) (ex : K → K) (c sigma : K) (width : Int) :
    Steps R W (FactoryKernel.gaussian1DR rnd rndE E ex c sigma width : M V (Kernel K)) := by
  have h1 := Steps.normalizeR (V := V) (R := R) (W := W) rndE
  unfold FactoryKernel.gaussian1DR FactoryKernel.radiusForSigmaR FactoryKernel.sigmaForRadiusR FactoryKernel.spreadR
    FactoryKernel.computePDFR Kernel1D.newWidth Kernel1D.new
  dsimp only
  steps <;> exact h1 _

theorem Steps.gaussian1DIntR (rnd : K → Option K) (E : GrowArray.Elem K) (EI : GrowArray.Elem Int) (t : IntTy) (ex : K → K) (c sigma : K)
    (width : Int) : Steps R W (FactoryKernel.gaussian1DIntR rnd E EI t ex c sigma width : M V (Kernel Int)) := by
  refine (Steps.gaussian1DR rnd rnd E ex c sigma width).bind (fun k => ?_)
  unfold FactoryKernel.floatToInt1DR FactoryKernel.quantumR Kernel.elementAbsMax Kernel.elementAbsMin Kernel.scanElems Kernel1D.new
  steps

theorem Steps.computeIR (rnd : K → Option K) (c : ConfigLength K) (n : K) : Steps R W (c.computeIR rnd n : M V Int) := by
  unfold ConfigLength.computeIR; steps

theorem Steps.localMeanR (rnd rndD : K → Option K) (z : V) {blur : Gray → Gray → Nat → Gray → M V (Gray × Gray)} (conv : V → Option K)
    (bit : Bool → V) {input output storage1 storage2 : Gray} (width : ConfigLength K) (scale : K) (down : Bool) (hi : R input.buf)
    (hr : R storage1.buf) (ho : W output.buf)
    (hb : ∀ r, ∃ m : M V Unit, Steps R W m ∧ blur input storage1 r storage2 = m >>= fun _ => Pure.pure (storage1, storage2))
    (ow : output.width = input.width) (oh : output.height = input.height)
    (w1 : storage1.width = input.width) (h1 : storage1.height = input.height)
    (w2 : storage2.width = input.width) (h2 : storage2.height = input.height) :
    Steps R W (ThresholdOps.localMeanR rnd rndD z blur conv bit input output width scale down storage1 storage2) := by
  unfold ThresholdOps.localMeanR
  rw [reshape_same ow oh, reshape_same w1 h1, reshape_same w2 h2, M.pure_after, M.pure_after, M.pure_after]
  choose m hm em using hb
  simp only [em]
  have assoc : ∀ {α β γ : Type} (m : M V α) (f : α → M V β) (g : β → M V γ), ((m >>= f) >>= g) = m >>= fun a => f a >>= g := by
    intro α β γ m f g
    funext h
    show M.bind (M.bind m f) g h = M.bind m (fun a => M.bind (f a) g) h
    unfold M.bind
    cases m h <;> rfl
  simp only [assoc, M.pure_after]
  refine Steps.bind (Steps.computeIR _ _ _) (fun _ => Steps.bind (hm _) (fun _ => ?_))
  steps
end

/-- `BlurImageOps::mean` for floating point pixels with rounding, output and storage of the right size -/
theorem C125_rounded_mean (rnd : K → Option K) (E : GrowArray.Elem K)
    {input output storage : Gray} {f F : Nat → Nat → K} (r : Nat) (ow : output.width = input.width) (oh : output.height = input.height)
    (sw : storage.width = input.width) (sh : storage.height = input.height) :
    ∃ p, (Job.mk (do let p ← BlurImageOps.meanR rnd E input output r storage; pure p.1) [(input, f)] [output, storage]
      input.width input.height F).Is p := by
  refine Steps.job (Steps.bind ?_ (fun _ => Steps.pure _))
  obtain ⟨m, hm, e⟩ := Steps.meanR_returns rnd E (R := Job.Reads (Job.mk (do let p ← BlurImageOps.meanR rnd E input output r storage; pure p.1)
    [(input, f)] [output, storage] input.width input.height F)) (W := fun b => ∃ u, u ∈ [output, storage] ∧ b = u.buf)
    r (Or.inl ⟨(input, f), List.mem_singleton.2 rfl, rfl⟩) (Or.inr ⟨storage, by simp, rfl⟩) ⟨output, by simp, rfl⟩ ⟨storage, by simp, rfl⟩
    ow oh sw sh
  rw [e]
  exact hm.bind (fun _ => Steps.pure _)

/-- `BlurImageOps::gaussian` with rounding, output and storage of the right size: floating point and integral pixels -/
theorem C125_rounded_gaussian (rnd rndE : K → Option K) (E : GrowArray.Elem K) (EI : GrowArray.Elem Int) (t : IntTy) (ex : K → K) (c0 sigma : K)
    (width : Int) {input output storage : Gray} (ow : output.width = input.width) (oh : output.height = input.height)
    (sw : storage.width = input.width) (sh : storage.height = input.height) :
    (∀ f F, ∃ p, (Job.mk (do let p ← BlurImageOps.gaussianFloatR rnd rndE E ex c0 input output sigma width storage; pure p.1) [(input, f)]
      [output, storage] input.width input.height F).Is p) ∧
    ∀ f F, ∃ p, (Job.mk (do let p ← BlurImageOps.gaussianIntR t rnd E EI ex c0 input output sigma width storage; pure p.1) [(input, f)]
      [output, storage] input.width input.height F).Is p := by
  have ho : ∃ u, u ∈ [output, storage] ∧ output.buf = u.buf := ⟨output, by simp, rfl⟩
  have hs : ∃ u, u ∈ [output, storage] ∧ storage.buf = u.buf := ⟨storage, by simp, rfl⟩
  refine ⟨fun f F => Steps.job (Steps.bind ?_ (fun _ => Steps.pure _)), fun f F => Steps.job (Steps.bind ?_ (fun _ => Steps.pure _))⟩
  · have hi : Job.Reads (Job.mk (do let p ← BlurImageOps.gaussianFloatR rnd rndE E ex c0 input output sigma width storage; pure p.1) [(input, f)]
      [output, storage] input.width input.height F) input.buf := Or.inl ⟨(input, f), List.mem_singleton.2 rfl, rfl⟩
    exact Steps.gaussian 0 (Steps.gaussian1DR ..) (fun k => Steps.norm_hF _ k hi hs)
      (fun k => Steps.norm_vF _ k (Or.inr ⟨storage, by simp, rfl⟩) ho) ow oh sw sh
  · have hi : Job.Reads (Job.mk (do let p ← BlurImageOps.gaussianIntR t rnd E EI ex c0 input output sigma width storage; pure p.1) [(input, f)]
      [output, storage] input.width input.height F) input.buf := Or.inl ⟨(input, f), List.mem_singleton.2 rfl, rfl⟩
    exact Steps.gaussian 0 (Steps.gaussian1DIntR ..) (fun k => Steps.norm_h _ k hi hs)
      (fun k => Steps.norm_v _ k (Or.inr ⟨storage, by simp, rfl⟩) ho) ow oh sw sh

/-- `ThresholdOps::localMean` with rounding, output and storage of the right size: integral and floating point pixels -/
theorem C125_rounded_localMean (rnd rndD rndE : K → Option K) (E : GrowArray.Elem K) (EI : GrowArray.Elem Int) (t : IntTy)
    (conv : Int → Option K) (convF : K → Option K) {input output storage1 storage2 : Gray}
    (width : ConfigLength K) (scale : K) (down : Bool) (ow : output.width = input.width) (oh : output.height = input.height)
    (w1 : storage1.width = input.width) (h1 : storage1.height = input.height)
    (w2 : storage2.width = input.width) (h2 : storage2.height = input.height) :
    (∀ f F, ∃ p, (Job.mk (do
        let p ← ThresholdOps.localMeanR rnd rndD 0 (fun a b r s => BlurImageOps.meanInt t EI a b r s) conv
          (fun b => if b then 1 else 0) input output width scale down storage1 storage2
        pure p.1) [(input, f)] [output, storage1, storage2] input.width input.height F).Is p) ∧
    ∀ f F, ∃ p, (Job.mk (do
        let p ← ThresholdOps.localMeanR rnd rndD 0 (fun a b r s => BlurImageOps.meanR rndE E a b r s) convF
          (fun b => if b then 1 else 0) input output width scale down storage1 storage2
        pure p.1) [(input, f)] [output, storage1, storage2] input.width input.height F).Is p := by
  have ho : ∃ u, u ∈ [output, storage1, storage2] ∧ output.buf = u.buf := ⟨output, by simp, rfl⟩
  have k1 : ∃ u, u ∈ [output, storage1, storage2] ∧ storage1.buf = u.buf := ⟨storage1, by simp, rfl⟩
  have k2 : ∃ u, u ∈ [output, storage1, storage2] ∧ storage2.buf = u.buf := ⟨storage2, by simp, rfl⟩
  refine ⟨fun f F => Steps.job (Steps.bind ?_ (fun _ => Steps.pure _)), fun f F => Steps.job (Steps.bind ?_ (fun _ => Steps.pure _))⟩
  · exact Steps.localMeanR rnd rndD 0 _ _ width scale down (Or.inl ⟨(input, f), List.mem_singleton.2 rfl, rfl⟩)
      (Or.inr ⟨storage1, by simp, rfl⟩) ho
      (fun r => Steps.meanInt_returns t EI r (Or.inl ⟨(input, f), List.mem_singleton.2 rfl, rfl⟩) (Or.inr ⟨storage2, by simp, rfl⟩) k1 k2
        w1 h1 w2 h2) ow oh w1 h1 w2 h2
  · exact Steps.localMeanR rnd rndD 0 _ _ width scale down (Or.inl ⟨(input, f), List.mem_singleton.2 rfl, rfl⟩)
      (Or.inr ⟨storage1, by simp, rfl⟩) ho
      (fun r => Steps.meanR_returns rndE E r (Or.inl ⟨(input, f), List.mem_singleton.2 rfl, rfl⟩) (Or.inr ⟨storage2, by simp, rfl⟩) k1 k2
        w1 h1 w2 h2) ow oh w1 h1 w2 h2

/-- `GlobalOtsuBinaryFilter::process` with rounding: integral pixels -/
theorem C125_rounded_otsu (rnd : K → Option K) (t : IntTy) (junk : Nat → Int) (lo hi : Int) (down : Bool) {input output : Gray}
    {f F : Nat → Nat → Int} (ew : output.width = input.width) (eh : output.height = input.height) :
    ∃ p, (Job.mk (ThresholdOps.globalOtsuR rnd t junk lo hi down input output) [(input, f)] [output] input.width input.height F).Is p := by
  have hi' : Job.Reads (Job.mk (ThresholdOps.globalOtsuR rnd t junk lo hi down input output) [(input, f)] [output] input.width
    input.height F) input.buf := Or.inl ⟨(input, f), List.mem_singleton.2 rfl, rfl⟩
  refine Steps.job (Steps.bind ?_ (fun thr => Steps.threshold _ _ _ _ _ _ hi' ⟨output, List.mem_singleton.2 rfl, rfl⟩ ew eh))
  unfold ThresholdOps.computeOtsuR
  refine Steps.bind (Steps.arith _ _) (fun _ => Steps.bind (Steps.arith _ _) (fun _ => Steps.bind ?_ (fun a =>
    Steps.bind (Steps.histogram t hi' lo a) (fun b => Steps.bind (Steps.otsuComputeR rnd _ b _) (fun _ => Steps.toInt _ _)))))
  split
  · exact Steps.pure _
  · exact Steps.ub

/-- The hypotheses of these theorems are about sizes only: a picture of 3x2 pixels, and an output and a storage of that size. -/
example : let a : Gray := ⟨0, 6, 3, 2, 0, 3, false⟩
    let o : Gray := ⟨1, 8, 3, 2, 1, 3, true⟩
    let s : Gray := ⟨2, 6, 3, 2, 0, 3, false⟩
    o.width = a.width ∧ o.height = a.height ∧ s.width = a.width ∧ s.height = a.height := by decide

end Boof
